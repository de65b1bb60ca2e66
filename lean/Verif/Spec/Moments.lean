/-
The passing of time during a call (C100).
-/
import Verif.Spec.Clock
import Verif.Spec.PEFile
import Verif.Model.Moments

set_option autoImplicit false

namespace Signify.Spec

/-- Throughout one call of `VerificationContext.verify` the surroundings are those of `env`, as far as it matters to the stores in `w`:
hash functions and keys are the same, the path validator answers every request as it does in `env`, and no date in the trust list of a
store from which on a root is disallowed lies between the time of `env` and the time at which the list is consulted. -/
structure Quiet (env : Env) (w : World) (m : Moments) : Prop where
  hash : m.start.hash = env.hash
  accepts : m.start.mkValidator = env.mkValidator
  answers : m.start.validate = env.validate
  lists : ∀ i ctl entry t n, (w.stores i).ctl = some ctl → entry ∈ ctl.subjects → entry.2.disallowedTime = some t →
    (t ≤ m.clock n ↔ t ≤ env.now)

/-- The clock does not go back during the call. -/
def Forward (m : Moments) : Prop := ∀ n, m.start.now ≤ m.clock n

/-- The clock throughout one call of `VerificationContext.verify` is that of one moment. -/
def Moments.frozen (env : Env) : Moments := { start := env, clock := fun _ => env.now }

/-- All chains given come from a certificate that signed the SignerInfo, and each has been validated for the time `t`, or, without one,
for the moment at which the verification of that certificate began. -/
def AllValidatedAt (env : Env) (m : Cert → Moments) (w : World) (ctx : Ctx) (s : Signer) (t : Option Int) (chains : List (List Cert)) : Prop :=
  ∀ chain ∈ chains, ∃ c, SignedBy env w ctx s c ∧ Validated (m c).start w ctx t c chain

/-- A countersignature is good (`CounterGood`), where its signer was verified at the moments `m`. -/
structure CounterGoodAt (env : Env) (m : Cert → Moments) (w : World) (ctx : Ctx) (data : Bytes) (c : CounterSigner) : Prop where
  pkcs9 : ∀ i, c = .pkcs9 i →
    i.signer.messageDigest = some (env.hash i.signer.digestAlg data) ∧
    ∃ chains, chains ≠ [] ∧ AllValidatedAt env m w ctx i.signer i.signer.signingTime chains
  rfc3161 : ∀ r, c = .rfc3161 r →
    r.tst.messageDigest = env.hash r.tst.hashAlg data ∧
    r.signer.messageDigest = some (env.hash r.core.digestAlg r.core.content) ∧
    ∃ chains, chains ≠ [] ∧ AllValidatedAt env m w ctx r.signer (some r.tst.signingTime) chains

/-- Verification of some signatures one after the other (`Attempts`) while time passes, `k` further signatures not being tried.  `m n` has
the moments at which a signature is verified while `n` further ones remain. -/
inductive AttemptsAt (env : Env) (m : Nat → SignatureMoments) (file : Bytes) (provided : Dict String Bytes) (kwargs : VerifyArgs) (k : Nat) :
    World → List (ASD × Except Exc (List (List Cert))) → World → Prop where
  | nil (w : World) : AttemptsAt env m file provided kwargs k w [] w
  | cons (a : ASD) (d : Bytes) (w w1 w' : World) (r : Except Exc (List (List Cert))) (l : List (ASD × Except Exc (List (List Cert)))) :
      DigestFor env file provided a.d.core.digestAlg d →
      asdVerifyT env (m (l.length + k)) (some file) a.d { kwargs with expectedHash := some d } w = (r, w1) →
      AttemptsAt env m file provided kwargs k w1 l w' → AttemptsAt env m file provided kwargs k w ((a, r) :: l) w'

end Signify.Spec
