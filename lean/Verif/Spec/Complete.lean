/-
Specification vocabulary for the completeness of verification: what makes a signature valid, in terms of keys, digests, the path
validator and the trusted stores alone.
-/
import Verif.Spec.Errors
import Verif.Spec.PEFile

set_option autoImplicit false

namespace Signify.Spec

open Signify

/-- The chain is a valid path for the certificate in the context: the path validator, asked with the certificates of the trusted
stores as anchors and those of the other stores as intermediates, answers with it; its members are certificates in question; and a
trusted store accepts it.  Stores are taken as they are once read. -/
structure ValidPath (env : Env) (w : World) (ctx : Ctx) (c : Cert) (chain : List Cert) : Prop where
  answer : env.validate (requestFor (loadedWorld w) ctx c) = .ok (chain.map Cert.obj)
  members : ∀ d ∈ chain, d = c ∨ ∃ r ∈ ctx.stores, d ∈ certsOf (loadedWorld w) r
  anchored : ∃ r ∈ ctx.stores, StoreAccepts env (loadedWorld w) r chain ctx.ekus.elems (ctx.timestamp.getD env.now)

/-- An ordinary context: its stores behave, the certificates in them can be named in messages, its usages are no one-shot iterators,
and an ASN.1 object stands for one certificate. -/
structure Ordinary (w : World) (ctx : Ctx) : Prop where
  stores : StoresBehave w ctx.stores
  names : NamesPrint w ctx.stores
  keyUsages : ∀ g, ctx.keyUsages ≠ .gen g
  ekus : ∀ g, ctx.ekus ≠ .gen g
  objects : ∀ d ∈ ctx.stores.flatMap (certsOf (loadedWorld w)), ∀ e ∈ ctx.stores.flatMap (certsOf (loadedWorld w)), d.obj = e.obj → d = e

/-- The SignerInfo holds in the context: one of the candidates made the signature and has a valid path. -/
def SignerHolds (env : Env) (w : World) (ctx : Ctx) (s : Signer) : Prop :=
  ∃ cands c chain, Candidates w ctx s cands ∧ c ∈ cands ∧
    ValidSignature env c s.encryptedDigest s.encodedAuth s.digestAlg ctx.allowLegacy ∧ ValidPath env w ctx c chain

/-- Likewise for the signer of a file, at the time `t` if one is given.  The time does not count for a lifetime signing certificate (unless
a candidate tried before it made the signature as well, and is no lifetime signing certificate: see C32). -/
def FileSignerHolds (env : Env) (w : World) (ctx : Ctx) (s : Signer) (t : Option Int) : Prop :=
  ∃ pre c post chain time, Candidates w ctx s (pre ++ c :: post) ∧
    ValidSignature env c s.encryptedDigest s.encodedAuth s.digestAlg ctx.allowLegacy ∧
    ((∃ d ∈ pre ++ [c], ValidSignature env d s.encryptedDigest s.encodedAuth s.digestAlg ctx.allowLegacy ∧ ¬ LifetimeSigning d) →
      time = t.or ctx.timestamp) ∧
    ((∀ d ∈ pre ++ [c], ValidSignature env d s.encryptedDigest s.encodedAuth s.digestAlg ctx.allowLegacy → LifetimeSigning d) →
      time = ctx.timestamp) ∧
    ValidPath env w { ctx with timestamp := time } c chain

/-- The countersignature holds: it covers the signature value, and its signer holds at the time it states. -/
def CounterHolds (env : Env) (w : World) (a : AuthData) (args : VerifyArgs) : CounterSigner → Prop
  | .pkcs9 i =>
    i.signer.messageDigest = some (env.hash i.signer.digestAlg a.signer.encryptedDigest) ∧
    SignerHolds env w { counterContext w a (.pkcs9 i) args with timestamp := i.signer.signingTime } i.signer
  | .rfc3161 r =>
    r.tst.messageDigest = env.hash r.tst.hashAlg a.signer.encryptedDigest ∧
    r.signer.messageDigest = some (env.hash r.core.digestAlg r.core.content) ∧
    SignerHolds env w { counterContext w a (.rfc3161 r) args with timestamp := some r.tst.signingTime } r.signer

/-- The signature holds: digests agree, and the signer holds at the time of the countersignature if there is one that holds (and that
is not ignored), else without a time; a countersignature that does not hold is tolerated only outside the mode 'strict'. -/
def SignatureHolds (env : Env) (file : Option Bytes) (w : World) (a : AuthData) (args : VerifyArgs) : Prop :=
  DigestsAgree env file a args.expectedHash ∧
  ((a.counter = none ∨ args.countersignatureMode = "ignore") ∧ FileSignerHolds env w (signerContext w a args) a.signer none ∨
   ∃ c, a.counter = some c ∧ args.countersignatureMode ≠ "ignore" ∧
    (CounterHolds env w a args c ∧ FileSignerHolds env w (signerContext w a args) a.signer c.signingTime ∨
     ¬ CounterHolds env w a args c ∧ args.countersignatureMode ≠ "strict" ∧
      FileSignerHolds env w (signerContext w a args) a.signer none))

/-- The contexts used to verify a signature are ordinary. -/
structure OrdinaryCall (w : World) (a : AuthData) (args : VerifyArgs) : Prop where
  exist : ContextsExist w args
  separate : SeparateContexts args
  signer : Ordinary w (signerContext w a args)
  counter : ∀ c, a.counter = some c → Ordinary w (counterContext w a c args)

/-- The signature, as one of those of the file, holds. -/
def HoldsInFile (env : Env) (file : Bytes) (provided : Dict String Bytes) (kwargs : VerifyArgs) (w : World) (a : ASD) : Prop :=
  ∃ d, DigestFor env file provided a.d.core.digestAlg d ∧ SignatureHolds env (some file) w a.d { kwargs with expectedHash := some d }

end Signify.Spec
