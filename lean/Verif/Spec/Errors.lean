/-
Specification vocabulary for the exceptions that verification can raise.
-/
import Verif.Model.PEFile
import Verif.Spec.Verify

set_option autoImplicit false

namespace Signify.Spec

open Signify

/-- Exceptions that verification with the given stores passes on unchanged (or provokes) although they are no refusals: a store that
cannot be read, a trust list for an algorithm that is not supported, a certificate that is to be named in an error message although its name has a
value that is not text, a public key or a validator that cannot be made, or an answer of
the validator that is no chain of the certificates in question. -/
inductive Leak (env : Env) (w : World) (stores : List StoreRef) : Exc → Prop where
  | store (i : Nat) (certs : List Cert) (e : Exc) : .heap i ∈ stores → (w.stores i).pending = some (certs, some e) → Leak env w stores e
  | trustList (i : Nat) (ctl : CTL) (msg : String) : .heap i ∈ stores → (w.stores i).trusted = true → (w.stores i).ctl = some ctl →
      ctl.algorithm ≠ "sha1" → ctl.algorithm ≠ "sha256" → Leak env w stores ⟨.ctlParseError, msg⟩
  | name (r : StoreRef) (c : Cert) (msg : String) : r ∈ stores → c ∈ certsOf (loadedWorld w) r → ¬ Textual c.subject →
      Leak env w stores ⟨.typeError, msg⟩
  | key (spki : SPKI) (e : Exc) : env.loadKey spki = .error e → Leak env w stores e
  | validator (r : ValReq) (e : Exc) : env.mkValidator r = .error e → Leak env w stores e
  | stranger (r : ValReq) (chain : List Nat) (x : Nat) (msg : String) : env.validate r = .ok chain → x ∈ chain → x ≠ r.endEntity →
      x ∉ r.trustRoots → x ∉ r.intermediates → Leak env w stores ⟨.keyError, msg⟩
  | emptyChain (r : ValReq) (msg : String) : env.validate r = .ok [] → Leak env w stores ⟨.indexError, msg⟩

/-- The third-party libraries behave: public keys and validators can be made, and the validator answers with non-empty chains of the
certificates it has been given. -/
structure LibrariesBehave (env : Env) : Prop where
  keys : ∀ spki e, env.loadKey spki ≠ .error e
  validators : ∀ r e, env.mkValidator r ≠ .error e
  nonempty : ∀ r, env.validate r ≠ .ok []
  known : ∀ r chain x, env.validate r = .ok chain → x ∈ chain → x = r.endEntity ∨ x ∈ r.trustRoots ∨ x ∈ r.intermediates

/-- The stores behave: they can be read, and their trust lists are for one of the supported algorithms. -/
structure StoresBehave (w : World) (stores : List StoreRef) : Prop where
  readable : ∀ i certs e, .heap i ∈ stores → (w.stores i).pending = some (certs, e) → e = none
  lists : ∀ i ctl, .heap i ∈ stores → (w.stores i).ctl = some ctl → ctl.algorithm = "sha1" ∨ ctl.algorithm = "sha256"

/-- The certificates in the stores can be named: the first attributes of the RDNs of their subjects are text. -/
def NamesPrint (w : World) (stores : List StoreRef) : Prop :=
  ∀ r ∈ stores, ∀ c ∈ certsOf (loadedWorld w) r, Textual c.subject

/-- The stores used by a call of `AuthenticodeSignedData.verify`, for the signer. -/
def signerStores (w : World) (a : AuthData) (args : VerifyArgs) : List StoreRef := (signerContext w a args).stores

/-- The classes of the refusals of `AuthenticodeSignedData.verify`. -/
def refusals : List ExcClass :=
  [.certificateVerificationError, .ctlCertificateVerificationError, .signerInfoVerificationError,
   .authenticodeInconsistentDigest, .authenticodeInvalidDigest, .authenticodeCounterSigner]

/-- `issubclass(c, d)`, from the `class` statements. -/
inductive Subclass : ExcClass → ExcClass → Prop where
  | refl (c : ExcClass) : Subclass c c
  | base (c p d : ExcClass) : c.parent = some p → Subclass p d → Subclass c d

/-- The results of `explain_verify` and the exceptions they stand for. -/
def resultFor : List (ExcClass × VResult) :=
  [(.parseError, .parseError), (.verificationError, .verifyError), (.certificateVerificationError, .certificateError),
   (.signedPEParseError, .notSigned), (.authenticodeNotSigned, .notSigned), (.authenticodeInvalidDigest, .invalidDigest),
   (.authenticodeInconsistentDigest, .inconsistentDigestAlgorithm), (.authenticodeCounterSigner, .counterSignerError),
   (.exception, .unknownError)]

/-- `r` is the result of the most specific class in the table that the exception is an instance of. -/
def Documented (c : ExcClass) (r : VResult) : Prop :=
  ∃ d, (d, r) ∈ resultFor ∧ Subclass c d ∧ ∀ d' r', (d', r') ∈ resultFor → Subclass c d' → Subclass d d'

end Signify.Spec
