/-
Specification vocabulary for keyword arguments (C103).
-/
import Verif.Model.Keywords
import Verif.Spec.PEFile

set_option autoImplicit false

namespace Signify.Spec

open Signify

/-- The arguments that a caller of `SignedPEFile.verify` may give, besides `multi_verify_mode`, `expected_hashes` and
`ignore_parse_errors`. -/
def KnownArguments (names : List String) : Prop :=
  ∀ n ∈ names, n = "verification_context" ∨ n = "cs_verification_context" ∨ n = "trusted_certificate_store" ∨
    n = "verification_context_kwargs" ∨ n = "countersignature_mode"

/-- The arguments that a caller of `AuthenticodeSignedData.verify` may give. -/
def DirectArguments (names : List String) : Prop :=
  ∀ n ∈ names, n = "expected_hash" ∨ n = "verification_context" ∨ n = "cs_verification_context" ∨ n = "trusted_certificate_store" ∨
    n = "verification_context_kwargs" ∨ n = "countersignature_mode"

/-- The options of a context that a caller of `verify` may give. -/
def KnownOptions (options : List String) : Prop :=
  ∀ n ∈ options, n = "timestamp" ∨ n = "key_usages" ∨ n = "optional_eku" ∨ n = "allow_legacy" ∨ n = "revocation_mode" ∨
    n = "allow_fetching" ∨ n = "fetch_timeout" ∨ n = "crls" ∨ n = "ocsps"

/-- The call makes a context: for the signer unless one is given, for the countersigner if there is one that is looked at and no context
is given for it. -/
def MakesContext (a : AuthData) (args : VerifyArgs) : Prop :=
  args.context = none ∨ (args.csContext = none ∧ a.counter ≠ none ∧ args.countersignatureMode ≠ "ignore")

/-- The call for this signature cannot be made: an argument is not one of those above, or an option is not and a context has to be made. -/
def Impossible (kw : Keywords) (a : AuthData) (args : VerifyArgs) : Prop :=
  ¬ KnownArguments kw.names ∨ (¬ KnownOptions kw.options ∧ MakesContext a args)

/-- Attempts on signatures one after the other, as in `Attempts`; for those where the call cannot be made the outcome is a TypeError, with
no effects. -/
inductive AttemptsKw (env : Env) (file : Bytes) (provided : Dict String Bytes) (kw : Keywords) (kwargs : VerifyArgs) :
    World → List (ASD × Except Exc (List (List Cert))) → World → Prop where
  | nil (w : World) : AttemptsKw env file provided kw kwargs w [] w
  | made (a : ASD) (d : Bytes) (w w' : World) (l : List (ASD × Except Exc (List (List Cert)))) :
      ¬ Impossible kw a.d kwargs → DigestFor env file provided a.d.core.digestAlg d →
      AttemptsKw env file provided kw kwargs (asdVerify env (some file) a.d { kwargs with expectedHash := some d } w).2 l w' →
      AttemptsKw env file provided kw kwargs w
        ((a, (asdVerify env (some file) a.d { kwargs with expectedHash := some d } w).1) :: l) w'
  | impossible (a : ASD) (e : Exc) (w w' : World) (l : List (ASD × Except Exc (List (List Cert)))) :
      Impossible kw a.d kwargs → e.cls = .typeError →
      AttemptsKw env file provided kw kwargs w l w' → AttemptsKw env file provided kw kwargs w ((a, .error e) :: l) w'

/-- Names that no call of `explain_verify` can be given. -/
def Unmentionable (n : String) : Prop := n = "self" ∨ n = "cls" ∨ n = "function"

/-- The call raises a TypeError and leaves everything as it was. -/
def RaisesTypeError {α : Type} (f : M α) (w : World) : Prop := ∃ e, e.cls = .typeError ∧ f w = (.error e, w)

instance (l : List String) : Decidable (KnownArguments l) := by unfold KnownArguments; infer_instance
instance (l : List String) : Decidable (DirectArguments l) := by unfold DirectArguments; infer_instance
instance (l : List String) : Decidable (KnownOptions l) := by unfold KnownOptions; infer_instance
instance (n : String) : Decidable (Unmentionable n) := by unfold Unmentionable; infer_instance

end Signify.Spec
