/-
Specification vocabulary for candidates tried one after the other with one context object (C35).
-/
import Verif.Spec.Verify

set_option autoImplicit false

namespace Signify.Spec

open Signify

/-- Calling `f` with a context object in the state `ctx`, the stores being as in `w`, has the outcome `r` and leaves the context object in
the state `ctx'`. -/
def InContextTo {α : Type} (w : World) (ctx : Ctx) (f : Nat → M α) (r : Except Exc α) (ctx' : Ctx) : Prop :=
  ∃ i v, v.stores = w.stores ∧ v.ctxs i = ctx ∧ (f i v).1 = r ∧ (f i v).2.ctxs i = ctx'

/-- What is left of a context whose usages have been read once. -/
def _root_.Signify.Ctx.usedUp (ctx : Ctx) : Ctx := { ctx with keyUsages := ctx.keyUsages.consumed, ekus := ctx.ekus.consumed }

/-- The candidates are tried in this order with these outcomes, the first of them with the context object in the state `ctx`: one that did
not make the signature is refused and leaves the context as it is; any other is verified with the context, at the time `t` if this is
given and the candidate is not exempt, and the next one finds the context in the state that this leaves. -/
inductive Trials (env : Env) (w : World) (s : Signer) (t : Option Int) (exempt : Cert → Prop) :
    Ctx → List (Cert × Except Exc (List Cert)) → Prop where
  | done (ctx : Ctx) : Trials env w s t exempt ctx []
  | refused (ctx : Ctx) (c : Cert) (e : Exc) (os : List (Cert × Except Exc (List Cert))) :
      ¬ ValidSignature env c s.encryptedDigest s.encodedAuth s.digestAlg ctx.allowLegacy →
      (e.cls = .signerInfoVerificationError ∧ Textual c.subject) ∨ (e.cls = .typeError ∧ ¬ Textual c.subject) ∨
        (e.is .verificationError = false ∧ env.loadKey c.spki = .error e) →
      Trials env w s t exempt ctx os → Trials env w s t exempt ctx ((c, .error e) :: os)
  | verified (ctx ctx' : Ctx) (c : Cert) (o : Except Exc (List Cert)) (os : List (Cert × Except Exc (List Cert))) (t' : Option Int) :
      ValidSignature env c s.encryptedDigest s.encodedAuth s.digestAlg ctx.allowLegacy →
      (exempt c ∧ t' = none) ∨ (¬ exempt c ∧ t' = t) →
      InContextTo w { ctx with timestamp := t'.or ctx.timestamp } (fun i => ctxVerify env i c) o ctx' →
      Trials env w s t exempt ctx' os → Trials env w s t exempt ctx ((c, o) :: os)

/-- The exception of a candidate that did not make the signature and cannot be refused with a VerificationError. -/
def BadRefusal (env : Env) (s : Signer) (legacy : Bool) (c : Cert) (e : Exc) : Prop :=
  ¬ ValidSignature env c s.encryptedDigest s.encodedAuth s.digestAlg legacy ∧
    ((e.cls = .typeError ∧ ¬ Textual c.subject) ∨ (e.is .verificationError = false ∧ env.loadKey c.spki = .error e))

end Signify.Spec
