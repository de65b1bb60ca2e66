/-
Specification vocabulary for times without a time zone (C104).
-/
import Verif.Model.Zones
import Verif.Spec.X509

set_option autoImplicit false

namespace Signify.Spec

open Signify

/-- The same state, except that the `timestamp` of one context is the given instant. -/
def withInstant (w : World) (cid : Nat) (t : Int) : World :=
  { w with ctxs := fun i => if i = cid then { w.ctxs i with timestamp := some t } else w.ctxs i }

/-- What comparing a time without a time zone to one with a time zone raises. -/
def Incomparable {α : Type} (r : Except Exc α) : Prop := r = .error ⟨.typeError, "can't compare offset-naive and offset-aware datetimes"⟩

/-- A time without a time zone. -/
def Zoneless (t : PyTime) : Prop := ∃ r, t = .naive r

/-- An instant that may be meant by a time: that of the time if it has a time zone, any instant otherwise. -/
def MayMean (t : PyTime) (instant : Int) : Prop := ∀ u, t = .aware u → instant = u

/-- The entry of a trust list asks for a time that has no time zone: the usages requested are among those it lists (if it lists any);
and it has a date from which certificates are not accepted, and the certificate's time has no time zone, or it does not refuse the
certificate because of when it was issued, has a date from which signatures are not accepted, and the time of the signature has no time
zone. -/
def AsksInVain (s : CtlSubject) (requested : List String) (issued timestamp : PyTime) : Prop :=
  (∀ e l, s.ekus = some (e :: l) → ∀ x ∈ requested, x ∈ e :: l) ∧
  (s.notBeforeTime ≠ none ∧ Zoneless issued ∨
   (∀ i, MayMean issued i → ¬ Affected s.notBeforeTime s.notBeforeEkus requested i) ∧ s.disallowedTime ≠ none ∧ Zoneless timestamp)

/-- A trust list has an entry for the root of the chain with a date that a time without a time zone may be compared to. -/
def HasDate (env : Env) (ctl : CTL) (root : Cert) (issued timestamp : PyTime) : Prop :=
  ∃ s, ctl.findSubject env root = .ok (some s) ∧
    (s.notBeforeTime ≠ none ∧ Zoneless issued ∨ s.disallowedTime ≠ none ∧ Zoneless timestamp)

/-- certvalidator never finds a chain at a moment without a time zone. -/
def NeedsZone (lib : ZonelessValidator) : Prop := ∀ r req chain, lib.validate r req ≠ .ok chain

end Signify.Spec
