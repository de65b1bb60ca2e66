/-
The interpreter giving up while signatures are parsed (C101).
-/
import Verif.Model.Strikes

set_option autoImplicit false

namespace Signify.Spec

/-- The exception is one with which the interpreter gives up somewhere. -/
inductive GivesUp (x : Strikes) (e : Exc) : Prop where
  | sd (level : Nat) (step : String) (s : RawSD) : x.sd level step s = some e → GivesUp x e
  | si (level : Nat) (step : String) (s : RawSI) : x.si level step s = some e → GivesUp x e
  | envelope (data : Bytes) : x.envelope data = some e → GivesUp x e
  | iter (level : Nat) (a : ASD) : x.iter level a = some e → GivesUp x e

/-- The interpreter gives up with exceptions of its own, which are not subclasses of signify's. -/
def OwnExceptions (x : Strikes) : Prop := ∀ e, GivesUp x e → e.is .signifyError = false

/-- The interpreter gives up only in structures nested at least `limit` levels deep. -/
structure OnlyBelow (x : Strikes) (limit : Nat) : Prop where
  sd : ∀ level step s, level < limit → x.sd level step s = none
  si : ∀ level step s, level < limit → x.si level step s = none
  envelope : ∀ data, x.envelope data = none

/-- The interpreter never gives up. -/
def Strikes.none : Strikes := ⟨fun _ _ _ => Option.none, fun _ _ _ => Option.none, fun _ => Option.none, fun _ _ => Option.none⟩

end Signify.Spec
