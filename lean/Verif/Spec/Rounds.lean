/-
Specification vocabulary for repeated use of a fingerprinter (C04).
-/
import Verif.Spec.Fingerprinter

set_option autoImplicit false

namespace Signify.Spec

open Signify

/-- Rounds of `add_hashers()` calls, each followed by a `hashes()` that returns the given result, on one object. -/
inductive Rounds (H : String → Bytes → Bytes) : FP → List (List Reg × Hashes) → FP → Prop where
  | nil (fp : FP) : Rounds H fp [] fp
  | cons (fp fp' fp'' : FP) (gs : List Reg) (res : Hashes) (rest : List (List Reg × Hashes)) :
      Ends H (registerAll fp gs) (.ok res) fp' → Rounds H fp' rest fp'' → Rounds H fp ((gs, res) :: rest) fp''

end Signify.Spec
