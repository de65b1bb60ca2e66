/-
Specification for C88: a Python list of certificates.
-/
import Verif.Model.StoreOps

set_option autoImplicit false

namespace Signify.Spec

open Signify

/-- What an operation returns for an ordinary list (of a store that is trusted, or not), and the list afterwards. -/
def onList (trusted : Bool) (l : List Cert) : StoreOp → Except Exc OpValue × List Cert
  | .len => (.ok (.number l.length), l)
  | .iter => (.ok (.certs l), l)
  | .contains c => (.ok (.truth (decide (∃ d ∈ l, c.pyEq d = true))), l)
  | .isTrusted c => (.ok (.truth (decide (trusted = true ∧ ∃ d ∈ l, c.pyEq d = true))), l)
  | .item (.ofNat n) => (match l[n]? with | some c => .ok (.cert c) | none => .error ⟨.indexError, "list index out of range"⟩, l)
  | .item (.negSucc n) => (match l.reverse[n]? with | some c => .ok (.cert c) | none => .error ⟨.indexError, "list index out of range"⟩, l)
  | .append c => (.ok .none, l ++ [c])
  | .pop =>
    match l.reverse with
    | [] => (.error ⟨.indexError, "pop from empty list"⟩, l)
    | c :: rest => (.ok (.cert c), rest.reverse)

/-- A sequence of operations on an ordinary list. -/
def opsOnList (trusted : Bool) : List StoreOp → List Cert → List (Except Exc OpValue) × List Cert
  | [], l => ([], l)
  | op :: ops, l => ((onList trusted l op).1 :: (opsOnList trusted ops (onList trusted l op).2).1, (opsOnList trusted ops (onList trusted l op).2).2)

/-- `len` and iteration: the operations for which a file system store reads its location. -/
def StoreOp.Loads : StoreOp → Prop
  | .len => True
  | .iter => True
  | _ => False

/-- The state in which one store has other items, and all else is the same. -/
def withItems (w : World) (i : Nat) (l : List Cert) : World :=
  { w with stores := fun j => if j = i then { w.stores i with items := l } else w.stores j }

end Signify.Spec
