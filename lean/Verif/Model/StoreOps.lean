/-
Model of the use of a `CertificateStore` as the list it is (signify/x509/context.py:24-167).
-/
import Verif.Model.Context

set_option autoImplicit false

namespace Signify

/-- Operations on a store: `len(store)`, `list(store)` (a `for` loop that is not interrupted), `certificate in store`,
`store.is_trusted(certificate)`, `store[n]`, `store.append(certificate)` and `store.pop()`. -/
inductive StoreOp where
  | len
  | iter
  | contains (c : Cert)
  | isTrusted (c : Cert)
  | item (n : Int)
  | append (c : Cert)
  | pop
deriving DecidableEq, Repr

/-- What an operation returns. -/
inductive OpValue where
  | none
  | number (n : Nat)
  | truth (b : Bool)
  | cert (c : Cert)
  | certs (l : List Cert)
deriving DecidableEq, Repr

/-- `list.__getitem__`: negative indices count from the end. -/
def listItem (l : List Cert) (n : Int) : Option Cert :=
  if 0 ≤ n then l[n.toNat]? else if -(l.length : Int) ≤ n then l[(l.length + n).toNat]? else Option.none

/-- `len(store)`: `FileSystemCertificateStore.__len__` loads first; context.py:152-154. -/
def storeLen (i : Nat) : M Nat := do
  let l ← iterStore (.heap i)
  pure l.length

/-- An operation on the store.  `in`, indexing, `append` and `pop` are those of the class `list`, which do not load: only `__iter__`
and `__len__` are overridden (context.py:43-44, 64-76, 148-154). -/
def StoreOp.run (i : Nat) : StoreOp → M OpValue
  | .len => do
    let n ← storeLen i
    pure (.number n)
  | .iter => do
    let l ← iterStore (.heap i)
    pure (.certs l)
  | .contains c => fun w => (.ok (.truth (certIn c (w.stores i).items)), w)
  | .isTrusted c => fun w => (.ok (.truth (storeIsTrusted w (.heap i) c)), w)
  | .item n => fun w =>
    match listItem (w.stores i).items n with
    | Option.none => (.error ⟨.indexError, "list index out of range"⟩, w)
    | some c => (.ok (.cert c), w)
  | .append c => do
    storeAppend i c
    pure .none
  | .pop => do
    let s ← M.getStore i
    match s.items.getLast? with
    | Option.none => M.raise ⟨.indexError, "pop from empty list"⟩
    | some c =>
      M.setStore i { s with items := s.items.dropLast }
      pure (.cert c)

/-- Operations one after the other, whatever each of them does. -/
def runStoreOps (i : Nat) : List StoreOp → World → List (Except Exc OpValue) × World
  | [], w => ([], w)
  | op :: ops, w =>
    let (r, w') := op.run i w
    let (rs, w'') := runStoreOps i ops w'
    (r :: rs, w'')

end Signify
