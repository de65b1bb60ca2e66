/-
C88: a certificate store is a list; a file system store becomes one that includes the certificates of its location at the first `len` or
iteration.
-/
import Verif.Spec.StoreOps
import Verif.Props.X509

set_option autoImplicit false

namespace Signify.Props

open Signify Spec

theorem certIn_decide (c : Cert) (l : List Cert) : certIn c l = decide (∃ d ∈ l, c.pyEq d = true) := by
  unfold certIn
  rw [Bool.eq_iff_iff, List.any_eq_true, decide_eq_true_iff]

theorem listItem_ofNat (l : List Cert) (n : Nat) : listItem l (.ofNat n) = l[n]? := by
  unfold listItem
  rw [if_pos (show (0 : Int) ≤ Int.ofNat n from Int.natCast_nonneg n)]
  rfl

theorem listItem_negSucc (l : List Cert) (n : Nat) : listItem l (.negSucc n) = l.reverse[n]? := by
  unfold listItem
  rw [if_neg (by omega)]
  by_cases h : n < l.length
  · rw [if_pos (by omega), List.getElem?_reverse h]
    congr 1
    omega
  · rw [if_neg (by omega), List.getElem?_eq_none (by rw [List.length_reverse]; omega)]

theorem withItems_self (w : World) (i : Nat) : withItems w i (w.stores i).items = w := by
  unfold withItems
  have : (fun j => if j = i then { w.stores i with items := (w.stores i).items } else w.stores j) = w.stores := by
    funext j
    split
    · rename_i h; subst h; rfl
    · rfl
  rw [this]

theorem withItems_store (w : World) (i : Nat) (l : List Cert) : (withItems w i l).stores i = { w.stores i with items := l } := if_pos rfl

theorem withItems_withItems (w : World) (i : Nat) (l l' : List Cert) : withItems (withItems w i l) i l' = withItems w i l' := by
  unfold withItems
  simp only [if_true]
  congr 1
  funext j
  split <;> rfl

/-- An operation that does not load, or one on a store with nothing to load. -/
theorem run_onList (i : Nat) (op : StoreOp) (w : World) (h : Spec.StoreOp.Loads op → (w.stores i).pending = none) :
    op.run i w = ((onList (w.stores i).trusted (w.stores i).items op).1, withItems w i (onList (w.stores i).trusted (w.stores i).items op).2) := by
  have hiter : (w.stores i).pending = none → iterStore (.heap i) w = (.ok (w.stores i).items, w) := by
    intro hp
    have hrun : iterStore (.heap i) w = (match (w.stores i).pending with
      | none => pure (w.stores i).items
      | some (certs, exc) =>
        (M.setStore i { w.stores i with items := (w.stores i).items ++ certs, pending := none } >>= fun _ =>
          match exc with
          | none => pure ((w.stores i).items ++ certs)
          | some e => M.raise e) : M (List Cert)) w := rfl
    rw [hrun, hp]
    rfl
  cases op with
  | len =>
    show (storeLen i >>= _) w = _
    unfold storeLen
    rw [M.bind_run, M.bind_ok (hiter (h trivial))]
    simp only [onList, withItems_self]
    rfl
  | iter =>
    show (iterStore (.heap i) >>= _) w = _
    rw [M.bind_ok (hiter (h trivial))]
    simp only [onList, withItems_self]
    rfl
  | contains c => simp only [StoreOp.run, onList, withItems_self, certIn_decide]
  | isTrusted c =>
    simp only [StoreOp.run, onList, withItems_self, storeIsTrusted, certIn_decide]
    cases (w.stores i).trusted <;> simp
  | item n =>
    cases n with
    | ofNat n =>
      simp only [StoreOp.run, onList, withItems_self, listItem_ofNat]
      cases (w.stores i).items[n]? <;> rfl
    | negSucc n =>
      simp only [StoreOp.run, onList, withItems_self, listItem_negSucc]
      cases (w.stores i).items.reverse[n]? <;> rfl
  | append c => rfl
  | pop =>
    show (M.getStore i >>= _) w = _
    rw [M.bind_ok (show M.getStore i w = (.ok (w.stores i), w) from rfl)]
    simp only [onList]
    rcases hl : (w.stores i).items.reverse with _ | ⟨c, rest⟩
    · have : (w.stores i).items = [] := by simpa using hl
      rw [this]
      simp only [List.getLast?_nil]
      rw [← this, withItems_self]
      rfl
    · have : (w.stores i).items = rest.reverse ++ [c] := by
        have := congrArg List.reverse hl
        simpa using this
      rw [this]
      simp only [List.getLast?_append, List.getLast?_singleton, Option.some_or, List.dropLast_concat]
      rfl

theorem run_store (i : Nat) (w : World) (l : List Cert) :
    ((withItems w i l).stores i).trusted = (w.stores i).trusted ∧ ((withItems w i l).stores i).pending = (w.stores i).pending ∧
      ((withItems w i l).stores i).items = l := by
  rw [withItems_store]; exact ⟨rfl, rfl, rfl⟩

/-- Operations that do not load, or any on a store with nothing to load, give what they give for an ordinary list; nothing else in the
program changes. -/
theorem C88_list (i : Nat) (ops : List StoreOp) (w : World)
    (h : (w.stores i).pending = none ∨ ∀ op ∈ ops, ¬ Spec.StoreOp.Loads op) :
    runStoreOps i ops w = ((opsOnList (w.stores i).trusted ops (w.stores i).items).1,
      withItems w i (opsOnList (w.stores i).trusted ops (w.stores i).items).2) := by
  induction ops generalizing w with
  | nil => simp only [runStoreOps, opsOnList, withItems_self]
  | cons op ops ih =>
    have h1 := run_onList i op w (fun hl => h.elim id (fun h => absurd hl (h op (by simp))))
    simp only [runStoreOps, opsOnList, h1]
    obtain ⟨k1, k2, k3⟩ := run_store i w (onList (w.stores i).trusted (w.stores i).items op).2
    rw [ih _ (h.imp (fun h => k2.trans h) (fun h => fun o ho => h o (by simp [ho]))), k1, k3, withItems_withItems]

/-- What loading does to a store. -/
theorem run_loading (i : Nat) (op : StoreOp) (w : World) (certs : List Cert) (e : Option Exc) (hl : Spec.StoreOp.Loads op)
    (hp : (w.stores i).pending = some (certs, e)) :
    op.run i w =
      ((match (generalizing := false) e with
        | none => (onList (w.stores i).trusted ((w.stores i).items ++ certs) op).1
        | some x => .error x),
       { w with stores := fun j => if j = i then { w.stores i with items := (w.stores i).items ++ certs, pending := none } else w.stores j }) := by
  have hiter : iterStore (.heap i) w = ((match (generalizing := false) e with
      | none => .ok ((w.stores i).items ++ certs)
      | some x => .error x),
      { w with stores := fun j => if j = i then { w.stores i with items := (w.stores i).items ++ certs, pending := none } else w.stores j }) := by
    have hrun : iterStore (.heap i) w = (match (w.stores i).pending with
      | none => pure (w.stores i).items
      | some (certs, exc) =>
        (M.setStore i { w.stores i with items := (w.stores i).items ++ certs, pending := none } >>= fun _ =>
          match exc with
          | none => pure ((w.stores i).items ++ certs)
          | some e => M.raise e) : M (List Cert)) w := rfl
    rw [hrun, hp]
    cases e <;> rfl
  cases op with
  | len =>
    show (storeLen i >>= _) w = _
    unfold storeLen
    rw [M.bind_run, M.bind_run, hiter]
    cases e <;> rfl
  | iter =>
    show (iterStore (.heap i) >>= _) w = _
    rw [M.bind_run, hiter]
    cases e <;> rfl
  | contains _ => exact hl.elim
  | isTrusted _ => exact hl.elim
  | item _ => exact hl.elim
  | append _ => exact hl.elim
  | pop => exact hl.elim

/-- A file system store whose location can be read: operations before the first `len` or iteration are those on an ordinary list without
the certificates of the location; these are appended at the first `len` or iteration, and from then on it is an ordinary list. -/
theorem C88_lazy (i : Nat) (before : List StoreOp) (op : StoreOp) (after : List StoreOp) (w : World) (certs : List Cert)
    (hp : (w.stores i).pending = some (certs, none)) (hb : ∀ o ∈ before, ¬ Spec.StoreOp.Loads o) (hl : Spec.StoreOp.Loads op) :
    let l := (opsOnList (w.stores i).trusted before (w.stores i).items).2 ++ certs
    (runStoreOps i (before ++ op :: after) w).1 = (opsOnList (w.stores i).trusted before (w.stores i).items).1 ++
      (opsOnList (w.stores i).trusted (op :: after) l).1 ∧
    (runStoreOps i (before ++ op :: after) w).2.stores i =
      { w.stores i with items := (opsOnList (w.stores i).trusted (op :: after) l).2, pending := none } := by
  have happ : ∀ (a b : List StoreOp) (w : World), runStoreOps i (a ++ b) w =
      ((runStoreOps i a w).1 ++ (runStoreOps i b (runStoreOps i a w).2).1, (runStoreOps i b (runStoreOps i a w).2).2) := by
    intro a
    induction a with
    | nil => intro b w; rfl
    | cons o a ih => intro b w; simp only [List.cons_append, runStoreOps, ih]
  rw [happ, C88_list i before w (.inr hb)]
  generalize hl' : (opsOnList (w.stores i).trusted before (w.stores i).items).2 = l
  obtain ⟨k1, k2, k3⟩ := run_store i w l
  have h1 := run_loading i op (withItems w i l) certs none hl (k2.trans hp)
  simp only at h1
  rw [k1, k3] at h1
  have hfst : ∀ x, (onList (w.stores i).trusted x op).2 = x := by
    intro x; cases op <;> first | rfl | exact hl.elim
  simp only [runStoreOps, h1, opsOnList, hfst]
  rw [C88_list i after _ (.inl (by simp only [if_true]))]
  simp only [if_true, withItems_store, k1, and_self]

/-- If the location cannot be read, the first `len` or iteration raises the exception; what had been read before it stays in the store,
and the exception is not raised again: from then on it is an ordinary list. -/
theorem C88_failed (i : Nat) (op : StoreOp) (after : List StoreOp) (w : World) (certs : List Cert) (e : Exc)
    (hp : (w.stores i).pending = some (certs, some e)) (hl : Spec.StoreOp.Loads op) :
    (runStoreOps i (op :: after) w).1 = .error e :: (opsOnList (w.stores i).trusted after ((w.stores i).items ++ certs)).1 ∧
    (runStoreOps i (op :: after) w).2.stores i =
      { w.stores i with items := (opsOnList (w.stores i).trusted after ((w.stores i).items ++ certs)).2, pending := none } := by
  have h1 := run_loading i op w certs (some e) hl hp
  simp only [runStoreOps, h1]
  rw [C88_list i after _ (.inl (by simp only [if_true]))]
  simp only [if_true, withItems_store]
  exact ⟨trivial, trivial⟩

/-- A store of a location with two certificates: it contains neither of them, and has no first element, until its length is asked for. -/
example : let w : World := { exWorld with stores := fun _ => ⟨[], true, none, some ([exInter, exLeaf], none)⟩ }
    (runStoreOps 0 [.contains exLeaf, .item 0, .isTrusted exLeaf, .len, .contains exLeaf, .item (-1), .isTrusted exLeaf, .pop, .iter] w).1 =
      [.ok (.truth false), .error ⟨.indexError, "list index out of range"⟩, .ok (.truth false), .ok (.number 2), .ok (.truth true),
        .ok (.cert exLeaf), .ok (.truth true), .ok (.cert exLeaf), .ok (.certs [exInter])] := by decide +kernel

/-- One that cannot be read to the end. -/
example : let w : World := { exWorld with stores := fun _ => ⟨[], true, none, some ([exInter], some ⟨.valueError, "x"⟩)⟩ }
    (runStoreOps 0 [.len, .len, .iter] w).1 = [.error ⟨.valueError, "x"⟩, .ok (.number 1), .ok (.certs [exInter])] := by decide +kernel

example := C88_lazy 0 [.contains exLeaf] .len [.iter] { exWorld with stores := fun _ => ⟨[], true, none, some ([exInter, exLeaf], none)⟩ }
  [exInter, exLeaf] rfl (fun o h => by rw [List.mem_singleton.1 h]; exact fun h => h) trivial
example := C88_failed 0 .len [.iter] { exWorld with stores := fun _ => ⟨[], true, none, some ([exInter], some ⟨.valueError, "x"⟩)⟩ }
  [exInter] ⟨.valueError, "x"⟩ rfl trivial
example := C88_list 0 [.len, .pop, .iter] exWorld (.inl rfl)

end Signify.Props
