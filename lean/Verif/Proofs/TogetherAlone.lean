/-
If nobody else uses the stores and contexts, the programs of `Model/Together.lean` do what the functions of `Model/Verify.lean` do.
-/
import Verif.Model.Together
import Verif.Proofs.Frame

set_option autoImplicit false

namespace Signify

open Spec

namespace WProg
variable {α β : Type}

/-- a run of the code when nobody else uses the state -/
def alone : WProg α → M α
  | .ret r, w => (r, w)
  | .step f k, w => (k w).alone (f w)

theorem amid_nobody (p : WProg α) : ∀ (n : Nat) (w : World), ((p.amid (fun _ w => w) n w).1, (p.amid (fun _ w => w) n w).2.2) = p.alone w := by
  induction p with
  | ret r => intro n w; rfl
  | step f k ih => intro n w; exact ih w (n + 1) (f w)

theorem alone_onResult (p : WProg α) (f : Except Exc α → WProg β) : ∀ w, (p.onResult f).alone w = (f (p.alone w).1).alone (p.alone w).2 := by
  induction p with
  | ret r => intro w; rfl
  | step g k ih => intro w; exact ih w (g w)

theorem alone_bind (p : WProg α) (k : α → WProg β) (w : World) :
    (p >>= k).alone w = M.bnd p.alone (fun a => (k a).alone) w := by
  show (p.onResult _).alone w = _
  rw [alone_onResult]
  unfold M.bnd
  cases p.alone w with
  | mk r w' => cases r <;> rfl

theorem alone_act (m : M α) (w : World) : (act m).alone w = m w := rfl

theorem alone_attempt (p : WProg α) (w : World) : p.attempt.alone w = M.attempt p.alone w := alone_onResult p _ w

/-- sequencing, when the first part does what `m` does -/
theorem alone_bind_of {p : WProg α} {m : M α} {k : α → WProg β} {k' : α → M β} {w : World} (h : p.alone w = m w)
    (hk : ∀ a, m w = (.ok a, (m w).2) → (k a).alone (m w).2 = k' a (m w).2) : (p >>= k).alone w = (m >>= k') w := by
  rw [alone_bind]
  show M.bnd p.alone _ w = M.bnd m k' w
  unfold M.bnd
  rw [h]
  cases e : m w with
  | mk r w' =>
    cases r with
    | error e => rfl
    | ok a =>
      have := hk a (by rw [e])
      rw [e] at this
      exact this

end WProg

open WProg

/-- anything may be changed that verification changes -/
abbrev KeepsAll {α : Type} (x : M α) : Prop := Keeps (fun _ => True) (fun _ => True) x

/-- The stores have fewer than `fuel` certificates, also when they have been loaded. -/
def Bounded (fuel : Nat) (w : World) : Prop := ∀ i, (Spec.Store.loaded (w.stores i)).items.length < fuel

theorem Bounded.step {fuel : Nat} {w w' : World} (h : Bounded fuel w) (hs : ∀ i, StoreStep (w.stores i) (w'.stores i)) : Bounded fuel w' := by
  intro i
  rw [(hs i).loaded_eq]
  exact h i

theorem Bounded.keeps {α : Type} {fuel : Nat} {w : World} (h : Bounded fuel w) {x : M α} (hx : KeepsAll x) : Bounded fuel (x w).2 :=
  h.step (hx w).stores

/-! ### loading -/

theorem extend_alone (i : Nat) : ∀ (l : List Cert) (w : World),
    (extendW i l).alone w = (.ok (), { w with stores := fun j => if j = i then { w.stores i with items := (w.stores i).items ++ l } else w.stores j }) := by
  intro l
  induction l with
  | nil =>
    intro w
    show (Except.ok (), w) = _
    congr 1
    have : (fun j => if j = i then { w.stores i with items := (w.stores i).items ++ [] } else w.stores j) = w.stores := by
      funext j
      by_cases h : j = i
      · subst h; simp
      · simp [h]
    rw [this]
  | cons c l ih =>
    intro w
    show ((act (storeAppend i c)) >>= fun _ => extendW i l).alone w = _
    rw [alone_bind]
    show (extendW i l).alone { w with stores := fun j => if j = i then { w.stores i with items := (w.stores i).items ++ [c] } else w.stores j } = _
    rw [ih]
    congr 2
    funext j
    by_cases h : j = i
    · subst h; simp
    · simp [h]

theorem load_alone (i : Nat) (w : World) :
    (loadW i).alone w = ((match (w.stores i).pending with | some (_, some e) => .error e | _ => .ok ()),
      { w with stores := fun j => if j = i then Spec.Store.loaded (w.stores i) else w.stores j }) := by
  unfold loadW
  rw [alone_bind]
  show (match (w.stores i).pending with | none => _ | some (certs, exc) => _ : WProg Unit).alone w = _
  cases hp : (w.stores i).pending with
  | none =>
    show (Except.ok (), w) = _
    have : (fun j => if j = i then Spec.Store.loaded (w.stores i) else w.stores j) = w.stores := by
      funext j
      by_cases h : j = i
      · subst h; simp [Spec.Store.loaded, hp]
      · simp [h]
    rw [this]
  | some x =>
    obtain ⟨certs, exc⟩ := x
    simp only
    rw [alone_bind]
    show (extendW i certs >>= _).alone { w with stores := fun j => if j = i then { w.stores i with pending := none } else w.stores j } = _
    rw [alone_bind]
    unfold M.bnd
    rw [extend_alone]
    simp only [if_true]
    have hst : (fun j => if j = i then { w.stores i with items := (w.stores i).items ++ certs, pending := none }
        else if j = i then { w.stores i with pending := none } else w.stores j) =
        (fun j => if j = i then Spec.Store.loaded (w.stores i) else w.stores j) := by
      funext j
      by_cases h : j = i
      · subst h; simp [Spec.Store.loaded, hp]
      · simp [h]
    cases exc with
    | none => exact congrArg (fun s => (Except.ok (), ({ w with stores := s } : World))) hst
    | some e => exact congrArg (fun s => (Except.error e, ({ w with stores := s } : World))) hst

theorem iter_heap (i : Nat) (w : World) :
    iterStore (.heap i) w = ((match (w.stores i).pending with | some (_, some e) => .error e | _ => .ok (Spec.Store.loaded (w.stores i)).items),
      { w with stores := fun j => if j = i then Spec.Store.loaded (w.stores i) else w.stores j }) := by
  have hb : iterStore (.heap i) w = (match (w.stores i).pending with
    | none => (pure (w.stores i).items : M _)
    | some (certs, exc) => (do
      let items := (w.stores i).items ++ certs
      M.setStore i { w.stores i with items := items, pending := none }
      match exc with
      | none => pure items
      | some e => M.raise e)) w := rfl
  rw [hb]
  cases hp : (w.stores i).pending with
  | none =>
    have : (fun j => if j = i then Spec.Store.loaded (w.stores i) else w.stores j) = w.stores := by
      funext j
      by_cases h : j = i
      · subst h; simp [Spec.Store.loaded, hp]
      · simp [h]
    show (Except.ok _, w) = _
    rw [this]
    simp [Spec.Store.loaded, hp]
  | some x =>
    obtain ⟨certs, exc⟩ := x
    have hl : Spec.Store.loaded (w.stores i) = { w.stores i with items := (w.stores i).items ++ certs, pending := none } := by
      simp [Spec.Store.loaded, hp]
    rw [hl]
    cases exc <;> rfl

/-! ### loops -/

/-- `for c in l: acc = body(acc, c)` -/
def listM {σ : Type} (body : σ → Cert → M σ) : List Cert → σ → M σ
  | [], acc => pure acc
  | c :: l, acc => do
    let acc ← body acc c
    listM body l acc

theorem listM_keeps {σ : Type} {body : σ → Cert → M σ} (hb : ∀ a c, KeepsAll (body a c)) : ∀ (l : List Cert) (acc : σ), KeepsAll (listM body l acc)
  | [], acc => .pure acc
  | c :: l, acc => .bind (hb acc c) (fun a => listM_keeps hb l a)

theorem list_alone {σ : Type} {fuel : Nat} {bodyW : σ → Cert → WProg σ} {body : σ → Cert → M σ} (hk : ∀ a c, KeepsAll (body a c))
    (hb : ∀ a c w, Bounded fuel w → (bodyW a c).alone w = body a c w) :
    ∀ (l : List Cert) (acc : σ) (w : World), Bounded fuel w → (listW bodyW l acc).alone w = listM body l acc w := by
  intro l
  induction l with
  | nil => intro acc w _; rfl
  | cons c l ih =>
    intro acc w hw
    exact alone_bind_of (hb acc c w hw) (fun a _ => ih a _ (hw.keeps (hk acc c)))

theorem scan_alone {σ : Type} {fuel : Nat} (i : Nat) {bodyW : σ → Cert → WProg σ} {body : σ → Cert → M σ} (hk : ∀ a c, KeepsAll (body a c))
    (hb : ∀ a c w, Bounded fuel w → (bodyW a c).alone w = body a c w) :
    ∀ (f n : Nat) (acc : σ) (w : World), Bounded fuel w → (w.stores i).pending = none → n ≤ (w.stores i).items.length →
      (w.stores i).items.length < n + f →
      (scanW i bodyW f n acc).alone w = listM body ((w.stores i).items.drop n) acc w := by
  intro f
  induction f with
  | zero =>
    intro n acc w hw hp hn hl
    omega
  | succ f ih =>
    intro n acc w hw hp hn hl
    unfold scanW
    rw [alone_bind]
    show (match (w.stores i).items[n]? with | none => _ | some c => _ : WProg σ).alone w = _
    cases he : (w.stores i).items[n]? with
    | none =>
      have : (w.stores i).items.drop n = [] := List.drop_eq_nil_of_le (by simpa using he)
      rw [this]
      rfl
    | some c =>
      have hn : n < (w.stores i).items.length := by
        rcases Nat.lt_or_ge n (w.stores i).items.length with h | h
        · exact h
        · rw [List.getElem?_eq_none h] at he; cases he
      have hd : (w.stores i).items.drop n = c :: (w.stores i).items.drop (n + 1) := by
        rw [List.drop_eq_getElem_cons hn]
        rw [List.getElem?_eq_getElem hn] at he
        cases he
        rfl
      rw [hd]
      simp only
      refine alone_bind_of (hb acc c w hw) (fun a _ => ?_)
      have hf := hk acc c w
      have hs : ((body acc c w).2.stores i) = w.stores i := (hf.stores i).eq_of_none hp
      rw [ih (n + 1) a _ (hw.step hf.stores) (by rw [hs]; exact hp) (by rw [hs]; omega) (by rw [hs]; omega), hs]

theorem forStore_alone {σ : Type} {fuel : Nat} (r : StoreRef) {bodyW : σ → Cert → WProg σ} {body : σ → Cert → M σ} (hk : ∀ a c, KeepsAll (body a c))
    (hb : ∀ a c w, Bounded fuel w → (bodyW a c).alone w = body a c w) (acc : σ) (w : World) (hw : Bounded fuel w) :
    (forStoreW fuel r bodyW acc).alone w = (do let l ← iterStore r; listM body l acc : M σ) w := by
  cases r with
  | embedded certs => exact list_alone hk hb certs acc w hw
  | heap i =>
    have h1 : (forStoreW fuel (.heap i) bodyW acc).alone w = M.bnd (loadW i).alone (fun _ => (scanW i bodyW fuel 0 acc).alone) w := alone_bind _ _ w
    have h2 : (do let l ← iterStore (.heap i); listM body l acc : M σ) w = M.bnd (iterStore (.heap i)) (fun l => listM body l acc) w := rfl
    rw [h1, h2]
    unfold M.bnd
    rw [load_alone, iter_heap]
    have hgo : (scanW i bodyW fuel 0 acc).alone { w with stores := fun j => if j = i then Spec.Store.loaded (w.stores i) else w.stores j } =
        listM body (Spec.Store.loaded (w.stores i)).items acc
          { w with stores := fun j => if j = i then Spec.Store.loaded (w.stores i) else w.stores j } := by
      have hst : ∀ j, StoreStep (w.stores j) ((fun j => if j = i then Spec.Store.loaded (w.stores i) else w.stores j) j) := by
        intro j
        by_cases h : j = i
        · subst h; simp only [if_true]; exact .inr rfl
        · simp only [h, if_false]; exact .inl rfl
      have := scan_alone i hk hb fuel 0 acc { w with stores := fun j => if j = i then Spec.Store.loaded (w.stores i) else w.stores j }
        (hw.step hst) (by simp only [if_true]; exact loaded_pending _) (Nat.zero_le _) (by simp only [if_true]; have := hw i; omega)
      simp only [if_true, List.drop_zero] at this
      exact this
    cases (w.stores i).pending with
    | none => exact hgo
    | some x =>
      obtain ⟨certs, exc⟩ := x
      cases exc with
      | none => exact hgo
      | some e => rfl

/-- What `forCerts` does with a certificate. -/
def findBody {σ : Type} (env : Env) (q : Query) (body : σ → Cert → M σ) (x : List Cert × σ) (c : Cert) : M (List Cert × σ) :=
  if q.matches env c then
    if certIn c x.1 then pure x
    else do
      let acc ← body x.2 c
      pure (x.1 ++ [c], acc)
  else pure x

theorem findBody_keeps {σ : Type} (env : Env) (q : Query) {body : σ → Cert → M σ} (hk : ∀ a c, KeepsAll (body a c)) (x : List Cert × σ) (c : Cert) :
    KeepsAll (findBody env q body x c) := by
  unfold findBody
  split
  · split
    · exact .pure x
    · exact .bind (hk _ _) (fun _ => .pure _)
  · exact .pure x

theorem M.bnd_assoc {α β γ : Type} (x : M α) (f : α → M β) (g : β → M γ) (w : World) :
    M.bnd (M.bnd x f) g w = M.bnd x (fun a => M.bnd (f a) g) w := by
  unfold M.bnd
  cases x w with
  | mk r w' => cases r <;> rfl

theorem forCerts_list {σ : Type} (env : Env) (q : Query) (body : σ → Cert → M σ) : ∀ (l seen : List Cert) (acc : σ) (w : World),
    forCerts env q body l seen acc w = listM (findBody env q body) l (seen, acc) w := by
  intro l
  induction l with
  | nil => intro seen acc w; rfl
  | cons c l ih =>
    intro seen acc w
    show (if q.matches env c then _ else _ : M _) w = M.bnd (findBody env q body (seen, acc) c) _ w
    unfold findBody
    by_cases h1 : q.matches env c
    · simp only [h1, if_true]
      by_cases h2 : certIn c seen
      · simp only [h2, if_true]
        exact ih seen acc w
      · simp only [h2, Bool.false_eq_true, if_false]
        show M.bnd (body acc c) _ w = M.bnd (M.bnd (body acc c) _) _ w
        rw [M.bnd_assoc]
        unfold M.bnd
        cases body acc c w with
        | mk r w' =>
          cases r with
          | error e => rfl
          | ok a => exact ih _ a w'
    · simp only [h1, Bool.false_eq_true, if_false]
      exact ih seen acc w

theorem findBody_alone {σ : Type} {fuel : Nat} (env : Env) (q : Query) {bodyW : σ → Cert → WProg σ} {body : σ → Cert → M σ}
    (hb : ∀ a c w, Bounded fuel w → (bodyW a c).alone w = body a c w) (x : List Cert × σ) (c : Cert) (w : World) (hw : Bounded fuel w) :
    (findBodyW env q bodyW x c).alone w = findBody env q body x c w := by
  unfold findBodyW findBody
  by_cases h1 : q.matches env c
  · simp only [h1, if_true]
    by_cases h2 : certIn c x.1
    · simp only [h2, if_true]; rfl
    · simp only [h2, Bool.false_eq_true, if_false]
      exact alone_bind_of (hb _ c w hw) (fun a _ => rfl)
  · simp only [h1, Bool.false_eq_true, if_false]; rfl

theorem forStores_alone {σ : Type} {fuel : Nat} (env : Env) (q : Query) {bodyW : σ → Cert → WProg σ} {body : σ → Cert → M σ}
    (hk : ∀ a c, KeepsAll (body a c)) (hb : ∀ a c w, Bounded fuel w → (bodyW a c).alone w = body a c w) :
    ∀ (rs : List StoreRef) (x : List Cert × σ) (w : World), Bounded fuel w →
      (forStoresW env fuel q bodyW rs x >>= fun y => pure y.2 : WProg σ).alone w = forStores env q body rs x.1 x.2 w := by
  intro rs
  induction rs with
  | nil => intro x w _; rfl
  | cons r rs ih =>
    intro x w hw
    have h0 : forStores env q body (r :: rs) x.1 x.2 w =
        M.bnd (do let l ← iterStore r; listM (findBody env q body) l x : M _) (fun y => forStores env q body rs y.1 y.2) w := by
      show M.bnd (iterStore r) (fun l => M.bnd (forCerts env q body l x.1 x.2) (fun y => forStores env q body rs y.1 y.2)) w =
        M.bnd (M.bnd (iterStore r) (fun l => listM (findBody env q body) l x)) _ w
      rw [M.bnd_assoc]
      unfold M.bnd
      cases iterStore r w with
      | mk y w' =>
        cases y with
        | error e => rfl
        | ok l =>
          simp only
          rw [forCerts_list]
    rw [h0]
    have h1 : (forStoresW env fuel q bodyW (r :: rs) x >>= fun y => pure y.2 : WProg σ).alone w =
        M.bnd (forStoreW fuel r (findBodyW env q bodyW) x).alone (fun x => (forStoresW env fuel q bodyW rs x >>= fun y => pure y.2 : WProg σ).alone) w := by
      rw [alone_bind]
      show M.bnd (fun w => (forStoreW fuel r (findBodyW env q bodyW) x >>= fun x => forStoresW env fuel q bodyW rs x).alone w) _ w = _
      have : (fun w => (forStoreW fuel r (findBodyW env q bodyW) x >>= fun x => forStoresW env fuel q bodyW rs x).alone w) =
          M.bnd (forStoreW fuel r (findBodyW env q bodyW) x).alone (fun x => (forStoresW env fuel q bodyW rs x).alone) := by
        funext w; exact alone_bind _ _ w
      rw [this, M.bnd_assoc]
      congr 1
      funext x w
      exact (alone_bind _ _ w).symm
    rw [h1]
    have hkf := findBody_keeps env q hk
    have hstep := forStore_alone r hkf (findBody_alone env q hb) x w hw
    unfold M.bnd
    rw [hstep]
    have hkeep : KeepsAll (do let l ← iterStore r; listM (findBody env q body) l x : M _) := .bind (.iterStore r) (fun l => listM_keeps hkf l x)
    have hB := hw.keeps hkeep
    cases e : (do let l ← iterStore r; listM (findBody env q body) l x : M _) w with
    | mk y w' =>
      rw [e] at hB
      cases y with
      | error e => rfl
      | ok y => exact ih y w' hB

theorem forFind_alone {σ : Type} {fuel : Nat} (env : Env) (cid : Nat) (q : Query) (init : σ) {bodyW : σ → Cert → WProg σ} {body : σ → Cert → M σ}
    (hk : ∀ a c, KeepsAll (body a c)) (hb : ∀ a c w, Bounded fuel w → (bodyW a c).alone w = body a c w) (w : World) (hw : Bounded fuel w) :
    (forFindW env fuel cid q init bodyW).alone w = forFind env cid q init body w := by
  unfold forFindW
  rw [alone_bind]
  exact forStores_alone env q hk hb _ ([], init) w hw

/-! ### the certificates of a context -/

/-- What `collectCerts` does with a certificate. -/
def collectBody (r : StoreRef) (x : Collected) (c : Cert) : M Collected := fun w =>
  (.ok (if storeTrusted w r then { x with roots := x.roots ++ [c.obj], all := x.all.set c.obj c }
    else { x with inter := x.inter ++ [c.obj], all := x.all.set c.obj c }), w)

theorem collectBody_keeps (r : StoreRef) (x : Collected) (c : Cert) : KeepsAll (collectBody r x c) := fun w => .refl _ _ w

theorem collectBody_alone (r : StoreRef) (x : Collected) (c : Cert) (w : World) : (collectBodyW r x c).alone w = collectBody r x c w := by
  show (if storeTrusted w r then _ else _ : WProg Collected).alone w = _
  unfold collectBody
  by_cases h : storeTrusted w r
  · simp only [h, if_true]; rfl
  · simp only [h, Bool.false_eq_true, if_false]; rfl

theorem collectBody_list (r : StoreRef) : ∀ (l : List Cert) (x : Collected) (w : World),
    listM (collectBody r) l x w = (.ok (if storeTrusted w r
      then ⟨x.roots ++ l.map Cert.obj, x.inter, l.foldl (fun d c => d.set c.obj c) x.all⟩
      else ⟨x.roots, x.inter ++ l.map Cert.obj, l.foldl (fun d c => d.set c.obj c) x.all⟩), w) := by
  intro l
  induction l with
  | nil =>
    intro x w
    show (Except.ok x, w) = _
    by_cases h : storeTrusted w r <;> simp [h]
  | cons c l ih =>
    intro x w
    show listM (collectBody r) l _ w = _
    rw [ih]
    by_cases h : storeTrusted w r <;> simp [h]

theorem collect_alone {fuel : Nat} : ∀ (rs : List StoreRef) (x : Collected) (w : World), Bounded fuel w →
    (collectW fuel rs x).alone w = (do let y ← collectCerts rs x.roots x.inter x.all; pure (⟨y.1, y.2.1, y.2.2⟩ : Collected) : M Collected) w := by
  intro rs
  induction rs with
  | nil => intro x w _; rfl
  | cons r rs ih =>
    intro x w hw
    have h1 : (collectW fuel (r :: rs) x).alone w = M.bnd (forStoreW fuel r (collectBodyW r) x).alone (fun x => (collectW fuel rs x).alone) w := alone_bind _ _ w
    rw [h1]
    unfold M.bnd
    rw [forStore_alone r (collectBody_keeps r) (fun a c w _ => collectBody_alone r a c w) x w hw]
    have h2 : (do let y ← collectCerts (r :: rs) x.roots x.inter x.all; pure (⟨y.1, y.2.1, y.2.2⟩ : Collected) : M Collected) w =
        M.bnd (M.bnd (iterStore r) (fun l => M.bnd M.world (fun w =>
          if storeTrusted w r then collectCerts rs (x.roots ++ l.map Cert.obj) x.inter (l.foldl (fun d c => d.set c.obj c) x.all)
          else collectCerts rs x.roots (x.inter ++ l.map Cert.obj) (l.foldl (fun d c => d.set c.obj c) x.all))))
          (fun y => pure (⟨y.1, y.2.1, y.2.2⟩ : Collected)) w := rfl
    rw [h2, M.bnd_assoc]
    have h3 : (do let l ← iterStore r; listM (collectBody r) l x : M Collected) w = M.bnd (iterStore r) (fun l => listM (collectBody r) l x) w := rfl
    rw [h3]
    unfold M.bnd
    have hB := hw.keeps (Keeps.iterStore (D := fun _ => True) (T := fun _ => True) r)
    cases e : iterStore r w with
    | mk y w' =>
      rw [e] at hB
      cases y with
      | error e => rfl
      | ok l =>
        simp only [M.world]
        rw [collectBody_list]
        simp only
        by_cases h : storeTrusted w' r
        · simp only [h, if_true]
          rw [ih _ w' hB]
          rfl
        · simp only [h, Bool.false_eq_true, if_false]
          rw [ih _ w' hB]
          rfl

/-! ### trust -/

theorem ctlVerifyTrust_alone (env : Env) (cid : Nat) (ctl : CTL) (chain : List Cert) (w : World) :
    (ctlVerifyTrustW env cid ctl chain).alone w = ctlVerifyTrust env cid ctl chain w := by
  unfold ctlVerifyTrustW ctlVerifyTrust
  cases chain.head? with
  | none => rfl
  | some root =>
    refine alone_bind_of rfl (fun subj _ => ?_)
    cases subj with
    | none => rfl
    | some s =>
      refine alone_bind_of rfl (fun ctx _ => ?_)
      exact alone_bind_of rfl (fun l _ => rfl)

theorem look_alone (i : Nat) (c : Cert) (w : World) : ∀ (f n : Nat), n ≤ (w.stores i).items.length → (w.stores i).items.length < n + f →
    (lookW i c f n).alone w = (.ok (certIn c ((w.stores i).items.drop n)), w) := by
  intro f
  induction f with
  | zero => intro n hn hl; omega
  | succ f ih =>
    intro n hn hl
    unfold lookW
    rw [alone_bind]
    show (match (w.stores i).items[n]? with | none => _ | some d => _ : WProg Bool).alone w = _
    cases he : (w.stores i).items[n]? with
    | none =>
      have : (w.stores i).items.drop n = [] := List.drop_eq_nil_of_le (by simpa using he)
      rw [this]
      rfl
    | some d =>
      have hn : n < (w.stores i).items.length := by
        rcases Nat.lt_or_ge n (w.stores i).items.length with h | h
        · exact h
        · rw [List.getElem?_eq_none h] at he; cases he
      have hd : (w.stores i).items.drop n = d :: (w.stores i).items.drop (n + 1) := by
        rw [List.drop_eq_getElem_cons hn]
        rw [List.getElem?_eq_getElem hn] at he
        cases he
        rfl
      rw [hd]
      simp only
      by_cases h : c.pyEq d
      · simp only [h, if_true, certIn, List.any_cons, Bool.true_or]; rfl
      · simp only [h, Bool.false_eq_true, if_false, certIn, List.any_cons, Bool.false_or]
        exact ih (n + 1) (by omega) (by omega)

theorem items_le_loaded (s : Store) : s.items.length ≤ (Spec.Store.loaded s).items.length := by
  unfold Spec.Store.loaded
  split <;> simp

theorem isTrusted_alone {fuel : Nat} (r : StoreRef) (c : Cert) (w : World) (hw : Bounded fuel w) :
    (isTrustedW fuel r c).alone w = (.ok (storeIsTrusted w r c), w) := by
  cases r with
  | embedded l => rfl
  | heap i =>
    unfold isTrustedW storeIsTrusted
    simp only
    rw [alone_bind]
    show (if (w.stores i).trusted then _ else _ : WProg Bool).alone w = _
    cases h : (w.stores i).trusted with
    | false => rfl
    | true =>
      have := look_alone i c w fuel 0 (Nat.zero_le _) (by have := hw i; have := items_le_loaded (w.stores i); omega)
      simp only [if_true, Bool.true_and]
      simpa using this

theorem storeVerifyTrust_alone {fuel : Nat} (env : Env) (cid : Nat) (r : StoreRef) (chain : List Cert) (w : World) (hw : Bounded fuel w) :
    (storeVerifyTrustW env fuel cid r chain).alone w = storeVerifyTrust env cid r chain w := by
  unfold storeVerifyTrustW storeVerifyTrust
  cases chain.head? with
  | none => rfl
  | some root =>
    simp only
    rw [alone_bind]
    unfold M.bnd
    rw [isTrusted_alone r root w hw]
    show (if (!storeIsTrusted w r root) = true then _ else _ : WProg Unit).alone w = _
    by_cases h : storeIsTrusted w r root
    · simp only [h, Bool.not_true, Bool.false_eq_true, if_false]
      cases r with
      | embedded l => rfl
      | heap i =>
        simp only
        rw [alone_bind]
        show (match (w.stores i).ctl with | none => _ | some ctl => _ : WProg Unit).alone w = _
        cases (w.stores i).ctl with
        | none => rfl
        | some ctl => exact ctlVerifyTrust_alone env cid ctl chain w
    · simp only [h, Bool.not_false, if_true]
      rfl

theorem verifyTrustLoop_alone {fuel : Nat} (env : Env) (cid : Nat) (chain : List Cert) : ∀ (rs : List StoreRef) (exc : Option Exc) (w : World),
    Bounded fuel w → (verifyTrustLoopW env fuel cid chain rs exc).alone w = verifyTrustLoop env cid chain rs exc w := by
  intro rs
  induction rs with
  | nil => intro exc w _; cases exc <;> rfl
  | cons r rs ih =>
    intro exc w hw
    unfold verifyTrustLoopW verifyTrustLoop
    rw [alone_onResult, storeVerifyTrust_alone env cid r chain w hw]
    have hw' : Bounded fuel (storeVerifyTrust env cid r chain w).2 := hw.keeps (.storeVerifyTrust env trivial r chain)
    revert hw'
    cases storeVerifyTrust env cid r chain w with
    | mk x w' =>
      intro hw'
      cases x with
      | ok u => rfl
      | error e =>
        simp only
        by_cases h1 : e.is .certificateNotTrusted
        · simp only [h1, if_true]; exact ih exc w' hw'
        · simp only [h1, Bool.false_eq_true, if_false]
          by_cases h2 : e.is .verificationError
          · simp only [h2, if_true]; exact ih (some e) w' hw'
          · simp only [h2, Bool.false_eq_true, if_false]; rfl

theorem ctxVerifyTrust_alone {fuel : Nat} (env : Env) (cid : Nat) (chain : List Cert) (w : World) (hw : Bounded fuel w) :
    (ctxVerifyTrustW env fuel cid chain).alone w = ctxVerifyTrust env cid chain w := by
  unfold ctxVerifyTrustW ctxVerifyTrust
  exact alone_bind_of rfl (fun ctx _ => verifyTrustLoop_alone env cid chain _ none _ hw)

theorem ctxVerify_alone {fuel : Nat} (env : Env) (cid : Nat) (c : Cert) (w : World) (hw : Bounded fuel w) :
    (ctxVerifyW env fuel cid c).alone w = ctxVerify env cid c w := by
  unfold ctxVerifyW ctxVerify
  rw [alone_bind]
  show ((collectW fuel (w.ctxs cid).stores ⟨[], [], [(c.obj, c)]⟩ >>= _).alone w : Except Exc (List Cert) × World) =
    M.bnd (collectCerts (w.ctxs cid).stores [] [] [(c.obj, c)]) _ w
  rw [alone_bind]
  unfold M.bnd
  rw [collect_alone _ _ w hw]
  have hk : Keeps (fun _ => False) (fun _ => False) (collectCerts (w.ctxs cid).stores [] [] [(c.obj, c)]) := .collectCerts _ _ _ _
  have hc := (hk w).other cid (fun h => h)
  have hB : Bounded fuel (collectCerts (w.ctxs cid).stores [] [] [(c.obj, c)] w).2 := hw.keeps (.collectCerts _ _ _ _)
  have h1 : (do let y ← collectCerts (w.ctxs cid).stores [] [] [(c.obj, c)]; pure (⟨y.1, y.2.1, y.2.2⟩ : Collected) : M Collected) w =
    M.bnd (collectCerts (w.ctxs cid).stores [] [] [(c.obj, c)]) (fun y => pure (⟨y.1, y.2.1, y.2.2⟩ : Collected)) w := rfl
  simp only
  rw [h1]
  unfold M.bnd
  cases e : collectCerts (w.ctxs cid).stores [] [] [(c.obj, c)] w with
  | mk y w' =>
    rw [e] at hc hB
    cases y with
    | error e => rfl
    | ok y =>
      obtain ⟨roots, inter, all⟩ := y
      simp only at hc
      simp only
      rw [← hc]
      show (_ : WProg (List Cert)).alone w' = _
      rw [alone_bind]
      show (_ : WProg (List Cert)).alone w' = _
      refine alone_bind_of rfl (fun u _ => ?_)
      refine alone_bind_of rfl (fun kus _ => ?_)
      refine alone_bind_of rfl (fun ekus _ => ?_)
      unfold questionOf
      simp only
      cases env.validate _ with
      | error e => rfl
      | ok l0 =>
        simp only
        refine alone_bind_of rfl (fun l _ => ?_)
        exact alone_bind_of (ctxVerifyTrust_alone env cid l _
          ((((hB.keeps (.lift _)).keeps (.takeKeyUsages trivial)).keeps (.takeEkus trivial)).keeps (.lift _))) (fun _ _ => rfl)

/-! ### signatures -/

theorem verifyIssuer_alone {fuel : Nat} (env : Env) (cid : Nat) (s : Signer) (t : Option Int) (issuer : Cert) (w : World) (hw : Bounded fuel w) :
    (verifyIssuerW env fuel cid s t issuer).alone w = verifyIssuer env cid s t issuer w := by
  unfold verifyIssuerW verifyIssuer
  refine alone_bind_of rfl (fun _ _ => ?_)
  refine alone_bind_of rfl (fun _ _ => ?_)
  exact ctxVerify_alone env cid issuer _
    ((hw.keeps (.verifyIssuerSignature env cid s issuer)).keeps (.applySigningTime trivial trivial t))

theorem verifyIssuerAuth_alone {fuel : Nat} (env : Env) (cid : Nat) (s : Signer) (t : Option Int) (issuer : Cert) (w : World) (hw : Bounded fuel w) :
    (verifyIssuerAuthW env fuel cid s t issuer).alone w = verifyIssuerAuth env cid s t issuer w :=
  verifyIssuer_alone env cid s _ issuer w hw

theorem buildChainBody_alone {checkW : Cert → WProg (List Cert)} {check : Cert → M (List Cert)} (acc : List (List Cert) × FirstError) (c : Cert)
    (w : World) (h : (checkW c).alone w = check c w) : (buildChainBodyW checkW acc c).alone w = buildChainBody check acc c w := by
  unfold buildChainBodyW buildChainBody
  rw [alone_onResult, h]
  show _ = M.bnd (M.attempt (check c)) _ w
  unfold M.bnd M.attempt
  cases check c w with
  | mk r w' =>
    cases r with
    | ok l => rfl
    | error e =>
      simp only
      by_cases h2 : e.is .verificationError
      · simp only [h2, if_true]; rfl
      · simp only [h2, Bool.false_eq_true, if_false]; rfl

theorem signerVerifyWith_alone {fuel : Nat} (env : Env) (cid : Nat) (s : Signer) {checkW : Cert → WProg (List Cert)} {check : Cert → M (List Cert)}
    (hk : ∀ c, KeepsAll (check c)) (h : ∀ c w, Bounded fuel w → (checkW c).alone w = check c w) (w : World) (hw : Bounded fuel w) :
    (signerVerifyWithW env fuel cid s checkW).alone w = signerVerifyWith env cid s check w := by
  unfold signerVerifyWithW signerVerifyWith buildChain
  rw [alone_bind]
  have hf := forFind_alone (fuel := fuel) env cid { issuer := some s.issuer, serial := some s.serial } (([], .none) : List (List Cert) × FirstError)
    (bodyW := buildChainBodyW checkW) (body := buildChainBody check) (fun a c => .buildChainBody hk a c) (fun a c w hw => buildChainBody_alone a c w (h c w hw)) w hw
  show M.bnd _ _ w = M.bnd (M.bnd _ _) _ w
  rw [M.bnd_assoc]
  unfold M.bnd
  rw [hf]
  cases forFind env cid { issuer := some s.issuer, serial := some s.serial } (([], .none) : List (List Cert) × FirstError) (buildChainBody check) w with
  | mk r w' =>
    cases r with
    | error e => rfl
    | ok acc =>
      obtain ⟨l, fe⟩ := acc
      cases fe with
      | error e => rfl
      | none => cases l <;> rfl
      | false => cases l <;> rfl

theorem signerVerify_alone {fuel : Nat} (env : Env) (cid : Nat) (s : Signer) (w : World) (hw : Bounded fuel w) :
    (signerVerifyW env fuel cid s).alone w = signerVerify env cid s none w :=
  signerVerifyWith_alone env cid s (fun c => .verifyIssuer env trivial trivial s none c) (fun c w hw => verifyIssuer_alone env cid s none c w hw) w hw

theorem authSignerVerify_alone {fuel : Nat} (env : Env) (cid : Nat) (s : Signer) (t : Option Int) (w : World) (hw : Bounded fuel w) :
    (authSignerVerifyW env fuel cid s t).alone w = authSignerVerify env cid s t w :=
  signerVerifyWith_alone env cid s (fun c => .verifyIssuerAuth env trivial trivial s t c) (fun c w hw => verifyIssuerAuth_alone env cid s t c w hw) w hw

theorem counterVerify_alone {fuel : Nat} (env : Env) (c : CounterSigner) (cid : Nat) (w : World) (hw : Bounded fuel w) :
    (c.verifyW env fuel cid).alone w = c.verify env cid w := by
  cases c with
  | pkcs9 c => exact signerVerify_alone env cid c.signer w hw
  | rfc3161 r =>
    unfold CounterSigner.verifyW CounterSigner.verify rfcVerify
    simp only
    split
    · rfl
    · exact signerVerify_alone env cid r.signer w hw

theorem checkCounter_alone {fuel : Nat} (env : Env) (a : AuthData) (c : CounterSigner) (cid : Nat) (w : World) (hw : Bounded fuel w) :
    (checkCounterW env fuel a c cid).alone w = checkCounter env a c cid w := by
  unfold checkCounterW checkCounter
  by_cases h : c.checkMessageDigest env a.signer.encryptedDigest
  · simp only [h, Bool.not_true, Bool.false_eq_true, if_false]
    refine alone_bind_of rfl (fun _ _ => ?_)
    exact alone_bind_of (counterVerify_alone env c cid _ (hw.keeps (.setTimestamp trivial trivial _))) (fun _ _ => rfl)
  · simp only [h, Bool.not_false, if_true]
    rfl

theorem counterTime_alone {fuel : Nat} (env : Env) (a : AuthData) (mode : String) (csCid : Option Nat) (w : World) (hw : Bounded fuel w) :
    (counterTimeW env fuel a mode csCid).alone w = counterTime env a mode csCid w := by
  unfold counterTimeW counterTime
  cases a.counter with
  | none => rfl
  | some c =>
    simp only
    by_cases h : mode ≠ "ignore"
    · simp only [h, ne_eq, not_false_eq_true, if_true]
      cases csCid with
      | none => rfl
      | some i =>
        simp only
        rw [alone_onResult, checkCounter_alone env a c i w hw]
        show _ = M.bnd (M.attempt (checkCounter env a c i)) _ w
        unfold M.bnd M.attempt
        cases checkCounter env a c i w with
        | mk r w' =>
          cases r with
          | ok u => rfl
          | error e =>
            simp only
            split <;> rfl
    · simp only [h, if_false]
      rfl

theorem asdVerify_alone {fuel : Nat} (env : Env) (file : Option Bytes) (a : AuthData) (args : VerifyArgs) (w : World) (hw : Bounded fuel w) :
    (asdVerifyW env fuel file a args).alone w = asdVerify env file a args w := by
  unfold asdVerifyW asdVerify
  have hs1 : ((chooseContext a args w).2).stores = w.stores := by
    unfold chooseContext
    cases args.context <;> rfl
  refine alone_bind_of rfl (fun cid _ => ?_)
  generalize chooseContext a args w = x at hs1
  have hs2 : ((chooseCsContext a args x.2).2).stores = x.2.stores := by
    unfold chooseCsContext
    cases args.csContext with
    | some c => rfl
    | none =>
      cases a.counter with
      | none => rfl
      | some c =>
        simp only
        split <;> rfl
  refine alone_bind_of rfl (fun csCid _ => ?_)
  generalize chooseCsContext a args x.2 = y at hs2
  have hB : Bounded fuel y.2 := by
    intro i
    rw [hs2, hs1]
    exact hw i
  refine alone_bind_of rfl (fun _ _ => ?_)
  refine alone_bind_of (counterTime_alone env a _ csCid _ hB) (fun t _ => ?_)
  exact authSignerVerify_alone env cid a.signer t _
    (hB.keeps (.counterTime env a args.countersignatureMode csCid (fun _ _ => trivial) (fun _ _ => trivial)))

end Signify
