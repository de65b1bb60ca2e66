/-
Two runs of a verification, in states that differ in the numbering of contexts, in other contexts, and in which stores have been
loaded already, have the same outcome.
-/
import Verif.Proofs.AsdVerify

set_option autoImplicit false

namespace Signify

open Spec

/-- Reading the location of the store succeeds, if it still has to happen. -/
def FineStore (s : Store) : Prop := ∀ certs e, s.pending = some (certs, e) → e = none

theorem FineStore.loaded (s : Store) : FineStore (Spec.Store.loaded s) := by
  intro certs e h
  rw [loaded_pending] at h
  cases h

theorem FineStore.step {s s' : Store} (h : FineStore s) (k : StoreStep s s') : FineStore s' := by
  rcases k with rfl | rfl
  · exact h
  · exact FineStore.loaded s

/-- Corresponding states: `P` pairs contexts, `S` are the stores used, `L` those known to be loaded. -/
structure Rel (P : Nat → Nat → Prop) (S L : Nat → Prop) (w w' : World) : Prop where
  inj : ∀ i i' j j', P i i' → P j j' → (i = j ↔ i' = j')
  ctx : ∀ i i', P i i' → w.ctxs i = w'.ctxs i'
  refs : ∀ i i', P i i' → ∀ k, .heap k ∈ (w.ctxs i).stores → S k
  stores : ∀ k, S k → Spec.Store.loaded (w.stores k) = Spec.Store.loaded (w'.stores k)
  fine : ∀ k, S k → (FineStore (w.stores k) ∧ FineStore (w'.stores k)) ∨ w.stores k = w'.stores k
  loaded : ∀ k, L k → (w.stores k).pending = none ∧ (w'.stores k).pending = none

theorem Rel.weaken {P : Nat → Nat → Prop} {S L L' : Nat → Prop} {w w' : World} (h : Rel P S L w w') (hl : ∀ k, L' k → L k) :
    Rel P S L' w w' := ⟨h.inj, h.ctx, h.refs, h.stores, h.fine, fun k hk => h.loaded k (hl k hk)⟩

theorem Rel.restrict {P Q : Nat → Nat → Prop} {S L : Nat → Prop} {w w' : World} (h : Rel P S L w w') (hq : ∀ i i', Q i i' → P i i') :
    Rel Q S L w w' := ⟨fun i i' j j' h1 h2 => h.inj i i' j j' (hq _ _ h1) (hq _ _ h2), fun i i' k => h.ctx i i' (hq _ _ k),
      fun i i' k => h.refs i i' (hq _ _ k), h.stores, h.fine, h.loaded⟩

/-- Stores with the same contents, both loaded, are the same. -/
theorem Rel.store_eq {P : Nat → Nat → Prop} {S L : Nat → Prop} {w w' : World} (h : Rel P S L w w') {k : Nat} (hs : S k) (hl : L k) :
    w.stores k = w'.stores k := by
  have := h.stores k hs
  rwa [loaded_of_none (h.loaded k hl).1, loaded_of_none (h.loaded k hl).2] at this

/-- Both actions have the same outcome in corresponding states and lead to corresponding states. -/
def Sim {α : Type} (P : Nat → Nat → Prop) (S L : Nat → Prop) (x x' : M α) : Prop :=
  ∀ w w', Rel P S L w w' → (x w).1 = (x' w').1 ∧ Rel P S L (x w).2 (x' w').2

namespace Sim

variable {α β : Type} {P : Nat → Nat → Prop} {S L : Nat → Prop}

theorem pure (a : α) : Sim P S L (Pure.pure a : M α) (Pure.pure a) := fun _ _ h => ⟨rfl, h⟩
theorem raise (e : Exc) : Sim P S L (M.raise e : M α) (M.raise e) := fun _ _ h => ⟨rfl, h⟩
theorem lift (x : Except Exc α) : Sim P S L (M.lift x) (M.lift x) := fun _ _ h => ⟨rfl, h⟩

theorem getCtx {i i' : Nat} (hp : P i i') : Sim P S L (M.getCtx i) (M.getCtx i') := fun w w' h =>
  ⟨by show Except.ok (w.ctxs i) = Except.ok (w'.ctxs i'); rw [h.ctx i i' hp], h⟩

/-- Sequencing, where the known-loaded stores may differ in between. -/
theorem bind_run {L' L'' : Nat → Prop} {x x' : M α} {f f' : α → M β} {w w' : World}
    (hx : (x w).1 = (x' w').1 ∧ Rel P S L' (x w).2 (x' w').2)
    (hf : ∀ a u u', Rel P S L' u u' → (f a u).1 = (f' a u').1 ∧ Rel P S L'' (f a u).2 (f' a u').2)
    (hle : ∀ k, L'' k → L' k) :
    ((x >>= f) w).1 = ((x' >>= f') w').1 ∧ Rel P S L'' ((x >>= f) w).2 ((x' >>= f') w').2 := by
  obtain ⟨h1, h2⟩ := hx
  rw [M.bind_run, M.bind_run]
  rcases hw : x w with ⟨r, w1⟩
  rcases hw' : x' w' with ⟨r', w1'⟩
  rw [hw, hw'] at h1 h2
  simp only at h1 h2
  subst h1
  cases r with
  | error e => exact ⟨rfl, h2.weaken hle⟩
  | ok a => exact hf a w1 w1' h2

theorem bind {x x' : M α} {f f' : α → M β} (hx : Sim P S L x x') (hf : ∀ a, Sim P S L (f a) (f' a)) :
    Sim P S L (x >>= f) (x' >>= f') := fun w w' h => bind_run (hx w w' h) (fun a u u' k => hf a u u' k) (fun _ k => k)

theorem attempt {x x' : M α} (hx : Sim P S L x x') : Sim P S L (M.attempt x) (M.attempt x') := by
  intro w w' h
  obtain ⟨h1, h2⟩ := hx w w' h
  unfold M.attempt
  rcases hw : x w with ⟨r, w1⟩
  rcases hw' : x' w' with ⟨r', w1'⟩
  rw [hw, hw'] at h1 h2
  simp only at h1 h2
  subst h1
  exact ⟨rfl, h2⟩

theorem setCtx {i i' : Nat} (hp : P i i') (c : Ctx) :
    ∀ w w', Rel P S L w w' → c.stores = (w.ctxs i).stores →
      (M.setCtx i c w).1 = (M.setCtx i' c w').1 ∧ Rel P S L (M.setCtx i c w).2 (M.setCtx i' c w').2 := by
  intro w w' h hs
  refine ⟨rfl, h.inj, ?_, ?_, h.stores, h.fine, h.loaded⟩
  · intro j j' hj
    show (if j = i then c else w.ctxs j) = (if j' = i' then c else w'.ctxs j')
    by_cases e : j = i
    · rw [if_pos e, if_pos ((h.inj j j' i i' hj hp).1 e)]
    · rw [if_neg e, if_neg (fun k => e ((h.inj j j' i i' hj hp).2 k)), h.ctx j j' hj]
  · intro j j' hj k hk
    have hk' : StoreRef.heap k ∈ (if j = i then c else w.ctxs j).stores := hk
    by_cases e : j = i
    · rw [if_pos e, hs] at hk'; exact h.refs i i' hp k hk'
    · rw [if_neg e] at hk'; exact h.refs j j' hj k hk'

/-- `iter(store)` -/
theorem iterStore_run {w : World} {k : Nat} (hf : FineStore (w.stores k)) :
    iterStore (.heap k) w = (.ok (Spec.Store.loaded (w.stores k)).items,
      { w with stores := fun j => if j = k then Spec.Store.loaded (w.stores k) else w.stores j }) := by
  have hrun : iterStore (.heap k) w = (match (w.stores k).pending with
    | none => Pure.pure (w.stores k).items
    | some (certs, exc) =>
      (M.setStore k { w.stores k with items := (w.stores k).items ++ certs, pending := none } >>= fun _ =>
        match exc with
        | none => Pure.pure ((w.stores k).items ++ certs)
        | some e => M.raise e) : M (List Cert)) w := rfl
  rw [hrun]
  rcases hp : (w.stores k).pending with _ | ⟨certs, exc⟩
  · simp only
    rw [loaded_of_none hp]
    show (Except.ok (w.stores k).items, w) = _
    congr 1
    have : (fun j => if j = k then w.stores k else w.stores j) = w.stores := by
      funext j
      split
      · rename_i e; rw [e]
      · rfl
    rw [this]
  · have := hf certs exc hp
    subst this
    simp only [Spec.Store.loaded, hp]
    rfl

/-- `iter(store)` of a store that cannot be read -/
theorem iterStore_bad {w : World} {k : Nat} {certs : List Cert} {e : Exc} (hp : (w.stores k).pending = some (certs, some e)) :
    iterStore (.heap k) w = (.error e, { w with stores := fun j => if j = k then Spec.Store.loaded (w.stores k) else w.stores j }) := by
  have hrun : iterStore (.heap k) w = (match (w.stores k).pending with
    | none => Pure.pure (w.stores k).items
    | some (certs, exc) =>
      (M.setStore k { w.stores k with items := (w.stores k).items ++ certs, pending := none } >>= fun _ =>
        match exc with
        | none => Pure.pure ((w.stores k).items ++ certs)
        | some e => M.raise e) : M (List Cert)) w := rfl
  rw [hrun, hp]
  simp only [Spec.Store.loaded, hp]
  rfl

theorem iterStore_rel (r : StoreRef) (hS : ∀ k, r = .heap k → S k) {w w' : World} (h : Rel P S L w w') :
    ∃ l u u', iterStore r w = (l, u) ∧ iterStore r w' = (l, u') ∧ Rel P S (fun k => L k ∨ r = .heap k) u u' := by
  cases r with
  | embedded certs => exact ⟨.ok certs, w, w', rfl, rfl, h.weaken (fun k hk => hk.resolve_right (fun e => by cases e))⟩
  | heap k =>
    have hk := hS k rfl
    have key : Rel P S (fun j => L j ∨ StoreRef.heap k = .heap j)
        { w with stores := fun j => if j = k then Spec.Store.loaded (w.stores k) else w.stores j }
        { w' with stores := fun j => if j = k then Spec.Store.loaded (w'.stores k) else w'.stores j } := by
      refine ⟨h.inj, h.ctx, h.refs, ?_, ?_, ?_⟩
      · intro j hj
        simp only
        split
        · rw [h.stores k hk]
        · exact h.stores j hj
      · intro j hj
        simp only
        split
        · exact .inl ⟨FineStore.loaded _, FineStore.loaded _⟩
        · exact h.fine j hj
      · intro j hj
        simp only
        split
        · exact ⟨loaded_pending _, loaded_pending _⟩
        · rename_i hne
          rcases hj with hj | hj
          · exact h.loaded j hj
          · cases hj; exact absurd rfl hne
    by_cases hf : FineStore (w.stores k) ∧ FineStore (w'.stores k)
    · exact ⟨_, _, _, iterStore_run hf.1, by rw [iterStore_run hf.2, ← h.stores k hk], key⟩
    · have e := (h.fine k hk).resolve_left hf
      have hbad : ∃ certs x, (w.stores k).pending = some (certs, some x) := by
        refine Classical.byContradiction (fun hno => hf ⟨?_, ?_⟩)
        · intro certs x hp
          cases x with
          | none => rfl
          | some x => exact absurd ⟨certs, x, hp⟩ hno
        · rw [← e]
          intro certs x hp
          cases x with
          | none => rfl
          | some x => exact absurd ⟨certs, x, hp⟩ hno
      obtain ⟨certs, x, hp⟩ := hbad
      exact ⟨_, _, _, iterStore_bad hp, iterStore_bad (e ▸ hp), key⟩

theorem iterStore (r : StoreRef) (hS : ∀ k, r = .heap k → S k) : Sim P S L (iterStore r) (iterStore r) := fun w w' h => by
  obtain ⟨l, u, u', h1, h2, h3⟩ := iterStore_rel r hS h
  rw [h1, h2]
  exact ⟨rfl, h3.weaken (fun _ hk => .inl hk)⟩

theorem storeTrusted_eq {w w' : World} (h : Rel P S L w w') {r : StoreRef} (hS : ∀ k, r = .heap k → S k) :
    storeTrusted w r = storeTrusted w' r := by
  cases r with
  | embedded _ => rfl
  | heap k =>
    have := congrArg Store.trusted (h.stores k (hS k rfl))
    rw [loaded_trusted, loaded_trusted] at this
    exact this

theorem collectCerts (rs : List StoreRef) (hS : ∀ r ∈ rs, ∀ k, r = .heap k → S k) (roots inter : List Nat) (all : Dict Nat Cert)
    {w w' : World} (h : Rel P S L w w') :
    (∃ x u u', collectCerts rs roots inter all w = (.ok x, u) ∧ collectCerts rs roots inter all w' = (.ok x, u') ∧
      Rel P S (fun k => L k ∨ .heap k ∈ rs) u u') ∨
    (∃ e u u', collectCerts rs roots inter all w = (.error e, u) ∧ collectCerts rs roots inter all w' = (.error e, u') ∧ Rel P S L u u') := by
  induction rs generalizing roots inter all w w' L with
  | nil => exact .inl ⟨_, w, w', rfl, rfl, h.weaken (fun k hk => hk.resolve_right (fun e => by cases e))⟩
  | cons r rs ih =>
    unfold Signify.collectCerts
    obtain ⟨l, u, u', h1, h2, hu⟩ := iterStore_rel r (hS r (by simp)) h
    cases l with
    | error e =>
      rw [M.bind_error h1, M.bind_error h2]
      exact .inr ⟨e, u, u', rfl, rfl, hu.weaken (fun _ hk => .inl hk)⟩
    | ok l =>
    rw [M.bind_ok h1, M.bind_ok h2, M.bind_ok (show M.world u = (.ok u, u) from rfl),
      M.bind_ok (show M.world u' = (.ok u', u') from rfl), storeTrusted_eq hu (hS r (by simp))]
    have main : ∀ roots inter all, (∃ x v v', Signify.collectCerts rs roots inter all u = (.ok x, v) ∧
        Signify.collectCerts rs roots inter all u' = (.ok x, v') ∧ Rel P S (fun k => L k ∨ .heap k ∈ r :: rs) v v') ∨
        (∃ e v v', Signify.collectCerts rs roots inter all u = (.error e, v) ∧
        Signify.collectCerts rs roots inter all u' = (.error e, v') ∧ Rel P S L v v') := by
      intro roots inter all
      rcases ih (fun r' hr' => hS r' (List.mem_cons_of_mem _ hr')) roots inter all hu with ⟨x, v, v', g1, g2, g3⟩ | ⟨e, v, v', g1, g2, g3⟩
      · refine .inl ⟨x, v, v', g1, g2, g3.weaken (fun k hk => ?_)⟩
        rcases hk with hk | hk
        · exact .inl (.inl hk)
        · rcases List.mem_cons.1 hk with e | hk
          · exact .inl (.inr e.symm)
          · exact .inr hk
      · exact .inr ⟨e, v, v', g1, g2, g3.weaken (fun _ hk => .inl hk)⟩
    split
    · exact main _ _ _
    · exact main _ _ _

theorem takeEkus {i i' : Nat} (hp : P i i') : Sim P S L (takeEkus i) (takeEkus i') := by
  intro w w' h
  unfold Signify.takeEkus
  rw [M.getCtx_bind, M.getCtx_bind, ← h.ctx i i' hp]
  split
  · refine bind_run (L' := L) (setCtx hp _ w w' h rfl) (fun _ u u' k => ⟨rfl, k⟩) (fun _ k => k)
  · exact ⟨rfl, h⟩

theorem takeKeyUsages {i i' : Nat} (hp : P i i') : Sim P S L (takeKeyUsages i) (takeKeyUsages i') := by
  intro w w' h
  unfold Signify.takeKeyUsages
  rw [M.getCtx_bind, M.getCtx_bind, ← h.ctx i i' hp]
  split
  · refine bind_run (L' := L) (setCtx hp _ w w' h rfl) (fun _ u u' k => ⟨rfl, k⟩) (fun _ k => k)
  · exact ⟨rfl, h⟩

theorem ctlVerifyTrust (env : Env) {i i' : Nat} (hp : P i i') (ctl : CTL) (chain : List Cert) :
    Sim P S L (ctlVerifyTrust env i ctl chain) (ctlVerifyTrust env i' ctl chain) := by
  unfold Signify.ctlVerifyTrust
  cases chain.head? with
  | none => exact raise _
  | some root =>
    refine bind (lift _) (fun subj => ?_)
    cases subj with
    | none => exact lift _
    | some s => exact bind (getCtx hp) (fun _ => bind (takeEkus hp) (fun _ => lift _))

theorem storeVerifyTrust (env : Env) {i i' : Nat} (hp : P i i') (r : StoreRef) (hr : ∀ k, r = .heap k → S k ∧ L k) (chain : List Cert) :
    Sim P S L (storeVerifyTrust env i r chain) (storeVerifyTrust env i' r chain) := by
  intro w w' h
  unfold Signify.storeVerifyTrust
  cases chain.head? with
  | none => exact ⟨rfl, h⟩
  | some root =>
    cases r with
    | embedded _ => exact ⟨rfl, h⟩
    | heap k =>
      have e := h.store_eq (hr k rfl).1 (hr k rfl).2
      have e2 : storeIsTrusted w (.heap k) root = storeIsTrusted w' (.heap k) root := by simp only [storeIsTrusted, e]
      simp only [e2, e]
      by_cases hb : (!storeIsTrusted w' (.heap k) root) = true
      · rw [if_pos hb, if_pos hb]
        exact ⟨rfl, h⟩
      · rw [if_neg hb, if_neg hb]
        cases (w'.stores k).ctl with
        | none => exact ⟨rfl, h⟩
        | some ctl => exact ctlVerifyTrust env hp ctl chain w w' h

theorem verifyTrustLoop (env : Env) {i i' : Nat} (hp : P i i') (chain : List Cert) (rs : List StoreRef)
    (hr : ∀ k, .heap k ∈ rs → S k ∧ L k) (exc : Option Exc) :
    Sim P S L (verifyTrustLoop env i chain rs exc) (verifyTrustLoop env i' chain rs exc) := by
  induction rs generalizing exc with
  | nil => cases exc <;> exact raise _
  | cons r rs ih =>
    have ih' := ih (fun k hk => hr k (List.mem_cons_of_mem _ hk))
    intro w w' h
    obtain ⟨h1, h2⟩ := storeVerifyTrust env hp r (fun k hk => hr k (by rw [hk]; simp)) chain w w' h
    unfold Signify.verifyTrustLoop
    rcases hw : Signify.storeVerifyTrust env i r chain w with ⟨x, w1⟩
    rcases hw' : Signify.storeVerifyTrust env i' r chain w' with ⟨x', w1'⟩
    rw [hw, hw'] at h1 h2
    simp only at h1 h2
    subst h1
    cases x with
    | ok u => exact ⟨rfl, h2⟩
    | error e =>
      simp only
      split
      · exact ih' _ w1 w1' h2
      · split
        · exact ih' _ w1 w1' h2
        · exact ⟨rfl, h2⟩

theorem ctxVerify (env : Env) {i i' : Nat} (hp : P i i') (c : Cert) : Sim P S L (ctxVerify env i c) (ctxVerify env i' c) := by
  intro w w' h
  unfold Signify.ctxVerify
  rw [M.getCtx_bind, M.getCtx_bind, ← h.ctx i i' hp]
  rcases collectCerts (w.ctxs i).stores (fun r hr k e => h.refs i i' hp k (by rw [← e]; exact hr)) [] [] [(c.obj, c)] h with
    ⟨⟨roots, inter, all⟩, u, u', h1, h2, hu⟩ | ⟨e, u, u', h1, h2, hu⟩
  rotate_left
  · rw [M.bind_error h1, M.bind_error h2]
    exact ⟨rfl, hu⟩
  have hcu : (u.ctxs i).stores = (w.ctxs i).stores := by
    have := (Keeps.collectCerts (D := fun _ => True) (T := fun _ => True) (w.ctxs i).stores [] [] [(c.obj, c)]).of_eq h1
    exact this.ctxStores i
  rw [M.bind_ok h1, M.bind_ok h2]
  dsimp only
  have hw : ∀ {x y : World}, Rel P S (fun k => L k ∨ .heap k ∈ (w.ctxs i).stores) x y → Rel P S L x y :=
    fun h => h.weaken (fun _ hk => .inl hk)
  have main : ∀ chain (v v' : World), (v.ctxs i).stores = (w.ctxs i).stores →
      Rel P S (fun k => L k ∨ .heap k ∈ (w.ctxs i).stores) v v' →
      ((ctxVerifyTrust env i chain >>= fun _ => Pure.pure chain : M (List Cert)) v).1 =
      ((ctxVerifyTrust env i' chain >>= fun _ => Pure.pure chain : M (List Cert)) v').1 ∧
      Rel P S L ((ctxVerifyTrust env i chain >>= fun _ => Pure.pure chain : M (List Cert)) v).2
        ((ctxVerifyTrust env i' chain >>= fun _ => Pure.pure chain : M (List Cert)) v').2 := by
    intro chain v v' hs hv
    unfold ctxVerifyTrust
    rw [M.bind_assoc, M.bind_assoc, M.getCtx_bind, M.getCtx_bind, ← hv.ctx i i' hp, hs]
    obtain ⟨k1, k2⟩ := bind (verifyTrustLoop env hp chain (w.ctxs i).stores
      (fun k hk => ⟨h.refs i i' hp k hk, Or.inr hk⟩) none) (fun _ => pure chain) v v' hv
    exact ⟨k1, hw k2⟩
  generalize env.mkValidator _ = mk
  cases mk with
  | error e => exact ⟨rfl, hw hu⟩
  | ok x =>
    rw [M.bind_ok (M.lift_run _ u), M.bind_ok (M.lift_run _ u'), M.bind_ok (takeKeyUsages_run i _),
      M.bind_ok (takeKeyUsages_run i' _), M.bind_ok (takeEkus_run i _), M.bind_ok (takeEkus_run i' _)]
    have e1 := takeKeyUsages hp u u' hu
    rw [takeKeyUsages_run, takeKeyUsages_run] at e1
    have e2 := takeEkus hp _ _ e1.2
    rw [takeEkus_run, takeEkus_run] at e2
    have f1 : (u.ctxs i).keyUsages.elems = (u'.ctxs i').keyUsages.elems := by injection e1.1
    have f2 : ((exhaustKus u i).ctxs i).ekus.elems = ((exhaustKus u' i').ctxs i').ekus.elems := by injection e2.1
    rw [f1, f2]
    generalize env.validate _ = res
    cases res with
    | error e => exact ⟨rfl, hw e2.2⟩
    | ok ids =>
      dsimp only
      cases lookupAll all ids with
      | error e => exact ⟨rfl, hw e2.2⟩
      | ok chain =>
        rw [M.bind_ok (M.lift_run _ _), M.bind_ok (M.lift_run _ _)]
        exact main chain _ _ ((exhaust_ctx_stores u i i).trans hcu) e2.2

theorem setTimestamp {i i' : Nat} (hp : P i i') (t : Option Int) : Sim P S L (setTimestamp i t) (setTimestamp i' t) := by
  intro w w' h
  unfold Signify.setTimestamp
  rw [M.getCtx_bind, M.getCtx_bind, ← h.ctx i i' hp]
  exact setCtx hp _ w w' h rfl

theorem applySigningTime {i i' : Nat} (hp : P i i') (t : Option Int) :
    Sim P S L (applySigningTime i t) (applySigningTime i' t) := by
  cases t with
  | none => exact pure _
  | some t => exact setTimestamp hp _

theorem verifyIssuerSignature (env : Env) {i i' : Nat} (hp : P i i') (s : Signer) (c : Cert) :
    Sim P S L (verifyIssuerSignature env i s c) (verifyIssuerSignature env i' s c) := by
  unfold Signify.verifyIssuerSignature
  refine bind (getCtx hp) (fun ctx => ?_)
  split
  · exact pure _
  · split
    · exact lift _
    · exact raise _

theorem verifyIssuer (env : Env) {i i' : Nat} (hp : P i i') (s : Signer) (t : Option Int) (c : Cert) :
    Sim P S L (verifyIssuer env i s t c) (verifyIssuer env i' s t c) :=
  bind (verifyIssuerSignature env hp s c) (fun _ => bind (applySigningTime hp t) (fun _ => ctxVerify env hp c))

theorem verifyIssuerAuth (env : Env) {i i' : Nat} (hp : P i i') (s : Signer) (t : Option Int) (c : Cert) :
    Sim P S L (verifyIssuerAuth env i s t c) (verifyIssuerAuth env i' s t c) := verifyIssuer env hp s _ c

theorem buildChainBody {check check' : Cert → M (List Cert)} (hc : ∀ c, Sim P S L (check c) (check' c))
    (acc : List (List Cert) × FirstError) (c : Cert) : Sim P S L (buildChainBody check acc c) (buildChainBody check' acc c) := by
  unfold Signify.buildChainBody
  refine bind (attempt (hc c)) (fun r => ?_)
  split
  · exact pure _
  · split
    · exact pure _
    · exact raise _

theorem forCerts {σ : Type} (env : Env) (q : Query) {body body' : σ → Cert → M σ} (hb : ∀ a c, Sim P S L (body a c) (body' a c))
    (l seen : List Cert) (acc : σ) : Sim P S L (forCerts env q body l seen acc) (forCerts env q body' l seen acc) := by
  induction l generalizing seen acc with
  | nil => exact pure _
  | cons c l ih =>
    unfold Signify.forCerts
    split
    · split
      · exact ih _ _
      · exact bind (hb acc c) (fun a => ih _ _)
    · exact ih _ _

theorem forStores {σ : Type} (env : Env) (q : Query) {body body' : σ → Cert → M σ} (hb : ∀ a c, Sim P S L (body a c) (body' a c))
    (rs : List StoreRef) (hS : ∀ k, .heap k ∈ rs → S k) (seen : List Cert) (acc : σ) :
    Sim P S L (forStores env q body rs seen acc) (forStores env q body' rs seen acc) := by
  induction rs generalizing seen acc with
  | nil => exact pure _
  | cons r rs ih =>
    unfold Signify.forStores
    refine bind (iterStore r (fun k hk => hS k (by rw [hk]; simp))) (fun l => bind (forCerts env q hb l seen acc) (fun x => ?_))
    obtain ⟨sn, ac⟩ := x
    exact ih (fun k hk => hS k (List.mem_cons_of_mem _ hk)) sn ac

theorem forFind {σ : Type} (env : Env) {i i' : Nat} (hp : P i i') (q : Query) (init : σ) {body body' : σ → Cert → M σ}
    (hb : ∀ a c, Sim P S L (body a c) (body' a c)) : Sim P S L (forFind env i q init body) (forFind env i' q init body') := by
  intro w w' h
  unfold Signify.forFind
  rw [M.getCtx_bind, M.getCtx_bind, ← h.ctx i i' hp]
  exact forStores env q hb _ (fun k hk => h.refs i i' hp k hk) [] init w w' h

theorem buildChain (env : Env) {i i' : Nat} (hp : P i i') (s : Signer) {check check' : Cert → M (List Cert)}
    (hc : ∀ c, Sim P S L (check c) (check' c)) : Sim P S L (buildChain env i s check) (buildChain env i' s check') := by
  unfold Signify.buildChain
  refine bind (forFind env hp _ _ (fun a c => buildChainBody hc a c)) (fun acc => ?_)
  split
  · exact raise _
  · exact pure _

theorem signerVerifyWith (env : Env) {i i' : Nat} (hp : P i i') (s : Signer) {check check' : Cert → M (List Cert)}
    (hc : ∀ c, Sim P S L (check c) (check' c)) : Sim P S L (signerVerifyWith env i s check) (signerVerifyWith env i' s check') := by
  unfold Signify.signerVerifyWith
  refine bind (buildChain env hp s hc) (fun chains => ?_)
  split
  · exact raise _
  · exact pure _

theorem signerVerify (env : Env) {i i' : Nat} (hp : P i i') (s : Signer) (t : Option Int) :
    Sim P S L (signerVerify env i s t) (signerVerify env i' s t) := signerVerifyWith env hp s (fun c => verifyIssuer env hp s t c)

theorem authSignerVerify (env : Env) {i i' : Nat} (hp : P i i') (s : Signer) (t : Option Int) :
    Sim P S L (authSignerVerify env i s t) (authSignerVerify env i' s t) :=
  signerVerifyWith env hp s (fun c => verifyIssuerAuth env hp s t c)

theorem counterVerify (env : Env) {i i' : Nat} (hp : P i i') (c : CounterSigner) :
    Sim P S L (c.verify env i) (c.verify env i') := by
  cases c with
  | pkcs9 c => exact signerVerify env hp _ _
  | rfc3161 r =>
    show Sim P S L (rfcVerify env r (some i) (.embedded [])) (rfcVerify env r (some i') (.embedded []))
    unfold rfcVerify
    split
    · exact raise _
    · exact signerVerify env hp _ _

theorem checkCounter (env : Env) {i i' : Nat} (hp : P i i') (a : AuthData) (c : CounterSigner) :
    Sim P S L (checkCounter env a c i) (checkCounter env a c i') := by
  unfold Signify.checkCounter
  split
  · exact raise _
  · exact bind (setTimestamp hp _) (fun _ => bind (counterVerify env hp c) (fun _ => pure _))

theorem counterTime (env : Env) (a : AuthData) (mode : String) {cs cs' : Option Nat}
    (h : (cs = none ∧ cs' = none) ∨ ∃ i i', cs = some i ∧ cs' = some i' ∧ P i i') :
    Sim P S L (counterTime env a mode cs) (counterTime env a mode cs') := by
  unfold Signify.counterTime
  cases a.counter with
  | none => exact pure _
  | some c =>
    simp only
    split
    · rcases h with ⟨rfl, rfl⟩ | ⟨i, i', rfl, rfl, hp⟩
      · exact raise _
      · refine bind (attempt (checkCounter env hp a c)) (fun r => ?_)
        cases r with
        | ok _ => exact pure _
        | error e =>
          simp only
          split
          · exact pure _
          · exact raise _
    · exact pure _

end Sim

/-! ### the whole verification -/

/-- `asdVerify` once the contexts are there. -/
theorem Setup.asdVerify {env : Env} {file : Option Bytes} {a : AuthData} {args : VerifyArgs} {w v : World} {cid : Nat}
    {cs : Option Nat} (hs : Setup w a args cid cs v) :
    asdVerify env file a args w = (M.lift (checkDigests env file a args.expectedHash) >>= fun _ =>
      counterTime env a args.countersignatureMode cs >>= fun t => authSignerVerify env cid a.signer t) v :=
  hs.run (fun cid cs => M.lift (checkDigests env file a args.expectedHash) >>= fun _ =>
    counterTime env a args.countersignatureMode cs >>= fun t => authSignerVerify env cid a.signer t)

/-- The paired contexts exist. -/
def Old (P : Nat → Nat → Prop) (w w' : World) : Prop := ∀ i i', P i i' → i < w.nextCtx ∧ i' < w'.nextCtx

theorem Rel.newCtx {P : Nat → Nat → Prop} {S L : Nat → Prop} {w w' : World} (h : Rel P S L w w') (ho : Old P w w') (c : Ctx)
    (hc : ∀ k, .heap k ∈ c.stores → S k) :
    Rel (fun i i' => P i i' ∨ (i = w.nextCtx ∧ i' = w'.nextCtx)) S L (M.newCtx c w).2 (M.newCtx c w').2 ∧
    Old (fun i i' => P i i' ∨ (i = w.nextCtx ∧ i' = w'.nextCtx)) (M.newCtx c w).2 (M.newCtx c w').2 := by
  refine ⟨⟨?_, ?_, ?_, h.stores, h.fine, h.loaded⟩, ?_⟩
  · intro i i' j j' h1 h2
    rcases h1 with h1 | ⟨rfl, rfl⟩ <;> rcases h2 with h2 | ⟨rfl, rfl⟩
    · exact h.inj i i' j j' h1 h2
    · have := ho i i' h1; constructor <;> intro e <;> omega
    · have := ho j j' h2; constructor <;> intro e <;> omega
    · simp
  · intro i i' h1
    show (if i = w.nextCtx then c else w.ctxs i) = (if i' = w'.nextCtx then c else w'.ctxs i')
    rcases h1 with h1 | ⟨rfl, rfl⟩
    · have := ho i i' h1
      rw [if_neg (by omega), if_neg (by omega), h.ctx i i' h1]
    · rw [if_pos rfl, if_pos rfl]
  · intro i i' h1 k hk
    have hk' : StoreRef.heap k ∈ (if i = w.nextCtx then c else w.ctxs i).stores := hk
    rcases h1 with h1 | ⟨rfl, rfl⟩
    · have := ho i i' h1
      rw [if_neg (by omega)] at hk'
      exact h.refs i i' h1 k hk'
    · rw [if_pos rfl] at hk'
      exact hc k hk'
  · intro i i' h1
    show i < w.nextCtx + 1 ∧ i' < w'.nextCtx + 1
    rcases h1 with h1 | ⟨rfl, rfl⟩
    · have := ho i i' h1; omega
    · omega

/-- Corresponding optional contexts. -/
def OptP (P : Nat → Nat → Prop) (x x' : Option Nat) : Prop := (x = none ∧ x' = none) ∨ ∃ i i', x = some i ∧ x' = some i' ∧ P i i'

/-- Arguments that differ only in the numbering of the contexts. -/
structure ArgsRel (P : Nat → Nat → Prop) (args args' : VerifyArgs) : Prop where
  hash : args.expectedHash = args'.expectedHash
  trusted : args.trusted = args'.trusted
  options : args.options = args'.options
  mode : args.countersignatureMode = args'.countersignatureMode
  context : OptP P args.context args'.context
  csContext : OptP P args.csContext args'.csContext

theorem chooseContext_sim {P : Nat → Nat → Prop} {S L : Nat → Prop} {w w' : World} (a : AuthData) {args args' : VerifyArgs}
    (h : Rel P S L w w') (ho : Old P w w') (ha : ArgsRel P args args') (hS : ∀ k, args.trusted = .heap k → S k) :
    ∃ cid cid' v v' Q, chooseContext a args w = (.ok cid, v) ∧ chooseContext a args' w' = (.ok cid', v') ∧ Rel Q S L v v' ∧ Old Q v v' ∧
      (∀ i i', P i i' → Q i i') ∧ Q cid cid' := by
  unfold chooseContext
  rcases ha.context with ⟨e, e'⟩ | ⟨i, i', e, e', hp⟩
  · rw [e, e', ← ha.trusted, ← ha.options]
    have hc : ∀ k, .heap k ∈ (mkCtx [args.trusted, .embedded a.core.certificates] ["code_signing"] args.options).stores → S k := by
      intro k hk
      simp only [mkCtx, List.mem_cons, List.not_mem_nil, or_false] at hk
      rcases hk with hk | hk
      · exact hS k hk.symm
      · cases hk
    obtain ⟨h1, h2⟩ := h.newCtx ho _ hc
    exact ⟨_, _, _, _, _, rfl, rfl, h1, h2, fun _ _ k => .inl k, .inr ⟨rfl, rfl⟩⟩
  · rw [e, e']
    exact ⟨i, i', w, w', P, rfl, rfl, h, ho, fun _ _ k => k, hp⟩

theorem chooseCsContext_sim {P : Nat → Nat → Prop} {S L : Nat → Prop} {w w' : World} (a : AuthData) {args args' : VerifyArgs}
    (h : Rel P S L w w') (ho : Old P w w') (ha : ArgsRel P args args') (hS : ∀ k, args.trusted = .heap k → S k) :
    ∃ cs cs' v v' Q, chooseCsContext a args w = (.ok cs, v) ∧ chooseCsContext a args' w' = (.ok cs', v') ∧ Rel Q S L v v' ∧
      (∀ i i', P i i' → Q i i') ∧ OptP Q cs cs' := by
  unfold chooseCsContext
  rcases ha.csContext with ⟨e, e'⟩ | ⟨i, i', e, e', hp⟩
  · rw [e, e', ← ha.trusted, ← ha.options, ← ha.mode]
    cases a.counter with
    | none => exact ⟨none, none, w, w', P, rfl, rfl, h, fun _ _ k => k, .inl ⟨rfl, rfl⟩⟩
    | some c =>
      simp only
      split
      · have hc : ∀ k, .heap k ∈ (mkCtx (counterStores a c args.trusted) ["time_stamping"] args.options).stores → S k := by
          intro k hk
          unfold mkCtx counterStores at hk
          cases c with
          | pkcs9 _ =>
            simp only [List.append_nil, List.mem_cons, List.not_mem_nil, or_false] at hk
            rcases hk with hk | hk
            · exact hS k hk.symm
            · cases hk
          | rfc3161 r =>
            simp only [List.cons_append, List.nil_append, List.mem_cons, List.not_mem_nil, or_false] at hk
            rcases hk with hk | hk | hk
            · exact hS k hk.symm
            · cases hk
            · cases hk
        obtain ⟨h1, h2⟩ := h.newCtx ho _ hc
        exact ⟨_, _, _, _, _, rfl, rfl, h1, fun _ _ k => .inl k, .inr ⟨_, _, rfl, rfl, .inr ⟨rfl, rfl⟩⟩⟩
      · exact ⟨none, none, w, w', P, rfl, rfl, h, fun _ _ k => k, .inl ⟨rfl, rfl⟩⟩
  · rw [e, e']
    exact ⟨some i, some i', w, w', P, rfl, rfl, h, fun _ _ k => k, .inr ⟨i, i', rfl, rfl, hp⟩⟩

theorem ArgsRel.mono {P Q : Nat → Nat → Prop} {args args' : VerifyArgs} (h : ArgsRel P args args') (hq : ∀ i i', P i i' → Q i i') :
    ArgsRel Q args args' := by
  have hm : ∀ {x x'}, OptP P x x' → OptP Q x x' := by
    rintro x x' (h | ⟨i, i', e, e', hp⟩)
    · exact .inl h
    · exact .inr ⟨i, i', e, e', hq _ _ hp⟩
  exact ⟨h.hash, h.trusted, h.options, h.mode, hm h.context, hm h.csContext⟩

/-- The outcome of `AuthenticodeSignedData.verify` in corresponding states. -/
theorem asdVerify_sim {P : Nat → Nat → Prop} {S L : Nat → Prop} {w w' : World} (env : Env) (file : Option Bytes) (a : AuthData)
    {args args' : VerifyArgs} (h : Rel P S L w w') (ho : Old P w w') (ha : ArgsRel P args args')
    (hS : ∀ k, args.trusted = .heap k → S k) :
    (asdVerify env file a args w).1 = (asdVerify env file a args' w').1 ∧
      Rel P S L (asdVerify env file a args w).2 (asdVerify env file a args' w').2 := by
  obtain ⟨cid, cid', v, v', Q, h1, h2, h3, h4, h5, h6⟩ := chooseContext_sim a h ho ha hS
  obtain ⟨cs, cs', u, u', R, g1, g2, g3, g5, g6⟩ := chooseCsContext_sim a h3 h4 (ha.mono h5) hS
  unfold asdVerify
  rw [M.bind_ok h1, M.bind_ok h2, M.bind_ok g1, M.bind_ok g2, ← ha.hash, ← ha.mode]
  obtain ⟨k1, k2⟩ := (Sim.bind (Sim.lift (checkDigests env file a args.expectedHash)) (fun _ =>
    Sim.bind (Sim.counterTime env a args.countersignatureMode g6) (fun t => Sim.authSignerVerify env (g5 _ _ h6) a.signer t)) :
      Sim R S L _ _) u u' g3
  exact ⟨k1, k2.restrict (fun i i' hp => g5 _ _ (h5 _ _ hp))⟩

end Signify
