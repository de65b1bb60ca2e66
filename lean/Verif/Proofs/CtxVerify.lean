import Verif.Proofs.Trust
import Verif.Proofs.Dict

set_option autoImplicit false

namespace Signify

open Spec

/-- the object map of `verify` -/
def certMap (known : List Cert) (c : Cert) : Dict Nat Cert := known.foldl (fun d c => d.set c.obj c) [(c.obj, c)]

theorem collectCerts_loaded (w : World) (rs : List StoreRef) (hl : ∀ r ∈ rs, LoadedStore w r) (roots inter : List Nat)
    (all : Dict Nat Cert) :
    collectCerts rs roots inter all w =
      (.ok (roots ++ (rs.filter (fun r => storeTrusted w r)).flatMap (fun r => (certsOf w r).map Cert.obj),
        inter ++ (rs.filter (fun r => !storeTrusted w r)).flatMap (fun r => (certsOf w r).map Cert.obj),
        (rs.flatMap (certsOf w)).foldl (fun d c => d.set c.obj c) all), w) := by
  induction rs generalizing roots inter all with
  | nil => simp [collectCerts, M.pure_run]
  | cons r rs ih =>
    have hl' : ∀ r ∈ rs, LoadedStore w r := fun r' hr' => hl r' (List.mem_cons_of_mem _ hr')
    unfold collectCerts
    rw [M.bind_ok (iterStore_loaded (hl r (by simp))), M.bind_ok (show M.world w = (.ok w, w) from rfl)]
    by_cases ht : storeTrusted w r = true
    · rw [if_pos ht, ih hl', List.filter_cons_of_pos ht, List.filter_cons_of_neg (by simp [ht]), List.flatMap_cons,
        List.flatMap_cons, List.foldl_append, List.append_assoc]
    · rw [if_neg ht, ih hl', List.filter_cons_of_neg ht, List.filter_cons_of_pos (by simp [ht]), List.flatMap_cons,
        List.flatMap_cons, List.foldl_append, List.append_assoc]

/-- the state after the usages of a context have been iterated -/
def exhaust (w : World) (cid : Nat) : World := exhaustEkus (exhaustKus w cid) cid

theorem exhaust_of {w : World} {cid : Nat} (h : Reiterable (w.ctxs cid).ekus) (k : Reiterable (w.ctxs cid).keyUsages) :
    exhaust w cid = w := by
  unfold exhaust
  rw [exhaustKus_of k, exhaustEkus_of h]

theorem ctxVerify_loaded (env : Env) (cid : Nat) (c : Cert) (w : World) (hl : Loaded w cid) :
    ctxVerify env cid c w =
      (match env.mkValidator { request w cid c with keyUsages := [], ekus := [] } with
      | .error e => (.error e, w)
      | .ok _ =>
        match env.validate (request w cid c) with
        | .error _ => (certErr c "Chain verification failed", exhaust w cid)
        | .ok ids =>
          match lookupAll (certMap (knownCerts w cid) c) ids with
          | .error e => (.error e, exhaust w cid)
          | .ok chain => (ctxVerifyTrust env cid chain >>= fun _ => pure chain) (exhaust w cid)) := by
  unfold ctxVerify
  rw [M.getCtx_bind, M.bind_ok (collectCerts_loaded w _ hl [] [] [(c.obj, c)])]
  simp only [List.nil_append]
  show (M.lift (env.mkValidator { request w cid c with keyUsages := [], ekus := [] }) >>= _) w = _
  cases hm : env.mkValidator { request w cid c with keyUsages := [], ekus := [] } with
  | error e => rfl
  | ok u =>
    rw [M.bind_ok (M.lift_run _ w), M.bind_ok (takeKeyUsages_run cid w), M.bind_ok (takeEkus_run cid _)]
    have hek : ((exhaustKus w cid).ctxs cid).ekus = (w.ctxs cid).ekus := by simp [exhaustKus]
    rw [hek]
    show (match env.validate (request w cid c) with
        | .error _ => M.lift (certErr c "Chain verification failed")
        | .ok chain => (M.lift (lookupAll (certMap (knownCerts w cid) c) chain) >>= fun chain =>
            ctxVerifyTrust env cid chain >>= fun _ => pure chain) : M (List Cert)) (exhaust w cid) = _
    cases hv : env.validate (request w cid c) with
    | error e => rfl
    | ok ids =>
      simp only
      cases hx : lookupAll (certMap (knownCerts w cid) c) ids with
      | error e => rfl
      | ok chain => rfl

theorem certMap_get {known : List Cert} {c : Cert} {x : Nat} {d : Cert} (h : (certMap known c).get? x = some d) :
    d.obj = x ∧ (d = c ∨ d ∈ known) := by
  have key : ∀ (l : List Cert) (acc : Dict Nat Cert), (∀ x d, acc.get? x = some d → d.obj = x ∧ (d = c ∨ d ∈ known)) →
      (∀ d ∈ l, d ∈ known) → ∀ x d, (l.foldl (fun d c => d.set c.obj c) acc).get? x = some d → d.obj = x ∧ (d = c ∨ d ∈ known) := by
    intro l
    induction l with
    | nil => intro acc h _ x d hd; exact h x d hd
    | cons e l ih =>
      intro acc hacc hl x d hd
      rw [List.foldl_cons] at hd
      refine ih (acc.set e.obj e) ?_ (fun d hd => hl d (List.mem_cons_of_mem _ hd)) x d hd
      intro y f hf
      by_cases hy : y = e.obj
      · subst hy
        rw [Dict.get?_set, if_pos rfl] at hf
        cases hf
        exact ⟨rfl, .inr (hl e (by simp))⟩
      · rw [Dict.get?_set, if_neg hy] at hf
        exact hacc y f hf
  refine key known [(c.obj, c)] ?_ (fun _ h => h) x d h
  intro y f hf
  simp only [Dict.get?] at hf
  split at hf
  · rename_i hy; cases hf; exact ⟨hy, .inl rfl⟩
  · cases hf

theorem lookupAll_ok {all : Dict Nat Cert} {ids : List Nat} {chain : List Cert} (h : lookupAll all ids = .ok chain) :
    ids.map (fun x => all.get? x) = chain.map some := by
  induction ids generalizing chain with
  | nil => cases h; rfl
  | cons x l ih =>
    unfold lookupAll at h
    cases hx : all.get? x with
    | none => rw [hx] at h; cases h
    | some d =>
      rw [hx] at h
      simp only at h
      cases hl : lookupAll all l with
      | error e => rw [hl] at h; cases h
      | ok cs =>
        rw [hl] at h
        cases h
        rw [List.map_cons, ih hl, hx]
        rfl

theorem lookupAll_error {all : Dict Nat Cert} {ids : List Nat} {e : Exc} (h : lookupAll all ids = .error e) :
    e.cls = .keyError ∧ ∃ x ∈ ids, all.get? x = none := by
  induction ids with
  | nil => cases h
  | cons x l ih =>
    unfold lookupAll at h
    cases hx : all.get? x with
    | none => rw [hx] at h; cases h; exact ⟨rfl, x, by simp, hx⟩
    | some d =>
      rw [hx] at h
      simp only at h
      cases hl : lookupAll all l with
      | error e' =>
        rw [hl] at h
        cases h
        obtain ⟨h1, y, hy, h2⟩ := ih hl
        exact ⟨h1, y, List.mem_cons_of_mem _ hy, h2⟩
      | ok cs => rw [hl] at h; cases h

theorem lookupAll_certMap {known : List Cert} {c : Cert} {ids : List Nat} {chain : List Cert}
    (h : lookupAll (certMap known c) ids = .ok chain) :
    chain.map Cert.obj = ids ∧ ∀ d ∈ chain, d = c ∨ d ∈ known := by
  replace h := lookupAll_ok h
  induction ids generalizing chain with
  | nil =>
    have : chain = [] := by simpa using h.symm
    subst this; simp
  | cons x l ih =>
    cases chain with
    | nil => simp at h
    | cons d cs =>
      simp only [List.map_cons, List.cons.injEq] at h
      obtain ⟨h1, h2⟩ := h
      obtain ⟨g1, g2⟩ := certMap_get h1
      obtain ⟨i1, i2⟩ := ih h2
      refine ⟨by rw [List.map_cons, g1, i1], ?_⟩
      intro y hy
      rcases List.mem_cons.mp hy with rfl | hy
      · exact g2
      · exact i2 y hy

/-! ### frame facts that need no loading assumption -/

theorem iterStore_frame (r : StoreRef) (w : World) :
    (iterStore r w).2.ctxs = w.ctxs ∧ ∀ i, ((iterStore r w).2.stores i).trusted = (w.stores i).trusted ∧
      ((iterStore r w).2.stores i).ctl = (w.stores i).ctl := by
  cases r with
  | embedded _ => exact ⟨rfl, fun _ => ⟨rfl, rfl⟩⟩
  | heap i =>
    have hrun : iterStore (.heap i) w = (match (w.stores i).pending with
      | none => pure (w.stores i).items
      | some (certs, exc) =>
        (M.setStore i { w.stores i with items := (w.stores i).items ++ certs, pending := none } >>= fun _ =>
          match exc with
          | none => pure ((w.stores i).items ++ certs)
          | some e => M.raise e) : M (List Cert)) w := rfl
    rw [hrun]
    rcases (w.stores i).pending with _ | ⟨certs, exc⟩
    · exact ⟨rfl, fun _ => ⟨rfl, rfl⟩⟩
    · cases exc
      all_goals
        refine ⟨rfl, fun j => ?_⟩
        show (if j = i then _ else w.stores j : Store).trusted = _ ∧ (if j = i then _ else w.stores j : Store).ctl = _
        split
        · rename_i h; subst h; exact ⟨rfl, rfl⟩
        · exact ⟨rfl, rfl⟩

theorem collectCerts_ctxs (rs : List StoreRef) (roots inter : List Nat) (all : Dict Nat Cert) (w : World) :
    (collectCerts rs roots inter all w).2.ctxs = w.ctxs := by
  induction rs generalizing roots inter all w with
  | nil => rfl
  | cons r rs ih =>
    unfold collectCerts
    have hf := (iterStore_frame r w).1
    rw [M.bind_run]
    rcases hx : iterStore r w with ⟨x, w1⟩
    rw [hx] at hf
    cases x with
    | error e => exact hf
    | ok l =>
      simp only
      rw [M.bind_ok (show M.world w1 = (.ok w1, w1) from rfl)]
      split
      · rw [ih]; exact hf
      · rw [ih]; exact hf

theorem exhaust_stores (w : World) (cid : Nat) : (exhaust w cid).stores = w.stores := rfl

theorem exhaust_ctx_stores (w : World) (cid j : Nat) : ((exhaust w cid).ctxs j).stores = (w.ctxs j).stores := by
  unfold exhaust exhaustEkus exhaustKus
  simp only
  split
  · rename_i h; subst h; simp
  · rename_i h; simp

theorem lift_eq_ok {α : Type} {x : Except Exc α} {w w' : World} {a : α} (h : M.lift x w = (.ok a, w')) : x = .ok a ∧ w' = w := by
  unfold M.lift at h
  exact ⟨(Prod.mk.inj h).1, (Prod.mk.inj h).2.symm⟩

/-- In any state: a chain returned by `verify` has passed `verify_trust` in a state with the stores as they are at the end. -/
theorem ctxVerify_ok {env : Env} {cid : Nat} {c : Cert} {w w' : World} {chain : List Cert}
    (h : ctxVerify env cid c w = (.ok chain, w')) :
    ∃ w1, w1.stores = w'.stores ∧ (w1.ctxs cid).stores = (w.ctxs cid).stores ∧ w1.ctxs = (exhaust w cid).ctxs ∧
      verifyTrustLoop env cid chain (w.ctxs cid).stores none w1 = (.ok (), w') := by
  unfold ctxVerify at h
  rw [M.getCtx_bind] at h
  obtain ⟨⟨roots, inter, all⟩, w1, h1, h⟩ := M.bind_eq_ok h
  have hc1 : w1.ctxs = w.ctxs := by
    have := collectCerts_ctxs (w.ctxs cid).stores [] [] [(c.obj, c)] w
    rw [h1] at this
    exact this
  simp only at h
  replace h := M.bind_eq_ok h
  obtain ⟨u, w2, h2, h⟩ := h
  obtain ⟨-, e2⟩ := lift_eq_ok h2
  subst e2
  rw [M.bind_ok (takeKeyUsages_run cid _), M.bind_ok (takeEkus_run cid _)] at h
  generalize env.validate _ = res at h
  cases res with
  | error e => exact absurd (Prod.mk.inj h).1 (raiseNaming_ne_ok _ _ _)
  | ok ids =>
    obtain ⟨ch, w3, h3, h⟩ := M.bind_eq_ok h
    obtain ⟨-, e3⟩ := lift_eq_ok h3
    subst e3
    obtain ⟨u, w4, h4, h⟩ := M.bind_eq_ok h
    rw [M.pure_run] at h
    have e5 := (Prod.mk.inj h).1
    have e6 := (Prod.mk.inj h).2
    cases e5
    subst e6
    unfold ctxVerifyTrust at h4
    rw [M.getCtx_bind] at h4
    have hst : ((exhaustEkus (exhaustKus w2 cid) cid).ctxs cid).stores = (w.ctxs cid).stores := by
      rw [← hc1]; exact exhaust_ctx_stores w2 cid cid
    rw [hst] at h4
    exact ⟨_, ((verifyTrustLoop_sound env cid _ _ _ _ _ h4).1).symm, hst, by simp only [exhaust, exhaustEkus, exhaustKus, hc1], h4⟩

end Signify
