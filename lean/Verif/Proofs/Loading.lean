/-
Loading of file system stores: what does not depend on when it happens (C43).
-/
import Verif.Proofs.CtxVerify

set_option autoImplicit false

namespace Signify

open Spec

/-- Two states that agree on the contexts and on the given stores. -/
structure Agree (rs : List StoreRef) (w w' : World) : Prop where
  ctxs : w.ctxs = w'.ctxs
  stores : ∀ i, .heap i ∈ rs → w.stores i = w'.stores i

/-- A computation that looks at no other stores. -/
def Congr {α : Type} (rs : List StoreRef) (x : M α) : Prop :=
  ∀ w w', Agree rs w w' → (x w).1 = (x w').1 ∧ Agree rs (x w).2 (x w').2

theorem Congr.bind {α β : Type} {rs : List StoreRef} {x : M α} {f : α → M β} (hx : Congr rs x) (hf : ∀ a, Congr rs (f a)) :
    Congr rs (x >>= f) := by
  intro w w' h
  rw [M.bind_run, M.bind_run]
  obtain ⟨h1, h2⟩ := hx w w' h
  rcases hw : x w with ⟨r, w1⟩
  rcases hw' : x w' with ⟨r', w1'⟩
  rw [hw, hw'] at h1 h2
  simp only at h1 h2
  subst h1
  cases r with
  | error e => exact ⟨rfl, h2⟩
  | ok a => exact hf a w1 w1' h2

theorem Congr.pure {α : Type} {rs : List StoreRef} (a : α) : Congr rs (pure a : M α) := fun _ _ h => ⟨rfl, h⟩

theorem Congr.lift {α : Type} {rs : List StoreRef} (a : Except Exc α) : Congr rs (M.lift a) := fun _ _ h => ⟨rfl, h⟩

theorem Congr.raise {α : Type} {rs : List StoreRef} (e : Exc) : Congr rs (M.raise e : M α) := fun _ _ h => ⟨rfl, h⟩

theorem Congr.getCtx {rs : List StoreRef} (i : Nat) : Congr rs (M.getCtx i) := fun w w' h => ⟨by
  show Except.ok (w.ctxs i) = Except.ok (w'.ctxs i)
  rw [h.ctxs], h⟩

theorem Congr.takeEkus {rs : List StoreRef} (i : Nat) : Congr rs (takeEkus i) := fun w w' h => by
  rw [takeEkus_run, takeEkus_run]
  refine ⟨by rw [h.ctxs], ⟨?_, h.stores⟩⟩
  simp only [exhaustEkus, h.ctxs]

theorem Congr.takeKeyUsages {rs : List StoreRef} (i : Nat) : Congr rs (takeKeyUsages i) := fun w w' h => by
  rw [takeKeyUsages_run, takeKeyUsages_run]
  refine ⟨by rw [h.ctxs], ⟨?_, h.stores⟩⟩
  simp only [exhaustKus, h.ctxs]

theorem Congr.ctlVerifyTrust {rs : List StoreRef} (env : Env) (cid : Nat) (ctl : CTL) (chain : List Cert) :
    Congr rs (ctlVerifyTrust env cid ctl chain) := by
  unfold Signify.ctlVerifyTrust
  split
  · exact Congr.raise _
  · refine Congr.bind (Congr.lift _) (fun subj => ?_)
    split
    · exact Congr.lift _
    · exact Congr.bind (Congr.getCtx _) (fun _ => Congr.bind (Congr.takeEkus _) (fun _ => Congr.lift _))

theorem storeIsTrusted_agree {rs : List StoreRef} {w w' : World} (h : Agree rs w w') {r : StoreRef} (hr : r ∈ rs) (c : Cert) :
    storeIsTrusted w r c = storeIsTrusted w' r c := by
  cases r with
  | embedded _ => rfl
  | heap i => simp only [storeIsTrusted, h.stores i hr]

theorem Congr.storeVerifyTrust {rs : List StoreRef} (env : Env) (cid : Nat) {r : StoreRef} (hr : r ∈ rs) (chain : List Cert) :
    Congr rs (storeVerifyTrust env cid r chain) := by
  intro w w' h
  unfold Signify.storeVerifyTrust
  cases chain.head? with
  | none => exact ⟨rfl, h⟩
  | some root =>
    simp only [storeIsTrusted_agree h hr root]
    split
    · exact ⟨rfl, h⟩
    · cases r with
      | embedded _ => exact ⟨rfl, h⟩
      | heap i =>
        simp only [h.stores i hr]
        cases (w'.stores i).ctl with
        | none => exact ⟨rfl, h⟩
        | some ctl => exact Congr.ctlVerifyTrust env cid ctl chain w w' h

theorem Congr.verifyTrustLoop {rs : List StoreRef} (env : Env) (cid : Nat) (chain : List Cert) (rs' : List StoreRef)
    (hsub : ∀ r ∈ rs', r ∈ rs) (exc : Option Exc) : Congr rs (verifyTrustLoop env cid chain rs' exc) := by
  induction rs' generalizing exc with
  | nil => cases exc <;> exact Congr.raise _
  | cons r rs' ih =>
    intro w w' h
    obtain ⟨h1, h2⟩ := Congr.storeVerifyTrust env cid (hsub r (by simp)) chain w w' h
    have ih' := ih (fun r hr => hsub r (List.mem_cons_of_mem _ hr))
    unfold Signify.verifyTrustLoop
    rcases hw : Signify.storeVerifyTrust env cid r chain w with ⟨x, w1⟩
    rcases hw' : Signify.storeVerifyTrust env cid r chain w' with ⟨x', w1'⟩
    rw [hw, hw'] at h1 h2
    simp only at h1 h2
    subst h1
    cases x with
    | ok u => exact ⟨rfl, h2⟩
    | error e =>
      simp only
      split
      · exact ih' _ w1 w1' h2
      · split
        · exact ih' _ w1 w1' h2
        · exact ⟨rfl, h2⟩

/-! ### the states before and after loading -/

theorem loaded_of_none {s : Store} (h : s.pending = none) : Spec.Store.loaded s = s := by
  unfold Spec.Store.loaded; rw [h]

theorem loaded_pending (s : Store) : (Spec.Store.loaded s).pending = none := by
  unfold Spec.Store.loaded
  split
  · assumption
  · rfl

theorem loaded_trusted (s : Store) : (Spec.Store.loaded s).trusted = s.trusted := by
  unfold Spec.Store.loaded
  split <;> rfl

theorem loadedWorld_loadedStore (w : World) (r : StoreRef) : LoadedStore (loadedWorld w) r := by
  cases r with
  | embedded _ => trivial
  | heap i => exact loaded_pending _

/-- Iterating a store whose location can be read. -/
theorem iterStore_fine (w : World) (r : StoreRef)
    (hf : ∀ i, r = .heap i → ∀ certs e, (w.stores i).pending = some (certs, e) → e = none) :
    ∃ w1, iterStore r w = (.ok (certsOf (loadedWorld w) r), w1) ∧ loadedWorld w1 = loadedWorld w ∧ LoadedStore w1 r ∧
      (∀ r', LoadedStore w r' → LoadedStore w1 r') ∧
      (∀ i certs e, (w1.stores i).pending = some (certs, e) → (w.stores i).pending = some (certs, e)) := by
  cases r with
  | embedded certs => exact ⟨w, rfl, rfl, trivial, fun _ h => h, fun _ _ _ h => h⟩
  | heap i =>
    have hrun : iterStore (.heap i) w = (match (w.stores i).pending with
      | none => pure (w.stores i).items
      | some (certs, exc) =>
        (M.setStore i { w.stores i with items := (w.stores i).items ++ certs, pending := none } >>= fun _ =>
          match exc with
          | none => pure ((w.stores i).items ++ certs)
          | some e => M.raise e) : M (List Cert)) w := rfl
    rw [hrun]
    rcases hp : (w.stores i).pending with _ | ⟨certs, exc⟩
    · refine ⟨w, ?_, rfl, hp, fun _ h => h, fun _ _ _ h => h⟩
      show (Except.ok (w.stores i).items, w) = _
      simp only [certsOf, loadedWorld, loaded_of_none hp]
    · have := hf i rfl certs exc hp
      subst this
      refine ⟨{ w with stores := fun j => if j = i then { w.stores i with items := (w.stores i).items ++ certs, pending := none }
          else w.stores j }, ?_, ?_, ?_, ?_, ?_⟩
      · show (Except.ok ((w.stores i).items ++ certs), _) = _
        simp only [certsOf, loadedWorld, Spec.Store.loaded, hp]
      · unfold loadedWorld
        simp only
        congr 1
        funext j
        by_cases hj : j = i
        · subst hj; simp [Spec.Store.loaded, hp]
        · simp [hj]
      · simp [LoadedStore]
      · intro r' hr'
        cases r' with
        | embedded _ => trivial
        | heap j =>
          unfold LoadedStore at hr' ⊢
          simp only
          split
          · rfl
          · exact hr'
      · intro j cs e hj
        simp only at hj
        split at hj
        · cases hj
        · exact hj

def FineStores (w : World) (rs : List StoreRef) : Prop :=
  ∀ r ∈ rs, ∀ i, r = .heap i → ∀ certs e, (w.stores i).pending = some (certs, e) → e = none

theorem storeTrusted_loadedWorld (w : World) (r : StoreRef) : storeTrusted (loadedWorld w) r = storeTrusted w r := by
  cases r with
  | embedded _ => rfl
  | heap i => exact loaded_trusted _

theorem collectCerts_fine (rs : List StoreRef) (roots inter : List Nat) (all : Dict Nat Cert) (w : World) (hf : FineStores w rs) :
    ∃ w1, collectCerts rs roots inter all w = ((collectCerts rs roots inter all (loadedWorld w)).1, w1) ∧
      loadedWorld w1 = loadedWorld w ∧ (∀ r ∈ rs, LoadedStore w1 r) ∧ (∀ r', LoadedStore w r' → LoadedStore w1 r') := by
  induction rs generalizing roots inter all w with
  | nil => exact ⟨w, rfl, rfl, by simp, fun _ h => h⟩
  | cons r rs ih =>
    obtain ⟨w1, h1, h2, h3, h4, h5⟩ := iterStore_fine w r (hf r (by simp))
    have hf1 : FineStores w1 rs := fun r' hr' i hi certs e he => hf r' (List.mem_cons_of_mem _ hr') i hi certs e (h5 i certs e he)
    unfold collectCerts
    rw [M.bind_ok h1, M.bind_ok (iterStore_loaded (loadedWorld_loadedStore w r)),
      M.bind_ok (show M.world w1 = (.ok w1, w1) from rfl),
      M.bind_ok (show M.world (loadedWorld w) = (.ok (loadedWorld w), loadedWorld w) from rfl)]
    have ht : storeTrusted (loadedWorld w) r = storeTrusted w1 r := by rw [← h2, storeTrusted_loadedWorld]
    rw [ht]
    have hg : ∀ roots inter all, ∃ w2, collectCerts rs roots inter all w1 = ((collectCerts rs roots inter all (loadedWorld w)).1, w2) ∧
        loadedWorld w2 = loadedWorld w ∧ (∀ r' ∈ r :: rs, LoadedStore w2 r') ∧ (∀ r', LoadedStore w r' → LoadedStore w2 r') := by
      intro roots inter all
      obtain ⟨w2, g1, g2, g3, g4⟩ := ih roots inter all w1 hf1
      refine ⟨w2, by rw [g1, h2], g2.trans h2, ?_, fun r' hr' => g4 r' (h4 r' hr')⟩
      intro r' hr'
      rcases List.mem_cons.mp hr' with rfl | hr'
      · exact g4 _ h3
      · exact g3 r' hr'
    split
    · exact hg _ _ _
    · exact hg _ _ _

theorem allCertificates_fine (rs : List StoreRef) (w : World) (hf : FineStores w rs) :
    (allCertificates rs w).1 = .ok (rs.flatMap (certsOf (loadedWorld w))) := by
  induction rs generalizing w with
  | nil => rfl
  | cons r rs ih =>
    obtain ⟨w1, h1, h2, h3, h4, h5⟩ := iterStore_fine w r (hf r (by simp))
    have hf1 : FineStores w1 rs := fun r' hr' i hi certs e he => hf r' (List.mem_cons_of_mem _ hr') i hi certs e (h5 i certs e he)
    have := ih w1 hf1
    unfold allCertificates
    rw [M.bind_ok h1]
    rcases hx : allCertificates rs w1 with ⟨x, w2⟩
    rw [hx] at this
    simp only at this
    subst this
    rw [M.bind_ok hx, h2]
    rfl

/-- The rest of `verify` after the certificates have been collected. -/
def ctxVerifyRest (env : Env) (cid : Nat) (c : Cert) (ctx : Ctx) (x : List Nat × List Nat × Dict Nat Cert) : M (List Cert) := do
  let (roots, inter, all) := x
  let req : ValReq := {
    endEntity := c.obj, intermediates := inter, trustRoots := roots, moment := ctx.timestamp,
    allowWeakHashes := ctx.allowLegacy, revocationMode := ctx.revocationMode, allowFetching := ctx.allowFetching,
    fetchTimeout := ctx.fetchTimeout, crls := ctx.crls, ocsps := ctx.ocsps,
    keyUsages := [], ekus := [], ekuOptional := ctx.optionalEku }
  M.lift (env.mkValidator req)
  let kus ← takeKeyUsages cid
  let ekus ← takeEkus cid
  match env.validate { req with keyUsages := kus, ekus := ekus } with
  | .error _ => M.lift (certErr c "Chain verification failed")
  | .ok chain => do
    let chain ← M.lift (lookupAll all chain)
    ctxVerifyTrust env cid chain
    pure chain

theorem ctxVerify_split (env : Env) (cid : Nat) (c : Cert) (w : World) :
    ∃ k : List Nat × List Nat × Dict Nat Cert → M (List Cert),
      (∀ w' : World, w'.ctxs = w.ctxs → ctxVerify env cid c w' =
        (collectCerts (w.ctxs cid).stores [] [] [(c.obj, c)] >>= k) w') ∧
      ∀ x w1 w2, w1.ctxs = w.ctxs → Agree (w.ctxs cid).stores w1 w2 → (k x w1).1 = (k x w2).1 := by
  refine ⟨ctxVerifyRest env cid c (w.ctxs cid), fun w' hw' => ?_, ?_⟩
  · unfold ctxVerify
    rw [M.getCtx_bind, hw']
    rfl
  · rintro ⟨roots, inter, all⟩ w1 w2 hc h
    unfold ctxVerifyRest
    dsimp only
    have main : ∀ chain (w1 w2 : World), (w1.ctxs cid).stores = (w.ctxs cid).stores → Agree (w.ctxs cid).stores w1 w2 →
        ((ctxVerifyTrust env cid chain >>= fun _ => pure chain : M (List Cert)) w1).1 =
        ((ctxVerifyTrust env cid chain >>= fun _ => pure chain : M (List Cert)) w2).1 := by
      intro chain w1 w2 hs h
      unfold ctxVerifyTrust
      rw [M.bind_assoc, M.getCtx_bind, M.getCtx_bind, ← h.ctxs, hs]
      exact (Congr.bind (Congr.verifyTrustLoop env cid chain _ (fun _ h => h) none) (fun _ => Congr.pure chain) w1 w2 h).1
    generalize env.mkValidator _ = mk
    cases mk with
    | error e => rfl
    | ok u =>
      rw [M.bind_ok (M.lift_run _ w1), M.bind_ok (M.lift_run _ w2), M.bind_ok (takeKeyUsages_run cid _),
        M.bind_ok (takeKeyUsages_run cid _), M.bind_ok (takeEkus_run cid _), M.bind_ok (takeEkus_run cid _)]
      have e1 := (Congr.takeKeyUsages (rs := (w.ctxs cid).stores) cid w1 w2 h)
      rw [takeKeyUsages_run, takeKeyUsages_run] at e1
      have e2 := (Congr.takeEkus (rs := (w.ctxs cid).stores) cid _ _ e1.2)
      rw [takeEkus_run, takeEkus_run] at e2
      have f1 : (w1.ctxs cid).keyUsages.elems = (w2.ctxs cid).keyUsages.elems := by injection e1.1
      have f2 : ((exhaustKus w1 cid).ctxs cid).ekus.elems = ((exhaustKus w2 cid).ctxs cid).ekus.elems := by injection e2.1
      rw [f1, f2]
      generalize env.validate _ = res
      cases res with
      | error e => rfl
      | ok ids =>
        dsimp only
        cases lookupAll all ids with
        | error e => rfl
        | ok chain =>
          rw [M.bind_ok (M.lift_run _ _), M.bind_ok (M.lift_run _ _)]
          refine main chain _ _ ?_ e2.2
          have := exhaust_ctx_stores w1 cid cid
          rw [hc] at this
          exact this

theorem agree_loadedWorld {w : World} {rs : List StoreRef} (h : ∀ r ∈ rs, LoadedStore w r) : Agree rs w (loadedWorld w) :=
  ⟨rfl, fun _ hi => (loaded_of_none (h _ hi)).symm⟩

/-- Whether the stores have been loaded does not influence the outcome of `verify`. -/
theorem ctxVerify_loading (env : Env) (cid : Nat) (c : Cert) (w : World) (hf : LoadsFine w cid) :
    (ctxVerify env cid c w).1 = (ctxVerify env cid c (loadedWorld w)).1 := by
  obtain ⟨k, hk1, hk2⟩ := ctxVerify_split env cid c w
  rw [hk1 w rfl, hk1 (loadedWorld w) rfl]
  obtain ⟨w1, h1, h2, h3, -⟩ := collectCerts_fine (w.ctxs cid).stores [] [] [(c.obj, c)] w hf
  have hcc := collectCerts_loaded (loadedWorld w) (w.ctxs cid).stores (fun r _ => loadedWorld_loadedStore w r) [] [] [(c.obj, c)]
  rw [hcc] at h1
  rw [M.bind_ok h1, M.bind_ok hcc]
  have hc : w1.ctxs = w.ctxs := by
    have := congrArg World.ctxs h2
    exact this
  refine hk2 _ w1 _ hc ?_
  have := agree_loadedWorld h3
  rw [h2] at this
  exact this

theorem forStores_pure_fine (env : Env) (q : Query) (rs : List StoreRef) (seen acc : List Cert) (w : World) (hf : FineStores w rs) :
    ∃ w1, forStores env q (fun acc c => pure (acc ++ [c])) rs seen acc w =
      ((forStores env q (fun acc c => pure (acc ++ [c])) rs seen acc (loadedWorld w)).1, w1) ∧
      loadedWorld w1 = loadedWorld w ∧ ∀ r ∈ rs, LoadedStore w1 r := by
  have hc : ∀ (l seen acc : List Cert), ∃ x, ∀ w, forCerts env q (fun acc c => pure (acc ++ [c])) l seen acc w = (.ok x, w) := by
    intro l
    induction l with
    | nil => intro seen acc; exact ⟨_, fun _ => rfl⟩
    | cons c l ih =>
      intro seen acc
      unfold forCerts
      split
      · split
        · exact ih seen acc
        · obtain ⟨x, hx⟩ := ih (seen ++ [c]) (acc ++ [c])
          refine ⟨x, fun w => ?_⟩
          rw [M.pure_bind]
          exact hx w
      · exact ih seen acc
  have keep : ∀ (rs : List StoreRef) (seen acc : List Cert) (w : World), FineStores w rs →
      ∃ w1, forStores env q (fun acc c => pure (acc ++ [c])) rs seen acc w =
      ((forStores env q (fun acc c => pure (acc ++ [c])) rs seen acc (loadedWorld w)).1, w1) ∧
      loadedWorld w1 = loadedWorld w ∧ (∀ r ∈ rs, LoadedStore w1 r) ∧ ∀ r, LoadedStore w r → LoadedStore w1 r := by
    intro rs
    induction rs with
    | nil => intro seen acc w _; exact ⟨w, rfl, rfl, by simp, fun _ h => h⟩
    | cons r rs ih =>
      intro seen acc w hf
      obtain ⟨w1, h1, h2, h3, h4, h5⟩ := iterStore_fine w r (hf r (by simp))
      have hf1 : FineStores w1 rs :=
        fun r' hr' i hi certs e he => hf r' (List.mem_cons_of_mem _ hr') i hi certs e (h5 i certs e he)
      unfold forStores
      obtain ⟨⟨sn, ac⟩, hx⟩ := hc (certsOf (loadedWorld w) r) seen acc
      rw [M.bind_ok h1, M.bind_ok (iterStore_loaded (loadedWorld_loadedStore w r)), M.bind_ok (hx w1), M.bind_ok (hx _)]
      obtain ⟨w2, g1, g2, g3, g4⟩ := ih sn ac w1 hf1
      refine ⟨w2, ?_, g2.trans h2, ?_, fun r' hr' => g4 r' (h4 r' hr')⟩
      · dsimp only
        rw [g1, h2]
      · intro r' hr'
        rcases List.mem_cons.mp hr' with rfl | hr'
        · exact g4 _ h3
        · exact g3 r' hr'
  obtain ⟨w1, h1, h2, h3, -⟩ := keep rs seen acc w hf
  exact ⟨w1, h1, h2, h3⟩

/-- Whether the stores have been loaded does not influence the outcome of `find_certificates`, which leaves them loaded. -/
theorem ctxFind_loading (env : Env) (cid : Nat) (q : Query) (w : World) (hf : LoadsFine w cid) :
    (ctxFind env cid q w).1 = (ctxFind env cid q (loadedWorld w)).1 ∧ Loaded (ctxFind env cid q w).2 cid ∧
      loadedWorld (ctxFind env cid q w).2 = loadedWorld w := by
  unfold ctxFind forFind
  rw [M.getCtx_bind, M.getCtx_bind]
  obtain ⟨w1, h1, h2, h3⟩ := forStores_pure_fine env q (w.ctxs cid).stores [] [] w hf
  rw [h1]
  refine ⟨rfl, ?_, h2⟩
  have hc : w1.ctxs = w.ctxs := by
    have := congrArg World.ctxs h2
    exact this
  unfold Loaded
  rw [hc]
  exact h3

end Signify
