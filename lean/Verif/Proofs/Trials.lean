/-
Candidates tried one after the other with one context object.
-/
import Verif.Spec.Trials
import Verif.Proofs.OneShot
import Verif.Proofs.Lifetime

set_option autoImplicit false

namespace Signify

open Spec

/-- The outcomes of the checks in sequence. -/
def outsSeq (check : Cert → M (List Cert)) : World → List Cert → List (Except Exc (List Cert))
  | _, [] => []
  | w, c :: l => (check c w).1 :: outsSeq check (check c w).2 l

theorem foldMc_combine_seq (check : Cert → M (List Cert)) (l : List Cert) (acc : List (List Cert) × FirstError) (w : World) :
    (foldMc (buildChainBody check) acc l w).1 = combine acc (outsSeq check w l) := by
  induction l generalizing acc w with
  | nil => rfl
  | cons c l ih =>
    show ((buildChainBody check acc c >>= fun acc => foldMc (buildChainBody check) acc l) w).1 = _
    unfold outsSeq
    rcases hx : check c w with ⟨r, w1⟩
    have ha : M.attempt (check c) w = (.ok r, w1) := by unfold M.attempt; rw [hx]
    cases r with
    | ok ch =>
      have hb : buildChainBody check acc c w = (.ok (acc.1 ++ [ch], .false), w1) := by
        unfold buildChainBody
        rw [M.bind_ok ha]
        rfl
      rw [M.bind_ok hb, ih]
      rfl
    | error e =>
      unfold combine
      by_cases he : e.is .verificationError = true
      · have hb : buildChainBody check acc c w = (.ok (acc.1, if acc.2 = .none then .error e else acc.2), w1) := by
          unfold buildChainBody
          rw [M.bind_ok ha]
          simp only
          rw [if_pos he]
          rfl
        rw [M.bind_ok hb, ih, if_pos he]
      · have hb : buildChainBody check acc c w = (.error e, w1) := by
          unfold buildChainBody
          rw [M.bind_ok ha]
          simp only
          rw [if_neg he]
          rfl
        rw [M.bind_error hb, if_neg he]

theorem inContextTo_of {α : Type} {f : Nat → M α} (hf : Uniform f) {w u : World} {j : Nat}
    (hr : Readable w (u.ctxs j)) (hu : ∀ k, StoreStep (w.stores k) (u.stores k)) :
    InContextTo w (u.ctxs j) f (f j u).1 ((f j u).2.ctxs j) := by
  obtain ⟨h1, h2⟩ := hf _ _ _ 0 j ⟨rfl, rfl⟩ { w with ctxs := fun _ => u.ctxs j } u (Rel.single hr rfl rfl rfl hu)
  exact ⟨0, { w with ctxs := fun _ => u.ctxs j }, rfl, rfl, h1, h2.ctx 0 j ⟨rfl, rfl⟩⟩

theorem ctxStep_eq {c c' : Ctx} (h : CtxStep c c') (ht : c'.timestamp = c.timestamp) (h1 : c.keyUsages.consumed = c.keyUsages)
    (h2 : c.ekus.consumed = c.ekus) : c' = c := by
  have e1 : c'.keyUsages = c.keyUsages := by rcases h.kus with h | h <;> rw [h]; exact h1
  have e2 : c'.ekus = c.ekus := by rcases h.ekus with h | h <;> rw [h]; exact h2
  have := h.same
  rw [ht, e1, e2] at this
  exact this

/-- What `context.verify` leaves: the usages have been read once, unless no validator could be made. -/
theorem inContextTo_ctxVerify {env : Env} {w : World} {ctx ctx' : Ctx} {c : Cert} {r : Except Exc (List Cert)} (hr : Readable w ctx)
    (h : InContextTo w ctx (fun i => ctxVerify env i c) r ctx') :
    (ctx' = ctx ∧ ∃ req e, env.mkValidator req = .error e ∧ r = .error e) ∨ ctx' = ctx.usedUp := by
  obtain ⟨i, v, hv, hi, h1, h2⟩ := h
  have hrel := Rel.single (u := loadedWorld v) (i := i) (j := i) hr hv hi hi (fun k => by rw [← hv]; exact .inr rfl)
  obtain ⟨e1, e2⟩ := Uniform.ctxVerify env c _ _ _ i i ⟨rfl, rfl⟩ v (loadedWorld v) hrel
  have e2 := e2.ctx i i ⟨rfl, rfl⟩
  simp only at e1 e2 h1 h2
  rw [e1] at h1
  rw [e2] at h2
  have hl : Loaded (loadedWorld v) i := fun r _ => loadedWorld_loadedStore v r
  have hcx : (loadedWorld v).ctxs i = ctx := hi
  have hex : (exhaust (loadedWorld v) i).ctxs i = ctx.usedUp := by
    rw [← hcx]
    unfold exhaust exhaustEkus exhaustKus Ctx.usedUp
    simp
  rw [ctxVerify_loaded env i c _ hl] at h1 h2
  cases hm : env.mkValidator { request (loadedWorld v) i c with keyUsages := [], ekus := [] } with
  | error e =>
    rw [hm] at h1 h2
    exact .inl ⟨by rw [← h2]; exact hcx, _, e, hm, h1.symm⟩
  | ok _ =>
    refine .inr ?_
    rw [hm] at h2
    simp only at h2
    cases hval : env.validate (request (loadedWorld v) i c) with
    | error e => rw [hval] at h2; rw [← h2]; exact hex
    | ok ids =>
      rw [hval] at h2
      simp only at h2
      cases hla : lookupAll (certMap (knownCerts (loadedWorld v) i) c) ids with
      | error e => rw [hla] at h2; rw [← h2]; exact hex
      | ok chain =>
        rw [hla] at h2
        simp only at h2
        have hf : Frame (fun j => j = i) (fun _ => False) (exhaust (loadedWorld v) i)
            ((ctxVerifyTrust env i chain >>= fun _ => pure chain) (exhaust (loadedWorld v) i)).2 :=
          Keeps.bind (D := fun j => j = i) (T := fun _ => False) (Keeps.bind (Keeps.getCtx i)
            (fun _ => Keeps.verifyTrustLoop (D := fun j => j = i) env rfl chain _ none)) (fun _ => Keeps.pure _) _
        have hs := hf.ctxs i
        have ht := hf.times i (fun h => h)
        rw [h2, hex] at hs ht
        exact ctxStep_eq hs ht (consumed_consumed _) (consumed_consumed _)

theorem trials_of {env : Env} {cid : Nat} {s : Signer} {t : Option Int} {tf : Cert → Option Int} {exempt : Cert → Prop} {w : World}
    (htf : ∀ c, (exempt c ∧ tf c = none) ∨ (¬ exempt c ∧ tf c = t)) (stores : List StoreRef)
    (hr : ∀ ctx : Ctx, ctx.stores = stores → Readable w ctx) (cands : List Cert) (u : World)
    (hu : ∀ k, StoreStep (w.stores k) (u.stores k)) (hs : (u.ctxs cid).stores = stores) :
    Trials env w s t exempt (u.ctxs cid) (cands.zip (outsSeq (fun c => verifyIssuer env cid s (tf c) c) u cands)) := by
  induction cands generalizing u with
  | nil => exact .done _
  | cons c l ih =>
    have hf := Keeps.verifyIssuer (D := fun _ => True) (T := fun _ => True) env (cid := cid) trivial trivial s (tf c) c u
    have hu' : ∀ k, StoreStep (w.stores k) ((verifyIssuer env cid s (tf c) c u).2.stores k) := fun k => (hu k).trans (hf.stores k)
    have hs' : ((verifyIssuer env cid s (tf c) c u).2.ctxs cid).stores = stores := by
      rw [(hf.ctxs cid).same]; exact hs
    have ih := ih _ hu' hs'
    unfold outsSeq
    rw [List.zip_cons_cons]
    rcases verifyIssuer_run env cid s (tf c) c u with ⟨h1, h2⟩ | ⟨h1, e, h2, h3⟩
    · have hss : ∀ v, (atTime v cid (tf c)).stores = v.stores := fun v => by cases tf c <;> rfl
      have hcc : (atTime u cid (tf c)).ctxs cid = { u.ctxs cid with timestamp := (tf c).or (u.ctxs cid).timestamp } := by
        cases tf c with
        | none => rfl
        | some x => simp [atTime]
      have hto := inContextTo_of (Uniform.ctxVerify env c) (w := w) (u := atTime u cid (tf c)) (j := cid)
        (hr _ (by rw [hcc]; exact hs)) (fun k => by rw [hss]; exact hu k)
      rw [h2] at ih ⊢
      rw [hcc] at hto
      exact .verified _ _ c _ _ (tf c) h1 (htf c) hto ih
    · rw [h2] at ih ⊢
      exact .refused _ c e _ h1 h3 ih

theorem outsSeq_length (check : Cert → M (List Cert)) (l : List Cert) (w : World) : (outsSeq check w l).length = l.length := by
  induction l generalizing w with
  | nil => rfl
  | cons c l ih => unfold outsSeq; rw [List.length_cons, List.length_cons, ih]

theorem signerVerifyWith_trials (env : Env) (cid : Nat) (s : Signer) (t : Option Int) (tf : Cert → Option Int) (exempt : Cert → Prop)
    (htf : ∀ c, (exempt c ∧ tf c = none) ∨ (¬ exempt c ∧ tf c = t)) (w : World)
    (hr : Readable w (w.ctxs cid)) (cands : List Cert) (hc : Candidates w (w.ctxs cid) s cands) :
    ∃ os : List (Cert × Except Exc (List Cert)), os.map Prod.fst = cands ∧ Trials env w s t exempt (w.ctxs cid) os ∧
      Verdict (os.map Prod.snd) (signerVerifyWith env cid s (fun c => verifyIssuer env cid s (tf c) c) w).1 := by
  have hl : ∀ k, StoreStep (w.stores k) ((loadedWorld w).stores k) := fun k => .inr rfl
  have e0 : (signerVerifyWith env cid s (fun c => verifyIssuer env cid s (tf c) c) (loadedWorld w)).1 =
      (signerVerifyWith env cid s (fun c => verifyIssuer env cid s (tf c) c) w).1 :=
    inContext_run (Uniform.signerVerifyWith env s tf) hr ⟨cid, w, rfl, rfl, rfl⟩ rfl hl
  have hlen := outsSeq_length (fun c => verifyIssuer env cid s (tf c) c) cands (loadedWorld w)
  refine ⟨cands.zip (outsSeq (fun c => verifyIssuer env cid s (tf c) c) (loadedWorld w) cands), ?_, ?_, ?_⟩
  · exact List.map_fst_zip (by omega)
  · exact trials_of htf (w.ctxs cid).stores (fun ctx h k hk => hr k (by rw [← h]; exact hk)) cands (loadedWorld w) hl rfl
  · rw [List.map_snd_zip (by omega), ← e0]
    apply combine_verdict
    have hcands : cands = newOnes [] ((knownCerts (loadedWorld w) cid).filter (Query.matches env { issuer := some s.issuer, serial := some s.serial })) :=
      firstOccurrences_unique hc (newOnes_firstOccurrences _ _ (fun _ => query_iff) _)
    have hpend : ∀ k, ((loadedWorld w).stores k).pending = none := fun k => loaded_pending _
    have hfind := forFind_loaded env cid { issuer := some s.issuer, serial := some s.serial } ([], .none)
      (buildChainBody (fun c => verifyIssuer env cid s (tf c) c)) (loadedWorld w) (fun u => u.stores = (loadedWorld w).stores)
      (fun _ h => h) rfl (fun r _ => loadedWorld_loadedStore w r) (by
        intro acc c u hst
        have hf := Keeps.buildChainBody (D := fun _ => True) (T := fun _ => True)
          (fun c => Keeps.verifyIssuer env (cid := cid) trivial trivial s (tf c) c) acc c u
        funext k
        rw [(hf.stores k).eq_of_none (by rw [hst]; exact hpend k), hst])
    rw [← hcands] at hfind
    rw [← foldMc_combine_seq, ← hfind]
    unfold signerVerifyWith buildChain
    rw [M.bind_run, M.bind_run]
    generalize forFind env cid { issuer := some s.issuer, serial := some s.serial } ([], .none)
      (buildChainBody (fun c => verifyIssuer env cid s (tf c) c)) (loadedWorld w) = x
    obtain ⟨r, u⟩ := x
    cases r with
    | error e => rfl
    | ok acc =>
      obtain ⟨chains, fe⟩ := acc
      cases fe <;> cases chains <;> rfl

/-! ### a store that cannot be read -/

/-- Stores that have at most been loaded, the store `k` being as it was, and the context's stores and algorithms being the same. -/
structure Before (w : World) (cid k : Nat) (u : World) : Prop where
  stores : ∀ i, StoreStep (w.stores i) (u.stores i)
  bad : u.stores k = w.stores k
  list : (u.ctxs cid).stores = (w.ctxs cid).stores
  legacy : (u.ctxs cid).allowLegacy = (w.ctxs cid).allowLegacy

theorem Before.iterStore {w u : World} {cid k : Nat} (h : Before w cid k u) {r : StoreRef} (hk : r ≠ .heap k)
    (hf : ∀ i, r = .heap i → FineStore (w.stores i)) : ∃ u', Signify.iterStore r u = (.ok (certsOf (loadedWorld w) r), u') ∧ Before w cid k u' := by
  cases r with
  | embedded l => exact ⟨u, rfl, h⟩
  | heap i =>
    have hfu : FineStore (u.stores i) := (hf i rfl).step (h.stores i)
    refine ⟨{ u with stores := fun j => if j = i then Spec.Store.loaded (u.stores i) else u.stores j }, ?_, ?_⟩
    · rw [Sim.iterStore_run hfu]
      show (Except.ok (Spec.Store.loaded (u.stores i)).items, _) = (Except.ok (Spec.Store.loaded (w.stores i)).items, _)
      rw [(h.stores i).loaded_eq]
    · refine ⟨fun j => ?_, ?_, h.list, h.legacy⟩
      · show StoreStep _ (if j = i then _ else _)
        by_cases hj : j = i
        · subst hj; rw [if_pos rfl]; exact (h.stores j).trans (.inr rfl)
        · rw [if_neg hj]; exact h.stores j
      · show (if k = i then _ else _) = _
        rw [if_neg (fun e => hk (by rw [e]))]; exact h.bad

theorem Before.collectCerts {w u : World} {cid k : Nat} {certs : List Cert} {e : Exc} (h : Before w cid k u)
    (hp : (w.stores k).pending = some (certs, some e)) (pre post : List StoreRef)
    (hf : ∀ i, .heap i ∈ pre → FineStore (w.stores i)) (roots inter : List Nat) (all : Dict Nat Cert) :
    (Signify.collectCerts (pre ++ .heap k :: post) roots inter all u).1 = .error e := by
  induction pre generalizing u roots inter all with
  | nil =>
    show (Signify.collectCerts (.heap k :: post) roots inter all u).1 = _
    unfold Signify.collectCerts
    rw [M.bind_error (Sim.iterStore_bad (by rw [h.bad]; exact hp))]
  | cons r pre ih =>
    have hne : r ≠ .heap k := by
      intro hr
      have := hf k (by rw [hr]; exact List.mem_cons_self ..) certs (some e) hp
      cases this
    obtain ⟨u', h1, h2⟩ := h.iterStore hne (fun i hi => hf i (by rw [hi]; exact List.mem_cons_self ..))
    have hf' : ∀ i, .heap i ∈ pre → FineStore (w.stores i) := fun i hi => hf i (List.mem_cons_of_mem _ hi)
    show (Signify.collectCerts (r :: (pre ++ .heap k :: post)) roots inter all u).1 = _
    unfold Signify.collectCerts
    rw [M.bind_ok h1, M.bind_ok (show M.world u' = (.ok u', u') from rfl)]
    split
    · exact ih h2 hf' _ _ _
    · exact ih h2 hf' _ _ _

theorem Before.ctxVerify {env : Env} {w u : World} {cid k : Nat} {certs : List Cert} {e : Exc} (h : Before w cid k u)
    (hp : (w.stores k).pending = some (certs, some e)) {pre post : List StoreRef} (hl : (w.ctxs cid).stores = pre ++ .heap k :: post)
    (hf : ∀ i, .heap i ∈ pre → FineStore (w.stores i)) (c : Cert) : (Signify.ctxVerify env cid c u).1 = .error e := by
  unfold Signify.ctxVerify
  rw [M.getCtx_bind, h.list, hl, M.bind_run]
  have := h.collectCerts hp pre post hf [] [] [(c.obj, c)]
  rcases hx : Signify.collectCerts (pre ++ .heap k :: post) [] [] [(c.obj, c)] u with ⟨r, u'⟩
  rw [hx] at this
  simp only at this
  subst this
  rfl

theorem Before.body {env : Env} {w u : World} {cid k : Nat} {certs : List Cert} {e : Exc} {s : Signer} (h : Before w cid k u)
    (hp : (w.stores k).pending = some (certs, some e)) {pre post : List StoreRef} (hl : (w.ctxs cid).stores = pre ++ .heap k :: post)
    (hf : ∀ i, .heap i ∈ pre → FineStore (w.stores i)) (he : e.is .verificationError = false) (tf : Cert → Option Int)
    (acc : List (List Cert) × FirstError) (c : Cert) :
    (∃ acc', buildChainBody (fun c => verifyIssuer env cid s (tf c) c) acc c u = (.ok acc', u)) ∨
    (∃ e', (buildChainBody (fun c => verifyIssuer env cid s (tf c) c) acc c u).1 = .error e' ∧
      (e' = e ∨ BadRefusal env s (w.ctxs cid).allowLegacy c e')) := by
  have hat : M.attempt (verifyIssuer env cid s (tf c) c) u =
      (.ok (verifyIssuer env cid s (tf c) c u).1, (verifyIssuer env cid s (tf c) c u).2) := rfl
  unfold buildChainBody
  rw [M.bind_ok hat]
  rcases verifyIssuer_run env cid s (tf c) c u with ⟨h1, h2⟩ | ⟨h1, e', h2, h3⟩
  · have hb : Before w cid k (atTime u cid (tf c)) := by
      cases tf c with
      | none => exact h
      | some x => exact ⟨h.stores, h.bad, by simp only [atTime, if_pos]; exact h.list, by simp only [atTime, if_pos]; exact h.legacy⟩
    rw [h2, hb.ctxVerify hp hl hf c]
    refine .inr ⟨e, ?_, .inl rfl⟩
    simp only
    rw [if_neg (by rw [he]; simp)]
    rfl
  · rw [h2]
    simp only
    by_cases hv : e'.is .verificationError = true
    · rw [if_pos hv]
      exact .inl ⟨_, rfl⟩
    · rw [if_neg hv]
      rw [h.legacy] at h1
      refine .inr ⟨e', rfl, .inr ⟨h1, ?_⟩⟩
      rcases h3 with ⟨h3, -⟩ | h3
      · exfalso
        apply hv
        obtain ⟨cls, msg⟩ := e'
        cases h3
        rfl
      · exact h3

theorem Before.forCerts {env : Env} {w u : World} {cid k : Nat} {certs : List Cert} {e : Exc} {s : Signer} (h : Before w cid k u)
    (hp : (w.stores k).pending = some (certs, some e)) {pre post : List StoreRef} (hl : (w.ctxs cid).stores = pre ++ .heap k :: post)
    (hf : ∀ i, .heap i ∈ pre → FineStore (w.stores i)) (he : e.is .verificationError = false) (tf : Cert → Option Int) (q : Query)
    (l seen : List Cert) (acc : List (List Cert) × FirstError) :
    (∃ x, Signify.forCerts env q (buildChainBody (fun c => verifyIssuer env cid s (tf c) c)) l seen acc u = (.ok x, u)) ∨
    (∃ e', (Signify.forCerts env q (buildChainBody (fun c => verifyIssuer env cid s (tf c) c)) l seen acc u).1 = .error e' ∧
      (e' = e ∨ ∃ c ∈ l, Query.matches env q c = true ∧ BadRefusal env s (w.ctxs cid).allowLegacy c e')) := by
  induction l generalizing seen acc with
  | nil => exact .inl ⟨_, rfl⟩
  | cons c l ih =>
    have lift : ∀ seen acc, (∃ x, Signify.forCerts env q (buildChainBody (fun c => verifyIssuer env cid s (tf c) c)) l seen acc u = (.ok x, u)) ∨
        (∃ e', (Signify.forCerts env q (buildChainBody (fun c => verifyIssuer env cid s (tf c) c)) l seen acc u).1 = .error e' ∧
          (e' = e ∨ ∃ d ∈ c :: l, Query.matches env q d = true ∧ BadRefusal env s (w.ctxs cid).allowLegacy d e')) := by
      intro seen acc
      rcases ih seen acc with h1 | ⟨e', h1, h2 | ⟨d, hd, h2⟩⟩
      · exact .inl h1
      · exact .inr ⟨e', h1, .inl h2⟩
      · exact .inr ⟨e', h1, .inr ⟨d, List.mem_cons_of_mem _ hd, h2⟩⟩
    unfold Signify.forCerts
    by_cases hq : Query.matches env q c = true
    · rw [if_pos hq]
      by_cases hs : certIn c seen = true
      · rw [if_pos hs]; exact lift seen acc
      · rw [if_neg hs]
        rcases h.body hp hl hf he tf acc c with ⟨acc', h1⟩ | ⟨e', h1, h2⟩
        · rw [M.bind_ok h1]; exact lift _ acc'
        · refine .inr ⟨e', ?_, ?_⟩
          · rw [M.bind_run]
            rcases hx : buildChainBody (fun c => verifyIssuer env cid s (tf c) c) acc c u with ⟨r, u'⟩
            rw [hx] at h1
            simp only at h1
            subst h1
            rfl
          · rcases h2 with h2 | h2
            · exact .inl h2
            · exact .inr ⟨c, List.mem_cons_self .., hq, h2⟩
    · rw [if_neg hq]; exact lift seen acc

theorem Before.forStores {env : Env} {w u : World} {cid k : Nat} {certs : List Cert} {e : Exc} {s : Signer} (h : Before w cid k u)
    (hp : (w.stores k).pending = some (certs, some e)) {pre post : List StoreRef} (hl : (w.ctxs cid).stores = pre ++ .heap k :: post)
    (hf : ∀ i, .heap i ∈ pre → FineStore (w.stores i)) (he : e.is .verificationError = false) (tf : Cert → Option Int) (q : Query)
    (rs : List StoreRef) (hrs : ∀ r ∈ rs, r ∈ pre) (seen : List Cert) (acc : List (List Cert) × FirstError) :
    ∃ e', (Signify.forStores env q (buildChainBody (fun c => verifyIssuer env cid s (tf c) c)) (rs ++ .heap k :: post) seen acc u).1 = .error e' ∧
      (e' = e ∨ ∃ r ∈ rs, ∃ c ∈ certsOf (loadedWorld w) r, Query.matches env q c = true ∧ BadRefusal env s (w.ctxs cid).allowLegacy c e') := by
  induction rs generalizing u seen acc with
  | nil =>
    refine ⟨e, ?_, .inl rfl⟩
    show (Signify.forStores env q _ (.heap k :: post) seen acc u).1 = _
    unfold Signify.forStores
    rw [M.bind_error (Sim.iterStore_bad (by rw [h.bad]; exact hp))]
  | cons r rs ih =>
    have hne : r ≠ .heap k := by
      intro hr
      have := hf k (by rw [← hr]; exact hrs r (List.mem_cons_self ..)) certs (some e) hp
      cases this
    obtain ⟨u', h1, h2⟩ := h.iterStore hne (fun i hi => hf i (by rw [← hi]; exact hrs r (List.mem_cons_self ..)))
    show ∃ e', (Signify.forStores env q _ (r :: (rs ++ .heap k :: post)) seen acc u).1 = .error e' ∧ _
    unfold Signify.forStores
    rw [M.bind_ok h1]
    rcases h2.forCerts hp hl hf he tf q (certsOf (loadedWorld w) r) seen acc (env := env) (s := s) with ⟨x, h3⟩ | ⟨e', h3, h4⟩
    · rw [M.bind_ok h3]
      obtain ⟨seen', acc'⟩ := x
      obtain ⟨e', h5, h6⟩ := ih h2 (fun r' hr' => hrs r' (List.mem_cons_of_mem _ hr')) seen' acc'
      refine ⟨e', h5, ?_⟩
      rcases h6 with h6 | ⟨r', hr', h6⟩
      · exact .inl h6
      · exact .inr ⟨r', List.mem_cons_of_mem _ hr', h6⟩
    · refine ⟨e', ?_, ?_⟩
      · rw [M.bind_run]
        rcases hx : Signify.forCerts env q (buildChainBody (fun c => verifyIssuer env cid s (tf c) c)) (certsOf (loadedWorld w) r) seen acc u' with ⟨y, v⟩
        rw [hx] at h3
        simp only at h3
        subst h3
        rfl
      · rcases h4 with h4 | ⟨c, hc, h4⟩
        · exact .inl h4
        · exact .inr ⟨r, List.mem_cons_self .., c, hc, h4⟩

theorem signerVerifyWith_unreadable (env : Env) (cid : Nat) (s : Signer) (tf : Cert → Option Int) (w : World) (pre post : List StoreRef)
    (k : Nat) (certs : List Cert) (e : Exc) (hl : (w.ctxs cid).stores = pre ++ .heap k :: post)
    (hf : ∀ i, .heap i ∈ pre → FineStore (w.stores i)) (hp : (w.stores k).pending = some (certs, some e))
    (he : e.is .verificationError = false) :
    ∃ e', (signerVerifyWith env cid s (fun c => verifyIssuer env cid s (tf c) c) w).1 = .error e' ∧
      (e' = e ∨ ∃ r ∈ pre, ∃ c ∈ certsOf (loadedWorld w) r, (c.issuer.components = s.issuer.components ∧ c.serial = s.serial) ∧
        BadRefusal env s (w.ctxs cid).allowLegacy c e') := by
  have hb : Before w cid k w := ⟨fun _ => .inl rfl, rfl, rfl, rfl⟩
  obtain ⟨e', h1, h2⟩ := hb.forStores (s := s) (env := env) hp hl hf he tf { issuer := some s.issuer, serial := some s.serial } pre (fun _ h => h) [] ([], .none)
  refine ⟨e', ?_, ?_⟩
  · unfold signerVerifyWith buildChain forFind
    rw [M.bind_run, M.bind_run, M.getCtx_bind, hl]
    rcases hx : forStores env { issuer := some s.issuer, serial := some s.serial } (buildChainBody (fun c => verifyIssuer env cid s (tf c) c))
      (pre ++ .heap k :: post) [] ([], .none) w with ⟨r, u⟩
    rw [hx] at h1
    simp only at h1
    subst h1
    rfl
  · rcases h2 with h2 | ⟨r, hr, c, hc, hq, h2⟩
    · exact .inl h2
    · exact .inr ⟨r, hr, c, hc, query_iff.1 hq, h2⟩

end Signify
