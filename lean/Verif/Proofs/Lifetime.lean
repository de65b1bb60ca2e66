/-
The times at which the candidates for a signer's certificate are validated.
-/
import Verif.Proofs.Candidates

set_option autoImplicit false

namespace Signify

open Spec

/-- The outcomes for a list of candidates, where what was met before may matter. -/
def outsFrom {σ : Type} (step : σ → Cert → σ) (out : σ → Cert → Except Exc (List Cert)) : σ → List Cert → List (Except Exc (List Cert))
  | _, [] => []
  | st, c :: l => out (step st c) c :: outsFrom step out (step st c) l

theorem foldMc_combine_from {σ : Type} {check : Cert → M (List Cert)} {step : σ → Cert → σ} {out : σ → Cert → Except Exc (List Cert)}
    {I : σ → World → Prop} (h : ∀ c st w, I st w → (check c w).1 = out (step st c) c ∧ I (step st c) (check c w).2) (l : List Cert)
    (acc : List (List Cert) × FirstError) (st : σ) (w : World) (hw : I st w) :
    (foldMc (buildChainBody check) acc l w).1 = combine acc (outsFrom step out st l) := by
  induction l generalizing acc w st with
  | nil => rfl
  | cons c l ih =>
    obtain ⟨h1, h2⟩ := h c st w hw
    show ((buildChainBody check acc c >>= fun acc => foldMc (buildChainBody check) acc l) w).1 = _
    rcases hx : check c w with ⟨r, w1⟩
    rw [hx] at h1 h2
    simp only at h1 h2
    have ha : M.attempt (check c) w = (.ok r, w1) := by unfold M.attempt; rw [hx]
    unfold outsFrom
    rw [← h1]
    cases r with
    | ok ch =>
      have hb : buildChainBody check acc c w = (.ok (acc.1 ++ [ch], .false), w1) := by
        unfold buildChainBody
        rw [M.bind_ok ha]
        rfl
      rw [M.bind_ok hb, ih _ _ w1 h2]
      rfl
    | error e =>
      unfold combine
      by_cases he : e.is .verificationError = true
      · have hb : buildChainBody check acc c w = (.ok (acc.1, if acc.2 = .none then .error e else acc.2), w1) := by
          unfold buildChainBody
          rw [M.bind_ok ha]
          simp only
          rw [if_pos he]
          rfl
        rw [M.bind_ok hb, ih _ _ w1 h2, if_pos he]
      · have hb : buildChainBody check acc c w = (.error e, w1) := by
          unfold buildChainBody
          rw [M.bind_ok ha]
          simp only
          rw [if_neg he]
          rfl
        rw [M.bind_error hb, if_neg he]

open Classical in
/-- The time in the context after a candidate, if it has been set: only candidates that made the signature set it. -/
noncomputable def timeAfter (env : Env) (s : Signer) (legacy : Bool) (tf : Cert → Option Int) (cur : Option Int) (c : Cert) : Option Int :=
  if ValidSignature env c s.encryptedDigest s.encodedAuth s.digestAlg legacy then (tf c).or cur else cur

/-- The states while the candidates are tried, once the stores have been read: only the time in the context changes. -/
def Trying (w : World) (cid : Nat) (st : Option Int) (u : World) : Prop :=
  u.stores = (loadedWorld w).stores ∧ u.ctxs cid = { w.ctxs cid with timestamp := st.or (w.ctxs cid).timestamp }

theorem verifyIssuer_trying (env : Env) (cid : Nat) (s : Signer) (tf : Cert → Option Int) (w : World)
    (hr : Readable w (w.ctxs cid)) (hk : Reiterable (w.ctxs cid).keyUsages) (hu : Reiterable (w.ctxs cid).ekus) :
    ∀ c st u, Trying w cid st u →
      (verifyIssuer env cid s (tf c) c u).1 = (verifyIssuer env cid s (timeAfter env s (w.ctxs cid).allowLegacy tf st c) c w).1 ∧
      Trying w cid (timeAfter env s (w.ctxs cid).allowLegacy tf st c) (verifyIssuer env cid s (tf c) c u).2 := by
  have hl : ∀ k, StoreStep (w.stores k) ((loadedWorld w).stores k) := fun k => .inr rfl
  have hpend : ∀ k, ((loadedWorld w).stores k).pending = none := fun k => loaded_pending _
  rintro c st u ⟨hst, hctx⟩
  have hleg : (u.ctxs cid).allowLegacy = (w.ctxs cid).allowLegacy := by rw [hctx]
  have hstores : ∀ k, ((verifyIssuer env cid s (tf c) c u).2).stores k = (loadedWorld w).stores k := by
    intro k
    have hf := Keeps.verifyIssuer (D := fun _ => True) (T := fun _ => True) env (cid := cid) trivial trivial s (tf c) c u
    rw [(hf.stores k).eq_of_none (by rw [hst]; exact hpend k), hst]
  by_cases hv : ValidSignature env c s.encryptedDigest s.encodedAuth s.digestAlg (w.ctxs cid).allowLegacy
  · have hta : timeAfter env s (w.ctxs cid).allowLegacy tf st c = (tf c).or st := by unfold timeAfter; rw [if_pos hv]
    have hrun : verifyIssuer env cid s (tf c) c u = ctxVerify env cid c (atTime u cid (tf c)) := by
      rcases verifyIssuer_run env cid s (tf c) c u with ⟨-, h⟩ | ⟨h, -⟩
      · exact h
      · rw [hleg] at h; exact absurd hv h
    have hrun' : verifyIssuer env cid s ((tf c).or st) c w = ctxVerify env cid c (atTime w cid ((tf c).or st)) := by
      rcases verifyIssuer_run env cid s ((tf c).or st) c w with ⟨-, h⟩ | ⟨h, -⟩
      · exact h
      · exact absurd hv h
    have hcc : (atTime u cid (tf c)).ctxs cid = { w.ctxs cid with timestamp := ((tf c).or st).or (w.ctxs cid).timestamp } := by
      cases tf c with
      | none => exact hctx
      | some x => simp [atTime, hctx]
    have hcw : (atTime w cid ((tf c).or st)).ctxs cid = { w.ctxs cid with timestamp := ((tf c).or st).or (w.ctxs cid).timestamp } := by
      cases (tf c).or st with
      | none => rfl
      | some x => simp [atTime]
    have hsu : ∀ t v, (atTime v cid t).stores = v.stores := fun t v => by cases t <;> rfl
    rw [hta]
    refine ⟨?_, funext hstores, ?_⟩
    · rw [hrun, hrun']
      have hr' : Readable w ((atTime w cid ((tf c).or st)).ctxs cid) := by
        rw [hcw]; exact hr
      exact inContext_run (Uniform.ctxVerify env c) hr' ⟨cid, atTime w cid ((tf c).or st), hsu _ w, rfl, rfl⟩ (hcc.trans hcw.symm)
        (fun k => by rw [hsu, hst]; exact hl k)
    · rw [hrun]
      have hf := Keeps.ctxVerify (D := fun _ => True) (T := fun _ => False) env (cid := cid) trivial c (atTime u cid (tf c))
      have h1 := hf.ctxs cid
      have h3 := hf.times cid (fun h => h)
      rw [hcc] at h1 h3
      have h2 := ctx_eq (by exact hk) (by exact hu) h1
      rw [← h3] at h2
      exact h2
  · have hta : timeAfter env s (w.ctxs cid).allowLegacy tf st c = st := by unfold timeAfter; rw [if_neg hv]
    have hrun : ∀ t v, (v.ctxs cid).allowLegacy = (w.ctxs cid).allowLegacy →
        ∃ e, signatureResult env s c (w.ctxs cid).allowLegacy = .error e ∧ verifyIssuer env cid s t c v = (.error e, v) := by
      intro t v hlv
      rcases verifyIssuer_run env cid s t c v with ⟨h, -⟩ | ⟨-, e, h, -⟩
      · rw [hlv] at h; exact absurd h hv
      · unfold verifyIssuer at h ⊢
        rw [M.bind_run, verifyIssuerSignature_run, hlv] at h ⊢
        cases hx : signatureResult env s c (w.ctxs cid).allowLegacy with
        | error e' => exact ⟨e', rfl, rfl⟩
        | ok x =>
          exfalso
          have : verifyIssuerSignature env cid s c v = (.ok x, v) := by rw [verifyIssuerSignature_run, hlv, hx]
          rcases verifyIssuerSignature_cases env cid s c v with ⟨h1, -⟩ | ⟨-, e, h2, -⟩
          · rw [hlv] at h1; exact hv h1
          · rw [this] at h2; cases h2
    obtain ⟨e, h1, h2⟩ := hrun (tf c) u hleg
    obtain ⟨e', h3, h4⟩ := hrun st w rfl
    rw [h1] at h3
    cases h3
    rw [hta]
    refine ⟨?_, funext hstores, ?_⟩
    · rw [h2, h4]
    · rw [h2]; exact hctx

theorem signerVerifyWith_times (env : Env) (cid : Nat) (s : Signer) (tf : Cert → Option Int) (w : World)
    (hr : Readable w (w.ctxs cid)) (hk : Reiterable (w.ctxs cid).keyUsages) (hu : Reiterable (w.ctxs cid).ekus) (cands : List Cert)
    (hc : Candidates w (w.ctxs cid) s cands) :
    Verdict (outsFrom (timeAfter env s (w.ctxs cid).allowLegacy tf) (fun t c => (verifyIssuer env cid s t c w).1) none cands)
      (signerVerifyWith env cid s (fun c => verifyIssuer env cid s (tf c) c) w).1 := by
  have hl : ∀ k, StoreStep (w.stores k) ((loadedWorld w).stores k) := fun k => .inr rfl
  have e0 : (signerVerifyWith env cid s (fun c => verifyIssuer env cid s (tf c) c) (loadedWorld w)).1 =
      (signerVerifyWith env cid s (fun c => verifyIssuer env cid s (tf c) c) w).1 :=
    inContext_run (Uniform.signerVerifyWith env s tf) hr ⟨cid, w, rfl, rfl, rfl⟩ rfl hl
  rw [← e0]
  apply combine_verdict
  have hcands : cands = newOnes [] ((knownCerts (loadedWorld w) cid).filter (Query.matches env { issuer := some s.issuer, serial := some s.serial })) :=
    firstOccurrences_unique hc (newOnes_firstOccurrences _ _ (fun _ => query_iff) _)
  have hpend : ∀ k, ((loadedWorld w).stores k).pending = none := fun k => loaded_pending _
  have hfind := forFind_loaded env cid { issuer := some s.issuer, serial := some s.serial } ([], .none)
    (buildChainBody (fun c => verifyIssuer env cid s (tf c) c)) (loadedWorld w) (fun u => u.stores = (loadedWorld w).stores)
    (fun _ h => h) rfl (fun r _ => loadedWorld_loadedStore w r) (by
      intro acc c u hst
      have hf := Keeps.buildChainBody (D := fun _ => True) (T := fun _ => True)
        (fun c => Keeps.verifyIssuer env (cid := cid) trivial trivial s (tf c) c) acc c u
      funext k
      rw [(hf.stores k).eq_of_none (by rw [hst]; exact hpend k), hst])
  rw [← hcands] at hfind
  have hfold : (foldMc (buildChainBody (fun c => verifyIssuer env cid s (tf c) c)) ([], .none) cands (loadedWorld w)).1 =
      combine ([], .none) (outsFrom (timeAfter env s (w.ctxs cid).allowLegacy tf) (fun t c => (verifyIssuer env cid s t c w).1) none cands) := by
    exact foldMc_combine_from (verifyIssuer_trying env cid s tf w hr hk hu) cands _ none _ ⟨rfl, rfl⟩
  rw [← hfold, ← hfind]
  unfold signerVerifyWith buildChain
  rw [M.bind_run, M.bind_run]
  generalize forFind env cid { issuer := some s.issuer, serial := some s.serial } ([], .none)
    (buildChainBody (fun c => verifyIssuer env cid s (tf c) c)) (loadedWorld w) = x
  obtain ⟨r, u⟩ := x
  cases r with
  | error e => rfl
  | ok acc =>
    obtain ⟨chains, fe⟩ := acc
    cases fe <;> cases chains <;> rfl

/-- The candidates with their outcomes. -/
def pairsFrom {σ : Type} (step : σ → Cert → σ) (out : σ → Cert → Except Exc (List Cert)) : σ → List Cert → List (Cert × Except Exc (List Cert))
  | _, [] => []
  | st, c :: l => (c, out (step st c) c) :: pairsFrom step out (step st c) l

theorem pairsFrom_fst {σ : Type} (step : σ → Cert → σ) (out : σ → Cert → Except Exc (List Cert)) (st : σ) (l : List Cert) :
    (pairsFrom step out st l).map Prod.fst = l := by
  induction l generalizing st with
  | nil => rfl
  | cons c l ih => simp [pairsFrom, ih]

theorem pairsFrom_snd {σ : Type} (step : σ → Cert → σ) (out : σ → Cert → Except Exc (List Cert)) (st : σ) (l : List Cert) :
    (pairsFrom step out st l).map Prod.snd = outsFrom step out st l := by
  induction l generalizing st with
  | nil => rfl
  | cons c l ih => simp [pairsFrom, outsFrom, ih]

theorem pairsFrom_at {σ : Type} (step : σ → Cert → σ) (out : σ → Cert → Except Exc (List Cert)) (st : σ) (l : List Cert)
    {pre post : List (Cert × Except Exc (List Cert))} {p : Cert × Except Exc (List Cert)} (h : pairsFrom step out st l = pre ++ p :: post) :
    p.2 = out (step ((pre.map Prod.fst).foldl step st) p.1) p.1 := by
  induction l generalizing st pre with
  | nil => cases pre <;> cases h
  | cons c l ih =>
    cases pre with
    | nil =>
      rw [pairsFrom, List.nil_append] at h
      cases h
      rfl
    | cons q pre =>
      rw [pairsFrom, List.cons_append, List.cons.injEq] at h
      obtain ⟨h1, h2⟩ := h
      have := ih _ h2
      rw [this, ← h1]
      rfl

end Signify
