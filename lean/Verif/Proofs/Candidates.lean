/-
`SignerInfo.verify`: how the outcomes for the candidates combine.
-/
import Verif.Proofs.History

set_option autoImplicit false

namespace Signify

open Spec

/-- The loop of `_build_chain` on the outcomes. -/
def combine : List (List Cert) × FirstError → List (Except Exc (List Cert)) → Except Exc (List (List Cert) × FirstError)
  | acc, [] => .ok acc
  | acc, .ok ch :: os => combine (acc.1 ++ [ch], .false) os
  | acc, .error e :: os =>
    if e.is .verificationError then combine (acc.1, if acc.2 = .none then .error e else acc.2) os else .error e

theorem foldMc_combine {check : Cert → M (List Cert)} {out : Cert → Except Exc (List Cert)} {I : World → Prop} (l : List Cert)
    (h : ∀ c ∈ l, ∀ w, I w → (check c w).1 = out c ∧ I (check c w).2) (acc : List (List Cert) × FirstError) (w : World) (hw : I w) :
    (foldMc (buildChainBody check) acc l w).1 = combine acc (l.map out) := by
  induction l generalizing acc w with
  | nil => rfl
  | cons c l ih =>
    obtain ⟨h1, h2⟩ := h c (List.mem_cons_self ..) w hw
    have ih := ih (fun d hd => h d (List.mem_cons_of_mem _ hd))
    show ((buildChainBody check acc c >>= fun acc => foldMc (buildChainBody check) acc l) w).1 = _
    rcases hx : check c w with ⟨r, w1⟩
    rw [hx] at h1 h2
    simp only at h1 h2
    have ha : M.attempt (check c) w = (.ok r, w1) := by unfold M.attempt; rw [hx]
    rw [List.map_cons, ← h1]
    cases r with
    | ok ch =>
      have hb : buildChainBody check acc c w = (.ok (acc.1 ++ [ch], .false), w1) := by
        unfold buildChainBody
        rw [M.bind_ok ha]
        rfl
      rw [M.bind_ok hb, ih _ w1 h2]
      rfl
    | error e =>
      unfold combine
      by_cases he : e.is .verificationError = true
      · have hb : buildChainBody check acc c w = (.ok (acc.1, if acc.2 = .none then .error e else acc.2), w1) := by
          unfold buildChainBody
          rw [M.bind_ok ha]
          simp only
          rw [if_pos he]
          rfl
        rw [M.bind_ok hb, ih _ w1 h2, if_pos he]
      · have hb : buildChainBody check acc c w = (.error e, w1) := by
          unfold buildChainBody
          rw [M.bind_ok ha]
          simp only
          rw [if_neg he]
          rfl
        rw [M.bind_error hb, if_neg he]

/-- The value of `first_error` at the end. -/
def finalError (fe : FirstError) (os : List (Except Exc (List Cert))) : FirstError :=
  if os.filterMap Except.toOption ≠ [] then .false
  else if fe = .none then (match os with | .error e :: _ => .error e | _ => .none) else fe

theorem combine_spec (os : List (Except Exc (List Cert))) (acc : List (List Cert) × FirstError) :
    (∃ pre e post, os = pre ++ .error e :: post ∧ (∀ o ∈ pre, Regular o) ∧ e.is .verificationError = false ∧ combine acc os = .error e) ∨
    ((∀ o ∈ os, Regular o) ∧ combine acc os = .ok (acc.1 ++ os.filterMap Except.toOption, finalError acc.2 os)) := by
  induction os generalizing acc with
  | nil =>
    refine .inr ⟨fun _ h => (by cases h), ?_⟩
    simp only [combine, finalError, List.filterMap_nil, List.append_nil, ne_eq, not_true_eq_false, if_false]
    obtain ⟨a, b⟩ := acc
    by_cases hb : b = .none
    · simp [hb]
    · simp [hb]
  | cons o os ih =>
    cases o with
    | ok ch =>
      have hreg : Regular (.ok ch) := fun e he => by cases he
      rcases ih (acc.1 ++ [ch], .false) with ⟨pre, e, post, h1, h2, h3, h4⟩ | ⟨h1, h2⟩
      · refine .inl ⟨.ok ch :: pre, e, post, by rw [h1]; rfl, ?_, h3, h4⟩
        intro o ho
        rcases List.mem_cons.1 ho with rfl | ho
        · exact hreg
        · exact h2 o ho
      · refine .inr ⟨?_, ?_⟩
        · intro o ho
          rcases List.mem_cons.1 ho with rfl | ho
          · exact hreg
          · exact h1 o ho
        · show combine (acc.1 ++ [ch], .false) os = _
          rw [h2]
          simp [finalError, Except.toOption]
    | error e =>
      by_cases he : e.is .verificationError = true
      · have hreg : Regular (.error e) := fun e' he' => by cases he'; exact he
        have hc : combine acc (.error e :: os) = combine (acc.1, if acc.2 = .none then .error e else acc.2) os := by
          rw [combine, if_pos he]
        rw [hc]
        rcases ih (acc.1, if acc.2 = .none then .error e else acc.2) with ⟨pre, e', post, h1, h2, h3, h4⟩ | ⟨h1, h2⟩
        · refine .inl ⟨.error e :: pre, e', post, by rw [h1]; rfl, ?_, h3, h4⟩
          intro o ho
          rcases List.mem_cons.1 ho with rfl | ho
          · exact hreg
          · exact h2 o ho
        · refine .inr ⟨?_, ?_⟩
          · intro o ho
            rcases List.mem_cons.1 ho with rfl | ho
            · exact hreg
            · exact h1 o ho
          · rw [h2]
            have e1 : (Except.error e :: os : List (Except Exc (List Cert))).filterMap Except.toOption = os.filterMap Except.toOption := by
              rfl
            rw [e1]
            have e2 : finalError (if acc.2 = .none then .error e else acc.2) os = finalError acc.2 (.error e :: os) := by
              unfold finalError
              rw [e1]
              by_cases hn : os.filterMap Except.toOption ≠ []
              · rw [if_pos hn, if_pos hn]
              · rw [if_neg hn, if_neg hn]
                by_cases ha : acc.2 = .none
                · rw [if_pos ha, if_neg (by simp)]
                · rw [if_neg ha, if_neg ha]
            rw [e2]
      · have he' : e.is .verificationError = false := by simpa using he
        exact .inl ⟨[], e, os, rfl, fun _ h => (by cases h), he', by rw [combine, if_neg he]⟩

theorem filterMap_toOption_nil {os : List (Except Exc (List Cert))} (h : os.filterMap Except.toOption = []) :
    ∀ o ∈ os, ∃ e, o = .error e := by
  intro o ho
  cases o with
  | error e => exact ⟨e, rfl⟩
  | ok ch =>
    have := (List.mem_filterMap (f := Except.toOption)).2 ⟨.ok ch, ho, rfl⟩
    rw [h] at this
    cases this

theorem combine_verdict (os : List (Except Exc (List Cert))) (r : Except Exc (List (List Cert)))
    (h : r = (match combine ([], .none) os with
      | .error e => .error e
      | .ok (chains, fe) => (match fe with
        | .error e => .error e
        | _ => if chains.isEmpty then .error ⟨.signerInfoVerificationError, "No valid certificate chain found to a trust anchor"⟩ else .ok chains))) :
    Verdict os r := by
  rcases combine_spec os ([], .none) with ⟨pre, e, post, h1, h2, h3, h4⟩ | ⟨h1, h2⟩
  · rw [h4] at h
    subst h
    rw [h1]
    exact .abort pre post e h2 h3
  · rw [h2] at h
    simp only [List.nil_append] at h
    by_cases hn : os.filterMap Except.toOption = []
    · have hall := filterMap_toOption_nil hn
      cases os with
      | nil => subst h; exact .noCandidate _
      | cons o os =>
        obtain ⟨e, rfl⟩ := hall o (List.mem_cons_self ..)
        have hf : finalError .none (.error e :: os) = .error e := by
          unfold finalError
          rw [if_neg (not_not_intro hn), if_pos rfl]
        rw [hf] at h
        subst h
        exact .firstError e os h1 (fun o' ho' => hall o' (List.mem_cons_of_mem _ ho'))
    · have hf : finalError .none os = .false := by
        unfold finalError
        rw [if_pos hn]
      rw [hf] at h
      simp only at h
      rw [if_neg (by simpa using hn)] at h
      subst h
      exact .chains os h1 hn

/-! ### the outcomes for the candidates -/

theorem Uniform.ctxVerify (env : Env) (c : Cert) : Uniform (fun i => ctxVerify env i c) :=
  fun _ _ _ _ _ hp => Sim.ctxVerify env hp c

theorem Uniform.signerVerifyWith (env : Env) (s : Signer) (tf : Cert → Option Int) :
    Uniform (fun i => signerVerifyWith env i s (fun c => verifyIssuer env i s (tf c) c)) :=
  fun _ _ _ _ _ hp => Sim.signerVerifyWith env hp s (fun c => Sim.verifyIssuer env hp s (tf c) c)

/-- What `_verify_issuer` makes of the signature. -/
def signatureResult (env : Env) (s : Signer) (c : Cert) (legacy : Bool) : Except Exc Unit :=
  match c.verifySignature env s.encryptedDigest s.encodedAuth s.digestAlg legacy with
  | .ok _ => .ok ()
  | .error e => if e.is .verificationError then
      raiseNaming c ⟨.signerInfoVerificationError, "Could not verify the signer of the authenticated attributes"⟩ else .error e

theorem verifyIssuerSignature_run (env : Env) (cid : Nat) (s : Signer) (c : Cert) (v : World) :
    verifyIssuerSignature env cid s c v = (signatureResult env s c (v.ctxs cid).allowLegacy, v) := by
  unfold verifyIssuerSignature signatureResult
  rw [M.getCtx_bind]
  cases c.verifySignature env s.encryptedDigest s.encodedAuth s.digestAlg (v.ctxs cid).allowLegacy with
  | ok _ => rfl
  | error e =>
    simp only
    split <;> rfl

/-- What `_verify_issuer` does depends on the context only as far as it is after setting the time. -/
theorem verifyIssuer_same {env : Env} {cid : Nat} {s : Signer} {t : Option Int} {c : Cert} {w u : World} 
    (hr : Readable w (w.ctxs cid)) (hs : ∀ k, StoreStep (w.stores k) (u.stores k))
    (hc : (atTime u cid t).ctxs cid = (atTime w cid t).ctxs cid) :
    (verifyIssuer env cid s t c u).1 = (verifyIssuer env cid s t c w).1 := by
  have hst : ∀ v, (atTime v cid t).stores = v.stores := fun v => by cases t <;> rfl
  have hal : ∀ v, ((atTime v cid t).ctxs cid).allowLegacy = (v.ctxs cid).allowLegacy := fun v => by cases t <;> simp [atTime]
  have hss : ∀ v, ((atTime v cid t).ctxs cid).stores = (v.ctxs cid).stores := fun v => by cases t <;> simp [atTime]
  have hleg : (u.ctxs cid).allowLegacy = (w.ctxs cid).allowLegacy := by rw [← hal u, ← hal w, hc]
  have hverify : (ctxVerify env cid c (atTime u cid t)).1 = (ctxVerify env cid c (atTime w cid t)).1 := by
    have hr' : Readable w ((atTime w cid t).ctxs cid) := by intro k hk; rw [hss] at hk; exact hr k hk
    exact inContext_run (Uniform.ctxVerify env c) hr' ⟨cid, atTime w cid t, hst w, rfl, rfl⟩ hc (fun k => by rw [hst]; exact hs k)
  unfold verifyIssuer
  rw [M.bind_run, M.bind_run, verifyIssuerSignature_run, verifyIssuerSignature_run, hleg]
  generalize signatureResult env s c (w.ctxs cid).allowLegacy = x
  cases x with
  | error e => rfl
  | ok _ =>
    show ((applySigningTime cid t >>= fun _ => ctxVerify env cid c) u).1 = ((applySigningTime cid t >>= fun _ => ctxVerify env cid c) w).1
    rw [M.bind_ok (applySigningTime_run cid t u), M.bind_ok (applySigningTime_run cid t w)]
    exact hverify

theorem candidateOutcome (env : Env) (cid : Nat) (s : Signer) (t : Option Int) (c : Cert) (w : World) :
    CandidateOutcome env w (w.ctxs cid) s t c (verifyIssuer env cid s t c w).1 := by
  rcases verifyIssuer_run env cid s t c w with ⟨h1, h2⟩ | ⟨h1, e, h2, h3⟩
  · rw [h2]
    refine .goodSignature _ h1 ⟨cid, atTime w cid t, ?_, ?_, rfl⟩
    · cases t <;> rfl
    · cases t with
      | none => rfl
      | some x => simp [atTime]
  · rw [h2]
    exact .badSignature e h1 h3

theorem Keeps.verifyIssuer_none {D T : Nat → Prop} (env : Env) {cid : Nat} (h : D cid) (s : Signer) (c : Cert) :
    Keeps D T (Signify.verifyIssuer env cid s none c) :=
  Keeps.bind (Keeps.verifyIssuerSignature env cid s c) (fun _ => Keeps.bind (Keeps.pure _) (fun _ => Keeps.ctxVerify env h c))

theorem query_iff {env : Env} {s : Signer} {c : Cert} :
    (Query.matches env { issuer := some s.issuer, serial := some s.serial } c) = true ↔
      c.issuer.components = s.issuer.components ∧ c.serial = s.serial := by
  rw [matches_iff]
  constructor
  · intro h
    exact ⟨h.issuer _ rfl, h.serial _ rfl⟩
  · rintro ⟨h1, h2⟩
    exact ⟨fun _ h => (by cases h), fun _ h => (by cases h; exact h2), fun _ h => (by cases h; exact h1), fun _ h => (by cases h)⟩

theorem signerVerifyWith_verdict (env : Env) (cid : Nat) (s : Signer) (tf : Cert → Option Int) (w : World)
    (hr : Readable w (w.ctxs cid)) (hk : Reiterable (w.ctxs cid).keyUsages) (hu : Reiterable (w.ctxs cid).ekus) (cands : List Cert)
    (hc : Candidates w (w.ctxs cid) s cands) (htf : (∀ c ∈ cands, tf c = none) ∨ ∃ x, ∀ c ∈ cands, tf c = some x) :
    ∃ os : List (Cert × Except Exc (List Cert)), os.map Prod.fst = cands ∧
      (∀ p ∈ os, CandidateOutcome env w (w.ctxs cid) s (tf p.1) p.1 p.2) ∧
      Verdict (os.map Prod.snd) (signerVerifyWith env cid s (fun c => verifyIssuer env cid s (tf c) c) w).1 := by
  have hl : ∀ k, StoreStep (w.stores k) ((loadedWorld w).stores k) := fun k => .inr rfl
  have hrl : Readable (loadedWorld w) (w.ctxs cid) := hr.step hl
  have e0 : (signerVerifyWith env cid s (fun c => verifyIssuer env cid s (tf c) c) (loadedWorld w)).1 =
      (signerVerifyWith env cid s (fun c => verifyIssuer env cid s (tf c) c) w).1 :=
    inContext_run (Uniform.signerVerifyWith env s tf) hr ⟨cid, w, rfl, rfl, rfl⟩ rfl hl
  have hout : ∀ c, (verifyIssuer env cid s (tf c) c (loadedWorld w)).1 = (verifyIssuer env cid s (tf c) c w).1 := by
    intro c
    refine verifyIssuer_same hr hl ?_
    cases tf c <;> rfl
  refine ⟨cands.map (fun c => (c, (verifyIssuer env cid s (tf c) c w).1)), by rw [List.map_map]; exact List.map_id _, ?_, ?_⟩
  · intro p hp
    obtain ⟨c, -, rfl⟩ := List.mem_map.1 hp
    exact candidateOutcome env cid s (tf c) c w
  · rw [← e0]
    apply combine_verdict
    have hcands : cands = newOnes [] ((knownCerts (loadedWorld w) cid).filter (Query.matches env { issuer := some s.issuer, serial := some s.serial })) :=
      firstOccurrences_unique hc (newOnes_firstOccurrences _ _ (fun _ => query_iff) _)
    have hpend : ∀ k, ((loadedWorld w).stores k).pending = none := fun k => loaded_pending _
    have hfind := forFind_loaded env cid { issuer := some s.issuer, serial := some s.serial } ([], .none)
      (buildChainBody (fun c => verifyIssuer env cid s (tf c) c)) (loadedWorld w) (fun u => u.stores = (loadedWorld w).stores)
      (fun _ h => h) rfl (fun r _ => loadedWorld_loadedStore w r) (by
        intro acc c u hst
        have hf := Keeps.buildChainBody (D := fun _ => True) (T := fun _ => True)
          (fun c => Keeps.verifyIssuer env (cid := cid) trivial trivial s (tf c) c) acc c u
        funext k
        rw [(hf.stores k).eq_of_none (by rw [hst]; exact hpend k), hst])
    rw [← hcands] at hfind
    have hfold : (foldMc (buildChainBody (fun c => verifyIssuer env cid s (tf c) c)) ([], .none) cands (loadedWorld w)).1 =
        combine ([], .none) (cands.map (fun c => (verifyIssuer env cid s (tf c) c w).1)) := by
      rcases htf with htf | ⟨x, htf⟩
      · refine foldMc_combine (I := fun u => u.stores = (loadedWorld w).stores ∧ u.ctxs cid = w.ctxs cid) cands ?_ _ _ ⟨rfl, rfl⟩
        rintro c hcm u ⟨hst, hctx⟩
        refine ⟨?_, ?_, ?_⟩
        · rw [← hout]
          refine verifyIssuer_same hrl (fun k => .inl (by rw [hst])) ?_
          rw [htf c hcm]
          exact hctx
        · have hf := Keeps.verifyIssuer (D := fun _ => True) (T := fun _ => True) env (cid := cid) trivial trivial s (tf c) c u
          funext k
          rw [(hf.stores k).eq_of_none (by rw [hst]; exact hpend k), hst]
        · rw [htf c hcm]
          have hf := Keeps.verifyIssuer_none (D := fun _ => True) (T := fun _ => False) env (cid := cid) trivial s c u
          have h1 := hf.ctxs cid
          rw [hctx] at h1
          have h2 := ctx_eq hk hu h1
          have h3 := hf.times cid (fun h => h)
          rw [hctx] at h3
          rw [← h3] at h2
          exact h2
      · refine foldMc_combine (I := fun u => u.stores = (loadedWorld w).stores ∧ { u.ctxs cid with timestamp := none } =
            { w.ctxs cid with timestamp := none }) cands ?_ _ _ ⟨rfl, rfl⟩
        rintro c hcm u ⟨hst, hctx⟩
        refine ⟨?_, ?_, ?_⟩
        · rw [← hout]
          refine verifyIssuer_same hrl (fun k => .inl (by rw [hst])) ?_
          rw [htf c hcm]
          simp only [atTime, if_pos]
          exact (congrArg (fun z : Ctx => { z with timestamp := some x }) hctx :)
        · have hf := Keeps.verifyIssuer (D := fun _ => True) (T := fun _ => True) env (cid := cid) trivial trivial s (tf c) c u
          funext k
          rw [(hf.stores k).eq_of_none (by rw [hst]; exact hpend k), hst]
        · have hf := Keeps.verifyIssuer (D := fun _ => True) (T := fun _ => True) env (cid := cid) trivial trivial s (tf c) c u
          have h1 := hf.ctxs cid
          have hk' : Reiterable (u.ctxs cid).keyUsages := by
            have := (congrArg Ctx.keyUsages hctx :); simp only at this; rw [this]; exact hk
          have hu' : Reiterable (u.ctxs cid).ekus := by
            have := (congrArg Ctx.ekus hctx :); simp only at this; rw [this]; exact hu
          have h2 := ctx_eq hk' hu' h1
          rw [← hctx]
          exact (congrArg (fun z : Ctx => { z with timestamp := none }) h2 :)
    have hm : (cands.map (fun c => (c, (verifyIssuer env cid s (tf c) c w).1))).map Prod.snd =
        cands.map (fun c => (verifyIssuer env cid s (tf c) c w).1) := by simp
    rw [hm, ← hfold, ← hfind]
    unfold signerVerifyWith buildChain
    rw [M.bind_run, M.bind_run]
    generalize forFind env cid { issuer := some s.issuer, serial := some s.serial } ([], .none)
      (buildChainBody (fun c => verifyIssuer env cid s (tf c) c)) (loadedWorld w) = x
    obtain ⟨r, u⟩ := x
    cases r with
    | error e => rfl
    | ok acc =>
      obtain ⟨chains, fe⟩ := acc
      cases fe <;> cases chains <;> rfl

end Signify
