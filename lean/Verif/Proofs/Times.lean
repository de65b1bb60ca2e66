/-
The time that verification leaves in the context passed for the signer.
-/
import Verif.Proofs.Lifetime
import Verif.Proofs.Modes
import Verif.Spec.Times

set_option autoImplicit false

namespace Signify

open Spec

theorem foldMc_keeps_from {σ : Type} {check : Cert → M (List Cert)} {step : σ → Cert → σ} {out : σ → Cert → Except Exc (List Cert)}
    {I : σ → World → Prop} (h : ∀ c st w, I st w → (check c w).1 = out (step st c) c ∧ I (step st c) (check c w).2) (l : List Cert)
    (hreg : ∀ c ∈ l, ∀ st, Regular (out st c)) (acc : List (List Cert) × FirstError) (st : σ) (w : World) (hw : I st w) :
    I (l.foldl step st) (foldMc (buildChainBody check) acc l w).2 := by
  induction l generalizing acc w st with
  | nil => exact hw
  | cons c l ih =>
    obtain ⟨h1, h2⟩ := h c st w hw
    have ih' := fun acc st w hw => ih (fun d hd => hreg d (List.mem_cons_of_mem _ hd)) acc st w hw
    show I (l.foldl step (step st c)) ((buildChainBody check acc c >>= fun acc => foldMc (buildChainBody check) acc l) w).2
    rcases hx : check c w with ⟨r, w1⟩
    rw [hx] at h1 h2
    simp only at h1 h2
    have ha : M.attempt (check c) w = (.ok r, w1) := by unfold M.attempt; rw [hx]
    cases r with
    | ok ch =>
      have hb : buildChainBody check acc c w = (.ok (acc.1 ++ [ch], .false), w1) := by
        unfold buildChainBody
        rw [M.bind_ok ha]
        rfl
      rw [M.bind_ok hb]
      exact ih' _ _ w1 h2
    | error e =>
      have he : e.is .verificationError = true := hreg c (List.mem_cons_self ..) (step st c) e h1.symm
      have hb : buildChainBody check acc c w = (.ok (acc.1, if acc.2 = .none then .error e else acc.2), w1) := by
        unfold buildChainBody
        rw [M.bind_ok ha]
        simp only
        rw [if_pos he]
        rfl
      rw [M.bind_ok hb]
      exact ih' _ _ w1 h2

/-- The context after the verification of a signer, no candidate having caused an unexpected error. -/
theorem signerVerifyWith_ctx (env : Env) (cid : Nat) (s : Signer) (tf : Cert → Option Int) (w : World)
    (hr : Readable w (w.ctxs cid)) (hk : Reiterable (w.ctxs cid).keyUsages) (hu : Reiterable (w.ctxs cid).ekus) (cands : List Cert)
    (hc : Candidates w (w.ctxs cid) s cands) (hreg : ∀ c ∈ cands, ∀ t, Regular (verifyIssuer env cid s t c w).1) :
    (signerVerifyWith env cid s (fun c => verifyIssuer env cid s (tf c) c) w).2.ctxs cid =
      { w.ctxs cid with timestamp := (cands.foldl (timeAfter env s (w.ctxs cid).allowLegacy tf) none).or (w.ctxs cid).timestamp } := by
  have hl : ∀ k, StoreStep (w.stores k) ((loadedWorld w).stores k) := fun k => .inr rfl
  have e0 : (signerVerifyWith env cid s (fun c => verifyIssuer env cid s (tf c) c) w).2.ctxs cid =
      (signerVerifyWith env cid s (fun c => verifyIssuer env cid s (tf c) c) (loadedWorld w)).2.ctxs cid := by
    have := (Uniform.signerVerifyWith env s tf _ _ _ cid cid ⟨rfl, rfl⟩ w (loadedWorld w) (Rel.single hr rfl rfl rfl hl)).2
    exact this.ctx cid cid ⟨rfl, rfl⟩
  rw [e0]
  have hcands : cands = newOnes [] ((knownCerts (loadedWorld w) cid).filter (Query.matches env { issuer := some s.issuer, serial := some s.serial })) :=
    firstOccurrences_unique hc (newOnes_firstOccurrences _ _ (fun _ => query_iff) _)
  have hpend : ∀ k, ((loadedWorld w).stores k).pending = none := fun k => loaded_pending _
  have hfind := forFind_loaded env cid { issuer := some s.issuer, serial := some s.serial } ([], .none)
    (buildChainBody (fun c => verifyIssuer env cid s (tf c) c)) (loadedWorld w) (fun u => u.stores = (loadedWorld w).stores)
    (fun _ h => h) rfl (fun r _ => loadedWorld_loadedStore w r) (by
      intro acc c u hst
      have hf := Keeps.buildChainBody (D := fun _ => True) (T := fun _ => True)
        (fun c => Keeps.verifyIssuer env (cid := cid) trivial trivial s (tf c) c) acc c u
      funext k
      rw [(hf.stores k).eq_of_none (by rw [hst]; exact hpend k), hst])
  rw [← hcands] at hfind
  have hfold := (foldMc_keeps_from (out := fun t c => (verifyIssuer env cid s t c w).1)
    (verifyIssuer_trying env cid s tf w hr hk hu) cands hreg ([], .none) none (loadedWorld w) ⟨rfl, rfl⟩).2
  rw [← hfind] at hfold
  rw [← hfold]
  unfold signerVerifyWith buildChain
  rw [M.bind_run, M.bind_run]
  generalize forFind env cid { issuer := some s.issuer, serial := some s.serial } ([], .none)
    (buildChainBody (fun c => verifyIssuer env cid s (tf c) c)) (loadedWorld w) = x
  obtain ⟨r, u⟩ := x
  cases r with
  | error e => rfl
  | ok acc =>
    obtain ⟨chains, fe⟩ := acc
    cases fe <;> cases chains <;> rfl

/-- Stores that have at most been read since. -/
theorem loadedWorld_step {w u : World} (hs : ∀ k, StoreStep (w.stores k) (u.stores k)) :
    loadedWorld u = { loadedWorld w with ctxs := u.ctxs, nextCtx := u.nextCtx, dicts := u.dicts } := by
  have : (fun i => Spec.Store.loaded (u.stores i)) = (fun i => Spec.Store.loaded (w.stores i)) := funext fun i => (hs i).loaded_eq
  unfold loadedWorld
  rw [this]

theorem certsOf_world (w : World) (cs : Nat → Ctx) (n : Nat) (D : Nat → Dict String Bytes) (r : StoreRef) :
    certsOf { w with ctxs := cs, nextCtx := n, dicts := D } r = certsOf w r := by cases r <;> rfl

theorem certsOf_loaded_step {w u : World} (hs : ∀ k, StoreStep (w.stores k) (u.stores k)) (r : StoreRef) :
    certsOf (loadedWorld u) r = certsOf (loadedWorld w) r := by rw [loadedWorld_step hs]; exact certsOf_world _ _ _ _ r

theorem validPath_step {env : Env} {w u : World} {ctx : Ctx} {c : Cert} {chain : List Cert} (hs : ∀ k, StoreStep (w.stores k) (u.stores k)) :
    ValidPath env u ctx c chain ↔ ValidPath env w ctx c chain := by
  have hq : requestFor (loadedWorld u) ctx c = requestFor (loadedWorld w) ctx c := by
    rw [loadedWorld_step hs]
    unfold requestFor
    simp only [certsOf_world]
    have : ∀ r, storeTrusted { loadedWorld w with ctxs := u.ctxs, nextCtx := u.nextCtx, dicts := u.dicts } r = storeTrusted (loadedWorld w) r :=
      fun r => by cases r <;> rfl
    simp only [this]
  have ha : ∀ r l t, StoreAccepts env (loadedWorld u) r chain l t ↔ StoreAccepts env (loadedWorld w) r chain l t := by
    intro r l t
    rw [loadedWorld_step hs]
    exact Iff.rfl
  constructor
  · rintro ⟨h1, h2, r, hr, h3⟩
    refine ⟨hq ▸ h1, fun d hd => ?_, r, hr, (ha _ _ _).1 h3⟩
    simpa only [certsOf_loaded_step hs] using h2 d hd
  · rintro ⟨h1, h2, r, hr, h3⟩
    refine ⟨hq ▸ h1, fun d hd => ?_, r, hr, (ha _ _ _).2 h3⟩
    simpa only [certsOf_loaded_step hs] using h2 d hd

theorem candidates_step {w u : World} {ctx ctx' : Ctx} {s : Signer} {l : List Cert} (hs : ∀ k, StoreStep (w.stores k) (u.stores k))
    (hc : ctx'.stores = ctx.stores) : Candidates u ctx' s l ↔ Candidates w ctx s l := by
  unfold Candidates
  have : certsOf (loadedWorld u) = certsOf (loadedWorld w) := funext (certsOf_loaded_step hs)
  rw [hc, this]

theorem signerHolds_step {env : Env} {w u : World} {ctx : Ctx} {s : Signer} (hs : ∀ k, StoreStep (w.stores k) (u.stores k)) :
    SignerHolds env u ctx s ↔ SignerHolds env w ctx s := by
  unfold SignerHolds
  constructor
  · rintro ⟨cands, c, chain, h1, h2, h3, h4⟩
    exact ⟨cands, c, chain, (candidates_step hs rfl).1 h1, h2, h3, (validPath_step hs).1 h4⟩
  · rintro ⟨cands, c, chain, h1, h2, h3, h4⟩
    exact ⟨cands, c, chain, (candidates_step hs rfl).2 h1, h2, h3, (validPath_step hs).2 h4⟩

theorem counterHolds_step {env : Env} {w u : World} {a : AuthData} {args : VerifyArgs} {c : CounterSigner}
    (hs : ∀ k, StoreStep (w.stores k) (u.stores k))
    (hc : { counterContext u a c args with timestamp := none } = { counterContext w a c args with timestamp := none }) :
    CounterHolds env u a args c ↔ CounterHolds env w a args c := by
  have e : ∀ t s, SignerHolds env u { counterContext u a c args with timestamp := t } s ↔
      SignerHolds env w { counterContext w a c args with timestamp := t } s :=
    fun t s => (iff_of_eq (congrArg (fun x : Ctx => SignerHolds env u { x with timestamp := t } s) hc)).trans (signerHolds_step hs)
  cases c with
  | pkcs9 i => exact and_congr_right fun _ => e _ _
  | rfc3161 r => exact and_congr_right fun _ => and_congr_right fun _ => e _ _

theorem leavesTime_step {env : Env} {file : Option Bytes} {w u : World} {a : AuthData} {args : VerifyArgs} {x : Int}
    (hs : ∀ k, StoreStep (w.stores k) (u.stores k))
    (h1 : { signerContext u a args with timestamp := none } = { signerContext w a args with timestamp := none })
    (h2 : ∀ c, { counterContext u a c args with timestamp := none } = { counterContext w a c args with timestamp := none }) :
    LeavesTime env file u a args x ↔ LeavesTime env file w a args x := by
  have e1 : (signerContext u a args).stores = (signerContext w a args).stores := (congrArg Ctx.stores h1 :)
  have e2 : (signerContext u a args).allowLegacy = (signerContext w a args).allowLegacy := (congrArg Ctx.allowLegacy h1 :)
  unfold LeavesTime
  rw [e2]
  constructor
  · rintro ⟨k1, c, k2, k3, k4, k5, cands, d, k6, k7⟩
    exact ⟨k1, c, k2, k3, (counterHolds_step hs (h2 c)).1 k4, k5, cands, d, (candidates_step hs e1).1 k6, k7⟩
  · rintro ⟨k1, c, k2, k3, k4, k5, cands, d, k6, k7⟩
    exact ⟨k1, c, k2, k3, (counterHolds_step hs (h2 c)).2 k4, k5, cands, d, (candidates_step hs e1).2 k6, k7⟩

/-- A call that looks at no countersignature leaves all contexts but the signer's as they are. -/
theorem asdVerify_other {env : Env} {file : Option Bytes} {w : World} {a : AuthData} {args : VerifyArgs} (he : ContextsExist w args)
    (hk : ¬ Countersigned a args) (j : Nat) (hj : j < w.nextCtx) (hne : args.context ≠ some j) :
    (asdVerify env file a args w).2.ctxs j = w.ctxs j := by
  obtain ⟨cid, cs, v, hs⟩ := setup w a args he
  rw [hs.asdVerify, counterTime_none hk]
  have h := (Keeps.bind (Keeps.lift (checkDigests env file a args.expectedHash)) fun _ => Keeps.authSignerVerify_none (D := fun j => j = cid)
    (T := fun _ => False) env rfl a.signer) v
  have hne' : ¬ j = cid := by
    rintro rfl
    rcases hs.hcid with h | ⟨-, h⟩
    · exact hne h
    · omega
  exact (h.other j hne').trans (hs.old j hj)

end Signify
