/-
Proofs for `key_usages` given as an iterator (C95).
-/
import Verif.Model.OneShot
import Verif.Proofs.Modes

set_option autoImplicit false

namespace Signify

open Spec

theorem iterStep_consumed {p q : PyIter} (h : IterStep p.consumed q) : q = p.consumed := by
  rcases h with h | h
  · exact h
  · rw [h, consumed_consumed]

theorem exhaust_usages (w : World) (cid : Nat) :
    ((exhaust w cid).ctxs cid).keyUsages = (w.ctxs cid).keyUsages.consumed ∧ ((exhaust w cid).ctxs cid).ekus = (w.ctxs cid).ekus.consumed := by
  unfold exhaust exhaustEkus exhaustKus
  constructor <;> simp

/-- A successful verification has used up the iterators of the context. -/
theorem ctxVerify_used {env : Env} {cid : Nat} {c : Cert} {w w' : World} {chain : List Cert}
    (h : ctxVerify env cid c w = (.ok chain, w')) :
    (w'.ctxs cid).keyUsages = (w.ctxs cid).keyUsages.consumed ∧ (w'.ctxs cid).ekus = (w.ctxs cid).ekus.consumed := by
  obtain ⟨w1, -, -, h3, h4⟩ := ctxVerify_ok h
  have hf : Frame (fun j => j = cid) (fun j => j = cid) w1 w' :=
    (Keeps.verifyTrustLoop (D := fun j => j = cid) (T := fun j => j = cid) env rfl chain (w.ctxs cid).stores none).of_eq h4
  have hc := hf.ctxs cid
  rw [h3] at hc
  obtain ⟨e1, e2⟩ := exhaust_usages w cid
  constructor
  · have := hc.kus; rw [e1] at this; exact iterStep_consumed this
  · have := hc.ekus; rw [e2] at this; exact iterStep_consumed this

/-- So has a successful `SignerInfo.verify`. -/
theorem signerVerifyWith_used {env : Env} {cid : Nat} {s : Signer} {tf : Cert → Option Int} {w w' : World} {chains : List (List Cert)}
    (h : signerVerifyWith env cid s (fun c => verifyIssuer env cid s (tf c) c) w = (.ok chains, w')) :
    (w'.ctxs cid).keyUsages = (w.ctxs cid).keyUsages.consumed := by
  unfold signerVerifyWith at h
  obtain ⟨ch, w1, h1, h⟩ := M.bind_eq_ok h
  cases hem : ch.isEmpty with
  | true => rw [hem] at h; cases (Prod.mk.inj h).1
  | false =>
    rw [hem] at h
    rw [if_neg (by simp), M.pure_run] at h
    cases h
    unfold buildChain at h1
    obtain ⟨acc, w2, h2, h1⟩ := M.bind_eq_ok h1
    have hacc : acc.1 = chains ∧ w2 = w' := by
      cases ha : acc.2 with
      | error e => rw [ha] at h1; cases (Prod.mk.inj h1).1
      | none => rw [ha] at h1; exact ⟨by have := (Prod.mk.inj h1).1; injection this, (Prod.mk.inj h1).2⟩
      | false => rw [ha] at h1; exact ⟨by have := (Prod.mk.inj h1).1; injection this, (Prod.mk.inj h1).2⟩
    obtain ⟨hacc, hw2⟩ := hacc
    subst hw2
    have hk : ∀ c, Keeps (fun j => j = cid) (fun j => j = cid) (verifyIssuer env cid s (tf c) c) :=
      fun c => Keeps.verifyIssuer (D := fun j => j = cid) (T := fun j => j = cid) env rfl rfl s (tf c) c
    have mono : ∀ {D T : Nat → Prop} {u v : World}, Frame D T u v → (u.ctxs cid).keyUsages = (w.ctxs cid).keyUsages.consumed →
        (v.ctxs cid).keyUsages = (w.ctxs cid).keyUsages.consumed := by
      intro D T u v hf hu
      have := (hf.ctxs cid).kus
      rw [hu] at this
      exact iterStep_consumed this
    have key := forFind_inv (fun a c => Keeps.buildChainBody hk a c)
      (fun a u => a.1 ≠ [] → (u.ctxs cid).keyUsages = (w.ctxs cid).keyUsages.consumed) w ?_ ?_ ?_ h2
    · apply key
      rw [hacc]
      intro hn
      rw [hn] at hem
      cases hem
    · intro a u v g hf hne
      exact mono hf (g hne)
    · intro a c u a' v g hf hm _ hbody hne
      unfold buildChainBody at hbody
      have hatt : M.attempt (verifyIssuer env cid s (tf c) c) u =
          (.ok (verifyIssuer env cid s (tf c) c u).1, (verifyIssuer env cid s (tf c) c u).2) := rfl
      rw [M.bind_ok hatt] at hbody
      have hfv : Frame (fun j => j = cid) (fun j => j = cid) u (verifyIssuer env cid s (tf c) c u).2 := hk c u
      cases hx : (verifyIssuer env cid s (tf c) c u).1 with
      | error e =>
        rw [hx] at hbody
        simp only at hbody
        split at hbody
        · rw [M.pure_run] at hbody
          cases hbody
          exact mono hfv (g hne)
        · cases (Prod.mk.inj hbody).1
      | ok chain =>
        rw [hx] at hbody
        simp only at hbody
        rw [M.pure_run] at hbody
        cases hbody
        rcases verifyIssuer_run env cid s (tf c) c u with ⟨hv, hrun⟩ | ⟨hv, e, hrun, -⟩
        · rw [hrun] at hx ⊢
          have hu := (ctxVerify_used (show ctxVerify env cid c (atTime u cid (tf c)) =
            (.ok chain, (ctxVerify env cid c (atTime u cid (tf c))).2) from by rw [← hx])).1
          rw [hu]
          have h1 := ((hf.trans ((frame_atTime u cid (tf c)))).ctxs cid).kus
          rcases h1 with h1 | h1
          · rw [h1]
          · rw [h1, consumed_consumed]
        · rw [hrun] at hx; cases hx
    · intro hne; exact absurd rfl hne

theorem counterVerify_used {env : Env} {c : CounterSigner} {cid : Nat} {w w' : World} {chains : List (List Cert)}
    (h : c.verify env cid w = (.ok chains, w')) : (w'.ctxs cid).keyUsages = (w.ctxs cid).keyUsages.consumed := by
  cases c with
  | pkcs9 c => exact signerVerifyWith_used (tf := fun _ => none) h
  | rfc3161 r => exact signerVerifyWith_used (tf := fun _ => none) (rfcVerify_ok (trusted := .embedded []) h).2

theorem checkCounter_used {env : Env} {a : AuthData} {c : CounterSigner} {i : Nat} {w w' : World}
    (h : checkCounter env a c i w = (.ok (), w')) : (w'.ctxs i).keyUsages = (w.ctxs i).keyUsages.consumed := by
  unfold checkCounter at h
  split at h
  · cases (Prod.mk.inj h).1
  · rw [M.bind_ok (setTimestamp_run i _ w)] at h
    obtain ⟨ch, u, h1, h⟩ := M.bind_eq_ok h
    rw [M.pure_run] at h
    cases h
    rw [counterVerify_used h1, withTime_ctx]

/-- `asdVerifyOnce` with neither context given. -/
structure OnceSetup (w : World) (a : AuthData) (args : VerifyArgs) (l : List String) (cid : Nat) (cs : Option Nat) (v : World) : Prop where
  run : ∀ {β : Type} (k : Nat → Option Nat → M β),
    (chooseContextOnce a args l >>= fun cid => chooseCsContextOnce a args l >>= fun cs => k cid cs) w = k cid cs v
  stores : v.stores = w.stores
  signer : v.ctxs cid = { signerContext w a args with keyUsages := .gen l }
  ignored : a.counter = none ∨ args.countersignatureMode = "ignore" → cs = none
  counter : ∀ c, a.counter = some c → args.countersignatureMode ≠ "ignore" →
    ∃ i, cs = some i ∧ i ≠ cid ∧ v.ctxs i = { counterContext w a c args with keyUsages := .gen l }
  older : ∀ j, j < w.nextCtx → j ≠ cid ∧ cs ≠ some j ∧ v.ctxs j = w.ctxs j
  next : w.nextCtx ≤ v.nextCtx

theorem onceSetup (w : World) (a : AuthData) (args : VerifyArgs) (l : List String) (h1 : args.context = none) (h2 : args.csContext = none) :
    ∃ cid cs v, OnceSetup w a args l cid cs v := by
  let S : Ctx := mkCtxOnce [args.trusted, .embedded a.core.certificates] ["code_signing"] args.options l
  let v1 : World := { w with ctxs := fun j => if j = w.nextCtx then S else w.ctxs j, nextCtx := w.nextCtx + 1 }
  have e1 : chooseContextOnce a args l w = (.ok w.nextCtx, v1) := by unfold chooseContextOnce; rw [h1]; rfl
  have hS : S = { signerContext w a args with keyUsages := .gen l } := by
    show mkCtxOnce _ _ _ _ = _
    unfold mkCtxOnce signerContext
    rw [h1]; rfl
  by_cases hno : a.counter = none ∨ args.countersignatureMode = "ignore"
  · have e2 : chooseCsContextOnce a args l v1 = (.ok none, v1) := by
      unfold chooseCsContextOnce
      rw [h2]
      rcases hno with hno | hno
      · rw [hno]; rfl
      · cases a.counter with
        | none => rfl
        | some c => simp only; rw [if_neg (not_not_intro hno)]; rfl
    refine ⟨w.nextCtx, none, v1, ?_, rfl, ?_, fun _ => rfl, ?_, fun j hj => ⟨by omega, (by intro h; cases h), if_neg (by omega)⟩, Nat.le_succ _⟩
    · intro β k
      rw [M.bind_ok e1, M.bind_ok e2]
    · show (if w.nextCtx = w.nextCtx then S else _) = _
      rw [if_pos rfl, hS]
    · intro c hc hm
      rcases hno with hno | hno
      · rw [hno] at hc; cases hc
      · exact absurd hno hm
  · cases hc : a.counter with
    | none => exact absurd (.inl hc) hno
    | some c =>
      have hm : args.countersignatureMode ≠ "ignore" := fun e => hno (.inr e)
      let C : Ctx := mkCtxOnce (counterStores a c args.trusted) ["time_stamping"] args.options l
      let v2 : World := { v1 with ctxs := fun j => if j = v1.nextCtx then C else v1.ctxs j, nextCtx := v1.nextCtx + 1 }
      have e2 : chooseCsContextOnce a args l v1 = (.ok (some v1.nextCtx), v2) := by
        unfold chooseCsContextOnce
        rw [h2, hc]
        simp only
        rw [if_pos hm]; rfl
      refine ⟨w.nextCtx, some v1.nextCtx, v2, ?_, rfl, ?_, fun h => ?_, ?_, fun j hj => ⟨by omega, ?_, ?_⟩, Nat.le_trans (Nat.le_succ _) (Nat.le_succ _)⟩
      rotate_left 4
      · intro h
        have h' : w.nextCtx + 1 = j := Option.some.inj h
        omega
      · show (if j = w.nextCtx + 1 then C else if j = w.nextCtx then S else w.ctxs j) = _
        rw [if_neg (by omega), if_neg (by omega)]
      · intro β k
        rw [M.bind_ok e1, M.bind_ok e2]
      · show (if w.nextCtx = w.nextCtx + 1 then C else if w.nextCtx = w.nextCtx then S else _) = _
        rw [if_neg (by omega), if_pos rfl, hS]
      · rcases h with h | h
        · rw [hc] at h; cases h
        · exact absurd h hm
      · intro c' hc' _
        have hcc : c' = c := by rw [hc] at hc'; cases hc'; rfl
        subst hcc
        refine ⟨_, rfl, ?_, ?_⟩
        · show w.nextCtx + 1 ≠ w.nextCtx
          omega
        · show (if w.nextCtx + 1 = w.nextCtx + 1 then C else _) = _
          rw [if_pos rfl]
          show mkCtxOnce _ _ _ _ = _
          unfold mkCtxOnce counterContext counterStores
          rw [h2]
          cases c' <;> rfl

theorem OnceSetup.asdVerifyOnce {env : Env} {file : Option Bytes} {w v : World} {a : AuthData} {args : VerifyArgs} {l : List String}
    {cid : Nat} {cs : Option Nat} (h : OnceSetup w a args l cid cs v) :
    Signify.asdVerifyOnce env file a args l w = (M.lift (checkDigests env file a args.expectedHash) >>= fun _ =>
      counterTime env a args.countersignatureMode cs >>= fun t => shareUsages args cid cs >>= fun _ =>
      authSignerVerify env cid a.signer t) v :=
  h.run (fun cid cs => M.lift (checkDigests env file a args.expectedHash) >>= fun _ =>
      counterTime env a args.countersignatureMode cs >>= fun t => shareUsages args cid cs >>= fun _ =>
      authSignerVerify env cid a.signer t)

/-- The state after `shareUsages`. -/
theorem shareUsages_run {args : VerifyArgs} (h1 : args.context = none) (h2 : args.csContext = none) (cid i : Nat) (u : World) :
    shareUsages args cid (some i) u =
      (.ok (), { u with ctxs := fun j => if j = cid then { u.ctxs cid with keyUsages := (u.ctxs i).keyUsages } else u.ctxs j }) := by
  unfold shareUsages
  rw [h1, h2]
  rfl

/-- The countersignature in a context of its own, as the call sees it. -/
theorem checkCounter_outcome {env : Env} {w v : World} {a : AuthData} {c : CounterSigner} {ctx : Ctx} {i : Nat}
    (hr : Readable w ctx) (hv : v.stores = w.stores) (hi : v.ctxs i = ctx) :
    (checkCounter env a c i v).1 = .ok () ↔ c.checkMessageDigest env a.signer.encryptedDigest = true ∧
      ∃ chains, InContext w { ctx with timestamp := c.signingTime } (fun i => c.verify env i) (.ok chains) := by
  have hctx : (withTime v i c.signingTime).ctxs i = { ctx with timestamp := c.signingTime } := by
    rw [withTime_ctx, hi]
  have hst : ∀ k, StoreStep (w.stores k) ((withTime v i c.signingTime).stores k) := fun k => .inl (by rw [← hv]; rfl)
  have hr' : Readable w { ctx with timestamp := c.signingTime } := hr
  have hiff := fun r => inContext_iff (r := r) (Uniform.counterVerify env c) hr' hctx hst
  unfold checkCounter
  cases hd : c.checkMessageDigest env a.signer.encryptedDigest with
  | false =>
    rw [if_pos (by simp)]
    exact ⟨fun h => (by cases h), fun h => (by cases h.1)⟩
  | true =>
    rw [if_neg (by simp), M.bind_ok (setTimestamp_run i _ v)]
    rcases hx : c.verify env i (withTime v i c.signingTime) with ⟨r, u⟩
    cases r with
    | ok ch =>
      rw [M.bind_ok hx]
      exact ⟨fun _ => ⟨rfl, ch, (hiff _).2 (by rw [hx])⟩, fun _ => rfl⟩
    | error e =>
      rw [M.bind_error hx]
      refine ⟨fun h => (by cases h), fun ⟨_, ch, h⟩ => ?_⟩
      have := (hiff _).1 h
      rw [hx] at this
      cases this

/-- The signer's part of `asdVerifyOnce`, after the countersigner's context has been used. -/
theorem signer_shared {env : Env} {w v u : World} {a : AuthData} {args : VerifyArgs} {l : List String} {cid i : Nat}
    (hs : OnceSetup w a args l cid (some i) v) (h1 : args.context = none) (h2 : args.csContext = none) (hne : i ≠ cid)
    (hf : Frame (fun j => j = i) (fun j => j = i) v u) (t : Option Int)
    (hr : Readable w (signerContext w a args)) (r : Except Exc (List (List Cert))) :
    ((shareUsages args cid (some i) >>= fun _ => authSignerVerify env cid a.signer t) u).1 = r ↔
      InContext w { signerContext w a args with keyUsages := (u.ctxs i).keyUsages } (fun i => authSignerVerify env i a.signer t) r := by
  rw [M.bind_ok (shareUsages_run h1 h2 cid i u)]
  refine (inContext_iff (Uniform.authSignerVerify env a.signer t) ?_ ?_ ?_).symm
  · exact hr
  · show (if cid = cid then { u.ctxs cid with keyUsages := (u.ctxs i).keyUsages } else _) = _
    rw [if_pos rfl, hf.other cid (fun h => hne h.symm), hs.signer]
  · intro k
    have := hf.stores k
    rw [hs.stores] at this
    exact this

end Signify
