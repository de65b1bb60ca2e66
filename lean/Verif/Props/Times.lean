/-
The time left in a context passed by the caller, exactly; files verified with such contexts (C33, C61).
-/
import Verif.Props.Complete
import Verif.Proofs.Times

set_option autoImplicit false

namespace Signify.Props

open Signify Spec

/-! ### The time that a call leaves in the signer's context -/

theorem authSigner_ctx (env : Env) (cid : Nat) (s : Signer) (t : Option Int) (w : World) (hl : LibrariesBehave env)
    (ho : Ordinary w (w.ctxs cid)) (cands : List Cert) (hc : Candidates w (w.ctxs cid) s cands) :
    ((∃ d ∈ cands, ValidSignature env d s.encryptedDigest s.encodedAuth s.digestAlg (w.ctxs cid).allowLegacy ∧ ¬ LifetimeSigning d) →
      (authSignerVerify env cid s t w).2.ctxs cid = { w.ctxs cid with timestamp := t.or (w.ctxs cid).timestamp }) ∧
    ((¬ ∃ d ∈ cands, ValidSignature env d s.encryptedDigest s.encodedAuth s.digestAlg (w.ctxs cid).allowLegacy ∧ ¬ LifetimeSigning d) →
      (authSignerVerify env cid s t w).2.ctxs cid = w.ctxs cid) := by
  have h := signerVerifyWith_ctx env cid s (fun c => if lifetimeSigning c then none else t) w ho.readable (reiterable_of ho.keyUsages)
    (reiterable_of ho.ekus) cands hc (fun c hcm t' => (candidate_iff hl ho (candidates_known hc hcm) (candidateOutcome env cid s t' c w)).2)
  obtain ⟨h1, h2⟩ := timeAfter_fold (env := env) (s := s) (legacy := (w.ctxs cid).allowLegacy) (t := t) cands none (.inl rfl)
  refine ⟨fun hx => ?_, fun hx => ?_⟩
  · rw [h1 hx] at h; exact h
  · rw [h2 hx] at h; exact h

/-- **C33**, the exact law.  A signature verified with a context for the signer leaves in it the time of its countersignature, if the
digests agree, the countersignature holds, and some candidate that is not a lifetime signing certificate made the signature; in all other
cases the context is left with the time it had. -/
theorem C33_time (env : Env) (file : Option Bytes) (a : AuthData) (args : VerifyArgs) (w : World) (hl : LibrariesBehave env)
    (ho : OrdinaryCall w a args) (i : Nat) (hi : args.context = some i) :
    (∀ x, LeavesTime env file w a args x → (asdVerify env file a args w).2.ctxs i = { w.ctxs i with timestamp := some x }) ∧
    ((∀ x, ¬ LeavesTime env file w a args x) → (asdVerify env file a args w).2.ctxs i = w.ctxs i) := by
  obtain ⟨cid, cs, v, hs⟩ := setup w a args ho.exist
  have hsep := hs.separate ho.exist ho.separate
  have hci : cid = i := by
    rcases hs.hcid with h | ⟨h, -⟩
    · rw [hi] at h; cases h; rfl
    · rw [hi] at h; cases h
  subst hci
  have hsc : signerContext w a args = w.ctxs cid := by unfold signerContext; rw [hi]
  have hvc : v.ctxs cid = w.ctxs cid := hs.signer.trans hsc
  have hor := ho.signer
  rw [hsc] at hor
  obtain ⟨cands, hcands, -⟩ := C35_candidates w (w.ctxs cid) a.signer
  rw [hs.asdVerify]
  have hdig : (∃ u, checkDigests env file a args.expectedHash = .ok u) ↔ DigestsAgree env file a args.expectedHash := by
    rw [← digestsMatch_iff, ← checkDigests_ok]
    constructor
    · rintro ⟨u, h⟩; exact h
    · intro h; exact ⟨_, h⟩
  cases hd : checkDigests env file a args.expectedHash with
  | error e =>
    refine ⟨fun x hx => ?_, fun _ => hvc⟩
    obtain ⟨u, hu⟩ := hdig.2 hx.1
    rw [hd] at hu; cases hu
  | ok u0 =>
    have hda := hdig.1 ⟨u0, hd⟩
    rw [M.bind_ok (M.lift_run _ _)]
    -- the signer's part, in a state with the same context
    have key : ∀ u t, u.ctxs cid = w.ctxs cid → (∀ k, StoreStep (w.stores k) (u.stores k)) →
        ((∃ d ∈ cands, ValidSignature env d a.signer.encryptedDigest a.signer.encodedAuth a.signer.digestAlg (w.ctxs cid).allowLegacy ∧
            ¬ LifetimeSigning d) →
          (authSignerVerify env cid a.signer t u).2.ctxs cid = { w.ctxs cid with timestamp := t.or (w.ctxs cid).timestamp }) ∧
        ((¬ ∃ d ∈ cands, ValidSignature env d a.signer.encryptedDigest a.signer.encodedAuth a.signer.digestAlg (w.ctxs cid).allowLegacy ∧
            ¬ LifetimeSigning d) → (authSignerVerify env cid a.signer t u).2.ctxs cid = w.ctxs cid) := by
      intro u t hu hst
      have e : (authSignerVerify env cid a.signer t u).2.ctxs cid = (authSignerVerify env cid a.signer t w).2.ctxs cid :=
        ((Uniform.authSignerVerify env a.signer t _ _ _ cid cid ⟨rfl, rfl⟩ w u
          (Rel.single hor.readable rfl rfl hu hst)).2.ctx cid cid ⟨rfl, rfl⟩).symm
      rw [e]
      exact authSigner_ctx env cid a.signer t w hl hor cands hcands
    have hv0 : ∀ k, StoreStep (w.stores k) (v.stores k) := fun k => .inl (by rw [hs.stores])
    have plain : ∀ u, u.ctxs cid = w.ctxs cid → (∀ k, StoreStep (w.stores k) (u.stores k)) →
        (authSignerVerify env cid a.signer none u).2.ctxs cid = w.ctxs cid := by
      intro u hu hst
      by_cases hx : ∃ d ∈ cands, ValidSignature env d a.signer.encryptedDigest a.signer.encodedAuth a.signer.digestAlg
          (w.ctxs cid).allowLegacy ∧ ¬ LifetimeSigning d
      · exact (key u none hu hst).1 hx
      · exact (key u none hu hst).2 hx
    by_cases hno : a.counter = none ∨ args.countersignatureMode = "ignore"
    · have hct : counterTime env a args.countersignatureMode cs v = (.ok none, v) := by
        unfold counterTime
        rcases hno with hno | hno
        · rw [hno]; rfl
        · cases a.counter with
          | none => rfl
          | some c => simp only; rw [if_neg (not_not_intro hno)]; rfl
      rw [M.bind_ok hct]
      refine ⟨fun x hx => ?_, fun _ => plain v hvc hv0⟩
      obtain ⟨-, c, hc, hm, -⟩ := hx
      rcases hno with h | h
      · rw [h] at hc; cases hc
      · exact absurd h hm
    · cases hc : a.counter with
      | none => exact absurd (.inl hc) hno
      | some c =>
        have hm : args.countersignatureMode ≠ "ignore" := fun h => hno (.inr h)
        have hcr := (ho.counter c hc).readable
        have hpass := counterPasses_iff (env := env) hl (ho.counter c hc)
        rcases counter_dichotomy (env := env) hcr with ⟨hp, -⟩ | ⟨hf, hnp⟩
        · obtain ⟨u, h1, h2⟩ := (counterTime_cases hs hc hm hcr).1 hp
          rw [M.bind_ok h1]
          have hu : u.ctxs cid = w.ctxs cid := by rw [h2.other cid hsep, hvc]
          have hst : ∀ k, StoreStep (w.stores k) (u.stores k) := fun k => by have := h2.stores k; rw [hs.stores] at this; exact this
          obtain ⟨k1, k2⟩ := key u c.signingTime hu hst
          refine ⟨fun x hx => ?_, fun hx => ?_⟩
          · obtain ⟨-, c', hc', -, -, hx', cands', d, hcd, hd', hval, hlf⟩ := hx
            rw [hc] at hc'
            cases hc'
            rw [hsc] at hcd hval
            have := candidates_unique hcd hcands
            subst this
            rw [k1 ⟨d, hd', hval, hlf⟩, hx']
            rfl
          · by_cases he : ∃ d ∈ cands, ValidSignature env d a.signer.encryptedDigest a.signer.encodedAuth a.signer.digestAlg
                (w.ctxs cid).allowLegacy ∧ ¬ LifetimeSigning d
            · rw [k1 he]
              cases ht : c.signingTime with
              | none => rfl
              | some x =>
                obtain ⟨d, hd', hval, hlf⟩ := he
                exact absurd ⟨hda, c, hc, hm, hpass.1 hp, ht, cands, d, (by rw [hsc]; exact hcands), hd', (by rw [hsc]; exact hval), hlf⟩ (hx x)
            · exact k2 he
        · obtain ⟨u, h1, h2⟩ := (counterTime_cases hs hc hm hcr).2 hf
          have hu : u.ctxs cid = w.ctxs cid := by rw [h2.other cid hsep, hvc]
          have hst : ∀ k, StoreStep (w.stores k) (u.stores k) := fun k => by have := h2.stores k; rw [hs.stores] at this; exact this
          refine ⟨fun x hx => ?_, fun _ => ?_⟩
          · obtain ⟨-, c', hc', -, hh, -⟩ := hx
            rw [hc] at hc'
            cases hc'
            exact absurd (hpass.2 hh) hnp
          · by_cases hst' : args.countersignatureMode = "strict"
            · rw [if_pos hst'] at h1
              rw [M.bind_error h1]
              exact hu
            · rw [if_neg hst'] at h1
              rw [M.bind_ok h1]
              exact plain u hu hst

/-! ### Later states -/

theorem _root_.Signify.Spec.Ordinary.step {w u : World} {ctx ctx' : Ctx} (h : Ordinary w ctx) (hs : ∀ k, StoreStep (w.stores k) (u.stores k))
    (hc : { ctx' with timestamp := none } = { ctx with timestamp := none }) : Ordinary u ctx' := by
  have e1 : ctx'.stores = ctx.stores := (congrArg Ctx.stores hc :)
  have e2 : ctx'.keyUsages = ctx.keyUsages := (congrArg Ctx.keyUsages hc :)
  have e3 : ctx'.ekus = ctx.ekus := (congrArg Ctx.ekus hc :)
  have e4 : certsOf (loadedWorld u) = certsOf (loadedWorld w) := funext (certsOf_loaded_step hs)
  refine ⟨⟨fun i certs e hi he => ?_, fun i ctl hi he => ?_⟩, fun r hr c hcm => ?_, ?_, ?_, ?_⟩
  · rw [e1] at hi
    rcases hs i with k | k
    · rw [k] at he; exact h.stores.readable i certs e hi he
    · rw [k] at he
      unfold Spec.Store.loaded at he
      cases hp : (w.stores i).pending with
      | none => rw [hp] at he; simp only at he; rw [hp] at he; cases he
      | some p => rw [hp] at he; cases he
  · rw [e1] at hi
    rw [(hs i).ctl] at he
    exact h.stores.lists i ctl hi he
  · rw [e1] at hr
    rw [e4] at hcm
    exact h.names r hr c hcm
  · rw [e2]; exact h.keyUsages
  · rw [e3]; exact h.ekus
  · rw [e1, e4]; exact h.objects

/-- A state reached from `w` by calls with the arguments `kwargs`: stores may have been read, and the contexts passed have other times,
the one for the signer the time `t`. -/
structure LaterState (w u : World) (kwargs : VerifyArgs) (t : Option Int) : Prop where
  stores : ∀ k, StoreStep (w.stores k) (u.stores k)
  next : w.nextCtx ≤ u.nextCtx
  signer : ∀ i, kwargs.context = some i → u.ctxs i = { w.ctxs i with timestamp := t }
  counter : ∀ i, kwargs.csContext = some i → { u.ctxs i with timestamp := none } = { w.ctxs i with timestamp := none }

section
variable {env : Env} {file : Option Bytes} {w u : World} {a : AuthData} {args : VerifyArgs} {t : Option Int}

theorem LaterState.signerContext (h : LaterState w u args t) :
    { signerContext u a args with timestamp := none } = { signerContext w a args with timestamp := none } := by
  unfold Spec.signerContext
  cases hx : args.context with
  | none => rfl
  | some i => simp only; rw [h.signer i hx]

theorem LaterState.counterContext (h : LaterState w u args t) (c : CounterSigner) :
    { counterContext u a c args with timestamp := none } = { counterContext w a c args with timestamp := none } := by
  unfold Spec.counterContext
  cases hx : args.csContext with
  | none => rfl
  | some i => exact h.counter i hx

theorem LaterState.ordinary (h : LaterState w u args t) (ho : OrdinaryCall w a args) : OrdinaryCall u a args :=
  ⟨⟨fun i hi => Nat.lt_of_lt_of_le (ho.exist.context i hi) h.next, fun i hi => Nat.lt_of_lt_of_le (ho.exist.csContext i hi) h.next⟩,
    ho.separate, ho.signer.step h.stores h.signerContext, fun c hc => (ho.counter c hc).step h.stores (h.counterContext c)⟩

theorem fileSignerHolds_step {ctx : Ctx} {s : Signer} (hs : ∀ k, StoreStep (w.stores k) (u.stores k)) :
    FileSignerHolds env u ctx s t ↔ FileSignerHolds env w ctx s t := by
  unfold FileSignerHolds
  simp only [candidates_step hs rfl, validPath_step hs]

theorem signatureHolds_step (hs : ∀ k, StoreStep (w.stores k) (u.stores k)) (h1 : signerContext u a args = signerContext w a args)
    (h2 : ∀ c, { counterContext u a c args with timestamp := none } = { counterContext w a c args with timestamp := none }) :
    SignatureHolds env file u a args ↔ SignatureHolds env file w a args := by
  unfold SignatureHolds
  simp only [h1, fileSignerHolds_step hs, fun c => counterHolds_step (env := env) hs (h2 c)]

theorem withTime_counter (i : Nat) (c : CounterSigner) :
    { counterContext (withTime w i t) a c args with timestamp := none } = { counterContext w a c args with timestamp := none } := by
  unfold counterContext withTime
  cases args.csContext with
  | none => rfl
  | some j =>
    simp only
    split
    · rename_i e; rw [e]
    · rfl

/-- The signature holds in the later state iff it does in the first, with the time. -/
theorem LaterState.holds (h : LaterState w u args t) :
    SignatureHolds env file u a args ↔
      match args.context with
      | none => SignatureHolds env file w a args
      | some i => SignatureHolds env file (withTime w i t) a args := by
  cases hx : args.context with
  | none =>
    exact signatureHolds_step h.stores (by unfold Spec.signerContext; rw [hx]) h.counterContext
  | some i =>
    refine signatureHolds_step h.stores ?_ (fun c => (h.counterContext c).trans (withTime_counter i c).symm)
    unfold Spec.signerContext withTime
    rw [hx]
    simp only [if_true]
    exact h.signer i hx

/-- The state after a call of `verify` in a later state. -/
theorem LaterState.call (hl : LibrariesBehave env) (ho : OrdinaryCall w a args) (h : LaterState w u args t) :
    (∀ x, LeavesTime env file w a args x → LaterState w (asdVerify env file a args u).2 args (some x)) ∧
    ((∀ x, ¬ LeavesTime env file w a args x) → LaterState w (asdVerify env file a args u).2 args t) := by
  have hou := h.ordinary ho
  have g := asdVerify_grows env file a args u hou.exist
  have hst := fun k => (h.stores k).trans (g.stores k)
  have hnx := Nat.le_trans h.next g.next
  have hlt := fun x => leavesTime_step (env := env) (file := file) (a := a) (args := args) (x := x) h.stores h.signerContext h.counterContext
  have hcs : ∀ i, args.csContext = some i →
      { (asdVerify env file a args u).2.ctxs i with timestamp := none } = { w.ctxs i with timestamp := none } := by
    intro i hi
    by_cases hk : Countersigned a args
    · cases hc : a.counter with
      | none => exact absurd hc hk.1
      | some c =>
        have ho' := hou.counter c hc
        have he : Spec.counterContext u a c args = u.ctxs i := by unfold Spec.counterContext; rw [hi]
        rw [he] at ho'
        have h1 := ctx_eq (reiterable_of ho'.keyUsages) (reiterable_of ho'.ekus) (g.ctxs i (hou.exist.csContext i hi))
        exact (congrArg (fun x : Ctx => { x with timestamp := none }) h1 :).trans (h.counter i hi)
    · rw [asdVerify_other hou.exist hk i (hou.exist.csContext i hi) ?_]
      · exact h.counter i hi
      · intro hx
        rcases ho.separate with k | k
        · rw [k] at hx; cases hx
        · exact k (hx.trans hi.symm)
  refine ⟨fun x hx => ⟨hst, hnx, fun i hi => ?_, hcs⟩, fun hx => ⟨hst, hnx, fun i hi => ?_, hcs⟩⟩
  · rw [(C33_time env file a args u hl hou i hi).1 x ((hlt x).2 hx), h.signer i hi]
  · rw [(C33_time env file a args u hl hou i hi).2 (fun x k => hx x ((hlt x).1 k)), h.signer i hi]
end

/-! ### Calls one after the other -/

/-- All contexts as at first, but for the times. -/
structure SameButTimes (w u : World) : Prop where
  stores : ∀ k, StoreStep (w.stores k) (u.stores k)
  next : w.nextCtx ≤ u.nextCtx
  ctxs : ∀ j, j < w.nextCtx → { u.ctxs j with timestamp := none } = { w.ctxs j with timestamp := none }

section
variable {env : Env} {file : Option Bytes} {w u : World} {a : AuthData} {args : VerifyArgs}

theorem ctx_with {c c' : Ctx} (h : { c' with timestamp := none } = { c with timestamp := none }) :
    c' = { c with timestamp := c'.timestamp } := (congrArg (fun x : Ctx => { x with timestamp := c'.timestamp }) h :)

theorem SameButTimes.later (h : SameButTimes w u) (he : ContextsExist w args) (t : Option Int)
    (ht : ∀ i, args.context = some i → (u.ctxs i).timestamp = t) : LaterState w u args t :=
  ⟨h.stores, h.next, fun i hi => (by rw [← ht i hi]; exact ctx_with (h.ctxs i (he.context i hi))), fun i hi => h.ctxs i (he.csContext i hi)⟩

theorem SameButTimes.call (h : SameButTimes w u) (ho : OrdinaryCall w a args) : SameButTimes w (asdVerify env file a args u).2 := by
  have hou : OrdinaryCall u a args := by
    cases hx : args.context with
    | none => exact (h.later ho.exist none (fun i hi => (by rw [hx] at hi; cases hi))).ordinary ho
    | some i => exact (h.later ho.exist (u.ctxs i).timestamp (fun j hj => (by rw [hx] at hj; cases hj; rfl))).ordinary ho
  have g := asdVerify_grows env file a args u hou.exist
  refine ⟨fun k => (h.stores k).trans (g.stores k), Nat.le_trans h.next g.next, fun j hj => ?_⟩
  refine Eq.trans ?_ (h.ctxs j hj)
  have hju : j < u.nextCtx := Nat.lt_of_lt_of_le hj h.next
  have key : Ordinary u (u.ctxs j) → { (asdVerify env file a args u).2.ctxs j with timestamp := none } = { u.ctxs j with timestamp := none } :=
    fun ho => (congrArg (fun x : Ctx => { x with timestamp := none }) (ctx_eq (reiterable_of ho.keyUsages) (reiterable_of ho.ekus) (g.ctxs j hju)) :)
  by_cases h1 : args.context = some j
  · have := hou.signer
    unfold Spec.signerContext at this
    rw [h1] at this
    exact key this
  · by_cases hk : Countersigned a args
    · by_cases h2 : args.csContext = some j
      · cases hc : a.counter with
        | none => exact absurd hc hk.1
        | some c =>
          have := hou.counter c hc
          unfold Spec.counterContext at this
          rw [h2] at this
          exact key this
      · rw [g.other j hju (fun h => h.elim h1 h2)]
    · rw [asdVerify_other hou.exist hk j hju h1]
end

theorem _root_.Signify.Spec.TimeAfterCalls.snoc {env : Env} {w : World} {i : Nat} {calls : List Call} {t : Option Int}
    (h : TimeAfterCalls env w i calls t) (a : Call) :
    (∀ x, LeavesTimeIn env w i a x → TimeAfterCalls env w i (calls ++ [a]) (some x)) ∧
    ((∀ x, ¬ LeavesTimeIn env w i a x) → TimeAfterCalls env w i (calls ++ [a]) t) := by
  refine ⟨fun x hx => .left calls a [] x rfl hx (fun b hb => (by cases hb)), fun hx => ?_⟩
  cases h with
  | left l b l' x he hb hl =>
    refine .left l b (l' ++ [a]) x (by rw [he]; simp) hb (fun c hc => ?_)
    rcases List.mem_append.1 hc with hc | hc
    · exact hl c hc
    · rw [List.mem_singleton] at hc; subst hc; exact hx
  | none hn =>
    refine .none (fun c hc => ?_)
    rcases List.mem_append.1 hc with hc | hc
    · exact hn c hc
    · rw [List.mem_singleton] at hc; subst hc; exact hx

theorem afterCalls_times {env : Env} {w : World} {i : Nat} (hi : i < w.nextCtx) (hl : LibrariesBehave env) (calls : List Call) :
    ∀ (pre : List Call) (u : World), SameButTimes w u → TimeAfterCalls env w i pre (u.ctxs i).timestamp →
      (∀ c ∈ calls, OrdinaryCall w c.a c.args ∧ c.args.csContext ≠ some i) →
      SameButTimes w (afterCalls env calls u) ∧ TimeAfterCalls env w i (pre ++ calls) ((afterCalls env calls u).ctxs i).timestamp := by
  induction calls with
  | nil => intro pre u h1 h2 _; rw [List.append_nil]; exact ⟨h1, h2⟩
  | cons c calls ih =>
    intro pre u h1 h2 h3
    obtain ⟨ho, hcs⟩ := h3 c (List.mem_cons_self ..)
    have := ih (pre ++ [c]) (asdVerify env c.file c.a c.args u).2 (h1.call ho) ?_ (fun d hd => h3 d (List.mem_cons_of_mem _ hd))
    · rw [List.append_assoc] at this; exact this
    · obtain ⟨k1, k2⟩ := h2.snoc c
      by_cases hx : c.args.context = some i
      · have hlater := h1.later ho.exist (u.ctxs i).timestamp (fun j hj => (by rw [hx] at hj; cases hj; rfl))
        obtain ⟨m1, m2⟩ := hlater.call (file := c.file) hl ho
        by_cases hy : ∃ x, LeavesTime env c.file w c.a c.args x
        · obtain ⟨x, hy⟩ := hy
          rw [(m1 x hy).signer i hx]
          exact k1 x ⟨hx, hy⟩
        · rw [(m2 (fun x h => hy ⟨x, h⟩)).signer i hx]
          exact k2 (fun x h => hy ⟨x, h.2⟩)
      · have he : ContextsExist u c.args := ⟨fun j hj => Nat.lt_of_lt_of_le (ho.exist.context j hj) h1.next,
          fun j hj => Nat.lt_of_lt_of_le (ho.exist.csContext j hj) h1.next⟩
        have g := asdVerify_grows env c.file c.a c.args u he
        rw [g.other i (Nat.lt_of_lt_of_le hi h1.next) (fun h => h.elim hx hcs)]
        exact k2 (fun x h => hx h.1)

/-- What holds instead of the property, exactly: after any calls, a signature verified with the context `i` for the signer is accepted iff
it holds with the time in this context that the last of the calls that leaves one has left there, or the time that was there at first if
none does.  Missing: calls that use the same context for the countersigner. -/
theorem C33_exact_partial (env : Env) (calls : List Call) (file : Option Bytes) (a : AuthData) (args : VerifyArgs) (w : World) (i : Nat)
    (hl : LibrariesBehave env) (hi : args.context = some i) (hc : ∀ c ∈ calls, OrdinaryCall w c.a c.args ∧ c.args.csContext ≠ some i)
    (ho : OrdinaryCall w a args) :
    ∃ t, TimeAfterCalls env w i calls t ∧ ((∃ chains, (asdVerify env file a args (afterCalls env calls w)).1 = .ok chains) ↔
      SignatureHolds env file (withTime w i t) a args) := by
  obtain ⟨h1, h2⟩ := afterCalls_times (ho.exist.context i hi) hl calls [] w ⟨fun _ => .inl rfl, Nat.le_refl _, fun _ _ => rfl⟩
    (.none (fun b hb => (by cases hb))) hc
  have h3 := h1.later ho.exist _ (fun j hj => (by rw [hi] at hj; cases hj; exact rfl))
  refine ⟨_, h2, ?_⟩
  rw [C61_signature env file a args _ hl (h3.ordinary ho), h3.holds]
  rw [hi]

/-! ### Files -/

section
variable {env : Env} {file : Bytes} {provided : Dict String Bytes} {kwargs : VerifyArgs} {w : World}

theorem leavesTimeInFile_unique {a : ASD} {x y : Int} (h : LeavesTimeInFile env file provided kwargs w a x)
    (h' : LeavesTimeInFile env file provided kwargs w a y) : x = y := by
  obtain ⟨d, h1, -, c, h2, -, -, h3, -⟩ := h
  obtain ⟨d', h1', -, c', h2', -, -, h3', -⟩ := h'
  rw [h2] at h2'
  cases h2'
  rw [h3] at h3'
  exact Option.some.inj h3'

/-- What a further signature does to the time. -/
theorem _root_.Signify.Spec.TimeAfter.snoc {first t : Option Int} {pre : List ASD} (h : TimeAfter env file provided kwargs w first pre t) (a : ASD) :
    (∀ x, LeavesTimeInFile env file provided kwargs w a x → TimeAfter env file provided kwargs w first (pre ++ [a]) (some x)) ∧
    ((∀ x, ¬ LeavesTimeInFile env file provided kwargs w a x) → TimeAfter env file provided kwargs w first (pre ++ [a]) t) := by
  refine ⟨fun x hx => .left pre a [] x rfl hx (fun b hb => (by cases hb)), fun hx => ?_⟩
  cases h with
  | left l b l' x he hb hl =>
    refine .left l b (l' ++ [a]) x (by rw [he]; simp) hb (fun c hc => ?_)
    rcases List.mem_append.1 hc with hc | hc
    · exact hl c hc
    · rw [List.mem_singleton] at hc; subst hc; exact hx
  | none hn =>
    refine .none (fun c hc => ?_)
    rcases List.mem_append.1 hc with hc | hc
    · exact hn c hc
    · rw [List.mem_singleton] at hc; subst hc; exact hx

theorem last_unique {α : Type} {P : α → Prop} : ∀ {l l' m m' : List α} {a b : α}, l ++ a :: l' = m ++ b :: m' → P a → P b →
    (∀ x ∈ l', ¬ P x) → (∀ x ∈ m', ¬ P x) → a = b
  | [], l', [], m', a, b, h, _, _, _, _ => by cases h; rfl
  | [], l', c :: m, m', a, b, h, _, hb, hl, _ => by
    rw [List.nil_append, List.cons_append] at h
    obtain ⟨-, h⟩ := List.cons.inj h
    exact absurd hb (hl b (by rw [h]; simp))
  | c :: l, l', [], m', a, b, h, ha, _, _, hm => by
    rw [List.nil_append, List.cons_append] at h
    obtain ⟨-, h⟩ := List.cons.inj h
    exact absurd ha (hm a (by rw [← h]; simp))
  | c :: l, l', d :: m, m', a, b, h, ha, hb, hl, hm => by
    rw [List.cons_append, List.cons_append] at h
    exact last_unique (List.cons.inj h).2 ha hb hl hm

theorem _root_.Signify.Spec.TimeAfter.unique {first t t' : Option Int} {pre : List ASD} (h : TimeAfter env file provided kwargs w first pre t)
    (h' : TimeAfter env file provided kwargs w first pre t') : t = t' := by
  cases h with
  | none hn =>
    cases h' with
    | none => rfl
    | left l a l' x he ha _ => exact absurd ha (hn a (by rw [he]; simp) x)
  | left l a l' x he ha hl =>
    cases h' with
    | none hn => exact absurd ha (hn a (by rw [he]; simp) x)
    | left m b m' y he' hb hm =>
      have : a = b := last_unique (P := fun c => ∃ z, LeavesTimeInFile env file provided kwargs w c z) (he.symm.trans he') ⟨x, ha⟩ ⟨y, hb⟩
        (fun c hc ⟨z, hz⟩ => hl c hc z hz) (fun c hc ⟨z, hz⟩ => hm c hc z hz)
      subst this
      rw [leavesTimeInFile_unique ha hb]

/-- The state after some signatures of the file have been verified. -/
def Reached (env : Env) (file : Bytes) (provided : Dict String Bytes) (kwargs : VerifyArgs) (w : World) (pre : List ASD) (u : World) : Prop :=
  ∃ t, (∀ i, kwargs.context = some i → TimeAfter env file provided kwargs w (w.ctxs i).timestamp pre t) ∧ LaterState w u kwargs t

theorem _root_.Signify.Spec.OrdinaryCall.expected {a : AuthData} (ho : OrdinaryCall w a kwargs) (d : Option Bytes) :
    OrdinaryCall w a { kwargs with expectedHash := d } :=
  ⟨⟨ho.exist.context, ho.exist.csContext⟩, ho.separate, ho.signer, ho.counter⟩

theorem LaterState.expected {u : World} {t : Option Int} (h : LaterState w u kwargs t) (d : Option Bytes) :
    LaterState w u { kwargs with expectedHash := d } t := ⟨h.stores, h.next, h.signer, h.counter⟩

theorem LaterState.unexpected {u : World} {t : Option Int} {d : Option Bytes} (h : LaterState w u { kwargs with expectedHash := d } t) :
    LaterState w u kwargs t := ⟨h.stores, h.next, h.signer, h.counter⟩

theorem Reached.holds (hl : LibrariesBehave env) {pre : List ASD} {u : World} (h : Reached env file provided kwargs w pre u) {a : ASD}
    (ho : OrdinaryCall w a.d kwargs) {d : Bytes} (hd : DigestFor env file provided a.d.core.digestAlg d) :
    (∃ c, (asdVerify env (some file) a.d { kwargs with expectedHash := some d } u).1 = .ok c) ↔
      HoldsAfter env file provided kwargs w pre a := by
  obtain ⟨t, h1, h2⟩ := h
  rw [C61_signature env (some file) a.d _ u hl ((h2.expected _).ordinary (ho.expected _)), (h2.expected _).holds]
  unfold HoldsAfter HoldsInFile
  show (match kwargs.context with | none => _ | some i => _) ↔ _
  cases hx : kwargs.context with
  | none =>
    constructor
    · exact fun h => ⟨d, hd, h⟩
    · rintro ⟨d', hd', h⟩
      cases digestFor_unique hd hd'
      exact h
  | some i =>
    constructor
    · exact fun h => ⟨t, h1 i hx, d, hd, h⟩
    · rintro ⟨t', ht', d', hd', h⟩
      cases digestFor_unique hd hd'
      cases (h1 i hx).unique ht'
      exact h

theorem Reached.next (hl : LibrariesBehave env) {pre : List ASD} {u : World} (h : Reached env file provided kwargs w pre u) {a : ASD}
    (ho : OrdinaryCall w a.d kwargs) {d : Bytes} (hd : DigestFor env file provided a.d.core.digestAlg d) :
    Reached env file provided kwargs w (pre ++ [a]) (asdVerify env (some file) a.d { kwargs with expectedHash := some d } u).2 := by
  obtain ⟨t, h1, h2⟩ := h
  have hc := (h2.expected (some d)).call (file := some file) hl (ho.expected (some d))
  by_cases hx : ∃ x, LeavesTimeInFile env file provided kwargs w a x
  · obtain ⟨x, hx⟩ := hx
    refine ⟨some x, fun i hi => ((h1 i hi).snoc a).1 x hx, ?_⟩
    obtain ⟨d', hd', hx⟩ := hx
    cases digestFor_unique hd hd'
    exact (hc.1 x hx).unexpected
  · refine ⟨t, fun i hi => ((h1 i hi).snoc a).2 (fun x k => hx ⟨x, k⟩), ?_⟩
    exact (hc.2 (fun x k => hx ⟨x, d, hd, k⟩)).unexpected

theorem attempts_after (hl : LibrariesBehave env) {u u' : World} {l : List (ASD × Except Exc (List (List Cert)))}
    (h : Attempts env file provided kwargs u l u') : ∀ (pre : List ASD), Reached env file provided kwargs w pre u →
      (∀ p ∈ l, OrdinaryCall w p.1.d kwargs) → ∀ l1 p l2, l = l1 ++ p :: l2 →
        ((∃ c, p.2 = .ok c) ↔ HoldsAfter env file provided kwargs w (pre ++ l1.map Prod.fst) p.1) := by
  induction h with
  | nil w => intro pre _ _ l1 p l2 h; cases l1 <;> cases h
  | cons a d u u' l hd hatt ih =>
    intro pre hr ho l1 p l2 he
    have ha := ho _ (List.mem_cons_self ..)
    cases l1 with
    | nil =>
      cases he
      simpa using hr.holds hl ha hd
    | cons q l1 =>
      cases he
      have := ih (pre ++ [a]) (hr.next hl ha hd) (fun p hp => ho p (List.mem_cons_of_mem _ hp)) l1 p l2 rfl
      simpa using this
end

/-- **C61** for files, also with contexts of the caller.  Of the signatures selected for the mode, those that the call verifies must hold
after the ones before them (which may have left a time in the context for the signer): in the modes 'first' and 'all' every selected one,
in other modes one of them. -/
theorem C61_file_contexts (env : Env) (cd : Codec) (file : Bytes) (args : PEVerifyArgs) (w : World) (sds sel : List ASD)
    (hl : LibrariesBehave env) (hn : HashNames (providedBy w args)) (hc : Considered cd file args.ignoreParseErrors sds) (hne : sds ≠ [])
    (ho : ∀ b ∈ sds, OrdinaryCall w b.d args.kwargs) (hs : Selected args.multiVerifyMode sds sel) :
    (Strict args.multiVerifyMode → ((∃ res, (peVerify env cd file args w).1 = .ok res) ↔
      ∀ pre b post, sel = pre ++ b :: post → HoldsAfter env file (providedBy w args) args.kwargs w pre b)) ∧
    (¬ Strict args.multiVerifyMode → ((∃ res, (peVerify env cd file args w).1 = .ok res) ↔
      ∃ pre b post, sel = pre ++ b :: post ∧ HoldsAfter env file (providedBy w args) args.kwargs w pre b)) := by
  obtain ⟨sel', tried, rest, w0, hs', hsel, hx, hatt, hov⟩ := C16_outcome env cd file args w sds hc hne hn
  cases C16_selection_unique cd file _ _ sds sel sel' hc hne hs hs'
  have hsub : ∀ b ∈ sel, b ∈ sds := by
    intro b hb
    cases hs with
    | first a r _ he => rw [List.mem_singleton] at hb; subst hb; rw [he]; exact List.mem_cons_self ..
    | best s _ h2 _ _ => exact h2.subset hb
    | all _ _ => exact hb
  have hr0 : Reached env file (providedBy w args) args.kwargs w [] w0 := by
    by_cases hi : ∃ i, args.kwargs.context = some i
    · obtain ⟨i, hi⟩ := hi
      refine ⟨(w.ctxs i).timestamp, fun j hj => ?_, fun k => .inl (by rw [hx.1]), by rw [hx.2.2]; exact Nat.le_refl _, fun j hj => ?_,
        fun j _ => by rw [hx.2.1]⟩
      · rw [hi] at hj; cases hj; exact .none (fun b hb => (by cases hb))
      · rw [hi] at hj; cases hj; rw [hx.2.1]
    · refine ⟨none, fun j hj => absurd ⟨j, hj⟩ hi, fun k => .inl (by rw [hx.1]), by rw [hx.2.2]; exact Nat.le_refl _,
        fun j hj => absurd ⟨j, hj⟩ hi, fun j _ => by rw [hx.2.1]⟩
  have hall := attempts_after hl hatt [] hr0 (fun p hp => ho _ (hsub _ (by rw [hsel]; exact List.mem_append_left _ (List.mem_map_of_mem hp))))
  simp only [List.nil_append] at hall
  generalize hres : (peVerify env cd file args w).1 = res at hov ⊢
  clear hres hatt
  -- a signature tried, in its place
  have hsplit : ∀ pre b post, tried.map Prod.fst = pre ++ b :: post → ∃ r, (b, r) ∈ tried ∧
      ((∃ c, r = .ok c) ↔ HoldsAfter env file (providedBy w args) args.kwargs w pre b) := by
    intro pre b post h
    obtain ⟨l1, l2, h1, h2, h3⟩ := List.map_eq_append_iff.1 h
    obtain ⟨p, l3, h4, h5, -⟩ := List.map_eq_cons_iff.1 h3
    subst h2 h4 h5
    exact ⟨p.2, by rw [h1]; simp, hall l1 p l3 h1⟩
  cases hov with
  | allVerify l hst =>
    refine ⟨fun _ => ⟨fun _ pre b post h => ?_, fun _ => ⟨_, rfl⟩⟩, fun h => absurd hst h⟩
    rw [hsel, List.append_nil] at h
    obtain ⟨r, hr, hk⟩ := hsplit pre b post h
    obtain ⟨q, -, hq⟩ := List.mem_map.1 hr
    cases hq
    exact hk.1 ⟨_, rfl⟩
  | firstFailure l a e rest hst =>
    refine ⟨fun _ => ⟨fun ⟨_, h⟩ => (by cases h), fun h => ?_⟩, fun h => absurd hst h⟩
    obtain ⟨c, hc⟩ := (hall (l.map (fun p => (p.1, .ok p.2))) (a, .error e) [] rfl).2
      (h _ _ rest (by rw [hsel, List.map_append, List.append_assoc]; rfl))
    cases hc
  | firstSuccess l a c rest hst =>
    refine ⟨fun h => absurd h hst, fun _ => ⟨fun _ => ?_, fun _ => ⟨_, rfl⟩⟩⟩
    exact ⟨_, a, rest, by rw [hsel, List.map_append, List.append_assoc]; rfl,
      (hall (l.map (fun p => (p.1, .error p.2))) (a, .ok c) [] rfl).1 ⟨_, rfl⟩⟩
  | allFail l a e hst =>
    refine ⟨fun h => absurd h hst, fun _ => ⟨fun ⟨_, h⟩ => (by cases h), fun ⟨pre, b, post, h, hh⟩ => ?_⟩⟩
    rw [hsel, List.append_nil] at h
    obtain ⟨r, hr, hk⟩ := hsplit pre b post h
    obtain ⟨c, rfl⟩ := hk.2 hh
    rcases List.mem_append.1 hr with hr | hr
    · obtain ⟨q, -, hq⟩ := List.mem_map.1 hr
      cases hq
    · rw [List.mem_singleton] at hr
      cases hr

/-! ### Examples -/

/-- A validator for which paths are valid at the time 300 only. -/
def exTimedEnv : Env :=
  { exPEBehaved with
    validate := fun r =>
      if 1 ∈ r.trustRoots ∧ 2 ∈ r.intermediates ∧ r.moment = some 300 then .ok [1, 2, r.endEntity] else .error ⟨.foreign, "path"⟩ }

theorem exTimedEnv_validate {r : ValReq} {chain : List Nat} (h : exTimedEnv.validate r = .ok chain) :
    1 ∈ r.trustRoots ∧ 2 ∈ r.intermediates ∧ chain = [1, 2, r.endEntity] := by
  change (if 1 ∈ r.trustRoots ∧ 2 ∈ r.intermediates ∧ r.moment = some 300 then (.ok [1, 2, r.endEntity] : Except Exc (List Nat))
    else .error ⟨.foreign, "path"⟩) = .ok chain at h
  split at h
  · rename_i h1
    cases h
    exact ⟨h1.1, h1.2.1, rfl⟩
  · cases h

theorem exTimedEnv_behaves : LibrariesBehave exTimedEnv where
  keys := exPEBehaved_behaves.keys
  validators := exPEBehaved_behaves.validators
  nonempty := fun r h => (by cases (exTimedEnv_validate h).2.2)
  known := fun r chain x h hx => (by
    obtain ⟨h1, h2, rfl⟩ := exTimedEnv_validate h
    simp only [List.mem_cons, List.not_mem_nil, or_false] at hx
    rcases hx with rfl | rfl | rfl
    · exact .inr (.inl h1)
    · exact .inr (.inr h2)
    · exact .inl rfl)

/-- A decoder for the examples: an entry of 1s is a signature countersigned at the time 300, all others are the same signature without
a countersignature. -/
def exTimedCodec : Codec :=
  { exPECodec with
    attrs := fun b =>
      if b = [9] then .ok [⟨"content_type", [.oid "data"]⟩, ⟨"message_digest", [.octets [0x31, 1, 1]]⟩, ⟨"signing_time", [.time 300]⟩]
      else exPECodec.attrs b
    envelope := fun b =>
      if b.length = 8 then
        .ok ("signed_data", .mk ⟨[⟨"sha256", false⟩], "microsoft_spc_indirect_data_content",
            some [1], [⟨"certificate", exInter⟩, ⟨"certificate", exLeaf⟩, ⟨"certificate", exTsa⟩], 0, false⟩
          [.mk ⟨"issuer_and_serial_number", exN "Inter", 3, some [1], ⟨"sha256", false⟩, "rsa", [0x31, 1, 1]⟩
            (if b.head? = some 1 then [.mk "counter_signature" [.signerInfo (.mk ⟨"issuer_and_serial_number", exN "Inter", 6, some [9],
              ⟨"sha256", false⟩, "rsa", [0x31, 1, 9]⟩ [])]] else [])])
      else .error ⟨.foreign, "cannot decode"⟩ }

/-- `verify` with a context for the signers. -/
def exTimedArgs (mode : String) : PEVerifyArgs := { exPEArgs mode with kwargs := { trusted := .heap 0, context := some 0 } }

theorem exShared_ordinary (ekus : List String) : Ordinary exShared (contextOf [.heap 0, .embedded exCerts] ekus {}) :=
  (exOrdinary' exCerts ekus (by decide +kernel)).step (fun _ => .inl rfl) rfl

theorem exShared_signer : Ordinary exShared (exShared.ctxs 0) :=
  (exShared_ordinary ["code_signing"]).step (fun _ => .inl rfl) rfl

theorem exTimed_ordinary (mode : String) {x : ASD} (hx : x.d.core.certificates = exCerts)
    (hp : ∀ r, x.d.counter ≠ some (.rfc3161 r)) : OrdinaryCall exShared x.d (exTimedArgs mode).kwargs := by
  refine ⟨⟨fun i h => (by cases h; decide), fun _ h => (by cases h)⟩, .inr (fun h => (by cases h)), exShared_signer, fun c hc => ?_⟩
  · have : counterContext exShared x.d c (exTimedArgs mode).kwargs = contextOf [.heap 0, .embedded exCerts] ["time_stamping"] {} := by
      cases c with
      | pkcs9 i =>
        unfold counterContext
        rw [hx]
        rfl
      | rfc3161 r => exact absurd hc (hp r)
    rw [this]
    exact exShared_ordinary _

theorem exTimed_pair (x y : UInt8) {p q : List Cert × Option Int × Bool}
    (h : (iterSignedDatas exTimedCodec (exTwice x y [7, 7, 7]) true true).1.map
      (fun a => (a.d.core.certificates, a.d.counter.bind CounterSigner.signingTime,
        match a.d.counter with | some (.rfc3161 _) => true | _ => false)) = [p, q])
    (he : (iterSignedDatas exTimedCodec (exTwice x y [7, 7, 7]) true true).2 = none) (hp : p.1 = exCerts ∧ p.2.2 = false)
    (hq : q.1 = exCerts ∧ q.2.2 = false) :
    ∃ a b, Considered exTimedCodec (exTwice x y [7, 7, 7]) true [a, b] ∧ ∀ mode, ∀ z ∈ [a, b], OrdinaryCall exShared z.d (exTimedArgs mode).kwargs := by
  obtain ⟨a, b, hc, hlab⟩ := exPair_of h he
  refine ⟨a, b, hc, fun mode z hz => ?_⟩
  have key : z.d.core.certificates = exCerts ∧ (match z.d.counter with | some (.rfc3161 _) => true | _ => false) = false := by
    simp only [List.map_cons, List.map_nil, List.cons.injEq, and_true] at hlab
    obtain ⟨rfl, rfl⟩ := hlab
    simp only [List.mem_cons, List.not_mem_nil, or_false] at hz
    rcases hz with rfl | rfl
    · exact hp
    · exact hq
  refine exTimed_ordinary mode key.1 (fun r hr => ?_)
  rw [hr] at key
  cases key.2

/-- Two signatures, the first of which is countersigned: both hold, the second one thanks to the time that the first one leaves in the
context.  In the other order the file is rejected in mode 'all', and accepted in mode 'any', as the one without countersignature does not
hold before. -/
example : (∃ a b, Considered exTimedCodec (exTwice 1 2 [7, 7, 7]) true [a, b] ∧
      HoldsAfter exTimedEnv (exTwice 1 2 [7, 7, 7]) [] (exTimedArgs "all").kwargs exShared [] a ∧
      HoldsAfter exTimedEnv (exTwice 1 2 [7, 7, 7]) [] (exTimedArgs "all").kwargs exShared [a] b) ∧
    (∃ a b, Considered exTimedCodec (exTwice 2 1 [7, 7, 7]) true [a, b] ∧
      ¬ HoldsAfter exTimedEnv (exTwice 2 1 [7, 7, 7]) [] (exTimedArgs "first").kwargs exShared [] a ∧
      HoldsAfter exTimedEnv (exTwice 2 1 [7, 7, 7]) [] (exTimedArgs "any").kwargs exShared [a] b) := by
  constructor
  · obtain ⟨a, b, hc, ho⟩ := exTimed_pair 1 2 (p := (exCerts, some 300, false)) (q := (exCerts, none, false)) (by decide +kernel)
      (by decide +kernel) ⟨rfl, rfl⟩ ⟨rfl, rfl⟩
    have h := ((C61_file_contexts exTimedEnv exTimedCodec (exTwice 1 2 [7, 7, 7]) (exTimedArgs "all") exShared [a, b] [a, b] exTimedEnv_behaves
      (exPEArgs_names "all") hc (by simp) (ho "all") (.all (by decide) (by decide))).1 (.inl rfl)).1 (toOption_isSome (by decide +kernel))
    exact ⟨a, b, hc, h [] a [b] rfl, h [a] b [] rfl⟩
  · obtain ⟨a, b, hc, ho⟩ := exTimed_pair 2 1 (p := (exCerts, none, false)) (q := (exCerts, some 300, false)) (by decide +kernel)
      (by decide +kernel) ⟨rfl, rfl⟩ ⟨rfl, rfl⟩
    have h1 := ((C61_file_contexts exTimedEnv exTimedCodec (exTwice 2 1 [7, 7, 7]) (exTimedArgs "first") exShared [a, b] [a] exTimedEnv_behaves
      (exPEArgs_names "first") hc (by simp) (ho "first") (.first a [b] rfl rfl)).1 (.inr rfl))
    have h2 := ((C61_file_contexts exTimedEnv exTimedCodec (exTwice 2 1 [7, 7, 7]) (exTimedArgs "any") exShared [a, b] [a, b] exTimedEnv_behaves
      (exPEArgs_names "any") hc (by simp) (ho "any") (.all (by decide) (by decide))).2 (fun h => (by rcases h with h | h <;> exact absurd h (by decide)))).1 (toOption_isSome (by decide +kernel))
    have hn : ¬ HoldsAfter exTimedEnv (exTwice 2 1 [7, 7, 7]) [] (exTimedArgs "first").kwargs exShared [] a := by
      intro h
      refine toOption_isNone (by decide +kernel) (h1.2 (fun pre x post he => ?_))
      cases pre with
      | nil => cases he; exact h
      | cons y pre => cases pre <;> cases he
    refine ⟨a, b, hc, hn, ?_⟩
    obtain ⟨pre, x, post, he, hh⟩ := h2
    match pre, he with
    | [], he => cases he; exact absurd hh hn
    | [_], he => cases he; exact hh
    | _ :: _ :: pre, he => cases pre <;> cases he

theorem exShared_call (counter : Option CounterSigner) (hc : counter = none ∨ counter = some exCounter) :
    OrdinaryCall exShared (exAuth exCerts counter) { exArgs with context := some 0 } := by
  refine ⟨⟨fun i h => (by cases h; decide), fun _ h => (by cases h)⟩, .inr (by decide), exShared_signer, fun c hcc => ?_⟩
  · change counter = some c at hcc
    rcases hc with hc | hc
    · rw [hc] at hcc; cases hcc
    · rw [hc] at hcc; cases hcc; exact exShared_ordinary _

/-- The time is left by a countersigned signature, not by one without countersignature. -/
theorem exLeaves : (∃ x, LeavesTime exTimedEnv none exShared (exAuth exCerts (some exCounter)) { exArgs with context := some 0 } x) ∧
    ∀ x, ¬ LeavesTime exTimedEnv none exShared (exAuth exCerts none) { exArgs with context := some 0 } x := by
  refine ⟨Classical.byContradiction fun h => ?_, fun x h => ?_⟩
  · have := (C33_time exTimedEnv none _ _ exShared exTimedEnv_behaves (exShared_call (some exCounter) (.inr rfl)) 0 rfl).2 (fun x hx => h ⟨x, hx⟩)
    have := congrArg Ctx.timestamp this
    exact absurd this (by decide +kernel)
  · have := (C33_time exTimedEnv none _ _ exShared exTimedEnv_behaves (exShared_call none (.inl rfl)) 0 rfl).1 x h
    have h1 : _ = true := (congrArg (fun c : Ctx => c.timestamp.isSome) this :)
    have h2 : ((asdVerify exTimedEnv none (exAuth exCerts none) { exArgs with context := some 0 } exShared).2.ctxs 0).timestamp.isSome = false := by
      decide +kernel
    rw [h2] at h1
    cases h1

/-- A signature without countersignature holds after a countersigned one has been verified with the same context, and not after itself. -/
example : (∃ t, TimeAfterCalls exTimedEnv exShared 0 [⟨none, exAuth exCerts (some exCounter), { exArgs with context := some 0 }⟩] t ∧
      SignatureHolds exTimedEnv none (withTime exShared 0 t) (exAuth exCerts none) { exArgs with context := some 0 }) ∧
    ∃ t, TimeAfterCalls exTimedEnv exShared 0 [⟨none, exAuth exCerts none, { exArgs with context := some 0 }⟩] t ∧
      ¬ SignatureHolds exTimedEnv none (withTime exShared 0 t) (exAuth exCerts none) { exArgs with context := some 0 } := by
  constructor
  · obtain ⟨t, h1, h2⟩ := C33_exact_partial exTimedEnv [⟨none, exAuth exCerts (some exCounter), { exArgs with context := some 0 }⟩] none
      (exAuth exCerts none) { exArgs with context := some 0 } exShared 0 exTimedEnv_behaves rfl
      (fun c hc => (by
        rw [List.mem_singleton] at hc
        subst hc
        exact ⟨exShared_call _ (.inr rfl), fun h => (by cases h)⟩)) (exShared_call none (.inl rfl))
    exact ⟨t, h1, h2.1 (toOption_isSome (by decide +kernel))⟩
  · obtain ⟨t, h1, h2⟩ := C33_exact_partial exTimedEnv [⟨none, exAuth exCerts none, { exArgs with context := some 0 }⟩] none
      (exAuth exCerts none) { exArgs with context := some 0 } exShared 0 exTimedEnv_behaves rfl
      (fun c hc => (by
        rw [List.mem_singleton] at hc
        subst hc
        exact ⟨exShared_call _ (.inl rfl), fun h => (by cases h)⟩)) (exShared_call none (.inl rfl))
    exact ⟨t, h1, fun h => toOption_isNone (by decide +kernel) (h2.2 h)⟩

end Signify.Props
