/-
What a history of verifications leaves behind.
-/
import Verif.Proofs.Modes

set_option autoImplicit false

namespace Signify

open Spec

/-- The state changes made by verifications that use the contexts in `D`, and give a new timestamp only to those in `T`: stores may
be loaded, new contexts created, and the contexts used may get a new timestamp and have iterators used up. -/
structure Grows (D T : Nat → Prop) (w w' : World) : Prop where
  stores : ∀ i, StoreStep (w.stores i) (w'.stores i)
  dicts : w'.dicts = w.dicts
  next : w.nextCtx ≤ w'.nextCtx
  other : ∀ j, j < w.nextCtx → ¬ D j → w'.ctxs j = w.ctxs j
  times : ∀ j, j < w.nextCtx → ¬ T j → (w'.ctxs j).timestamp = (w.ctxs j).timestamp
  ctxs : ∀ j, j < w.nextCtx → CtxStep (w.ctxs j) (w'.ctxs j)

theorem Grows.refl (D T : Nat → Prop) (w : World) : Grows D T w w :=
  ⟨fun _ => .inl rfl, rfl, Nat.le_refl _, fun _ _ _ => rfl, fun _ _ _ => rfl, fun _ _ => .refl _⟩

theorem Grows.trans {D T : Nat → Prop} {a b c : World} (h : Grows D T a b) (k : Grows D T b c) : Grows D T a c :=
  ⟨fun i => (h.stores i).trans (k.stores i), k.dicts.trans h.dicts, Nat.le_trans h.next k.next,
    fun j hj hd => (k.other j (Nat.lt_of_lt_of_le hj h.next) hd).trans (h.other j hj hd),
    fun j hj hd => (k.times j (Nat.lt_of_lt_of_le hj h.next) hd).trans (h.times j hj hd),
    fun j hj => (h.ctxs j hj).trans (k.ctxs j (Nat.lt_of_lt_of_le hj h.next))⟩

theorem Grows.mono {D E T U : Nat → Prop} {a b : World} (h : Grows D T a b) (hs : ∀ j, D j → E j) (ht : ∀ j, T j → U j) : Grows E U a b :=
  ⟨h.stores, h.dicts, h.next, fun j hj k => h.other j hj (fun d => k (hs j d)), fun j hj k => h.times j hj (fun d => k (ht j d)), h.ctxs⟩

/-- The contexts passed to a call. -/
def Passed (args : VerifyArgs) (j : Nat) : Prop := args.context = some j ∨ args.csContext = some j

/-- The call looks at a countersignature. -/
def Countersigned (a : AuthData) (args : VerifyArgs) : Prop := a.counter ≠ none ∧ args.countersignatureMode ≠ "ignore"

theorem counterTime_none {env : Env} {a : AuthData} {args : VerifyArgs} {cs : Option Nat} (h : ¬ Countersigned a args) :
    counterTime env a args.countersignatureMode cs = pure none := by
  unfold counterTime
  cases hc : a.counter with
  | none => rfl
  | some c =>
    have : args.countersignatureMode = "ignore" := by
      refine Classical.byContradiction (fun hm => h ⟨by rw [hc]; simp, hm⟩)
    rw [this]
    rfl

theorem asdVerify_grows (env : Env) (file : Option Bytes) (a : AuthData) (args : VerifyArgs) (w : World) (he : ContextsExist w args) :
    Grows (Passed args) (fun j => Passed args j ∧ Countersigned a args) w (asdVerify env file a args w).2 := by
  obtain ⟨cid, cs, v, hs⟩ := setup w a args he
  rw [hs.asdVerify]
  have h1 : Frame (fun j => j = cid ∨ cs = some j) (fun j => (j = cid ∨ cs = some j) ∧ Countersigned a args) v
      ((M.lift (checkDigests env file a args.expectedHash) >>= fun _ => counterTime env a args.countersignatureMode cs >>= fun t =>
        authSignerVerify env cid a.signer t : M (List (List Cert))) v).2 := by
    by_cases hk : Countersigned a args
    · exact (Keeps.bind (Keeps.lift _) fun _ => Keeps.bind (Keeps.counterTime env a _ cs (fun i hi => .inr hi) (fun i hi => ⟨.inr hi, hk⟩))
        fun t => Keeps.authSignerVerify env (.inl rfl) ⟨.inl rfl, hk⟩ _ t) v
    · rw [counterTime_none hk]
      exact (Keeps.bind (Keeps.lift _) fun _ => Keeps.authSignerVerify_none env (.inl rfl) a.signer) v
  have key : ∀ j, j < w.nextCtx → (j = cid ∨ cs = some j) → Passed args j := by
    rintro j hj (rfl | h)
    · rcases hs.hcid with h | ⟨-, h⟩
      · exact .inl h
      · exact absurd hj (by omega)
    · rcases hs.hcs j h with h | ⟨-, h, -⟩
      · exact .inr h
      · exact absurd hj (by omega)
  refine ⟨fun i => ?_, ?_, ?_, fun j hj hd => ?_, fun j hj hd => ?_, fun j hj => ?_⟩
  · have := h1.stores i; rw [hs.stores] at this; exact this
  · rw [h1.dicts, hs.dicts]
  · rw [h1.next]; exact hs.next
  · rw [h1.other j (fun k => hd (key j hj k)), hs.old j hj]
  · rw [h1.times j (fun k => hd ⟨key j hj k.1, k.2⟩), hs.old j hj]
  · have := h1.ctxs j; rw [hs.old j hj] at this; exact this

theorem Spec.ContextsExist.grows {D T : Nat → Prop} {w w' : World} {args : VerifyArgs} (h : ContextsExist w args) (g : Grows D T w w') :
    ContextsExist w' args :=
  ⟨fun c hc => Nat.lt_of_lt_of_le (h.context c hc) g.next, fun c hc => Nat.lt_of_lt_of_le (h.csContext c hc) g.next⟩

theorem afterCalls_grows (env : Env) (calls : List Call) (w : World) (he : ∀ c ∈ calls, ContextsExist w c.args) :
    Grows (fun j => ∃ c ∈ calls, Passed c.args j) (fun j => ∃ c ∈ calls, Passed c.args j ∧ Countersigned c.a c.args) w
      (afterCalls env calls w) := by
  induction calls generalizing w with
  | nil => exact .refl _ _ w
  | cons c cs ih =>
    have h1 := asdVerify_grows env c.file c.a c.args w (he c (List.mem_cons_self ..))
    have h2 := ih (asdVerify env c.file c.a c.args w).2 (fun c' hc' => (he c' (List.mem_cons_of_mem _ hc')).grows h1)
    refine (h1.mono ?_ ?_).trans (h2.mono ?_ ?_)
    · exact fun j hj => ⟨c, List.mem_cons_self .., hj⟩
    · exact fun j hj => ⟨c, List.mem_cons_self .., hj⟩
    · rintro j ⟨c', hc', hj⟩; exact ⟨c', List.mem_cons_of_mem _ hc', hj⟩
    · rintro j ⟨c', hc', hj⟩; exact ⟨c', List.mem_cons_of_mem _ hc', hj⟩

/-- The outcome in a context does not change if stores have been loaded in the meantime. -/
theorem inContext_step {α : Type} {f : Nat → M α} (hf : Uniform f) {w w' : World} {ctx : Ctx} (hr : Readable w ctx)
    (hs : ∀ k, StoreStep (w.stores k) (w'.stores k)) {r : Except Exc α} (h : InContext w ctx f r) : InContext w' ctx f r := by
  refine ⟨0, { w' with ctxs := fun _ => ctx }, rfl, rfl, ?_⟩
  exact inContext_run hf hr h rfl hs

theorem Spec.Readable.step {w w' : World} {ctx : Ctx} (h : Readable w ctx) (hs : ∀ k, StoreStep (w.stores k) (w'.stores k)) :
    Readable w' ctx := fun k hk => FineStore.step (h k hk) (hs k)

theorem asdVerify_same_separate (env : Env) (file : Option Bytes) (a : AuthData) (args : VerifyArgs) (w w' : World)
    (he : ContextsExist w args) (he' : ContextsExist w' args) (hsep : SeparateContexts args)
    (hr : Readable w (signerContext w a args)) (hrc : ∀ c, a.counter = some c → Readable w (counterContext w a c args))
    (hs : ∀ k, StoreStep (w.stores k) (w'.stores k)) (h1 : signerContext w' a args = signerContext w a args)
    (h2 : ∀ c, a.counter = some c → { counterContext w' a c args with timestamp := none } = { counterContext w a c args with timestamp := none }) :
    (asdVerify env file a args w').1 = (asdVerify env file a args w).1 := by
  have h2s : ∀ c, a.counter = some c → (counterContext w' a c args).stores = (counterContext w a c args).stores :=
    fun c hc => (congrArg Ctx.stores (h2 c hc) :)
  have h2t : ∀ c, a.counter = some c → ∀ t, { counterContext w' a c args with timestamp := t } = { counterContext w a c args with timestamp := t } :=
    fun c hc t => (congrArg (fun x : Ctx => { x with timestamp := t }) (h2 c hc) :)
  have hr' : Readable w' (signerContext w' a args) := by rw [h1]; exact hr.step hs
  have hrc' : ∀ c, a.counter = some c → Readable w' (counterContext w' a c args) := by
    intro c hc k hk
    rw [h2s c hc] at hk
    exact (hrc c hc).step hs k hk
  obtain ⟨a1, a2⟩ := asdVerify_outcome env file a args w he hsep hr hrc
  obtain ⟨b1, b2⟩ := asdVerify_outcome env file a args w' he' hsep hr' hrc'
  cases hd : checkDigests env file a args.expectedHash with
  | error e => rw [a1 e hd, b1 e hd]
  | ok u =>
    obtain ⟨r0, hr0⟩ := inContext_exists w (signerContext w a args) (fun i => authSignerVerify env i a.signer none)
    have hr0' := inContext_step (Uniform.authSignerVerify env a.signer none) hr hs hr0
    rw [← h1] at hr0'
    by_cases hno : a.counter = none ∨ args.countersignatureMode = "ignore"
    · rw [(a2 hd r0).1 hno hr0, (b2 hd r0).1 hno hr0']
    · have hm : args.countersignatureMode ≠ "ignore" := fun e => hno (.inr e)
      cases hc : a.counter with
      | none => exact absurd (.inl hc) hno
      | some c =>
        have hcr : Readable w { counterContext w a c args with timestamp := c.signingTime } := hrc c hc
        rcases counter_dichotomy (env := env) (hrc c hc) with ⟨hp, -⟩ | ⟨hf, -⟩
        · obtain ⟨r1, hr1⟩ := inContext_exists w (signerContext w a args) (fun i => authSignerVerify env i a.signer c.signingTime)
          have hr1' := inContext_step (Uniform.authSignerVerify env a.signer c.signingTime) hr hs hr1
          rw [← h1] at hr1'
          have hp' : CounterPasses env w' a c args := by
            obtain ⟨x, chains, y⟩ := hp
            refine ⟨x, chains, ?_⟩
            rw [h2t c hc]
            exact inContext_step (Uniform.counterVerify env c) hcr hs y
          rw [(a2 hd r1).2.1 c hc hm hp hr1, (b2 hd r1).2.1 c hc hm hp' hr1']
        · have hf' : CounterFails env w' a c args := by
            rcases hf with x | ⟨e, y⟩
            · exact .inl x
            · refine .inr ⟨e, ?_⟩
              rw [h2t c hc]
              exact inContext_step (Uniform.counterVerify env c) hcr hs y
          by_cases hst : args.countersignatureMode = "strict"
          · rw [(a2 hd r0).2.2.2 c hc hst hf, (b2 hd r0).2.2.2 c hc hst hf']
          · rw [(a2 hd r0).2.2.1 c hc hm hst hf hr0, (b2 hd r0).2.2.1 c hc hm hst hf' hr0']

/-- One and the same context for both purposes: the trusted store is not looked at. -/
theorem asdVerify_same_shared (env : Env) (file : Option Bytes) (a : AuthData) (args : VerifyArgs) (w w' : World) (i : Nat)
    (h1 : args.context = some i) (h2 : args.csContext = some i) (hi : i < w.nextCtx) (hi' : i < w'.nextCtx)
    (hr : Readable w (w.ctxs i)) (hs : ∀ k, StoreStep (w.stores k) (w'.stores k)) (hc : w'.ctxs i = w.ctxs i) :
    (asdVerify env file a args w').1 = (asdVerify env file a args w).1 := by
  have key : ∀ v, asdVerify env file a args v = asdVerify env file a { args with trusted := .embedded [] } v := by
    intro v
    unfold asdVerify chooseContext chooseCsContext
    simp only [h1, h2]
  rw [key w, key w']
  refine ((asdVerify_sim (args := { args with trusted := .embedded [] }) (args' := { args with trusted := .embedded [] })
    (P := fun x y => x = i ∧ y = i) (S := fun k => .heap k ∈ (w.ctxs i).stores) (L := fun _ => False) env file a
    (Rel.single hr rfl rfl hc hs) ?_ ⟨rfl, rfl, rfl, rfl, .inr ⟨i, i, h1, h1, rfl, rfl⟩, .inr ⟨i, i, h2, h2, rfl, rfl⟩⟩
    (fun k hk => by cases hk)).1).symm
  rintro _ _ ⟨rfl, rfl⟩
  exact ⟨hi, hi'⟩

theorem asdVerify_same (env : Env) (file : Option Bytes) (a : AuthData) (args : VerifyArgs) (w w' : World)
    (he : ContextsExist w args) (he' : ContextsExist w' args)
    (hr : Readable w (signerContext w a args)) (hrc : ∀ c, a.counter = some c → Readable w (counterContext w a c args))
    (hs : ∀ k, StoreStep (w.stores k) (w'.stores k)) (h1 : signerContext w' a args = signerContext w a args)
    (h2 : ∀ c, a.counter = some c → { counterContext w' a c args with timestamp := none } = { counterContext w a c args with timestamp := none }) :
    (asdVerify env file a args w').1 = (asdVerify env file a args w).1 := by
  by_cases hsep : SeparateContexts args
  · exact asdVerify_same_separate env file a args w w' he he' hsep hr hrc hs h1 h2
  · unfold SeparateContexts at hsep
    cases hx : args.context with
    | none => exact absurd (.inl hx) hsep
    | some i =>
      have hy : args.csContext = some i := by
        rw [← hx]
        exact Classical.byContradiction (fun h => hsep (.inr (fun e => h e.symm)))
      unfold signerContext at hr h1
      rw [hx] at hr h1
      exact asdVerify_same_shared env file a args w w' i hx hy (he.context i hx) (he'.context i hx) hr hs h1

/-- With usages that can be iterated again, only the timestamp of a context changes. -/
theorem ctx_eq {c c' : Ctx} (h1 : Reiterable c.keyUsages) (h2 : Reiterable c.ekus) (h : CtxStep c c') :
    { c' with timestamp := c.timestamp } = c := by
  have hk : c'.keyUsages = c.keyUsages := by
    rcases h.kus with k | k
    · exact k
    · rw [k]; exact h1
  have hu : c'.ekus = c.ekus := by
    rcases h.ekus with k | k
    · exact k
    · rw [k]; exact h2
  rw [h.same, hk, hu]

end Signify
