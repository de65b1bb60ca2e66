/-
`AuthenticodeSignedData.verify` in its countersignature modes.
-/
import Verif.Proofs.Sim

set_option autoImplicit false

namespace Signify

open Spec

theorem Rel.single {w u : World} {ctx : Ctx} {i j : Nat} (hr : Readable w ctx) {v : World} (hv : v.stores = w.stores) (hi : v.ctxs i = ctx)
    (hj : u.ctxs j = ctx) (hu : ∀ k, StoreStep (w.stores k) (u.stores k)) :
    Rel (fun x y => x = i ∧ y = j) (fun k => .heap k ∈ ctx.stores) (fun _ => False) v u := by
  refine ⟨?_, ?_, ?_, ?_, ?_, fun _ h => h.elim⟩
  · rintro _ _ _ _ ⟨rfl, rfl⟩ ⟨rfl, rfl⟩; simp
  · rintro _ _ ⟨rfl, rfl⟩; rw [hi, hj]
  · rintro _ _ ⟨rfl, rfl⟩ k hk; rw [hi] at hk; exact hk
  · intro k _; rw [hv, (hu k).loaded_eq]
  · intro k hk
    have : FineStore (w.stores k) := fun certs e h => hr k hk certs e h
    exact .inl ⟨by rw [hv]; exact this, this.step (hu k)⟩

/-- A function of contexts that respects the correspondence of states. -/
def Uniform {α : Type} (f : Nat → M α) : Prop := ∀ (P : Nat → Nat → Prop) (S L : Nat → Prop) (i i' : Nat), P i i' → Sim P S L (f i) (f i')

/-- The outcome in a context is the outcome wherever the context object and its stores are the same. -/
theorem inContext_run {α : Type} {f : Nat → M α} (hf : Uniform f) {w u : World} {ctx : Ctx} {j : Nat} {r : Except Exc α}
    (hr : Readable w ctx) (h : InContext w ctx f r) (hj : u.ctxs j = ctx) (hu : ∀ k, StoreStep (w.stores k) (u.stores k)) :
    (f j u).1 = r := by
  obtain ⟨i, v, h1, h2, h3⟩ := h
  rw [← h3]
  exact ((hf _ _ _ i j ⟨rfl, rfl⟩ v u (Rel.single hr h1 h2 hj hu)).1).symm

theorem inContext_iff {α : Type} {f : Nat → M α} (hf : Uniform f) {w u : World} {ctx : Ctx} {j : Nat} {r : Except Exc α}
    (hr : Readable w ctx) (hj : u.ctxs j = ctx) (hu : ∀ k, StoreStep (w.stores k) (u.stores k)) :
    InContext w ctx f r ↔ (f j u).1 = r := by
  constructor
  · intro h; exact inContext_run hf hr h hj hu
  · intro h
    refine ⟨0, { w with ctxs := fun _ => ctx }, rfl, rfl, ?_⟩
    rw [← h]
    exact (hf _ _ _ 0 j ⟨rfl, rfl⟩ { w with ctxs := fun _ => ctx } u (Rel.single hr rfl rfl hj hu)).1

theorem inContext_unique {α : Type} {f : Nat → M α} (hf : Uniform f) {w : World} {ctx : Ctx} {r r' : Except Exc α}
    (hr : Readable w ctx) (h : InContext w ctx f r) (h' : InContext w ctx f r') : r = r' := by
  have k := inContext_run (u := { w with ctxs := fun _ => ctx }) (j := 0) hf hr h rfl (fun _ => .inl rfl)
  have k' := inContext_run (u := { w with ctxs := fun _ => ctx }) (j := 0) hf hr h' rfl (fun _ => .inl rfl)
  rw [← k, ← k']

theorem Uniform.counterVerify (env : Env) (c : CounterSigner) : Uniform (fun i => c.verify env i) :=
  fun _ _ _ _ _ hp => Sim.counterVerify env hp c

theorem Uniform.authSignerVerify (env : Env) (s : Signer) (t : Option Int) : Uniform (fun i => authSignerVerify env i s t) :=
  fun _ _ _ _ _ hp => Sim.authSignerVerify env hp s t

theorem Uniform.signerVerify (env : Env) (s : Signer) (t : Option Int) : Uniform (fun i => signerVerify env i s t) :=
  fun _ _ _ _ _ hp => Sim.signerVerify env hp s t

/-- The countersigner either passes or fails. -/
theorem counter_dichotomy {env : Env} {w : World} {a : AuthData} {c : CounterSigner} {args : VerifyArgs}
    (hr : Readable w (counterContext w a c args)) :
    (CounterPasses env w a c args ∧ ¬ CounterFails env w a c args) ∨ (CounterFails env w a c args ∧ ¬ CounterPasses env w a c args) := by
  unfold CounterPasses CounterFails
  cases hd : c.checkMessageDigest env a.signer.encryptedDigest with
  | false => exact .inr ⟨.inl rfl, fun h => by cases h.1⟩
  | true =>
    let ctx := { counterContext w a c args with timestamp := c.signingTime }
    have hr' : Readable w ctx := hr
    have hrun : InContext w ctx (fun i => c.verify env i) (c.verify env 0 { w with ctxs := fun _ => ctx }).1 :=
      ⟨0, { w with ctxs := fun _ => ctx }, rfl, rfl, rfl⟩
    cases ho : (c.verify env 0 { w with ctxs := fun _ => ctx }).1 with
    | ok chains =>
      rw [ho] at hrun
      refine .inl ⟨⟨rfl, chains, hrun⟩, ?_⟩
      rintro (h | ⟨e, h⟩)
      · cases h
      · cases inContext_unique (Uniform.counterVerify env c) hr' hrun h
    | error e =>
      rw [ho] at hrun
      refine .inr ⟨.inr ⟨e, hrun⟩, ?_⟩
      rintro ⟨-, chains, h⟩
      cases inContext_unique (Uniform.counterVerify env c) hr' hrun h

/-- What the `try` block for the countersigner does. -/
theorem checkCounter_iff {env : Env} {w v : World} {a : AuthData} {c : CounterSigner} {args : VerifyArgs} {i : Nat}
    (hr : Readable w (counterContext w a c args)) (hv : v.stores = w.stores) (hi : v.ctxs i = counterContext w a c args) :
    (CounterPasses env w a c args → ∃ u, checkCounter env a c i v = (.ok (), u)) ∧
    (CounterFails env w a c args → ∃ e u, checkCounter env a c i v = (.error e, u)) := by
  have hctx : (withTime v i c.signingTime).ctxs i = { counterContext w a c args with timestamp := c.signingTime } := by
    rw [withTime_ctx, hi]
  have hst : ∀ k, StoreStep (w.stores k) ((withTime v i c.signingTime).stores k) := fun k => .inl (by rw [← hv]; rfl)
  have hr' : Readable w { counterContext w a c args with timestamp := c.signingTime } := hr
  unfold checkCounter
  constructor
  · rintro ⟨hd, chains, h⟩
    rw [if_neg (by simp [hd]), M.bind_ok (setTimestamp_run i _ v)]
    have := inContext_run (Uniform.counterVerify env c) hr' h hctx hst
    rcases hx : c.verify env i (withTime v i c.signingTime) with ⟨r, u⟩
    rw [hx] at this
    simp only at this
    subst this
    rw [M.bind_ok hx]
    exact ⟨u, rfl⟩
  · rintro (hd | ⟨e, h⟩)
    · rw [if_pos (by simp [hd])]
      exact ⟨_, _, rfl⟩
    · cases hd : c.checkMessageDigest env a.signer.encryptedDigest with
      | false => rw [if_pos (by simp)]; exact ⟨_, _, rfl⟩
      | true =>
        rw [if_neg (by simp), M.bind_ok (setTimestamp_run i _ v)]
        have := inContext_run (Uniform.counterVerify env c) hr' h hctx hst
        rcases hx : c.verify env i (withTime v i c.signingTime) with ⟨r, u⟩
        rw [hx] at this
        simp only at this
        subst this
        rw [M.bind_error hx]
        exact ⟨e, u, rfl⟩

/-- The countersignature part of `verify`. -/
theorem counterTime_cases {env : Env} {w v : World} {a : AuthData} {args : VerifyArgs} {cid : Nat} {cs : Option Nat} {c : CounterSigner}
    (hs : Setup w a args cid cs v) (hc : a.counter = some c) (hm : args.countersignatureMode ≠ "ignore")
    (hr : Readable w (counterContext w a c args)) :
    (CounterPasses env w a c args → ∃ u, counterTime env a args.countersignatureMode cs v = (.ok c.signingTime, u) ∧
      Frame (fun j => cs = some j) (fun j => cs = some j) v u) ∧
    (CounterFails env w a c args → ∃ u, counterTime env a args.countersignatureMode cs v =
      ((if args.countersignatureMode = "strict" then
        .error ⟨.authenticodeCounterSigner, "An error occurred while validating the countersignature"⟩ else .ok none), u) ∧
      Frame (fun j => cs = some j) (fun j => cs = some j) v u) := by
  obtain ⟨i, rfl, hi⟩ := hs.counter c hc hm
  obtain ⟨h1, h2⟩ := checkCounter_iff hr hs.stores hi (env := env)
  have hk : ∀ {r u}, checkCounter env a c i v = (r, u) → Frame (fun j => some i = some j) (fun j => some i = some j) v u :=
    fun h => (Keeps.checkCounter (D := fun j => some i = some j) (T := fun j => some i = some j) env a c rfl rfl).of_eq h
  unfold counterTime
  rw [hc]
  simp only
  rw [if_pos hm]
  constructor
  · intro h
    obtain ⟨u, hx⟩ := h1 h
    rw [M.bind_ok (show M.attempt (checkCounter env a c i) v = (.ok (.ok ()), u) by unfold M.attempt; rw [hx])]
    exact ⟨u, rfl, hk hx⟩
  · intro h
    obtain ⟨e, u, hx⟩ := h2 h
    rw [M.bind_ok (show M.attempt (checkCounter env a c i) v = (.ok (.error e), u) by unfold M.attempt; rw [hx])]
    refine ⟨u, ?_, hk hx⟩
    simp only
    by_cases hst : args.countersignatureMode = "strict"
    · rw [if_neg (not_not_intro hst), if_pos hst]; rfl
    · rw [if_pos hst, if_neg hst]; rfl

/-- The exact outcome of `AuthenticodeSignedData.verify`. -/
theorem asdVerify_outcome (env : Env) (file : Option Bytes) (a : AuthData) (args : VerifyArgs) (w : World)
    (he : ContextsExist w args) (hsep : SeparateContexts args) (hr : Readable w (signerContext w a args))
    (hrc : ∀ c, a.counter = some c → Readable w (counterContext w a c args)) :
    (∀ e, checkDigests env file a args.expectedHash = .error e → (asdVerify env file a args w).1 = .error e) ∧
    (checkDigests env file a args.expectedHash = .ok () → ∀ r,
      (a.counter = none ∨ args.countersignatureMode = "ignore" →
        InContext w (signerContext w a args) (fun i => authSignerVerify env i a.signer none) r → (asdVerify env file a args w).1 = r) ∧
      (∀ c, a.counter = some c → args.countersignatureMode ≠ "ignore" → CounterPasses env w a c args →
        InContext w (signerContext w a args) (fun i => authSignerVerify env i a.signer c.signingTime) r →
        (asdVerify env file a args w).1 = r) ∧
      (∀ c, a.counter = some c → args.countersignatureMode ≠ "ignore" → args.countersignatureMode ≠ "strict" →
        CounterFails env w a c args → InContext w (signerContext w a args) (fun i => authSignerVerify env i a.signer none) r →
        (asdVerify env file a args w).1 = r) ∧
      (∀ c, a.counter = some c → args.countersignatureMode = "strict" → CounterFails env w a c args →
        (asdVerify env file a args w).1 =
          .error ⟨.authenticodeCounterSigner, "An error occurred while validating the countersignature"⟩)) := by
  obtain ⟨cid, cs, v, hs⟩ := setup w a args he
  have hsep' := hs.separate he hsep
  rw [hs.asdVerify]
  constructor
  · intro e hd
    rw [hd]; rfl
  · intro hd r
    rw [hd, M.bind_ok (M.lift_run _ _)]
    have hst0 : ∀ k, StoreStep (w.stores k) (v.stores k) := fun k => .inl (by rw [hs.stores])
    refine ⟨?_, ?_, ?_, ?_⟩
    · intro hno h
      have : counterTime env a args.countersignatureMode cs v = (.ok none, v) := by
        unfold counterTime
        rcases hno with hno | hno
        · rw [hno]; rfl
        · cases a.counter with
          | none => rfl
          | some c => simp only; rw [if_neg (not_not_intro hno)]; rfl
      rw [M.bind_ok this]
      exact inContext_run (Uniform.authSignerVerify env a.signer none) hr h hs.signer hst0
    · intro c hc hm hp h
      obtain ⟨u, h1, h2⟩ := (counterTime_cases hs hc hm (hrc c hc)).1 hp
      rw [M.bind_ok h1]
      refine inContext_run (Uniform.authSignerVerify env a.signer c.signingTime) hr h ?_ (fun k => ?_)
      · rw [h2.other cid hsep']; exact hs.signer
      · have := h2.stores k; rw [hs.stores] at this; exact this
    · intro c hc hm hst hp h
      obtain ⟨u, h1, h2⟩ := (counterTime_cases hs hc hm (hrc c hc)).2 hp
      rw [if_neg hst] at h1
      rw [M.bind_ok h1]
      refine inContext_run (Uniform.authSignerVerify env a.signer none) hr h ?_ (fun k => ?_)
      · rw [h2.other cid hsep']; exact hs.signer
      · have := h2.stores k; rw [hs.stores] at this; exact this
    · intro c hc hst hp
      obtain ⟨u, h1, h2⟩ := (counterTime_cases hs hc (by rw [hst]; decide) (hrc c hc)).2 hp
      rw [if_pos hst] at h1
      rw [M.bind_error h1]

theorem inContext_exists {α : Type} (w : World) (ctx : Ctx) (f : Nat → M α) : ∃ r, InContext w ctx f r :=
  ⟨_, 0, { w with ctxs := fun _ => ctx }, rfl, rfl, rfl⟩

theorem Setup.inMode {w : World} {a : AuthData} {args : VerifyArgs} {cid : Nat} {cs : Option Nat} {v : World} {m m' : String}
    (h : Setup w a (args.inMode m) cid cs v) (hm : m ≠ "ignore") (hm' : m' ≠ "ignore") : Setup w a (args.inMode m') cid cs v := by
  have k1 : chooseCsContext a (args.inMode m') = chooseCsContext a (args.inMode m) := by
    unfold chooseCsContext VerifyArgs.inMode
    cases args.csContext with
    | some i => rfl
    | none => cases a.counter with
      | none => rfl
      | some c => simp only [if_pos hm, if_pos hm']
  refine ⟨fun k => ?_, h.stores, h.dicts, h.next, h.old, h.signer, fun c hc _ => h.counter c hc hm, h.hcid, h.hcs⟩
  rw [k1]
  exact h.run k

theorem counterTime_of_ok {env : Env} {a : AuthData} {c : CounterSigner} {mode : String} {i : Nat} {v u : World}
    (hc : a.counter = some c) (hm : mode ≠ "ignore") (h : checkCounter env a c i v = (.ok (), u)) :
    counterTime env a mode (some i) v = (.ok c.signingTime, u) := by
  unfold counterTime
  rw [hc]
  simp only
  rw [if_pos hm, M.bind_ok (show M.attempt (checkCounter env a c i) v = (.ok (.ok ()), u) by unfold M.attempt; rw [h])]
  rfl

end Signify
