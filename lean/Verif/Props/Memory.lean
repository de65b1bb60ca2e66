/-
What calls of `verify` leave behind for the next one (C33, C34): exact laws, without any assumption on the stores and the usages.
-/
import Verif.Spec.Memory
import Verif.Props.Modes
set_option autoImplicit false

namespace Signify.Props
open Signify Spec

/-- What is left behind by some calls on the objects that existed before: stores that have been read, timestamps of
countersignatures, and iterators used up.  Nothing else. -/
theorem C33_state (env : Env) (calls : List Call) (w : World) (he : ∀ c ∈ calls, ContextsExist w c.args) :
    ∃ m : Memory, m.From calls ∧ (afterCalls env calls w).stores = (remember w m).stores ∧
      (∀ i, i < w.nextCtx → (afterCalls env calls w).ctxs i = (remember w m).ctxs i) ∧ (afterCalls env calls w).dicts = w.dicts := by
  have g := afterCalls_grows env calls w he
  have hex : ∀ i, ∃ x : Option (Option Int) × Bool × Bool,
      (i < w.nextCtx → (afterCalls env calls w).ctxs i = { w.ctxs i with
        timestamp := x.1.getD (w.ctxs i).timestamp, keyUsages := afterUse x.2.1 (w.ctxs i).keyUsages, ekus := afterUse x.2.2 (w.ctxs i).ekus }) ∧
      (∀ t, x.1 = some t → ∃ c ∈ calls, c.Uses i ∧ c.args.countersignatureMode ≠ "ignore" ∧ ∃ k, c.a.counter = some k ∧ t = k.signingTime) ∧
      (x.2.1 = true → ∃ c ∈ calls, c.Uses i) ∧ (x.2.2 = true → ∃ c ∈ calls, c.Uses i) := by
    intro i
    by_cases hi : i < w.nextCtx
    · by_cases hu : ∃ c ∈ calls, c.Uses i
      · have hs := g.ctxs i hi
        obtain ⟨b1, k1⟩ : ∃ b, ((afterCalls env calls w).ctxs i).keyUsages = afterUse b (w.ctxs i).keyUsages := by
          rcases hs.kus with h | h
          · exact ⟨false, h⟩
          · exact ⟨true, h⟩
        obtain ⟨b2, k2⟩ : ∃ b, ((afterCalls env calls w).ctxs i).ekus = afterUse b (w.ctxs i).ekus := by
          rcases hs.ekus with h | h
          · exact ⟨false, h⟩
          · exact ⟨true, h⟩
        have hsame := hs.same
        rcases afterCalls_stamps env calls w he i hi with h | ⟨c, hc, hp, hm, k, hk, h⟩
        · refine ⟨(none, b1, b2), fun _ => ?_, fun _ h => (by cases h), fun _ => hu, fun _ => hu⟩
          rw [k1, k2, h] at hsame
          exact hsame
        · refine ⟨(some k.signingTime, b1, b2), fun _ => ?_, fun t ht => ?_, fun _ => hu, fun _ => hu⟩
          · rw [k1, k2, h] at hsame
            exact hsame
          · cases ht
            exact ⟨c, hc, hp, hm, k, hk, rfl⟩
      · exact ⟨(none, false, false), fun _ => g.other i hi hu, fun _ h => (by cases h), fun h => (by cases h), fun h => (by cases h)⟩
    · exact ⟨(none, false, false), fun h => (hi h).elim, fun _ h => (by cases h), fun h => (by cases h), fun h => (by cases h)⟩
  have hst : ∀ k, ∃ b : Bool, (afterCalls env calls w).stores k = if b then Store.loaded (w.stores k) else w.stores k := by
    intro k
    rcases g.stores k with h | h
    · exact ⟨false, h⟩
    · exact ⟨true, h⟩
  obtain ⟨x, hx⟩ := Classical.axiomOfChoice hex
  obtain ⟨b, hb⟩ := Classical.axiomOfChoice hst
  exact ⟨⟨b, fun i => (x i).1, fun i => (x i).2.1, fun i => (x i).2.2⟩,
    ⟨fun i => (hx i).2.1, fun i => (hx i).2.2.1, fun i => (hx i).2.2.2⟩, funext hb, fun i hi => (hx i).1 hi, g.dicts⟩

/-- What holds instead of the property, in full generality: after any calls there is a memory of them (stores read, timestamps of
countersignatures, iterators used up) such that every verification has the outcome it would have had before the calls if the memory
had been there.  Nothing is assumed of the stores, which may be unreadable, of the usages, which may be iterators, or of the contexts,
which may be shared. -/
theorem C33_memory (env : Env) (calls : List Call) (w : World) (he : ∀ c ∈ calls, ContextsExist w c.args) :
    ∃ m : Memory, m.From calls ∧ ∀ (file : Option Bytes) (a : AuthData) (args : VerifyArgs), ContextsExist w args →
      (asdVerify env file a args (afterCalls env calls w)).1 = (asdVerify env file a args (remember w m)).1 := by
  obtain ⟨m, hm, h1, h2, -⟩ := C33_state env calls w he
  refine ⟨m, hm, fun file a args ha => ?_⟩
  have g := afterCalls_grows env calls w he
  refine (asdVerify_sim (P := fun i j => i = j ∧ i < w.nextCtx) (S := fun _ => True) (L := fun _ => False) env file a
    ⟨?_, ?_, fun _ _ _ _ _ => trivial, fun k _ => by rw [h1], fun k _ => .inr (by rw [h1]), fun _ h => h.elim⟩ ?_
    ⟨rfl, rfl, rfl, rfl, ?_, ?_⟩ (fun _ _ => trivial)).1
  · rintro i _ j _ ⟨rfl, _⟩ ⟨rfl, _⟩; exact Iff.rfl
  · rintro i _ ⟨rfl, hi⟩; exact h2 i hi
  · rintro i _ ⟨rfl, hi⟩; exact ⟨Nat.lt_of_lt_of_le hi g.next, hi⟩
  · cases hx : args.context with
    | none => exact .inl ⟨rfl, rfl⟩
    | some i => exact .inr ⟨i, i, rfl, rfl, rfl, ha.context i hx⟩
  · cases hx : args.csContext with
    | none => exact .inl ⟨rfl, rfl⟩
    | some i => exact .inr ⟨i, i, rfl, rfl, rfl, ha.csContext i hx⟩

/-- The memory of a verification with a timestamp in the context 0: the trusted store has been read, the context has the time of the
countersignature. -/
def exMemory : Memory := ⟨fun k => k == 0, fun i => if i = 0 then some (some 300) else none, fun i => i == 0, fun i => i == 0⟩

/-- The calls of this example account for the memory, and the next signature is verified as with the memory, not as at first. -/
example :
    let calls : List Call := [⟨none, exAuth exCerts (some exRfc), { exArgs with context := some 0 }⟩]
    (∀ c ∈ calls, ContextsExist exShared c.args) ∧ exMemory.From calls ∧
    (let env := exVEnv (fun _ t => t = some 300)
     let args : VerifyArgs := { exArgs with context := some 0 }
     (asdVerify env none (exAuth exCerts none) args (afterCalls env calls exShared)).1 = .ok [[exRoot, exInter, exLeaf]] ∧
     (asdVerify env none (exAuth exCerts none) args (remember exShared exMemory)).1 = .ok [[exRoot, exInter, exLeaf]] ∧
     (asdVerify env none (exAuth exCerts none) args exShared).1 ≠ .ok [[exRoot, exInter, exLeaf]]) := by
  have hu : ∀ i, (i == 0) = true → ∃ c ∈ [(⟨none, exAuth exCerts (some exRfc), { exArgs with context := some 0 }⟩ : Call)], c.Uses i :=
    fun i hi => ⟨_, List.mem_singleton.2 rfl, .inl (by rw [beq_iff_eq.1 hi])⟩
  refine ⟨fun c hc => ?_, ⟨fun i t h => ?_, hu, hu⟩, by decide +kernel, by decide +kernel, by decide +kernel⟩
  · cases List.mem_singleton.1 hc
    exact ⟨fun i hi => (by cases hi; decide), fun i hi => (by cases hi)⟩
  · by_cases hi : i = 0
    · subst hi
      cases h
      exact ⟨_, List.mem_singleton.2 rfl, .inl rfl, (by decide), exRfc, rfl, rfl⟩
    · simp only [exMemory, if_neg hi] at h
      cases h

/-- Without contexts, an earlier call can only have read the trusted store: the outcome after any calls is the one before them, or the
one before them with the trusted store already read.  These differ only for a store that cannot be read completely. -/
theorem C34_law (env : Env) (calls : List Call) (file : Option Bytes) (a : AuthData) (args : VerifyArgs) (w : World)
    (he : ∀ c ∈ calls, ContextsExist w c.args) (h1 : args.context = none) (h2 : args.csContext = none) :
    (asdVerify env file a args (afterCalls env calls w)).1 = (asdVerify env file a args w).1 ∨
    (asdVerify env file a args (afterCalls env calls w)).1 = (asdVerify env file a args (withRead w args.trusted)).1 := by
  have key : ∀ v : World, (∀ k, args.trusted = .heap k → (afterCalls env calls w).stores k = v.stores k) →
      (asdVerify env file a args (afterCalls env calls w)).1 = (asdVerify env file a args v).1 := fun v hv =>
    (asdVerify_sim (P := fun _ _ => False) (S := fun k => args.trusted = .heap k) (L := fun _ => False) env file a
      ⟨fun _ _ _ _ h => h.elim, fun _ _ h => h.elim, fun _ _ h => h.elim, fun k hk => by rw [hv k hk], fun k hk => .inr (hv k hk),
        fun _ h => h.elim⟩ (fun _ _ h => h.elim) ⟨rfl, rfl, rfl, rfl, .inl ⟨h1, h1⟩, .inl ⟨h2, h2⟩⟩ (fun k hk => hk)).1
  cases ht : args.trusted with
  | embedded l => exact .inl (key w (fun k hk => by rw [ht] at hk; cases hk))
  | heap j =>
    rcases (afterCalls_grows env calls w he).stores j with h | h
    · refine .inl (key w (fun k hk => ?_))
      rw [ht] at hk; cases hk; exact h
    · refine .inr (key _ (fun k hk => ?_))
      rw [ht] at hk; cases hk
      simp only [withRead, if_true]
      exact h

/-- A store whose reading fails after its certificates: the first call fails, the second one is that with the store already read. -/
example :
    let env := exVEnv (fun _ _ => true)
    let calls : List Call := [⟨none, exAuth exCerts none, exArgs⟩]
    (∀ c ∈ calls, ContextsExist exHalfRead c.args) ∧ exArgs.context = none ∧ exArgs.csContext = none ∧
    (asdVerify env none (exAuth exCerts none) exArgs exHalfRead).1 ≠ .ok [[exRoot, exInter, exLeaf]] ∧
    (asdVerify env none (exAuth exCerts none) exArgs (afterCalls env calls exHalfRead)).1 = .ok [[exRoot, exInter, exLeaf]] ∧
    (asdVerify env none (exAuth exCerts none) exArgs (withRead exHalfRead exArgs.trusted)).1 = .ok [[exRoot, exInter, exLeaf]] :=
  ⟨fun c hc => by cases List.mem_singleton.1 hc; exact exArgs_contexts _, rfl, rfl, by decide +kernel, by decide +kernel, by decide +kernel⟩

end Signify.Props
