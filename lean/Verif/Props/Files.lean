/-
C93: files verified one after the other in one process.
-/
import Verif.Proofs.Files
import Verif.Props.Memory
import Verif.Props.PEFile

set_option autoImplicit false

namespace Signify.Props

open Signify.Spec

/-- What verifying some files leaves behind on the objects that existed before: stores that have been read, timestamps of
countersignatures of these files in contexts passed, iterators of usages used up, and digests in dictionaries passed.  Nothing else. -/
theorem C93_state (env : Env) (cd : Codec) (fs : List FileCall) (w : World) (he : ∀ f ∈ fs, ContextsExist w f.args.kwargs) :
    ∃ (calls : List Call) (m : Memory), (∀ c ∈ calls, ∃ f ∈ fs, f.Makes cd c) ∧ m.From calls ∧
      (afterFiles env cd fs w).stores = (remember w m).stores ∧
      (∀ i, i < w.nextCtx → (afterFiles env cd fs w).ctxs i = (remember w m).ctxs i) ∧
      ∀ j, (∀ f ∈ fs, f.args.expectedHashes ≠ some j) → (afterFiles env cd fs w).dicts j = w.dicts j := by
  obtain ⟨calls, D, h1, h2, h3⟩ := afterFiles_calls env cd fs w
  obtain ⟨m, k1, k2, k3, -⟩ := C33_state env calls w (calls_exist h1 he)
  refine ⟨calls, m, h1, k1, ?_, ?_, ?_⟩
  · rw [h3]; exact k2
  · rw [h3]; exact k3
  · rw [h3]; exact h2

/-- After any files, a file is verified with the outcome it would have had at first with the memory of these files, if it is not
given one of their dictionaries.  Nothing is assumed of the stores, the contexts and the modes. -/
theorem C93_memory (env : Env) (cd : Codec) (fs : List FileCall) (w : World) (he : ∀ f ∈ fs, ContextsExist w f.args.kwargs) :
    ∃ (calls : List Call) (m : Memory), (∀ c ∈ calls, ∃ f ∈ fs, f.Makes cd c) ∧ m.From calls ∧
      ∀ (file : Bytes) (args : PEVerifyArgs), ContextsExist w args.kwargs →
        (∀ j, args.expectedHashes = some j → ∀ f ∈ fs, f.args.expectedHashes ≠ some j) →
        (peVerify env cd file args (afterFiles env cd fs w)).1 = (peVerify env cd file args (remember w m)).1 := by
  obtain ⟨calls, D, h1, h2, h3⟩ := afterFiles_calls env cd fs w
  have hex := calls_exist h1 he
  obtain ⟨m, k1, k2, k3, -⟩ := C33_state env calls w hex
  refine ⟨calls, m, h1, k1, fun file args hc hd => ?_⟩
  rw [h3]
  have g := afterCalls_grows env calls w hex
  refine peVerify_sim env cd file args _ _ w.nextCtx (fun _ => True) (fun _ => False) hc.context hc.csContext (fun _ _ => trivial) ?_ ?_
    g.next (Nat.le_refl _)
  · intro i hi
    exact (h2 i (hd i hi)).symm
  · refine ⟨?_, ?_, fun _ _ _ _ _ => trivial, fun k _ => by rw [← k2], fun k _ => .inr (by rw [← k2]), fun _ h => h.elim⟩
    · rintro i _ j _ ⟨rfl, _⟩ ⟨rfl, _⟩; exact Iff.rfl
    · rintro i _ ⟨rfl, hi⟩; exact k3 i hi

/-- Two files verified with one context, which exists. -/
def exWithContext (file : Bytes) : FileCall := ⟨file, { exPEArgs "any" with kwargs := { trusted := .heap 0, context := some 0 } }⟩

example : (∀ f ∈ [exWithContext (exTwice 1 2 [7, 7, 7]), exWithContext (exTwice 3 2 [7, 7, 7])], ContextsExist exWorld f.args.kwargs) ∧
    ContextsExist exWorld (exWithContext (exTwice 1 2 [7, 7, 7])).args.kwargs := by
  have h : ∀ file, ContextsExist exWorld (exWithContext file).args.kwargs :=
    fun file => ⟨fun i hi => by cases hi; decide, fun i hi => by cases hi⟩
  refine ⟨fun f hf => ?_, h _⟩
  simp only [List.mem_cons, List.not_mem_nil, or_false] at hf
  rcases hf with rfl | rfl <;> exact h _

/-- **C93**.  A file is verified without contexts with the same outcome, whatever files were verified before and however, if the
trusted store can be read and no dictionary of digests is passed that was passed before. -/
theorem C93_independent (env : Env) (cd : Codec) (fs : List FileCall) (w : World) (he : ∀ f ∈ fs, ContextsExist w f.args.kwargs)
    (file : Bytes) (args : PEVerifyArgs) (h1 : args.kwargs.context = none) (h2 : args.kwargs.csContext = none)
    (hd : ∀ j, args.expectedHashes = some j → ∀ f ∈ fs, f.args.expectedHashes ≠ some j)
    (hr : ∀ i certs e, args.kwargs.trusted = .heap i → (w.stores i).pending = some (certs, e) → e = none) :
    (peVerify env cd file args (afterFiles env cd fs w)).1 = (peVerify env cd file args w).1 ∧
    (peExplainVerify env cd file args (afterFiles env cd fs w)).1 = (peExplainVerify env cd file args w).1 := by
  obtain ⟨calls, D, k1, k2, k3⟩ := afterFiles_calls env cd fs w
  have g := afterCalls_grows env calls w (calls_exist k1 he)
  have key : (peVerify env cd file args (afterFiles env cd fs w)).1 = (peVerify env cd file args w).1 := by
    rw [k3]
    refine peVerify_sim env cd file args _ _ 0 (fun k => args.kwargs.trusted = .heap k) (fun _ => False)
      (fun i hi => by rw [h1] at hi; cases hi) (fun i hi => by rw [h2] at hi; cases hi) (fun k hk => hk)
      (fun i hi => (k2 i (hd i hi)).symm)
      ⟨fun i i' _ _ h => absurd h.2 (Nat.not_lt_zero _), fun _ _ h => absurd h.2 (Nat.not_lt_zero _),
        fun _ _ h => absurd h.2 (Nat.not_lt_zero _), fun k _ => (g.stores k).loaded_eq,
        fun k hk => .inl ⟨FineStore.step (fun certs e => hr k certs e hk) (g.stores k), fun certs e => hr k certs e hk⟩,
        fun _ h => h.elim⟩ (Nat.zero_le _) (Nat.zero_le _)
  refine ⟨key, ?_⟩
  unfold peExplainVerify explain
  rw [M.bind_ok (show M.attempt (peVerify env cd file args) w = (.ok (peVerify env cd file args w).1, (peVerify env cd file args w).2) from rfl),
    M.bind_ok (show M.attempt (peVerify env cd file args) (afterFiles env cd fs w) =
      (.ok (peVerify env cd file args (afterFiles env cd fs w)).1, (peVerify env cd file args (afterFiles env cd fs w)).2) from rfl), key]
  cases (peVerify env cd file args w).1 <;> rfl

/-- A good file is accepted, and a bad one rejected, after any other files, also with a trusted store that has not been read yet. -/
example (fs : List FileCall) (he : ∀ f ∈ fs, ContextsExist exUnread f.args.kwargs) :
    exOutcome (peVerify exPEEnv exPECodec (exTwice 3 2 [7, 7, 7]) (exPEArgs "any") (afterFiles exPEEnv exPECodec fs exUnread)).1 =
      .ok [(("sha1", [2]), [[1, 2, 3]])] ∧
    exOutcome (peVerify exPEEnv exPECodec (exTwice 3 2 [7, 7, 7]) (exPEArgs "all") (afterFiles exPEEnv exPECodec fs exUnread)).1 =
      .error .authenticodeInvalidDigest := by
  have hr : ∀ i certs e, (StoreRef.heap 0 : StoreRef) = .heap i → (exUnread.stores i).pending = some (certs, e) → e = none := by
    intro i certs e hi hp
    cases hi
    cases hp
    rfl
  rw [(C93_independent exPEEnv exPECodec fs exUnread he _ (exPEArgs "any") rfl rfl (fun j hj => by cases hj) hr).1,
    (C93_independent exPEEnv exPECodec fs exUnread he _ (exPEArgs "all") rfl rfl (fun j hj => by cases hj) hr).1]
  exact ⟨by decide +kernel, by decide +kernel⟩

end Signify.Props
