/-
Proofs for C93: several files verified one after the other.
-/
import Verif.Spec.Files
import Verif.Proofs.Added
import Verif.Proofs.PEModes
import Verif.Proofs.Sim

set_option autoImplicit false

namespace Signify

open Spec

theorem afterCalls_append (env : Env) (l m : List Call) (w : World) : afterCalls env (l ++ m) w = afterCalls env m (afterCalls env l w) := by
  induction l generalizing w with
  | nil => rfl
  | cons c l ih => exact ih _

theorem afterCalls_dicts (env : Env) (l : List Call) (w : World) (D : Nat → Dict String Bytes) :
    afterCalls env l { w with dicts := D } = { afterCalls env l w with dicts := D } := by
  induction l generalizing w with
  | nil => rfl
  | cons c l ih =>
    show afterCalls env l (asdVerify env c.file c.a c.args { w with dicts := D }).2 = _
    rw [(NoDict.asdVerify env c.file c.a c.args) w D]
    exact ih _

theorem afterCalls_dicts_eq (env : Env) (l : List Call) (w : World) : (afterCalls env l w).dicts = w.dicts := by
  have h := afterCalls_dicts env l w w.dicts
  have : ({ w with dicts := w.dicts } : World) = w := rfl
  rw [this] at h
  rw [h]

theorem verifyLoop_calls {Q : Call → Prop} (env : Env) (file : Bytes) (hashes : Dict String Bytes) (kwargs : VerifyArgs) (mode : String)
    (sel : List ASD) (hQ : ∀ a ∈ sel, ∀ h, Q ⟨some file, a.d, { kwargs with expectedHash := some h }⟩)
    (chains : List (ASD × List (List Cert))) (last : Option Exc) (w : World) :
    ∃ calls, (∀ c ∈ calls, Q c) ∧
      (verifyLoop (verifyOne env file hashes kwargs) mode sel chains last w).2 = afterCalls env calls w := by
  induction sel generalizing chains last w with
  | nil =>
    refine ⟨[], (by simp), ?_⟩
    cases last <;> rfl
  | cons a l ih =>
    have hone : ∃ calls, (∀ c ∈ calls, Q c) ∧ (verifyOne env file hashes kwargs a w).2 = afterCalls env calls w := by
      unfold verifyOne
      cases hashes.get? a.d.core.digestAlg with
      | none => exact ⟨[], (by simp), rfl⟩
      | some h => exact ⟨[⟨some file, a.d, { kwargs with expectedHash := some h }⟩], (by
          intro c hc; cases List.mem_singleton.1 hc; exact hQ a (by simp) h), rfl⟩
    obtain ⟨cs, h1, h2⟩ := hone
    have ih := ih (fun b hb => hQ b (List.mem_cons_of_mem _ hb))
    have hatt : M.attempt (verifyOne env file hashes kwargs a) w = (.ok (verifyOne env file hashes kwargs a w).1, afterCalls env cs w) := by
      rw [← h2]; rfl
    rw [verifyLoop, M.bind_ok hatt]
    cases hr : (verifyOne env file hashes kwargs a w).1 with
    | error e =>
      simp only
      split
      · exact ⟨cs, h1, rfl⟩
      · obtain ⟨ds, h3, h4⟩ := ih chains (some e) (afterCalls env cs w)
        refine ⟨cs ++ ds, fun c hc => (List.mem_append.1 hc).elim (h1 c) (h3 c), ?_⟩
        rw [h4, afterCalls_append]
    | ok c =>
      simp only
      split
      · obtain ⟨ds, h3, h4⟩ := ih (chains ++ [(a, c)]) last (afterCalls env cs w)
        refine ⟨cs ++ ds, fun c hc => (List.mem_append.1 hc).elim (h1 c) (h3 c), ?_⟩
        rw [h4, afterCalls_append]
      · exact ⟨cs, h1, rfl⟩

theorem calculateExpectedHashes_state (env : Env) (file : Bytes) (algs : List String) (x : Option Nat) (w : World) :
    ∃ D, (∀ j, x ≠ some j → D j = w.dicts j) ∧ (calculateExpectedHashes env file algs x w).2 = { w with dicts := D } := by
  unfold calculateExpectedHashes
  cases x with
  | none =>
    refine ⟨w.dicts, fun _ _ => rfl, ?_⟩
    simp only
    cases h : neededHashes env file algs [] with
    | error e => rw [M.bind_error (show M.lift (.error e) w = (.error e, w) from rfl)]
    | ok d => rw [M.bind_ok (show M.lift (.ok d) w = (.ok d, w) from rfl)]; rfl
  | some i =>
    simp only
    rw [M.bind_ok (show M.getDict i w = (.ok (w.dicts i), w) from rfl)]
    cases h : neededHashes env file algs (w.dicts i) with
    | error e => exact ⟨w.dicts, fun _ _ => rfl, by rw [M.bind_error (show M.lift (.error e) w = (.error e, w) from rfl)]⟩
    | ok d =>
      rw [M.bind_ok (show M.lift (.ok d) w = (.ok d, w) from rfl)]
      refine ⟨fun j => if j = i then (w.dicts i).update d else w.dicts j, fun j hj => if_neg (fun e => hj (by rw [e])), rfl⟩

/-- What verifying a file leaves behind is what verifying some of its signatures leaves behind, but for dictionaries. -/
theorem peVerify_calls (env : Env) (cd : Codec) (file : Bytes) (args : PEVerifyArgs) (w : World) :
    ∃ calls D, (∀ c ∈ calls, FileCall.Makes cd ⟨file, args⟩ c) ∧ (∀ j, args.expectedHashes ≠ some j → D j = w.dicts j) ∧
      (peVerify env cd file args w).2 = { afterCalls env calls w with dicts := D } := by
  have nothing : ∀ w : World, { afterCalls env [] w with dicts := w.dicts } = w := fun _ => rfl
  unfold peVerify
  cases hg : (iterSignedDatas cd file true args.ignoreParseErrors).toList with
  | error e => exact ⟨[], w.dicts, (by simp), fun _ _ => rfl, by rw [M.bind_error (show M.lift (.error e) w = (.error e, w) from rfl)]; rfl⟩
  | ok sds =>
    rw [M.bind_ok (show M.lift (.ok sds) w = (.ok sds, w) from rfl)]
    split
    · exact ⟨[], w.dicts, (by simp), fun _ _ => rfl, rfl⟩
    · obtain ⟨D, h1, h2⟩ := calculateExpectedHashes_state env file ((selectSignatures args.multiVerifyMode sds).map (fun a => a.d.core.digestAlg))
        args.expectedHashes w
      simp only
      cases hc : calculateExpectedHashes env file ((selectSignatures args.multiVerifyMode sds).map (fun a => a.d.core.digestAlg))
          args.expectedHashes w with
      | mk r w1 =>
        rw [hc] at h2
        cases r with
        | error e =>
          rw [M.bind_error hc]
          exact ⟨[], D, (by simp), h1, h2⟩
        | ok d =>
          rw [M.bind_ok hc]
          obtain ⟨calls, h3, h4⟩ := verifyLoop_calls (Q := FileCall.Makes cd ⟨file, args⟩) env file d args.kwargs
            args.multiVerifyMode (selectSignatures args.multiVerifyMode sds)
            (fun a ha h => ⟨rfl, ⟨h, rfl⟩, sds, a, considered_iff.2 hg, selected_subset a ha, rfl⟩) [] none w1
          refine ⟨calls, D, h3, h1, ?_⟩
          rw [h4]
          show afterCalls env calls w1 = _
          rw [show w1 = { w with dicts := D } from h2, afterCalls_dicts]

theorem afterFiles_calls (env : Env) (cd : Codec) (fs : List FileCall) (w : World) :
    ∃ calls D, (∀ c ∈ calls, ∃ f ∈ fs, f.Makes cd c) ∧
      (∀ j, (∀ f ∈ fs, f.args.expectedHashes ≠ some j) → D j = w.dicts j) ∧
      afterFiles env cd fs w = { afterCalls env calls w with dicts := D } := by
  induction fs generalizing w with
  | nil => exact ⟨[], w.dicts, (by simp), fun _ _ => rfl, rfl⟩
  | cons f fs ih =>
    obtain ⟨cs, D, h1, h2, h3⟩ := peVerify_calls env cd f.file f.args w
    obtain ⟨ds, E, k1, k2, k3⟩ := ih (peVerify env cd f.file f.args w).2
    refine ⟨cs ++ ds, E, ?_, ?_, ?_⟩
    · intro c hc
      rcases List.mem_append.1 hc with hc | hc
      · exact ⟨f, List.mem_cons_self .., h1 c hc⟩
      · obtain ⟨g, hg, hx⟩ := k1 c hc
        exact ⟨g, List.mem_cons_of_mem _ hg, hx⟩
    · intro j hj
      rw [k2 j (fun g hg => hj g (List.mem_cons_of_mem _ hg)), h3]
      exact h2 j (hj f (List.mem_cons_self ..))
    · show afterFiles env cd fs _ = _
      rw [k3, afterCalls_append]
      conv => lhs; rw [h3]
      rw [afterCalls_dicts]

/-! ### Outcomes in corresponding states -/

theorem verifyLoop_sim {R : World → World → Prop} (check check' : ASD → M (List (List Cert)))
    (hc : ∀ a w w', R w w' → (check a w).1 = (check' a w').1 ∧ R (check a w).2 (check' a w').2) (mode : String) (sel : List ASD)
    (chains : List (ASD × List (List Cert))) (last : Option Exc) (w w' : World) (h : R w w') :
    (verifyLoop check mode sel chains last w).1 = (verifyLoop check' mode sel chains last w').1 := by
  induction sel generalizing chains last w w' with
  | nil => cases last <;> rfl
  | cons a l ih =>
    obtain ⟨h1, h2⟩ := hc a w w' h
    rw [verifyLoop, verifyLoop]
    rw [M.bind_ok (show M.attempt (check a) w = (.ok (check a w).1, (check a w).2) from rfl)]
    rw [M.bind_ok (show M.attempt (check' a) w' = (.ok (check' a w').1, (check' a w').2) from rfl), ← h1]
    cases (check a w).1 with
    | error e =>
      simp only
      split
      · rfl
      · exact ih _ _ _ _ h2
    | ok c =>
      simp only
      split
      · exact ih _ _ _ _ h2
      · rfl

theorem Rel.dicts {P : Nat → Nat → Prop} {S L : Nat → Prop} {w w' : World} (h : Rel P S L w w') (D D' : Nat → Dict String Bytes) :
    Rel P S L { w with dicts := D } { w' with dicts := D' } := ⟨h.inj, h.ctx, h.refs, h.stores, h.fine, h.loaded⟩

/-- The contexts before number `n`, each with itself. -/
def Upto (n : Nat) (i j : Nat) : Prop := i = j ∧ i < n

/-- The outcome is the same in states with the same stores, contexts and digests. -/
theorem peVerify_sim (env : Env) (cd : Codec) (file : Bytes) (args : PEVerifyArgs) (w w' : World) (n : Nat) (S L : Nat → Prop)
    (h1 : ∀ i, args.kwargs.context = some i → i < n) (h2 : ∀ i, args.kwargs.csContext = some i → i < n)
    (hS : ∀ k, args.kwargs.trusted = .heap k → S k)
    (hd : ∀ i, args.expectedHashes = some i → w'.dicts i = w.dicts i)
    (h : Rel (Upto n) S L w w') (hn : n ≤ w.nextCtx) (hn' : n ≤ w'.nextCtx) :
    (peVerify env cd file args w).1 = (peVerify env cd file args w').1 := by
  unfold peVerify
  cases hg : (iterSignedDatas cd file true args.ignoreParseErrors).toList with
  | error e =>
    rw [M.bind_error (show M.lift (.error e) w = (.error e, w) from rfl), M.bind_error (show M.lift (.error e) w' = (.error e, w') from rfl)]
  | ok sds =>
    rw [M.bind_ok (show M.lift (.ok sds) w = (.ok sds, w) from rfl), M.bind_ok (show M.lift (.ok sds) w' = (.ok sds, w') from rfl)]
    split
    · rfl
    · simp only
      have key : ∃ r v v', calculateExpectedHashes env file ((selectSignatures args.multiVerifyMode sds).map (fun a => a.d.core.digestAlg))
            args.expectedHashes w = (r, v) ∧
          calculateExpectedHashes env file ((selectSignatures args.multiVerifyMode sds).map (fun a => a.d.core.digestAlg))
            args.expectedHashes w' = (r, v') ∧ Rel (Upto n) S L v v' ∧ n ≤ v.nextCtx ∧ n ≤ v'.nextCtx := by
        unfold calculateExpectedHashes
        cases hx : args.expectedHashes with
        | none =>
          simp only
          cases neededHashes env file ((selectSignatures args.multiVerifyMode sds).map (fun a => a.d.core.digestAlg)) [] with
          | error e => exact ⟨.error e, w, w', rfl, rfl, h, hn, hn'⟩
          | ok d => exact ⟨.ok (Dict.update [] d), w, w', rfl, rfl, h, hn, hn'⟩
        | some i =>
          simp only
          rw [M.bind_ok (show M.getDict i w = (.ok (w.dicts i), w) from rfl), M.bind_ok (show M.getDict i w' = (.ok (w'.dicts i), w') from rfl),
            hd i hx]
          cases neededHashes env file ((selectSignatures args.multiVerifyMode sds).map (fun a => a.d.core.digestAlg)) (w.dicts i) with
          | error e => exact ⟨.error e, w, w', rfl, rfl, h, hn, hn'⟩
          | ok d => exact ⟨.ok ((w.dicts i).update d), _, _, rfl, rfl, h.dicts _ _, hn, hn'⟩
      obtain ⟨r, v, v', e1, e2, hv⟩ := key
      cases r with
      | error e => rw [M.bind_error e1, M.bind_error e2]
      | ok d =>
        rw [M.bind_ok e1, M.bind_ok e2]
        refine verifyLoop_sim (R := fun v v' => Rel (Upto n) S L v v' ∧ n ≤ v.nextCtx ∧ n ≤ v'.nextCtx) _ _ ?_ _ _ _ _ _ _ hv
        rintro a u u' ⟨hu, k1, k2⟩
        unfold verifyOne
        cases d.get? a.d.core.digestAlg with
        | none => exact ⟨rfl, hu, k1, k2⟩
        | some x =>
          have hex : ∀ v : World, n ≤ v.nextCtx → ContextsExist v { args.kwargs with expectedHash := some x } := fun v hv =>
            ⟨fun i hi => Nat.lt_of_lt_of_le (h1 i hi) hv, fun i hi => Nat.lt_of_lt_of_le (h2 i hi) hv⟩
          have o1 : OptP (Upto n) args.kwargs.context args.kwargs.context := by
            cases hx : args.kwargs.context with
            | none => exact .inl ⟨rfl, rfl⟩
            | some i => exact .inr ⟨i, i, rfl, rfl, rfl, h1 i hx⟩
          have o2 : OptP (Upto n) args.kwargs.csContext args.kwargs.csContext := by
            cases hx : args.kwargs.csContext with
            | none => exact .inl ⟨rfl, rfl⟩
            | some i => exact .inr ⟨i, i, rfl, rfl, rfl, h2 i hx⟩
          obtain ⟨g1, g2⟩ := asdVerify_sim (args := { args.kwargs with expectedHash := some x })
            (args' := { args.kwargs with expectedHash := some x }) env (some file) a.d hu
            (fun i j hij => by obtain ⟨rfl, hi⟩ := hij; exact ⟨Nat.lt_of_lt_of_le hi k1, Nat.lt_of_lt_of_le hi k2⟩)
            ⟨rfl, rfl, rfl, rfl, o1, o2⟩ hS
          exact ⟨g1, g2, Nat.le_trans k1 (asdVerify_grows env _ _ _ u (hex u k1)).next,
            Nat.le_trans k2 (asdVerify_grows env _ _ _ u' (hex u' k2)).next⟩

/-- Calls for the signatures of files use contexts that exist. -/
theorem calls_exist {cd : Codec} {w : World} {fs : List FileCall} {calls : List Call} (h : ∀ c ∈ calls, ∃ f ∈ fs, f.Makes cd c)
    (he : ∀ f ∈ fs, ContextsExist w f.args.kwargs) : ∀ c ∈ calls, ContextsExist w c.args := by
  intro c hc
  obtain ⟨f, hf, -, ⟨x, hx⟩, -⟩ := h c hc
  rw [hx]
  exact contextsExist_expected (he f hf) _

end Signify
