/-
The verification of a file while time passes (C100): the signatures one after the other.
-/
import Verif.Proofs.MomentsSound
import Verif.Proofs.PEModes
import Verif.Proofs.History
import Verif.Props.PEFile

set_option autoImplicit false

namespace Signify

open Spec

inductive TriedT (check : Nat → ASD → M (List (List Cert))) (k : Nat) : World → List (ASD × Except Exc (List (List Cert))) → World → Prop where
  | nil (w : World) : TriedT check k w [] w
  | cons (a : ASD) (w w' : World) (l : List (ASD × Except Exc (List (List Cert)))) :
      TriedT check k (check (l.length + k) a w).2 l w' → TriedT check k w ((a, (check (l.length + k) a w).1) :: l) w'

theorem TriedT.step {check : Nat → ASD → M (List (List Cert))} {k n : Nat} {a : ASD} {w w1 w' : World} {r : Except Exc (List (List Cert))}
    {l : List (ASD × Except Exc (List (List Cert)))} (hn : n = l.length + k) (hc : check n a w = (r, w1)) (h : TriedT check k w1 l w') :
    TriedT check k w ((a, r) :: l) w' := by
  have h1 : (check (l.length + k) a w).1 = r := by rw [← hn, hc]
  have h2 : (check (l.length + k) a w).2 = w1 := by rw [← hn, hc]
  rw [← h1]
  refine .cons a w w' l ?_
  rw [h2]
  exact h

theorem verifyLoopT_strict (check : Nat → ASD → M (List (List Cert))) {mode : String} (hs : Strict mode) :
    ∀ (sel : List ASD) (chains : List (ASD × List (List Cert))) (w : World),
    ∃ tried rest w' r, sel = tried.map Prod.fst ++ rest ∧ TriedT check rest.length w tried w' ∧ Overall mode tried rest r ∧
      verifyLoopT check mode sel chains none w = (prependTo chains r, w')
  | [], chains, w => ⟨[], [], w, .ok [], rfl, .nil w, .allVerify [] hs, by rw [verifyLoopT]; simp [prependTo]; rfl⟩
  | a :: sel, chains, w => by
    have hstep : ∀ r w1, check sel.length a w = (r, w1) → verifyLoopT check mode (a :: sel) chains none w =
        (match r with
          | .error e => (M.raise e : M (List (ASD × List (List Cert))))
          | .ok c => verifyLoopT check mode sel (chains ++ [(a, c)]) none) w1 := by
      intro r w1 hc
      rw [verifyLoopT]
      rw [M.bind_ok (show M.attempt (check sel.length a) w = (.ok r, w1) from by unfold M.attempt; rw [hc])]
      cases r with
      | error e => simp only; rw [if_pos (show mode = "all" ∨ mode = "first" from hs)]
      | ok c => simp only; rw [if_pos (show mode = "all" ∨ mode = "first" from hs)]
    rcases hc : check sel.length a w with ⟨r, w1⟩
    rw [hstep r w1 hc]
    cases r with
    | error e =>
      refine ⟨[(a, _)], sel, w1, .error e, rfl, .step (by simp) hc (.nil _), ?_, rfl⟩
      exact .firstFailure [] a e sel hs
    | ok c =>
      obtain ⟨tried, rest, w', r, h1, h2, h3, h4⟩ := verifyLoopT_strict check hs sel (chains ++ [(a, c)]) w1
      refine ⟨(a, _) :: tried, rest, w', prependTo [(a, c)] r, by rw [h1]; rfl, .step (by rw [h1]; simp) hc h2, ?_, ?_⟩
      · cases r with
        | ok l => exact Overall.cons_ok hs h3
        | error e => exact Overall.cons_ok_error hs h3
      · simp only
        rw [h4]
        cases r with
        | ok l => simp [prependTo]
        | error e => rfl

theorem verifyLoopT_lax (check : Nat → ASD → M (List (List Cert))) {mode : String} (hs : ¬ Strict mode) :
    ∀ (sel : List ASD) (last : Option Exc) (w : World), sel ≠ [] →
    ∃ tried rest w' r, sel = tried.map Prod.fst ++ rest ∧ TriedT check rest.length w tried w' ∧ Overall mode tried rest r ∧
      verifyLoopT check mode sel [] last w = (r, w')
  | [], _, _, h => absurd rfl h
  | a :: sel, last, w, _ => by
    have hstep : ∀ r w1, check sel.length a w = (r, w1) → verifyLoopT check mode (a :: sel) [] last w =
        (match r with
          | .error e => verifyLoopT check mode sel [] (some e)
          | .ok c => (pure [(a, c)] : M (List (ASD × List (List Cert))))) w1 := by
      intro r w1 hc
      rw [verifyLoopT]
      rw [M.bind_ok (show M.attempt (check sel.length a) w = (.ok r, w1) from by unfold M.attempt; rw [hc])]
      cases r with
      | error e => simp only; rw [if_neg (show ¬ (mode = "all" ∨ mode = "first") from hs)]
      | ok c => simp only; rw [if_neg (show ¬ (mode = "all" ∨ mode = "first") from hs)]
    rcases hc : check sel.length a w with ⟨r, w1⟩
    rw [hstep r w1 hc]
    cases r with
    | ok c =>
      refine ⟨[(a, _)], sel, w1, .ok [(a, c)], rfl, .step (by simp) hc (.nil _), ?_, rfl⟩
      exact .firstSuccess [] a c sel hs
    | error e =>
      cases sel with
      | nil =>
        refine ⟨[(a, _)], [], w1, .error e, rfl, .step (by simp) hc (.nil _), ?_, ?_⟩
        · exact .allFail [] a e hs
        · simp only
          rw [verifyLoopT]
          rfl
      | cons b sel =>
        obtain ⟨tried, rest, w', r, h1, h2, h3, h4⟩ := verifyLoopT_lax check hs (b :: sel) (some e) w1 (by simp)
        refine ⟨(a, _) :: tried, rest, w', r, by rw [h1]; rfl, .step (by rw [h1]; simp) hc h2, ?_, h4⟩
        exact Overall.cons_error hs h3

theorem verifyLoopT_overall (check : Nat → ASD → M (List (List Cert))) (mode : String) (sel : List ASD) (w : World) (hne : sel ≠ []) :
    ∃ tried rest w' r, sel = tried.map Prod.fst ++ rest ∧ TriedT check rest.length w tried w' ∧ Overall mode tried rest r ∧
      verifyLoopT check mode sel [] none w = (r, w') := by
  by_cases hs : Strict mode
  · obtain ⟨tried, rest, w', r, h1, h2, h3, h4⟩ := verifyLoopT_strict check hs sel [] w
    refine ⟨tried, rest, w', r, h1, h2, h3, ?_⟩
    rw [h4]
    cases r <;> rfl
  · exact verifyLoopT_lax check hs sel none w hne

/-- Attempts with the digests computed are attempts in the sense of the specification. -/
theorem attemptsAt_of_tried {env : Env} {m : Nat → SignatureMoments} {file : Bytes} {provided hashes : Dict String Bytes} {kwargs : VerifyArgs}
    {k : Nat} {w w' : World} {l : List (ASD × Except Exc (List (List Cert)))}
    (h : ∀ a ∈ l.map Prod.fst, ∃ d, hashes.get? a.d.core.digestAlg = some d ∧ DigestFor env file provided a.d.core.digestAlg d)
    (ht : TriedT (fun n => verifyOneT env (m n) file hashes kwargs) k w l w') : AttemptsAt env m file provided kwargs k w l w' := by
  induction ht with
  | nil w => exact .nil w
  | cons a w w' l _ ih =>
    obtain ⟨d, h1, h2⟩ := h a (List.mem_cons_self ..)
    have hv : verifyOneT env (m (l.length + k)) file hashes kwargs a =
        asdVerifyT env (m (l.length + k)) (some file) a.d { kwargs with expectedHash := some d } := by
      unfold verifyOneT
      rw [h1]
    have ih := ih (fun b hb => h b (List.mem_cons_of_mem _ hb))
    exact .cons a d w _ w' _ l h2 (congrFun hv.symm w) ih

/-- `verify` for a file with signatures. -/
theorem peVerifyT_signed (env : Env) (m : Nat → SignatureMoments) (cd : Codec) (file : Bytes) (args : PEVerifyArgs) (w : World) {sds : List ASD}
    (h : Considered cd file args.ignoreParseErrors sds) (hne : sds ≠ []) (hp : HashNames (providedBy w args))
    {oho ohs dir : Nat} (hh : Header file oho ohs dir) :
    ∃ d tried rest w', (∀ n, d.get? n = ((providedBy w args).get? n).or
        (if n ∈ (selectSignatures args.multiVerifyMode sds).map (fun a => a.d.core.digestAlg) then
          some (env.hash n (deleteSections file (omitted file oho ohs dir))) else none)) ∧
      selectSignatures args.multiVerifyMode sds = tried.map Prod.fst ++ rest ∧
      AttemptsAt env m file (providedBy w args) args.kwargs rest.length (withHashes w args.expectedHashes d) tried w' ∧
      Overall args.multiVerifyMode tried rest (peVerifyT env m cd file args w).1 ∧
      (peVerifyT env m cd file args w).2 = w' := by
  have hit := considered_iff.1 h
  have halg := fun x hx => considered_alg h (x := x) hx
  obtain ⟨d, hd, hget⟩ := calculateExpectedHashes_ok env file ((selectSignatures args.multiVerifyMode sds).map (fun a => a.d.core.digestAlg)) args w hp hh
  obtain ⟨tried, rest, w', r, h1, h2, h3, h4⟩ := verifyLoopT_overall (fun n => verifyOneT env (m n) file d args.kwargs) args.multiVerifyMode
    (selectSignatures args.multiVerifyMode sds) (withHashes w args.expectedHashes d) (selected_ne_nil hne halg)
  have hv : peVerifyT env m cd file args w = (r, w') := by
    unfold peVerifyT
    rw [M.bind_ok (show M.lift _ w = (.ok sds, w) from by unfold M.lift; rw [hit])]
    rw [if_neg (by rw [List.isEmpty_iff]; exact hne)]
    rw [M.bind_ok hd, h4]
  refine ⟨d, tried, rest, w', hget, h1, ?_, by rw [hv]; exact h3, by rw [hv]⟩
  refine attemptsAt_of_tried (fun a ha => ?_) h2
  have hm : a.d.core.digestAlg ∈ (selectSignatures args.multiVerifyMode sds).map (fun a => a.d.core.digestAlg) :=
    List.mem_map.2 ⟨a, by rw [h1]; exact List.mem_append_left _ ha, rfl⟩
  have hg := hget a.d.core.digestAlg
  rw [if_pos hm] at hg
  cases hx : d.get? a.d.core.digestAlg with
  | none =>
    rw [hx] at hg
    cases hp : (providedBy w args).get? a.d.core.digestAlg <;> rw [hp] at hg <;> cases hg
  | some x => exact ⟨x, rfl, digestFor_of_header hh (hg.symm.trans hx)⟩

theorem peVerifyT_error {env : Env} {m : Nat → SignatureMoments} {cd : Codec} {file : Bytes} {args : PEVerifyArgs} {w : World} {e : Exc}
    (h : (iterSignedDatas cd file true args.ignoreParseErrors).toList = .error e) : peVerifyT env m cd file args w = (.error e, w) := by
  unfold peVerifyT
  rw [M.bind_error (show M.lift _ w = (.error e, w) from by unfold M.lift; rw [h])]

theorem peVerifyT_unsigned {env : Env} {m : Nat → SignatureMoments} {cd : Codec} {file : Bytes} {args : PEVerifyArgs} {w : World}
    (h : Considered cd file args.ignoreParseErrors []) :
    peVerifyT env m cd file args w = (.error ⟨.authenticodeNotSigned, "No valid SignedData structure was found."⟩, w) := by
  unfold peVerifyT
  rw [M.bind_ok (show M.lift _ w = (.ok [], w) from by unfold M.lift; rw [considered_iff.1 h])]
  rfl

theorem peVerifyT_badName {env : Env} {m : Nat → SignatureMoments} {cd : Codec} {file : Bytes} {args : PEVerifyArgs} {w : World} {sds : List ASD}
    (h : Considered cd file args.ignoreParseErrors sds) (hne : sds ≠ []) (hp : ¬ HashNames (providedBy w args)) :
    peVerifyT env m cd file args w = (.error ⟨.attributeError, "module 'hashlib' has no attribute"⟩, w) := by
  have hall : (providedBy w args).all (fun kv => hashlibNames.contains kv.1) = false := by
    rw [Bool.eq_false_iff]
    intro hc
    refine hp (fun k v hkv => ?_)
    have := List.all_eq_true.1 hc (k, v) hkv
    rw [show hashConstructors = hashlibNames from rfl]
    simpa using this
  unfold peVerifyT
  rw [M.bind_ok (show M.lift _ w = (.ok sds, w) from by unfold M.lift; rw [considered_iff.1 h])]
  rw [if_neg (by rw [List.isEmpty_iff]; exact hne)]
  unfold calculateExpectedHashes
  cases hx : args.expectedHashes with
  | none => exact absurd (by unfold providedBy; rw [hx]; intro k v h; cases h) hp
  | some i =>
    have hd : providedBy w args = w.dicts i := by unfold providedBy; rw [hx]
    rw [hd] at hall
    simp only
    have hn : neededHashes env file ((selectSignatures args.multiVerifyMode sds).map (fun a => a.d.core.digestAlg)) (w.dicts i) =
        .error ⟨.attributeError, "module 'hashlib' has no attribute"⟩ := by
      unfold neededHashes
      rw [hall]
      rfl
    rw [M.bind_error (w' := w) (e := ⟨.attributeError, "module 'hashlib' has no attribute"⟩)]
    rw [M.bind_ok (show M.getDict i w = (.ok (w.dicts i), w) from rfl)]
    rw [M.bind_error (show M.lift _ w = (.error _, w) from by unfold M.lift; rw [hn])]

theorem peVerifyT_ok {env : Env} {m : Nat → SignatureMoments} {cd : Codec} {file : Bytes} {args : PEVerifyArgs} {w : World} {res : List (ASD × List (List Cert))}
    (h : (peVerifyT env m cd file args w).1 = .ok res) :
    ∃ sds, Considered cd file args.ignoreParseErrors sds ∧ sds ≠ [] ∧ HashNames (providedBy w args) := by
  cases hi : (iterSignedDatas cd file true args.ignoreParseErrors).toList with
  | error e => rw [peVerifyT_error hi] at h; cases h
  | ok sds =>
    have hc := considered_iff.2 hi
    refine ⟨sds, hc, ?_, ?_⟩
    · rintro rfl
      rw [peVerifyT_unsigned hc] at h; cases h
    · apply Classical.byContradiction
      intro hp
      by_cases hne : sds = []
      · subst hne
        rw [peVerifyT_unsigned hc] at h; cases h
      · rw [peVerifyT_badName hc hne hp] at h; cases h

theorem counterTimeT_none {env : Env} {m : Cert → Moments} {a : AuthData} {args : VerifyArgs} {cs : Option Nat} (h : ¬ Countersigned a args) :
    counterTimeT env m a args.countersignatureMode cs = pure none := by
  unfold counterTimeT
  cases hc : a.counter with
  | none => rfl
  | some c =>
    have : args.countersignatureMode = "ignore" := by
      refine Classical.byContradiction (fun hm => h ⟨by rw [hc]; simp, hm⟩)
    rw [this]
    rfl

theorem Keeps.authSignerVerifyT_none (env : Env) (m : Cert → Moments) {D T : Nat → Prop} {cid : Nat} (h : D cid) (s : Signer) :
    Keeps D T (Signify.authSignerVerifyT env m cid s none) := by
  refine Keeps.signerVerifyWith env cid s (fun issuer => ?_)
  have : ∀ b : Bool, (if b = true then none else none : Option Int) = none := by intro b; cases b <;> rfl
  rw [this]
  exact .bind (.verifyIssuerSignature env cid s issuer) (fun _ => .bind (.pure _) (fun _ => .ctxVerifyT (m issuer) h issuer))

theorem asdVerifyT_grows (env : Env) (m : SignatureMoments) (file : Option Bytes) (a : AuthData) (args : VerifyArgs) (w : World) (he : ContextsExist w args) :
    Grows (Passed args) (fun j => Passed args j ∧ Countersigned a args) w (asdVerifyT env m file a args w).2 := by
  obtain ⟨cid, cs, v, hs⟩ := setup w a args he
  have hrun : asdVerifyT env m file a args w = _ := hs.run (fun cid cs => M.lift (checkDigests env file a args.expectedHash) >>= fun _ =>
    counterTimeT env m.counter a args.countersignatureMode cs >>= fun t => authSignerVerifyT env m.signer cid a.signer t)
  rw [hrun]
  have h1 : Frame (fun j => j = cid ∨ cs = some j) (fun j => (j = cid ∨ cs = some j) ∧ Countersigned a args) v
      ((M.lift (checkDigests env file a args.expectedHash) >>= fun _ => counterTimeT env m.counter a args.countersignatureMode cs >>= fun t =>
        authSignerVerifyT env m.signer cid a.signer t : M (List (List Cert))) v).2 := by
    by_cases hk : Countersigned a args
    · exact (Keeps.bind (Keeps.lift _) fun _ => Keeps.bind (Keeps.counterTimeT env m.counter a _ cs (fun i hi => .inr hi) (fun i hi => ⟨.inr hi, hk⟩))
        fun t => Keeps.authSignerVerifyT env m.signer (.inl rfl) ⟨.inl rfl, hk⟩ _ t) v
    · rw [counterTimeT_none hk]
      exact (Keeps.bind (Keeps.lift _) fun _ => Keeps.authSignerVerifyT_none env m.signer (.inl rfl) a.signer) v
  have key : ∀ j, j < w.nextCtx → (j = cid ∨ cs = some j) → Passed args j := by
    rintro j hj (rfl | h)
    · rcases hs.hcid with h | ⟨-, h⟩
      · exact .inl h
      · exact absurd hj (by omega)
    · rcases hs.hcs j h with h | ⟨-, h, -⟩
      · exact .inr h
      · exact absurd hj (by omega)
  refine ⟨fun i => ?_, ?_, ?_, fun j hj hd => ?_, fun j hj hd => ?_, fun j hj => ?_⟩
  · have := h1.stores i; rw [hs.stores] at this; exact this
  · rw [h1.dicts, hs.dicts]
  · rw [h1.next]; exact hs.next
  · rw [h1.other j (fun k => hd (key j hj k)), hs.old j hj]
  · rw [h1.times j (fun k => hd ⟨key j hj k.1, k.2⟩), hs.old j hj]
  · have := h1.ctxs j; rw [hs.old j hj] at this; exact this

theorem attemptsAt_call {env : Env} {m : Nat → SignatureMoments} {file : Bytes} {provided : Dict String Bytes} {kwargs : VerifyArgs} {k : Nat}
    {w w' : World} {l : List (ASD × Except Exc (List (List Cert)))} (h : AttemptsAt env m file provided kwargs k w l w')
    (he : ContextsExist w kwargs) :
    ∀ a c, (a, Except.ok c) ∈ l → ∃ n d w1 w2, DigestFor env file provided a.d.core.digestAlg d ∧ ContextsExist w1 kwargs ∧
      (∀ i, StoreStep (w.stores i) (w1.stores i)) ∧ (∀ i, StoreStep (w.stores i) (w2.stores i)) ∧
      asdVerifyT env (m n) (some file) a.d { kwargs with expectedHash := some d } w1 = (.ok c, w2) := by
  induction h with
  | nil w => intro a c h; cases h
  | cons a d w w1 w' r l hd hr _ ih =>
    intro b c hm
    have he' := contextsExist_expected he (some d)
    have hg := asdVerifyT_grows env (m (l.length + k)) (some file) a.d { kwargs with expectedHash := some d } w he'
    rw [hr] at hg
    rcases List.mem_cons.1 hm with hm | hm
    · injection hm with h1 h2
      subst h1 h2
      exact ⟨_, d, w, w1, hd, he, fun i => .inl rfl, hg.stores, hr⟩
    · obtain ⟨n, d', v1, v2, h1, h2, h3, h4, h5⟩ := ih (he.grows hg) b c hm
      exact ⟨n, d', v1, v2, h1, h2, fun i => (hg.stores i).trans (h3 i), fun i => (hg.stores i).trans (h4 i), h5⟩

end Signify
