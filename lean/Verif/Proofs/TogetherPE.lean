/-
`SignedPEFile.verify` while others use the same stores.
-/
import Verif.Spec.TogetherPE
import Verif.Proofs.TogetherThreads
import Verif.Proofs.PEModes
import Verif.Proofs.Added
import Verif.Proofs.Files

set_option autoImplicit false

namespace Signify

open Spec WProg

/-! ### alone -/

theorem chooseContext_stores (a : AuthData) (args : VerifyArgs) (w : World) : ((chooseContext a args w).2).stores = w.stores := by
  unfold chooseContext
  cases args.context <;> rfl

theorem chooseCsContext_stores (a : AuthData) (args : VerifyArgs) (w : World) : ((chooseCsContext a args w).2).stores = w.stores := by
  unfold chooseCsContext
  cases args.csContext with
  | some c => rfl
  | none =>
    cases a.counter with
    | none => rfl
    | some c =>
      simp only
      split <;> rfl

/-- a property of the state that each part of some code preserves -/
theorem M.bind_preserves {α β : Type} {I : World → Prop} {x : M α} {k : α → M β} {w : World} (hx : I (x w).2)
    (hk : ∀ a w', I w' → I (k a w').2) : I ((x >>= k) w).2 := by
  show I (M.bnd x k w).2
  unfold M.bnd
  revert hx
  cases x w with
  | mk r w' =>
    cases r with
    | error e => exact id
    | ok a => exact hk a w'

theorem Bounded.same {fuel : Nat} {w w' : World} (h : Bounded fuel w) (hs : w'.stores = w.stores) : Bounded fuel w' := by
  intro i
  rw [hs]
  exact h i

theorem asdVerify_bounded {fuel : Nat} (env : Env) (file : Option Bytes) (a : AuthData) (args : VerifyArgs) (w : World) (hw : Bounded fuel w) :
    Bounded fuel (asdVerify env file a args w).2 := by
  unfold asdVerify
  refine M.bind_preserves (hw.same (chooseContext_stores a args w)) (fun cid w1 h1 => ?_)
  refine M.bind_preserves (h1.same (chooseCsContext_stores a args w1)) (fun cs w2 h2 => ?_)
  refine M.bind_preserves h2 (fun _ w3 h3 => ?_)
  refine M.bind_preserves (h3.keeps (.counterTime env a args.countersignatureMode cs (fun _ _ => trivial) (fun _ _ => trivial))) (fun t w4 h4 => ?_)
  exact h4.keeps (.authSignerVerify env trivial trivial a.signer t)

theorem verifyOne_alone {fuel : Nat} (env : Env) (file : Bytes) (hashes : Dict String Bytes) (kwargs : VerifyArgs) (a : ASD) (w : World)
    (hw : Bounded fuel w) : (verifyOneW env fuel file hashes kwargs a).alone w = verifyOne env file hashes kwargs a w := by
  unfold verifyOneW verifyOne
  cases hashes.get? a.d.core.digestAlg with
  | none => rfl
  | some h => exact asdVerify_alone env _ _ _ w hw

theorem verifyOne_bounded {fuel : Nat} (env : Env) (file : Bytes) (hashes : Dict String Bytes) (kwargs : VerifyArgs) (a : ASD) (w : World)
    (hw : Bounded fuel w) : Bounded fuel (verifyOne env file hashes kwargs a w).2 := by
  unfold verifyOne
  cases hashes.get? a.d.core.digestAlg with
  | none => exact hw
  | some h => exact asdVerify_bounded env _ _ _ w hw

theorem verifyLoop_alone {fuel : Nat} {checkW : ASD → WProg (List (List Cert))} {check : ASD → M (List (List Cert))}
    (hc : ∀ a w, Bounded fuel w → (checkW a).alone w = check a w) (hb : ∀ a w, Bounded fuel w → Bounded fuel (check a w).2) (mode : String) :
    ∀ (l : List ASD) (chains : List (ASD × List (List Cert))) (last : Option Exc) (w : World), Bounded fuel w →
      (verifyLoopW checkW mode l chains last).alone w = verifyLoop check mode l chains last w
  | [], _, none, _, _ => rfl
  | [], _, some _, _, _ => rfl
  | a :: l, chains, last, w, hw => by
    have ih := verifyLoop_alone hc hb mode l
    unfold verifyLoopW verifyLoop
    rw [alone_onResult, hc a w hw]
    have h2 := hb a w hw
    show _ = M.bnd (M.attempt (check a)) _ w
    unfold M.bnd M.attempt
    revert h2
    cases check a w with
    | mk r w' =>
      intro h2
      cases r with
      | ok c =>
        simp only
        split
        · exact ih _ _ w' h2
        · rfl
      | error e =>
        simp only
        split
        · rfl
        · exact ih _ _ w' h2

theorem peVerify_alone {fuel : Nat} (env : Env) (cd : Codec) (file : Bytes) (args : PEVerifyArgs) (w : World) (hw : Bounded fuel w) :
    (peVerifyW env fuel cd file args).alone w = peVerify env cd file args w := by
  unfold peVerifyW peVerify
  refine alone_bind_of rfl (fun sds _ => ?_)
  show (if sds.isEmpty = true then _ else _ : WProg _).alone w = (if sds.isEmpty = true then _ else _ : M _) w
  split
  · rfl
  · refine alone_bind_of rfl (fun hashes _ => ?_)
    refine verifyLoop_alone (fun a w hw => verifyOne_alone env file hashes args.kwargs a w hw)
      (fun a w hw => verifyOne_bounded env file hashes args.kwargs a w hw) _ _ _ _ _ ?_
    obtain ⟨D, -, hD⟩ := calculateExpectedHashes_state env file ((selectSignatures args.multiVerifyMode sds).map (fun a => a.d.core.digestAlg))
      args.expectedHashes w
    refine hw.same ?_
    show ((calculateExpectedHashes _ _ _ _ _).2).stores = _
    rw [hD]

theorem peExplainVerify_alone {fuel : Nat} (env : Env) (cd : Codec) (file : Bytes) (args : PEVerifyArgs) (w : World) (hw : Bounded fuel w) :
    (peExplainVerifyW env fuel cd file args).alone w = peExplainVerify env cd file args w := by
  unfold peExplainVerifyW peExplainVerify explain
  rw [alone_onResult, peVerify_alone env cd file args w hw]
  show _ = M.bnd (M.attempt (peVerify env cd file args)) _ w
  unfold M.bnd M.attempt
  cases peVerify env cd file args w with
  | mk r w' => cases r <;> rfl

/-! ### amid others -/

theorem verifyLoop_tri {M : World → Prop} {R : World → World → Prop} {check : ASD → WProg (List (List Cert))} {G : ASD → List (List Cert) → Prop}
    (mode : String) : ∀ (l : List ASD) (chains : List (ASD × List (List Cert))) (last : Option Exc),
      (∀ a ∈ l, Tri M R (fun _ => True) (check a) (Returns (fun _ => True) (G a))) → (∀ p ∈ chains, G p.1 p.2) →
      Tri M R (fun _ => True) (verifyLoopW check mode l chains last) (Returns (fun _ => True) (fun res =>
        (Strict mode → res.map Prod.fst = chains.map Prod.fst ++ l) ∧
        (¬ Strict mode → (l = [] ∧ last = none) ∨ ∃ p, res = [p] ∧ p.1 ∈ l) ∧ ∀ p ∈ res, G p.1 p.2))
  | [], chains, none, _, hG => Tri.ok ⟨fun _ => by simp, fun _ => .inl ⟨rfl, rfl⟩, hG⟩
  | [], _, some _, _, _ => Tri.raise
  | a :: l, chains, last, hc, hG => by
    unfold verifyLoopW
    refine Tri.onResult (hc a (List.mem_cons_self ..)) (fun r => ?_)
    have hl : ∀ b ∈ l, Tri M R (fun _ => True) (check b) (Returns (fun _ => True) (G b)) := fun b hb => hc b (List.mem_cons_of_mem _ hb)
    intro σ hσ n w hw hm
    revert hm
    cases r with
    | error e =>
      simp only
      by_cases hs : mode = "all" ∨ mode = "first"
      · simp only [hs, if_true]
        exact fun _ => ⟨trivial, fun _ h => by cases h⟩
      · simp only [hs, if_false]
        intro hm
        refine (verifyLoop_tri mode l chains (some e) hl hG).weaken ?_ σ hσ n w trivial hm
        intro r w hr
        refine ⟨trivial, fun res h => ?_⟩
        obtain ⟨-, h2, h3⟩ := hr.2 res h
        refine ⟨fun h => absurd h hs, fun hn => .inr ?_, h3⟩
        rcases h2 hn with ⟨-, h5⟩ | ⟨p, h4, h5⟩
        · cases h5
        · exact ⟨p, h4, List.mem_cons_of_mem _ h5⟩
    | ok c =>
      have hGc := hw.2 c rfl
      simp only
      by_cases hs : mode = "all" ∨ mode = "first"
      · simp only [hs, if_true]
        intro hm
        refine (verifyLoop_tri mode l (chains ++ [(a, c)]) last hl (fun p hp => ?_)).weaken ?_ σ hσ n w trivial hm
        · rcases List.mem_append.1 hp with hp | hp
          · exact hG p hp
          · rw [List.mem_singleton.1 hp]; exact hGc
        · intro r w hr
          refine ⟨trivial, fun res h => ?_⟩
          obtain ⟨h1, -, h3⟩ := hr.2 res h
          exact ⟨fun h => by rw [h1 h]; simp, fun h => absurd hs h, h3⟩
      · simp only [hs, if_false]
        intro _
        refine ⟨trivial, fun res h => ?_⟩
        cases Except.ok.inj h
        refine ⟨fun h => absurd h hs, fun _ => .inr ⟨(a, c), rfl, List.mem_cons_self ..⟩, fun p hp => ?_⟩
        rw [List.mem_singleton.1 hp]
        exact hGc

/-- What holds of the dictionaries holds whatever is done with the stores. -/
theorem unaffected_dicts (D : Nat → Dict String Bytes) : Unaffected StoresOnly (fun w => w.dicts = D) := fun w w' h hw => by
  exact h.2.2.trans hw

theorem providedBy_dicts {w w' : World} (h : w'.dicts = w.dicts) (args : PEVerifyArgs) : providedBy w' args = providedBy w args := by
  unfold providedBy
  rw [h]

theorem foundGood_of {env : Env} {M : World → Prop} {file : Option Bytes} {a : AuthData} {args : VerifyArgs} (h1 : args.context = none)
    (h2 : args.csContext = none) (fuel : Nat) (w : World) :
    Tri M StoresOnly (fun _ => True) (asdVerifyW env fuel file a args) (Returns (fun _ => True) (FoundGood env M w file a args)) := by
  refine (asdVerify_private env fuel file a args h1 h2 M w).weaken (fun r w' hr => ⟨trivial, fun c hc => ?_⟩)
  have := hr.2 c hc
  rw [digestsMatch_iff] at this
  exact this

theorem peVerify_private (env : Env) (fuel : Nat) (cd : Codec) (file : Bytes) (args : PEVerifyArgs) (h1 : args.kwargs.context = none)
    (h2 : args.kwargs.csContext = none) (M : World → Prop) (w : World) :
    Tri M StoresOnly (fun v => v.dicts = w.dicts) (peVerifyW env fuel cd file args) (Returns (fun _ => True) (FileFoundGood env M cd w file args)) := by
  unfold peVerifyW
  refine Tri.bind (Tri.lift (P := fun sds => (iterSignedDatas cd file true args.ignoreParseErrors).toList = .ok sds) (fun _ h => h))
    (fun e v _ => ⟨trivial, fun _ h => by cases h⟩) (fun sds => ?_)
  intro σ hσ n v hv
  have hc := considered_iff.2 (hv.2 sds rfl)
  revert n v
  suffices hT : Tri M StoresOnly (fun v => v.dicts = w.dicts) (if sds.isEmpty = true then WProg.raise ⟨.authenticodeNotSigned, "No valid SignedData structure was found."⟩
      else WProg.act (calculateExpectedHashes env file ((selectSignatures args.multiVerifyMode sds).map (fun a => a.d.core.digestAlg)) args.expectedHashes) >>= fun hashes =>
        verifyLoopW (verifyOneW env fuel file hashes args.kwargs) args.multiVerifyMode (selectSignatures args.multiVerifyMode sds) [] none)
      (Returns (fun _ => True) (FileFoundGood env M cd w file args)) from fun n v hv => hT σ hσ n v hv.1
  by_cases hne : sds = []
  · subst hne
    exact Tri.raise.weaken (fun r v hr => ⟨trivial, hr.2⟩)
  rw [if_neg (by rw [List.isEmpty_iff]; exact hne)]
  have halg := fun x hx => considered_alg hc (x := x) hx
  have hsel := (selected_iff (mode := args.multiVerifyMode) hne halg).2 rfl
  have hsne := selected_ne_nil (mode := args.multiVerifyMode) hne halg
  obtain ⟨oho, ohs, dir, hh⟩ := header_of_considered hc hne
  generalize selectSignatures args.multiVerifyMode sds = sel at hsel hsne
  refine Tri.bind (Q := Returns (fun _ => True) (fun hashes : Dict String Bytes => ∀ a ∈ sel, ∀ d, hashes.get? a.d.core.digestAlg = some d →
      DigestFor env file (providedBy w args) a.d.core.digestAlg d)) (Tri.act (unaffected_dicts _) (fun v _ hv => ⟨trivial, fun hashes hr a ha d hd => ?_⟩))
    (fun e v _ => ⟨trivial, fun _ h => by cases h⟩) (fun hashes => ?_)
  · rw [← providedBy_dicts hv]
    by_cases hp : HashNames (providedBy v args)
    · obtain ⟨d', e1, e2⟩ := calculateExpectedHashes_ok env file (sel.map (fun a => a.d.core.digestAlg)) args v hp hh
      rw [e1] at hr
      cases Except.ok.inj hr
      have := e2 a.d.core.digestAlg
      rw [if_pos (List.mem_map.2 ⟨a, ha, rfl⟩), hd] at this
      exact digestFor_of_header hh this.symm
    · rw [calculateExpectedHashes_names env file _ args v hp] at hr
      cases hr
  · intro σ hσ n v hv
    have hd := hv.2 hashes rfl
    refine (verifyLoop_tri (G := fun a c => ∃ d, DigestFor env file (providedBy w args) a.d.core.digestAlg d ∧
      FoundGood env M w (some file) a.d { args.kwargs with expectedHash := some d } c) args.multiVerifyMode sel [] none (fun a ha => ?_)
      (fun p hp => by cases hp)).weaken (fun r v hr => ⟨trivial, fun res h => ?_⟩) σ hσ n v trivial
    · unfold verifyOneW
      cases hg : hashes.get? a.d.core.digestAlg with
      | none => exact Tri.raise
      | some d =>
        exact (foundGood_of (args := { args.kwargs with expectedHash := some d }) h1 h2 fuel w).weaken
          (fun r v hr => ⟨trivial, fun c hc => ⟨d, hd a ha d hg, hr.2 c hc⟩⟩)
    · obtain ⟨g1, g2, g3⟩ := hr.2 res h
      refine ⟨sds, sel, hc, hne, hsel, g1, fun hn => ?_, g3⟩
      rcases g2 hn with ⟨g4, -⟩ | g4
      · exact absurd g4 hsne
      · exact g4

/-! ### threads -/

theorem verifyLoop_keeps {I : World → Prop} {check : ASD → WProg (List (List Cert))} (hc : ∀ a, (check a).Keeps I) (mode : String) :
    ∀ (l : List ASD) (chains : List (ASD × List (List Cert))) (last : Option Exc), (verifyLoopW check mode l chains last).Keeps I
  | [], _, none => trivial
  | [], _, some _ => trivial
  | a :: l, chains, last => by
    unfold verifyLoopW
    refine .onResult (hc a) (fun r => ?_)
    cases r with
    | error e =>
      simp only
      split
      · trivial
      · exact verifyLoop_keeps hc mode l _ _
    | ok c =>
      simp only
      split
      · exact verifyLoop_keeps hc mode l _ _
      · trivial

theorem peVerify_keeps {I : World → Prop} (h : KeepInv I) (env : Env) (fuel : Nat) (cd : Codec) (file : Bytes) (args : PEVerifyArgs) :
    (peVerifyW env fuel cd file args).Keeps I := by
  unfold peVerifyW
  refine .bind (.lift _) (fun sds => ?_)
  show (if sds.isEmpty = true then _ else _ : WProg _).Keeps I
  split
  · trivial
  · refine .bind (.act (fun w hw => ?_)) (fun hashes => verifyLoop_keeps (fun a => ?_) _ _ _ _)
    · obtain ⟨D, -, hD⟩ := calculateExpectedHashes_state env file ((selectSignatures args.multiVerifyMode sds).map (fun a => a.d.core.digestAlg))
        args.expectedHashes w
      exact h.same w _ (by rw [hD]) hw
    · unfold verifyOneW
      cases hashes.get? a.d.core.digestAlg with
      | none => trivial
      | some d => exact asdVerify_keeps h env fuel _ _ _

theorem peExplainVerify_keeps {I : World → Prop} (h : KeepInv I) (env : Env) (fuel : Nat) (cd : Codec) (file : Bytes) (args : PEVerifyArgs) :
    (peExplainVerifyW env fuel cd file args).Keeps I := by
  refine .onResult (peVerify_keeps h env fuel cd file args) (fun r => ?_)
  cases r <;> trivial

end Signify
