/-
Programs that use the file and the stores while others do.
-/
import Verif.Spec.Both
import Verif.Proofs.SharedAlone
import Verif.Proofs.TogetherPE

set_option autoImplicit false

namespace Signify

open Spec Prog

namespace BProg
variable {α β : Type}

theorem amid_step (σ : Nat → Both → Both) (f : Both → Both) (k : Both → BProg α) (n : Nat) (s : Both) :
    (BProg.step f k).amid σ n s = (((k (σ n s)).amid σ (n + 1) (f (σ n s))).1, σ n s :: ((k (σ n s)).amid σ (n + 1) (f (σ n s))).2.1,
      ((k (σ n s)).amid σ (n + 1) (f (σ n s))).2.2) := rfl

theorem amid_onResult (σ : Nat → Both → Both) (p : BProg α) (f : Except Exc α → BProg β) : ∀ (n : Nat) (s : Both),
    (p.onResult f).amid σ n s =
      (((f (p.amid σ n s).1).amid σ (n + (p.amid σ n s).2.1.length) (p.amid σ n s).2.2).1,
        (p.amid σ n s).2.1 ++ ((f (p.amid σ n s).1).amid σ (n + (p.amid σ n s).2.1.length) (p.amid σ n s).2.2).2.1,
        ((f (p.amid σ n s).1).amid σ (n + (p.amid σ n s).2.1.length) (p.amid σ n s).2.2).2.2) := by
  induction p with
  | ret r => intro n s; rfl
  | step g k ih =>
    intro n s
    have e1 : (BProg.step g k).onResult f = .step g (fun s => (k s).onResult f) := rfl
    rw [e1, amid_step, amid_step, ih (σ n s) (n + 1) (g (σ n s))]
    simp only [List.length_cons, List.cons_append, Nat.add_assoc, Nat.add_comm 1]

end BProg

/-- What others do after the operation `n` is all that matters from then on. -/
theorem Prog.amid_late {α : Type} (σ σ' : Nat → Handle → Handle) (q : Prog α) : ∀ (k : Nat) (x : Handle), (∀ j, k ≤ j → σ' j = σ j) →
    q.amid σ' k x = q.amid σ k x := by
  induction q with
  | ret r => intro k x _; rfl
  | seek p q ih => intro k x h; simp only [amid, h k (Nat.le_refl _), ih (k + 1) _ (fun j hj => h j (by omega))]
  | seekEnd q ih => intro k x h; simp only [amid, h k (Nat.le_refl _), ih (k + 1) _ (fun j hj => h j (by omega))]
  | tell q ih => intro k x h; simp only [amid, h k (Nat.le_refl _), ih _ (k + 1) _ (fun j hj => h j (by omega))]
  | read c q ih => intro k x h; simp only [amid, h k (Nat.le_refl _), ih _ (k + 1) _ (fun j hj => h j (by omega))]

/-- One more thing that others do, before what they do otherwise. -/
def sooner {S : Type} (n : Nat) (f : S → S) (σ : Nat → S → S) : Nat → S → S := fun k => if k = n then f else σ k

theorem sooner_now {S : Type} (n : Nat) (f : S → S) (σ : Nat → S → S) : sooner n f σ n = f := by simp [sooner]

theorem sooner_late {S : Type} (n : Nat) (f : S → S) (σ : Nat → S → S) : ∀ j, n + 1 ≤ j → sooner n f σ j = σ j := by
  intro j hj
  have : j ≠ n := by omega
  simp [sooner, this]

/-- Code that uses the file only, seen as such: others do something to the file, in the same way as before if they keep its position. -/
theorem onFile_amid {α : Type} {σ : Nat → Both → Both} (p : Prog α) : ∀ (n : Nat) (s : Both),
    ∃ τ : Nat → Handle → Handle, (KeepsPosition σ → ContentOnly τ) ∧
      ((BProg.onFile p).amid σ n s).1 = (p.amid τ n s.file).1.1 ∧
      ((BProg.onFile p).amid σ n s).2.1.map Both.file = (p.amid τ n s.file).1.2 := by
  -- what others do to the file at the first access
  have hfirst : ∀ (n : Nat) (s : Both), ∃ g : Handle → Handle, (KeepsPosition σ → ∀ h, (g h).pos = h.pos) ∧ g s.file = (σ n s).file := by
    intro n s
    by_cases hk : KeepsPosition σ
    · refine ⟨fun h => { h with bytes := (σ n s).file.bytes }, fun _ h => rfl, ?_⟩
      have := hk n s
      cases h1 : s.file with
      | mk b p =>
        cases h2 : (σ n s).file with
        | mk b' p' =>
          rw [h1, h2] at this
          cases this
          rfl
    · exact ⟨fun _ => (σ n s).file, fun h => absurd h hk, rfl⟩
  have hkeep : ∀ {n : Nat} {g : Handle → Handle} {τ : Nat → Handle → Handle}, (KeepsPosition σ → ∀ h, (g h).pos = h.pos) →
      (KeepsPosition σ → ContentOnly τ) → KeepsPosition σ → ContentOnly (sooner n g τ) := by
    intro n g τ h1 h2 hk k h
    unfold sooner
    split
    · exact h1 hk h
    · exact h2 hk k h
  induction p with
  | ret r => intro n s; exact ⟨nobody, fun _ _ _ => rfl, rfl, rfl⟩
  | seek p k ih =>
    intro n s
    obtain ⟨g, g1, g2⟩ := hfirst n s
    obtain ⟨τ, t1, t2, t3⟩ := ih (n + 1) { σ n s with file := { (σ n s).file with pos := p } }
    refine ⟨sooner n g τ, hkeep g1 t1, ?_⟩
    simp only [BProg.onFile, BProg.amid_step, Prog.amid, sooner_now, g2, Prog.amid_late _ _ _ _ _ (sooner_late n g τ)]
    exact ⟨t2, by rw [List.map_cons, t3]⟩
  | seekEnd k ih =>
    intro n s
    obtain ⟨g, g1, g2⟩ := hfirst n s
    obtain ⟨τ, t1, t2, t3⟩ := ih (n + 1) { σ n s with file := { (σ n s).file with pos := (σ n s).file.bytes.length } }
    refine ⟨sooner n g τ, hkeep g1 t1, ?_⟩
    simp only [BProg.onFile, BProg.amid_step, Prog.amid, sooner_now, g2, Prog.amid_late _ _ _ _ _ (sooner_late n g τ)]
    exact ⟨t2, by rw [List.map_cons, t3]⟩
  | tell k ih =>
    intro n s
    obtain ⟨g, g1, g2⟩ := hfirst n s
    obtain ⟨τ, t1, t2, t3⟩ := ih (σ n s).file.pos (n + 1) (σ n s)
    refine ⟨sooner n g τ, hkeep g1 t1, ?_⟩
    simp only [BProg.onFile, BProg.amid_step, Prog.amid, sooner_now, g2, Prog.amid_late _ _ _ _ _ (sooner_late n g τ), id]
    exact ⟨t2, by rw [List.map_cons, t3]⟩
  | read c k ih =>
    intro n s
    obtain ⟨g, g1, g2⟩ := hfirst n s
    obtain ⟨τ, t1, t2, t3⟩ := ih (Prog.answer (σ n s).file c) (n + 1)
      { σ n s with file := { (σ n s).file with pos := (σ n s).file.pos + (Prog.answer (σ n s).file c).length } }
    refine ⟨sooner n g τ, hkeep g1 t1, ?_⟩
    simp only [BProg.onFile, BProg.amid_step, Prog.amid, sooner_now, g2, Prog.amid_late _ _ _ _ _ (sooner_late n g τ)]
    exact ⟨t2, by rw [List.map_cons, t3]⟩

/-- What others do to the state between two accesses can be done by something that `R` allows, whatever the state. -/
def Allowed (R : World → World → Prop) (σ : Nat → Both → Both) : Prop :=
  ∀ n s, ∃ g : World → World, (∀ w, R w (g w)) ∧ g s.world = (σ n s).world

theorem allowed_any (σ : Nat → Both → Both) : Allowed (fun _ _ => True) σ := fun n s => ⟨fun _ => (σ n s).world, fun _ => trivial, rfl⟩

theorem allowed_stores {σ : Nat → Both → Both} (hσ : FileAndStores σ) : Allowed StoresOnly σ := by
  intro n s
  refine ⟨fun w => { w with stores := (σ n s).world.stores }, fun _ => ⟨rfl, rfl, rfl⟩, ?_⟩
  obtain ⟨h1, h2, h3⟩ := hσ n s
  cases h4 : (σ n s).world with
  | mk a b c d =>
    rw [h4] at h1 h2 h3
    simp only at h1 h2 h3
    subst h1 h2 h3
    rfl

/-- Code that uses stores and contexts only, seen as such. -/
theorem onWorld_amid {α : Type} {R : World → World → Prop} (hR : ∀ w, R w w) {σ : Nat → Both → Both} (hσ : Allowed R σ) (p : WProg α) :
    ∀ (n : Nat) (s : Both), ∃ τ : Nat → World → World, (∀ n w, R w (τ n w)) ∧
      ((BProg.onWorld p).amid σ n s).1 = (p.amid τ n s.world).1 ∧
      ((BProg.onWorld p).amid σ n s).2.1.map Both.world = (p.amid τ n s.world).2.1 := by
  induction p with
  | ret r => intro n s; exact ⟨nobodyElse, fun _ w => hR w, rfl, rfl⟩
  | step f k ih =>
    intro n s
    obtain ⟨τ, t1, t2, t3⟩ := ih (σ n s).world (n + 1) { σ n s with world := f (σ n s).world }
    obtain ⟨g, g1, g2⟩ := hσ n s
    refine ⟨sooner n g τ, fun k w => ?_, ?_⟩
    · unfold sooner
      split
      · exact g1 w
      · exact t1 k w
    · simp only [BProg.onWorld, BProg.amid_step, WProg.amid, sooner_now, g2, WProg.amid_late _ _ _ _ _ (sooner_late n _ τ)]
      exact ⟨t2, by rw [List.map_cons, t3]⟩

/-- A signature that is given its expected hash does not use the file. -/
theorem foundGood_none {env : Env} {At : World → Prop} {w : World} {file : Option Bytes} {a : AuthData} {args : VerifyArgs} {d : Bytes}
    {chains : List (List Cert)} (hd : args.expectedHash = some d) (h : FoundGood env At w file a args chains) :
    FoundGood env At w none a args chains := by
  obtain ⟨⟨h1, h2, -, h4⟩, h5⟩ := h
  exact ⟨⟨h1, h2, (fun hn => by rw [hd] at hn; cases hn), h4⟩, h5⟩

/-- `verify` amid others. -/
theorem peVerifyB_outcome {B : Range → Bytes → Prop} {L : Nat → Prop} {S : (Nat → Handle → Handle) → Prop} {R : World → World → Prop}
    {G : Bytes → ASD → List (List Cert) → Prop} (env : Env) (cd : Codec)
    (flen fuel hashFuel storeFuel : Nat) (args : PEVerifyArgs) (hn : args.expectedHashes = none)
    (hR : ∀ w, R w w) (σ : Nat → Both → Both) (hσ : Allowed R σ)
    (hS : ∀ τ : Nat → Handle → Handle, (KeepsPosition σ → ContentOnly τ) → S τ) (s : Both) (F : List Handle) (At : World → Prop)
    (hF : ∀ m ∈ ((peVerifyB env cd flen fuel hashFuel storeFuel args).amid σ 0 s).2.1, m.file ∈ F ∧ At m.world)
    (hB : ∀ iv : Range, Post S F (do Prog.doSeek iv.start; Prog.doRead (iv.stop - iv.start))
      (OnOk fun x => (x.length : Int) = iv.stop - iv.start → B iv x))
    (hL : Post S F openLengthP (OnOk L))
    (hG : ∀ data (a : ASD), Tri At R (fun _ => True) (asdVerifyW env storeFuel (some []) a.d { args.kwargs with expectedHash := some (env.hash a.d.core.digestAlg data) })
      (Returns (fun _ => True) (G data a))) (res : List (ASD × List (List Cert)))
    (h : ((peVerifyB env cd flen fuel hashFuel storeFuel args).amid σ 0 s).1 = .ok res) :
    ∃ len secs data, L len ∧ LeftOut secs ∧ Fills B (complementRanges len 0 secs) data ∧ AskedFor cd F args.multiVerifyMode res ∧
      ∀ p ∈ res, G data p.1 p.2 := by
  unfold peVerifyB at h hF
  have e1 : ∀ {α β : Type} (p : BProg α) (k : α → BProg β), (p >>= k) = p.onResult (fun r => match r with | .ok a => k a | .error e => .ret (.error e)) :=
    fun _ _ => rfl
  rw [e1, BProg.amid_onResult] at h hF
  -- the dictionary
  have hg : ((BProg.onWorld (WProg.act (fun w => (.ok (givenHashes args w), w)))).amid σ 0 s).1 = .ok [] := by
    show Except.ok (givenHashes args (σ 0 s).world) = _
    unfold givenHashes
    rw [hn]
  rw [hg] at h hF
  generalize ((BProg.onWorld (WProg.act (fun w => (.ok (givenHashes args w), w)))).amid σ 0 s).2.2 = s1 at h hF
  generalize 0 + ((BProg.onWorld (WProg.act (fun w => (.ok (givenHashes args w), w)))).amid σ 0 s).2.1.length = n1 at h hF
  simp only at h hF
  replace hF := fun m hm => hF m (List.mem_append_right _ hm)
  rw [e1, BProg.amid_onResult] at h hF
  -- the file
  obtain ⟨τ, t1, t2, t3⟩ := onFile_amid (σ := σ) (verifyReadsP env cd flen fuel hashFuel args []) n1 s1
  have hp := verifyReadsP_post hB hL env cd flen fuel hashFuel args τ (hS τ t1) n1 s1.file (fun m hm => by
    rw [← t3] at hm
    obtain ⟨b, hb, rfl⟩ := List.mem_map.1 hm
    exact (hF b (List.mem_append_left _ hb)).1)
  rw [← t2] at hp
  generalize (BProg.onFile (verifyReadsP env cd flen fuel hashFuel args [])).amid σ n1 s1 = x at hp h hF
  obtain ⟨r, ms, s2⟩ := x
  simp only at hp h hF
  cases r with
  | error e => cases h
  | ok v =>
    obtain ⟨sel, more⟩ := v
    obtain ⟨p1, ⟨sds, p2, p3, p4, -⟩, len, secs, data, p5, p6, p7, p8⟩ := hp _ rfl
    simp only at h hF p1 p4 p8
    -- the stores
    generalize n1 + ms.length = n2 at h hF
    generalize hW : (do
      WProg.act (match args.expectedHashes with
        | none => pure ()
        | some i => M.setDict i (Dict.update [] more))
      verifyLoopW (verifyOneW env storeFuel [] (Dict.update [] more) args.kwargs) args.multiVerifyMode sel [] none : WProg _) = W at h hF
    obtain ⟨τ', u1, u2, u3⟩ := onWorld_amid hR hσ W n2 s2
    have hT : Tri At R (fun _ => True) W (Returns (fun _ => True) (fun res =>
        (Strict args.multiVerifyMode → res.map Prod.fst = sel) ∧ (¬ Strict args.multiVerifyMode → ∃ p, res = [p] ∧ p.1 ∈ sel) ∧
        ∀ p ∈ res, G data p.1 p.2)) := by
      rw [← hW]
      refine Tri.seq (P := fun _ => True) (Tri.look (fun _ _ _ _ => trivial) (fun _ _ _ => ⟨trivial, fun _ _ => trivial⟩)) (fun _ _ => ?_)
      refine (verifyLoop_tri (G := G data) args.multiVerifyMode sel [] none (fun a ha => ?_)
        (fun p hp => by cases hp)).weaken (fun r v hr => ⟨trivial, fun res h => ?_⟩)
      · unfold verifyOneW
        rw [p8 a ha]
        exact hG data a
      · obtain ⟨g1, g2, g3⟩ := hr.2 res h
        refine ⟨g1, fun hs => ?_, g3⟩
        rcases g2 hs with ⟨g4, -⟩ | g4
        · exact absurd g4 p1
        · exact g4
    rw [u2] at h
    obtain ⟨g1, g2, g3⟩ := (hT τ' u1 n2 s2.world trivial (fun m hm => by
      rw [← u3] at hm
      obtain ⟨b, hb, rfl⟩ := List.mem_map.1 hm
      exact (hF b (List.mem_append_right _ hb)).2)).2 res h
    exact ⟨len, secs, data, p5, p6, p7, ⟨sds, sel, p2, p3, p4, g1, g2⟩, g3⟩

/-- What a signature has been found to be when the call makes its own contexts. -/
theorem found_private (env : Env) (At : World → Prop) (storeFuel : Nat) (args : PEVerifyArgs) (h1 : args.kwargs.context = none)
    (h2 : args.kwargs.csContext = none) (w : World) (data : Bytes) (a : ASD) :
    Tri At StoresOnly (fun _ => True) (asdVerifyW env storeFuel (some []) a.d { args.kwargs with expectedHash := some (env.hash a.d.core.digestAlg data) })
      (Returns (fun _ => True) (FoundGood env At w none a.d { args.kwargs with expectedHash := some (env.hash a.d.core.digestAlg data) })) :=
  (foundGood_of (args := { args.kwargs with expectedHash := some (env.hash a.d.core.digestAlg data) }) h1 h2 storeFuel w).weaken
    (fun _ _ hr => ⟨trivial, fun c hc => foundGood_none rfl (hr.2 c hc)⟩)

/-- What a signature has been found to be in any case. -/
theorem found_any (env : Env) (At : World → Prop) (storeFuel : Nat) (args : PEVerifyArgs) (data : Bytes) (a : ASD) :
    Tri At (fun _ _ => True) (fun _ => True) (asdVerifyW env storeFuel (some []) a.d { args.kwargs with expectedHash := some (env.hash a.d.core.digestAlg data) })
      (Returns (fun _ => True) (fun chains => DigestsAgree env none a.d (some (env.hash a.d.core.digestAlg data)) ∧
        (∀ k, a.d.counter = some k → args.kwargs.countersignatureMode = "strict" → ∃ i, (∀ j, args.kwargs.csContext = some j → i = j) ∧
          CounterOf env a.d.signer.encryptedDigest (fun s chain => ∃ c, ChainThen env At i s chain c) k) ∧
        chains ≠ [] ∧ ∃ cid, (∀ j, args.kwargs.context = some j → cid = j) ∧ ∀ chain ∈ chains, ∃ c, ChainThen env At cid a.d.signer chain c)) := by
  refine (asdVerify_any env storeFuel (some []) a.d { args.kwargs with expectedHash := some (env.hash a.d.core.digestAlg data) } At).weaken
    (fun _ _ hr => ⟨trivial, fun c hc => ?_⟩)
  obtain ⟨g1, g2⟩ := hr.2 c hc
  rw [digestsMatch_iff] at g1
  exact ⟨⟨g1.algorithms, g1.given, (fun hn => by cases hn), g1.content⟩, g2⟩

/-! ### With nobody else -/

theorem onFile_alone {α : Type} (p : Prog α) : ∀ (n : Nat) (s : Both),
    ((BProg.onFile p).amid noOthers n s).1 = (p.amid nobody n s.file).1.1 ∧
    ((BProg.onFile p).amid noOthers n s).2.2.world = s.world := by
  induction p with
  | ret r => intro n s; exact ⟨rfl, rfl⟩
  | seek p k ih => intro n s; exact ih (n + 1) _
  | seekEnd k ih => intro n s; exact ih (n + 1) _
  | tell k ih => intro n s; exact ih _ (n + 1) _
  | read c k ih => intro n s; exact ih _ (n + 1) _

theorem onWorld_alone {α : Type} (p : WProg α) : ∀ (n : Nat) (s : Both),
    ((BProg.onWorld p).amid noOthers n s).1 = (p.amid nobodyElse n s.world).1 ∧
    ((BProg.onWorld p).amid noOthers n s).2.2.world = (p.amid nobodyElse n s.world).2.2 := by
  induction p with
  | ret r => intro n s; exact ⟨rfl, rfl⟩
  | step f k ih => intro n s; exact ih _ (n + 1) _

theorem peVerifyB_alone (env : Env) (cd : Codec) (fuel storeFuel : Nat) (args : PEVerifyArgs) (f : Handle) (w : World)
    (hf : (iterSignedDatas cd f.bytes true args.ignoreParseErrors).1.length < fuel) (hw : Bounded storeFuel w) :
    ((peVerifyB env cd f.bytes.length fuel (f.bytes.length + 10) storeFuel args).amid noOthers 0 ⟨f, w⟩).1 = (peVerify env cd f.bytes args w).1 ∧
    ((peVerifyB env cd f.bytes.length fuel (f.bytes.length + 10) storeFuel args).amid noOthers 0 ⟨f, w⟩).2.2.world =
      (peVerify env cd f.bytes args w).2 := by
  rw [← peVerifyAmid_nobody env cd fuel args f w hf]
  have hA : (peVerifyAmid env cd f.bytes.length fuel (f.bytes.length + 10) args nobody f w).1 =
      verifyRead env args (givenHashes args w)
        ((verifyReadsP env cd f.bytes.length fuel (f.bytes.length + 10) args (givenHashes args w)).amid nobody 0 f).1.1 w := rfl
  rw [hA]
  unfold peVerifyB
  have e1 : ∀ {α β : Type} (p : BProg α) (k : α → BProg β), (p >>= k) = p.onResult (fun r => match r with | .ok a => k a | .error e => .ret (.error e)) :=
    fun _ _ => rfl
  rw [e1, BProg.amid_onResult]
  have hg : ((BProg.onWorld (WProg.act (fun w => (.ok (givenHashes args w), w)))).amid noOthers 0 ⟨f, w⟩) =
      (.ok (givenHashes args w), [⟨f, w⟩], ⟨f, w⟩) := rfl
  rw [hg]
  simp only [List.length_singleton, Nat.zero_add]
  rw [e1, BProg.amid_onResult]
  obtain ⟨a1, a2⟩ := onFile_alone (verifyReadsP env cd f.bytes.length fuel (f.bytes.length + 10) args (givenHashes args w)) 1 ⟨f, w⟩
  have a3 : ((verifyReadsP env cd f.bytes.length fuel (f.bytes.length + 10) args (givenHashes args w)).amid nobody 1 f).1.1 =
      ((verifyReadsP env cd f.bytes.length fuel (f.bytes.length + 10) args (givenHashes args w)).amid nobody 0 f).1.1 :=
    congrArg (fun x => x.1) (amid_nobody (verifyReadsP env cd f.bytes.length fuel (f.bytes.length + 10) args (givenHashes args w)) 1 0 f)
  simp only at a1 a2
  rw [a3] at a1
  generalize (BProg.onFile (verifyReadsP env cd f.bytes.length fuel (f.bytes.length + 10) args (givenHashes args w))).amid noOthers 1 ⟨f, w⟩ = x at a1 a2 ⊢
  obtain ⟨r, ms, s2⟩ := x
  simp only at a1 a2 ⊢
  rw [← a1]
  cases r with
  | error e => exact ⟨rfl, a2⟩
  | ok v =>
    obtain ⟨sel, more⟩ := v
    simp only
    generalize 1 + ms.length = n2
    generalize hW : (do
      WProg.act (match args.expectedHashes with
        | none => pure ()
        | some i => M.setDict i ((givenHashes args w).update more))
      verifyLoopW (verifyOneW env storeFuel [] ((givenHashes args w).update more) args.kwargs) args.multiVerifyMode sel [] none : WProg _) = W
    obtain ⟨b1, b2⟩ := onWorld_alone W n2 s2
    rw [a2] at b1 b2
    rw [b1, b2]
    have hN := WProg.amid_nobody W n2 w
    suffices hs : W.alone w = verifyRead env args (givenHashes args w) (.ok (sel, more)) w by
      rw [hs] at hN
      rw [← hN]
      exact ⟨rfl, rfl⟩
    rw [← hW]
    have hl : ∀ v, v.stores = w.stores →
        (verifyLoopW (verifyOneW env storeFuel [] ((givenHashes args w).update more) args.kwargs) args.multiVerifyMode sel [] none).alone v =
        verifyLoop (verifyOne env [] ((givenHashes args w).update more) args.kwargs) args.multiVerifyMode sel [] none v := fun v hv =>
      verifyLoop_alone (fun a w hw => verifyOne_alone env [] _ args.kwargs a w hw)
        (fun a w hw => verifyOne_bounded env [] _ args.kwargs a w hw) _ _ _ _ _ (hw.same hv)
    unfold verifyRead
    cases args.expectedHashes with
    | none => exact hl w rfl
    | some i => exact hl _ rfl

/-! ### Threads -/

namespace BProg
variable {α β : Type}

/-- Each access of the code preserves `I`. -/
def Keeps (I : Both → Prop) : BProg α → Prop
  | .ret _ => True
  | .step f k => ∀ s, I s → I (f s) ∧ (k s).Keeps I

theorem Keeps.onResult {I : Both → Prop} {p : BProg α} {f : Except Exc α → BProg β} (hp : p.Keeps I) (hf : ∀ r, (f r).Keeps I) :
    (p.onResult f).Keeps I := by
  induction p with
  | ret r => exact hf r
  | step g k ih => exact fun s hs => ⟨(hp s hs).1, ih s (hp s hs).2⟩

theorem Keeps.bind {I : Both → Prop} {p : BProg α} {k : α → BProg β} (hp : p.Keeps I) (hk : ∀ a, (k a).Keeps I) : (p >>= k).Keeps I :=
  .onResult hp (fun r => by cases r with | ok a => exact hk a | error e => trivial)

/-- Code that uses the file only leaves the content and everything else alone. -/
theorem Keeps.onFile {I : Both → Prop} (hI : ∀ s s' : Both, s'.file.bytes = s.file.bytes → s'.world = s.world → I s → I s') (p : Prog α) :
    (BProg.onFile p).Keeps I := by
  induction p with
  | ret r => trivial
  | seek p k ih => exact fun s hs => ⟨hI s _ rfl rfl hs, ih⟩
  | seekEnd k ih => exact fun s hs => ⟨hI s _ rfl rfl hs, ih⟩
  | tell k ih => exact fun s hs => ⟨hs, ih _⟩
  | read c k ih => exact fun s hs => ⟨hI s _ rfl rfl hs, ih _⟩

/-- Code that uses stores and contexts only leaves the file alone. -/
theorem Keeps.onWorld {F : Handle → Prop} {J : World → Prop} {p : WProg α} (hp : p.Keeps J) :
    (BProg.onWorld p).Keeps (fun s => F s.file ∧ J s.world) := by
  induction p with
  | ret r => trivial
  | step f k ih => exact fun s hs => ⟨⟨hs.1, (hp s.world hs.2).1⟩, ih s.world (hp s.world hs.2).2⟩

theorem Keeps.turn {I : Both → Prop} {p : BProg α} {s : Both} (hp : p.Keeps I) (hs : I s) : I (p.turn s).2 ∧ (p.turn s).1.Keeps I := by
  cases p with
  | ret r => exact ⟨hs, trivial⟩
  | step f k => exact hp s hs

/-- What happens later does not depend on what others do earlier. -/
theorem amid_late (p : BProg α) : ∀ (n : Nat) (s : Both) (σ τ : Nat → Both → Both), (∀ k, n ≤ k → σ k = τ k) → p.amid σ n s = p.amid τ n s := by
  induction p with
  | ret r => intro n s σ τ _; rfl
  | step f k ih =>
    intro n s σ τ h
    rw [amid_step, amid_step, h n (Nat.le_refl n), ih (τ n s) (n + 1) (f (τ n s)) σ τ (fun j hj => h j (by omega))]

/-- What a thread does when others take their turns is a run amid others that use the file and the stores. -/
theorem turns_amid (i : Nat) (F : Handle → Prop) (S : (Nat → Store) → Prop) : ∀ (l : List Nat) (ps : Nat → BProg α) (file : Handle)
    (stores : Nat → Store) (priv : Nat → World) (n : Nat) (r : Except Exc α), (turns l ps file stores priv).1 i = .ret r → F file → S stores →
    (∀ j, (ps j).Keeps (fun s => F s.file ∧ S s.world.stores)) → ∀ x : Both, StoresOnly (priv i) x.world →
    ∃ σ, FileAndStores σ ∧ ((ps i).amid σ n x).1 = r ∧ ∀ m ∈ ((ps i).amid σ n x).2.1, F m.file ∧ S m.world.stores := by
  intro l
  induction l with
  | nil =>
    intro ps file stores priv n r hr _ _ _ x _
    refine ⟨noOthers, fun _ _ => ⟨rfl, rfl, rfl⟩, ?_⟩
    rw [show ps i = .ret r from hr]
    exact ⟨rfl, fun m hm => by cases hm⟩
  | cons j l ih =>
    intro ps file stores priv n r hr hF hS hK x hx
    unfold turns at hr
    cases ht : (ps j).turn ⟨file, { priv j with stores := stores }⟩ with
    | mk p s' =>
      rw [ht] at hr
      simp only at hr
      have hk := (hK j).turn (s := ⟨file, { priv j with stores := stores }⟩) ⟨hF, hS⟩
      rw [ht] at hk
      have hK' : ∀ k, ((fun k => if k = j then p else ps k) k).Keeps (fun s => F s.file ∧ S s.world.stores) := by
        intro k
        by_cases hkj : k = j
        · simp only [hkj, if_true]; exact hk.2
        · simp only [hkj, if_false]; exact hK k
      by_cases hij : i = j
      · subst hij
        obtain ⟨σ, s1, s2, s3⟩ := ih _ _ _ _ (n + 1) r hr hk.1.1 hk.1.2 hK' s' (by simp only [if_true]; exact ⟨rfl, rfl, rfl⟩)
        simp only [if_true] at s2 s3
        cases hp : ps i with
        | ret r' =>
          rw [hp] at ht
          cases ht
          refine ⟨σ, s1, s2, fun m hm => by cases hm⟩
        | step f k =>
          rw [hp] at ht
          cases ht
          refine ⟨sooner n (fun y => ⟨file, { y.world with stores := stores }⟩) σ, fun m y => ?_, ?_⟩
          · unfold sooner
            split
            · exact ⟨rfl, rfl, rfl⟩
            · exact s1 m y
          · have hy : ({ x.world with stores := stores } : World) = { priv i with stores := stores } := by
              obtain ⟨h1, h2, h3⟩ := hx
              cases hxw : x.world with
              | mk a b c d =>
                rw [hxw] at h1 h2 h3
                simp only at h1 h2 h3
                rw [h1, h2, h3]
            rw [amid_step, sooner_now]
            simp only [hy]
            rw [amid_late _ (n + 1) _ _ σ (sooner_late n _ σ)]
            refine ⟨s2, fun m hm => ?_⟩
            rcases List.mem_cons.1 hm with rfl | hm
            · exact ⟨hF, hS⟩
            · exact s3 m hm
      · have := ih _ _ _ _ n r hr hk.1.1 hk.1.2 hK' x (by simp only [hij, if_false]; exact hx)
        simp only [hij, if_false] at this
        exact this

end BProg

theorem peVerifyB_keeps {I : World → Prop} (h : KeepInv I) (b : Bytes) (env : Env) (cd : Codec) (flen fuel hashFuel storeFuel : Nat) (args : PEVerifyArgs) :
    (peVerifyB env cd flen fuel hashFuel storeFuel args).Keeps (fun s => s.file.bytes = b ∧ I s.world) := by
  unfold peVerifyB
  refine .bind (.onWorld (F := fun f => f.bytes = b) (WProg.Keeps.act (fun w hw => hw))) (fun given => ?_)
  refine .bind (.onFile (fun s s' h1 h2 hs => ⟨h1.trans hs.1, h2 ▸ hs.2⟩) _) (fun x => ?_)
  refine .onWorld (F := fun f => f.bytes = b) (.bind (.act (fun w hw => ?_)) (fun _ => verifyLoop_keeps (fun a => ?_) _ _ _ _))
  · cases args.expectedHashes with
    | none => exact hw
    | some i => exact h.same w _ rfl hw
  · unfold verifyOneW
    split
    · trivial
    · exact asdVerify_keeps h env storeFuel _ _ _

end Signify
