/-
C01–C07: properties of `signify.fingerprinter.Fingerprinter`.
`H name data` is the digest of `data` under the hash called `name` (any function).
-/
import Verif.Proofs.FingerprinterTrace

set_option autoImplicit false

namespace Signify.Props
open Spec

/-- Exhibits a concrete run: `Ends` from a computed one. -/
theorem ends_of {H fp out fp'} (fuel : Nat) (h : FP.hashes H fuel fp = some (out, fp')) : Ends H fp out fp' := ⟨fuel, h⟩

/-- `hashes()` is deterministic: it ends in at most one way. -/
theorem ends_unique {H fp o1 s1 o2 s2} (h1 : Ends H fp o1 s1) (h2 : Ends H fp o2 s2) : o1 = o2 ∧ s1 = s2 := by
  obtain ⟨n, h1⟩ := h1
  obtain ⟨m, h2⟩ := h2
  have a := hashes_mono h1 (Nat.le_max_left n m)
  have b := hashes_mono h2 (Nat.le_max_right n m)
  rw [a] at b
  injection b with b
  injection b with b1 b2
  exact ⟨b1, b2⟩

/-- Two registrations, unsorted, overlapping and empty ranges, block size 2. -/
def exRegs : List Reg := [⟨["md5", "sha1"], [⟨3, 6⟩, ⟨0, 4⟩, ⟨5, 5⟩], "a"⟩, ⟨["sha1"], [], "b"⟩]

instance (file : Bytes) (r : Range) : Decidable (WF file r) := inferInstanceAs (Decidable (_ ∧ _))
instance (rs : List Range) : Decidable (Ascending rs) := inferInstanceAs (Decidable (List.Pairwise _ _))

/-- **C01**.  For every file, every positive block size and any registrations whose ranges lie inside the file, on a
fingerprinter without pending registrations (in particular a new one), `hashes()` returns, and what it reports are exactly
the digests of the concatenated requested ranges. -/
theorem C01_digests_exact (H : String → Bytes → Bytes) (fp : FP) (hempty : fp.fingers = []) (hbs : 1 ≤ fp.blockSize)
    (gs : List Reg) (hwf : ∀ g ∈ gs, ∀ r ∈ g.ranges, WF fp.file r) :
    ∃ res fp', Ends H (registerAll fp gs) (.ok res) fp' ∧ Reports H fp.file gs res := by
  have ⟨h1, h2, h3, h4⟩ := registerAll_empty hempty gs
  have hok : HeapOK (registerAll fp gs) := by
    apply heapOK_of_view h2
    rw [h1, h3]
    intro a ha
    obtain ⟨g, hg, rfl⟩ := List.mem_map.1 ha
    exact requested_wf (hwf g hg)
  obtain ⟨fp', h5, _⟩ := hashes_good H (registerAll fp gs) _ hok (by rw [h4]; omega) (Nat.lt_succ_self _)
  refine ⟨_, fp', ⟨_, h5⟩, ?_⟩
  have := reports_results H fp.file gs
  rw [← h1] at this
  simpa [resultsOf, view, aTarget, List.map_map, Function.comp_def, h3] using this

example := C01_digests_exact (fun _ x => x) (FP.new [1,2,3,4,5,6] 2) rfl (by decide) exRegs (by decide)

/-- **C01**, second sentence: the digests for one registration do not depend on the block size nor on the other
registrations (`gs₁`, `gs₂` arbitrary; `g` the last one with its description in both). -/
theorem C01_independent (H : String → Bytes → Bytes) (file : Bytes) (bs₁ bs₂ : Int) (h₁ : 1 ≤ bs₁) (h₂ : 1 ≤ bs₂)
    (gs₁ gs₂ : List Reg) (hwf₁ : ∀ g ∈ gs₁, ∀ r ∈ g.ranges, WF file r) (hwf₂ : ∀ g ∈ gs₂, ∀ r ∈ g.ranges, WF file r)
    (g : Reg) (hl₁ : lastFor gs₁ g.description = some g) (hl₂ : lastFor gs₂ g.description = some g) (n : String)
    (res₁ res₂ : Hashes) (s₁ s₂ : FP) (e₁ : Ends H (registerAll (FP.new file bs₁) gs₁) (.ok res₁) s₁)
    (e₂ : Ends H (registerAll (FP.new file bs₂) gs₂) (.ok res₂) s₂) :
    (res₁.get? g.description).bind (·.get? n) = (res₂.get? g.description).bind (·.get? n) := by
  obtain ⟨r1, s1, a1, b1⟩ := C01_digests_exact H (FP.new file bs₁) rfl h₁ gs₁ hwf₁
  obtain ⟨r2, s2, a2, b2⟩ := C01_digests_exact H (FP.new file bs₂) rfl h₂ gs₂ hwf₂
  have c1 := (ends_unique e₁ a1).1
  have c2 := (ends_unique e₂ a2).1
  injection c1 with c1
  injection c2 with c2
  subst c1; subst c2
  obtain ⟨d1, e1, f1⟩ := b1.some _ g hl₁
  obtain ⟨d2, e2, f2⟩ := b2.some _ g hl₂
  rw [e1, e2]
  simp only [Option.bind_some, f1, f2]
  rfl

/-- Registered alone and with others, with different block sizes. -/
example := C01_independent (fun _ x => x) [1,2,3,4,5,6] 2 5 (by decide) (by decide) exRegs [⟨["sha1"], [], "b"⟩] (by decide) (by decide)
  ⟨["sha1"], [], "b"⟩ rfl rfl "sha1" _ _ _ _ (ends_of 20 rfl) (ends_of 20 rfl)

example : ((FP.new [1,2,3,4,5,6] 2).fingers = []) ∧ (1 : Int) ≤ (FP.new [1,2,3,4,5,6] 2).blockSize ∧
    (∀ g ∈ exRegs, ∀ r ∈ g.ranges, WF [1,2,3,4,5,6] r) ∧
    ((registerAll (FP.new [1,2,3,4,5,6] 2) exRegs).hashes (fun _ x => x) 20).map Prod.fst =
      some (.ok [("a", [("md5", [4,5,6,1,2,3,4]), ("sha1", [4,5,6,1,2,3,4])]), ("b", [("sha1", [1,2,3,4,5,6])])]) := by
  refine ⟨rfl, by decide, ?_, rfl⟩
  intro g hg r hr
  simp only [exRegs, List.mem_cons, List.not_mem_nil, or_false] at hg
  rcases hg with rfl | rfl
  · simp only [List.mem_cons, List.not_mem_nil, or_false] at hr
    rcases hr with rfl | rfl | rfl <;> (unfold WF; decide)
  · simp at hr

/-- **C02**.  For arbitrary integer ranges and any block size: if `hashes()` returns then every requested range is well
formed and the report is exact. -/
theorem C02_no_digest_for_ill_formed (H : String → Bytes → Bytes) (fp : FP) (hempty : fp.fingers = [])
    (gs : List Reg) (res : Hashes) (fp' : FP) (h : Ends H (registerAll fp gs) (.ok res) fp') :
    (∀ g ∈ gs, ∀ r ∈ g.ranges, WF fp.file r) ∧ Reports H fp.file gs res := by
  obtain ⟨n, hn⟩ := h
  have ⟨h1, h2, h3, h4⟩ := registerAll_empty hempty gs
  have hv := hashes_view H n _ h2
  rw [hn, h1, h3] at hv
  unfold aHashes at hv
  cases ha : aLoop fp.file (registerAll fp gs).blockSize n (gs.map (regView fp.file)) with
  | none => rw [ha] at hv; cases hv
  | some x =>
    obtain ⟨v, e⟩ := x
    rw [ha] at hv
    cases e with
    | some e => cases hv
    | none =>
      simp only [Option.map_some, Option.some.injEq] at hv
      have ⟨i1, i2⟩ := aLoop_sound _ _ _ _ _ ha
      refine ⟨?_, ?_⟩
      · intro g hg r hr
        refine i1 (regView fp.file g) (List.mem_map_of_mem hg) r ?_
        simp only [regView, requested]
        rw [if_neg (by intro hc; rw [hc] at hr; cases hr)]
        exact hr
      · subst i2
        rw [aCollect_ok] at hv
        · injection hv with hv
          rw [hv]
          exact reports_results H fp.file gs
        · intro a hm
          obtain ⟨b, _, rfl⟩ := List.mem_map.1 hm
          rfl

example := C02_no_digest_for_ill_formed (fun _ x => x) (FP.new [1,2,3,4,5,6] 2) rfl exRegs _ _ (ends_of 20 rfl)

/-- **C02**, contrapositive: a single ill-formed range anywhere prevents any digest from being reported. -/
theorem C02_ill_formed_never_returns (H : String → Bytes → Bytes) (fp : FP) (hempty : fp.fingers = []) (gs : List Reg)
    (g : Reg) (hg : g ∈ gs) (r : Range) (hr : r ∈ g.ranges) (hbad : ¬ WF fp.file r) (res : Hashes) (fp' : FP) :
    ¬ Ends H (registerAll fp gs) (.ok res) fp' :=
  fun h => hbad ((C02_no_digest_for_ill_formed H fp hempty gs res fp' h).1 g hg r hr)

example := C02_ill_formed_never_returns (fun _ x => x) (FP.new [1,2,3]) rfl [⟨["md5"], [⟨0, 1⟩, ⟨1, 4⟩], "a"⟩] _ (List.mem_singleton.2 rfl) ⟨1, 4⟩ (by decide)
  (by decide)

/-- "Never yields a digest" cannot be strengthened to "raises": a reversed range whose end is the start of another
registration's range makes `hashes()` run forever (after any number of iterations it is still running). -/
theorem C02_reversed_range_may_hang (H : String → Bytes → Bytes) (fuel : Nat) :
    (registerAll (FP.new [1, 2, 3]) [⟨["md5"], [⟨2, 1⟩], "a"⟩, ⟨["md5"], [⟨1, 3⟩], "b"⟩]).hashes H fuel = none := by
  have ⟨h1, h2, h3, h4⟩ := registerAll_empty (fp := FP.new [1, 2, 3]) rfl
    [⟨["md5"], [⟨2, 1⟩], "a"⟩, ⟨["md5"], [⟨1, 3⟩], "b"⟩]
  have hv := hashes_view H fuel _ h2
  rw [h1, h3, h4] at hv
  have hstep : aStep (FP.new [1, 2, 3]).file (FP.new [1, 2, 3]).blockSize
      ([⟨["md5"], [⟨2, 1⟩], "a"⟩, ⟨["md5"], [⟨1, 3⟩], "b"⟩].map (regView (FP.new [1, 2, 3]).file)) =
      .next ⟨1, 1⟩ ([⟨["md5"], [⟨2, 1⟩], "a"⟩, ⟨["md5"], [⟨1, 3⟩], "b"⟩].map (regView (FP.new [1, 2, 3]).file)) := rfl
  have hl : ∀ n, aLoop (FP.new [1, 2, 3]).file (FP.new [1, 2, 3]).blockSize n
      ([⟨["md5"], [⟨2, 1⟩], "a"⟩, ⟨["md5"], [⟨1, 3⟩], "b"⟩].map (regView (FP.new [1, 2, 3]).file)) = none := by
    intro n
    induction n with
    | zero => rfl
    | succ n ih => unfold aLoop; rw [hstep]; exact ih
  unfold aHashes at hv
  rw [hl] at hv
  simpa using hv

/- Reversed, negative and out-of-file ranges are ill formed; the last two raise. -/
example : ¬ WF [1,2,3] ⟨2, 1⟩ ∧ ¬ WF [1,2,3] ⟨-1, 2⟩ ∧ ¬ WF [1,2,3] ⟨1, 4⟩ ∧
    ((registerAll (FP.new [1,2,3]) [⟨["md5"], [⟨1, 4⟩], "a"⟩]).hashes (fun _ x => x) 5).map Prod.fst =
      some (.error ⟨.runtimeError, "Short read on file."⟩) ∧
    ((registerAll (FP.new [1,2,3]) [⟨["md5"], [⟨-1, 2⟩], "a"⟩]).hashes (fun _ x => x) 5).map Prod.fst =
      some (.error ⟨.valueError, "negative seek"⟩) := by
  refine ⟨by unfold WF; decide, by unfold WF; decide, by unfold WF; decide, rfl, rfl⟩

/-- **C03**, termination without exception: for every positive block size and well-formed ranges there is a number of loop
iterations after which `hashes()` has returned normally (and then the outcome does not change with more fuel). -/
theorem C03_terminates (H : String → Bytes → Bytes) (fp : FP) (hempty : fp.fingers = []) (hbs : 1 ≤ fp.blockSize)
    (gs : List Reg) (hwf : ∀ g ∈ gs, ∀ r ∈ g.ranges, WF fp.file r) :
    ∃ n res fp', ∀ m, n ≤ m → (registerAll fp gs).hashes H m = some (.ok res, fp') := by
  obtain ⟨res, fp', ⟨n, hn⟩, _⟩ := C01_digests_exact H fp hempty hbs gs hwf
  exact ⟨n, res, fp', fun m hm => hashes_mono hn hm⟩

example := C03_terminates (fun _ x => x) (FP.new [1,2,3,4,5,6] 2) rfl (by decide) exRegs (by decide)

/-- **C03**, unreachable internal errors: whatever the ranges and the block size, the only exceptions `hashes()` can raise
over unshared lists are a short read and the negative seek; "Cutting across fingers", "Block …" and "Non-empty range
remains" are unreachable. -/
theorem C03_internal_errors_unreachable (H : String → Bytes → Bytes) (fp : FP) (hempty : fp.fingers = []) (gs : List Reg)
    (e : Exc) (fp' : FP) (h : Ends H (registerAll fp gs) (.error e) fp') :
    e = ⟨.runtimeError, "Short read on file."⟩ ∨ e = ⟨.valueError, "negative seek"⟩ := by
  obtain ⟨n, hn⟩ := h
  have ⟨h1, h2, h3, h4⟩ := registerAll_empty hempty gs
  have hv := hashes_view H n _ h2
  rw [hn, h1, h3] at hv
  unfold aHashes at hv
  cases ha : aLoop fp.file (registerAll fp gs).blockSize n (gs.map (regView fp.file)) with
  | none => rw [ha] at hv; cases hv
  | some x =>
    obtain ⟨v, e'⟩ := x
    rw [ha] at hv
    cases e' with
    | some e' =>
      simp only [Option.map_some, Option.some.injEq, Except.error.injEq] at hv
      subst hv
      exact aLoop_errors _ _ _ _ _ _ ha
    | none =>
      have ⟨_, i2⟩ := aLoop_sound _ _ _ _ _ ha
      subst i2
      simp only [Option.map_some, Option.some.injEq] at hv
      rw [aCollect_ok] at hv
      · cases hv
      · intro a hm
        obtain ⟨b, _, rfl⟩ := List.mem_map.1 hm
        rfl

example := C03_internal_errors_unreachable (fun _ x => x) (FP.new [1,2,3]) rfl [⟨["md5"], [⟨1, 4⟩], "a"⟩] _ _ (ends_of 5 rfl)

/-- **C03**, non-termination: with `block_size = 0` and some non-empty range, `hashes()` is still running after any number
of iterations. -/
theorem C03_block_size_zero_diverges (H : String → Bytes → Bytes) (fp : FP) (hempty : fp.fingers = [])
    (hbs : fp.blockSize = 0) (gs : List Reg) (hwf : ∀ g ∈ gs, ∀ r ∈ g.ranges, WF fp.file r)
    (hne : ∃ g ∈ gs, ∃ r ∈ requested fp.file g.ranges, r.start < r.stop) (fuel : Nat) :
    (registerAll fp gs).hashes H fuel = none := by
  have ⟨h1, h2, h3, h4⟩ := registerAll_empty hempty gs
  have hv := hashes_view H fuel _ h2
  rw [h1, h3, h4, hbs] at hv
  unfold aHashes at hv
  rw [aLoop_zero] at hv
  · simpa using hv
  · intro a ha
    obtain ⟨g, hg, rfl⟩ := List.mem_map.1 ha
    exact requested_wf (hwf g hg)
  · obtain ⟨g, hg, r, hr, hlt⟩ := hne
    exact ⟨_, List.mem_map_of_mem hg, r, hr, hlt⟩

example := C03_block_size_zero_diverges (fun _ x => x) (FP.new [1,2,3,4,5,6] 0) rfl rfl exRegs (by decide)
  ⟨_, List.mem_cons_self, ⟨3, 6⟩, by decide, by decide⟩

example : ∃ g ∈ exRegs, ∃ r ∈ requested [1,2,3,4,5,6] g.ranges, r.start < r.stop :=
  ⟨_, List.mem_cons_self, ⟨3, 6⟩, by decide, by decide⟩

example : ((registerAll (FP.new [1,2,3,4,5,6] 0) exRegs).hashes (fun _ x => x) 100).isNone := by decide

/-- **C04**.  After `hashes()` has returned, the object has no registrations left, and any further registrations followed
by `hashes()` have exactly the outcomes they would have on a new `Fingerprinter` over the same file. -/
theorem C04_reusable (H : String → Bytes → Bytes) (fp : FP) (res : Hashes) (fp' : FP)
    (h : Ends H fp (.ok res) fp') :
    fp'.fingers = [] ∧ fp'.file = fp.file ∧ fp'.blockSize = fp.blockSize ∧
    ∀ (gs : List Reg) (out : Except Exc Hashes),
      (∃ s, Ends H (registerAll fp' gs) out s) ↔ (∃ s, Ends H (registerAll (FP.new fp.file fp.blockSize) gs) out s) := by
  obtain ⟨n, hn⟩ := h
  have hloopfile : ∀ (n : Nat) (a b : FP) (e : Option Exc), a.loop n = some (b, e) →
      b.file = a.file ∧ b.blockSize = a.blockSize := by
    intro n
    induction n with
    | zero => intro a b e h; cases h
    | succ n ih =>
      intro a b e h
      unfold FP.loop at h
      have hstep : ∀ x y, (a.step = .raised x y ∨ ∃ iv, a.step = .next iv y) →
          y.file = a.file ∧ y.blockSize = a.blockSize := by
        intro x y hxy
        unfold FP.step at hxy
        split at hxy
        · rcases hxy with h | ⟨_, h⟩ <;> cases h
        · split at hxy
          · rcases hxy with h | ⟨_, h⟩
            · injection h with _ h; subst h; exact ⟨rfl, rfl⟩
            · cases h
          · split at hxy
            · rcases hxy with h | ⟨_, h⟩
              · injection h with _ h; subst h; exact ⟨rfl, rfl⟩
              · cases h
            · split at hxy
              · rcases hxy with h | ⟨_, h⟩
                · injection h with _ h; subst h; exact ⟨rfl, rfl⟩
                · cases h
              · split at hxy
                · rcases hxy with h | ⟨_, h⟩
                  · injection h with _ h; subst h; exact ⟨rfl, rfl⟩
                  · cases h
                · rcases hxy with h | ⟨_, h⟩
                  · cases h
                  · injection h with _ h; subst h; exact ⟨rfl, rfl⟩
      cases hs : a.step with
      | done => rw [hs] at h; injection h with h; injection h with h _; subst h; exact ⟨rfl, rfl⟩
      | raised x y =>
        rw [hs] at h; injection h with h; injection h with h _; subst h
        exact hstep x y (Or.inl hs)
      | next iv y =>
        rw [hs] at h
        have h1 := hstep ⟨.exception, ""⟩ y (Or.inr ⟨iv, hs⟩)
        have h2 := ih y b e h
        exact ⟨h2.1.trans h1.1, h2.2.trans h1.2⟩
  have key : fp'.fingers = [] ∧ fp'.file = fp.file ∧ fp'.blockSize = fp.blockSize := by
    unfold FP.hashes at hn
    split at hn
    · cases hn
    · injection hn with hn; injection hn with hn _; cases hn
    · rename_i fp1 hl
      have := hloopfile n fp fp1 none hl
      split at hn
      · injection hn with hn; injection hn with hn _; cases hn
      · injection hn with hn; injection hn with _ hn; subst hn; exact ⟨rfl, this⟩
  obtain ⟨k1, k2, k3⟩ := key
  refine ⟨k1, k2, k3, fun gs out => ?_⟩
  have ⟨a1, a2, a3, a4⟩ := registerAll_empty k1 gs
  have ⟨b1, b2, b3, b4⟩ := registerAll_empty (fp := FP.new fp.file fp.blockSize) rfl gs
  have ha := fun m => hashes_view H m _ a2
  have hb := fun m => hashes_view H m _ b2
  have hab : ∀ m, ((registerAll fp' gs).hashes H m).map Prod.fst =
      ((registerAll (FP.new fp.file fp.blockSize) gs).hashes H m).map Prod.fst := by
    intro m
    rw [ha, hb, a1, a3, a4, b1, b3, b4, k2, k3]
    rfl
  constructor
  · rintro ⟨s, m, hm⟩
    have := hab m
    rw [hm] at this
    cases hx : (registerAll (FP.new fp.file fp.blockSize) gs).hashes H m with
    | none => rw [hx] at this; cases this
    | some p =>
      rw [hx] at this
      simp only [Option.map_some, Option.some.injEq] at this
      exact ⟨p.2, m, by rw [hx, this]⟩
  · rintro ⟨s, m, hm⟩
    have := hab m
    rw [hm] at this
    cases hx : (registerAll fp' gs).hashes H m with
    | none => rw [hx] at this; cases this
    | some p =>
      rw [hx] at this
      simp only [Option.map_some, Option.some.injEq] at this
      exact ⟨p.2, m, by rw [hx, ← this]⟩

example := C04_reusable (fun _ x => x) (registerAll (FP.new [1,2,3,4,5,6] 2) exRegs) _ _ (ends_of 20 rfl)

/-- **C04**, failing runs: when `hashes()` raises, calling it again raises the same exception again. -/
theorem C04_failure_persists (H : String → Bytes → Bytes) (fp : FP) (hempty : fp.fingers = []) (gs : List Reg)
    (e : Exc) (fp' : FP) (h : Ends H (registerAll fp gs) (.error e) fp') : Ends H fp' (.error e) fp' := by
  obtain ⟨n, hn⟩ := h
  have hread := C03_internal_errors_unreachable H fp hempty gs e fp' ⟨n, hn⟩
  have ⟨h1, h2, h3, h4⟩ := registerAll_empty hempty gs
  have hl := loop_view n _ h2
  unfold FP.hashes at hn
  cases ha : aLoop (registerAll fp gs).file (registerAll fp gs).blockSize n (view (registerAll fp gs)) with
  | none => rw [ha] at hl; simp only at hl; rw [hl] at hn; cases hn
  | some x =>
    obtain ⟨v, e'⟩ := x
    rw [ha] at hl
    simp only at hl
    obtain ⟨s, hs, _, _, _, _, hr⟩ := hl
    rw [hs] at hn
    cases e' with
    | some e' =>
      simp only [Option.some.injEq, Prod.mk.injEq, Except.error.injEq] at hn
      obtain ⟨rfl, rfl⟩ := hn
      refine ⟨1, ?_⟩
      unfold FP.hashes FP.loop
      rw [hr e' rfl]
    | none =>
      exfalso
      simp only at hn
      split at hn
      · rename_i e2 hc
        injection hn with hn; injection hn with hn _; injection hn with hn; subst hn
        have : ∀ (fl : Int) (hp : RangeHeap) (fs : List Finger) (r : Hashes),
            collect H fl hp fs r = .error e2 → e2 = ⟨.runtimeError, "Non-empty range remains."⟩ := by
          intro fl hp fs
          induction fs with
          | nil => intro r h; cases h
          | cons f fs ih =>
            intro r h
            unfold collect at h
            simp only at h
            split at h
            · injection h with h; exact h.symm
            · exact ih _ h
        rw [this _ _ _ _ hc] at hread
        revert hread; decide
      · injection hn with hn; injection hn with hn _; cases hn

example := C04_failure_persists (fun _ x => x) (FP.new [1,2,3]) rfl [⟨["md5"], [⟨0, 2⟩, ⟨1, 4⟩], "a"⟩] _ _ (ends_of 5 rfl)

example : ∃ fp', Ends (fun _ x => x) (registerAll (FP.new [1,2,3]) [⟨["md5"], [⟨0, 2⟩, ⟨1, 4⟩], "a"⟩])
    (.error ⟨.runtimeError, "Short read on file."⟩) fp' := ⟨_, 5, rfl⟩

example : ∃ res fp', Ends (fun _ x => x) (registerAll (FP.new [1,2,3,4,5,6] 2) exRegs) (.ok res) fp' ∧ res ≠ [] :=
  ⟨_, _, ⟨20, rfl⟩, by decide⟩

/-- **C05**, bounded reads: every read issued within any number of iterations has a non-negative offset and length at most
`block_size` (arbitrary ranges). -/
theorem C05_reads_bounded (fp : FP) (hempty : fp.fingers = []) (gs : List Reg) (fuel : Nat) :
    ∀ iv ∈ (registerAll fp gs).trace fuel, 0 ≤ iv.start ∧ 0 ≤ iv.stop - iv.start ∧ iv.stop - iv.start ≤ fp.blockSize := by
  have ⟨h1, h2, h3, h4⟩ := registerAll_empty hempty gs
  rw [trace_view _ _ h2, h4]
  exact aTrace_len _ _ _ _

example := C05_reads_bounded (FP.new [1,2,3,4,5,6] 2) rfl exRegs 20

/-- **C05**, single pass: when every registration's ranges are ascending and disjoint, the reads are issued in ascending
order without overlap, and a file offset is read iff some registration requested it. -/
theorem C05_single_pass (H : String → Bytes → Bytes) (fp : FP) (hempty : fp.fingers = []) (hbs : 1 ≤ fp.blockSize)
    (gs : List Reg) (hwf : ∀ g ∈ gs, ∀ r ∈ g.ranges, WF fp.file r) (hasc : ∀ g ∈ gs, Ascending g.ranges) :
    ∃ n, (∃ res fp', (registerAll fp gs).hashes H n = some (.ok res, fp')) ∧
      ((registerAll fp gs).trace n).Pairwise (fun a b => a.stop ≤ b.start) ∧
      ∀ i : Int, (∃ iv ∈ (registerAll fp gs).trace n, InRange iv i) ↔
        ∃ g ∈ gs, ∃ r ∈ requested fp.file g.ranges, InRange r i := by
  obtain ⟨res, fp', ⟨n, hn⟩, _⟩ := C01_digests_exact H fp hempty hbs gs hwf
  have ⟨h1, h2, h3, h4⟩ := registerAll_empty hempty gs
  refine ⟨n, ⟨res, fp', hn⟩, ?_⟩
  have hv : AllAsc fp.file (gs.map (regView fp.file)) := by
    intro a ha
    obtain ⟨g, hg, rfl⟩ := List.mem_map.1 ha
    refine ⟨requested_wf (hwf g hg), ?_⟩
    simp only [regView, requested]
    split
    · exact List.pairwise_singleton _ _
    · exact hasc g hg
  have ⟨i1, _, i3⟩ := aTrace_asc fp.file fp.blockSize n _ hv
  rw [trace_view _ _ h2, h1, h3, h4]
  refine ⟨i1, ?_⟩
  have hvw := hashes_view H n _ h2
  rw [hn, h1, h3, h4] at hvw
  unfold aHashes at hvw
  cases ha : aLoop fp.file fp.blockSize n (gs.map (regView fp.file)) with
  | none => rw [ha] at hvw; cases hvw
  | some x =>
    obtain ⟨v, e⟩ := x
    cases e with
    | some e => rw [ha] at hvw; cases hvw
    | none =>
      intro i
      rw [i3 v ha i]
      constructor
      · rintro ⟨a, ha, hr⟩
        obtain ⟨g, hg, rfl⟩ := List.mem_map.1 ha
        exact ⟨g, hg, hr⟩
      · rintro ⟨g, hg, hr⟩
        exact ⟨_, List.mem_map_of_mem hg, hr⟩

def exAsc : List Reg := [⟨["md5"], [⟨0, 2⟩, ⟨4, 6⟩], "a"⟩, ⟨["sha1"], [⟨1, 5⟩], "b"⟩]

example := C05_single_pass (fun _ x => x) (FP.new [1,2,3,4,5,6] 2) rfl (by decide) exAsc (by decide) (by decide)

example : (∀ g ∈ exAsc, ∀ r ∈ g.ranges, WF [1,2,3,4,5,6] r) ∧ (∀ g ∈ exAsc, Ascending g.ranges) ∧
    (registerAll (FP.new [1,2,3,4,5,6] 2) exAsc).trace 20 = [⟨0,1⟩, ⟨1,2⟩, ⟨2,4⟩, ⟨4,5⟩, ⟨5,6⟩] := by
  refine ⟨?_, ?_, by decide⟩
  · intro g hg r hr
    simp only [exAsc, List.mem_cons, List.not_mem_nil, or_false] at hg
    rcases hg with rfl | rfl
    · simp only [List.mem_cons, List.not_mem_nil, or_false] at hr
      rcases hr with rfl | rfl <;> (unfold WF; decide)
    · simp only [List.mem_cons, List.not_mem_nil, or_false] at hr
      subst hr; unfold WF; decide
  · intro g hg
    simp only [exAsc, List.mem_cons, List.not_mem_nil, or_false] at hg
    rcases hg with rfl | rfl <;> (unfold Ascending; decide)

/-! ### C06: shared list objects -/

/-- A client call `add_hashers(*names, ranges=<list object ref>, description=…)`. -/
structure SharedReg where
  names : List String
  ref : Nat
  description : String

/-- Registers list objects that the caller owns (possibly the same one several times). -/
def registerShared (fp : FP) (cs : List SharedReg) : FP :=
  cs.foldl (fun fp c => fp.addHashers c.names (some c.ref) c.description) fp

/-- The intended meaning of the calls, given the contents of the caller's lists. -/
def SharedReg.meaning (heap : RangeHeap) (c : SharedReg) : Reg := ⟨c.names, heap c.ref, c.description⟩

theorem registerShared_spec : ∀ (cs : List SharedReg) (fp : FP), (∀ c ∈ cs, fp.heap c.ref ≠ []) →
    registerShared fp cs = { fp with fingers := fp.fingers ++ cs.map (fun c =>
      (⟨c.ref, c.names.map (fun n => ⟨n, []⟩), c.description⟩ : Finger)) }
  | [], fp, _ => by simp [registerShared]
  | c :: cs, fp, h => by
    have h1 : fp.addHashers c.names (some c.ref) c.description =
        { fp with fingers := fp.fingers ++ [⟨c.ref, c.names.map (fun n => ⟨n, []⟩), c.description⟩] } := by
      unfold FP.addHashers
      simp only
      rw [if_neg (h c List.mem_cons_self)]
    have : registerShared fp (c :: cs) = registerShared (fp.addHashers c.names (some c.ref) c.description) cs := rfl
    rw [this, h1]
    refine (registerShared_spec cs { fp with fingers := fp.fingers ++
      [⟨c.ref, c.names.map (fun n => ⟨n, []⟩), c.description⟩] } (fun d hd => h d (List.mem_cons_of_mem _ hd))).trans ?_
    simp

/-- **C06** (partial).  Sharing list objects between registrations is harmless if every list that is used more than once is
ascending and disjoint (lists used once may be arbitrary): `hashes()` returns and reports exactly the digests meant by the
calls.  Missing from C06: shared lists that are unsorted or overlapping, and the re-use of the list after the run; both
are false, see below. -/
theorem C06_shared_lists_partial (H : String → Bytes → Bytes) (fp : FP) (hempty : fp.fingers = [])
    (hbs : 1 ≤ fp.blockSize) (cs : List SharedReg) (hne : ∀ c ∈ cs, fp.heap c.ref ≠ [])
    (hwf : ∀ c ∈ cs, ∀ r ∈ fp.heap c.ref, WF fp.file r)
    (hasc : ∀ c ∈ cs, (cs.map SharedReg.ref).count c.ref ≤ 1 ∨ Ascending (fp.heap c.ref)) :
    ∃ res fp', Ends H (registerShared fp cs) (.ok res) fp' ∧
      Reports H fp.file (cs.map (SharedReg.meaning fp.heap)) res := by
  rw [registerShared_spec cs fp hne, hempty]
  simp only [List.nil_append]
  have hok : HeapOK { fp with fingers := cs.map (fun c =>
      (⟨c.ref, c.names.map (fun n => ⟨n, []⟩), c.description⟩ : Finger)) } := by
    intro f hf
    obtain ⟨c, hc, rfl⟩ := List.mem_map.1 hf
    refine ⟨hwf c hc, ?_⟩
    simpa [refCount, List.map_map, Function.comp_def] using hasc c hc
  obtain ⟨fp', h1, _⟩ := hashes_good H _ _ hok (by simp only; omega) (Nat.lt_succ_self _)
  refine ⟨_, fp', ⟨_, h1⟩, ?_⟩
  have := reports_results H fp.file (cs.map (SharedReg.meaning fp.heap))
  have hreq : ∀ c ∈ cs, requested fp.file (fp.heap c.ref) = fp.heap c.ref := fun c hc => by
    unfold requested; rw [if_neg (hne c hc)]
  have heq : resultsOf H (((cs.map (SharedReg.meaning fp.heap)).map (regView fp.file)).map (aTarget fp.file)) =
      Dict.ofPairs (cs.map (fun c => (c.description, Dict.ofPairs (c.names.map (fun n =>
        (n, H n (bytesOf fp.file (fp.heap c.ref)))))))) := by
    unfold resultsOf
    simp only [List.map_map]
    congr 1
    apply List.map_congr_left
    intro c hc
    simp [aTarget, regView, SharedReg.meaning, hreq c hc, Function.comp_def]
  rw [heq] at this
  simpa [List.map_map, Function.comp_def] using this

/-- The second clause of C06 is false of every such run: afterwards every list passed by the caller is empty. -/
theorem C06_lists_not_intact (H : String → Bytes → Bytes) (fp : FP) (hempty : fp.fingers = [])
    (hbs : 1 ≤ fp.blockSize) (cs : List SharedReg) (hne : ∀ c ∈ cs, fp.heap c.ref ≠ [])
    (hwf : ∀ c ∈ cs, ∀ r ∈ fp.heap c.ref, WF fp.file r)
    (hasc : ∀ c ∈ cs, (cs.map SharedReg.ref).count c.ref ≤ 1 ∨ Ascending (fp.heap c.ref))
    (out : Except Exc Hashes) (fp' : FP) (h : Ends H (registerShared fp cs) out fp') : ∀ c ∈ cs, fp'.heap c.ref = [] := by
  rw [registerShared_spec cs fp hne, hempty] at h
  simp only [List.nil_append] at h
  have hok : HeapOK { fp with fingers := cs.map (fun c =>
      (⟨c.ref, c.names.map (fun n => ⟨n, []⟩), c.description⟩ : Finger)) } := by
    intro f hf
    obtain ⟨c, hc, rfl⟩ := List.mem_map.1 hf
    refine ⟨hwf c hc, ?_⟩
    simpa [refCount, List.map_map, Function.comp_def] using hasc c hc
  obtain ⟨fp2, h1, _, _, _, _, h6, _⟩ := hashes_good H _ _ hok (by simp only; omega) (Nat.lt_succ_self _)
  have := (ends_unique h ⟨_, h1⟩).2
  subst this
  intro c hc
  exact h6 _ (List.mem_map_of_mem (f := fun c : SharedReg =>
    (⟨c.ref, c.names.map (fun n => (⟨n, []⟩ : Hasher)), c.description⟩ : Finger)) hc)

/-- The caller's heap: list object 0 holds `l`. -/
def exHeap (l : List Range) : RangeHeap := fun i => if i = 0 then l else []

/-- **C06 refuted**, re-use: hashing bytes 1..3 twice with the same list object hashes the whole file the second time. -/
theorem C06_reuse_false : ∃ (file : Bytes) (l : List Range) (fp1 fp2 : FP) (res1 res2 : Hashes),
    (∀ r ∈ l, WF file r) ∧ Ascending l ∧ l ≠ [] ∧
    Ends (fun _ x => x) ((FP.new file 10 (exHeap l) 1).addHashers ["sha1"] (some 0) "a") (.ok res1) fp1 ∧
    Ends (fun _ x => x) (fp1.addHashers ["sha1"] (some 0) "a") (.ok res2) fp2 ∧
    res1 = [("a", [("sha1", [2, 3])])] ∧ res2 = [("a", [("sha1", [1, 2, 3, 4])])] := by
  refine ⟨[1,2,3,4], [⟨1, 3⟩], _, _, _, _, ?_, ?_, ?_, ends_of 5 rfl, ends_of 5 rfl, rfl, rfl⟩
  · intro r hr
    simp only [List.mem_cons, List.not_mem_nil, or_false] at hr
    subst hr; unfold WF; decide
  · unfold Ascending; decide
  · decide

/-- **C06 refuted**, overlapping shared list: with one list `[(0,2),(0,2)]` used by two registrations the digests are
silently wrong (only `file[0:2]` is hashed, instead of `file[0:2] + file[0:2]`). -/
theorem C06_shared_overlap_false : ∃ (file : Bytes) (l : List Range) (fp' : FP) (res : Hashes),
    (∀ r ∈ l, WF file r) ∧
    Ends (fun _ x => x) (registerShared (FP.new file 10 (exHeap l) 1) [⟨["sha1"], 0, "a"⟩, ⟨["md5"], 0, "b"⟩])
      (.ok res) fp' ∧
    bytesOf file l = [1, 2, 1, 2] ∧ res = [("a", [("sha1", [1, 2])]), ("b", [("md5", [1, 2])])] := by
  refine ⟨[1,2,3,4], [⟨0, 2⟩, ⟨0, 2⟩], _, _, ?_, ends_of 5 rfl, by decide, rfl⟩
  intro r hr
  simp only [List.mem_cons, List.not_mem_nil, or_false] at hr
  rcases hr with rfl | rfl <;> (unfold WF; decide)

/-- Two registrations that share a list. -/
example := C06_shared_lists_partial (fun _ x => x) (FP.new [1,2,3,4,5,6] 2 (exHeap [⟨0, 2⟩, ⟨3, 4⟩]) 1) rfl (by decide)
  [⟨["sha1"], 0, "a"⟩, ⟨["md5"], 0, "b"⟩] (by decide) (by decide) (by decide)
example := C06_lists_not_intact (fun _ x => x) (FP.new [1,2,3,4,5,6] 2 (exHeap [⟨0, 2⟩, ⟨3, 4⟩]) 1) rfl (by decide)
  [⟨["sha1"], 0, "a"⟩, ⟨["md5"], 0, "b"⟩] (by decide) (by decide) (by decide) _ _ (ends_of 20 rfl)

example : (∀ c ∈ [(⟨["sha1"], 0, "a"⟩ : SharedReg), ⟨["md5"], 0, "b"⟩],
    (exHeap [⟨0, 2⟩, ⟨3, 4⟩] c.ref ≠ []) ∧ Ascending (exHeap [⟨0, 2⟩, ⟨3, 4⟩] c.ref)) := by
  intro c hc
  simp only [List.mem_cons, List.not_mem_nil, or_false] at hc
  rcases hc with rfl | rfl <;> (unfold Ascending exHeap; decide)

/-! ### C07 -/

/-- **C07**, `hashes()`: whenever it returns, the keys are exactly the registered descriptions (once each), the entry of a
description has exactly the hasher names of the last registration with it. -/
theorem C07_keys (H : String → Bytes → Bytes) (fp : FP) (hempty : fp.fingers = []) (gs : List Reg) (res : Hashes)
    (fp' : FP) (h : Ends H (registerAll fp gs) (.ok res) fp') :
    (res.map Prod.fst).Nodup ∧ (∀ d, d ∈ res.map Prod.fst ↔ ∃ g ∈ gs, g.description = d) ∧
    (∀ d g, lastFor gs d = some g → ∃ ds, res.get? d = some ds ∧ (ds.map Prod.fst).Nodup ∧
      ∀ n, n ∈ ds.map Prod.fst ↔ n ∈ g.names) := by
  have R := (C02_no_digest_for_ill_formed H fp hempty gs res fp' h).2
  have hk : ∀ d, d ∈ res.map Prod.fst ↔ res.get? d ≠ none := by
    intro d
    rw [ne_eq, Dict.get?_eq_none_iff]
    simp [Dict.keys]
  refine ⟨R.nodup.1, ?_, ?_⟩
  · intro d
    rw [hk]
    cases hl : lastFor gs d with
    | none =>
      rw [R.none d hl]
      simp only [ne_eq, not_true_eq_false, false_iff, not_exists, not_and]
      intro g hg hd
      unfold lastFor at hl
      rw [List.find?_eq_none] at hl
      exact hl g (by simpa using hg) (by simpa using hd)
    | some g =>
      obtain ⟨ds, h1, _⟩ := R.some d g hl
      rw [h1]
      simp only [ne_eq, reduceCtorEq, not_false_eq_true, true_iff]
      unfold lastFor at hl
      exact ⟨g, by simpa using List.mem_of_find?_eq_some hl, by simpa using List.find?_some hl⟩
  · intro d g hl
    obtain ⟨ds, h1, h2⟩ := R.some d g hl
    refine ⟨ds, h1, R.nodup.2 _ (Dict.mem_of_get? h1), ?_⟩
    intro n
    have h3 := Dict.get?_eq_none_iff ds n
    have h4 := h2 n
    by_cases hn : n ∈ g.names
    · rw [if_pos hn] at h4
      rw [h4] at h3
      simp only [reduceCtorEq, false_iff, Classical.not_not] at h3
      exact ⟨fun _ => hn, fun _ => h3⟩
    · rw [if_neg hn] at h4
      rw [h4] at h3
      simp only [true_iff] at h3
      exact ⟨fun h => absurd h h3, fun h => absurd h hn⟩

example := C07_keys (fun _ x => x) (FP.new [1,2,3,4,5,6] 2) rfl exRegs _ _ (ends_of 20 rfl)

/-- **C07**, `hash()`: when `hashes()` returns `res`, `hash()` returns the only entry of `res` if there is exactly one,
and raises `RuntimeError` otherwise; in both cases the registrations are gone. -/
theorem C07_hash (H : String → Bytes → Bytes) (fp fp' : FP) (res : Hashes) (fuel : Nat)
    (h : fp.hashes H fuel = some (.ok res, fp')) :
    (∀ d r, res = [(d, r)] → fp.hash H fuel = some (.ok r, fp')) ∧
    (res.length ≠ 1 → ∃ e, e.cls = .runtimeError ∧ fp.hash H fuel = some (.error e, fp')) := by
  unfold FP.hash
  rw [h]
  constructor
  · rintro d r rfl; rfl
  · intro hl
    match res, hl with
    | [], _ => exact ⟨_, rfl, rfl⟩
    | [x], hl => simp at hl
    | x :: y :: l, _ => exact ⟨_, rfl, rfl⟩

example := C07_hash (fun _ x => x) (registerAll (FP.new [1,2,3,4,5,6] 2) exRegs) _ _ 20 rfl

/-- **C07** (partial, last clause): `hash()` after exactly one registration returns that registration's digests. -/
theorem C07_hash_single_partial (H : String → Bytes → Bytes) (fp : FP) (hempty : fp.fingers = [])
    (hbs : 1 ≤ fp.blockSize) (g : Reg) (hwf : ∀ r ∈ g.ranges, WF fp.file r) :
    ∃ n ds fp', (registerAll fp [g]).hash H n = some (.ok ds, fp') ∧
      ∀ x, ds.get? x = if x ∈ g.names then some (H x (bytesOf fp.file (requested fp.file g.ranges))) else none := by
  obtain ⟨res, fp', ⟨n, hn⟩, R⟩ := C01_digests_exact H fp hempty hbs [g] (by simpa using hwf)
  have hl : lastFor [g] g.description = some g := by simp [lastFor]
  obtain ⟨ds, h1, h2⟩ := R.some _ g hl
  have hk := C07_keys H fp hempty [g] res fp' ⟨n, hn⟩
  have : res = [(g.description, ds)] := by
    have hm := Dict.mem_of_get? h1
    match res, hm, hk with
    | [x], hm, _ => simp at hm; rw [hm]
    | x :: y :: l, _, ⟨hnd, hks, _⟩ =>
      exfalso
      have a := (hks x.1).1 (by simp)
      have b := (hks y.1).1 (by simp)
      simp at a b
      simp [← a, ← b] at hnd
  exact ⟨n, ds, fp', (C07_hash H _ fp' res n hn).1 _ _ this, h2⟩

example := C07_hash_single_partial (fun _ x => x) (FP.new [1,2,3,4,5,6] 2) rfl (by decide) ⟨["md5", "sha1"], [⟨3, 6⟩, ⟨0, 4⟩, ⟨5, 5⟩], "a"⟩ (by decide)

/-- **C07 refuted**, last clause: `hash()` does not detect a second `add_hashers()` call with the same description; the
first registration's digests are silently dropped. -/
theorem C07_hash_two_registrations_false : ∃ (file : Bytes) (g₁ g₂ : Reg) (fp' : FP) (fuel : Nat),
    g₁.names ≠ g₂.names ∧
    (registerAll (FP.new file 10) [g₁, g₂]).hash (fun _ x => x) fuel = some (.ok [("sha1", file)], fp') :=
  ⟨[1,2,3], ⟨["md5"], [], "generic"⟩, ⟨["sha1"], [], "generic"⟩, _, 5, by decide, rfl⟩

example : ∃ res fp', (registerAll (FP.new [1,2,3,4,5,6] 2) exRegs).hashes (fun _ x => x) 20 = some (.ok res, fp') ∧
    res.length ≠ 1 := ⟨_, _, rfl, by decide⟩

end Signify.Props
