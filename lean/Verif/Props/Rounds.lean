/-
A fingerprinter used any number of times (C04).
-/
import Verif.Spec.Rounds
import Verif.Props.Fingerprinter

set_option autoImplicit false

namespace Signify.Props

open Signify Spec

theorem registerAll_file (gs : List Reg) (fp : FP) : (registerAll fp gs).file = fp.file ∧ (registerAll fp gs).blockSize = fp.blockSize := by
  induction gs generalizing fp with
  | nil => exact ⟨rfl, rfl⟩
  | cons g gs ih =>
    obtain ⟨h1, h2⟩ := ih (register fp g)
    have h3 : (register fp g).file = fp.file ∧ (register fp g).blockSize = fp.blockSize := by
      unfold register FP.addHashers
      dsimp only
      repeat' split
      all_goals exact ⟨rfl, rfl⟩
    exact ⟨h1.trans h3.1, h2.trans h3.2⟩

/-- **C04** for any number of rounds: each result of a sequence of rounds is the one that a new object over the same file gives for the
registrations of that round alone, and so is, whatever it is, the outcome of the round that follows. -/
theorem C04_sequence (H : String → Bytes → Bytes) (file : Bytes) (blockSize : Int) (rounds : List (List Reg × Hashes)) (fp' : FP)
    (h : Rounds H (FP.new file blockSize) rounds fp') :
    (∀ p ∈ rounds, ∃ s, Ends H (registerAll (FP.new file blockSize) p.1) (.ok p.2) s) ∧
    ∀ (gs : List Reg) (out : Except Exc Hashes),
      (∃ s, Ends H (registerAll fp' gs) out s) ↔ (∃ s, Ends H (registerAll (FP.new file blockSize) gs) out s) := by
  have key : ∀ fp rounds fp', Rounds H fp rounds fp' → fp.file = file → fp.blockSize = blockSize →
      (∀ (gs : List Reg) (out : Except Exc Hashes),
        (∃ s, Ends H (registerAll fp gs) out s) ↔ (∃ s, Ends H (registerAll (FP.new file blockSize) gs) out s)) →
      (∀ p ∈ rounds, ∃ s, Ends H (registerAll (FP.new file blockSize) p.1) (.ok p.2) s) ∧
      ∀ (gs : List Reg) (out : Except Exc Hashes),
        (∃ s, Ends H (registerAll fp' gs) out s) ↔ (∃ s, Ends H (registerAll (FP.new file blockSize) gs) out s) := by
    intro fp rounds fp' h
    induction h with
    | nil fp => intro _ _ hf; exact ⟨fun p hp => (by cases hp), hf⟩
    | cons fp fp' fp'' gs res rest he _ ih =>
      intro h1 h2 hf
      obtain ⟨-, g1, g2, g3⟩ := C04_reusable H _ res fp' he
      rw [(registerAll_file gs fp).1, h1] at g1 g3
      rw [(registerAll_file gs fp).2, h2] at g2 g3
      obtain ⟨k1, k2⟩ := ih g1 g2 g3
      refine ⟨fun p hp => ?_, k2⟩
      rcases List.mem_cons.1 hp with rfl | hp
      · exact (hf gs (.ok res)).1 ⟨fp', he⟩
      · exact k1 p hp
  exact key _ rounds fp' h rfl rfl (fun _ _ => Iff.rfl)

/-- Two rounds over one file, with different descriptions and ranges. -/
theorem exRounds : ∃ fp', Rounds (fun _ x => x) (FP.new [1, 2, 3, 4] 10)
    [([⟨["sha1"], [⟨1, 3⟩], "a"⟩], [("a", [("sha1", [2, 3])])]), ([⟨["md5"], [⟨0, 2⟩], "b"⟩], [("b", [("md5", [1, 2])])])] fp' := by
  have h1 : ((registerAll (FP.new [1, 2, 3, 4] 10) [⟨["sha1"], [⟨1, 3⟩], "a"⟩]).hashes (fun _ x => x) 10).map Prod.fst =
    some (.ok [("a", [("sha1", [2, 3])])]) := by rfl
  cases hx : (registerAll (FP.new [1, 2, 3, 4] 10) [⟨["sha1"], [⟨1, 3⟩], "a"⟩]).hashes (fun _ x => x) 10 with
  | none => rw [hx] at h1; cases h1
  | some p =>
    obtain ⟨out, fp1⟩ := p
    rw [hx] at h1
    have ho : out = .ok [("a", [("sha1", [2, 3])])] := Option.some.inj h1
    subst ho
    have he1 : Ends (fun _ x => x) (registerAll (FP.new [1, 2, 3, 4] 10) [⟨["sha1"], [⟨1, 3⟩], "a"⟩]) (.ok [("a", [("sha1", [2, 3])])]) fp1 := ⟨10, hx⟩
    have h2 : ∃ s, Ends (fun _ x => x) (registerAll (FP.new [1, 2, 3, 4] 10) [⟨["md5"], [⟨0, 2⟩], "b"⟩]) (.ok [("b", [("md5", [1, 2])])]) s :=
      ⟨_, 10, rfl⟩
    obtain ⟨fp2, he2⟩ := ((C04_reusable _ _ _ _ he1).2.2.2 [⟨["md5"], [⟨0, 2⟩], "b"⟩] (.ok [("b", [("md5", [1, 2])])])).2 h2
    exact ⟨fp2, .cons _ fp1 fp2 _ _ _ he1 (.cons _ fp2 fp2 _ _ _ he2 (.nil fp2))⟩

/-- `C04_sequence` applies to it: a third round may still be used, and gives what it would give first. -/
example : ∃ fp' s, Ends (fun _ x => x) (registerAll fp' [⟨["sha1"], [⟨3, 4⟩], "a"⟩]) (.ok [("a", [("sha1", [4])])]) s ∧ fp'.fingers = [] := by
  obtain ⟨fp', h⟩ := exRounds
  obtain ⟨s, hs⟩ := ((C04_sequence _ _ _ _ _ h).2 [⟨["sha1"], [⟨3, 4⟩], "a"⟩] (.ok [("a", [("sha1", [4])])])).2 ⟨_, 10, rfl⟩
  refine ⟨fp', s, hs, ?_⟩
  cases h with
  | cons _ _ _ _ _ _ _ h => cases h with
    | cons _ _ _ _ _ _ he h => cases h; exact (C04_reusable _ _ _ _ he).1

end Signify.Props
