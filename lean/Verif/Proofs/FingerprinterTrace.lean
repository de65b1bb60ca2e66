/-
Lemmas about the sequence of reads issued by `hashes()`.
-/
import Verif.Proofs.FingerprinterView

set_option autoImplicit false

namespace Signify
open Spec

def aTrace (file : Bytes) (bs : Int) : Nat → List AV → List Range
  | 0, _ => []
  | n + 1, v =>
    match aStep file bs v with
    | .next iv v' => iv :: aTrace file bs n v'
    | _ => []

theorem trace_view : ∀ (n : Nat) (fp : FP), Unshared fp → fp.trace n = aTrace fp.file fp.blockSize n (view fp)
  | 0, _, _ => rfl
  | n + 1, fp, hu => by
    have hs := step_view hu
    unfold FP.trace aTrace
    cases ha : aStep fp.file fp.blockSize (view fp) with
    | done => rw [ha] at hs; simp only at hs ⊢; rw [hs]
    | raised e => rw [ha] at hs; simp only at hs ⊢; rw [hs]
    | next iv v =>
      rw [ha] at hs
      simp only at hs ⊢
      obtain ⟨fp1, h1, h2, h3, h4, h5⟩ := hs
      rw [h1]
      simp only
      rw [trace_view n fp1 h3, h2, h4, h5]

theorem aTrace_len (file : Bytes) (bs : Int) : ∀ (n : Nat) (v : List AV), ∀ iv ∈ aTrace file bs n v,
    0 ≤ iv.start ∧ 0 ≤ iv.stop - iv.start ∧ iv.stop - iv.start ≤ bs
  | 0, _, _, h => by cases h
  | n + 1, v, iv, h => by
    unfold aTrace at h
    split at h
    · rename_i iv' v' hs
      have ⟨_, h2, h3, h4, _⟩ := aStep_next hs
      rcases List.mem_cons.1 h with rfl | h
      · have := (aNext_facts h2).len
        omega
      · exact aTrace_len file bs n v' iv h
    · cases h

/-- Offsets still to be hashed. -/
def Todo (v : List AV) (i : Int) : Prop := ∃ a ∈ v, ∃ r ∈ a.2.2, InRange r i

def AllAsc (file : Bytes) (v : List AV) : Prop := ∀ a ∈ v, (∀ r ∈ a.2.2, WF file r) ∧ Ascending a.2.2

theorem consumeD_asc {file : Bytes} {s e : Int} {l : List Range} (hw : ∀ r ∈ l, WF file r) (ha : Ascending l)
    (hh : HeadOK s e l) (hse : s ≤ e) :
    (∀ r ∈ consumeD s e l, e ≤ r.start) ∧
    (∀ i, (∃ r ∈ l, InRange r i) ↔
      ((∃ r, l.head? = some r ∧ r.start = s ∧ s ≤ i ∧ i < e) ∨ ∃ r ∈ consumeD s e l, InRange r i)) := by
  cases l with
  | nil => simp [consumeD]
  | cons old rest =>
    have ⟨a1, a2, a3⟩ := hh old rfl
    have hold := hw old List.mem_cons_self
    unfold Ascending at ha
    rw [List.pairwise_cons] at ha
    have hrest : ∀ r ∈ rest, e ≤ r.start := fun r hr => by have := ha.1 r hr; omega
    rw [consumeD_cons]
    by_cases h1 : old.start > s
    · rw [if_pos h1]
      have := a3 (by omega)
      refine ⟨?_, fun i => ?_⟩
      · intro r hr
        rcases List.mem_cons.1 hr with rfl | hr
        · exact this
        · exact hrest r hr
      · constructor
        · exact fun h => Or.inr h
        · rintro (⟨r, hr, hs, _⟩ | h)
          · simp only [List.head?_cons, Option.some.injEq] at hr; subst hr; omega
          · exact h
    · rw [if_neg h1]
      have hs : old.start = s := by omega
      by_cases h2 : old.stop = e
      · rw [if_pos h2]
        refine ⟨hrest, fun i => ?_⟩
        constructor
        · rintro ⟨r, hr, h⟩
          rcases List.mem_cons.1 hr with rfl | hr
          · obtain ⟨h3, h4⟩ := h
            exact Or.inl ⟨r, rfl, hs, by omega, by omega⟩
          · exact Or.inr ⟨r, hr, h⟩
        · rintro (⟨r, hr, hs, h3, h4⟩ | ⟨r, hr, h⟩)
          · simp only [List.head?_cons, Option.some.injEq] at hr; subst hr
            exact ⟨old, List.mem_cons_self, by omega, by omega⟩
          · exact ⟨r, List.mem_cons_of_mem _ hr, h⟩
      · rw [if_neg h2]
        refine ⟨?_, fun i => ?_⟩
        · intro r hr
          rcases List.mem_cons.1 hr with rfl | hr
          · exact Int.le_refl _
          · exact hrest r hr
        · constructor
          · rintro ⟨r, hr, h⟩
            rcases List.mem_cons.1 hr with rfl | hr
            · obtain ⟨h3, h4⟩ := h
              by_cases hi : i < e
              · exact Or.inl ⟨r, rfl, hs, by omega, hi⟩
              · exact Or.inr ⟨⟨e, r.stop⟩, List.mem_cons_self, by simp only; omega, h4⟩
            · exact Or.inr ⟨r, List.mem_cons_of_mem _ hr, h⟩
          · rintro (⟨r, hr, hs, h3, h4⟩ | ⟨r, hr, h⟩)
            · simp only [List.head?_cons, Option.some.injEq] at hr; subst hr
              exact ⟨old, List.mem_cons_self, by omega, by omega⟩
            · rcases List.mem_cons.1 hr with rfl | hr
              · obtain ⟨h3, h4⟩ := h
                simp only at h3 h4
                exact ⟨old, List.mem_cons_self, by omega, h4⟩
              · exact ⟨r, List.mem_cons_of_mem _ hr, h⟩

theorem aStep_asc {file : Bytes} {bs : Int} {v v' : List AV} {iv : Range} (hv : AllAsc file v)
    (h : aStep file bs v = .next iv v') :
    AllAsc file v' ∧ (∀ a ∈ v', ∀ r ∈ a.2.2, iv.stop ≤ r.start) ∧ (∀ i, Todo v i ↔ InRange iv i ∨ Todo v' i) ∧
    (∀ L, (∀ a ∈ v, ∀ r ∈ a.2.2, L ≤ r.start) → L ≤ iv.start) := by
  have ⟨h1, h2, h3, h4, h5⟩ := aStep_next h
  have F := aNext_facts h2
  have D := fun a (ha : a ∈ v) => consumeD_asc (hv a ha).1 (hv a ha).2 (F.ok a ha) h4
  subst h1
  refine ⟨?_, ?_, ?_, ?_⟩
  · intro b hb
    obtain ⟨a, ha, rfl⟩ := List.mem_map.1 hb
    have := consumeD_share (k := 2) ⟨(hv a ha).1, Or.inr (hv a ha).2⟩ (F.ok a ha) h4 h3
    refine ⟨this.1.1, ?_⟩
    rcases this.1.2 with hx | hx
    · omega
    · exact hx
  · intro b hb
    obtain ⟨a, ha, rfl⟩ := List.mem_map.1 hb
    exact (D a ha).1
  · intro i
    constructor
    · rintro ⟨a, ha, hr⟩
      rcases ((D a ha).2 i).1 hr with ⟨r, _, _, h6, h7⟩ | h6
      · exact Or.inl ⟨h6, h7⟩
      · exact Or.inr ⟨aFeed file iv a, List.mem_map_of_mem ha, h6⟩
    · rintro (⟨h6, h7⟩ | ⟨b, hb, hr⟩)
      · obtain ⟨a, ha, r, hr, hrs⟩ := F.ex
        exact ⟨a, ha, ((D a ha).2 i).2 (Or.inl ⟨r, hr, hrs, h6, h7⟩)⟩
      · obtain ⟨a, ha, rfl⟩ := List.mem_map.1 hb
        exact ⟨a, ha, ((D a ha).2 i).2 (Or.inr hr)⟩
  · intro L hL
    obtain ⟨a, ha, r, hr, hrs⟩ := F.ex
    rw [← hrs]
    exact hL a ha r (List.mem_of_mem_head? (by rw [hr]; rfl))

theorem aTrace_asc (file : Bytes) (bs : Int) : ∀ (n : Nat) (v : List AV), AllAsc file v →
    (aTrace file bs n v).Pairwise (fun a b => a.stop ≤ b.start) ∧
    (∀ L, (∀ a ∈ v, ∀ r ∈ a.2.2, L ≤ r.start) → ∀ iv ∈ aTrace file bs n v, L ≤ iv.start) ∧
    (∀ v', aLoop file bs n v = some (v', none) →
      ∀ i, (∃ iv ∈ aTrace file bs n v, InRange iv i) ↔ Todo v i)
  | 0, v, _ => ⟨List.Pairwise.nil, fun _ _ _ h => (by cases h), fun _ h => by cases h⟩
  | n + 1, v, hv => by
    unfold aTrace aLoop
    cases hs : aStep file bs v with
    | done =>
      refine ⟨List.Pairwise.nil, fun _ _ _ h => (by cases h), fun v' _ i => ?_⟩
      have hn : aNext bs v = none := by
        unfold aStep at hs
        split at hs
        · assumption
        · split at hs
          · cases hs
          · split at hs <;> cases hs
      have he := aNext_none hn
      constructor
      · rintro ⟨iv, h, _⟩; cases h
      · rintro ⟨a, ha, r, hr, _⟩; rw [he a ha] at hr; cases hr
    | raised e => exact ⟨List.Pairwise.nil, fun _ _ _ h => (by cases h), fun v' h => by simp at h⟩
    | next iv v1 =>
      simp only
      have ⟨b1, b2, b3, b4⟩ := aStep_asc hv hs
      have ⟨i1, i2, i3⟩ := aTrace_asc file bs n v1 b1
      refine ⟨List.Pairwise.cons (fun b hb => i2 _ b2 b hb) i1, ?_, ?_⟩
      · intro L hL x hx
        rcases List.mem_cons.1 hx with rfl | hx
        · exact b4 L hL
        · have ⟨_, _, _, h4, _⟩ := aStep_next hs
          have := i2 _ b2 x hx
          have := b4 L hL
          omega
      · intro v' hl i
        rw [b3 i, ← i3 v' hl i]
        simp only [List.mem_cons]
        constructor
        · rintro ⟨x, rfl | hx, h⟩
          · exact Or.inl h
          · exact Or.inr ⟨x, hx, h⟩
        · rintro (h | ⟨x, hx, h⟩)
          · exact ⟨iv, Or.inl rfl, h⟩
          · exact ⟨x, Or.inr hx, h⟩

end Signify
