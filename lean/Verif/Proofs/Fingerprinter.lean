/-
Helper lemmas about the fingerprinter loop.
-/
import Verif.Spec.Fingerprinter

set_option autoImplicit false

namespace Signify
open Spec

/-! ### next interval -/

/-- Everything the loop relies on about the interval it works on. -/
structure IvFacts (bs : Int) (fingers : List Finger) (heap : RangeHeap) (iv : Range) : Prop where
  ex : ∃ f ∈ fingers, ∃ r, f.currentRange heap = some r ∧ r.start = iv.start
  lo : ∀ f ∈ fingers, ∀ r, f.currentRange heap = some r → iv.start ≤ r.start
  hi : ∀ f ∈ fingers, ∀ r, f.currentRange heap = some r → iv.stop ≤ r.stop
  mid : ∀ f ∈ fingers, ∀ r, f.currentRange heap = some r → r.start ≠ iv.start → iv.stop ≤ r.start
  len : iv.stop - iv.start ≤ bs
  which : iv.stop = iv.start + bs ∨
    (∃ f ∈ fingers, ∃ r, f.currentRange heap = some r ∧ iv.stop = r.stop) ∨
    (∃ f ∈ fingers, ∃ r, f.currentRange heap = some r ∧ r.start ≠ iv.start ∧ iv.stop = r.start)

theorem nextInterval_facts {bs fingers heap iv} (h : nextInterval bs fingers heap = some iv) :
    IvFacts bs fingers heap iv := by
  unfold nextInterval at h
  simp only [ne_eq] at h
  split at h
  · cases h
  · rename_i ms hms
    rw [List.min?_eq_some_iff] at hms
    obtain ⟨hmem, hle⟩ := hms
    split at h
    · cases h
    · rename_i me hme
      rw [List.min?_eq_some_iff] at hme
      obtain ⟨hmem2, hle2⟩ := hme
      injection h with h
      have hlo : ∀ f ∈ fingers, ∀ r, f.currentRange heap = some r → ms ≤ r.start := by
        intro f hf r hr
        apply hle
        simp only [List.mem_map, List.mem_filterMap]
        exact ⟨r, ⟨f, hf, hr⟩, rfl⟩
      have hhi : ∀ f ∈ fingers, ∀ r, f.currentRange heap = some r → me ≤ r.stop := by
        intro f hf r hr
        apply hle2
        simp only [List.mem_append, List.mem_map, List.mem_filterMap]
        exact Or.inl ⟨r, ⟨f, hf, hr⟩, rfl⟩
      have hmid : ∀ f ∈ fingers, ∀ r, f.currentRange heap = some r → r.start ≠ ms → me ≤ r.start := by
        intro f hf r hr hne
        apply hle2
        simp only [List.mem_append, List.mem_filter, List.mem_map, List.mem_filterMap]
        exact Or.inr ⟨⟨r, ⟨f, hf, hr⟩, rfl⟩, by simpa using hne⟩
      have hex : ∃ f ∈ fingers, ∃ r, f.currentRange heap = some r ∧ r.start = ms := by
        simp only [List.mem_map, List.mem_filterMap] at hmem
        obtain ⟨r, ⟨f, hf, hr⟩, hs⟩ := hmem
        exact ⟨f, hf, r, hr, hs⟩
      have hwh : (∃ f ∈ fingers, ∃ r, f.currentRange heap = some r ∧ me = r.stop) ∨
          (∃ f ∈ fingers, ∃ r, f.currentRange heap = some r ∧ r.start ≠ ms ∧ me = r.start) := by
        simp only [List.mem_append, List.mem_filter, List.mem_map, List.mem_filterMap] at hmem2
        rcases hmem2 with ⟨r, ⟨f, hf, hr⟩, hs⟩ | ⟨⟨r, ⟨f, hf, hr⟩, hs⟩, hne⟩
        · exact Or.inl ⟨f, hf, r, hr, hs.symm⟩
        · exact Or.inr ⟨f, hf, r, hr, by simpa [hs] using hne, hs.symm⟩
      subst h
      by_cases hc : me - ms > bs
      · rw [if_pos hc]
        exact ⟨hex, hlo, fun f hf r hr => by have := hhi f hf r hr; simp only; omega,
          fun f hf r hr hne => by have := hmid f hf r hr hne; simp only; omega, by simp only; omega, Or.inl rfl⟩
      · rw [if_neg hc]
        exact ⟨hex, hlo, hhi, hmid, by simp only; omega, Or.inr hwh⟩

theorem nextInterval_none {bs fingers heap} (h : nextInterval bs fingers heap = none) :
    ∀ f ∈ fingers, heap f.ref = [] := by
  unfold nextInterval at h
  simp only [ne_eq] at h
  split at h
  · rename_i hms
    rw [List.min?_eq_none_iff, List.map_eq_nil_iff, List.filterMap_eq_nil_iff] at hms
    intro f hf
    have := hms f hf
    simpa [Finger.currentRange] using this
  · rename_i ms hms
    exfalso
    split at h
    · rename_i hme
      rw [List.min?_eq_none_iff] at hme
      rw [List.min?_eq_some_iff] at hms
      simp only [List.append_eq_nil_iff, List.map_eq_nil_iff] at hme
      rw [hme.1] at hms
      simp at hms
    · cases h

theorem nextInterval_eq_none {bs fingers heap} (h : ∀ f ∈ fingers, heap f.ref = []) :
    nextInterval bs fingers heap = none := by
  have hc : fingers.filterMap (Finger.currentRange heap) = [] := by
    rw [List.filterMap_eq_nil_iff]
    intro f hf
    simp [Finger.currentRange, h f hf]
  unfold nextInterval
  rw [hc]
  rfl

/-! ### hashBlock never raises on the interval -/

/-- Effect of `_hash_block` on a single finger. -/
def Finger.feed (heap : RangeHeap) (block : Bytes) (start : Int) (f : Finger) : Finger :=
  match f.currentRange heap with
  | none => f
  | some r => if start = r.start then f.update block else f

theorem hashBlock_eq {heap block} {s e : Int} : ∀ {fingers : List Finger},
    (∀ f ∈ fingers, ∀ r, f.currentRange heap = some r → s ≤ r.start ∧ e ≤ r.stop ∧ (r.start ≠ s → e ≤ r.start)) →
    hashBlock heap block s e fingers = (fingers.map (Finger.feed heap block s), none)
  | [], _ => rfl
  | f :: fs, h => by
    have ih := hashBlock_eq (heap := heap) (block := block) (s := s) (e := e) (fingers := fs)
      (fun g hg => h g (List.mem_cons_of_mem _ hg))
    unfold hashBlock
    cases hc : f.currentRange heap with
    | none => simp [ih, Finger.feed, hc]
    | some r =>
      have := h f List.mem_cons_self r hc
      have hn : ¬ (s > r.start ∨ (s = r.start ∧ e > r.stop) ∨ (s < r.start ∧ r.start < e)) := by
        rintro (h1 | ⟨_, h1⟩ | ⟨h1, h2⟩)
        · omega
        · omega
        · have := this.2.2 (by omega); omega
      simp only [if_neg hn, ih, List.map_cons, Finger.feed, hc]

@[simp] theorem Finger.feed_ref (heap block s f) : (Finger.feed heap block s f).ref = f.ref := by
  unfold Finger.feed; split
  · rfl
  · split <;> rfl

@[simp] theorem Finger.feed_description (heap block s f) :
    (Finger.feed heap block s f).description = f.description := by
  unfold Finger.feed; split
  · rfl
  · split <;> rfl

/-! ### consuming -/

/-- `consumeRanges` when it does not raise. -/
def consumeD (s e : Int) (l : List Range) : List Range :=
  match l with
  | [] => []
  | old :: rest =>
    if old.start > s then old :: rest else if old.stop = e then rest else ⟨e, old.stop⟩ :: rest

theorem consumeD_cons (s e : Int) (old : Range) (rest : List Range) : consumeD s e (old :: rest) =
    if old.start > s then old :: rest else if old.stop = e then rest else ⟨e, old.stop⟩ :: rest := rfl

/-- The head of a list is compatible with the interval `[s,e)`. -/
def HeadOK (s e : Int) (l : List Range) : Prop :=
  ∀ r, l.head? = some r → s ≤ r.start ∧ e ≤ r.stop ∧ (r.start ≠ s → e ≤ r.start)

theorem consumeRanges_eq {s e : Int} {l : List Range} (h : HeadOK s e l) :
    consumeRanges l s e = .ok (consumeD s e l) := by
  cases l with
  | nil => rfl
  | cons old rest =>
    have := h old rfl
    rw [consumeD_cons]; simp only [consumeRanges]
    by_cases h1 : old.start > s
    · have := this.2.2 (by omega)
      rw [if_pos h1, if_neg (by omega), if_pos h1]
    · rw [if_neg h1, if_neg (by omega), if_neg h1]
      by_cases h2 : old.stop = e
      · rw [if_pos h2, if_pos h2]
      · rw [if_neg h2, if_pos (by omega), if_neg h2]

/-- Iterated consumption. -/
def consumeK (s e : Int) : Nat → List Range → List Range
  | 0, l => l
  | k + 1, l => consumeK s e k (consumeD s e l)

theorem consumeK_succ (s e : Int) : ∀ k l, consumeK s e (k + 1) l = consumeD s e (consumeK s e k l)
  | 0, _ => rfl
  | k + 1, l => consumeK_succ s e k (consumeD s e l)

def refCount (r : Nat) (fs : List Finger) : Nat := (fs.map Finger.ref).count r

theorem consumeAll_eq {s e : Int} : ∀ {fs : List Finger} {heap : RangeHeap},
    (∀ r j, j < refCount r fs → HeadOK s e (consumeK s e j (heap r))) →
    consumeAll s e fs heap = (fun r => consumeK s e (refCount r fs) (heap r), none)
  | [], heap, _ => by simp [consumeAll, refCount, consumeK]
  | f :: fs, heap, h => by
    unfold consumeAll
    have h0 : HeadOK s e (heap f.ref) := h f.ref 0 (by simp [refCount])
    rw [consumeRanges_eq h0]
    simp only
    rw [consumeAll_eq (fs := fs)]
    · congr 1
      funext r
      by_cases hr : r = f.ref
      · subst hr
        simp [RangeHeap.set, refCount, consumeK]
      · have : (f.ref == r) = false := by simpa using fun h => hr h.symm
        simp [RangeHeap.set, refCount, List.count_cons, hr, this]
    · intro r j hj
      by_cases hr : r = f.ref
      · subst hr
        have : HeadOK s e (consumeK s e (j+1) (heap f.ref)) := h _ (j+1) (by
          simp only [refCount, List.map_cons, List.count_cons_self] at hj ⊢; omega)
        simpa [RangeHeap.set, consumeK] using this
      · have h2 : (f.ref == r) = false := by simpa using fun h => hr h.symm
        have := h r j (by simpa [refCount, List.count_cons, h2] using hj)
        simpa [RangeHeap.set, hr] using this

/-! ### bytes -/

theorem rangeBytes_split (file : Bytes) {s e t : Int} (h0 : 0 ≤ s) (h1 : s ≤ e) (h2 : e ≤ t) :
    rangeBytes file ⟨s, t⟩ = rangeBytes file ⟨s, e⟩ ++ rangeBytes file ⟨e, t⟩ := by
  unfold rangeBytes
  simp only
  have hse : s.toNat ≤ e.toNat := by omega
  have het : e.toNat ≤ t.toNat := by omega
  generalize s.toNat = a at *
  generalize e.toNat = b at *
  generalize t.toNat = c at *
  apply List.ext_getElem?
  intro i
  simp only [List.getElem?_append, List.getElem?_drop, List.getElem?_take, List.length_drop, List.length_take]
  by_cases hi : i < min b file.length - a
  · rw [if_pos hi, if_pos (by omega), if_pos (by omega)]
  · rw [if_neg hi]
    by_cases hb : a + i < c
    · rw [if_pos hb]
      by_cases hl : b ≤ file.length
      · have : b + (i - (min b file.length - a)) = a + i := by omega
        rw [this, if_pos hb]
      · have h3 : file[a + i]? = none := by
          rw [List.getElem?_eq_none_iff]; omega
        rw [h3]; split
        · symm; rw [List.getElem?_eq_none_iff]; omega
        · rfl
    · rw [if_neg hb]
      by_cases hl : b ≤ file.length
      · rw [if_neg (by omega)]
      · split
        · symm; rw [List.getElem?_eq_none_iff]; omega
        · rfl

theorem rangeBytes_empty (file : Bytes) (s : Int) : rangeBytes file ⟨s, s⟩ = [] := by
  unfold rangeBytes; simp only
  rw [List.drop_eq_nil_iff, List.length_take]; omega

theorem readAt_ok {file : Bytes} {s n : Int} {b : Bytes} (h : readAt file s n = .ok b)
    (hl : (b.length : Int) = n) :
    0 ≤ s ∧ 0 ≤ n ∧ (n = 0 ∨ s + n ≤ file.length) ∧ b = rangeBytes file ⟨s, s + n⟩ := by
  unfold readAt at h
  split at h
  · cases h
  · rename_i hs
    simp only at h
    rw [if_neg (by omega)] at h
    injection h with h
    subst h
    simp only [List.length_take, List.length_drop] at hl
    refine ⟨by omega, by omega, by omega, ?_⟩
    unfold rangeBytes
    simp only
    rw [List.drop_take]
    congr 1
    omega

theorem readAt_of_wf {file : Bytes} {s e : Int} (h : WF file ⟨s, e⟩) :
    readAt file s (e - s) = .ok (rangeBytes file ⟨s, e⟩) ∧
      ((rangeBytes file ⟨s, e⟩).length : Int) = e - s := by
  obtain ⟨h0, h1, h2⟩ := h
  simp only at h0 h1 h2
  unfold readAt rangeBytes
  rw [if_neg (by omega)]
  simp only
  rw [if_neg (by omega)]
  constructor
  · rw [List.drop_take]; congr 2; omega
  · simp only [List.length_drop, List.length_take]; omega

/-! ### one successful step, in full -/

/-- Inversion of a successful step. -/
theorem step_next {fp fp' : FP} {iv : Range} (h : fp.step = .next iv fp') :
    IvFacts fp.blockSize fp.fingers fp.heap iv ∧
    0 ≤ iv.start ∧ iv.start ≤ iv.stop ∧ (iv.start = iv.stop ∨ iv.stop ≤ fp.file.length) ∧
    fp'.fingers = fp.fingers.map (Finger.feed fp.heap (rangeBytes fp.file iv) iv.start) ∧
    (consumeAll iv.start iv.stop fp.fingers fp.heap = (fp'.heap, none)) ∧
    fp'.file = fp.file ∧ fp'.blockSize = fp.blockSize ∧ fp'.next = fp.next := by
  unfold FP.step at h
  split at h
  · cases h
  · rename_i iv' hiv
    have facts := nextInterval_facts hiv
    split at h
    · cases h
    · rename_i block hr
      split at h
      · cases h
      · rename_i hlen
        have hlen : (block.length : Int) = iv'.stop - iv'.start := by omega
        have ⟨a1, a2, a3, a4⟩ := readAt_ok hr hlen
        have hb : hashBlock fp.heap block iv'.start iv'.stop fp.fingers
            = (fp.fingers.map (Finger.feed fp.heap block iv'.start), none) :=
          hashBlock_eq (fun f hf r hr => ⟨facts.lo f hf r hr, facts.hi f hf r hr, facts.mid f hf r hr⟩)
        rw [hb] at h
        simp only at h
        split at h
        · cases h
        · rename_i heap' hc
          injection h with h1 h2
          subst h1; subst h2
          have e1 : iv'.start + (iv'.stop - iv'.start) = iv'.stop := by omega
          rw [e1] at a3 a4
          have hce : ∀ (fs gs : List Finger) (hp : RangeHeap), fs.map Finger.ref = gs.map Finger.ref →
              consumeAll iv'.start iv'.stop fs hp = consumeAll iv'.start iv'.stop gs hp := by
            intro fs
            induction fs with
            | nil => intro gs hp hm; cases gs with
              | nil => rfl
              | cons g gs => simp at hm
            | cons f fs ih => intro gs hp hm; cases gs with
              | nil => simp at hm
              | cons g gs =>
                simp only [List.map_cons, List.cons.injEq] at hm
                unfold consumeAll
                rw [hm.1]
                split
                · rfl
                · exact ih _ _ hm.2
          refine ⟨facts, a1, by omega, by omega, ?_, ?_, rfl, rfl, rfl⟩
          · simp only [a4]
          · rw [← hc]
            apply hce
            simp [List.map_map, Function.comp_def]

/-- When the read succeeds and consumption is fine, the step is a `next`. -/
theorem step_of {fp : FP} {iv : Range} {heap' : RangeHeap}
    (hiv : nextInterval fp.blockSize fp.fingers fp.heap = some iv) (hwf : WF fp.file iv)
    (hc : consumeAll iv.start iv.stop
      (fp.fingers.map (Finger.feed fp.heap (rangeBytes fp.file iv) iv.start)) fp.heap = (heap', none)) :
    fp.step = .next iv { fp with
      fingers := fp.fingers.map (Finger.feed fp.heap (rangeBytes fp.file iv) iv.start), heap := heap' } := by
  have facts := nextInterval_facts hiv
  have ⟨h1, h2⟩ := readAt_of_wf (s := iv.start) (e := iv.stop) hwf
  unfold FP.step
  rw [hiv]
  simp only
  rw [h1]
  simp only
  rw [if_neg (by simp only [h2, ne_eq, not_true, not_false_eq_true])]
  rw [hashBlock_eq (fun f hf r hr => ⟨facts.lo f hf r hr, facts.hi f hf r hr, facts.mid f hf r hr⟩)]
  simp only
  rw [hc]

/-! ### the invariant for legitimate ranges -/

/-- Lists that may be consumed `k` times per step: well-formed, and ascending if shared. -/
def ListOK (file : Bytes) (k : Nat) (l : List Range) : Prop :=
  (∀ r ∈ l, WF file r) ∧ (k ≤ 1 ∨ Ascending l)

theorem consumeD_props {file : Bytes} {s e : Int} {k : Nat} {l : List Range} (hl : ListOK file k l) (hh : HeadOK s e l)
    (hse : s ≤ e) (h0 : 0 ≤ s) :
    ListOK file k (consumeD s e l) ∧
    (match l.head? with
      | some r => if s = r.start then rangeBytes file ⟨s, e⟩ ++ bytesOf file (consumeD s e l) = bytesOf file l
          else consumeD s e l = l
      | none => consumeD s e l = l) := by
  cases l with
  | nil => exact ⟨hl, rfl⟩
  | cons old rest =>
    obtain ⟨hw, ha⟩ := hl
    have ⟨a1, a2, a3⟩ := hh old rfl
    have hold := hw old List.mem_cons_self
    rw [consumeD_cons]
    by_cases h1 : old.start > s
    · rw [if_pos h1]
      refine ⟨⟨hw, ha⟩, ?_⟩
      simp only [List.head?_cons]
      rw [if_neg (by omega)]
      trivial
    · have hs : s = old.start := by omega
      rw [if_neg h1]
      by_cases h2 : old.stop = e
      · rw [if_pos h2]
        refine ⟨⟨fun r hr => hw r (List.mem_cons_of_mem _ hr), ?_⟩, ?_⟩
        · rcases ha with h | h
          · exact Or.inl h
          · exact Or.inr (List.Pairwise.of_cons h)
        · simp only [List.head?_cons, if_pos hs]
          subst h2; subst hs
          rfl
      · rw [if_neg h2]
        refine ⟨⟨?_, ?_⟩, ?_⟩
        · intro r hr
          rcases List.mem_cons.1 hr with h | h
          · subst h
            obtain ⟨b1, b2, b3⟩ := hold
            refine ⟨?_, ?_, ?_⟩ <;> simp only <;> omega
          · exact hw r (List.mem_cons_of_mem _ h)
        · rcases ha with h | h
          · exact Or.inl h
          · right
            unfold Ascending at h ⊢
            rw [List.pairwise_cons] at h ⊢
            exact ⟨fun b hb => h.1 b hb, h.2⟩
        · simp only [List.head?_cons, if_pos hs]
          unfold bytesOf
          simp only [List.flatMap_cons]
          rw [← List.append_assoc, ← rangeBytes_split file h0 hse (by omega), hs]

/-- After one consumption of an ascending list, the head is still compatible, and further consumption removes no bytes. -/
theorem consumeD_again {file : Bytes} {s e : Int} {l : List Range} (hw : ∀ r ∈ l, WF file r) (ha : Ascending l)
    (hh : HeadOK s e l) (hse : s ≤ e) :
    HeadOK s e (consumeD s e l) ∧
    ((∃ r, (consumeD s e l).head? = some r ∧ r.start = s) → s = e) := by
  cases l with
  | nil => exact ⟨hh, by simp [consumeD]⟩
  | cons old rest =>
    have ⟨a1, a2, a3⟩ := hh old rfl
    have hold := hw old List.mem_cons_self
    rw [consumeD_cons]
    by_cases h1 : old.start > s
    · rw [if_pos h1]
      refine ⟨hh, ?_⟩
      rintro ⟨r, hr, hs⟩
      simp only [List.head?_cons, Option.some.injEq] at hr
      subst hr; omega
    · rw [if_neg h1]
      by_cases h2 : old.stop = e
      · rw [if_pos h2]
        unfold Ascending at ha
        rw [List.pairwise_cons] at ha
        cases rest with
        | nil => exact ⟨by intro r hr; simp at hr, by simp⟩
        | cons n rest =>
          have hn := ha.1 n List.mem_cons_self
          have hwn := hw n (by simp)
          obtain ⟨_, c2, _⟩ := hwn
          constructor
          · intro r hr
            simp only [List.head?_cons, Option.some.injEq] at hr
            subst hr
            exact ⟨by omega, by omega, fun _ => by omega⟩
          · rintro ⟨r, hr, hs⟩
            simp only [List.head?_cons, Option.some.injEq] at hr
            subst hr; omega
      · rw [if_neg h2]
        constructor
        · intro r hr
          simp only [List.head?_cons, Option.some.injEq] at hr
          subst hr
          exact ⟨hse, by simp only; omega, fun _ => Int.le_refl _⟩
        · rintro ⟨r, hr, hs⟩
          simp only [List.head?_cons, Option.some.injEq] at hr
          subst hr; simp only at hs; omega

/-- The bytes of the interval that belong to this list. -/
def share (file : Bytes) (s e : Int) (l : List Range) : Bytes :=
  match l.head? with
  | some r => if s = r.start then rangeBytes file ⟨s, e⟩ else []
  | none => []

theorem consumeD_share {file : Bytes} {s e : Int} {k : Nat} {l : List Range} (hl : ListOK file k l) (hh : HeadOK s e l)
    (hse : s ≤ e) (h0 : 0 ≤ s) :
    ListOK file k (consumeD s e l) ∧ share file s e l ++ bytesOf file (consumeD s e l) = bytesOf file l := by
  have ⟨a, b⟩ := consumeD_props hl hh hse h0
  refine ⟨a, ?_⟩
  unfold share
  split at b
  · split at b
    · rename_i r hr hs
      simpa [hr, hs] using b
    · rename_i r hr hs
      simpa [hr, hs] using congrArg (bytesOf file) b
  · rename_i hr
    simpa [hr] using congrArg (bytesOf file) b

theorem consumeK_asc {file : Bytes} {s e : Int} (hse : s ≤ e) (h0 : 0 ≤ s) {l : List Range} (hw : ∀ r ∈ l, WF file r)
    (ha : Ascending l) (hh : HeadOK s e l) : ∀ j,
    HeadOK s e (consumeK s e j l) ∧ (∀ r ∈ consumeK s e j l, WF file r) ∧ Ascending (consumeK s e j l) ∧
    (1 ≤ j → (share file s e l ++ bytesOf file (consumeK s e j l) = bytesOf file l ∧
      share file s e (consumeK s e j l) = []))
  | 0 => ⟨hh, hw, ha, by omega⟩
  | j + 1 => by
    have ⟨i1, i2, i3, i4⟩ := consumeK_asc hse h0 hw ha hh j
    rw [consumeK_succ]
    have ⟨a, b⟩ := consumeD_share (k := 2) (l := consumeK s e j l) ⟨i2, Or.inr i3⟩ i1 hse h0
    have ⟨c, d⟩ := consumeD_again i2 i3 i1 hse
    have a2 : Ascending (consumeD s e (consumeK s e j l)) := by rcases a.2 with h | h
                                                                · omega
                                                                · exact h
    refine ⟨c, a.1, a2, fun _ => ⟨?_, ?_⟩⟩
    · cases j with
      | zero => exact b
      | succ j =>
        have ⟨i5, i6⟩ := i4 (by omega)
        rw [i6] at b
        simp only [List.nil_append] at b
        rw [b]; exact i5
    · unfold share
      split
      · split
        · rename_i r hr hs
          have := d ⟨r, hr, hs.symm⟩
          subst this
          exact rangeBytes_empty _ _
        · rfl
      · rfl

/-- `consumeK` for a list consumed `k` times. -/
theorem consumeK_ok {file : Bytes} {s e : Int} (hse : s ≤ e) (h0 : 0 ≤ s) {k : Nat} {l : List Range}
    (hl : ListOK file k l) (hh : HeadOK s e l) :
    (∀ j, j < k → HeadOK s e (consumeK s e j l)) ∧ ListOK file k (consumeK s e k l) ∧
    (1 ≤ k → share file s e l ++ bytesOf file (consumeK s e k l) = bytesOf file l) := by
  rcases hl.2 with h | h
  · match k, h with
    | 0, _ => exact ⟨by omega, hl, by omega⟩
    | 1, _ =>
      have ⟨a, b⟩ := consumeD_share hl hh hse h0
      refine ⟨?_, a, fun _ => b⟩
      intro j hj
      have : j = 0 := by omega
      subst this; exact hh
  · have hk := consumeK_asc hse h0 hl.1 h hh
    refine ⟨fun j _ => (hk j).1, ⟨(hk k).2.1, Or.inr (hk k).2.2.1⟩, fun h1 => ((hk k).2.2.2 h1).1⟩

/-! ### termination measure -/

def rangeCost (r : Range) : Nat := (r.stop - r.start).toNat + 1

def listCost (l : List Range) : Nat := (l.map rangeCost).sum

def cost (heap : RangeHeap) (fs : List Finger) : Nat := (fs.map (fun f => listCost (heap f.ref))).sum

theorem consumeD_cost_le {s e : Int} {l : List Range} (hh : HeadOK s e l) (hse : s ≤ e) :
    listCost (consumeD s e l) ≤ listCost l := by
  cases l with
  | nil => exact Nat.le_refl _
  | cons old rest =>
    have ⟨a1, a2, a3⟩ := hh old rfl
    rw [consumeD_cons]
    split
    · exact Nat.le_refl _
    · split
      · simp [listCost]
      · simp only [listCost, List.map_cons, List.sum_cons, rangeCost]; omega

theorem consumeD_cost_lt {s e : Int} {l : List Range} (hh : HeadOK s e l) (hse : s ≤ e) {r} (hr : l.head? = some r)
    (hrs : r.start = s) (h : s < e ∨ r.stop = e) : listCost (consumeD s e l) < listCost l := by
  cases l with
  | nil => cases hr
  | cons old rest =>
    simp only [List.head?_cons, Option.some.injEq] at hr
    subst hr
    have ⟨a1, a2, a3⟩ := hh old rfl
    rw [consumeD_cons]
    rw [if_neg (by omega)]
    split
    · simp [listCost, rangeCost]
    · rename_i hne
      simp only [listCost, List.map_cons, List.sum_cons, rangeCost]
      rcases h with h | h <;> omega

theorem consumeK_cost {s e : Int} (hse : s ≤ e) : ∀ (k : Nat) (l : List Range),
    (∀ j, j < k → HeadOK s e (consumeK s e j l)) → listCost (consumeK s e k l) ≤ listCost l ∧
    (1 ≤ k → ∀ r, l.head? = some r → r.start = s → (s < e ∨ r.stop = e) → listCost (consumeK s e k l) < listCost l)
  | 0, _, _ => ⟨Nat.le_refl _, by omega⟩
  | k + 1, l, h => by
    have hh : HeadOK s e l := h 0 (by omega)
    have h1 := consumeD_cost_le hh hse
    have ih := consumeK_cost hse k (consumeD s e l) (fun j hj => h (j+1) (by omega))
    refine ⟨Nat.le_trans ih.1 h1, fun _ r hr hrs hx => ?_⟩
    exact Nat.lt_of_le_of_lt ih.1 (consumeD_cost_lt hh hse hr hrs hx)

theorem sum_map_le {α : Type} (f g : α → Nat) : ∀ (l : List α), (∀ x ∈ l, f x ≤ g x) →
    (l.map f).sum ≤ (l.map g).sum
  | [], _ => Nat.le_refl _
  | x :: l, h => by
    have := sum_map_le f g l (fun y hy => h y (List.mem_cons_of_mem _ hy))
    have := h x List.mem_cons_self
    simp only [List.map_cons, List.sum_cons]; omega

theorem sum_map_lt {α : Type} (f g : α → Nat) : ∀ (l : List α), (∀ x ∈ l, f x ≤ g x) →
    (∃ x ∈ l, f x < g x) → (l.map f).sum < (l.map g).sum
  | [], _, ⟨x, hx, _⟩ => by cases hx
  | x :: l, h, ⟨y, hy, hlt⟩ => by
    have h1 := sum_map_le f g l (fun y hy => h y (List.mem_cons_of_mem _ hy))
    have h2 := h x List.mem_cons_self
    simp only [List.map_cons, List.sum_cons]
    rcases List.mem_cons.1 hy with rfl | hy
    · omega
    · have := sum_map_lt f g l (fun y hy => h y (List.mem_cons_of_mem _ hy)) ⟨y, hy, hlt⟩
      omega

/-! ### the loop -/

/-- All lists used by the fingers are legitimate, and the shared ones ascending. -/
def HeapOK (fp : FP) : Prop := ∀ f ∈ fp.fingers, ListOK fp.file (refCount f.ref fp.fingers) (fp.heap f.ref)

/-- What one finger will have fed to its hashers when its list is used up. -/
def Finger.target (file : Bytes) (heap : RangeHeap) (f : Finger) : Finger :=
  f.update (bytesOf file (heap f.ref))

theorem Finger.update_update (f : Finger) (a b : Bytes) : (f.update a).update b = f.update (a ++ b) := by
  unfold Finger.update; simp [List.map_map, Function.comp_def, List.append_assoc]

theorem Finger.update_nil (f : Finger) : f.update [] = f := by
  unfold Finger.update; simp

theorem Finger.feed_eq (file : Bytes) (heap : RangeHeap) (s e : Int) (f : Finger) :
    Finger.feed heap (rangeBytes file ⟨s, e⟩) s f = f.update (share file s e (heap f.ref)) := by
  unfold Finger.feed share Finger.currentRange
  cases (heap f.ref).head? with
  | none => simp [Finger.update_nil]
  | some r => by_cases h : s = r.start <;> simp [h, Finger.update_nil]

theorem refCount_pos {f : Finger} {fs : List Finger} (h : f ∈ fs) : 1 ≤ refCount f.ref fs := by
  unfold refCount
  exact List.count_pos_iff.2 (List.mem_map_of_mem h)

theorem exists_of_refCount {r : Nat} {fs : List Finger} (h : 0 < refCount r fs) : ∃ f ∈ fs, f.ref = r := by
  unfold refCount at h
  rw [List.count_pos_iff, List.mem_map] at h
  exact h

theorem refCount_feed (r : Nat) (fs : List Finger) (heap block s) :
    refCount r (fs.map (Finger.feed heap block s)) = refCount r fs := by
  unfold refCount; simp [List.map_map, Function.comp_def]

/-- A step from a good state with positive block size: progress and preservation. -/
theorem step_good {fp : FP} (hok : HeapOK fp) (hbs : 0 < fp.blockSize) :
    (fp.step = .done ∧ ∀ f ∈ fp.fingers, fp.heap f.ref = []) ∨
    (∃ iv fp', fp.step = .next iv fp' ∧ HeapOK fp' ∧ cost fp'.heap fp'.fingers < cost fp.heap fp.fingers ∧
      fp'.fingers.map (Finger.target fp'.file fp'.heap) = fp.fingers.map (Finger.target fp.file fp.heap) ∧
      fp'.file = fp.file ∧ fp'.blockSize = fp.blockSize ∧ fp'.next = fp.next ∧
      (∀ r, refCount r fp.fingers = 0 → fp'.heap r = fp.heap r)) := by
  cases hn : nextInterval fp.blockSize fp.fingers fp.heap with
  | none =>
    left
    refine ⟨?_, nextInterval_none hn⟩
    unfold FP.step; rw [hn]
  | some iv =>
    right
    have F := nextInterval_facts hn
    have wfcur : ∀ f ∈ fp.fingers, ∀ r, f.currentRange fp.heap = some r → WF fp.file r := by
      intro f hf r hr
      exact (hok f hf).1 r (List.mem_of_mem_head? (by rw [Finger.currentRange] at hr; rw [hr]; rfl))
    obtain ⟨f0, hf0, r0, hr0, hs0⟩ := F.ex
    have w0 := wfcur f0 hf0 r0 hr0
    have h0 : 0 ≤ iv.start := by have := w0.1; omega
    have hse : iv.start ≤ iv.stop := by
      rcases F.which with h | ⟨f, hf, r, hr, h⟩ | ⟨f, hf, r, hr, hne, h⟩
      · omega
      · have := (wfcur f hf r hr).2.1; have := F.lo f hf r hr; omega
      · have := F.lo f hf r hr; omega
    have hwf : WF fp.file iv := by
      refine ⟨h0, hse, ?_⟩
      have := w0.2.2; have := F.hi f0 hf0 r0 hr0
      omega
    have hH : ∀ f ∈ fp.fingers, HeadOK iv.start iv.stop (fp.heap f.ref) := fun f hf r hr =>
      ⟨F.lo f hf r hr, F.hi f hf r hr, F.mid f hf r hr⟩
    have hK := fun f (hf : f ∈ fp.fingers) => consumeK_ok hse h0 (hok f hf) (hH f hf)
    let fs' := fp.fingers.map (Finger.feed fp.heap (rangeBytes fp.file iv) iv.start)
    have hc : consumeAll iv.start iv.stop fs' fp.heap =
        (fun r => consumeK iv.start iv.stop (refCount r fp.fingers) (fp.heap r), none) := by
      rw [consumeAll_eq]
      · simp [fs', refCount_feed]
      · intro r j hj
        rw [refCount_feed] at hj
        obtain ⟨f, hf, rfl⟩ := exists_of_refCount (Nat.lt_of_le_of_lt (Nat.zero_le _) hj)
        exact (hK f hf).1 j hj
    refine ⟨iv, _, step_of hn hwf hc, ?_, ?_, ?_, rfl, rfl, rfl, ?_⟩
    · intro g hg
      simp only [List.mem_map] at hg
      obtain ⟨f, hf, rfl⟩ := hg
      simp only [Finger.feed_ref, refCount_feed]
      exact (hK f hf).2.1
    · unfold cost
      simp only [List.map_map]
      apply sum_map_lt
      · intro f hf
        simp only [Function.comp, Finger.feed_ref]
        exact (consumeK_cost hse _ _ (hK f hf).1).1
      · -- the finger that progresses
        have : ∃ f ∈ fp.fingers, ∃ r, (fp.heap f.ref).head? = some r ∧ r.start = iv.start ∧
            (iv.start < iv.stop ∨ r.stop = iv.stop) := by
          by_cases hlt : iv.start < iv.stop
          · exact ⟨f0, hf0, r0, hr0, hs0, Or.inl hlt⟩
          · rcases F.which with h | ⟨f, hf, r, hr, h⟩ | ⟨f, hf, r, hr, hne, h⟩
            · omega
            · have := (wfcur f hf r hr).2.1; have := F.lo f hf r hr
              exact ⟨f, hf, r, hr, by omega, Or.inr h.symm⟩
            · have := F.lo f hf r hr; omega
        obtain ⟨f, hf, r, hr, hrs, hx⟩ := this
        refine ⟨f, hf, ?_⟩
        simp only [Function.comp, Finger.feed_ref]
        exact (consumeK_cost hse _ _ (hK f hf).1).2 (refCount_pos hf) r hr hrs hx
    · simp only [List.map_map]
      apply List.map_congr_left
      intro f hf
      simp only [Function.comp, Finger.target]
      have := Finger.feed_eq fp.file fp.heap iv.start iv.stop f
      rw [show (⟨iv.start, iv.stop⟩ : Range) = iv from rfl] at this
      simp only [Finger.feed_ref]
      rw [this, Finger.update_update, (hK f hf).2.2 (refCount_pos hf)]
    · intro r hr
      simp only [hr, consumeK]

/-- The loop from a good state ends, with every list used up and every hasher having seen exactly its bytes. -/
theorem loop_good : ∀ (fuel : Nat) (fp : FP), HeapOK fp → 0 < fp.blockSize → cost fp.heap fp.fingers < fuel →
    ∃ fp', fp.loop fuel = some (fp', none) ∧ fp'.fingers = fp.fingers.map (Finger.target fp.file fp.heap) ∧
      (∀ f ∈ fp.fingers, fp'.heap f.ref = []) ∧ fp'.file = fp.file ∧ fp'.blockSize = fp.blockSize ∧
      fp'.next = fp.next ∧ (∀ r, refCount r fp.fingers = 0 → fp'.heap r = fp.heap r)
  | 0, _, _, _, h => by omega
  | fuel + 1, fp, hok, hbs, hcost => by
    rcases step_good hok hbs with ⟨hs, he⟩ | ⟨iv, fp1, hs, hok1, hc1, ht, hf, hb, hnx, hother⟩
    · refine ⟨fp, by simp [FP.loop, hs], ?_, he, rfl, rfl, rfl, fun _ _ => rfl⟩
      conv => lhs; rw [← List.map_id fp.fingers]
      apply List.map_congr_left
      intro f hf
      simp [Finger.target, he f hf, bytesOf, Finger.update_nil]
    · obtain ⟨fp', h1, h2, h3, h4, h5, h6, h7⟩ := loop_good fuel fp1 hok1 (by omega) (by omega)
      have hrefs : fp1.fingers.map Finger.ref = fp.fingers.map Finger.ref := by
        have := congrArg (List.map Finger.ref) ht
        simpa [List.map_map, Function.comp_def, Finger.target, Finger.update] using this
      refine ⟨fp', by simp [FP.loop, hs, h1], by rw [h2, ht], ?_, by rw [h4, hf], by rw [h5, hb], by rw [h6, hnx], ?_⟩
      · intro f hf'
        have : f.ref ∈ fp1.fingers.map Finger.ref := by rw [hrefs]; exact List.mem_map_of_mem hf'
        obtain ⟨g, hg, hgr⟩ := List.mem_map.1 this
        rw [← hgr]; exact h3 g hg
      · intro r hr
        rw [← hother r hr]
        apply h7
        unfold refCount at hr ⊢
        rw [hrefs]; exact hr

/-! ### collecting the results -/

theorem collect_ok (H : String → Bytes → Bytes) (flen : Int) (heap : RangeHeap) : ∀ (fs : List Finger) (res : Hashes),
    (∀ f ∈ fs, heap f.ref = []) →
    collect H flen heap fs res = .ok (Dict.update res (fs.map (fun f =>
      (f.description, Dict.ofPairs (f.hashers.map (fun h => (h.name, H h.name h.seen)))))))
  | [], _, _ => rfl
  | f :: fs, res, h => by
    unfold collect
    have hf : leftoverBad flen (heap f.ref) = false := by simp [leftoverBad, h f List.mem_cons_self]
    rw [hf]
    simp only [Bool.false_eq_true, if_false]
    rw [collect_ok H flen heap fs _ (fun g hg => h g (List.mem_cons_of_mem _ hg))]
    rfl

/-- More fuel does not change a finished run. -/
theorem loop_mono : ∀ (n m : Nat) (fp : FP) (r), fp.loop n = some r → n ≤ m → fp.loop m = some r
  | 0, _, _, _, h, _ => by cases h
  | n + 1, 0, _, _, _, hm => by omega
  | n + 1, m + 1, fp, r, h, hm => by
    unfold FP.loop at h ⊢
    cases hs : fp.step with
    | done => rw [hs] at h; exact h
    | raised e fp' => rw [hs] at h; exact h
    | next iv fp' => rw [hs] at h; exact loop_mono n m fp' r h (by omega)

theorem hashes_mono {H n m fp r} (h : FP.hashes H n fp = some r) (hm : n ≤ m) : FP.hashes H m fp = some r := by
  unfold FP.hashes at h ⊢
  cases hl : fp.loop n with
  | none => rw [hl] at h; cases h
  | some x => rw [loop_mono n m fp x hl hm]; rw [hl] at h; exact h

/-- The complete run of `hashes()` from a good state. -/
theorem hashes_good (H : String → Bytes → Bytes) (fp : FP) (fuel : Nat) (hok : HeapOK fp) (hbs : 0 < fp.blockSize)
    (hc : cost fp.heap fp.fingers < fuel) :
    ∃ fp', fp.hashes H fuel = some (.ok (Dict.ofPairs (fp.fingers.map (fun f =>
        (f.description, Dict.ofPairs (f.hashers.map (fun h =>
          (h.name, H h.name (h.seen ++ bytesOf fp.file (fp.heap f.ref))))))))), fp') ∧
      fp'.fingers = [] ∧ fp'.file = fp.file ∧ fp'.blockSize = fp.blockSize ∧ fp'.next = fp.next ∧
      (∀ f ∈ fp.fingers, fp'.heap f.ref = []) ∧ (∀ r, refCount r fp.fingers = 0 → fp'.heap r = fp.heap r) := by
  obtain ⟨fp1, h1, h2, h3, h4, h5, h6, h7⟩ := loop_good fuel fp hok hbs hc
  refine ⟨{ fp1 with fingers := [] }, ?_, rfl, h4, h5, h6, h3, h7⟩
  unfold FP.hashes
  rw [h1]
  simp only
  rw [collect_ok]
  · simp only [h2, List.map_map]
    congr 3
    unfold Dict.ofPairs
    congr 1
    apply List.map_congr_left
    intro f hf
    simp [Finger.target, Finger.update, List.map_map, Function.comp_def]
  · intro f hf
    rw [h2] at hf
    obtain ⟨g, hg, rfl⟩ := List.mem_map.1 hf
    exact h3 g hg

end Signify
