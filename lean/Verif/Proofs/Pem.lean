/-
Lemmas on PEM.
-/
import Verif.Spec.Pem
import Verif.Proofs.DerFrom

set_option autoImplicit false

namespace Signify.Pem

open Signify Spec Asn1

/-! ### Lines -/

theorem splitLines_line (l : Bytes) (h : OneLine l) (cur rest : Bytes) :
    splitLines cur (l ++ rest) = splitLines (l.reverse ++ cur) rest := by
  induction l generalizing cur with
  | nil => simp
  | cons b l ih =>
    obtain ⟨h1, h2⟩ := h
    simp only [List.mem_cons, not_or] at h1 h2
    rw [List.cons_append, splitLines]
    · rw [ih ⟨h1.2, h2.2⟩]; simp
    · intro l' h; exact absurd h.symm h2.1
    · intro h; exact absurd h.symm h2.1
    · intro h; exact absurd h.symm h1.1

/-- Splitting gives the lines. -/
theorem splitLines_of {text : Bytes} {ls : List Bytes} (h : LinesOf text ls) : splitLines [] text = ls := by
  induction h with
  | none => rfl
  | @last l h1 h2 =>
    have := splitLines_line l h2 [] []
    rw [List.append_nil] at this
    rw [this]
    simp [splitLines, h1]
  | @line l nl rest ls h1 h2 _ ih =>
    rw [List.append_assoc, splitLines_line l h1]
    rcases h2 with rfl | rfl | ⟨rfl, h⟩
    · simp [splitLines, ih]
    · simp [splitLines, ih]
    · cases rest with
      | nil => simp [splitLines] at ih ⊢; exact ih
      | cons b r =>
        simp only [List.head?_cons, ne_eq, Option.some.injEq] at h
        rw [List.singleton_append, splitLines]
        · simp [ih]
        · intro l' e; injection e with e _; exact h e

/-- Any text has lines. -/
theorem linesOf_split (cur text : Bytes) (h : OneLine cur) : LinesOf (cur.reverse ++ text) (splitLines cur text) := by
  have hr : ∀ {c : Bytes}, OneLine c → OneLine c.reverse := fun h => ⟨by simpa using h.1, by simpa using h.2⟩
  have h0 : OneLine [] := ⟨by simp, by simp⟩
  fun_induction splitLines cur text with
  | case1 => exact .none
  | case2 cur hne => rw [List.append_nil]; exact .last (by simpa using hne) (hr h)
  | case3 cur l ih =>
    have := LinesOf.line (nl := [0x0D, 0x0A]) (hr h) (.inr (.inl rfl)) (ih h0)
    simpa using this
  | case4 cur l hl ih =>
    have := LinesOf.line (nl := [0x0D]) (hr h) (.inr (.inr ⟨rfl, ?_⟩)) (ih h0)
    · simpa using this
    · cases l with
      | nil => simp
      | cons b l => intro e; simp at e; exact hl l (by rw [e])
  | case5 cur l ih =>
    have := LinesOf.line (nl := [0x0A]) (hr h) (.inl rfl) (ih h0)
    simpa using this
  | case6 cur b l h1 h2 h3 ih =>
    have := ih ⟨by simp only [List.mem_cons, not_or]; exact ⟨fun e => h3 e.symm, h.1⟩, by
      simp only [List.mem_cons, not_or]; exact ⟨fun e => h2 e.symm, h.2⟩⟩
    simpa using this

theorem linesOf_iff {text : Bytes} {ls : List Bytes} : LinesOf text ls ↔ splitLines [] text = ls := by
  constructor
  · exact splitLines_of
  · rintro rfl
    have := linesOf_split [] text ⟨by simp, by simp⟩
    simpa using this

/-! ### Base64 -/

theorem letter_lt {n : Nat} (h : n < 64) : b64Value (b64Letter n) = some n ∧ b64Letter n ≠ 0x3D ∧ b64Letter n ≠ 0x3A ∧
    b64Letter n ≠ 0x2D ∧ b64Letter n ≠ 0x0A ∧ b64Letter n ≠ 0x0D := by
  have : ∀ n : Fin 64, b64Value (b64Letter n.1) = some n.1 ∧ b64Letter n.1 ≠ 0x3D ∧ b64Letter n.1 ≠ 0x3A ∧
    b64Letter n.1 ≠ 0x2D ∧ b64Letter n.1 ≠ 0x0A ∧ b64Letter n.1 ≠ 0x0D := by decide +kernel
  exact this ⟨n, h⟩

theorem b64Loop_base64 (d : Bytes) : ∀ out, b64Loop 0 0 0 out (base64 d) = .ok (out.reverse ++ d) := by
  have step : ∀ (n pos left pads : Nat) (out l : Bytes), n < 64 → b64Loop pos left pads out (b64Letter n :: l) =
        if pos = 0 then b64Loop 1 n 0 out l
        else if pos = 1 then b64Loop 2 (n % 16) 0 (UInt8.ofNat (left * 4 + n / 16) :: out) l
        else if pos = 2 then b64Loop 3 (n % 4) 0 (UInt8.ofNat (left * 16 + n / 4) :: out) l
        else b64Loop 0 0 0 (UInt8.ofNat (left * 64 + n) :: out) l := by
    intro n pos left pads out l hn
    obtain ⟨h1, h2, -⟩ := letter_lt hn
    rw [b64Loop, if_neg h2, h1]
  have e : ∀ (a : UInt8) (n : Nat), n = a.toNat → UInt8.ofNat n = a := by
    rintro a n rfl; simp
  fun_induction base64 d with
  | case1 => intro out; simp [b64Loop]
  | case2 a =>
    intro out
    have := a.toNat_lt
    rw [step _ _ _ _ _ _ (by omega), if_pos rfl, step _ _ _ _ _ _ (by omega), if_neg (by omega), if_pos rfl,
      e a _ (by omega)]
    simp [b64Loop]
  | case3 a b =>
    intro out
    have := a.toNat_lt
    have := b.toNat_lt
    rw [step _ _ _ _ _ _ (by omega), if_pos rfl, step _ _ _ _ _ _ (by omega), if_neg (by omega), if_pos rfl,
      e a _ (by omega), step _ _ _ _ _ _ (by omega), if_neg (by omega), if_neg (by omega), if_pos rfl, e b _ (by omega)]
    simp [b64Loop]
  | case4 a b c l ih =>
    intro out
    have := a.toNat_lt
    have := b.toNat_lt
    have := c.toNat_lt
    rw [step _ _ _ _ _ _ (by omega), if_pos rfl, step _ _ _ _ _ _ (by omega), if_neg (by omega), if_pos rfl,
      e a _ (by omega), step _ _ _ _ _ _ (by omega), if_neg (by omega), if_neg (by omega), if_pos rfl, e b _ (by omega),
      step _ _ _ _ _ _ (by omega), if_neg (by omega), if_neg (by omega), if_neg (by omega), e c _ (by omega), ih]
    simp

theorem b64decode_base64 (d : Bytes) : b64decode (base64 d) = .ok d := by
  have := b64Loop_base64 d []
  simpa [b64decode] using this

theorem base64_chars (d : Bytes) : ∀ b ∈ base64 d, b ≠ 0x3A ∧ b ≠ 0x2D ∧ b ≠ 0x0A ∧ b ≠ 0x0D := by
  have hl : ∀ n, n < 64 → b64Letter n ≠ 0x3A ∧ b64Letter n ≠ 0x2D ∧ b64Letter n ≠ 0x0A ∧ b64Letter n ≠ 0x0D :=
    fun n h => (letter_lt h).2.2
  fun_induction base64 d with
  | case1 => intro b hb; cases hb
  | case2 a =>
    have := a.toNat_lt
    intro b hb
    simp only [List.mem_cons, List.not_mem_nil, or_false] at hb
    rcases hb with rfl | rfl | rfl | rfl
    · exact hl _ (by omega)
    · exact hl _ (by omega)
    · decide
    · decide
  | case3 a b =>
    have := a.toNat_lt
    have := b.toNat_lt
    intro b' hb
    simp only [List.mem_cons, List.not_mem_nil, or_false] at hb
    rcases hb with rfl | rfl | rfl | rfl
    · exact hl _ (by omega)
    · exact hl _ (by omega)
    · exact hl _ (by omega)
    · decide
  | case4 a b c l ih =>
    have := a.toNat_lt
    have := b.toNat_lt
    have := c.toNat_lt
    intro b' hb
    simp only [List.mem_cons] at hb
    rcases hb with rfl | rfl | rfl | rfl | hb
    · exact hl _ (by omega)
    · exact hl _ (by omega)
    · exact hl _ (by omega)
    · exact hl _ (by omega)
    · exact ih b' hb

/-! ### Blocks -/

theorem labelChar_iff (b : UInt8) : labelChar b = true ↔ b ∈ asciiText "ABCDEFGHIJKLMNOPQRSTUVWXYZ0123456789 " := by
  have : ∀ n : Fin 256, labelChar (UInt8.ofNat n.1) = true ↔ UInt8.ofNat n.1 ∈ asciiText "ABCDEFGHIJKLMNOPQRSTUVWXYZ0123456789 " := by
    decide +kernel
  have h := this ⟨b.toNat, b.toNat_lt⟩
  simpa using h

theorem takeWhile_label {l rest : Bytes} (h : ∀ b ∈ l, labelChar b = true) (hr : ∀ b, rest.head? = some b → labelChar b = false) :
    (l ++ rest).takeWhile labelChar = l ∧ (l ++ rest).dropWhile labelChar = rest := by
  induction l with
  | nil =>
    cases rest with
    | nil => simp
    | cons b r => have := hr b rfl; simp [this]
  | cons a l ih =>
    have h1 := h a (List.mem_cons_self ..)
    have h2 := ih (fun b hb => h b (List.mem_cons_of_mem _ hb))
    simp [h1, h2]

theorem mem_takeWhile {p : UInt8 → Bool} {l : Bytes} : ∀ b ∈ l.takeWhile p, p b = true := by
  induction l with
  | nil => intro b hb; cases hb
  | cons a l ih =>
    intro b hb
    rw [List.takeWhile_cons] at hb
    split at hb
    · rcases List.mem_cons.1 hb with rfl | hb
      · assumption
      · exact ih b hb
    · cases hb

theorem labelEnd_iff (l : Bytes) : labelEnd l = true ↔ ∃ label closing rest, closing ∈ [asciiText "-----", asciiText " ----"] ∧
    IsLabel label ∧ l = label ++ closing ++ rest := by
  have hd5 : dashes 5 = asciiText "-----" := by decide
  have hd4 : (0x20 : UInt8) :: dashes 4 = asciiText " ----" := by decide
  constructor
  · intro h
    have hl := List.takeWhile_append_dropWhile (p := labelChar) (l := l)
    unfold labelEnd at h
    simp only [Bool.or_eq_true, Bool.and_eq_true, bne_iff_ne, ne_eq, decide_eq_true_eq, beq_iff_eq] at h
    rcases h with ⟨h1, h2⟩ | ⟨⟨h1, h2⟩, h3⟩
    · obtain ⟨t, ht⟩ := List.isPrefixOf_iff_prefix.1 h2
      refine ⟨l.takeWhile labelChar, dashes 5, t, by simp [hd5], ⟨h1, fun b hb => (labelChar_iff b).1 (mem_takeWhile b hb)⟩, ?_⟩
      rw [List.append_assoc, ht, hl]
    · obtain ⟨t, ht⟩ := List.isPrefixOf_iff_prefix.1 h3
      have hne : l.takeWhile labelChar ≠ [] := by intro e; rw [e] at h1; simp at h1
      have hlast := List.dropLast_concat_getLast hne
      rw [List.getLast?_eq_some_getLast hne] at h2
      injection h2 with h2
      rw [h2] at hlast
      refine ⟨(l.takeWhile labelChar).dropLast, 0x20 :: dashes 4, t, by simp [hd4],
        ⟨?_, fun b hb => (labelChar_iff b).1 (mem_takeWhile b (List.dropLast_subset _ hb))⟩, ?_⟩
      · intro e
        have : (l.takeWhile labelChar).dropLast.length = 0 := by rw [e]; rfl
        rw [List.length_dropLast] at this
        omega
      · calc l = _ := hl.symm
          _ = ((l.takeWhile labelChar).dropLast ++ [0x20]) ++ (dashes 4 ++ t) := by rw [hlast, ht]
          _ = _ := by simp
  · rintro ⟨label, closing, rest, hc, ⟨h1, h2⟩, rfl⟩
    have h2' : ∀ b ∈ label, labelChar b = true := fun b hb => (labelChar_iff b).2 (h2 b hb)
    simp only [List.mem_cons, List.not_mem_nil, or_false] at hc
    unfold labelEnd
    rcases hc with rfl | rfl
    · obtain ⟨e1, e2⟩ := takeWhile_label (rest := asciiText "-----" ++ rest) h2' (by
        intro b hb
        rw [show asciiText "-----" = (0x2D : UInt8) :: dashes 4 by decide] at hb
        simp at hb; subst hb; decide)
      rw [List.append_assoc, e1, e2]
      simp [h1, ← hd5]
    · obtain ⟨e1, e2⟩ := takeWhile_label (l := label ++ [0x20]) (rest := dashes 4 ++ rest) (by
        intro b hb
        rcases List.mem_append.1 hb with hb | hb
        · exact h2' b hb
        · rw [List.mem_singleton.1 hb]; decide) (by
        intro b hb
        rw [show dashes 4 = (0x2D : UInt8) :: dashes 3 by decide] at hb
        simp at hb; subst hb; decide)
      have e0 : label ++ asciiText " ----" ++ rest = label ++ [0x20] ++ (dashes 4 ++ rest) := by
        rw [← hd4]; simp
      rw [e0, e1, e2]
      have : 0 < label.length := List.length_pos_iff.2 h1
      simp
      omega

theorem isBegin_iff (line : Bytes) : isBegin line = true ↔ StartsBlock line := by
  have w5 : dashes 5 ++ beginWord = asciiText "-----" ++ asciiText "BEGIN " := by decide +kernel
  have w4 : (dashes 4 ++ [0x20]) ++ beginWord = asciiText "---- " ++ asciiText "BEGIN " := by decide +kernel
  have n5 : (asciiText "-----" ++ asciiText "BEGIN ").length = 11 := by decide +kernel
  have n4 : (asciiText "---- " ++ asciiText "BEGIN ").length = 11 := by decide +kernel
  unfold isBegin StartsBlock
  rw [Bool.and_eq_true, Bool.or_eq_true, labelEnd_iff, List.isPrefixOf_iff_prefix, List.isPrefixOf_iff_prefix, w5, w4]
  constructor
  · rintro ⟨h1 | h1, label, closing, rest, h2, h3, h4⟩
    · obtain ⟨t, rfl⟩ := h1
      rw [← n5, List.drop_left] at h4
      exact ⟨_, label, closing, rest, List.mem_cons_self .., h2, h3, by rw [h4]; simp⟩
    · obtain ⟨t, rfl⟩ := h1
      rw [← n4, List.drop_left] at h4
      exact ⟨_, label, closing, rest, List.mem_cons_of_mem _ (List.mem_cons_self ..), h2, h3, by rw [h4]; simp⟩
  · rintro ⟨opening, label, closing, rest, ho, h2, h3, rfl⟩
    simp only [List.mem_cons, List.not_mem_nil, or_false] at ho
    rcases ho with rfl | rfl
    · refine ⟨.inl ⟨label ++ closing ++ rest, by simp⟩, label, closing, rest, by simpa using h2, h3, ?_⟩
      rw [show asciiText "-----" ++ asciiText "BEGIN " ++ label ++ closing ++ rest =
        (asciiText "-----" ++ asciiText "BEGIN ") ++ (label ++ closing ++ rest) by simp, ← n5, List.drop_left]
    · refine ⟨.inr ⟨label ++ closing ++ rest, by simp⟩, label, closing, rest, by simpa using h2, h3, ?_⟩
      rw [show asciiText "---- " ++ asciiText "BEGIN " ++ label ++ closing ++ rest =
        (asciiText "---- " ++ asciiText "BEGIN ") ++ (label ++ closing ++ rest) by simp, ← n4, List.drop_left]

theorem unarmor_trash {ls : List Bytes} (h : ∀ l ∈ ls, ¬ StartsBlock l) (found : Bool) (rest : List Bytes) :
    unarmorLines .trash found (ls ++ rest) = unarmorLines .trash found rest := by
  induction ls with
  | nil => rfl
  | cons a ls ih =>
    have h1 : isBegin a = false := by
      have := h a (List.mem_cons_self ..)
      rw [← isBegin_iff] at this
      simpa using this
    rw [List.cons_append, unarmorLines, ih (fun l hl => h l (List.mem_cons_of_mem _ hl))]
    simp [h1]

theorem unarmor_headers {ls : List Bytes} (h : ∀ l ∈ ls, 0x3A ∈ l ∧ ∀ x ∈ l, x.toNat < 128) (found : Bool) (rest : List Bytes) :
    unarmorLines .headers found (ls ++ rest) = unarmorLines .headers found rest := by
  induction ls with
  | nil => rfl
  | cons a ls ih =>
    obtain ⟨h1, h2⟩ := h a (List.mem_cons_self ..)
    have hne : a ≠ [] := by rintro rfl; cases h1
    rw [List.cons_append, unarmorLines, if_neg hne]
    simp only [List.contains_iff_mem.2 h1, if_true]
    rw [if_pos (by rw [List.all_eq_true]; intro x hx; exact decide_eq_true (h2 x hx)), ih (fun l hl => h l (List.mem_cons_of_mem _ hl))]

/-- The first octet of a line is not a hyphen. -/
theorem not_end {l : Bytes} (h : ∀ b ∈ l, b ≠ 0x2D) (hne : l ≠ []) : isEnd l = false := by
  cases l with
  | nil => exact absurd rfl hne
  | cons a l =>
    have := h a (List.mem_cons_self ..)
    have d5 : dashes 5 = (0x2D : UInt8) :: dashes 4 := by decide
    have d4 : dashes 4 ++ [0x20] = (0x2D : UInt8) :: (dashes 3 ++ [0x20]) := by decide
    unfold isEnd
    rw [d5, d4]
    simp [this]

theorem unarmor_body {ls : List Bytes} (h : ∀ l ∈ ls, ∀ b ∈ l, b ≠ 0x2D) (found : Bool) (rest : List Bytes) :
    ∀ acc, unarmorLines (.body acc) found (ls ++ rest) = unarmorLines (.body (acc ++ ls.flatten)) found rest := by
  induction ls with
  | nil => intro acc; simp
  | cons a ls ih =>
    intro acc
    rw [List.cons_append, unarmorLines]
    by_cases ha : a = []
    · rw [if_pos ha, ih (fun l hl => h l (List.mem_cons_of_mem _ hl))]; simp [ha]
    · rw [if_neg ha]
      simp only [not_end (h a (List.mem_cons_self ..)) ha, Bool.false_eq_true, if_false]
      rw [ih (fun l hl => h l (List.mem_cons_of_mem _ hl))]
      simp

/-- After the headers comes the body. -/
theorem unarmor_first {ls : List Bytes} (h : ∀ l ∈ ls, ∀ b ∈ l, b ≠ 0x2D ∧ b ≠ 0x3A) (found : Bool) (last : Bytes) (rest : List Bytes)
    (hlast : isEnd last = true) (hc : 0x3A ∉ last) (der : Bytes) (hd : b64decode ls.flatten = .ok der) :
    unarmorLines .headers found (ls ++ last :: rest) =
      (der :: (unarmorLines .trash true rest).1, (unarmorLines .trash true rest).2) := by
  have hl : last ≠ [] := by rintro rfl; cases hlast
  have hbody : ∀ acc, b64decode acc = .ok der → unarmorLines (.body acc) found (last :: rest) =
      (der :: (unarmorLines .trash true rest).1, (unarmorLines .trash true rest).2) := by
    intro acc hacc
    rw [unarmorLines, if_neg hl]
    simp only [hlast, if_true, hacc]
  induction ls with
  | nil =>
    rw [List.nil_append, unarmorLines, if_neg hl]
    have hc' : last.contains 0x3A = false := by simpa using hc
    simp only [hc', hlast, Bool.false_eq_true, if_false, if_true]
    have : der = [] := by
      have : b64decode [] = .ok [] := rfl
      rw [List.flatten_nil, this] at hd
      injection hd with hd; exact hd.symm
    rw [this]
  | cons a ls ih =>
    have h1 := h a (List.mem_cons_self ..)
    have h2 : ∀ l ∈ ls, ∀ b ∈ l, b ≠ 0x2D ∧ b ≠ 0x3A := fun l hl => h l (List.mem_cons_of_mem _ hl)
    rw [List.cons_append, unarmorLines]
    by_cases ha : a = []
    · rw [if_pos ha, ih h2 (by simpa [ha] using hd)]
    · rw [if_neg ha]
      have hc' : a.contains 0x3A = false := by
        rw [Bool.eq_false_iff]; intro hh
        exact (h1 _ (List.contains_iff_mem.1 hh)).2 rfl
      simp only [hc', not_end (fun b hb => (h1 b hb).1) ha, Bool.false_eq_true, if_false]
      rw [unarmor_body (fun l hl b hb => (h2 l hl b hb).1), hbody]
      simpa using hd

theorem unarmor_block {b : PemBlock} {der : Bytes} (h : b.Holds der) (found : Bool) (rest : List Bytes) :
    unarmorLines .trash found (b.lines ++ rest) = (der :: (unarmorLines .trash true rest).1, (unarmorLines .trash true rest).2) := by
  have hb : StartsBlock (asciiText "-----BEGIN " ++ b.label ++ asciiText "-----") :=
    ⟨asciiText "-----", b.label, asciiText "-----", [], List.mem_cons_self .., List.mem_cons_self .., h.label, by
      rw [show asciiText "-----BEGIN " = asciiText "-----" ++ asciiText "BEGIN " by decide +kernel]; simp⟩
  have hne : asciiText "-----BEGIN " ++ b.label ++ asciiText "-----" ≠ [] := by
    rw [show asciiText "-----BEGIN " = (0x2D : UInt8) :: asciiText "----BEGIN " by decide +kernel]; simp
  unfold PemBlock.lines
  simp only [List.append_assoc]
  rw [unarmor_trash h.before, List.singleton_append, unarmorLines, if_neg (by simpa [List.append_assoc] using hne)]
  have hb' := (isBegin_iff _).2 hb
  rw [List.append_assoc] at hb'
  simp only [hb', if_true]
  rw [unarmor_headers h.headers, List.singleton_append]
  refine unarmor_first ?_ found _ rest ?_ ?_ der (by rw [h.body]; exact b64decode_base64 der)
  · intro l hl x hx
    have := base64_chars der x (by rw [← h.body]; exact List.mem_flatten.2 ⟨l, hl, hx⟩)
    exact ⟨this.2.1, this.1⟩
  · rw [show asciiText "-----END " = dashes 5 ++ asciiText "END " by decide +kernel, List.append_assoc]
    have : (dashes 5 ++ (asciiText "END " ++ (b.label ++ asciiText "-----"))).take 5 = dashes 5 := List.take_left' rfl
    unfold isEnd
    rw [this]
    simp
  · intro hm
    rcases List.mem_append.1 hm with hm | hm
    · exact absurd hm (by decide +kernel)
    · rcases List.mem_append.1 hm with hm | hm
      · exact absurd (h.label.2 _ hm) (by decide +kernel)
      · exact absurd hm (by decide +kernel)

theorem unarmor_blocks (bs : List (PemBlock × Bytes)) (h : ∀ x ∈ bs, x.1.Holds x.2) (after : List Bytes)
    (ha : ∀ l ∈ after, ¬ StartsBlock l) : ∀ found, (found = true ∨ bs ≠ []) →
    unarmorLines .trash found (bs.flatMap (fun x => x.1.lines) ++ after) = (bs.map Prod.snd, none) := by
  induction bs with
  | nil =>
    intro found hf
    have := unarmor_trash ha found []
    rw [List.append_nil] at this
    rw [List.flatMap_nil, List.nil_append, this]
    rcases hf with rfl | hf
    · rfl
    · exact absurd rfl hf
  | cons x bs ih =>
    intro found _
    rw [List.flatMap_cons, List.append_assoc, unarmor_block (h x (List.mem_cons_self ..)),
      ih (fun y hy => h y (List.mem_cons_of_mem _ hy)) true (.inl rfl)]
    rfl

/-- Reading gives the objects. -/
theorem unarmor_text {text : Bytes} {ders : List Bytes} (h : PemText text ders) : unarmor text = (ders, none) := by
  obtain ⟨hne, bs, after, h1, h2, h3, h4⟩ := h
  unfold unarmor
  rw [splitLines_of h4, unarmor_blocks bs h2 after h3 false (.inr ?_), h1]
  rintro rfl
  exact hne (by rw [← h1]; rfl)

/-! ### Everything that is read is in a block -/

theorem isEnd_iff (l : Bytes) : isEnd l = true ↔ EndsBlock l := by
  have h5 : asciiText "-----" = dashes 5 := by decide
  have h4 : asciiText "---- " = dashes 4 ++ [0x20] := by decide
  have hp : ∀ p : Bytes, p.length = 5 → (l.take 5 = p ↔ p <+: l) := by
    intro p hp
    rw [List.prefix_iff_eq_take, hp]
    exact eq_comm
  unfold isEnd EndsBlock
  rw [Bool.or_eq_true, beq_iff_eq, beq_iff_eq, h5, h4, hp _ rfl, hp _ rfl]

theorem InBlock.cons {ls : List Bytes} {d : Bytes} (h : InBlock ls d) (l : Bytes) : InBlock (l :: ls) d := by
  obtain ⟨a, b, c, e, f, g, rfl, h⟩ := h
  exact ⟨l :: a, b, c, e, f, g, rfl, h⟩

/-- What is read in a state. -/
def ReadsIn : State → List Bytes → Bytes → Prop
  | .trash, ls, d => InBlock ls d
  | .headers, ls, d => InBlock ls d ∨ ∃ headers body last after, ls = headers ++ body ++ last :: after ∧
      (∀ l ∈ headers, l = [] ∨ 0x3A ∈ l) ∧ (∀ l ∈ body, ¬ EndsBlock l) ∧ EndsBlock last ∧ b64decode body.flatten = .ok d
  | .body acc, ls, d => InBlock ls d ∨ ∃ body last after, ls = body ++ last :: after ∧ (∀ l ∈ body, ¬ EndsBlock l) ∧
      EndsBlock last ∧ b64decode (acc ++ body.flatten) = .ok d

theorem readsIn_body {acc : Bytes} {l : Bytes} {ls : List Bytes} {d : Bytes} (hl : ¬ EndsBlock l) (h : ReadsIn (.body (acc ++ l)) ls d) :
    ReadsIn (.body acc) (l :: ls) d := by
  rcases h with h | ⟨body, last, after, rfl, h1, h2, h3⟩
  · exact .inl (InBlock.cons h l)
  · refine .inr ⟨l :: body, last, after, rfl, ?_, h2, by simpa using h3⟩
    intro x hx
    rcases List.mem_cons.1 hx with rfl | hx
    · exact hl
    · exact h1 x hx

theorem unarmorLines_within (s : State) (found : Bool) (ls : List Bytes) : ∀ d ∈ (unarmorLines s found ls).1, ReadsIn s ls d := by
  have hempty : ¬ EndsBlock [] := by rw [← isEnd_iff]; decide
  fun_induction unarmorLines s found ls with
  | case1 => intro d hd; cases hd
  | case2 => intro d hd; cases hd
  | case3 s found l ih =>
    intro d hd
    have := ih d hd
    cases s with
    | trash => exact InBlock.cons this _
    | headers =>
      rcases this with h | ⟨hs, body, last, after, rfl, h1, h2⟩
      · exact .inl (InBlock.cons h _)
      · refine .inr ⟨[] :: hs, body, last, after, rfl, ?_, h2⟩
        intro x hx
        rcases List.mem_cons.1 hx with rfl | hx
        · exact .inl rfl
        · exact h1 x hx
    | body acc => exact readsIn_body hempty (by simpa using this)
  | case4 found line l hne hb ih =>
    intro d hd
    rcases ih d hd with h | ⟨hs, body, last, after, rfl, h⟩
    · exact InBlock.cons h _
    · exact ⟨[], line, hs, body, last, after, rfl, (isBegin_iff _).1 hb, h⟩
  | case5 found line l hne hb ih => intro d hd; exact InBlock.cons (ih d hd) _
  | case6 found line l hne hc ha ih =>
    intro d hd
    rcases ih d hd with h | ⟨hs, body, last, after, rfl, h1, h2⟩
    · exact .inl (InBlock.cons h _)
    · refine .inr ⟨line :: hs, body, last, after, rfl, ?_, h2⟩
      intro x hx
      rcases List.mem_cons.1 hx with rfl | hx
      · exact .inr (List.contains_iff_mem.1 hc)
      · exact h1 x hx
  | case7 => intro d hd; cases hd
  | case8 found line l hne hc he ds e heq ih =>
    intro d hd
    rcases List.mem_cons.1 hd with rfl | hd
    · exact .inr ⟨[], [], line, l, rfl, (fun _ h => by cases h), (fun _ h => by cases h), (isEnd_iff _).1 he, rfl⟩
    · rw [heq] at ih
      exact .inl (InBlock.cons (ih d hd) _)
  | case9 found line l hne hc he ih =>
    intro d hd
    have hl : ¬ EndsBlock line := by rw [← isEnd_iff]; exact he
    rcases readsIn_body (acc := []) hl (ih d hd) with h | ⟨body, last, after, e, h1, h2, h3⟩
    · exact .inl h
    · exact .inr ⟨[], body, last, after, e, (fun _ h => by cases h), h1, h2, h3⟩
  | case10 => intro d hd; cases hd
  | case11 found line l hne acc he der hder ds e heq ih =>
    intro d hd
    rcases List.mem_cons.1 hd with rfl | hd
    · exact .inr ⟨[], line, l, rfl, (fun _ h => by cases h), (isEnd_iff _).1 he, by simpa using hder⟩
    · rw [heq] at ih
      exact .inl (InBlock.cons (ih d hd) _)
  | case12 found line l hne acc he ih =>
    intro d hd
    exact readsIn_body (by rw [← isEnd_iff]; exact he) (ih d hd)

theorem unarmor_within {text : Bytes} {ls : List Bytes} (h : LinesOf text ls) : ∀ d ∈ (unarmor text).1, InBlock ls d := by
  unfold unarmor
  rw [splitLines_of h]
  exact unarmorLines_within .trash false ls

/-- Reading ends with an exception if nothing is read. -/
theorem unarmorLines_none (s : State) (ls : List Bytes) (h : (unarmorLines s false ls).1 = []) : (unarmorLines s false ls).2.isSome = true := by
  generalize hf : false = f at h ⊢
  fun_induction unarmorLines s f ls with
  | case1 => exact absurd hf (by simp_all)
  | case2 => rfl
  | case3 s found l ih => exact ih hf h
  | case4 found line l hne hb ih => exact ih hf h
  | case5 found line l hne hb ih => exact ih hf h
  | case6 found line l hne hc ha ih => exact ih hf h
  | case7 => rfl
  | case8 => cases h
  | case9 found line l hne hc he ih => exact ih hf h
  | case10 => rfl
  | case11 => cases h
  | case12 found line l hne acc he ih => exact ih hf h

/-! ### Certificates -/

theorem genMap_mem {α β : Type} {f : α → Except Exc β} : ∀ {l : List α} {e : Option Exc} {b : β}, b ∈ (genMap f l e).1 → ∃ a ∈ l, f a = .ok b
  | [], _, _, h => by cases h
  | a :: l, e, b, h => by
    rw [genMap] at h
    cases hf : f a with
    | error e' => rw [hf] at h; cases h
    | ok b' =>
      rw [hf] at h
      rcases List.mem_cons.1 h with rfl | h
      · exact ⟨a, List.mem_cons_self .., hf⟩
      · obtain ⟨a', h1, h2⟩ := genMap_mem h
        exact ⟨a', List.mem_cons_of_mem _ h1, h2⟩

theorem genMap_ok {α β : Type} {f : α → Except Exc β} (g : α → β) : ∀ (l : List α) (e : Option Exc), (∀ a ∈ l, f a = .ok (g a)) →
    genMap f l e = (l.map g, e)
  | [], _, _ => rfl
  | a :: l, e, h => by
    rw [genMap, h a (List.mem_cons_self ..), genMap_ok g l e (fun a ha => h a (List.mem_cons_of_mem _ ha))]
    rfl

theorem genMap_none {α β : Type} {f : α → Except Exc β} {l : List α} {e : Option Exc} (h : (genMap f l e).1 = []) (hl : l = [] → e.isSome = true) :
    (genMap f l e).2.isSome = true := by
  cases l with
  | nil => exact hl rfl
  | cons a l =>
    rw [genMap] at h ⊢
    cases hf : f a with
    | error e' => rfl
    | ok b => rw [hf] at h; cases h

end Signify.Pem
