/-
The escaping of values in `CertificateName.dn`, by position.
-/
import Verif.Spec.Names

set_option autoImplicit false

namespace Signify

open Spec

/-- The escaping done by `dn`, by position. -/
theorem flat_zipIdx_sub (P : Nat → Char → Prop) [∀ i c, Decidable (P i c)] (l : List Char) (k : Nat)
    (h : ∀ i c, l[i]? = some c → (P (k + i) c ↔ dnSpecial c = true)) :
    ((l.zipIdx k).map (fun p => if P p.2 p.1 then ['\\', p.1] else [p.1])).flatten = dnSub l := by
  induction l generalizing k with
  | nil => rfl
  | cons c l ih =>
    have h0 := h 0 c rfl
    rw [Nat.add_zero] at h0
    simp only [List.zipIdx_cons, List.map_cons, List.flatten_cons, dnSub]
    rw [ih (k + 1) (fun i d hd => by have := h (i + 1) d (by simpa using hd); rwa [show k + 1 + i = k + (i + 1) by omega])]
    by_cases hc : dnSpecial c = true
    · rw [if_pos (h0.2 hc), if_pos hc]; rfl
    · rw [if_neg (fun hp => hc (h0.1 hp)), if_neg hc]; rfl

theorem dnSub_append (a b : List Char) : dnSub (a ++ b) = dnSub a ++ dnSub b := by
  induction a with
  | nil => rfl
  | cons c a ih => simp only [List.cons_append, dnSub, ih]; split <;> rfl

theorem escaped_append (P : Nat → Char → Prop) [∀ i c, Decidable (P i c)] (a b : List Char) :
    escaped P (a ++ b) = escaped P a ++ escaped (fun i c => P (a.length + i) c) b := by
  unfold escaped
  rw [List.zipIdx_append, List.map_append, List.flatten_append, Nat.zero_add]
  congr 1
  rw [show List.zipIdx b a.length = (List.zipIdx b 0).map (fun p => (p.1, a.length + p.2)) from
    List.zipIdx_eq_map_add, List.map_map]
  rfl

theorem escaped_congr {P Q : Nat → Char → Prop} [∀ i c, Decidable (P i c)] [∀ i c, Decidable (Q i c)] {l : List Char}
    (h : ∀ i c, l[i]? = some c → (P i c ↔ Q i c)) : escaped P l = escaped Q l := by
  unfold escaped
  congr 1
  refine List.map_congr_left ?_
  rintro ⟨c, i⟩ hp
  have := h i c (by simpa using List.mem_zipIdx_iff_getElem?.1 hp)
  simp only
  by_cases hc : P i c
  · rw [if_pos hc, if_pos (this.1 hc)]
  · rw [if_neg hc, if_neg (fun hq => hc (this.2 hq))]

theorem escaped_sub {P : Nat → Char → Prop} [∀ i c, Decidable (P i c)] {l : List Char}
    (h : ∀ i c, l[i]? = some c → (P i c ↔ dnSpecial c = true)) : escaped P l = dnSub l :=
  flat_zipIdx_sub P l 0 (fun i c hc => by rw [Nat.zero_add]; exact h i c hc)

theorem dnHash_cons (c : Char) (l : List Char) :
    dnHash (dnSub (c :: l)) = (if dnSpecial c = true ∨ c = '#' then ['\\', c] else [c]) ++ dnSub l := by
  by_cases h : dnSpecial c = true
  · have e : dnSub (c :: l) = '\\' :: c :: dnSub l := by simp only [dnSub, h, if_true]
    rw [e, if_pos (.inl h)]; rfl
  · have e : dnSub (c :: l) = c :: dnSub l := by rw [dnSub, if_neg h]
    rw [e]
    unfold dnHash
    by_cases hc : c = '#'
    · subst hc; rfl
    · rw [if_neg (by simpa using hc), if_neg (fun h' => h'.elim h hc)]; rfl

theorem dnTrail_append (x : List Char) (d : Char) :
    dnTrail (x ++ dnSub [d]) = x ++ (if dnSpecial d = true ∨ d = ' ' then ['\\', d] else [d]) := by
  by_cases h : dnSpecial d = true
  · have e : dnSub [d] = ['\\', d] := by simp only [dnSub, h, if_true]
    rw [e, if_pos (.inl h)]
    unfold dnTrail
    rw [if_neg]
    rw [List.getLast?_append]
    simp only [List.getLast?_cons_cons, List.getLast?_singleton, Option.some_or, Option.some.injEq]
    rintro rfl
    revert h; decide
  · have e : dnSub [d] = [d] := by rw [dnSub, if_neg h]; rfl
    rw [e]
    unfold dnTrail
    by_cases hd : d = ' '
    · subst hd; rw [if_pos (by simp), if_pos (.inr rfl)]; simp
    · rw [if_neg (by simpa using hd), if_neg (fun h' => h'.elim h hd)]

theorem escaped_single (P : Nat → Char → Prop) [∀ i c, Decidable (P i c)] (c : Char) :
    escaped P [c] = if P 0 c then ['\\', c] else [c] := by
  simp [escaped]

theorem dnSpecial_iff (c : Char) : dnSpecial c = true ↔ (c = ',' ∨ c = '+' ∨ c = '"' ∨ c = '\\' ∨ c = '<' ∨ c = '>' ∨ c = ';') := by
  unfold dnSpecial
  simp only [List.mem_cons, List.not_mem_nil, or_false, decide_eq_true_eq]
  constructor <;> rintro (h | h | h | h | h | h | h) <;> simp [h]

/-- What is escaped: a character that must be, except for a space at the beginning of longer values. -/
theorem dnEscape_eq (v : List Char) :
    dnEscape v = escaped (fun i c => MustEscape v.length i c ∧ ¬ (i = 0 ∧ c = ' ' ∧ 1 < v.length)) v := by
  have hsp : dnSpecial ' ' = false := by decide
  have key : ∀ n i c, 0 < i → i + 1 < n → ((MustEscape n i c ∧ ¬ (i = 0 ∧ c = ' ' ∧ 1 < n)) ↔ dnSpecial c = true) := by
    intro n i c h1 h2
    rw [dnSpecial_iff]
    unfold MustEscape
    constructor
    · rintro ⟨h | h | h | h | h | h | h | ⟨h, -⟩ | ⟨h, -⟩, -⟩ <;> first | omega | simp [h]
    · intro h
      refine ⟨?_, fun h => by omega⟩
      rcases h with h | h | h | h | h | h | h <;> simp [h]
  have kl : ∀ n i c, 0 < i → i + 1 = n → ((MustEscape n i c ∧ ¬ (i = 0 ∧ c = ' ' ∧ 1 < n)) ↔ (dnSpecial c = true ∨ c = ' ')) := by
    intro n i c h1 h2
    rw [dnSpecial_iff]
    unfold MustEscape
    constructor
    · rintro ⟨h | h | h | h | h | h | h | ⟨h, -⟩ | ⟨-, h⟩, -⟩ <;> first | omega | simp [h]
    · rintro ((h | h | h | h | h | h | h) | h) <;> exact ⟨by simp [h, h2], fun h => by omega⟩
  have kf : ∀ n c, 1 < n → ((MustEscape n 0 c ∧ ¬ (0 = 0 ∧ c = ' ' ∧ 1 < n)) ↔ (dnSpecial c = true ∨ c = '#')) := by
    intro n c h1
    rw [dnSpecial_iff]
    unfold MustEscape
    constructor
    · rintro ⟨h, hn⟩
      have hs : c ≠ ' ' := fun hs => hn ⟨rfl, hs, h1⟩
      rcases h with h | h | h | h | h | h | h | ⟨-, h | h⟩ | ⟨h, -⟩ <;> first | omega | exact absurd h hs | simp [h]
    · rintro ((h | h | h | h | h | h | h) | h) <;> subst h <;> exact ⟨by simp, fun h => absurd h.2.1 (by decide)⟩
  cases v with
  | nil => rfl
  | cons c l =>
    unfold dnEscape
    rcases List.eq_nil_or_concat l with rfl | ⟨m, d, rfl⟩
    · rw [dnHash_cons]
      rw [escaped_single, show dnSub [] = [] from rfl, List.append_nil]
      have : (MustEscape [c].length 0 c ∧ ¬ (0 = 0 ∧ c = ' ' ∧ 1 < [c].length)) ↔ ((dnSpecial c = true ∨ c = '#') ∨ c = ' ') := by
        rw [dnSpecial_iff]
        unfold MustEscape
        simp only [List.length_singleton, Nat.lt_irrefl, and_false, not_false_eq_true, and_true, Nat.zero_add, true_and]
        constructor
        · rintro (h | h | h | h | h | h | h | (h | h) | h) <;> simp [h]
        · rintro (((h | h | h | h | h | h | h) | h) | h) <;> simp [h]
      by_cases h1 : dnSpecial c = true ∨ c = '#'
      · rw [if_pos h1, if_pos (this.2 (.inl h1))]
        unfold dnTrail
        rw [if_neg]
        simp only [List.getLast?_cons_cons, List.getLast?_singleton, Option.some.injEq]
        rintro rfl
        revert h1; decide
      · rw [if_neg h1]
        by_cases h2 : c = ' '
        · subst h2; rw [if_pos (this.2 (.inr rfl))]; rfl
        · rw [if_neg (fun h => (this.1 h).elim h1 h2)]
          unfold dnTrail
          rw [if_neg (by simpa using h2)]
    · rw [List.concat_eq_append, dnHash_cons, dnSub_append, ← List.append_assoc, dnTrail_append]
      rw [show c :: (m ++ [d]) = ([c] ++ m) ++ [d] from rfl, escaped_append, escaped_append]
      have hl : ([c] ++ m ++ [d]).length = m.length + 2 := by simp
      congr 1
      · congr 1
        · rw [escaped_single]
          have := kf ([c] ++ m ++ [d]).length c (by omega)
          by_cases h1 : dnSpecial c = true ∨ c = '#'
          · rw [if_pos h1, if_pos (this.2 h1)]
          · rw [if_neg h1, if_neg (fun h => h1 (this.1 h))]
        · symm
          refine escaped_sub ?_
          intro i x hx
          have := (List.getElem?_eq_some_iff.1 hx).1
          exact key _ _ x (by simp; omega) (by simp; omega)
      · rw [escaped_single]
        have := kl ([c] ++ m ++ [d]).length (([c] ++ m).length + 0) d (by simp) (by simp)
        by_cases h1 : dnSpecial d = true ∨ d = ' '
        · rw [if_pos h1, if_pos (this.2 h1)]
        · rw [if_neg h1, if_neg (fun h => h1 (this.1 h))]

theorem dnJoin_eq (l : List (List Char)) : dnJoin l = [',', ' '].intercalate l := by
  induction l using dnJoin.induct with
  | case1 => rfl
  | case2 => simp [dnJoin, List.intercalate]
  | case3 x y l ih => rw [dnJoin, ih]; simp [List.intercalate]

end Signify
