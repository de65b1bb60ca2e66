/-
The values of primitive types.
-/
import Verif.Proofs.Asn1

set_option autoImplicit false

namespace Signify.Asn1

open Signify Spec

/-! ### INTEGER -/

theorem intOctets_ne_nil (i : Int) : intOctets i ≠ [] := by
  unfold intOctets; split <;> simp

/-- Two's complement without the case of no octets. -/
theorem intNative_snoc (l : Bytes) (b : UInt8) (h : l ≠ []) : intNative (l ++ [b]) = intNative l * 256 + b.toNat := by
  cases l with
  | nil => exact absurd rfl h
  | cons x l =>
    have e : intFromBytes (x :: (l ++ [b])) = intFromBytes (x :: l) * 256 + b.toNat := by
      rw [← List.cons_append, intFromBytes_snoc]
    show (if x.toNat < 128 then ((intFromBytes (x :: (l ++ [b])) : Nat) : Int) else
      (intFromBytes (x :: (l ++ [b])) : Int) - 256 ^ (x :: (l ++ [b])).length) = _
    rw [e]
    simp only [intNative]
    split
    · omega
    · simp only [List.length_cons, List.length_append, List.length_nil]
      rw [show l.length + (0 + 1) + 1 = (l.length + 1) + 1 by omega, Int.pow_succ]
      omega

theorem intNative_intOctets (i : Int) : intNative (intOctets i) = i := by
  fun_induction intOctets i with
  | case1 i h =>
    have : (UInt8.ofNat (i % 256).toNat).toNat = (i % 256).toNat := toNat_ofNat_lt (by omega)
    simp only [intNative, intFromBytes, List.foldl_cons, List.foldl_nil, this, List.length_cons, List.length_nil]
    split <;> omega
  | case2 i h ih =>
    rw [intNative_snoc _ _ (intOctets_ne_nil _), ih, toNat_ofNat_lt (by omega)]
    omega

/-! ### OBJECT IDENTIFIER -/

theorem oidLoop_hi (n : Nat) : ∀ (part : Nat) (out : List Nat) (rest : Bytes), ∃ k, n < 128 ^ k ∧
    oidLoop part out (base128Hi n ++ rest) = oidLoop (part * 128 ^ k + n) out rest := by
  fun_induction base128Hi n with
  | case1 => intro part out rest; exact ⟨0, by simp, by simp⟩
  | case2 n h ih =>
    intro part out rest
    obtain ⟨k, hk, e⟩ := ih part out ([UInt8.ofNat (128 + n % 128)] ++ rest)
    refine ⟨k + 1, ?_, ?_⟩
    · rw [Nat.pow_succ]; omega
    · rw [List.append_assoc, e]
      simp only [List.cons_append, List.nil_append, oidLoop]
      rw [toNat_ofNat_lt (by omega), if_neg (by omega), Nat.pow_succ]
      congr 1
      rw [Nat.add_mul, Nat.mul_assoc]
      omega

theorem oidLoop_base128 (n : Nat) (out : List Nat) (rest : Bytes) :
    oidLoop 0 out (base128 n ++ rest) =
      if out.isEmpty then
        if n ≥ 80 then oidLoop 0 [2, n - 80] rest
        else if n ≥ 40 then oidLoop 0 [1, n - 40] rest
        else oidLoop 0 [0, n] rest
      else oidLoop 0 (out ++ [n]) rest := by
  obtain ⟨k, _, e⟩ := oidLoop_hi (n / 128) 0 out ([UInt8.ofNat (n % 128)] ++ rest)
  unfold base128
  rw [List.append_assoc, e]
  simp only [List.cons_append, List.nil_append, oidLoop]
  rw [toNat_ofNat_lt (by omega), if_pos (by omega)]
  rw [show (0 * 128 ^ k + n / 128) * 128 + n % 128 % 128 = n by omega]

theorem oidLoop_rest (l : List Nat) (out : List Nat) (h : out ≠ []) : oidLoop 0 out (l.flatMap base128) = out ++ l := by
  induction l generalizing out with
  | nil => simp [oidLoop]
  | cons a l ih =>
    rw [List.flatMap_cons, oidLoop_base128, if_neg (by simpa using h), ih _ (by simp)]
    simp

theorem oidArcs_oidOctets {o : List Nat} (h : ValidOid o) : oidArcs (oidOctets o) = o := by
  obtain ⟨a, b, l, rfl, ha, hb⟩ := h
  unfold oidArcs oidOctets
  rw [oidLoop_base128, if_pos (by simp)]
  split
  · rw [oidLoop_rest _ _ (by simp)]
    have : a = 2 := by omega
    subst this
    simp
  · split
    · rw [oidLoop_rest _ _ (by simp)]
      have : a = 1 := by omega
      subst this
      simp
    · rw [oidLoop_rest _ _ (by simp)]
      have : a = 0 := by omega
      subst this
      simp

/-! ### BIT STRING -/

theorem octetBits_octetOf : ∀ (a b c d e f g h : Bool), octetBits (octetOf [a, b, c, d, e, f, g, h]) = [a, b, c, d, e, f, g, h] := by
  decide +kernel

theorem octetBits_pad (b : List Bool) (h : b.length ≤ 8) :
    octetBits (octetOf b) = b ++ List.replicate (8 - b.length) false := by
  have e : octetOf b = octetOf (b ++ List.replicate (8 - b.length) false) := by
    unfold octetOf
    rw [show 8 - (b ++ List.replicate (8 - b.length) false).length = 0 by simp; omega]
    simp
  rw [e]
  generalize hx : b ++ List.replicate (8 - b.length) false = x
  have hl : x.length = 8 := by rw [← hx]; simp; omega
  match x, hl with
  | [a, b, c, d, e, f, g, h], _ => exact octetBits_octetOf a b c d e f g h

theorem packBits_bits (b : List Bool) :
    ((packBits b).flatMap octetBits).take b.length = b ∧ 8 * (packBits b).length = b.length + (8 - b.length % 8) % 8 := by
  fun_induction packBits b with
  | case1 => simp
  | case2 x l ih =>
    obtain ⟨ih1, ih2⟩ := ih
    have hb := octetBits_pad (x :: l.take 7) (by simp; omega)
    by_cases hl : 7 ≤ l.length
    · have e7 : (l.take 7).length = 7 := by simp; omega
      constructor
      · rw [List.flatMap_cons, hb]
        simp only [List.length_cons, e7, Nat.sub_self, List.replicate_zero, List.append_nil]
        rw [show l.length + 1 = (x :: l.take 7).length + (l.drop 7).length by simp; omega, List.take_length_add_append, ih1]
        simp
      · simp only [List.length_cons, List.length_drop] at ih2 ⊢
        omega
    · have ed : l.drop 7 = [] := List.drop_eq_nil_of_le (by omega)
      have et : l.take 7 = l := List.take_of_length_le (by omega)
      rw [et] at hb
      rw [ed, et]
      constructor
      · rw [List.flatMap_cons, hb, List.append_assoc, show (x :: l).length = (x :: l).length + 0 by rfl, List.take_length_add_append]
        simp
      · simp [packBits]
        omega

theorem bits_bitOctets (b : List Bool) : bits (bitOctets b) = b := by
  obtain ⟨h1, h2⟩ := packBits_bits b
  unfold bitOctets
  simp only [bits]
  rw [toNat_ofNat_lt (by omega), h2]
  rw [show b.length + (8 - b.length % 8) % 8 - (8 - b.length % 8) % 8 = b.length by omega, h1]

/-! ### Strings -/

theorem swapPairs_bmp (s : List Char) : swapPairs (s.flatMap bmpChar) = utf16 s := by
  induction s with
  | nil => rfl
  | cons c s ih =>
    unfold utf16 at ih ⊢
    simp only [List.flatMap_cons]
    rw [← ih]
    generalize s.flatMap bmpChar = r
    unfold bmpChar utf16Char
    split
    · simp [unitBE, unitLE, swapPairs]
    · simp [unitBE, unitLE, swapPairs]

theorem bmpNative_bmpOctets (s : String) : bmpNative (bmpOctets s) = .ok s := by
  unfold bmpNative bmpOctets
  rw [swapPairs_bmp, utf16le_encode]
  simp

theorem asciiNative_asciiOctets {s : String} (h : IsAscii s) : asciiNative (asciiOctets s) = .ok s := by
  have hm : ∀ c ∈ s.toList, (UInt8.ofNat c.toNat).toNat = c.toNat := fun c hc => toNat_ofNat_lt (by have := h c hc; omega)
  unfold asciiNative asciiOctets
  rw [if_pos]
  · congr 1
    rw [List.map_map]
    have : List.map ((fun x : UInt8 => Char.ofNat x.toNat) ∘ fun c : Char => UInt8.ofNat c.toNat) s.toList = s.toList := by
      conv => rhs; rw [← List.map_id s.toList]
      apply List.map_congr_left
      intro c hc
      simp only [Function.comp, hm c hc, id]
      exact Char.ofNat_toNat c
    rw [this]
    exact String.ofList_toList ..
  · rw [List.all_map, List.all_eq_true]
    intro c hc
    simp only [Function.comp, hm c hc]
    exact decide_eq_true (h c hc)

end Signify.Asn1
