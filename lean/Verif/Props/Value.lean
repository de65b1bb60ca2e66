/-
C77: values are read as X.690 defines them.
-/
import Verif.Spec.Value
import Verif.Proofs.Asn1Within

set_option autoImplicit false

namespace Signify.Props

open Signify Spec Asn1

theorem octetsValue_foldl (l : Bytes) (n : Nat) : l.foldl (fun n x => n * 256 + x.toNat) n = n * 256 ^ l.length + octetsValue l := by
  induction l generalizing n with
  | nil => simp [octetsValue]
  | cons b l ih =>
    rw [List.foldl_cons, ih, octetsValue, List.length_cons, Nat.pow_succ, Nat.add_mul, Nat.mul_assoc, Nat.mul_comm 256, Nat.add_assoc]

theorem intFromBytes_value (l : Bytes) : intFromBytes l = octetsValue l := by
  rw [intFromBytes, octetsValue_foldl]; simp

theorem longTag_hi (n : Nat) (rest : Bytes) : longTag 0 (base128Hi n ++ rest) = longTag n rest := by
  induction n using Nat.strongRecOn generalizing rest with
  | ind n ih =>
    unfold base128Hi
    split
    · rename_i h; subst h; rfl
    · rename_i h
      have hb : (UInt8.ofNat (128 + n % 128)).toNat = 128 + n % 128 := toNat_ofNat_lt (by omega)
      rw [List.append_assoc, ih (n / 128) (by omega), List.cons_append, List.nil_append, longTag, hb, if_neg, if_neg (by omega)]
      · congr 1; omega
      · rintro ⟨h1, h2⟩
        rw [h1] at hb
        have : (0x80 : UInt8).toNat = 128 := rfl
        omega

theorem longTag_base128 (n : Nat) (rest : Bytes) : longTag 0 (base128 n ++ rest) = .ok (n, rest) := by
  have hb : (UInt8.ofNat (n % 128)).toNat = n % 128 := toNat_ofNat_lt (by omega)
  rw [base128, List.append_assoc, longTag_hi, List.cons_append, List.nil_append, longTag, hb, if_neg, if_pos (by omega)]
  · congr 2; omega
  · rintro ⟨h1, -⟩
    rw [h1] at hb
    have : (0x80 : UInt8).toNat = 128 := rfl
    omega

theorem longTag_inv {acc t : Nat} {data rest : Bytes} (h : longTag acc data = .ok (t, rest)) :
    base128Hi acc ++ data = base128 t ++ rest := by
  induction data generalizing acc with
  | nil => cases h
  | cons b data ih =>
    rw [longTag] at h
    split at h
    · cases h
    · rename_i h1
      have hlt := b.toNat_lt
      split at h
      · rename_i h2
        cases h
        rw [base128, show (acc * 128 + b.toNat % 128) / 128 = acc by omega,
          show (acc * 128 + b.toNat % 128) % 128 = b.toNat by omega, UInt8.ofNat_toNat]
        simp
      · rename_i h2
        have hne : acc * 128 + b.toNat % 128 ≠ 0 := by
          intro h0
          exact h1 ⟨UInt8.toNat_inj.1 (by show b.toNat = 128; omega), by omega⟩
        have := ih h
        rw [← this, base128Hi.eq_def (acc * 128 + b.toNat % 128), if_neg hne, show (acc * 128 + b.toNat % 128) / 128 = acc by omega,
          show 128 + (acc * 128 + b.toNat % 128) % 128 = b.toNat by omega, UInt8.ofNat_toNat]
        simp

theorem readTag_iff {b : UInt8} {data rest : Bytes} {t : Nat} :
    readTag b data = .ok (t, rest) ↔ b :: data = identifierOctets (b.toNat / 64) (b.toNat / 32 % 2 = 1) t ++ rest := by
  have hlt := b.toNat_lt
  have hb : 64 * (b.toNat / 64) + (if decide (b.toNat / 32 % 2 = 1) = true then 32 else 0) + b.toNat % 32 = b.toNat := by
    split <;> simp_all <;> omega
  unfold readTag identifierOctets
  by_cases h31 : b.toNat % 32 = 31
  · rw [if_pos h31]
    rw [h31] at hb
    constructor
    · intro h
      split at h
      · cases h
      · rename_i t' rest' hl
        split at h
        · cases h
        · rename_i ht
          cases h
          have := longTag_inv hl
          rw [show base128Hi 0 = [] by rw [base128Hi]; rfl, List.nil_append] at this
          rw [if_neg ht, hb, UInt8.ofNat_toNat, this]; rfl
    · intro h
      split at h
      · rename_i ht
        injection h with h _
        rw [h] at h31
        have h2 : (64 * (b.toNat / 64) + (if decide (b.toNat / 32 % 2 = 1) = true then 32 else 0) + t) < 256 := by omega
        rw [toNat_ofNat_lt h2] at h31
        split at h31 <;> omega
      · rename_i ht
        injection h with _ h
        have h : data = base128 t ++ rest := h
        rw [h, longTag_base128]
        simp only [if_neg ht]
  · rw [if_neg h31]
    constructor
    · intro h
      cases h
      rw [if_pos (by omega), hb, UInt8.ofNat_toNat]; rfl
    · intro h
      split at h
      · rename_i ht
        injection h with h h'
        have h2 : (64 * (b.toNat / 64) + (if decide (b.toNat / 32 % 2 = 1) = true then 32 else 0) + t) < 256 := by omega
        have h3 := congrArg UInt8.toNat h
        rw [toNat_ofNat_lt h2] at h3
        have : t = b.toNat % 32 := by omega
        have h' : data = rest := h'
        rw [this, h']
      · injection h with h _
        have h2 : (64 * (b.toNat / 64) + (if decide (b.toNat / 32 % 2 = 1) = true then 32 else 0) + 31) < 256 := by split <;> omega
        have h3 := congrArg UInt8.toNat h
        rw [toNat_ofNat_lt h2] at h3
        exact absurd (by omega) h31

theorem readLen_iff {data rest : Bytes} {n : Nat} :
    readLen data = .ok (.definite n, rest) ↔ ∃ l, LengthIn l n ∧ data = l ++ rest := by
  constructor
  · intro h
    cases data with
    | nil => cases h
    | cons b data =>
      have hlt := b.toNat_lt
      rw [readLen] at h
      split at h
      · rename_i h1
        cases h
        exact ⟨[b], by have := LengthIn.short b.toNat h1; rwa [UInt8.ofNat_toNat] at this, rfl⟩
      · simp only at h
        split at h
        · cases h
        · split at h
          · cases h
          · rename_i h1 h2 h3
            injection h with h; injection h with h h'
            injection h with h
            have hl : (data.take (b.toNat - 128)).length = b.toNat - 128 := by rw [List.length_take]; omega
            have := LengthIn.long (data.take (b.toNat - 128)) (by intro h0; rw [h0] at hl; simp at hl; omega) (by omega)
            rw [hl, show 128 + (b.toNat - 128) = b.toNat by omega, UInt8.ofNat_toNat, ← intFromBytes_value, h] at this
            exact ⟨_, this, by rw [List.cons_append, ← h', List.take_append_drop]⟩
  · rintro ⟨l, hl, rfl⟩
    cases hl with
    | short _ h =>
      rw [List.cons_append, readLen, toNat_ofNat_lt (by omega), if_pos h]; rfl
    | long l h1 h2 =>
      have := List.length_pos_iff.2 h1
      rw [List.cons_append, readLen, toNat_ofNat_lt (by omega), if_neg (by omega)]
      simp only [show 128 + l.length - 128 = l.length by omega]
      rw [if_neg (by omega), if_neg (by simp)]
      simp [intFromBytes_value]

/-- **C77**.  A value with a definite length is read from the data iff the data begin with its identifier octets, octets for the number
of its contents octets, and these; what is left is what follows. -/
theorem C77_value_exact (data rest contents : Bytes) (cls tag : Nat) (constructed : Bool) :
    (∃ p, parse data = .ok (p, rest) ∧ p.trailer = [] ∧ p.cls = cls ∧ p.constructed = constructed ∧ p.tag = tag ∧ p.contents = contents) ↔
      cls < 4 ∧ ∃ l, LengthIn l contents.length ∧ data = identifierOctets cls constructed tag ++ l ++ contents ++ rest := by
  constructor
  · rintro ⟨p, h, ht, rfl, rfl, rfl, rfl⟩
    unfold parse at h
    obtain ⟨⟨b, t, n, r⟩, h1, h⟩ := eok_bind h
    cases data with
    | nil => cases h1
    | cons b' data =>
      rw [readHeader] at h1
      obtain ⟨⟨t', r1⟩, h2, h1⟩ := eok_bind h1
      obtain ⟨⟨n', r2⟩, h3, h1⟩ := eok_bind h1
      cases h1
      have hlt := b.toNat_lt
      cases n with
      | indefinite =>
        simp only at h
        split at h
        · cases h
        · obtain ⟨_, _, h⟩ := eok_bind h
          cases h; cases ht
      | definite n =>
        simp only at h
        split at h
        · cases h
        · rename_i hn
          cases h
          obtain ⟨l, hl, rfl⟩ := readLen_iff.1 h3
          refine ⟨by simp only; omega, l, ?_, ?_⟩
          · rwa [show (r.take n).length = n by rw [List.length_take]; omega]
          · rw [readTag_iff.1 h2]
            simp [List.append_assoc]
  · rintro ⟨hc, l, hl, rfl⟩
    have hid : ∃ b d, identifierOctets cls constructed tag = b :: d ∧ b.toNat / 64 = cls ∧ decide (b.toNat / 32 % 2 = 1) = constructed := by
      unfold identifierOctets
      split
      · refine ⟨_, _, rfl, ?_⟩
        rw [toNat_ofNat_lt (by split <;> omega)]
        cases constructed <;> simp <;> omega
      · refine ⟨_, _, rfl, ?_⟩
        rw [toNat_ofNat_lt (by split <;> omega)]
        cases constructed <;> simp <;> omega
    obtain ⟨b, d, e, e1, e2⟩ := hid
    have ht : readTag b (d ++ (l ++ contents ++ rest)) = .ok (tag, l ++ contents ++ rest) := by
      rw [readTag_iff, e1, e2, e]; rfl
    have hlen : readLen (l ++ contents ++ rest) = .ok (.definite contents.length, contents ++ rest) :=
      readLen_iff.2 ⟨l, hl, List.append_assoc _ _ _⟩
    have hr : readHeader (b :: (d ++ (l ++ contents ++ rest))) = .ok (b, tag, .definite contents.length, contents ++ rest) := by
      rw [readHeader, ht]; simp only [bind, Except.bind]; rw [hlen]
    rw [show identifierOctets cls constructed tag ++ l ++ contents ++ rest = b :: (d ++ (l ++ contents ++ rest)) by
      rw [e]; simp [List.append_assoc]]
    unfold parse
    rw [hr]
    simp only [bind, Except.bind]
    rw [if_neg (by simp)]
    exact ⟨_, by rw [List.drop_left], rfl, e1, e2, rfl, List.take_left⟩

theorem lengthIn_octets (n : Nat) (h : n < maxLen) : LengthIn (lengthOctets n) n := by
  have := readLen_lengthOctets n [] h
  obtain ⟨l, hl, e⟩ := readLen_iff.1 this
  rw [List.append_nil, List.append_nil] at e
  rwa [e]

/-- So what is written in DER is read, whatever its class, tag number, contents, and what follows. -/
theorem C77_read_back (cls tag : Nat) (constructed : Bool) (contents rest : Bytes) (hc : cls < 4) (hl : contents.length < maxLen) :
    ∃ p, parse (identifierOctets cls constructed tag ++ lengthOctets contents.length ++ contents ++ rest) = .ok (p, rest) ∧
      p.cls = cls ∧ p.constructed = constructed ∧ p.tag = tag ∧ p.contents = contents := by
  obtain ⟨p, h1, -, h2⟩ := (C77_value_exact _ rest contents cls tag constructed).2 ⟨hc, _, lengthIn_octets _ hl, rfl⟩
  exact ⟨p, h1, h2⟩

/-- Nothing is read from a value that is cut off, in whatever form it is. -/
theorem C77_truncated (data more : Bytes) (p : Parts) (h : parse (data ++ more) = .ok (p, [])) (hm : more ≠ []) :
    ∀ x, parse data ≠ .ok x := by
  rintro ⟨q, r⟩ hq
  obtain ⟨e, -, hj⟩ := parse_spec hq
  have := hj (r ++ more)
  rw [← List.append_assoc, ← e, h] at this
  injection this with this; injection this with _ this
  exact hm (List.append_eq_nil_iff.1 this.symm).2

/-- A value with the tag number 201 of the private class, its length in three octets. -/
example : (parse ([0xFF, 0x81, 0x49, 0x82, 0, 2, 7, 8, 9] : Bytes)) = .ok (⟨3, true, 201, [0xFF, 0x81, 0x49, 0x82, 0, 2], [7, 8], []⟩, [9]) ∧
    identifierOctets 3 true 201 = [0xFF, 0x81, 0x49] ∧ octetsValue [0, 2] = 2 := by
  refine ⟨by decide +kernel, ?_, by decide +kernel⟩
  simp [identifierOctets, base128, base128Hi]

end Signify.Props
