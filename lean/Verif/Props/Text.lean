/-
Text of names (C66): what is read, and from which octets.
-/
import Verif.Proofs.Text
import Verif.Proofs.Schema
import Verif.Proofs.DerCert
import Verif.Proofs.Pkcs7
import Verif.Props.Value
set_option autoImplicit false

namespace Signify.Props
open Signify Asn1 Spec

/-- The text of an attribute of a name is read from a value iff this is a value of one of the string types, in primitive form, and its
contents octets encode the text: no octets are dropped, replaced or read as something else. -/
theorem C66_text (p : Parts) (s : String) :
    textNative p = .ok s ↔ p.cls = 0 ∧ p.constructed = false ∧ TextOctets p.tag p.contents s := textNative_iff p s

/-- From octets that encode no text in the string type, or from a value of another type, nothing is read: ValueError. -/
theorem C66_text_error (p : Parts) (h : ∀ s, ¬ (p.cls = 0 ∧ p.constructed = false ∧ TextOctets p.tag p.contents s)) :
    ∃ e, textNative p = .error e ∧ e.cls = .valueError := by
  cases hx : textNative p with
  | ok s => exact (h s ((textNative_iff p s).1 hx)).elim
  | error e => exact ⟨e, rfl, List.mem_singleton.1 (textNative_value p e hx)⟩

/-- In one string type, a text has one encoding. -/
theorem C66_text_unique (tag : Nat) (b b' : Bytes) (s : String) (h : TextOctets tag b s) (h' : TextOctets tag b' s) : b = b' := by
  cases h <;> cases h' <;> first | rfl | (rename_i ht _; omega)

theorem known_lookup (o : List Nat) : nameTypes.lookup o = none ↔ ∀ x ∈ attributeNames, x.1 ≠ o := by
  constructor
  · intro h x hx rfl
    have key : ∀ l : List (List Nat × String), x ∈ l → l.lookup x.1 ≠ none := by
      intro l hl
      induction l with
      | nil => cases hl
      | cons y l ih =>
        rw [List.lookup]
        split
        · exact fun h => by cases h
        · rename_i hne
          rcases List.mem_cons.1 hl with rfl | hl
          · simp at hne
          · exact ih hl
    exact key _ hx h
  · exact lookup_unknown

theorem textOctets_tag {t : Nat} {b : Bytes} {s : String} (h : TextOctets t b s) : t ≠ 2 ∧ t ≠ 3 ∧ t ≠ 4 := by
  cases h with
  | ascii _ _ h => omega
  | _ => decide

theorem octetsValue_lt (l : Bytes) : octetsValue l < 256 ^ l.length := by
  induction l with
  | nil => simp [octetsValue]
  | cons b l ih =>
    rw [octetsValue, List.length_cons, Nat.pow_succ]
    have := UInt8.toNat_lt b
    have : b.toNat * 256 ^ l.length ≤ 255 * 256 ^ l.length := Nat.mul_le_mul_right _ (by omega)
    omega

theorem intNative_in (b : Bytes) : IntegerIn b (intNative b) := by
  cases b with
  | nil => exact ⟨⟨0, by simp [intNative, octetsValue]⟩, by simp [intNative], by simp [intNative]⟩
  | cons x l =>
    unfold IntegerIn intNative
    simp only [intFromBytes_value]
    have h1 := octetsValue_lt l
    have hx := UInt8.toNat_lt x
    have e : (256 : Int) ^ (x :: l).length = ((256 ^ l.length : Nat) : Int) * 256 := by
      rw [List.length_cons, Int.pow_succ, Int.natCast_pow]; rfl
    rw [e, octetsValue]
    generalize 256 ^ l.length = m at h1 ⊢
    split
    · have : x.toNat * m ≤ 127 * m := Nat.mul_le_mul_right _ (by omega)
      refine ⟨⟨0, by omega⟩, by omega, ?_⟩
      rw [Int.natCast_add]
      omega
    · have : 128 * m ≤ x.toNat * m := Nat.mul_le_mul_right _ (by omega)
      have : x.toNat * m ≤ 255 * m := Nat.mul_le_mul_right _ (by omega)
      refine ⟨⟨-1, by omega⟩, ?_, ?_⟩ <;> rw [Int.natCast_add] <;> omega

theorem integerIn_unique {b : Bytes} {i j : Int} (hi : IntegerIn b i) (hj : IntegerIn b j) : i = j := by
  obtain ⟨⟨k, h1⟩, h2, h3⟩ := hi
  obtain ⟨⟨n, h4⟩, h5, h6⟩ := hj
  have hm : (0 : Int) < 256 ^ b.length := Int.pow_pos (by decide)
  generalize (256 : Int) ^ b.length = m at *
  have e : i - j = (k - n) * m := by rw [Int.sub_mul]; omega
  have : k - n = 0 := by
    by_cases hlt : k - n ≤ -1
    · have := Int.mul_le_mul_of_nonneg_right hlt (Int.le_of_lt hm)
      omega
    · by_cases hgt : 1 ≤ k - n
      · have := Int.mul_le_mul_of_nonneg_right hgt (Int.le_of_lt hm)
        omega
      · omega
  rw [this] at e
  omega

/-- The integers that are read from octets (serial numbers, versions, accuracies): two's complement, whatever the number of octets. -/
theorem C66_integer (b : Bytes) (i : Int) : intNative b = i ↔ IntegerIn b i :=
  ⟨fun h => h ▸ intNative_in b, fun h => integerIn_unique (intNative_in b) h⟩

/-- Minus two with superfluous octets, and a positive number whose first bit is set. -/
example : IntegerIn [0xFF, 0xFF, 0xFE] (-2) ∧ IntegerIn [0x00, 0x80] 128 ∧ ¬ IntegerIn [0x80] 128 :=
  ⟨⟨⟨-1, by decide⟩, by decide, by decide⟩, ⟨⟨0, by decide⟩, by decide, by decide⟩, fun h => absurd h.2.2 (by decide)⟩

/-- What the values of the attributes of a name are.  An x500UniqueIdentifier has octets, which are those of a BIT STRING without unused
bits; of attributes of unknown types, OCTET STRING and INTEGER are octets and integers; everything else is text. -/
theorem C66_attribute_value (o : List Nat) (p : Parts) :
    (∀ s, readNameVal o p = .ok (.text s) ↔ o ≠ [2, 5, 4, 45] ∧ p.cls = 0 ∧ p.constructed = false ∧ TextOctets p.tag p.contents s) ∧
    (∀ b, readNameVal o p = .ok (.octets b) ↔ p.cls = 0 ∧ p.constructed = false ∧
      ((o = [2, 5, 4, 45] ∧ p.tag = 3 ∧ p.contents = 0 :: b) ∨ ((∀ x ∈ attributeNames, x.1 ≠ o) ∧ p.tag = 4 ∧ p.contents = b))) ∧
    (∀ i, readNameVal o p = .ok (.int i) ↔ p.cls = 0 ∧ p.constructed = false ∧ (∀ x ∈ attributeNames, x.1 ≠ o) ∧ p.tag = 2 ∧
      IntegerIn p.contents i) ∧
    ∀ e, readNameVal o p = .error e → e.cls = .valueError := by
  have hk := known_lookup o
  have hu : o = [2, 5, 4, 45] → ¬ ∀ x ∈ attributeNames, x.1 ≠ o := by
    intro ho h
    obtain ⟨x, hx, he⟩ := unique_known
    exact h x hx (he.trans ho.symm)
  have ht := textNative_iff p
  have hx := fun s => (@textOctets_tag p.tag p.contents s)
  refine ⟨?_, ?_, ?_, fun e he => List.mem_singleton.1 (readNameVal_value o p e he)⟩ <;> unfold readNameVal <;> simp only [hk]
  · intro s
    split
    · rename_i ho
      constructor
      · intro h
        split at h
        · split at h <;> cases h
        · cases h
      · exact fun h => absurd ho h.1
    · rename_i ho
      split
      · rename_i h4
        constructor
        · intro h; cases h
        · exact fun h => absurd h4.2.2.2 (hx s h.2.2.2).2.2
      · split
        · rename_i h2
          constructor
          · intro h; cases h
          · exact fun h => absurd h2.2.2.2 (hx s h.2.2.2).1
        · constructor
          · intro h
            obtain ⟨s', h1, h2⟩ := Except.bind_eq_ok.1 h
            cases h2
            exact ⟨ho, (ht _).1 h1⟩
          · intro h
            rw [(ht s).2 h.2]
            rfl
  · intro b
    split
    · rename_i ho
      have hu := hu ho
      constructor
      · intro h
        split at h
        · rename_i h3
          split at h
          · rename_i b' hc
            cases h
            exact ⟨h3.1, h3.2.1, .inl ⟨ho, h3.2.2, hc⟩⟩
          · cases h
        · cases h
      · rintro ⟨h1, h2, ⟨-, h3, h4⟩ | ⟨h3, -⟩⟩
        · rw [if_pos ⟨h1, h2, h3⟩, h4]
          rfl
        · exact absurd h3 hu
    · rename_i ho
      split
      · rename_i h4
        constructor
        · intro h; cases h; exact ⟨h4.2.1, h4.2.2.1, .inr ⟨h4.1, h4.2.2.2, rfl⟩⟩
        · rintro ⟨-, -, ⟨h, -⟩ | ⟨-, -, h⟩⟩
          · exact absurd h ho
          · rw [h]
      · rename_i h4
        have : ¬ (p.cls = 0 ∧ p.constructed = false ∧
            ((o = [2, 5, 4, 45] ∧ p.tag = 3 ∧ p.contents = 0 :: b) ∨ ((∀ x ∈ attributeNames, x.1 ≠ o) ∧ p.tag = 4 ∧ p.contents = b))) := by
          rintro ⟨h1, h2, ⟨h, -⟩ | ⟨h5, h6, -⟩⟩
          · exact ho h
          · exact h4 ⟨h5, h1, h2, h6⟩
        refine ⟨fun h => ?_, fun h => absurd h this⟩
        split at h
        · cases h
        · obtain ⟨s', -, h2⟩ := Except.bind_eq_ok.1 h
          cases h2
  · intro i
    split
    · rename_i ho
      constructor
      · intro h
        split at h
        · split at h <;> cases h
        · cases h
      · exact fun h => absurd h.2.2.1 (hu ho)
    · split
      · rename_i h4
        constructor
        · intro h; cases h
        · intro h; have := h4.2.2.2; omega
      · split
        · rename_i h2
          constructor
          · intro h; cases h; exact ⟨h2.2.1, h2.2.2.1, h2.1, h2.2.2.2, intNative_in _⟩
          · intro h; rw [(C66_integer _ i).2 h.2.2.2.2]
        · rename_i h2
          constructor
          · intro h
            obtain ⟨s', -, h2⟩ := Except.bind_eq_ok.1 h
            cases h2
          · exact fun h => absurd ⟨h.2.2.1, h.1, h.2.1, h.2.2.2.1⟩ h2

/-- A unique identifier, octets and an integer in attributes that are not known, and text. -/
example : readNameVal [2, 5, 4, 45] ⟨0, false, 3, [3, 2], [0, 7], []⟩ = .ok (.octets [7]) ∧
    readNameVal [1, 2, 3] ⟨0, false, 4, [4, 1], [7], []⟩ = .ok (.octets [7]) ∧
    readNameVal [1, 2, 3] ⟨0, false, 2, [2, 1], [255], []⟩ = .ok (.int (-1)) ∧
    readNameVal [1, 2, 3] ⟨0, false, 12, [12, 1], [65], []⟩ = .ok (.text "A") ∧
    (∃ e, readNameVal [2, 5, 4, 3] ⟨0, false, 4, [4, 1], [7], []⟩ = .error e) := ⟨rfl, rfl, rfl, rfl, _, rfl⟩

/-- Octets that are not UTF-8 (a Latin-1 "é"), and the same octets as TeletexString. -/
example : (∃ e, textNative ⟨0, false, 12, [12, 1], [0xE9], []⟩ = .error e ∧ e.cls = .valueError) ∧
    textNative ⟨0, false, 20, [20, 1], [0xE9], []⟩ = .ok "é" ∧ TextOctets 20 [0xE9] "é" ∧
    textNative ⟨0, false, 12, [12, 2], [0xC3, 0xA9], []⟩ = .ok "é" :=
  ⟨⟨_, rfl, rfl⟩, rfl, .latin1 "é" (by decide), rfl⟩

end Signify.Props
