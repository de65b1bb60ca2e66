/-
Text in ASN.1 string types: converses.
-/
import Verif.Spec.Text
import Verif.Proofs.DerCert
set_option autoImplicit false

namespace Signify.Asn1
open Signify Spec

theorem swapPairs_swapPairs : ∀ b : Bytes, swapPairs (swapPairs b) = b
  | [] => rfl
  | [_] => rfl
  | a :: b :: l => by simp [swapPairs, swapPairs_swapPairs l]

theorem bmpNative_iff (b : Bytes) (s : String) : bmpNative b = .ok s ↔ b = bmpOctets s := by
  constructor
  · intro h
    unfold bmpNative at h
    split at h
    · cases h
    · rename_i cs hc
      cases h
      have h1 := (utf16le_iff _ _).1 hc
      rw [← swapPairs_bmp] at h1
      have h2 := congrArg swapPairs h1
      rw [swapPairs_swapPairs, swapPairs_swapPairs] at h2
      rw [h2]
      simp [bmpOctets]
  · rintro rfl
    exact bmpNative_bmpOctets s

theorem latin1_back (b : Bytes) (n : Nat) (h : ∀ x ∈ b, x.toNat < n) :
    (∀ c ∈ (String.ofList (b.map (fun x => Char.ofNat x.toNat))).toList, c.toNat < n) ∧
    (String.ofList (b.map (fun x => Char.ofNat x.toNat))).toList.map (fun c => UInt8.ofNat c.toNat) = b := by
  rw [String.toList_ofList]
  have ht : ∀ x : UInt8, (Char.ofNat x.toNat).toNat = x.toNat := by
    intro x
    have hx : x.toNat < 256 := x.toNat_lt
    have hv : x.toNat.isValidChar := .inl (by omega)
    simp [Char.ofNat, hv, Char.toNat, Char.ofNatAux]
  constructor
  · intro c hc
    obtain ⟨x, hx, rfl⟩ := List.mem_map.1 hc
    rw [ht]
    exact h x hx
  · rw [List.map_map]
    conv => rhs; rw [← List.map_id b]
    apply List.map_congr_left
    intro x _
    simp only [Function.comp, ht, id]
    exact UInt8.ofNat_toNat

theorem asciiNative_iff (b : Bytes) (s : String) : asciiNative b = .ok s ↔ IsAscii s ∧ b = asciiOctets s := by
  constructor
  · intro h
    unfold asciiNative at h
    split at h
    · rename_i ha
      cases h
      have := latin1_back b 128 (fun x hx => of_decide_eq_true (List.all_eq_true.1 ha x hx))
      exact ⟨this.1, this.2.symm⟩
    · cases h
  · rintro ⟨h, rfl⟩
    exact asciiNative_asciiOctets h

theorem utf8Native_iff (b : Bytes) (s : String) : utf8Native b = .ok s ↔ b = s.toByteArray.data.toList := by
  constructor
  · intro h
    unfold utf8Native String.fromUTF8? at h
    split at h
    · rename_i hx
      split at hx
      · cases hx
        cases h
        rfl
      · cases hx
    · cases h
  · rintro rfl
    exact utf8Native_ok s

theorem latin1_ok (s : String) (h : ∀ c ∈ s.toList, c.toNat < 256) :
    String.ofList ((s.toList.map (fun c => UInt8.ofNat c.toNat)).map (fun x => Char.ofNat x.toNat)) = s := by
  rw [List.map_map]
  have : List.map ((fun x : UInt8 => Char.ofNat x.toNat) ∘ fun c : Char => UInt8.ofNat c.toNat) s.toList = s.toList := by
    conv => rhs; rw [← List.map_id s.toList]
    apply List.map_congr_left
    intro c hc
    simp only [Function.comp, toNat_ofNat_lt (h c hc), id]
    exact Char.ofNat_toNat c
  rw [this]
  exact String.ofList_toList ..

theorem textNative_iff (p : Parts) (s : String) :
    textNative p = .ok s ↔ p.cls = 0 ∧ p.constructed = false ∧ TextOctets p.tag p.contents s := by
  obtain ⟨cls, con, tag, hd, c, tr⟩ := p
  constructor
  · intro h
    unfold textNative at h
    simp only at h
    split at h
    · cases h
    · rename_i h0
      rw [not_or] at h0
      refine ⟨Decidable.not_not.1 h0.1, Bool.not_eq_true _ ▸ h0.2, ?_⟩
      simp only
      split at h
      · rename_i ht
        rw [(utf8Native_iff _ _).1 h, ht]
        exact .utf8 s
      · split at h
        · rename_i ht
          obtain ⟨h1, h2⟩ := (asciiNative_iff _ _).1 h
          rw [h2]
          exact .ascii tag s (by omega) h1
        · split at h
          · rename_i ht
            cases h
            have := latin1_back c 256 (fun x _ => x.toNat_lt)
            have k := TextOctets.latin1 _ this.1
            rw [this.2] at k
            rw [ht]
            exact k
          · split at h
            · rename_i ht
              rw [(bmpNative_iff _ _).1 h, ht]
              exact .bmp s
            · cases h
  · rintro ⟨h1, h2, h3⟩
    simp only at h1 h2 h3
    subst h1 h2
    unfold textNative
    cases h3 with
    | utf8 => simp [utf8Native_ok]
    | ascii _ _ ht ha => rcases ht with rfl | rfl | rfl <;> simp [asciiNative_asciiOctets ha]
    | latin1 _ h =>
      simp only [ne_eq, not_true_eq_false, Bool.false_eq_true, or_self, if_false]
      rw [latin1_ok s h]
      rfl
    | bmp => simp [bmpNative_bmpOctets]

end Signify.Asn1
