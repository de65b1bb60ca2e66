/-
C77: values of indefinite length are read as X.690 defines them.
-/
import Verif.Props.Value

set_option autoImplicit false

namespace Signify.Props

open Signify Spec Asn1

theorem readLen_indefinite {data rest : Bytes} : readLen data = .ok (.indefinite, rest) ↔ data = 0x80 :: rest := by
  constructor
  · intro h
    cases data with
    | nil => cases h
    | cons b data =>
      rw [readLen] at h
      split at h
      · cases h
      · simp only at h
        split at h
        · cases h
          rename_i h1 h2
          rw [show b = 0x80 from UInt8.toNat_inj.1 (by show b.toNat = 128; omega)]
        · split at h <;> cases h
  · rintro rfl
    rw [readLen, if_neg (by decide)]
    exact if_pos (by decide)

theorem take_values (c rest : Bytes) : (c ++ [0, 0] ++ rest).take ((c ++ [0, 0] ++ rest).length - rest.length - 2) = c := by
  have : (c ++ [0, 0] ++ rest).length - rest.length - 2 = c.length := by
    simp only [List.length_append, List.length_cons, List.length_nil]; omega
  rw [this, List.append_assoc, List.take_left]

theorem readHeader_inv {data rest : Bytes} {b : UInt8} {t : Nat} {l : Len} (h : readHeader data = .ok (b, t, l, rest)) :
    ∃ x, data = identifierOctets (b.toNat / 64) (b.toNat / 32 % 2 = 1) t ++ x ∧ readLen x = .ok (l, rest) := by
  cases data with
  | nil => cases h
  | cons b' data =>
    rw [readHeader] at h
    obtain ⟨⟨t', r1⟩, h2, h1⟩ := eok_bind h
    obtain ⟨⟨n', r2⟩, h3, h1⟩ := eok_bind h1
    cases h1
    exact ⟨r1, readTag_iff.1 h2, h3⟩

theorem readHeader_mk {cls tag : Nat} {constructed : Bool} {x rest : Bytes} {l : Len} (hc : cls < 4) (hx : readLen x = .ok (l, rest)) :
    ∃ b : UInt8, b.toNat / 64 = cls ∧ decide (b.toNat / 32 % 2 = 1) = constructed ∧
      readHeader (identifierOctets cls constructed tag ++ x) = .ok (b, tag, l, rest) := by
  have hid : ∃ b d, identifierOctets cls constructed tag = b :: d ∧ b.toNat / 64 = cls ∧ decide (b.toNat / 32 % 2 = 1) = constructed := by
    unfold identifierOctets
    split
    · refine ⟨_, _, rfl, ?_⟩
      rw [toNat_ofNat_lt (by split <;> omega)]
      cases constructed <;> simp <;> omega
    · refine ⟨_, _, rfl, ?_⟩
      rw [toNat_ofNat_lt (by split <;> omega)]
      cases constructed <;> simp <;> omega
  obtain ⟨b, d, e, e1, e2⟩ := hid
  have ht : readTag b (d ++ x) = .ok (tag, x) := by
    rw [readTag_iff, e1, e2, e]; rfl
  refine ⟨b, e1, e2, ?_⟩
  rw [e, List.cons_append, readHeader, ht]
  simp only [bind, Except.bind]
  rw [hx]

/-- What the loop for values of indefinite length needs of the values in it. -/
structure Skipping (skip : Bytes → Except Exc Bytes) (E : Bytes → Prop) : Prop where
  iff : ∀ data rest, skip data = .ok rest ↔ ∃ v, E v ∧ data = v ++ rest
  two : ∀ v, E v → 2 ≤ v.length
  eoc : ∀ v, E v → v.take 2 = [0, 0] → v = [0, 0]

theorem eocLoop_inv {skip : Bytes → Except Exc Bytes} {E : Bytes → Prop} (hs : Skipping skip E) {n : Nat} {data rest : Bytes}
    (h : eocLoop skip n data = .ok rest) : ∃ vs : List Bytes, (∀ v ∈ vs, E v ∧ v ≠ [0, 0]) ∧ data = vs.flatten ++ [0, 0] ++ rest := by
  induction n generalizing data with
  | zero => cases h
  | succ n ih =>
    rw [eocLoop] at h
    split at h
    · rename_i h0
      cases h
      refine ⟨[], by simp, ?_⟩
      rw [List.flatten_nil, List.nil_append, ← h0, List.take_append_drop]
    · rename_i h0
      split at h
      · cases h
      · rename_i r hr
        obtain ⟨v, hv, rfl⟩ := (hs.iff _ _).1 hr
        obtain ⟨vs, h1, rfl⟩ := ih h
        refine ⟨v :: vs, fun u hu => ?_, by simp⟩
        rcases List.mem_cons.1 hu with rfl | hu
        · exact ⟨hv, fun e => h0 (by rw [e]; rfl)⟩
        · exact h1 u hu

theorem eocLoop_mk {skip : Bytes → Except Exc Bytes} {E : Bytes → Prop} (hs : Skipping skip E) {vs : List Bytes} {rest : Bytes}
    (h : ∀ v ∈ vs, E v ∧ v ≠ [0, 0]) : ∀ n, vs.flatten.length < n → eocLoop skip n (vs.flatten ++ [0, 0] ++ rest) = .ok rest := by
  induction vs with
  | nil =>
    intro n hn
    cases n with
    | zero => simp at hn
    | succ n => rfl
  | cons v vs ih =>
    intro n hn
    obtain ⟨hv, hne⟩ := h v (List.mem_cons_self ..)
    have h2 := hs.two v hv
    cases n with
    | zero => simp at hn
    | succ n =>
      simp only [List.flatten_cons, List.length_append] at hn
      rw [eocLoop, if_neg]
      · rw [(hs.iff _ (vs.flatten ++ [0, 0] ++ rest)).2 ⟨v, hv, by simp⟩]
        exact ih (fun u hu => h u (List.mem_cons_of_mem _ hu)) n (by omega)
      · intro e
        refine hne (hs.eoc v hv ?_)
        rw [← e, List.flatten_cons, List.append_assoc, List.append_assoc, List.take_append_of_le_length h2]

theorem identifierOctets_length (cls tag : Nat) (constructed : Bool) : 1 ≤ (identifierOctets cls constructed tag).length := by
  unfold identifierOctets; split <;> simp

theorem lengthIn_length {l : Bytes} {n : Nat} (h : LengthIn l n) : 1 ≤ l.length := by cases h <;> simp

theorem encoding_two (d : Nat) (v : Bytes) (h : Encoding d v) : 2 ≤ v.length := by
  cases d with
  | zero => exact h.elim
  | succ d =>
    rcases h with ⟨cls, con, tag, l, c, -, hl, rfl⟩ | ⟨cls, tag, vs, -, -, rfl⟩
    · have := identifierOctets_length cls tag con
      have := lengthIn_length hl
      simp only [List.length_append]; omega
    · have := identifierOctets_length cls tag true
      simp only [List.length_append, List.length_cons, List.length_nil]; omega

theorem skipValue_skipping (d : Nat) : Skipping (skipValue d) (Encoding d) := by
  induction d with
  | zero => exact ⟨fun data rest => ⟨fun h => (by cases h), fun ⟨_, h, _⟩ => h.elim⟩, fun v h => h.elim, fun v h => h.elim⟩
  | succ d ih =>
    have hiff : ∀ data rest, skipValue (d + 1) data = .ok rest ↔ ∃ v, Encoding (d + 1) v ∧ data = v ++ rest := by
      intro data rest
      constructor
      · intro h
        rw [skipValue] at h
        obtain ⟨⟨b, t, l, r⟩, h1, h⟩ := eok_bind h
        obtain ⟨x, rfl, hx⟩ := readHeader_inv h1
        have hlt := b.toNat_lt
        cases l with
        | definite n =>
          simp only at h
          split at h
          · cases h
          · rename_i hn
            cases h
            obtain ⟨l, hl, rfl⟩ := readLen_iff.1 hx
            refine ⟨identifierOctets (b.toNat / 64) (b.toNat / 32 % 2 = 1) t ++ l ++ r.take n,
              .inl ⟨_, _, _, _, _, by omega, ?_, rfl⟩, ?_⟩
            · rwa [show (r.take n).length = n by rw [List.length_take]; omega]
            · simp [List.append_assoc]
        | indefinite =>
          simp only at h
          split at h
          · cases h
          · rename_i hb
            rw [readLen_indefinite.1 hx]
            obtain ⟨vs, h3, rfl⟩ := eocLoop_inv ih h
            refine ⟨_, .inr ⟨b.toNat / 64, t, vs, by omega, h3, rfl⟩, ?_⟩
            have : decide (b.toNat / 32 % 2 = 1) = true := decide_eq_true (by omega)
            rw [this]
            simp [List.append_assoc]
      · rintro ⟨v, ⟨cls, con, tag, l, c, hc, hl, rfl⟩ | ⟨cls, tag, vs, hc, hvs, rfl⟩, rfl⟩
        · obtain ⟨b, -, -, hh⟩ := readHeader_mk (constructed := con) (tag := tag) hc (readLen_iff.2 ⟨l, hl, rfl⟩ : readLen (l ++ (c ++ rest)) = _)
          rw [skipValue, List.append_assoc, List.append_assoc, hh]
          simp only [bind, Except.bind]
          rw [if_neg (by simp), List.drop_left]
        · obtain ⟨b, -, h2, hh⟩ := readHeader_mk (constructed := true) (tag := tag) hc
            (readLen_indefinite.2 rfl : readLen (0x80 :: (vs.flatten ++ [0, 0] ++ rest)) = _)
          have e : identifierOctets cls true tag ++ [0x80] ++ vs.flatten ++ [0, 0] ++ rest =
              identifierOctets cls true tag ++ 0x80 :: (vs.flatten ++ [0, 0] ++ rest) := by simp
          rw [skipValue, e, hh]
          simp only [bind, Except.bind]
          rw [if_neg (by have := of_decide_eq_true h2; omega)]
          exact eocLoop_mk ih hvs _ (by simp only [List.length_append]; omega)
    refine ⟨hiff, encoding_two _, fun v hv h0 => ?_⟩
    have h1 := (hiff v []).2 ⟨v, hv, by simp⟩
    have hv2 : v = 0 :: 0 :: v.drop 2 := by
      conv => lhs; rw [← List.take_append_drop 2 v, h0]
      rfl
    rw [hv2] at h1
    rw [skipValue] at h1
    have : readHeader (0 :: 0 :: v.drop 2) = .ok (0, 0, .definite 0, v.drop 2) := rfl
    rw [this] at h1
    simp only [bind, Except.bind, Nat.not_lt_zero, if_false, List.drop_zero] at h1
    injection h1 with h1
    rw [h1] at hv2
    exact hv2

/-- **C77**, for values of indefinite length: one is read from the data iff the data begin with its identifier octets for a constructed
value, the octet 0x80, any number of values, and end-of-contents octets; the contents are the values, and what is left is what follows.
Values of indefinite length may be nested in it to a depth of ten. -/
theorem C77_indefinite_exact (data rest contents : Bytes) (cls tag : Nat) (constructed : Bool) :
    (∃ p, parse data = .ok (p, rest) ∧ p.trailer = [0, 0] ∧ p.cls = cls ∧ p.constructed = constructed ∧ p.tag = tag ∧ p.contents = contents) ↔
      cls < 4 ∧ constructed = true ∧ ∃ values : List Bytes, (∀ v ∈ values, Encoding 10 v ∧ v ≠ [0, 0]) ∧ contents = values.flatten ∧
        data = identifierOctets cls true tag ++ [0x80] ++ contents ++ [0, 0] ++ rest := by
  constructor
  · rintro ⟨p, h, ht, rfl, rfl, rfl, rfl⟩
    unfold parse at h
    obtain ⟨⟨b, t, n, r⟩, h1, h⟩ := eok_bind h
    obtain ⟨x, rfl, hx⟩ := readHeader_inv h1
    have hlt := b.toNat_lt
    cases n with
    | definite n =>
      simp only at h
      split at h
      · cases h
      · cases h; cases ht
    | indefinite =>
      simp only at h
      split at h
      · cases h
      · rename_i hb
        obtain ⟨after, h2, h⟩ := eok_bind h
        cases h
        rw [readLen_indefinite.1 hx]
        obtain ⟨vs, h3, rfl⟩ := eocLoop_inv (skipValue_skipping 10) h2
        have hd : decide (b.toNat / 32 % 2 = 1) = true := decide_eq_true (by omega)
        have hc : (vs.flatten ++ [0, 0] ++ rest).take ((vs.flatten ++ [0, 0] ++ rest).length - rest.length - 2) = vs.flatten := take_values _ _
        refine ⟨by simp only; omega, hd, vs, h3, hc, ?_⟩
        simp only [hc, hd]
        simp [List.append_assoc]
  · rintro ⟨hc, rfl, vs, hvs, rfl, rfl⟩
    obtain ⟨b, h1, h2, hh⟩ := readHeader_mk (constructed := true) (tag := tag) hc
      (readLen_indefinite.2 rfl : readLen (0x80 :: (vs.flatten ++ [0, 0] ++ rest)) = _)
    have e : identifierOctets cls true tag ++ [0x80] ++ vs.flatten ++ [0, 0] ++ rest =
        identifierOctets cls true tag ++ 0x80 :: (vs.flatten ++ [0, 0] ++ rest) := by simp
    rw [parse, e, hh]
    simp only [bind, Except.bind]
    rw [if_neg (by have := of_decide_eq_true h2; omega),
      eocLoop_mk (skipValue_skipping 10) hvs _ (by simp only [List.length_append]; omega)]
    simp only
    exact ⟨_, rfl, rfl, h1, h2, rfl, take_values _ _⟩

/-- Every value that is read is of the one form or the other. -/
theorem C77_forms (data rest : Bytes) (p : Parts) (h : parse data = .ok (p, rest)) : p.trailer = [] ∨ p.trailer = [0, 0] := by
  unfold parse at h
  obtain ⟨⟨b, t, n, r⟩, h1, h⟩ := eok_bind h
  cases n with
  | definite n =>
    simp only at h
    split at h
    · cases h
    · cases h; exact .inl rfl
  | indefinite =>
    simp only at h
    split at h
    · cases h
    · obtain ⟨_, _, h⟩ := eok_bind h
      cases h
      exact .inr rfl

/-- A sequence of indefinite length with an integer and a sequence of indefinite length that holds a null. -/
example : Encoding 10 [2, 1, 7] ∧ Encoding 10 [0x30, 0x80, 5, 0, 0, 0] ∧
    parse ([0x30, 0x80, 2, 1, 7, 0x30, 0x80, 5, 0, 0, 0, 0, 0, 9] : Bytes) =
      .ok (⟨0, true, 16, [0x30, 0x80], [2, 1, 7, 0x30, 0x80, 5, 0, 0, 0], [0, 0]⟩, [9]) := by
  refine ⟨.inl ⟨0, false, 2, [1], [7], by decide, .short 1 (by decide), rfl⟩, .inr ⟨0, 16, [[5, 0]], by decide, fun v hv => ?_, rfl⟩,
    by decide +kernel⟩
  rw [List.mem_singleton.1 hv]
  exact ⟨.inl ⟨0, false, 5, [0], [], by decide, .short 0 (by decide), rfl⟩, by decide⟩

end Signify.Props
