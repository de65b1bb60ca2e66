/-
Reading what the Distinguished Encoding Rules write.
-/
import Verif.Model.DerSpc
import Verif.Spec.Der
import Verif.Proofs.Utf16

set_option autoImplicit false

namespace Signify.Asn1

open Signify Spec

theorem intFromBytes_snoc (l : Bytes) (b : UInt8) : intFromBytes (l ++ [b]) = intFromBytes l * 256 + b.toNat := by
  simp [intFromBytes]

theorem toNat_ofNat_lt {n : Nat} (h : n < 256) : (UInt8.ofNat n).toNat = n := by
  simp; omega

theorem intFromBytes_base256 (n : Nat) : intFromBytes (base256 n) = n := by
  fun_induction base256 n with
  | case1 n h => simp [intFromBytes]; omega
  | case2 n h ih => rw [intFromBytes_snoc, ih, toNat_ofNat_lt (by omega)]; omega

theorem base256_length (k n : Nat) (h : n < 256 ^ (k + 1)) : (base256 n).length ≤ k + 1 := by
  induction k generalizing n with
  | zero => unfold base256; simp at h; simp [h]
  | succ k ih =>
    unfold base256
    split
    · simp
    · simp only [List.length_append, List.length_cons, List.length_nil]
      have : n / 256 < 256 ^ (k + 1) := by
        rw [Nat.div_lt_iff_lt_mul (by omega)]
        rw [Nat.pow_succ] at h
        exact h
      have := ih _ this
      omega

theorem base256_pos (n : Nat) : 0 < (base256 n).length := by unfold base256; split <;> simp

theorem readLen_lengthOctets (n : Nat) (rest : Bytes) (h : n < maxLen) :
    readLen (lengthOctets n ++ rest) = .ok (.definite n, rest) := by
  unfold lengthOctets
  split
  · rename_i h
    simp only [List.cons_append, List.nil_append, readLen]
    rw [toNat_ofNat_lt (by omega), if_pos h]
  · have h1 := base256_length 125 n h
    have h2 := base256_pos n
    simp only [List.cons_append, readLen]
    rw [toNat_ofNat_lt (by omega), if_neg (by omega), if_neg (by omega), if_neg (by simp)]
    rw [show 128 + (base256 n).length - 128 = (base256 n).length by omega]
    simp [intFromBytes_base256]

/-- The parts of an encoded value. -/
def tlvParts (id : UInt8) (c : Bytes) : Parts where
  cls := id.toNat / 64
  constructed := id.toNat / 32 % 2 = 1
  tag := id.toNat % 32
  header := id :: lengthOctets c.length
  contents := c
  trailer := []

theorem parse_tlv (id : UInt8) (c rest : Bytes) (hid : id.toNat % 32 ≠ 31) (h : c.length < maxLen) :
    parse (tlv id c ++ rest) = .ok (tlvParts id c, rest) := by
  have hr : readHeader (tlv id c ++ rest) = .ok (id, id.toNat % 32, .definite c.length, c ++ rest) := by
    simp only [tlv, List.cons_append, readHeader, readTag, List.append_assoc]
    rw [if_neg hid]
    simp only [bind, Except.bind]
    rw [readLen_lengthOctets _ _ h]
  unfold parse
  rw [hr]
  simp only [bind, Except.bind]
  rw [if_neg (by simp)]
  simp [tlvParts, tlv]
  rw [show (lengthOctets c.length).length + (c.length + rest.length) + 1 - (c.length + rest.length)
    = (lengthOctets c.length).length + 1 by omega]
  simp

theorem tlv_length (id : UInt8) (c : Bytes) : c.length < (tlv id c).length := by
  simp [tlv]; omega

theorem tlv_ne_nil (id : UInt8) (c rest : Bytes) : ∃ b l, tlv id c ++ rest = b :: l := ⟨_, _, rfl⟩

/-! ### Sequences of values -/

/-- Encoded values, one after the other. -/
def items : List (UInt8 × Bytes) → Bytes
  | [] => []
  | x :: l => tlv x.1 x.2 ++ items l

/-- Values that can be read. -/
def Readable (l : List (UInt8 × Bytes)) : Prop := ∀ x ∈ l, x.1.toNat % 32 ≠ 31 ∧ x.2.length < maxLen

theorem Readable.tail {x : UInt8 × Bytes} {l : List (UInt8 × Bytes)} (h : Readable (x :: l)) : Readable l :=
  fun y hy => h y (List.mem_cons_of_mem _ hy)

/-- The fields of a sequence, found among the given parts. -/
def matchFields : List Field → List Parts → Except Exc (List (String × Option Val))
  | [], _ => .ok []
  | .mk name _ optional _ :: l, [] =>
    if optional then do
      let vs ← matchFields l []
      .ok ((name, none) :: vs)
    else asn1Err "Field is missing from structure"
  | .mk name tagging optional t :: l, p :: ps =>
    if optional && !(Field.mk name tagging optional t).accepts p.cls p.tag then do
      let vs ← matchFields l (p :: ps)
      .ok ((name, none) :: vs)
    else do
      let v ← untag tagging t.build p
      let vs ← matchFields l ps
      .ok ((name, some v) :: vs)

theorem leftOver_items (l : List (UInt8 × Bytes)) (h : Readable l) (n : Nat) (hn : l.length ≤ n) :
    leftOver n (items l) = .ok () := by
  induction l generalizing n with
  | nil => cases n <;> rfl
  | cons x l ih =>
    cases n with
    | zero => simp at hn
    | succ n =>
      have hx := h x (List.mem_cons_self ..)
      show leftOver (n + 1) (tlv x.1 x.2 ++ items l) = _
      obtain ⟨b, r, e⟩ := tlv_ne_nil x.1 x.2 (items l)
      rw [e, leftOver.eq_3 _ _ (by simp), ← e, parse_tlv _ _ _ hx.1 hx.2]
      exact ih h.tail n (by simpa using hn)

theorem items_length (l : List (UInt8 × Bytes)) : l.length ≤ (items l).length := by
  induction l with
  | nil => simp
  | cons x l ih => simp [items, tlv]; omega

theorem buildFields_items (fs : List Field) (l : List (UInt8 × Bytes)) (h : Readable l) :
    buildFields fs (items l) = matchFields fs (l.map (fun x => tlvParts x.1 x.2)) := by
  induction fs generalizing l with
  | nil =>
    have := leftOver_items l h ((items l).length + 1) (by have := items_length l; omega)
    simp only [buildFields, matchFields, this]
    rfl
  | cons f fs ih =>
    obtain ⟨name, tagging, optional, t⟩ := f
    cases l with
    | nil =>
      simp only [items, buildFields, matchFields, List.map_nil]
      have := ih [] h
      simp only [items, List.map_nil] at this
      rw [this]
    | cons x l =>
      have hx := h x (List.mem_cons_self ..)
      obtain ⟨b, r, e⟩ := tlv_ne_nil x.1 x.2 (items l)
      have e' : items (x :: l) = b :: r := e
      have hp : parse (b :: r) = .ok (tlvParts x.1 x.2, items l) := by rw [← e, parse_tlv _ _ _ hx.1 hx.2]
      rw [e']
      simp only [buildFields, matchFields, List.map_cons, hp, bind, Except.bind]
      have i1 := ih (x :: l) h
      rw [e'] at i1
      rw [i1, ih l h.tail]
      rfl

theorem buildAll_items (build : Parts → Except Exc Val) (l : List (UInt8 × Bytes)) (h : Readable l) (n : Nat)
    (hn : l.length ≤ n) :
    buildAll build n (items l) = parseAll (fun x => build (tlvParts x.1 x.2)) l := by
  induction l generalizing n with
  | nil => cases n <;> rfl
  | cons x l ih =>
    cases n with
    | zero => simp at hn
    | succ n =>
      have hx := h x (List.mem_cons_self ..)
      show buildAll build (n + 1) (tlv x.1 x.2 ++ items l) = _
      obtain ⟨b, r, e⟩ := tlv_ne_nil x.1 x.2 (items l)
      rw [e, buildAll.eq_3 _ _ _ (by simp), ← e, parse_tlv _ _ _ hx.1 hx.2]
      simp only [bind, Except.bind, parseAll]
      rw [ih h.tail n (by simpa using hn)]

end Signify.Asn1
