/-
Lemmas about the parsing of signatures.
-/
import Verif.Spec.Pkcs7
import Verif.Proofs.Dict

set_option autoImplicit false

namespace Signify

open Spec

theorem Except.bind_eq_ok {α β : Type} {x : Except Exc α} {f : α → Except Exc β} {b : β} :
    (x >>= f) = .ok b ↔ ∃ a, x = .ok a ∧ f a = .ok b := by
  cases x with
  | error e => exact ⟨fun h => (by cases h), fun ⟨a, h, _⟩ => (by cases h)⟩
  | ok a => exact ⟨fun h => ⟨a, rfl, h⟩, fun ⟨a', h, h'⟩ => by cases h; exact h'⟩

theorem Except.bind_eq_error {α β : Type} {x : Except Exc α} {f : α → Except Exc β} {e : Exc} :
    (x >>= f) = .error e ↔ x = .error e ∨ ∃ a, x = .ok a ∧ f a = .error e := by
  cases x with
  | error e' =>
    exact ⟨fun h => Or.inl (by cases h; rfl), fun h => h.elim (fun h => (by cases h; rfl)) (fun ⟨a, h, _⟩ => (by cases h))⟩
  | ok a =>
    exact ⟨fun h => Or.inr ⟨a, rfl, h⟩, fun h => h.elim (fun h => (by cases h)) (fun ⟨a', h, h'⟩ => (by cases h; exact h'))⟩

/-! ### Attribute dictionaries -/

theorem find?_map_pair {α : Type} (l : List α) (k : α → String) {ν : Type} (v : α → ν) (t : String) :
    (((l.map (fun a => (k a, v a))).reverse).find? (fun p => p.1 = t)).map Prod.snd = (l.reverse.find? (fun a => k a = t)).map v := by
  rw [← List.map_reverse]
  induction l.reverse with
  | nil => rfl
  | cons a l ih =>
    rw [List.map_cons, List.find?_cons, List.find?_cons]
    by_cases h : k a = t
    · simp [h]
    · simp only [h, decide_false, ih]

theorem attrDict_get? (l : List RawAttr) (t : String) : (attrDict l).get? t = (lastAttr l t).map RawAttr.values := by
  unfold attrDict lastAttr
  rw [Dict.get?_ofPairs, find?_map_pair]

theorem uattrDict_get? (l : List RawUAttr) (t : String) : (uattrDict l).get? t = (lastUAttr l t).map RawUAttr.values := by
  unfold uattrDict lastUAttr
  rw [Dict.get?_ofPairs, find?_map_pair]

theorem lastAttr_mem {l : List RawAttr} {t : String} {a : RawAttr} (h : lastAttr l t = some a) : a ∈ l ∧ a.type = t := by
  unfold lastAttr at h
  exact ⟨List.mem_reverse.1 (List.mem_of_find?_eq_some h), by simpa using List.find?_some h⟩

theorem lastAttr_isSome {l : List RawAttr} {t : String} : (lastAttr l t).isSome ↔ ∃ a ∈ l, a.type = t := by
  unfold lastAttr
  rw [List.find?_isSome]
  simp

theorem lastUAttr_mem {l : List RawUAttr} {t : String} {a : RawUAttr} (h : lastUAttr l t = some a) : a ∈ l ∧ a.type = t := by
  unfold lastUAttr at h
  exact ⟨List.mem_reverse.1 (List.mem_of_find?_eq_some h), by simpa using List.find?_some h⟩

theorem uattrDict_none {l : List RawUAttr} {t : String} : (uattrDict l).get? t = none ↔ NoAttr l t := by
  rw [uattrDict_get?, Option.map_eq_none_iff]
  unfold lastUAttr NoAttr
  rw [List.find?_eq_none]
  simp

theorem uattrDict_some {l : List RawUAttr} {t : String} {vs : List RawUVal} :
    (uattrDict l).get? t = some vs ↔ AttrValues l t vs := by
  rw [uattrDict_get?, Option.map_eq_some_iff]
  rfl

theorem attrValues_not_none {l : List RawUAttr} {t : String} {vs : List RawUVal} (h : AttrValues l t vs) : ¬ NoAttr l t := by
  obtain ⟨a, h, _⟩ := h
  intro hn
  exact hn a (lastUAttr_mem h).1 (lastUAttr_mem h).2

theorem attrValues_unique {l : List RawUAttr} {t : String} {vs vs' : List RawUVal} (h : AttrValues l t vs)
    (h' : AttrValues l t vs') : vs = vs' := by
  have h1 := uattrDict_some.2 h
  rw [uattrDict_some.2 h'] at h1
  exact (Option.some.inj h1).symm

/-! ### Algorithms and single values -/

theorem getDigestAlgorithm_ok {a : RawAlg} {x : String} :
    getDigestAlgorithm a.algorithm a.params acceptedDigests = .ok x ↔ AcceptedAlg a ∧ x = a.algorithm := by
  unfold getDigestAlgorithm AcceptedAlg
  have he : acceptedDigests = digestAlgorithms := rfl
  rw [he]
  by_cases h : a.algorithm ∈ digestAlgorithms
  · rw [if_neg (by simpa using h)]
    cases hp : a.params with
    | true => simp
    | false =>
      simp only [Bool.false_eq_true, if_false, h, true_and, Except.ok.injEq, and_true]
      exact eq_comm
  · rw [if_pos h]
    exact ⟨fun h' => (by cases h'), fun h' => absurd h'.1.1 h⟩

theorem getDigestAlgorithm_error {alg : String} {p : Bool} {l : List String} {e : Exc}
    (h : getDigestAlgorithm alg p l = .error e) : e.is .parseError = true := by
  unfold getDigestAlgorithm at h
  split at h
  · cases h; rfl
  · split at h
    · cases h; rfl
    · cases h

theorem singleValue_ok {attrs : List RawAttr} {t : String} {c : ExcClass} {x : Option RawVal} :
    singleValue (attrDict attrs) t c = .ok x ↔
      (lastAttr attrs t = none ∧ x = none) ∨ ∃ a v, lastAttr attrs t = some a ∧ a.values = [v] ∧ x = some v := by
  unfold singleValue
  rw [attrDict_get?]
  cases h : lastAttr attrs t with
  | none => simpa using eq_comm
  | some a =>
    simp only [Option.map_some, reduceCtorEq, false_and, Option.some.injEq, false_or]
    obtain ⟨ty, vals⟩ := a
    match vals with
    | [] => simp
    | [v] =>
      simp only [Except.ok.injEq]
      constructor
      · rintro rfl; exact ⟨_, v, rfl, rfl, rfl⟩
      · rintro ⟨_, _, rfl, hv, rfl⟩; simpa using hv
    | v :: v' :: l => simp

theorem singleValue_error {d : Dict String (List RawVal)} {t : String} {c : ExcClass} {e : Exc}
    (h : singleValue d t c = .error e) : e.cls = c := by
  unfold singleValue at h
  split at h
  · cases h
  · cases h
  · cases h; rfl

theorem readsAttr_iff {α : Type} {attrs : List RawAttr} {t : String} {val : α → RawVal} {x : Option α} :
    ReadsAttr attrs t val x ↔
      (lastAttr attrs t = none ∧ x = none) ∨ ∃ a y, lastAttr attrs t = some a ∧ a.values = [val y] ∧ x = some y := by
  unfold ReadsAttr
  cases h : lastAttr attrs t with
  | none => simp
  | some a => simp

theorem messageDigestOf_ok {attrs : List RawAttr} {x : Option Bytes} :
    messageDigestOf (attrDict attrs) = .ok x ↔ ReadsAttr attrs "message_digest" .octets x := by
  unfold messageDigestOf
  rw [Except.bind_eq_ok, readsAttr_iff]
  constructor
  · rintro ⟨v, h1, h2⟩
    rcases singleValue_ok.1 h1 with ⟨h, rfl⟩ | ⟨a, v', h, hv, rfl⟩
    · cases h2; exact Or.inl ⟨h, rfl⟩
    · cases v' with
      | octets b => cases h2; exact Or.inr ⟨a, b, h, hv, rfl⟩
      | _ => cases h2
  · rintro (⟨h, rfl⟩ | ⟨a, y, h, hv, rfl⟩)
    · exact ⟨none, singleValue_ok.2 (Or.inl ⟨h, rfl⟩), rfl⟩
    · exact ⟨some (.octets y), singleValue_ok.2 (Or.inr ⟨a, _, h, hv, rfl⟩), rfl⟩

theorem signingTimeOf_ok {attrs : List RawAttr} {x : Option Int} :
    signingTimeOf (attrDict attrs) = .ok x ↔ ReadsAttr attrs "signing_time" .time x := by
  unfold signingTimeOf
  rw [Except.bind_eq_ok, readsAttr_iff]
  constructor
  · rintro ⟨v, h1, h2⟩
    rcases singleValue_ok.1 h1 with ⟨h, rfl⟩ | ⟨a, v', h, hv, rfl⟩
    · cases h2; exact Or.inl ⟨h, rfl⟩
    · cases v' with
      | time b => cases h2; exact Or.inr ⟨a, b, h, hv, rfl⟩
      | _ => cases h2
  · rintro (⟨h, rfl⟩ | ⟨a, y, h, hv, rfl⟩)
    · exact ⟨none, singleValue_ok.2 (Or.inl ⟨h, rfl⟩), rfl⟩
    · exact ⟨some (.time y), singleValue_ok.2 (Or.inr ⟨a, _, h, hv, rfl⟩), rfl⟩

theorem statementTypesOf_ok {attrs : List RawAttr} {x : Option (List String)} :
    statementTypesOf (attrDict attrs) = .ok x ↔ ReadsAttr attrs "microsoft_spc_statement_type" .oids x := by
  unfold statementTypesOf
  rw [Except.bind_eq_ok, readsAttr_iff]
  constructor
  · rintro ⟨v, h1, h2⟩
    rcases singleValue_ok.1 h1 with ⟨h, rfl⟩ | ⟨a, v', h, hv, rfl⟩
    · cases h2; exact Or.inl ⟨h, rfl⟩
    · cases v' with
      | oids b => cases h2; exact Or.inr ⟨a, b, h, hv, rfl⟩
      | _ => cases h2
  · rintro (⟨h, rfl⟩ | ⟨a, y, h, hv, rfl⟩)
    · exact ⟨none, singleValue_ok.2 (Or.inl ⟨h, rfl⟩), rfl⟩
    · exact ⟨some (.oids y), singleValue_ok.2 (Or.inr ⟨a, _, h, hv, rfl⟩), rfl⟩

theorem contentTypeOf_ok {attrs : List RawAttr} {expected : Option String} {x : Option String} :
    contentTypeOf (attrDict attrs) expected = .ok x ↔
      ReadsAttr attrs "content_type" .oid x ∧ ∀ y, expected = some y → ∀ z, x = some z → z = y := by
  unfold contentTypeOf
  rw [Except.bind_eq_ok, readsAttr_iff]
  constructor
  · rintro ⟨v, h1, h2⟩
    rcases singleValue_ok.1 h1 with ⟨h, rfl⟩ | ⟨a, v', h, hv, rfl⟩
    · cases h2; exact ⟨Or.inl ⟨h, rfl⟩, fun _ _ _ h => (by cases h)⟩
    · cases v' with
      | oid b =>
        simp only at h2
        split at h2
        · cases h2
        · rename_i hne
          cases h2
          refine ⟨Or.inr ⟨a, b, h, hv, rfl⟩, ?_⟩
          rintro y rfl z hz
          cases hz
          simp only [Option.isSome_some, Bool.true_and, bne_iff_ne, ne_eq, Option.some.injEq, Decidable.not_not] at hne
          exact hne.symm
      | _ => cases h2
  · rintro ⟨⟨h, rfl⟩ | ⟨a, y, h, hv, rfl⟩, he⟩
    · exact ⟨none, singleValue_ok.2 (Or.inl ⟨h, rfl⟩), rfl⟩
    · refine ⟨some (.oid y), singleValue_ok.2 (Or.inr ⟨a, _, h, hv, rfl⟩), ?_⟩
      simp only
      rw [if_neg]
      cases expected with
      | none => simp
      | some z => simpa using (he z rfl y rfl).symm

theorem opusOf_ok {attrs : List RawAttr} {x : Option String} {y z : Option LinkVal} :
    opusOf (attrDict attrs) = .ok (x, y, z) ↔
      match lastAttr attrs "microsoft_spc_sp_opus_info" with
        | none => x = none ∧ y = none ∧ z = none
        | some a => a.values = [.opus x y z] := by
  unfold opusOf
  rw [Except.bind_eq_ok]
  constructor
  · rintro ⟨v, h1, h2⟩
    rcases singleValue_ok.1 h1 with ⟨h, rfl⟩ | ⟨a, v', h, hv, rfl⟩
    · cases h2; rw [h]; exact ⟨rfl, rfl, rfl⟩
    · rw [h]
      cases v' with
      | opus p q r => cases h2; exact hv
      | _ => cases h2
  · intro h
    cases hl : lastAttr attrs "microsoft_spc_sp_opus_info" with
    | none =>
      rw [hl] at h
      obtain ⟨rfl, rfl, rfl⟩ := h
      exact ⟨none, singleValue_ok.2 (Or.inl ⟨hl, rfl⟩), rfl⟩
    | some a =>
      rw [hl] at h
      exact ⟨some (.opus x y z), singleValue_ok.2 (Or.inr ⟨a, _, hl, h, rfl⟩), rfl⟩

/-! ### DER lengths -/

theorem beNat_append (a b : Bytes) : beNat (a ++ b) = beNat a * 256 ^ b.length + beNat b := by
  unfold beNat
  rw [List.foldl_append]
  have : ∀ (b : Bytes) (n : Nat), b.foldl (fun n b => n * 256 + b.toNat) n
      = n * 256 ^ b.length + b.foldl (fun n b => n * 256 + b.toNat) 0 := by
    intro b
    induction b with
    | nil => intro n; simp
    | cons x b ih =>
      intro n
      simp only [List.foldl_cons, List.length_cons]
      rw [ih (n * 256 + x.toNat), ih (0 * 256 + x.toNat)]
      rw [Nat.pow_succ, Nat.add_mul, Nat.zero_mul, Nat.zero_add, Nat.mul_assoc, Nat.mul_comm 256, Nat.add_assoc]
  exact this b _

theorem beNat_snoc (a : Bytes) (x : UInt8) : beNat (a ++ [x]) = beNat a * 256 + x.toNat := by
  rw [beNat_append]
  simp [beNat]

theorem lenDigits_value : ∀ (f n : Nat), n ≤ f → beNat (lenDigits f n).reverse = n
  | 0, n, h => by
    have : n = 0 := by omega
    subst this; rfl
  | f + 1, n, h => by
    unfold lenDigits
    split
    · rename_i h0; subst h0; rfl
    · rw [List.reverse_cons, beNat_snoc, lenDigits_value f (n / 256) (by omega)]
      simp only [UInt8.toNat_ofNat']
      omega

theorem lenDigits_head : ∀ (f n : Nat), n ≤ f → (lenDigits f n).getLast? ≠ some 0
  | 0, n, h => by simp [lenDigits]
  | f + 1, n, h => by
    unfold lenDigits
    split
    · simp
    · rename_i h0
      rw [List.getLast?_cons]
      have ih := lenDigits_head f (n / 256) (by omega)
      cases hl : (lenDigits f (n / 256)).getLast? with
      | none =>
        rw [List.getLast?_eq_none_iff] at hl
        have hv := lenDigits_value f (n / 256) (by omega)
        rw [hl] at hv
        have : n / 256 = 0 := hv.symm
        simp only [Option.getD_none, ne_eq, Option.some.injEq]
        intro h1
        have h2 := congrArg UInt8.toNat h1
        simp only [UInt8.toNat_ofNat', UInt8.toNat_zero] at h2
        omega
      | some x =>
        rw [hl] at ih
        simpa using ih

/-- Minimal big-endian representations are unique. -/
theorem beNat_inj : ∀ (a b : Bytes), a.head? ≠ some 0 → b.head? ≠ some 0 → beNat a = beNat b → a = b := by
  have pos : ∀ l : Bytes, l ≠ [] → l.head? ≠ some 0 → 0 < beNat l := by
    intro l h1 h2
    cases l with
    | nil => exact absurd rfl h1
    | cons x l =>
      have : beNat (x :: l) = x.toNat * 256 ^ l.length + beNat l := by
        have := beNat_append [x] l
        rw [List.singleton_append] at this
        rw [this]; simp [beNat]
      rw [this]
      have hx : 0 < x.toNat := by
        rcases Nat.eq_zero_or_pos x.toNat with h | h
        · exfalso; apply h2; rw [List.head?_cons]; congr 1; exact UInt8.toNat_inj.1 (by simpa using h)
        · exact h
      have : 0 < x.toNat * 256 ^ l.length := Nat.mul_pos hx (Nat.pow_pos (by omega))
      omega
  suffices H : ∀ (n : Nat) (a b : Bytes), a.length ≤ n → a.head? ≠ some 0 → b.head? ≠ some 0 → beNat a = beNat b → a = b from
    fun a b => H a.length a b (Nat.le_refl _)
  intro n
  induction n with
  | zero =>
    intro a b hl ha hb h
    have : a = [] := List.length_eq_zero_iff.1 (by omega)
    subst this
    cases b with
    | nil => rfl
    | cons x b =>
      have := pos (x :: b) (by simp) hb
      have h0 : beNat ([] : Bytes) = 0 := rfl
      omega
  | succ n ih =>
    intro a b hl ha hb h
    rcases List.eq_nil_or_concat a with rfl | ⟨a', x, rfl⟩
    · cases b with
      | nil => rfl
      | cons x b =>
        have := pos (x :: b) (by simp) hb
        have h0 : beNat ([] : Bytes) = 0 := rfl
        omega
    · rcases List.eq_nil_or_concat b with rfl | ⟨b', y, rfl⟩
      · have := pos (a' ++ [x]) (by simp) (by simpa using ha)
        have h0 : beNat ([] : Bytes) = 0 := rfl
        rw [List.concat_eq_append] at h
        omega
      · rw [List.concat_eq_append, List.concat_eq_append] at *
        rw [beNat_snoc, beNat_snoc] at h
        have hx := x.toNat_lt
        have hy := y.toNat_lt
        have e1 : beNat a' = beNat b' := by omega
        have e2 : x.toNat = y.toNat := by omega
        have ha' : a'.head? ≠ some 0 := by
          cases a' with
          | nil => simp
          | cons z l => simpa using ha
        have hb' : b'.head? ≠ some 0 := by
          cases b' with
          | nil => simp
          | cons z l => simpa using hb
        rw [ih a' b' (by simp at hl; omega) ha' hb' e1, UInt8.toNat_inj.1 e2]

theorem derLength_iff (n : Nat) (l : Bytes) : DerLength n l ↔ l = derLength n := by
  unfold DerLength derLength
  by_cases h : n ≤ 127
  · rw [if_pos h]
    constructor
    · rintro (⟨_, h⟩ | ⟨h', _⟩)
      · exact h
      · omega
    · intro h'; exact Or.inl ⟨by omega, h'⟩
  · rw [if_neg h]
    simp only
    have hv := lenDigits_value n n (Nat.le_refl _)
    have hh := lenDigits_head n n (Nat.le_refl _)
    rw [← List.head?_reverse] at hh
    constructor
    · rintro (⟨_, _⟩ | ⟨_, ds, rfl, h1, h2⟩)
      · omega
      · rw [beNat_inj ds _ h2 hh (h1.trans hv.symm)]
    · rintro rfl
      exact Or.inr ⟨by omega, _, rfl, hv, hh⟩

theorem derSet_iff (c b : Bytes) : DerSet c b ↔ b = encodeAttrs c := by
  unfold DerSet encodeAttrs
  constructor
  · rintro ⟨l, h, rfl⟩; rw [(derLength_iff _ _).1 h]; rfl
  · rintro rfl; exact ⟨_, (derLength_iff _ _).2 rfl, rfl⟩

theorem lenDigits_mono : ∀ (f g m n : Nat), m ≤ n → m ≤ f → n ≤ g → (lenDigits f m).length ≤ (lenDigits g n).length
  | 0, g, m, n, h, _, _ => by simp [lenDigits]
  | f + 1, g, m, n, h, h1, h2 => by
    rw [lenDigits]
    split
    · simp
    · cases g with
      | zero => omega
      | succ g =>
        rw [lenDigits, if_neg (by omega)]
        simp only [List.length_cons]
        have := lenDigits_mono f g (m / 256) (n / 256) (by omega) (by omega) (by omega)
        omega

theorem derLength_mono {m n : Nat} (h : m ≤ n) : (derLength m).length ≤ (derLength n).length := by
  unfold derLength
  have := lenDigits_mono m n m n h (Nat.le_refl _) (Nat.le_refl _)
  by_cases h1 : m ≤ 127 <;> by_cases h2 : n ≤ 127
  · simp [h1, h2]
  · simp [h1, h2]
  · omega
  · simp [h1, h2, this]

/-- Different contents have different encodings. -/
theorem encodeAttrs_inj {a b : Bytes} (h : encodeAttrs a = encodeAttrs b) : a = b := by
  unfold encodeAttrs at h
  have hl := congrArg List.length h
  simp only [List.length_append, List.length_cons] at hl
  have : a.length = b.length := by
    rcases Nat.lt_trichotomy a.length b.length with h1 | h1 | h1
    · have := derLength_mono (Nat.le_of_lt h1); omega
    · exact h1
    · have := derLength_mono (Nat.le_of_lt h1); omega
  rw [this] at h
  exact List.append_cancel_left h

/-! ### Signers -/

/-- decoding of the signed attributes -/
def decodeAttrs (cd : Codec) (h : SIHead) : Except Exc (List RawAttr) :=
  match h.signedAttrs with
  | none => .ok []
  | some contents => cd.attrs contents

theorem decodeAttrs_ok {cd : Codec} {h : SIHead} {attrs : List RawAttr} :
    decodeAttrs cd h = .ok attrs ↔ SignedAttrs cd h attrs := by
  unfold decodeAttrs SignedAttrs
  cases h.signedAttrs with
  | none => simpa using eq_comm
  | some b => simp

theorem required_iff {attrs : List RawAttr} {required : List String} :
    (required.all (fun t => ((attrDict attrs).get? t).isSome)) = true ↔ ∀ t ∈ required, ∃ a ∈ attrs, a.type = t := by
  rw [List.all_eq_true]
  refine forall_congr' fun t => forall_congr' fun _ => ?_
  rw [attrDict_get?, Option.isSome_map, lastAttr_isSome]

theorem parseSigner_ok {cd : Codec} {required : List String} {expected : Option String} {h : SIHead} {s : Signer} :
    parseSigner cd required expected h = .ok s ↔ ∃ attrs, ReadsSigner cd required expected h attrs s := by
  unfold parseSigner
  by_cases h1 : h.sid = "subject_key_identifier"
  · rw [if_pos h1]
    exact ⟨fun h => (by cases h), fun ⟨_, h⟩ => absurd h1 h.bySerial⟩
  · rw [if_neg h1]
    change (decodeAttrs cd h >>= _) = _ ↔ _
    rw [Except.bind_eq_ok]
    constructor
    · rintro ⟨attrs, ha, hr⟩
      refine ⟨attrs, ?_⟩
      simp only at hr
      split at hr
      · cases hr
      · rename_i hreq
        simp only [Bool.not_eq_true, Bool.not_eq_false'] at hreq
        obtain ⟨alg, g1, hr⟩ := Except.bind_eq_ok.1 hr
        obtain ⟨md, g2, hr⟩ := Except.bind_eq_ok.1 hr
        obtain ⟨ct, g3, hr⟩ := Except.bind_eq_ok.1 hr
        obtain ⟨st, g4, hr⟩ := Except.bind_eq_ok.1 hr
        cases hr
        obtain ⟨k1, rfl⟩ := getDigestAlgorithm_ok.1 g1
        exact ⟨h1, decodeAttrs_ok.1 ha, required_iff.1 hreq, k1, rfl, rfl, rfl, rfl, rfl, (derSet_iff _ _).2 rfl, rfl, messageDigestOf_ok.1 g2,
          (contentTypeOf_ok.1 g3).1, (contentTypeOf_ok.1 g3).2, signingTimeOf_ok.1 g4⟩
    · rintro ⟨attrs, hs⟩
      refine ⟨attrs, decodeAttrs_ok.2 hs.decoded, ?_⟩
      simp only
      rw [if_neg (by simp only [Bool.not_eq_true, Bool.not_eq_false']; exact required_iff.2 hs.complete)]
      refine Except.bind_eq_ok.2 ⟨_, getDigestAlgorithm_ok.2 ⟨hs.alg, rfl⟩, ?_⟩
      refine Except.bind_eq_ok.2 ⟨_, messageDigestOf_ok.2 hs.messageDigest, ?_⟩
      refine Except.bind_eq_ok.2 ⟨_, contentTypeOf_ok.2 ⟨hs.contentType, hs.expected⟩, ?_⟩
      refine Except.bind_eq_ok.2 ⟨_, signingTimeOf_ok.2 hs.signingTime, ?_⟩
      obtain ⟨i, sr, au, en, de, ed, da, md, ct, st⟩ := s
      have e1 := hs.issuer
      have e2 := hs.serial
      have e3 := hs.digestAlg
      have e4 := hs.digestEncAlg
      have e5 := hs.signature
      have e6 := (derSet_iff _ _).1 hs.encoded
      have e7 := hs.auth
      simp only at e1 e2 e3 e4 e5 e6 e7
      subst e1 e2 e3 e4 e5 e6 e7
      rfl

theorem parseCounter_ok {α : Type} {parse : RawSI → Except Exc α} {us : List RawUAttr} {x : Option α} :
    parseCounter parse us = .ok x ↔
      (NoAttr us "counter_signature" ∧ x = none) ∨
      ∃ si c, AttrValues us "counter_signature" [.signerInfo si] ∧ parse si = .ok c ∧ x = some c := by
  unfold parseCounter
  split
  · rename_i h
    have h' := uattrDict_none.1 h
    constructor
    · intro hx; cases hx; exact Or.inl ⟨h', rfl⟩
    · rintro (⟨_, rfl⟩ | ⟨si, c, hv, _⟩)
      · rfl
      · exact absurd h' (attrValues_not_none hv)
  · rename_i si h
    have h' := uattrDict_some.1 h
    rw [Except.bind_eq_ok]
    constructor
    · rintro ⟨c, hc, hx⟩; cases hx; exact Or.inr ⟨si, c, h', hc, rfl⟩
    · rintro (⟨hn, _⟩ | ⟨si', c, hv, hc, rfl⟩)
      · exact absurd hn (attrValues_not_none h')
      · have := attrValues_unique h' hv
        simp only [List.cons.injEq, RawUVal.signerInfo.injEq, and_true] at this
        subst this
        exact ⟨c, hc, rfl⟩
  · rename_i v hns h
    have h' := uattrDict_some.1 h
    constructor
    · intro hx; cases hx
    · rintro (⟨hn, _⟩ | ⟨si', c, hv, hc, rfl⟩)
      · exact absurd hn (attrValues_not_none h')
      · have := attrValues_unique h' hv
        simp only [List.cons.injEq, and_true] at this
        exact absurd this (hns si')
  · rename_i vs h1 h2 h
    have h' := uattrDict_some.1 h
    constructor
    · intro hx; cases hx
    · rintro (⟨hn, _⟩ | ⟨si', c, hv, hc, rfl⟩)
      · exact absurd hn (attrValues_not_none h')
      · have := attrValues_unique h' hv
        exact absurd this (h2 _)

theorem parseCounter_congr {α : Type} {p q : RawSI → Except Exc α} {us : List RawUAttr}
    (h : ∀ si, AttrValues us "counter_signature" [.signerInfo si] → p si = q si) : parseCounter p us = parseCounter q us := by
  unfold parseCounter
  split
  · rfl
  · rename_i si hg
    rw [h si (uattrDict_some.1 hg)]
  · rfl
  · rfl

/-! ### Depth -/

theorem depthVals_mem {v : RawUVal} : ∀ {vs : List RawUVal}, v ∈ vs → v.depth ≤ depthVals vs
  | [], h => (by cases h)
  | w :: l, h => by
    rw [depthVals]
    rcases List.mem_cons.1 h with rfl | h
    · omega
    · have := depthVals_mem h; omega

theorem depthAttrs_mem {a : RawUAttr} : ∀ {us : List RawUAttr}, a ∈ us → a.depth ≤ depthAttrs us
  | [], h => (by cases h)
  | w :: l, h => by
    rw [depthAttrs]
    rcases List.mem_cons.1 h with rfl | h
    · omega
    · have := depthAttrs_mem h; omega

theorem depthSIs_mem {s : RawSI} : ∀ {l : List RawSI}, s ∈ l → s.depth ≤ depthSIs l
  | [], h => (by cases h)
  | w :: l, h => by
    rw [depthSIs]
    rcases List.mem_cons.1 h with rfl | h
    · omega
    · have := depthSIs_mem h; omega

theorem attrValues_depth {us : List RawUAttr} {t : String} {vs : List RawUVal} (h : AttrValues us t vs) {v : RawUVal}
    (hv : v ∈ vs) : v.depth ≤ depthAttrs us := by
  obtain ⟨a, h1, rfl⟩ := h
  have h2 := depthAttrs_mem (lastUAttr_mem h1).1
  have h3 := depthVals_mem hv
  obtain ⟨ty, vals⟩ := a
  rw [RawUAttr.depth] at h2
  simp only [RawUAttr.values] at h3
  omega

theorem si_depth (si : RawSI) : si.depth = depthAttrs si.unsigned + 1 := by
  obtain ⟨h, us⟩ := si
  rw [RawSI.depth]; rfl

theorem sd_depth (sd : RawSD) : sd.depth = depthSIs sd.signers + 1 := by
  obtain ⟨h, us⟩ := sd
  rw [RawSD.depth]; rfl

/-! ### Countersigners -/

theorem counterInfoStep_congr {cd : Codec} {p q : RawSI → Except Exc CounterInfo} {si : RawSI}
    (h : ∀ x : RawSI, x.depth < si.depth → p x = q x) : counterInfoStep cd p si = counterInfoStep cd q si := by
  unfold counterInfoStep
  rw [parseCounter_congr (p := p) (q := q)]
  intro x hx
  refine h x ?_
  have := attrValues_depth hx (List.mem_cons_self)
  rw [RawUVal.depth] at this
  rw [si_depth si]
  omega

theorem parseCounterInfoN_stable (cd : Codec) : ∀ (n m : Nat) (si : RawSI), si.depth ≤ n → si.depth ≤ m →
    parseCounterInfoN cd n si = parseCounterInfoN cd m si
  | 0, _, si, h, _ => absurd h (by rw [si_depth]; omega)
  | _ + 1, 0, si, _, h => absurd h (by rw [si_depth]; omega)
  | n + 1, m + 1, si, hn, hm => by
    unfold parseCounterInfoN
    exact counterInfoStep_congr fun x hx => parseCounterInfoN_stable cd n m x (by omega) (by omega)

/-- The recursion equation of `CounterSignerInfo(data)`. -/
theorem parseCounterInfo_eq (cd : Codec) (si : RawSI) :
    parseCounterInfo cd si = counterInfoStep cd (parseCounterInfo cd) si := by
  unfold parseCounterInfo
  conv => lhs; rw [si_depth si]
  rw [parseCounterInfoN]
  refine counterInfoStep_congr fun x hx => parseCounterInfoN_stable cd _ _ x ?_ (Nat.le_refl _)
  rw [si_depth si] at hx
  omega

theorem parseCounterInfo_ok_of {cd : Codec} : ∀ (n : Nat) (si : RawSI) (c : CounterInfo), si.depth ≤ n →
    parseCounterInfo cd si = .ok c → ReadsCounter cd si c
  | 0, si, _, h, _ => absurd h (by rw [si_depth]; omega)
  | n + 1, si, c, hd, h => by
    rw [parseCounterInfo_eq] at h
    unfold counterInfoStep at h
    obtain ⟨s, h1, h⟩ := Except.bind_eq_ok.1 h
    obtain ⟨c', h2, h⟩ := Except.bind_eq_ok.1 h
    cases h
    obtain ⟨attrs, h1⟩ := parseSigner_ok.1 h1
    rcases parseCounter_ok.1 h2 with ⟨h4, rfl⟩ | ⟨si', c, h4, h3, rfl⟩
    · exact .last h1 h4
    · replace h2 := h4
      refine .more h1 h2 (parseCounterInfo_ok_of n si' c ?_ h3)
      have := attrValues_depth h2 (List.mem_cons_self)
      rw [RawUVal.depth] at this
      rw [si_depth si] at hd
      omega

theorem parseCounterInfo_ok {cd : Codec} {si : RawSI} {c : CounterInfo} :
    parseCounterInfo cd si = .ok c ↔ ReadsCounter cd si c := by
  refine ⟨parseCounterInfo_ok_of _ si c (Nat.le_refl _), fun h => ?_⟩
  induction h with
  | last h1 h2 =>
    rw [parseCounterInfo_eq]
    unfold counterInfoStep
    exact Except.bind_eq_ok.2 ⟨_, parseSigner_ok.2 ⟨_, h1⟩, Except.bind_eq_ok.2 ⟨none, parseCounter_ok.2 (Or.inl ⟨h2, rfl⟩), rfl⟩⟩
  | more h1 h2 _ ih =>
    rw [parseCounterInfo_eq]
    unfold counterInfoStep
    exact Except.bind_eq_ok.2 ⟨_, parseSigner_ok.2 ⟨_, h1⟩,
      Except.bind_eq_ok.2 ⟨_, parseCounter_ok.2 (Or.inr ⟨_, _, h2, ih, rfl⟩), rfl⟩⟩

/-! ### SignedData -/

theorem parseAll_ok {α β : Type} {f : α → Except Exc β} : ∀ {l : List α} {bs : List β}, parseAll f l = .ok bs ↔
    bs.length = l.length ∧ ∀ (i : Nat) (a : α) (b : β), l[i]? = some a → bs[i]? = some b → f a = .ok b
  | [], bs => by
    unfold parseAll
    constructor
    · intro h; cases h; exact ⟨rfl, fun i a b h _ => (by simp at h)⟩
    · rintro ⟨h, _⟩
      rw [List.length_nil, List.length_eq_zero_iff] at h
      rw [h]
  | x :: l, bs => by
    unfold parseAll
    rw [Except.bind_eq_ok]
    constructor
    · rintro ⟨y, hy, h⟩
      obtain ⟨ys, hys, h⟩ := Except.bind_eq_ok.1 h
      cases h
      obtain ⟨h1, h2⟩ := parseAll_ok.1 hys
      refine ⟨by simp [h1], fun i a b ha hb => ?_⟩
      cases i with
      | zero => simp only [List.getElem?_cons_zero, Option.some.injEq] at ha hb; rw [← ha, ← hb, hy]
      | succ i => simp only [List.getElem?_cons_succ] at ha hb; exact h2 i a b ha hb
    · rintro ⟨h1, h2⟩
      cases bs with
      | nil => cases h1
      | cons y ys =>
        refine ⟨y, h2 0 x y rfl rfl, Except.bind_eq_ok.2 ⟨ys, parseAll_ok.2 ⟨by simpa using h1, fun i a b ha hb => ?_⟩, rfl⟩⟩
        exact h2 (i + 1) a b (by simpa using ha) (by simpa using hb)

theorem parseAll_congr {α β : Type} {f g : α → Except Exc β} : ∀ {l : List α}, (∀ a ∈ l, f a = g a) → parseAll f l = parseAll g l
  | [], _ => rfl
  | a :: l, h => by
    unfold parseAll
    rw [h a List.mem_cons_self, parseAll_congr fun b hb => h b (List.mem_cons_of_mem _ hb)]

theorem parseAll_error {α β : Type} {f : α → Except Exc β} {e : Exc} : ∀ {l : List α}, parseAll f l = .error e →
    ∃ a ∈ l, f a = .error e
  | [], h => (by cases h)
  | a :: l, h => by
    unfold parseAll at h
    rcases Except.bind_eq_error.1 h with h | ⟨b, _, h⟩
    · exact ⟨a, List.mem_cons_self, h⟩
    · rcases Except.bind_eq_error.1 h with h | ⟨bs, _, h⟩
      · obtain ⟨x, hx, h⟩ := parseAll_error h
        exact ⟨x, List.mem_cons_of_mem _ hx, h⟩
      · cases h

theorem parseSDCore_ok {expected : String} {h : SDHead} {c : SDCore} :
    parseSDCore expected h = .ok c ↔ (∃ a, h.digestAlgs = [a] ∧ AcceptedAlg a ∧ c.digestAlg = a.algorithm) ∧
      h.contentType = expected ∧ c.contentType = expected ∧ c.content = h.content.getD [] ∧
      c.certificates = (h.certs.filter (fun x => x.choice = "certificate")).map RawCert.cert ∧ c.octets = h.octets := by
  unfold parseSDCore
  rw [Except.bind_eq_ok]
  have hf : (h.certs.filter (fun c => c.choice == "certificate")) = h.certs.filter (fun x => x.choice = "certificate") := by
    refine List.filter_congr fun x _ => ?_
    rw [Bool.beq_eq_decide_eq]
  constructor
  · rintro ⟨alg, h1, h2⟩
    split at h2
    · cases h2
    · rename_i h3
      rw [ne_eq, Decidable.not_not] at h3
      cases h2
      split at h1
      · rename_i a ha
        obtain ⟨k1, k2⟩ := getDigestAlgorithm_ok.1 h1
        exact ⟨⟨a, ha, k1, k2⟩, h3, h3, rfl, by rw [hf], rfl⟩
      · cases h1
  · rintro ⟨⟨a, h1, h2, h3⟩, h4, h5, h6, h7, h8⟩
    refine ⟨a.algorithm, ?_, ?_⟩
    · rw [h1]; exact getDigestAlgorithm_ok.2 ⟨h2, rfl⟩
    · rw [if_neg (by simpa using h4), hf]
      obtain ⟨x1, x2, x3, x4, x5⟩ := c
      simp only at h3 h5 h6 h7 h8
      subst h3 h5 h6 h7 h8
      rw [h4]

theorem decodeContent_ok {α : Type} {decode : Bool → Bytes → Except Exc α} {h : SDHead} {x : α} :
    decodeContent decode h = .ok x ↔ ∃ b, h.content = some b ∧ decode h.octets b = .ok x := by
  unfold decodeContent
  cases h.content with
  | none => simp
  | some b => simp

theorem mkTimedelta_ok {us d : Int} : mkTimedelta us = .ok d ↔ Duration us ∧ d = us := by
  unfold mkTimedelta Duration
  rw [Int.fdiv_eq_ediv_of_nonneg us (by decide : (0 : Int) ≤ 86400000000)]
  split
  · constructor
    · intro h; cases h
    · rintro ⟨h, _⟩; omega
  · constructor
    · intro h; cases h; exact ⟨by omega, rfl⟩
    · rintro ⟨_, rfl⟩; rfl

theorem addPart_ok {delta unit d : Int} {v : Option Int} (hd : Duration delta) :
    addPart delta v unit = .ok d ↔ Duration (v.getD 0 * unit) ∧ Duration (delta + v.getD 0 * unit) ∧ d = delta + v.getD 0 * unit := by
  have h0 : Duration 0 := by unfold Duration; omega
  unfold addPart
  cases v with
  | none => simp only [Option.getD_none, Int.zero_mul, Int.add_zero, Except.ok.injEq, h0, hd, true_and, eq_comm]
  | some x =>
    simp only [Option.getD_some]
    split
    · rename_i hx
      subst hx
      simp only [Int.zero_mul, Int.add_zero, Except.ok.injEq, h0, hd, true_and, eq_comm]
    · rw [Except.bind_eq_ok]
      constructor
      · rintro ⟨y, h1, h2⟩
        obtain ⟨k1, rfl⟩ := mkTimedelta_ok.1 h1
        exact ⟨k1, mkTimedelta_ok.1 h2⟩
      · rintro ⟨h1, h2⟩
        exact ⟨_, mkTimedelta_ok.2 ⟨h1, rfl⟩, mkTimedelta_ok.2 h2⟩

theorem accuracy_ok {a : Option RawAccuracy} {d : Int} : accuracyToPython a = .ok d ↔
    d = (match a with
      | none => 0
      | some a => a.seconds.getD 0 * 1000000 + a.millis.getD 0 * 1000 + a.micros.getD 0) ∧
    ∀ x, a = some x → AccuracyFits (x.seconds.getD 0) (x.millis.getD 0) (x.micros.getD 0) := by
  unfold accuracyToPython
  cases a with
  | none =>
    constructor
    · intro h; cases h; exact ⟨rfl, fun x h => by cases h⟩
    · rintro ⟨rfl, _⟩; rfl
  | some a =>
    simp only [Except.bind_eq_ok]
    constructor
    · rintro ⟨x, h1, y, h2, h3⟩
      obtain ⟨k1, _, rfl⟩ := (addPart_ok (by unfold Duration; omega)).1 h1
      rw [Int.zero_add] at h2
      obtain ⟨k2, k3, rfl⟩ := (addPart_ok k1).1 h2
      obtain ⟨k4, k5, rfl⟩ := (addPart_ok k3).1 h3
      rw [Int.mul_one] at k4 k5 ⊢
      exact ⟨rfl, fun x h => by cases h; exact ⟨k1, k2, k4, k3, k5⟩⟩
    · rintro ⟨rfl, h⟩
      obtain ⟨k1, k2, k4, k3, k5⟩ := h a rfl
      refine ⟨a.seconds.getD 0 * 1000000,
        (addPart_ok (by unfold Duration; omega)).2 ⟨k1, by rw [Int.zero_add]; exact k1, (Int.zero_add _).symm⟩, _,
        (addPart_ok k1).2 ⟨k2, k3, rfl⟩, ?_⟩
      refine (addPart_ok k3).2 ?_
      rw [Int.mul_one]
      exact ⟨k4, k5, rfl⟩

theorem mkTimedelta_error {us : Int} {e : Exc} (h : mkTimedelta us = .error e) : e.cls = .overflowError := by
  unfold mkTimedelta at h
  split at h <;> cases h
  rfl

theorem addPart_error {delta unit : Int} {v : Option Int} {e : Exc} (h : addPart delta v unit = .error e) : e.cls = .overflowError := by
  unfold addPart at h
  split at h
  · cases h
  · split at h
    · cases h
    · rcases Except.bind_eq_error.1 h with h | ⟨_, _, h⟩ <;> exact mkTimedelta_error h

theorem accuracy_error {a : Option RawAccuracy} {e : Exc} (h : accuracyToPython a = .error e) : e.cls = .overflowError := by
  unfold accuracyToPython at h
  split at h
  · cases h
  · rcases Except.bind_eq_error.1 h with h | ⟨_, _, h⟩
    · exact addPart_error h
    rcases Except.bind_eq_error.1 h with h | ⟨_, _, h⟩ <;> exact addPart_error h

/-- An accuracy that is refused is out of range. -/
theorem accuracy_refused {a : Option RawAccuracy} {e : Exc} (h : accuracyToPython a = .error e) :
    ∃ x, a = some x ∧ ¬ AccuracyFits (x.seconds.getD 0) (x.millis.getD 0) (x.micros.getD 0) := by
  cases a with
  | none => cases h
  | some x =>
    refine ⟨x, rfl, fun hf => ?_⟩
    rw [accuracy_ok.2 ⟨rfl, fun y hy => by cases hy; exact hf⟩] at h
    cases h

theorem parseTsa_ok {g : Option GeneralName} {x : Option Name} :
    parseTsa g = .ok x ↔ (g = none ∧ x = none) ∨ ∃ y, g = some y ∧ y.choice = "directory_name" ∧ x = some y.name := by
  unfold parseTsa
  cases g with
  | none => simpa using eq_comm
  | some y =>
    simp only
    rw [Except.bind_eq_ok]
    unfold Name.ofGeneral
    constructor
    · rintro ⟨n, h1, h2⟩
      cases h2
      split at h1
      · cases h1
      · rename_i hc
        rw [ne_eq, Decidable.not_not] at hc
        cases h1
        exact Or.inr ⟨y, rfl, hc, rfl⟩
    · rintro (⟨h, _⟩ | ⟨z, hz, hc, rfl⟩)
      · cases h
      · cases hz
        exact ⟨y.name, by rw [if_neg (by simpa using hc)], rfl⟩

theorem parseTst_ok {r : RawTst} {t : Tst} : parseTst r = .ok t ↔ ReadsTst r t := by
  unfold parseTst
  constructor
  · intro h
    split at h
    · cases h
    · rename_i hv
      rw [ne_eq, Decidable.not_not] at hv
      obtain ⟨alg, h1, h⟩ := Except.bind_eq_ok.1 h
      obtain ⟨x, h3, h⟩ := Except.bind_eq_ok.1 h
      obtain ⟨n, h2, h⟩ := Except.bind_eq_ok.1 h
      cases h
      obtain ⟨k1, rfl⟩ := getDigestAlgorithm_ok.1 h1
      obtain ⟨k2, k3⟩ := accuracy_ok.1 h3
      exact ⟨hv, k1, rfl, rfl, rfl, rfl, rfl, parseTsa_ok.1 h2, k2, k3⟩
  · intro h
    rw [if_neg (by simpa using h.version)]
    refine Except.bind_eq_ok.2 ⟨_, getDigestAlgorithm_ok.2 ⟨h.alg, rfl⟩, ?_⟩
    refine Except.bind_eq_ok.2 ⟨_, accuracy_ok.2 ⟨h.accuracy, h.fits⟩, ?_⟩
    refine Except.bind_eq_ok.2 ⟨_, parseTsa_ok.2 h.authority, ?_⟩
    obtain ⟨x1, x2, x3, x4, x5, x6, x7⟩ := t
    have e1 := h.hashAlg
    have e2 := h.digest
    have e3 := h.time
    have e4 := h.policy
    have e5 := h.serial
    simp only at e1 e2 e3 e4 e5
    subst e1 e2 e3 e4 e5
    rfl

theorem parseRfcSigner_ok {cd : Codec} {si : RawSI} {s : Signer} :
    parseRfcSigner cd si = .ok s ↔ NoAttr si.unsigned "counter_signature" ∧
      ∃ attrs, ReadsSigner cd ["content_type", "message_digest"] (some "tst_info") si.head attrs s := by
  unfold parseRfcSigner
  constructor
  · intro h
    obtain ⟨s', h1, h⟩ := Except.bind_eq_ok.1 h
    obtain ⟨c, h2, h⟩ := Except.bind_eq_ok.1 h
    cases h
    rcases parseCounter_ok.1 h2 with ⟨h2, _⟩ | ⟨_, _, _, h2, _⟩
    · exact ⟨h2, parseSigner_ok.1 h1⟩
    · cases h2
  · rintro ⟨h1, h2⟩
    exact Except.bind_eq_ok.2 ⟨_, parseSigner_ok.2 h2, Except.bind_eq_ok.2 ⟨none, parseCounter_ok.2 (Or.inl ⟨h1, rfl⟩), rfl⟩⟩

theorem parseAll_single {α β : Type} {f : α → Except Exc β} {l : List α} {b : β} :
    parseAll f l = .ok [b] ↔ ∃ a, l = [a] ∧ f a = .ok b := by
  rw [parseAll_ok]
  constructor
  · rintro ⟨h1, h2⟩
    match l, h1 with
    | [a], _ => exact ⟨a, rfl, h2 0 a b rfl rfl⟩
  · rintro ⟨a, rfl, h⟩
    refine ⟨rfl, fun i x y hx hy => ?_⟩
    cases i with
    | zero => simp only [List.getElem?_cons_zero, Option.some.injEq] at hx hy; rw [← hx, ← hy, h]
    | succ i => simp at hx

theorem parseRfc3161_ok {cd : Codec} {sd : RawSD} {r : Rfc3161} : parseRfc3161 cd sd = .ok r ↔ ReadsRfc cd sd r := by
  unfold parseRfc3161
  constructor
  · intro h
    obtain ⟨core, h1, h⟩ := Except.bind_eq_ok.1 h
    obtain ⟨ss, h2, h⟩ := Except.bind_eq_ok.1 h
    obtain ⟨raw, h3, h⟩ := Except.bind_eq_ok.1 h
    obtain ⟨tst, h4, h⟩ := Except.bind_eq_ok.1 h
    split at h
    · rename_i s
      cases h
      obtain ⟨si, h5, h6⟩ := parseAll_single.1 h2
      obtain ⟨h6, attrs, h7⟩ := parseRfcSigner_ok.1 h6
      obtain ⟨b, h8, h9⟩ := decodeContent_ok.1 h3
      obtain ⟨k1, k2, k3, k4, k5, k6⟩ := parseSDCore_ok.1 h1
      rw [h8] at k4
      simp only [Option.getD_some] at k4
      exact ⟨⟨k1, ⟨k2, k3⟩, by rw [h8, k4], k5, k6⟩, ⟨raw, by simp only [k4, k6]; exact h9, parseTst_ok.1 h4⟩, ⟨si, attrs, h5, h6, h7⟩⟩
    · cases h
  · rintro ⟨h1, ⟨raw, h2, h3⟩, ⟨si, attrs, h4, h5, h6⟩⟩
    refine Except.bind_eq_ok.2 ⟨r.core, parseSDCore_ok.2 ⟨h1.alg, h1.contentType.1, h1.contentType.2, ?_, h1.certificates, h1.octets⟩, ?_⟩
    · rw [h1.content]; rfl
    refine Except.bind_eq_ok.2 ⟨[r.signer], parseAll_single.2 ⟨si, h4, parseRfcSigner_ok.2 ⟨h5, attrs, h6⟩⟩, ?_⟩
    refine Except.bind_eq_ok.2 ⟨raw, decodeContent_ok.2 ⟨_, h1.content, by rw [← h1.octets]; exact h2⟩, ?_⟩
    exact Except.bind_eq_ok.2 ⟨r.tst, parseTst_ok.2 h3, rfl⟩

theorem parseSpc_ok {r : RawSpc} {s : SpcInfo} : parseSpc r = .ok s ↔ ReadsSpc r s := by
  unfold parseSpc
  constructor
  · intro h
    split at h
    · cases h
    · rename_i ht
      rw [ne_eq, Decidable.not_not] at ht
      split at h
      · cases h
      · rename_i flags file hi
        obtain ⟨alg, h1, h⟩ := Except.bind_eq_ok.1 h
        cases h
        obtain ⟨k1, rfl⟩ := getDigestAlgorithm_ok.1 h1
        exact ⟨⟨ht, rfl⟩, hi, k1, rfl, rfl⟩
  · intro h
    rw [if_neg (by simpa using h.type.1), h.image]
    refine Except.bind_eq_ok.2 ⟨_, getDigestAlgorithm_ok.2 ⟨h.alg, rfl⟩, ?_⟩
    obtain ⟨x1, x2, x3, x4, x5⟩ := s
    have e1 := h.type.2
    have e2 := h.digestAlg
    have e3 := h.digest
    simp only at e1 e2 e3
    subst e1 e2 e3
    rfl

theorem parseNestedVal_ok {parse : RawSD → Except Exc ASD} {v : RawUVal} {a : ASD} :
    parseNestedVal parse v = .ok a ↔ ∃ sd, v = .contentInfo "signed_data" sd ∧ parse sd = .ok a := by
  unfold parseNestedVal
  split
  · rename_i t sd
    split
    · rename_i ht
      exact ⟨fun h => (by cases h), fun ⟨_, h, _⟩ => absurd (by injection h) ht⟩
    · rename_i ht
      rw [ne_eq, Decidable.not_not] at ht
      subst ht
      constructor
      · intro h; exact ⟨sd, rfl, h⟩
      · rintro ⟨sd', h, h'⟩; injection h with _ h; rw [h]; exact h'
  · rename_i hn
    exact ⟨fun h => (by cases h), fun ⟨sd, h, _⟩ => absurd h (hn _ _)⟩

theorem parseNested_ok {parse : RawSD → Except Exc ASD} {us : List RawUAttr} {nested : List ASD} :
    parseNested parse us = .ok nested ↔ ∃ sds, NestedIn us sds ∧ nested.length = sds.length ∧
      ∀ (i : Nat) (x : RawSD) (a : ASD), sds[i]? = some x → nested[i]? = some a → parse x = .ok a := by
  unfold parseNested NestedIn
  split
  · rename_i h
    have h' := uattrDict_none.1 h
    constructor
    · intro hx; cases hx; exact ⟨[], Or.inl ⟨h', rfl⟩, rfl, fun i x a h => (by simp at h)⟩
    · rintro ⟨sds, ⟨_, rfl⟩ | hv, hl, _⟩
      · rw [List.length_nil, List.length_eq_zero_iff] at hl; rw [hl]
      · exact absurd h' (attrValues_not_none hv)
  · rename_i vs h
    have h' := uattrDict_some.1 h
    rw [parseAll_ok]
    constructor
    · rintro ⟨hl, hf⟩
      have hall : ∀ (i : Nat) (v : RawUVal), vs[i]? = some v → ∃ sd a, v = .contentInfo "signed_data" sd ∧
          nested[i]? = some a ∧ parse sd = .ok a := by
        intro i v hv
        obtain ⟨hi, _⟩ := List.getElem?_eq_some_iff.1 hv
        have hn : nested[i]? = some (nested[i]'(by omega)) := List.getElem?_eq_getElem _
        obtain ⟨sd, h1, h2⟩ := parseNestedVal_ok.1 (hf i v _ hv hn)
        exact ⟨sd, _, h1, hn, h2⟩
      have : ∃ sds : List RawSD, vs = sds.map (.contentInfo "signed_data") := by
        have hm : ∀ v ∈ vs, ∃ sd, v = .contentInfo "signed_data" sd := by
          intro v hv
          obtain ⟨i, hi⟩ := List.mem_iff_getElem?.1 hv
          obtain ⟨sd, a, h1, _⟩ := hall i v hi
          exact ⟨sd, h1⟩
        clear hall hf hl h h'
        induction vs with
        | nil => exact ⟨[], rfl⟩
        | cons v l ih =>
          obtain ⟨sd, rfl⟩ := hm v List.mem_cons_self
          obtain ⟨sds, rfl⟩ := ih fun w hw => hm w (List.mem_cons_of_mem _ hw)
          exact ⟨sd :: sds, rfl⟩
      obtain ⟨sds, rfl⟩ := this
      refine ⟨sds, Or.inr h', by simpa using hl, fun i x a hx ha => ?_⟩
      obtain ⟨sd, h1, h2⟩ := parseNestedVal_ok.1 (hf i _ a (by rw [List.getElem?_map, hx]; rfl) ha)
      injection h1 with _ h1
      rw [h1]; exact h2
    · rintro ⟨sds, ⟨hn, _⟩ | hv, hl, hf⟩
      · exact absurd hn (attrValues_not_none h')
      · have := attrValues_unique h' hv
        subst this
        refine ⟨by simpa using hl, fun i v a hv ha => ?_⟩
        rw [List.getElem?_map, Option.map_eq_some_iff] at hv
        obtain ⟨x, hx, rfl⟩ := hv
        exact parseNestedVal_ok.2 ⟨x, rfl, hf i x a hx ha⟩

theorem parseTimestamp_ok {cd : Codec} {us : List RawUAttr} {c : Option CounterInfo} {x : Option CounterSigner} :
    parseTimestamp cd us c = .ok x ↔
      (NoAttr us "microsoft_time_stamp_token" ∧ x = c.map .pkcs9) ∨
      (NoAttr us "counter_signature" ∧ ∃ sd r, AttrValues us "microsoft_time_stamp_token" [.contentInfo "signed_data" sd] ∧
        ReadsRfc cd sd r ∧ x = some (.rfc3161 r)) := by
  unfold parseTimestamp
  simp only
  split
  · rename_i h
    have h' := uattrDict_none.1 h
    constructor
    · intro hx; cases hx; exact Or.inl ⟨h', rfl⟩
    · rintro (⟨_, rfl⟩ | ⟨_, sd, r, hv, _⟩)
      · rfl
      · exact absurd h' (attrValues_not_none hv)
  · rename_i vs h
    have h' := uattrDict_some.1 h
    split
    · rename_i hc
      constructor
      · intro hx; cases hx
      · rintro (⟨hn, _⟩ | ⟨hn, _⟩)
        · exact absurd hn (attrValues_not_none h')
        · rw [uattrDict_none.2 hn] at hc; cases hc
    · rename_i hc
      have hc' : NoAttr us "counter_signature" := uattrDict_none.1 (by simpa using hc)
      split
      · rename_i t sd
        split
        · rename_i ht
          constructor
          · intro hx; cases hx
          · rintro (⟨hn, _⟩ | ⟨_, sd', r, hv, _⟩)
            · exact absurd hn (attrValues_not_none h')
            · have := attrValues_unique h' hv
              simp only [List.cons.injEq, RawUVal.contentInfo.injEq, and_true] at this
              exact absurd this.1 ht
        · rename_i ht
          rw [ne_eq, Decidable.not_not] at ht
          subst ht
          rw [Except.bind_eq_ok]
          constructor
          · rintro ⟨r, hr, hx⟩
            cases hx
            exact Or.inr ⟨hc', sd, r, h', parseRfc3161_ok.1 hr, rfl⟩
          · rintro (⟨hn, _⟩ | ⟨_, sd', r, hv, hr, rfl⟩)
            · exact absurd hn (attrValues_not_none h')
            · have := attrValues_unique h' hv
              simp only [List.cons.injEq, RawUVal.contentInfo.injEq, and_true, true_and] at this
              subst this
              exact ⟨r, parseRfc3161_ok.2 hr, rfl⟩
      · rename_i v hns
        constructor
        · intro hx; cases hx
        · rintro (⟨hn, _⟩ | ⟨_, sd', r, hv, _⟩)
          · exact absurd hn (attrValues_not_none h')
          · have := attrValues_unique h' hv
            simp only [List.cons.injEq, and_true] at this
            exact absurd this (hns _ _)
      · rename_i hns _
        constructor
        · intro hx; cases hx
        · rintro (⟨hn, _⟩ | ⟨_, sd', r, hv, _⟩)
          · exact absurd hn (attrValues_not_none h')
          · exact absurd (attrValues_unique h' hv) (by first | exact hns _ _ | (rename_i h9; exact h9 _))

/-! ### Authenticode signatures -/

theorem counterSigner_iff {cd : Codec} {us : List RawUAttr} {x : Option CounterSigner} :
    (∃ c, parseCounter (parseCounterInfo cd) us = .ok c ∧ parseTimestamp cd us c = .ok x) ↔ ReadsCounterSigner cd us x := by
  constructor
  · rintro ⟨c, h1, h2⟩
    rcases parseCounter_ok.1 h1 with ⟨g1, rfl⟩ | ⟨si, c, g1, h3, rfl⟩
    · rcases parseTimestamp_ok.1 h2 with ⟨g2, rfl⟩ | ⟨_, sd, r, g2, h4, rfl⟩
      · exact .none g1 g2
      · exact .rfc3161 g1 g2 h4
    · rcases parseTimestamp_ok.1 h2 with ⟨g2, rfl⟩ | ⟨hn, _⟩
      · exact .pkcs9 g1 g2 (parseCounterInfo_ok.1 h3)
      · exact absurd hn (attrValues_not_none g1)
  · intro h
    cases h with
    | none h1 h2 => exact ⟨none, parseCounter_ok.2 (Or.inl ⟨h1, rfl⟩), parseTimestamp_ok.2 (Or.inl ⟨h2, rfl⟩)⟩
    | pkcs9 h1 h2 h3 =>
      exact ⟨some _, parseCounter_ok.2 (Or.inr ⟨_, _, h1, parseCounterInfo_ok.2 h3, rfl⟩), parseTimestamp_ok.2 (Or.inl ⟨h2, rfl⟩)⟩
    | rfc3161 h1 h2 h3 =>
      exact ⟨none, parseCounter_ok.2 (Or.inl ⟨h1, rfl⟩), parseTimestamp_ok.2 (Or.inr ⟨h1, _, _, h2, h3, rfl⟩)⟩

theorem authSignerStep_congr {cd : Codec} {p q : RawSD → Except Exc ASD} {si : RawSI}
    (h : ∀ x : RawSD, x.depth < si.depth → p x = q x) : authSignerStep cd p si = authSignerStep cd q si := by
  unfold authSignerStep
  have : parseNested p si.unsigned = parseNested q si.unsigned := by
    unfold parseNested
    split
    · rfl
    · rename_i vs hv
      refine parseAll_congr fun v hm => ?_
      unfold parseNestedVal
      split
      · rename_i t sd
        split
        · rfl
        · refine h sd ?_
          have := attrValues_depth (uattrDict_some.1 hv) hm
          rw [RawUVal.depth] at this
          rw [si_depth]
          omega
      · rfl
  rw [this]

theorem asdStep_congr {cd : Codec} {p q : RawSD → Except Exc ASD} {sd : RawSD}
    (h : ∀ x : RawSD, x.depth < sd.depth → p x = q x) : asdStep cd p sd = asdStep cd q sd := by
  unfold asdStep
  have : parseAll (authSignerStep cd p) sd.signers = parseAll (authSignerStep cd q) sd.signers := by
    refine parseAll_congr fun si hsi => authSignerStep_congr fun x hx => h x ?_
    have := depthSIs_mem hsi
    rw [sd_depth sd]
    omega
  rw [this]

theorem parseASDN_stable (cd : Codec) : ∀ (n m : Nat) (sd : RawSD), sd.depth ≤ n → sd.depth ≤ m →
    parseASDN cd n sd = parseASDN cd m sd
  | 0, _, sd, h, _ => absurd h (by rw [sd_depth]; omega)
  | _ + 1, 0, sd, _, h => absurd h (by rw [sd_depth]; omega)
  | n + 1, m + 1, sd, hn, hm => by
    unfold parseASDN
    exact asdStep_congr fun x hx => parseASDN_stable cd n m x (by omega) (by omega)

/-- The recursion equation of `AuthenticodeSignedData(data)`. -/
theorem parseASD_eq (cd : Codec) (sd : RawSD) : parseASD cd sd = asdStep cd (parseASD cd) sd := by
  unfold parseASD
  conv => lhs; rw [sd_depth sd]
  rw [parseASDN]
  refine asdStep_congr fun x hx => parseASDN_stable cd _ _ x ?_ (Nat.le_refl _)
  rw [sd_depth sd] at hx
  omega

theorem asdStep_ok {cd : Codec} {p : RawSD → Except Exc ASD} {sd : RawSD} {a : ASD} :
    asdStep cd p sd = .ok a ↔ ∃ (si : RawSI) (attrs : List RawAttr) (spc : RawSpc) (sds : List RawSD),
      ReadsCore "microsoft_spc_indirect_data_content" sd.head a.d.core ∧ sd.head.crls = 0 ∧
      cd.spc a.d.core.octets a.d.core.content = .ok spc ∧ ReadsSpc spc a.d.spc ∧ sd.signers = [si] ∧
      ReadsSigner cd ["content_type", "message_digest"] (some "microsoft_spc_indirect_data_content") si.head attrs a.d.signer ∧
      ReadsAttr attrs "microsoft_spc_statement_type" .oids a.d.statementTypes ∧
      (match lastAttr attrs "microsoft_spc_sp_opus_info" with
        | none => a.d.programName = none ∧ a.d.moreInfo = none ∧ a.d.publisherInfo = none
        | some x => x.values = [.opus a.d.programName a.d.moreInfo a.d.publisherInfo]) ∧
      ReadsCounterSigner cd si.unsigned a.d.counter ∧ NestedIn si.unsigned sds ∧ a.nested.length = sds.length ∧
      ∀ (i : Nat) (x : RawSD) (y : ASD), sds[i]? = some x → a.nested[i]? = some y → p x = .ok y := by
  unfold asdStep
  constructor
  · intro h
    obtain ⟨core, h1, h⟩ := Except.bind_eq_ok.1 h
    obtain ⟨ss, h2, h⟩ := Except.bind_eq_ok.1 h
    obtain ⟨raw, h3, h⟩ := Except.bind_eq_ok.1 h
    obtain ⟨spc, h4, h⟩ := Except.bind_eq_ok.1 h
    split at h
    · rename_i s
      split at h
      · cases h
      · rename_i hcrl
        rw [ne_eq, Decidable.not_not] at hcrl
        cases h
        obtain ⟨si, h5, h6⟩ := parseAll_single.1 h2
        unfold authSignerStep at h6
        obtain ⟨sg, g1, h6⟩ := Except.bind_eq_ok.1 h6
        obtain ⟨c, g2, h6⟩ := Except.bind_eq_ok.1 h6
        obtain ⟨st, g3, h6⟩ := Except.bind_eq_ok.1 h6
        obtain ⟨⟨o1, o2, o3⟩, g4, h6⟩ := Except.bind_eq_ok.1 h6
        obtain ⟨nested, g5, h6⟩ := Except.bind_eq_ok.1 h6
        obtain ⟨cs, g6, h6⟩ := Except.bind_eq_ok.1 h6
        cases h6
        obtain ⟨attrs, g1⟩ := parseSigner_ok.1 g1
        rw [g1.auth] at g3 g4
        obtain ⟨b, h8, h9⟩ := decodeContent_ok.1 h3
        obtain ⟨k1, k2, k3, k4, k5, k6⟩ := parseSDCore_ok.1 h1
        rw [h8] at k4
        simp only [Option.getD_some] at k4
        obtain ⟨sds, n1, n2, n3⟩ := parseNested_ok.1 g5
        refine ⟨si, attrs, raw, sds, ⟨k1, ⟨k2, k3⟩, ?_, k5, k6⟩, hcrl, ?_, parseSpc_ok.1 h4, h5, g1, statementTypesOf_ok.1 g3,
          opusOf_ok.1 g4, counterSigner_iff.1 ⟨c, g2, g6⟩, n1, n2, n3⟩
        · change _ = some core.content; rw [h8, k4]
        · change cd.spc core.octets core.content = _; rw [k4, k6]; exact h9
    · cases h
  · obtain ⟨d, nested⟩ := a
    rintro ⟨si, attrs, spc, sds, h1, h2, h3, h4, h5, h6, h7, h8, h9, h10, h11, h12⟩
    simp only [ASD.d, ASD.nested] at h1 h3 h4 h6 h7 h8 h9 h11 h12
    refine Except.bind_eq_ok.2 ⟨d.core, parseSDCore_ok.2 ⟨h1.alg, h1.contentType.1, h1.contentType.2, ?_, h1.certificates, h1.octets⟩, ?_⟩
    · rw [h1.content]; rfl
    obtain ⟨c, c1, c2⟩ := counterSigner_iff.2 h9
    refine Except.bind_eq_ok.2 ⟨[⟨d.signer, d.statementTypes, (d.programName, d.moreInfo, d.publisherInfo), nested, d.counter⟩],
      parseAll_single.2 ⟨si, h5, ?_⟩, ?_⟩
    · unfold authSignerStep
      refine Except.bind_eq_ok.2 ⟨d.signer, parseSigner_ok.2 ⟨attrs, h6⟩, ?_⟩
      refine Except.bind_eq_ok.2 ⟨c, c1, ?_⟩
      refine Except.bind_eq_ok.2 ⟨d.statementTypes, by rw [h6.auth]; exact statementTypesOf_ok.2 h7, ?_⟩
      refine Except.bind_eq_ok.2 ⟨_, by rw [h6.auth]; exact opusOf_ok.2 h8, ?_⟩
      refine Except.bind_eq_ok.2 ⟨nested, parseNested_ok.2 ⟨sds, h10, h11, h12⟩, ?_⟩
      exact Except.bind_eq_ok.2 ⟨d.counter, c2, rfl⟩
    · refine Except.bind_eq_ok.2 ⟨spc, decodeContent_ok.2 ⟨_, h1.content, by rw [← h1.octets]; exact h3⟩, ?_⟩
      refine Except.bind_eq_ok.2 ⟨d.spc, parseSpc_ok.2 h4, ?_⟩
      simp only
      rw [if_neg (by simpa using h2)]

theorem nestedIn_depth {us : List RawUAttr} {sds : List RawSD} (h : NestedIn us sds) {x : RawSD} (hx : x ∈ sds) :
    x.depth ≤ depthAttrs us := by
  rcases h with ⟨_, rfl⟩ | h
  · cases hx
  · have := attrValues_depth h (List.mem_map.2 ⟨x, hx, rfl⟩)
    rwa [RawUVal.depth] at this

theorem parseASD_ok_of {cd : Codec} : ∀ (n : Nat) (sd : RawSD) (a : ASD), sd.depth ≤ n → parseASD cd sd = .ok a →
    ReadsASD cd sd a
  | 0, sd, _, h, _ => absurd h (by rw [sd_depth]; omega)
  | n + 1, sd, a, hd, h => by
    rw [parseASD_eq] at h
    obtain ⟨si, attrs, spc, sds, h1, h2, h3, h4, h5, h6, h7, h8, h9, h10, h11, h12⟩ := asdStep_ok.1 h
    obtain ⟨d, nested⟩ := a
    refine .mk h1 h2 h3 h4 h5 h6 h7 h8 h9 h10 h11 fun i x y hx hy => parseASD_ok_of n x y ?_ (h12 i x y hx hy)
    have k1 := nestedIn_depth h10 (List.mem_of_getElem? hx)
    have k2 := depthSIs_mem (s := si) (l := sd.signers) (by rw [h5]; exact List.mem_cons_self)
    rw [si_depth] at k2
    rw [sd_depth] at hd
    omega

/-- Parsing succeeds exactly on conforming structures, and the object says what the structure says. -/
theorem parseASD_ok {cd : Codec} {sd : RawSD} {a : ASD} : parseASD cd sd = .ok a ↔ ReadsASD cd sd a := by
  refine ⟨parseASD_ok_of _ sd a (Nat.le_refl _), fun h => ?_⟩
  induction h with
  | mk h1 h2 h3 h4 h5 h6 h7 h8 h9 h10 h11 _ ih =>
    rw [parseASD_eq]
    exact asdStep_ok.2 ⟨_, _, _, _, h1, h2, h3, h4, h5, h6, h7, h8, h9, h10, h11, ih⟩

end Signify
