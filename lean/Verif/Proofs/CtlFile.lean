/-
Lemmas about reading trust lists.
-/
import Verif.Proofs.Utf16
import Verif.Proofs.CTL

set_option autoImplicit false

namespace Signify

open Spec

theorem dotted_chars (oid : List Nat) : ∀ c ∈ (dotted oid).toList, c = '.' ∨ c.isDigit = true := by
  unfold dotted
  have key : ∀ (l : List String), (∀ s ∈ l, ∀ c ∈ s.toList, c = '.' ∨ c.isDigit = true) →
      ∀ c ∈ (".".intercalate l).toList, c = '.' ∨ c.isDigit = true := by
    intro l
    induction l with
    | nil => intro _ c hc; rw [String.intercalate_nil] at hc; simp at hc
    | cons s l ih =>
      cases l with
      | nil => intro h c hc; rw [String.intercalate_singleton] at hc; exact h s (by simp) c hc
      | cons t l =>
        intro h c hc
        rw [String.intercalate_cons_cons] at hc
        simp only [String.toList_append, List.mem_append] at hc
        rcases hc with (hc | hc) | hc
        · exact h s (by simp) c hc
        · left
          have : c ∈ ['.'] := hc
          simpa using this
        · exact ih (fun s hs => h s (List.mem_cons_of_mem _ hs)) c hc
  refine key _ ?_
  intro s hs c hc
  obtain ⟨n, -, rfl⟩ := List.mem_map.mp hs
  right
  rw [show toString n = Nat.repr n from rfl] at hc
  have : (Nat.repr n).toList = Nat.toDigits 10 n := by simp [Nat.repr]
  rw [this] at hc
  exact Nat.isDigit_of_mem_toDigits (by decide) (by decide) hc

theorem dotted_ne (oid : List Nat) (name : String) (h : ∃ c ∈ name.toList, c ≠ '.' ∧ c.isDigit = false) : dotted oid ≠ name := by
  rintro rfl
  obtain ⟨c, hc, h1, h2⟩ := h
  rcases dotted_chars oid c hc with h | h
  · exact h1 h
  · rw [h] at h2; cases h2

/-- The names of the known attribute types, by the last number of their OID. -/
def ctlNames : List (Nat × String) :=
  [(9, "microsoft_ctl_enhkey_usage"), (11, "microsoft_ctl_friendly_name"), (20, "microsoft_ctl_key_identifier"),
   (29, "microsoft_ctl_subject_name_md5_hash"), (83, "microsoft_ctl_root_program_cert_policies"),
   (98, "microsoft_ctl_auth_root_sha256_hash"), (104, "microsoft_ctl_disallowed_filetime"),
   (105, "microsoft_ctl_root_program_chain_policies"), (122, "microsoft_ctl_disallowed_enhkey_usage"),
   (126, "microsoft_ctl_not_before_filetime"), (127, "microsoft_ctl_not_before_enhkey_usage")]

theorem ctlAttrMap_eq : ctlAttrMap = ctlNames.map (fun p => (ctlOid p.1, p.2)) := rfl

theorem lookup_some_mem {α β : Type} [BEq α] [LawfulBEq α] {l : List (α × β)} {a : α} {b : β} (h : l.lookup a = some b) : (a, b) ∈ l := by
  induction l with
  | nil => cases h
  | cons p l ih =>
    obtain ⟨x, y⟩ := p
    rw [List.lookup_cons] at h
    split at h
    · rename_i hx
      have : a = x := by simpa using hx
      cases h
      rw [this]; exact List.mem_cons_self
    · exact List.mem_cons_of_mem _ (ih h)

theorem ctlAttrName_cases (oid : List Nat) :
    (∃ p ∈ ctlNames, oid = ctlOid p.1 ∧ ctlAttrName oid = p.2) ∨
    ((∀ p ∈ ctlNames, oid ≠ ctlOid p.1) ∧ ctlAttrName oid = dotted oid) := by
  unfold ctlAttrName
  cases h : ctlAttrMap.lookup oid with
  | some nm =>
    left
    have := lookup_some_mem h
    rw [ctlAttrMap_eq] at this
    obtain ⟨p, hp, he⟩ := List.mem_map.mp this
    cases he
    exact ⟨p, hp, rfl, rfl⟩
  | none =>
    right
    refine ⟨?_, rfl⟩
    rintro p hp rfl
    have key : ∀ p ∈ ctlNames, (ctlAttrMap.lookup (ctlOid p.1)).isSome = true := by decide
    have := key p hp
    rw [h] at this
    cases this

theorem ctlNames_letters : ∀ p ∈ ctlNames, ∃ c ∈ p.2.toList, c ≠ '.' ∧ c.isDigit = false := by decide

theorem ctlNames_inj : ∀ p ∈ ctlNames, ∀ q ∈ ctlNames, p.2 = q.2 → p = q := by decide

/-- The name of an attribute type is a known one iff the OID is. -/
theorem ctlAttrName_iff {p : Nat × String} (hp : p ∈ ctlNames) (oid : List Nat) : ctlAttrName oid = p.2 ↔ oid = ctlOid p.1 := by
  rcases ctlAttrName_cases oid with ⟨q, hq, rfl, h⟩ | ⟨h1, h2⟩
  · rw [h]
    constructor
    · intro he
      rw [ctlNames_inj q hq p hp he]
    · intro he
      have : q.1 = p.1 := by
        unfold ctlOid at he
        simpa using he
      have key : ∀ p ∈ ctlNames, ∀ q ∈ ctlNames, q.1 = p.1 → q.2 = p.2 := by decide
      exact key p hp q hq this
  · rw [h2]
    exact ⟨fun h => absurd h (dotted_ne oid _ (ctlNames_letters p hp)), fun h => absurd h (h1 p hp)⟩

/-- The type of the values, by OID. -/
def ctlSpecTable (oid : List Nat) : Option CtlSpec :=
  if oid ∈ [9, 105, 122, 127].map ctlOid then some .ekus
  else if oid = ctlOid 11 then some .string
  else if oid ∈ [104, 126].map ctlOid then some .fileTime
  else none

theorem ctlSpecOf_name (oid : List Nat) : ctlSpecOf (ctlAttrName oid) = ctlSpecTable oid := by
  rcases ctlAttrName_cases oid with ⟨q, hq, rfl, h⟩ | ⟨h1, h2⟩
  · rw [h]
    have key : ∀ q ∈ ctlNames, ctlSpecOf q.2 = ctlSpecTable (ctlOid q.1) := by decide
    exact key q hq
  · rw [h2]
    have e1 : ctlSpecOf (dotted oid) = none := by
      unfold ctlSpecOf
      cases h : List.lookup (dotted oid) ([("microsoft_ctl_enhkey_usage", CtlSpec.ekus),
        ("microsoft_ctl_friendly_name", CtlSpec.string),
        ("microsoft_ctl_disallowed_filetime", CtlSpec.fileTime),
        ("microsoft_ctl_root_program_chain_policies", CtlSpec.ekus),
        ("microsoft_ctl_disallowed_enhkey_usage", CtlSpec.ekus),
        ("microsoft_ctl_not_before_filetime", CtlSpec.fileTime),
        ("microsoft_ctl_not_before_enhkey_usage", CtlSpec.ekus)] : List (String × CtlSpec)) with
      | none => rfl
      | some s =>
        have hm := lookup_some_mem h
        have key : ∀ p ∈ ([("microsoft_ctl_enhkey_usage", CtlSpec.ekus),
          ("microsoft_ctl_friendly_name", CtlSpec.string),
          ("microsoft_ctl_disallowed_filetime", CtlSpec.fileTime),
          ("microsoft_ctl_root_program_chain_policies", CtlSpec.ekus),
          ("microsoft_ctl_disallowed_enhkey_usage", CtlSpec.ekus),
          ("microsoft_ctl_not_before_filetime", CtlSpec.fileTime),
          ("microsoft_ctl_not_before_enhkey_usage", CtlSpec.ekus)] : List (String × CtlSpec)),
          ∃ c ∈ p.1.toList, c ≠ '.' ∧ c.isDigit = false := by decide
        exact absurd rfl (dotted_ne oid _ (key _ hm))
    have e2 : ctlSpecTable oid = none := by
      unfold ctlSpecTable
      have h9 := h1 (9, "microsoft_ctl_enhkey_usage") (by decide)
      have h105 := h1 (105, "microsoft_ctl_root_program_chain_policies") (by decide)
      have h122 := h1 (122, "microsoft_ctl_disallowed_enhkey_usage") (by decide)
      have h127 := h1 (127, "microsoft_ctl_not_before_enhkey_usage") (by decide)
      have h11 := h1 (11, "microsoft_ctl_friendly_name") (by decide)
      have h104 := h1 (104, "microsoft_ctl_disallowed_filetime") (by decide)
      have h126 := h1 (126, "microsoft_ctl_not_before_filetime") (by decide)
      simp only at h9 h105 h122 h127 h11 h104 h126
      simp [h9, h105, h122, h127, h11, h104, h126]
    rw [e1, e2]

/-! ### success of the dictionary -/

theorem nativeAll_ok (vs : List CtlRaw) : (∃ l, nativeAll vs = .ok l) ↔ ∀ v ∈ vs, ∃ x, v.native = .ok x := by
  induction vs with
  | nil => simp [nativeAll]
  | cons v vs ih =>
    unfold nativeAll
    simp only [List.mem_cons, forall_eq_or_imp]
    cases hv : v.native with
    | error e => simp
    | ok x =>
      simp only
      rw [← ih]
      cases hvs : nativeAll vs with
      | error e => simp
      | ok l => simp

theorem nativeAll_nil {vs : List CtlRaw} (h : nativeAll vs = .ok []) : vs = [] := by
  cases vs with
  | nil => rfl
  | cons v vs =>
    unfold nativeAll at h
    split at h
    · cases h
    · split at h <;> cases h

theorem subjectAttributes_ok (attrs : List (String × List CtlRaw)) (d0 : Dict String CtlVal) :
    (∃ d, subjectAttributes attrs d0 = .ok d) ↔ ∀ a ∈ attrs, a.2 ≠ [] ∧ ∀ v ∈ a.2, ∃ x, v.native = .ok x := by
  induction attrs generalizing d0 with
  | nil => simp [subjectAttributes]
  | cons a l ih =>
    obtain ⟨t, vs⟩ := a
    unfold subjectAttributes
    simp only [List.mem_cons, forall_eq_or_imp]
    rw [← nativeAll_ok]
    rcases hn : nativeAll vs with e | ⟨_ | ⟨v0, vl⟩⟩
    · simp
    · simp [nativeAll_nil hn]
    · simp only
      rw [ih]
      have : vs ≠ [] := by rintro rfl; cases hn
      simp [this]

theorem parseSubject_ok (r : RawSubject) :
    (∃ s, parseSubject r = .ok s) ↔ ∀ a ∈ r.attributes, a.2 ≠ [] ∧ ∀ v ∈ a.2, ∃ x, v.native = .ok x := by
  rw [← subjectAttributes_ok r.attributes []]
  unfold parseSubject
  cases subjectAttributes r.attributes [] <;> simp

theorem parseSubjects_ok (rs : List RawSubject) (d0 : Dict String CtlSubject) :
    (∃ d, parseSubjects rs d0 = .ok d) ↔ ∀ r ∈ rs, ∃ s, parseSubject r = .ok s := by
  induction rs generalizing d0 with
  | nil => simp [parseSubjects]
  | cons r rs ih =>
    unfold parseSubjects
    simp only [List.mem_cons, forall_eq_or_imp]
    cases parseSubject r with
    | error e => simp
    | ok s => simp [ih]

theorem ctlValue_native (ekus : Bytes → Except Exc (List String)) (oid : List Nat) (b : Bytes) :
    (∃ x, (ctlValue ekus (ctlSpecTable oid) b).native = .ok x) ↔ ValueOk ekus oid b := by
  have ne : ∀ {m n : Nat}, m ≠ n → ctlOid m ≠ ctlOid n := by
    intro m n h he
    unfold ctlOid at he
    simp only [List.cons.injEq, true_and, and_true] at he
    exact h he
  unfold ValueOk ctlSpecTable
  by_cases h1 : oid ∈ [9, 105, 122, 127].map ctlOid
  · rw [if_pos h1]
    obtain ⟨n, hn, rfl⟩ := List.mem_map.mp h1
    have a1 : ctlOid n ≠ ctlOid 11 := ne (by rintro rfl; revert hn; decide)
    have a2 : ¬ ∃ m ∈ [104, 126], ctlOid n = ctlOid m := by
      rintro ⟨m, hm, he⟩
      refine ne ?_ he
      rintro rfl
      simp at hm hn
      omega
    unfold ctlValue
    simp only
    constructor
    · intro h
      refine ⟨fun _ => ?_, fun h => absurd h a1, fun h => absurd h a2⟩
      cases he : ekus b with
      | ok l => exact ⟨l, rfl⟩
      | error e => rw [he] at h; simp [CtlRaw.native] at h
    · rintro ⟨h, -, -⟩
      obtain ⟨l, hl⟩ := h ⟨n, hn, rfl⟩
      rw [hl]
      exact ⟨_, rfl⟩
  · rw [if_neg h1]
    have b1 : ¬ ∃ m ∈ [9, 105, 122, 127], oid = ctlOid m := by
      rintro ⟨m, hm, rfl⟩
      exact h1 (List.mem_map_of_mem hm)
    by_cases h2 : oid = ctlOid 11
    · rw [if_pos h2]
      subst h2
      have a2 : ¬ ∃ m ∈ [104, 126], ctlOid 11 = ctlOid m := by
        rintro ⟨m, hm, he⟩
        refine ne ?_ he
        rintro rfl
        simp at hm
      unfold ctlValue
      simp only
      constructor
      · intro h
        refine ⟨fun h => absurd h b1, fun _ => ?_, fun h => absurd h a2⟩
        cases he : ctlString b with
        | ok s => exact ⟨s, (ctlString_iff b s).mp he⟩
        | error e => rw [he] at h; simp [CtlRaw.native] at h
      · rintro ⟨-, h, -⟩
        obtain ⟨s, hs⟩ := h (by trivial)
        rw [(ctlString_iff b s).mpr hs]
        exact ⟨_, rfl⟩
    · rw [if_neg h2]
      by_cases h3 : oid ∈ [104, 126].map ctlOid
      · rw [if_pos h3]
        obtain ⟨n, hn, rfl⟩ := List.mem_map.mp h3
        unfold ctlValue CtlRaw.native
        simp only
        constructor
        · intro h
          refine ⟨fun h => absurd h b1, fun h => absurd h h2, fun _ => ?_⟩
          cases he : fileTimeNative b with
          | ok s => exact ⟨s, rfl⟩
          | error e => rw [he] at h; simp [Except.map] at h
        · rintro ⟨-, -, h⟩
          obtain ⟨s, hs⟩ := h ⟨n, hn, rfl⟩
          rw [hs]
          exact ⟨_, rfl⟩
      · rw [if_neg h3]
        have b3 : ¬ ∃ m ∈ [104, 126], oid = ctlOid m := by
          rintro ⟨m, hm, rfl⟩
          exact h3 (List.mem_map_of_mem hm)
        exact ⟨fun _ => ⟨fun h => absurd h b1, fun h => absurd h h2, fun h => absurd h b3⟩, fun _ => ⟨_, rfl⟩⟩

/-- The constructor of an entry succeeds iff the entry can be read. -/
theorem entry_ok (ekus : Bytes → Except Exc (List String)) (r : RawTrusted) :
    (∃ s, parseSubject (r.subject ekus) = .ok s) ↔ EntryOk ekus r := by
  rw [parseSubject_ok]
  unfold EntryOk RawTrusted.subject
  simp only
  cases ha : r.attributes with
  | none => simp
  | some l =>
    simp only [Option.getD_some, Option.some.injEq, forall_eq', List.mem_map, forall_exists_index, and_imp, forall_apply_eq_imp_iff₂,
      ne_eq, List.map_eq_nil_iff, ctlSpecOf_name, ctlValue_native]

/-! ### the dictionary of entries -/

theorem set_map_fst {ν : Type} (d : Dict String ν) (k : String) (v : ν) :
    (d.set k v).map Prod.fst = if k ∈ d.map Prod.fst then d.map Prod.fst else d.map Prod.fst ++ [k] := by
  induction d with
  | nil => simp [Dict.set]
  | cons p d ih =>
    obtain ⟨k', v'⟩ := p
    unfold Dict.set
    by_cases hk : k' = k
    · subst hk
      simp
    · rw [if_neg hk, List.map_cons, ih]
      have hk' : ¬ k = k' := fun h => hk h.symm
      simp only [List.map_cons, List.mem_cons, hk', false_or]
      split <;> rfl

theorem parseSubjects_keys (rs : List RawSubject) (d0 d : Dict String CtlSubject) (h : parseSubjects rs d0 = .ok d) :
    d.map Prod.fst = d0.map Prod.fst ++ ((distinct (rs.map RawSubject.identifier)).map hexOf).filter (fun k => k ∉ d0.map Prod.fst) := by
  induction rs generalizing d0 with
  | nil => cases h; simp [distinct]
  | cons r rs ih =>
    unfold parseSubjects at h
    cases hr : parseSubject r with
    | error e => rw [hr] at h; cases h
    | ok s =>
      rw [hr] at h
      simp only at h
      rw [ih _ h, set_map_fst, parseSubject_identifier hr]
      simp only [List.map_cons, distinct]
      have hf : ∀ (l : List Bytes) (ks : List String) (a : Bytes), hexOf a ∈ ks →
          ((l.filter (fun b => b ≠ a)).map hexOf).filter (fun k => k ∉ ks) = (l.map hexOf).filter (fun k => k ∉ ks) := by
        intro l ks a hm
        induction l with
        | nil => rfl
        | cons b l ih =>
          by_cases hb : b = a
          · subst hb
            rw [List.filter_cons_of_neg (by simp), List.map_cons, List.filter_cons_of_neg (by simpa using hm)]
            exact ih
          · rw [List.filter_cons_of_pos (by simpa using hb), List.map_cons, List.map_cons]
            by_cases hk : hexOf b ∈ ks
            · rw [List.filter_cons_of_neg (by simpa using hk), List.filter_cons_of_neg (by simpa using hk), ih]
            · rw [List.filter_cons_of_pos (by simpa using hk), List.filter_cons_of_pos (by simpa using hk), ih]
      split
      · rename_i hm
        rw [List.filter_cons_of_neg (by simpa using hm), hf _ _ _ hm]
      · rename_i hm
        rw [List.filter_cons_of_pos (by simpa using hm), List.append_assoc]
        congr 1
        rw [List.singleton_append]
        congr 1
        generalize distinct (rs.map RawSubject.identifier) = l
        induction l with
        | nil => rfl
        | cons b l ih =>
          by_cases hb : b = r.identifier
          · subst hb
            rw [List.filter_cons_of_neg (by simp), List.map_cons, List.filter_cons_of_neg (by simp)]
            exact ih
          · have hne : hexOf b ≠ hexOf r.identifier := fun h => hb (hexOf_inj h)
            rw [List.filter_cons_of_pos (by simpa using hb), List.map_cons, List.map_cons]
            by_cases hk : hexOf b ∈ d0.map Prod.fst
            · rw [List.filter_cons_of_neg (by simp only [List.mem_append, hk, true_or]; simp),
                List.filter_cons_of_neg (by simp only [hk]; simp), ih]
            · rw [List.filter_cons_of_pos (by simp only [List.mem_append, hk, List.mem_singleton, hne]; simp),
                List.filter_cons_of_pos (by simp only [hk]; simp), ih]

theorem parseSubjects_idents (rs : List RawSubject) (d0 d : Dict String CtlSubject) (h : parseSubjects rs d0 = .ok d)
    (h0 : ∀ p ∈ d0, p.1 = hexOf p.2.identifier) : ∀ p ∈ d, p.1 = hexOf p.2.identifier := by
  induction rs generalizing d0 with
  | nil => cases h; exact h0
  | cons r rs ih =>
    unfold parseSubjects at h
    cases hr : parseSubject r with
    | error e => rw [hr] at h; cases h
    | ok s =>
      rw [hr] at h
      simp only at h
      refine ih _ h ?_
      intro p hp
      have key : ∀ (d0 : Dict String CtlSubject), p ∈ d0.set (hexOf s.identifier) s → p ∈ d0 ∨ p = (hexOf s.identifier, s) := by
        intro d0
        induction d0 with
        | nil => intro h; simp only [Dict.set, List.mem_singleton] at h; exact .inr h
        | cons q d0 ih =>
          intro h
          unfold Dict.set at h
          split at h
          · rcases List.mem_cons.mp h with h | h
            · exact .inr h
            · exact .inl (List.mem_cons_of_mem _ h)
          · rcases List.mem_cons.mp h with h | h
            · exact .inl (by rw [h]; exact List.mem_cons_self)
            · rcases ih h with h | h
              · exact .inl (List.mem_cons_of_mem _ h)
              · exact .inr h
      rcases key d0 hp with h | h
      · exact h0 p h
      · rw [h]

end Signify
