/-
Which exceptions the parsing of signatures raises.
-/
import Verif.Proofs.Pkcs7

set_option autoImplicit false

namespace Signify

open Spec

theorem singleValue_cases {attrs : List RawAttr} {t : String} {c : ExcClass} {x : RawVal}
    (h : singleValue (attrDict attrs) t c = .ok (some x)) : ∃ a ∈ attrs, a.type = t ∧ x ∈ a.values := by
  rcases singleValue_ok.1 h with ⟨_, h⟩ | ⟨a, v, h1, h2, h3⟩
  · cases h
  · cases h3
    exact ⟨a, (lastAttr_mem h1).1, (lastAttr_mem h1).2, by rw [h2]; exact List.mem_cons_self⟩

theorem is_of_cls {e : Exc} {c : ExcClass} (h : e.cls = c) (hc : (⟨c, e.msg⟩ : Exc).is .parseError = true) : e.is .parseError = true := by
  subst h; exact hc

theorem messageDigestOf_error {attrs : List RawAttr} {e : Exc} (h : messageDigestOf (attrDict attrs) = .error e) :
    e.is .parseError = true ∨ IllTyped attrs := by
  unfold messageDigestOf at h
  rcases Except.bind_eq_error.1 h with h | ⟨v, h1, h2⟩
  · exact Or.inl (is_of_cls (singleValue_error h) rfl)
  · right
    match v, h2 with
    | some v, h2 =>
      obtain ⟨a, ha, ht, hv⟩ := singleValue_cases h1
      refine ⟨a, ha, v, hv, Or.inl ⟨ht, ?_⟩⟩
      rintro b rfl
      cases h2

theorem contentTypeOf_error {attrs : List RawAttr} {x : Option String} {e : Exc}
    (h : contentTypeOf (attrDict attrs) x = .error e) : e.is .parseError = true ∨ IllTyped attrs := by
  unfold contentTypeOf at h
  rcases Except.bind_eq_error.1 h with h | ⟨v, h1, h2⟩
  · exact Or.inl (is_of_cls (singleValue_error h) rfl)
  · match v, h2 with
    | some v, h2 =>
      obtain ⟨a, ha, ht, hv⟩ := singleValue_cases h1
      by_cases hs : ∃ s, v = .oid s
      · obtain ⟨s, rfl⟩ := hs
        simp only at h2
        split at h2
        · cases h2; exact Or.inl rfl
        · cases h2
      · exact Or.inr ⟨a, ha, v, hv, Or.inr (Or.inl ⟨ht, fun s h => hs ⟨s, h⟩⟩)⟩

theorem signingTimeOf_error {attrs : List RawAttr} {e : Exc} (h : signingTimeOf (attrDict attrs) = .error e) :
    e.is .parseError = true ∨ IllTyped attrs := by
  unfold signingTimeOf at h
  rcases Except.bind_eq_error.1 h with h | ⟨v, h1, h2⟩
  · exact Or.inl (is_of_cls (singleValue_error h) rfl)
  · right
    match v, h2 with
    | some v, h2 =>
      obtain ⟨a, ha, ht, hv⟩ := singleValue_cases h1
      refine ⟨a, ha, v, hv, Or.inr (Or.inr (Or.inl ⟨ht, ?_⟩))⟩
      rintro b rfl
      cases h2

theorem statementTypesOf_error {attrs : List RawAttr} {e : Exc} (h : statementTypesOf (attrDict attrs) = .error e) :
    e.is .parseError = true ∨ IllTyped attrs := by
  unfold statementTypesOf at h
  rcases Except.bind_eq_error.1 h with h | ⟨v, h1, h2⟩
  · exact Or.inl (is_of_cls (singleValue_error h) rfl)
  · right
    match v, h2 with
    | some v, h2 =>
      obtain ⟨a, ha, ht, hv⟩ := singleValue_cases h1
      refine ⟨a, ha, v, hv, Or.inr (Or.inr (Or.inr (Or.inl ⟨ht, ?_⟩)))⟩
      rintro b rfl
      cases h2

theorem opusOf_error {attrs : List RawAttr} {e : Exc} (h : opusOf (attrDict attrs) = .error e) :
    e.is .parseError = true ∨ IllTyped attrs := by
  unfold opusOf at h
  rcases Except.bind_eq_error.1 h with h | ⟨v, h1, h2⟩
  · exact Or.inl (is_of_cls (singleValue_error h) rfl)
  · right
    match v, h2 with
    | some v, h2 =>
      obtain ⟨a, ha, ht, hv⟩ := singleValue_cases h1
      refine ⟨a, ha, v, hv, Or.inr (Or.inr (Or.inr (Or.inr ⟨ht, ?_⟩)))⟩
      rintro x y z rfl
      cases h2

theorem parseSigner_error {cd : Codec} {required : List String} {expected : Option String} {si : RawSI} {e : Exc}
    (h : parseSigner cd required expected si.head = .error e) : e.is .parseError = true ∨ BadSigner cd si := by
  unfold parseSigner at h
  split at h
  · cases h; exact Or.inl rfl
  · change (decodeAttrs cd si.head >>= _) = _ at h
    rcases Except.bind_eq_error.1 h with h | ⟨attrs, h1, h⟩
    · right; left
      unfold decodeAttrs at h
      split at h
      · cases h
      · rename_i b hb; exact ⟨b, e, hb, h⟩
    · have hill : IllTyped attrs → BadSigner cd si := fun hi => Or.inr (Or.inl ⟨attrs, decodeAttrs_ok.1 h1, hi⟩)
      simp only at h
      split at h
      · cases h; exact Or.inl rfl
      · rcases Except.bind_eq_error.1 h with h | ⟨_, _, h⟩
        · exact Or.inl (getDigestAlgorithm_error h)
        rcases Except.bind_eq_error.1 h with h | ⟨_, _, h⟩
        · exact (messageDigestOf_error h).imp_right hill
        rcases Except.bind_eq_error.1 h with h | ⟨_, _, h⟩
        · exact (contentTypeOf_error h).imp_right hill
        rcases Except.bind_eq_error.1 h with h | ⟨_, _, h⟩
        · exact (signingTimeOf_error h).imp_right hill
        · cases h

theorem parseCounter_error {α : Type} {parse : RawSI → Except Exc α} {us : List RawUAttr} {e : Exc}
    (h : parseCounter parse us = .error e) :
    e.is .parseError = true ∨ IllTypedU us ∨ ∃ si, AttrValues us "counter_signature" [.signerInfo si] ∧ parse si = .error e := by
  unfold parseCounter at h
  split at h
  · cases h
  · rename_i si hg
    rcases Except.bind_eq_error.1 h with h | ⟨_, _, h⟩
    · exact Or.inr (Or.inr ⟨si, uattrDict_some.1 hg, h⟩)
    · cases h
  · rename_i v hn hg
    obtain ⟨a, ha, hv⟩ := uattrDict_some.1 hg
    exact Or.inr (Or.inl ⟨a, (lastUAttr_mem ha).1, v, by rw [hv]; exact List.mem_cons_self,
      Or.inl ⟨(lastUAttr_mem ha).2, hn⟩⟩)
  · cases h; exact Or.inl rfl

theorem parseCounterInfo_error {cd : Codec} : ∀ (n : Nat) (si : RawSI) (e : Exc), si.depth ≤ n →
    parseCounterInfo cd si = .error e → e.is .parseError = true ∨ BadCounter cd si
  | 0, si, _, h, _ => absurd h (by rw [si_depth]; omega)
  | n + 1, si, e, hd, h => by
    rw [parseCounterInfo_eq] at h
    unfold counterInfoStep at h
    rcases Except.bind_eq_error.1 h with h | ⟨_, _, h⟩
    · exact (parseSigner_error h).imp_right .here
    rcases Except.bind_eq_error.1 h with h | ⟨_, _, h⟩
    · rcases parseCounter_error h with h | h | ⟨si', h1, h2⟩
      · exact Or.inl h
      · exact Or.inr (.here (Or.inr (Or.inr h)))
      · refine (parseCounterInfo_error n si' e ?_ h2).imp_right (.there h1)
        have := attrValues_depth h1 (List.mem_cons_self)
        rw [RawUVal.depth] at this
        rw [si_depth si] at hd
        omega
    · cases h

theorem parseSDCore_error {expected : String} {h : SDHead} {e : Exc} (he : parseSDCore expected h = .error e) :
    e.is .parseError = true ∨ BadHead h := by
  unfold parseSDCore at he
  rcases Except.bind_eq_error.1 he with he | ⟨_, _, he⟩
  · split at he
    · exact Or.inl (getDigestAlgorithm_error he)
    · rename_i hn
      right; left
      intro hl
      match hd : h.digestAlgs, hl with
      | [a], _ => exact hn a hd
  · split at he
    · cases he; exact Or.inl rfl
    · cases he

theorem parseTst_error {r : RawTst} {e : Exc} (h : parseTst r = .error e) :
    e.is .parseError = true ∨ (∃ g, r.tsa = some g ∧ g.choice ≠ "directory_name") ∨
      ∃ a, r.accuracy = some a ∧ ¬ AccuracyFits (a.seconds.getD 0) (a.millis.getD 0) (a.micros.getD 0) := by
  unfold parseTst at h
  split at h
  · cases h; exact Or.inl rfl
  · rcases Except.bind_eq_error.1 h with h | ⟨_, _, h⟩
    · exact Or.inl (getDigestAlgorithm_error h)
    rcases Except.bind_eq_error.1 h with h | ⟨_, _, h⟩
    · exact .inr (.inr (accuracy_refused h))
    rcases Except.bind_eq_error.1 h with h | ⟨_, _, h⟩
    · right
      left
      unfold parseTsa at h
      split at h
      · cases h
      · rename_i g hg
        rcases Except.bind_eq_error.1 h with h | ⟨_, _, h⟩
        · refine ⟨g, hg, ?_⟩
          unfold Name.ofGeneral at h
          split at h
          · assumption
          · cases h
        · cases h
    · cases h

theorem parseRfc3161_error {cd : Codec} {sd : RawSD} {e : Exc} (h : parseRfc3161 cd sd = .error e) :
    e.is .parseError = true ∨ BadRfc cd sd := by
  unfold parseRfc3161 at h
  rcases Except.bind_eq_error.1 h with h | ⟨_, _, h⟩
  · exact (parseSDCore_error h).imp_right .inl
  rcases Except.bind_eq_error.1 h with h | ⟨_, _, h⟩
  · obtain ⟨si, hs, h⟩ := parseAll_error h
    unfold parseRfcSigner at h
    rcases Except.bind_eq_error.1 h with h | ⟨_, _, h⟩
    · exact (parseSigner_error h).imp_right fun h => .inr (.inl ⟨si, hs, h⟩)
    rcases Except.bind_eq_error.1 h with h | ⟨_, _, h⟩
    · rcases parseCounter_error h with h | h | ⟨si', h1, h2⟩
      · exact .inl h
      · exact .inr (.inr (.inl ⟨si, hs, .inr (.inr h)⟩))
      · obtain ⟨a, ha, _⟩ := h1
        exact .inr (.inr (.inr (.inr (.inr (.inr ⟨si, hs, a, lastUAttr_mem ha⟩)))))
    · cases h
  rcases Except.bind_eq_error.1 h with h | ⟨raw, hr, h⟩
  · right
    unfold decodeContent at h
    split at h
    · rename_i hc; exact .inl (.inr hc)
    · rename_i b hc; exact .inr (.inr (.inl ⟨b, e, hc, h⟩))
  obtain ⟨b, hb, hr⟩ := decodeContent_ok.1 hr
  rcases Except.bind_eq_error.1 h with h | ⟨_, _, h⟩
  · refine (parseTst_error h).imp_right ?_
    rintro (⟨g, h1, h2⟩ | ⟨a, h1, h2⟩)
    · exact .inr (.inr (.inr (.inl ⟨b, raw, g, hb, hr, h1, h2⟩)))
    · exact .inr (.inr (.inr (.inr (.inl ⟨b, raw, a, hb, hr, h1, h2⟩))))
  · split at h
    · cases h
    · cases h; exact .inl rfl

theorem parseSpc_error {r : RawSpc} {e : Exc} (h : parseSpc r = .error e) : e.is .parseError = true ∨ r.image = none := by
  unfold parseSpc at h
  split at h
  · cases h; exact .inl rfl
  · split at h
    · rename_i hi; exact .inr hi
    · rcases Except.bind_eq_error.1 h with h | ⟨_, _, h⟩
      · exact .inl (getDigestAlgorithm_error h)
      · cases h

theorem parseTimestamp_error {cd : Codec} {us : List RawUAttr} {c : Option CounterInfo} {e : Exc}
    (h : parseTimestamp cd us c = .error e) : e.is .parseError = true ∨ IllTypedU us ∨
      ∃ sd, AttrValues us "microsoft_time_stamp_token" [.contentInfo "signed_data" sd] ∧ BadRfc cd sd := by
  unfold parseTimestamp at h
  simp only at h
  split at h
  · cases h
  · rename_i vs hg
    split at h
    · cases h; exact .inl rfl
    · split at h
      · rename_i t sd
        split at h
        · cases h; exact .inl rfl
        · rename_i ht
          rw [ne_eq, Decidable.not_not] at ht
          subst ht
          rcases Except.bind_eq_error.1 h with h | ⟨_, _, h⟩
          · exact (parseRfc3161_error h).imp_right fun h => .inr ⟨sd, uattrDict_some.1 hg, h⟩
          · cases h
      · rename_i v hn
        obtain ⟨a, ha, hv⟩ := uattrDict_some.1 hg
        exact .inr (.inl ⟨a, (lastUAttr_mem ha).1, v, by rw [hv]; exact List.mem_cons_self,
          .inr ⟨.inr (lastUAttr_mem ha).2, hn⟩⟩)
      · cases h; exact .inl rfl

theorem parseNested_error {parse : RawSD → Except Exc ASD} {us : List RawUAttr} {e : Exc}
    (h : parseNested parse us = .error e) : e.is .parseError = true ∨ IllTypedU us ∨
      ∃ vs x, AttrValues us "microsoft_nested_signature" vs ∧ .contentInfo "signed_data" x ∈ vs ∧ parse x = .error e := by
  unfold parseNested at h
  split at h
  · cases h
  · rename_i vs hg
    have hg' := uattrDict_some.1 hg
    obtain ⟨v, hv, h⟩ := parseAll_error h
    unfold parseNestedVal at h
    split at h
    · rename_i t sd
      split at h
      · cases h; exact .inl rfl
      · rename_i ht
        rw [ne_eq, Decidable.not_not] at ht
        subst ht
        exact .inr (.inr ⟨vs, sd, hg', hv, h⟩)
    · rename_i hn
      obtain ⟨a, ha, hvs⟩ := hg'
      exact .inr (.inl ⟨a, (lastUAttr_mem ha).1, v, by rw [hvs]; exact hv, .inr ⟨.inl (lastUAttr_mem ha).2, hn⟩⟩)

theorem parseASD_error_of {cd : Codec} : ∀ (n : Nat) (sd : RawSD) (e : Exc), sd.depth ≤ n →
    parseASD cd sd = .error e → e.is .parseError = true ∨ Defect cd sd
  | 0, sd, _, h, _ => absurd h (by rw [sd_depth]; omega)
  | n + 1, sd, e, hd, h => by
    rw [parseASD_eq] at h
    unfold asdStep at h
    rcases Except.bind_eq_error.1 h with h | ⟨_, _, h⟩
    · exact (parseSDCore_error h).imp_right .head
    rcases Except.bind_eq_error.1 h with h | ⟨_, _, h⟩
    · obtain ⟨si, hs, h⟩ := parseAll_error h
      unfold authSignerStep at h
      rcases Except.bind_eq_error.1 h with h | ⟨s, hp, h⟩
      · exact (parseSigner_error h).imp_right (.signer hs)
      obtain ⟨attrs, hr⟩ := parseSigner_ok.1 hp
      rw [hr.auth] at h
      have hill : IllTyped attrs → Defect cd sd := fun hi => .signer hs (.inr (.inl ⟨attrs, hr.decoded, hi⟩))
      rcases Except.bind_eq_error.1 h with h | ⟨_, _, h⟩
      · rcases parseCounter_error h with h | h | ⟨si', h1, h2⟩
        · exact .inl h
        · exact .inr (.signer hs (.inr (.inr h)))
        · exact (parseCounterInfo_error _ si' e (Nat.le_refl _) h2).imp_right (.counter hs h1)
      rcases Except.bind_eq_error.1 h with h | ⟨_, _, h⟩
      · exact (statementTypesOf_error h).imp_right hill
      rcases Except.bind_eq_error.1 h with h | ⟨_, _, h⟩
      · exact (opusOf_error h).imp_right hill
      rcases Except.bind_eq_error.1 h with h | ⟨_, _, h⟩
      · rcases parseNested_error h with h | h | ⟨vs, x, h1, h2, h3⟩
        · exact .inl h
        · exact .inr (.signer hs (.inr (.inr h)))
        · refine (parseASD_error_of n x e ?_ h3).imp_right (.nested hs h1 h2)
          have k1 := attrValues_depth h1 h2
          rw [RawUVal.depth] at k1
          have k2 := depthSIs_mem hs
          rw [si_depth] at k2
          rw [sd_depth] at hd
          omega
      rcases Except.bind_eq_error.1 h with h | ⟨_, _, h⟩
      · rcases parseTimestamp_error h with h | h | ⟨x, h1, h2⟩
        · exact .inl h
        · exact .inr (.signer hs (.inr (.inr h)))
        · exact .inr (.timestamp hs h1 h2)
      · cases h
    rcases Except.bind_eq_error.1 h with h | ⟨raw, hr, h⟩
    · right
      unfold decodeContent at h
      split at h
      · rename_i hc; exact .head (.inr hc)
      · rename_i b hc; exact .undecodable hc h
    obtain ⟨b, hb, hr⟩ := decodeContent_ok.1 hr
    rcases Except.bind_eq_error.1 h with h | ⟨_, _, h⟩
    · exact (parseSpc_error h).imp_right (.noImage hb hr)
    · split at h
      · split at h
        · cases h; exact .inl rfl
        · cases h
      · cases h; exact .inl rfl

/-- The constructor fails with a ParseError, except in the cases listed in the specification. -/
theorem parseASD_error {cd : Codec} {sd : RawSD} {e : Exc} (h : parseASD cd sd = .error e) :
    e.is .parseError = true ∨ Defect cd sd := parseASD_error_of _ sd e (Nat.le_refl _) h

/-! ### Structural validity -/

theorem readsAttr_required {α : Type} {attrs : List RawAttr} {t : String} {val : α → RawVal} {x : Option α}
    (h : ReadsAttr attrs t val x) (hr : ∃ a ∈ attrs, a.type = t) :
    ∃ a y, lastAttr attrs t = some a ∧ a.values = [val y] ∧ x = some y := by
  rcases readsAttr_iff.1 h with ⟨h, _⟩ | h
  · have := lastAttr_isSome.2 hr
    rw [h] at this
    cases this
  · exact h

theorem readsASD_valid {cd : Codec} {sd : RawSD} {a : ASD} (h : ReadsASD cd sd a) : StructurallyValid cd sd := by
  cases h with
  | @mk _ d nested si attrs spc sds core noCrls content hspc oneSigner signer statement opus counter nestedIn all rec =>
    obtain ⟨al, h1, h2, h3⟩ := core.alg
    refine ⟨⟨al, h1, h2⟩, core.contentType.1, ⟨_, spc, core.content, by rw [← core.octets]; exact content, hspc.type.1, by rw [hspc.image]; simp, hspc.alg⟩,
      noCrls, ?_⟩
    obtain ⟨m, d', m1, m2, m3⟩ := readsAttr_required signer.messageDigest (signer.complete "message_digest" (by simp))
    obtain ⟨c, s, c1, c2, c3⟩ := readsAttr_required signer.contentType (signer.complete "content_type" (by simp))
    have := signer.expected _ rfl s c3
    subst this
    rcases signer.decoded with ⟨_, h⟩ | ⟨b, hb, hd⟩
    · subst h
      obtain ⟨_, h, _⟩ := signer.complete "message_digest" (by simp)
      cases h
    · exact ⟨si, b, attrs, oneSigner, hb, hd, signer.bySerial, signer.alg, ⟨m, d', m1, m2⟩, ⟨c, c1, c2⟩⟩

theorem nestedIn_unique {us : List RawUAttr} {a b : List RawSD} (h : NestedIn us a) (h' : NestedIn us b) : a = b := by
  rcases h with ⟨h, rfl⟩ | h <;> rcases h' with ⟨h', rfl⟩ | h'
  · rfl
  · exact absurd h (attrValues_not_none h')
  · exact absurd h' (attrValues_not_none h)
  · have := attrValues_unique h h'
    exact (List.map_inj_right (fun x y hxy => by injection hxy)).1 this

theorem readsASD_within {cd : Codec} {sd x : RawSD} {a : ASD} (h : ReadsASD cd sd a) (hw : Within sd x) :
    ∃ y, ReadsASD cd x y := by
  induction hw with
  | self => exact ⟨a, h⟩
  | @nested x y si sds _ hs hn hy ih =>
    obtain ⟨z, hz⟩ := ih
    cases hz with
    | @mk _ d nested si' attrs spc sds' core noCrls content hspc oneSigner signer statement opus counter nestedIn all rec =>
      rw [oneSigner, List.mem_singleton] at hs
      subst hs
      have := nestedIn_unique hn nestedIn
      subst this
      obtain ⟨i, hi⟩ := List.mem_iff_getElem?.1 hy
      obtain ⟨hi', _⟩ := List.getElem?_eq_some_iff.1 hi
      exact ⟨_, rec i y (nested[i]'(by omega)) hi (List.getElem?_eq_getElem _)⟩

end Signify
