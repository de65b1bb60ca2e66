/-
Which classes of exceptions `from_envelope` raises, with the concrete decoder.
-/
import Verif.Proofs.Classes

set_option autoImplicit false

namespace Signify

open Spec Asn1

theorem parseAll_from {α β : Type} {f : α → Except Exc β} : ∀ {l : List α} {bs : List β}, parseAll f l = .ok bs →
    ∀ b ∈ bs, ∃ a ∈ l, f a = .ok b
  | [], _, h, b, hb => by cases h; cases hb
  | a :: l, bs, h, b, hb => by
    unfold parseAll at h
    obtain ⟨x, h1, h⟩ := Except.bind_eq_ok.1 h
    obtain ⟨xs, h2, h⟩ := Except.bind_eq_ok.1 h
    cases h
    rcases List.mem_cons.1 hb with rfl | hb
    · exact ⟨a, List.mem_cons_self, h1⟩
    · obtain ⟨c, hc, h⟩ := parseAll_from h2 b hb
      exact ⟨c, List.mem_cons_of_mem _ hc, h⟩

/-! ### Values have the type that belongs to the type of the attribute -/

theorem derAttrs_typed {b : Bytes} {l : List RawAttr} (h : derAttrs b = .ok l) : ¬ IllTyped l := by
  unfold derAttrs at h
  obtain ⟨_, _, h⟩ := Except.bind_eq_ok.1 h
  obtain ⟨_, _, h⟩ := Except.bind_eq_ok.1 h
  rintro ⟨a, ha, v, hv, hc⟩
  obtain ⟨x, _, hx⟩ := parseAll_from h a ha
  unfold readAttr at hx
  obtain ⟨_, _, hx⟩ := Except.bind_eq_ok.1 hx
  obtain ⟨o, _, hx⟩ := Except.bind_eq_ok.1 hx
  simp only at hx
  obtain ⟨_, _, hx⟩ := Except.bind_eq_ok.1 hx
  obtain ⟨_, _, hx⟩ := Except.bind_eq_ok.1 hx
  obtain ⟨vs, hvs, hx⟩ := Except.bind_eq_ok.1 hx
  cases hx
  obtain ⟨y, _, hy⟩ := parseAll_from hvs v hv
  obtain ⟨p, _, hy⟩ := Except.bind_eq_ok.1 hy
  simp only at hc
  generalize oidNative cmsAttributeTypes o = t at hc hy
  rcases hc with ⟨rfl, hc⟩ | ⟨rfl, hc⟩ | ⟨rfl, hc⟩ | ⟨rfl, hc⟩ | ⟨rfl, hc⟩
  · rw [readAttrValue, if_neg (by decide), if_pos rfl] at hy
    obtain ⟨_, _, hy⟩ := Except.bind_eq_ok.1 hy
    obtain ⟨_, _, hy⟩ := Except.bind_eq_ok.1 hy
    cases hy
    exact hc _ rfl
  · rw [readAttrValue, if_pos rfl] at hy
    obtain ⟨_, _, hy⟩ := Except.bind_eq_ok.1 hy
    obtain ⟨_, _, hy⟩ := Except.bind_eq_ok.1 hy
    cases hy
    exact hc _ rfl
  · rw [readAttrValue, if_neg (by decide), if_neg (by decide), if_pos rfl] at hy
    obtain ⟨_, _, hy⟩ := Except.bind_eq_ok.1 hy
    obtain ⟨_, _, hy⟩ := Except.bind_eq_ok.1 hy
    cases hy
    exact hc _ rfl
  · rw [readAttrValue, if_neg (by decide), if_neg (by decide), if_neg (by decide), if_pos rfl] at hy
    obtain ⟨_, _, hy⟩ := Except.bind_eq_ok.1 hy
    unfold readStatementTypes at hy
    obtain ⟨_, _, hy⟩ := Except.bind_eq_ok.1 hy
    cases hy
    exact hc _ rfl
  · rw [readAttrValue, if_neg (by decide), if_neg (by decide), if_neg (by decide), if_neg (by decide), if_pos rfl] at hy
    obtain ⟨_, _, hy⟩ := Except.bind_eq_ok.1 hy
    unfold readOpus at hy
    obtain ⟨_, _, hy⟩ := Except.bind_eq_ok.1 hy
    obtain ⟨_, _, hy⟩ := Except.bind_eq_ok.1 hy
    obtain ⟨_, _, hy⟩ := Except.bind_eq_ok.1 hy
    obtain ⟨_, _, hy⟩ := Except.bind_eq_ok.1 hy
    obtain ⟨_, _, hy⟩ := Except.bind_eq_ok.1 hy
    obtain ⟨_, _, hy⟩ := Except.bind_eq_ok.1 hy
    cases hy
    exact hc _ _ _ rfl

mutual
/-- The values of unsigned attributes have the type that belongs to the type of the attribute, at every depth. -/
inductive TypedSI : RawSI → Prop where
  | mk {h : SIHead} {us : List RawUAttr} (u : ∀ a ∈ us, ∀ v ∈ a.values, TypedVal a.type v) : TypedSI (.mk h us)
/-- Likewise. -/
inductive TypedVal : String → RawUVal → Prop where
  | signerInfo {t : String} {si : RawSI} (ht : t = "counter_signature") (h : TypedSI si) : TypedVal t (.signerInfo si)
  | contentInfo {t s : String} {sd : RawSD} (ht : t = "microsoft_nested_signature" ∨ t = "microsoft_time_stamp_token") (h : TypedSD sd) :
      TypedVal t (.contentInfo s sd)
  | other {t : String} {b : Bytes} (h1 : t ≠ "counter_signature")
      (h2 : ¬ (t = "microsoft_nested_signature" ∨ t = "microsoft_time_stamp_token")) : TypedVal t (.other b)
/-- Likewise. -/
inductive TypedSD : RawSD → Prop where
  | mk {h : SDHead} {ss : List RawSI} (u : ∀ s ∈ ss, TypedSI s) : TypedSD (.mk h ss)
end

theorem TypedSI.at {si : RawSI} (h : TypedSI si) : ∀ a ∈ si.unsigned, ∀ v ∈ a.values, TypedVal a.type v := by
  cases h with
  | mk u => exact u

theorem TypedSI.ill {si : RawSI} (h : TypedSI si) : ¬ IllTypedU si.unsigned := by
  rintro ⟨a, ha, v, hv, hc⟩
  have := h.at a ha v hv
  generalize a.type = t at *
  cases this with
  | signerInfo ht => subst ht
                     rcases hc with ⟨_, hc⟩ | ⟨hc, _⟩
                     · exact hc _ rfl
                     · revert hc; decide
  | contentInfo ht => rcases hc with ⟨rfl, _⟩ | ⟨_, hc⟩
                      · revert ht; decide
                      · exact hc _ _ rfl
  | other h1 h2 => rcases hc with ⟨hc, _⟩ | ⟨hc, _⟩
                   · exact h1 hc
                   · exact h2 hc

theorem TypedSI.values {si : RawSI} (h : TypedSI si) {t : String} {vs : List RawUVal} (ha : AttrValues si.unsigned t vs) {v : RawUVal}
    (hv : v ∈ vs) : TypedVal t v := by
  obtain ⟨a, h1, rfl⟩ := ha
  obtain ⟨h2, h3⟩ := lastUAttr_mem h1
  rw [← h3]
  exact h.at a h2 v hv

theorem noSD_typed : TypedSD noSD := .mk (by simp)

theorem readContentInfo_typed {sd : Parts → Except Exc RawSD} (h : ∀ p x, sd p = .ok x → TypedSD x) {p : Parts} {t : String} {x : RawSD}
    (hr : readContentInfo sd p = .ok (t, x)) : TypedSD x := by
  unfold readContentInfo at hr
  obtain ⟨_, _, hr⟩ := Except.bind_eq_ok.1 hr
  obtain ⟨_, _, hr⟩ := Except.bind_eq_ok.1 hr
  obtain ⟨_, _, hr⟩ := Except.bind_eq_ok.1 hr
  simp only at hr
  split at hr
  · obtain ⟨o, _, hr⟩ := Except.bind_eq_ok.1 hr
    cases o with
    | none => cases hr
    | some o =>
      obtain ⟨q, _, hr⟩ := Except.bind_eq_ok.1 hr
      obtain ⟨y, hy, hr⟩ := Except.bind_eq_ok.1 hr
      cases hr
      exact h _ _ hy
  · cases hr
    exact noSD_typed

theorem readSI_typed {si : Parts → Except Exc RawSI} {sd : Parts → Except Exc RawSD} (h1 : ∀ p x, si p = .ok x → TypedSI x)
    (h2 : ∀ p x, sd p = .ok x → TypedSD x) {v : Val} {x : RawSI} (h : readSI si sd v = .ok x) : TypedSI x := by
  unfold readSI at h
  obtain ⟨_, _, h⟩ := Except.bind_eq_ok.1 h
  obtain ⟨o, _, h⟩ := Except.bind_eq_ok.1 h
  obtain ⟨us, hu, h⟩ := Except.bind_eq_ok.1 h
  cases h
  refine .mk fun a ha w hw => ?_
  cases o with
  | none => cases hu; cases ha
  | some o =>
    obtain ⟨_, _, hu⟩ := Except.bind_eq_ok.1 hu
    obtain ⟨y, _, hy⟩ := parseAll_from hu a ha
    unfold readUAttr at hy
    obtain ⟨_, _, hy⟩ := Except.bind_eq_ok.1 hy
    obtain ⟨_, _, hy⟩ := Except.bind_eq_ok.1 hy
    simp only at hy
    obtain ⟨_, _, hy⟩ := Except.bind_eq_ok.1 hy
    obtain ⟨_, _, hy⟩ := Except.bind_eq_ok.1 hy
    obtain ⟨vs, hvs, hy⟩ := Except.bind_eq_ok.1 hy
    cases hy
    obtain ⟨z, _, hz⟩ := parseAll_from hvs w hw
    obtain ⟨p, _, hz⟩ := Except.bind_eq_ok.1 hz
    rw [RawUAttr.type]
    unfold readUVal at hz
    split at hz
    · rename_i ht
      obtain ⟨_, h3, hz⟩ := Except.bind_eq_ok.1 hz
      cases hz
      exact .signerInfo ht (h1 _ _ h3)
    · split at hz
      · rename_i ht
        obtain ⟨⟨_, _⟩, h3, hz⟩ := Except.bind_eq_ok.1 hz
        cases hz
        exact .contentInfo ht (readContentInfo_typed h2 h3)
      · rename_i n1 n2
        cases hz
        exact .other n1 n2

theorem derSISD_typed : ∀ n : Nat, (∀ p x, derSI n p = .ok x → TypedSI x) ∧ (∀ p x, derSD n p = .ok x → TypedSD x)
  | 0 => ⟨fun _ _ h => (by cases h), fun _ _ h => (by cases h)⟩
  | n + 1 => by
    obtain ⟨h1, h2⟩ := derSISD_typed n
    constructor
    · intro p x h
      unfold derSI at h
      obtain ⟨_, _, h⟩ := Except.bind_eq_ok.1 h
      exact readSI_typed h1 h2 h
    · intro p x h
      unfold derSD at h
      obtain ⟨_, _, h⟩ := Except.bind_eq_ok.1 h
      obtain ⟨_, _, h⟩ := Except.bind_eq_ok.1 h
      obtain ⟨_, _, h⟩ := Except.bind_eq_ok.1 h
      obtain ⟨_, _, h⟩ := Except.bind_eq_ok.1 h
      obtain ⟨ss, h3, h⟩ := Except.bind_eq_ok.1 h
      cases h
      refine .mk fun s hs => ?_
      obtain ⟨_, _, h4⟩ := parseAll_from h3 s hs
      exact readSI_typed h1 h2 h4

theorem derEnvelope_typed {b : Bytes} {t : String} {sd : RawSD} (h : derEnvelope b = .ok (t, sd)) : TypedSD sd := by
  unfold derEnvelope at h
  obtain ⟨⟨_, _⟩, _, h⟩ := Except.bind_eq_ok.1 h
  exact readContentInfo_typed (derSISD_typed _).2 h

/-! ### Interpretation -/

/-- All classes. -/
abbrev loadingClasses : List ExcClass := decodingClasses ++ interpretingClasses

theorem only_decoding {α : Type} {x : Except Exc α} (h : RaisesOnly decodingClasses x) : RaisesOnly loadingClasses x :=
  only_mono (fun _ h => List.mem_append_left _ h) h

theorem getDigestAlgorithm_only (a : String) (p : Bool) (l : List String) : RaisesOnly loadingClasses (getDigestAlgorithm a p l) := by
  unfold getDigestAlgorithm; only
macro_rules | `(tactic| only_known) => `(tactic| with_reducible exact getDigestAlgorithm_only _ _ _)
theorem siErr_only {α : Type} (m : String) : RaisesOnly loadingClasses (siErr m : Except Exc α) := only_mk (by decide)
macro_rules | `(tactic| only_known) => `(tactic| with_reducible exact siErr_only _)
theorem apErr_only {α : Type} (m : String) : RaisesOnly loadingClasses (apErr m : Except Exc α) := only_mk (by decide)
macro_rules | `(tactic| only_known) => `(tactic| with_reducible exact apErr_only _)

theorem singleValue_only (d : Dict String (List RawVal)) (t : String) {c : ExcClass} (hc : c ∈ loadingClasses) :
    RaisesOnly loadingClasses (singleValue d t c) := by
  unfold singleValue
  split
  · only
  · only
  · exact only_mk hc

section
variable {attrs : List RawAttr} (ht : ¬ IllTyped attrs)
include ht

theorem messageDigestOf_only : RaisesOnly loadingClasses (messageDigestOf (attrDict attrs)) := by
  unfold messageDigestOf
  refine only_bind (singleValue_only _ _ (by decide)) fun o ho => ?_
  match o with
  | none => exact only_ok
  | some (.octets b) => exact only_ok
  | some (.oid _) | some (.time _) | some (.oids _) | some (.opus _ _ _) | some (.other _) =>
    obtain ⟨a, ha, h1, h2⟩ := singleValue_cases ho
    exact absurd ⟨a, ha, _, h2, .inl ⟨h1, by simp⟩⟩ ht

theorem contentTypeOf_only (x : Option String) : RaisesOnly loadingClasses (contentTypeOf (attrDict attrs) x) := by
  unfold contentTypeOf
  refine only_bind (singleValue_only _ _ (by decide)) fun o ho => ?_
  match o with
  | none => exact only_ok
  | some (.oid b) =>
    simp only
    split <;> only
  | some (.octets _) | some (.time _) | some (.oids _) | some (.opus _ _ _) | some (.other _) =>
    obtain ⟨a, ha, h1, h2⟩ := singleValue_cases ho
    exact absurd ⟨a, ha, _, h2, .inr (.inl ⟨h1, by simp⟩)⟩ ht

theorem signingTimeOf_only : RaisesOnly loadingClasses (signingTimeOf (attrDict attrs)) := by
  unfold signingTimeOf
  refine only_bind (singleValue_only _ _ (by decide)) fun o ho => ?_
  match o with
  | none => exact only_ok
  | some (.time b) => exact only_ok
  | some (.octets _) | some (.oid _) | some (.oids _) | some (.opus _ _ _) | some (.other _) =>
    obtain ⟨a, ha, h1, h2⟩ := singleValue_cases ho
    exact absurd ⟨a, ha, _, h2, .inr (.inr (.inl ⟨h1, by simp⟩))⟩ ht

theorem statementTypesOf_only : RaisesOnly loadingClasses (statementTypesOf (attrDict attrs)) := by
  unfold statementTypesOf
  refine only_bind (singleValue_only _ _ (by decide)) fun o ho => ?_
  match o with
  | none => exact only_ok
  | some (.oids b) => exact only_ok
  | some (.octets _) | some (.oid _) | some (.time _) | some (.opus _ _ _) | some (.other _) =>
    obtain ⟨a, ha, h1, h2⟩ := singleValue_cases ho
    exact absurd ⟨a, ha, _, h2, .inr (.inr (.inr (.inl ⟨h1, by simp⟩)))⟩ ht

theorem opusOf_only : RaisesOnly loadingClasses (opusOf (attrDict attrs)) := by
  unfold opusOf
  refine only_bind (singleValue_only _ _ (by decide)) fun o ho => ?_
  match o with
  | none => exact only_ok
  | some (.opus _ _ _) => exact only_ok
  | some (.octets _) | some (.oid _) | some (.time _) | some (.oids _) | some (.other _) =>
    obtain ⟨a, ha, h1, h2⟩ := singleValue_cases ho
    exact absurd ⟨a, ha, _, h2, .inr (.inr (.inr (.inr ⟨h1, by simp⟩)))⟩ ht
end

theorem decodeAttrs_typed {h : SIHead} {attrs : List RawAttr} (hd : decodeAttrs derCodec h = .ok attrs) : ¬ IllTyped attrs := by
  unfold decodeAttrs at hd
  split at hd
  · cases hd
    rintro ⟨_, h, _⟩
    cases h
  · exact derAttrs_typed hd

theorem parseSigner_only (required : List String) (expected : Option String) (h : SIHead) :
    RaisesOnly loadingClasses (parseSigner derCodec required expected h) := by
  unfold parseSigner
  split
  · only
  · change RaisesOnly _ (decodeAttrs derCodec h >>= _)
    refine only_bind ?_ fun attrs ha => ?_
    · unfold decodeAttrs
      split
      · only
      · exact only_decoding (derAttrs_only _)
    · have ht := decodeAttrs_typed ha
      simp only
      split
      · only
      · exact only_bind (getDigestAlgorithm_only _ _ _) fun _ _ => only_bind (messageDigestOf_only ht) fun _ _ =>
          only_bind (contentTypeOf_only ht _) fun _ _ => only_bind (signingTimeOf_only ht) fun _ _ => only_ok

theorem parseCounter_only {α : Type} {parse : RawSI → Except Exc α} {si : RawSI} (ht : TypedSI si)
    (hp : ∀ x, AttrValues si.unsigned "counter_signature" [.signerInfo x] → RaisesOnly loadingClasses (parse x)) :
    RaisesOnly loadingClasses (parseCounter parse si.unsigned) := by
  unfold parseCounter
  split
  · only
  · rename_i x hx
    exact only_bind (hp x (uattrDict_some.1 hx)) fun _ _ => only_ok
  · rename_i v hn hv
    have := ht.values (uattrDict_some.1 hv) List.mem_cons_self
    cases this with
    | signerInfo => exact absurd rfl (hn _)
    | contentInfo ht => exact absurd ht (by decide)
    | other h => exact absurd rfl h
  · only

theorem parseCounterInfo_only : ∀ (n : Nat) (si : RawSI), si.depth ≤ n → TypedSI si →
    RaisesOnly loadingClasses (parseCounterInfo derCodec si)
  | 0, si, h, _ => absurd h (by rw [si_depth]; omega)
  | n + 1, si, hd, ht => by
    rw [parseCounterInfo_eq]
    unfold counterInfoStep
    refine only_bind (parseSigner_only _ _ _) fun _ _ => only_bind (parseCounter_only ht fun x hx => ?_) fun _ _ => only_ok
    refine parseCounterInfo_only n x ?_ ?_
    · have := attrValues_depth hx List.mem_cons_self
      rw [RawUVal.depth] at this
      rw [si_depth si] at hd
      omega
    · cases ht.values hx List.mem_cons_self with
      | signerInfo _ h => exact h

theorem parseRfcSigner_only {si : RawSI} (ht : TypedSI si) : RaisesOnly loadingClasses (parseRfcSigner derCodec si) := by
  unfold parseRfcSigner
  exact only_bind (parseSigner_only _ _ _) fun _ _ => only_bind (parseCounter_only ht fun _ _ => only_mk (by decide)) fun _ _ => only_ok

theorem parseSDCore_only (x : String) (h : SDHead) : RaisesOnly loadingClasses (parseSDCore x h) := by
  unfold parseSDCore; only
macro_rules | `(tactic| only_known) => `(tactic| with_reducible exact parseSDCore_only _ _)

theorem decodeContent_only {α : Type} {f : Bool → Bytes → Except Exc α} (hf : ∀ w b, RaisesOnly decodingClasses (f w b)) (h : SDHead) :
    RaisesOnly loadingClasses (decodeContent f h) := by
  unfold decodeContent
  split
  · only
  · exact only_decoding (hf _ _)

theorem parseTst_only (r : RawTst) : RaisesOnly loadingClasses (parseTst r) := by 
  unfold parseTst accuracyToPython addPart mkTimedelta parseTsa Name.ofGeneral; only
theorem parseSpc_only (r : RawSpc) : RaisesOnly loadingClasses (parseSpc r) := by unfold parseSpc; only

theorem TypedSD.at {sd : RawSD} (h : TypedSD sd) : ∀ s ∈ sd.signers, TypedSI s := by
  cases h with
  | mk u => exact u

theorem parseRfc3161_only {sd : RawSD} (ht : TypedSD sd) : RaisesOnly loadingClasses (parseRfc3161 derCodec sd) := by
  unfold parseRfc3161
  refine only_bind (parseSDCore_only _ _) fun _ _ => only_bind (only_parseAll fun s hs => parseRfcSigner_only (ht.at s hs)) fun _ _ =>
    only_bind (decodeContent_only derTst_only _) fun _ _ => only_bind (parseTst_only _) fun _ _ => ?_
  split <;> only

theorem parseTimestamp_only {si : RawSI} (ht : TypedSI si) (c : Option CounterInfo) :
    RaisesOnly loadingClasses (parseTimestamp derCodec si.unsigned c) := by
  unfold parseTimestamp
  simp only
  split
  · only
  · rename_i vs hvs
    have hv := fun {v} => ht.values (v := v) (uattrDict_some.1 hvs)
    split
    · only
    · split
      · split
        · only
        · refine only_bind (parseRfc3161_only ?_) fun _ _ => only_ok
          cases hv List.mem_cons_self with
          | contentInfo _ h => exact h
      · rename_i v hn
        cases hv List.mem_cons_self with
        | contentInfo => exact absurd rfl (hn _ _)
        | signerInfo h => exact absurd h (by decide)
        | other _ h => exact absurd (.inr rfl) h
      · only

theorem parseNested_only {parse : RawSD → Except Exc ASD} {si : RawSI} (ht : TypedSI si)
    (hp : ∀ vs s x, AttrValues si.unsigned "microsoft_nested_signature" vs → .contentInfo s x ∈ vs → TypedSD x →
      RaisesOnly loadingClasses (parse x)) : RaisesOnly loadingClasses (parseNested parse si.unsigned) := by
  unfold parseNested
  split
  · only
  · rename_i vs hvs
    have hvs := uattrDict_some.1 hvs
    refine only_parseAll fun v hv => ?_
    have := ht.values hvs hv
    cases this with
    | contentInfo _ h =>
      unfold parseNestedVal
      simp only
      split
      · only
      · exact hp _ _ _ hvs hv h
    | other _ h => exact absurd (.inl rfl) h
    | signerInfo h => exact absurd h (by decide)

theorem parseASD_only : ∀ (n : Nat) (sd : RawSD), sd.depth ≤ n → TypedSD sd → RaisesOnly loadingClasses (parseASD derCodec sd)
  | 0, sd, h, _ => absurd h (by rw [sd_depth]; omega)
  | n + 1, sd, hd, ht => by
    rw [parseASD_eq]
    unfold asdStep
    refine only_bind (parseSDCore_only _ _) fun _ _ => only_bind (only_parseAll fun si hs => ?_) fun _ _ =>
      only_bind (decodeContent_only derSpc_only _) fun _ _ => only_bind (parseSpc_only _) fun _ _ => ?_
    · have hsi := ht.at si hs
      unfold authSignerStep
      refine only_bind (parseSigner_only _ _ _) fun s hp => ?_
      obtain ⟨attrs, hr⟩ := parseSigner_ok.1 hp
      have hta : ¬ IllTyped attrs := decodeAttrs_typed (decodeAttrs_ok.2 hr.decoded)
      rw [hr.auth]
      refine only_bind (parseCounter_only hsi fun x hx => ?_) fun _ _ => only_bind (statementTypesOf_only hta) fun _ _ =>
        only_bind (opusOf_only hta) fun _ _ => only_bind (parseNested_only hsi fun vs _ x hvs hx hxt => ?_) fun _ _ =>
        only_bind (parseTimestamp_only hsi _) fun _ _ => only_ok
      · refine parseCounterInfo_only _ x (Nat.le_refl _) ?_
        cases hsi.values hx List.mem_cons_self with
        | signerInfo _ h => exact h
      · refine parseASD_only n x ?_ hxt
        have k1 := attrValues_depth hvs hx
        rw [RawUVal.depth] at k1
        have k2 := depthSIs_mem hs
        rw [si_depth] at k2
        rw [sd_depth] at hd
        omega
    · split
      · split <;> only
      · only

theorem fromEnvelope_only (data : Bytes) : RaisesOnly loadingClasses (fromEnvelope derCodec data) := by
  unfold fromEnvelope
  refine only_bind (only_decoding (derEnvelope_only _)) fun ⟨t, sd⟩ h => ?_
  simp only
  split
  · only
  · exact parseASD_only _ sd (Nat.le_refl _) (derEnvelope_typed h)

end Signify
