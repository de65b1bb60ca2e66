/-
Parsing of signatures: C23-C27, C51 (algorithms), C54.
-/
import Verif.Proofs.Pkcs7Errors
import Verif.Model.Verify
import Verif.Props.X509

set_option autoImplicit false

namespace Signify.Props

open Signify Spec

/-! ### Examples -/

/-- A decoder for the examples. -/
def exCodec : Codec where
  attrs := fun b =>
    if b = [1] then .ok [⟨"content_type", [.oid "microsoft_spc_indirect_data_content"]⟩, ⟨"message_digest", [.octets [7, 7]]⟩,
      ⟨"microsoft_spc_sp_opus_info", [.opus (some "prog") none none]⟩]
    else if b = [2] then .ok [⟨"content_type", [.oid "data"]⟩, ⟨"message_digest", [.octets [8]]⟩, ⟨"signing_time", [.time 500]⟩]
    else if b = [3] then .ok [⟨"content_type", [.oid "tst_info"]⟩, ⟨"message_digest", [.octets [9]]⟩]
    else if b = [4] then .ok [⟨"content_type", [.oid "microsoft_spc_indirect_data_content"]⟩, ⟨"message_digest", [.octets [1]]⟩,
      ⟨"message_digest", [.octets [2]]⟩]
    else .error ⟨.foreign, "cannot decode"⟩
  spc := fun _ b =>
    if b = [5] then .ok ⟨"microsoft_spc_pe_image_data", some ([], some (.text "obsolete")), ⟨"sha256", false⟩, [6, 6]⟩
    else if b = [6] then .ok ⟨"microsoft_spc_pe_image_data", none, ⟨"sha256", false⟩, [6, 6]⟩
    else .error ⟨.foreign, "cannot decode"⟩
  tst := fun _ b =>
    if b = [7] then .ok ⟨"v1", "1.2", ⟨"sha1", false⟩, [3], 17, 600, some ⟨some 1, none, some 5⟩, none⟩
    else if b = [8] then .ok ⟨"v1", "1.2", ⟨"sha1", false⟩, [3], 17, 600, none, some ⟨"dns_name", ⟨[]⟩⟩⟩
    else if b = [9] then .ok ⟨"v1", "1.2", ⟨"sha1", false⟩, [3], 17, 600, some ⟨some 86400000000000, none, none⟩, none⟩
    else .error ⟨.foreign, "cannot decode"⟩
  envelope := fun _ => .error ⟨.foreign, "cannot decode"⟩

def exHead (attrs : Bytes) : SIHead := ⟨"issuer_and_serial_number", ⟨[]⟩, 5, some attrs, ⟨"sha256", false⟩, "rsa", [9, 9]⟩

/-- A PKCS#9 countersigner. -/
def exCounterSI : RawSI := .mk (exHead [2]) []

/-- A signature with unsigned attributes `us`. -/
def exSDWith (us : List RawUAttr) : RawSD :=
  .mk ⟨[⟨"sha256", false⟩], "microsoft_spc_indirect_data_content", some [5], [], 0, false⟩ [.mk (exHead [1]) us]

/-- A signature with a countersigner and a nested signature. -/
def exSD : RawSD :=
  exSDWith [.mk "counter_signature" [.signerInfo exCounterSI],
    .mk "microsoft_nested_signature" [.contentInfo "signed_data" (exSDWith [])]]

/-- An RFC3161 timestamp with the given content and unsigned attributes of its signer. -/
def exTsp (content : Bytes) (us : List RawUAttr) : RawSD :=
  .mk ⟨[⟨"sha256", false⟩], "tst_info", some content, [], 0, false⟩ [.mk (exHead [3]) us]

def exRfcSD : RawSD := exSDWith [.mk "microsoft_time_stamp_token" [.contentInfo "signed_data" (exTsp [7] [])]]

/-- what was read, for comparison -/
def exSummary (a : ASD) : String × Bytes × Option Bytes × Option String × Nat × Option Int :=
  (a.d.core.digestAlg, a.d.spc.digest, a.d.signer.messageDigest, a.d.programName, a.nested.length,
   a.d.counter.bind CounterSigner.signingTime)

example : (parseASD exCodec exSD).map exSummary = .ok ("sha256", [6, 6], some [7, 7], some "prog", 1, some 500) := rfl
example : (parseASD exCodec exRfcSD).map exSummary = .ok ("sha256", [6, 6], some [7, 7], some "prog", 0, some 600) := rfl

theorem ok_of_map {α β : Type} {x : Except Exc α} {f : α → β} {b : β} (h : x.map f = .ok b) : ∃ a, x = .ok a ∧ f a = b := by
  cases x with
  | error e => cases h
  | ok a => exact ⟨a, rfl, by injection h⟩

/-! ## C23: structural validity -/

/-- Constructing an AuthenticodeSignedData succeeds exactly if the structure conforms, and the object then says what the structure
says (`Spec.ReadsASD`), nested signatures included. -/
theorem C23_parse_exact (cd : Codec) (sd : RawSD) (a : ASD) : parseASD cd sd = .ok a ↔ ReadsASD cd sd a := parseASD_ok

/-- If it succeeds, the structure and all the structures nested in it, to any depth, meet the structural requirements. -/
theorem C23_structurally_valid (cd : Codec) (sd : RawSD) (a : ASD) (h : parseASD cd sd = .ok a) :
    ∀ x, Within sd x → StructurallyValid cd x := by
  intro x hx
  obtain ⟨y, hy⟩ := readsASD_within (parseASD_ok.1 h) hx
  exact readsASD_valid hy

example : ∃ a, parseASD exCodec exSD = .ok a ∧ ∀ x, Within exSD x → StructurallyValid exCodec x :=
  ⟨_, rfl, C23_structurally_valid exCodec exSD _ rfl⟩

/-- `from_envelope`: the ContentInfo contains a SignedData, which is parsed. -/
theorem C23_from_envelope (cd : Codec) (data : Bytes) (a : ASD) :
    fromEnvelope cd data = .ok a ↔ ∃ sd, cd.envelope data = .ok ("signed_data", sd) ∧ ReadsASD cd sd a := by
  unfold fromEnvelope
  rw [Except.bind_eq_ok]
  constructor
  · rintro ⟨⟨t, sd⟩, h1, h2⟩
    simp only at h2
    split at h2
    · cases h2
    · rename_i ht
      rw [ne_eq, Decidable.not_not] at ht
      subst ht
      exact ⟨sd, h1, parseASD_ok.1 h2⟩
  · rintro ⟨sd, h1, h2⟩
    exact ⟨_, h1, by simpa using parseASD_ok.2 h2⟩

example : ∃ a, parseASD exCodec exSD = .ok a := by
  obtain ⟨a, h, _⟩ := ok_of_map (show (parseASD exCodec exSD).map exSummary = .ok ("sha256", [6, 6], some [7, 7], some "prog", 1, some 500) from rfl)
  exact ⟨a, h⟩

/-- The nested signature of the example is covered. -/
example : Within exSD (exSDWith []) :=
  .nested (.self _) (si := .mk (exHead [1]) _) (sds := [exSDWith []]) List.mem_cons_self
    (.inr ⟨.mk "microsoft_nested_signature" [.contentInfo "signed_data" (exSDWith [])], by rfl, rfl⟩) List.mem_cons_self

/-! ## C24: malformed structures -/

/-- False as stated: two digest algorithms give a KeyError, ... -/
theorem C24_parse_error_false_keyError :
    parseASD exCodec (.mk ⟨[⟨"sha256", false⟩, ⟨"sha1", false⟩], "microsoft_spc_indirect_data_content", some [5], [], 0, false⟩
      [.mk (exHead [1]) []]) = .error ⟨.keyError, "digestAlgorithms"⟩ ∧
    Exc.is ⟨.keyError, "digestAlgorithms"⟩ .parseError = false := ⟨rfl, by decide⟩

/-- ... a SignedData without content a TypeError, ... -/
theorem C24_parse_error_false_noContent :
    parseASD exCodec (.mk ⟨[⟨"sha256", false⟩], "microsoft_spc_indirect_data_content", none, [], 0, false⟩
      [.mk (exHead [1]) []]) = .error ⟨.typeError, "'NoValue' object is not subscriptable"⟩ ∧
    Exc.is ⟨.typeError, "'NoValue' object is not subscriptable"⟩ .parseError = false := ⟨rfl, by decide⟩

/-- ... likewise if the SpcPeImageData is absent, ... -/
theorem C24_parse_error_false_noImage :
    parseASD exCodec (.mk ⟨[⟨"sha256", false⟩], "microsoft_spc_indirect_data_content", some [6], [], 0, false⟩
      [.mk (exHead [1]) []]) = .error ⟨.typeError, "'NoValue' object is not subscriptable"⟩ := rfl

/-- ... a countersigned RFC3161 timestamp an AssertionError, ... -/
theorem C24_parse_error_false_assertion :
    parseASD exCodec (exSDWith [.mk "microsoft_time_stamp_token" [.contentInfo "signed_data"
      (exTsp [7] [.mk "counter_signature" [.signerInfo exCounterSI]])]]) = .error ⟨.assertionError, ""⟩ ∧
    Exc.is ⟨.assertionError, ""⟩ .parseError = false := ⟨rfl, by decide⟩

/-- ... an accuracy beyond the range of `datetime.timedelta` an OverflowError, ... -/
theorem C24_parse_error_false_accuracy :
    parseASD exCodec (exSDWith [.mk "microsoft_time_stamp_token" [.contentInfo "signed_data" (exTsp [9] [])]]) =
      .error ⟨.overflowError, "must have magnitude <= 999999999"⟩ ∧
    Exc.is ⟨.overflowError, "must have magnitude <= 999999999"⟩ .parseError = false := ⟨rfl, by decide⟩

/-- ... a timestamp authority named by a DNS name a NotImplementedError. -/
theorem C24_parse_error_false_tsa :
    parseASD exCodec (exSDWith [.mk "microsoft_time_stamp_token" [.contentInfo "signed_data" (exTsp [8] [])]]) =
      .error ⟨.notImplementedError, "CertificateNames of this type not supported"⟩ ∧
    Exc.is ⟨.notImplementedError, "CertificateNames of this type not supported"⟩ .parseError = false := ⟨rfl, by decide⟩

/-- What holds: every failure is a ParseError, unless the structure has one of the defects listed in `Spec.Defect`.
Missing: the property without that exception, which is false (above). -/
theorem C24_parse_error_partial (cd : Codec) (sd : RawSD) (e : Exc) (h : parseASD cd sd = .error e) :
    e.is .parseError = true ∨ Defect cd sd := parseASD_error h

/-- A structure without these defects, for which parsing fails. -/
def exNoSigner : RawSD := .mk ⟨[⟨"sha256", false⟩], "microsoft_spc_indirect_data_content", some [5], [], 0, false⟩ []

example : parseASD exCodec exNoSigner = .error ⟨.authenticodeParseError, "SignedData.signerInfos must contain exactly 1 signer"⟩ ∧
    ¬ Defect exCodec exNoSigner := by
  refine ⟨rfl, fun h => ?_⟩
  cases h with
  | head h => rcases h with h | h <;> simp [exNoSigner, RawSD.head] at h
  | undecodable h hb => simp only [exNoSigner, RawSD.head, Option.some.injEq] at h; subst h; cases hb
  | noImage h hb hi => simp only [exNoSigner, RawSD.head, Option.some.injEq] at h; subst h; cases hb; cases hi
  | signer h => cases h
  | counter h => cases h
  | timestamp h => cases h
  | nested h => cases h

example := C24_parse_error_partial exCodec exNoSigner _ rfl

/-! ## C25: unambiguous attributes -/

/-- False as stated: an attribute type may be repeated, and the last attribute counts. -/
theorem C25_unique_false : ∃ s, parseSigner exCodec ["content_type", "message_digest"] none (exHead [4]) = .ok s ∧
    s.messageDigest = some [2] ∧ ∃ attrs, SignedAttrs exCodec (exHead [4]) attrs ∧
      (∃ a ∈ attrs, a.type = "message_digest" ∧ a.values = [.octets [1]]) ∧
      (∃ a ∈ attrs, a.type = "message_digest" ∧ a.values = [.octets [2]]) := by
  refine ⟨_, rfl, by decide +kernel, _, .inr ⟨[4], rfl, rfl⟩, ?_, ?_⟩
  · exact ⟨⟨"message_digest", [.octets [1]]⟩, by decide +kernel, rfl, rfl⟩
  · exact ⟨⟨"message_digest", [.octets [2]]⟩, by decide +kernel, rfl, rfl⟩

theorem reads_unique {α : Type} {attrs : List RawAttr} {t : String} {val : α → RawVal} {x : Option α}
    (hinj : ∀ a b, val a = val b → a = b) (h : ReadsAttr attrs t val x) (hu : ∀ a ∈ attrs, ∀ b ∈ attrs, a.type = t → b.type = t → a = b) :
    (∀ y, x = some y ↔ ∃ a ∈ attrs, a.type = t ∧ a.values = [val y]) ∧ (x = none ↔ ∀ a ∈ attrs, a.type ≠ t) := by
  rcases readsAttr_iff.1 h with ⟨g, rfl⟩ | ⟨a, y, g, hv, rfl⟩ <;> clear h <;> have h := g
  · have hn : ∀ a ∈ attrs, a.type ≠ t := by
      intro a ha ht
      have := lastAttr_isSome.2 ⟨a, ha, ht⟩
      rw [h] at this
      cases this
    exact ⟨fun y => ⟨fun h => (by cases h), fun ⟨a, ha, ht, _⟩ => absurd ht (hn a ha)⟩, ⟨fun _ => hn, fun _ => rfl⟩⟩
  · obtain ⟨ha, ht⟩ := lastAttr_mem h
    refine ⟨fun z => ⟨?_, ?_⟩, ⟨fun h => (by cases h), fun h => absurd ht (h a ha)⟩⟩
    · intro hz; cases hz; exact ⟨a, ha, ht, hv⟩
    · rintro ⟨b, hb, hbt, hbv⟩
      have := hu a ha b hb ht hbt
      subst this
      rw [hv] at hbv
      have : val y = val z := by simpa using hbv
      rw [hinj y z this]

/-- What holds in general: the value read is the only value of the last attribute of that type. -/
theorem C25_last_attribute (cd : Codec) (required : List String) (expected : Option String) (h : SIHead) (s : Signer)
    (hp : parseSigner cd required expected h = .ok s) : ∃ attrs, SignedAttrs cd h attrs ∧
      ReadsAttr attrs "message_digest" .octets s.messageDigest ∧ ReadsAttr attrs "content_type" .oid s.contentType ∧
      ReadsAttr attrs "signing_time" .time s.signingTime := by
  obtain ⟨attrs, hr⟩ := parseSigner_ok.1 hp
  exact ⟨attrs, hr.decoded, hr.messageDigest, hr.contentType, hr.signingTime⟩

example := C25_last_attribute exCodec ["content_type", "signing_time", "message_digest"] none (exHead [2]) _ rfl

/-- If no attribute type is repeated, the value read is the unique value of the unique attribute of that type.
Missing: the property for repeated attribute types, which is false (above). -/
theorem C25_unique_partial (cd : Codec) (required : List String) (expected : Option String) (h : SIHead) (s : Signer)
    (attrs : List RawAttr) (hp : parseSigner cd required expected h = .ok s) (ha : SignedAttrs cd h attrs)
    (hd : (attrs.map RawAttr.type).Nodup) :
    (∀ d, s.messageDigest = some d ↔ ∃ a ∈ attrs, a.type = "message_digest" ∧ a.values = [.octets d]) ∧
    (s.messageDigest = none ↔ ∀ a ∈ attrs, a.type ≠ "message_digest") ∧
    (∀ t, s.contentType = some t ↔ ∃ a ∈ attrs, a.type = "content_type" ∧ a.values = [.oid t]) ∧
    (s.contentType = none ↔ ∀ a ∈ attrs, a.type ≠ "content_type") ∧
    (∀ t, s.signingTime = some t ↔ ∃ a ∈ attrs, a.type = "signing_time" ∧ a.values = [.time t]) ∧
    (s.signingTime = none ↔ ∀ a ∈ attrs, a.type ≠ "signing_time") := by
  obtain ⟨attrs', hr⟩ := parseSigner_ok.1 hp
  have : attrs' = attrs := by
    have h1 := decodeAttrs_ok.2 hr.decoded
    rw [decodeAttrs_ok.2 ha] at h1
    injection h1 with h1
    exact h1.symm
  subst this
  have hu : ∀ t, ∀ a ∈ attrs', ∀ b ∈ attrs', a.type = t → b.type = t → a = b := by
    intro t a hm b hb h1 h2
    clear hr hp ha
    induction attrs' with
    | nil => cases hm
    | cons x l ih =>
      rw [List.map_cons, List.nodup_cons] at hd
      rcases List.mem_cons.1 hm with rfl | ha' <;> rcases List.mem_cons.1 hb with rfl | hb'
      · rfl
      · exact absurd (List.mem_map.2 ⟨b, hb', h2.trans h1.symm⟩) hd.1
      · exact absurd (List.mem_map.2 ⟨a, ha', h1.trans h2.symm⟩) hd.1
      · exact ih hd.2 ha' hb'
  have r1 := reads_unique (val := .octets) (fun _ _ h => by injection h) hr.messageDigest (hu _)
  have r2 := reads_unique (val := .oid) (fun _ _ h => by injection h) hr.contentType (hu _)
  have r3 := reads_unique (val := .time) (fun _ _ h => by injection h) hr.signingTime (hu _)
  exact ⟨r1.1, r1.2, r2.1, r2.2, r3.1, r3.2⟩

example := C25_unique_partial exCodec ["content_type", "signing_time", "message_digest"] none (exHead [2]) _ _ rfl
  (.inr ⟨[2], rfl, rfl⟩) (by decide +kernel)

example : ∃ s attrs, parseSigner exCodec ["content_type", "signing_time", "message_digest"] none (exHead [2]) = .ok s ∧
    SignedAttrs exCodec (exHead [2]) attrs ∧ (attrs.map RawAttr.type).Nodup ∧ s.signingTime = some 500 := by
  refine ⟨_, _, rfl, .inr ⟨[2], rfl, rfl⟩, by decide +kernel, by decide +kernel⟩

/-! ## C26: countersigners -/

/-- A parsed signature has a PKCS#9 countersigner iff its signer has a counter_signature attribute, an RFC3161 countersigner iff it
has a timestamp token attribute, and no countersigner iff it has neither; it never has both. -/
theorem C26_countersigner (cd : Codec) (sd : RawSD) (a : ASD) (h : parseASD cd sd = .ok a) :
    ∃ si, sd.signers = [si] ∧
      ((∃ c, a.d.counter = some (.pkcs9 c)) ↔ ∃ u ∈ si.unsigned, u.type = "counter_signature") ∧
      ((∃ r, a.d.counter = some (.rfc3161 r)) ↔ ∃ u ∈ si.unsigned, u.type = "microsoft_time_stamp_token") ∧
      (a.d.counter.isNone = true ↔ ∀ u ∈ si.unsigned, u.type ≠ "counter_signature" ∧ u.type ≠ "microsoft_time_stamp_token") ∧
      ¬ ((∃ u ∈ si.unsigned, u.type = "counter_signature") ∧ ∃ u ∈ si.unsigned, u.type = "microsoft_time_stamp_token") := by
  have hr := parseASD_ok.1 h
  cases hr with
  | @mk _ d nested si attrs spc sds core noCrls content hspc oneSigner signer statement opus counter nestedIn all rec =>
    refine ⟨si, oneSigner, ?_⟩
    have hv : ∀ t vs, AttrValues si.unsigned t vs → ∃ u ∈ si.unsigned, u.type = t := by
      rintro t vs ⟨x, hx, _⟩
      exact ⟨x, lastUAttr_mem hx⟩
    simp only [ASD.d]
    generalize hc : d.counter = cs at counter
    cases counter with
    | none h1 h2 =>
      refine ⟨⟨fun ⟨_, h⟩ => (by cases h), fun ⟨u, hu, ht⟩ => absurd ht (h1 u hu)⟩,
        ⟨fun ⟨_, h⟩ => (by cases h), fun ⟨u, hu, ht⟩ => absurd ht (h2 u hu)⟩,
        ⟨fun _ u hu => ⟨h1 u hu, h2 u hu⟩, fun _ => rfl⟩, fun ⟨⟨u, hu, ht⟩, _⟩ => h1 u hu ht⟩
    | @pkcs9 si' c h1 h2 _ =>
      obtain ⟨u, hu, ht⟩ := hv _ _ h1
      refine ⟨⟨fun _ => ⟨u, hu, ht⟩, fun _ => ⟨c, rfl⟩⟩, ⟨fun ⟨_, h⟩ => (by cases h), fun ⟨u, hu, ht⟩ => absurd ht (h2 u hu)⟩,
        ⟨fun h => (by cases h), fun h => absurd ht (h u hu).1⟩, fun ⟨_, ⟨u, hu, ht⟩⟩ => h2 u hu ht⟩
    | @rfc3161 x r h1 h2 _ =>
      obtain ⟨u, hu, ht⟩ := hv _ _ h2
      refine ⟨⟨fun ⟨_, h⟩ => (by cases h), fun ⟨u, hu, ht⟩ => absurd ht (h1 u hu)⟩, ⟨fun _ => ⟨u, hu, ht⟩, fun _ => ⟨r, rfl⟩⟩,
        ⟨fun h => (by cases h), fun h => absurd ht (h u hu).2⟩, fun ⟨⟨u, hu, ht⟩, _⟩ => h1 u hu ht⟩

example := C26_countersigner exCodec exSD _ rfl

example := C26_countersigner exCodec exRfcSD _ rfl

example : ∃ a, parseASD exCodec exSD = .ok a ∧ ∃ c, a.d.counter = some (.pkcs9 c) := ⟨_, rfl, _, rfl⟩
example : ∃ a, parseASD exCodec exRfcSD = .ok a ∧ ∃ r, a.d.counter = some (.rfc3161 r) := ⟨_, rfl, _, rfl⟩

/-! ## C27: the signed bytes -/

/-- The byte string whose signature is checked is the DER encoding of a SET with the contents of the signed attributes, as they
are. -/
theorem C27_encoding (cd : Codec) (required : List String) (expected : Option String) (h : SIHead) (s : Signer)
    (hp : parseSigner cd required expected h = .ok s) : DerSet (h.signedAttrs.getD []) s.encodedAuth := by
  obtain ⟨attrs, hr⟩ := parseSigner_ok.1 hp
  exact hr.encoded

example := C27_encoding exCodec ["content_type", "signing_time", "message_digest"] none (exHead [2]) _ rfl

/-- Every contents has exactly one encoding, and different contents have different encodings. -/
theorem C27_injective (a b : Bytes) :
    (∃ x, DerSet a x ∧ ∀ y, DerSet a y → y = x) ∧ ((∃ x, DerSet a x ∧ DerSet b x) → a = b) := by
  refine ⟨⟨encodeAttrs a, (derSet_iff _ _).2 rfl, fun y hy => (derSet_iff _ _).1 hy⟩, ?_⟩
  rintro ⟨x, h1, h2⟩
  rw [derSet_iff] at h1 h2
  exact encodeAttrs_inj (h1.symm.trans h2)

/-- Two parsed signers with the same signed bytes have the same signed attributes, message digest, content type and signing
time. -/
theorem C27_determines (cd : Codec) (req req' : List String) (exp exp' : Option String) (h h' : SIHead) (s s' : Signer)
    (hr : "message_digest" ∈ req) (hr' : "message_digest" ∈ req')
    (hp : parseSigner cd req exp h = .ok s) (hp' : parseSigner cd req' exp' h' = .ok s') (he : s.encodedAuth = s'.encodedAuth) :
    s.auth = s'.auth ∧ s.messageDigest = s'.messageDigest ∧ s.contentType = s'.contentType ∧ s.signingTime = s'.signingTime := by
  obtain ⟨at1, r1⟩ := parseSigner_ok.1 hp
  obtain ⟨at2, r2⟩ := parseSigner_ok.1 hp'
  have e1 := (derSet_iff _ _).1 r1.encoded
  have e2 := (derSet_iff _ _).1 r2.encoded
  have hc := encodeAttrs_inj (e1.symm.trans (he.trans e2))
  have hat : at1 = at2 := by
    rcases r1.decoded with ⟨_, h1⟩ | ⟨b1, h1, d1⟩
    · subst h1; obtain ⟨_, hx, _⟩ := r1.complete _ hr; cases hx
    · rcases r2.decoded with ⟨_, h2⟩ | ⟨b2, h2, d2⟩
      · subst h2; obtain ⟨_, hx, _⟩ := r2.complete _ hr'; cases hx
      · rw [h1, h2] at hc
        simp only [Option.getD_some] at hc
        subst hc
        rw [d1] at d2
        injection d2
  subst hat
  have key : ∀ {α : Type} {t : String} {val : α → RawVal} {x y : Option α}, (∀ a b, val a = val b → a = b) →
      ReadsAttr at1 t val x → ReadsAttr at1 t val y → x = y := by
    intro α t val x y hinj hx hy
    rcases readsAttr_iff.1 hx with ⟨hn, rfl⟩ | ⟨a, z, h1, h2, rfl⟩ <;> rcases readsAttr_iff.1 hy with ⟨hn', rfl⟩ | ⟨a', z', h1', h2', rfl⟩
    · rfl
    · rw [hn] at h1'; cases h1'
    · rw [hn'] at h1; cases h1
    · rw [h1] at h1'
      cases h1'
      rw [h2] at h2'
      have : val z = val z' := by simpa using h2'
      rw [hinj _ _ this]
  exact ⟨r1.auth.trans r2.auth.symm, key (fun _ _ h => by injection h) r1.messageDigest r2.messageDigest,
    key (fun _ _ h => by injection h) r1.contentType r2.contentType, key (fun _ _ h => by injection h) r1.signingTime r2.signingTime⟩

/-- The same attributes, read with and without an expected type. -/
example := C27_determines exCodec ["message_digest"] ["content_type", "message_digest"] none (some "data") (exHead [2]) (exHead [2]) _ _
  (by decide) (by decide) rfl rfl rfl

example : DerSet (List.replicate 300 0) (0x31 :: 0x82 :: 1 :: 44 :: List.replicate 300 0) :=
  ⟨[0x82, 1, 44], .inr ⟨by rw [List.length_replicate]; decide, [1, 44], rfl, by rw [List.length_replicate]; rfl, by decide⟩, rfl⟩

/-! ## C51: accepted digest algorithms (parsing) -/

/-- Every digest algorithm of a parsed Authenticode signature is one of the five accepted ones. -/
theorem C51_accepted (cd : Codec) (sd : RawSD) (a : ASD) (h : parseASD cd sd = .ok a) :
    a.d.core.digestAlg ∈ ["md5", "sha1", "sha256", "sha384", "sha512"] ∧
    a.d.spc.digestAlg ∈ ["md5", "sha1", "sha256", "sha384", "sha512"] ∧
    a.d.signer.digestAlg ∈ ["md5", "sha1", "sha256", "sha384", "sha512"] ∧
    (∀ c, a.d.counter = some (.pkcs9 c) → c.signer.digestAlg ∈ ["md5", "sha1", "sha256", "sha384", "sha512"]) ∧
    (∀ r, a.d.counter = some (.rfc3161 r) → r.core.digestAlg ∈ ["md5", "sha1", "sha256", "sha384", "sha512"] ∧
      r.tst.hashAlg ∈ ["md5", "sha1", "sha256", "sha384", "sha512"] ∧
      r.signer.digestAlg ∈ ["md5", "sha1", "sha256", "sha384", "sha512"]) := by
  have hr := parseASD_ok.1 h
  cases hr with
  | @mk _ d nested si attrs spc sds core noCrls content hspc oneSigner signer statement opus counter nestedIn all rec =>
    simp only [ASD.d]
    refine ⟨?_, ?_, ?_, ?_, ?_⟩
    · obtain ⟨x, _, hx, he⟩ := core.alg; rw [he]; exact hx.1
    · rw [hspc.digestAlg]; exact hspc.alg.1
    · rw [signer.digestAlg]; exact signer.alg.1
    · intro c hc
      rw [hc] at counter
      cases counter with
      | pkcs9 _ _ hrd =>
        cases hrd with
        | last hs _ => simp only [CounterInfo.signer]; rw [hs.digestAlg]; exact hs.alg.1
        | more hs _ _ => simp only [CounterInfo.signer]; rw [hs.digestAlg]; exact hs.alg.1
    · intro r hc
      rw [hc] at counter
      cases counter with
      | rfc3161 _ _ hrd =>
        refine ⟨?_, ?_, ?_⟩
        · obtain ⟨x, _, hx, he⟩ := hrd.core.alg; rw [he]; exact hx.1
        · obtain ⟨raw, _, ht⟩ := hrd.tst; rw [ht.hashAlg]; exact ht.alg.1
        · obtain ⟨_, _, _, _, hs⟩ := hrd.signer; rw [hs.digestAlg]; exact hs.alg.1

example := C51_accepted exCodec exRfcSD _ rfl

/-- An algorithm identifier is accepted iff it names one of the five algorithms and has no parameters; the algorithm is the one
named. -/
theorem C51_algorithm_iff (a : RawAlg) (x : String) :
    getDigestAlgorithm a.algorithm a.params acceptedDigests = .ok x ↔
      a.algorithm ∈ ["md5", "sha1", "sha256", "sha384", "sha512"] ∧ a.params = false ∧ x = a.algorithm := by
  rw [getDigestAlgorithm_ok]
  unfold AcceptedAlg digestAlgorithms
  rw [and_assoc]

/-- Rejections are ParseErrors. -/
theorem C51_rejected (a : RawAlg) (e : Exc) (h : getDigestAlgorithm a.algorithm a.params acceptedDigests = .error e) :
    e.is .parseError = true := getDigestAlgorithm_error h

example := C51_rejected ⟨"md2", false⟩ _ rfl

example : getDigestAlgorithm "md2" false acceptedDigests ≠ .ok "md2" := by decide

/-! ## C54: accuracy -/

/-- The accuracy is seconds + milliseconds + microseconds, absent parts counting as zero, an absent accuracy as zero; it is obtained
exactly if it and its parts are within what a `datetime.timedelta` holds. -/
theorem C54_accuracy (a : RawAccuracy) (d : Int) :
    accuracyToPython none = .ok 0 ∧
    (accuracyToPython (some a) = .ok d ↔ AccuracyFits (a.seconds.getD 0) (a.millis.getD 0) (a.micros.getD 0) ∧
      d = a.seconds.getD 0 * 1000000 + a.millis.getD 0 * 1000 + a.micros.getD 0) := by
  refine ⟨rfl, accuracy_ok.trans ⟨fun ⟨h1, h2⟩ => ⟨h2 a rfl, h1⟩, fun ⟨h1, h2⟩ => ⟨h2, fun x hx => by cases hx; exact h1⟩⟩⟩

/-- Otherwise an OverflowError is raised, which is not a ParseError. -/
theorem C54_overflow (a : RawAccuracy) : (∃ e, accuracyToPython (some a) = .error e ∧ e.cls = .overflowError) ↔
    ¬ AccuracyFits (a.seconds.getD 0) (a.millis.getD 0) (a.micros.getD 0) := by
  constructor
  · rintro ⟨e, h, _⟩
    obtain ⟨x, hx, h⟩ := accuracy_refused h
    cases hx
    exact h
  · intro hn
    cases h : accuracyToPython (some a) with
    | ok d => exact absurd ((C54_accuracy a d).2.1 h).1 hn
    | error e => exact ⟨e, rfl, accuracy_error h⟩

/-- In a parsed timestamp, the accuracy, time, serial number and imprint are those of the TSTInfo. -/
theorem C54_tst (r : RawTst) (t : Tst) (h : parseTst r = .ok t) : ReadsTst r t := parseTst_ok.1 h

example := C54_tst ⟨"v1", "1.2.3", ⟨"sha256", false⟩, [1, 2], 5, 600, some ⟨some 2, some 3, none⟩, none⟩ _ rfl

example : accuracyToPython (some ⟨some 2, some 3, some 4⟩) = .ok 2003004 := by decide

/-- The bounds are met on both sides; a negative part does not help the first. -/
example : (∃ d, accuracyToPython (some ⟨some 86399999999999, some 999, some 999999⟩) = .error d) ∧
    accuracyToPython (some ⟨some 86399999999999, none, some 999999⟩) = .ok 86399999999999999999 ∧
    accuracyToPython (some ⟨some (-86399999913600), none, none⟩) = .ok (-86399999913600000000) ∧
    (∃ d, accuracyToPython (some ⟨some (-86399999913600), none, some (-1)⟩) = .error d) ∧
    (∃ d, accuracyToPython (some ⟨some 86400000000000, some (-1000), none⟩) = .error d) :=
  ⟨⟨_, rfl⟩, by decide, by decide, ⟨_, rfl⟩, ⟨_, rfl⟩⟩

end Signify.Props
