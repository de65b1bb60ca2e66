/-
Model of the ASN.1 schemas in `signify/asn1/spc.py` and `signify/asn1/ctl.py`, and of what is read through them.

The definitions without a reference to the repository are schemas of asn1crypto that these use.  Simplification: the maps from
object identifiers to names that belong to asn1crypto are excerpts; an identifier that is not listed is named by its dotted form.
-/
import Verif.Model.Asn1

set_option autoImplicit false

namespace Signify.Asn1

/-- A field without parameters. -/
def field (name : String) (t : Ty) : Field := .mk name .none false t
/-- A field with `{"optional": True}`, or with `{"default": ...}`. -/
def optField (name : String) (t : Ty) : Field := .mk name .none true t
/-- A field with `{"explicit": n, "optional": True}`. -/
def optExplicit (name : String) (n : Nat) (t : Ty) : Field := .mk name (.explicit n) true t
/-- A field with `{"implicit": n, "optional": True}`. -/
def optImplicit (name : String) (n : Nat) (t : Ty) : Field := .mk name (.implicit n) true t

/-- `Boolean` -/
def tBoolean : Ty := .prim 1
/-- `Integer` -/
def tInteger : Ty := .prim 2
/-- `BitString` -/
def tBitString : Ty := .prim 3
/-- `OctetString` -/
def tOctetString : Ty := .prim 4
/-- `ObjectIdentifier` -/
def tOid : Ty := .prim 6
/-- `IA5String` -/
def tIA5String : Ty := .prim 22
/-- `BMPString` -/
def tBMPString : Ty := .prim 30

/-- `algos.DigestAlgorithmId._map` -/
def digestAlgorithmMap : List (List Nat × String) :=
  [([1, 2, 840, 113549, 2, 2], "md2"),
   ([1, 2, 840, 113549, 2, 5], "md5"),
   ([1, 3, 14, 3, 2, 26], "sha1"),
   ([2, 16, 840, 1, 101, 3, 4, 2, 4], "sha224"),
   ([2, 16, 840, 1, 101, 3, 4, 2, 1], "sha256"),
   ([2, 16, 840, 1, 101, 3, 4, 2, 2], "sha384"),
   ([2, 16, 840, 1, 101, 3, 4, 2, 3], "sha512"),
   ([2, 16, 840, 1, 101, 3, 4, 2, 5], "sha512_224"),
   ([2, 16, 840, 1, 101, 3, 4, 2, 6], "sha512_256"),
   ([2, 16, 840, 1, 101, 3, 4, 2, 7], "sha3_224"),
   ([2, 16, 840, 1, 101, 3, 4, 2, 8], "sha3_256"),
   ([2, 16, 840, 1, 101, 3, 4, 2, 9], "sha3_384"),
   ([2, 16, 840, 1, 101, 3, 4, 2, 10], "sha3_512"),
   ([2, 16, 840, 1, 101, 3, 4, 2, 11], "shake128"),
   ([2, 16, 840, 1, 101, 3, 4, 2, 12], "shake256"),
   ([2, 16, 840, 1, 101, 3, 4, 2, 17], "shake128_len"),
   ([2, 16, 840, 1, 101, 3, 4, 2, 18], "shake256_len")]

/-- `algos.DigestAlgorithm` and `algos.AlgorithmIdentifier` -/
def tAlgorithm : Ty := .seq [field "algorithm" tOid, optField "parameters" .any]

/-- `algos.DigestInfo` -/
def tDigestInfo : Ty := .seq [field "digest_algorithm" tAlgorithm, field "digest" tOctetString]

/-- The name of the algorithm and the truth value of the parameters. -/
def readAlg (map : List (List Nat × String)) (v : Val) : Except Exc RawAlg := do
  let o ← (← v.req "algorithm").octets
  match ← v.get "parameters" with
  | none => .ok ⟨oidNative map o, false⟩
  | some p => .ok ⟨oidNative map o, truthy (← p.parts)⟩

/-! ### spc.py -/

/-- `SpcUuid`; spc.py:54-61. -/
def tSpcUuid : Ty := tOctetString

/-- `SpcSerializedObject`; spc.py:64-79. -/
def tSpcSerializedObject : Ty := .seq [field "class_id" tSpcUuid, field "serialized_data" tOctetString]

/-- `SpcString`; spc.py:82-97. -/
def tSpcString : Ty := .choice [.mk "unicode" (.implicit 0) false tBMPString, .mk "ascii" (.implicit 1) false tIA5String]

/-- `SpcLink`; spc.py:100-117. -/
def tSpcLink : Ty := .choice [
  .mk "url" (.implicit 0) false tIA5String,
  .mk "moniker" (.implicit 1) false tSpcSerializedObject,
  .mk "file" (.explicit 2) false tSpcString]

/-- `SpcPeImageFlags._map`; spc.py:150-154. -/
def spcPeImageFlags : List (Nat × String) :=
  [(0, "include_resources"), (1, "include_debug_info"), (2, "include_import_address_table")]

/-- `SpcPeImageData`; spc.py:157-178. -/
def tSpcPeImageData : Ty := .seq [optField "flags" tBitString, optExplicit "file" 0 tSpcLink]

/-- `SpcAttributeType._map`; spc.py:184-186. -/
def spcAttributeTypes : List (List Nat × String) := [([1, 3, 6, 1, 4, 1, 311, 2, 1, 15], "microsoft_spc_pe_image_data")]

/-- `SpcAttributeTypeAndOptionalValue`; spc.py:189-214. -/
def tSpcAttributeTypeAndOptionalValue : Ty := .seq [field "type" tOid, optField "value" .any]

/-- `SpcIndirectDataContent`; spc.py:217-235. -/
def tSpcIndirectDataContent : Ty :=
  .seq [field "data" tSpcAttributeTypeAndOptionalValue, field "message_digest" tDigestInfo]

/-- `SpcSpOpusInfo`; spc.py:238-257. -/
def tSpcSpOpusInfo : Ty := .seq [
  optExplicit "program_name" 0 tSpcString,
  optExplicit "more_info" 1 tSpcLink,
  optExplicit "publisher_info" 2 tSpcLink]

/-- `SpcStatementTypeIdentifier._map`; spc.py:264-268. -/
def spcStatementTypes : List (List Nat × String) :=
  [([1, 3, 6, 1, 4, 1, 311, 2, 1, 21], "microsoft_spc_individual_sp_key_purpose"),
   ([1, 3, 6, 1, 4, 1, 311, 2, 1, 22], "microsoft_spc_commercial_sp_key_purpose")]

/-- `SpcStatementType`; spc.py:271-281. -/
def tSpcStatementType : Ty := .seqOf tOid

/-- `.native` of an `SpcString`. -/
def readSpcString (v : Val) : Except Exc String :=
  match v with
  | .choice name v => do
    let b ← v.octets
    if name = "unicode" then bmpNative b else asciiNative b
  | _ => asn1Bad

/-- `.native` of an `SpcLink`. -/
def readSpcLink (v : Val) : Except Exc LinkVal :=
  match v with
  | .choice name v =>
    if name = "url" then do
      let s ← asciiNative (← v.octets)
      .ok (.text s)
    else if name = "moniker" then do
      .ok (.moniker (← (← v.req "class_id").octets) (← (← v.req "serialized_data").octets))
    else do
      let s ← readSpcString v
      .ok (.text s)
  | _ => asn1Bad

/-- A value, if it is present. -/
def readOpt {α : Type} (f : Val → Except Exc α) (v : Option Val) : Except Exc (Option α) :=
  match v with
  | none => .ok none
  | some v => do
    let a ← f v
    .ok (some a)

/-- `flags` and `file` of an `SpcPeImageData`, as read by structures.py:364-366. -/
def readPeImage (v : Val) : Except Exc (List Flag × Option LinkVal) := do
  let flags ← (match ← v.get "flags" with
    | none => .ok [.name "include_resources"]
    | some f => do .ok (bitNames spcPeImageFlags (← f.octets)))
  let file ← readOpt readSpcLink (← v.get "file")
  .ok (flags, file)

/-- What `SpcInfo._parse` looks at in an `SpcIndirectDataContent`; structures.py:358-373.  The type of the value depends on the
type of the attribute (`_oid_specs`); a value of an unknown type is not looked at.  Simplification: a value with a tag other than
that of the type is rejected here, whereas asn1crypto takes it as absent. -/
def readSpc (v : Val) : Except Exc RawSpc := do
  let data ← v.req "data"
  let type := oidNative spcAttributeTypes (← (← data.req "type").octets)
  let image ← (match ← data.get "value" with
    | none => .ok none
    | some x => if type = "microsoft_spc_pe_image_data" then do
        let d ← tSpcPeImageData.build none (← x.parts)
        let i ← readPeImage d
        .ok (some i)
      else .ok none)
  let digest ← v.req "message_digest"
  let alg ← readAlg digestAlgorithmMap (← digest.req "digest_algorithm")
  let b ← (← digest.req "digest").octets
  .ok { type := type, image := image, digestAlg := alg, digest := b }

/-- A structure that is held by an OCTET STRING with the given contents (`true`), or is a SEQUENCE with the given contents. -/
def loadWrapped (t : Ty) (wrapped : Bool) (data : Bytes) : Except Exc Val :=
  if wrapped then t.load data else t.ofContents 16 data

/-- The `SpcIndirectDataContent` in a SignedData; spc.py:217-235, 288-291. -/
def derSpc (wrapped : Bool) (data : Bytes) : Except Exc RawSpc := do
  let v ← loadWrapped tSpcIndirectDataContent wrapped data
  readSpc v

/-- `.native` of an `SpcSpOpusInfo`, as read by structures.py:215-234. -/
def readOpus (v : Val) : Except Exc RawVal := do
  let name ← readOpt readSpcString (← v.get "program_name")
  let info ← readOpt readSpcLink (← v.get "more_info")
  let publisher ← readOpt readSpcLink (← v.get "publisher_info")
  .ok (.opus name info publisher)

/-- `.native` of a sequence of object identifiers. -/
def readOids (map : List (List Nat × String)) (v : Val) : Except Exc (List String) := do
  parseAll (fun x => do .ok (oidNative map (← x.octets))) (← v.elems)

/-- `.native` of an `SpcStatementType`. -/
def readStatementTypes (v : Val) : Except Exc RawVal := do
  let l ← readOids spcStatementTypes v
  .ok (.oids l)

/-! ### Times -/

/-- Whether a year is a leap year. -/
def isLeap (y : Nat) : Bool := y % 4 == 0 && (y % 100 != 0 || y % 400 == 0)

/-- The number of days of a month. -/
def monthDays (y m : Nat) : Nat :=
  if m = 2 then (if isLeap y then 29 else 28) else if m = 4 ∨ m = 6 ∨ m = 9 ∨ m = 11 then 30 else 31

/-- Python's `datetime.toordinal()` for the first day of a year, less one. -/
def daysBeforeYear (y : Nat) : Nat := (y - 1) * 365 + (y - 1) / 4 - (y - 1) / 100 + (y - 1) / 400

/-- Days of a year before a month. -/
def daysBeforeMonth (y : Nat) : Nat → Nat
  | 0 => 0
  | 1 => 0
  | m + 2 => daysBeforeMonth y (m + 1) + monthDays y (m + 1)

/-- `datetime(y, m, d, H, M, S, us, tzinfo=utc)`, in microseconds since 1601. -/
def mkDatetime (y m d hh mm ss us : Nat) : Except Exc Int :=
  if y < 1 ∨ m < 1 ∨ 12 < m ∨ d < 1 ∨ monthDays y m < d ∨ 23 < hh ∨ 59 < mm ∨ 59 < ss then
    .error ⟨.valueError, "out of range"⟩
  else
    .ok ((((((daysBeforeYear y + daysBeforeMonth y m + (d - 1) : Nat) : Int) - (daysBeforeYear 1601 : Nat)) * 24 + hh) * 60
      + mm) * 60000000 + ss * 1000000 + us)

/-- The value of two digits. -/
def twoDigits : Bytes → Option (Nat × Bytes)
  | a :: b :: l =>
    if 48 ≤ a.toNat ∧ a.toNat ≤ 57 ∧ 48 ≤ b.toNat ∧ b.toNat ≤ 57 then some ((a.toNat - 48) * 10 + (b.toNat - 48), l) else none
  | _ => none

/-- A ValueError of `UTCTime` and `GeneralizedTime`. -/
def timeErr {α : Type} : Except Exc α := .error ⟨.valueError, "date string did not match pattern"⟩

/-- Two digits, or an error. -/
def digits2 (b : Bytes) : Except Exc (Nat × Bytes) :=
  match twoDigits b with
  | some x => .ok x
  | none => timeErr

/-- The time zone in the last octets; microseconds to subtract.  Simplification: a missing zone of a GeneralizedTime stands for
UTC. -/
def readZone (optional : Bool) (b : Bytes) : Except Exc Int :=
  match b with
  | [] => if optional then .ok 0 else timeErr
  | [0x5A] => .ok 0
  | s :: l =>
    if s = 0x2B ∨ s = 0x2D then do
      let (hh, l) ← digits2 l
      let (mm, l) ← digits2 l
      if l = [] then
        if 23 < hh ∨ 59 < mm then .error ⟨.valueError, "offset must be strictly between"⟩
        else .ok ((if s = 0x2B then 1 else -1) * ((hh * 60 + mm : Nat) : Int) * 60000000)
      else timeErr
    else timeErr

/-- `UTCTime.native` -/
def utcTime (b : Bytes) : Except Exc Int := do
  let (y, b) ← digits2 b
  let (m, b) ← digits2 b
  let (d, b) ← digits2 b
  let (hh, b) ← digits2 b
  let (mm, b) ← digits2 b
  let (ss, b) := (twoDigits b).getD (0, b)
  let z ← readZone false b
  let t ← mkDatetime (if y < 50 then 2000 + y else 1900 + y) m d hh mm ss 0
  .ok (t - z)

/-- The fraction of a second: the digits, as microseconds (truncated), and what follows. -/
def fraction : Nat → Nat → Bytes → Nat × Bytes
  | _, us, [] => (us, [])
  | unit, us, b :: l =>
    if 48 ≤ b.toNat ∧ b.toNat ≤ 57 then fraction (unit / 10) (us + (b.toNat - 48) * (unit / 10)) l else (us, b :: l)

/-- The fraction of a second, if there is one. -/
def fractionPart (b : Bytes) : Nat × Bytes :=
  match b with
  | s :: x :: l => if (s = 0x2E ∨ s = 0x2C) ∧ 48 ≤ x.toNat ∧ x.toNat ≤ 57 then fraction 1000000 0 (x :: l) else (0, b)
  | _ => (0, b)

/-- `GeneralizedTime.native`.  Simplifications: minutes and seconds must be present; the year 0 is rejected. -/
def generalizedTime (b : Bytes) : Except Exc Int := do
  let (c, b) ← digits2 b
  let (y, b) ← digits2 b
  let (m, b) ← digits2 b
  let (d, b) ← digits2 b
  let (hh, b) ← digits2 b
  let (mm, b) ← digits2 b
  let (ss, b) ← digits2 b
  let (us, b) := fractionPart b
  let z ← readZone true b
  let t ← mkDatetime (c * 100 + y) m d hh mm ss us
  .ok (t - z)

/-- `x509.Time` -/
def tTime : Ty := .choice [field "utc_time" (.prim 23), field "general_time" (.prim 24)]

/-- `.native` of a `Time`. -/
def readTime (v : Val) : Except Exc Int :=
  match v with
  | .choice name v => do
    let b ← v.octets
    if name = "utc_time" then utcTime b else generalizedTime b
  | _ => asn1Bad

/-! ### ctl.py -/

/-- `x509.KeyPurposeId._map`.  Simplification: some rarely used entries (of Apple, Adobe and others) are left out. -/
def keyPurposes : List (List Nat × String) :=
  [([2, 5, 29, 37, 0], "any_extended_key_usage"),
   ([1, 3, 6, 1, 5, 5, 7, 3, 1], "server_auth"),
   ([1, 3, 6, 1, 5, 5, 7, 3, 2], "client_auth"),
   ([1, 3, 6, 1, 5, 5, 7, 3, 3], "code_signing"),
   ([1, 3, 6, 1, 5, 5, 7, 3, 4], "email_protection"),
   ([1, 3, 6, 1, 5, 5, 7, 3, 5], "ipsec_end_system"),
   ([1, 3, 6, 1, 5, 5, 7, 3, 6], "ipsec_tunnel"),
   ([1, 3, 6, 1, 5, 5, 7, 3, 7], "ipsec_user"),
   ([1, 3, 6, 1, 5, 5, 7, 3, 8], "time_stamping"),
   ([1, 3, 6, 1, 5, 5, 7, 3, 9], "ocsp_signing"),
   ([1, 3, 6, 1, 5, 5, 7, 3, 10], "dvcs"),
   ([1, 3, 6, 1, 5, 5, 7, 3, 13], "eap_over_ppp"),
   ([1, 3, 6, 1, 5, 5, 7, 3, 14], "eap_over_lan"),
   ([1, 3, 6, 1, 5, 5, 7, 3, 15], "scvp_server"),
   ([1, 3, 6, 1, 5, 5, 7, 3, 16], "scvp_client"),
   ([1, 3, 6, 1, 5, 5, 7, 3, 17], "ipsec_ike"),
   ([1, 3, 6, 1, 5, 5, 8, 2, 2], "ike_intermediate"),
   ([1, 3, 6, 1, 4, 1, 311, 10, 3, 1], "microsoft_trust_list_signing"),
   ([1, 3, 6, 1, 4, 1, 311, 10, 3, 2], "microsoft_time_stamp_signing"),
   ([1, 3, 6, 1, 4, 1, 311, 10, 3, 3], "microsoft_server_gated"),
   ([1, 3, 6, 1, 4, 1, 311, 10, 3, 3, 1], "microsoft_serialized"),
   ([1, 3, 6, 1, 4, 1, 311, 10, 3, 4], "microsoft_efs"),
   ([1, 3, 6, 1, 4, 1, 311, 10, 3, 4, 1], "microsoft_efs_recovery"),
   ([1, 3, 6, 1, 4, 1, 311, 10, 3, 5], "microsoft_whql"),
   ([1, 3, 6, 1, 4, 1, 311, 10, 3, 6], "microsoft_nt5"),
   ([1, 3, 6, 1, 4, 1, 311, 10, 3, 7], "microsoft_oem_whql"),
   ([1, 3, 6, 1, 4, 1, 311, 10, 3, 8], "microsoft_embedded_nt"),
   ([1, 3, 6, 1, 4, 1, 311, 10, 3, 9], "microsoft_root_list_signer"),
   ([1, 3, 6, 1, 4, 1, 311, 10, 3, 10], "microsoft_qualified_subordination"),
   ([1, 3, 6, 1, 4, 1, 311, 10, 3, 11], "microsoft_key_recovery"),
   ([1, 3, 6, 1, 4, 1, 311, 10, 3, 12], "microsoft_document_signing"),
   ([1, 3, 6, 1, 4, 1, 311, 10, 3, 13], "microsoft_lifetime_signing"),
   ([1, 3, 6, 1, 4, 1, 311, 10, 3, 14], "microsoft_mobile_device_software"),
   ([1, 3, 6, 1, 4, 1, 311, 20, 2, 2], "microsoft_smart_card_logon")]

/-- `x509.ExtKeyUsageSyntax` -/
def tExtKeyUsage : Ty := .seqOf tOid

/-- `SubjectAttribute`; ctl.py:137-165. -/
def tSubjectAttribute : Ty := .seq [field "type" tOid, field "values" (.setOf tOctetString)]

/-- `TrustedSubject`; ctl.py:178-193. -/
def tTrustedSubject : Ty :=
  .seq [field "subject_identifier" tOctetString, optField "subject_attributes" (.setOf tSubjectAttribute)]

/-- `x509.Extensions`, not looked into. -/
def tExtensionsRaw : Ty := .seqOf .any

/-- `CertificateTrustList`; ctl.py:208-237. -/
def tCertificateTrustList : Ty := .seq [
  optField "version" tInteger,
  field "subject_usage" tExtKeyUsage,
  optField "list_identifier" tOctetString,
  optField "sequence_number" tInteger,
  field "ctl_this_update" tTime,
  optField "ctl_next_update" tTime,
  field "subject_algorithm" tAlgorithm,
  optField "trusted_subjects" (.seqOf tTrustedSubject),
  optExplicit "ctl_extensions" 0 tExtensionsRaw]

/-- `ExtKeyUsageSyntax.load(data).native` -/
def derEkus (data : Bytes) : Except Exc (List String) := do
  let v ← tExtKeyUsage.load data
  readOids keyPurposes v

/-- A `SubjectAttribute`: type and contents of the values; ctl.py:137-165. -/
def readCtlAttr (v : Val) : Except Exc RawCtlAttr := do
  let o ← (← v.req "type").octets
  let vs ← parseAll Val.octets (← (← v.req "values").elems)
  .ok ⟨oidArcs o, vs⟩

/-- A `TrustedSubject`; ctl.py:178-193. -/
def readTrusted (v : Val) : Except Exc RawTrusted := do
  let i ← (← v.req "subject_identifier").octets
  let attrs ← readOpt (fun a => do parseAll readCtlAttr (← a.elems)) (← v.get "subject_attributes")
  .ok ⟨i, attrs⟩

/-- What `CertificateTrustList._parse` looks at; authroot.py:93-111. -/
def readCtl (v : Val) : Except Exc RawCtl := do
  let usage ← readOids keyPurposes (← v.req "subject_usage")
  let listIdentifier ← readOpt Val.octets (← v.get "list_identifier")
  let sequenceNumber ← readOpt (fun x => do .ok (intNative (← x.octets))) (← v.get "sequence_number")
  let thisUpdate ← readTime (← v.req "ctl_this_update")
  let nextUpdate ← readOpt readTime (← v.get "ctl_next_update")
  let alg ← readAlg digestAlgorithmMap (← v.req "subject_algorithm")
  let subjects ← readOpt (fun a => do parseAll readTrusted (← a.elems)) (← v.get "trusted_subjects")
  .ok { usage := usage, listIdentifier := listIdentifier, sequenceNumber := sequenceNumber, thisUpdate := thisUpdate
        nextUpdate := nextUpdate, algorithm := alg, subjects := subjects }

/-- The `CertificateTrustList` in a SignedData; ctl.py:208-243. -/
def derCtl (wrapped : Bool) (data : Bytes) : Except Exc RawCtl := do
  let v ← loadWrapped tCertificateTrustList wrapped data
  readCtl v

/-- Decoding of trust lists. -/
def derCtlCodec : CtlCodec where
  ekus := derEkus
  ctl := derCtl

end Signify.Asn1
