/-
Model of the reading of trust lists: `signify/asn1/ctl.py` and `CertificateTrustList` in `signify/authenticode/authroot.py`.
-/
import Verif.Model.Pkcs7

set_option autoImplicit false

namespace Signify

/-- `SubjectAttributeType._map`; ctl.py:69-82. -/
def ctlAttrMap : List (List Nat × String) :=
  [([1, 3, 6, 1, 4, 1, 311, 10, 11, 9], "microsoft_ctl_enhkey_usage"),
   ([1, 3, 6, 1, 4, 1, 311, 10, 11, 11], "microsoft_ctl_friendly_name"),
   ([1, 3, 6, 1, 4, 1, 311, 10, 11, 20], "microsoft_ctl_key_identifier"),
   ([1, 3, 6, 1, 4, 1, 311, 10, 11, 29], "microsoft_ctl_subject_name_md5_hash"),
   ([1, 3, 6, 1, 4, 1, 311, 10, 11, 83], "microsoft_ctl_root_program_cert_policies"),
   ([1, 3, 6, 1, 4, 1, 311, 10, 11, 98], "microsoft_ctl_auth_root_sha256_hash"),
   ([1, 3, 6, 1, 4, 1, 311, 10, 11, 104], "microsoft_ctl_disallowed_filetime"),
   ([1, 3, 6, 1, 4, 1, 311, 10, 11, 105], "microsoft_ctl_root_program_chain_policies"),
   ([1, 3, 6, 1, 4, 1, 311, 10, 11, 122], "microsoft_ctl_disallowed_enhkey_usage"),
   ([1, 3, 6, 1, 4, 1, 311, 10, 11, 126], "microsoft_ctl_not_before_filetime"),
   ([1, 3, 6, 1, 4, 1, 311, 10, 11, 127], "microsoft_ctl_not_before_enhkey_usage")]

/-- The dotted form of an object identifier. -/
def dotted (oid : List Nat) : String := ".".intercalate (oid.map toString)

/-- `attr["type"].native`: the mapped name, or the dotted form if there is none (asn1crypto). -/
def ctlAttrName (oid : List Nat) : String := (ctlAttrMap.lookup oid).getD (dotted oid)

/-- The types in `SubjectAttribute._oid_specs`. -/
inductive CtlSpec where
  | ekus
  | string
  | fileTime
deriving DecidableEq, Repr

/-- `SubjectAttribute._oid_specs` and `_values_spec`; ctl.py:148-163. -/
def ctlSpecOf (name : String) : Option CtlSpec :=
  ([("microsoft_ctl_enhkey_usage", CtlSpec.ekus),
    ("microsoft_ctl_friendly_name", CtlSpec.string),
    ("microsoft_ctl_disallowed_filetime", CtlSpec.fileTime),
    ("microsoft_ctl_root_program_chain_policies", CtlSpec.ekus),
    ("microsoft_ctl_disallowed_enhkey_usage", CtlSpec.ekus),
    ("microsoft_ctl_not_before_filetime", CtlSpec.fileTime),
    ("microsoft_ctl_not_before_enhkey_usage", CtlSpec.ekus)] : List (String × CtlSpec)).lookup name

/-- UnicodeDecodeError, a ValueError. -/
def unicodeErr {α : Type} : Except Exc α := .error ⟨.valueError, "'utf-16-le' codec can't decode bytes"⟩

/-- `bytes.decode("utf-16-le")`: Python's decoder. -/
def utf16le : Bytes → Except Exc (List Char)
  | [] => .ok []
  | [_] => unicodeErr
  | a :: b :: rest =>
    let u := a.toNat + 256 * b.toNat
    if u < 0xD800 ∨ 0xE000 ≤ u then
      match utf16le rest with
      | .error e => .error e
      | .ok cs => .ok (Char.ofNat u :: cs)
    else if 0xDC00 ≤ u then unicodeErr
    else
      match rest with
      | c :: d :: rest' =>
        let v := c.toNat + 256 * d.toNat
        if 0xDC00 ≤ v ∧ v < 0xE000 then
          match utf16le rest' with
          | .error e => .error e
          | .ok cs => .ok (Char.ofNat (0x10000 + (u - 0xD800) * 0x400 + (v - 0xDC00)) :: cs)
        else unicodeErr
      | _ => unicodeErr

/-- `s.rstrip("\0")` -/
def rstripNul (s : List Char) : List Char := (s.reverse.dropWhile (fun c => c == Char.ofNat 0)).reverse

/-- `CTLString.__unicode__` (and so `.native`); ctl.py:105-109. -/
def ctlString (contents : Bytes) : Except Exc String :=
  match utf16le contents with
  | .error e => .error e
  | .ok cs => .ok (String.ofList (rstripNul cs))

/-- One element of `SetOfSpecificOctetString.parse(spec)`; ctl.py:93-102.  The exception that decoding raises is kept until the
value is looked at, which happens immediately afterwards (authroot.py:265-268). -/
def ctlValue (ekus : Bytes → Except Exc (List String)) (spec : Option CtlSpec) (contents : Bytes) : CtlRaw :=
  match spec with
  | none => .octets contents
  | some .fileTime => .fileTime contents
  | some .ekus => match ekus contents with
    | .ok l => .ekus l
    | .error e => .bad e
  | some .string => match ctlString contents with
    | .ok s => .str s
    | .error e => .bad e

/-- A `SubjectAttribute`: type and the contents of its values; ctl.py:137-165. -/
structure RawCtlAttr where
  oid : List Nat
  values : List Bytes
deriving DecidableEq, Repr

/-- A `TrustedSubject`; ctl.py:178-193. -/
structure RawTrusted where
  identifier : Bytes
  attributes : Option (List RawCtlAttr)
deriving DecidableEq, Repr

/-- A `CertificateTrustList`, decoded; ctl.py:208-237.  Simplification: version and extensions, which are not looked at, are left
out. -/
structure RawCtl where
  usage : List String
  listIdentifier : Option Bytes
  sequenceNumber : Option Int
  thisUpdate : Int
  nextUpdate : Option Int
  algorithm : RawAlg
  subjects : Option (List RawTrusted)
deriving DecidableEq, Repr

/-- Decoding by asn1crypto: `ExtKeyUsageSyntax.load(contents)`, and the `CertificateTrustList` (ctl.py:208-237) held by
an OCTET STRING with the given contents (`true`), or with the given contents itself. -/
structure CtlCodec where
  ekus : Bytes → Except Exc (List String)
  ctl : Bool → Bytes → Except Exc RawCtl

/-- The entry as seen by `CertificateTrustSubject._parse`; ctl.py:137-165.  Iterating over absent attributes yields nothing
(asn1crypto's `VOID`). -/
def RawTrusted.subject (ekus : Bytes → Except Exc (List String)) (r : RawTrusted) : RawSubject where
  identifier := r.identifier
  attributes := (r.attributes.getD []).map (fun a => (ctlAttrName a.oid, a.values.map (ctlValue ekus (ctlSpecOf (ctlAttrName a.oid)))))

/-- A `CertificateTrustList` object; authroot.py:85-111. -/
structure TrustList where
  core : SDCore
  usage : List String
  listIdentifier : Option Bytes
  sequenceNumber : Option Int
  thisUpdate : Int
  nextUpdate : Option Int
  /-- `subject_algorithm` and `_subjects` -/
  ctl : CTL
deriving DecidableEq, Repr

/-- `CertificateTrustList(data)`; authroot.py:93-111, signeddata.py:99-147.  There is no signer info class: the signer infos
are not looked at. -/
def parseTrustList (cc : CtlCodec) (sd : RawSD) : Except Exc TrustList := do
  let core ← parseSDCore "microsoft_ctl" sd.head
  let raw ← decodeContent cc.ctl sd.head
  let ctl ← parseCTL raw.algorithm.algorithm raw.algorithm.params ((raw.subjects.getD []).map (RawTrusted.subject cc.ekus))
  .ok { core := core, usage := raw.usage, listIdentifier := raw.listIdentifier, sequenceNumber := raw.sequenceNumber
        thisUpdate := raw.thisUpdate, nextUpdate := raw.nextUpdate, ctl := ctl }

/-- `list(ctl.subjects)`; authroot.py:113-117. -/
def TrustList.subjects (t : TrustList) : List CtlSubject := t.ctl.subjects.map Prod.snd

/-- `CertificateTrustList.from_stl_file(path)`, given the bytes of the file; authroot.py:157-170. -/
def fromStl (cd : Codec) (cc : CtlCodec) (data : Bytes) : Except Exc TrustList := do
  let (t, sd) ← cd.envelope data
  if t ≠ "signed_data" then .error ⟨.ctlParseError, "ContentInfo does not contain SignedData"⟩
  else parseTrustList cc sd

end Signify
