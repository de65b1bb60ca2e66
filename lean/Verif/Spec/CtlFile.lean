/-
What a trust list file says.
-/
import Verif.Model.CtlFile
import Verif.Spec.Pkcs7

set_option autoImplicit false

namespace Signify.Spec

/-! ### UTF-16 -/

/-- A 16-bit unit, little endian. -/
def unitLE (u : Nat) : Bytes := [UInt8.ofNat (u % 256), UInt8.ofNat (u / 256)]

/-- The UTF-16 encoding of a character: one unit, or two surrogates. -/
def utf16Char (c : Char) : Bytes :=
  if c.toNat < 0x10000 then unitLE c.toNat
  else unitLE (0xD800 + (c.toNat - 0x10000) / 0x400) ++ unitLE (0xDC00 + (c.toNat - 0x10000) % 0x400)

/-- UTF-16, little endian, without byte order mark. -/
def utf16 (s : List Char) : Bytes := s.flatMap utf16Char

/-- A character string terminated by any number of NULs: the bytes `b` stand for `s`. -/
def ReadsText (b : Bytes) (s : String) : Prop :=
  (∃ k, b = utf16 (s.toList ++ List.replicate k (Char.ofNat 0))) ∧ s.toList.getLast? ≠ some (Char.ofNat 0)

/-! ### Entries -/

/-- The OIDs of the attributes of an entry of a CTL: 1.3.6.1.4.1.311.10.11.n -/
def ctlOid (n : Nat) : List Nat := [1, 3, 6, 1, 4, 1, 311, 10, 11, n]

/-- `b` is the first value of the last attribute of the given type. -/
def AttrOctets (r : RawTrusted) (oid : List Nat) (b : Bytes) : Prop :=
  ∃ l pre rest post, r.attributes = some l ∧ l = pre ++ ⟨oid, b :: rest⟩ :: post ∧ ∀ x ∈ post, x.oid ≠ oid

/-- There is no attribute of the given type. -/
def NoAttrOctets (r : RawTrusted) (oid : List Nat) : Prop := ∀ l, r.attributes = some l → ∀ x ∈ l, x.oid ≠ oid

/-- A value of an attribute can be read: usages (9, 105, 122, 127) are decodable, names (11) text, times (104, 126) empty or eight
bytes and not beyond the range of Python's datetime. -/
def ValueOk (ekus : Bytes → Except Exc (List String)) (oid : List Nat) (b : Bytes) : Prop :=
  ((∃ n ∈ [9, 105, 122, 127], oid = ctlOid n) → ∃ l, ekus b = .ok l) ∧
  (oid = ctlOid 11 → ∃ s, ReadsText b s) ∧
  ((∃ n ∈ [104, 126], oid = ctlOid n) → ∃ t, fileTimeNative b = .ok t)

/-- Every attribute of an entry has a value, and all its values can be read. -/
def EntryOk (ekus : Bytes → Except Exc (List String)) (r : RawTrusted) : Prop :=
  ∀ l, r.attributes = some l → ∀ a ∈ l, a.values ≠ [] ∧ ∀ b ∈ a.values, ValueOk ekus a.oid b

/-- What an entry says. -/
structure ReadsEntry (ekus : Bytes → Except Exc (List String)) (r : RawTrusted) (s : CtlSubject) : Prop where
  identifier : s.identifier = r.identifier
  usages : ∀ l, s.ekus = some l ↔ ∃ b, AttrOctets r (ctlOid 9) b ∧ ekus b = .ok l
  friendlyName : ∀ t, s.friendlyName = some t ↔ ∃ b, AttrOctets r (ctlOid 11) b ∧ ReadsText b t
  keyIdentifier : AttrOctets r (ctlOid 20) s.keyIdentifier ∨ (NoAttrOctets r (ctlOid 20) ∧ s.keyIdentifier = [])
  subjectNameMd5 : AttrOctets r (ctlOid 29) s.subjectNameMd5 ∨ (NoAttrOctets r (ctlOid 29) ∧ s.subjectNameMd5 = [])
  authRootSha256 : AttrOctets r (ctlOid 98) s.authRootSha256 ∨ (NoAttrOctets r (ctlOid 98) ∧ s.authRootSha256 = [])
  disallowedTime : ∀ t, s.disallowedTime = some t ↔ ∃ b, AttrOctets r (ctlOid 104) b ∧ fileTimeNative b = .ok (some t)
  chainPolicies : ∀ l, s.chainPolicies = some l ↔ ∃ b, AttrOctets r (ctlOid 105) b ∧ ekus b = .ok l
  disallowedEkus : ∀ l, s.disallowedEkus = some l ↔ ∃ b, AttrOctets r (ctlOid 122) b ∧ ekus b = .ok l
  notBeforeTime : ∀ t, s.notBeforeTime = some t ↔ ∃ b, AttrOctets r (ctlOid 126) b ∧ fileTimeNative b = .ok (some t)
  notBeforeEkus : ∀ l, s.notBeforeEkus = some l ↔ ∃ b, AttrOctets r (ctlOid 127) b ∧ ekus b = .ok l

/-! ### Lists -/

/-- The list `raw` in the SignedData `sd`, with content decoded by `cc`. -/
structure HoldsList (cc : CtlCodec) (sd : RawSD) (raw : RawCtl) : Prop where
  digest : ∃ a, sd.head.digestAlgs = [a] ∧ AcceptedAlg a
  type : sd.head.contentType = "microsoft_ctl"
  content : ∃ b, sd.head.content = some b ∧ cc.ctl sd.head.octets b = .ok raw

/-- A list that can be used: accepted algorithm, and all entries readable. -/
def ListOk (cc : CtlCodec) (raw : RawCtl) : Prop :=
  AcceptedAlg raw.algorithm ∧ ∀ l, raw.subjects = some l → ∀ r ∈ l, EntryOk cc.ekus r

/-- The entries of a list. -/
def entries (raw : RawCtl) : List RawTrusted := raw.subjects.getD []

/-- The elements in order of first occurrence. -/
def distinct : List Bytes → List Bytes
  | [] => []
  | a :: l => a :: (distinct l).filter (fun b => b ≠ a)

/-- `r` is the last entry with its identifier. -/
def LastEntry (l : List RawTrusted) (r : RawTrusted) : Prop :=
  ∃ pre post, l = pre ++ r :: post ∧ ∀ x ∈ post, x.identifier ≠ r.identifier

end Signify.Spec
