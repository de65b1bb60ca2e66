/-
Trust lists (CTL files) written down as encoders, and what they say.
-/
import Verif.Spec.DerAuth

set_option autoImplicit false

namespace Signify.Spec

/-! ### Structures -/

/-- An attribute of an entry: its type, and the octets of its values. -/
structure DCtlAttr where
  oid : List Nat
  values : List Bytes

/-- SubjectAttribute ::= SEQUENCE { type OBJECT IDENTIFIER, values SET OF OCTET STRING } -/
def DCtlAttr.encode (a : DCtlAttr) : Bytes := derSeq [derOid a.oid, derSet (a.values.map derOctets)]

/-- An entry. -/
structure DTrusted where
  identifier : Bytes
  attributes : Option (List DCtlAttr)

/-- TrustedSubject ::= SEQUENCE { subjectIdentifier OCTET STRING, subjectAttributes SET OF SubjectAttribute OPTIONAL } -/
def DTrusted.encode (e : DTrusted) : Bytes :=
  derSeq [derOctets e.identifier, derOpt (fun l : List DCtlAttr => derSet (l.map DCtlAttr.encode)) e.attributes]

/-- The decoded entry. -/
def DTrusted.raw (e : DTrusted) : RawTrusted := ⟨e.identifier, e.attributes.map (·.map (fun a => ⟨a.oid, a.values⟩))⟩

/-- The entry can be encoded. -/
def DTrusted.Valid (e : DTrusted) : Prop := ∀ l, e.attributes = some l → ∀ a ∈ l, ValidOid a.oid

/-- A trust list. -/
structure DCtl where
  version : Option Int
  usage : List (List Nat)
  listIdentifier : Option Bytes
  sequenceNumber : Option Int
  thisUpdate : DTime
  nextUpdate : Option DTime
  algorithm : DAlg
  subjects : Option (List DTrusted)
  extensions : Option (List DAny)

/-- The contents octets of CertificateTrustList ::= SEQUENCE { version INTEGER DEFAULT v1, subjectUsage SEQUENCE OF OBJECT IDENTIFIER,
listIdentifier OCTET STRING OPTIONAL, sequenceNumber INTEGER OPTIONAL, ctlThisUpdate Time, ctlNextUpdate Time OPTIONAL,
subjectAlgorithm AlgorithmIdentifier, trustedSubjects SEQUENCE OF TrustedSubject OPTIONAL,
ctlExtensions [0] EXPLICIT SEQUENCE OF Extension OPTIONAL } -/
def DCtl.contents (c : DCtl) : Bytes :=
  derOpt derInt c.version ++ encodeOids c.usage ++ derOpt derOctets c.listIdentifier ++ derOpt derInt c.sequenceNumber ++
  c.thisUpdate.encode ++ derOpt DTime.encode c.nextUpdate ++ c.algorithm.encode ++
  derOpt (fun l : List DTrusted => derSeq (l.map DTrusted.encode)) c.subjects ++
  derOpt (fun l : List DAny => tlv 0xA0 (derSeq (l.map DAny.encode))) c.extensions

/-- CertificateTrustList -/
def DCtl.encode (c : DCtl) : Bytes := tlv 0x30 c.contents

/-- The decoded list. -/
def DCtl.raw (c : DCtl) : RawCtl where
  usage := c.usage.map (nameIn purposeNames)
  listIdentifier := c.listIdentifier
  sequenceNumber := c.sequenceNumber
  thisUpdate := c.thisUpdate.micros
  nextUpdate := c.nextUpdate.map DTime.micros
  algorithm := ⟨nameIn digestNames c.algorithm.oid, false⟩
  subjects := c.subjects.map (·.map DTrusted.raw)

/-- The list can be encoded. -/
def DCtl.Valid (c : DCtl) : Prop :=
  (∀ o ∈ c.usage, ValidOid o) ∧ c.thisUpdate.Valid ∧ (∀ t, c.nextUpdate = some t → t.Valid) ∧ ValidOid c.algorithm.oid ∧
  (∀ l, c.subjects = some l → ∀ e ∈ l, e.Valid) ∧ (∀ l, c.extensions = some l → ∀ a ∈ l, a.Valid)

/-! ### Entries -/

/-- szOID_CTL -/
def oidCtl : List Nat := [1, 3, 6, 1, 4, 1, 311, 10, 1]

/-- FILETIME: the number of intervals of 100 ns since 1601, eight octets, least significant first. -/
def fileTimeOctets (seconds : Nat) : Bytes := packLE 8 (seconds * 10000000)

/-- What the publisher of a list says about a certificate, with the values of the attributes known to Windows.  Times are given in
seconds since 1601; a time that is present may be empty. -/
structure DSubject where
  identifier : Bytes
  usages : Option (List (List Nat)) := none
  friendlyName : Option String := none
  keyIdentifier : Option Bytes := none
  subjectNameMd5 : Option Bytes := none
  authRootSha256 : Option Bytes := none
  disallowedTime : Option (Option Nat) := none
  chainPolicies : Option (List (List Nat)) := none
  disallowedUsages : Option (List (List Nat)) := none
  notBeforeTime : Option (Option Nat) := none
  notBeforeUsages : Option (List (List Nat)) := none
  others : List DCtlAttr := []

/-- An attribute with one value. -/
def ctlAttr {α : Type} (n : Nat) (enc : α → Bytes) (x : Option α) : List DCtlAttr := (x.map (fun a => ⟨ctlOid n, [enc a]⟩)).toList

/-- The attributes of an entry: usages are lists of object identifiers, the name is UTF-16 text with a terminating NUL. -/
def DSubject.attributes (s : DSubject) : List DCtlAttr :=
  ctlAttr 9 encodeOids s.usages ++ ctlAttr 11 (fun n : String => utf16 (n.toList ++ [Char.ofNat 0])) s.friendlyName ++
  ctlAttr 20 id s.keyIdentifier ++ ctlAttr 29 id s.subjectNameMd5 ++ ctlAttr 98 id s.authRootSha256 ++
  ctlAttr 104 (fun t : Option Nat => (t.map fileTimeOctets).getD []) s.disallowedTime ++ ctlAttr 105 encodeOids s.chainPolicies ++
  ctlAttr 122 encodeOids s.disallowedUsages ++ ctlAttr 126 (fun t : Option Nat => (t.map fileTimeOctets).getD []) s.notBeforeTime ++
  ctlAttr 127 encodeOids s.notBeforeUsages ++ s.others

/-- The entry of the list. -/
def DSubject.entry (s : DSubject) : DTrusted := ⟨s.identifier, some s.attributes⟩

/-- The numbers of the attributes above. -/
def ctlNumbers : List Nat := [9, 11, 20, 29, 98, 104, 105, 122, 126, 127]

/-- The values can be encoded: possible object identifiers, not too long, names without NULs at the end, times not after 9999. -/
structure DSubject.Valid (s : DSubject) : Prop where
  usages : ∀ l ∈ [s.usages, s.chainPolicies, s.disallowedUsages, s.notBeforeUsages], ∀ u, l = some u →
    (∀ o ∈ u, ValidOid o) ∧ (encodeOids u).length < maxLen
  name : ∀ n, s.friendlyName = some n → n.toList.getLast? ≠ some (Char.ofNat 0)
  times : ∀ t ∈ [s.disallowedTime, s.notBeforeTime], ∀ n, t = some (some n) → n * 1000000 ≤ datetimeMax
  others : ∀ a ∈ s.others, ValidOid a.oid ∧ (∀ n ∈ ctlNumbers, a.oid ≠ ctlOid n) ∧ a.values ≠ []

/-- What is said about the certificate, as an object of the library. -/
def DSubject.value (s : DSubject) : CtlSubject where
  identifier := s.identifier
  ekus := s.usages.map (·.map (nameIn purposeNames))
  friendlyName := s.friendlyName
  keyIdentifier := s.keyIdentifier.getD []
  subjectNameMd5 := s.subjectNameMd5.getD []
  authRootSha256 := s.authRootSha256.getD []
  disallowedTime := s.disallowedTime.join.map (fun n => ((n * 1000000 : Nat) : Int))
  chainPolicies := s.chainPolicies.map (·.map (nameIn purposeNames))
  disallowedEkus := s.disallowedUsages.map (·.map (nameIn purposeNames))
  notBeforeTime := s.notBeforeTime.join.map (fun n => ((n * 1000000 : Nat) : Int))
  notBeforeEkus := s.notBeforeUsages.map (·.map (nameIn purposeNames))

/-! ### Files -/

/-- The SignedData `d` holds the list `c`, whose entries are about the given certificates, each of them once; `alg` is the algorithm
of their identifiers.  In PKCS #7 (version 1) what is signed are the contents octets of the structure, otherwise it is the
structure. -/
structure PublishesList (d : DData) (c : DCtl) (subjects : List DSubject) (alg : String) : Prop where
  digest : ∃ a n, d.digestAlgs = [a] ∧ IsDigest a.oid n
  type : d.contentType = oidCtl
  content : d.content = some (if d.version = 1 then c.contents else c.encode)
  valid : c.Valid
  algorithm : IsDigest c.algorithm.oid alg
  entries : c.subjects.getD [] = subjects.map DSubject.entry
  once : (subjects.map DSubject.identifier).Nodup
  subjects : ∀ s ∈ subjects, s.Valid

/-- `t` is this list. -/
structure IsList (ident : Bytes → Nat) (d : DData) (c : DCtl) (subjects : List DSubject) (alg : String) (t : TrustList) : Prop where
  certificates : t.core.certificates = d.certificates ident
  algorithm : t.ctl.algorithm = alg
  usage : t.usage = c.usage.map (nameIn purposeNames)
  listIdentifier : t.listIdentifier = c.listIdentifier
  sequenceNumber : t.sequenceNumber = c.sequenceNumber
  thisUpdate : t.thisUpdate = c.thisUpdate.micros
  nextUpdate : t.nextUpdate = c.nextUpdate.map DTime.micros
  subjects : t.subjects = subjects.map DSubject.value

end Signify.Spec
