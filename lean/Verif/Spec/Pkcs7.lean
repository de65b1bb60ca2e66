/-
Specification vocabulary for decoded signatures: which ASN.1 structures conform, and what is read from them.
-/
import Verif.Model.Pkcs7
import Verif.Spec.Names

set_option autoImplicit false

namespace Signify.Spec

open Signify

/-- The accepted digest algorithms, worst to best. -/
def digestAlgorithms : List String := ["md5", "sha1", "sha256", "sha384", "sha512"]

/-- An AlgorithmIdentifier that is accepted: one of the accepted algorithms, without parameters. -/
def AcceptedAlg (a : RawAlg) : Prop := a.algorithm ∈ digestAlgorithms ∧ a.params = false

instance (a : RawAlg) : Decidable (AcceptedAlg a) := by unfold AcceptedAlg; infer_instance

/-- The last attribute of a type (with repeated types the last one counts). -/
def lastAttr (l : List RawAttr) (t : String) : Option RawAttr := l.reverse.find? (fun a => a.type = t)

/-- The last unsigned attribute of a type. -/
def lastUAttr (l : List RawUAttr) (t : String) : Option RawUAttr := l.reverse.find? (fun a => a.type = t)

/-- No attribute of that type. -/
def NoAttr (us : List RawUAttr) (t : String) : Prop := ∀ a ∈ us, a.type ≠ t

/-- `vs` are the values of the (last) attribute of type `t`. -/
def AttrValues (us : List RawUAttr) (t : String) (vs : List RawUVal) : Prop := ∃ a, lastUAttr us t = some a ∧ a.values = vs

/-- The signed attributes of a signer, decoded. Absent attributes count as none. -/
def SignedAttrs (cd : Codec) (h : SIHead) (attrs : List RawAttr) : Prop :=
  (h.signedAttrs = none ∧ attrs = []) ∨ ∃ b, h.signedAttrs = some b ∧ cd.attrs b = .ok attrs

/-- The number denoted by bytes, most significant first. -/
def beNat (l : Bytes) : Nat := l.foldl (fun n b => n * 256 + b.toNat) 0

/-- `l` are the DER length octets of `n` (X.690, 10.1): one octet below 128, otherwise the number of octets with the high bit set
and the shortest big-endian representation. -/
def DerLength (n : Nat) (l : Bytes) : Prop :=
  (n < 128 ∧ l = [UInt8.ofNat n]) ∨
  (128 ≤ n ∧ ∃ ds : Bytes, l = UInt8.ofNat (128 + ds.length) :: ds ∧ beNat ds = n ∧ ds.head? ≠ some 0)

/-- `b` is the DER encoding of a SET with the given contents. -/
def DerSet (contents b : Bytes) : Prop := ∃ l, DerLength contents.length l ∧ b = 0x31 :: (l ++ contents)

/-- An optional attribute: if absent nothing is read, if present it has exactly one value, of the right type, which is read. -/
def ReadsAttr {α : Type} (attrs : List RawAttr) (t : String) (val : α → RawVal) (x : Option α) : Prop :=
  match lastAttr attrs t with
  | none => x = none
  | some a => ∃ y, a.values = [val y] ∧ x = some y

/-- `s` is what a conforming signer `h` with the decoded signed attributes `attrs` says. -/
structure ReadsSigner (cd : Codec) (required : List String) (expected : Option String) (h : SIHead) (attrs : List RawAttr)
    (s : Signer) : Prop where
  bySerial : h.sid ≠ "subject_key_identifier"
  decoded : SignedAttrs cd h attrs
  complete : ∀ t ∈ required, ∃ a ∈ attrs, a.type = t
  alg : AcceptedAlg h.digestAlg
  issuer : s.issuer = h.issuer
  serial : s.serial = h.serial
  digestAlg : s.digestAlg = h.digestAlg.algorithm
  digestEncAlg : s.digestEncAlg = h.sigAlg
  signature : s.encryptedDigest = h.signature
  encoded : DerSet (h.signedAttrs.getD []) s.encodedAuth
  auth : s.auth = attrDict attrs
  messageDigest : ReadsAttr attrs "message_digest" .octets s.messageDigest
  contentType : ReadsAttr attrs "content_type" .oid s.contentType
  expected : ∀ x, expected = some x → ∀ y, s.contentType = some y → y = x
  signingTime : ReadsAttr attrs "signing_time" .time s.signingTime

/-- `c` is what a conforming PKCS#9 countersigner says, with its own countersigner, and so on. -/
inductive ReadsCounter (cd : Codec) : RawSI → CounterInfo → Prop where
  | last {si : RawSI} {attrs : List RawAttr} {s : Signer}
      (signer : ReadsSigner cd ["content_type", "signing_time", "message_digest"] none si.head attrs s)
      (counter : NoAttr si.unsigned "counter_signature") : ReadsCounter cd si (.mk s none)
  | more {si si' : RawSI} {attrs : List RawAttr} {s : Signer} {c : CounterInfo}
      (signer : ReadsSigner cd ["content_type", "signing_time", "message_digest"] none si.head attrs s)
      (counter : AttrValues si.unsigned "counter_signature" [.signerInfo si'])
      (next : ReadsCounter cd si' c) : ReadsCounter cd si (.mk s (some c))

/-- The common part of conforming SignedData structures. -/
structure ReadsCore (contentType : String) (h : SDHead) (c : SDCore) : Prop where
  alg : ∃ a, h.digestAlgs = [a] ∧ AcceptedAlg a ∧ c.digestAlg = a.algorithm
  contentType : h.contentType = contentType ∧ c.contentType = contentType
  content : h.content = some c.content
  certificates : c.certificates = (h.certs.filter (fun x => x.choice = "certificate")).map RawCert.cert
  octets : c.octets = h.octets

/-- A `datetime.timedelta` holds that many microseconds: from minus 999999999 days to just less than 1000000000 days. -/
def Duration (us : Int) : Prop := -(999999999 * 86400000000) ≤ us ∧ us < 1000000000 * 86400000000

/-- An accuracy in seconds, milliseconds and microseconds is within what a `datetime.timedelta` holds: each part is, and so are the sum
of the first two and the sum of all. -/
def AccuracyFits (s m u : Int) : Prop :=
  Duration (s * 1000000) ∧ Duration (m * 1000) ∧ Duration u ∧ Duration (s * 1000000 + m * 1000) ∧
    Duration (s * 1000000 + m * 1000 + u)

/-- What a TSTInfo says. -/
structure ReadsTst (r : RawTst) (t : Tst) : Prop where
  version : r.version = "v1"
  alg : AcceptedAlg r.hashAlg
  hashAlg : t.hashAlg = r.hashAlg.algorithm
  digest : t.messageDigest = r.hashed
  time : t.signingTime = r.genTime
  policy : t.policy = r.policy
  serial : t.serial = r.serial
  authority : (r.tsa = none ∧ t.authority = none) ∨ ∃ g, r.tsa = some g ∧ g.choice = "directory_name" ∧ t.authority = some g.name
  accuracy : t.accuracy =
    match r.accuracy with
    | none => 0
    | some a => a.seconds.getD 0 * 1000000 + a.millis.getD 0 * 1000 + a.micros.getD 0
  fits : ∀ a, r.accuracy = some a → AccuracyFits (a.seconds.getD 0) (a.millis.getD 0) (a.micros.getD 0)

/-- What a conforming RFC3161 timestamp says. -/
structure ReadsRfc (cd : Codec) (sd : RawSD) (r : Rfc3161) : Prop where
  core : ReadsCore "tst_info" sd.head r.core
  tst : ∃ raw, cd.tst r.core.octets r.core.content = .ok raw ∧ ReadsTst raw r.tst
  signer : ∃ si attrs, sd.signers = [si] ∧ NoAttr si.unsigned "counter_signature" ∧
    ReadsSigner cd ["content_type", "message_digest"] (some "tst_info") si.head attrs r.signer

/-- The countersigner of a signature. -/
inductive ReadsCounterSigner (cd : Codec) (us : List RawUAttr) : Option CounterSigner → Prop where
  | none (h₁ : NoAttr us "counter_signature") (h₂ : NoAttr us "microsoft_time_stamp_token") : ReadsCounterSigner cd us none
  | pkcs9 {si : RawSI} {c : CounterInfo} (h₁ : AttrValues us "counter_signature" [.signerInfo si])
      (h₂ : NoAttr us "microsoft_time_stamp_token") (read : ReadsCounter cd si c) : ReadsCounterSigner cd us (some (.pkcs9 c))
  | rfc3161 {sd : RawSD} {r : Rfc3161} (h₁ : NoAttr us "counter_signature")
      (h₂ : AttrValues us "microsoft_time_stamp_token" [.contentInfo "signed_data" sd]) (read : ReadsRfc cd sd r) :
      ReadsCounterSigner cd us (some (.rfc3161 r))

/-- What an SpcIndirectDataContent says. -/
structure ReadsSpc (r : RawSpc) (s : SpcInfo) : Prop where
  type : r.type = "microsoft_spc_pe_image_data" ∧ s.contentType = r.type
  image : r.image = some (s.flags, s.publisher)
  alg : AcceptedAlg r.digestAlg
  digestAlg : s.digestAlg = r.digestAlg.algorithm
  digest : s.digest = r.digest

/-- The signatures nested in a signer: the contents of the values of its (last) `microsoft_nested_signature` attribute, all of
which are SignedData structures. -/
def NestedIn (us : List RawUAttr) (sds : List RawSD) : Prop :=
  (NoAttr us "microsoft_nested_signature" ∧ sds = []) ∨
  AttrValues us "microsoft_nested_signature" (sds.map (.contentInfo "signed_data"))

/-- `a` is what a conforming Authenticode signature says, including its nested signatures. -/
inductive ReadsASD (cd : Codec) : RawSD → ASD → Prop where
  | mk {sd : RawSD} {d : AuthData} {nested : List ASD} {si : RawSI} {attrs : List RawAttr} {spc : RawSpc} {sds : List RawSD}
      (core : ReadsCore "microsoft_spc_indirect_data_content" sd.head d.core)
      (noCrls : sd.head.crls = 0)
      (content : cd.spc d.core.octets d.core.content = .ok spc)
      (spc : ReadsSpc spc d.spc)
      (oneSigner : sd.signers = [si])
      (signer : ReadsSigner cd ["content_type", "message_digest"] (some "microsoft_spc_indirect_data_content") si.head attrs d.signer)
      (statement : ReadsAttr attrs "microsoft_spc_statement_type" .oids d.statementTypes)
      (opus : match lastAttr attrs "microsoft_spc_sp_opus_info" with
        | none => d.programName = none ∧ d.moreInfo = none ∧ d.publisherInfo = none
        | some a => a.values = [.opus d.programName d.moreInfo d.publisherInfo])
      (counter : ReadsCounterSigner cd si.unsigned d.counter)
      (nestedIn : NestedIn si.unsigned sds)
      (all : nested.length = sds.length)
      (rec : ∀ (i : Nat) (x : RawSD) (a : ASD), sds[i]? = some x → nested[i]? = some a → ReadsASD cd x a) :
      ReadsASD cd sd (.mk d nested)

/-! ### Structural validity, recursively -/

/-- A SignedData `x` occurs in `sd`: it is `sd`, or a nested signature of a signer of something that occurs in `sd`. -/
inductive Within : RawSD → RawSD → Prop where
  | self (sd : RawSD) : Within sd sd
  | nested {sd x y : RawSD} {si : RawSI} {sds : List RawSD} (h : Within sd x) (hs : si ∈ x.signers)
      (hn : NestedIn si.unsigned sds) (hy : y ∈ sds) : Within sd y

/-- The structural requirements on one SignedData. -/
structure StructurallyValid (cd : Codec) (sd : RawSD) : Prop where
  oneDigestAlg : ∃ a, sd.head.digestAlgs = [a] ∧ AcceptedAlg a
  contentType : sd.head.contentType = "microsoft_spc_indirect_data_content"
  peImage : ∃ b spc, sd.head.content = some b ∧ cd.spc sd.head.octets b = .ok spc ∧ spc.type = "microsoft_spc_pe_image_data" ∧
    spc.image ≠ none ∧ AcceptedAlg spc.digestAlg
  noCrls : sd.head.crls = 0
  oneSigner : ∃ si b attrs, sd.signers = [si] ∧ si.head.signedAttrs = some b ∧ cd.attrs b = .ok attrs ∧
    si.head.sid ≠ "subject_key_identifier" ∧ AcceptedAlg si.head.digestAlg ∧
    (∃ a d, lastAttr attrs "message_digest" = some a ∧ a.values = [.octets d]) ∧
    (∃ a, lastAttr attrs "content_type" = some a ∧ a.values = [.oid "microsoft_spc_indirect_data_content"])

/-! ### Non-conforming structures on which the constructors do not raise ParseErrors -/

/-- An attribute value does not have the ASN.1 type that goes with its attribute type (asn1crypto does not produce this). -/
def IllTyped (attrs : List RawAttr) : Prop :=
  ∃ a ∈ attrs, ∃ v ∈ a.values,
    (a.type = "message_digest" ∧ ∀ b, v ≠ .octets b) ∨ (a.type = "content_type" ∧ ∀ s, v ≠ .oid s) ∨
    (a.type = "signing_time" ∧ ∀ t, v ≠ .time t) ∨ (a.type = "microsoft_spc_statement_type" ∧ ∀ l, v ≠ .oids l) ∨
    (a.type = "microsoft_spc_sp_opus_info" ∧ ∀ x y z, v ≠ .opus x y z)

/-- Likewise for unsigned attributes. -/
def IllTypedU (us : List RawUAttr) : Prop :=
  ∃ a ∈ us, ∃ v ∈ a.values,
    (a.type = "counter_signature" ∧ ∀ si, v ≠ .signerInfo si) ∨
    ((a.type = "microsoft_nested_signature" ∨ a.type = "microsoft_time_stamp_token") ∧ ∀ t sd, v ≠ .contentInfo t sd)

/-- The decoding of the signed attributes fails, or asn1crypto's typing is violated. -/
def BadSigner (cd : Codec) (si : RawSI) : Prop :=
  (∃ b e, si.head.signedAttrs = some b ∧ cd.attrs b = .error e) ∨
  (∃ attrs, SignedAttrs cd si.head attrs ∧ IllTyped attrs) ∨ IllTypedU si.unsigned

/-- Undecodable parts inside a PKCS#9 countersigner. -/
inductive BadCounter (cd : Codec) : RawSI → Prop where
  | here {si : RawSI} (h : BadSigner cd si) : BadCounter cd si
  | there {si si' : RawSI} (h : AttrValues si.unsigned "counter_signature" [.signerInfo si']) (b : BadCounter cd si') :
      BadCounter cd si

/-- Defects common to SignedData structures: not exactly one digest algorithm, or no content. -/
def BadHead (h : SDHead) : Prop := h.digestAlgs.length ≠ 1 ∨ h.content = none

/-- Defects of an RFC3161 timestamp: in the head; undecodable; the authority is not a directory name; the
accuracy is more than a `datetime.timedelta` holds; a signer has a countersignature. -/
def BadRfc (cd : Codec) (sd : RawSD) : Prop :=
  BadHead sd.head ∨ (∃ si ∈ sd.signers, BadSigner cd si) ∨ (∃ b e, sd.head.content = some b ∧ cd.tst sd.head.octets b = .error e) ∨
  (∃ b t g, sd.head.content = some b ∧ cd.tst sd.head.octets b = .ok t ∧ t.tsa = some g ∧ g.choice ≠ "directory_name") ∨
  (∃ b t a, sd.head.content = some b ∧ cd.tst sd.head.octets b = .ok t ∧ t.accuracy = some a ∧
    ¬ AccuracyFits (a.seconds.getD 0) (a.millis.getD 0) (a.micros.getD 0)) ∨
  (∃ si ∈ sd.signers, ∃ a ∈ si.unsigned, a.type = "counter_signature")

/-- Defects of an Authenticode signature, its countersigners and nested signatures. -/
inductive Defect (cd : Codec) : RawSD → Prop where
  | head {sd : RawSD} (h : BadHead sd.head) : Defect cd sd
  | undecodable {sd : RawSD} {b : Bytes} {e : Exc} (h : sd.head.content = some b) (hb : cd.spc sd.head.octets b = .error e) : Defect cd sd
  | noImage {sd : RawSD} {b : Bytes} {spc : RawSpc} (h : sd.head.content = some b) (hb : cd.spc sd.head.octets b = .ok spc)
      (hi : spc.image = none) : Defect cd sd
  | signer {sd : RawSD} {si : RawSI} (h : si ∈ sd.signers) (hb : BadSigner cd si) : Defect cd sd
  | counter {sd : RawSD} {si si' : RawSI} (h : si ∈ sd.signers)
      (hc : AttrValues si.unsigned "counter_signature" [.signerInfo si']) (hb : BadCounter cd si') : Defect cd sd
  | timestamp {sd x : RawSD} {si : RawSI} (h : si ∈ sd.signers)
      (hc : AttrValues si.unsigned "microsoft_time_stamp_token" [.contentInfo "signed_data" x]) (hb : BadRfc cd x) : Defect cd sd
  | nested {sd x : RawSD} {si : RawSI} {vs : List RawUVal} (h : si ∈ sd.signers)
      (hn : AttrValues si.unsigned "microsoft_nested_signature" vs) (hx : .contentInfo "signed_data" x ∈ vs) (hb : Defect cd x) :
      Defect cd sd

end Signify.Spec
