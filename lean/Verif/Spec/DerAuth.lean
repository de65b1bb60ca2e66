/-
What an Authenticode signature written in DER says: time-stamp tokens (RFC 3161), and signatures as a whole.
-/
import Verif.Spec.DerCms
import Verif.Spec.Pkcs7

set_option autoImplicit false

namespace Signify.Spec

open Signify

/-! ### Time-stamp tokens -/

/-- Accuracy -/
structure DAccuracy where
  seconds : Option Int
  millis : Option Int
  micros : Option Int

/-- Accuracy ::= SEQUENCE { seconds INTEGER OPTIONAL, millis [0] IMPLICIT INTEGER OPTIONAL, micros [1] IMPLICIT INTEGER OPTIONAL } -/
def DAccuracy.encode (a : DAccuracy) : Bytes :=
  derSeq [derOpt derInt a.seconds, derOpt (fun n => tlv 0x80 (intOctets n)) a.millis, derOpt (fun n => tlv 0x81 (intOctets n)) a.micros]

/-- The accuracy in microseconds. -/
def DAccuracy.value (a : DAccuracy) : Int := a.seconds.getD 0 * 1000000 + a.millis.getD 0 * 1000 + a.micros.getD 0

/-- TSTInfo.  `ordering` is a BOOLEAN DEFAULT FALSE; `extensions` are not looked into. -/
structure DTst where
  version : Int
  policy : List Nat
  hashAlg : DAlg
  hashed : Bytes
  serial : Int
  time : DTime
  /-- decimals of the second -/
  fraction : List Nat
  accuracy : Option DAccuracy
  ordering : Bool
  nonce : Option Int
  /-- the authority, a directoryName [4] EXPLICIT Name -/
  tsa : Option DName
  extensions : Option (List DAny)

/-- TSTInfo ::= SEQUENCE { version INTEGER, policy OBJECT IDENTIFIER, messageImprint SEQUENCE { hashAlgorithm AlgorithmIdentifier,
hashedMessage OCTET STRING }, serialNumber INTEGER, genTime GeneralizedTime, accuracy Accuracy OPTIONAL, ordering BOOLEAN DEFAULT
FALSE, nonce INTEGER OPTIONAL, tsa [0] EXPLICIT GeneralName OPTIONAL, extensions [1] IMPLICIT Extensions OPTIONAL } -/
def DTst.encode (t : DTst) : Bytes :=
  derSeq [derInt t.version, derOid t.policy, derSeq [t.hashAlg.encode, derOctets t.hashed], derInt t.serial,
    t.time.encodeGen t.fraction, derOpt DAccuracy.encode t.accuracy, derCritical t.ordering, derOpt derInt t.nonce,
    derOpt (fun n : DName => tlv 0xA0 (tlv 0xA4 n.encode)) t.tsa,
    derOpt (fun l : List DAny => tlv 0xA1 (l.map DAny.encode).flatten) t.extensions]

/-- The token can be encoded; the time is given to at most microseconds. -/
def DTst.Valid (t : DTst) : Prop :=
  ValidOid t.policy ∧ ValidOid t.hashAlg.oid ∧ t.time.Valid ∧ t.fraction.length ≤ 6 ∧ (∀ d ∈ t.fraction, d ≤ 9) ∧
  (∀ n, t.tsa = some n → n.Valid) ∧ (∀ l, t.extensions = some l → ∀ a ∈ l, a.Valid)

/-- The digest algorithm with the given OID is the accepted one with the given name. -/
def IsDigest (oid : List Nat) (name : String) : Prop := (name, oid) ∈ algOids

/-- What a time-stamp token says. -/
structure TstSays (d : DTst) (t : Tst) : Prop where
  version : d.version = 1
  policy : t.policy = dotted d.policy
  hashAlg : IsDigest d.hashAlg.oid t.hashAlg
  digest : t.messageDigest = d.hashed
  serial : t.serial = d.serial
  time : t.signingTime = d.time.micros + fracVal 5 d.fraction
  accuracy : t.accuracy = (d.accuracy.map DAccuracy.value).getD 0
  fits : ∀ a, d.accuracy = some a → AccuracyFits (a.seconds.getD 0) (a.millis.getD 0) (a.micros.getD 0)
  authority : t.authority = d.tsa.map DName.value

/-! ### Signers -/

/-- id-ct-TSTInfo -/
def oidTstInfo : List Nat := [1, 2, 840, 113549, 1, 9, 16, 1, 4]

/-- SPC_INDIRECT_DATA_OBJID -/
def oidIndirectData : List Nat := [1, 3, 6, 1, 4, 1, 311, 2, 1, 4]

/-- An optional attribute with one value: `mk v` is one of the attributes and `val v` is read, or there is none and none is read. -/
def OptAttr {α β : Type} (l : List DAttr) (mk : List α → DAttr) (val : α → β) (x : Option β) : Prop :=
  (∃ v, mk [v] ∈ l ∧ x = some (val v)) ∨ ((∀ vs, mk vs ∉ l) ∧ x = none)

/-- `s` is what the signer `d` with the signed attributes `l` says; if `type` is given it is its content type. -/
structure SignerSays (type : Option (List Nat)) (d : DSigner) (l : List DAttr) (s : Signer) : Prop where
  attrs : d.attrs = some l
  once : (l.map DAttr.type).Nodup
  sid : ∃ n, d.sid = .issuerSerial n s.serial ∧ s.issuer = n.value
  digestAlg : IsDigest d.digestAlg.oid s.digestAlg
  digestEncAlg : s.digestEncAlg = nameIn signatureNames d.sigAlg.oid
  signature : s.encryptedDigest = d.signature
  encoded : s.encodedAuth = tlv 0x31 (attrsContents l)
  auth : s.auth = attrDict (l.map DAttr.raw)
  messageDigest : ∃ b, .messageDigest [b] ∈ l ∧ s.messageDigest = some b
  contentType : ∃ o, .contentType [o] ∈ l ∧ s.contentType = some (nameIn contentNames o) ∧ ∀ t, type = some t → o = t
  signingTime : OptAttr l .signingTime DTime.micros s.signingTime

/-- The type of an attribute that is not signed. -/
def DUAttr.type : DUAttr → List Nat
  | .counter _ => [1, 2, 840, 113549, 1, 9, 6]
  | .nested _ => [1, 3, 6, 1, 4, 1, 311, 2, 4, 1]
  | .timestamp _ => [1, 3, 6, 1, 4, 1, 311, 3, 3, 1]
  | .other t _ => t

/-- The attributes that are not signed. -/
def DSI.unsigned : DSI → List DUAttr
  | .mk _ us => us.getD []

/-- The signer. -/
def DSI.signer : DSI → DSigner
  | .mk s _ => s

/-- Every type of attribute occurs once. -/
def OnceU (us : List DUAttr) : Prop := (us.map DUAttr.type).Nodup

/-- `c` is what a countersigner says, with its own countersigner, and so on.  A countersigner has a signing time. -/
inductive CounterSays : DSI → CounterInfo → Prop where
  | last {si : DSI} {l : List DAttr} {s : Signer} (signer : SignerSays none si.signer l s) (time : s.signingTime ≠ none)
      (once : OnceU si.unsigned) (counter : ∀ vs, .counter vs ∉ si.unsigned) : CounterSays si (.mk s none)
  | more {si si' : DSI} {l : List DAttr} {s : Signer} {c : CounterInfo} (signer : SignerSays none si.signer l s)
      (time : s.signingTime ≠ none) (once : OnceU si.unsigned) (counter : .counter [si'] ∈ si.unsigned)
      (next : CounterSays si' c) : CounterSays si (.mk s (some c))

/-! ### Signatures -/

/-- The certificates of a SignedData, in order. -/
def DData.certificates (ident : Bytes → Nat) (d : DData) : List Cert :=
  (d.certs.getD []).filterMap (fun c => match c with
    | .cert c => some (c.cert ident)
    | .other _ => none)

/-- The common part of what a SignedData says. -/
structure CoreSays (ident : Bytes → Nat) (type : List Nat) (d : DData) (c : SDCore) : Prop where
  alg : ∃ a, d.digestAlgs = [a] ∧ IsDigest a.oid c.digestAlg
  isType : d.contentType = type
  typeName : c.contentType = nameIn contentNames type
  content : d.content = some c.content
  certificates : c.certificates = d.certificates ident
  octets : c.octets = decide (d.version ≠ 1)

/-- What an RFC 3161 time stamp says. -/
structure RfcSays (ident : Bytes → Nat) (d : DData) (si : DSI) (t : DTst) (r : Rfc3161) : Prop where
  core : CoreSays ident oidTstInfo d r.core
  version : d.version ≠ 1
  content : r.core.content = t.encode
  valid : t.Valid
  tst : TstSays t r.tst
  signer : ∃ l, SignerSays (some oidTstInfo) si.signer l r.signer
  counter : ∀ vs, .counter vs ∉ si.unsigned

/-- The countersigner: none, or a PKCS #9 countersigner, or an RFC 3161 time stamp. -/
inductive CounterSignerSays (ident : Bytes → Nat) (us : List DUAttr) : Option CounterSigner → Prop where
  | none (h₁ : ∀ vs, .counter vs ∉ us) (h₂ : ∀ vs, .timestamp vs ∉ us) : CounterSignerSays ident us none
  | pkcs9 {si : DSI} {c : CounterInfo} (h₁ : .counter [si] ∈ us) (h₂ : ∀ vs, .timestamp vs ∉ us) (says : CounterSays si c) :
      CounterSignerSays ident us (some (.pkcs9 c))
  | rfc3161 {d : DData} {si : DSI} {t : DTst} {r : Rfc3161} (h₁ : ∀ vs, .counter vs ∉ us) (h₂ : .timestamp [.mk d [si]] ∈ us)
      (says : RfcSays ident d si t r) : CounterSignerSays ident us (some (.rfc3161 r))

/-- What is signed, with its description of an image. -/
structure SpcSays (x : DIndirect) (s : SpcInfo) : Prop where
  type : x.type = oidPeImage
  typeName : s.contentType = "microsoft_spc_pe_image_data"
  image : ∃ i, x.image = some i ∧ s.flags = i.flagSet ∧ s.publisher = i.file.map DLink.value
  digestAlg : IsDigest x.digestAlg.oid s.digestAlg
  digest : s.digest = x.digest

/-- The texts can be encoded. -/
def DIndirect.Valid (x : DIndirect) : Prop := ∀ i, x.image = some i → i.Valid

/-- `a` is what an Authenticode signature says, including the nested signatures.  In PKCS #7 (version 1) what is signed are the
contents octets of the structure, otherwise it is the structure. -/
inductive SignatureSays (ident : Bytes → Nat) : DSD → ASD → Prop where
  | mk {d : DData} {si : DSI} {x : DIndirect} {l : List DAttr} {nested : List ASD} {a : AuthData} {sds : List DSD}
      (core : CoreSays ident oidIndirectData d a.core)
      (noCrls : d.crls.getD [] = [])
      (valid : x.Valid)
      (content : a.core.content = if d.version = 1 then x.contents else x.encode)
      (spc : SpcSays x a.spc)
      (signer : SignerSays (some oidIndirectData) si.signer l a.signer)
      (statement : OptAttr l .statementType (fun l => l.map (nameIn statementNames)) a.statementTypes)
      (opus : (∃ o : DOpus, .opus [o] ∈ l ∧ a.programName = o.programName.map DString.text ∧ a.moreInfo = o.moreInfo.map DLink.value ∧
          a.publisherInfo = o.publisherInfo.map DLink.value) ∨
        ((∀ vs, .opus vs ∉ l) ∧ a.programName = none ∧ a.moreInfo = none ∧ a.publisherInfo = none))
      (once : OnceU si.unsigned)
      (counter : CounterSignerSays ident si.unsigned a.counter)
      (nestedIn : .nested sds ∈ si.unsigned ∨ ((∀ vs, .nested vs ∉ si.unsigned) ∧ sds = []))
      (all : nested.length = sds.length)
      (rec : ∀ (i : Nat) (x : DSD) (y : ASD), sds[i]? = some x → nested[i]? = some y → SignatureSays ident x y) :
      SignatureSays ident (.mk d [si]) (.mk a nested)

end Signify.Spec
