/-
Model of the parsing of signatures: `signify/pkcs7/signerinfo.py`, `signify/pkcs7/signeddata.py` and
`signify/authenticode/structures.py` (the `_parse` methods), `signify/asn1/helpers.py`.

ASN.1 decoding is done by asn1crypto.  A decoded structure is a `Raw...` value; decoding from bytes is a parameter (`Codec`)
about which nothing is assumed.  Simplification: asn1crypto decodes lazily, the model decodes a structure when it is first
used.
-/
import Verif.Model.Context

set_option autoImplicit false

namespace Signify

/-- An AlgorithmIdentifier: name of the algorithm and truth value of `["parameters"].native`. -/
structure RawAlg where
  algorithm : String
  params : Bool
deriving DecidableEq, Repr

/-- `.native` of an `SpcLink` (spc.py:98-116): a text (url or file), or the dictionary of a moniker. -/
inductive LinkVal where
  | text (s : String)
  | moniker (classId serializedData : Bytes)
deriving DecidableEq, Repr

/-- An element of the set `.native` of a named bit string: the name of the bit, or its number if it has none. -/
inductive Flag where
  | name (s : String)
  | bit (n : Nat)
deriving DecidableEq, Repr

/-- A value of a signed attribute, by the type that asn1crypto's specs (with those registered in `signify/asn1/spc.py`)
select for the type of the attribute. -/
inductive RawVal where
  /-- OctetString (message_digest) -/
  | octets (b : Bytes)
  /-- ContentType (content_type), as `.native` -/
  | oid (s : String)
  /-- Time (signing_time), as `.native`, in microseconds since 1601 -/
  | time (t : Int)
  /-- SpcStatementType (microsoft_spc_statement_type) -/
  | oids (l : List String)
  /-- SpcSpOpusInfo (microsoft_spc_sp_opus_info): program_name, more_info, publisher_info -/
  | opus (name : Option String) (info publisher : Option LinkVal)
  /-- anything else -/
  | other (b : Bytes)
deriving DecidableEq, Repr

/-- A CMSAttribute. -/
structure RawAttr where
  type : String
  values : List RawVal
deriving DecidableEq, Repr

/-- A `CertificateChoices`: the name of the choice and (if it is "certificate") the parsed certificate. -/
structure RawCert where
  choice : String
  cert : Cert
deriving DecidableEq, Repr

/-- The fields of a `SignerInfo` other than the unsigned attributes.  `signedAttrs` is the contents of the encoded signed
attributes (`.contents`), if present. -/
structure SIHead where
  /-- `sid.name` -/
  sid : String
  issuer : Name
  serial : Int
  signedAttrs : Option Bytes
  digestAlg : RawAlg
  sigAlg : String
  signature : Bytes
deriving DecidableEq, Repr

/-- The fields of a `SignedData` other than the signer infos.  `content` is the byte string hashed by `content_digest`
(signeddata.py:149-165), if the content is present. -/
structure SDHead where
  digestAlgs : List RawAlg
  contentType : String
  content : Option Bytes
  certs : List RawCert
  /-- number of elements of `crls` -/
  crls : Nat
  /-- whether the content is wrapped in an OCTET STRING (CMS, any version but v1) or not (PKCS #7, v1) -/
  octets : Bool := false
deriving DecidableEq, Repr

mutual
/-- A decoded `SignerInfo`. -/
inductive RawSI where
  | mk (head : SIHead) (unsigned : List RawUAttr)
/-- A decoded unsigned attribute. -/
inductive RawUAttr where
  | mk (type : String) (values : List RawUVal)
/-- A value of an unsigned attribute: a SignerInfo (counter_signature), a ContentInfo (microsoft_nested_signature,
microsoft_time_stamp_token), or anything else. -/
inductive RawUVal where
  | signerInfo (si : RawSI)
  | contentInfo (contentType : String) (sd : RawSD)
  | other (b : Bytes)
/-- A decoded `SignedData`. -/
inductive RawSD where
  | mk (head : SDHead) (signers : List RawSI)
end

namespace RawSI
/-- the fields -/
def head : RawSI → SIHead | .mk h _ => h
/-- the unsigned attributes -/
def unsigned : RawSI → List RawUAttr | .mk _ u => u
end RawSI

namespace RawUAttr
/-- `attr["type"].native` -/
def type : RawUAttr → String | .mk t _ => t
/-- `list(attr["values"])` -/
def values : RawUAttr → List RawUVal | .mk _ v => v
end RawUAttr

namespace RawSD
/-- the fields -/
def head : RawSD → SDHead | .mk h _ => h
/-- the signer infos -/
def signers : RawSD → List RawSI | .mk _ s => s
end RawSD

/-- A decoded `SpcIndirectDataContent`; structures.py:358-373.  `image`: the flags and file (if present) of the `SpcPeImageData`, if
the value is present. -/
structure RawSpc where
  type : String
  image : Option (List Flag × Option LinkVal)
  digestAlg : RawAlg
  digest : Bytes
deriving DecidableEq, Repr

/-- A decoded `Accuracy`. -/
structure RawAccuracy where
  seconds : Option Int
  millis : Option Int
  micros : Option Int
deriving DecidableEq, Repr

/-- A decoded `TSTInfo`; structures.py:665-680. -/
structure RawTst where
  version : String
  policy : String
  hashAlg : RawAlg
  hashed : Bytes
  serial : Int
  genTime : Int
  accuracy : Option RawAccuracy
  tsa : Option GeneralName
deriving DecidableEq, Repr

/-- Decoding by asn1crypto. -/
structure Codec where
  /-- the signed attributes with the given contents -/
  attrs : Bytes → Except Exc (List RawAttr)
  /-- the `SpcIndirectDataContent` held by an OCTET STRING with the given contents (`true`), or with the given contents itself -/
  spc : Bool → Bytes → Except Exc RawSpc
  /-- likewise the `TSTInfo` -/
  tst : Bool → Bytes → Except Exc RawTst
  /-- `cms.ContentInfo.load(data)`: content type and content -/
  envelope : Bytes → Except Exc (String × RawSD)

/-! ### Parsed structures -/

/-- The attributes of a `SignerInfo` object, without countersigner; signerinfo.py:110-120. -/
structure Signer where
  issuer : Name
  serial : Int
  /-- `authenticated_attributes` -/
  auth : Dict String (List RawVal)
  /-- `_encoded_authenticated_attributes` -/
  encodedAuth : Bytes
  digestEncAlg : String
  encryptedDigest : Bytes
  digestAlg : String
  messageDigest : Option Bytes
  contentType : Option String
  signingTime : Option Int
deriving DecidableEq, Repr

/-- A `CounterSignerInfo` object with its own countersigner; signerinfo.py:403-415. -/
inductive CounterInfo where
  | mk (signer : Signer) (counter : Option CounterInfo)

/-- the signer -/
def CounterInfo.signer : CounterInfo → Signer | .mk s _ => s

/-- The attributes of a `SignedData` object; signeddata.py:63-68. -/
structure SDCore where
  digestAlg : String
  contentType : String
  content : Bytes
  certificates : List Cert
  /-- whether the content is wrapped in an OCTET STRING -/
  octets : Bool := false
deriving DecidableEq, Repr

/-- A `TSTInfo` object; structures.py:649-655.  The accuracy is in microseconds. -/
structure Tst where
  policy : String
  hashAlg : String
  messageDigest : Bytes
  serial : Int
  signingTime : Int
  accuracy : Int
  authority : Option Name
deriving DecidableEq, Repr

/-- An `RFC3161SignedData` object; structures.py:683-721. -/
structure Rfc3161 where
  core : SDCore
  tst : Tst
  signer : Signer
deriving DecidableEq, Repr

/-- The countersigner of an `AuthenticodeSignerInfo`; structures.py:190-194. -/
inductive CounterSigner where
  | pkcs9 (c : CounterInfo)
  | rfc3161 (r : Rfc3161)

/-- An `SpcInfo` object; structures.py:345-352. -/
structure SpcInfo where
  contentType : String
  flags : List Flag
  publisher : Option LinkVal
  digestAlg : String
  digest : Bytes
deriving DecidableEq, Repr

/-- The attributes of an `AuthenticodeSignedData` and its `signer_info`, without the nested signatures;
structures.py:148-198, 376-394. -/
structure AuthData where
  core : SDCore
  spc : SpcInfo
  signer : Signer
  statementTypes : Option (List String)
  programName : Option String
  moreInfo : Option LinkVal
  publisherInfo : Option LinkVal
  counter : Option CounterSigner

/-- An `AuthenticodeSignedData` object with `signer_info.nested_signed_datas`. -/
inductive ASD where
  | mk (d : AuthData) (nested : List ASD)

/-- the attributes -/
def ASD.d : ASD → AuthData | .mk d _ => d
/-- `signer_info.nested_signed_datas` -/
def ASD.nested : ASD → List ASD | .mk _ n => n

/-! ### Attributes -/

/-- The dictionary of attributes; signerinfo.py:249. -/
def attrDict (l : List RawAttr) : Dict String (List RawVal) := Dict.ofPairs (l.map (fun a => (a.type, a.values)))

/-- The dictionary of unsigned attributes; signerinfo.py:159-161, 249. -/
def uattrDict (l : List RawUAttr) : Dict String (List RawUVal) := Dict.ofPairs (l.map (fun a => (a.type, a.values)))

/-- Big-endian bytes of a number, without leading zeros (asn1crypto `int_to_bytes`), least significant first. -/
def lenDigits : Nat → Nat → Bytes
  | 0, _ => []
  | fuel + 1, n => if n = 0 then [] else UInt8.ofNat (n % 256) :: lenDigits fuel (n / 256)

/-- The DER length octets written by asn1crypto's `_dump_header`. -/
def derLength (n : Nat) : Bytes :=
  if n ≤ 127 then [UInt8.ofNat n]
  else
    let ds := (lenDigits n n).reverse
    UInt8.ofNat (0x80 + ds.length) :: ds

/-- `_encode_attributes`: the contents with the tag of a SET; signerinfo.py:261-270. -/
def encodeAttrs (contents : Bytes) : Bytes := 0x31 :: derLength contents.length ++ contents

/-- `SignerInfoParseError(msg)` -/
def siErr {α : Type} (msg : String) : Except Exc α := .error ⟨.signerInfoParseError, msg⟩

/-- `AuthenticodeParseError(msg)` -/
def apErr {α : Type} (msg : String) : Except Exc α := .error ⟨.authenticodeParseError, msg⟩

/-- A value of the wrong ASN.1 type (excluded by asn1crypto's specs) has no usable `.native`. -/
def badValue {α : Type} : Except Exc α := .error ⟨.foreign, "unexpected ASN.1 type"⟩

/-- The only value of the attribute `t`, `None` if there is no such attribute, the exception `err` if it has not exactly one
value; signerinfo.py:172-213, structures.py:203-235. -/
def singleValue (d : Dict String (List RawVal)) (t : String) (err : ExcClass) : Except Exc (Option RawVal) :=
  match d.get? t with
  | none => .ok none
  | some [v] => .ok (some v)
  | some _ => .error ⟨err, "Only one value expected"⟩

/-- `message_digest`; signerinfo.py:170-180. -/
def messageDigestOf (d : Dict String (List RawVal)) : Except Exc (Option Bytes) := do
  match ← singleValue d "message_digest" .signerInfoParseError with
  | none => .ok none
  | some (.octets b) => .ok (some b)
  | some _ => badValue

/-- `content_type`; signerinfo.py:182-201. -/
def contentTypeOf (d : Dict String (List RawVal)) (expected : Option String) : Except Exc (Option String) := do
  match ← singleValue d "content_type" .signerInfoParseError with
  | none => .ok none
  | some (.oid s) =>
    if expected.isSome && expected != some s then siErr "Unexpected content type for SignerInfo"
    else .ok (some s)
  | some _ => badValue

/-- `signing_time`; signerinfo.py:203-212. -/
def signingTimeOf (d : Dict String (List RawVal)) : Except Exc (Option Int) := do
  match ← singleValue d "signing_time" .signerInfoParseError with
  | none => .ok none
  | some (.time t) => .ok (some t)
  | some _ => badValue

/-- `SignerInfo._parse` up to the countersigner; signerinfo.py:143-212.  `required`, `expected` are
`_required_authenticated_attributes` and `_expected_content_type`. -/
def parseSigner (cd : Codec) (required : List String) (expected : Option String) (h : SIHead) : Except Exc Signer := do
  if h.sid = "subject_key_identifier" then                                    -- 144-147
    siErr "Cannot handle SignerInfo.sid with a subject_key_identifier"
  else
    let attrs ← (match h.signedAttrs with                                     -- 151-154
      | none => .ok []
      | some contents => cd.attrs contents)
    let auth := attrDict attrs
    if !(required.all (fun t => (auth.get? t).isSome)) then                   -- 251-256
      siErr "Not all required attributes found."
    else
      let digestAlg ← getDigestAlgorithm h.digestAlg.algorithm h.digestAlg.params acceptedDigests  -- 166-168
      let messageDigest ← messageDigestOf auth
      let contentType ← contentTypeOf auth expected
      let signingTime ← signingTimeOf auth
      .ok { issuer := h.issuer, serial := h.serial, auth := auth
            encodedAuth := encodeAttrs (h.signedAttrs.getD [])                -- 155-157
            digestEncAlg := h.sigAlg, encryptedDigest := h.signature, digestAlg := digestAlg
            messageDigest := messageDigest, contentType := contentType, signingTime := signingTime }

/-- The countersigner part of `SignerInfo._parse`; signerinfo.py:214-228.  `parse` is the constructor of the countersigner
class. -/
def parseCounter {α : Type} (parse : RawSI → Except Exc α) (us : List RawUAttr) : Except Exc (Option α) :=
  match (uattrDict us).get? "counter_signature" with
  | none => .ok none
  | some [.signerInfo si] => do
    let c ← parse si
    .ok (some c)
  | some [_] => badValue
  | some _ => siErr "Only one CountersignInfo expected in SignerInfo.unauthenticatedAttributes"

/-- `SignerInfo._required_authenticated_attributes`; signerinfo.py:123-126. -/
def requiredPlain : List String := ["content_type", "message_digest"]

/-- `CounterSignerInfo._required_authenticated_attributes`; signerinfo.py:410-414. -/
def requiredCounter : List String := ["content_type", "signing_time", "message_digest"]

mutual
/-- Nesting depth. -/
def RawSI.depth : RawSI → Nat
  | .mk _ us => depthAttrs us + 1
/-- Nesting depth. -/
def depthAttrs : List RawUAttr → Nat
  | [] => 0
  | a :: l => max a.depth (depthAttrs l)
/-- Nesting depth. -/
def RawUAttr.depth : RawUAttr → Nat
  | .mk _ vs => depthVals vs
/-- Nesting depth. -/
def depthVals : List RawUVal → Nat
  | [] => 0
  | v :: l => max v.depth (depthVals l)
/-- Nesting depth. -/
def RawUVal.depth : RawUVal → Nat
  | .signerInfo si => si.depth
  | .contentInfo _ sd => sd.depth
  | .other _ => 0
/-- Nesting depth. -/
def RawSD.depth : RawSD → Nat
  | .mk _ ss => depthSIs ss + 1
/-- Nesting depth. -/
def depthSIs : List RawSI → Nat
  | [] => 0
  | s :: l => max s.depth (depthSIs l)
end

/-- `CounterSignerInfo(data)`, with the recursive call as a parameter; signerinfo.py:129-228. -/
def counterInfoStep (cd : Codec) (rec : RawSI → Except Exc CounterInfo) (si : RawSI) : Except Exc CounterInfo := do
  let s ← parseSigner cd requiredCounter none si.head
  let c ← parseCounter rec si.unsigned
  .ok (.mk s c)

/-- `CounterSignerInfo(data)` to a given recursion depth. -/
def parseCounterInfoN (cd : Codec) : Nat → RawSI → Except Exc CounterInfo
  | 0, _ => .error ⟨.runtimeError, "recursion depth"⟩
  | n + 1, si => counterInfoStep cd (parseCounterInfoN cd n) si

/-- `CounterSignerInfo(data)`.  The depth suffices: `parseCounterInfo_eq`.  Simplification: Python's own recursion limit is not
modelled here, but in `Verif/Model/Strikes.lean`. -/
def parseCounterInfo (cd : Codec) (si : RawSI) : Except Exc CounterInfo := parseCounterInfoN cd si.depth si

/-- `RFC3161SignerInfo(data)`: no countersigner class, the assertion fails; signerinfo.py:223-225, structures.py:604-610. -/
def parseRfcSigner (cd : Codec) (si : RawSI) : Except Exc Signer := do
  let s ← parseSigner cd requiredPlain (some "tst_info") si.head
  let _ ← parseCounter (fun _ => (.error ⟨.assertionError, ""⟩ : Except Exc Unit)) si.unsigned
  .ok s

/-- A list comprehension whose expression may raise. -/
def parseAll {α β : Type} (f : α → Except Exc β) : List α → Except Exc (List β)
  | [] => .ok []
  | a :: l => do
    let b ← f a
    let bs ← parseAll f l
    .ok (b :: bs)

/-- `SignedData._parse` up to the certificates; signeddata.py:99-147.  The error message for the wrong number of digest
algorithms uses a key that does not exist (line 110), so that the KeyError wins.  If the content is absent, the content of the
result is empty (it is not used then). -/
def parseSDCore (expected : String) (h : SDHead) : Except Exc SDCore := do
  let alg ← (match h.digestAlgs with                                          -- 107-114
    | [a] => getDigestAlgorithm a.algorithm a.params acceptedDigests
    | _ => .error ⟨.keyError, "digestAlgorithms"⟩)
  if h.contentType ≠ expected then                                            -- 116-122
    .error ⟨.parseError, "SignedData.contentInfo contains an unexpected content type"⟩
  else
    .ok { digestAlg := alg, contentType := h.contentType, content := h.content.getD []
          certificates := (h.certs.filter (fun c => c.choice == "certificate")).map RawCert.cert
          octets := h.octets }  -- 131-139

/-- The content of a SignedData, decoded; absent content is asn1crypto's `VOID`, which cannot be indexed. -/
def decodeContent {α : Type} (decode : Bool → Bytes → Except Exc α) (h : SDHead) : Except Exc α :=
  match h.content with
  | none => .error ⟨.typeError, "'NoValue' object is not subscriptable"⟩
  | some b => decode h.octets b

/-- A `datetime.timedelta` of that many microseconds, as made by the constructor and by `+=` in helpers.py:14-18.  The library holds
at most 999999999 whole days (rounded down), in either direction.  Simplified: one text for all its messages. -/
def mkTimedelta (us : Int) : Except Exc Int :=
  if us.fdiv 86400000000 < -999999999 ∨ 999999999 < us.fdiv 86400000000 then
    .error ⟨.overflowError, "must have magnitude <= 999999999"⟩
  else .ok us

/-- `if part: delta += timedelta(unit=part)`; helpers.py:13-18. -/
def addPart (delta : Int) (v : Option Int) (unit : Int) : Except Exc Int :=
  match v with
  | none => .ok delta
  | some x =>
    if x = 0 then .ok delta
    else do
      let d ← mkTimedelta (x * unit)
      mkTimedelta (delta + d)

/-- `accuracy_to_python`, in microseconds; helpers.py:8-19. -/
def accuracyToPython (a : Option RawAccuracy) : Except Exc Int :=
  match a with
  | none => .ok 0
  | some a => do
    let d ← addPart 0 a.seconds 1000000
    let d ← addPart d a.millis 1000
    addPart d a.micros 1

/-- `CertificateName(self.data["tsa"])`; structures.py:680. -/
def parseTsa (g : Option GeneralName) : Except Exc (Option Name) :=
  match g with
  | none => .ok none
  | some g => do
    let n ← Name.ofGeneral g
    .ok (some n)

/-- `TSTInfo(data)`; structures.py:657-680. -/
def parseTst (r : RawTst) : Except Exc Tst := do
  if r.version ≠ "v1" then apErr "TSTInfo.version must be v1"
  else
    let alg ← getDigestAlgorithm r.hashAlg.algorithm r.hashAlg.params acceptedDigests
    let accuracy ← accuracyToPython r.accuracy
    let authority ← parseTsa r.tsa
    .ok { policy := r.policy, hashAlg := alg, messageDigest := r.hashed, serial := r.serial, signingTime := r.genTime
          accuracy := accuracy, authority := authority }

/-- `RFC3161SignedData(data)`; structures.py:701-714. -/
def parseRfc3161 (cd : Codec) (sd : RawSD) : Except Exc Rfc3161 := do
  let core ← parseSDCore "tst_info" sd.head
  let signers ← parseAll (parseRfcSigner cd) sd.signers
  let raw ← decodeContent cd.tst sd.head
  let tst ← parseTst raw
  match signers with
  | [s] => .ok { core := core, tst := tst, signer := s }
  | _ => apErr "RFC3161 SignedData.signerInfos must contain exactly 1 signer"

/-- `SpcInfo(data)`; structures.py:354-373. -/
def parseSpc (r : RawSpc) : Except Exc SpcInfo := do
  if r.type ≠ "microsoft_spc_pe_image_data" then apErr "SpcInfo does not contain SpcPeImageData"
  else
    match r.image with
    | none => .error ⟨.typeError, "'NoValue' object is not subscriptable"⟩
    | some (flags, file) =>
      let alg ← getDigestAlgorithm r.digestAlg.algorithm r.digestAlg.params acceptedDigests
      .ok { contentType := r.type, flags := flags, publisher := file, digestAlg := alg, digest := r.digest }

/-- `statement_types`; structures.py:203-213. -/
def statementTypesOf (d : Dict String (List RawVal)) : Except Exc (Option (List String)) := do
  match ← singleValue d "microsoft_spc_statement_type" .authenticodeParseError with
  | none => .ok none
  | some (.oids l) => .ok (some l)
  | some _ => badValue

/-- `program_name`, `more_info`, `publisher_info`; structures.py:215-234. -/
def opusOf (d : Dict String (List RawVal)) : Except Exc (Option String × Option LinkVal × Option LinkVal) := do
  match ← singleValue d "microsoft_spc_sp_opus_info" .authenticodeParseError with
  | none => .ok (none, none, none)
  | some (.opus a b c) => .ok (a, b, c)
  | some _ => badValue

/-- A value of `microsoft_nested_signature`; structures.py:239-251. -/
def parseNestedVal (parse : RawSD → Except Exc ASD) (v : RawUVal) : Except Exc ASD :=
  match v with
  | .contentInfo t sd => if t ≠ "signed_data" then apErr "Nested signature is not a SignedData structure" else parse sd
  | _ => badValue

/-- `nested_signed_datas`; structures.py:236-251. -/
def parseNested (parse : RawSD → Except Exc ASD) (us : List RawUAttr) : Except Exc (List ASD) :=
  match (uattrDict us).get? "microsoft_nested_signature" with
  | none => .ok []
  | some vs => parseAll (parseNestedVal parse) vs

/-- The RFC3161 countersigner; structures.py:253-276.  `c` is the PKCS#9 countersigner found before. -/
def parseTimestamp (cd : Codec) (us : List RawUAttr) (c : Option CounterInfo) : Except Exc (Option CounterSigner) :=
  let d := uattrDict us
  match d.get? "microsoft_time_stamp_token" with
  | none => .ok (c.map .pkcs9)
  | some vs =>
    if (d.get? "counter_signature").isSome then                               -- 254-261
      apErr "Countersignature and RFC-3161 timestamp present"
    else
      match vs with
      | [.contentInfo t sd] =>
        if t ≠ "signed_data" then apErr "RFC-3161 Timestamp does not contain SignedData structure"  -- 270-274
        else do
          let r ← parseRfc3161 cd sd                                          -- 276
          .ok (some (.rfc3161 r))
      | [_] => badValue
      | _ => apErr "Only one RFC-3161 timestamp expected"                     -- 264-268

/-- What `AuthenticodeSignerInfo(data, parent)` produces. -/
structure AuthSigner where
  signer : Signer
  statementTypes : Option (List String)
  opus : Option String × Option LinkVal × Option LinkVal
  nested : List ASD
  counter : Option CounterSigner

/-- `AuthenticodeSignerInfo._parse`, with the constructor of nested signatures as a parameter; structures.py:200-276. -/
def authSignerStep (cd : Codec) (rec : RawSD → Except Exc ASD) (si : RawSI) : Except Exc AuthSigner := do
  let s ← parseSigner cd requiredPlain (some "microsoft_spc_indirect_data_content") si.head
  let c ← parseCounter (parseCounterInfo cd) si.unsigned
  let st ← statementTypesOf s.auth
  let op ← opusOf s.auth
  let nested ← parseNested rec si.unsigned
  let cs ← parseTimestamp cd si.unsigned c
  .ok { signer := s, statementTypes := st, opus := op, nested := nested, counter := cs }

/-- `AuthenticodeSignedData(data)`, with the recursive call as a parameter; structures.py:396-425. -/
def asdStep (cd : Codec) (rec : RawSD → Except Exc ASD) (sd : RawSD) : Except Exc ASD := do
  let core ← parseSDCore "microsoft_spc_indirect_data_content" sd.head
  let signers ← parseAll (authSignerStep cd rec) sd.signers                   -- signeddata.py:141-147
  let raw ← decodeContent cd.spc sd.head
  let spc ← parseSpc raw                                                      -- 410
  match signers with
  | [s] =>
    if sd.head.crls ≠ 0 then apErr "SignedData.crls is present, but that is unexpected."  -- 421-425
    else .ok (.mk {
      core := core, spc := spc, signer := s.signer, statementTypes := s.statementTypes, programName := s.opus.1
      moreInfo := s.opus.2.1, publisherInfo := s.opus.2.2, counter := s.counter } s.nested)
  | _ => apErr "SignedData.signerInfos must contain exactly 1 signer"         -- 413-417

/-- `AuthenticodeSignedData(data)` to a given recursion depth. -/
def parseASDN (cd : Codec) : Nat → RawSD → Except Exc ASD
  | 0, _ => .error ⟨.runtimeError, "recursion depth"⟩
  | n + 1, sd => asdStep cd (parseASDN cd n) sd

/-- `AuthenticodeSignedData(data)`.  The depth suffices: `parseASD_eq`.  Simplification: Python's own recursion limit is not
modelled here, but in `Verif/Model/Strikes.lean`. -/
def parseASD (cd : Codec) (sd : RawSD) : Except Exc ASD := parseASDN cd sd.depth sd

/-- `AuthenticodeSignedData.from_envelope(data)`; signeddata.py:83-97. -/
def fromEnvelope (cd : Codec) (data : Bytes) : Except Exc ASD := do
  let (t, sd) ← cd.envelope data
  if t ≠ "signed_data" then .error ⟨.parseError, "ContentInfo does not contain SignedData"⟩
  else parseASD cd sd

end Signify
