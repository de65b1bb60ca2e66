/-
Decoding of signatures with the schemas of asn1crypto (`cms.py`, `x509.py`, `tsp.py`) and those that `signify/asn1/spc.py`
registers with them: a concrete `Codec`.

Simplifications: the maps from object identifiers to names are excerpts; extensions of certificates other than the extended key
usage are not decoded; certificates with the same encoding count as one object.
-/
import Verif.Model.DerSpc
import Verif.Model.Verify

set_option autoImplicit false

namespace Signify.Asn1

/-- The encoding of a value. -/
def Parts.dump (p : Parts) : Bytes := p.header ++ p.contents ++ p.trailer

/-- `cms.ContentType._map`, with the entries added by spc.py:288 and ctl.py:241. -/
def contentTypes : List (List Nat × String) :=
  [([1, 2, 840, 113549, 1, 7, 1], "data"),
   ([1, 2, 840, 113549, 1, 7, 2], "signed_data"),
   ([1, 2, 840, 113549, 1, 7, 3], "enveloped_data"),
   ([1, 2, 840, 113549, 1, 7, 4], "signed_and_enveloped_data"),
   ([1, 2, 840, 113549, 1, 7, 5], "digested_data"),
   ([1, 2, 840, 113549, 1, 7, 6], "encrypted_data"),
   ([1, 2, 840, 113549, 1, 9, 16, 1, 2], "authenticated_data"),
   ([1, 2, 840, 113549, 1, 9, 16, 1, 9], "compressed_data"),
   ([1, 2, 840, 113549, 1, 9, 16, 1, 23], "authenticated_enveloped_data"),
   ([1, 2, 840, 113549, 1, 9, 16, 1, 4], "tst_info"),
   ([1, 3, 6, 1, 4, 1, 311, 2, 1, 4], "microsoft_spc_indirect_data_content"),
   ([1, 3, 6, 1, 4, 1, 311, 10, 1], "microsoft_ctl")]

/-- `cms.CMSAttributeType._map`, with the entries added by spc.py:293-294. -/
def cmsAttributeTypes : List (List Nat × String) :=
  [([1, 2, 840, 113549, 1, 9, 3], "content_type"),
   ([1, 2, 840, 113549, 1, 9, 4], "message_digest"),
   ([1, 2, 840, 113549, 1, 9, 5], "signing_time"),
   ([1, 2, 840, 113549, 1, 9, 6], "counter_signature"),
   ([1, 2, 840, 113549, 1, 9, 16, 2, 14], "signature_time_stamp_token"),
   ([1, 2, 840, 113549, 1, 9, 52], "cms_algorithm_protection"),
   ([1, 3, 6, 1, 4, 1, 311, 2, 4, 1], "microsoft_nested_signature"),
   ([1, 3, 6, 1, 4, 1, 311, 3, 3, 1], "microsoft_time_stamp_token"),
   ([1, 3, 6, 1, 4, 1, 311, 2, 1, 11], "microsoft_spc_statement_type"),
   ([1, 3, 6, 1, 4, 1, 311, 2, 1, 12], "microsoft_spc_sp_opus_info")]

/-- `algos.SignedDigestAlgorithmId._map` -/
def signatureAlgorithms : List (List Nat × String) :=
  [([1, 3, 14, 3, 2, 3], "md5_rsa"),
   ([1, 3, 14, 3, 2, 29], "sha1_rsa"),
   ([1, 2, 840, 113549, 1, 1, 1], "rsassa_pkcs1v15"),
   ([1, 2, 840, 113549, 1, 1, 2], "md2_rsa"),
   ([1, 2, 840, 113549, 1, 1, 4], "md5_rsa"),
   ([1, 2, 840, 113549, 1, 1, 5], "sha1_rsa"),
   ([1, 2, 840, 113549, 1, 1, 10], "rsassa_pss"),
   ([1, 2, 840, 113549, 1, 1, 11], "sha256_rsa"),
   ([1, 2, 840, 113549, 1, 1, 12], "sha384_rsa"),
   ([1, 2, 840, 113549, 1, 1, 13], "sha512_rsa"),
   ([1, 2, 840, 113549, 1, 1, 14], "sha224_rsa"),
   ([1, 2, 840, 10040, 4, 1], "dsa"),
   ([1, 2, 840, 10040, 4, 3], "sha1_dsa"),
   ([1, 2, 840, 10045, 2, 1], "ecdsa"),
   ([1, 2, 840, 10045, 4, 1], "sha1_ecdsa"),
   ([1, 2, 840, 10045, 4, 3, 1], "sha224_ecdsa"),
   ([1, 2, 840, 10045, 4, 3, 2], "sha256_ecdsa"),
   ([1, 2, 840, 10045, 4, 3, 3], "sha384_ecdsa"),
   ([1, 2, 840, 10045, 4, 3, 4], "sha512_ecdsa")]

/-- `keys.PublicKeyAlgorithmId._map` -/
def publicKeyAlgorithms : List (List Nat × String) :=
  [([1, 2, 840, 113549, 1, 1, 1], "rsa"),
   ([1, 2, 840, 113549, 1, 1, 7], "rsaes_oaep"),
   ([1, 2, 840, 113549, 1, 1, 10], "rsassa_pss"),
   ([1, 2, 840, 10040, 4, 1], "dsa"),
   ([1, 2, 840, 10045, 2, 1], "ec"),
   ([1, 2, 840, 10046, 2, 1], "dh")]

/-- `keys.NamedCurve._map` -/
def namedCurves : List (List Nat × String) :=
  [([1, 2, 840, 10045, 3, 1, 1], "secp192r1"),
   ([1, 2, 840, 10045, 3, 1, 7], "secp256r1"),
   ([1, 3, 132, 0, 33], "secp224r1"),
   ([1, 3, 132, 0, 34], "secp384r1"),
   ([1, 3, 132, 0, 35], "secp521r1")]

/-- `x509.NameType._map` -/
def nameTypes : List (List Nat × String) :=
  [([2, 5, 4, 3], "common_name"),
   ([2, 5, 4, 4], "surname"),
   ([2, 5, 4, 5], "serial_number"),
   ([2, 5, 4, 6], "country_name"),
   ([2, 5, 4, 7], "locality_name"),
   ([2, 5, 4, 8], "state_or_province_name"),
   ([2, 5, 4, 9], "street_address"),
   ([2, 5, 4, 10], "organization_name"),
   ([2, 5, 4, 11], "organizational_unit_name"),
   ([2, 5, 4, 12], "title"),
   ([2, 5, 4, 15], "business_category"),
   ([2, 5, 4, 17], "postal_code"),
   ([2, 5, 4, 20], "telephone_number"),
   ([2, 5, 4, 41], "name"),
   ([2, 5, 4, 42], "given_name"),
   ([2, 5, 4, 43], "initials"),
   ([2, 5, 4, 44], "generation_qualifier"),
   ([2, 5, 4, 45], "unique_identifier"),
   ([2, 5, 4, 46], "dn_qualifier"),
   ([2, 5, 4, 65], "pseudonym"),
   ([2, 5, 4, 97], "organization_identifier"),
   ([1, 2, 840, 113549, 1, 9, 1], "email_address"),
   ([1, 3, 6, 1, 4, 1, 311, 60, 2, 1, 1], "incorporation_locality"),
   ([1, 3, 6, 1, 4, 1, 311, 60, 2, 1, 2], "incorporation_state_or_province"),
   ([1, 3, 6, 1, 4, 1, 311, 60, 2, 1, 3], "incorporation_country"),
   ([0, 9, 2342, 19200300, 100, 1, 1], "user_id"),
   ([0, 9, 2342, 19200300, 100, 1, 25], "domain_component")]

/-! ### Names and certificates -/

/-- `x509.Name` -/
def tName : Ty := .seqOf (.setOf (.seq [field "type" tOid, field "value" .any]))

/-- Bytes of UTF-8. -/
def utf8Native (b : Bytes) : Except Exc String :=
  match String.fromUTF8? ⟨b.toArray⟩ with
  | some s => .ok s
  | none => .error ⟨.valueError, "'utf-8' codec can't decode byte"⟩

/-- Text in one of the string types.  Simplifications: TeletexString is read as Latin-1; UniversalString is not supported; e-mail
addresses and domain names are not converted from IDNA. -/
def textNative (p : Parts) : Except Exc String :=
  if p.cls ≠ 0 ∨ p.constructed then asn1Err "Error parsing asn1crypto.x509.DirectoryString"
  else if p.tag = 12 then utf8Native p.contents
  else if p.tag = 19 ∨ p.tag = 22 ∨ p.tag = 18 then asciiNative p.contents
  else if p.tag = 20 then .ok (String.ofList (p.contents.map (fun x => Char.ofNat x.toNat)))
  else if p.tag = 30 then bmpNative p.contents
  else asn1Err "Error parsing asn1crypto.x509.DirectoryString"

/-- The value of an attribute of the type `o`: a unique identifier is a BIT STRING read as octets; the value of an attribute that
asn1crypto does not know is what it is; the others are text.  Simplification: of the values of unknown attributes, those that are
neither text nor octets nor integers are not supported. -/
def readNameVal (o : List Nat) (p : Parts) : Except Exc NameVal :=
  if o = [2, 5, 4, 45] then
    if p.cls = 0 ∧ p.constructed = false ∧ p.tag = 3 then
      match p.contents with
      | 0 :: b => .ok (.octets b)
      | _ => asn1Err "Error parsing asn1crypto.core.OctetBitString"
    else asn1Err "Error parsing asn1crypto.core.OctetBitString"
  else if nameTypes.lookup o = none ∧ p.cls = 0 ∧ p.constructed = false ∧ p.tag = 4 then .ok (.octets p.contents)
  else if nameTypes.lookup o = none ∧ p.cls = 0 ∧ p.constructed = false ∧ p.tag = 2 then .ok (.int (intNative p.contents))
  else do
    let s ← textNative p
    .ok (.text s)

/-- An AttributeTypeAndValue. -/
def readAtv (v : Val) : Except Exc ATV := do
  let o ← (← v.req "type").octets
  let x ← readNameVal (oidArcs o) (← (← v.req "value").parts)
  .ok { oid := dotted (oidArcs o), native := oidNative nameTypes o, value := x }

/-- A RelativeDistinguishedName. -/
def readRdn (v : Val) : Except Exc RDN := do
  match ← parseAll readAtv (← v.elems) with
  | [] => .error ⟨.indexError, "list index out of range"⟩
  | a :: l => .ok ⟨a, l⟩

/-- A `Name`. -/
def readName (v : Val) : Except Exc Name := do
  let l ← parseAll readRdn (← v.elems)
  .ok ⟨l⟩

/-- `x509.Extension` -/
def tExtension : Ty := .seq [field "extn_id" tOid, optField "critical" tBoolean, field "extn_value" tOctetString]

/-- `keys.PublicKeyInfo`; the key is kept as a whole. -/
def tPublicKeyInfo : Ty := .seq [field "algorithm" tAlgorithm, field "public_key" .any]

/-- `x509.TbsCertificate` -/
def tTbsCertificate : Ty := .seq [
  optExplicit "version" 0 tInteger,
  field "serial_number" tInteger,
  field "signature" tAlgorithm,
  field "issuer" tName,
  field "validity" (.seq [field "not_before" tTime, field "not_after" tTime]),
  field "subject" tName,
  field "subject_public_key_info" tPublicKeyInfo,
  optImplicit "issuer_unique_id" 1 tBitString,
  optImplicit "subject_unique_id" 2 tBitString,
  optExplicit "extensions" 3 (.seqOf tExtension)]

/-- `x509.Certificate` -/
def tCertificate : Ty := .seq [
  field "tbs_certificate" tTbsCertificate,
  field "signature_algorithm" tAlgorithm,
  field "signature_value" tBitString]

/-- The parameters of a public key.  Simplification: dictionaries other than DSA parameters (such as explicit curve parameters) are
represented by their encoding. -/
def readKeyParams (alg : String) (v : Option Val) : Except Exc AlgParams := do
  match v with
  | none => .ok .none
  | some x =>
    let p ← x.parts
    if p.cls = 0 ∧ p.tag = 5 then .ok .none
    else if p.cls = 0 ∧ p.tag = 6 then .ok (.str (oidNative namedCurves p.contents))
    else if alg = "dsa" then do
      let d ← (Ty.seq [field "p" tInteger, field "q" tInteger, field "g" tInteger]).build none p
      let a ← (← d.req "p").octets
      let b ← (← d.req "q").octets
      let c ← (← d.req "g").octets
      .ok (.dict [("p", intNative a), ("q", intNative b), ("g", intNative c)])
    else .ok (.dict [("", intFromBytes p.dump)])

/-- `extensions.get("extended_key_usage")`; certificates.py:127-132: the last one counts.  Simplification: only this extension is
decoded.  The code takes the `.native` of all extensions, so that an extension of another known type that cannot be decoded makes it
raise ValueError, where this model goes on. -/
def readEku : List Val → Except Exc (Option (List String))
  | [] => .ok none
  | e :: l => do
    let o ← (← e.req "extn_id").octets
    let b ← (← e.req "extn_value").octets
    let here ← (if oidArcs o = [2, 5, 29, 37] then do
        let k ← derEkus b
        .ok (some k)
      else .ok none)
    match ← readEku l with
    | some x => .ok (some x)
    | none => .ok here

/-- The identity of the object that represents a certificate: one for each encoding. -/
def certIdent (der : Bytes) : Nat := intFromBytes (1 :: der)

/-- `Certificate(data)`; certificates.py:90-137. -/
def readCert (p : Parts) : Except Exc Cert := do
  let v ← tCertificate.build none p
  let tbs ← v.req "tbs_certificate"
  let serial ← (← tbs.req "serial_number").octets
  let issuer ← readName (← tbs.req "issuer")
  let validity ← tbs.req "validity"
  let validFrom ← readTime (← validity.req "not_before")
  let validTo ← readTime (← validity.req "not_after")
  let subject ← readName (← tbs.req "subject")
  let spki ← tbs.req "subject_public_key_info"
  let alg ← spki.req "algorithm"
  let o ← (← alg.req "algorithm").octets
  let params ← readKeyParams (oidNative publicKeyAlgorithms o) (← alg.get "parameters")
  let key ← (← spki.req "public_key").parts
  let eku ← (match ← tbs.get "extensions" with
    | none => .ok none
    | some x => do readEku (← x.elems))
  .ok { obj := certIdent p.dump, der := p.dump, issuer := issuer, serial := intNative serial, subject := subject
        spki := { algorithm := oidNative publicKeyAlgorithms o, parameters := params, key := key.dump }
        validFrom := validFrom, validTo := validTo, eku := eku }

/-- `Certificate.from_der(content)`; certificates.py:161-164. -/
def certFromDer (data : Bytes) : Except Exc Cert := do
  let (p, _) ← parse data
  readCert p

/-! ### Signatures -/

/-- `cms.CMSAttribute`; the type of the values depends on the type of the attribute. -/
def tCmsAttribute : Ty := .seq [field "type" tOid, field "values" (.setOf .any)]

/-- `cms.SignerInfo` -/
def tSignerInfo : Ty := .seq [
  field "version" tInteger,
  field "sid" (.choice [
    field "issuer_and_serial_number" (.seq [field "issuer" tName, field "serial_number" tInteger]),
    .mk "subject_key_identifier" (.implicit 0) false tOctetString]),
  field "digest_algorithm" tAlgorithm,
  optImplicit "signed_attrs" 0 (.setOf tCmsAttribute),
  field "signature_algorithm" tAlgorithm,
  field "signature" tOctetString,
  optImplicit "unsigned_attrs" 1 (.setOf tCmsAttribute)]

/-- `cms.ContentInfo` (and `EncapsulatedContentInfo`); the type of the content depends on `content_type`. -/
def tContentInfo : Ty := .seq [field "content_type" tOid, optExplicit "content" 0 .any]

/-- `cms.SignedData` -/
def tSignedData : Ty := .seq [
  field "version" tInteger,
  field "digest_algorithms" (.setOf tAlgorithm),
  field "encap_content_info" tContentInfo,
  optImplicit "certificates" 0 (.setOf .any),
  optImplicit "crls" 1 (.setOf .any),
  field "signer_infos" (.setOf tSignerInfo)]

/-- A value of a signed attribute; the types are those of `CMSAttribute._oid_specs`, with spc.py:295-296. -/
def readAttrValue (type : String) (p : Parts) : Except Exc RawVal :=
  if type = "content_type" then do
    let b ← (← tOid.build none p).octets
    .ok (.oid (oidNative contentTypes b))
  else if type = "message_digest" then do
    let b ← (← tOctetString.build none p).octets
    .ok (.octets b)
  else if type = "signing_time" then do
    let t ← readTime (← tTime.build none p)
    .ok (.time t)
  else if type = "microsoft_spc_statement_type" then do
    readStatementTypes (← tSpcStatementType.build none p)
  else if type = "microsoft_spc_sp_opus_info" then do
    readOpus (← tSpcSpOpusInfo.build none p)
  else .ok (.other p.dump)

/-- A signed attribute. -/
def readAttr (v : Val) : Except Exc RawAttr := do
  let type := oidNative cmsAttributeTypes (← (← v.req "type").octets)
  let vs ← parseAll (fun x => do readAttrValue type (← x.parts)) (← (← v.req "values").elems)
  .ok ⟨type, vs⟩

/-- The signed attributes with the given contents. -/
def derAttrs (contents : Bytes) : Except Exc (List RawAttr) := do
  let v ← (Ty.setOf tCmsAttribute).ofContents 17 contents
  parseAll readAttr (← v.elems)

/-- A SignerInfo without its unsigned attributes; signerinfo.py:143-168. -/
def readSIHead (v : Val) : Except Exc SIHead := do
  let (sid, issuer, serial) ← (match ← v.req "sid" with
    | .choice "issuer_and_serial_number" x => do
      let n ← readName (← x.req "issuer")
      let s ← (← x.req "serial_number").octets
      .ok ("issuer_and_serial_number", n, intNative s)
    | .choice name _ => .ok (name, (⟨[]⟩ : Name), (0 : Int))
    | _ => asn1Bad)
  let alg ← readAlg digestAlgorithmMap (← v.req "digest_algorithm")
  let signedAttrs ← (match ← v.get "signed_attrs" with
    | none => .ok none
    | some (.list contents _) => .ok (some contents)
    | some _ => asn1Bad)
  let sigAlg ← readAlg signatureAlgorithms (← v.req "signature_algorithm")
  let signature ← (← v.req "signature").octets
  .ok { sid := sid, issuer := issuer, serial := serial, signedAttrs := signedAttrs, digestAlg := alg
        sigAlg := sigAlg.algorithm, signature := signature }

/-- The alternative of a `CertificateChoices`. -/
def certChoice (p : Parts) : Except Exc String :=
  if p.cls = 0 ∧ p.tag = 16 then .ok "certificate"
  else if p.cls = 2 ∧ p.tag = 0 then .ok "extended_certificate"
  else if p.cls = 2 ∧ p.tag = 1 then .ok "v1_attr_cert"
  else if p.cls = 2 ∧ p.tag = 2 then .ok "v2_attr_cert"
  else if p.cls = 2 ∧ p.tag = 3 then .ok "other"
  else asn1Err "did not match any of the alternatives"

/-- In place of a certificate that is not decoded. -/
def noCert : Cert where
  obj := 0
  der := []
  issuer := ⟨[]⟩
  serial := 0
  subject := ⟨[]⟩
  spki := ⟨"", .none, []⟩
  validFrom := 0
  validTo := 0
  eku := none

/-- A `CertificateChoices`. -/
def readCertChoice (v : Val) : Except Exc RawCert := do
  let p ← v.parts
  let name ← certChoice p
  if name = "certificate" then do
    let c ← readCert p
    .ok ⟨name, c⟩
  else .ok ⟨name, noCert⟩

/-- `encap_content_info`: content type, content, whether it is wrapped.  Of version v1 it is a `ContentInfo`, whose content is the
structure itself, otherwise an `EncapsulatedContentInfo`, whose content is an OCTET STRING. -/
def readEncap (version : Int) (v : Val) : Except Exc (String × Option Bytes × Bool) := do
  let type := oidNative contentTypes (← (← v.req "content_type").octets)
  match ← v.get "content" with
  | none => .ok (type, none, version ≠ 1)
  | some x =>
    let p ← x.parts
    if version = 1 then do
      checkId 16 true none p
      .ok (type, some p.contents, false)
    else do
      let b ← (← tOctetString.build none p).octets
      .ok (type, some b, true)

/-- A SignedData without its signer infos; signeddata.py:99-139. -/
def readSDHead (v : Val) : Except Exc SDHead := do
  let version ← (← v.req "version").octets
  let algs ← parseAll (readAlg digestAlgorithmMap) (← (← v.req "digest_algorithms").elems)
  let (type, content, wrapped) ← readEncap (intNative version) (← v.req "encap_content_info")
  let certs ← (match ← v.get "certificates" with
    | none => .ok []
    | some x => do parseAll readCertChoice (← x.elems))
  let crls ← (match ← v.get "crls" with
    | none => .ok 0
    | some x => do .ok (← x.elems).length)
  .ok { digestAlgs := algs, contentType := type, content := content, certs := certs, crls := crls, octets := wrapped }

/-- In place of a SignedData that is not decoded. -/
def noSD : RawSD := .mk { digestAlgs := [], contentType := "", content := none, certs := [], crls := 0 } []

/-- A ContentInfo: type and content.  Only a SignedData is decoded.  Absent content is asn1crypto's `VOID`, which cannot be
indexed. -/
def readContentInfo (sd : Parts → Except Exc RawSD) (p : Parts) : Except Exc (String × RawSD) := do
  let v ← tContentInfo.build none p
  let type := oidNative contentTypes (← (← v.req "content_type").octets)
  if type = "signed_data" then
    match ← v.get "content" with
    | none => .error ⟨.typeError, "'NoValue' object is not subscriptable"⟩
    | some x => do
      let s ← sd (← x.parts)
      .ok (type, s)
  else .ok (type, noSD)

/-- A value of an unsigned attribute; the types are those of `CMSAttribute._oid_specs`. -/
def readUVal (si : Parts → Except Exc RawSI) (sd : Parts → Except Exc RawSD) (type : String) (p : Parts) :
    Except Exc RawUVal :=
  if type = "counter_signature" then do
    let s ← si p
    .ok (.signerInfo s)
  else if type = "microsoft_nested_signature" ∨ type = "microsoft_time_stamp_token" then do
    let (t, s) ← readContentInfo sd p
    .ok (.contentInfo t s)
  else .ok (.other p.dump)

/-- An unsigned attribute. -/
def readUAttr (si : Parts → Except Exc RawSI) (sd : Parts → Except Exc RawSD) (v : Val) : Except Exc RawUAttr := do
  let type := oidNative cmsAttributeTypes (← (← v.req "type").octets)
  let vs ← parseAll (fun x => do readUVal si sd type (← x.parts)) (← (← v.req "values").elems)
  .ok (.mk type vs)

/-- A SignerInfo. -/
def readSI (si : Parts → Except Exc RawSI) (sd : Parts → Except Exc RawSD) (v : Val) : Except Exc RawSI := do
  let h ← readSIHead v
  let us ← (match ← v.get "unsigned_attrs" with
    | none => .ok []
    | some x => do parseAll (readUAttr si sd) (← x.elems))
  .ok (.mk h us)

mutual
/-- A SignerInfo, to a given nesting depth. -/
def derSI : Nat → Parts → Except Exc RawSI
  | 0, _ => asn1Err "nesting"
  | n + 1, p => do readSI (derSI n) (derSD n) (← tSignerInfo.build none p)
/-- A SignedData, to a given nesting depth. -/
def derSD : Nat → Parts → Except Exc RawSD
  | 0, _ => asn1Err "nesting"
  | n + 1, p => do
    let v ← tSignedData.build none p
    let h ← readSDHead v
    let ss ← parseAll (readSI (derSI n) (derSD n)) (← (← v.req "signer_infos").elems)
    .ok (.mk h ss)
end

/-- `cms.ContentInfo.load(data)`: type and content.  The nesting depth is less than the number of octets. -/
def derEnvelope (data : Bytes) : Except Exc (String × RawSD) := do
  let (p, _) ← parse data
  readContentInfo (derSD (data.length + 1)) p

/-! ### Time-stamp tokens -/

/-- `x509.GeneralName`; alternatives other than a directory name are not looked into. -/
def tGeneralName : Ty := .choice [
  .mk "other_name" (.implicit 0) false .any,
  .mk "rfc822_name" (.implicit 1) false .any,
  .mk "dns_name" (.implicit 2) false .any,
  .mk "x400_address" (.implicit 3) false .any,
  .mk "directory_name" (.explicit 4) false tName,
  .mk "edi_party_name" (.implicit 5) false .any,
  .mk "uniform_resource_identifier" (.implicit 6) false .any,
  .mk "ip_address" (.implicit 7) false .any,
  .mk "registered_id" (.implicit 8) false .any]

/-- `tsp.TSTInfo` -/
def tTstInfo : Ty := .seq [
  field "version" tInteger,
  field "policy" tOid,
  field "message_imprint" (.seq [field "hash_algorithm" tAlgorithm, field "hashed_message" tOctetString]),
  field "serial_number" tInteger,
  field "gen_time" (.prim 24),
  optField "accuracy" (.seq [optField "seconds" tInteger, optImplicit "millis" 0 tInteger, optImplicit "micros" 1 tInteger]),
  optField "ordering" tBoolean,
  optField "nonce" tInteger,
  optExplicit "tsa" 0 tGeneralName,
  optImplicit "extensions" 1 tExtensionsRaw]

/-- An INTEGER. -/
def readInt (v : Val) : Except Exc Int := do .ok (intNative (← v.octets))

/-- An `Accuracy`. -/
def readAccuracy (v : Val) : Except Exc RawAccuracy := do
  let a ← readOpt readInt (← v.get "seconds")
  let b ← readOpt readInt (← v.get "millis")
  let c ← readOpt readInt (← v.get "micros")
  .ok ⟨a, b, c⟩

/-- A `GeneralName`. -/
def readGeneralName (v : Val) : Except Exc GeneralName :=
  match v with
  | .choice name x => if name = "directory_name" then do
      let n ← readName x
      .ok ⟨name, n⟩
    else .ok ⟨name, ⟨[]⟩⟩
  | _ => asn1Bad

/-- What `TSTInfo._parse` looks at; structures.py:665-680.  `Version` maps 1 to "v1" (and 0 to "v0"). -/
def readTst (v : Val) : Except Exc RawTst := do
  let version ← readInt (← v.req "version")
  let policy ← (← v.req "policy").octets
  let imprint ← v.req "message_imprint"
  let alg ← readAlg digestAlgorithmMap (← imprint.req "hash_algorithm")
  let hashed ← (← imprint.req "hashed_message").octets
  let serial ← readInt (← v.req "serial_number")
  let time ← generalizedTime (← (← v.req "gen_time").octets)
  let accuracy ← readOpt readAccuracy (← v.get "accuracy")
  let tsa ← readOpt readGeneralName (← v.get "tsa")
  .ok { version := if version = 1 then "v1" else "v" ++ toString version, policy := dotted (oidArcs policy), hashAlg := alg
        hashed := hashed, serial := serial, genTime := time, accuracy := accuracy, tsa := tsa }

/-- The `TSTInfo` in a SignedData.  The type is registered for wrapped content only; otherwise the content is an `Any`, which cannot
be indexed. -/
def derTst (wrapped : Bool) (data : Bytes) : Except Exc RawTst :=
  if wrapped then do
    let v ← tTstInfo.load data
    readTst v
  else .error ⟨.typeError, "'Any' object is not subscriptable"⟩

/-- Decoding of signatures. -/
def derCodec : Codec where
  attrs := derAttrs
  spc := derSpc
  tst := derTst
  envelope := derEnvelope

end Signify.Asn1
