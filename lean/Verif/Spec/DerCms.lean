/-
Certificates (X.509, RFC 5280) and signatures (PKCS #7, CMS; RFC 5652) written down as encoders.
-/
import Verif.Spec.Der

set_option autoImplicit false

namespace Signify.Spec

/-! ### Names of object identifiers -/

/-- The name of an object identifier: that of the table, otherwise the dotted form. -/
def nameIn (table : List (List Nat × String)) (o : List Nat) : String :=
  match table.find? (fun x => x.1 = o) with
  | some x => x.2
  | none => dotted o

/-- Digest algorithms. -/
def digestNames : List (List Nat × String) :=
  [([1, 2, 840, 113549, 2, 2], "md2"),
   ([1, 2, 840, 113549, 2, 5], "md5"),
   ([1, 3, 14, 3, 2, 26], "sha1"),
   ([2, 16, 840, 1, 101, 3, 4, 2, 4], "sha224"),
   ([2, 16, 840, 1, 101, 3, 4, 2, 1], "sha256"),
   ([2, 16, 840, 1, 101, 3, 4, 2, 2], "sha384"),
   ([2, 16, 840, 1, 101, 3, 4, 2, 3], "sha512"),
   ([2, 16, 840, 1, 101, 3, 4, 2, 5], "sha512_224"),
   ([2, 16, 840, 1, 101, 3, 4, 2, 6], "sha512_256"),
   ([2, 16, 840, 1, 101, 3, 4, 2, 7], "sha3_224"),
   ([2, 16, 840, 1, 101, 3, 4, 2, 8], "sha3_256"),
   ([2, 16, 840, 1, 101, 3, 4, 2, 9], "sha3_384"),
   ([2, 16, 840, 1, 101, 3, 4, 2, 10], "sha3_512"),
   ([2, 16, 840, 1, 101, 3, 4, 2, 11], "shake128"),
   ([2, 16, 840, 1, 101, 3, 4, 2, 12], "shake256"),
   ([2, 16, 840, 1, 101, 3, 4, 2, 17], "shake128_len"),
   ([2, 16, 840, 1, 101, 3, 4, 2, 18], "shake256_len")]

/-- Signature algorithms. -/
def signatureNames : List (List Nat × String) :=
  [([1, 3, 14, 3, 2, 3], "md5_rsa"),
   ([1, 3, 14, 3, 2, 29], "sha1_rsa"),
   ([1, 2, 840, 113549, 1, 1, 1], "rsassa_pkcs1v15"),
   ([1, 2, 840, 113549, 1, 1, 2], "md2_rsa"),
   ([1, 2, 840, 113549, 1, 1, 4], "md5_rsa"),
   ([1, 2, 840, 113549, 1, 1, 5], "sha1_rsa"),
   ([1, 2, 840, 113549, 1, 1, 10], "rsassa_pss"),
   ([1, 2, 840, 113549, 1, 1, 11], "sha256_rsa"),
   ([1, 2, 840, 113549, 1, 1, 12], "sha384_rsa"),
   ([1, 2, 840, 113549, 1, 1, 13], "sha512_rsa"),
   ([1, 2, 840, 113549, 1, 1, 14], "sha224_rsa"),
   ([1, 2, 840, 10040, 4, 1], "dsa"),
   ([1, 2, 840, 10040, 4, 3], "sha1_dsa"),
   ([1, 2, 840, 10045, 2, 1], "ecdsa"),
   ([1, 2, 840, 10045, 4, 1], "sha1_ecdsa"),
   ([1, 2, 840, 10045, 4, 3, 1], "sha224_ecdsa"),
   ([1, 2, 840, 10045, 4, 3, 2], "sha256_ecdsa"),
   ([1, 2, 840, 10045, 4, 3, 3], "sha384_ecdsa"),
   ([1, 2, 840, 10045, 4, 3, 4], "sha512_ecdsa")]

/-- Public key algorithms. -/
def keyNames : List (List Nat × String) :=
  [([1, 2, 840, 113549, 1, 1, 1], "rsa"),
   ([1, 2, 840, 113549, 1, 1, 7], "rsaes_oaep"),
   ([1, 2, 840, 113549, 1, 1, 10], "rsassa_pss"),
   ([1, 2, 840, 10040, 4, 1], "dsa"),
   ([1, 2, 840, 10045, 2, 1], "ec"),
   ([1, 2, 840, 10046, 2, 1], "dh")]

/-- Elliptic curves. -/
def curveNames : List (List Nat × String) :=
  [([1, 2, 840, 10045, 3, 1, 1], "secp192r1"),
   ([1, 2, 840, 10045, 3, 1, 7], "secp256r1"),
   ([1, 3, 132, 0, 33], "secp224r1"),
   ([1, 3, 132, 0, 34], "secp384r1"),
   ([1, 3, 132, 0, 35], "secp521r1")]

/-- Attributes of distinguished names. -/
def attributeNames : List (List Nat × String) :=
  [([2, 5, 4, 3], "common_name"),
   ([2, 5, 4, 4], "surname"),
   ([2, 5, 4, 5], "serial_number"),
   ([2, 5, 4, 6], "country_name"),
   ([2, 5, 4, 7], "locality_name"),
   ([2, 5, 4, 8], "state_or_province_name"),
   ([2, 5, 4, 9], "street_address"),
   ([2, 5, 4, 10], "organization_name"),
   ([2, 5, 4, 11], "organizational_unit_name"),
   ([2, 5, 4, 12], "title"),
   ([2, 5, 4, 15], "business_category"),
   ([2, 5, 4, 17], "postal_code"),
   ([2, 5, 4, 20], "telephone_number"),
   ([2, 5, 4, 41], "name"),
   ([2, 5, 4, 42], "given_name"),
   ([2, 5, 4, 43], "initials"),
   ([2, 5, 4, 44], "generation_qualifier"),
   ([2, 5, 4, 45], "unique_identifier"),
   ([2, 5, 4, 46], "dn_qualifier"),
   ([2, 5, 4, 65], "pseudonym"),
   ([2, 5, 4, 97], "organization_identifier"),
   ([1, 2, 840, 113549, 1, 9, 1], "email_address"),
   ([1, 3, 6, 1, 4, 1, 311, 60, 2, 1, 1], "incorporation_locality"),
   ([1, 3, 6, 1, 4, 1, 311, 60, 2, 1, 2], "incorporation_state_or_province"),
   ([1, 3, 6, 1, 4, 1, 311, 60, 2, 1, 3], "incorporation_country"),
   ([0, 9, 2342, 19200300, 100, 1, 1], "user_id"),
   ([0, 9, 2342, 19200300, 100, 1, 25], "domain_component")]

/-- Extended key usages. -/
def purposeNames : List (List Nat × String) :=
  [([2, 5, 29, 37, 0], "any_extended_key_usage"),
   ([1, 3, 6, 1, 5, 5, 7, 3, 1], "server_auth"),
   ([1, 3, 6, 1, 5, 5, 7, 3, 2], "client_auth"),
   ([1, 3, 6, 1, 5, 5, 7, 3, 3], "code_signing"),
   ([1, 3, 6, 1, 5, 5, 7, 3, 4], "email_protection"),
   ([1, 3, 6, 1, 5, 5, 7, 3, 5], "ipsec_end_system"),
   ([1, 3, 6, 1, 5, 5, 7, 3, 6], "ipsec_tunnel"),
   ([1, 3, 6, 1, 5, 5, 7, 3, 7], "ipsec_user"),
   ([1, 3, 6, 1, 5, 5, 7, 3, 8], "time_stamping"),
   ([1, 3, 6, 1, 5, 5, 7, 3, 9], "ocsp_signing"),
   ([1, 3, 6, 1, 5, 5, 7, 3, 10], "dvcs"),
   ([1, 3, 6, 1, 5, 5, 7, 3, 13], "eap_over_ppp"),
   ([1, 3, 6, 1, 5, 5, 7, 3, 14], "eap_over_lan"),
   ([1, 3, 6, 1, 5, 5, 7, 3, 15], "scvp_server"),
   ([1, 3, 6, 1, 5, 5, 7, 3, 16], "scvp_client"),
   ([1, 3, 6, 1, 5, 5, 7, 3, 17], "ipsec_ike"),
   ([1, 3, 6, 1, 5, 5, 8, 2, 2], "ike_intermediate"),
   ([1, 3, 6, 1, 4, 1, 311, 10, 3, 1], "microsoft_trust_list_signing"),
   ([1, 3, 6, 1, 4, 1, 311, 10, 3, 2], "microsoft_time_stamp_signing"),
   ([1, 3, 6, 1, 4, 1, 311, 10, 3, 3], "microsoft_server_gated"),
   ([1, 3, 6, 1, 4, 1, 311, 10, 3, 3, 1], "microsoft_serialized"),
   ([1, 3, 6, 1, 4, 1, 311, 10, 3, 4], "microsoft_efs"),
   ([1, 3, 6, 1, 4, 1, 311, 10, 3, 4, 1], "microsoft_efs_recovery"),
   ([1, 3, 6, 1, 4, 1, 311, 10, 3, 5], "microsoft_whql"),
   ([1, 3, 6, 1, 4, 1, 311, 10, 3, 6], "microsoft_nt5"),
   ([1, 3, 6, 1, 4, 1, 311, 10, 3, 7], "microsoft_oem_whql"),
   ([1, 3, 6, 1, 4, 1, 311, 10, 3, 8], "microsoft_embedded_nt"),
   ([1, 3, 6, 1, 4, 1, 311, 10, 3, 9], "microsoft_root_list_signer"),
   ([1, 3, 6, 1, 4, 1, 311, 10, 3, 10], "microsoft_qualified_subordination"),
   ([1, 3, 6, 1, 4, 1, 311, 10, 3, 11], "microsoft_key_recovery"),
   ([1, 3, 6, 1, 4, 1, 311, 10, 3, 12], "microsoft_document_signing"),
   ([1, 3, 6, 1, 4, 1, 311, 10, 3, 13], "microsoft_lifetime_signing"),
   ([1, 3, 6, 1, 4, 1, 311, 10, 3, 14], "microsoft_mobile_device_software"),
   ([1, 3, 6, 1, 4, 1, 311, 20, 2, 2], "microsoft_smart_card_logon")]

/-- Statement types of Authenticode. -/
def statementNames : List (List Nat × String) :=
  [([1, 3, 6, 1, 4, 1, 311, 2, 1, 21], "microsoft_spc_individual_sp_key_purpose"),
   ([1, 3, 6, 1, 4, 1, 311, 2, 1, 22], "microsoft_spc_commercial_sp_key_purpose")]

/-- Content types. -/
def contentNames : List (List Nat × String) :=
  [([1, 2, 840, 113549, 1, 7, 1], "data"),
   ([1, 2, 840, 113549, 1, 7, 2], "signed_data"),
   ([1, 2, 840, 113549, 1, 7, 3], "enveloped_data"),
   ([1, 2, 840, 113549, 1, 7, 4], "signed_and_enveloped_data"),
   ([1, 2, 840, 113549, 1, 7, 5], "digested_data"),
   ([1, 2, 840, 113549, 1, 7, 6], "encrypted_data"),
   ([1, 2, 840, 113549, 1, 9, 16, 1, 2], "authenticated_data"),
   ([1, 2, 840, 113549, 1, 9, 16, 1, 9], "compressed_data"),
   ([1, 2, 840, 113549, 1, 9, 16, 1, 23], "authenticated_enveloped_data"),
   ([1, 2, 840, 113549, 1, 9, 16, 1, 4], "tst_info"),
   ([1, 3, 6, 1, 4, 1, 311, 2, 1, 4], "microsoft_spc_indirect_data_content"),
   ([1, 3, 6, 1, 4, 1, 311, 10, 1], "microsoft_ctl")]

/-- Attributes of signatures. -/
def cmsNames : List (List Nat × String) :=
  [([1, 2, 840, 113549, 1, 9, 3], "content_type"),
   ([1, 2, 840, 113549, 1, 9, 4], "message_digest"),
   ([1, 2, 840, 113549, 1, 9, 5], "signing_time"),
   ([1, 2, 840, 113549, 1, 9, 6], "counter_signature"),
   ([1, 2, 840, 113549, 1, 9, 16, 2, 14], "signature_time_stamp_token"),
   ([1, 2, 840, 113549, 1, 9, 52], "cms_algorithm_protection"),
   ([1, 3, 6, 1, 4, 1, 311, 2, 4, 1], "microsoft_nested_signature"),
   ([1, 3, 6, 1, 4, 1, 311, 3, 3, 1], "microsoft_time_stamp_token"),
   ([1, 3, 6, 1, 4, 1, 311, 2, 1, 11], "microsoft_spc_statement_type"),
   ([1, 3, 6, 1, 4, 1, 311, 2, 1, 12], "microsoft_spc_sp_opus_info")]

/-! ### Names -/

/-- Text (DirectoryString or IA5String). -/
inductive DText where
  | utf8 (s : String)
  | printable (s : String)
  | ia5 (s : String)
  | bmp (s : String)

/-- UTF8String, PrintableString, IA5String, BMPString -/
def DText.encode : DText → Bytes
  | .utf8 s => tlv 0x0C s.toByteArray.data.toList
  | .printable s => tlv 0x13 (asciiOctets s)
  | .ia5 s => tlv 0x16 (asciiOctets s)
  | .bmp s => tlv 0x1E (bmpOctets s)

/-- The text. -/
def DText.text : DText → String
  | .utf8 s => s
  | .printable s => s
  | .ia5 s => s
  | .bmp s => s

/-- The text can be encoded. -/
def DText.Valid : DText → Prop
  | .utf8 _ => True
  | .printable s => IsAscii s
  | .ia5 s => IsAscii s
  | .bmp _ => True

/-- The value of an attribute: text; the octets of a unique identifier; or, in an attribute that is not known, octets or an integer. -/
inductive DAttrValue where
  | text (t : DText)
  | unique (b : Bytes)
  | octets (b : Bytes)
  | int (i : Int)

/-- A unique identifier is a BIT STRING without unused bits. -/
def DAttrValue.encode : DAttrValue → Bytes
  | .text t => t.encode
  | .unique b => tlv 0x03 (0 :: b)
  | .octets b => derOctets b
  | .int i => derInt i

/-- The value. -/
def DAttrValue.value : DAttrValue → NameVal
  | .text t => .text t.text
  | .unique b => .octets b
  | .octets b => .octets b
  | .int i => .int i

/-- The value suits an attribute of the type `o`: of the known ones, x500UniqueIdentifier (2.5.4.45) has a BIT STRING and the others
text. -/
def DAttrValue.Valid (o : List Nat) : DAttrValue → Prop
  | .text t => t.Valid ∧ o ≠ [2, 5, 4, 45]
  | .unique _ => o = [2, 5, 4, 45]
  | .octets _ => ∀ x ∈ attributeNames, x.1 ≠ o
  | .int _ => ∀ x ∈ attributeNames, x.1 ≠ o

/-- An attribute of a distinguished name. -/
structure DAtv where
  oid : List Nat
  val : DAttrValue

/-- AttributeTypeAndValue ::= SEQUENCE { type OBJECT IDENTIFIER, value ANY } -/
def DAtv.encode (a : DAtv) : Bytes := derSeq [derOid a.oid, a.val.encode]

/-- The attribute. -/
def DAtv.value (a : DAtv) : ATV := ⟨dotted a.oid, nameIn attributeNames a.oid, a.val.value⟩

/-- The attribute can be encoded. -/
def DAtv.Valid (a : DAtv) : Prop := ValidOid a.oid ∧ a.val.Valid a.oid

/-- A distinguished name: its relative distinguished names, each of one or more attributes. -/
abbrev DName := List (DAtv × List DAtv)

/-- Name ::= SEQUENCE OF SET OF AttributeTypeAndValue -/
def DName.encode (n : DName) : Bytes := derSeq (n.map (fun r => derSet ((r.1 :: r.2).map DAtv.encode)))

/-- The name. -/
def DName.value (n : DName) : Name := ⟨n.map (fun r => ⟨r.1.value, r.2.map DAtv.value⟩)⟩

/-- The name can be encoded. -/
def DName.Valid (n : DName) : Prop := ∀ r ∈ n, ∀ a ∈ r.1 :: r.2, a.Valid

/-! ### Certificates -/

/-- A value of which only identifier octet and contents are given. -/
structure DAny where
  id : UInt8
  contents : Bytes

/-- The encoding of such a value. -/
def DAny.encode (a : DAny) : Bytes := tlv a.id a.contents

/-- The identifier octet stands for itself (it does not announce a tag of several octets). -/
def DAny.Valid (a : DAny) : Prop := a.id.toNat % 32 ≠ 31

/-- Values that Python takes for false: NULL, FALSE, 0 and everything empty. -/
def DAny.Falsy (a : DAny) : Prop :=
  (a.id.toNat / 64 = 0 ∧ a.id.toNat % 32 = 5) ∨
  (a.id.toNat / 64 = 0 ∧ a.id.toNat % 32 = 1 ∧ a.contents = [0]) ∨
  (a.id.toNat / 64 = 0 ∧ a.id.toNat % 32 = 2 ∧ ∀ b ∈ a.contents, b = 0) ∨
  (¬ (a.id.toNat / 64 = 0 ∧ a.id.toNat % 32 = 1) ∧ a.contents = [])

/-- AlgorithmIdentifier with any parameters. -/
structure DSigAlg where
  oid : List Nat
  params : Option DAny

/-- AlgorithmIdentifier ::= SEQUENCE { algorithm OBJECT IDENTIFIER, parameters ANY OPTIONAL } -/
def DSigAlg.encode (a : DSigAlg) : Bytes := derSeq [derOid a.oid, derOpt DAny.encode a.params]

/-- The algorithm can be encoded. -/
def DSigAlg.Valid (a : DSigAlg) : Prop := ValidOid a.oid ∧ ∀ p, a.params = some p → p.Valid

/-- Parameters of a public key. -/
inductive DKeyParams where
  | absent
  | null
  | curve (oid : List Nat)
  | dsa (p q g : Int)

/-- Parameters of a public key. -/
def DKeyParams.encode : DKeyParams → Bytes
  | .absent => []
  | .null => derNull
  | .curve o => derOid o
  | .dsa p q g => derSeq [derInt p, derInt q, derInt g]

/-- What they are. -/
def DKeyParams.value : DKeyParams → AlgParams
  | .absent => .none
  | .null => .none
  | .curve o => .str (nameIn curveNames o)
  | .dsa p q g => .dict [("p", p), ("q", q), ("g", g)]

/-- The parameters go with the algorithm. -/
def DKeyParams.Valid (alg : List Nat) : DKeyParams → Prop
  | .curve o => ValidOid o
  | .dsa _ _ _ => alg = [1, 2, 840, 10040, 4, 1]
  | _ => True

/-- An extension. -/
inductive DExt where
  /-- extended key usage -/
  | eku (critical : Bool) (usages : List (List Nat))
  | other (oid : List Nat) (critical : Bool) (value : Bytes)

/-- id-ce-extKeyUsage -/
def oidEku : List Nat := [2, 5, 29, 37]

/-- BOOLEAN DEFAULT FALSE -/
def derCritical (b : Bool) : Bytes := if b then tlv 0x01 [0xFF] else []

/-- Extension ::= SEQUENCE { extnID OBJECT IDENTIFIER, critical BOOLEAN DEFAULT FALSE, extnValue OCTET STRING } -/
def DExt.encode : DExt → Bytes
  | .eku c l => derSeq [derOid oidEku, derCritical c, derOctets (encodeOids l)]
  | .other o c v => derSeq [derOid o, derCritical c, derOctets v]

/-- The extension can be encoded, and there is one way to do so. -/
def DExt.Valid : DExt → Prop
  | .eku _ l => ∀ o ∈ l, ValidOid o
  | .other o _ _ => ValidOid o ∧ o ≠ oidEku

/-- A certificate. -/
structure DCert where
  version : Option Int
  serial : Int
  sigAlg : DSigAlg
  issuer : DName
  notBefore : DTime
  notAfter : DTime
  subject : DName
  keyAlg : List Nat
  keyParams : DKeyParams
  key : List Bool
  issuerUid : Option (List Bool)
  subjectUid : Option (List Bool)
  extensions : Option (List DExt)
  signature : List Bool

/-- TBSCertificate ::= SEQUENCE { version [0] EXPLICIT INTEGER DEFAULT v1, serialNumber INTEGER, signature AlgorithmIdentifier,
issuer Name, validity SEQUENCE { notBefore Time, notAfter Time }, subject Name,
subjectPublicKeyInfo SEQUENCE { algorithm AlgorithmIdentifier, subjectPublicKey BIT STRING },
issuerUniqueID [1] IMPLICIT BIT STRING OPTIONAL, subjectUniqueID [2] IMPLICIT BIT STRING OPTIONAL,
extensions [3] EXPLICIT SEQUENCE OF Extension OPTIONAL } -/
def DCert.tbs (c : DCert) : Bytes :=
  derSeq [
    derOpt (fun v => tlv 0xA0 (derInt v)) c.version, derInt c.serial, c.sigAlg.encode, c.issuer.encode,
    derSeq [c.notBefore.encode, c.notAfter.encode], c.subject.encode,
    derSeq [derSeq [derOid c.keyAlg, c.keyParams.encode], derBits c.key],
    derOpt (fun b => tlv 0x81 (bitOctets b)) c.issuerUid, derOpt (fun b => tlv 0x82 (bitOctets b)) c.subjectUid,
    derOpt (fun l : List DExt => tlv 0xA3 (derSeq (l.map DExt.encode))) c.extensions]

/-- Certificate ::= SEQUENCE { tbsCertificate TBSCertificate, signatureAlgorithm AlgorithmIdentifier, signatureValue BIT STRING } -/
def DCert.encode (c : DCert) : Bytes := derSeq [c.tbs, c.sigAlg.encode, derBits c.signature]

/-- The usages of the last extended key usage extension. -/
def lastEku : List DExt → Option (List (List Nat))
  | [] => none
  | .eku _ l :: r => some ((lastEku r).getD l)
  | .other _ _ _ :: r => lastEku r

/-- The certificate can be encoded. -/
def DCert.Valid (c : DCert) : Prop :=
  c.sigAlg.Valid ∧ c.issuer.Valid ∧ c.notBefore.Valid ∧ c.notAfter.Valid ∧ c.subject.Valid ∧ ValidOid c.keyAlg ∧
  c.keyParams.Valid c.keyAlg ∧ ∀ l, c.extensions = some l → ∀ e ∈ l, e.Valid

/-- The certificate as an object of the library.  `ident` stands for the identity of the object. -/
def DCert.cert (ident : Bytes → Nat) (c : DCert) : Cert where
  obj := ident c.encode
  der := c.encode
  issuer := c.issuer.value
  serial := c.serial
  subject := c.subject.value
  spki := ⟨nameIn keyNames c.keyAlg, c.keyParams.value, derBits c.key⟩
  validFrom := c.notBefore.micros
  validTo := c.notAfter.micros
  eku := (c.extensions.bind lastEku).map (·.map (nameIn purposeNames))

/-! ### Signatures -/

/-- An attribute that is signed. -/
inductive DAttr where
  | contentType (vs : List (List Nat))
  | messageDigest (vs : List Bytes)
  | signingTime (vs : List DTime)
  | statementType (vs : List (List (List Nat)))
  | opus (vs : List DOpus)
  | other (type : List Nat) (vs : List DAny)

/-- The type of an attribute. -/
def DAttr.type : DAttr → List Nat
  | .contentType _ => [1, 2, 840, 113549, 1, 9, 3]
  | .messageDigest _ => [1, 2, 840, 113549, 1, 9, 4]
  | .signingTime _ => [1, 2, 840, 113549, 1, 9, 5]
  | .statementType _ => [1, 3, 6, 1, 4, 1, 311, 2, 1, 11]
  | .opus _ => [1, 3, 6, 1, 4, 1, 311, 2, 1, 12]
  | .other t _ => t

/-- The encodings of the values of an attribute. -/
def DAttr.values : DAttr → List Bytes
  | .contentType vs => vs.map derOid
  | .messageDigest vs => vs.map derOctets
  | .signingTime vs => vs.map DTime.encode
  | .statementType vs => vs.map encodeOids
  | .opus vs => vs.map DOpus.encode
  | .other _ vs => vs.map DAny.encode

/-- Attribute ::= SEQUENCE { type OBJECT IDENTIFIER, values SET OF ANY } -/
def DAttr.encode (a : DAttr) : Bytes := derSeq [derOid a.type, derSet a.values]

/-- The names of the attributes above. -/
def attrKinds : List String :=
  ["content_type", "message_digest", "signing_time", "microsoft_spc_statement_type", "microsoft_spc_sp_opus_info"]

/-- The attribute can be encoded, and there is one way to do so. -/
def DAttr.Valid : DAttr → Prop
  | .contentType vs => ∀ o ∈ vs, ValidOid o
  | .messageDigest _ => True
  | .signingTime vs => ∀ t ∈ vs, t.Valid
  | .statementType vs => ∀ l ∈ vs, ∀ o ∈ l, ValidOid o
  | .opus vs => ∀ o ∈ vs, o.Valid
  | .other t vs => ValidOid t ∧ nameIn cmsNames t ∉ attrKinds ∧ ∀ v ∈ vs, v.Valid

/-- The decoded attribute. -/
def DAttr.raw : DAttr → RawAttr
  | .contentType vs => ⟨"content_type", vs.map (fun o => .oid (nameIn contentNames o))⟩
  | .messageDigest vs => ⟨"message_digest", vs.map .octets⟩
  | .signingTime vs => ⟨"signing_time", vs.map (fun t => .time t.micros)⟩
  | .statementType vs => ⟨"microsoft_spc_statement_type", vs.map (fun l => .oids (l.map (nameIn statementNames)))⟩
  | .opus vs => ⟨"microsoft_spc_sp_opus_info", vs.map (fun o =>
      .opus (o.programName.map DString.text) (o.moreInfo.map DLink.value) (o.publisherInfo.map DLink.value))⟩
  | .other t vs => ⟨nameIn cmsNames t, vs.map (fun v => .other v.encode)⟩

/-- SignerIdentifier -/
inductive DSid where
  | issuerSerial (issuer : DName) (serial : Int)
  | keyId (b : Bytes)

/-- SignerIdentifier ::= CHOICE { SEQUENCE { issuer Name, serialNumber INTEGER }, [0] IMPLICIT OCTET STRING } -/
def DSid.encode : DSid → Bytes
  | .issuerSerial n s => derSeq [n.encode, derInt s]
  | .keyId b => tlv 0x80 b

/-- The identifier can be encoded. -/
def DSid.Valid : DSid → Prop
  | .issuerSerial n _ => n.Valid
  | .keyId _ => True

/-- A signer, without the attributes that are not signed. -/
structure DSigner where
  version : Int
  sid : DSid
  digestAlg : DAlg
  attrs : Option (List DAttr)
  sigAlg : DSigAlg
  signature : Bytes

/-- The contents octets of the signed attributes. -/
def attrsContents (l : List DAttr) : Bytes := (l.map DAttr.encode).flatten

/-- The decoded signer. -/
def DSigner.raw (s : DSigner) : SIHead where
  sid := match s.sid with
    | .issuerSerial _ _ => "issuer_and_serial_number"
    | .keyId _ => "subject_key_identifier"
  issuer := match s.sid with
    | .issuerSerial n _ => n.value
    | .keyId _ => ⟨[]⟩
  serial := match s.sid with
    | .issuerSerial _ n => n
    | .keyId _ => 0
  signedAttrs := s.attrs.map attrsContents
  digestAlg := ⟨nameIn digestNames s.digestAlg.oid, false⟩
  sigAlg := nameIn signatureNames s.sigAlg.oid
  signature := s.signature

/-- The signer can be encoded. -/
def DSigner.Valid (s : DSigner) : Prop :=
  s.sid.Valid ∧ ValidOid s.digestAlg.oid ∧ s.sigAlg.Valid ∧ ∀ l, s.attrs = some l → ∀ a ∈ l, a.Valid

/-- An element of the certificates of a signature: a certificate, or something else (obsolete formats, attribute certificates). -/
inductive DCertChoice where
  | cert (c : DCert)
  | other (a : DAny)

/-- CertificateChoices -/
def DCertChoice.encode : DCertChoice → Bytes
  | .cert c => c.encode
  | .other a => a.encode

/-- The names of the other choices. -/
def choiceNames : List (UInt8 × String) :=
  [(0xA0, "extended_certificate"), (0xA1, "v1_attr_cert"), (0xA2, "v2_attr_cert"), (0xA3, "other")]

/-- The element can be encoded. -/
def DCertChoice.Valid : DCertChoice → Prop
  | .cert c => c.Valid
  | .other a => a.id ∈ choiceNames.map Prod.fst

/-- The decoded element.  `dummy` stands in place of a certificate that is not decoded. -/
def DCertChoice.raw (ident : Bytes → Nat) (dummy : Cert) : DCertChoice → RawCert
  | .cert c => ⟨"certificate", c.cert ident⟩
  | .other a => ⟨(choiceNames.lookup a.id).getD "", dummy⟩

/-- A SignedData, without the signers.  `content`: the octets that are signed. -/
structure DData where
  version : Int
  digestAlgs : List DAlg
  contentType : List Nat
  content : Option Bytes
  certs : Option (List DCertChoice)
  crls : Option (List DAny)

/-- PKCS #7 (version 1): ContentInfo ::= SEQUENCE { contentType OBJECT IDENTIFIER, content [0] EXPLICIT ANY OPTIONAL }, and the
contents octets of the content are signed.  CMS (later versions): the content is an OCTET STRING, whose octets are signed. -/
def DData.encap (d : DData) : Bytes :=
  derSeq [derOid d.contentType, derOpt (fun b => tlv 0xA0 (if d.version = 1 then tlv 0x30 b else tlv 0x04 b)) d.content]

/-- The decoded SignedData, without the signers. -/
def DData.raw (ident : Bytes → Nat) (dummy : Cert) (d : DData) : SDHead where
  digestAlgs := d.digestAlgs.map (fun a => ⟨nameIn digestNames a.oid, false⟩)
  contentType := nameIn contentNames d.contentType
  content := d.content
  certs := (d.certs.getD []).map (DCertChoice.raw ident dummy)
  crls := (d.crls.getD []).length
  octets := d.version ≠ 1

/-- The SignedData can be encoded. -/
def DData.Valid (d : DData) : Prop :=
  (∀ a ∈ d.digestAlgs, ValidOid a.oid) ∧ ValidOid d.contentType ∧ (∀ l, d.certs = some l → ∀ c ∈ l, c.Valid) ∧
  (∀ l, d.crls = some l → ∀ c ∈ l, c.Valid)

mutual
/-- A signer: what is above, and the attributes that are not signed. -/
inductive DSI where
  | mk (head : DSigner) (unsigned : Option (List DUAttr))
/-- An attribute that is not signed: countersignatures, nested signatures, time stamps, other. -/
inductive DUAttr where
  | counter (vs : List DSI)
  | nested (vs : List DSD)
  | timestamp (vs : List DSD)
  | other (type : List Nat) (vs : List DAny)
/-- A SignedData. -/
inductive DSD where
  | mk (head : DData) (signers : List DSI)
end

/-- signedData -/
def oidSignedData : List Nat := [1, 2, 840, 113549, 1, 7, 2]

/-- ContentInfo ::= SEQUENCE { contentType OBJECT IDENTIFIER, content [0] EXPLICIT ANY OPTIONAL }, for a SignedData. -/
def contentInfo (sd : Bytes) : Bytes := derSeq [derOid oidSignedData, tlv 0xA0 sd]

mutual
/-- SignerInfo ::= SEQUENCE { version INTEGER, sid SignerIdentifier, digestAlgorithm AlgorithmIdentifier,
signedAttrs [0] IMPLICIT SET OF Attribute OPTIONAL, signatureAlgorithm AlgorithmIdentifier, signature OCTET STRING,
unsignedAttrs [1] IMPLICIT SET OF Attribute OPTIONAL } -/
def DSI.encode : DSI → Bytes
  | .mk s none => derSeq [derInt s.version, s.sid.encode, s.digestAlg.encode,
      derOpt (fun l => tlv 0xA0 (attrsContents l)) s.attrs, s.sigAlg.encode, derOctets s.signature]
  | .mk s (some us) => derSeq [derInt s.version, s.sid.encode, s.digestAlg.encode,
      derOpt (fun l => tlv 0xA0 (attrsContents l)) s.attrs, s.sigAlg.encode, derOctets s.signature, tlv 0xA1 (encodeUAttrs us)]
/-- Likewise, a list. -/
def encodeSIs : List DSI → Bytes
  | [] => []
  | s :: l => s.encode ++ encodeSIs l
/-- Attribute ::= SEQUENCE { type OBJECT IDENTIFIER, values SET OF ANY } -/
def DUAttr.encode : DUAttr → Bytes
  | .counter vs => derSeq [derOid [1, 2, 840, 113549, 1, 9, 6], tlv 0x31 (encodeSIs vs)]
  | .nested vs => derSeq [derOid [1, 3, 6, 1, 4, 1, 311, 2, 4, 1], tlv 0x31 (encodeSDs vs)]
  | .timestamp vs => derSeq [derOid [1, 3, 6, 1, 4, 1, 311, 3, 3, 1], tlv 0x31 (encodeSDs vs)]
  | .other t vs => derSeq [derOid t, derSet (vs.map DAny.encode)]
/-- Likewise, a list. -/
def encodeUAttrs : List DUAttr → Bytes
  | [] => []
  | a :: l => a.encode ++ encodeUAttrs l
/-- SignedData ::= SEQUENCE { version INTEGER, digestAlgorithms SET OF AlgorithmIdentifier, encapContentInfo,
certificates [0] IMPLICIT SET OF CertificateChoices OPTIONAL, crls [1] IMPLICIT SET OF ANY OPTIONAL,
signerInfos SET OF SignerInfo } -/
def DSD.encode : DSD → Bytes
  | .mk d ss => derSeq [derInt d.version, derSet (d.digestAlgs.map DAlg.encode), d.encap,
      derOpt (fun l : List DCertChoice => tlv 0xA0 (l.map DCertChoice.encode).flatten) d.certs,
      derOpt (fun l : List DAny => tlv 0xA1 (l.map DAny.encode).flatten) d.crls, tlv 0x31 (encodeSIs ss)]
/-- ContentInfos, each with a SignedData. -/
def encodeSDs : List DSD → Bytes
  | [] => []
  | s :: l => contentInfo s.encode ++ encodeSDs l
end

/-- The names of the attributes above. -/
def uattrKinds : List String := ["counter_signature", "microsoft_nested_signature", "microsoft_time_stamp_token"]

mutual
/-- The signer can be encoded. -/
def DSI.Valid : DSI → Prop
  | .mk s none => s.Valid
  | .mk s (some us) => s.Valid ∧ validUAttrs us
/-- Likewise, a list. -/
def validSIs : List DSI → Prop
  | [] => True
  | s :: l => s.Valid ∧ validSIs l
/-- The attribute can be encoded, and there is one way to do so. -/
def DUAttr.Valid : DUAttr → Prop
  | .counter vs => validSIs vs
  | .nested vs => validSDs vs
  | .timestamp vs => validSDs vs
  | .other t vs => ValidOid t ∧ nameIn cmsNames t ∉ uattrKinds ∧ ∀ v ∈ vs, v.Valid
/-- Likewise, a list. -/
def validUAttrs : List DUAttr → Prop
  | [] => True
  | a :: l => a.Valid ∧ validUAttrs l
/-- The SignedData can be encoded. -/
def DSD.Valid : DSD → Prop
  | .mk d ss => d.Valid ∧ validSIs ss
/-- Likewise, a list. -/
def validSDs : List DSD → Prop
  | [] => True
  | s :: l => s.Valid ∧ validSDs l
end

mutual
/-- The decoded signer. -/
def DSI.raw (ident : Bytes → Nat) (dummy : Cert) : DSI → RawSI
  | .mk s none => .mk s.raw []
  | .mk s (some us) => .mk s.raw (rawUAttrs ident dummy us)
/-- Likewise, a list. -/
def rawSIs (ident : Bytes → Nat) (dummy : Cert) : List DSI → List RawSI
  | [] => []
  | s :: l => s.raw ident dummy :: rawSIs ident dummy l
/-- The decoded attribute. -/
def DUAttr.raw (ident : Bytes → Nat) (dummy : Cert) : DUAttr → RawUAttr
  | .counter vs => .mk "counter_signature" (rawCounters ident dummy vs)
  | .nested vs => .mk "microsoft_nested_signature" (rawSDs ident dummy vs)
  | .timestamp vs => .mk "microsoft_time_stamp_token" (rawSDs ident dummy vs)
  | .other t vs => .mk (nameIn cmsNames t) (vs.map (fun v => .other v.encode))
/-- Likewise, a list. -/
def rawUAttrs (ident : Bytes → Nat) (dummy : Cert) : List DUAttr → List RawUAttr
  | [] => []
  | a :: l => a.raw ident dummy :: rawUAttrs ident dummy l
/-- The decoded countersignatures. -/
def rawCounters (ident : Bytes → Nat) (dummy : Cert) : List DSI → List RawUVal
  | [] => []
  | s :: l => .signerInfo (s.raw ident dummy) :: rawCounters ident dummy l
/-- The decoded SignedData. -/
def DSD.raw (ident : Bytes → Nat) (dummy : Cert) : DSD → RawSD
  | .mk d ss => .mk (d.raw ident dummy) (rawSIs ident dummy ss)
/-- The decoded ContentInfos. -/
def rawSDs (ident : Bytes → Nat) (dummy : Cert) : List DSD → List RawUVal
  | [] => []
  | s :: l => .contentInfo "signed_data" (s.raw ident dummy) :: rawSDs ident dummy l
end

end Signify.Spec
