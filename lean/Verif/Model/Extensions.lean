/-
Model of `Certificate.version` and `Certificate.extensions` (`signify/x509/certificates.py`), and of the extensions of certificates
defined in `signify/asn1/spc.py`.

The definitions without a reference to the repository are schemas of asn1crypto that these use.  Simplification: of the extensions
that asn1crypto knows itself, only the extended key usage is decoded here; the decoders of the others are a parameter.
-/
import Verif.Model.DerCms

set_option autoImplicit false

namespace Signify.Asn1

/-- `.native` of an `SpcImage`. -/
structure ImageVal where
  imageLink : Option LinkVal
  bitmap : Option Bytes
  metafile : Option Bytes
  enhancedMetafile : Option Bytes
  gifFile : Option Bytes
deriving DecidableEq, Repr

/-- `.native` of an `SpcSpAgencyInformation`. -/
structure AgencyVal where
  policyInformation : LinkVal
  policyDisplayText : Option String
  logoImage : Option ImageVal
  logoLink : Option LinkVal
deriving DecidableEq, Repr

/-- `.native` of an `SpcFinancialCriteria`. -/
structure FinancialVal where
  financialInfoAvailable : Bool
  meetsCriteria : Bool
deriving DecidableEq, Repr

/-- `.native` of the value of an extension.  `α` is the type of the values of the extensions that are decoded by asn1crypto alone. -/
inductive ExtVal (α : Type) where
  /-- `ExtKeyUsageSyntax` -/
  | usages (l : List String)
  | agency (a : AgencyVal)
  | financial (f : FinancialVal)
  /-- another type that asn1crypto knows -/
  | lib (a : α)
  /-- the octets, if the type of the extension is not known -/
  | octets (b : Bytes)
deriving DecidableEq, Repr

/-- `SpcImage`; spc.py:120-133. -/
def tSpcImage : Ty := .seq [
  optExplicit "image_link" 0 tSpcLink,
  optImplicit "bitmap" 1 tOctetString,
  optImplicit "metafile" 2 tOctetString,
  optImplicit "enhanced_metafile" 3 tOctetString,
  optImplicit "gif_file" 4 tOctetString]

/-- `SpcSpAgencyInformation`; spc.py:302-316. -/
def tSpcSpAgencyInformation : Ty := .seq [
  .mk "policy_information" (.explicit 0) false tSpcLink,
  optExplicit "policy_display_text" 1 tSpcString,
  optImplicit "logo_image" 2 tSpcImage,
  optExplicit "logo_link" 3 tSpcLink]

/-- `SpcFinancialCriteria`; spc.py:319-325. -/
def tSpcFinancialCriteria : Ty := .seq [optField "financial_info_available" tBoolean, optField "meets_criteria" tBoolean]

/-- `Boolean.native` -/
def boolNative (b : Bytes) : Bool := b != [0]

/-- `.native` of an `SpcImage`; spc.py:120-133. -/
def readImage (v : Val) : Except Exc ImageVal := do
  let link ← readOpt readSpcLink (← v.get "image_link")
  let bitmap ← readOpt Val.octets (← v.get "bitmap")
  let metafile ← readOpt Val.octets (← v.get "metafile")
  let enhanced ← readOpt Val.octets (← v.get "enhanced_metafile")
  let gif ← readOpt Val.octets (← v.get "gif_file")
  .ok { imageLink := link, bitmap := bitmap, metafile := metafile, enhancedMetafile := enhanced, gifFile := gif }

/-- `.native` of an `SpcSpAgencyInformation`; spc.py:302-316. -/
def readAgency (v : Val) : Except Exc AgencyVal := do
  let policy ← readSpcLink (← v.req "policy_information")
  let text ← readOpt readSpcString (← v.get "policy_display_text")
  let image ← readOpt readImage (← v.get "logo_image")
  let link ← readOpt readSpcLink (← v.get "logo_link")
  .ok { policyInformation := policy, policyDisplayText := text, logoImage := image, logoLink := link }

/-- `.native` of a `Boolean` with `{"default": False}`. -/
def readFlag (v : Option Val) : Except Exc Bool :=
  match v with
  | none => .ok false
  | some x => do
    let b ← x.octets
    .ok (boolNative b)

/-- `.native` of an `SpcFinancialCriteria`; spc.py:319-325. -/
def readFinancial (v : Val) : Except Exc FinancialVal := do
  let available ← readFlag (← v.get "financial_info_available")
  let meets ← readFlag (← v.get "meets_criteria")
  .ok { financialInfoAvailable := available, meetsCriteria := meets }

/-- The value of an extension `microsoft_spc_sp_agency_info`; spc.py:329. -/
def derAgency (data : Bytes) : Except Exc AgencyVal := do
  let v ← tSpcSpAgencyInformation.load data
  readAgency v

/-- The value of an extension `microsoft_spc_financial_criteria`; spc.py:331. -/
def derFinancial (data : Bytes) : Except Exc FinancialVal := do
  let v ← tSpcFinancialCriteria.load data
  readFinancial v

/-- `x509.ExtensionId._map`, with the additions of spc.py:328, 330. -/
def extensionIds : List (List Nat × String) :=
  [([2, 5, 29, 9], "subject_directory_attributes"),
   ([2, 5, 29, 14], "key_identifier"),
   ([2, 5, 29, 15], "key_usage"),
   ([2, 5, 29, 16], "private_key_usage_period"),
   ([2, 5, 29, 17], "subject_alt_name"),
   ([2, 5, 29, 18], "issuer_alt_name"),
   ([2, 5, 29, 19], "basic_constraints"),
   ([2, 5, 29, 30], "name_constraints"),
   ([2, 5, 29, 31], "crl_distribution_points"),
   ([2, 5, 29, 32], "certificate_policies"),
   ([2, 5, 29, 33], "policy_mappings"),
   ([2, 5, 29, 35], "authority_key_identifier"),
   ([2, 5, 29, 36], "policy_constraints"),
   ([2, 5, 29, 37], "extended_key_usage"),
   ([2, 5, 29, 46], "freshest_crl"),
   ([2, 5, 29, 54], "inhibit_any_policy"),
   ([1, 3, 6, 1, 5, 5, 7, 1, 1], "authority_information_access"),
   ([1, 3, 6, 1, 5, 5, 7, 1, 11], "subject_information_access"),
   ([1, 3, 6, 1, 5, 5, 7, 1, 24], "tls_feature"),
   ([1, 3, 6, 1, 5, 5, 7, 48, 1, 5], "ocsp_no_check"),
   ([1, 2, 840, 113533, 7, 65, 0], "entrust_version_extension"),
   ([2, 16, 840, 1, 113730, 1, 1], "netscape_certificate_type"),
   ([1, 3, 6, 1, 4, 1, 11129, 2, 4, 2], "signed_certificate_timestamp_list"),
   ([1, 3, 6, 1, 4, 1, 311, 20, 2], "microsoft_enroll_certtype"),
   ([1, 3, 6, 1, 4, 1, 311, 2, 1, 10], "microsoft_spc_sp_agency_info"),
   ([1, 3, 6, 1, 4, 1, 311, 2, 1, 27], "microsoft_spc_financial_criteria")]

/-- The decoders of the extensions that asn1crypto knows (`Extension._oid_specs`), other than the extended key usage: none for a name
without a type. -/
abbrev ExtLib (α : Type) := String → Option (Bytes → Except Exc α)

/-- `extension["extn_id"].native` and `extension["extn_value"].native`; certificates.py:130-132, spc.py:328-331. -/
def readExtension {α : Type} (lib : ExtLib α) (e : Val) : Except Exc (String × ExtVal α) := do
  let o ← (← e.req "extn_id").octets
  let b ← (← e.req "extn_value").octets
  let name := oidNative extensionIds o
  let v ← (
    if name = "extended_key_usage" then do .ok (.usages (← derEkus b))
    else if name = "microsoft_spc_sp_agency_info" then do .ok (.agency (← derAgency b))
    else if name = "microsoft_spc_financial_criteria" then do .ok (.financial (← derFinancial b))
    else match lib name with
      | some f => do .ok (.lib (← f b))
      | none => .ok (.octets b))
  .ok (name, v)

/-- The loop that fills `self.extensions`; certificates.py:127-132. -/
def readExtensions {α : Type} (lib : ExtLib α) : List Val → Dict String (ExtVal α) → Except Exc (Dict String (ExtVal α))
  | [], d => .ok d
  | e :: l, d => do
    let (n, v) ← readExtension lib e
    readExtensions lib l (d.set n v)

/-- `version.native`: a name, or the number if it has none. -/
inductive VersionVal where
  | name (s : String)
  | number (i : Int)
deriving DecidableEq, Repr

/-- `x509.Version`, with the default `v1` -/
def readVersion (v : Option Val) : Except Exc VersionVal :=
  match v with
  | none => .ok (.name "v1")
  | some x => do
    let i := intNative (← x.octets)
    .ok (if i = 0 then .name "v1" else if i = 1 then .name "v2" else if i = 2 then .name "v3" else .number i)

/-- The attributes of a `Certificate` that signify does not use itself. -/
structure CertAttrs (α : Type) where
  version : VersionVal
  extensions : Dict String (ExtVal α)

/-- `version` and `extensions` of `Certificate(data)`; certificates.py:90-132.  Simplification: the other attributes are those of
`readCert`. -/
def readCertAttrs {α : Type} (lib : ExtLib α) (p : Parts) : Except Exc (CertAttrs α) := do
  let v ← tCertificate.build none p
  let tbs ← v.req "tbs_certificate"
  let version ← readVersion (← tbs.get "version")
  let exts ← (match ← tbs.get "extensions" with
    | none => .ok []
    | some x => do readExtensions lib (← x.elems) [])
  .ok { version := version, extensions := exts }

/-- `Certificate.from_der(content)`, with all its attributes; certificates.py:90-132, 161-164.  Simplification: an extended key
usage that cannot be read is found out before other extensions that cannot. -/
def certObject {α : Type} (lib : ExtLib α) (data : Bytes) : Except Exc (Cert × CertAttrs α) := do
  let c ← certFromDer data
  let (p, _) ← parse data
  let a ← readCertAttrs lib p
  .ok (c, a)

end Signify.Asn1
