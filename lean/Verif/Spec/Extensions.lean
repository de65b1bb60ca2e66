/-
Extensions of certificates: what is written into a certificate, and what it is to be reported as.
-/
import Verif.Model.Extensions
import Verif.Spec.DerCms

set_option autoImplicit false

namespace Signify.Spec

open Asn1

/-- An image (SPC_IMAGE in WinTrust.h). -/
structure DLogo where
  link : Option DLink
  bitmap : Option Bytes
  metafile : Option Bytes
  enhancedMetafile : Option Bytes
  gifFile : Option Bytes

/-- SpcImage ::= SEQUENCE { imageLink [0] EXPLICIT SpcLink OPTIONAL, bitmap [1] IMPLICIT OCTET STRING OPTIONAL,
metafile [2] IMPLICIT OCTET STRING OPTIONAL, enhancedMetafile [3] IMPLICIT OCTET STRING OPTIONAL,
gifFile [4] IMPLICIT OCTET STRING OPTIONAL }: the components. -/
def DLogo.contents (i : DLogo) : Bytes :=
  derOpt (fun l : DLink => tlv 0xA0 l.encode) i.link ++ derOpt (tlv 0x81) i.bitmap ++ derOpt (tlv 0x82) i.metafile ++
    derOpt (tlv 0x83) i.enhancedMetafile ++ derOpt (tlv 0x84) i.gifFile

/-- What it says. -/
def DLogo.value (i : DLogo) : ImageVal := ⟨i.link.map DLink.value, i.bitmap, i.metafile, i.enhancedMetafile, i.gifFile⟩

/-- Information about the agency that issued a certificate (SPC_SP_AGENCY_INFO in WinTrust.h). -/
structure DAgency where
  policy : DLink
  text : Option DString
  image : Option DLogo
  link : Option DLink

/-- SpcSpAgencyInformation ::= SEQUENCE { policyInformation [0] EXPLICIT SpcLink, policyDisplayText [1] EXPLICIT SpcString OPTIONAL,
logoImage [2] IMPLICIT SpcImage OPTIONAL, logoLink [3] EXPLICIT SpcLink OPTIONAL } -/
def DAgency.encode (a : DAgency) : Bytes :=
  derSeq [tlv 0xA0 a.policy.encode, derOpt (fun s : DString => tlv 0xA1 s.encode) a.text,
    derOpt (fun i : DLogo => tlv 0xA2 i.contents) a.image, derOpt (fun l : DLink => tlv 0xA3 l.encode) a.link]

/-- What it says. -/
def DAgency.value (a : DAgency) : AgencyVal :=
  ⟨a.policy.value, a.text.map DString.text, a.image.map DLogo.value, a.link.map DLink.value⟩

/-- The texts can be encoded. -/
def DAgency.Valid (a : DAgency) : Prop :=
  a.policy.Valid ∧ (∀ s, a.text = some s → s.Valid) ∧ (∀ i l, a.image = some i → i.link = some l → l.Valid) ∧
    ∀ l, a.link = some l → l.Valid

/-- BOOLEAN (8.2, 11.1) -/
def derBool (b : Bool) : Bytes := tlv 0x01 [if b then 0xFF else 0]

/-- Financial criteria, each of them written down or left out. -/
structure DFinancial where
  available : Option Bool
  meets : Option Bool

/-- SpcFinancialCriteria ::= SEQUENCE { financialInfoAvailable BOOLEAN DEFAULT FALSE, meetsCriteria BOOLEAN DEFAULT FALSE } -/
def DFinancial.encode (f : DFinancial) : Bytes := derSeq [derOpt derBool f.available, derOpt derBool f.meets]

/-- What it says. -/
def DFinancial.value (f : DFinancial) : FinancialVal := ⟨f.available.getD false, f.meets.getD false⟩

/-- SPC_SP_AGENCY_INFO_OBJID -/
def oidAgency : List Nat := [1, 3, 6, 1, 4, 1, 311, 2, 1, 10]
/-- SPC_FINANCIAL_CRITERIA_OBJID -/
def oidFinancial : List Nat := [1, 3, 6, 1, 4, 1, 311, 2, 1, 27]

/-- Names of extensions. -/
def extensionNames : List (List Nat × String) :=
  [([2, 5, 29, 9], "subject_directory_attributes"),
   ([2, 5, 29, 14], "key_identifier"),
   ([2, 5, 29, 15], "key_usage"),
   ([2, 5, 29, 16], "private_key_usage_period"),
   ([2, 5, 29, 17], "subject_alt_name"),
   ([2, 5, 29, 18], "issuer_alt_name"),
   ([2, 5, 29, 19], "basic_constraints"),
   ([2, 5, 29, 30], "name_constraints"),
   ([2, 5, 29, 31], "crl_distribution_points"),
   ([2, 5, 29, 32], "certificate_policies"),
   ([2, 5, 29, 33], "policy_mappings"),
   ([2, 5, 29, 35], "authority_key_identifier"),
   ([2, 5, 29, 36], "policy_constraints"),
   ([2, 5, 29, 37], "extended_key_usage"),
   ([2, 5, 29, 46], "freshest_crl"),
   ([2, 5, 29, 54], "inhibit_any_policy"),
   ([1, 3, 6, 1, 5, 5, 7, 1, 1], "authority_information_access"),
   ([1, 3, 6, 1, 5, 5, 7, 1, 11], "subject_information_access"),
   ([1, 3, 6, 1, 5, 5, 7, 1, 24], "tls_feature"),
   ([1, 3, 6, 1, 5, 5, 7, 48, 1, 5], "ocsp_no_check"),
   ([1, 2, 840, 113533, 7, 65, 0], "entrust_version_extension"),
   ([2, 16, 840, 1, 113730, 1, 1], "netscape_certificate_type"),
   ([1, 3, 6, 1, 4, 1, 11129, 2, 4, 2], "signed_certificate_timestamp_list"),
   ([1, 3, 6, 1, 4, 1, 311, 20, 2], "microsoft_enroll_certtype"),
   ([1, 3, 6, 1, 4, 1, 311, 2, 1, 10], "microsoft_spc_sp_agency_info"),
   ([1, 3, 6, 1, 4, 1, 311, 2, 1, 27], "microsoft_spc_financial_criteria")]

/-- The extension is to be reported under this name, with this value. -/
inductive Says {α : Type} (lib : ExtLib α) : DExt → String → ExtVal α → Prop where
  | usages (critical : Bool) (l : List (List Nat)) :
      Says lib (.eku critical l) "extended_key_usage" (.usages (l.map (nameIn purposeNames)))
  | agency (critical : Bool) (a : DAgency) : a.Valid →
      Says lib (.other oidAgency critical a.encode) "microsoft_spc_sp_agency_info" (.agency a.value)
  /-- both criteria are written down -/
  | financial (critical : Bool) (a b : Bool) :
      Says lib (.other oidFinancial critical (DFinancial.encode ⟨some a, some b⟩)) "microsoft_spc_financial_criteria"
        (.financial ⟨a, b⟩)
  /-- a type that the ASN.1 library knows -/
  | known (o : List Nat) (critical : Bool) (v : Bytes) (f : Bytes → Except Exc α) (x : α) : o ≠ oidAgency → o ≠ oidFinancial →
      lib (nameIn extensionNames o) = some f → f v = .ok x → Says lib (.other o critical v) (nameIn extensionNames o) (.lib x)
  /-- a type that nobody knows -/
  | unknown (o : List Nat) (critical : Bool) (v : Bytes) : o ≠ oidAgency → o ≠ oidFinancial →
      lib (nameIn extensionNames o) = none → Says lib (.other o critical v) (nameIn extensionNames o) (.octets v)

/-- The name of a version. -/
def versionName : Option Int → VersionVal
  | none => .name "v1"
  | some 0 => .name "v1"
  | some 1 => .name "v2"
  | some 2 => .name "v3"
  | some i => .number i

end Signify.Spec
