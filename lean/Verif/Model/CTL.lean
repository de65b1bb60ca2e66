/-
Model of `signify/authenticode/authroot.py`.
-/
import Verif.Model.X509
import Verif.Model.FileTime

set_option autoImplicit false

namespace Signify

/-- An element of the `values` of a CTL subject attribute, before `.native`, by the type that `_oid_specs` selects
(ctl.py:148-163). -/
inductive CtlRaw where
  /-- `ExtKeyUsageSyntax` -/
  | ekus (l : List String)
  /-- `FileTime` -/
  | fileTime (contents : Bytes)
  /-- `CTLString` -/
  | str (s : String)
  /-- plain `OctetString` -/
  | octets (b : Bytes)
  /-- contents that asn1crypto cannot decode as the type selected: the exception that looking at them raises -/
  | bad (e : Exc)
deriving DecidableEq, Repr

/-- A native value of a CTL subject attribute. -/
inductive CtlVal where
  | ekus (l : List String)
  | time (t : Option Int)
  | str (s : String)
  | octets (b : Bytes)
deriving DecidableEq, Repr

/-- `.native` of an attribute value. -/
def CtlRaw.native : CtlRaw → Except Exc CtlVal
  | .ekus l => .ok (.ekus l)
  | .fileTime c => (fileTimeNative c).map .time
  | .str s => .ok (.str s)
  | .octets b => .ok (.octets b)
  | .bad e => .error e

/-- The raw `TrustedSubject`. -/
structure RawSubject where
  identifier : Bytes
  attributes : List (String × List CtlRaw)
deriving DecidableEq, Repr

/-- `.native` of all the values of an attribute. -/
def nativeAll : List CtlRaw → Except Exc (List CtlVal)
  | [] => .ok []
  | r :: l =>
    match r.native with
    | .error e => .error e
    | .ok v => match nativeAll l with
      | .error e => .error e
      | .ok vs => .ok (v :: vs)

/-- The dictionary comprehension `{type: values.native[0]}`; authroot.py:265-268. -/
def subjectAttributes : List (String × List CtlRaw) → Dict String CtlVal → Except Exc (Dict String CtlVal)
  | [], d => .ok d
  | (t, vs) :: l, d =>
    match nativeAll vs with
    | .error e => .error e
    | .ok [] => .error ⟨.indexError, "list index out of range"⟩
    | .ok (v :: _) => subjectAttributes l (d.set t v)

/-- A `CertificateTrustSubject`; authroot.py:244-301.  The attributes with a default are not used by `verify_trust`. -/
structure CtlSubject where
  identifier : Bytes
  ekus : Option (List String)
  disallowedTime : Option Int
  disallowedEkus : Option (List String)
  notBeforeTime : Option Int
  notBeforeEkus : Option (List String)
  friendlyName : Option String := none
  keyIdentifier : Bytes := []
  subjectNameMd5 : Bytes := []
  authRootSha256 : Bytes := []
  chainPolicies : Option (List String) := none
deriving DecidableEq, Repr

/-- `attributes.get(t, None)` for an attribute holding EKUs (the asn1 specs guarantee the type). -/
def getEkus (d : Dict String CtlVal) (t : String) : Option (List String) :=
  match d.get? t with
  | some (.ekus l) => some l
  | _ => none

/-- `attributes.get(t, None)` for an attribute holding a time. -/
def getTime (d : Dict String CtlVal) (t : String) : Option Int :=
  match d.get? t with
  | some (.time x) => x
  | _ => none

/-- `attributes.get(t, None)` for an attribute holding a string. -/
def getStr (d : Dict String CtlVal) (t : String) : Option String :=
  match d.get? t with
  | some (.str x) => some x
  | _ => none

/-- `attributes.get(t, b"")` for an attribute holding bytes. -/
def getOctets (d : Dict String CtlVal) (t : String) : Bytes :=
  match d.get? t with
  | some (.octets b) => b
  | _ => []

/-- `CertificateTrustSubject._parse`; authroot.py:263-301. -/
def parseSubject (r : RawSubject) : Except Exc CtlSubject :=
  match subjectAttributes r.attributes [] with
  | .error e => .error e
  | .ok d => .ok {
      identifier := r.identifier
      ekus := getEkus d "microsoft_ctl_enhkey_usage"
      disallowedTime := getTime d "microsoft_ctl_disallowed_filetime"
      disallowedEkus := getEkus d "microsoft_ctl_disallowed_enhkey_usage"
      notBeforeTime := getTime d "microsoft_ctl_not_before_filetime"
      notBeforeEkus := getEkus d "microsoft_ctl_not_before_enhkey_usage"
      friendlyName := getStr d "microsoft_ctl_friendly_name"
      keyIdentifier := getOctets d "microsoft_ctl_key_identifier"
      subjectNameMd5 := getOctets d "microsoft_ctl_subject_name_md5_hash"
      authRootSha256 := getOctets d "microsoft_ctl_auth_root_sha256_hash"
      chainPolicies := getEkus d "microsoft_ctl_root_program_chain_policies" }

/-- A `CertificateTrustList`; authroot.py:85-111. -/
structure CTL where
  algorithm : String
  subjects : Dict String CtlSubject
deriving DecidableEq, Repr

/-- The loop of `CertificateTrustList._parse`; authroot.py:105-110. -/
def parseSubjects : List RawSubject → Dict String CtlSubject → Except Exc (Dict String CtlSubject)
  | [], d => .ok d
  | r :: l, d =>
    match parseSubject r with
    | .error e => .error e
    | .ok s => parseSubjects l (d.set (hexOf s.identifier) s)

/-- `hashing.py:12`, worst to best. -/
def acceptedDigests : List String := ["md5", "sha1", "sha256", "sha384", "sha512"]

/-- `_get_digest_algorithm`; hashing.py:15-25.  `params` is the truth value of `algorithm["parameters"].native`. -/
def getDigestAlgorithm (alg : String) (params : Bool) (acceptable : List String) : Except Exc String :=
  if alg ∉ acceptable then .error ⟨.parseError, "digest algorithm not accepted"⟩
  else if params then .error ⟨.parseError, "parameters set, which is unexpected"⟩
  else .ok alg

/-- The part of `CertificateTrustList._parse` concerning subjects; authroot.py:101-110. -/
def parseCTL (alg : String) (params : Bool) (subjects : List RawSubject) : Except Exc CTL :=
  match getDigestAlgorithm alg params acceptedDigests with
  | .error e => .error e
  | .ok alg => match parseSubjects subjects [] with
    | .error e => .error e
    | .ok d => .ok ⟨alg, d⟩

/-- `CertificateTrustList.find_subject`; authroot.py:136-155. -/
def CTL.findSubject (env : Env) (ctl : CTL) (c : Cert) : Except Exc (Option CtlSubject) :=
  if ctl.algorithm = "sha1" then .ok (ctl.subjects.get? (c.fingerprint env "sha1"))
  else if ctl.algorithm = "sha256" then .ok (ctl.subjects.get? (c.fingerprint env "sha256"))
  else .error ⟨.ctlParseError, "The specified subject algorithm is not yet supported."⟩

/-- `CTLCertificateVerificationError(msg)` -/
def ctlErr {α : Type} (msg : String) : Except Exc α := .error ⟨.ctlCertificateVerificationError, msg⟩

/-- `set(requested) - set(listed)` is non-empty. -/
def notAll (requested listed : List String) : Bool := requested.any (fun e => !listed.contains e)

/-- `any(eku in listed for eku in requested)` -/
def anyOf (requested listed : List String) : Bool := requested.any (fun e => listed.contains e)

/-- The EKU check of `CertificateTrustSubject.verify_trust`; authroot.py:322-329. -/
def CtlSubject.ekusBad (s : CtlSubject) (requested : List String) : Bool :=
  match s.ekus with
  | some (e :: l) => notAll requested (e :: l)
  | _ => false

/-- `disallowed_filetime`/`not_before_filetime` with their EKUs: whether the test at authroot.py:333-362 (366-393) raises, at
time `t`. -/
def restricted (time : Option Int) (ekus : Option (List String)) (requested : List String) (t : Int) : Bool :=
  match time with
  | some x =>
    if t ≥ x then
      match ekus with
      | none => true
      | some l => anyOf requested l
    else false
  | none =>
    match ekus with
    | none => false
    | some l => anyOf requested l

/-- `CertificateTrustSubject.verify_trust(chain, context)`, given `set(context.extended_key_usages or ())` and the context's
timestamp (or now); authroot.py:303-395.  `chain` is not empty (`chain[0]` has been read before). -/
def CtlSubject.verifyTrust (s : CtlSubject) (chain : List Cert) (requested : List String) (timestamp : Int) : Except Exc Unit :=
  if s.ekusBad requested then ctlErr "extended key usages not present"        -- 322-329
  else
    match chain.getLast? with
    | none => .error ⟨.indexError, "list index out of range"⟩
    | some leaf =>
      if restricted s.notBeforeTime s.notBeforeEkus requested leaf.validFrom then
        ctlErr "disallowed for certificates issued after"                     -- 333-362
      else if restricted s.disallowedTime s.disallowedEkus requested timestamp then
        ctlErr "disallowed since"                                             -- 366-393
      else .ok ()

end Signify
