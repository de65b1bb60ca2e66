/-
Specification for C94: the report on files printed by `examples/authenticode_info.py`.
-/
import Verif.Spec.PEFile
import Verif.Spec.Errors
import Verif.Model.Info

set_option autoImplicit false

namespace Signify.Spec

/-- A line with a label and a value. -/
def labelled (n : Nat) (label value : String) : String := String.ofList (List.replicate n ' ') ++ (label ++ ": " ++ value)

/-- A line with a label and a name: there is none if the name has values that are not text. -/
def named (n : Nat) (label : String) (name : Name) : Option String := name.dn.toOption.map (labelled n label)

/-- What is said about a certificate. -/
def certificateText (p : Printing) (n : Nat) (c : Cert) : List (Option String) :=
  [named n "- Subject" c.subject, named (n + 2) "Issuer" c.issuer, some (labelled (n + 2) "Serial" (toString c.serial)),
    some (labelled (n + 2) "Valid from" (p.time c.validFrom)), some (labelled (n + 2) "Valid to" (p.time c.validTo))]

/-- Who signed, by issuer and serial number. -/
def signerText (s : Signer) : List (Option String) := [named 8 "Issuer" s.issuer, some (labelled 8 "Serial" (toString s.serial))]

/-- What is said about a countersignature: by whom, and when; for a timestamp of RFC 3161 also the certificates it comes with. -/
def counterText (p : Printing) : CounterSigner → List (Option String)
  | .pkcs9 i => [some "", some "    Countersigner:"] ++ signerText i.signer ++
      [some (labelled 8 "Signing time" ((i.signer.signingTime.map p.time).getD "None"))]
  | .rfc3161 r => [some "", some "    Countersigner (nested RFC3161):"] ++ signerText r.signer ++
      [some (labelled 8 "Signing time" (p.time r.tst.signingTime)), some "        Included certificates:"] ++
      r.core.certificates.flatMap (certificateText p 10)

/-- What is said about a signature. -/
def signatureText (p : Printing) (a : AuthData) : List (Option String) :=
  [some "    Included certificates:"] ++ a.core.certificates.flatMap (certificateText p 6) ++
  [some "", some "    Signer:"] ++ signerText a.signer ++
  [some (labelled 8 "Program name" (a.programName.getD "None")), some (labelled 8 "More info" ((a.moreInfo.map p.link).getD "None"))] ++
  ((a.counter.map (counterText p)).getD []) ++
  [some "", some (labelled 4 "Digest algorithm" ("openssl_" ++ a.core.digestAlg)), some (labelled 4 "Digest" (hexOf a.spc.digest)), some ""]

/-- The names of the results of `explain_verify`. -/
def resultNames : List (VResult × String) :=
  [(.ok, "OK"), (.notSigned, "NOT_SIGNED"), (.parseError, "PARSE_ERROR"), (.verifyError, "VERIFY_ERROR"), (.unknownError, "UNKNOWN_ERROR"),
   (.certificateError, "CERTIFICATE_ERROR"), (.inconsistentDigestAlgorithm, "INCONSISTENT_DIGEST_ALGORITHM"),
   (.invalidDigest, "INVALID_DIGEST"), (.counterSignerError, "COUNTERSIGNER_ERROR")]

/-- What is said about the outcome of a verification: that it is OK, or the result documented for the exception, and the exception. -/
def VerdictText {α : Type} (p : Printing) (indent : String) (r : Except Exc α) (lines : List String) : Prop :=
  match r with
  | .ok _ => lines = [indent ++ "AuthenticodeVerificationResult.OK"]
  | .error e => ∃ v name, Documented e.cls v ∧ (v, name) ∈ resultNames ∧
      lines = [indent ++ ("AuthenticodeVerificationResult." ++ name), indent ++ p.exc e]

/-- What is said about signatures of a file, each with the outcome of its verification by default in the state `w`; at a name that
has values that are not text, TypeError is raised. -/
inductive SignaturesText (p : Printing) (env : Env) (trusted : StoreRef) (file : Bytes) (w : World) :
    List ASD → List String → Option Exc → Prop where
  | nil : SignaturesText p env trusted file w [] [] none
  | cons (a : ASD) (l : List ASD) (lines v rest : List String) (err : Option Exc) :
      signatureText p a.d = lines.map some →
      VerdictText p "    " (asdVerify env (some file) a.d { trusted := trusted } w).1 v → SignaturesText p env trusted file w l rest err →
      SignaturesText p env trusted file w (a :: l) (lines ++ v ++ ["--------"] ++ rest) err
  | stop (a : ASD) (l : List ASD) (lines : List String) (post : List (Option String)) (e : Exc) :
      signatureText p a.d = lines.map some ++ none :: post → e.cls = .typeError →
      SignaturesText p env trusted file w (a :: l) lines (some e)

/-- What is said about a file: its signatures and the outcome of its verification by default; or the signatures before one that
cannot be read, and the exception, which `verify` raises as well; or, if there is a name that is not text, what comes before it, and the
exception. -/
def FileText (p : Printing) (env : Env) (cd : Codec) (trusted : StoreRef) (w : World) (file : Bytes) (lines : List String) : Prop :=
  (∃ sds blocks v, Considered cd file true sds ∧ SignaturesText p env trusted file w sds blocks none ∧
    VerdictText p "" (peVerify env cd file { kwargs := { trusted := trusted } } w).1 v ∧ lines = blocks ++ v) ∨
  (∃ sds blocks e, Signatures cd file sds (some e) ∧ ¬ Ignorable (some e) ∧ SignaturesText p env trusted file w sds blocks none ∧
    (peVerify env cd file { kwargs := { trusted := trusted } } w).1 = .error e ∧ lines = blocks ++ [labelled 4 "Error while parsing" (p.exc e)]) ∨
  (∃ sds blocks err e, Signatures cd file sds err ∧ SignaturesText p env trusted file w sds blocks (some e) ∧
    lines = blocks ++ [labelled 4 "Error while parsing" (p.exc e)])

/-- What is said about files, each under its name. -/
inductive FilesText (p : Printing) (env : Env) (cd : Codec) (trusted : StoreRef) (w : World) :
    List (String × Except Exc Bytes) → List String → Prop where
  | nil : FilesText p env cd trusted w [] []
  | cons (name : String) (file : Bytes) (l : List (String × Except Exc Bytes)) (lines rest : List String) :
      FileText p env cd trusted w file lines → FilesText p env cd trusted w l rest →
      FilesText p env cd trusted w ((name, .ok file) :: l) ((name ++ ":") :: lines ++ rest)

/-- The trusted store can be read. -/
def CanRead (w : World) (r : StoreRef) : Prop := ∀ i certs e, r = .heap i → (w.stores i).pending = some (certs, e) → e = none

end Signify.Spec
