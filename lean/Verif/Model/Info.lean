/-
Model of `examples/authenticode_info.py`: what it prints.  A line is the text of one call of `print`.
-/
import Verif.Model.PEFile
import Verif.Model.Listing

set_option autoImplicit false

namespace Signify

/-- How times, links and exceptions are printed.  Simplification: left open. -/
structure Printing where
  time : Int → String
  link : LinkVal → String
  exc : Exc → String

/-- `"{}".format(x)` for something that may be None. -/
def orNone {α : Type} (f : α → String) (x : Option α) : String :=
  match x with
  | none => "None"
  | some a => f a

/-- `print(label.format(name.dn))`. -/
def dnLine (label : String) (n : Name) : Except Exc String := do
  let dn ← n.dn
  .ok (label ++ dn)

/-- The lines for a certificate; authenticode_info.py:18-22, 52-56. -/
def infoCert (p : Printing) (indent : String) (c : Cert) : List (Except Exc String) :=
  [dnLine (indent ++ "- Subject: ") c.subject,
   dnLine (indent ++ "  Issuer: ") c.issuer,
   .ok (indent ++ "  Serial: " ++ toString c.serial),
   .ok (indent ++ "  Valid from: " ++ p.time c.validFrom),
   .ok (indent ++ "  Valid to: " ++ p.time c.validTo)]

/-- The lines for the countersigner; authenticode_info.py:31-56.  A `CounterSignerInfo` has an `issuer` and neither a `signer_info` nor
`certificates`; an `RFC3161SignedData` the other way round. -/
def infoCounter (p : Printing) (c : CounterSigner) : List (Except Exc String) :=
  match c with
  | .pkcs9 i =>
    [.ok "",
     .ok "    Countersigner:",
     dnLine "        Issuer: " i.signer.issuer,
     .ok ("        Serial: " ++ toString i.signer.serial),
     .ok ("        Signing time: " ++ orNone p.time c.signingTime)]
  | .rfc3161 r =>
    [.ok "",
     .ok "    Countersigner (nested RFC3161):",
     dnLine "        Issuer: " r.signer.issuer,
     .ok ("        Serial: " ++ toString r.signer.serial),
     .ok ("        Signing time: " ++ orNone p.time c.signingTime),
     .ok "        Included certificates:"] ++ r.core.certificates.flatMap (infoCert p "          ")

/-- The lines for a signature, up to the verdict; authenticode_info.py:16-62.  The name of a hash function of `hashlib` is that of the
algorithm, after `openssl_`. -/
def infoSignature (p : Printing) (a : AuthData) : List (Except Exc String) :=
  .ok "    Included certificates:" :: a.core.certificates.flatMap (infoCert p "      ") ++
  [.ok "",
   .ok "    Signer:",
   dnLine "        Issuer: " a.signer.issuer,
   .ok ("        Serial: " ++ toString a.signer.serial),
   .ok ("        Program name: " ++ orNone (fun s => s) a.programName),
   .ok ("        More info: " ++ orNone p.link a.moreInfo)] ++
  (match a.counter with
   | none => []
   | some c => infoCounter p c) ++
  [.ok "",
   .ok ("    Digest algorithm: openssl_" ++ a.core.digestAlg),
   .ok ("    Digest: " ++ hexOf a.spc.digest),
   .ok ""]

/-- `str(result)`; structures.py:82-115. -/
def VResult.str (r : VResult) : String :=
  "AuthenticodeVerificationResult." ++
  (match r with
   | .ok => "OK"
   | .notSigned => "NOT_SIGNED"
   | .parseError => "PARSE_ERROR"
   | .verifyError => "VERIFY_ERROR"
   | .unknownError => "UNKNOWN_ERROR"
   | .certificateError => "CERTIFICATE_ERROR"
   | .inconsistentDigestAlgorithm => "INCONSISTENT_DIGEST_ALGORITHM"
   | .invalidDigest => "INVALID_DIGEST"
   | .counterSignerError => "COUNTERSIGNER_ERROR")

/-- The lines for a verdict; authenticode_info.py:64-67, 70-73. -/
def infoVerdict (p : Printing) (indent : String) (v : VResult × Option Exc) : List String :=
  (indent ++ v.1.str) ::
  (match v.2 with
   | none => []
   | some e => [indent ++ p.exc e])

/-- The loop over the signatures; authenticode_info.py:15-68: the lines printed, and the exception that ends it.  `trusted` is the
default of `trusted_certificate_store`. -/
def infoSignatures (p : Printing) (env : Env) (trusted : StoreRef) (file : Bytes) : List ASD → M (List String × Option Exc)
  | [] => pure ([], none)
  | a :: l =>
    match printLines (infoSignature p a.d) with
    | (lines, some e) => pure (lines, some e)
    | (lines, none) => do
      let v ← asdExplainVerify env (some file) a.d { trusted := trusted }     -- 64
      let rest ← infoSignatures p env trusted file l
      pure (lines ++ infoVerdict p "    " v ++ ["--------"] ++ rest.1, rest.2)

/-- The lines for an open file; authenticode_info.py:13-76. -/
def infoFile (p : Printing) (env : Env) (cd : Codec) (trusted : StoreRef) (file : Bytes) : M (List String) := do
  let g := iterSignedDatas cd file true true                                  -- 15
  let lines ← infoSignatures p env trusted file g.1
  match lines.2.orElse (fun _ => g.2) with
  | some e => pure (lines.1 ++ ["    Error while parsing: " ++ p.exc e])      -- 75-76
  | none => do
    let v ← peExplainVerify env cd file { kwargs := { trusted := trusted } }  -- 70
    pure (lines.1 ++ infoVerdict p "" v)

/-- `main(*filenames)`; authenticode_info.py:7-76: the lines printed, and the exception that ends it.  A file is its name with its
content or with the exception raised on opening it. -/
def infoMain (p : Printing) (env : Env) (cd : Codec) (trusted : StoreRef) :
    List (String × Except Exc Bytes) → World → (List String × Option Exc)
  | [], _ => ([], none)
  | (name, .error e) :: _, _ => ([name ++ ":"], some e)                       -- 11-12
  | (name, .ok file) :: rest, w =>
    match infoFile p env cd trusted file w with
    | (.error e, _) => ([name ++ ":"], some e)
    | (.ok lines, w') =>
      let (more, e) := infoMain p env cd trusted rest w'
      ((name ++ ":") :: lines ++ more, e)

end Signify
