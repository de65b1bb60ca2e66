/-
Model of `signify/x509/certificates.py`, class `Certificate`, and of the external world (`Env`).
-/
import Verif.Model.Names

set_option autoImplicit false

namespace Signify

/-- `AlgorithmIdentifier.parameters` (`.native`): nothing, a string (e.g. a named curve) or a dictionary (DSA parameters). -/
inductive AlgParams where
  | none
  | str (s : String)
  | dict (l : List (String × Int))
deriving DecidableEq, Repr

/-- The subject public key info: `subject_public_algorithm` and `subject_public_key`; certificates.py:119-130. -/
structure SPKI where
  algorithm : String
  parameters : AlgParams
  key : Bytes
deriving DecidableEq, Repr

/-- A `Certificate` object after `__init__` and `_parse`; certificates.py:77-137.  `obj` is the identity of the asn1crypto object
`Certificate.data` (asn1crypto certificates are hashed by identity); `der` its encoding (`to_der`, certificates.py:179-182).  Of the extensions only the extended
key usage is used by the library.  Times are microseconds since 1601. -/
structure Cert where
  obj : Nat
  der : Bytes
  issuer : Name
  serial : Int
  subject : Name
  spki : SPKI
  validFrom : Int
  validTo : Int
  /-- `extensions.get("extended_key_usage")` -/
  eku : Option (List String)
deriving DecidableEq, Repr

/-- `Certificate.__eq__` between certificates; certificates.py:151-159. -/
def Cert.pyEq (a b : Cert) : Bool :=
  a.issuer.pyEq b.issuer && a.serial == b.serial && a.subject.pyEq b.subject &&
  (a.spki.algorithm, a.spki.parameters) == (b.spki.algorithm, b.spki.parameters) && a.spki.key == b.spki.key

/-- `certificate in l` for a list of certificates. -/
def certIn (c : Cert) (l : List Cert) : Bool := l.any (fun d => c.pyEq d)

/-- The tuple hashed by `Certificate.__hash__` (names are hashed through `rdns`); certificates.py:140-149, 285-286. -/
abbrev CertKey := List (String × NameVal) × Int × List (String × NameVal) × (String × AlgParams) × Bytes

/-- `Certificate.__hash__` up to the hash of a tuple of values: hashing a dictionary raises TypeError; certificates.py:140-149. -/
def Cert.hashKey (c : Cert) : Except Exc CertKey :=
  match c.spki.parameters with
  | .dict _ => .error ⟨.typeError, "unhashable type"⟩
  | p => .ok (c.issuer.rdns, c.serial, c.subject.rdns, (c.spki.algorithm, p), c.spki.key)

/-- The key under which `CertificateName.__hash__` hashes; certificates.py:285-286. -/
def Name.hashKey (n : Name) : List (String × NameVal) := n.rdns

/-- A hexadecimal digit. -/
def hexDigit (n : Nat) : Char := if n < 10 then Char.ofNat (48 + n) else Char.ofNat (87 + n)

/-- `bytes.hex()`: lower case hexadecimal. -/
def hexOf (b : Bytes) : String := String.ofList (b.flatMap (fun x => [hexDigit (x.toNat / 16), hexDigit (x.toNat % 16)]))

/-- A request to `certvalidator`: everything `VerificationContext.verify` hands to `ValidationContext`,
`CertificateValidator` and `validate_usage`; context.py:340-366. -/
structure ValReq where
  endEntity : Nat
  intermediates : List Nat
  trustRoots : List Nat
  moment : Option Int
  allowWeakHashes : Bool
  revocationMode : String
  allowFetching : Bool
  fetchTimeout : Nat
  crls : Option (List Nat)
  ocsps : Option (List Nat)
  keyUsages : List String
  ekus : List String
  ekuOptional : Bool
deriving DecidableEq, Repr

/-- The external world: third-party functions, about which nothing is assumed unless a theorem says so. -/
structure Env where
  /-- `hashlib.<name>(data).digest()` -/
  hash : String → Bytes → Bytes
  /-- `datetime.datetime.now(utc)`.  Simplification: the clock does not advance during one call; it does in
  `Verif/Model/Moments.lean`. -/
  now : Int
  /-- `asymmetric.load_public_key(...).algorithm` (oscrypto) -/
  loadKey : SPKI → Except Exc String
  /-- `rsa_pkcs1v15_verify` / `dsa_verify` / `ecdsa_verify` (first argument "rsa", "dsa", "ec") of a signature over data -/
  pkVerify : String → SPKI → (signature data : Bytes) → (hashName : String) → Except Exc Unit
  /-- `rsa_pkcs1v15_verify(key, signature, digest, "raw")` -/
  rawVerify : SPKI → (signature digest : Bytes) → Except Exc Unit
  /-- construction of `ValidationContext` and `CertificateValidator` (certvalidator) -/
  mkValidator : ValReq → Except Exc Unit
  /-- `CertificateValidator.validate_usage`: the chain of asn1 objects -/
  validate : ValReq → Except Exc (List Nat)

/-- `Certificate.sha256_fingerprint` / `sha1_fingerprint`; certificates.py:185-190. -/
def Cert.fingerprint (env : Env) (alg : String) (c : Cert) : String := hexOf (env.hash alg c.der)

/-- Raising an exception with a certificate in its message, `f"… {certificate} …"`: the message is put together first, and this raises
TypeError if the subject of the certificate has a value that is not text; certificates.py:134-138, 291-309.  Simplification: the message
itself is left out. -/
def raiseNaming {α : Type} (c : Cert) (e : Exc) : Except Exc α := do
  let _ ← c.subject.dn
  .error e

/-- `CertificateVerificationError(msg)`, with the certificate in the message -/
def certErr {α : Type} (c : Cert) (msg : String) : Except Exc α := raiseNaming c ⟨.certificateVerificationError, msg⟩

/-- `Certificate.verify_signature`; certificates.py:192-245. `alg` is the name of the hash algorithm. -/
def Cert.verifySignature (env : Env) (c : Cert) (signature data : Bytes) (alg : String) (allowLegacy : Bool) :
    Except Exc Unit :=
  match env.loadKey c.spki with                                               -- 214
  | .error e => .error e
  | .ok keyAlg =>
    if keyAlg = "rsa" ∨ keyAlg = "dsa" ∨ keyAlg = "ec" then                   -- 215-220
      match env.pkVerify keyAlg c.spki signature data alg with                -- 226-227
      | .ok _ => .ok ()                                                       -- 231-232
      | .error _ =>
        if !allowLegacy || keyAlg != "rsa" then certErr c "Invalid signature"   -- 228-230
        else
          match env.rawVerify c.spki signature (env.hash alg data) with       -- 234-239
          | .ok _ => .ok ()
          | .error _ => certErr c "Invalid signature (legacy attempted)"        -- 240-243
    else certErr c "Signature algorithm is unsupported"                         -- 221-224

end Signify
