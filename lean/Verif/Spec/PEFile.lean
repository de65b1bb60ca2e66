/-
Specification vocabulary for `SignedPEFile`: the signatures of a file, the digests they are verified against, and the meaning of
the verification modes.
-/
import Verif.Model.PEFile
import Verif.Spec.Verify
import Verif.Spec.Pkcs7

set_option autoImplicit false

namespace Signify.Spec

open Signify

/-! ### The signatures of a file -/

mutual
/-- The signatures in `l` are `a` followed by the signatures nested in it, depth first. -/
inductive PreOrder : ASD → List ASD → Prop where
  | mk (d : AuthData) (nested l : List ASD) : PreOrderAll nested l → PreOrder (.mk d nested) (.mk d nested :: l)
/-- Likewise for several signatures, one after the other. -/
inductive PreOrderAll : List ASD → List ASD → Prop where
  | nil : PreOrderAll [] []
  | cons (a : ASD) (as l l' : List ASD) : PreOrder a l → PreOrderAll as l' → PreOrderAll (a :: as) (l ++ l')
end

/-- The entry of the certificate table has the known revision and, if it is a PKCS#7 entry (type 2), can be read. -/
def GoodEntry (cd : Codec) (c : CertEntry) : Prop := c.revision = 0x200 ∧ (c.type = 2 → ∃ a, fromEnvelope cd c.certificate = .ok a)

/-- The signature held by the entry, if it is a PKCS#7 entry. -/
def signatureIn (cd : Codec) (c : CertEntry) : Option ASD := if c.type = 2 then (fromEnvelope cd c.certificate).toOption else none

/-- Why reading the signatures stops before the entries `rest`, `tops` having been read: an entry of unknown revision, a PKCS#7 entry
that cannot be read, an error in the table after its last entry, or no signature at all; or else it does not. -/
inductive Stops (cd : Codec) (tableError : Option Exc) (tops : List ASD) : List CertEntry → Option Exc → Prop where
  | revision (c : CertEntry) (rest : List CertEntry) (msg : String) : c.revision ≠ 0x200 →
      Stops cd tableError tops (c :: rest) (some ⟨.signedPEParseError, msg⟩)
  | unreadable (c : CertEntry) (rest : List CertEntry) (e : Exc) : c.revision = 0x200 → c.type = 2 →
      fromEnvelope cd c.certificate = .error e → Stops cd tableError tops (c :: rest) (some e)
  | table (e : Exc) : tableError = some e → Stops cd tableError tops [] (some e)
  | unsigned (msg : String) : tableError = none → tops = [] → Stops cd tableError tops [] (some ⟨.signedPEParseError, msg⟩)
  | complete : tableError = none → tops ≠ [] → Stops cd tableError tops [] none

/-- `tops` are the signatures in the entries of the certificate table before the first error, which is `err`. -/
def TopLevel (cd : Codec) (file : Bytes) (tops : List ASD) (err : Option Exc) : Prop :=
  ∃ pre rest, (parseCertTable file).1 = pre ++ rest ∧ (∀ c ∈ pre, GoodEntry cd c) ∧ tops = pre.filterMap (signatureIn cd) ∧
    Stops cd (parseCertTable file).2 tops rest err

/-- All signatures of the file before the first error, with the nested ones. -/
def Signatures (cd : Codec) (file : Bytes) (sds : List ASD) (err : Option Exc) : Prop :=
  ∃ tops, TopLevel cd file tops err ∧ PreOrderAll tops sds

/-- The error is one that `ignore_parse_errors` suppresses. -/
def Ignorable (err : Option Exc) : Prop := ∀ e, err = some e → e.is .signedPEParseError = true

/-- The signatures that `verify` considers: all signatures before the first error, provided that error is one to be ignored (or that
there is none). -/
def Considered (cd : Codec) (file : Bytes) (ignoreParseErrors : Bool) (sds : List ASD) : Prop :=
  ∃ err, Signatures cd file sds err ∧ (err = none ∨ ignoreParseErrors = true ∧ Ignorable err)

/-! ### Verification -/

/-- Strength of a digest algorithm. -/
def strength (alg : String) : Nat :=
  if alg = "sha512" then 5 else if alg = "sha384" then 4 else if alg = "sha256" then 3 else if alg = "sha1" then 2
  else if alg = "md5" then 1 else 0

/-- The digest algorithm of the signature is at least as strong as that of any of `sds`. -/
def Strongest (sds : List ASD) (a : ASD) : Prop := ∀ b ∈ sds, strength b.d.core.digestAlg ≤ strength a.d.core.digestAlg

/-- The signatures to look at according to the mode: only the first one; those with the strongest algorithm; or all. -/
inductive Selected (mode : String) (sds : List ASD) : List ASD → Prop where
  | first (a : ASD) (rest : List ASD) : mode = "first" → sds = a :: rest → Selected mode sds [a]
  | best (sel : List ASD) : mode = "best" → sel.Sublist sds → (∀ a ∈ sel, Strongest sds a) →
      (∀ l : List ASD, l.Sublist sds → (∀ a ∈ l, Strongest sds a) → l.length ≤ sel.length) → Selected mode sds sel
  | all : mode ≠ "first" → mode ≠ "best" → Selected mode sds sds

/-- The digest a signature with the given algorithm is verified against: that of the caller, if provided, else the authentihash of
the file. -/
def DigestFor (env : Env) (file : Bytes) (provided : Dict String Bytes) (alg : String) (d : Bytes) : Prop :=
  provided.get? alg = some d ∨
  (provided.get? alg = none ∧ ∀ bs : Int, 1 ≤ bs → Authentihash env.hash alg bs file d)

/-- Verification of some signatures one after the other, with their outcomes. -/
inductive Attempts (env : Env) (file : Bytes) (provided : Dict String Bytes) (kwargs : VerifyArgs) :
    World → List (ASD × Except Exc (List (List Cert))) → World → Prop where
  | nil (w : World) : Attempts env file provided kwargs w [] w
  | cons (a : ASD) (d : Bytes) (w w' : World) (l : List (ASD × Except Exc (List (List Cert)))) :
      DigestFor env file provided a.d.core.digestAlg d →
      Attempts env file provided kwargs (asdVerify env (some file) a.d { kwargs with expectedHash := some d } w).2 l w' →
      Attempts env file provided kwargs w
        ((a, (asdVerify env (some file) a.d { kwargs with expectedHash := some d } w).1) :: l) w'

/-- The modes in which every signature looked at must verify. -/
def Strict (mode : String) : Prop := mode = "all" ∨ mode = "first"

/-- What `verify` makes of the outcomes of the signatures tried, `rest` being those that it does not try.  Strict modes: the chains of
all signatures, or the first error.  Other modes: the chains of the first signature that verifies, or the last error. -/
inductive Overall (mode : String) : List (ASD × Except Exc (List (List Cert))) → List ASD →
    Except Exc (List (ASD × List (List Cert))) → Prop where
  | allVerify (l : List (ASD × List (List Cert))) : Strict mode → Overall mode (l.map (fun p => (p.1, .ok p.2))) [] (.ok l)
  | firstFailure (l : List (ASD × List (List Cert))) (a : ASD) (e : Exc) (rest : List ASD) : Strict mode →
      Overall mode (l.map (fun p => (p.1, .ok p.2)) ++ [(a, .error e)]) rest (.error e)
  | firstSuccess (l : List (ASD × Exc)) (a : ASD) (c : List (List Cert)) (rest : List ASD) : ¬ Strict mode →
      Overall mode (l.map (fun p => (p.1, .error p.2)) ++ [(a, .ok c)]) rest (.ok [(a, c)])
  | allFail (l : List (ASD × Exc)) (a : ASD) (e : Exc) : ¬ Strict mode →
      Overall mode (l.map (fun p => (p.1, .error p.2)) ++ [(a, .error e)]) [] (.error e)

/-- The hash constructors of Python's `hashlib`. -/
def hashConstructors : List String :=
  ["md5", "sha1", "sha224", "sha256", "sha384", "sha512", "blake2b", "blake2s", "sha3_224", "sha3_256", "sha3_384", "sha3_512",
   "shake_128", "shake_256"]

/-- The keys of the dictionary are names of hash constructors. -/
def HashNames (d : Dict String Bytes) : Prop := ∀ k v, (k, v) ∈ d → k ∈ hashConstructors

/-- The digests provided by the caller. -/
def providedBy (w : World) (args : PEVerifyArgs) : Dict String Bytes :=
  match args.expectedHashes with
  | none => []
  | some i => w.dicts i

/-- The states differ at most in the dictionaries of the caller. -/
def ExceptDicts (w w' : World) : Prop := w'.stores = w.stores ∧ w'.ctxs = w.ctxs ∧ w'.nextCtx = w.nextCtx

/-- The outcome of verifying just this signature of the file, in the state `w`. -/
def Alone (env : Env) (file : Bytes) (provided : Dict String Bytes) (kwargs : VerifyArgs) (w : World) (a : ASD)
    (r : Except Exc (List (List Cert))) : Prop :=
  ∃ d, DigestFor env file provided a.d.core.digestAlg d ∧ (asdVerify env (some file) a.d { kwargs with expectedHash := some d } w).1 = r

/-- Verification of a signature is independent of the signatures verified before. -/
def HistoryFree (env : Env) (file : Bytes) (provided : Dict String Bytes) (kwargs : VerifyArgs) (w : World) : Prop :=
  ∀ w0 tried w1, ExceptDicts w w0 → Attempts env file provided kwargs w0 tried w1 → ∀ a d,
    (asdVerify env (some file) a { kwargs with expectedHash := some d } w1).1 =
    (asdVerify env (some file) a { kwargs with expectedHash := some d } w).1

/-- The same call in another mode. -/
def _root_.Signify.PEVerifyArgs.inMode (args : PEVerifyArgs) (mode : String) : PEVerifyArgs := { args with multiVerifyMode := mode }

/-- Two states that differ at most in the order of the entries of dictionaries. -/
structure SameLookups (u v : World) : Prop where
  stores : u.stores = v.stores
  ctxs : u.ctxs = v.ctxs
  next : u.nextCtx = v.nextCtx
  dicts : ∀ i n, (u.dicts i).get? n = (v.dicts i).get? n

end Signify.Spec
