/-
Model of `signify/authenticode/signed_pe.py`: `iter_signed_datas`, `verify`, `explain_verify`.
-/
import Verif.Model.Verify

set_option autoImplicit false

namespace Signify

mutual
/-- `recursive_nested(signed_data)` with `include_nested`; signed_pe.py:297-303. -/
def ASD.preorder : ASD → List ASD
  | .mk d nested => .mk d nested :: preorderAll nested
/-- the loop over `nested_signed_datas`; signed_pe.py:301-303. -/
def preorderAll : List ASD → List ASD
  | [] => []
  | a :: l => a.preorder ++ preorderAll l
end

/-- `recursive_nested(signed_data)`; signed_pe.py:297-303. -/
def recursiveNested (includeNested : Bool) (a : ASD) : List ASD := if includeNested then a.preorder else [a]

/-- The loop over the certificate table in `iter_signed_datas`; signed_pe.py:306-325.  `last` is the exception that ends
`_parse_cert_table()` after its last entry, if any. -/
def signedDatasLoop (cd : Codec) (includeNested : Bool) (last : Option Exc) : List CertEntry → Bool → Gen ASD
  | [], found =>
    match last with
    | some e => ([], some e)
    | none =>
      if !found then ([], some ⟨.signedPEParseError, "A SignedData structure was not found"⟩)  -- 320-324
      else ([], none)
  | c :: l, found =>
    if c.revision ≠ 0x200 then ([], some ⟨.signedPEParseError, "Unknown certificate revision"⟩)  -- 308-311
    else if c.type = 2 then                                                   -- 313
      match fromEnvelope cd c.certificate with                                -- 314-318
      | .error e => ([], some e)
      | .ok a =>
        let (rest, e) := signedDatasLoop cd includeNested last l true
        (recursiveNested includeNested a ++ rest, e)
    else signedDatasLoop cd includeNested last l found

/-- `iter_signed_datas(include_nested, ignore_parse_errors)`; signed_pe.py:266-325.  The property `signed_datas` is the call with the
defaults, both true; signed_pe.py:258-264. -/
def iterSignedDatas (cd : Codec) (file : Bytes) (includeNested ignoreParseErrors : Bool) : Gen ASD :=
  let (entries, last) := parseCertTable file
  let (sds, e) := signedDatasLoop cd includeNested last entries false
  match e with
  | some e => if e.is .signedPEParseError && ignoreParseErrors then (sds, none) else (sds, some e)  -- 323-325
  | none => (sds, none)

/-- `list(generator)`: raises if the generator does. -/
def Gen.toList {α : Type} (g : Gen α) : Except Exc (List α) :=
  match g with
  | (l, none) => .ok l
  | (_, some e) => .error e

/-- Names of the hash constructors of `hashlib`.  Simplification: its other attributes (`new`, `algorithms_available`, …) are
treated as absent, and `digest()` of all of them is taken to need no argument (that of shake_128 and shake_256 needs a length, and
raises TypeError without). -/
def hashlibNames : List String :=
  ["md5", "sha1", "sha224", "sha256", "sha384", "sha512", "blake2b", "blake2s", "sha3_224", "sha3_256", "sha3_384", "sha3_512",
   "shake_128", "shake_256"]

/-- The algorithms of the signatures without repetition.  Simplification: the order of a Python set is arbitrary; here it is
the order of first occurrence.  `peVerifyInOrder` below has any other order, and `C19_set_order` says that it does not matter. -/
def dedupNames : List String → List String
  | [] => []
  | a :: l => a :: (dedupNames l).filter (fun x => x ≠ a)

/-- The part of `_calculate_expected_hashes` computing the digests to add; signed_pe.py:346-360. -/
def neededHashes (env : Env) (file : Bytes) (algs : List String) (provided : Dict String Bytes) :
    Except Exc (Dict String Bytes) := do
  if !(provided.all (fun kv => hashlibNames.contains kv.1)) then              -- 352
    .error ⟨.attributeError, "module 'hashlib' has no attribute"⟩
  else
    let needed := (dedupNames algs).filter (fun a => (provided.get? a).isNone)  -- 353
    if needed.isEmpty then .ok []                                             -- 356
    else
      match (FP.new file).addAuthenticodeHashers needed with                  -- 357-358
      | (.error e, _) => .error e
      | (.ok _, fp) => do
        let res ← hashesOf env fp                                             -- 359
        match res.get? "authentihash" with
        | none => .error ⟨.keyError, "authentihash"⟩
        | some ds => .ok ds

/-- `_calculate_expected_hashes(signed_datas, expected_hashes)`; signed_pe.py:327-360.  A dictionary given by the caller is
updated in place. -/
def calculateExpectedHashes (env : Env) (file : Bytes) (algs : List String) (expected : Option Nat) : M (Dict String Bytes) :=
  match expected with
  | none => do
    let more ← M.lift (neededHashes env file algs [])
    pure (Dict.update [] more)
  | some i => do
    let d ← M.getDict i
    let more ← M.lift (neededHashes env file algs d)
    M.setDict i (d.update more)
    pure (d.update more)

/-- The keyword arguments of `SignedPEFile.verify`; signed_pe.py:362-369. `kwargs` are handed on to
`AuthenticodeSignedData.verify`; `expectedHash` of them is set by the loop (that `expected_hash` among the arguments of the caller is a
TypeError is in Model/Keywords.lean). -/
structure PEVerifyArgs where
  multiVerifyMode : String := "any"
  expectedHashes : Option Nat := none
  ignoreParseErrors : Bool := true
  kwargs : VerifyArgs

/-- Index of an accepted algorithm (worst to best); signed_pe.py:428-432. -/
def algRank (alg : String) : Nat := acceptedDigests.idxOf alg

/-- `max(...)` by rank: Python returns the first maximal element. -/
def bestAlg : List String → Option String
  | [] => none
  | a :: l => match bestAlg l with
    | none => some a
    | some b => if algRank a ≥ algRank b then some a else some b

/-- Selection of the signatures by mode; signed_pe.py:421-436. -/
def selectSignatures (mode : String) (sds : List ASD) : List ASD :=
  if mode = "first" then sds.take 1
  else if mode = "best" then
    match bestAlg (sds.map (fun a => a.d.core.digestAlg)) with
    | none => []
    | some b => sds.filter (fun a => a.d.core.digestAlg = b)
  else sds

/-- Verification of one signature inside the loop; signed_pe.py:445-455. -/
def verifyOne (env : Env) (file : Bytes) (hashes : Dict String Bytes) (kwargs : VerifyArgs) (a : ASD) : M (List (List Cert)) :=
  match hashes.get? a.d.core.digestAlg with
  | none => M.raise ⟨.keyError, a.d.core.digestAlg⟩
  | some h => asdVerify env (some file) a.d { kwargs with expectedHash := some h }

/-- The loop of `verify`; signed_pe.py:438-464.  `check` verifies one signature. -/
def verifyLoop (check : ASD → M (List (List Cert))) (mode : String) :
    List ASD → List (ASD × List (List Cert)) → Option Exc → M (List (ASD × List (List Cert)))
  | [], chains, none => pure chains                                           -- 462-463
  | [], _, some e => M.raise e                                                -- 464
  | a :: l, chains, lastError => do
    match ← M.attempt (check a) with
    | .error e =>
      if mode = "all" ∨ mode = "first" then M.raise e                         -- 456-460
      else verifyLoop check mode l chains (some e)
    | .ok c =>
      if mode = "all" ∨ mode = "first" then verifyLoop check mode l (chains ++ [(a, c)]) lastError
      else pure [(a, c)]                                                      -- 459-461 (`chains[-1:]`)

/-- `SignedPEFile.verify(...)`; signed_pe.py:362-464. -/
def peVerify (env : Env) (cd : Codec) (file : Bytes) (args : PEVerifyArgs) : M (List (ASD × List (List Cert))) := do
  let sds ← M.lift (iterSignedDatas cd file true args.ignoreParseErrors).toList  -- 408-411
  if sds.isEmpty then M.raise ⟨.authenticodeNotSigned, "No valid SignedData structure was found."⟩  -- 414-415
  else
    let sel := selectSignatures args.multiVerifyMode sds
    let hashes ← calculateExpectedHashes env file (sel.map (fun a => a.d.core.digestAlg)) args.expectedHashes  -- 438
    verifyLoop (verifyOne env file hashes args.kwargs) args.multiVerifyMode sel [] none

/-- `SignedPEFile.verify(...)` as above, when the set of algorithms of `_calculate_expected_hashes` (signed_pe.py:346-358) is iterated in
the order in which `order` lists its members. -/
def peVerifyInOrder (order : List String → List String) (env : Env) (cd : Codec) (file : Bytes) (args : PEVerifyArgs) :
    M (List (ASD × List (List Cert))) := do
  let sds ← M.lift (iterSignedDatas cd file true args.ignoreParseErrors).toList
  if sds.isEmpty then M.raise ⟨.authenticodeNotSigned, "No valid SignedData structure was found."⟩
  else
    let sel := selectSignatures args.multiVerifyMode sds
    let hashes ← calculateExpectedHashes env file (order (sel.map (fun a => a.d.core.digestAlg))) args.expectedHashes
    verifyLoop (verifyOne env file hashes args.kwargs) args.multiVerifyMode sel [] none

/-- `SignedPEFile.explain_verify(...)`; signed_pe.py:466-480. -/
def peExplainVerify (env : Env) (cd : Codec) (file : Bytes) (args : PEVerifyArgs) : M (VResult × Option Exc) :=
  explain (peVerify env cd file args)

end Signify
