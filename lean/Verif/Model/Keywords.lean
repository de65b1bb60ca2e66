/-
Keyword arguments: what Python does with the names that a caller of `verify` writes.
-/
import Verif.Model.PEFile

set_option autoImplicit false

namespace Signify

/-- What the caller writes: the names of the keyword arguments other than `multi_verify_mode`, `expected_hashes` and `ignore_parse_errors`
(signed_pe.py:362-369), or all of them for `AuthenticodeSignedData.verify`, and the keys of `verification_context_kwargs`.  The values are
in `VerifyArgs`; an argument whose name is not written has its default there. -/
structure Keywords where
  names : List String
  options : List String
deriving DecidableEq, Repr

/-- The parameters of `AuthenticodeSignedData.verify`; structures.py:427-436. -/
def asdParameters : List String :=
  ["expected_hash", "verification_context", "cs_verification_context", "trusted_certificate_store", "verification_context_kwargs",
   "countersignature_mode"]

/-- The parameters of `VerificationContext` that can be given by name; context.py:171-184. -/
def ctxParameters : List String :=
  ["timestamp", "key_usages", "extended_key_usages", "optional_eku", "allow_legacy", "revocation_mode", "allow_fetching", "fetch_timeout",
   "crls", "ocsps"]

/-- A call `f(given=..., **more)` of a function with these parameters, as Python binds it: a TypeError if a name comes twice or is unknown. -/
def bindKeywords (parameters given more : List String) : Except Exc Unit :=
  if more.any (fun n => given.contains n) then .error ⟨.typeError, "got multiple values for keyword argument"⟩
  else if more.any (fun n => !parameters.contains n) then .error ⟨.typeError, "got an unexpected keyword argument"⟩
  else .ok ()

/-- `AuthenticodeSignedData.verify(given=..., **names)`; structures.py:427-587.  The options are looked at when a context is created
(structures.py:491-497 and 499-509), before anything else is done. -/
def asdVerifyKw (env : Env) (file : Option Bytes) (a : AuthData) (given : List String) (kw : Keywords) (args : VerifyArgs) :
    M (List (List Cert)) := do
  M.lift (bindKeywords asdParameters given kw.names)
  if args.context = none then M.lift (bindKeywords ctxParameters ["extended_key_usages"] kw.options)
  if args.csContext = none ∧ a.counter.isSome ∧ args.countersignatureMode ≠ "ignore" then
    M.lift (bindKeywords ctxParameters ["extended_key_usages"] kw.options)
  asdVerify env file a args

/-- Verification of one signature inside the loop, as `verifyOne`; signed_pe.py:440-450. -/
def verifyOneKw (env : Env) (file : Bytes) (hashes : Dict String Bytes) (kw : Keywords) (kwargs : VerifyArgs) (a : ASD) : M (List (List Cert)) :=
  match hashes.get? a.d.core.digestAlg with
  | none => M.raise ⟨.keyError, a.d.core.digestAlg⟩
  | some h => asdVerifyKw env (some file) a.d ["expected_hash"] kw { kwargs with expectedHash := some h }

/-- `SignedPEFile.verify(..., **names)`; signed_pe.py:362-464.  Python itself refuses `self` as a keyword (363); the other names go
unchecked to the calls for the signatures. -/
def peVerifyKw (env : Env) (cd : Codec) (file : Bytes) (kw : Keywords) (args : PEVerifyArgs) : M (List (ASD × List (List Cert))) := do
  if kw.names.contains "self" then M.raise ⟨.typeError, "got multiple values for argument 'self'"⟩
  let sds ← M.lift (iterSignedDatas cd file true args.ignoreParseErrors).toList  -- 408-411
  if sds.isEmpty then M.raise ⟨.authenticodeNotSigned, "No valid SignedData structure was found."⟩  -- 414-415
  else
    let sel := selectSignatures args.multiVerifyMode sds
    let hashes ← calculateExpectedHashes env file (sel.map (fun a => a.d.core.digestAlg)) args.expectedHashes  -- 438
    verifyLoop (verifyOneKw env file hashes kw args.kwargs) args.multiVerifyMode sel [] none

/-- `AuthenticodeVerificationResult.call(self.verify, **names)` from `explain_verify(self, **names)`; structures.py:116-120 and 589-601,
signed_pe.py:466-480.  The names `self`, `cls` and `function` clash with parameters of these two functions, outside of the `try`. -/
def explainKw {α : Type} (kw : Keywords) (f : M α) : M (VResult × Option Exc) :=
  if kw.names.any (fun n => ["self", "cls", "function"].contains n) then M.raise ⟨.typeError, "got multiple values for argument"⟩
  else explain f

/-- `SignedPEFile.explain_verify(..., **names)`; signed_pe.py:466-480. -/
def peExplainVerifyKw (env : Env) (cd : Codec) (file : Bytes) (kw : Keywords) (args : PEVerifyArgs) : M (VResult × Option Exc) :=
  explainKw kw (peVerifyKw env cd file kw args)

/-- `AuthenticodeSignedData.explain_verify(**names)`; structures.py:589-601. -/
def asdExplainVerifyKw (env : Env) (file : Option Bytes) (a : AuthData) (kw : Keywords) (args : VerifyArgs) : M (VResult × Option Exc) :=
  explainKw kw (asdVerifyKw env file a [] kw args)

end Signify
