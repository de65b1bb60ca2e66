/-
`SignedPEFile.verify` called with an iterator as the option `key_usages`.
-/
import Verif.Model.OneShot
import Verif.Model.PEFile

set_option autoImplicit false

namespace Signify

/-- The iterator handed from one place to another; see `shareUsages`. -/
def handUsages (source target : Nat) : M Unit := do
  let c ← M.getCtx source
  let d ← M.getCtx target
  M.setCtx target { d with keyUsages := c.keyUsages }

/-- What is left of the iterator after the countersignature has been refused, if its context had the iterator;
structures.py:499-516, 575-581. -/
def leftByCounter (args : VerifyArgs) (slot : Nat) (csCid : Option Nat) : M Unit :=
  match args.csContext, csCid with
  | none, some i => handUsages i slot
  | _, _ => pure ()

/-- What is left of the iterator after the signer has been looked at; structures.py:489-516, 587. -/
def leftBySigner (args : VerifyArgs) (slot cid : Nat) (csCid : Option Nat) : M Unit :=
  match args.context with
  | none => handUsages cid slot
  | some _ => leftByCounter args slot csCid

/-- `AuthenticodeSignedData.verify(..., key_usages=iterator)` as `asdVerifyOnce`, for an iterator that is used again after the call;
structures.py:427-587.  The model keeps it, between the calls, in the place `slot` of the table of contexts, which no context uses. -/
def asdVerifyFrom (env : Env) (file : Option Bytes) (a : AuthData) (args : VerifyArgs) (slot : Nat) : M (List (List Cert)) := do
  let it ← M.getCtx slot
  let cid ← chooseContextOnce a args it.keyUsages.elems
  let csCid ← chooseCsContextOnce a args it.keyUsages.elems
  M.lift (checkDigests env file a args.expectedHash)
  match ← M.attempt (counterTime env a args.countersignatureMode csCid) with
  | .error e => do
    leftByCounter args slot csCid
    M.raise e
  | .ok t => do
    shareUsages args cid csCid
    let r ← M.attempt (authSignerVerify env cid a.signer t)                   -- 587
    leftBySigner args slot cid csCid
    M.lift r

/-- Verification of one signature inside the loop, as `verifyOne`; signed_pe.py:445-455.  All signatures get the same
`verification_context_kwargs` (signed_pe.py:452), and so the same iterator. -/
def verifyOneFrom (env : Env) (file : Bytes) (hashes : Dict String Bytes) (kwargs : VerifyArgs) (slot : Nat) (a : ASD) : M (List (List Cert)) :=
  match hashes.get? a.d.core.digestAlg with
  | none => M.raise ⟨.keyError, a.d.core.digestAlg⟩
  | some h => asdVerifyFrom env (some file) a.d { kwargs with expectedHash := some h } slot

/-- `SignedPEFile.verify(..., key_usages=iterator)` with an iterator over `l`, as `peVerify`; signed_pe.py:362-464. -/
def peVerifyOnce (env : Env) (cd : Codec) (file : Bytes) (args : PEVerifyArgs) (l : List String) : M (List (ASD × List (List Cert))) := do
  let slot ← M.newCtx (mkCtxOnce [] [] args.kwargs.options l)
  let sds ← M.lift (iterSignedDatas cd file true args.ignoreParseErrors).toList  -- 408-411
  if sds.isEmpty then M.raise ⟨.authenticodeNotSigned, "No valid SignedData structure was found."⟩  -- 414-415
  else
    let sel := selectSignatures args.multiVerifyMode sds
    let hashes ← calculateExpectedHashes env file (sel.map (fun a => a.d.core.digestAlg)) args.expectedHashes  -- 438
    verifyLoop (verifyOneFrom env file hashes args.kwargs slot) args.multiVerifyMode sel [] none

end Signify
