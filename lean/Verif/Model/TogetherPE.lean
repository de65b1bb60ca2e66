/-
`SignedPEFile.verify` while others use the same stores and contexts: `Model/PEFile.lean`, one access after the other.
-/
import Verif.Model.Together
import Verif.Model.PEFile

set_option autoImplicit false

namespace Signify

/-- Verification of one signature inside the loop; signed_pe.py:445-455 (`verifyOne`). -/
def verifyOneW (env : Env) (fuel : Nat) (file : Bytes) (hashes : Dict String Bytes) (kwargs : VerifyArgs) (a : ASD) : WProg (List (List Cert)) :=
  match hashes.get? a.d.core.digestAlg with
  | none => WProg.raise ⟨.keyError, a.d.core.digestAlg⟩
  | some h => asdVerifyW env fuel (some file) a.d { kwargs with expectedHash := some h }

/-- The loop of `verify`; signed_pe.py:438-464 (`verifyLoop`). -/
def verifyLoopW (check : ASD → WProg (List (List Cert))) (mode : String) :
    List ASD → List (ASD × List (List Cert)) → Option Exc → WProg (List (ASD × List (List Cert)))
  | [], chains, none => pure chains                                           -- 462-463
  | [], _, some e => WProg.raise e                                            -- 464
  | a :: l, chains, lastError =>
    (check a).onResult (fun x =>
      match x with
      | .error e =>
        if mode = "all" ∨ mode = "first" then WProg.raise e                   -- 456-460
        else verifyLoopW check mode l chains (some e)
      | .ok c =>
        if mode = "all" ∨ mode = "first" then verifyLoopW check mode l (chains ++ [(a, c)]) lastError
        else pure [(a, c)])                                                   -- 459-461 (`chains[-1:]`)

/-- `SignedPEFile.verify(...)`; signed_pe.py:362-464 (`peVerify`).  Simplifications: the file is taken not to change and nobody else to
use it (for this see `Model/Shared.lean`); the dictionary of expected hashes is looked at and updated in one step, which matters only if
others use it. -/
def peVerifyW (env : Env) (fuel : Nat) (cd : Codec) (file : Bytes) (args : PEVerifyArgs) : WProg (List (ASD × List (List Cert))) := do
  let sds ← WProg.lift (iterSignedDatas cd file true args.ignoreParseErrors).toList  -- 408-411
  if sds.isEmpty then WProg.raise ⟨.authenticodeNotSigned, "No valid SignedData structure was found."⟩  -- 414-415
  else
    let sel := selectSignatures args.multiVerifyMode sds
    let hashes ← WProg.act (calculateExpectedHashes env file (sel.map (fun a => a.d.core.digestAlg)) args.expectedHashes)  -- 438
    verifyLoopW (verifyOneW env fuel file hashes args.kwargs) args.multiVerifyMode sel [] none

/-- `SignedPEFile.explain_verify(...)`; signed_pe.py:466-480, structures.py:117-139 (`peExplainVerify`). -/
def peExplainVerifyW (env : Env) (fuel : Nat) (cd : Codec) (file : Bytes) (args : PEVerifyArgs) : WProg (VResult × Option Exc) :=
  (peVerifyW env fuel cd file args).onResult (fun x =>
    match x with
    | .error e => pure (classify e, some e)
    | .ok _ => pure (.ok, none))

end Signify
