/-
`AuthenticodeSignedData.verify` called with an iterator as the option `key_usages`.
-/
import Verif.Model.Verify

set_option autoImplicit false

namespace Signify

/-- `VerificationContext(*stores, extended_key_usages=ekus, **options)` where the option `key_usages` is an iterator from which the
strings `l` are still to come; context.py:171-228 (the option is stored as it is, context.py:220). -/
def mkCtxOnce (stores : List StoreRef) (ekus : List String) (o : CtxOptions) (l : List String) : Ctx :=
  { mkCtx stores ekus o with keyUsages := .gen l }

/-- `verification_context`, created if None; structures.py:489-497. -/
def chooseContextOnce (a : AuthData) (args : VerifyArgs) (l : List String) : M Nat :=
  match args.context with
  | some c => pure c
  | none => M.newCtx (mkCtxOnce [args.trusted, .embedded a.core.certificates] ["code_signing"] args.options l)

/-- `cs_verification_context`, created if None and needed; structures.py:499-516. -/
def chooseCsContextOnce (a : AuthData) (args : VerifyArgs) (l : List String) : M (Option Nat) :=
  match args.csContext, a.counter with
  | none, some c =>
    if args.countersignatureMode ≠ "ignore" then do
      let i ← M.newCtx (mkCtxOnce (counterStores a c args.trusted) ["time_stamping"] args.options l)
      pure (some i)
    else pure none
  | x, _ => pure x

/-- Both contexts created by `verify` hold the same iterator, as both get `**verification_context_kwargs` (structures.py:497, 509):
what the countersigner's context has taken from it is gone for the signer's.  The model keeps the rest of an iterator in the
context; it is therefore copied where the code turns from the one context to the other, after structures.py:585. -/
def shareUsages (args : VerifyArgs) (cid : Nat) (csCid : Option Nat) : M Unit :=
  match args.context, args.csContext, csCid with
  | none, none, some i => do
    let cs ← M.getCtx i
    let ctx ← M.getCtx cid
    M.setCtx cid { ctx with keyUsages := cs.keyUsages }
  | _, _, _ => pure ()

/-- `AuthenticodeSignedData.verify(..., key_usages=iterator)`; structures.py:427-587.  As `asdVerify`, but `key_usages` in
`verification_context_kwargs` is an iterator over `l`. -/
def asdVerifyOnce (env : Env) (file : Option Bytes) (a : AuthData) (args : VerifyArgs) (l : List String) : M (List (List Cert)) := do
  let cid ← chooseContextOnce a args l
  let csCid ← chooseCsContextOnce a args l
  M.lift (checkDigests env file a args.expectedHash)
  let t ← counterTime env a args.countersignatureMode csCid
  shareUsages args cid csCid
  authSignerVerify env cid a.signer t                                         -- 587

end Signify
