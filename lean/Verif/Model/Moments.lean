/-
Verification while time passes.  In `Verif/Model/X509.lean` to `Verif/Model/PEFile.lean` the clock (`Env.now`) and the answers of the path
validator are the same throughout a call.  Here each reading of the clock has its own time.  The clock is read
- by the path validator, when a `ValidationContext` is constructed without a moment (context.py:340-357), once for every call of
  `VerificationContext.verify`, and
- by the trust list of a store, when the context has no timestamp (authroot.py:310-313), once for every store that has one and is asked.
-/
import Verif.Model.PEFile

set_option autoImplicit false

namespace Signify

/-- The moments of one call of `VerificationContext.verify`: the surroundings when the path validator is constructed and asked
(context.py:340-370), and the time shown by the clock when a store is asked whether it trusts the chain (context.py:401-406), while `n`
further stores remain to be asked. -/
structure Moments where
  start : Env
  clock : Nat → Int

/-- The loop of `VerificationContext.verify_trust`, while time passes; context.py:401-418 (`verifyTrustLoop`). -/
def verifyTrustLoopT (m : Moments) (cid : Nat) (chain : List Cert) : List StoreRef → Option Exc → M Unit
  | [], some e => M.raise e                                                   -- 412-413
  | [], none => M.raise ⟨.certificateVerificationError, "not trusted by any store"⟩  -- 415-418
  | r :: rs, exc => fun w =>
    match storeVerifyTrust { m.start with now := m.clock rs.length } cid r chain w with
    | (.ok (), w') => (.ok (), w')                                            -- 405-406
    | (.error e, w') =>
      if e.is .certificateNotTrusted then verifyTrustLoopT m cid chain rs exc w'       -- 407-408
      else if e.is .verificationError then verifyTrustLoopT m cid chain rs (some e) w' -- 409-410
      else (.error e, w')

/-- `context.verify(certificate)`, while time passes; context.py:313-374 (`ctxVerify`). -/
def ctxVerifyT (m : Moments) (cid : Nat) (c : Cert) : M (List Cert) := do
  let ctx ← M.getCtx cid
  let (roots, inter, all) ← collectCerts ctx.stores [] [] [(c.obj, c)]        -- 325-337
  let req : ValReq := {
    endEntity := c.obj, intermediates := inter, trustRoots := roots, moment := ctx.timestamp,
    allowWeakHashes := ctx.allowLegacy, revocationMode := ctx.revocationMode, allowFetching := ctx.allowFetching,
    fetchTimeout := ctx.fetchTimeout, crls := ctx.crls, ocsps := ctx.ocsps,
    keyUsages := [], ekus := [], ekuOptional := ctx.optionalEku }
  M.lift (m.start.mkValidator req)                                            -- 340-357
  let kus ← takeKeyUsages cid                                                 -- 361-364
  let ekus ← takeEkus cid
  match m.start.validate { req with keyUsages := kus, ekus := ekus } with
  | .error _ => M.lift (certErr c "Chain verification failed")                -- 367-370
  | .ok chain => do
    let chain ← M.lift (lookupAll all chain)                                  -- 372
    let ctx ← M.getCtx cid                                                    -- 373
    verifyTrustLoopT m cid chain ctx.stores none
    pure chain                                                                -- 374

/-- `SignerInfo._verify_issuer`, while time passes; signerinfo.py:295-313 (`verifyIssuer`).  `m` has the moments for each issuer: no issuer
is tried twice in a call of `SignerInfo.verify`, because `find_certificates` yields equal certificates only once (`forCerts`). -/
def verifyIssuerT (env : Env) (m : Cert → Moments) (cid : Nat) (s : Signer) (t : Option Int) (issuer : Cert) : M (List Cert) := do
  verifyIssuerSignature env cid s issuer
  applySigningTime cid t
  ctxVerifyT (m issuer) cid issuer

/-- `SignerInfo.verify(context, signing_time)`, while time passes (`signerVerify`); signerinfo.py:361-385. -/
def signerVerifyT (env : Env) (m : Cert → Moments) (cid : Nat) (s : Signer) (t : Option Int) : M (List (List Cert)) :=
  signerVerifyWith env cid s (verifyIssuerT env m cid s t)

/-- `AuthenticodeSignerInfo.verify(context, signing_time)`, while time passes (`authSignerVerify`); structures.py:278-292. -/
def authSignerVerifyT (env : Env) (m : Cert → Moments) (cid : Nat) (s : Signer) (t : Option Int) : M (List (List Cert)) :=
  signerVerifyWith env cid s (fun c => verifyIssuerT env m cid s (if lifetimeSigning c then none else t) c)

/-- `RFC3161SignedData.verify(context)`, while time passes (`rfcVerify`); structures.py:732-764. -/
def rfcVerifyT (env : Env) (m : Cert → Moments) (r : Rfc3161) (context : Option Nat) (trusted : StoreRef) : M (List (List Cert)) := do
  if some (r.core.contentDigest env) ≠ r.signer.messageDigest then            -- 750-753
    M.raise ⟨.authenticodeCounterSigner, "The expected hash of the TstInfo does not match SignerInfo"⟩
  else
    let cid ← (match context with                                             -- 755-760
      | some c => pure c
      | none => M.newCtx (mkCtx [trusted, .embedded r.core.certificates] ["time_stamping"] {}))
    signerVerifyT env m cid r.signer none                                     -- 764

/-- `countersigner.verify(context)`, while time passes (`CounterSigner.verify`); structures.py:568-573. -/
def CounterSigner.verifyT (env : Env) (m : Cert → Moments) (c : CounterSigner) (cid : Nat) : M (List (List Cert)) :=
  match c with
  | .pkcs9 c => signerVerifyT env m cid c.signer none
  | .rfc3161 r => rfcVerifyT env m r (some cid) (.embedded [])

/-- The `try` block for the countersigner, while time passes (`checkCounter`); structures.py:555-573. -/
def checkCounterT (env : Env) (m : Cert → Moments) (a : AuthData) (c : CounterSigner) (csCid : Nat) : M Unit := do
  if !c.checkMessageDigest env a.signer.encryptedDigest then                  -- 558-564
    M.raise ⟨.authenticodeCounterSigner, "The expected hash of the encryptedDigest does not match countersigner's SignerInfo"⟩
  else
    setTimestamp csCid c.signingTime                                          -- 566-568
    let _ ← c.verifyT env m csCid                                             -- 574
    pure ()

/-- The countersigner part of `AuthenticodeSignedData.verify`, while time passes (`counterTime`); structures.py:551-585. -/
def counterTimeT (env : Env) (m : Cert → Moments) (a : AuthData) (mode : String) (csCid : Option Nat) : M (Option Int) :=
  match a.counter with
  | none => pure none
  | some c =>
    if mode ≠ "ignore" then
      match csCid with
      | none => M.raise ⟨.assertionError, ""⟩                                 -- 553
      | some i => do
        match ← M.attempt (checkCounterT env m a c i) with
        | .ok _ => pure c.signingTime                                         -- 582-585
        | .error _ =>
          if mode ≠ "strict" then pure none                                   -- 575-577
          else M.raise ⟨.authenticodeCounterSigner, "An error occurred while validating the countersignature"⟩  -- 578-581
    else pure none

/-- The moments of one call of `AuthenticodeSignedData.verify`: those at which a certificate is verified as the countersigner's, and those
at which it is verified as the signer's. -/
structure SignatureMoments where
  counter : Cert → Moments
  signer : Cert → Moments

/-- `AuthenticodeSignedData.verify(...)`, while time passes (`asdVerify`); structures.py:427-587. -/
def asdVerifyT (env : Env) (m : SignatureMoments) (file : Option Bytes) (a : AuthData) (args : VerifyArgs) : M (List (List Cert)) := do
  let cid ← chooseContext a args
  let csCid ← chooseCsContext a args
  M.lift (checkDigests env file a args.expectedHash)
  let t ← counterTimeT env m.counter a args.countersignatureMode csCid
  authSignerVerifyT env m.signer cid a.signer t                               -- 587

/-- The loop of `SignedPEFile.verify`, while time passes (`verifyLoop`); signed_pe.py:438-464.  `check n` verifies one signature while `n`
further ones remain. -/
def verifyLoopT (check : Nat → ASD → M (List (List Cert))) (mode : String) :
    List ASD → List (ASD × List (List Cert)) → Option Exc → M (List (ASD × List (List Cert)))
  | [], chains, none => pure chains                                           -- 462-463
  | [], _, some e => M.raise e                                                -- 464
  | a :: l, chains, lastError => do
    match ← M.attempt (check l.length a) with
    | .error e =>
      if mode = "all" ∨ mode = "first" then M.raise e                         -- 456-460
      else verifyLoopT check mode l chains (some e)
    | .ok c =>
      if mode = "all" ∨ mode = "first" then verifyLoopT check mode l (chains ++ [(a, c)]) lastError
      else pure [(a, c)]                                                      -- 459-461

/-- Verification of one signature inside the loop, while time passes (`verifyOne`); signed_pe.py:445-455. -/
def verifyOneT (env : Env) (m : SignatureMoments) (file : Bytes) (hashes : Dict String Bytes) (kwargs : VerifyArgs) (a : ASD) :
    M (List (List Cert)) :=
  match hashes.get? a.d.core.digestAlg with
  | none => M.raise ⟨.keyError, a.d.core.digestAlg⟩
  | some h => asdVerifyT env m (some file) a.d { kwargs with expectedHash := some h }

/-- `SignedPEFile.verify(...)`, while time passes (`peVerify`); signed_pe.py:362-464.  `m n` has the moments at which a signature is
verified while `n` further ones remain. -/
def peVerifyT (env : Env) (m : Nat → SignatureMoments) (cd : Codec) (file : Bytes) (args : PEVerifyArgs) : M (List (ASD × List (List Cert))) := do
  let sds ← M.lift (iterSignedDatas cd file true args.ignoreParseErrors).toList  -- 408-411
  if sds.isEmpty then M.raise ⟨.authenticodeNotSigned, "No valid SignedData structure was found."⟩  -- 414-415
  else
    let sel := selectSignatures args.multiVerifyMode sds
    let hashes ← calculateExpectedHashes env file (sel.map (fun a => a.d.core.digestAlg)) args.expectedHashes  -- 438
    verifyLoopT (fun n => verifyOneT env (m n) file hashes args.kwargs) args.multiVerifyMode sel [] none

end Signify
