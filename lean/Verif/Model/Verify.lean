/-
Model of verification: `signify/pkcs7/signerinfo.py` (`verify` and below), `signify/pkcs7/signeddata.py` (`content_digest`)
and `signify/authenticode/structures.py` (`verify` methods).
-/
import Verif.Model.Pkcs7
import Verif.Model.SignedPE

set_option autoImplicit false

namespace Signify

/-- `SignerInfo.check_message_digest`; signerinfo.py:230-237. -/
def Signer.checkMessageDigest (env : Env) (s : Signer) (data : Bytes) : Bool :=
  some (env.hash s.digestAlg data) == s.messageDigest

/-- `SignedData.content_digest`; signeddata.py:149-165. -/
def SDCore.contentDigest (env : Env) (c : SDCore) : Bytes := env.hash c.digestAlg c.content

/-- `SignerInfo._verify_issuer_signature`; signerinfo.py:271-293. -/
def verifyIssuerSignature (env : Env) (cid : Nat) (s : Signer) (issuer : Cert) : M Unit := do
  let ctx ← M.getCtx cid
  match issuer.verifySignature env s.encryptedDigest s.encodedAuth s.digestAlg ctx.allowLegacy with
  | .ok _ => pure ()
  | .error e =>
    if e.is .verificationError then
      M.lift (raiseNaming issuer ⟨.signerInfoVerificationError, "Could not verify the signer of the authenticated attributes"⟩)
    else M.raise e

/-- `context.timestamp = t` -/
def setTimestamp (cid : Nat) (t : Option Int) : M Unit := do
  let ctx ← M.getCtx cid
  M.setCtx cid { ctx with timestamp := t }

/-- `if signing_time is not None: context.timestamp = signing_time`; signerinfo.py:311-312. -/
def applySigningTime (cid : Nat) (t : Option Int) : M Unit :=
  match t with
  | none => pure ()
  | some t => setTimestamp cid (some t)

/-- `SignerInfo._verify_issuer`; signerinfo.py:295-313. -/
def verifyIssuer (env : Env) (cid : Nat) (s : Signer) (t : Option Int) (issuer : Cert) : M (List Cert) := do
  verifyIssuerSignature env cid s issuer
  applySigningTime cid t
  ctxVerify env cid issuer

/-- "microsoft_lifetime_signing" in issuer.extensions.get("extended_key_usage", []); structures.py:288-290. -/
def lifetimeSigning (c : Cert) : Bool := (c.eku.getD []).contains "microsoft_lifetime_signing"

/-- `AuthenticodeSignerInfo._verify_issuer`; structures.py:278-292. -/
def verifyIssuerAuth (env : Env) (cid : Nat) (s : Signer) (t : Option Int) (issuer : Cert) : M (List Cert) :=
  verifyIssuer env cid s (if lifetimeSigning issuer then none else t) issuer

/-- The variable `first_error` of `_build_chain`: None, an exception, or False; signerinfo.py:342-345. -/
inductive FirstError where
  | none
  | error (e : Exc)
  | false
deriving DecidableEq, Repr

/-- The body of the loop in `_build_chain`; signerinfo.py:349-356.  `check` is `_verify_issuer`. -/
def buildChainBody (check : Cert → M (List Cert)) (acc : List (List Cert) × FirstError) (issuer : Cert) :
    M (List (List Cert) × FirstError) := do
  match ← M.attempt (check issuer) with
  | .ok chain => pure (acc.1 ++ [chain], .false)
  | .error e =>
    if e.is .verificationError then pure (acc.1, if acc.2 = .none then .error e else acc.2)
    else M.raise e

/-- `list(self._build_chain(context, signing_time))`; signerinfo.py:315-359. -/
def buildChain (env : Env) (cid : Nat) (s : Signer) (check : Cert → M (List Cert)) : M (List (List Cert)) := do
  let acc ← forFind env cid { issuer := some s.issuer, serial := some s.serial } ([], .none) (buildChainBody check)
  match acc.2 with
  | .error e => M.raise e
  | _ => pure acc.1

/-- `SignerInfo.verify` for a given `_verify_issuer`; signerinfo.py:361-385. -/
def signerVerifyWith (env : Env) (cid : Nat) (s : Signer) (check : Cert → M (List Cert)) : M (List (List Cert)) := do
  let chains ← buildChain env cid s check
  if chains.isEmpty then M.raise ⟨.signerInfoVerificationError, "No valid certificate chain found to a trust anchor"⟩
  else pure chains

/-- `SignerInfo.verify(context, signing_time)` for `SignerInfo`, `CounterSignerInfo` and `RFC3161SignerInfo`. -/
def signerVerify (env : Env) (cid : Nat) (s : Signer) (t : Option Int) : M (List (List Cert)) :=
  signerVerifyWith env cid s (verifyIssuer env cid s t)

/-- `AuthenticodeSignerInfo.verify(context, signing_time)`. -/
def authSignerVerify (env : Env) (cid : Nat) (s : Signer) (t : Option Int) : M (List (List Cert)) :=
  signerVerifyWith env cid s (verifyIssuerAuth env cid s t)

/-- `list(signer_info.potential_chains(context))` (default depth 10); signerinfo.py:387-400. -/
def signerPotentialChains (env : Env) (cid : Nat) (s : Signer) : M (List (List Cert)) :=
  forFind env cid { issuer := some s.issuer, serial := some s.serial } [] (fun acc c => do
    let chains ← potentialChains env cid 10 c
    pure (acc ++ chains))

/-- The options of `VerificationContext` that callers pass as `verification_context_kwargs`; context.py:171-184.
Simplification: `key_usages` is a container (or None); iterators are in Model/OneShot.lean.  Names that clash or do not exist are in
Model/Keywords.lean. -/
structure CtxOptions where
  timestamp : Option Int := none
  keyUsages : Option (List String) := none
  optionalEku : Bool := true
  allowLegacy : Bool := true
  revocationMode : String := "soft-fail"
  allowFetching : Bool := false
  fetchTimeout : Nat := 30
  crls : Option (List Nat) := none
  ocsps : Option (List Nat) := none
deriving DecidableEq, Repr

/-- `VerificationContext(*stores, extended_key_usages=ekus, **options)`; context.py:171-228. -/
def mkCtx (stores : List StoreRef) (ekus : List String) (o : CtxOptions) : Ctx :=
  { stores := stores, timestamp := o.timestamp
    keyUsages := (match o.keyUsages with | none => .none | some l => .list l)
    ekus := .list ekus
    optionalEku := o.optionalEku, allowLegacy := o.allowLegacy, revocationMode := o.revocationMode
    allowFetching := o.allowFetching, fetchTimeout := o.fetchTimeout, crls := o.crls, ocsps := o.ocsps }

/-- `RFC3161SignedData.verify(context)`; structures.py:732-764.  `trusted` is the `trusted_certificate_store`. -/
def rfcVerify (env : Env) (r : Rfc3161) (context : Option Nat) (trusted : StoreRef) : M (List (List Cert)) := do
  if some (r.core.contentDigest env) ≠ r.signer.messageDigest then            -- 750-753
    M.raise ⟨.authenticodeCounterSigner, "The expected hash of the TstInfo does not match SignerInfo"⟩
  else
    let cid ← (match context with                                             -- 755-760
      | some c => pure c
      | none => M.newCtx (mkCtx [trusted, .embedded r.core.certificates] ["time_stamping"] {}))
    signerVerify env cid r.signer none                                        -- 764

/-- `countersigner.check_message_digest(data)`; signerinfo.py:230-237, structures.py:723-730. -/
def CounterSigner.checkMessageDigest (env : Env) (c : CounterSigner) (data : Bytes) : Bool :=
  match c with
  | .pkcs9 c => c.signer.checkMessageDigest env data
  | .rfc3161 r => env.hash r.tst.hashAlg data == r.tst.messageDigest

/-- `countersigner.signing_time`; signerinfo.py:203-212, structures.py:716-721. -/
def CounterSigner.signingTime (c : CounterSigner) : Option Int :=
  match c with
  | .pkcs9 c => c.signer.signingTime
  | .rfc3161 r => some r.tst.signingTime

/-- `countersigner.verify(context)`; structures.py:568-573. -/
def CounterSigner.verify (env : Env) (c : CounterSigner) (cid : Nat) : M (List (List Cert)) :=
  match c with
  | .pkcs9 c => signerVerify env cid c.signer none
  | .rfc3161 r => rfcVerify env r (some cid) (.embedded [])

/-- The keyword arguments of `AuthenticodeSignedData.verify`; structures.py:427-436. -/
structure VerifyArgs where
  expectedHash : Option Bytes := none
  context : Option Nat := none
  csContext : Option Nat := none
  trusted : StoreRef
  options : CtxOptions := {}
  countersignatureMode : String := "strict"
deriving DecidableEq, Repr

/-- `fingerprinter.hashes()`, with enough iterations for the single registration used by the callers below (`hashesOf_eq`). -/
def hashesOf (env : Env) (fp : FP) : Except Exc Hashes :=
  match fp.hashes env.hash (fp.file.length + 10) with
  | none => .error ⟨.runtimeError, "not terminated"⟩
  | some (r, _) => r

/-- The expected hash computed by `AuthenticodeSignedData.verify`; structures.py:531-535.  `file` is the content of the PE
file, if there is one. -/
def computeExpected (env : Env) (file : Option Bytes) (alg : String) : Except Exc Bytes :=
  match file with
  | none => .error ⟨.assertionError, ""⟩                                      -- 532
  | some file =>
    match (FP.new file).addAuthenticodeHashers [alg] with                     -- 533-534
    | (.error e, _) => .error e
    | (.ok _, fp) => do
      let res ← hashesOf env fp                                               -- 535 (`hash()`: fingerprinter.py:258-269)
      match res with
      | [(_, ds)] =>
        match ds.get? alg with
        | some d => .ok d
        | none => .error ⟨.keyError, alg⟩
      | _ => .error ⟨.runtimeError, "Can't return a single hash, use hashes() instead"⟩

/-- `verification_context`, created if None; structures.py:489-497. -/
def chooseContext (a : AuthData) (args : VerifyArgs) : M Nat :=
  match args.context with
  | some c => pure c
  | none => M.newCtx (mkCtx [args.trusted, .embedded a.core.certificates] ["code_signing"] args.options)

/-- The stores of the context created for the countersigner; structures.py:504-516. -/
def counterStores (a : AuthData) (c : CounterSigner) (trusted : StoreRef) : List StoreRef :=
  [trusted, .embedded a.core.certificates] ++
  (match c with
   | .pkcs9 _ => []
   | .rfc3161 r => [.embedded r.core.certificates])

/-- `cs_verification_context`, created if None and needed; structures.py:499-516. -/
def chooseCsContext (a : AuthData) (args : VerifyArgs) : M (Option Nat) :=
  match args.csContext, a.counter with
  | none, some c =>
    if args.countersignatureMode ≠ "ignore" then do
      let i ← M.newCtx (mkCtx (counterStores a c args.trusted) ["time_stamping"] args.options)
      pure (some i)
    else pure none
  | x, _ => pure x

/-- The `try` block for the countersigner; structures.py:555-573. -/
def checkCounter (env : Env) (a : AuthData) (c : CounterSigner) (csCid : Nat) : M Unit := do
  if !c.checkMessageDigest env a.signer.encryptedDigest then                  -- 558-564
    M.raise ⟨.authenticodeCounterSigner, "The expected hash of the encryptedDigest does not match countersigner's SignerInfo"⟩
  else
    setTimestamp csCid c.signingTime                                          -- 566-568
    let _ ← c.verify env csCid                                                -- 574
    pure ()

/-- The countersigner part of `AuthenticodeSignedData.verify`: the signing time to use; structures.py:551-585. -/
def counterTime (env : Env) (a : AuthData) (mode : String) (csCid : Option Nat) : M (Option Int) :=
  match a.counter with
  | none => pure none
  | some c =>
    if mode ≠ "ignore" then
      match csCid with
      | none => M.raise ⟨.assertionError, ""⟩                                 -- 553
      | some i => do
        match ← M.attempt (checkCounter env a c i) with
        | .ok _ => pure c.signingTime                                         -- 582-585
        | .error _ =>
          if mode ≠ "strict" then pure none                                   -- 575-577
          else M.raise ⟨.authenticodeCounterSigner, "An error occurred while validating the countersignature"⟩  -- 578-581
    else pure none

/-- The digest checks of `AuthenticodeSignedData.verify`; structures.py:518-546. -/
def checkDigests (env : Env) (file : Option Bytes) (a : AuthData) (expected : Option Bytes) : Except Exc Unit := do
  if a.core.digestAlg ≠ a.spc.digestAlg then                                  -- 519-522
    .error ⟨.authenticodeInconsistentDigest, "SignedData.digestAlgorithm must equal SpcInfo.digestAlgorithm"⟩
  else if a.core.digestAlg ≠ a.signer.digestAlg then                          -- 524-527
    .error ⟨.authenticodeInconsistentDigest, "SignedData.digestAlgorithm must equal SignerInfo.digestAlgorithm"⟩
  else
    let h ← (match expected with                                              -- 531-535
      | some h => .ok h
      | none => computeExpected env file a.core.digestAlg)
    if h ≠ a.spc.digest then                                                  -- 537-540
      .error ⟨.authenticodeInvalidDigest, "The expected hash does not match the digest in SpcInfo"⟩
    else if some (a.core.contentDigest env) ≠ a.signer.messageDigest then     -- 543-546
      .error ⟨.authenticodeInvalidDigest, "The expected hash of the SpcInfo does not match SignerInfo"⟩
    else .ok ()

/-- `AuthenticodeSignedData.verify(...)`; structures.py:427-587.  `file` is the content of `self.pefile`, if it is not None. -/
def asdVerify (env : Env) (file : Option Bytes) (a : AuthData) (args : VerifyArgs) : M (List (List Cert)) := do
  let cid ← chooseContext a args
  let csCid ← chooseCsContext a args
  M.lift (checkDigests env file a args.expectedHash)
  let t ← counterTime env a args.countersignatureMode csCid
  authSignerVerify env cid a.signer t                                         -- 587

/-- `AuthenticodeVerificationResult`; structures.py:82-115. -/
inductive VResult where
  | ok | notSigned | parseError | verifyError | unknownError | certificateError | inconsistentDigestAlgorithm
  | invalidDigest | counterSignerError
deriving DecidableEq, Repr

/-- The handlers of `AuthenticodeVerificationResult.call`, in order; structures.py:120-137. -/
def classify (e : Exc) : VResult :=
  if e.is .signedPEParseError || e.is .authenticodeNotSigned then .notSigned
  else if e.is .authenticodeInconsistentDigest then .inconsistentDigestAlgorithm
  else if e.is .authenticodeInvalidDigest then .invalidDigest
  else if e.is .authenticodeCounterSigner then .counterSignerError
  else if e.is .certificateVerificationError then .certificateError
  else if e.is .parseError then .parseError
  else if e.is .verificationError then .verifyError
  else .unknownError

/-- `AuthenticodeVerificationResult.call(function, ...)`; structures.py:117-139.  Simplification: exceptions that are not
`Exception`s (KeyboardInterrupt, SystemExit) are not modelled. -/
def explain {α : Type} (f : M α) : M (VResult × Option Exc) := do
  match ← M.attempt f with
  | .error e => pure (classify e, some e)
  | .ok _ => pure (.ok, none)

/-- `AuthenticodeSignedData.explain_verify(...)`; structures.py:589-601. -/
def asdExplainVerify (env : Env) (file : Option Bytes) (a : AuthData) (args : VerifyArgs) : M (VResult × Option Exc) :=
  explain (asdVerify env file a args)

end Signify
