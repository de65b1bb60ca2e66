/-
Verification while others use the same stores and contexts: the functions of `Model/Context.lean` and `Model/Verify.lean` that look at
or change these objects, written as *programs*, one access after the other, so that something else — other threads of the
process — can happen in between.
-/
import Verif.Model.Verify

set_option autoImplicit false

namespace Signify

/-- Code that uses stores and contexts: it has ended, or makes an access, which changes the state by `f`, and goes on, depending on
what it has seen. -/
inductive WProg (α : Type) where
  | ret (r : Except Exc α)
  | step (f : World → World) (k : World → WProg α)

namespace WProg
variable {α β : Type}

/-- code, and what follows its outcome (a value or an exception) -/
def onResult : WProg α → (Except Exc α → WProg β) → WProg β
  | .ret r, f => f r
  | .step g k, f => .step g (fun w => (k w).onResult f)

/-- sequencing; an exception ends the code -/
def bind (p : WProg α) (k : α → WProg β) : WProg β :=
  p.onResult (fun r => match r with | .ok a => k a | .error e => .ret (.error e))

instance : Monad WProg where
  pure a := .ret (.ok a)
  bind := WProg.bind

/-- `raise e` -/
def raise (e : Exc) : WProg α := .ret (.error e)

/-- a computation that uses no shared object -/
def lift (r : Except Exc α) : WProg α := .ret r

/-- run code and observe its outcome (`try`/`except`) -/
def attempt (p : WProg α) : WProg (Except Exc α) := p.onResult (fun r => .ret (.ok r))

/-- One access: nothing else happens during it. -/
def act (m : M α) : WProg α := .step (fun w => (m w).2) (fun w => .ret (m w).1)

/-- A run of the code while others use the state: before its `k`-th access they turn the state `w` into `σ k w`.  The result is the
outcome, the state as it was at each access, and the state at the end. -/
def amid (σ : Nat → World → World) : WProg α → Nat → World → Except Exc α × List World × World
  | .ret r, _, w => (r, [], w)
  | .step f k, n, w =>
    match (k (σ n w)).amid σ (n + 1) (f (σ n w)) with
    | (r, ms, w') => (r, σ n w :: ms, w')

/-- One access of the code; code that has ended does nothing. -/
def turn : WProg α → World → WProg α × World
  | .ret r, w => (.ret r, w)
  | .step f k, w => (k w, f w)

/-- Threads that share their stores; contexts and other objects are their own (`priv i` for thread `i`).  The scheduler says whose turn
it is.  `ps i` is what thread `i` has still to do. -/
def turns : List Nat → (Nat → WProg α) → (Nat → Store) → (Nat → World) → (Nat → WProg α) × (Nat → Store) × (Nat → World)
  | [], ps, stores, priv => (ps, stores, priv)
  | i :: l, ps, stores, priv =>
    match (ps i).turn { priv i with stores := stores } with
    | (p, w) => turns l (fun j => if j = i then p else ps j) w.stores (fun j => if j = i then w else priv j)

end WProg

/-- `self._loaded = True`; context.py:159. -/
def markLoaded (i : Nat) : M Unit := do
  let s ← M.getStore i
  M.setStore i { s with pending := none }

/-- `self.extend(...)`, one certificate after the other; context.py:161-167. -/
def extendW (i : Nat) : List Cert → WProg Unit
  | [] => pure ()
  | c :: l => do
    WProg.act (storeAppend i c)
    extendW i l

/-- `store._load()`; context.py:156-167. -/
def loadW (i : Nat) : WProg Unit := do
  let s ← WProg.act (M.getStore i)                                            -- 157
  match s.pending with
  | none => pure ()
  | some (certs, exc) =>
    WProg.act (markLoaded i)                                                  -- 159
    extendW i certs                                                           -- 161-167
    match exc with
    | none => pure ()
    | some e => WProg.raise e

/-- The step of the iterator of a list that has returned `n` elements: it looks at the list as it is now. -/
def itemAt (i n : Nat) : M (Option Cert) := fun w => (.ok (w.stores i).items[n]?, w)

/-- The rest of `for c in store: acc = body(acc, c)` when the iterator has returned `n` elements; at most `fuel` more steps. -/
def scanW {σ : Type} (i : Nat) (body : σ → Cert → WProg σ) : Nat → Nat → σ → WProg σ
  | 0, _, _ => WProg.raise ⟨.runtimeError, "not terminated"⟩
  | fuel + 1, n, acc => do
    match ← WProg.act (itemAt i n) with
    | none => pure acc
    | some c => do
      let acc ← body acc c
      scanW i body fuel (n + 1) acc

/-- `for c in certs: acc = body(acc, c)` for a list that nobody else uses. -/
def listW {σ : Type} (body : σ → Cert → WProg σ) : List Cert → σ → WProg σ
  | [], acc => pure acc
  | c :: l, acc => do
    let acc ← body acc c
    listW body l acc

/-- `for c in store: acc = body(acc, c)`; context.py:148-150 (`iterStore`). -/
def forStoreW {σ : Type} (fuel : Nat) (r : StoreRef) (body : σ → Cert → WProg σ) (acc : σ) : WProg σ :=
  match r with
  | .embedded certs => listW body certs acc
  | .heap i => do
    loadW i
    scanW i body fuel 0 acc

/-- What `VerificationContext.find_certificates` and its consumer do with a certificate; context.py:273-277 (`forCerts`). -/
def findBodyW {σ : Type} (env : Env) (q : Query) (body : σ → Cert → WProg σ) (x : List Cert × σ) (c : Cert) : WProg (List Cert × σ) :=
  if q.matches env c then
    if certIn c x.1 then pure x
    else do
      let acc ← body x.2 c
      pure (x.1 ++ [c], acc)
  else pure x

/-- `for c in context.find_certificates(...): acc = body(acc, c)`, over these stores; context.py:262-277 (`forStores`). -/
def forStoresW {σ : Type} (env : Env) (fuel : Nat) (q : Query) (body : σ → Cert → WProg σ) : List StoreRef → List Cert × σ → WProg (List Cert × σ)
  | [], x => pure x
  | r :: rs, x => do
    let x ← forStoreW fuel r (findBodyW env q body) x
    forStoresW env fuel q body rs x

/-- `for c in context.find_certificates(...): acc = body(acc, c)` (`forFind`).  Simplification: the list of stores of a context is
looked at once. -/
def forFindW {σ : Type} (env : Env) (fuel cid : Nat) (q : Query) (init : σ) (body : σ → Cert → WProg σ) : WProg σ := do
  let ctx ← WProg.act (M.getCtx cid)
  let x ← forStoresW env fuel q body ctx.stores ([], init)
  pure x.2

/-- The trust roots, the intermediates and the object map of `VerificationContext.verify`. -/
structure Collected where
  roots : List Nat
  inter : List Nat
  all : Dict Nat Cert

/-- The body of the loops that collect certificates; context.py:332-337. -/
def collectBodyW (r : StoreRef) (x : Collected) (c : Cert) : WProg Collected := do
  let trusted ← WProg.act (fun w => (.ok (storeTrusted w r), w))
  if trusted then pure { x with roots := x.roots ++ [c.obj], all := x.all.set c.obj c }
  else pure { x with inter := x.inter ++ [c.obj], all := x.all.set c.obj c }

/-- The loops; context.py:331-337 (`collectCerts`). -/
def collectW (fuel : Nat) : List StoreRef → Collected → WProg Collected
  | [], x => pure x
  | r :: rs, x => do
    let x ← forStoreW fuel r (collectBodyW r) x
    collectW fuel rs x

/-- `CertificateTrustList.verify_trust(chain, context=context)`; authroot.py:119-134, 303-319 (`ctlVerifyTrust`). -/
def ctlVerifyTrustW (env : Env) (cid : Nat) (ctl : CTL) (chain : List Cert) : WProg Unit :=
  match chain.head? with
  | none => WProg.raise ⟨.indexError, "list index out of range"⟩
  | some root => do
    let subj ← WProg.lift (ctl.findSubject env root)
    match subj with
    | none => WProg.lift (raiseNaming root ⟨.ctlCertificateVerificationError, "The root is not in the certificate trust list"⟩)
    | some s =>
      let ctx ← WProg.act (M.getCtx cid)
      let timestamp := ctx.timestamp.getD env.now
      let requested ← WProg.act (takeEkus cid)
      WProg.lift (s.verifyTrust chain requested timestamp)

/-- `certificate in self` from element `n` on: `list.__contains__` looks at the list as it is now, and the comparison with an element
(`Certificate.__eq__`) runs Python code; at most `fuel` more elements. -/
def lookW (i : Nat) (c : Cert) : Nat → Nat → WProg Bool
  | 0, _ => WProg.raise ⟨.runtimeError, "not terminated"⟩
  | fuel + 1, n => do
    match ← WProg.act (itemAt i n) with
    | none => pure false
    | some d => if c.pyEq d then pure true else lookW i c fuel (n + 1)

/-- `store.is_trusted(certificate)`; context.py:64-76 (`storeIsTrusted`). -/
def isTrustedW (fuel : Nat) (r : StoreRef) (c : Cert) : WProg Bool :=
  match r with
  | .embedded _ => pure false
  | .heap i => do
    let s ← WProg.act (M.getStore i)
    if s.trusted then lookW i c fuel 0 else pure false

/-- `store.verify_trust(chain, context)`; context.py:46-62 (`storeVerifyTrust`). -/
def storeVerifyTrustW (env : Env) (fuel cid : Nat) (r : StoreRef) (chain : List Cert) : WProg Unit :=
  match chain.head? with
  | none => WProg.raise ⟨.indexError, "list index out of range"⟩
  | some root => do
    let trusted ← isTrustedW fuel r root
    if !trusted then WProg.lift (raiseNaming root ⟨.certificateNotTrusted, "not trusted by the store"⟩)
    else
      match r with
      | .embedded _ => pure ()
      | .heap i => do
        let s ← WProg.act (M.getStore i)
        match s.ctl with
        | none => pure ()
        | some ctl => ctlVerifyTrustW env cid ctl chain

/-- The loop of `VerificationContext.verify_trust`; context.py:401-418 (`verifyTrustLoop`). -/
def verifyTrustLoopW (env : Env) (fuel cid : Nat) (chain : List Cert) : List StoreRef → Option Exc → WProg Unit
  | [], some e => WProg.raise e
  | [], none => WProg.raise ⟨.certificateVerificationError, "not trusted by any store"⟩
  | r :: rs, exc =>
    (storeVerifyTrustW env fuel cid r chain).onResult (fun x =>
      match x with
      | .ok () => pure ()
      | .error e =>
        if e.is .certificateNotTrusted then verifyTrustLoopW env fuel cid chain rs exc
        else if e.is .verificationError then verifyTrustLoopW env fuel cid chain rs (some e)
        else WProg.raise e)

/-- `context.verify_trust(chain)`; context.py:393-418 (`ctxVerifyTrust`). -/
def ctxVerifyTrustW (env : Env) (fuel cid : Nat) (chain : List Cert) : WProg Unit := do
  let ctx ← WProg.act (M.getCtx cid)
  verifyTrustLoopW env fuel cid chain ctx.stores none

/-- The question put to the validator; context.py:340-365. -/
def questionOf (ctx : Ctx) (c : Cert) (x : Collected) (kus ekus : List String) : ValReq :=
  { endEntity := c.obj, intermediates := x.inter, trustRoots := x.roots, moment := ctx.timestamp,
    allowWeakHashes := ctx.allowLegacy, revocationMode := ctx.revocationMode, allowFetching := ctx.allowFetching,
    fetchTimeout := ctx.fetchTimeout, crls := ctx.crls, ocsps := ctx.ocsps,
    keyUsages := kus, ekus := ekus, ekuOptional := ctx.optionalEku }

/-- `context.verify(certificate)`; context.py:313-374 (`ctxVerify`).  Simplification: the attributes of the context other than its stores
and its usages are looked at together. -/
def ctxVerifyW (env : Env) (fuel cid : Nat) (c : Cert) : WProg (List Cert) := do
  let ctx ← WProg.act (M.getCtx cid)
  let x ← collectW fuel ctx.stores ⟨[], [], [(c.obj, c)]⟩                     -- 325-337
  let ctx ← WProg.act (M.getCtx cid)                                          -- 340-351
  WProg.lift (env.mkValidator (questionOf ctx c x [] []))                     -- 341-357
  let kus ← WProg.act (takeKeyUsages cid)                                     -- 361-364
  let ekus ← WProg.act (takeEkus cid)
  match env.validate (questionOf ctx c x kus ekus) with
  | .error _ => WProg.lift (certErr c "Chain verification failed")            -- 367-370
  | .ok chain => do
    let chain ← WProg.lift (lookupAll x.all chain)                            -- 372
    ctxVerifyTrustW env fuel cid chain                                             -- 373
    pure chain                                                                -- 374

/-- `SignerInfo._verify_issuer_signature`; signerinfo.py:271-293. -/
def verifyIssuerSignatureW (env : Env) (cid : Nat) (s : Signer) (issuer : Cert) : WProg Unit :=
  WProg.act (verifyIssuerSignature env cid s issuer)

/-- `SignerInfo._verify_issuer`; signerinfo.py:295-313 (`verifyIssuer`). -/
def verifyIssuerW (env : Env) (fuel cid : Nat) (s : Signer) (t : Option Int) (issuer : Cert) : WProg (List Cert) := do
  verifyIssuerSignatureW env cid s issuer
  WProg.act (applySigningTime cid t)
  ctxVerifyW env fuel cid issuer

/-- `AuthenticodeSignerInfo._verify_issuer`; structures.py:278-292 (`verifyIssuerAuth`). -/
def verifyIssuerAuthW (env : Env) (fuel cid : Nat) (s : Signer) (t : Option Int) (issuer : Cert) : WProg (List Cert) :=
  verifyIssuerW env fuel cid s (if lifetimeSigning issuer then none else t) issuer

/-- The body of the loop in `_build_chain`; signerinfo.py:349-356 (`buildChainBody`). -/
def buildChainBodyW (check : Cert → WProg (List Cert)) (acc : List (List Cert) × FirstError) (issuer : Cert) :
    WProg (List (List Cert) × FirstError) :=
  (check issuer).onResult (fun x =>
    match x with
    | .ok chain => pure (acc.1 ++ [chain], .false)
    | .error e =>
      if e.is .verificationError then pure (acc.1, if acc.2 = .none then .error e else acc.2)
      else WProg.raise e)

/-- `SignerInfo.verify` for a given `_verify_issuer`; signerinfo.py:315-385 (`signerVerifyWith`). -/
def signerVerifyWithW (env : Env) (fuel cid : Nat) (s : Signer) (check : Cert → WProg (List Cert)) : WProg (List (List Cert)) := do
  let acc ← forFindW env fuel cid { issuer := some s.issuer, serial := some s.serial } ([], .none) (buildChainBodyW check)
  match acc.2 with
  | .error e => WProg.raise e
  | _ =>
    if acc.1.isEmpty then WProg.raise ⟨.signerInfoVerificationError, "No valid certificate chain found to a trust anchor"⟩
    else pure acc.1

/-- `SignerInfo.verify(context)`. -/
def signerVerifyW (env : Env) (fuel cid : Nat) (s : Signer) : WProg (List (List Cert)) :=
  signerVerifyWithW env fuel cid s (verifyIssuerW env fuel cid s none)

/-- `AuthenticodeSignerInfo.verify(context, signing_time)`. -/
def authSignerVerifyW (env : Env) (fuel cid : Nat) (s : Signer) (t : Option Int) : WProg (List (List Cert)) :=
  signerVerifyWithW env fuel cid s (verifyIssuerAuthW env fuel cid s t)

/-- `countersigner.verify(context)`; structures.py:568-573, 732-764 (`CounterSigner.verify`). -/
def CounterSigner.verifyW (env : Env) (fuel : Nat) (c : CounterSigner) (cid : Nat) : WProg (List (List Cert)) :=
  match c with
  | .pkcs9 c => signerVerifyW env fuel cid c.signer
  | .rfc3161 r =>
    if some (r.core.contentDigest env) ≠ r.signer.messageDigest then          -- 750-753
      WProg.raise ⟨.authenticodeCounterSigner, "The expected hash of the TstInfo does not match SignerInfo"⟩
    else signerVerifyW env fuel cid r.signer                                  -- 764

/-- The `try` block for the countersigner; structures.py:555-573 (`checkCounter`). -/
def checkCounterW (env : Env) (fuel : Nat) (a : AuthData) (c : CounterSigner) (csCid : Nat) : WProg Unit :=
  if !c.checkMessageDigest env a.signer.encryptedDigest then                  -- 558-564
    WProg.raise ⟨.authenticodeCounterSigner, "The expected hash of the encryptedDigest does not match countersigner's SignerInfo"⟩
  else do
    WProg.act (setTimestamp csCid c.signingTime)                              -- 566-568
    let _ ← c.verifyW env fuel csCid                                          -- 574
    pure ()

/-- The countersigner part of `AuthenticodeSignedData.verify`; structures.py:551-585 (`counterTime`). -/
def counterTimeW (env : Env) (fuel : Nat) (a : AuthData) (mode : String) (csCid : Option Nat) : WProg (Option Int) :=
  match a.counter with
  | none => pure none
  | some c =>
    if mode ≠ "ignore" then
      match csCid with
      | none => WProg.raise ⟨.assertionError, ""⟩                             -- 553
      | some i =>
        (checkCounterW env fuel a c i).onResult (fun x =>
          match x with
          | .ok _ => pure c.signingTime                                       -- 582-585
          | .error _ =>
            if mode ≠ "strict" then pure none                                 -- 575-577
            else WProg.raise ⟨.authenticodeCounterSigner, "An error occurred while validating the countersignature"⟩)  -- 578-581
    else pure none

/-- `AuthenticodeSignedData.verify(...)`; structures.py:427-587 (`asdVerify`).  The content of the file is taken not to change (for this see
`Model/Shared.lean`). -/
def asdVerifyW (env : Env) (fuel : Nat) (file : Option Bytes) (a : AuthData) (args : VerifyArgs) : WProg (List (List Cert)) := do
  let cid ← WProg.act (chooseContext a args)
  let csCid ← WProg.act (chooseCsContext a args)
  WProg.lift (checkDigests env file a args.expectedHash)
  let t ← counterTimeW env fuel a args.countersignatureMode csCid
  authSignerVerifyW env fuel cid a.signer t                                   -- 587

end Signify
