/-
Times without a time zone in `verify_trust`.
-/
import Verif.Model.Context

set_option autoImplicit false

namespace Signify

/-- A `datetime` object: one with a time zone is an instant, one without is what some clock shows. -/
inductive PyTime where
  | aware (t : Int)
  | naive (reading : Int)
deriving DecidableEq, Repr

/-- `t >= x`, where `x` has a time zone (the dates in trust lists do; asn1/ctl.py:112-125); Python cannot compare the two kinds. -/
def PyTime.ge (t : PyTime) (x : Int) : Except Exc Bool :=
  match t with
  | .aware t => .ok (t ≥ x)
  | .naive _ => .error ⟨.typeError, "can't compare offset-naive and offset-aware datetimes"⟩

/-- As `restricted`, with any time; authroot.py:333-362 (366-393). -/
def restrictedZ (time : Option Int) (ekus : Option (List String)) (requested : List String) (t : PyTime) : Except Exc Bool :=
  match time with
  | some x => do
    if ← t.ge x then
      match ekus with
      | none => .ok true
      | some l => .ok (anyOf requested l)
    else .ok false
  | none =>
    match ekus with
    | none => .ok false
    | some l => .ok (anyOf requested l)

/-- `CertificateTrustSubject.verify_trust(chain, context)`, as `CtlSubject.verifyTrust`; authroot.py:303-395.  `issued` is
`chain[-1].valid_from`, which has no time zone if the certificate gives it as a GeneralizedTime without one. -/
def CtlSubject.verifyTrustZ (s : CtlSubject) (chain : List Cert) (requested : List String) (issued timestamp : PyTime) :
    Except Exc Unit :=
  if s.ekusBad requested then ctlErr "extended key usages not present"        -- 322-329
  else
    match chain.getLast? with
    | none => .error ⟨.indexError, "list index out of range"⟩
    | some _ => do
      if ← restrictedZ s.notBeforeTime s.notBeforeEkus requested issued then
        ctlErr "disallowed for certificates issued after"                     -- 333-362
      else if ← restrictedZ s.disallowedTime s.disallowedEkus requested timestamp then
        ctlErr "disallowed since"                                             -- 366-393
      else .ok ()

/-- `CertificateTrustList.verify_trust(chain, context=context)`, as `ctlVerifyTrust`, for a context whose `timestamp` (not
`None`) is given here;
authroot.py:119-134, 303-319. -/
def ctlVerifyTrustZ (env : Env) (issued timestamp : PyTime) (cid : Nat) (ctl : CTL) (chain : List Cert) : M Unit :=
  match chain.head? with
  | none => M.raise ⟨.indexError, "list index out of range"⟩
  | some root => do
    let subj ← M.lift (ctl.findSubject env root)
    match subj with
    | none => M.lift (raiseNaming root ⟨.ctlCertificateVerificationError, "The root is not in the certificate trust list"⟩)
    | some s =>
      let requested ← takeEkus cid
      M.lift (s.verifyTrustZ chain requested issued timestamp)

/-- `store.verify_trust(chain, context)`, as `storeVerifyTrust`; context.py:46-62. -/
def storeVerifyTrustZ (env : Env) (issued timestamp : PyTime) (cid : Nat) (r : StoreRef) (chain : List Cert) : M Unit :=
    fun w =>
  match chain.head? with
  | none => (.error ⟨.indexError, "list index out of range"⟩, w)
  | some root =>
    if !storeIsTrusted w r root then (raiseNaming root ⟨.certificateNotTrusted, "not trusted by the store"⟩, w)
    else
      match r with
      | .embedded _ => (.ok (), w)
      | .heap i =>
        match (w.stores i).ctl with
        | none => (.ok (), w)
        | some ctl => ctlVerifyTrustZ env issued timestamp cid ctl chain w

/-- The loop of `VerificationContext.verify_trust`, as `verifyTrustLoop`; context.py:401-418. -/
def verifyTrustLoopZ (env : Env) (issued timestamp : PyTime) (cid : Nat) (chain : List Cert) :
    List StoreRef → Option Exc → M Unit
  | [], some e => M.raise e                                                   -- 412-413
  | [], none => M.raise ⟨.certificateVerificationError, "not trusted by any store"⟩  -- 415-418
  | r :: rs, exc => fun w =>
    match storeVerifyTrustZ env issued timestamp cid r chain w with
    | (.ok (), w') => (.ok (), w')                                            -- 405-406
    | (.error e, w') =>
      if e.is .certificateNotTrusted then verifyTrustLoopZ env issued timestamp cid chain rs exc w'       -- 407-408
      else if e.is .verificationError then verifyTrustLoopZ env issued timestamp cid chain rs (some e) w' -- 409-410
      else (.error e, w')

/-- `context.verify_trust(chain)`, as `ctxVerifyTrust`; context.py:393-418. -/
def ctxVerifyTrustZ (env : Env) (issued timestamp : PyTime) (cid : Nat) (chain : List Cert) : M Unit := do
  let ctx ← M.getCtx cid
  verifyTrustLoopZ env issued timestamp cid chain ctx.stores none

/-- What certvalidator does when the moment it is given has no time zone: making the validator, and asking it (it may refuse the one or
the other). -/
structure ZonelessValidator where
  make : Int → ValReq → Except Exc Unit
  validate : Int → ValReq → Except Exc (List Nat)

/-- `ValidationContext(moment=t, ...)`; context.py:340-357. -/
def ZonelessValidator.makeAt (lib : ZonelessValidator) (env : Env) (t : PyTime) (req : ValReq) : Except Exc Unit :=
  match t with
  | .aware u => env.mkValidator { req with moment := some u }
  | .naive r => lib.make r req

/-- `validator.validate_usage(...)`; context.py:359-366. -/
def ZonelessValidator.validateAt (lib : ZonelessValidator) (env : Env) (t : PyTime) (req : ValReq) : Except Exc (List Nat) :=
  match t with
  | .aware u => env.validate { req with moment := some u }
  | .naive r => lib.validate r req

/-- `context.verify(certificate)`, as `ctxVerify`, for a context whose `timestamp` (not `None`) is given here; `issued` is the `valid_from` of
certificates; context.py:313-374.  Simplification: `moment` of the request is only meaningful for a time with a time zone. -/
def ctxVerifyZ (env : Env) (lib : ZonelessValidator) (issued : Cert → PyTime) (timestamp : PyTime) (cid : Nat) (c : Cert) : M (List Cert) := do
  let ctx ← M.getCtx cid
  let (roots, inter, all) ← collectCerts ctx.stores [] [] [(c.obj, c)]        -- 325-337
  let req : ValReq := {
    endEntity := c.obj, intermediates := inter, trustRoots := roots, moment := none,
    allowWeakHashes := ctx.allowLegacy, revocationMode := ctx.revocationMode, allowFetching := ctx.allowFetching,
    fetchTimeout := ctx.fetchTimeout, crls := ctx.crls, ocsps := ctx.ocsps,
    keyUsages := [], ekus := [], ekuOptional := ctx.optionalEku }
  M.lift (lib.makeAt env timestamp req)                                       -- 340-357
  let kus ← takeKeyUsages cid                                                 -- 361-364
  let ekus ← takeEkus cid
  match lib.validateAt env timestamp { req with keyUsages := kus, ekus := ekus } with
  | .error _ => M.lift (certErr c "Chain verification failed")                -- 367-370
  | .ok chain => do
    let chain ← M.lift (lookupAll all chain)                                  -- 372
    ctxVerifyTrustZ env ((chain.getLast?.map issued).getD (.aware 0)) timestamp cid chain   -- 373
    pure chain                                                                -- 374

end Signify
