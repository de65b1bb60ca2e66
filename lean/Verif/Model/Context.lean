/-
Model of `signify/x509/context.py`.
-/
import Verif.Model.CTL

set_option autoImplicit false

namespace Signify

/-- A `CertificateStore` object (a Python list with attributes); context.py:24-41.  `pending` is set for a
`FileSystemCertificateStore` that has not been loaded yet: the certificates that reading its location will append, in order,
and the exception that then interrupts the reading, if any (context.py:156-167). -/
structure Store where
  items : List Cert
  trusted : Bool
  ctl : Option CTL
  pending : Option (List Cert × Option Exc)
deriving DecidableEq, Repr

/-- A reference to a store: an object of the heap, or the certificates embedded in a signature (`signed_data.certificates`,
an untrusted `CertificateStore` without CTL that nobody modifies; signeddata.py:137-147). -/
inductive StoreRef where
  | heap (id : Nat)
  | embedded (certs : List Cert)
deriving DecidableEq, Repr

/-- A Python iterable of strings passed as an argument, or `None`: a re-iterable container, or a one-shot iterator with its
remaining elements. -/
inductive PyIter where
  | none
  | list (l : List String)
  | gen (l : List String)
deriving DecidableEq, Repr

/-- Truth value: iterators are always true. -/
def PyIter.truthy : PyIter → Bool
  | .none => false
  | .list l => !l.isEmpty
  | .gen _ => true

/-- The elements obtained by iterating. -/
def PyIter.elems : PyIter → List String
  | .none => []
  | .list l => l
  | .gen l => l

/-- The iterable after having been iterated to the end. -/
def PyIter.consumed : PyIter → PyIter
  | .gen _ => .gen []
  | x => x

/-- A `VerificationContext` object; context.py:170-228.  Simplification: `crls` and `ocsps` are handed on as they are. -/
structure Ctx where
  stores : List StoreRef
  timestamp : Option Int
  keyUsages : PyIter
  ekus : PyIter
  optionalEku : Bool
  allowLegacy : Bool
  revocationMode : String
  allowFetching : Bool
  fetchTimeout : Nat
  crls : Option (List Nat)
  ocsps : Option (List Nat)
deriving DecidableEq, Repr

/-- The mutable part of the program state: store objects, context objects, and the dictionaries of digests that callers pass
as `expected_hashes`. -/
structure World where
  stores : Nat → Store
  ctxs : Nat → Ctx
  nextCtx : Nat
  dicts : Nat → Dict String Bytes := fun _ => []

/-- A computation which reads and writes the state and may raise; the state survives an exception. -/
def M (α : Type) := World → Except Exc α × World

namespace M

/-- return a value -/
def ret {α : Type} (a : α) : M α := fun w => (.ok a, w)

/-- sequencing: an exception skips the continuation -/
def bnd {α β : Type} (x : M α) (f : α → M β) : M β := fun w =>
  match x w with
  | (.ok a, w') => f a w'
  | (.error e, w') => (.error e, w')

instance : Monad M where
  pure := ret
  bind := bnd

/-- `raise e` -/
def raise {α : Type} (e : Exc) : M α := fun w => (.error e, w)

/-- a pure computation that may raise -/
def lift {α : Type} (x : Except Exc α) : M α := fun w => (x, w)

/-- `try: x except: h` -/
def catch_ {α : Type} (x : M α) (h : Exc → M α) : M α := fun w =>
  match x w with
  | (.ok a, w') => (.ok a, w')
  | (.error e, w') => h e w'

/-- run a computation and observe its outcome (the `try`/`except` statement in full generality) -/
def attempt {α : Type} (x : M α) : M (Except Exc α) := fun w =>
  match x w with
  | (r, w') => (.ok r, w')

/-- read the whole state -/
def world : M World := fun w => (.ok w, w)

/-- read an object -/
def getStore (i : Nat) : M Store := fun w => (.ok (w.stores i), w)
/-- read a context -/
def getCtx (i : Nat) : M Ctx := fun w => (.ok (w.ctxs i), w)
/-- write a store object -/
def setStore (i : Nat) (s : Store) : M Unit := fun w => (.ok (), { w with stores := fun j => if j = i then s else w.stores j })
/-- create a context object -/
def newCtx (c : Ctx) : M Nat := fun w =>
  (.ok w.nextCtx, { w with ctxs := fun j => if j = w.nextCtx then c else w.ctxs j, nextCtx := w.nextCtx + 1 })
/-- read a dictionary object -/
def getDict (i : Nat) : M (Dict String Bytes) := fun w => (.ok (w.dicts i), w)
/-- write a dictionary object -/
def setDict (i : Nat) (d : Dict String Bytes) : M Unit := fun w => (.ok (), { w with dicts := fun j => if j = i then d else w.dicts j })
/-- write a context object -/
def setCtx (i : Nat) (c : Ctx) : M Unit := fun w => (.ok (), { w with ctxs := fun j => if j = i then c else w.ctxs j })

end M

/-- `iter(store)`: loads a file system store first; context.py:148-150, 156-167.  `_loaded` is set before reading, so that a
failed load is not repeated, and the certificates read before the failure stay in the list. -/
def iterStore : StoreRef → M (List Cert)
  | .embedded certs => pure certs
  | .heap i => do
    let s ← M.getStore i
    match s.pending with
    | none => pure s.items
    | some (certs, exc) =>
      let items := s.items ++ certs
      M.setStore i { s with items := items, pending := none }
      match exc with
      | none => pure items
      | some e => M.raise e

/-- `store.append(certificate)`: the method of the list, which does not load; context.py:43-44. -/
def storeAppend (i : Nat) (c : Cert) : M Unit := do
  let s ← M.getStore i
  M.setStore i { s with items := s.items ++ [c] }

/-- `context.add_store(store)`; context.py:230-232.  The list belongs to the context (context.py:216). -/
def addStore (cid : Nat) (r : StoreRef) : M Unit := do
  let ctx ← M.getCtx cid
  M.setCtx cid { ctx with stores := ctx.stores ++ [r] }

/-- `store.trusted` -/
def storeTrusted (w : World) : StoreRef → Bool
  | .embedded _ => false
  | .heap i => (w.stores i).trusted

/-- `store.is_trusted(certificate)`: `certificate in self` is the built-in `list.__contains__`, which does not load;
context.py:64-76. -/
def storeIsTrusted (w : World) (r : StoreRef) (c : Cert) : Bool :=
  match r with
  | .embedded _ => false
  | .heap i => (w.stores i).trusted && certIn c (w.stores i).items

/-- The keyword arguments of `find_certificates`; context.py:97-104. -/
structure Query where
  subject : Option Name := none
  serial : Option Int := none
  issuer : Option Name := none
  sha256 : Option String := none
deriving DecidableEq, Repr

/-- `s.replace(" ", "").lower()`.  Simplification: only ASCII letters are lowered; no other character lowers to a hexadecimal
digit, so that the comparison below is not affected. -/
def normFp (s : String) : List Char := (s.toList.filter (· ≠ ' ')).map Char.toLower

/-- Whether a certificate passes the filters of `find_certificates`; context.py:117-128. -/
def Query.matches (env : Env) (q : Query) (c : Cert) : Bool :=
  (match q.subject with | some n => c.subject.pyEq n | none => true) &&
  (match q.serial with | some n => c.serial == n | none => true) &&
  (match q.issuer with | some n => c.issuer.pyEq n | none => true) &&
  (match q.sha256 with | some f => normFp (c.fingerprint env "sha256") == normFp f | none => true)

/-- `list(store.find_certificates(...))`; context.py:97-130. -/
def storeFind (env : Env) (r : StoreRef) (q : Query) : M (List Cert) := do
  let l ← iterStore r
  pure (l.filter (q.matches env))

/-- `find_certificate` on the result of `list(self.find_certificates(...))`; context.py:88-95, 253-260. -/
def onlyOne (l : List Cert) : M Cert :=
  match l with
  | [] => M.raise ⟨.keyError, "the specified certificate does not exist"⟩
  | [c] => pure c
  | _ => M.raise ⟨.keyError, "there are multiple certificates matching the query"⟩

/-- `store.find_certificate(...)`; context.py:78-95. -/
def storeFindOne (env : Env) (r : StoreRef) (q : Query) : M Cert := do
  let l ← storeFind env r q
  onlyOne l

/-- Inner loop of `VerificationContext.find_certificates` with the body of the loop that consumes the generator;
context.py:273-277. Returns the seen certificates and the accumulator. -/
def forCerts {σ : Type} (env : Env) (q : Query) (body : σ → Cert → M σ) : List Cert → List Cert → σ → M (List Cert × σ)
  | [], seen, acc => pure (seen, acc)
  | c :: l, seen, acc =>
    if q.matches env c then
      if certIn c seen then forCerts env q body l seen acc
      else do
        let acc ← body acc c
        forCerts env q body l (seen ++ [c]) acc
    else forCerts env q body l seen acc

/-- Outer loop of `VerificationContext.find_certificates` with the body of the consumer, `for c in
context.find_certificates(...): body`; context.py:262-277. -/
def forStores {σ : Type} (env : Env) (q : Query) (body : σ → Cert → M σ) : List StoreRef → List Cert → σ → M σ
  | [], _, acc => pure acc
  | r :: rs, seen, acc => do
    let l ← iterStore r
    let (seen, acc) ← forCerts env q body l seen acc
    forStores env q body rs seen acc

/-- `for c in context.find_certificates(...): acc = body(acc, c)`. -/
def forFind {σ : Type} (env : Env) (cid : Nat) (q : Query) (init : σ) (body : σ → Cert → M σ) : M σ := do
  let ctx ← M.getCtx cid
  forStores env q body ctx.stores [] init

/-- `list(context.find_certificates(...))`. -/
def ctxFind (env : Env) (cid : Nat) (q : Query) : M (List Cert) :=
  forFind env cid q [] (fun acc c => pure (acc ++ [c]))

/-- `context.find_certificate(...)`; context.py:243-260. -/
def ctxFindOne (env : Env) (cid : Nat) (q : Query) : M Cert := do
  let l ← ctxFind env cid q
  onlyOne l

/-- The loop of `context.certificates`; context.py:240-241. -/
def allCertificates : List StoreRef → M (List Cert)
  | [] => pure []
  | r :: rs => do
    let l ← iterStore r
    let l' ← allCertificates rs
    pure (l ++ l')

/-- `list(context.certificates)`; context.py:234-241. -/
def ctxCertificates (cid : Nat) : M (List Cert) := do
  let ctx ← M.getCtx cid
  allCertificates ctx.stores

/-- `context.is_trusted(certificate)`; context.py:376-391. -/
def ctxIsTrusted (w : World) (cid : Nat) (c : Cert) : Bool := (w.ctxs cid).stores.any (fun r => storeIsTrusted w r c)

/-- `list(context.potential_chains(certificate, depth))`; context.py:279-311, and `certificate.potential_chains(context)`
(certificates.py:247-252), with the default depth. A negative depth behaves as zero. -/
def potentialChains (env : Env) (cid : Nat) : Nat → Cert → M (List (List Cert))
  | depth, c => fun w =>
    if ctxIsTrusted w cid c then (.ok [[c]], w)                               -- 299-301
    else
      match depth with
      | 0 => (.ok [], w)                                                      -- 302-303
      | depth + 1 =>
        forFind env cid { subject := some c.issuer } [] (fun acc cand => do   -- 305-311
          let chains ← potentialChains env cid depth cand
          pure (acc ++ (chains.filter (fun ch => !certIn c ch)).map (fun ch => ch ++ [c]))) w

/-- The loop of `VerificationContext.verify` that collects trust roots, intermediates and the object map;
context.py:328-337. -/
def collectCerts : List StoreRef → List Nat → List Nat → Dict Nat Cert → M (List Nat × List Nat × Dict Nat Cert)
  | [], roots, inter, all => pure (roots, inter, all)
  | r :: rs, roots, inter, all => do
    let l ← iterStore r
    let w ← M.world
    let all := l.foldl (fun d c => d.set c.obj c) all
    if storeTrusted w r then collectCerts rs (roots ++ l.map Cert.obj) inter all
    else collectCerts rs roots (inter ++ l.map Cert.obj) all

/-- `[all_certs[x] for x in chain]`; context.py:372. -/
def lookupAll (all : Dict Nat Cert) : List Nat → Except Exc (List Cert)
  | [] => .ok []
  | x :: l =>
    match all.get? x with
    | none => .error ⟨.keyError, "not a known certificate"⟩
    | some c =>
      match lookupAll all l with
      | .error e => .error e
      | .ok cs => .ok (c :: cs)

/-- `set(self.key_usages) if self.key_usages else set()`; context.py:361. -/
def takeKeyUsages (cid : Nat) : M (List String) := do
  let ctx ← M.getCtx cid
  if ctx.keyUsages.truthy then
    M.setCtx cid { ctx with keyUsages := ctx.keyUsages.consumed }
    pure ctx.keyUsages.elems
  else pure []

/-- `set(self.extended_key_usages) if self.extended_key_usages else set()`; context.py:362-364.  The CTL code
(authroot.py:314-319) iterates likewise. -/
def takeEkus (cid : Nat) : M (List String) := do
  let ctx ← M.getCtx cid
  if ctx.ekus.truthy then
    M.setCtx cid { ctx with ekus := ctx.ekus.consumed }
    pure ctx.ekus.elems
  else pure []

/-- `CertificateTrustList.verify_trust(chain, context=context)`; authroot.py:119-134, 303-319. -/
def ctlVerifyTrust (env : Env) (cid : Nat) (ctl : CTL) (chain : List Cert) : M Unit :=
  match chain.head? with
  | none => M.raise ⟨.indexError, "list index out of range"⟩
  | some root => do
    let subj ← M.lift (ctl.findSubject env root)
    match subj with
    | none => M.lift (raiseNaming root ⟨.ctlCertificateVerificationError, "The root is not in the certificate trust list"⟩)
    | some s =>
      let ctx ← M.getCtx cid
      let timestamp := ctx.timestamp.getD env.now
      let requested ← takeEkus cid
      M.lift (s.verifyTrust chain requested timestamp)

/-- `store.verify_trust(chain, context)`; context.py:46-62. -/
def storeVerifyTrust (env : Env) (cid : Nat) (r : StoreRef) (chain : List Cert) : M Unit := fun w =>
  match chain.head? with
  | none => (.error ⟨.indexError, "list index out of range"⟩, w)
  | some root =>
    if !storeIsTrusted w r root then (raiseNaming root ⟨.certificateNotTrusted, "not trusted by the store"⟩, w)
    else
      match r with
      | .embedded _ => (.ok (), w)
      | .heap i =>
        match (w.stores i).ctl with
        | none => (.ok (), w)
        | some ctl => ctlVerifyTrust env cid ctl chain w

/-- The loop of `VerificationContext.verify_trust`; context.py:401-418. -/
def verifyTrustLoop (env : Env) (cid : Nat) (chain : List Cert) : List StoreRef → Option Exc → M Unit
  | [], some e => M.raise e                                                   -- 412-413
  | [], none => M.raise ⟨.certificateVerificationError, "not trusted by any store"⟩  -- 415-418
  | r :: rs, exc => fun w =>
    match storeVerifyTrust env cid r chain w with
    | (.ok (), w') => (.ok (), w')                                            -- 405-406
    | (.error e, w') =>
      if e.is .certificateNotTrusted then verifyTrustLoop env cid chain rs exc w'       -- 407-408
      else if e.is .verificationError then verifyTrustLoop env cid chain rs (some e) w' -- 409-410
      else (.error e, w')

/-- `context.verify_trust(chain)`; context.py:393-418. -/
def ctxVerifyTrust (env : Env) (cid : Nat) (chain : List Cert) : M Unit := do
  let ctx ← M.getCtx cid
  verifyTrustLoop env cid chain ctx.stores none

/-- `context.verify(certificate)`; context.py:313-374, and its alias `certificate.verify(context)`; certificates.py:254-257. -/
def ctxVerify (env : Env) (cid : Nat) (c : Cert) : M (List Cert) := do
  let ctx ← M.getCtx cid
  let (roots, inter, all) ← collectCerts ctx.stores [] [] [(c.obj, c)]        -- 325-337
  let req : ValReq := {
    endEntity := c.obj, intermediates := inter, trustRoots := roots, moment := ctx.timestamp,
    allowWeakHashes := ctx.allowLegacy, revocationMode := ctx.revocationMode, allowFetching := ctx.allowFetching,
    fetchTimeout := ctx.fetchTimeout, crls := ctx.crls, ocsps := ctx.ocsps,
    keyUsages := [], ekus := [], ekuOptional := ctx.optionalEku }
  M.lift (env.mkValidator req)                                                -- 340-357
  let kus ← takeKeyUsages cid                                                 -- 361-364
  let ekus ← takeEkus cid
  match env.validate { req with keyUsages := kus, ekus := ekus } with
  | .error _ => M.lift (certErr c "Chain verification failed")                -- 367-370
  | .ok chain => do
    let chain ← M.lift (lookupAll all chain)                                  -- 372
    ctxVerifyTrust env cid chain                                              -- 373
    pure chain                                                                -- 374

end Signify
