/-
Specification vocabulary for the verification of signatures.
-/
import Verif.Model.Verify
import Verif.Spec.X509
import Verif.Spec.SignedPE

set_option autoImplicit false

namespace Signify.Spec

open Signify

/-- What is asked of `certvalidator` for a certificate, given the context object and the stores. -/
def requestFor (w : World) (ctx : Ctx) (c : Cert) : ValReq :=
  { endEntity := c.obj
    trustRoots := (ctx.stores.filter (fun r => storeTrusted w r)).flatMap (fun r => (certsOf w r).map Cert.obj)
    intermediates := (ctx.stores.filter (fun r => !storeTrusted w r)).flatMap (fun r => (certsOf w r).map Cert.obj)
    moment := ctx.timestamp
    allowWeakHashes := ctx.allowLegacy
    revocationMode := ctx.revocationMode
    allowFetching := ctx.allowFetching
    fetchTimeout := ctx.fetchTimeout
    crls := ctx.crls
    ocsps := ctx.ocsps
    keyUsages := ctx.keyUsages.elems
    ekus := ctx.ekus.elems
    ekuOptional := ctx.optionalEku }

/-- The strings `l` are those that the caller gave as the iterable `p`; a one-shot iterator may have been used up before. -/
def Given (p : PyIter) (l : List String) : Prop := l = p.elems ∨ (l = [] ∧ ∃ g, p = .gen g)

/-- The path validator has, asked in the name of the context `ctx` about the time `t`, answered with the chain; the chain consists
of certificates known to the context and is accepted by one of its trusted stores (with that store's CTL) for the time `t`. -/
structure Validated (env : Env) (w : World) (ctx : Ctx) (t : Option Int) (c : Cert) (chain : List Cert) : Prop where
  answer : ∃ kus ekus, Given ctx.keyUsages kus ∧ Given ctx.ekus ekus ∧
    env.validate { requestFor w ctx c with moment := t, keyUsages := kus, ekus := ekus } = .ok (chain.map Cert.obj)
  members : ∀ d ∈ chain, d = c ∨ ∃ r ∈ ctx.stores, d ∈ certsOf w r
  anchored : ∃ r ∈ ctx.stores, ∃ ekus, Given ctx.ekus ekus ∧ StoreAccepts env w r chain ekus (t.getD env.now)
  loaded : ∀ r ∈ ctx.stores, LoadedStore w r

/-- The signature `sig` over `data` is valid under the key of `c`: RSA PKCS#1 v1.5, DSA or ECDSA, or, where legacy signatures
are allowed, a bare RSA signature of the digest. -/
def ValidSignature (env : Env) (c : Cert) (sig data : Bytes) (alg : String) (legacy : Bool) : Prop :=
  ∃ kind, env.loadKey c.spki = .ok kind ∧ kind ∈ ["rsa", "dsa", "ec"] ∧
    (env.pkVerify kind c.spki sig data alg = .ok () ∨
     (legacy = true ∧ kind = "rsa" ∧ env.rawVerify c.spki sig (env.hash alg data) = .ok ()))

/-- The certificate is known to the context and is one that the SignerInfo names by issuer and serial number. -/
structure NamedBy (w : World) (ctx : Ctx) (s : Signer) (c : Cert) : Prop where
  known : ∃ r ∈ ctx.stores, c ∈ certsOf w r
  issuer : c.issuer.components = s.issuer.components
  serial : c.serial = s.serial

/-- The certificate signed the authenticated attributes of the SignerInfo. -/
structure SignedBy (env : Env) (w : World) (ctx : Ctx) (s : Signer) (c : Cert) : Prop where
  named : NamedBy w ctx s c
  signature : ValidSignature env c s.encryptedDigest s.encodedAuth s.digestAlg ctx.allowLegacy

/-- The certificate is restricted to lifetime signing. -/
def LifetimeSigning (c : Cert) : Prop := ∃ l, c.eku = some l ∧ "microsoft_lifetime_signing" ∈ l

/-- All chains given come from a certificate that signed the SignerInfo, and have been validated for the time `t`. -/
def AllValidated (env : Env) (w : World) (ctx : Ctx) (s : Signer) (t : Option Int) (chains : List (List Cert)) : Prop :=
  ∀ chain ∈ chains, ∃ c, SignedBy env w ctx s c ∧ Validated env w ctx t c chain

/-- A countersignature over `data` (the encrypted digest of the signer) is good in the context `ctx`: it covers the data, and its
signer was validated for the time it states. -/
structure CounterGood (env : Env) (w : World) (ctx : Ctx) (data : Bytes) (c : CounterSigner) : Prop where
  pkcs9 : ∀ i, c = .pkcs9 i →
    i.signer.messageDigest = some (env.hash i.signer.digestAlg data) ∧
    ∃ chains, chains ≠ [] ∧ AllValidated env w ctx i.signer i.signer.signingTime chains
  rfc3161 : ∀ r, c = .rfc3161 r →
    r.tst.messageDigest = env.hash r.tst.hashAlg data ∧
    r.signer.messageDigest = some (env.hash r.core.digestAlg r.core.content) ∧
    ∃ chains, chains ≠ [] ∧ AllValidated env w ctx r.signer (some r.tst.signingTime) chains

/-- A context with the given stores and extended key usages, and all options as the caller has them. -/
def contextOf (stores : List StoreRef) (ekus : List String) (o : CtxOptions) : Ctx where
  stores := stores
  timestamp := o.timestamp
  keyUsages := (match o.keyUsages with | none => .none | some l => .list l)
  ekus := .list ekus
  optionalEku := o.optionalEku
  allowLegacy := o.allowLegacy
  revocationMode := o.revocationMode
  allowFetching := o.allowFetching
  fetchTimeout := o.fetchTimeout
  crls := o.crls
  ocsps := o.ocsps

/-- The context that `AuthenticodeSignedData.verify` uses for the signer: the given one, or one made of the trusted store, the
certificates of the signature and the options. -/
def signerContext (w : World) (a : AuthData) (args : VerifyArgs) : Ctx :=
  match args.context with
  | some c => w.ctxs c
  | none => contextOf [args.trusted, .embedded a.core.certificates] ["code_signing"] args.options

/-- Likewise for the countersigner. -/
def counterContext (w : World) (a : AuthData) (c : CounterSigner) (args : VerifyArgs) : Ctx :=
  match args.csContext with
  | some i => w.ctxs i
  | none => contextOf ([args.trusted, .embedded a.core.certificates] ++
      (match c with
       | .pkcs9 _ => []
       | .rfc3161 r => [.embedded r.core.certificates])) ["time_stamping"] args.options

/-- The contexts passed by the caller exist. -/
structure ContextsExist (w : World) (args : VerifyArgs) : Prop where
  context : ∀ c, args.context = some c → c < w.nextCtx
  csContext : ∀ c, args.csContext = some c → c < w.nextCtx

/-- The caller has not passed one and the same context for the signer and for the countersigner. -/
def SeparateContexts (args : VerifyArgs) : Prop := args.context = none ∨ args.context ≠ args.csContext

/-! ### Outcomes in a given context -/

/-- The stores of the context can be read, as far as this has still to happen. -/
def Readable (w : World) (ctx : Ctx) : Prop :=
  ∀ i, .heap i ∈ ctx.stores → ∀ certs e, (w.stores i).pending = some (certs, e) → e = none

/-- Calling `f` with a context object in the state `ctx`, the stores being as in `w`, has the outcome `r`. -/
def InContext {α : Type} (w : World) (ctx : Ctx) (f : Nat → M α) (r : Except Exc α) : Prop :=
  ∃ i v, v.stores = w.stores ∧ v.ctxs i = ctx ∧ (f i v).1 = r

/-- The countersignature holds: the digest is that of the signature value, and `countersigner.verify` succeeds with the
countersigner's context at the time stated. -/
def CounterPasses (env : Env) (w : World) (a : AuthData) (c : CounterSigner) (args : VerifyArgs) : Prop :=
  c.checkMessageDigest env a.signer.encryptedDigest = true ∧
  ∃ chains, InContext w { counterContext w a c args with timestamp := c.signingTime } (fun i => c.verify env i) (.ok chains)

/-- The countersignature does not hold. -/
def CounterFails (env : Env) (w : World) (a : AuthData) (c : CounterSigner) (args : VerifyArgs) : Prop :=
  c.checkMessageDigest env a.signer.encryptedDigest = false ∨
  ∃ e, InContext w { counterContext w a c args with timestamp := c.signingTime } (fun i => c.verify env i) (.error e)

/-- The same signature without its countersignature. -/
def withoutCounter (a : AuthData) : AuthData := { a with counter := none }

/-- The same call in another mode. -/
def _root_.Signify.VerifyArgs.inMode (args : VerifyArgs) (mode : String) : VerifyArgs := { args with countersignatureMode := mode }

/-- The digests of a signature agree: the three algorithms are the same, the digest in the SpcInfo is the hash expected by the
caller, or else the authentihash of the file, and the message digest attribute is the hash of the content. -/
structure DigestsAgree (env : Env) (file : Option Bytes) (a : AuthData) (expected : Option Bytes) : Prop where
  algorithms : a.core.digestAlg = a.spc.digestAlg ∧ a.core.digestAlg = a.signer.digestAlg
  given : ∀ d, expected = some d → a.spc.digest = d
  computed : expected = none → ∃ f, file = some f ∧ ∀ bs : Int, 1 ≤ bs → Authentihash env.hash a.core.digestAlg bs f a.spc.digest
  content : a.signer.messageDigest = some (env.hash a.core.digestAlg a.core.content)

/-- A store with the same contents in both states, loaded or not, which can be read if need be. -/
def SameStore (w w' : World) (r : StoreRef) : Prop :=
  ∀ i, r = .heap i → Store.loaded (w.stores i) = Store.loaded (w'.stores i) ∧
    (∀ certs e, (w.stores i).pending = some (certs, e) → e = none) ∧ (∀ certs e, (w'.stores i).pending = some (certs, e) → e = none)

/-- The state `w'`, with the timestamps of all contexts put back to what they were in `w`. -/
def resetTimes (w w' : World) : World :=
  { w' with ctxs := fun j => { w'.ctxs j with timestamp := (w.ctxs j).timestamp } }

/-- The state `w`, with the timestamp of one context set to `t`. -/
def withTime (w : World) (i : Nat) (t : Option Int) : World :=
  { w with ctxs := fun j => if j = i then { w.ctxs i with timestamp := t } else w.ctxs j }

/-- A call of `AuthenticodeSignedData.verify`. -/
structure Call where
  file : Option Bytes
  a : AuthData
  args : VerifyArgs

/-- The state after some calls, whatever their outcomes. -/
def afterCalls (env : Env) : List Call → World → World
  | [], w => w
  | c :: cs, w => afterCalls env cs (asdVerify env c.file c.a c.args w).2

/-! ### Candidates for the signer's certificate -/

/-- The candidates for the certificate that made a signature, in order: the certificates known to the context with the issuer and
serial number stated in the SignerInfo, without repetition. -/
def Candidates (w : World) (ctx : Ctx) (s : Signer) (l : List Cert) : Prop :=
  FirstOccurrences (fun c => c.issuer.components = s.issuer.components ∧ c.serial = s.serial)
    (ctx.stores.flatMap (certsOf (loadedWorld w))) l

/-- What comes of a candidate: an error if it did not make the signature (TypeError if it cannot be named in the message), else the outcome of `context.verify(c)` at the time given,
if one is given. -/
inductive CandidateOutcome (env : Env) (w : World) (ctx : Ctx) (s : Signer) (t : Option Int) (c : Cert) : Except Exc (List Cert) → Prop where
  | badSignature (e : Exc) : ¬ ValidSignature env c s.encryptedDigest s.encodedAuth s.digestAlg ctx.allowLegacy →
      (e.cls = .signerInfoVerificationError ∧ Textual c.subject) ∨ (e.cls = .typeError ∧ ¬ Textual c.subject) ∨
        (e.is .verificationError = false ∧ env.loadKey c.spki = .error e) →
      CandidateOutcome env w ctx s t c (.error e)
  | goodSignature (r : Except Exc (List Cert)) : ValidSignature env c s.encryptedDigest s.encodedAuth s.digestAlg ctx.allowLegacy →
      InContext w { ctx with timestamp := t.or ctx.timestamp } (fun i => ctxVerify env i c) r → CandidateOutcome env w ctx s t c r

/-- An outcome other than an exception of another class than VerificationError. -/
def Regular (r : Except Exc (List Cert)) : Prop := ∀ e, r = .error e → e.is .verificationError = true

/-- How the outcomes for the candidates combine: all chains in order, if there are any; else the first error; else
SignerInfoVerificationError.  Any exception other than VerificationError ends the verification. -/
inductive Verdict : List (Except Exc (List Cert)) → Except Exc (List (List Cert)) → Prop where
  | chains (os : List (Except Exc (List Cert))) : (∀ o ∈ os, Regular o) → os.filterMap Except.toOption ≠ [] →
      Verdict os (.ok (os.filterMap Except.toOption))
  | firstError (e : Exc) (os : List (Except Exc (List Cert))) : (∀ o ∈ Except.error e :: os, Regular o) →
      (∀ o ∈ os, ∃ e', o = .error e') → Verdict (.error e :: os) (.error e)
  | noCandidate (msg : String) : Verdict [] (.error ⟨.signerInfoVerificationError, msg⟩)
  | abort (pre post : List (Except Exc (List Cert))) (e : Exc) : (∀ o ∈ pre, Regular o) → e.is .verificationError = false →
      Verdict (pre ++ .error e :: post) (.error e)

end Signify.Spec
