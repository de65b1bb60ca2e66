/-
Specification vocabulary for verification while others use the same stores and contexts (C98).  `At` are the moments at which the code
looked at them: the states as they were then.
-/
import Verif.Model.Together
import Verif.Spec.Verify

set_option autoImplicit false

namespace Signify.Spec

open Signify

/-- The certificate was in the store at one of the moments (the certificates of a signature do not change). -/
def InStoreThen (At : World → Prop) (r : StoreRef) (c : Cert) : Prop :=
  match r with
  | .embedded certs => c ∈ certs
  | .heap i => ∃ m, At m ∧ c ∈ (m.stores i).items

/-- The certificate was, at one of the moments, in a store that the context had at one of the moments. -/
def KnownThen (At : World → Prop) (cid : Nat) (c : Cert) : Prop := ∃ m r, At m ∧ r ∈ (m.ctxs cid).stores ∧ InStoreThen At r c

/-- The same, and the store was trusted at one of the moments. -/
def TrustedThen (At : World → Prop) (cid : Nat) (c : Cert) : Prop :=
  ∃ m i, At m ∧ .heap i ∈ (m.ctxs cid).stores ∧ InStoreThen At (.heap i) c ∧ ∃ m', At m' ∧ (m'.stores i).trusted = true

/-- The certificate was known to the context, and is one that the SignerInfo names. -/
structure NamedThen (At : World → Prop) (cid : Nat) (s : Signer) (c : Cert) : Prop where
  known : KnownThen At cid c
  issuer : c.issuer.components = s.issuer.components
  serial : c.serial = s.serial

/-- The path validator has been asked about the certificate, with trust anchors and other certificates that the stores of the context
had at some of the moments, and with the time, the usages and the options that the context had at some of the moments, and has
answered with the chain. -/
def AnsweredThen (env : Env) (At : World → Prop) (cid : Nat) (c : Cert) (chain : List Cert) : Prop :=
  ∃ m roots inter kus ekus, At m ∧
    (∀ x ∈ roots, ∃ d : Cert, d.obj = x ∧ TrustedThen At cid d) ∧
    (∀ x ∈ inter, ∃ d : Cert, d.obj = x ∧ KnownThen At cid d) ∧
    (∃ m', At m' ∧ kus = (m'.ctxs cid).keyUsages.elems) ∧
    (∃ m', At m' ∧ ekus = (m'.ctxs cid).ekus.elems) ∧
    env.validate
      { endEntity := c.obj
        trustRoots := roots
        intermediates := inter
        moment := (m.ctxs cid).timestamp
        allowWeakHashes := (m.ctxs cid).allowLegacy
        revocationMode := (m.ctxs cid).revocationMode
        allowFetching := (m.ctxs cid).allowFetching
        fetchTimeout := (m.ctxs cid).fetchTimeout
        crls := (m.ctxs cid).crls
        ocsps := (m.ctxs cid).ocsps
        keyUsages := kus
        ekus := ekus
        ekuOptional := (m.ctxs cid).optionalEku } = .ok (chain.map Cert.obj)

/-- A store that the context had at one of the moments was, at one of the moments, trusted, and had, at one of the moments, the root of
the chain; and a CTL that it had at one of the moments accepts the chain, for the time and the usages that the context had at some of the moments. -/
def AnchoredThen (env : Env) (At : World → Prop) (cid : Nat) (chain : List Cert) : Prop :=
  ∃ i root, chain.head? = some root ∧ (∃ m, At m ∧ .heap i ∈ (m.ctxs cid).stores) ∧
    (∃ m, At m ∧ (m.stores i).trusted = true) ∧ (∃ m, At m ∧ ∃ d ∈ (m.stores i).items, SameCert root d) ∧
    ∃ m, At m ∧ ∀ ctl, (m.stores i).ctl = some ctl →
      ∃ m1 m2, At m1 ∧ At m2 ∧ Accepts env ctl chain (m1.ctxs cid).ekus.elems ((m2.ctxs cid).timestamp.getD env.now)

/-- The chain of the certificate has been validated in the context. -/
structure ValidatedThen (env : Env) (At : World → Prop) (cid : Nat) (c : Cert) (chain : List Cert) : Prop where
  answer : AnsweredThen env At cid c chain
  members : ∀ d ∈ chain, d = c ∨ KnownThen At cid d
  anchored : AnchoredThen env At cid chain

/-- The chain is one of a certificate that the SignerInfo names and that signed it, validated in the context. -/
structure ChainThen (env : Env) (At : World → Prop) (cid : Nat) (s : Signer) (chain : List Cert) (c : Cert) : Prop where
  named : NamedThen At cid s c
  signature : ∃ m, At m ∧ ValidSignature env c s.encryptedDigest s.encodedAuth s.digestAlg (m.ctxs cid).allowLegacy
  validated : ValidatedThen env At cid c chain

/-- The same, for a context `ctx` that nobody changes: its stores may change, but not which they are, nor the other attributes. -/
structure EvidenceIn (env : Env) (At : World → Prop) (ctx : Ctx) (s : Signer) (chain : List Cert) (c : Cert) : Prop where
  known : ∃ r ∈ ctx.stores, InStoreThen At r c
  issuer : c.issuer.components = s.issuer.components
  serial : c.serial = s.serial
  signature : ValidSignature env c s.encryptedDigest s.encodedAuth s.digestAlg ctx.allowLegacy
  answer : ∃ roots inter,
    (∀ x ∈ roots, ∃ (d : Cert) (i : Nat), d.obj = x ∧ .heap i ∈ ctx.stores ∧ InStoreThen At (.heap i) d ∧ ∃ m, At m ∧ (m.stores i).trusted = true) ∧
    (∀ x ∈ inter, ∃ (d : Cert) (r : StoreRef), d.obj = x ∧ r ∈ ctx.stores ∧ InStoreThen At r d) ∧
    env.validate
      { endEntity := c.obj
        trustRoots := roots
        intermediates := inter
        moment := ctx.timestamp
        allowWeakHashes := ctx.allowLegacy
        revocationMode := ctx.revocationMode
        allowFetching := ctx.allowFetching
        fetchTimeout := ctx.fetchTimeout
        crls := ctx.crls
        ocsps := ctx.ocsps
        keyUsages := ctx.keyUsages.elems
        ekus := ctx.ekus.elems
        ekuOptional := ctx.optionalEku } = .ok (chain.map Cert.obj)
  members : ∀ d ∈ chain, d = c ∨ ∃ r ∈ ctx.stores, InStoreThen At r d
  anchored : ∃ i root, chain.head? = some root ∧ .heap i ∈ ctx.stores ∧
    (∃ m, At m ∧ (m.stores i).trusted = true) ∧ (∃ m, At m ∧ ∃ d ∈ (m.stores i).items, SameCert root d) ∧
    ∃ m, At m ∧ ∀ ctl, (m.stores i).ctl = some ctl → Accepts env ctl chain ctx.ekus.elems (ctx.timestamp.getD env.now)

/-- The countersignature covers the data (the encrypted digest of the signer), and there are chains for its signer, all of them with the
property `P`. -/
def CounterOf (env : Env) (data : Bytes) (P : Signer → List Cert → Prop) (k : CounterSigner) : Prop :=
  match k with
  | .pkcs9 i => i.signer.messageDigest = some (env.hash i.signer.digestAlg data) ∧
    ∃ chains, chains ≠ [] ∧ ∀ chain ∈ chains, P i.signer chain
  | .rfc3161 r => r.tst.messageDigest = env.hash r.tst.hashAlg data ∧ r.signer.messageDigest = some (env.hash r.core.digestAlg r.core.content) ∧
    ∃ chains, chains ≠ [] ∧ ∀ chain ∈ chains, P r.signer chain

/-- Others load the stores, add certificates to them or change them in other ways; contexts, and what else a call has, are its own. -/
def StoresOnly (w w' : World) : Prop := w'.ctxs = w.ctxs ∧ w'.nextCtx = w.nextCtx ∧ w'.dicts = w.dicts

/-- What a call of `AuthenticodeSignedData.verify` that makes its own contexts and returns `chains` has found: the digests agree; there
is a time `t`, none or that of a countersignature that has been verified (in mode `strict`, that of the countersignature if there is
one); and every chain is one of a certificate that the signer names, signed with and validated for the time given by the options or
for `t`, for `t` if there is one and the certificate is not for lifetime signing. -/
def FoundGood (env : Env) (At : World → Prop) (w : World) (file : Option Bytes) (a : AuthData) (args : VerifyArgs) (chains : List (List Cert)) : Prop :=
  DigestsAgree env file a args.expectedHash ∧ ∃ t : Option Int,
    (∀ k, a.counter = some k → args.countersignatureMode = "strict" → t = k.signingTime ∧
      CounterOf env a.signer.encryptedDigest (fun s chain => ∃ c,
        EvidenceIn env At { counterContext w a k args with timestamp := k.signingTime } s chain c) k) ∧
    (∀ x, t = some x → ∃ k, a.counter = some k ∧ args.countersignatureMode ≠ "ignore" ∧ k.signingTime = some x ∧
      CounterOf env a.signer.encryptedDigest (fun s chain => ∃ c,
        EvidenceIn env At { counterContext w a k args with timestamp := k.signingTime } s chain c) k) ∧
    chains ≠ [] ∧ ∀ chain ∈ chains, ∃ c u, (u = args.options.timestamp ∨ u = t) ∧ (¬ LifetimeSigning c → t ≠ none → u = t) ∧
      EvidenceIn env At { signerContext w a args with timestamp := u } a.signer chain c

/-- Others leave the state alone. -/
def nobodyElse : Nat → World → World := fun _ w => w

/-- The stores are those of `w₀`, loaded in part: trust and CTLs are the same, and they have no certificate that they would not have
had they been loaded completely. -/
def PartlyLoaded (w₀ w : World) : Prop :=
  ∀ i, (w.stores i).trusted = (w₀.stores i).trusted ∧ (w.stores i).ctl = (w₀.stores i).ctl ∧
    (∀ c ∈ (w.stores i).items, c ∈ (Store.loaded (w₀.stores i)).items) ∧
    ((w.stores i).pending = none ∨ (w.stores i).pending = (w₀.stores i).pending)

end Signify.Spec
