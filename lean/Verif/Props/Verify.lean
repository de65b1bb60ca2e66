/-
Verification of signatures: what a successful verification means (C28, C29, C31, C32, C52, C53).
-/
import Verif.Proofs.AsdVerify
import Verif.Props.Pkcs7

set_option autoImplicit false

namespace Signify.Props

open Signify Spec

/-! ### Examples -/

/-- A validator that accepts the path root, intermediate, end entity for the end entities and times given, and a hash that is the
identity. -/
def exVEnv (valid : Nat → Option Int → Bool) : Env :=
  { exEnv with
    validate := fun r => if 1 ∈ r.trustRoots ∧ valid r.endEntity r.moment then .ok [1, 2, r.endEntity]
      else .error ⟨.foreign, "path"⟩ }

def exTsa : Cert := exCert 6 "Inter" "TSA"

/-- A signer whose certificate has the serial number given, with valid signature over `attrs`. -/
def exSign (serial : Int) (attrs md : Bytes) (t : Option Int) : Signer :=
  ⟨exN "Inter", serial, [], attrs, "rsa", attrs, "sha256", some md, none, t⟩

/-- Countersigners for the signature value `[9]`, at time 300. -/
def exCounter : CounterSigner := .pkcs9 (.mk (exSign 6 [8] [9] (some 300)) none)
def exRfc : CounterSigner := .rfc3161 ⟨⟨"sha256", "tst_info", [4], [exTsa], true⟩, ⟨"1.2", "sha1", [9], 17, 300, 0, none⟩, exSign 6 [8] [4] none⟩
/-- The same with an invalid signature. -/
def exBadCounter : CounterSigner := .pkcs9 (.mk { exSign 6 [8] [9] (some 300) with encryptedDigest := [1] } none)

/-- A signature over `[5]` with the file digest `[7]`. -/
def exAuth (certs : List Cert) (counter : Option CounterSigner) : AuthData :=
  ⟨⟨"sha256", "microsoft_spc_indirect_data_content", [5], certs, false⟩, ⟨"microsoft_spc_pe_image_data", [], none, "sha256", [7]⟩,
   exSign 3 [9] [5] none, none, none, none, none, counter⟩

def exCerts : List Cert := [exInter, exLeaf, exTsa]

def exArgs : VerifyArgs := { expectedHash := some [7], trusted := .heap 0 }

theorem exArgs_contexts (w : World) : ContextsExist w exArgs := ⟨fun _ h => (by cases h), fun _ h => (by cases h)⟩

theorem exists_ok {α : Type} {x : M α} {w : World} {a : α} (h : (x w).1 = .ok a) : ∃ w', x w = (.ok a, w') :=
  ⟨(x w).2, by rw [← h]⟩

/-- The signature verifies now, and with a countersignature at its time. -/
theorem exAuth_verifies : ∃ w', asdVerify (exVEnv (fun _ _ => true)) none (exAuth exCerts none) exArgs exWorld
    = (.ok [[exRoot, exInter, exLeaf]], w') := exists_ok (by decide +kernel)

theorem exAuth_countersigned : ∃ w', asdVerify (exVEnv (fun _ t => t = some 300)) none (exAuth exCerts (some exCounter)) exArgs exWorld
    = (.ok [[exRoot, exInter, exLeaf]], w') := exists_ok (by decide +kernel)

theorem exAuth_timestamped : ∃ w', asdVerify (exVEnv (fun _ t => t = some 300)) none (exAuth [exInter, exLeaf] (some exRfc)) exArgs
    exLazy = (.ok [[exRoot, exInter, exLeaf]], w') := exists_ok (by decide +kernel)

/-! ### C28: what is bound together -/

/-- A successful verification: the three digest algorithms agree; the digest in the SpcInfo is the hash given or else the
authentihash of the file; the message digest attribute is the hash of the content; and each chain returned is a validated chain of
a known certificate, named by the signer's issuer and serial number, under whose key the signature over the signed attributes is
valid. -/
theorem C28_binding (env : Env) (file : Option Bytes) (a : AuthData) (args : VerifyArgs) (w w' : World) (chains : List (List Cert))
    (he : ContextsExist w args) (h : asdVerify env file a args w = (.ok chains, w')) :
    (a.core.digestAlg = a.spc.digestAlg ∧ a.core.digestAlg = a.signer.digestAlg) ∧
    (∀ d, args.expectedHash = some d → a.spc.digest = d) ∧
    (args.expectedHash = none → ∃ f, file = some f ∧ ∀ bs : Int, 1 ≤ bs → Authentihash env.hash a.core.digestAlg bs f a.spc.digest) ∧
    a.signer.messageDigest = some (env.hash a.core.digestAlg a.core.content) ∧
    chains ≠ [] ∧
    ∀ chain ∈ chains, ∃ c t, SignedBy env w' (signerContext w a args) a.signer c ∧
      Validated env w' (signerContext w a args) t c chain := by
  obtain ⟨hd, hne, t, ts, -, -, -, hch⟩ := asdVerify_sound he h
  have hd' := digestsMatch_iff.1 hd
  refine ⟨hd'.algorithms, hd'.given, hd'.computed, hd'.content, hne, ?_⟩
  intro chain hc
  obtain ⟨c, t', h1, h2, -⟩ := hch chain hc
  exact ⟨c, t', h1, h2⟩

example : ∃ c t w', SignedBy (exVEnv (fun _ _ => true)) w' (signerContext exWorld (exAuth exCerts none) exArgs) (exAuth exCerts none).signer c ∧
    Validated (exVEnv (fun _ _ => true)) w' (signerContext exWorld (exAuth exCerts none) exArgs) t c [exRoot, exInter, exLeaf] := by
  obtain ⟨w', h⟩ := exAuth_verifies
  obtain ⟨-, -, -, -, -, h1⟩ := C28_binding _ _ _ _ _ _ _ (exArgs_contexts _) h
  obtain ⟨c, t, h2, h3⟩ := h1 _ (List.mem_singleton.2 rfl)
  exact ⟨c, t, w', h2, h3⟩

/-- Each of the checks rejects. -/
example : (asdVerify exEnv none (exAuth exCerts none) { exArgs with expectedHash := some [6] } exWorld).1 =
    .error ⟨.authenticodeInvalidDigest, "The expected hash does not match the digest in SpcInfo"⟩ := by decide +kernel

/-- A verification that needs the digest of the file and is given none does not succeed. -/
theorem C28_needs_digest (env : Env) (a : AuthData) (args : VerifyArgs) (w : World) (he : ContextsExist w args)
    (hn : args.expectedHash = none) : ∀ chains, (asdVerify env none a args w).1 ≠ .ok chains := by
  intro chains h
  obtain ⟨w', h'⟩ := exists_ok h
  obtain ⟨-, -, h1, -⟩ := C28_binding env none a args w w' chains he h'
  obtain ⟨f, e, -⟩ := h1 hn
  cases e

example := C28_needs_digest exEnv (exAuth exCerts none) { exArgs with expectedHash := none } exWorld
  ⟨fun _ h => (by cases h), fun _ h => (by cases h)⟩ rfl

/-! ### C29: trust anchors -/

/-- Chains returned by `SignerInfo.verify` start in a store marked trusted (and accepted by that store's CTL), and the validator was
asked about them with the certificates of exactly the trusted stores as trust anchors; embedded certificates are not in such a
store. -/
theorem C29_signer_verify (env : Env) (cid : Nat) (s : Signer) (t : Option Int) (w w' : World) (chains : List (List Cert))
    (h : signerVerify env cid s t w = (.ok chains, w') ∨ authSignerVerify env cid s t w = (.ok chains, w')) :
    chains ≠ [] ∧ ∀ chain ∈ chains, ∃ t' i root ekus, .heap i ∈ (w.ctxs cid).stores ∧ chain.head? = some root ∧
      (w'.stores i).trusted = true ∧ (∃ d ∈ (w'.stores i).items, SameCert root d) ∧ Given (w.ctxs cid).ekus ekus ∧
      ∀ ctl, (w'.stores i).ctl = some ctl → Accepts env ctl chain ekus t' := by
  have key : chains ≠ [] ∧ ∀ chain ∈ chains, ∃ c t', Validated env w' (w.ctxs cid) t' c chain := by
    rcases h with h | h
    · obtain ⟨h1, h2⟩ := signerVerify_sound h
      refine ⟨h1, fun chain hc => ?_⟩
      obtain ⟨c, -, h3⟩ := h2 chain hc
      exact ⟨c, _, h3⟩
    · obtain ⟨h1, h2⟩ := signerVerifyWith_sound (tf := fun c => if lifetimeSigning c then none else t)
        (show signerVerifyWith env cid s (fun c => verifyIssuer env cid s (if lifetimeSigning c then none else t) c) w
          = (.ok chains, w') from h)
      refine ⟨h1, fun chain hc => ?_⟩
      obtain ⟨c, t', -, h3, -⟩ := h2 chain hc
      exact ⟨c, t', h3⟩
  refine ⟨key.1, fun chain hc => ?_⟩
  obtain ⟨c, t', hv⟩ := key.2 chain hc
  obtain ⟨r, hr, ekus, hg, i, root, rfl, k1, k2, k3, k4⟩ := hv.anchored
  exact ⟨_, i, root, ekus, hr, k2, k1, k3, hg, k4⟩

example : ∃ w', authSignerVerify (exVEnv (fun _ _ => true)) 0 (exSign 3 [9] [5] none) none exWorld = (.ok [[exRoot, exInter, exLeaf]], w') ∧
    ∃ i, .heap i ∈ (exWorld.ctxs 0).stores ∧ (w'.stores i).trusted = true ∧ ∃ d ∈ (w'.stores i).items, SameCert exRoot d := by
  obtain ⟨w', h⟩ := exists_ok (x := authSignerVerify (exVEnv (fun _ _ => true)) 0 (exSign 3 [9] [5] none) none) (w := exWorld)
    (a := [[exRoot, exInter, exLeaf]]) (by decide +kernel)
  obtain ⟨_, h2⟩ := C29_signer_verify _ 0 _ none exWorld w' _ (Or.inr h)
  obtain ⟨_, i, root, _, hi, hr, ht, hd, _⟩ := h2 _ (List.mem_singleton.2 rfl)
  cases hr
  exact ⟨w', h, i, hi, ht, hd⟩

/-- The same for `AuthenticodeSignedData.verify`; without a caller's context the only such store is the trusted one given. -/
theorem C29_asd_verify (env : Env) (file : Option Bytes) (a : AuthData) (args : VerifyArgs) (w w' : World) (chains : List (List Cert))
    (he : ContextsExist w args) (h : asdVerify env file a args w = (.ok chains, w')) :
    ∀ chain ∈ chains, ∃ t i root ekus, .heap i ∈ (signerContext w a args).stores ∧ (args.context = none → args.trusted = .heap i) ∧
      chain.head? = some root ∧ (w'.stores i).trusted = true ∧ (∃ d ∈ (w'.stores i).items, SameCert root d) ∧
      Given (signerContext w a args).ekus ekus ∧ ∀ ctl, (w'.stores i).ctl = some ctl → Accepts env ctl chain ekus t := by
  intro chain hc
  obtain ⟨-, -, -, -, -, h1⟩ := C28_binding env file a args w w' chains he h
  obtain ⟨c, t', -, hv⟩ := h1 chain hc
  obtain ⟨r, hr, ekus, hg, i, root, rfl, k1, k2, k3, k4⟩ := hv.anchored
  refine ⟨_, i, root, ekus, hr, ?_, k2, k1, k3, hg, k4⟩
  intro hn
  unfold signerContext at hr
  rw [hn] at hr
  simp only [contextOf, List.mem_cons, List.not_mem_nil, or_false] at hr
  rcases hr with hr | hr
  · exact hr.symm
  · cases hr

example : ∃ w' t i root ekus, asdVerify (exVEnv (fun _ _ => true)) none (exAuth exCerts none) exArgs exWorld
      = (.ok [[exRoot, exInter, exLeaf]], w') ∧ exArgs.trusted = .heap i ∧ [exRoot, exInter, exLeaf].head? = some root ∧
      (w'.stores i).trusted = true ∧ Given (signerContext exWorld (exAuth exCerts none) exArgs).ekus ekus ∧
      ∀ ctl, (w'.stores i).ctl = some ctl → Accepts (exVEnv (fun _ _ => true)) ctl [exRoot, exInter, exLeaf] ekus t := by
  obtain ⟨w', h⟩ := exAuth_verifies
  obtain ⟨t, i, root, ekus, _, h2, h3, h4, _, h6, h7⟩ := C29_asd_verify _ none _ exArgs exWorld w' _ (exArgs_contexts _) h _
    (List.mem_singleton.2 rfl)
  exact ⟨w', t, i, root, ekus, h, h2 rfl, h3, h4, h6, h7⟩

/-- Without a caller's context, the trust anchors handed to the validator are exactly those of the trusted store given, and the
embedded certificates are handed to it as intermediates only. -/
theorem C29_embedded_not_anchors (w : World) (a : AuthData) (args : VerifyArgs) (c : Cert) (hn : args.context = none) (x : Nat) :
    (x ∈ (requestFor w (signerContext w a args) c).trustRoots ↔
      storeTrusted w args.trusted = true ∧ ∃ d ∈ certsOf w args.trusted, d.obj = x) ∧
    (∀ d ∈ a.core.certificates, d.obj ∈ (requestFor w (signerContext w a args) c).intermediates) := by
  have e : (signerContext w a args).stores = [args.trusted, .embedded a.core.certificates] := by
    unfold signerContext; rw [hn]; rfl
  unfold requestFor
  rw [e]
  simp only [List.mem_flatMap, List.mem_filter, List.mem_map, List.mem_cons, List.not_mem_nil, or_false]
  constructor
  · constructor
    · rintro ⟨r, ⟨rfl | rfl, ht⟩, d, hd, rfl⟩
      · exact ⟨ht, d, hd, rfl⟩
      · cases ht
    · rintro ⟨ht, d, hd, rfl⟩
      exact ⟨_, ⟨.inl rfl, ht⟩, d, hd, rfl⟩
  · intro d hd
    exact ⟨_, ⟨.inr rfl, rfl⟩, d, hd, rfl⟩

example := C29_embedded_not_anchors exWorld (exAuth (exRoot :: exCerts) none) exArgs exLeaf rfl 1

example : ∃ w', asdVerify (exVEnv (fun _ _ => true)) none (exAuth exCerts none) exArgs exWorld
    = (.ok [[exRoot, exInter, exLeaf]], w') := exAuth_verifies

/-- With the root only embedded in the signature, nothing verifies. -/
example : (asdVerify (exVEnv (fun _ _ => true)) none (exAuth (exRoot :: exCerts) none) { exArgs with trusted := .heap 1 } exWorld).1 =
    .error ⟨.certificateVerificationError, "Chain verification failed"⟩ := by decide +kernel

/-! ### C31, C32: the time of validation -/

/-- A world with two contexts of the caller. -/
def exShared : World :=
  { exWorld with ctxs := fun _ => exCtx [.heap 0, .embedded exCerts], nextCtx := 2 }

/-- `verify` with one context for both purposes. -/
def exSharedArgs : VerifyArgs :=
  { expectedHash := some [7], trusted := .heap 0, context := some 0, csContext := some 0, countersignatureMode := "permit" }

theorem exBadCounter_bad (valid : Nat → Option Int → Bool) (w : World) (ctx : Ctx) :
    ¬ CounterGood (exVEnv valid) w ctx [9] exBadCounter := by
  intro h
  obtain ⟨-, chains, hne, hall⟩ := h.pkcs9 _ rfl
  cases chains with
  | nil => exact hne rfl
  | cons x xs =>
    obtain ⟨c, ⟨-, kind, hk, -, hv⟩, -⟩ := hall x (List.mem_cons_self ..)
    rcases hv with hv | ⟨-, -, hv⟩
    · cases (show ((.error ⟨.foreign, "signature"⟩ : Except Exc Unit) = .ok ()) from hv)
    · cases (show ((.error ⟨.foreign, "signature"⟩ : Except Exc Unit) = .ok ()) from hv)

/-- The property as stated is false: if the caller passes one context for both purposes and permits bad countersignatures, the time
of a countersignature that failed verification is used. -/
theorem C31_time_false :
    ¬ ∀ (env : Env) (file : Option Bytes) (a : AuthData) (args : VerifyArgs) (w w' : World) (chains : List (List Cert)),
      ContextsExist w args → asdVerify env file a args w = (.ok chains, w') →
      ∀ chain ∈ chains, ∃ c t, SignedBy env w' (signerContext w a args) a.signer c ∧
        Validated env w' (signerContext w a args) t c chain ∧
        (t = (signerContext w a args).timestamp ∨ ∃ cs, a.counter = some cs ∧ t = cs.signingTime ∧
          CounterGood env w' (counterContext w a cs args) a.signer.encryptedDigest cs) := by
  intro hall
  obtain ⟨w', h⟩ := exists_ok (show (asdVerify (exVEnv (fun _ t => t = some 300)) none (exAuth exCerts (some exBadCounter)) exSharedArgs
    exShared).1 = .ok [[exRoot, exInter, exLeaf]] by decide +kernel)
  obtain ⟨c, t, -, hv, hor⟩ := hall _ _ _ _ _ _ _ ⟨fun i hi => (by cases hi; decide), fun i hi => (by cases hi; decide)⟩ h _
    (List.mem_singleton.2 rfl)
  rcases hor with rfl | ⟨cs, e, -, hg⟩
  · obtain ⟨kus, ekus, -, -, ha⟩ := hv.answer
    simp [exVEnv, signerContext, exSharedArgs, exShared, exCtx] at ha
  · cases e
    exact exBadCounter_bad _ _ _ hg

/-- Missing in the partial version: callers who pass one and the same context for the signer and the countersigner.

Otherwise, chains are validated at the context's timestamp, or at the signing time of a countersignature that was verified. -/
theorem C31_time_partial (env : Env) (file : Option Bytes) (a : AuthData) (args : VerifyArgs) (w w' : World)
    (chains : List (List Cert)) (he : ContextsExist w args) (hsep : SeparateContexts args)
    (h : asdVerify env file a args w = (.ok chains, w')) :
    ∀ chain ∈ chains, ∃ c t, SignedBy env w' (signerContext w a args) a.signer c ∧
      Validated env w' (signerContext w a args) t c chain ∧
      (t = (signerContext w a args).timestamp ∨ ∃ cs, a.counter = some cs ∧ args.countersignatureMode ≠ "ignore" ∧
        t = cs.signingTime ∧ CounterGood env w' (counterContext w a cs args) a.signer.encryptedDigest cs) := by
  obtain ⟨-, -, t, ts, h1, h2, h3, h4⟩ := asdVerify_sound he h
  intro chain hc
  obtain ⟨c, t', g1, g2, g3, g4⟩ := h4 chain hc
  refine ⟨c, t', g1, g2, ?_⟩
  have key : t' = ts ∨ (t' = t ∧ t.isSome = true) := by
    by_cases hl : LifetimeSigning c
    · rcases g4 hl with g4 | ⟨c', -, -, g5, g6⟩
      · exact .inl g4
      · exact .inr ⟨g6, g5⟩
    · rw [g3 hl]
      cases t with
      | none => exact .inl rfl
      | some x => exact .inr ⟨rfl, rfl⟩
  rcases key with key | ⟨key, hsome⟩
  · exact .inl (key.trans (h1 hsep))
  · right
    cases hcn : a.counter with
    | none => rw [(h2 (.inl hcn)).1] at hsome; cases hsome
    | some cs =>
      by_cases hm : args.countersignatureMode = "ignore"
      · rw [(h2 (.inr hm)).1] at hsome; cases hsome
      · rcases h3 cs hcn hm with ⟨k1, k2⟩ | ⟨k1, -⟩
        · exact ⟨cs, rfl, hm, key.trans k1, k2⟩
        · rw [k1] at hsome; cases hsome

example : ∃ w', (∀ chain ∈ [[exRoot, exInter, exLeaf]], ∃ c t,
    SignedBy (exVEnv (fun _ t => t = some 300)) w' (signerContext exWorld (exAuth exCerts (some exCounter)) exArgs)
      (exAuth exCerts (some exCounter)).signer c ∧
    Validated (exVEnv (fun _ t => t = some 300)) w' (signerContext exWorld (exAuth exCerts (some exCounter)) exArgs) t c chain) := by
  obtain ⟨w', h⟩ := exAuth_countersigned
  refine ⟨w', fun chain hc => ?_⟩
  obtain ⟨c, t, h1, h2, _⟩ := C31_time_partial _ none _ exArgs exWorld w' _ (exArgs_contexts _) (.inl rfl) h chain hc
  exact ⟨c, t, h1, h2⟩

example : ∃ w', asdVerify (exVEnv (fun _ t => t = some 300)) none (exAuth exCerts (some exCounter)) exArgs exWorld
    = (.ok [[exRoot, exInter, exLeaf]], w') ∧ SeparateContexts exArgs := by
  obtain ⟨w', h⟩ := exAuth_countersigned
  exact ⟨w', h, .inl rfl⟩

/-- Which of the two times it is: without a countersignature, or if it is ignored, the context's; in mode 'strict' the signing time
of the countersignature, except for certificates restricted to lifetime signing.  This needs no assumption about the contexts. -/
theorem C31_which_time (env : Env) (file : Option Bytes) (a : AuthData) (args : VerifyArgs) (w w' : World)
    (chains : List (List Cert)) (he : ContextsExist w args) (h : asdVerify env file a args w = (.ok chains, w')) :
    (a.counter = none ∨ args.countersignatureMode = "ignore" →
      AllValidated env w' (signerContext w a args) a.signer (signerContext w a args).timestamp chains) ∧
    (∀ cs x, a.counter = some cs → args.countersignatureMode = "strict" → cs.signingTime = some x →
      CounterGood env w' (counterContext w a cs args) a.signer.encryptedDigest cs ∧
      ∀ chain ∈ chains, ∃ c t, SignedBy env w' (signerContext w a args) a.signer c ∧
        Validated env w' (signerContext w a args) t c chain ∧ (¬ LifetimeSigning c → t = some x)) := by
  obtain ⟨-, -, t, ts, h1, h2, h3, h4⟩ := asdVerify_sound he h
  constructor
  · intro hno chain hc
    obtain ⟨rfl, hts⟩ := h2 hno
    obtain ⟨c, t', g1, g2, g3, g4⟩ := h4 chain hc
    refine ⟨c, g1, ?_⟩
    have : t' = ts := by
      by_cases hl : LifetimeSigning c
      · rcases g4 hl with g4 | ⟨c', -, -, g5, -⟩
        · exact g4
        · cases g5
      · exact g3 hl
    rw [← hts, ← this]
    exact g2
  · intro cs x hcn hm hx
    have hm' : args.countersignatureMode ≠ "ignore" := by rw [hm]; decide
    rcases h3 cs hcn hm' with ⟨k1, k2⟩ | ⟨-, k1⟩
    · refine ⟨k2, fun chain hc => ?_⟩
      obtain ⟨c, t', g1, g2, g3, -⟩ := h4 chain hc
      refine ⟨c, t', g1, g2, fun hl => ?_⟩
      rw [g3 hl, k1, hx]
      rfl
    · exact absurd hm k1

example : ∃ w', CounterGood (exVEnv (fun _ t => t = some 300)) w' (counterContext exWorld (exAuth exCerts (some exCounter)) exCounter exArgs)
    (exAuth exCerts (some exCounter)).signer.encryptedDigest exCounter := by
  obtain ⟨w', h⟩ := exAuth_countersigned
  exact ⟨w', ((C31_which_time _ none _ exArgs exWorld w' _ (exArgs_contexts _) h).2 exCounter 300 rfl rfl rfl).1⟩

/-- In mode 'permit' a signature may be countersigned badly: then the time is the context's. -/
example : (asdVerify (exVEnv (fun _ t => t = none)) none (exAuth exCerts (some exBadCounter))
    { exArgs with countersignatureMode := "permit" } exWorld).1 = .ok [[exRoot, exInter, exLeaf]] := by decide +kernel
example : (asdVerify (exVEnv (fun _ t => t = none)) none (exAuth exCerts (some exBadCounter)) exArgs exWorld).1 =
    .error ⟨.authenticodeCounterSigner, "An error occurred while validating the countersignature"⟩ := by decide +kernel

/-- A lifetime signing certificate, and a certificate with the same issuer, serial number and key but without the restriction. -/
def exLife : Cert := { exLeaf with eku := some ["code_signing", "microsoft_lifetime_signing"] }
def exFake : Cert := { exLeaf with obj := 7, der := [70], subject := exN "Fake" }

def exLifeAuth : AuthData := exAuth [exInter, exFake, exLife, exTsa] (some exCounter)
def exLifeEnv : Env := exVEnv (fun o t => o ≠ 7 ∧ t = some 300)

theorem exLife_verifies : ∃ w', asdVerify exLifeEnv none exLifeAuth exArgs exWorld = (.ok [[exRoot, exInter, exLife]], w') ∧
    (w'.stores 0).items = [exRoot] := by
  have h : (asdVerify exLifeEnv none exLifeAuth exArgs exWorld).1 = .ok [[exRoot, exInter, exLife]] := by decide +kernel
  have h2 : ((asdVerify exLifeEnv none exLifeAuth exArgs exWorld).2.stores 0).items = [exRoot] := by decide +kernel
  generalize asdVerify exLifeEnv none exLifeAuth exArgs exWorld = p at h h2
  exact ⟨p.2, Prod.ext h rfl, h2⟩

/-- The property as stated is false: a further certificate in the signature with the same issuer, serial number and key, valid or
not, makes the chain of a lifetime signing certificate be validated at the time of the countersignature. -/
theorem C32_lifetime_false :
    ¬ ∀ (env : Env) (file : Option Bytes) (a : AuthData) (args : VerifyArgs) (w w' : World) (chains : List (List Cert)),
      ContextsExist w args → SeparateContexts args → asdVerify env file a args w = (.ok chains, w') →
      ∀ chain ∈ chains, ∃ c t, SignedBy env w' (signerContext w a args) a.signer c ∧
        Validated env w' (signerContext w a args) t c chain ∧
        (LifetimeSigning c → t = (signerContext w a args).timestamp) := by
  intro hall
  obtain ⟨w', h, hst⟩ := exLife_verifies
  obtain ⟨c, t, hs, hv, ht⟩ := hall _ _ _ _ _ _ _ (exArgs_contexts _) (.inl rfl) h _ (List.mem_singleton.2 rfl)
  obtain ⟨kus, ekus, -, -, ha⟩ := hv.answer
  have hc : c = exLife := by
    obtain ⟨r, hr, hm⟩ := hs.named.known
    have hser := hs.named.serial
    have hr' : r = .heap 0 ∨ r = .embedded [exInter, exFake, exLife, exTsa] := by
      simpa [signerContext, exArgs, contextOf, exLifeAuth, exAuth] using hr
    rcases hr' with rfl | rfl
    · rw [show certsOf w' (.heap 0) = (w'.stores 0).items from rfl, hst] at hm
      rw [List.mem_singleton.1 hm] at hser
      exact absurd hser (by decide)
    · simp only [certsOf, List.mem_cons, List.not_mem_nil, or_false] at hm
      rcases hm with rfl | rfl | rfl | rfl
      · exact absurd hser (by decide)
      · simp [exLifeEnv, exVEnv, requestFor, exFake] at ha
      · rfl
      · exact absurd hser (by decide)
  subst hc
  rw [ht ⟨_, rfl, by decide⟩] at ha
  simp [exLifeEnv, exVEnv, signerContext, exArgs, contextOf] at ha

/-- Missing in the partial version: signatures that known certificates without the restriction made too (same issuer and serial
number, and key), and callers who pass one context for both purposes.

If all certificates under whose key the signature is valid are restricted to lifetime signing, every chain is validated at the
context's own timestamp, whatever the countersignature says. -/
theorem C32_lifetime_partial (env : Env) (file : Option Bytes) (a : AuthData) (args : VerifyArgs) (w w' : World)
    (chains : List (List Cert)) (he : ContextsExist w args) (hsep : SeparateContexts args)
    (h : asdVerify env file a args w = (.ok chains, w'))
    (hall : ∀ c, SignedBy env w' (signerContext w a args) a.signer c → LifetimeSigning c) :
    AllValidated env w' (signerContext w a args) a.signer (signerContext w a args).timestamp chains := by
  obtain ⟨-, -, t, ts, h1, h2, h3, h4⟩ := asdVerify_sound he h
  intro chain hc
  obtain ⟨c, t', g1, g2, -, g4⟩ := h4 chain hc
  refine ⟨c, g1, ?_⟩
  rcases g4 (hall c g1) with g4 | ⟨c', g5, g6, -⟩
  · rw [← h1 hsep, ← g4]; exact g2
  · exact absurd (hall c' g5) g6

/-- A signature by a lifetime signing certificate only. -/
def exPureEnv : Env := exVEnv (fun o t => (o = 3 ∧ t = none) ∨ (o = 6 ∧ t = some 300))
def exPureAuth : AuthData := exAuth [exInter, exLife, exTsa] (some exCounter)

example : ∃ w', asdVerify exPureEnv none exPureAuth exArgs exWorld = (.ok [[exRoot, exInter, exLife]], w') ∧
    AllValidated exPureEnv w' (signerContext exWorld exPureAuth exArgs) exPureAuth.signer
      (signerContext exWorld exPureAuth exArgs).timestamp [[exRoot, exInter, exLife]] := by
  have h : (asdVerify exPureEnv none exPureAuth exArgs exWorld).1 = .ok [[exRoot, exInter, exLife]] := by decide +kernel
  have h2 : ((asdVerify exPureEnv none exPureAuth exArgs exWorld).2.stores 0).items = [exRoot] := by decide +kernel
  generalize hp : asdVerify exPureEnv none exPureAuth exArgs exWorld = p at h h2
  have hv : asdVerify exPureEnv none exPureAuth exArgs exWorld = (.ok [[exRoot, exInter, exLife]], p.2) := hp.trans (Prod.ext h rfl)
  refine ⟨p.2, Prod.ext h rfl, C32_lifetime_partial _ none exPureAuth exArgs exWorld p.2 _ (exArgs_contexts _) (.inl rfl) hv ?_⟩
  intro c hs
  obtain ⟨r, hr, hm⟩ := hs.named.known
  have hser := hs.named.serial
  have hr' : r = .heap 0 ∨ r = .embedded [exInter, exLife, exTsa] := by
    simpa [signerContext, exArgs, contextOf, exPureAuth, exAuth] using hr
  rcases hr' with rfl | rfl
  · rw [show certsOf p.2 (.heap 0) = (p.2.stores 0).items from rfl, h2] at hm
    rw [List.mem_singleton.1 hm] at hser
    exact absurd hser (by decide)
  · simp only [certsOf, List.mem_cons, List.not_mem_nil, or_false] at hm
    rcases hm with rfl | rfl | rfl
    · exact absurd hser (by decide)
    · exact ⟨_, rfl, by decide⟩
    · exact absurd hser (by decide)

/-- Without a bypass certificate, the lifetime signing certificate is checked for now: not at the time of the countersignature. -/
example : (asdVerify (exVEnv (fun o t => (o = 3 ∧ t = none) ∨ (o = 6 ∧ t = some 300))) none (exAuth [exInter, exLife, exTsa] (some exCounter)) exArgs
    exWorld).1 = .ok [[exRoot, exInter, exLife]] := by decide +kernel
example : (asdVerify (exVEnv (fun _ t => t = some 300)) none (exAuth [exInter, exLife, exTsa] (some exCounter)) exArgs exWorld).1 =
    .error ⟨.certificateVerificationError, "Chain verification failed"⟩ := by decide +kernel

/-! ### C52, C53: countersignatures -/

/-- The countersignature is accepted: verification in mode 'strict' succeeds.  Then the imprint of the TSTInfo is the hash of the
signature value, the TSTInfo's hash is the message digest attribute of the time stamp's signer, and that signer's attributes are
signed by a certificate that is validated, for the time stated in the TSTInfo, up to a trusted store of the context. -/
theorem C52_rfc3161 (env : Env) (file : Option Bytes) (a : AuthData) (args : VerifyArgs) (w w' : World) (chains : List (List Cert))
    (he : ContextsExist w args) (h : asdVerify env file a args w = (.ok chains, w')) (hm : args.countersignatureMode = "strict")
    (r : Rfc3161) (hr : a.counter = some (.rfc3161 r)) :
    r.tst.messageDigest = env.hash r.tst.hashAlg a.signer.encryptedDigest ∧
    r.signer.messageDigest = some (env.hash r.core.digestAlg r.core.content) ∧
    ∃ c chain, SignedBy env w' (counterContext w a (.rfc3161 r) args) r.signer c ∧
      Validated env w' (counterContext w a (.rfc3161 r) args) (some r.tst.signingTime) c chain := by
  obtain ⟨-, -, t, ts, -, -, h3, -⟩ := asdVerify_sound he h
  rcases h3 _ hr (by rw [hm]; decide) with ⟨-, hg⟩ | ⟨-, k⟩
  · obtain ⟨g1, g2, ch, g3, g4⟩ := hg.rfc3161 r rfl
    refine ⟨g1, g2, ?_⟩
    cases ch with
    | nil => exact absurd rfl g3
    | cons x xs =>
      obtain ⟨c, k1, k2⟩ := g4 x (List.mem_cons_self ..)
      exact ⟨c, x, k1, k2⟩
  · exact absurd hm k

example : ∃ w' c chain, Validated (exVEnv (fun _ t => t = some 300)) w'
    (counterContext exLazy (exAuth [exInter, exLeaf] (some exRfc)) exRfc exArgs) (some 300) c chain := by
  obtain ⟨w', h⟩ := exAuth_timestamped
  obtain ⟨-, -, c, chain, -, hv⟩ := C52_rfc3161 _ _ _ _ _ _ _ (exArgs_contexts _) h rfl _ rfl
  exact ⟨w', c, chain, hv⟩

/-- `RFC3161SignedData.verify` on its own: the hash of the TSTInfo is that of the signer's attributes, and the signer is validated
for the context's time. -/
theorem C52_rfc3161_alone (env : Env) (r : Rfc3161) (cid : Nat) (trusted : StoreRef) (w w' : World) (chains : List (List Cert))
    (h : rfcVerify env r (some cid) trusted w = (.ok chains, w')) :
    r.signer.messageDigest = some (env.hash r.core.digestAlg r.core.content) ∧ chains ≠ [] ∧
    AllValidated env w' (w.ctxs cid) r.signer (w.ctxs cid).timestamp chains := by
  obtain ⟨h1, h2⟩ := rfcVerify_ok h
  obtain ⟨h3, h4⟩ := signerVerify_sound h2
  exact ⟨h1, h3, h4⟩

example : ∃ w', AllValidated (exVEnv (fun _ _ => true)) w' (exShared.ctxs 0) (exSign 6 [8] [4] none) (exShared.ctxs 0).timestamp
    [[exRoot, exInter, exTsa]] := by
  obtain ⟨w', h⟩ := exists_ok (x := rfcVerify (exVEnv (fun _ _ => true))
    ⟨⟨"sha256", "tst_info", [4], [exTsa], true⟩, ⟨"1.2", "sha1", [9], 17, 300, 0, none⟩, exSign 6 [8] [4] none⟩ (some 0) (.embedded []))
    (w := exShared) (a := [[exRoot, exInter, exTsa]]) (by decide +kernel)
  exact ⟨w', (C52_rfc3161_alone _ _ 0 _ exShared w' _ h).2.2⟩

example : (rfcVerify (exVEnv (fun _ _ => true)) ⟨⟨"sha256", "tst_info", [4], [exTsa], true⟩, ⟨"1.2", "sha1", [9], 17, 300, 0, none⟩, exSign 6 [8] [4] none⟩ (some 0)
    (.embedded []) exShared).1 = .ok [[exRoot, exInter, exTsa]] := by decide +kernel

/-- The same for PKCS#9 countersignatures: the message digest attribute is the hash of the signature value, and the countersigner's
attributes, among them the signing time, are signed by a certificate validated for that time (or for the present, if it states
none). -/
theorem C53_pkcs9 (env : Env) (file : Option Bytes) (a : AuthData) (args : VerifyArgs) (w w' : World) (chains : List (List Cert))
    (he : ContextsExist w args) (h : asdVerify env file a args w = (.ok chains, w')) (hm : args.countersignatureMode = "strict")
    (i : CounterInfo) (hi : a.counter = some (.pkcs9 i)) :
    i.signer.messageDigest = some (env.hash i.signer.digestAlg a.signer.encryptedDigest) ∧
    ∃ c chain, SignedBy env w' (counterContext w a (.pkcs9 i) args) i.signer c ∧
      Validated env w' (counterContext w a (.pkcs9 i) args) i.signer.signingTime c chain := by
  obtain ⟨-, -, t, ts, -, -, h3, -⟩ := asdVerify_sound he h
  rcases h3 _ hi (by rw [hm]; decide) with ⟨-, hg⟩ | ⟨-, k⟩
  · obtain ⟨g1, ch, g3, g4⟩ := hg.pkcs9 i rfl
    refine ⟨g1, ?_⟩
    cases ch with
    | nil => exact absurd rfl g3
    | cons x xs =>
      obtain ⟨c, k1, k2⟩ := g4 x (List.mem_cons_self ..)
      exact ⟨c, x, k1, k2⟩
  · exact absurd hm k

example : ∃ w' c chain, Validated (exVEnv (fun _ t => t = some 300)) w'
    (counterContext exWorld (exAuth exCerts (some exCounter)) exCounter exArgs) (some 300) c chain := by
  obtain ⟨w', h⟩ := exAuth_countersigned
  obtain ⟨-, c, chain, -, hv⟩ := C53_pkcs9 _ _ _ _ _ _ _ (exArgs_contexts _) h rfl _ rfl
  exact ⟨w', c, chain, hv⟩

/-- The signing time of a parsed PKCS#9 countersigner is the value of an attribute among those covered by its signature. -/
theorem C53_signed_time (cd : Codec) (sd : RawSD) (a : ASD) (h : parseASD cd sd = .ok a) (i : CounterInfo)
    (hi : a.d.counter = some (.pkcs9 i)) :
    ∃ contents attrs x attr, cd.attrs contents = .ok attrs ∧ DerSet contents i.signer.encodedAuth ∧
      attr ∈ attrs ∧ attr.type = "signing_time" ∧ attr.values = [.time x] ∧ i.signer.signingTime = some x := by
  have hr := parseASD_ok.1 h
  cases hr with
  | @mk _ d nested si attrs spc sds core noCrls content hspc oneSigner signer statement opus counter nestedIn all rec =>
    simp only [ASD.d] at hi
    rw [hi] at counter
    cases counter with
    | @pkcs9 si' c h1 h2 read =>
      have key : ∃ attrs, ReadsSigner cd ["content_type", "signing_time", "message_digest"] none si'.head attrs i.signer := by
        cases read with
        | last hs _ => exact ⟨_, hs⟩
        | more hs _ _ => exact ⟨_, hs⟩
      obtain ⟨attrs, hs⟩ := key
      obtain ⟨b, hb, hbt⟩ := hs.complete "signing_time" (by simp)
      rcases readsAttr_iff.1 hs.signingTime with ⟨g, -⟩ | ⟨attr, y, g, hv, hy⟩
      · have := lastAttr_isSome.2 ⟨b, hb, hbt⟩
        rw [g] at this
        cases this
      · obtain ⟨k1, k2⟩ := lastAttr_mem g
        rcases hs.decoded with ⟨-, rfl⟩ | ⟨contents, e, hdec⟩
        · cases hb
        · refine ⟨contents, attrs, y, attr, hdec, ?_, k1, k2, hv, hy⟩
          have := hs.encoded
          rw [e] at this
          exact this

example := C53_signed_time exCodec exSD _ rfl _ rfl

example : ∃ a i, parseASD exCodec exSD = .ok a ∧ a.d.counter = some (.pkcs9 i) := ⟨_, _, rfl, rfl⟩

/-- The TSTInfo of a parsed RFC3161 countersigner is that encoded in the content covered by the message digest attribute. -/
theorem C52_parsed (cd : Codec) (sd : RawSD) (a : ASD) (h : parseASD cd sd = .ok a) (r : Rfc3161)
    (hr : a.d.counter = some (.rfc3161 r)) :
    ∃ raw, cd.tst r.core.octets r.core.content = .ok raw ∧ r.tst.messageDigest = raw.hashed ∧ r.tst.hashAlg = raw.hashAlg.algorithm ∧
      r.tst.signingTime = raw.genTime := by
  have hp := parseASD_ok.1 h
  cases hp with
  | @mk _ d nested si attrs spc sds core noCrls content hspc oneSigner signer statement opus counter nestedIn all rec =>
    simp only [ASD.d] at hr
    rw [hr] at counter
    cases counter with
    | rfc3161 h1 h2 read =>
      obtain ⟨raw, k1, k2⟩ := read.tst
      exact ⟨raw, k1, k2.digest, k2.hashAlg, k2.time⟩

example := C52_parsed exCodec exRfcSD _ rfl _ rfl

example : ∃ a r, parseASD exCodec exRfcSD = .ok a ∧ a.d.counter = some (.rfc3161 r) := ⟨_, _, rfl, rfl⟩

end Signify.Props
