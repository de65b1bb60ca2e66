/-
Exceptions of verification: unsigned files (C21), `explain_verify` (C22), and the classes of the exceptions raised (C56).
-/
import Verif.Props.PEFile

set_option autoImplicit false

namespace Signify.Props

open Signify Spec

theorem subclass_iff (c d : ExcClass) : Subclass c d ↔ c.isSub d = true := by
  constructor
  · intro h
    induction h with
    | refl c => cases c <;> rfl
    | base c p d hp _ ih =>
      cases c <;> first | (cases hp; done) | (cases hp; revert ih; cases d <;> decide)
  · have key : ∀ n c, ExcClass.isSubN n c d = true → Subclass c d := by
      intro n
      induction n with
      | zero => intro c h; rw [ExcClass.isSubN, beq_iff_eq] at h; rw [h]; exact .refl _
      | succ n ih =>
        intro c h
        rw [ExcClass.isSubN, Bool.or_eq_true, beq_iff_eq] at h
        rcases h with h | h
        · rw [h]; exact .refl _
        · cases hp : c.parent with
          | none => rw [hp] at h; cases h
          | some p => rw [hp] at h; exact .base c p d hp (ih p h)
    exact key 6 c

/-- `isinstance`, from the class statements. -/
theorem isinstance_iff (e : Exc) (c : ExcClass) : e.is c = true ↔ Subclass e.cls c := (subclass_iff _ _).symm

/-- The hierarchy that the callers' `except` clauses rely on, in extension: which classes are caught by `except SignifyError`,
`except ParseError`, `except VerificationError`, `except CertificateVerificationError` and `except AuthenticodeVerificationError`; every class
is caught by `except Exception`. In particular the error of a trust list that cannot be parsed is not a `ParseError`. -/
theorem C22_hierarchy (c : ExcClass) :
    Subclass c .exception ∧
    (Subclass c .parseError ↔ c ∈ ([.parseError, .signedPEParseError, .signerInfoParseError, .authenticodeParseError] : List ExcClass)) ∧
    (Subclass c .certificateVerificationError ↔
      c ∈ ([.certificateVerificationError, .certificateNotTrusted, .ctlCertificateVerificationError] : List ExcClass)) ∧
    (Subclass c .authenticodeVerificationError ↔ c ∈ ([.authenticodeVerificationError, .authenticodeNotSigned,
      .authenticodeInconsistentDigest, .authenticodeInvalidDigest, .authenticodeCounterSigner] : List ExcClass)) ∧
    (Subclass c .verificationError ↔ c = .verificationError ∨ c = .signerInfoVerificationError ∨
      Subclass c .certificateVerificationError ∨ Subclass c .authenticodeVerificationError) ∧
    (Subclass c .signifyError ↔ c = .signifyError ∨ c = .ctlParseError ∨ Subclass c .parseError ∨ Subclass c .verificationError) ∧
    (Subclass c .lookupError ↔ c ∈ ([.lookupError, .keyError, .indexError] : List ExcClass)) ∧
    (Subclass c .valueError ↔ c = .valueError) ∧ (Subclass c .typeError ↔ c = .typeError) ∧
    (Subclass c .runtimeError ↔ c = .runtimeError ∨ c = .notImplementedError) := by
  simp only [subclass_iff]
  cases c <;> decide

/-! ### C22: `explain_verify` -/

/-- The table has one result for each class. -/
theorem C22_unique (c : ExcClass) (r r' : VResult) (h : Documented c r) (h' : Documented c r') : r = r' := by
  obtain ⟨d, h1, h2, h3⟩ := h
  obtain ⟨d', k1, k2, k3⟩ := h'
  have e1 := h3 d' r' k1 k2
  have e2 := k3 d r h1 h2
  rw [subclass_iff] at e1 e2
  simp only [resultFor, List.mem_cons, List.not_mem_nil, or_false, Prod.mk.injEq] at h1 k1
  rcases h1 with ⟨rfl, rfl⟩ | ⟨rfl, rfl⟩ | ⟨rfl, rfl⟩ | ⟨rfl, rfl⟩ | ⟨rfl, rfl⟩ | ⟨rfl, rfl⟩ | ⟨rfl, rfl⟩ | ⟨rfl, rfl⟩ | ⟨rfl, rfl⟩ <;>
    rcases k1 with ⟨rfl, rfl⟩ | ⟨rfl, rfl⟩ | ⟨rfl, rfl⟩ | ⟨rfl, rfl⟩ | ⟨rfl, rfl⟩ | ⟨rfl, rfl⟩ | ⟨rfl, rfl⟩ | ⟨rfl, rfl⟩ | ⟨rfl, rfl⟩ <;>
    first | rfl | (revert e1 e2; decide)

instance (c : ExcClass) (d : ExcClass) : Decidable (Subclass c d) := decidable_of_iff _ (subclass_iff c d).symm

theorem classify_documented (e : Exc) : Documented e.cls (classify e) := by
  obtain ⟨c, msg⟩ := e
  have hmsg : classify ⟨c, msg⟩ = classify ⟨c, ""⟩ := rfl
  rw [hmsg]
  show Documented c _
  clear hmsg msg
  have hall : ∀ d, (∀ x ∈ resultFor, Subclass c x.1 → Subclass d x.1) →
      ∀ d' r', (d', r') ∈ resultFor → Subclass c d' → Subclass d d' := fun d h d' r' hm hs => h (d', r') hm hs
  cases c <;>
    first
    | exact ⟨.signedPEParseError, by decide, by decide, hall _ (by decide)⟩
    | exact ⟨.authenticodeNotSigned, by decide, by decide, hall _ (by decide)⟩
    | exact ⟨.authenticodeInvalidDigest, by decide, by decide, hall _ (by decide)⟩
    | exact ⟨.authenticodeInconsistentDigest, by decide, by decide, hall _ (by decide)⟩
    | exact ⟨.authenticodeCounterSigner, by decide, by decide, hall _ (by decide)⟩
    | exact ⟨.certificateVerificationError, by decide, by decide, hall _ (by decide)⟩
    | exact ⟨.parseError, by decide, by decide, hall _ (by decide)⟩
    | exact ⟨.verificationError, by decide, by decide, hall _ (by decide)⟩
    | exact ⟨.exception, by decide, by decide, hall _ (by decide)⟩

/-- Explaining a call never raises and has the effects of the call; the result is (OK, None) iff the call returned, and otherwise the
documented result for the exception together with it. -/
theorem C22_explain {α : Type} (f : M α) (w : World) : ∃ r x, explain f w = (.ok (r, x), (f w).2) ∧
    ((r = .ok ∧ x = none) ↔ ∃ a, (f w).1 = .ok a) ∧ (r = .ok ↔ x = none) ∧
    ∀ e, (f w).1 = .error e ↔ x = some e ∧ Documented e.cls r := by
  have hcl : ∀ e, classify e ≠ .ok := by
    intro e he
    unfold classify at he
    repeat' split at he
    all_goals cases he
  unfold explain
  rcases h : f w with ⟨r, w'⟩
  rw [M.bind_ok (show M.attempt f w = (.ok r, w') from by unfold M.attempt; rw [h])]
  cases r with
  | error e =>
    refine ⟨classify e, some e, rfl, ⟨fun ⟨h1, h2⟩ => (by cases h2), fun ⟨a, ha⟩ => (by cases ha)⟩, ⟨fun h1 => absurd h1 (hcl e), fun h2 => (by cases h2)⟩, ?_⟩
    intro e'
    constructor
    · intro he; cases he; exact ⟨rfl, classify_documented e⟩
    · rintro ⟨he, -⟩; cases he; rfl
  | ok a =>
    refine ⟨.ok, none, rfl, ⟨fun _ => ⟨a, rfl⟩, fun _ => ⟨rfl, rfl⟩⟩, ⟨fun _ => rfl, fun _ => rfl⟩, ?_⟩
    intro e'
    exact ⟨fun he => (by cases he), fun ⟨he, _⟩ => (by cases he)⟩

/-- In particular for files. -/
theorem C22_file (env : Env) (cd : Codec) (file : Bytes) (args : PEVerifyArgs) (w : World) : ∃ r x,
    peExplainVerify env cd file args w = (.ok (r, x), (peVerify env cd file args w).2) ∧
    ((r = .ok ∧ x = none) ↔ ∃ res, (peVerify env cd file args w).1 = .ok res) ∧
    ∀ e, (peVerify env cd file args w).1 = .error e ↔ x = some e ∧ Documented e.cls r := by
  obtain ⟨r, x, h1, h2, -, h3⟩ := C22_explain (peVerify env cd file args) w
  exact ⟨r, x, h1, h2, h3⟩

/-- In particular for signatures. -/
theorem C22_signature (env : Env) (file : Option Bytes) (a : AuthData) (args : VerifyArgs) (w : World) : ∃ r x,
    asdExplainVerify env file a args w = (.ok (r, x), (asdVerify env file a args w).2) ∧
    ((r = .ok ∧ x = none) ↔ ∃ res, (asdVerify env file a args w).1 = .ok res) ∧
    ∀ e, (asdVerify env file a args w).1 = .error e ↔ x = some e ∧ Documented e.cls r := by
  obtain ⟨r, x, h1, h2, -, h3⟩ := C22_explain (asdVerify env file a args) w
  exact ⟨r, x, h1, h2, h3⟩

/-- The results for a tampered file, a file that is none, and a signed file. -/
example : ((peExplainVerify exPEEnv exPECodec (exTwice 3 2 [7, 7, 7]) (exPEArgs "all") exWorld).1.map Prod.fst = .ok .invalidDigest) ∧
    ((peExplainVerify exPEEnv exPECodec [0] (exPEArgs "all") exWorld).1.map Prod.fst = .ok .notSigned) ∧
    ((peExplainVerify exPEEnv exPECodec (exTwice 1 2 [7, 7, 7]) (exPEArgs "all") exWorld).1.map Prod.fst = .ok .ok) :=
  ⟨by decide +kernel, by decide +kernel, by decide +kernel⟩

/-- The table at a few classes: the most specific entry counts. -/
example : Documented .ctlCertificateVerificationError .certificateError ∧ Documented .signerInfoVerificationError .verifyError ∧
    Documented .ctlParseError .unknownError ∧ ¬ Documented .signedPEParseError .parseError :=
  ⟨classify_documented ⟨.ctlCertificateVerificationError, ""⟩, classify_documented ⟨.signerInfoVerificationError, ""⟩,
   classify_documented ⟨.ctlParseError, ""⟩, fun h => by
     cases C22_unique _ _ _ h (classify_documented ⟨.signedPEParseError, ""⟩)⟩

/-! ### C56: classes of exceptions -/

theorem leak_only {env : Env} {w : World} {stores : List StoreRef} (hl : LibrariesBehave env) (hs : StoresBehave w stores) {e : Exc}
    (h : Leak env w stores e) : e.cls = .typeError ∧ ¬ NamesPrint w stores := by
  cases h with
  | store i certs e h1 h2 => cases hs.readable i certs _ h1 h2
  | trustList i ctl msg h1 _ h3 h4 h5 =>
    rcases hs.lists i ctl h1 h3 with h | h
    · exact absurd h h4
    · exact absurd h h5
  | name r c msg h1 h2 h3 => exact ⟨rfl, fun h => h3 (h r h1 c h2)⟩
  | key spki e h => exact absurd h (hl.keys _ _)
  | validator r e h => exact absurd h (hl.validators _ _)
  | stranger r chain x msg h1 h2 h3 h4 h5 =>
    rcases hl.known r chain x h1 h2 with h | h | h
    · exact absurd h h3
    · exact absurd h h4
    · exact absurd h h5
  | emptyChain r msg h => exact absurd h (hl.nonempty r)

theorem leak_never {env : Env} {w : World} {stores : List StoreRef} (hl : LibrariesBehave env) (hs : StoresBehave w stores)
    (hn : NamesPrint w stores) (e : Exc) : ¬ Leak env w stores e := fun h => (leak_only hl hs h).2 hn

theorem refusal_is {e : Exc} (h : e.cls ∈ refusals) : Subclass e.cls .verificationError := by
  simp only [refusals, List.mem_cons, List.not_mem_nil, or_false] at h
  rcases h with h | h | h | h | h | h <;> rw [h] <;> decide

theorem refusals_sound : Throws.Refusals (fun e => Subclass e.cls .verificationError) := refusals_of (fun _ h => refusal_is h)

theorem throws_or_leak {α : Type} {env : Env} {cid : Nat} {x : M α} {w : World}
    (h : ∀ P : Exc → Prop, Throws.Refusals P → Throws env P (w.ctxs cid).stores (fun j => j = cid) x) (e : Exc) (he : (x w).1 = .error e) :
    Subclass e.cls .verificationError ∨ Leak env w (w.ctxs cid).stores e := by
  refine (h (fun e => Subclass e.cls .verificationError ∨ Leak env w (w.ctxs cid).stores e)
    (fun e he => .inl (refusals_sound e he))).raises w ⟨fun e he => .inr he, ?_⟩ e he
  rintro j rfl r hr
  exact hr

/-- `VerificationContext.verify` raises only VerificationErrors, what leaks from stores, libraries and trust lists, and TypeError if the certificate
cannot be named.  Missing: the leaks, because of which the property is false (below). -/
theorem C56_context_partial (env : Env) (cid : Nat) (c : Cert) (w : World) (e : Exc) (h : (ctxVerify env cid c w).1 = .error e) :
    Subclass e.cls .verificationError ∨ Leak env w (w.ctxs cid).stores e ∨ (e.cls = .typeError ∧ ¬ Textual c.subject) := by
  refine (Throws.ctxVerify (C := fun j => j = cid)
    (P := fun e => Subclass e.cls .verificationError ∨ Leak env w (w.ctxs cid).stores e ∨ (e.cls = .typeError ∧ ¬ Textual c.subject))
    (fun e he => .inl (refusals_sound e he)) rfl c (fun ht _ => .inr (.inr ⟨rfl, ht⟩))).raises w ⟨fun e he => .inr (.inl he), ?_⟩ e h
  rintro j rfl r hr
  exact hr

/-- Likewise `SignerInfo.verify` (of a countersignature or time stamp). -/
theorem C56_signer_partial (env : Env) (cid : Nat) (s : Signer) (t : Option Int) (w : World) (e : Exc)
    (h : (signerVerify env cid s t w).1 = .error e) : Subclass e.cls .verificationError ∨ Leak env w (w.ctxs cid).stores e :=
  throws_or_leak (fun _ hR => Throws.signerVerify (C := fun j => j = cid) hR rfl s t) e h

/-- Likewise `AuthenticodeSignerInfo.verify`. -/
theorem C56_authenticode_signer_partial (env : Env) (cid : Nat) (s : Signer) (t : Option Int) (w : World) (e : Exc)
    (h : (authSignerVerify env cid s t w).1 = .error e) : Subclass e.cls .verificationError ∨ Leak env w (w.ctxs cid).stores e :=
  throws_or_leak (fun _ hR => Throws.authSignerVerify (C := fun j => j = cid) hR rfl s t) e h

/-- If the libraries and stores behave and the names of the certificates are text, the property holds for all three. -/
theorem C56_behaved_partial (env : Env) (cid : Nat) (w : World) (hl : LibrariesBehave env) (hs : StoresBehave w (w.ctxs cid).stores)
    (hp : NamesPrint w (w.ctxs cid).stores) (e : Exc) (h : (∃ c, Textual c.subject ∧ (ctxVerify env cid c w).1 = .error e) ∨ (∃ s t, (signerVerify env cid s t w).1 = .error e) ∨
      ∃ s t, (authSignerVerify env cid s t w).1 = .error e) : Subclass e.cls .verificationError := by
  have hn := leak_never hl hs hp e
  rcases h with ⟨c, ht, h⟩ | ⟨s, t, h⟩ | ⟨s, t, h⟩
  · exact ((C56_context_partial env cid c w e h).resolve_right (fun h => h.elim hn (fun h => h.2 ht)))
  · exact (C56_signer_partial env cid s t w e h).resolve_right hn
  · exact (C56_authenticode_signer_partial env cid s t w e h).resolve_right hn

/-- `AuthenticodeSignedData.verify` likewise; without an expected digest, the file must also have one (its error otherwise). -/
theorem C56_signature_partial (env : Env) (file : Option Bytes) (a : AuthData) (args : VerifyArgs) (w : World)
    (he : ContextsExist w args) (hl : LibrariesBehave env) (hs : StoresBehave w (signerStores w a args))
    (hn : NamesPrint w (signerStores w a args)) (e : Exc) (h : (asdVerify env file a args w).1 = .error e) :
    Subclass e.cls .verificationError ∨ (args.expectedHash = none ∧ computeExpected env file a.core.digestAlg = .error e) := by
  rcases asdVerify_raises he h with h | h | h
  · exact .inl (refusal_is h)
  · exact .inr h
  · exact absurd h (leak_never hl hs hn e)

/-- `SignedPEFile.verify` likewise. -/
theorem C56_file_partial (env : Env) (cd : Codec) (file : Bytes) (args : PEVerifyArgs) (w : World) (he : ContextsExist w args.kwargs)
    (hl : LibrariesBehave env) (sds : List ASD) (hc : Considered cd file args.ignoreParseErrors sds)
    (hp : HashNames (providedBy w args)) (hs : ∀ a ∈ sds, StoresBehave w (signerStores w a.d args.kwargs))
    (hn : ∀ a ∈ sds, NamesPrint w (signerStores w a.d args.kwargs)) (e : Exc) (h : (peVerify env cd file args w).1 = .error e) : Subclass e.cls .verificationError := by
  by_cases hne : sds = []
  · subst hne
    rw [peVerify_unsigned hc] at h
    cases h
    decide
  · rcases peVerify_raises hc hne he h with h | ⟨h, -⟩ | ⟨a, ha, h⟩
    · exact refusal_is h
    · exact absurd hp h
    · exact absurd h (leak_never hl (hs a ha) (hn a ha) e)

/-- A trust list for an algorithm other than SHA-1 and SHA-256. -/
def exOddList : World :=
  { exWorld with stores := fun i => if i = 0 then ⟨[exRoot], true, some ⟨"sha384", []⟩, none⟩ else exStoreU }

/-- A store whose directory cannot be read. -/
def exNoDir : World :=
  { exWorld with stores := fun i => if i = 0 then ⟨[], true, none, some ([], some ⟨.foreign, "no such directory"⟩)⟩ else exStoreU }

/-- An environment whose libraries behave. -/
def exBehaved : Env :=
  { exVEnv (fun _ _ => true) with
    validate := fun r => if 1 ∈ r.trustRoots ∧ 2 ∈ r.intermediates then .ok [1, 2, r.endEntity] else .error ⟨.foreign, "path"⟩ }

theorem exBehaved_validate {r : ValReq} {chain : List Nat} (h : exBehaved.validate r = .ok chain) :
    1 ∈ r.trustRoots ∧ 2 ∈ r.intermediates ∧ chain = [1, 2, r.endEntity] := by
  change (if 1 ∈ r.trustRoots ∧ 2 ∈ r.intermediates then (.ok [1, 2, r.endEntity] : Except Exc (List Nat))
    else .error ⟨.foreign, "path"⟩) = .ok chain at h
  split at h
  · rename_i h1
    cases h
    exact ⟨h1.1, h1.2, rfl⟩
  · cases h

theorem exBehaved_behaves : LibrariesBehave exBehaved where
  keys := fun _ _ h => (by cases h)
  validators := fun _ _ h => (by cases h)
  nonempty := fun r h => (by cases (exBehaved_validate h).2.2)
  known := fun r chain x h hx => (by
    obtain ⟨h1, h2, rfl⟩ := exBehaved_validate h
    simp only [List.mem_cons, List.not_mem_nil, or_false] at hx
    rcases hx with rfl | rfl | rfl
    · exact .inr (.inl h1)
    · exact .inr (.inr h2)
    · exact .inl rfl)

/-- If the validator refuses the certificate, the class of the exception depends on the name of the certificate alone. -/
theorem C56_refused (env : Env) (cid : Nat) (c : Cert) (w : World) (hr : ∀ i certs e, .heap i ∈ (w.ctxs cid).stores → (w.stores i).pending = some (certs, e) → e = none)
    (hm : ∀ r e, env.mkValidator r ≠ .error e) (hv : ∀ chain, env.validate (requestFor (loadedWorld w) (w.ctxs cid) c) ≠ .ok chain) :
    ∃ e, (ctxVerify env cid c w).1 = .error e ∧
      (Textual c.subject → e.cls = .certificateVerificationError) ∧ (¬ Textual c.subject → e.cls = .typeError) := by
  have hf : LoadsFine w cid := fun r hr' i hi certs e he => by subst hi; exact hr i certs e hr' he
  rw [ctxVerify_loading env cid c w hf, ctxVerify_loaded env cid c _ (fun r _ => loadedWorld_loadedStore w r)]
  cases h : env.mkValidator { request (loadedWorld w) cid c with keyUsages := [], ekus := [] } with
  | error e => exact absurd h (hm _ _)
  | ok u =>
    simp only
    have hreq : request (loadedWorld w) cid c = requestFor (loadedWorld w) (w.ctxs cid) c := rfl
    rw [hreq]
    cases h' : env.validate (requestFor (loadedWorld w) (w.ctxs cid) c) with
    | ok chain => exact absurd h' (hv _)
    | error e =>
      simp only
      cases hx : (certErr c "Chain verification failed" : Except Exc (List Cert)) with
      | ok l => exact absurd hx (raiseNaming_ne_ok _ _ _)
      | error e' =>
        refine ⟨e', rfl, ?_⟩
        rcases raiseNaming_error hx with ⟨h1, rfl⟩ | ⟨h1, h2⟩
        · exact ⟨fun _ => rfl, fun h => absurd h1 h⟩
        · exact ⟨fun h => absurd h h1, fun _ => h2⟩

/-- False as stated: the trust list's error is no VerificationError (and, not being a ParseError either, is reported as "unknown" by
`explain_verify`). -/
theorem C56_classes_false : ¬ ∀ (env : Env) (cid : Nat) (c : Cert) (w : World) (e : Exc), LibrariesBehave env →
    (ctxVerify env cid c w).1 = .error e → Subclass e.cls .verificationError := by
  intro hall
  have h1 : (ctxVerify exBehaved 0 exLeaf exOddList).1.mapError Exc.cls = .error .ctlParseError := by decide +kernel
  generalize hx : (ctxVerify exBehaved 0 exLeaf exOddList).1 = x at h1
  cases x with
  | ok l => cases h1
  | error e =>
    have := hall _ 0 exLeaf exOddList e exBehaved_behaves hx
    injection h1 with h1
    rw [h1] at this
    exact absurd this (by decide)

/-- The leaf, with an unknown attribute in its name (the value is given as octets), and a store without it that is not trusted. -/
def exOddLeaf : Cert := { exLeaf with subject := ⟨[⟨⟨"1.2.3", "1.2.3", .octets [1]⟩, []⟩]⟩ }

def exNoTrust : World := { exWorld with ctxs := fun _ => exCtx [.heap 1] }

theorem exNoTrust_behaves : StoresBehave exNoTrust (exNoTrust.ctxs 0).stores := by
  refine ⟨fun i certs e h1 h2 => ?_, fun i ctl h1 h2 => ?_⟩
  · change (if i = 0 then exStoreT else exStoreU).pending = _ at h2
    split at h2 <;> cases h2
  · change (if i = 0 then exStoreT else exStoreU).ctl = _ at h2
    split at h2 <;> cases h2

theorem exNoTrust_refuses (c : Cert) (hc : c = exLeaf ∨ c = exOddLeaf) (chain : List Nat) :
    exBehaved.validate (requestFor (loadedWorld exNoTrust) (exNoTrust.ctxs 0) c) ≠ .ok chain := by
  intro h
  have : (exBehaved.validate (requestFor (loadedWorld exNoTrust) (exNoTrust.ctxs 0) c)).toOption = none := by
    rcases hc with rfl | rfl <;> decide +kernel
  rw [h] at this
  cases this

example := C56_refused exBehaved 0 exLeaf exNoTrust (fun i certs e h => exNoTrust_behaves.readable i certs e h) exBehaved_behaves.validators
  (exNoTrust_refuses exLeaf (.inl rfl))
example := C56_refused exBehaved 0 exOddLeaf exNoTrust (fun i certs e h => exNoTrust_behaves.readable i certs e h) exBehaved_behaves.validators
  (exNoTrust_refuses exOddLeaf (.inr rfl))

/-- False even if libraries and stores behave: a certificate whose name has a value that is not text is refused with a TypeError. -/
theorem C56_names_false : ¬ ∀ (env : Env) (cid : Nat) (c : Cert) (w : World) (e : Exc), LibrariesBehave env → StoresBehave w (w.ctxs cid).stores →
    (ctxVerify env cid c w).1 = .error e → Subclass e.cls .verificationError := by
  intro hall
  obtain ⟨e, h, -, h1⟩ := C56_refused exBehaved 0 exOddLeaf exNoTrust (fun i certs e h => exNoTrust_behaves.readable i certs e h)
    exBehaved_behaves.validators (exNoTrust_refuses exOddLeaf (.inr rfl))
  have := hall _ 0 exOddLeaf exNoTrust e exBehaved_behaves exNoTrust_behaves h
  rw [h1 (by decide +kernel)] at this
  exact absurd this (by decide)

/-- Likewise if a store cannot be read. -/
example : (ctxVerify exEnv 0 exLeaf exNoDir).1 = .error ⟨.foreign, "no such directory"⟩ := by decide +kernel

/-- The hypotheses of the partial theorems are met: libraries and stores that behave, and a refusal. -/
example : StoresBehave exWorld (exWorld.ctxs 0).stores ∧ (∃ c, (ctxVerify exBehaved 0 exLeaf exWorld).1 = .ok c) ∧
    ((ctxVerify exBehaved 0 exLeaf { exWorld with ctxs := fun _ => exCtx [.heap 1] }).1.mapError Exc.cls =
      .error .certificateVerificationError) := by
  refine ⟨⟨fun i certs e h1 h2 => ?_, fun i ctl h1 h2 => ?_⟩, ⟨[exRoot, exInter, exLeaf], by decide +kernel⟩, ?_⟩
  · change (if i = 0 then exStoreT else exStoreU).pending = _ at h2
    split at h2 <;> cases h2
  · change (if i = 0 then exStoreT else exStoreU).ctl = _ at h2
    split at h2 <;> cases h2
  · decide +kernel

/-- `CertificateStore.verify_trust` (called directly): it succeeds exactly when the store accepts the chain. Otherwise it refuses with a
`CertificateVerificationError` — the one for an untrusted root exactly when the store does not have the root as a trusted certificate —
unless its CTL uses an unsupported digest algorithm or the root cannot be named in the message. -/
theorem C37_store (env : Env) (cid : Nat) (r : StoreRef) (chain : List Cert) (hne : chain ≠ []) (w : World) :
    ((storeVerifyTrust env cid r chain w).1 = .ok () ↔
      StoreAccepts env w r chain (w.ctxs cid).ekus.elems ((w.ctxs cid).timestamp.getD env.now)) ∧
    ∀ e, (storeVerifyTrust env cid r chain w).1 = .error e →
      (e.cls = .ctlParseError ↔ StoreUnsupported w r chain) ∧ (e.cls = .typeError ↔ StoreUnnameable env w r chain) ∧
      (¬ StoreUnsupported w r chain → ¬ StoreUnnameable env w r chain →
        Subclass e.cls .certificateVerificationError ∧ Subclass e.cls .verificationError ∧
        (e.cls = .certificateNotTrusted ↔ ¬ StoreHasRoot w r chain)) := by
  have hsub : Subclass .certificateVerificationError .verificationError := .base _ _ _ rfl (.refl _)
  rcases storeVerifyTrust_cases env cid r chain hne w with
    ⟨h0, w', -, h⟩ | ⟨h0, h1, h2, m, h⟩ | ⟨h0, h1, h2, h3, m, w', -, h⟩ | ⟨h0, h1, h2, m, h⟩ | ⟨h0, h1, h2, m, h⟩
  · rw [h]
    exact ⟨⟨fun _ => h0, fun _ => rfl⟩, fun e he => by cases he⟩
  · rw [h]
    refine ⟨⟨fun he => (by cases he), fun he => absurd he h0⟩, fun e he => ?_⟩
    cases he
    have hs : Subclass .certificateNotTrusted .certificateVerificationError := .base _ _ _ rfl (.refl _)
    exact ⟨⟨fun he => (by cases he), fun he => absurd he.1 h1⟩, ⟨fun he => (by cases he), fun he => absurd he h2⟩,
      fun _ _ => ⟨hs, .base _ _ _ rfl hsub, ⟨fun _ => h1, fun _ => rfl⟩⟩⟩
  · rw [h]
    refine ⟨⟨fun he => (by cases he), fun he => absurd he h0⟩, fun e he => ?_⟩
    cases he
    have hs : Subclass .ctlCertificateVerificationError .certificateVerificationError := .base _ _ _ rfl (.refl _)
    exact ⟨⟨fun he => (by cases he), fun he => absurd he h2⟩, ⟨fun he => (by cases he), fun he => absurd he h3⟩,
      fun _ _ => ⟨hs, .base _ _ _ rfl hsub, ⟨fun he => (by cases he), fun he => absurd h1 he⟩⟩⟩
  · rw [h]
    refine ⟨⟨fun he => (by cases he), fun he => absurd he h0⟩, fun e he => ?_⟩
    cases he
    exact ⟨⟨fun _ => h1, fun _ => rfl⟩, ⟨fun he => (by cases he), fun he => absurd he h2⟩, fun hn => absurd h1 hn⟩
  · rw [h]
    refine ⟨⟨fun he => (by cases he), fun he => absurd he h0⟩, fun e he => ?_⟩
    cases he
    exact ⟨⟨fun he => (by cases he), fun he => absurd he h1⟩, ⟨fun _ => h2, fun _ => rfl⟩, fun _ hn => absurd h2 hn⟩

/-- The trusted store accepts the chain, the untrusted one refuses it as an untrusted root. -/
example : (storeVerifyTrust exEnv 0 (.heap 0) [exRoot, exLeaf] exWorld).1 = .ok () ∧
    (storeVerifyTrust exEnv 0 (.heap 1) [exRoot, exLeaf] exWorld).1.map (fun _ => ()) =
      .error ⟨.certificateNotTrusted, "not trusted by the store"⟩ := by decide +kernel

example := C37_store exEnv 0 (.heap 1) [exRoot, exLeaf] (by simp) exWorld

/-! ### C21: unsigned files -/

/-- `verify` raises AuthenticodeNotSignedError iff there is no signature, provided that libraries and stores do not raise that very
class. -/
theorem C21_not_signed (env : Env) (cd : Codec) (file : Bytes) (args : PEVerifyArgs) (w : World) (sds : List ASD)
    (h : Considered cd file args.ignoreParseErrors sds) (he : ContextsExist w args.kwargs)
    (hl : ∀ a ∈ sds, ∀ e, Leak env w (signerStores w a.d args.kwargs) e → ¬ Subclass e.cls .authenticodeNotSigned) :
    (∃ e, (peVerify env cd file args w).1 = .error e ∧ Subclass e.cls .authenticodeNotSigned) ↔ sds = [] := by
  constructor
  · rintro ⟨e, h1, h2⟩
    apply Classical.byContradiction
    intro hne
    rcases peVerify_raises h hne he h1 with hx | ⟨-, hx⟩ | ⟨a, ha, hx⟩
    · simp only [refusals, List.mem_cons, List.not_mem_nil, or_false] at hx
      rcases hx with hx | hx | hx | hx | hx | hx <;> rw [hx] at h2 <;> exact absurd h2 (by decide)
    · rw [hx] at h2; exact absurd h2 (by decide)
    · exact hl a ha e hx h2
  · rintro rfl
    rw [peVerify_unsigned h]
    exact ⟨_, rfl, by decide⟩

/-- Whatever the bytes of the file, and with parse errors ignored, the signatures to be considered exist, unless an embedded structure
fails with another error than a SignedPEParseError. -/
theorem C21_signatures_exist (cd : Codec) (file : Bytes)
    (h : ∀ c ∈ (parseCertTable file).1, c.revision = 0x200 → c.type = 2 → ∀ e, fromEnvelope cd c.certificate = .error e →
      Subclass e.cls .signedPEParseError) : ∃ sds, Considered cd file true sds := by
  obtain ⟨tops, sds, err, h1, h2, -⟩ := C15_iteration cd file
  refine ⟨sds, err, ⟨tops, h1, h2⟩, .inr ⟨rfl, fun e he => (isinstance_iff e _).2 ?_⟩⟩
  obtain ⟨pre, rest, h3, h4, h5, h6⟩ := h1
  cases h6 with
  | revision c rest msg _ => cases he; exact .refl _
  | unreadable c rest e' hr ht hf =>
    cases he
    exact h c (by rw [h3]; simp) hr ht e hf
  | table e' ht => cases he; rw [(C14_iteration_safe file).2.1 e ht]; exact .refl _
  | unsigned msg _ _ => cases he; exact .refl _
  | complete _ _ => cases he

/-- In particular a file without (readable part of a) certificate table: it is reported as unsigned, whatever the arguments and the
state, and nothing is changed. -/
theorem C21_no_table (env : Env) (cd : Codec) (file : Bytes) (args : PEVerifyArgs) (w : World) (hi : args.ignoreParseErrors = true)
    (h : ∀ c ∈ (parseCertTable file).1, c.revision ≠ 0x200 ∨ c.type ≠ 2) :
    ∃ e, peVerify env cd file args w = (.error e, w) ∧ e.cls = .authenticodeNotSigned := by
  obtain ⟨sds, err, ⟨tops, h1, h2⟩, h3⟩ := C21_signatures_exist cd file
    (fun c hc hr ht => ((h c hc).elim (fun h => absurd hr h) (fun h => absurd ht h)))
  have ht : tops = [] := by
    obtain ⟨pre, rest, k1, k2, rfl, -⟩ := h1
    rw [List.filterMap_eq_nil_iff]
    intro c hc
    unfold signatureIn
    rw [if_neg ((h c (by rw [k1]; exact List.mem_append_left _ hc)).resolve_left (fun hx => hx (k2 c hc).1))]
  subst ht
  cases preOrderAll_eq h2
  exact ⟨_, peVerify_unsigned (by rw [hi]; exact ⟨err, ⟨[], h1, h2⟩, h3⟩), rfl⟩

/-- Arbitrary bytes that are no PE file with a certificate table. -/
theorem C21_no_pe (env : Env) (cd : Codec) (file : Bytes) (args : PEVerifyArgs) (w : World) (hi : args.ignoreParseErrors = true)
    (h : ¬ ∃ oho ohs dir a s, Header file oho ohs dir ∧ HasTable file oho ohs dir a s) :
    ∃ e, peVerify env cd file args w = (.error e, w) ∧ e.cls = .authenticodeNotSigned :=
  C21_no_table env cd file args w hi (fun c hc => by rw [((C14_iteration_safe file).2.2.1 h).1] at hc; cases hc)

/-- Another error is passed on, and nothing is changed. -/
theorem C21_other_errors (env : Env) (cd : Codec) (file : Bytes) (args : PEVerifyArgs) (w : World)
    (h : ¬ ∃ sds, Considered cd file args.ignoreParseErrors sds) :
    ∃ e, (iterSignedDatas cd file true args.ignoreParseErrors).2 = some e ∧ peVerify env cd file args w = (.error e, w) := by
  cases hi : (iterSignedDatas cd file true args.ignoreParseErrors).toList with
  | ok sds => exact absurd ⟨sds, considered_iff.2 hi⟩ h
  | error e =>
    refine ⟨e, ?_, peVerify_error hi⟩
    unfold Gen.toList at hi
    split at hi
    · cases hi
    · rename_i e' he
      cases hi
      rw [he]

/-- The hypotheses are met: no file at all; a signed file with libraries and stores that behave. -/
example : ¬ ∃ oho ohs dir a s, Header [0, 1, 2] oho ohs dir ∧ HasTable [0, 1, 2] oho ohs dir a s := by
  rintro ⟨oho, ohs, dir, a, s, ⟨h, -⟩, -⟩
  simp at h

example : ∃ sds, sds ≠ [] ∧ Considered exPECodec (exTwice 3 2 [7, 7, 7]) true sds ∧
    ∀ a ∈ sds, ∀ e, Leak exBehaved exWorld (signerStores exWorld a.d (exPEArgs "any").kwargs) e → ¬ Subclass e.cls .authenticodeNotSigned := by
  obtain ⟨a, b, hc⟩ := exPair_considered exPECodec (exTwice 3 2 [7, 7, 7]) ("sha256", [3]) ("sha1", [2]) (by decide +kernel)
    (by decide +kernel)
  refine ⟨[a, b], by simp, hc, fun x _ e h => ?_⟩
  rw [(leak_only exBehaved_behaves ⟨fun i certs e h1 h2 => ?_, fun i ctl h1 h2 => ?_⟩ h).1]
  · decide
  · change (if i = 0 then exStoreT else exStoreU).pending = _ at h2
    split at h2 <;> cases h2
  · change (if i = 0 then exStoreT else exStoreU).ctl = _ at h2
    split at h2 <;> cases h2

/-! ### Instances -/

theorem exRaised {α : Type} {r : Except Exc α} {c : ExcClass} (h : (match r with | .ok _ => none | .error e => some e.cls) = some c) :
    ∃ e, r = .error e ∧ e.cls = c := by
  cases r with
  | ok a => cases h
  | error e => exact ⟨e, rfl, Option.some.inj h⟩

theorem exWorld_behaves (stores : List StoreRef) : StoresBehave exWorld stores := by
  refine ⟨fun i certs e _ h => ?_, fun i ctl _ h => ?_⟩
  · change (if i = 0 then exStoreT else exStoreU).pending = _ at h
    split at h <;> cases h
  · change (if i = 0 then exStoreT else exStoreU).ctl = _ at h
    split at h <;> cases h

theorem exNoTrust_prints : NamesPrint exNoTrust (exNoTrust.ctxs 0).stores := by
  intro r hr c hc
  simp only [exNoTrust, exCtx, List.mem_cons, List.not_mem_nil, or_false] at hr
  subst hr
  change c ∈ [exInter, exLeaf, exCrossA, exCrossB, exInter] at hc
  simp only [List.mem_cons, List.not_mem_nil, or_false] at hc
  rcases hc with rfl | rfl | rfl | rfl | rfl <;> decide

/-- A context without trusted certificates refuses, with a VerificationError. -/
example : ∃ e, (ctxVerify exBehaved 0 exLeaf exNoTrust).1 = .error e ∧ Subclass e.cls .verificationError := by
  obtain ⟨e, he, _⟩ := exRaised (r := (ctxVerify exBehaved 0 exLeaf exNoTrust).1) (c := .certificateVerificationError) (by decide +kernel)
  have := C56_context_partial exBehaved 0 exLeaf exNoTrust e he
  exact ⟨e, he, C56_behaved_partial exBehaved 0 exNoTrust exBehaved_behaves exNoTrust_behaves exNoTrust_prints e
    (Or.inl ⟨exLeaf, by decide, he⟩)⟩

example : ∃ e, (signerVerify exBehaved 0 (exSign 3 [9] [5] none) none exNoTrust).1 = .error e ∧
    (authSignerVerify exBehaved 0 (exSign 3 [9] [5] none) none exNoTrust).1 = .error e ∧
    (Subclass e.cls .verificationError ∨ Leak exBehaved exNoTrust (exNoTrust.ctxs 0).stores e) := by
  have h1 : (signerVerify exBehaved 0 (exSign 3 [9] [5] none) none exNoTrust).1 =
      .error ⟨.certificateVerificationError, "Chain verification failed"⟩ := by decide +kernel
  have h2 : (authSignerVerify exBehaved 0 (exSign 3 [9] [5] none) none exNoTrust).1 =
      .error ⟨.certificateVerificationError, "Chain verification failed"⟩ := by decide +kernel
  have := C56_signer_partial exBehaved 0 _ none exNoTrust _ h1
  exact ⟨_, h1, h2, C56_authenticode_signer_partial exBehaved 0 _ none exNoTrust _ h2⟩

theorem exCerts_print : NamesPrint exWorld [.heap 0, .embedded exCerts] := by
  intro r hr c hc
  simp only [List.mem_cons, List.not_mem_nil, or_false] at hr
  rcases hr with rfl | rfl
  · change c ∈ [exRoot] at hc
    rw [List.mem_singleton.1 hc]; decide
  · simp only [certsOf, exCerts, List.mem_cons, List.not_mem_nil, or_false] at hc
    rcases hc with rfl | rfl | rfl <;> decide

/-- Another digest than the expected one. -/
example := C56_signature_partial exBehaved none (exAuth exCerts none) { exArgs with expectedHash := some [6] } exWorld
  ⟨fun _ h => (by cases h), fun _ h => (by cases h)⟩ exBehaved_behaves (exWorld_behaves _) exCerts_print
  ⟨.authenticodeInvalidDigest, "The expected hash does not match the digest in SpcInfo"⟩ (by decide +kernel)

/-- The file with a bad signature, verified with libraries that behave. -/
def exBehavedPE : Env := { exBehaved with hash := exPEEnv.hash }

theorem exBehavedPE_behaves : LibrariesBehave exBehavedPE :=
  ⟨exBehaved_behaves.keys, exBehaved_behaves.validators, exBehaved_behaves.nonempty, exBehaved_behaves.known⟩

def exBadSds : List ASD := (iterSignedDatas exPECodec (exTwice 3 2 [7, 7, 7]) true true).1

theorem exBadSds_considered : Considered exPECodec (exTwice 3 2 [7, 7, 7]) true exBadSds := exIterated _ _ (by decide +kernel)

theorem exBadSds_print : ∀ a ∈ exBadSds, NamesPrint exWorld (signerStores exWorld a.d (exPEArgs "all").kwargs) := by
  intro a ha r hr c hc
  have h : exBadSds.all (fun a => a.d.core.certificates.all (fun c => decide (Textual c.subject))) = true := by decide +kernel
  have hr' : r = .heap 0 ∨ r = .embedded a.d.core.certificates := by
    simpa [signerStores, signerContext, exPEArgs, contextOf] using hr
  rcases hr' with rfl | rfl
  · change c ∈ [exRoot] at hc
    rw [List.mem_singleton.1 hc]; decide
  · exact of_decide_eq_true (List.all_eq_true.1 (List.all_eq_true.1 h a ha) c hc)

example : ∃ e, (peVerify exBehavedPE exPECodec (exTwice 3 2 [7, 7, 7]) (exPEArgs "all") exWorld).1 = .error e ∧
    Subclass e.cls .verificationError := by
  obtain ⟨e, he, _⟩ := exRaised (r := (peVerify exBehavedPE exPECodec (exTwice 3 2 [7, 7, 7]) (exPEArgs "all") exWorld).1)
    (c := .authenticodeInvalidDigest) (by decide +kernel)
  exact ⟨e, he, C56_file_partial exBehavedPE exPECodec _ (exPEArgs "all") exWorld (exPEArgs_contexts _ _) exBehavedPE_behaves exBadSds
    exBadSds_considered (exPEArgs_names "all") (fun _ _ => exWorld_behaves _) exBadSds_print e he⟩

example := C21_not_signed exBehavedPE exPECodec (exTwice 3 2 [7, 7, 7]) (exPEArgs "all") exWorld exBadSds exBadSds_considered
  (exPEArgs_contexts _ _) (fun a ha e h => absurd h (leak_never exBehavedPE_behaves (exWorld_behaves _) (exBadSds_print a ha) e))

/-- Entries with an unknown revision. -/
def exOldEntry : Bytes := exPE 16 [224, 0, 0, 0, 16, 0, 0, 0] ([16, 0, 0, 0, 0, 1, 2, 0] ++ [9, 9, 9, 9, 9, 9, 9, 9] ++ [7, 7, 7])

theorem exOldEntry_old : ∀ c ∈ (parseCertTable exOldEntry).1, c.revision ≠ 0x200 ∨ c.type ≠ 2 := by decide +kernel

example := C21_no_table exBehavedPE exPECodec exOldEntry (exPEArgs "all") exWorld rfl exOldEntry_old

example := C21_signatures_exist exPECodec exOldEntry (fun c hc h1 h2 => by
  rcases exOldEntry_old c hc with h | h
  · exact absurd h1 h
  · exact absurd h2 h)

example := C21_no_pe exBehavedPE exPECodec [0, 1, 2] (exPEArgs "all") exWorld rfl (by
  rintro ⟨oho, ohs, dir, a, s, ⟨h, -⟩, -⟩
  simp at h)

/-- An entry that asn1crypto cannot read. -/
example := C21_other_errors exBehavedPE exNoSpc (exTwice 1 2 [7, 7, 7]) (exPEArgs "all") exWorld (by
  rintro ⟨sds, h⟩
  have h1 := considered_iff.1 h
  have h2 : (iterSignedDatas exNoSpc (exTwice 1 2 [7, 7, 7]) true true).toList.toOption.map (fun _ => ()) = none := by decide +kernel
  rw [show (exPEArgs "all").ignoreParseErrors = true from rfl] at h1
  rw [h1] at h2
  cases h2)

/-- A validator that answers with a certificate that nobody gave to it. -/
def exStranger : Env := { exPEEnv with validate := fun r => .ok [1, 99, r.endEntity] }

example : ∃ e, (peVerify exStranger exPECodec (exTwice 1 2 [7, 7, 7]) (exPEArgs "all") exWorld).1 = .error e ∧ e.cls = .keyError ∧
    ∃ a ∈ exSds, Leak exStranger exWorld (signerStores exWorld a.d (exPEArgs "all").kwargs) e := by
  obtain ⟨e, he, hk⟩ := exRaised (r := (peVerify exStranger exPECodec (exTwice 1 2 [7, 7, 7]) (exPEArgs "all") exWorld).1)
    (c := .keyError) (by decide +kernel)
  exact ⟨e, he, hk, C19_no_keyError exStranger exPECodec _ (exPEArgs "all") exWorld exSds exSds_considered exSds_ne (exPEArgs_names _)
    (exPEArgs_contexts _ _) e he hk⟩

end Signify.Props
