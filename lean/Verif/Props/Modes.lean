/-
Verification of signatures: countersignature modes, exact outcome, independence (C18, C28, C30, C33, C34).
-/
import Verif.Proofs.SameTime
import Verif.Props.Verify

set_option autoImplicit false

namespace Signify.Props

open Signify Spec

/-! ### C28: exactly when verification succeeds -/

/-- Verification returns the chains that `signer_info.verify` returns, called with the signer's context: with the time of the
countersignature if there is one, it is not ignored and it holds; without a time if there is none, it is ignored, or it fails and
the mode is not 'strict'; and in no other case.  The digests must agree. -/
theorem C28_exact (env : Env) (file : Option Bytes) (a : AuthData) (args : VerifyArgs) (w : World)
    (he : ContextsExist w args) (hsep : SeparateContexts args) (hr : Readable w (signerContext w a args))
    (hrc : ∀ c, a.counter = some c → Readable w (counterContext w a c args)) (chains : List (List Cert)) :
    (asdVerify env file a args w).1 = .ok chains ↔ DigestsAgree env file a args.expectedHash ∧
      ((a.counter = none ∨ args.countersignatureMode = "ignore") ∧
          InContext w (signerContext w a args) (fun i => authSignerVerify env i a.signer none) (.ok chains) ∨
       (∃ c, a.counter = some c ∧ args.countersignatureMode ≠ "ignore" ∧ CounterPasses env w a c args ∧
          InContext w (signerContext w a args) (fun i => authSignerVerify env i a.signer c.signingTime) (.ok chains)) ∨
       (∃ c, a.counter = some c ∧ args.countersignatureMode ≠ "ignore" ∧ args.countersignatureMode ≠ "strict" ∧
          CounterFails env w a c args ∧
          InContext w (signerContext w a args) (fun i => authSignerVerify env i a.signer none) (.ok chains))) := by
  obtain ⟨h1, h2⟩ := asdVerify_outcome env file a args w he hsep hr hrc
  rw [← digestsMatch_iff, ← checkDigests_ok]
  cases hd : checkDigests env file a args.expectedHash with
  | error e =>
    rw [h1 e hd]
    constructor
    · intro h; cases h
    · rintro ⟨h, -⟩; cases h
  | ok u =>
    obtain ⟨r0, hr0⟩ := inContext_exists w (signerContext w a args) (fun i => authSignerVerify env i a.signer none)
    constructor
    · intro h
      refine ⟨rfl, ?_⟩
      by_cases hno : a.counter = none ∨ args.countersignatureMode = "ignore"
      · left
        rw [(h2 hd r0).1 hno hr0] at h
        subst h
        exact ⟨hno, hr0⟩
      · right
        have hm : args.countersignatureMode ≠ "ignore" := fun e => hno (.inr e)
        cases hc : a.counter with
        | none => exact absurd (.inl hc) hno
        | some c =>
          rcases counter_dichotomy (env := env) (hrc c hc) with ⟨hp, -⟩ | ⟨hf, -⟩
          · left
            obtain ⟨r1, hr1⟩ := inContext_exists w (signerContext w a args) (fun i => authSignerVerify env i a.signer c.signingTime)
            rw [(h2 hd r1).2.1 c hc hm hp hr1] at h
            subst h
            exact ⟨c, rfl, hm, hp, hr1⟩
          · right
            by_cases hst : args.countersignatureMode = "strict"
            · rw [(h2 hd r0).2.2.2 c hc hst hf] at h; cases h
            · rw [(h2 hd r0).2.2.1 c hc hm hst hf hr0] at h
              subst h
              exact ⟨c, rfl, hm, hst, hf, hr0⟩
    · rintro ⟨-, ⟨hno, h⟩ | ⟨c, hc, hm, hp, h⟩ | ⟨c, hc, hm, hst, hf, h⟩⟩
      · exact (h2 hd _).1 hno h
      · exact (h2 hd _).2.1 c hc hm hp h
      · exact (h2 hd _).2.2.1 c hc hm hst hf h

/-- The hypotheses are met, by a file system store not yet loaded too. -/
theorem exLazy_readable (ctx : Ctx) (h : ∀ i, .heap i ∈ ctx.stores → i = 0) : Readable exLazy ctx := by
  intro i hi certs e he
  rw [h i hi] at he
  simp [exLazy] at he
  exact he.2.symm

theorem exSigner_readable (counter : Option CounterSigner) (certs : List Cert) :
    Readable exLazy (signerContext exLazy (exAuth certs counter) exArgs) := by
  refine exLazy_readable _ ?_
  intro i hi
  simp [signerContext, exArgs, contextOf] at hi
  exact hi

theorem exCounter_readable (certs : List Cert) (counter : Option CounterSigner) (c : CounterSigner) :
    Readable exLazy (counterContext exLazy (exAuth certs counter) c exArgs) := by
  refine exLazy_readable _ ?_
  intro i hi
  cases c with
  | pkcs9 c => simp [counterContext, exArgs, contextOf] at hi; exact hi
  | rfc3161 r => simp [counterContext, exArgs, contextOf] at hi; exact hi

example : InContext exLazy (signerContext exLazy (exAuth [exInter, exLeaf] (some exRfc)) exArgs)
    (fun i => authSignerVerify (exVEnv (fun _ t => t = some 300)) i (exAuth [exInter, exLeaf] (some exRfc)).signer (some 300))
    (.ok [[exRoot, exInter, exLeaf]]) := by
  obtain ⟨w', h⟩ := exAuth_timestamped
  have := (C28_exact _ none (exAuth [exInter, exLeaf] (some exRfc)) exArgs exLazy (exArgs_contexts _) (.inl rfl)
    (exSigner_readable _ _) (fun c _ => exCounter_readable _ _ c) [[exRoot, exInter, exLeaf]]).1 (by rw [h])
  rcases this.2 with ⟨h | h, -⟩ | ⟨c, hc, -, -, h⟩ | ⟨c, -, -, h, -⟩
  · cases h
  · exact absurd h (by decide)
  · cases hc; exact h
  · exact absurd rfl h

/-! ### C30: the countersignature modes -/

/-- 'ignore': exactly as if there were no countersignature, in whatever mode. -/
theorem C30_ignore (env : Env) (file : Option Bytes) (a : AuthData) (args : VerifyArgs) :
    asdVerify env file a (args.inMode "ignore") = asdVerify env file (withoutCounter a) args := by
  have h1 : chooseCsContext a (args.inMode "ignore") = chooseCsContext (withoutCounter a) args := by
    unfold chooseCsContext VerifyArgs.inMode withoutCounter
    cases args.csContext with
    | some i => rfl
    | none => cases a.counter <;> rfl
  have h2 : ∀ cs, counterTime env a (args.inMode "ignore").countersignatureMode cs = counterTime env (withoutCounter a) args.countersignatureMode cs := by
    intro cs
    unfold counterTime VerifyArgs.inMode withoutCounter
    cases a.counter <;> rfl
  unfold asdVerify
  rw [h1]
  simp only [h2]
  rfl

/-- 'strict': success means that the countersignature holds. -/
theorem C30_strict_success (env : Env) (file : Option Bytes) (a : AuthData) (args : VerifyArgs) (w w' : World) (chains : List (List Cert))
    (he : ContextsExist w args) (h : asdVerify env file a (args.inMode "strict") w = (.ok chains, w')) (c : CounterSigner)
    (hc : a.counter = some c) :
    CounterGood env w' (counterContext w a c args) a.signer.encryptedDigest c ∧
    (Readable w (counterContext w a c args) → CounterPasses env w a c args) := by
  have he' : ContextsExist w (args.inMode "strict") := ⟨he.context, he.csContext⟩
  obtain ⟨-, -, t, ts, -, -, h3, -⟩ := asdVerify_sound he' h
  constructor
  · rcases h3 c hc (by simp [VerifyArgs.inMode]) with ⟨-, hg⟩ | ⟨-, k⟩
    · exact hg
    · exact absurd rfl k
  · intro hr
    rcases counter_dichotomy (env := env) hr with ⟨hp, -⟩ | ⟨hf, -⟩
    · exact hp
    · exfalso
      obtain ⟨cid, cs, v, hs⟩ := setup w a (args.inMode "strict") he'
      obtain ⟨-, t, u, h4, -⟩ := asdVerify_steps hs h
      obtain ⟨u', h5, -⟩ := (counterTime_cases (env := env) hs hc (by simp [VerifyArgs.inMode]) hr).2 hf
      rw [h5] at h4
      simp [VerifyArgs.inMode] at h4

/-- 'strict', with a countersignature that does not hold: AuthenticodeCounterSignerError, unless the digests of the signature
itself are wrong already, in which case the error is the same as without a countersignature. -/
theorem C30_strict_bad (env : Env) (file : Option Bytes) (a : AuthData) (args : VerifyArgs) (w : World) (he : ContextsExist w args)
    (c : CounterSigner) (hc : a.counter = some c) (hr : Readable w (counterContext w a c args)) (hf : CounterFails env w a c args) :
    (DigestsAgree env file a args.expectedHash → ∃ msg, (asdVerify env file a (args.inMode "strict") w).1 = .error ⟨.authenticodeCounterSigner, msg⟩) ∧
    (¬ DigestsAgree env file a args.expectedHash → ∃ e, (asdVerify env file a (args.inMode "strict") w).1 = .error e ∧
      (asdVerify env file (withoutCounter a) args w).1 = .error e) := by
  have he' : ContextsExist w (args.inMode "strict") := ⟨he.context, he.csContext⟩
  obtain ⟨cid, cs, v, hs⟩ := setup w a (args.inMode "strict") he'
  obtain ⟨cid', cs', v', hs'⟩ := setup w (withoutCounter a) args he
  rw [hs.asdVerify, hs'.asdVerify, ← digestsMatch_iff, ← checkDigests_ok]
  have e1 : checkDigests env file (withoutCounter a) args.expectedHash = checkDigests env file a args.expectedHash := rfl
  have e2 : checkDigests env file a (args.inMode "strict").expectedHash = checkDigests env file a args.expectedHash := rfl
  rw [e1, e2]
  cases hd : checkDigests env file a args.expectedHash with
  | error e => exact ⟨fun h => (by cases h), fun _ => ⟨e, rfl, rfl⟩⟩
  | ok u =>
    refine ⟨fun _ => ?_, fun h => absurd rfl h⟩
    obtain ⟨u', h5, -⟩ := (counterTime_cases (env := env) hs hc (by simp [VerifyArgs.inMode]) hr).2 hf
    rw [if_pos (by rfl)] at h5
    rw [M.bind_ok (M.lift_run _ _), M.bind_error h5]
    exact ⟨_, rfl⟩

/-- A mode other than 'strict' and 'ignore' is 'permit'. -/
theorem C30_permit_default (env : Env) (file : Option Bytes) (a : AuthData) (args : VerifyArgs) (m : String) (h1 : m ≠ "strict")
    (h2 : m ≠ "ignore") : asdVerify env file a (args.inMode m) = asdVerify env file a (args.inMode "permit") := by
  have k1 : chooseCsContext a (args.inMode m) = chooseCsContext a (args.inMode "permit") := by
    unfold chooseCsContext VerifyArgs.inMode
    cases args.csContext with
    | some i => rfl
    | none => cases a.counter with
      | none => rfl
      | some c => simp only [if_pos h2, if_pos (show "permit" ≠ "ignore" by decide)]
  have k2 : ∀ cs, counterTime env a (args.inMode m).countersignatureMode cs = counterTime env a (args.inMode "permit").countersignatureMode cs := by
    intro cs
    unfold counterTime VerifyArgs.inMode
    simp only [if_pos h1, if_pos h2, if_pos (show "permit" ≠ "ignore" by decide), if_pos (show "permit" ≠ "strict" by decide)]
  unfold asdVerify
  rw [k1]
  simp only [k2]
  rfl

example := C30_permit_default (exVEnv (fun _ _ => true)) none (exAuth exCerts (some exCounter)) exArgs "lenient" (by decide) (by decide)

/-- 'permit' with a countersignature that holds: exactly as 'strict'. -/
theorem C30_permit_good (env : Env) (file : Option Bytes) (a : AuthData) (args : VerifyArgs) (w : World) (he : ContextsExist w args)
    (c : CounterSigner) (hc : a.counter = some c) (hr : Readable w (counterContext w a c args)) (hp : CounterPasses env w a c args) :
    asdVerify env file a (args.inMode "permit") w = asdVerify env file a (args.inMode "strict") w := by
  have he' : ContextsExist w (args.inMode "strict") := ⟨he.context, he.csContext⟩
  obtain ⟨cid, cs, v, hs⟩ := setup w a (args.inMode "strict") he'
  have hs' : Setup w a (args.inMode "permit") cid cs v := Setup.inMode hs (by decide) (by decide)
  rw [hs.asdVerify, hs'.asdVerify]
  have e2 : checkDigests env file a (args.inMode "permit").expectedHash = checkDigests env file a (args.inMode "strict").expectedHash := rfl
  rw [e2]
  cases hd : checkDigests env file a (args.inMode "strict").expectedHash with
  | error e => rfl
  | ok u =>
    obtain ⟨i, rfl, hi⟩ := hs.counter c hc (by simp [VerifyArgs.inMode])
    obtain ⟨u, hx⟩ := (checkCounter_iff hr hs.stores hi (env := env)).1 hp
    rw [M.bind_ok (M.lift_run _ _), M.bind_ok (M.lift_run _ _),
      M.bind_ok (counterTime_of_ok hc (show (args.inMode "strict").countersignatureMode ≠ "ignore" by simp [VerifyArgs.inMode]) hx),
      M.bind_ok (counterTime_of_ok hc (show (args.inMode "permit").countersignatureMode ≠ "ignore" by simp [VerifyArgs.inMode]) hx)]

/-- 'permit' with a countersignature that does not hold, the two contexts not being one object: as without countersignature. -/
theorem C30_permit_bad_partial (env : Env) (file : Option Bytes) (a : AuthData) (args : VerifyArgs) (w : World) (he : ContextsExist w args)
    (hsep : SeparateContexts args) (hrs : Readable w (signerContext w a args)) (c : CounterSigner) (hc : a.counter = some c)
    (hr : Readable w (counterContext w a c args)) (hf : CounterFails env w a c args) :
    (asdVerify env file a (args.inMode "permit") w).1 = (asdVerify env file (withoutCounter a) args w).1 := by
  obtain ⟨h1, h2⟩ := asdVerify_outcome env file a (args.inMode "permit") w ⟨he.context, he.csContext⟩ hsep hrs
    (fun c' hc' => by rw [hc] at hc'; cases hc'; exact hr)
  obtain ⟨k1, k2⟩ := asdVerify_outcome env file (withoutCounter a) args w he hsep hrs (fun c' hc' => by cases hc')
  cases hd : checkDigests env file a args.expectedHash with
  | error e => rw [h1 e hd, k1 e hd]
  | ok u =>
    obtain ⟨r, hr0⟩ := inContext_exists w (signerContext w a args) (fun i => authSignerVerify env i a.signer none)
    rw [(h2 hd r).2.2.1 c hc (by simp [VerifyArgs.inMode]) (by simp [VerifyArgs.inMode]) hf hr0, (k2 hd r).1 (.inl rfl) hr0]

/-- Without a countersignature the mode does not matter. -/
theorem C30_absent (env : Env) (file : Option Bytes) (a : AuthData) (args : VerifyArgs) (m : String) (h : a.counter = none) :
    asdVerify env file a (args.inMode m) = asdVerify env file a args := by
  have e : withoutCounter a = a := by cases a; simp only [withoutCounter] at *; rw [← h]
  have := C30_ignore env file a (args.inMode m)
  rw [e] at this
  rw [← this, ← e, ← C30_ignore env file a args, e]
  rfl

example := C30_absent (exVEnv (fun _ _ => true)) none (exAuth exCerts none) exArgs "strict" rfl

/-- A countersignature either holds or does not, if the stores it is checked with can be read. -/
theorem C30_dichotomy (env : Env) (a : AuthData) (args : VerifyArgs) (w : World) (c : CounterSigner)
    (hr : Readable w (counterContext w a c args)) :
    (CounterPasses env w a c args ∧ ¬ CounterFails env w a c args) ∨ (CounterFails env w a c args ∧ ¬ CounterPasses env w a c args) :=
  counter_dichotomy hr

example := C30_dichotomy (exVEnv (fun _ t => t = some 300)) (exAuth exCerts (some exRfc)) exArgs exLazy exRfc (exCounter_readable _ _ _)

theorem exBadCounter_fails :
    CounterFails (exVEnv (fun _ t => t = some 300)) exShared (exAuth exCerts (some exBadCounter)) exBadCounter exSharedArgs := by
  have h : (exBadCounter.verify (exVEnv (fun _ t => t = some 300)) 0
      { exShared with ctxs := fun _ => { exCtx [.heap 0, .embedded exCerts] with timestamp := some 300 } }).1 =
      .error ⟨.signerInfoVerificationError, "Could not verify the signer of the authenticated attributes"⟩ := by decide +kernel
  exact .inr ⟨_, 0, { exShared with ctxs := fun _ => { exCtx [.heap 0, .embedded exCerts] with timestamp := some 300 } }, rfl, rfl, h⟩

theorem exShared_readable (ctx : Ctx) : Readable exShared ctx := by
  intro i _ certs e he
  simp only [exShared, exWorld] at he
  split at he <;> cases he

/-- The property as stated is false: if the two contexts are one object, a countersignature that does not hold can change the outcome in
mode 'permit'.  In the example, verification succeeds, while it fails without the countersignature. -/
theorem C30_permit_false : ¬ ∀ (env : Env) (file : Option Bytes) (a : AuthData) (args : VerifyArgs) (w : World) (c : CounterSigner),
    ContextsExist w args → Readable w (signerContext w a args) → a.counter = some c → Readable w (counterContext w a c args) → 
    CounterFails env w a c args →
    (asdVerify env file a (args.inMode "permit") w).1 = (asdVerify env file (withoutCounter a) args w).1 := by
  intro hall
  have h := hall (exVEnv (fun _ t => t = some 300)) none (exAuth exCerts (some exBadCounter)) exSharedArgs exShared exBadCounter
    ⟨fun i hi => (by cases hi; decide), fun i hi => (by cases hi; decide)⟩ (exShared_readable _) rfl (exShared_readable _) exBadCounter_fails
  revert h
  decide +kernel

theorem exAuth_digests (valid : Nat → Option Int → Bool) (certs : List Cert) (counter : Option CounterSigner) :
    DigestsAgree (exVEnv valid) none (exAuth certs counter) (some [7]) :=
  ⟨⟨rfl, rfl⟩, fun d hd => (by cases hd; rfl), fun h => (by cases h), rfl⟩

/-- The hypotheses of the theorems above are met: a countersignature that fails, in mode 'strict', -/
example : ∃ msg, (asdVerify (exVEnv (fun _ t => t = some 300)) none (exAuth exCerts (some exBadCounter)) (exSharedArgs.inMode "strict")
    exShared).1 = .error ⟨.authenticodeCounterSigner, msg⟩ :=
  (C30_strict_bad _ none _ exSharedArgs exShared ⟨fun i hi => (by cases hi; decide), fun i hi => (by cases hi; decide)⟩ exBadCounter rfl
    (exShared_readable _) exBadCounter_fails).1 (exAuth_digests _ _ _)

/-- one that holds, in mode 'permit', -/
example : (asdVerify (exVEnv (fun _ t => t = some 300)) none (exAuth [exInter, exLeaf] (some exRfc)) (exArgs.inMode "permit") exLazy).1 =
    .ok [[exRoot, exInter, exLeaf]] := by
  obtain ⟨w', h⟩ := exAuth_timestamped
  have hp := (C30_strict_success _ none (exAuth [exInter, exLeaf] (some exRfc)) exArgs exLazy w' _ (exArgs_contexts _) h exRfc rfl).2
    (exCounter_readable _ _ _)
  rw [C30_permit_good _ none (exAuth [exInter, exLeaf] (some exRfc)) exArgs exLazy (exArgs_contexts _) exRfc rfl
    (exCounter_readable _ _ _) hp]
  exact (congrArg Prod.fst h :)

/-- and one over something else, in mode 'permit'. -/
def exOtherCounter : CounterSigner := .pkcs9 (.mk (exSign 6 [8] [11] (some 300)) none)

example : (asdVerify (exVEnv (fun _ t => t = none)) none (exAuth exCerts (some exOtherCounter)) (exArgs.inMode "permit") exLazy).1 =
    (asdVerify (exVEnv (fun _ t => t = none)) none (exAuth exCerts none) exArgs exLazy).1 ∧
    (asdVerify (exVEnv (fun _ t => t = none)) none (exAuth exCerts none) exArgs exLazy).1 = .ok [[exRoot, exInter, exLeaf]] :=
  ⟨C30_permit_bad_partial _ none (exAuth exCerts (some exOtherCounter)) exArgs exLazy (exArgs_contexts _) (.inl rfl)
    (exSigner_readable _ _) exOtherCounter rfl (exCounter_readable _ _ _) (.inl (by decide)), by decide +kernel⟩

/-! ### C30, C31: one context for both purposes -/

/-- The case left out above, of one context that is passed for the signer and for the countersigner.  A countersignature over something
else, if it is not fatal, changes nothing.  Any other countersignature, whether it holds or not, makes the signature be verified (unless it is
refused in mode 'strict', see `C30_strict_bad`) as if there were no countersignature and the context had been given the
countersignature's time by the caller.  Missing: stores that cannot be read, and iterators that can be used only once as usages. -/
theorem C31_shared_partial (env : Env) (file : Option Bytes) (a : AuthData) (args : VerifyArgs) (w : World) (i : Nat) (c : CounterSigner)
    (h1 : args.context = some i) (h2 : args.csContext = some i) (hc : a.counter = some c) (hm : args.countersignatureMode ≠ "ignore")
    (hr : Readable w (w.ctxs i)) (hk : Reiterable (w.ctxs i).keyUsages) (hu : Reiterable (w.ctxs i).ekus) :
    (c.checkMessageDigest env a.signer.encryptedDigest = false → args.countersignatureMode ≠ "strict" →
      asdVerify env file a args w = asdVerify env file (withoutCounter a) args w) ∧
    (c.checkMessageDigest env a.signer.encryptedDigest = true → (args.countersignatureMode ≠ "strict" ∨ CounterPasses env w a c args) →
      (asdVerify env file a args w).1 = (asdVerify env file (withoutCounter a) args (withTime w i c.signingTime)).1) := by
  have e1 : ∀ b, chooseContext b args = pure i := fun b => by unfold chooseContext; rw [h1]
  have e2 : ∀ b, chooseCsContext b args = pure (some i) := fun b => by unfold chooseCsContext; rw [h2]
  have e3 : ∀ cs, counterTime env (withoutCounter a) args.countersignatureMode cs = pure none := fun cs => rfl
  have e4 : checkDigests env file (withoutCounter a) args.expectedHash = checkDigests env file a args.expectedHash := rfl
  have run : ∀ v, asdVerify env file a args v = (M.lift (checkDigests env file a args.expectedHash) >>= fun _ =>
      counterTime env a args.countersignatureMode (some i) >>= fun t => authSignerVerify env i a.signer t) v := by
    intro v; unfold asdVerify; rw [e1, e2]; rfl
  have run' : ∀ v, asdVerify env file (withoutCounter a) args v = (M.lift (checkDigests env file a args.expectedHash) >>= fun _ =>
      authSignerVerify env i a.signer none) v := by
    intro v; unfold asdVerify; rw [e1, e2]; simp only [e3, e4]; rfl
  constructor
  · intro hd hs
    rw [run, run']
    have : counterTime env a args.countersignatureMode (some i) w = (.ok none, w) := by
      unfold counterTime
      rw [hc]
      simp only
      rw [if_pos hm]
      have hx : M.attempt (checkCounter env a c i) w = (.ok (.error ⟨.authenticodeCounterSigner,
          "The expected hash of the encryptedDigest does not match countersigner's SignerInfo"⟩), w) := by
        unfold M.attempt checkCounter
        rw [if_pos (by simp [hd])]
        rfl
      rw [M.bind_ok hx]
      simp only
      rw [if_pos hs]
      rfl
    cases hx : checkDigests env file a args.expectedHash with
    | error e => rfl
    | ok u => rw [M.bind_ok (M.lift_run _ _), M.bind_ok (M.lift_run _ _), M.bind_ok this]
  · intro hd hp
    rw [run, run']
    cases hx : checkDigests env file a args.expectedHash with
    | error e => rfl
    | ok u0 =>
      have hcc : counterContext w a c args = w.ctxs i := by unfold counterContext; rw [h2]
      obtain ⟨t, u, k1, k2, k3, k4⟩ := counterTime_shared (env := env) (w := w) (i := i) hc hm hd hk hu
        (hp.imp_right (fun hp => (checkCounter_iff (by rw [hcc]; exact hr) rfl hcc.symm (env := env)).1 hp))
      rw [M.bind_ok (M.lift_run _ _), M.bind_ok (M.lift_run _ _), M.bind_ok k1]
      have ht : (u.ctxs i).timestamp = c.signingTime := by rw [k3, withTime_ctx]
      rw [((SameAt.authSignerVerify env a.signer t k2) u ht).1]
      exact inContext_run (Uniform.authSignerVerify env a.signer none) (w := w) (by rw [withTime_ctx]; exact hr)
        ⟨i, withTime w i c.signingTime, rfl, rfl, rfl⟩ k3 k4

/-- One context for both purposes, with a countersignature that fails: as without it, at its time. -/
example : (asdVerify (exVEnv (fun _ t => t = some 300)) none (exAuth exCerts (some exBadCounter)) exSharedArgs exShared).1 =
    (asdVerify (exVEnv (fun _ t => t = some 300)) none (exAuth exCerts none) exSharedArgs (withTime exShared 0 (some 300))).1 ∧
    (asdVerify (exVEnv (fun _ t => t = some 300)) none (exAuth exCerts none) exSharedArgs (withTime exShared 0 (some 300))).1 =
      .ok [[exRoot, exInter, exLeaf]] :=
  ⟨(C31_shared_partial _ none (exAuth exCerts (some exBadCounter)) exSharedArgs exShared 0 exBadCounter rfl rfl rfl (by decide)
    (exShared_readable _) rfl rfl).2 (by decide) (.inl (by decide)), by decide +kernel⟩

/-! ### C34: calls without contexts -/

/-- Calls without contexts, whatever their outcome, leave all existing contexts and all dictionaries of the caller as they are, and
stores at most get loaded. -/
theorem C34_contexts_unchanged (env : Env) (calls : List Call) (w : World)
    (h : ∀ c ∈ calls, c.args.context = none ∧ c.args.csContext = none) :
    (∀ j, j < w.nextCtx → (afterCalls env calls w).ctxs j = w.ctxs j) ∧ (afterCalls env calls w).dicts = w.dicts ∧
    ∀ i, (afterCalls env calls w).stores i = w.stores i ∨ (afterCalls env calls w).stores i = Store.loaded (w.stores i) := by
  have g := afterCalls_grows env calls w (fun c hc => ⟨fun i hi => (by rw [(h c hc).1] at hi; cases hi),
    fun i hi => (by rw [(h c hc).2] at hi; cases hi)⟩)
  refine ⟨fun j hj => g.other j hj ?_, g.dicts, g.stores⟩
  rintro ⟨c, hc, hp | hp⟩
  · rw [(h c hc).1] at hp; cases hp
  · rw [(h c hc).2] at hp; cases hp

example := C34_contexts_unchanged (exVEnv (fun _ t => t = some 300))
  [⟨none, exAuth exCerts (some exRfc), exArgs⟩, ⟨none, exAuth exCerts none, exArgs⟩] exLazy
  (by intro c hc; simp only [List.mem_cons, List.not_mem_nil, or_false] at hc; rcases hc with rfl | rfl <;> exact ⟨rfl, rfl⟩)

/-- Contexts that are not passed to any of the calls remain as they are in any case. -/
theorem C34_other_contexts (env : Env) (calls : List Call) (w : World) (he : ∀ c ∈ calls, ContextsExist w c.args) (j : Nat)
    (hj : j < w.nextCtx) (h : ∀ c ∈ calls, c.args.context ≠ some j ∧ c.args.csContext ≠ some j) :
    (afterCalls env calls w).ctxs j = w.ctxs j := by
  refine (afterCalls_grows env calls w he).other j hj ?_
  rintro ⟨c, hc, hp | hp⟩
  · exact (h c hc).1 hp
  · exact (h c hc).2 hp

/-- The calls use the context 0 of two contexts. -/
example := C34_other_contexts (exVEnv (fun _ t => t = some 300))
  [⟨none, exAuth exCerts (some exRfc), exSharedArgs⟩, ⟨none, exAuth exCerts none, exArgs⟩] exShared
  (by
    intro c hc
    simp only [List.mem_cons, List.not_mem_nil, or_false] at hc
    rcases hc with rfl | rfl
    · exact ⟨fun i hi => (by cases hi; decide), fun i hi => (by cases hi; decide)⟩
    · exact exArgs_contexts _) 1 (by decide)
  (by intro c hc; simp only [List.mem_cons, List.not_mem_nil, or_false] at hc; rcases hc with rfl | rfl <;> decide)

/-- The outcome of a call without contexts is a function of the signature, the contents of the trusted store and the options: it is
the same in any two states in which the trusted store has the same contents and can be read. -/
theorem C34_function_partial (env : Env) (file : Option Bytes) (a : AuthData) (args : VerifyArgs) (w w' : World)
    (h1 : args.context = none) (h2 : args.csContext = none) (hs : SameStore w w' args.trusted) :
    (asdVerify env file a args w).1 = (asdVerify env file a args w').1 := by
  refine (asdVerify_sim (P := fun _ _ => False) (S := fun k => args.trusted = .heap k) (L := fun _ => False) env file a
    ⟨fun _ _ _ _ h => h.elim, fun _ _ h => h.elim, fun _ _ h => h.elim, fun k hk => (hs k hk).1, fun k hk => .inl (hs k hk).2,
      fun _ h => h.elim⟩ (fun _ _ h => h.elim) ⟨rfl, rfl, rfl, rfl, .inl ⟨h1, h1⟩, .inl ⟨h2, h2⟩⟩ (fun k hk => hk)).1

/-- In particular it does not depend on previous calls. -/
theorem C34_history_partial (env : Env) (calls : List Call) (file : Option Bytes) (a : AuthData) (args : VerifyArgs) (w : World)
    (he : ∀ c ∈ calls, ContextsExist w c.args) (h1 : args.context = none) (h2 : args.csContext = none)
    (hr : ∀ i certs e, args.trusted = .heap i → (w.stores i).pending = some (certs, e) → e = none) :
    (asdVerify env file a args (afterCalls env calls w)).1 = (asdVerify env file a args w).1 := by
  refine C34_function_partial env file a args _ _ h1 h2 (fun i hi => ?_)
  have hg := (afterCalls_grows env calls w he).stores i
  exact ⟨hg.loaded_eq, FineStore.step (fun certs e => hr i certs e hi) hg, fun certs e => hr i certs e hi⟩

/-- A store whose directory has not yet been read. -/
def exUnread : World :=
  { exWorld with stores := fun i => if i = 0 then { exStoreT with items := [], pending := some (exStoreT.items, none) } else exStoreU }

/-- A chain is found with the trusted store read or not, and also after other calls. -/
example (calls : List Call) (he : ∀ c ∈ calls, ContextsExist exUnread c.args) :
    SameStore exUnread exWorld exArgs.trusted ∧
    (asdVerify (exVEnv (fun _ _ => true)) none (exAuth exCerts none) exArgs exUnread).1 = .ok [[exRoot, exInter, exLeaf]] ∧
    (asdVerify (exVEnv (fun _ _ => true)) none (exAuth exCerts none) exArgs (afterCalls (exVEnv (fun _ _ => true)) calls exUnread)).1 =
      .ok [[exRoot, exInter, exLeaf]] := by
  have hs : SameStore exUnread exWorld exArgs.trusted := by
    intro i hi
    cases hi
    exact ⟨rfl, fun certs e h => (by cases h; rfl), fun certs e h => (by cases h)⟩
  have h1 : (asdVerify (exVEnv (fun _ _ => true)) none (exAuth exCerts none) exArgs exUnread).1 = .ok [[exRoot, exInter, exLeaf]] := by
    rw [C34_function_partial _ none _ exArgs exUnread exWorld rfl rfl hs]
    decide +kernel
  refine ⟨hs, h1, ?_⟩
  rw [C34_history_partial _ calls none _ exArgs exUnread he rfl rfl (fun i certs e hi => (hs i hi).2.1 certs e)]
  exact h1

/-- Missing in the partial versions: a trusted store that cannot be read.  Such a store is left with the certificates read so far,
without any sign of the failure, so that the outcome of the second of two calls is not that of the first. -/
def exHalfRead : World :=
  { exWorld with stores := fun i => if i = 0 then { exStoreT with items := [], pending := some (exStoreT.items, some ⟨.foreign, "OSError"⟩) } else exStoreU }

theorem C34_unreadable_false : ¬ ∀ (env : Env) (calls : List Call) (file : Option Bytes) (a : AuthData) (args : VerifyArgs) (w : World),
    (∀ c ∈ calls, ContextsExist w c.args) → args.context = none → args.csContext = none →
    (asdVerify env file a args (afterCalls env calls w)).1 = (asdVerify env file a args w).1 := by
  intro hall
  have h := hall (exVEnv (fun _ _ => true)) [⟨none, exAuth exCerts none, exArgs⟩] none (exAuth exCerts none) exArgs exHalfRead
    (fun c hc => by cases List.mem_singleton.1 hc; exact exArgs_contexts _) rfl rfl
  revert h
  decide +kernel

/-! ### C33: calls with contexts -/

/-- The property as stated is false: after a signature with a countersignature has been verified with a context, the context keeps
the time of the countersignature, and the next signature verified with it is verified at that time. -/
theorem C33_independent_false : ¬ ∀ (env : Env) (calls : List Call) (file : Option Bytes) (a : AuthData) (args : VerifyArgs) (w : World),
    (∀ c ∈ calls, ContextsExist w c.args) → ContextsExist w args → SeparateContexts args → (∀ ctx, Readable w ctx) →
    (∀ i, Reiterable (w.ctxs i).keyUsages ∧ Reiterable (w.ctxs i).ekus) →
    (asdVerify env file a args (afterCalls env calls w)).1 = (asdVerify env file a args w).1 := by
  intro hall
  have he : ContextsExist exShared { exArgs with context := some 0 } := ⟨fun i hi => (by cases hi; decide), fun i hi => (by cases hi)⟩
  have h := hall (exVEnv (fun _ t => t = some 300)) [⟨none, exAuth exCerts (some exRfc), { exArgs with context := some 0 }⟩] none
    (exAuth exCerts none) { exArgs with context := some 0 } exShared
    (fun c hc => by cases List.mem_singleton.1 hc; exact he) he (.inr (by decide)) exShared_readable (fun i => ⟨rfl, rfl⟩)
  revert h
  decide +kernel

/-- Missing in the partial version: what a context's timestamp is after a signature with a countersignature was verified with it,
stores that cannot be read, and iterators that can be used only once as usages.

If the timestamp of the context for the signer is put back, or if no countersignature was looked at with it, then previous
calls do not matter. -/
theorem C33_reset_partial (env : Env) (calls : List Call) (file : Option Bytes) (a : AuthData) (args : VerifyArgs) (w : World)
    (hex : ∀ c ∈ calls, ContextsExist w c.args) (he : ContextsExist w args)
    (hr : Readable w (signerContext w a args)) (hrc : ∀ c, a.counter = some c → Readable w (counterContext w a c args))
    (hit : ∀ i, args.context = some i ∨ args.csContext = some i → Reiterable (w.ctxs i).keyUsages ∧ Reiterable (w.ctxs i).ekus) :
    (asdVerify env file a args (resetTimes w (afterCalls env calls w))).1 = (asdVerify env file a args w).1 := by
  have g := afterCalls_grows env calls w hex
  have hc : ∀ i, args.context = some i ∨ args.csContext = some i → i < w.nextCtx →
      (resetTimes w (afterCalls env calls w)).ctxs i = w.ctxs i := fun i hi hlt =>
    ctx_eq (hit i hi).1 (hit i hi).2 (g.ctxs i hlt)
  have he' : ContextsExist (resetTimes w (afterCalls env calls w)) args := ⟨(he.grows g).context, (he.grows g).csContext⟩
  refine asdVerify_same env file a args w _ he he' hr hrc g.stores ?_ (fun c _ => ?_)
  · unfold signerContext
    cases hx : args.context with
    | none => rfl
    | some i => exact hc i (.inl hx) (he.context i hx)
  · unfold counterContext
    cases hx : args.csContext with
    | none => rfl
    | some i => simp only; rw [hc i (.inr hx) (he.csContext i hx)]

/-- What holds instead of the property: after any calls, a signature is verified with the outcome it would have had at first with some
timestamp in the context passed for the signer, namely the one that was there, or the signing time of a countersignature that one of
the calls looked at with this context.  Missing: stores that cannot be read, and iterators that can be used only once as usages. -/
theorem C33_law_partial (env : Env) (calls : List Call) (file : Option Bytes) (a : AuthData) (args : VerifyArgs) (w : World) (i : Nat)
    (hi : args.context = some i) (hex : ∀ c ∈ calls, ContextsExist w c.args) (he : ContextsExist w args)
    (hr : Readable w (signerContext w a args)) (hrc : ∀ c, a.counter = some c → Readable w (counterContext w a c args))
    (hit : ∀ i, args.context = some i ∨ args.csContext = some i → Reiterable (w.ctxs i).keyUsages ∧ Reiterable (w.ctxs i).ekus) :
    ∃ t, (t = (w.ctxs i).timestamp ∨ ∃ c ∈ calls, (c.args.context = some i ∨ c.args.csContext = some i) ∧
        c.args.countersignatureMode ≠ "ignore" ∧ ∃ k, c.a.counter = some k ∧ t = k.signingTime) ∧
      (asdVerify env file a args (afterCalls env calls w)).1 = (asdVerify env file a args (withTime w i t)).1 := by
  have g := afterCalls_grows env calls w hex
  have hlt := he.context i hi
  refine ⟨((afterCalls env calls w).ctxs i).timestamp, afterCalls_stamps env calls w hex i hlt, ?_⟩
  have hc : ∀ i, args.context = some i ∨ args.csContext = some i → i < w.nextCtx →
      { (afterCalls env calls w).ctxs i with timestamp := (w.ctxs i).timestamp } = w.ctxs i := fun i hi hlt =>
    ctx_eq (hit i hi).1 (hit i hi).2 (g.ctxs i hlt)
  have hsc : signerContext (withTime w i ((afterCalls env calls w).ctxs i).timestamp) a args =
      { w.ctxs i with timestamp := ((afterCalls env calls w).ctxs i).timestamp } := by
    unfold signerContext withTime
    rw [hi]
    simp only [if_true]
  have hcc : ∀ c, a.counter = some c → { counterContext (withTime w i ((afterCalls env calls w).ctxs i).timestamp) a c args with
      timestamp := none } = { counterContext w a c args with timestamp := none } := by
    intro c _
    unfold counterContext withTime
    cases args.csContext with
    | none => rfl
    | some j =>
      simp only
      split
      · rename_i e; rw [e]
      · rfl
  have hs0 : signerContext w a args = w.ctxs i := by unfold signerContext; rw [hi]
  refine asdVerify_same env file a args (withTime w i ((afterCalls env calls w).ctxs i).timestamp) _ ⟨he.context, he.csContext⟩ (he.grows g)
    ?_ ?_ g.stores ?_ ?_
  · rw [hsc]
    rw [hs0] at hr
    exact hr
  · intro c hcm k hk
    have e : (counterContext (withTime w i ((afterCalls env calls w).ctxs i).timestamp) a c args).stores =
        (counterContext w a c args).stores := (congrArg Ctx.stores (hcc c hcm) :)
    rw [e] at hk
    exact hrc c hcm k hk
  · rw [hsc]
    have h1 := congrArg (fun x : Ctx => { x with timestamp := ((afterCalls env calls w).ctxs i).timestamp }) (hc i (.inl hi) hlt)
    unfold signerContext
    rw [hi]
    exact h1
  · intro c hcm
    rw [hcc c hcm]
    unfold counterContext
    cases hx : args.csContext with
    | none => rfl
    | some j =>
      have h1 := hc j (.inr hx) (he.csContext j hx)
      have := congrArg (fun x : Ctx => { x with timestamp := none }) h1
      exact this

example := C33_law_partial (exVEnv (fun _ t => t = some 300))
  [⟨none, exAuth exCerts (some exRfc), { exArgs with context := some 0 }⟩] none (exAuth exCerts none) { exArgs with context := some 0 }
  exShared 0 rfl
  (by
    intro c hc
    simp only [List.mem_cons, List.not_mem_nil, or_false] at hc
    subst hc
    exact ⟨fun i hi => (by cases hi; decide), fun i hi => (by cases hi)⟩)
  ⟨fun i hi => (by cases hi; decide), fun i hi => (by cases hi)⟩ (exShared_readable _) (fun _ _ => exShared_readable _)
  (fun _ _ => ⟨rfl, rfl⟩)

/-- Nothing need be put back if the context passed for the signer has not been used with a countersignature; the context passed for
the countersigner can have been used for any countersigners. -/
theorem C33_no_countersignature_partial (env : Env) (calls : List Call) (file : Option Bytes) (a : AuthData) (args : VerifyArgs) (w : World)
    (hex : ∀ c ∈ calls, ContextsExist w c.args) (he : ContextsExist w args)
    (hr : Readable w (signerContext w a args)) (hrc : ∀ c, a.counter = some c → Readable w (counterContext w a c args))
    (hit : ∀ i, args.context = some i ∨ args.csContext = some i → Reiterable (w.ctxs i).keyUsages ∧ Reiterable (w.ctxs i).ekus)
    (hno : ∀ i, args.context = some i → ∀ c ∈ calls, c.args.context = some i ∨ c.args.csContext = some i →
      c.a.counter = none ∨ c.args.countersignatureMode = "ignore") :
    (asdVerify env file a args (afterCalls env calls w)).1 = (asdVerify env file a args w).1 := by
  have g := afterCalls_grows env calls w hex
  have hc : ∀ i, args.context = some i ∨ args.csContext = some i → i < w.nextCtx →
      { (afterCalls env calls w).ctxs i with timestamp := (w.ctxs i).timestamp } = w.ctxs i := fun i hi hlt =>
    ctx_eq (hit i hi).1 (hit i hi).2 (g.ctxs i hlt)
  refine asdVerify_same env file a args w _ he (he.grows g) hr hrc g.stores ?_ (fun c _ => ?_)
  · unfold signerContext
    cases hx : args.context with
    | none => rfl
    | some i =>
      simp only
      have h1 := hc i (.inl hx) (he.context i hx)
      have h2 : ((afterCalls env calls w).ctxs i).timestamp = (w.ctxs i).timestamp := by
        refine g.times i (he.context i hx) ?_
        rintro ⟨c, hc, hp, hk⟩
        rcases hno i hx c hc hp with h | h
        · exact hk.1 h
        · exact hk.2 h
      rw [← h2] at h1
      exact h1
  · unfold counterContext
    cases hx : args.csContext with
    | none => rfl
    | some i =>
      simp only
      have h1 := hc i (.inr hx) (he.csContext i hx)
      exact (congrArg (fun x : Ctx => { x with timestamp := none }) h1 :)

example := C33_no_countersignature_partial (exVEnv (fun _ t => t = some 300))
  [⟨none, exAuth exCerts none, { exArgs with context := some 0 }⟩] none (exAuth exCerts (some exRfc)) { exArgs with context := some 0 }
  exShared
  (by
    intro c hc
    simp only [List.mem_cons, List.not_mem_nil, or_false] at hc
    subst hc
    exact ⟨fun i hi => (by cases hi; decide), fun i hi => (by cases hi)⟩)
  ⟨fun i hi => (by cases hi; decide), fun i hi => (by cases hi)⟩ (exShared_readable _) (fun _ _ => exShared_readable _)
  (fun _ _ => ⟨rfl, rfl⟩)
  (fun i _ c hc _ => by
    simp only [List.mem_cons, List.not_mem_nil, or_false] at hc
    subst hc
    exact Or.inl rfl)

/-- The hypotheses are met by the counterexample: the second verification fails as it would without the first, if the timestamp is
put back. -/
example : (asdVerify (exVEnv (fun _ t => t = some 300)) none (exAuth exCerts none) { exArgs with context := some 0 }
      (afterCalls (exVEnv (fun _ t => t = some 300)) [⟨none, exAuth exCerts (some exRfc), { exArgs with context := some 0 }⟩] exShared)).1 =
      .ok [[exRoot, exInter, exLeaf]] ∧
    (asdVerify (exVEnv (fun _ t => t = some 300)) none (exAuth exCerts none) { exArgs with context := some 0 } (resetTimes exShared
      (afterCalls (exVEnv (fun _ t => t = some 300)) [⟨none, exAuth exCerts (some exRfc), { exArgs with context := some 0 }⟩] exShared))).1 =
      (asdVerify (exVEnv (fun _ t => t = some 300)) none (exAuth exCerts none) { exArgs with context := some 0 } exShared).1 := by
  have he : ContextsExist exShared { exArgs with context := some 0 } := ⟨fun i hi => (by cases hi; decide), fun i hi => (by cases hi)⟩
  refine ⟨by decide +kernel, ?_⟩
  exact C33_reset_partial _ _ _ _ _ _ (fun c hc => by cases List.mem_singleton.1 hc; exact he) he
    (exShared_readable _) (fun c _ => exShared_readable _) (fun i _ => ⟨rfl, rfl⟩)

/-- The same context for the signer and for the countersigner, in both calls. -/
example : (asdVerify (exVEnv (fun _ t => t = some 300)) none (exAuth exCerts (some exBadCounter)) exSharedArgs (resetTimes exShared
      (afterCalls (exVEnv (fun _ t => t = some 300)) [⟨none, exAuth exCerts (some exRfc), exSharedArgs⟩] exShared))).1 =
      (asdVerify (exVEnv (fun _ t => t = some 300)) none (exAuth exCerts (some exBadCounter)) exSharedArgs exShared).1 ∧
    ¬ SeparateContexts exSharedArgs := by
  have he : ContextsExist exShared exSharedArgs := ⟨fun i hi => (by cases hi; decide), fun i hi => (by cases hi; decide)⟩
  refine ⟨C33_reset_partial _ _ _ _ _ _ (fun c hc => by cases List.mem_singleton.1 hc; exact he) he
    (exShared_readable _) (fun c _ => exShared_readable _) (fun i _ => ⟨rfl, rfl⟩), ?_⟩
  unfold SeparateContexts
  decide

/-- The time of the countersignature is the one that matters in `C33_independent_false`. -/
example : (asdVerify (exVEnv (fun _ t => t = some 300)) none (exAuth exCerts none) { exArgs with context := some 0 }
      (afterCalls (exVEnv (fun _ t => t = some 300)) [⟨none, exAuth exCerts (some exRfc), { exArgs with context := some 0 }⟩] exShared)).1 =
    (asdVerify (exVEnv (fun _ t => t = some 300)) none (exAuth exCerts none) { exArgs with context := some 0 }
      (withTime exShared 0 exRfc.signingTime)).1 ∧
    (asdVerify (exVEnv (fun _ t => t = some 300)) none (exAuth exCerts none) { exArgs with context := some 0 }
      (withTime exShared 0 exRfc.signingTime)).1 = .ok [[exRoot, exInter, exLeaf]] := by
  decide +kernel

end Signify.Props
