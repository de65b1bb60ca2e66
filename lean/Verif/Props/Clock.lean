/-
The clock (C89).
-/
import Verif.Proofs.Clock
import Verif.Props.Verify
import Verif.Props.PEFile

set_option autoImplicit false

namespace Signify.Props

open Signify Spec

/-! ### C89: with a time, the clock does not matter -/

/-- Verification of a certificate in a context with a timestamp has the same outcome, and leaves the same state, at any moment. -/
theorem C89_context {env env' : Env} (hs : SameButClock env env') (cid : Nat) (c : Cert) (w : World)
    (ht : (w.ctxs cid).timestamp ≠ none) : ctxVerify env' cid c w = ctxVerify env cid c w := by
  have hI : Robust (fun w => True ∧ (w.ctxs cid).timestamp ≠ none) := Robust.dated (I := fun _ => True) ⟨fun _ _ _ h => h, fun _ _ _ h => h⟩ cid
  rw [hs.eq]
  exact (EqOn.ctxVerify hI.1 (cid := cid) (fun _ h => h.2) hs.accepts hs.answers c w ⟨trivial, ht⟩).1.symm

/-- Verification of a signature with a timestamp in the signer's context, or among the options for it. -/
theorem C89_given {env env' : Env} (hs : SameButClock env env') (file : Option Bytes) (a : AuthData) (args : VerifyArgs) (w : World)
    (he : ContextsExist w args) (ht : (signerContext w a args).timestamp ≠ none) (hc : CounterDated a args.countersignatureMode) :
    asdVerify env' file a args w = asdVerify env file a args w := by
  rw [hs.eq]
  unfold signerContext at ht
  refine (EqOn.asdVerify hs.accepts hs.answers file a args (fun hn => ?_) hc w ⟨he, fun i hi => ?_⟩).1.symm
  · rw [hn] at ht; exact ht
  · rw [hi] at ht; exact ht

/-- Verification of a signature with a countersignature that has to hold, if the signer is no lifetime signing certificate. -/
theorem C89_countersigned {env env' : Env} (hs : SameButClock env env') (file : Option Bytes) (a : AuthData) (args : VerifyArgs) (w : World)
    (he : ContextsExist w args) (hm : args.countersignatureMode = "strict") {c : CounterSigner} (hac : a.counter = some c)
    (hc : c.signingTime ≠ none) (hn : NoLifetimeSigner w (signerContext w a args) a.signer) :
    asdVerify env' file a args w = asdVerify env file a args w := by
  rw [hs.eq]
  exact (asdVerify_strict hs.accepts hs.answers file a args w he hm hac hc hn).symm

/-- Verification of a file with a timestamp, in all modes. -/
theorem C89_file {env env' : Env} (hs : SameButClock env env') (cd : Codec) (file : Bytes) (args : PEVerifyArgs) (w : World)
    (he : ContextsExist w args.kwargs)
    (ht : (∃ i, args.kwargs.context = some i ∧ (w.ctxs i).timestamp ≠ none) ∨
      args.kwargs.context = none ∧ args.kwargs.options.timestamp ≠ none)
    (hc : ∀ sds, (iterSignedDatas cd file true args.ignoreParseErrors).toList = .ok sds →
      ∀ a ∈ sds, CounterDated a.d args.kwargs.countersignatureMode) :
    peVerify env' cd file args w = peVerify env cd file args w := by
  rw [hs.eq]
  refine (EqOn.peVerify hs.accepts hs.answers cd file args (fun hn => ?_) hc w ⟨he, fun i hi => ?_⟩).1.symm
  · rcases ht with ⟨i, hi, -⟩ | ⟨-, ht⟩
    · rw [hn] at hi; cases hi
    · exact ht
  · rcases ht with ⟨j, hj, ht⟩ | ⟨hn, -⟩
    · rw [hi] at hj; cases hj; exact ht
    · rw [hi] at hn; cases hn

/-- Two moments: at the first, requests without a moment are answered, at the second they are not. -/
def exEarly : Env := exVEnv (fun _ t => t = none ∨ t = some 300)
def exLate : Env := { exVEnv (fun _ t => t = some 300) with now := 5000 }

theorem exEarly_late : SameButClock exEarly exLate := by
  refine ⟨rfl, rfl, rfl, rfl, fun _ _ => rfl, fun req h => ?_⟩
  simp [exEarly, exLate, exVEnv, h]

/-- The conditions are met: a timestamp among the options, and the signature verifies with it at both moments. -/
example : (signerContext exWorld (exAuth exCerts none) { exArgs with options := { timestamp := some 300 } }).timestamp ≠ none := by decide
example : (asdVerify exLate none (exAuth exCerts none) { exArgs with options := { timestamp := some 300 } } exWorld).1 =
    .ok [[exRoot, exInter, exLeaf]] := by decide +kernel
example := C89_given exEarly_late none (exAuth exCerts none) { exArgs with options := { timestamp := some 300 } } exWorld
  ⟨fun _ h => (by cases h), fun _ h => (by cases h)⟩
  (by decide) (.inr (fun _ h => (by cases h)))
example := C89_context exEarly_late 0 exLeaf { exWorld with ctxs := fun _ => contextOf [.heap 0, .embedded exCerts] [] { timestamp := some 300 } }
  (by decide)

/-- A countersignature at time 300 with a signer that is no lifetime signing certificate. -/
theorem exNoLifetime : NoLifetimeSigner exWorld (signerContext exWorld (exAuth exCerts (some exCounter)) exArgs) (exAuth exCerts (some exCounter)).signer := by
  intro r hr c hc _ _
  have hr' : r = .heap 0 ∨ r = .embedded exCerts := by simpa [signerContext, exArgs, contextOf, exAuth] using hr
  rcases hr' with rfl | rfl
  · have : c = exRoot := List.mem_singleton.1 hc
    subst this; decide
  · have : c = exInter ∨ c = exLeaf ∨ c = exTsa := by simpa [certsOf, exCerts] using hc
    rcases this with rfl | rfl | rfl <;> decide
example : (asdVerify exLate none (exAuth exCerts (some exCounter)) exArgs exWorld).1 = .ok [[exRoot, exInter, exLeaf]] := by decide +kernel
example := C89_countersigned exEarly_late none (exAuth exCerts (some exCounter)) exArgs exWorld (exArgs_contexts _) rfl rfl (by decide) exNoLifetime

/-- A file with two signatures without countersignatures, verified for the time 300. -/
example : (∀ sds, (iterSignedDatas exPECodec (exTwice 1 2 [7, 7, 7]) true true).toList = .ok sds → ∀ a ∈ sds, CounterDated a.d "strict") ∧
    exOutcome (peVerify { exLate with hash := fun _ b => exSum b } exPECodec (exTwice 1 2 [7, 7, 7])
      { multiVerifyMode := "all", kwargs := { trusted := .heap 0, options := { timestamp := some 300 } } } exWorld).1 =
      .ok [(("sha256", [1]), [[1, 2, 3]]), (("sha1", [2]), [[1, 2, 3]])] := by
  refine ⟨fun sds h a ha => .inr (fun c hc => ?_), by decide +kernel⟩
  have key : (match (iterSignedDatas exPECodec (exTwice 1 2 [7, 7, 7]) true true).toList with
    | .ok l => l.all (fun a => a.d.counter.isNone)
    | .error _ => true) = true := by decide +kernel
  rw [h] at key
  have := List.all_eq_true.1 key a ha
  rw [hc] at this
  cases this

/-- Without a time, the clock decides. -/
theorem C89_without_time : ∃ (env env' : Env) (a : AuthData) (args : VerifyArgs) (w : World), SameButClock env env' ∧ ContextsExist w args ∧
    a.counter = none ∧ (asdVerify env none a args w).1 = .ok [[exRoot, exInter, exLeaf]] ∧
    (asdVerify env' none a args w).1 = .error ⟨.certificateVerificationError, "Chain verification failed"⟩ :=
  ⟨exEarly, exLate, exAuth exCerts none, exArgs, exWorld, exEarly_late, exArgs_contexts _, rfl, by decide +kernel, by decide +kernel⟩

/-- With a lifetime signing certificate the clock decides, even if the countersignature holds. -/
theorem C89_lifetime : ∃ (env env' : Env) (a : AuthData) (args : VerifyArgs) (w : World) (c : CounterSigner), SameButClock env env' ∧
    ContextsExist w args ∧ args.countersignatureMode = "strict" ∧ a.counter = some c ∧ c.signingTime = some 300 ∧
    (asdVerify env none a args w).1 = .ok [[exRoot, exInter, exLife]] ∧
    (asdVerify env' none a args w).1 = .error ⟨.certificateVerificationError, "Chain verification failed"⟩ :=
  ⟨exEarly, exLate, exAuth [exInter, exLife, exTsa] (some exCounter), exArgs, exWorld, exCounter, exEarly_late, exArgs_contexts _, rfl, rfl, rfl,
    by decide +kernel, by decide +kernel⟩

/-- A countersignature without a time: the clock decides. -/
theorem C89_undated : ∃ (env env' : Env) (a : AuthData) (args : VerifyArgs) (w : World) (c : CounterSigner), SameButClock env env' ∧
    ContextsExist w args ∧ (signerContext w a args).timestamp = some 300 ∧ a.counter = some c ∧ c.signingTime = none ∧
    (asdVerify env none a args w).1 = .ok [[exRoot, exInter, exLeaf]] ∧
    (asdVerify env' none a args w).1 =
      .error ⟨.authenticodeCounterSigner, "An error occurred while validating the countersignature"⟩ :=
  ⟨exEarly, exLate, exAuth exCerts (some (.pkcs9 (.mk (exSign 6 [8] [9] none) none))), { exArgs with options := { timestamp := some 300 } }, exWorld, _,
    exEarly_late, ⟨fun _ h => (by cases h), fun _ h => (by cases h)⟩, rfl, rfl, rfl, by decide +kernel, by decide +kernel⟩

theorem exUncountered : ∀ sds, (iterSignedDatas exPECodec (exTwice 1 2 [7, 7, 7]) true true).toList = .ok sds →
    ∀ a ∈ sds, CounterDated a.d "strict" := by
  refine fun sds h a ha => .inr (fun c hc => ?_)
  have key : (match (iterSignedDatas exPECodec (exTwice 1 2 [7, 7, 7]) true true).toList with
    | .ok l => l.all (fun a => a.d.counter.isNone)
    | .error _ => true) = true := by decide +kernel
  rw [h] at key
  have := List.all_eq_true.1 key a ha
  rw [hc] at this
  cases this

example := C89_file exEarly_late exPECodec (exTwice 1 2 [7, 7, 7])
  { multiVerifyMode := "all", kwargs := { trusted := .heap 0, options := { timestamp := some 300 } } } exWorld
  ⟨fun _ h => (by cases h), fun _ h => (by cases h)⟩ (.inr ⟨rfl, by decide⟩) exUncountered

end Signify.Props
