/-
The interpreter giving up while signatures are parsed (C101).
-/
import Verif.Proofs.Strikes
import Verif.Props.PEFile

set_option autoImplicit false

namespace Signify.Props

open Signify Spec

/-! ### C101: RecursionError and MemoryError while parsing -/

/-- Parsing gives what it gives otherwise, or raises the exception: no part of a signature is left out because it could not be parsed. -/
theorem C101_parse (cd : Codec) (x : Strikes) (data : Bytes) :
    fromEnvelopeS cd x data = fromEnvelope cd data ∨ ∃ e, GivesUp x e ∧ fromEnvelopeS cd x data = .error e :=
  Lim.fromEnvelope cd data

/-- The signatures of a file: all those that are listed otherwise, or the first of them followed by the exception, whether or not parse
errors are to be ignored. -/
theorem C101_listed (cd : Codec) (x : Strikes) (hx : OwnExceptions x) (file : Bytes) (includeNested ignoreParseErrors : Bool) :
    iterSignedDatasS cd x file includeNested ignoreParseErrors = iterSignedDatas cd file includeNested ignoreParseErrors ∨
    ∃ e, GivesUp x e ∧
      (iterSignedDatasS cd x file includeNested ignoreParseErrors).1 <+: (iterSignedDatas cd file includeNested ignoreParseErrors).1 ∧
      (iterSignedDatasS cd x file includeNested ignoreParseErrors).2 = some e :=
  iterSignedDatasS_lim cd x hx file includeNested ignoreParseErrors

/-- `verify` does, in all modes, what it does otherwise, or raises the exception before it has changed anything. -/
theorem C101_verify (env : Env) (cd : Codec) (x : Strikes) (hx : OwnExceptions x) (file : Bytes) (args : PEVerifyArgs) (w : World) :
    peVerifyS env cd x file args w = peVerify env cd file args w ∨ ∃ e, GivesUp x e ∧ peVerifyS env cd x file args w = (.error e, w) :=
  peVerifyS_lim env cd x hx file args w

/-- If `verify` returns, it returns what it returns otherwise. -/
theorem C101_success (env : Env) (cd : Codec) (x : Strikes) (hx : OwnExceptions x) (file : Bytes) (args : PEVerifyArgs) (w w' : World)
    (res : List (ASD × List (List Cert))) (h : peVerifyS env cd x file args w = (.ok res, w')) : peVerify env cd file args w = (.ok res, w') := by
  rcases C101_verify env cd x hx file args w with h' | ⟨e, -, h'⟩
  · rw [← h', h]
  · rw [h'] at h; cases h

theorem classify_own {e : Exc} (h : e.is .signifyError = false) : classify e = .unknownError := by
  obtain ⟨cls, msg⟩ := e
  revert h
  show cls.isSub .signifyError = false → _
  cases cls <;> first | (intro h; exact absurd h (by decide)) | (intro _; rfl)

/-- `explain_verify` reports what it reports otherwise, or `UNKNOWN_ERROR` with the exception: never that the file is not signed. -/
theorem C101_explain (env : Env) (cd : Codec) (x : Strikes) (hx : OwnExceptions x) (file : Bytes) (args : PEVerifyArgs) (w : World) :
    peExplainVerifyS env cd x file args w = peExplainVerify env cd file args w ∨
    ∃ e, GivesUp x e ∧ peExplainVerifyS env cd x file args w = (.ok (.unknownError, some e), w) := by
  unfold peExplainVerifyS peExplainVerify explain
  rcases C101_verify env cd x hx file args w with h | ⟨e, h1, h⟩
  · left
    rw [M.bind_run, M.bind_run]
    have : M.attempt (peVerifyS env cd x file args) w = M.attempt (peVerify env cd file args) w := by unfold M.attempt; rw [h]
    rw [this]
  · right
    refine ⟨e, h1, ?_⟩
    rw [M.bind_ok (show M.attempt (peVerifyS env cd x file args) w = (.ok (.error e), w) from by unfold M.attempt; rw [h])]
    show (Except.ok (classify e, some e), w) = _
    rw [classify_own (hx e h1)]

/-- A limit on nested calls that is not reached changes nothing: it is enough that it lies beyond the depth of the structure. -/
theorem C101_shallow (cd : Codec) (x : Strikes) (limit : Nat) (hx : OnlyBelow x limit) (data : Bytes)
    (h : ∀ t sd, cd.envelope data = .ok (t, sd) → sd.depth ≤ limit) : fromEnvelopeS cd x data = fromEnvelope cd data :=
  fromEnvelopeS_below hx cd data h

/-! Examples.  The second signature of the file cannot be parsed because of a RecursionError. -/

def exRecursion : Exc := ⟨.runtimeError, "maximum recursion depth exceeded"⟩

def exStrikes : Strikes :=
  { Strikes.none with sd := fun _ step s => if step = "signers" ∧ s.head.content = some [2] then some exRecursion else none }

theorem exStrikes_own : OwnExceptions exStrikes := by
  intro e h
  cases h with
  | sd level step s h =>
    have : e = exRecursion := by
      unfold exStrikes at h
      dsimp only at h
      split at h
      · cases h; rfl
      · cases h
    rw [this]; rfl
  | si _ _ _ h => cases h
  | envelope _ h => cases h
  | iter _ _ h => cases h

/-- In the mode 'first' the file verifies otherwise, although its second signature is not looked at, and parse errors are ignored. -/
theorem C101_first : ∃ (x : Strikes) (file : Bytes) (args : PEVerifyArgs), OwnExceptions x ∧ args.multiVerifyMode = "first" ∧
    args.ignoreParseErrors = true ∧ (exOutcome (peVerify exPEEnv exPECodec file args exWorld).1).isOk = true ∧
    exOutcome (peVerifyS exPEEnv exPECodec x file args exWorld).1 = .error .runtimeError :=
  ⟨exStrikes, exTwice 1 2 [7, 7, 7], exPEArgs "first", exStrikes_own, rfl, rfl, by decide +kernel, by decide +kernel⟩

/-- The first signature is still listed. -/
example : (iterSignedDatasS exPECodec exStrikes (exTwice 1 2 [7, 7, 7]) true true).1.length = 1 ∧
    (iterSignedDatas exPECodec (exTwice 1 2 [7, 7, 7]) true true).1.length = 2 ∧
    (iterSignedDatasS exPECodec exStrikes (exTwice 1 2 [7, 7, 7]) true true).2 = some exRecursion := by decide +kernel

example := C101_verify exPEEnv exPECodec exStrikes exStrikes_own (exTwice 1 2 [7, 7, 7]) (exPEArgs "any") exWorld

/-- A file in which the structures concerned do not occur. -/
example : (exOutcome (peVerifyS exPEEnv exPECodec exStrikes (exTwice 1 1 [7, 7, 7]) (exPEArgs "all") exWorld).1).isOk = true := by decide +kernel

/-- A limit of three levels, which a signature with a nested signature and a countersigner does not reach.  -/
def exLimit (n : Nat) : Strikes :=
  ⟨fun level _ _ => if level < n then none else some exRecursion, fun level _ _ => if level < n then none else some exRecursion,
    fun _ => none, fun _ _ => none⟩

theorem exLimit_below (n : Nat) : OnlyBelow (exLimit n) n :=
  ⟨fun _ _ _ h => if_pos h, fun _ _ _ h => if_pos h, fun _ => rfl⟩

def exNestedCodec : Codec := { exCodec with envelope := fun _ => .ok ("signed_data", exSD) }

example : exSD.depth = 4 ∧ fromEnvelopeS exNestedCodec (exLimit 4) [] = fromEnvelope exNestedCodec [] ∧
    (match fromEnvelope exNestedCodec [] with | .ok a => a.nested.length | .error _ => 0) = 1 ∧
    fromEnvelopeS exNestedCodec (exLimit 1) [] = .error exRecursion := by
  refine ⟨by decide +kernel, C101_shallow _ _ 4 (exLimit_below 4) [] ?_, by decide +kernel, ?_⟩
  · intro t sd h
    cases h
    decide +kernel
  · have : (match fromEnvelopeS exNestedCodec (exLimit 1) [] with | .ok _ => none | .error e => some e) = some exRecursion := by decide +kernel
    cases h : fromEnvelopeS exNestedCodec (exLimit 1) [] with
    | ok a => rw [h] at this; cases this
    | error e => rw [h] at this; cases this; rfl

end Signify.Props
