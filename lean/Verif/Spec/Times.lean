/-
Specification vocabulary for the time that verification leaves in a context passed by the caller, and for files verified with such
contexts.
-/
import Verif.Spec.Complete

set_option autoImplicit false

namespace Signify.Spec

open Signify

/-- Verifying the signature with a context for the signer leaves the time `x` in this context: the digests agree, there is a
countersignature, not ignored, which holds and says `x`, and one of the candidates made the signature and is no lifetime signing
certificate.  Whether this candidate has a valid path is not asked. -/
def LeavesTime (env : Env) (file : Option Bytes) (w : World) (a : AuthData) (args : VerifyArgs) (x : Int) : Prop :=
  DigestsAgree env file a args.expectedHash ∧ ∃ c, a.counter = some c ∧ args.countersignatureMode ≠ "ignore" ∧
    CounterHolds env w a args c ∧ c.signingTime = some x ∧
    ∃ cands d, Candidates w (signerContext w a args) a.signer cands ∧ d ∈ cands ∧
      ValidSignature env d a.signer.encryptedDigest a.signer.encodedAuth a.signer.digestAlg (signerContext w a args).allowLegacy ∧
      ¬ LifetimeSigning d

/-- Likewise for one of the signatures of a file. -/
def LeavesTimeInFile (env : Env) (file : Bytes) (provided : Dict String Bytes) (kwargs : VerifyArgs) (w : World) (a : ASD) (x : Int) : Prop :=
  ∃ d, DigestFor env file provided a.d.core.digestAlg d ∧ LeavesTime env (some file) w a.d { kwargs with expectedHash := some d } x

/-- The time in the signer's context when the signatures `pre` have been verified: that of the last of them that leaves one, or else the
one that was there at first. -/
inductive TimeAfter (env : Env) (file : Bytes) (provided : Dict String Bytes) (kwargs : VerifyArgs) (w : World) (first : Option Int)
    (pre : List ASD) : Option Int → Prop where
  | left (l : List ASD) (a : ASD) (l' : List ASD) (x : Int) : pre = l ++ a :: l' →
      LeavesTimeInFile env file provided kwargs w a x →
      (∀ b ∈ l', ∀ y, ¬ LeavesTimeInFile env file provided kwargs w b y) → TimeAfter env file provided kwargs w first pre (some x)
  | none : (∀ b ∈ pre, ∀ y, ¬ LeavesTimeInFile env file provided kwargs w b y) → TimeAfter env file provided kwargs w first pre first

/-- The signature `b` of the file holds after the signatures `pre` have been verified: as at first, except for the time in the context
that the caller passed for the signer, if any. -/
def HoldsAfter (env : Env) (file : Bytes) (provided : Dict String Bytes) (kwargs : VerifyArgs) (w : World) (pre : List ASD) (b : ASD) : Prop :=
  match kwargs.context with
  | none => HoldsInFile env file provided kwargs w b
  | some i => ∃ t, TimeAfter env file provided kwargs w (w.ctxs i).timestamp pre t ∧ HoldsInFile env file provided kwargs (withTime w i t) b

/-- The call is made with the context `i` for the signer, and leaves the time `x` in it. -/
def LeavesTimeIn (env : Env) (w : World) (i : Nat) (c : Call) (x : Int) : Prop := c.args.context = some i ∧ LeavesTime env c.file w c.a c.args x

/-- The time in the context `i` after the calls: that left by the last of them that leaves one, or else the one that was there at first. -/
inductive TimeAfterCalls (env : Env) (w : World) (i : Nat) (calls : List Call) : Option Int → Prop where
  | left (l : List Call) (c : Call) (l' : List Call) (x : Int) : calls = l ++ c :: l' → LeavesTimeIn env w i c x →
      (∀ d ∈ l', ∀ y, ¬ LeavesTimeIn env w i d y) → TimeAfterCalls env w i calls (some x)
  | none : (∀ d ∈ calls, ∀ y, ¬ LeavesTimeIn env w i d y) → TimeAfterCalls env w i calls (w.ctxs i).timestamp

end Signify.Spec
