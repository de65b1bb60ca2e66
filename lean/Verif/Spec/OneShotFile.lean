/-
Specification vocabulary for files verified with an iterator of key usages (C95).
-/
import Verif.Spec.OneShot
import Verif.Spec.PEFile
import Verif.Model.OneShot

set_option autoImplicit false

namespace Signify.Spec

open Signify

/-- The chains have been asked for the usages or for none, and from the second signature on for none. -/
def AskedOnce (env : Env) (usages : List String) (res : List (ASD × List (List Cert))) : Prop :=
  (∀ p ∈ res, ∀ chain ∈ p.2, AnsweredFor env usages [chain] ∨ AnsweredFor env [] [chain]) ∧ ∀ p ∈ res.tail, AnsweredFor env [] p.2

/-- `l'` is still to come from the iterator after a signature has been verified with it, with outcome `r`, when `l` was still to come before:
it is as before, or used up.  A digest that does not agree is found before anything is asked; a signature that verifies has used it up.  If
the countersignature must hold, what is left is what checking it leaves; if there is none, or it is ignored, what checking the signer leaves. -/
structure LeftAfter (env : Env) (file : Option Bytes) (w : World) (a : AuthData) (args : VerifyArgs) (l : List String)
    (r : Except Exc (List (List Cert))) (l' : List String) : Prop where
  either : l' = l ∨ l' = []
  mismatch : ¬ DigestsAgree env file a args.expectedHash → l' = l
  verified : ∀ chains, r = .ok chains → l' = []
  strict : ∀ c, a.counter = some c → args.countersignatureMode = "strict" → DigestsAgree env file a args.expectedHash →
    LeftBy env w a c ((counterContext w a c args).requiring (.gen l)) (.gen l')
  alone : a.counter = none ∨ args.countersignatureMode = "ignore" → DigestsAgree env file a args.expectedHash →
    ∃ i v, v.stores = w.stores ∧ v.ctxs i = (signerContext w a args).requiring (.gen l) ∧
      ((authSignerVerify env i a.signer none v).2.ctxs i).keyUsages = .gen l'

/-- Verification of some signatures one after the other with one iterator from which `l` is to come: each is verified with what the ones before
have left.  In between stores may have been loaded. -/
inductive AttemptsOnce (env : Env) (file : Bytes) (provided : Dict String Bytes) (kwargs : VerifyArgs) :
    List String → World → List (ASD × Except Exc (List (List Cert))) → Prop where
  | nil (l : List String) (w : World) : AttemptsOnce env file provided kwargs l w []
  | cons (a : ASD) (d : Bytes) (l l' : List String) (w w1 : World) (rest : List (ASD × Except Exc (List (List Cert)))) :
      DigestFor env file provided a.d.core.digestAlg d →
      LeftAfter env (some file) w a.d { kwargs with expectedHash := some d } l
        (asdVerifyOnce env (some file) a.d { kwargs with expectedHash := some d } l w).1 l' →
      (∀ i, w1.stores i = w.stores i ∨ w1.stores i = Spec.Store.loaded (w.stores i)) →
      AttemptsOnce env file provided kwargs l' w1 rest →
      AttemptsOnce env file provided kwargs l w ((a, (asdVerifyOnce env (some file) a.d { kwargs with expectedHash := some d } l w).1) :: rest)

end Signify.Spec
