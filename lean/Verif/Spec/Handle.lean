/-
Specification vocabulary for iterations over a shared file (C85) and for files that change (C86).
-/
import Verif.Model.Handle
import Verif.Spec.Pkcs7

set_option autoImplicit false

namespace Signify.Spec

/-- The answer to the `k`-th request (from 0) to an iteration that gives the values `g.1` in order and then stops, with the
exception `g.2` if there is one.  An iteration that has stopped gives nothing any more. -/
def answer {α : Type} (g : Gen α) (k : Nat) : Except Exc (Option α) :=
  if hk : k < g.1.length then .ok (some g.1[k])
  else if k = g.1.length then
    match g.2 with
    | some e => .error e
    | none => .ok none
  else .ok none

/-- The answers given to iteration `i`. -/
def answersOf {α : Type} (i : Nat) (l : List (Nat × α)) : List α := (l.filter (fun x => x.1 = i)).map Prod.snd

/-- The number of requests a program makes to iteration `i`. -/
def requests (i : Nat) (acts : List FileAct) : Nat := acts.countP (fun a => a = .next i)

/-- The signature is encoded somewhere in these bytes, by itself or nested in another one. -/
def SignatureIn (cd : Codec) (b : Bytes) (x : ASD) : Prop :=
  ∃ p n sd sd', cd.envelope ((b.drop p).take n) = .ok ("signed_data", sd) ∧ Within sd sd' ∧ ReadsASD cd sd' x

end Signify.Spec
