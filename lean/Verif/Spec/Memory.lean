/-
What calls of `verify` can leave behind.
-/
import Verif.Spec.Verify
set_option autoImplicit false

namespace Signify.Spec

/-- What some calls have left behind: the stores they have read, the timestamps they have put into contexts, and the contexts whose
key usages and extended key usages they have gone through. -/
structure Memory where
  read : Nat → Bool
  time : Nat → Option (Option Int)
  kus : Nat → Bool
  ekus : Nat → Bool

/-- What `list` of an iterable leaves of it: nothing, of an iterator that can be used only once. -/
def afterUse (used : Bool) (p : PyIter) : PyIter := if used then p.consumed else p

/-- The state `w` with all that has been left behind. -/
def remember (w : World) (m : Memory) : World :=
  { w with
    stores := fun k => if m.read k then Store.loaded (w.stores k) else w.stores k
    ctxs := fun i => { w.ctxs i with
      timestamp := (m.time i).getD (w.ctxs i).timestamp
      keyUsages := afterUse (m.kus i) (w.ctxs i).keyUsages
      ekus := afterUse (m.ekus i) (w.ctxs i).ekus } }

/-- The call was given this context. -/
def Call.Uses (c : Call) (i : Nat) : Prop := c.args.context = some i ∨ c.args.csContext = some i

/-- The calls can account for what was left behind: a timestamp is the signing time of a countersignature looked at by a call with
this context, and usages were only gone through in contexts passed to a call. -/
structure Memory.From (calls : List Call) (m : Memory) : Prop where
  time : ∀ i t, m.time i = some t → ∃ c ∈ calls, c.Uses i ∧ c.args.countersignatureMode ≠ "ignore" ∧
    ∃ k, c.a.counter = some k ∧ t = k.signingTime
  kus : ∀ i, m.kus i = true → ∃ c ∈ calls, c.Uses i
  ekus : ∀ i, m.ekus i = true → ∃ c ∈ calls, c.Uses i

/-- The state `w`, with one store read. -/
def withRead (w : World) (r : StoreRef) : World :=
  { w with stores := fun k => match r with
      | .heap j => if k = j then Store.loaded (w.stores k) else w.stores k
      | .embedded _ => w.stores k }

end Signify.Spec
