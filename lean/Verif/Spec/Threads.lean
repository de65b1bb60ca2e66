/-
Specification for C96: what executions by several threads are compared with.
-/
import Verif.Model.Threads

set_option autoImplicit false

namespace Signify.Spec

open Signify Threads

/-- The trace in which each operation returns before the next one is called, whichever threads call them. -/
def oneAtATime (calls : List (Nat × StoreOp × Except Exc OpValue)) : List Event :=
  calls.flatMap fun x => [.call x.1 x.2.1, .ret x.1 x.2.1 x.2.2]

/-- No thread is in an operation. -/
def NobodyBusy (s : State) : Prop := ∀ t, s.thr t = .idle

/-- The certificate was in the store, is in a file of the location, or has been appended by somebody. -/
def Origin (loc : List Cert × Option Exc) (s0 : State) (tr : List Event) (c : Cert) : Prop :=
  c ∈ s0.items ∨ c ∈ loc.1 ∨ ∃ t, .call t (.append c) ∈ tr

/-- Nobody removes a certificate. -/
def NoPop (tr : List Event) : Prop := ∀ t, .call t .pop ∉ tr

/-- Nobody modifies the store, except by loading it. -/
def NoChange (tr : List Event) : Prop := ∀ t, .call t .pop ∉ tr ∧ ∀ c, .call t (.append c) ∉ tr

/-- Some operation has been called that loads the store. -/
def LoadCalled (tr : List Event) : Prop := ∃ t o, .call t o ∈ tr ∧ (o = .iter ∨ o = .len)

/-- The object as the rest of the model has it. -/
def AsStore (loc : List Cert × Option Exc) (s : State) (st : Store) : Prop :=
  st.items = s.items ∧ st.trusted = s.trusted ∧ st.pending = if s.loaded then none else some loc

end Signify.Spec
