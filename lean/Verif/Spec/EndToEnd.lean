/-
Specification vocabulary for verification from the bytes of a file to the outcome.
-/
import Verif.Spec.Complete
import Verif.Model.DerCms

set_option autoImplicit false

namespace Signify.Spec

open Signify Asn1

/-- The trusted store passed to a call: it can be read, its trust list (if any) is for a supported algorithm, and its certificates are
what their encodings say and can be named in messages. -/
structure TrustedStore (w : World) (r : StoreRef) : Prop where
  readable : ∀ i certs e, r = .heap i → (w.stores i).pending = some (certs, e) → e = none
  lists : ∀ i ctl, r = .heap i → (w.stores i).ctl = some ctl → ctl.algorithm = "sha1" ∨ ctl.algorithm = "sha256"
  decoded : ∀ c ∈ certsOf (loadedWorld w) r, certFromDer c.der = .ok c
  names : ∀ c ∈ certsOf (loadedWorld w) r, Textual c.subject

/-- The certificates in the signature, and in its time stamp if it has one, can be named in messages. -/
def PrintableCerts (a : AuthData) : Prop :=
  (∀ c ∈ a.core.certificates, Textual c.subject) ∧
  ∀ r, a.counter = some (.rfc3161 r) → ∀ c ∈ r.core.certificates, Textual c.subject

/-- The signatures required by a mode hold: one of them ('any'), all of them ('all'), the first one ('first'), one of those with the
strongest algorithm ('best'). -/
def RequiredHold (mode : String) (holds : ASD → Prop) (sds : List ASD) : Prop :=
  (mode = "any" ∧ ∃ b ∈ sds, holds b) ∨ (mode = "all" ∧ ∀ b ∈ sds, holds b) ∨
  (mode = "first" ∧ ∃ b, sds.head? = some b ∧ holds b) ∨ (mode = "best" ∧ ∃ b ∈ sds, Strongest sds b ∧ holds b)

/-- The modes of `verify`. -/
def knownModes : List String := ["any", "all", "first", "best"]

end Signify.Spec
