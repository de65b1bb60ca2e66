/-
Specification vocabulary for usages given as iterators (C95).
-/
import Verif.Spec.Verify

set_option autoImplicit false

namespace Signify.Spec

open Signify

/-- Each chain is the answer of the path validator to a question about exactly these key usages. -/
def AnsweredFor (env : Env) (usages : List String) (chains : List (List Cert)) : Prop :=
  ∀ chain ∈ chains, ∃ req, req.keyUsages = usages ∧ env.validate req = .ok (chain.map Cert.obj)

/-- A context with other key usages. -/
def _root_.Signify.Ctx.requiring (ctx : Ctx) (p : PyIter) : Ctx := { ctx with keyUsages := p }

/-- The countersignature holds in the context `ctx` at the time it states. -/
def CounterHoldsIn (env : Env) (w : World) (a : AuthData) (c : CounterSigner) (ctx : Ctx) : Prop :=
  c.checkMessageDigest env a.signer.encryptedDigest = true ∧
  ∃ chains, InContext w { ctx with timestamp := c.signingTime } (fun i => c.verify env i) (.ok chains)

/-- What is left of the key usages of the context `ctx` after the attempt to check the countersignature with it. -/
def LeftBy (env : Env) (w : World) (a : AuthData) (c : CounterSigner) (ctx : Ctx) (p : PyIter) : Prop :=
  ∃ i v, v.stores = w.stores ∧ v.ctxs i = ctx ∧ ((checkCounter env a c i v).2.ctxs i).keyUsages = p

/-- The same options with these key usages, as a container. -/
def _root_.Signify.VerifyArgs.requiring (args : VerifyArgs) (l : List String) : VerifyArgs :=
  { args with options := { args.options with keyUsages := some l } }

end Signify.Spec
