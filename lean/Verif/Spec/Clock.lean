/-
The clock (C89): what may differ between two moments at which the same call is made.
-/
import Verif.Spec.Verify

set_option autoImplicit false

namespace Signify.Spec

/-- The surroundings of the library at two moments: the hash functions and public key operations are the same, and so are the answers
of the path validator to every request that names the moment for which to answer.  The clock may show any time, and a request that
does not name a moment may be answered in any way. -/
structure SameButClock (env env' : Env) : Prop where
  hash : env'.hash = env.hash
  loadKey : env'.loadKey = env.loadKey
  pkVerify : env'.pkVerify = env.pkVerify
  rawVerify : env'.rawVerify = env.rawVerify
  accepts : ∀ req, req.moment ≠ none → env'.mkValidator req = env.mkValidator req
  answers : ∀ req, req.moment ≠ none → env'.validate req = env.validate req

/-- The countersignature is not looked at, or says when it was made. -/
def CounterDated (a : AuthData) (mode : String) : Prop :=
  mode = "ignore" ∨ ∀ c, a.counter = some c → c.signingTime ≠ none

/-- No certificate with the signer's issuer and serial number that the context knows is a lifetime signing certificate. -/
def NoLifetimeSigner (w : World) (ctx : Ctx) (s : Signer) : Prop :=
  ∀ r ∈ ctx.stores, ∀ c ∈ certsOf (loadedWorld w) r, c.issuer.components = s.issuer.components → c.serial = s.serial →
    "microsoft_lifetime_signing" ∉ c.eku.getD []

end Signify.Spec
