/-
Specification vocabulary for countersignatures whose time nothing supports (C105).
-/
import Verif.Spec.Verify

set_option autoImplicit false

namespace Signify.Spec

open Signify

/-- The SignerInfo of a countersignature. -/
def counterSignerInfo : CounterSigner → Signer
  | .pkcs9 i => i.signer
  | .rfc3161 r => r.signer

/-- Nothing supports the time that the countersignature states: at that time, certvalidator finds no chain for any certificate with the
issuer and serial number that the countersignature names, among those in the stores of the context (also if these are still to be
read).  For example because the certificates are not valid yet or any more, or because the time has no time zone. -/
def Unsupported (env : Env) (w : World) (ctx : Ctx) (c : CounterSigner) : Prop :=
  ∀ cert, (∃ r ∈ ctx.stores, cert ∈ certsOf (loadedWorld w) r) →
    cert.issuer.components = (counterSignerInfo c).issuer.components → cert.serial = (counterSignerInfo c).serial →
    ∀ req chain, req.endEntity = cert.obj → req.moment = c.signingTime → env.validate req ≠ .ok chain

end Signify.Spec
