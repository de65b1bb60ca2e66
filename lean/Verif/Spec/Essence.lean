/-
Specification of the part of a signature that matters: what is left of it without the fields that signify does not look at.
-/
import Verif.Spec.DerCms

set_option autoImplicit false

namespace Signify.Spec

open Signify

/-- Of a signer: not the version, nor the parameters of the algorithms. -/
def DSigner.essence (s : DSigner) : DSigner :=
  { s with version := 1, digestAlg := { s.digestAlg with null := false }, sigAlg := ⟨s.sigAlg.oid, none⟩ }

/-- It is a certificate. -/
def DCertChoice.isCert : DCertChoice → Bool
  | .cert _ => true
  | .other _ => false

/-- Of the fields of a SignedData: not the version, except that it is or is not that of PKCS #7; not the parameters of the digest algorithms;
not the obsolete and attribute certificates.  An empty list counts as an absent one. -/
def DData.essence (d : DData) : DData :=
  { d with
    version := if d.version = 1 then 1 else 3
    digestAlgs := d.digestAlgs.map (fun a => { a with null := false })
    certs := some ((d.certs.getD []).filter DCertChoice.isCert)
    crls := some (d.crls.getD []) }

mutual
/-- Of a countersigner, or the signer of a time stamp: beside the fields above, the countersignatures.  All other attributes that are not
signed do not matter. -/
def DSI.bare : DSI → DSI
  | .mk s none => .mk s.essence (some [])
  | .mk s (some us) => .mk s.essence (some (bareUAttrs us))
/-- Likewise, a list. -/
def bareSIs : List DSI → List DSI
  | [] => []
  | s :: l => s.bare :: bareSIs l
/-- Countersignatures. -/
def DUAttr.bare : DUAttr → List DUAttr
  | .counter vs => [.counter (bareSIs vs)]
  | .nested _ => []
  | .timestamp _ => []
  | .other _ _ => []
/-- Likewise, of a list. -/
def bareUAttrs : List DUAttr → List DUAttr
  | [] => []
  | a :: l => a.bare ++ bareUAttrs l
end

/-- Of a time stamp. -/
def DSD.bare : DSD → DSD
  | .mk d ss => .mk d.essence (bareSIs ss)

mutual
/-- Of the signer of a file: beside the fields above, the countersignatures, time stamps and nested signatures. -/
def DSI.essence : DSI → DSI
  | .mk s none => .mk s.essence (some [])
  | .mk s (some us) => .mk s.essence (some (essenceUAttrs us))
/-- Likewise, a list. -/
def essenceSIs : List DSI → List DSI
  | [] => []
  | s :: l => s.essence :: essenceSIs l
/-- Countersignatures, time stamps and nested signatures. -/
def DUAttr.essence : DUAttr → List DUAttr
  | .counter vs => [.counter (bareSIs vs)]
  | .nested vs => [.nested (essenceSDs vs)]
  | .timestamp vs => [.timestamp (vs.map DSD.bare)]
  | .other _ _ => []
/-- Likewise, of a list. -/
def essenceUAttrs : List DUAttr → List DUAttr
  | [] => []
  | a :: l => a.essence ++ essenceUAttrs l
/-- Of a signature. -/
def DSD.essence : DSD → DSD
  | .mk d ss => .mk d.essence (essenceSIs ss)
/-- Likewise, a list. -/
def essenceSDs : List DSD → List DSD
  | [] => []
  | s :: l => s.essence :: essenceSDs l
end

end Signify.Spec
