/-
Specification of signatures, as bytes and as objects, without the names of the signature algorithms.
-/
import Verif.Spec.DerCms
import Verif.Model.PEFile

set_option autoImplicit false

namespace Signify.Spec

open Signify

/-! ### The structures -/

/-- A signer for whom another signature algorithm is named: always RSA. -/
def DSigner.unnamed (s : DSigner) : DSigner := { s with sigAlg := ⟨[1, 2, 840, 113549, 1, 1, 1], none⟩ }

mutual
/-- The signer and all within. -/
def DSI.unnamed : DSI → DSI
  | .mk s none => .mk s.unnamed none
  | .mk s (some us) => .mk s.unnamed (some (unnamedUAttrs us))
/-- Likewise, a list. -/
def unnamedSIs : List DSI → List DSI
  | [] => []
  | s :: l => s.unnamed :: unnamedSIs l
/-- Within an attribute that is not signed. -/
def DUAttr.unnamed : DUAttr → DUAttr
  | .counter vs => .counter (unnamedSIs vs)
  | .nested vs => .nested (unnamedSDs vs)
  | .timestamp vs => .timestamp (unnamedSDs vs)
  | .other t vs => .other t vs
/-- Likewise, a list. -/
def unnamedUAttrs : List DUAttr → List DUAttr
  | [] => []
  | a :: l => a.unnamed :: unnamedUAttrs l
/-- Within a SignedData. -/
def DSD.unnamed : DSD → DSD
  | .mk d ss => .mk d (unnamedSIs ss)
/-- Likewise, a list. -/
def unnamedSDs : List DSD → List DSD
  | [] => []
  | s :: l => s.unnamed :: unnamedSDs l
end

/-! ### The objects -/

/-- A SignerInfo without `digest_encryption_algorithm`. -/
def _root_.Signify.Signer.unnamed (s : Signer) : Signer := { s with digestEncAlg := "" }

/-- A countersigner and its countersigners without it. -/
def _root_.Signify.CounterInfo.unnamed : CounterInfo → CounterInfo
  | .mk s none => .mk s.unnamed none
  | .mk s (some c) => .mk s.unnamed (some c.unnamed)

/-- A countersigner of either kind. -/
def _root_.Signify.CounterSigner.unnamed : CounterSigner → CounterSigner
  | .pkcs9 c => .pkcs9 c.unnamed
  | .rfc3161 r => .rfc3161 { r with signer := r.signer.unnamed }

/-- The attributes of a signature. -/
def _root_.Signify.AuthData.unnamed (a : AuthData) : AuthData :=
  { a with signer := a.signer.unnamed, counter := a.counter.map CounterSigner.unnamed }

mutual
/-- A signature and those nested in it. -/
def _root_.Signify.ASD.unnamed : ASD → ASD
  | .mk d l => .mk d.unnamed (unnamedASDs l)
/-- Likewise, a list. -/
def unnamedASDs : List ASD → List ASD
  | [] => []
  | a :: l => a.unnamed :: unnamedASDs l
end

/-- An outcome of `SignedPEFile.verify`, where the algorithms named in the signatures are left out: the same chains for the same signatures, or the
same exception. -/
def unnamedOutcome (r : Except Exc (List (ASD × List (List Cert)))) : Except Exc (List (ASD × List (List Cert))) :=
  r.map (fun l => l.map (fun x => (x.1.unnamed, x.2)))

end Signify.Spec
