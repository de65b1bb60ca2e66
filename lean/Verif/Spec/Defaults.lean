/-
Specification vocabulary for verification against published certificates and a published trust list.
-/
import Verif.Spec.DerCtl
import Verif.Spec.Pem

set_option autoImplicit false

namespace Signify.Spec

open Signify Asn1 Pem

/-- id-kp-codeSigning -/
def oidCodeSigning : List Nat := [1, 3, 6, 1, 5, 5, 7, 3, 3]

/-- A restriction published with a time (in seconds since 1601; it may be left empty) and/or a list of usages concerns code signing at
`moment` (in microseconds since 1601): there is one, the time has come, and code signing is among the usages. -/
def Concerns (time : Option (Option Nat)) (usages : Option (List (List Nat))) (moment : Int) : Prop :=
  ((∃ n, time = some (some n)) ∨ ∃ l, usages = some l) ∧ (∀ n, time = some (some n) → ((n * 1000000 : Nat) : Int) ≤ moment) ∧
  (∀ l, usages = some l → oidCodeSigning ∈ l)

/-- What is published about a root permits that it is used for code signing at `moment`, with an end certificate issued at `issued`. -/
structure DSubject.Permits (s : DSubject) (issued moment : Int) : Prop where
  usages : ∀ l, s.usages = some l → l ≠ [] → oidCodeSigning ∈ l
  notBefore : ¬ Concerns s.notBeforeTime s.notBeforeUsages issued
  allowed : ¬ Concerns s.disallowedTime s.disallowedUsages moment

/-- The published list, with identifiers made by the hash function `hash`, permits code signing with the chain. -/
def ListPermits (hash : Bytes → Bytes) (subjects : List DSubject) (chain : List Cert) (moment : Int) : Prop :=
  ∃ root leaf s, chain.head? = some root ∧ chain.getLast? = some leaf ∧ s ∈ subjects ∧ s.identifier = hash root.der ∧
    s.Permits leaf.validFrom moment

/-- `data` is a file with the list. -/
def ListFile (data : Bytes) (subjects : List DSubject) (alg : String) : Prop :=
  ∃ d ss c rest, data = contentInfo (DSD.mk d ss).encode ++ rest ∧ PublishesList d c subjects alg ∧ (DSD.mk d ss).Valid ∧
    (contentInfo (DSD.mk d ss).encode).length < maxLen

/-- A certificate is in one of the files. -/
def InFiles (location : Location) (c : Cert) : Prop :=
  ∃ text ls der, .ok text ∈ filesAt location ∧ LinesOf text ls ∧ InBlock ls der ∧ certFromDer der = .ok c

end Signify.Spec
