/-
C80: the exceptions that loading certificates and trust lists raises.
-/
import Verif.Proofs.ClassesCtl
import Verif.Props.Classes
import Verif.Props.DerCtl
import Verif.Props.Pem

set_option autoImplicit false

namespace Signify.Props

open Signify Spec Asn1 Pem

/-- Whatever the octets, `Certificate.from_der` raises, if anything, a ValueError or an IndexError. -/
theorem C80_certificate (data : Bytes) : RaisesOnly certificateClasses (certFromDer data) := certFromDer_cert data

/-- Likewise `Certificate.from_pem`: in particular, StopIteration does not reach the caller. -/
theorem C80_pem (data : Bytes) : RaisesOnly certificateClasses (fromPem data) := by
  intro e he
  unfold fromPem at he
  split at he
  · cases he
  · rename_i h
    cases he
    exact fromPems_only data e (by rw [h])
  · rename_i h
    have h1 := unarmorLines_none .trash (splitLines [] data)
    exact absurd (show (fromPems data).2 = none by rw [h]) (by
      unfold fromPems at h ⊢
      unfold unarmor at h ⊢
      revert h h1
      cases unarmorLines .trash false (splitLines [] data) with
      | mk ds x =>
        intro h h1 hn
        cases ds with
        | nil =>
          simp only [genMap] at hn
          have := h1 rfl
          rw [hn] at this
          cases this
        | cons d ds =>
          simp only [genMap] at h
          split at h <;> cases h)

/-- Likewise the iteration over `Certificate.from_pems`. -/
theorem C80_pems (data : Bytes) : ∀ e, (fromPems data).2 = some e → e.cls ∈ certificateClasses := fromPems_only data

/-- A certificate whose issuer has a component without a value. -/
def exLCert : Bytes := derSeq [derSeq [derInt 1, exLAlg.encode, derSeq [derSet []], derSeq [DTime.encode ⟨2020, 1, 1, 0, 0, 0⟩, DTime.encode ⟨2021, 1, 1, 0, 0, 0⟩],
  derSeq [], derSeq [exLAlg.encode, tlv 3 [0]]], exLAlg.encode, tlv 3 [0]]

/-- Both classes occur. -/
theorem C80_certificate_all_occur : ∀ c ∈ certificateClasses, ∃ data e, certFromDer data = .error e ∧ e.cls = c := by
  intro c hc
  have key : ∀ c ∈ certificateClasses, classOf (certFromDer (if c = .valueError then [] else exLCert)) = some c := by decide +kernel
  have h := key c hc
  revert h
  cases h : certFromDer (if c = .valueError then [] else exLCert) with
  | ok a => intro h; cases h
  | error e => intro he; exact ⟨_, e, h, Option.some.inj he⟩

/-- Whatever the file, `CertificateTrustList.from_stl_file` raises, if anything, an exception of one of eight classes: ValueError, TypeError,
KeyError, IndexError; ParseError, CTLParseError; struct.error, OverflowError. -/
theorem C80_trust_list (data : Bytes) : RaisesOnly trustListClasses (fromStl derCodec derCtlCodec data) := fromStl_only data

/-- A file with one entry that has one attribute. -/
def exLList (n : Nat) (values : List Bytes) : Bytes :=
  contentInfo (DSD.encode (.mk (exLData oidCtl (DCtl.encode ⟨none, [], none, none, ⟨2021, 1, 2, 3, 4, 5⟩, none, exLAlg,
    some [⟨[1], some [⟨ctlOid n, values⟩]⟩], none⟩)) []))

/-- Files for each class: not ASN.1; no content; no digest algorithm; an attribute without values; another kind of content; another kind of file; a time of
seven octets; a time too far in the future. -/
def exLListWitness : ExcClass → Bytes
  | .typeError => derSeq [derOid oidSignedData]
  | .keyError => contentInfo (DSD.encode (.mk { exLData oidCtl [] with digestAlgs := [] } []))
  | .indexError => exLList 104 []
  | .parseError => contentInfo (DSD.encode (.mk (exLData oidIndirectData exLContent) []))
  | .ctlParseError => derSeq [derOid [1, 2, 840, 113549, 1, 7, 1]]
  | .structError => exLList 104 [[1, 2, 3, 4, 5, 6, 7]]
  | .overflowError => exLList 104 [[255, 255, 255, 255, 255, 255, 255, 255]]
  | _ => []

/-- All eight classes occur. -/
theorem C80_trust_list_all_occur : ∀ c ∈ trustListClasses, ∃ data e, fromStl derCodec derCtlCodec data = .error e ∧ e.cls = c := by
  intro c hc
  have key : ∀ c ∈ trustListClasses, classOf (fromStl derCodec derCtlCodec (exLListWitness c)) = some c := by decide +kernel
  have h := key c hc
  revert h
  cases h : fromStl derCodec derCtlCodec (exLListWitness c) with
  | ok a => intro h; cases h
  | error e => intro he; exact ⟨_, e, h, Option.some.inj he⟩

/-- The witnesses differ in what they are meant to show only: with a time that can be read, the list is loaded. -/
example : (fromStl derCodec derCtlCodec (exLList 104 [[0, 0, 0, 0, 0, 0, 0, 1]])).toOption.isSome = true := by decide +kernel

end Signify.Props
