/-
C82: the exceptions of `SignedPEFile.verify`, for arbitrary files.
-/
import Verif.Spec.VerifyClasses
import Verif.Props.Classes
import Verif.Props.Errors

set_option autoImplicit false

namespace Signify.Props

open Signify Spec Asn1

/-- **C82**.  Whatever the file contains: with libraries and stores that behave, `verify` raises nothing but exceptions of these classes. -/
theorem C82_classes (env : Env) (file : Bytes) (args : PEVerifyArgs) (w : World) (he : ContextsExist w args.kwargs) (hl : LibrariesBehave env)
    (hp : HashNames (providedBy w args)) (hs : ∀ a : AuthData, StoresBehave w (signerStores w a args.kwargs)) :
    RaisesOnly (verifyClasses args.ignoreParseErrors) (peVerify env derCodec file args w).1 := by
  intro e h
  obtain ⟨tops, sds, err, h1, h2, h3⟩ := C15_iteration derCodec file
  have herr : ∀ e, err = some e → e.cls ∈ decodingClasses ++ interpretingClasses ∨ e.cls = .signedPEParseError := by
    intro e he
    obtain ⟨pre, rest, k1, k2, k3, k4⟩ := h1
    cases k4 with
    | revision c rest msg _ => cases he; exact .inr rfl
    | unreadable c rest e' hr ht hf => cases he; exact .inl (C79_classes _ e hf)
    | table e' ht => cases he; exact .inr ((C14_iteration_safe file).2.1 e ht)
    | unsigned msg _ _ => cases he; exact .inr rfl
    | complete _ _ => cases he
  by_cases hc : Considered derCodec file args.ignoreParseErrors sds
  · unfold verifyClasses
    by_cases hne : sds = []
    · subst hne
      rw [peVerify_unsigned hc] at h
      cases h
      cases hi : args.ignoreParseErrors with
      | true => simp
      | false =>
        exfalso
        obtain ⟨err', ⟨tops', hT, hP⟩, hx⟩ := hc
        rw [hi] at hx
        have hx : err' = none := hx.resolve_right (fun h => by cases h.1)
        subst hx
        obtain ⟨pre, rest, k1, k2, k3, k4⟩ := hT
        cases k4 with
        | complete _ hne =>
          have := preOrderAll_eq hP
          cases tops' with
          | nil => exact hne rfl
          | cons x l => obtain ⟨d, n⟩ := x; rw [preorderAll, ASD.preorder] at this; simp at this
    · rcases peVerify_raises hc hne he h with h | ⟨h, -⟩ | ⟨a, ha, h⟩
      · exact List.mem_append_left _ (List.mem_append_right _ h)
      · exact absurd hp h
      · rw [(leak_only hl (hs a.d) h).1]
        simp [decodingClasses, interpretingClasses]
  · have hi := h3 true args.ignoreParseErrors
    rw [if_pos rfl] at hi
    have hn : ¬ (err = none ∨ args.ignoreParseErrors = true ∧ Ignorable err) := fun h => hc ⟨err, ⟨tops, h1, h2⟩, h⟩
    cases herr' : err with
    | none => exact absurd (.inl herr') hn
    | some e' =>
      have hbad : (iterSignedDatas derCodec file true args.ignoreParseErrors).toList = .error e' := by
        rw [hi, if_neg (fun ⟨ha, e1, hb, hx⟩ => hn (.inr ⟨ha, fun e2 he2 => by rw [hb] at he2; cases he2; exact hx⟩)), herr']
        rfl
      have : e = e' := by
        unfold peVerify at h
        rw [hbad] at h
        cases h
        rfl
      subst this
      unfold verifyClasses
      rcases herr e herr' with hx | hx
      · exact List.mem_append_left _ (List.mem_append_left _ hx)
      · cases hig : args.ignoreParseErrors with
        | false => simp [hx]
        | true =>
          refine absurd (.inr ⟨hig, fun e2 he2 => ?_⟩) hn
          rw [herr'] at he2
          cases he2
          unfold Exc.is
          rw [hx]
          decide

/-- What `explain_verify` reports instead, for each of these classes: UNKNOWN_ERROR for seven of them. -/
theorem C82_explained : (∀ i, ∀ c ∈ verifyClasses i, ∃ r, (c, r) ∈ explained) ∧ ∀ x ∈ explained, Documented x.1 x.2 := by
  constructor
  · intro i c hc
    have key : ∀ i, ∀ c ∈ verifyClasses i, (explained.map Prod.fst).contains c = true := by decide +kernel
    obtain ⟨x, hx, rfl⟩ := List.mem_map.1 (List.contains_iff_mem.1 (key i c hc))
    exact ⟨x.2, hx⟩
  · intro x hx
    have key : ∀ x ∈ explained, classify ⟨x.1, ""⟩ = x.2 := by decide +kernel
    rw [← key x hx]
    exact classify_documented ⟨x.1, ""⟩

/-! ### All classes occur -/

/-- The image with an entry in its certificate table. -/
def exRFile (b : Bytes) : Bytes := attach exDImage 88 216 [1, 2, 3, 4] (certTable [signatureEntry b])

/-- A signature without certificates; the digest of the image is named to be one of SHA-1. -/
def exROther : DSD :=
  .mk (exLData oidIndirectData (DIndirect.encode ⟨oidPeImage, some ⟨none, none⟩, ⟨[1, 3, 14, 3, 2, 26], false⟩, [1]⟩))
    [.mk (exLSigner oidIndirectData) none]

/-- The file for each class. -/
def exRBytes : ExcClass → Bytes
  | .valueError => exRFile [0]
  | .authenticodeInconsistentDigest => exRFile (contentInfo exROther.encode)
  | .signerInfoVerificationError => exRFile (contentInfo (exLWith []).encode)
  | .certificateVerificationError | .ctlCertificateVerificationError | .authenticodeInvalidDigest | .authenticodeCounterSigner =>
    exRFile (contentInfo exDOuter.encode)
  | .authenticodeNotSigned | .signedPEParseError => []
  | c => exRFile (exLWitness c)

/-- The libraries: where all digests are the same, and where no signature verifies. -/
def exREnv : ExcClass → Env
  | .authenticodeInvalidDigest => { exDEnv with hash := fun _ _ => [] }
  | .signerInfoVerificationError => { exDEnv with hash := fun _ _ => [1] }
  | .authenticodeCounterSigner => { exDEnv with pkVerify := fun _ _ _ _ _ => .error ⟨.foreign, ""⟩ }
  | _ => exDEnv

/-- The store: not trusted, or with a trust list that does not contain the certificate. -/
def exRWorld : ExcClass → World
  | .certificateVerificationError => { exWorld with stores := fun _ => ⟨[exDCert.cert certIdent], false, none, none⟩ }
  | .ctlCertificateVerificationError => { exWorld with stores := fun _ => ⟨[exDCert.cert certIdent], true, some ⟨"sha256", []⟩, none⟩ }
  | _ => exDWorld

/-- The call. -/
def exRArgs (ignore : Bool) (c : ExcClass) : PEVerifyArgs :=
  { multiVerifyMode := "first", ignoreParseErrors := ignore
    kwargs := { trusted := .heap 0, countersignatureMode := if c = .authenticodeCounterSigner then "strict" else "ignore" } }

theorem exREnv_behaves (c : ExcClass) : LibrariesBehave (exREnv c) := by
  have : (exREnv c).loadKey = exDEnv.loadKey ∧ (exREnv c).mkValidator = exDEnv.mkValidator ∧ (exREnv c).validate = exDEnv.validate := by
    cases c <;> exact ⟨rfl, rfl, rfl⟩
  obtain ⟨h1, h2, h3⟩ := this
  exact ⟨by rw [h1]; exact exDEnv_behaves.keys, by rw [h2]; exact exDEnv_behaves.validators, by rw [h3]; exact exDEnv_behaves.nonempty,
    by rw [h3]; exact exDEnv_behaves.known⟩

theorem exRWorld_behaves (ignore : Bool) (c : ExcClass) (a : AuthData) :
    StoresBehave (exRWorld c) (signerStores (exRWorld c) a (exRArgs ignore c).kwargs) := by
  constructor
  · intro i certs e _ h
    cases c <;> cases h
  · intro i ctl _ h
    cases c <;> cases h
    exact .inr rfl

/-- All classes occur, under the hypotheses of `C82_classes`. -/
theorem C82_all_occur (ignore : Bool) (c : ExcClass) (hc : c ∈ verifyClasses ignore) : ∃ env file args w, args.ignoreParseErrors = ignore ∧
    ContextsExist w args.kwargs ∧ LibrariesBehave env ∧ HashNames (providedBy w args) ∧
    (∀ a : AuthData, StoresBehave w (signerStores w a args.kwargs)) ∧
    ∃ e, (peVerify env derCodec file args w).1 = .error e ∧ e.cls = c := by
  refine ⟨exREnv c, exRBytes c, exRArgs ignore c, exRWorld c, rfl, ?_, exREnv_behaves c, fun k v h => (by cases h), exRWorld_behaves ignore c, ?_⟩
  · constructor <;> intro i hi <;> cases hi
  · have key : ∀ i, ∀ c ∈ verifyClasses i, classOf (peVerify (exREnv c) derCodec (exRBytes c) (exRArgs i c) (exRWorld c)).1 = some c := by
      decide +kernel
    have h := key ignore c hc
    revert h
    cases h : (peVerify (exREnv c) derCodec (exRBytes c) (exRArgs ignore c) (exRWorld c)).1 with
    | ok a => intro h; cases h
    | error e => intro he; exact ⟨e, rfl, Option.some.inj he⟩

example := C82_all_occur true .authenticodeNotSigned (by decide)

end Signify.Props
