/-
Which classes of exceptions the decoder and the parser raise.
-/
import Verif.Spec.Classes
import Verif.Proofs.Pkcs7Errors
import Verif.Model.DerCms

set_option autoImplicit false

namespace Signify

open Spec Asn1

theorem only_ok {α : Type} {S : List ExcClass} {a : α} : RaisesOnly S (.ok a : Except Exc α) := fun _ h => by cases h

theorem only_error {α : Type} {S : List ExcClass} {e : Exc} (h : e.cls ∈ S) : RaisesOnly S (.error e : Except Exc α) :=
  fun _ h' => by cases h'; exact h

theorem only_mk {α : Type} {S : List ExcClass} {c : ExcClass} {m : String} (h : c ∈ S) : RaisesOnly S (.error ⟨c, m⟩ : Except Exc α) :=
  only_error h

theorem only_bind {α β : Type} {S : List ExcClass} {x : Except Exc α} {f : α → Except Exc β} (hx : RaisesOnly S x)
    (hf : ∀ a, x = .ok a → RaisesOnly S (f a)) : RaisesOnly S (x >>= f) := fun e h => by
  rcases Except.bind_eq_error.1 h with h | ⟨a, h1, h2⟩
  · exact hx e h
  · exact hf a h1 e h2

theorem only_mono {α : Type} {S T : List ExcClass} (h : ∀ c ∈ S, c ∈ T) {x : Except Exc α} (hx : RaisesOnly S x) : RaisesOnly T x :=
  fun e he => h _ (hx e he)

theorem only_matchE {α : Type} {S : List ExcClass} {e : Exc} {x : Except Exc α} (hx : RaisesOnly S x) {β : Type} (h : x = .error e) :
    RaisesOnly S (.error e : Except Exc β) := only_error (hx e h)

theorem only_parseAll {α β : Type} {S : List ExcClass} {f : α → Except Exc β} {l : List α} (h : ∀ a ∈ l, RaisesOnly S (f a)) :
    RaisesOnly S (parseAll f l) := fun e he => by
  obtain ⟨a, ha, hf⟩ := parseAll_error he
  exact h a ha e hf

/-- One known function. -/
syntax "only_known" : tactic
macro_rules | `(tactic| only_known) => `(tactic| with_reducible exact only_ok)
macro_rules | `(tactic| only_known) => `(tactic| (with_reducible refine only_mk ?_; decide))
macro_rules | `(tactic| only_known) => `(tactic| with_reducible assumption)

/-- Goes through a function body. -/
macro "only" : tactic => `(tactic| repeat' (first
  | only_known
  | with_reducible refine only_bind ?_ (fun _ _ => ?_)
  | with_reducible refine only_parseAll (fun _ _ => ?_)
  | split
  | (refine only_matchE ?_ (by assumption))))

theorem only_value {α : Type} {x : Except Exc α} (h : RaisesOnly [.valueError] x) : RaisesOnly decodingClasses x :=
  only_mono (fun c hc => by rw [List.mem_singleton.1 hc]; decide) h
macro_rules | `(tactic| only_known) => `(tactic| (with_reducible refine only_value ?_; only_known))

theorem asn1Err_only {α : Type} (m : String) : RaisesOnly [.valueError] (asn1Err m : Except Exc α) := only_mk (by decide)
theorem asn1Bad_only {α : Type} : RaisesOnly decodingClasses (asn1Bad : Except Exc α) := only_mk (by decide)
theorem timeErr_only {α : Type} : RaisesOnly [.valueError] (timeErr : Except Exc α) := only_mk (by decide)
theorem unicodeErr_only {α : Type} : RaisesOnly [.valueError] (unicodeErr : Except Exc α) := only_mk (by decide)
macro_rules | `(tactic| only_known) => `(tactic| with_reducible exact asn1Err_only _)
macro_rules | `(tactic| only_known) => `(tactic| with_reducible exact asn1Bad_only)
macro_rules | `(tactic| only_known) => `(tactic| with_reducible exact timeErr_only)
macro_rules | `(tactic| only_known) => `(tactic| with_reducible exact unicodeErr_only)

theorem longTag_only : ∀ (acc : Nat) (b : Bytes), RaisesOnly [.valueError] (longTag acc b)
  | _, [] => by unfold longTag; only
  | acc, b :: rest => by
    rw [longTag]
    split
    · exact asn1Err_only _
    · split
      · exact only_ok
      · exact longTag_only _ rest
macro_rules | `(tactic| only_known) => `(tactic| with_reducible exact longTag_only _ _)

theorem readTag_only (b : UInt8) (r : Bytes) : RaisesOnly [.valueError] (readTag b r) := by
  unfold readTag
  split
  · have h := longTag_only 0 r
    generalize longTag 0 r = x at h ⊢
    only
  · exact only_ok
macro_rules | `(tactic| only_known) => `(tactic| with_reducible exact readTag_only _ _)
theorem readLen_only (r : Bytes) : RaisesOnly [.valueError] (readLen r) := by
  cases r with
  | nil => exact asn1Err_only _
  | cons b r =>
    rw [readLen]
    split
    · exact only_ok
    · simp only
      split
      · exact only_ok
      · split
        · exact asn1Err_only _
        · exact only_ok
macro_rules | `(tactic| only_known) => `(tactic| with_reducible exact readLen_only _)
theorem readHeader_only (r : Bytes) : RaisesOnly [.valueError] (readHeader r) := by unfold readHeader; only
macro_rules | `(tactic| only_known) => `(tactic| with_reducible exact readHeader_only _)

theorem eocLoop_only {skip : Bytes → Except Exc Bytes} (h : ∀ b, RaisesOnly [.valueError] (skip b)) :
    ∀ (n : Nat) (b : Bytes), RaisesOnly [.valueError] (eocLoop skip n b)
  | 0, _ => by unfold eocLoop; only
  | n + 1, b => by
    have ih := eocLoop_only h n
    have h1 := h b
    unfold eocLoop
    split
    · only
    · split
      · only
      · exact ih _

theorem skipValue_only : ∀ (d : Nat) (b : Bytes), RaisesOnly [.valueError] (skipValue d b)
  | 0, _ => by unfold skipValue; only
  | d + 1, b => by
    have h := fun n b => eocLoop_only (skipValue_only d) n b
    unfold skipValue
    refine only_bind (readHeader_only _) fun _ _ => ?_
    only
    exact h _ _

theorem parse_only (b : Bytes) : RaisesOnly [.valueError] (parse b) := by
  have h := fun n b => eocLoop_only (skipValue_only 10) n b
  unfold parse
  refine only_bind (readHeader_only _) fun _ _ => ?_
  simp only
  only
  exact h _ _
macro_rules | `(tactic| only_known) => `(tactic| with_reducible exact parse_only _)

theorem checkId_only (t : Nat) (c : Bool) (i : Option Nat) (p : Parts) : RaisesOnly [.valueError] (checkId t c i p) := by
  unfold checkId; simp only; only
macro_rules | `(tactic| only_known) => `(tactic| with_reducible exact checkId_only _ _ _ _)

theorem untag_only (tg : Tagging) {k : Option Nat → Parts → Except Exc Val} (h : ∀ i p, RaisesOnly [.valueError] (k i p)) (p : Parts) :
    RaisesOnly [.valueError] (untag tg k p) := by
  unfold untag
  repeat' (first | exact h _ _ | only_known | split | (refine only_matchE ?_ (by assumption)))

theorem buildAll_only {build : Parts → Except Exc Val} (h : ∀ p, RaisesOnly [.valueError] (build p)) :
    ∀ (n : Nat) (b : Bytes), RaisesOnly [.valueError] (buildAll build n b)
  | n, [] => by cases n <;> (unfold buildAll; only)
  | 0, _ :: _ => by unfold buildAll; only
  | n + 1, x :: l => by
    have ih := buildAll_only h n
    unfold buildAll
    refine only_bind (parse_only _) fun _ _ => ?_
    simp only
    exact only_bind (h _) fun _ _ => only_bind (ih _) fun _ _ => only_ok

theorem leftOver_only : ∀ (n : Nat) (b : Bytes), RaisesOnly [.valueError] (leftOver n b)
  | n, [] => by cases n <;> (unfold leftOver; only)
  | 0, _ :: _ => by unfold leftOver; only
  | n + 1, x :: l => by
    have ih := leftOver_only n
    unfold leftOver
    exact only_bind (parse_only _) fun _ _ => ih _
macro_rules | `(tactic| only_known) => `(tactic| with_reducible exact leftOver_only _ _)

mutual
theorem build_only : ∀ (t : Ty) (i : Option Nat) (p : Parts), RaisesOnly [.valueError] (t.build i p)
  | .any, _, _ => by unfold Ty.build; only
  | .prim _, _, _ => by unfold Ty.build; only
  | .seq fields, _, p => by
    have := buildFields_only fields p.contents
    unfold Ty.build; only
  | .seqOf t, _, p => by
    have := buildAll_only (build_only t none) (p.contents.length + 1) p.contents
    unfold Ty.build; only
  | .setOf t, _, p => by
    have := buildAll_only (build_only t none) (p.contents.length + 1) p.contents
    unfold Ty.build; only
  | .choice alts, _, p => by
    have := buildAlts_only alts p
    unfold Ty.build; only
theorem buildFields_only : ∀ (l : List Field) (b : Bytes), RaisesOnly [.valueError] (buildFields l b)
  | [], _ => by unfold buildFields; only
  | .mk name tg o t :: l, b => by
    have h1 := untag_only tg (build_only t)
    have h2 := buildFields_only l
    unfold buildFields
    cases b with
    | nil =>
      simp only
      split
      · exact only_bind (h2 _) fun _ _ => only_ok
      · only
    | cons x b =>
      simp only
      refine only_bind (parse_only _) fun _ _ => ?_
      split
      · exact only_bind (h2 _) fun _ _ => only_ok
      · exact only_bind (h1 _) fun _ _ => only_bind (h2 _) fun _ _ => only_ok
theorem buildAlts_only : ∀ (l : List Field) (p : Parts), RaisesOnly [.valueError] (buildAlts l p)
  | [], _ => by unfold buildAlts; only
  | .mk name tg o t :: l, p => by
    have h1 := untag_only tg (build_only t) p
    have h2 := buildAlts_only l p
    unfold buildAlts
    only
end
macro_rules | `(tactic| only_known) => `(tactic| with_reducible exact build_only _ _ _)

theorem load_only (t : Ty) (b : Bytes) : RaisesOnly [.valueError] (t.load b) := by unfold Ty.load; only
macro_rules | `(tactic| only_known) => `(tactic| with_reducible exact load_only _ _)
theorem ofContents_only (t : Ty) (n : Nat) (b : Bytes) : RaisesOnly [.valueError] (t.ofContents n b) := build_only _ _ _
macro_rules | `(tactic| only_known) => `(tactic| with_reducible exact ofContents_only _ _ _)

theorem utf16le_only (b : Bytes) : RaisesOnly [.valueError] (utf16le b) := by
  fun_induction utf16le b <;> only
macro_rules | `(tactic| only_known) => `(tactic| with_reducible exact utf16le_only _)
theorem bmpNative_only (b : Bytes) : RaisesOnly [.valueError] (bmpNative b) := by unfold bmpNative; only
macro_rules | `(tactic| only_known) => `(tactic| with_reducible exact bmpNative_only _)
theorem asciiNative_only (b : Bytes) : RaisesOnly [.valueError] (asciiNative b) := by unfold asciiNative; only
macro_rules | `(tactic| only_known) => `(tactic| with_reducible exact asciiNative_only _)
theorem get_only (v : Val) (n : String) : RaisesOnly decodingClasses (v.get n) := by unfold Val.get; only
macro_rules | `(tactic| only_known) => `(tactic| with_reducible exact get_only _ _)
theorem req_only (v : Val) (n : String) : RaisesOnly decodingClasses (v.req n) := by unfold Val.req; only
macro_rules | `(tactic| only_known) => `(tactic| with_reducible exact req_only _ _)
theorem octets_only (v : Val) : RaisesOnly decodingClasses v.octets := by unfold Val.octets; only
macro_rules | `(tactic| only_known) => `(tactic| with_reducible exact octets_only _)
theorem elems_only (v : Val) : RaisesOnly decodingClasses v.elems := by unfold Val.elems; only
macro_rules | `(tactic| only_known) => `(tactic| with_reducible exact elems_only _)
theorem parts_only (v : Val) : RaisesOnly decodingClasses v.parts := by unfold Val.parts; only
macro_rules | `(tactic| only_known) => `(tactic| with_reducible exact parts_only _)

theorem readAlg_only (m : List (List Nat × String)) (v : Val) : RaisesOnly decodingClasses (readAlg m v) := by unfold readAlg; only
macro_rules | `(tactic| only_known) => `(tactic| with_reducible exact readAlg_only _ _)
theorem readSpcString_only (v : Val) : RaisesOnly decodingClasses (readSpcString v) := by unfold readSpcString; only
macro_rules | `(tactic| only_known) => `(tactic| with_reducible exact readSpcString_only _)
theorem readSpcLink_only (v : Val) : RaisesOnly decodingClasses (readSpcLink v) := by unfold readSpcLink; only
macro_rules | `(tactic| only_known) => `(tactic| with_reducible exact readSpcLink_only _)
theorem readOpt_only {α : Type} {f : Val → Except Exc α} (h : ∀ v, RaisesOnly decodingClasses (f v)) (v : Option Val) :
    RaisesOnly decodingClasses (readOpt f v) := by
  unfold readOpt
  split
  · only
  · exact only_bind (h _) fun _ _ => only_ok
macro_rules | `(tactic| only_known) => `(tactic| with_reducible exact readOpt_only readSpcString_only _)
macro_rules | `(tactic| only_known) => `(tactic| with_reducible exact readOpt_only readSpcLink_only _)
theorem readPeImage_only (v : Val) : RaisesOnly decodingClasses (readPeImage v) := by unfold readPeImage; only
macro_rules | `(tactic| only_known) => `(tactic| with_reducible exact readPeImage_only _)
theorem readSpc_only (v : Val) : RaisesOnly decodingClasses (readSpc v) := by unfold readSpc; only
macro_rules | `(tactic| only_known) => `(tactic| with_reducible exact readSpc_only _)
theorem derSpc_only (w : Bool) (b : Bytes) : RaisesOnly decodingClasses (derSpc w b) := by unfold derSpc loadWrapped; only
theorem readOpus_only (v : Val) : RaisesOnly decodingClasses (readOpus v) := by unfold readOpus; only
macro_rules | `(tactic| only_known) => `(tactic| with_reducible exact readOpus_only _)
theorem readOids_only (m : List (List Nat × String)) (v : Val) : RaisesOnly decodingClasses (readOids m v) := by unfold readOids; only
macro_rules | `(tactic| only_known) => `(tactic| with_reducible exact readOids_only _ _)
theorem readStatementTypes_only (v : Val) : RaisesOnly decodingClasses (readStatementTypes v) := by unfold readStatementTypes; only
macro_rules | `(tactic| only_known) => `(tactic| with_reducible exact readStatementTypes_only _)
theorem mkDatetime_only (y m d hh mm ss us : Nat) : RaisesOnly [.valueError] (mkDatetime y m d hh mm ss us) := by
  unfold mkDatetime; only
macro_rules | `(tactic| only_known) => `(tactic| with_reducible exact mkDatetime_only _ _ _ _ _ _ _)
theorem digits2_only (b : Bytes) : RaisesOnly [.valueError] (digits2 b) := by unfold digits2; only
macro_rules | `(tactic| only_known) => `(tactic| with_reducible exact digits2_only _)
theorem readZone_only (o : Bool) (b : Bytes) : RaisesOnly [.valueError] (readZone o b) := by unfold readZone; only
macro_rules | `(tactic| only_known) => `(tactic| with_reducible exact readZone_only _ _)
theorem utcTime_only (b : Bytes) : RaisesOnly [.valueError] (utcTime b) := by unfold utcTime; only
macro_rules | `(tactic| only_known) => `(tactic| with_reducible exact utcTime_only _)
theorem generalizedTime_only (b : Bytes) : RaisesOnly [.valueError] (generalizedTime b) := by
  unfold generalizedTime
  refine only_bind (digits2_only _) fun _ _ => ?_
  refine only_bind (digits2_only _) fun _ _ => ?_
  refine only_bind (digits2_only _) fun _ _ => ?_
  refine only_bind (digits2_only _) fun _ _ => ?_
  refine only_bind (digits2_only _) fun _ _ => ?_
  refine only_bind (digits2_only _) fun _ _ => ?_
  refine only_bind (digits2_only _) fun _ _ => ?_
  exact only_bind (readZone_only _ _) fun _ _ => only_bind (mkDatetime_only _ _ _ _ _ _ _) fun _ _ => only_ok
macro_rules | `(tactic| only_known) => `(tactic| with_reducible exact generalizedTime_only _)
theorem readTime_only (v : Val) : RaisesOnly decodingClasses (readTime v) := by unfold readTime; only
macro_rules | `(tactic| only_known) => `(tactic| with_reducible exact readTime_only _)
theorem derEkus_only (b : Bytes) : RaisesOnly decodingClasses (derEkus b) := by unfold derEkus; only
macro_rules | `(tactic| only_known) => `(tactic| with_reducible exact derEkus_only _)

theorem textNative_only (p : Parts) : RaisesOnly decodingClasses (textNative p) := by unfold textNative utf8Native; only
macro_rules | `(tactic| only_known) => `(tactic| with_reducible exact textNative_only _)
theorem readNameVal_only (o : List Nat) (p : Parts) : RaisesOnly decodingClasses (readNameVal o p) := by unfold readNameVal; only
macro_rules | `(tactic| only_known) => `(tactic| with_reducible exact readNameVal_only _ _)
theorem readAtv_only (v : Val) : RaisesOnly decodingClasses (readAtv v) := by unfold readAtv; only
macro_rules | `(tactic| only_known) => `(tactic| with_reducible exact readAtv_only _)
theorem readRdn_only (v : Val) : RaisesOnly decodingClasses (readRdn v) := by unfold readRdn; only
macro_rules | `(tactic| only_known) => `(tactic| with_reducible exact readRdn_only _)
theorem readName_only (v : Val) : RaisesOnly decodingClasses (readName v) := by unfold readName; only
macro_rules | `(tactic| only_known) => `(tactic| with_reducible exact readName_only _)
theorem readKeyParams_only (a : String) (v : Option Val) : RaisesOnly decodingClasses (readKeyParams a v) := by
  unfold readKeyParams; only
macro_rules | `(tactic| only_known) => `(tactic| with_reducible exact readKeyParams_only _ _)
theorem readEku_only : ∀ l : List Val, RaisesOnly decodingClasses (readEku l)
  | [] => by unfold readEku; only
  | e :: l => by have := readEku_only l; unfold readEku; only
macro_rules | `(tactic| only_known) => `(tactic| with_reducible exact readEku_only _)
theorem readCert_only (p : Parts) : RaisesOnly decodingClasses (readCert p) := by unfold readCert; only
macro_rules | `(tactic| only_known) => `(tactic| with_reducible exact readCert_only _)
theorem certFromDer_only (b : Bytes) : RaisesOnly decodingClasses (certFromDer b) := by unfold certFromDer; only

theorem readAttrValue_only (t : String) (p : Parts) : RaisesOnly decodingClasses (readAttrValue t p) := by unfold readAttrValue; only
macro_rules | `(tactic| only_known) => `(tactic| with_reducible exact readAttrValue_only _ _)
theorem readAttr_only (v : Val) : RaisesOnly decodingClasses (readAttr v) := by unfold readAttr; only
macro_rules | `(tactic| only_known) => `(tactic| with_reducible exact readAttr_only _)
theorem derAttrs_only (b : Bytes) : RaisesOnly decodingClasses (derAttrs b) := by unfold derAttrs; only
theorem readSIHead_only (v : Val) : RaisesOnly decodingClasses (readSIHead v) := by unfold readSIHead; only
macro_rules | `(tactic| only_known) => `(tactic| with_reducible exact readSIHead_only _)
theorem certChoice_only (p : Parts) : RaisesOnly decodingClasses (certChoice p) := by unfold certChoice; only
macro_rules | `(tactic| only_known) => `(tactic| with_reducible exact certChoice_only _)
theorem readCertChoice_only (v : Val) : RaisesOnly decodingClasses (readCertChoice v) := by unfold readCertChoice; only
macro_rules | `(tactic| only_known) => `(tactic| with_reducible exact readCertChoice_only _)
theorem readEncap_only (i : Int) (v : Val) : RaisesOnly decodingClasses (readEncap i v) := by unfold readEncap; only
macro_rules | `(tactic| only_known) => `(tactic| with_reducible exact readEncap_only _ _)
theorem readSDHead_only (v : Val) : RaisesOnly decodingClasses (readSDHead v) := by unfold readSDHead; only
macro_rules | `(tactic| only_known) => `(tactic| with_reducible exact readSDHead_only _)

theorem readContentInfo_only {sd : Parts → Except Exc RawSD} (h : ∀ p, RaisesOnly decodingClasses (sd p)) (p : Parts) :
    RaisesOnly decodingClasses (readContentInfo sd p) := by
  unfold readContentInfo
  refine only_bind (only_value (build_only _ _ _)) fun _ _ => only_bind (req_only _ _) fun _ _ => only_bind (octets_only _) fun _ _ => ?_
  simp only
  split
  · refine only_bind (get_only _ _) fun _ _ => ?_
    split
    · only
    · exact only_bind (parts_only _) fun _ _ => only_bind (h _) fun _ _ => only_ok
  · only

section
variable {si : Parts → Except Exc RawSI} {sd : Parts → Except Exc RawSD} (h1 : ∀ p, RaisesOnly decodingClasses (si p))
  (h2 : ∀ p, RaisesOnly decodingClasses (sd p))
include h1 h2

theorem readUVal_only (t : String) (p : Parts) : RaisesOnly decodingClasses (readUVal si sd t p) := by
  have := readContentInfo_only h2 p
  have := h1 p
  unfold readUVal
  only

theorem readUAttr_only (v : Val) : RaisesOnly decodingClasses (readUAttr si sd v) := by
  unfold readUAttr
  refine only_bind (req_only _ _) fun _ _ => only_bind (octets_only _) fun _ _ => ?_
  simp only
  refine only_bind (req_only _ _) fun _ _ => only_bind (elems_only _) fun _ _ => only_bind (only_parseAll fun _ _ => ?_) fun _ _ => only_ok
  exact only_bind (parts_only _) fun _ _ => readUVal_only h1 h2 _ _

theorem readSI_only (v : Val) : RaisesOnly decodingClasses (readSI si sd v) := by
  unfold readSI
  refine only_bind (readSIHead_only _) fun _ _ => only_bind (get_only _ _) fun _ _ => only_bind ?_ fun _ _ => only_ok
  split
  · only
  · exact only_bind (elems_only _) fun _ _ => only_parseAll fun _ _ => readUAttr_only h1 h2 _
end

theorem derSISD_only : ∀ n : Nat, (∀ p, RaisesOnly decodingClasses (derSI n p)) ∧ (∀ p, RaisesOnly decodingClasses (derSD n p))
  | 0 => ⟨fun _ => by unfold derSI; only, fun _ => by unfold derSD; only⟩
  | n + 1 => by
    obtain ⟨h1, h2⟩ := derSISD_only n
    have h := readSI_only h1 h2
    constructor
    · intro p
      unfold derSI
      exact only_bind (only_value (build_only _ _ _)) fun _ _ => h _
    · intro p
      unfold derSD
      exact only_bind (only_value (build_only _ _ _)) fun _ _ => only_bind (readSDHead_only _) fun _ _ => only_bind (req_only _ _) fun _ _ =>
        only_bind (elems_only _) fun _ _ => only_bind (only_parseAll fun _ _ => h _) fun _ _ => only_ok

theorem derEnvelope_only (b : Bytes) : RaisesOnly decodingClasses (derEnvelope b) := by
  unfold derEnvelope
  exact only_bind (only_value (parse_only _)) fun _ _ => readContentInfo_only (derSISD_only _).2 _

theorem readInt_only (v : Val) : RaisesOnly decodingClasses (readInt v) := by unfold readInt; only
macro_rules | `(tactic| only_known) => `(tactic| with_reducible exact readInt_only _)
macro_rules | `(tactic| only_known) => `(tactic| with_reducible exact readOpt_only readInt_only _)
theorem readAccuracy_only (v : Val) : RaisesOnly decodingClasses (readAccuracy v) := by unfold readAccuracy; only
macro_rules | `(tactic| only_known) => `(tactic| with_reducible exact readOpt_only readAccuracy_only _)
theorem readGeneralName_only (v : Val) : RaisesOnly decodingClasses (readGeneralName v) := by unfold readGeneralName; only
macro_rules | `(tactic| only_known) => `(tactic| with_reducible exact readOpt_only readGeneralName_only _)
theorem readTst_only (v : Val) : RaisesOnly decodingClasses (readTst v) := by unfold readTst; only
macro_rules | `(tactic| only_known) => `(tactic| with_reducible exact readTst_only _)
theorem derTst_only (w : Bool) (b : Bytes) : RaisesOnly decodingClasses (derTst w b) := by unfold derTst; only

end Signify
