/-
Which classes of exceptions are raised while PEM files and trust lists are read.
-/
import Verif.Proofs.Schema
import Verif.Proofs.ClassesParse
import Verif.Proofs.Pem

set_option autoImplicit false

namespace Signify

open Spec Asn1 Pem

/-! ### PEM -/

theorem b64Loop_only (pos left pads : Nat) (out b : Bytes) : RaisesOnly [.valueError] (b64Loop pos left pads out b) := by
  fun_induction b64Loop pos left pads out b <;> first | exact only_ok | exact only_mk (by decide) | assumption

theorem unarmorLines_only (s : State) (found : Bool) (ls : List Bytes) :
    ∀ e, (unarmorLines s found ls).2 = some e → e.cls = .valueError := by
  fun_induction unarmorLines s found ls with
  | case1 => intro e h; cases h
  | case2 => intro e h; cases h; rfl
  | case7 => intro e h; cases h; rfl
  | case8 => rename_i h2 ih; intro e h; rw [h2] at ih; exact ih e h
  | case10 => rename_i h2; intro e h; cases h; exact List.mem_singleton.1 (b64Loop_only _ _ _ _ _ _ h2)
  | case11 => rename_i h2 ih; intro e h; rw [h2] at ih; exact ih e h
  | _ => assumption

theorem genMap_only {α β : Type} {S : List ExcClass} {f : α → Except Exc β} (hf : ∀ a, RaisesOnly S (f a)) :
    ∀ (l : List α) (e : Option Exc), (∀ x, e = some x → x.cls ∈ S) → ∀ x, (genMap f l e).2 = some x → x.cls ∈ S
  | [], e, he, x, h => he x h
  | a :: l, e, he, x, h => by
    rw [genMap] at h
    cases hfa : f a with
    | error e' => rw [hfa] at h; cases h; exact hf a _ hfa
    | ok b => rw [hfa] at h; exact genMap_only hf l e he x h

theorem fromPems_only (b : Bytes) : ∀ e, (fromPems b).2 = some e → e.cls ∈ certificateClasses :=
  genMap_only certFromDer_cert _ _ fun e he => by
    have := unarmorLines_only _ _ _ e he
    rw [this]; decide

/-! ### Trust lists -/

theorem readOpt_in {α : Type} {S : List ExcClass} {t : Ty} {f : Val → Except Exc α} (hf : ∀ v, Shaped t v → RaisesOnly S (f v)) {x : Option Val}
    (h : ∀ v, x = some v → Shaped t v) : RaisesOnly S (readOpt f x) := by
  cases x with
  | none => exact only_ok
  | some v => exact only_bind (hf v (h v rfl)) fun _ _ => only_ok

theorem octets_in {S : List ExcClass} {n : Nat} {v : Val} (h : Shaped (.prim n) v) : RaisesOnly S v.octets := by
  obtain ⟨b, rfl⟩ := h
  exact only_ok

theorem readAlg_in {S : List ExcClass} (m : List (List Nat × String)) {v : Val} (h : Shaped tAlgorithm v) : RaisesOnly S (readAlg m v) := by
  refine only_req h rfl fun _ h1 => only_octets h1 fun _ => only_get h rfl fun x hx => ?_
  cases x with
  | none => exact only_ok
  | some v => exact only_parts (hx v rfl) fun _ => only_ok

theorem readCtlAttr_in {S : List ExcClass} {v : Val} (h : Shaped tSubjectAttribute v) : RaisesOnly S (readCtlAttr v) := by
  refine only_req h rfl fun _ h1 => only_octets h1 fun _ => only_req h rfl fun _ h2 => only_setElems h2 fun l hl => ?_
  exact only_bind (only_parseAll fun x hx => octets_in (hl x hx)) fun _ _ => only_ok

theorem readTrusted_in {S : List ExcClass} {v : Val} (h : Shaped tTrustedSubject v) : RaisesOnly S (readTrusted v) := by
  refine only_req h rfl fun _ h1 => only_octets h1 fun _ => only_get h rfl fun x hx => only_bind (readOpt_in (fun v hv => ?_) hx) fun _ _ => only_ok
  exact only_setElems hv fun l hl => only_parseAll fun y hy => readCtlAttr_in (hl y hy)

theorem readCtl_value {v : Val} (h : Shaped tCertificateTrustList v) : RaisesOnly [.valueError] (readCtl v) := by
  refine only_req h rfl fun _ h1 => only_bind (readOids_value h1) fun _ _ => ?_
  refine only_get h rfl fun _ h2 => only_bind (readOpt_in (fun _ hv => octets_in hv) h2) fun _ _ => ?_
  refine only_get h rfl fun _ h3 => only_bind (readOpt_in (fun _ hv => only_octets hv fun _ => only_ok) h3) fun _ _ => ?_
  refine only_req h rfl fun _ h4 => only_bind (readTime_value h4) fun _ _ => ?_
  refine only_get h rfl fun _ h5 => only_bind (readOpt_in (fun _ hv => readTime_value hv) h5) fun _ _ => ?_
  refine only_req h rfl fun _ h6 => only_bind (readAlg_in _ h6) fun _ _ => ?_
  refine only_get h rfl fun _ h7 => only_bind (readOpt_in (fun v hv => ?_) h7) fun _ _ => only_ok
  exact only_seqElems hv fun l hl => only_parseAll fun y hy => readTrusted_in (hl y hy)

theorem derCtl_value (w : Bool) (b : Bytes) : RaisesOnly [.valueError] (derCtl w b) := by
  unfold derCtl loadWrapped
  cases w with
  | true =>
    simp only [↓reduceIte, Ty.load, bind_assoc]
    exact only_bind (parse_only _) fun _ _ => only_build (by decide) _ _ _ fun v hv => readCtl_value hv
  | false =>
    simp only [Bool.false_eq_true, ↓reduceIte, Ty.ofContents]
    exact only_build (by decide) _ _ _ fun v hv => readCtl_value hv

theorem only_list {α : Type} {x : Except Exc α} (h : RaisesOnly [.valueError] x) : RaisesOnly trustListClasses x := only_valueIn (by decide) h

theorem fileTimeNative_only (b : Bytes) : RaisesOnly trustListClasses (fileTimeNative b) := by unfold fileTimeNative; simp only; only

theorem ctlString_only (b : Bytes) : RaisesOnly [.valueError] (ctlString b) := by unfold ctlString; only

theorem ctlValue_only (spec : Option CtlSpec) (b : Bytes) : RaisesOnly trustListClasses (ctlValue derEkus spec b).native := by
  unfold ctlValue
  split
  · exact only_ok
  · have := fileTimeNative_only b
    simp only [CtlRaw.native]
    cases h : fileTimeNative b with
    | ok t => exact only_ok
    | error e => exact only_error (this e h)
  · split
    · exact only_ok
    · rename_i e h
      exact only_error (only_list (derEkus_value b) e h)
  · split
    · exact only_ok
    · rename_i e h
      exact only_error (only_list (ctlString_only b) e h)

theorem nativeAll_only : ∀ {l : List CtlRaw}, (∀ r ∈ l, RaisesOnly trustListClasses r.native) → RaisesOnly trustListClasses (nativeAll l)
  | [], _ => only_ok
  | r :: l, h => by
    have h1 := h r List.mem_cons_self
    have h2 := nativeAll_only fun x hx => h x (List.mem_cons_of_mem _ hx)
    unfold nativeAll
    only

theorem subjectAttributes_only : ∀ {l : List (String × List CtlRaw)} (d : Dict String CtlVal),
    (∀ a ∈ l, ∀ r ∈ a.2, RaisesOnly trustListClasses r.native) → RaisesOnly trustListClasses (subjectAttributes l d)
  | [], _, _ => only_ok
  | (t, vs) :: l, d, h => by
    have h1 := nativeAll_only (h (t, vs) List.mem_cons_self)
    unfold subjectAttributes
    split
    · exact only_error (h1 _ (by assumption))
    · exact only_mk (by decide)
    · exact subjectAttributes_only _ fun x hx => h x (List.mem_cons_of_mem _ hx)

theorem parseSubjects_only : ∀ (l : List RawTrusted) (d : Dict String CtlSubject),
    RaisesOnly trustListClasses (parseSubjects (l.map (RawTrusted.subject derEkus)) d)
  | [], _ => only_ok
  | r :: l, d => by
    have h1 : RaisesOnly trustListClasses (parseSubject (r.subject derEkus)) := by
      unfold parseSubject
      have h2 : RaisesOnly trustListClasses (subjectAttributes (r.subject derEkus).attributes []) := by
        refine subjectAttributes_only _ fun a ha x hx => ?_
        obtain ⟨b, _, rfl⟩ := List.mem_map.1 ha
        obtain ⟨c, _, rfl⟩ := List.mem_map.1 hx
        exact ctlValue_only _ _
      split
      · exact only_error (h2 _ (by assumption))
      · exact only_ok
    rw [List.map_cons]
    unfold parseSubjects
    split
    · exact only_error (h1 _ (by assumption))
    · exact parseSubjects_only l _

theorem getDigestAlgorithm_list (a : String) (p : Bool) (l : List String) : RaisesOnly trustListClasses (getDigestAlgorithm a p l) := by
  unfold getDigestAlgorithm; only

theorem parseTrustList_only (sd : RawSD) : RaisesOnly trustListClasses (parseTrustList derCtlCodec sd) := by
  unfold parseTrustList
  refine only_bind ?_ fun _ _ => only_bind ?_ fun raw _ => only_bind ?_ fun _ _ => only_ok
  · unfold parseSDCore
    refine only_bind ?_ fun _ _ => ?_
    · split
      · exact getDigestAlgorithm_list _ _ _
      · exact only_mk (by decide)
    · only
  · unfold decodeContent
    split
    · exact only_mk (by decide)
    · exact only_list (derCtl_value _ _)
  · unfold parseCTL
    split
    · exact only_error (getDigestAlgorithm_list _ _ _ _ (by assumption))
    · split
      · exact only_error (parseSubjects_only _ _ _ (by assumption))
      · exact only_ok

theorem fromStl_only (b : Bytes) : RaisesOnly trustListClasses (fromStl derCodec derCtlCodec b) := by
  unfold fromStl
  refine only_bind (only_mono (fun _ h => List.mem_append_left _ h) (derEnvelope_only b)) fun ⟨t, sd⟩ _ => ?_
  simp only
  split
  · exact only_mk (by decide)
  · exact parseTrustList_only sd

end Signify
