/-
C24: the defects listed in `Spec.Defect` are defects.
-/
import Verif.Props.Classes

set_option autoImplicit false

namespace Signify.Props

open Signify Spec Asn1

theorem not_badSigner {req : List String} {ex : Option String} {si : RawSI} {attrs : List RawAttr} {s : Signer} (ht : TypedSI si)
    (h : ReadsSigner derCodec req ex si.head attrs s) : ¬ BadSigner derCodec si := by
  rintro (⟨b, e, h1, h2⟩ | ⟨l, hl, hi⟩ | hi)
  · rcases h.decoded with ⟨h3, -⟩ | ⟨b', h3, h4⟩
    · rw [h1] at h3; cases h3
    · rw [h1] at h3; cases h3; rw [h2] at h4; cases h4
  · rcases hl with ⟨-, rfl⟩ | ⟨b, -, h4⟩
    · obtain ⟨a, ha, -⟩ := hi
      cases ha
    · exact derAttrs_typed h4 hi
  · exact ht.ill hi

theorem attrValues_unique {us : List RawUAttr} {t : String} {vs vs' : List RawUVal} (h : AttrValues us t vs) (h' : AttrValues us t vs') :
    vs = vs' := by
  obtain ⟨a, h1, rfl⟩ := h
  obtain ⟨b, h2, rfl⟩ := h'
  rw [h1] at h2
  cases h2
  rfl

theorem attrValues_some {us : List RawUAttr} {t : String} {vs : List RawUVal} (h : AttrValues us t vs) : ¬ NoAttr us t := by
  obtain ⟨a, h1, -⟩ := h
  obtain ⟨h2, h3⟩ := lastUAttr_mem h1
  exact fun hn => hn a h2 h3

theorem typedVal_signer {t : String} {si : RawSI} (h : TypedVal t (.signerInfo si)) : TypedSI si := by
  cases h; assumption

theorem typedVal_content {t s : String} {sd : RawSD} (h : TypedVal t (.contentInfo s sd)) : TypedSD sd := by
  cases h; assumption

theorem not_badCounter {si : RawSI} (hb : BadCounter derCodec si) : ∀ {c : CounterInfo}, TypedSI si → ¬ ReadsCounter derCodec si c := by
  induction hb with
  | here h =>
    intro c ht hr
    cases hr with
    | last signer _ => exact not_badSigner ht signer h
    | more signer _ _ => exact not_badSigner ht signer h
  | there h _ ih =>
    intro c ht hr
    cases hr with
    | last _ counter => exact attrValues_some h counter
    | more _ counter next =>
      have := attrValues_unique h counter
      simp only [List.cons.injEq, RawUVal.signerInfo.injEq, and_true] at this
      subst this
      exact ih (typedVal_signer (ht.values h List.mem_cons_self)) next

theorem not_badHead {t : String} {h : SDHead} {c : SDCore} (hr : ReadsCore t h c) : ¬ BadHead h := by
  rintro (hb | hb)
  · obtain ⟨a, ha, -⟩ := hr.alg
    exact hb (by rw [ha]; rfl)
  · have := hr.content
    rw [hb] at this
    cases this

theorem typed_signer {sd : RawSD} (h : TypedSD sd) {si : RawSI} (hs : si ∈ sd.signers) : TypedSI si := by
  cases h with
  | mk u => exact u si hs

theorem not_badRfc {sd : RawSD} {r : Rfc3161} (ht : TypedSD sd) (hr : ReadsRfc derCodec sd r) : ¬ BadRfc derCodec sd := by
  obtain ⟨si, attrs, h1, h2, h3⟩ := hr.signer
  obtain ⟨raw, h4, h5⟩ := hr.tst
  have hc := hr.core.content
  have ho := hr.core.octets
  have hsi : si ∈ sd.signers := by rw [h1]; exact List.mem_singleton_self _
  rintro (hb | ⟨si', hs, hb⟩ | ⟨b, e, hb, he⟩ | ⟨b, t, g, hb, he, hg, hn⟩ | ⟨b, t, a, hb, he, ha, hn⟩ | ⟨si', hs, a, ha, hn⟩)
  · exact not_badHead hr.core hb
  · rw [h1, List.mem_singleton] at hs
    subst hs
    exact not_badSigner (typed_signer ht hsi) h3 hb
  · rw [hb] at hc; cases hc; rw [ho, he] at h4; cases h4
  · rw [hb] at hc; cases hc; rw [ho, he] at h4; cases h4
    rcases h5.authority with ⟨h, -⟩ | ⟨g', h, h', -⟩
    · rw [hg] at h; cases h
    · rw [hg] at h; cases h; exact hn h'
  · rw [hb] at hc; cases hc; rw [ho, he] at h4; cases h4
    exact hn (h5.fits a ha)
  · rw [h1, List.mem_singleton] at hs
    subst hs
    exact h2 a ha hn

theorem not_defect {sd : RawSD} (hd : Defect derCodec sd) : ∀ {a : ASD}, TypedSD sd → ¬ ReadsASD derCodec sd a := by
  induction hd with
  | head h => rintro _ _ ⟨core, _⟩; exact not_badHead core h
  | undecodable h hb =>
    rintro _ _ ⟨core, _, content, _⟩
    have hc := core.content
    rw [h] at hc; cases hc
    rw [core.octets, hb] at content
    cases content
  | noImage h hb hi =>
    rintro _ _ ⟨core, _, content, spc, _⟩
    have hc := core.content
    rw [h] at hc; cases hc
    rw [core.octets, hb] at content
    cases content
    have := spc.image
    rw [hi] at this
    cases this
  | signer h hb =>
    rintro _ ht ⟨_, _, _, _, one, signer, _⟩
    have hm := h
    rw [one, List.mem_singleton] at hm
    subst hm
    exact not_badSigner (typed_signer ht h) signer hb
  | counter h hc hb =>
    rintro _ ht ⟨_, _, _, _, one, _, _, _, counter, _⟩
    have hm := h
    rw [one, List.mem_singleton] at hm
    subst hm
    generalize AuthData.counter _ = o at counter
    cases counter with
    | none h₁ _ => exact attrValues_some hc h₁
    | pkcs9 h₁ _ read =>
      have := attrValues_unique hc h₁
      simp only [List.cons.injEq, RawUVal.signerInfo.injEq, and_true] at this
      subst this
      exact not_badCounter hb (typedVal_signer ((typed_signer ht h).values hc List.mem_cons_self)) read
    | rfc3161 h₁ _ _ => exact attrValues_some hc h₁
  | timestamp h hc hb =>
    rintro _ ht ⟨_, _, _, _, one, _, _, _, counter, _⟩
    have hm := h
    rw [one, List.mem_singleton] at hm
    subst hm
    generalize AuthData.counter _ = o at counter
    cases counter with
    | none _ h₂ => exact attrValues_some hc h₂
    | pkcs9 _ h₂ _ => exact attrValues_some hc h₂
    | rfc3161 _ h₂ read =>
      have := attrValues_unique hc h₂
      simp only [List.cons.injEq, RawUVal.contentInfo.injEq, and_true, true_and] at this
      subst this
      exact not_badRfc (typedVal_content ((typed_signer ht h).values hc List.mem_cons_self)) read hb
  | nested h hn hx _ ih =>
    rintro _ ht ⟨_, _, _, _, one, _, _, _, _, nestedIn, all, rec⟩
    have hm := h
    rw [one, List.mem_singleton] at hm
    subst hm
    rcases nestedIn with ⟨h1, -⟩ | h1
    · exact attrValues_some hn h1
    · have hty := typedVal_content ((typed_signer ht h).values hn hx)
      have := attrValues_unique hn h1
      subst this
      obtain ⟨y, hy, he⟩ := List.mem_map.1 hx
      cases he
      obtain ⟨i, hi⟩ := List.getElem?_of_mem hy
      have hlt : i < _ := (List.getElem?_eq_some_iff.1 hi).1
      rw [← all] at hlt
      exact ih hty (rec i _ _ hi (List.getElem?_eq_getElem hlt))

/-- Each defect makes the signature unreadable, whatever the bytes: no object is made from a structure with a defect.  So the exception in
`C24_parse_error_partial` concerns malformed structures only. -/
theorem C24_defects_refused (data : Bytes) (sd : RawSD) (h : derCodec.envelope data = .ok ("signed_data", sd)) (hd : Defect derCodec sd) :
    ∃ e, fromEnvelope derCodec data = .error e := by
  cases hf : fromEnvelope derCodec data with
  | error e => exact ⟨e, rfl⟩
  | ok a =>
    obtain ⟨sd', h', hr⟩ := (C23_from_envelope derCodec data a).1 hf
    rw [h] at h'
    cases h'
    exact (not_defect hd (derEnvelope_typed h) hr).elim

/-- A signature without digest algorithms has a defect. -/
theorem exDefect : ∃ sd, derCodec.envelope (exLWitness .keyError) = .ok ("signed_data", sd) ∧ Defect derCodec sd := by
  have h : (match derCodec.envelope (exLWitness .keyError) with
    | .ok (t, sd) => decide (t = "signed_data" ∧ sd.head.digestAlgs.length = 0)
    | .error _ => false) = true := by decide +kernel
  revert h
  cases derCodec.envelope (exLWitness .keyError) with
  | error e => intro h; cases h
  | ok x =>
    obtain ⟨t, sd⟩ := x
    intro h
    obtain ⟨rfl, h⟩ := of_decide_eq_true h
    exact ⟨sd, rfl, .head (.inl (by omega))⟩

end Signify.Props
