/-
The parts of a signature that are left out by `essence` are not looked at.
-/
import Verif.Spec.Essence
import Verif.Proofs.Pkcs7
import Verif.Proofs.DerCms

set_option autoImplicit false

namespace Signify

open Spec Asn1

/-- The attributes of these types are the same up to a relation of their values. -/
inductive SameAttrs (kinds : List String) (R : String → List RawUVal → List RawUVal → Prop) : List RawUAttr → List RawUAttr → Prop
  | nil : SameAttrs kinds R [] []
  | drop {a : RawUAttr} {l l' : List RawUAttr} : a.type ∉ kinds → SameAttrs kinds R l l' → SameAttrs kinds R (a :: l) l'
  | cons {t : String} {vs vs' : List RawUVal} {l l' : List RawUAttr} : R t vs vs' → SameAttrs kinds R l l' →
      SameAttrs kinds R (.mk t vs :: l) (.mk t vs' :: l')

theorem lastUAttr_cons (a : RawUAttr) (l : List RawUAttr) (t : String) :
    lastUAttr (a :: l) t = (lastUAttr l t).or (if a.type = t then some a else none) := by
  unfold lastUAttr
  rw [List.reverse_cons, List.find?_append]
  congr 1
  by_cases h : a.type = t <;> simp [h]

theorem lastUAttr_mk (t' : String) (vs : List RawUVal) (l : List RawUAttr) (t : String) :
    lastUAttr (.mk t' vs :: l) t = (lastUAttr l t).or (if t' = t then some (.mk t' vs) else none) := lastUAttr_cons _ l t

theorem SameAttrs.get {kinds : List String} {R : String → List RawUVal → List RawUVal → Prop} {l l' : List RawUAttr} (h : SameAttrs kinds R l l')
    {t : String} (ht : t ∈ kinds) : ((uattrDict l).get? t = none ∧ (uattrDict l').get? t = none) ∨
      ∃ vs vs', (uattrDict l).get? t = some vs ∧ (uattrDict l').get? t = some vs' ∧ R t vs vs' := by
  simp only [uattrDict_get?]
  induction h with
  | nil => exact .inl ⟨rfl, rfl⟩
  | drop ha _ ih =>
    rw [lastUAttr_cons, if_neg (fun h => ha (by rw [h]; exact ht)), Option.or_none]
    exact ih
  | @cons t' vs vs' l l' hr _ ih =>
    rw [lastUAttr_mk, lastUAttr_mk]
    rcases ih with ⟨h1, h2⟩ | ⟨ws, ws', h1, h2, h3⟩
    · rw [Option.map_eq_none_iff] at h1 h2
      rw [h1, h2]
      by_cases hb : t' = t
      · subst hb
        rw [if_pos rfl, if_pos rfl]
        exact .inr ⟨_, _, rfl, rfl, hr⟩
      · rw [if_neg hb, if_neg hb]
        exact .inl ⟨rfl, rfl⟩
    · obtain ⟨a, ha, rfl⟩ := Option.map_eq_some_iff.1 h1
      obtain ⟨b, hb, rfl⟩ := Option.map_eq_some_iff.1 h2
      rw [ha, hb]
      exact .inr ⟨_, _, rfl, rfl, h3⟩

theorem essence_signer (s : DSigner) : s.essence.raw = s.raw := rfl

/-- The values are one countersignature, read alike, or not one. -/
def SameCounters {α : Type} (p : RawSI → Except Exc α) (vs vs' : List RawUVal) : Prop :=
  (∃ si si', vs = [.signerInfo si] ∧ vs' = [.signerInfo si'] ∧ p si = p si') ∨ (vs.length ≠ 1 ∧ vs'.length ≠ 1)

theorem parseCounter_same {α : Type} {p : RawSI → Except Exc α} {kinds : List String} {R : String → List RawUVal → List RawUVal → Prop}
    {us us' : List RawUAttr} (h : SameAttrs kinds R us us') (hk : "counter_signature" ∈ kinds)
    (hR : ∀ vs vs', R "counter_signature" vs vs' → SameCounters p vs vs') : parseCounter p us = parseCounter p us' := by
  unfold parseCounter
  rcases h.get hk with ⟨h1, h2⟩ | ⟨vs, vs', h1, h2, h3⟩
  · rw [h1, h2]
  · rw [h1, h2]
    rcases hR _ _ h3 with ⟨si, si', rfl, rfl, h⟩ | ⟨k1, k2⟩
    · simp only [h]
    · match vs, vs', k1, k2 with
      | [], [], _, _ => rfl
      | [], a :: _ :: _, _, _ => cases a <;> rfl
      | a :: _ :: _, [], _, _ => cases a <;> rfl
      | a :: _ :: _, b :: _ :: _, _, _ => cases a <;> cases b <;> rfl
      | [_], _, h, _ => exact absurd rfl h
      | _, [_], _, h => exact absurd rfl h

section
variable (cd : Codec) (i : Bytes → Nat) (c : Cert)

/-- The values are countersignatures and what matters of them. -/
def CounterVals (vs vs' : List RawUVal) : Prop :=
  ∃ l, vs = rawCounters i c l ∧ vs' = rawCounters i c (bareSIs l) ∧ ∀ s ∈ l, parseCounterInfo cd (s.raw i c) = parseCounterInfo cd (s.bare.raw i c)

variable {cd i c}

theorem CounterVals.same {vs vs' : List RawUVal} (h : CounterVals cd i c vs vs') : SameCounters (parseCounterInfo cd) vs vs' := by
  obtain ⟨l, rfl, rfl, h⟩ := h
  match l, h with
  | [], _ => exact .inr ⟨by simp [rawCounters], by simp [bareSIs, rawCounters]⟩
  | [s], h => exact .inl ⟨_, _, rfl, rfl, h s List.mem_cons_self⟩
  | _ :: _ :: _, _ => exact .inr ⟨by simp [rawCounters], by simp [bareSIs, rawCounters]⟩

theorem CounterVals.const {α : Type} {x : Except Exc α} {vs vs' : List RawUVal} (h : CounterVals cd i c vs vs') : SameCounters (fun _ => x) vs vs' := by
  rcases h.same with ⟨si, si', h1, h2, _⟩ | h
  · exact .inl ⟨si, si', h1, h2, rfl⟩
  · exact .inr h

theorem type_raw_other {t : List Nat} {vs : List DAny} : (DUAttr.raw i c (.other t vs)).type = nameIn cmsNames t := rfl

variable (cd i c)

mutual
theorem bare_counter : ∀ s : DSI, s.Valid → parseCounterInfo cd (s.raw i c) = parseCounterInfo cd (s.bare.raw i c)
  | .mk s none, _ => rfl
  | .mk s (some us), h => by
    rw [parseCounterInfo_eq, parseCounterInfo_eq cd (DSI.raw i c (DSI.bare (.mk s (some us))))]
    unfold counterInfoStep
    have := bareUAttrs_same us h.2
    rw [DSI.bare, DSI.raw, DSI.raw]
    simp only [RawSI.head, RawSI.unsigned, essence_signer]
    rw [parseCounter_same this (by decide) fun vs vs' h => h.same]
theorem bareSIs_counter : ∀ l : List DSI, validSIs l → ∀ s ∈ l, parseCounterInfo cd (s.raw i c) = parseCounterInfo cd (s.bare.raw i c)
  | [], _, _, h => by cases h
  | s :: l, hv, x, h => by
    have h1 := bare_counter s hv.1
    have h2 := bareSIs_counter l hv.2
    rcases List.mem_cons.1 h with rfl | h
    · exact h1
    · exact h2 x h
theorem bareUAttrs_same : ∀ us : List DUAttr, validUAttrs us →
    SameAttrs ["counter_signature"] (fun _ => CounterVals cd i c)
      (rawUAttrs i c us) (rawUAttrs i c (bareUAttrs us))
  | [], _ => .nil
  | .counter vs :: us, h => .cons ⟨vs, rfl, rfl, bareSIs_counter vs h.1⟩ (bareUAttrs_same us h.2)
  | .nested vs :: us, h => .drop (show "microsoft_nested_signature" ∉ ["counter_signature"] by decide) (bareUAttrs_same us h.2)
  | .timestamp vs :: us, h => .drop (show "microsoft_time_stamp_token" ∉ ["counter_signature"] by decide) (bareUAttrs_same us h.2)
  | .other t vs :: us, h => .drop (fun hn => h.1.2.1 (by
      have : nameIn cmsNames t = "counter_signature" := List.mem_singleton.1 hn
      rw [this]; decide)) (bareUAttrs_same us h.2)
end

theorem bareUAttrs_of_head (s : DSigner) (us : Option (List DUAttr)) (h : (DSI.mk s us).Valid) :
    SameAttrs ["counter_signature"] (fun _ => CounterVals cd i c) (DSI.raw i c (.mk s us)).unsigned (DSI.raw i c (DSI.bare (.mk s us))).unsigned := by
  cases us with
  | none => exact .nil
  | some us => exact bareUAttrs_same cd i c us h.2

theorem bare_head (s : DSI) : (s.bare.raw i c).head = (s.raw i c).head := by
  obtain ⟨s, us⟩ := s
  cases us <;> rfl

theorem bare_rfc : ∀ s : DSI, s.Valid → parseRfcSigner cd (s.raw i c) = parseRfcSigner cd (s.bare.raw i c)
  | .mk s us, h => by
    unfold parseRfcSigner
    rw [bare_head, parseCounter_same (bareUAttrs_of_head cd i c s us h) (by decide) fun vs vs' h => h.const]

theorem bareSIs_rfc : ∀ l : List DSI, validSIs l →
    parseAll (parseRfcSigner cd) (rawSIs i c l) = parseAll (parseRfcSigner cd) (rawSIs i c (bareSIs l))
  | [], _ => rfl
  | s :: l, h => by
    rw [rawSIs, bareSIs, rawSIs, parseAll, parseAll, bare_rfc cd i c s h.1, bareSIs_rfc l h.2]

theorem essence_certs (d : DData) : ((d.essence.raw i c).certs.filter (fun c => c.choice == "certificate")) =
    ((d.raw i c).certs.filter (fun c => c.choice == "certificate")) := by
  unfold DData.raw DData.essence
  simp only [Option.getD_some]
  generalize d.certs.getD [] = l
  induction l with
  | nil => rfl
  | cons x l ih =>
    cases x with
    | cert x =>
      rw [List.filter_cons_of_pos (by rfl), List.map_cons, List.map_cons, List.filter_cons_of_pos (by rfl), List.filter_cons_of_pos (by rfl), ih]
    | other x =>
      rw [List.filter_cons_of_neg (by simp [DCertChoice.isCert]), ih, List.map_cons, List.filter_cons_of_neg]
      simp only [DCertChoice.raw, choiceNames, List.lookup]
      intro h
      revert h
      split
      · simp
      · split
        · simp
        · split
          · simp
          · split <;> simp

theorem essence_octets (d : DData) : (d.essence.raw i c).octets = (d.raw i c).octets := by
  unfold DData.raw DData.essence
  by_cases h : d.version = 1 <;> simp [h]

theorem essence_core (x : String) (d : DData) : parseSDCore x (d.raw i c) = parseSDCore x (d.essence.raw i c) := by
  unfold parseSDCore
  rw [essence_certs, essence_octets]
  simp only [DData.raw, DData.essence, List.map_map, Function.comp_def]
  rfl

theorem essence_content {α : Type} (f : Bool → Bytes → Except Exc α) (d : DData) : decodeContent f (d.raw i c) = decodeContent f (d.essence.raw i c) := by
  unfold decodeContent
  rw [essence_octets]
  rfl

theorem essence_crls (d : DData) : (d.essence.raw i c).crls = (d.raw i c).crls := rfl

theorem bare_stamp : ∀ s : DSD, s.Valid → parseRfc3161 cd (s.raw i c) = parseRfc3161 cd (s.bare.raw i c)
  | .mk d ss, h => by
    unfold parseRfc3161
    rw [DSD.bare, DSD.raw, DSD.raw]
    simp only [RawSD.head, RawSD.signers]
    rw [← essence_core, ← bareSIs_rfc cd i c ss h.2, ← essence_content]

theorem stamps_same : ∀ l : List DSD, validSDs l → ∀ s ∈ l, parseRfc3161 cd (s.raw i c) = parseRfc3161 cd (s.bare.raw i c)
  | [], _, _, h => by cases h
  | s :: l, hv, x, h => by
    rcases List.mem_cons.1 h with rfl | h
    · exact bare_stamp cd i c _ hv.1
    · exact stamps_same l hv.2 x h

/-- The values are time stamps and what matters of them. -/
def StampVals (vs vs' : List RawUVal) : Prop :=
  ∃ l, vs = rawSDs i c l ∧ vs' = rawSDs i c (l.map DSD.bare) ∧ ∀ s ∈ l, parseRfc3161 cd (s.raw i c) = parseRfc3161 cd (s.bare.raw i c)

/-- The values are nested signatures and what matters of them. -/
def NestedVals (vs vs' : List RawUVal) : Prop :=
  parseAll (parseNestedVal (parseASD cd)) vs = parseAll (parseNestedVal (parseASD cd)) vs'

/-- Attributes of the signer of a file. -/
def FileVals (t : String) (vs vs' : List RawUVal) : Prop :=
  (t = "counter_signature" → CounterVals cd i c vs vs') ∧ (t = "microsoft_time_stamp_token" → StampVals cd i c vs vs') ∧
  (t = "microsoft_nested_signature" → NestedVals cd vs vs')

theorem parseTimestamp_same {us us' : List RawUAttr} (h : SameAttrs uattrKinds (FileVals cd i c) us us') (x : Option CounterInfo) :
    parseTimestamp cd us x = parseTimestamp cd us' x := by
  unfold parseTimestamp
  have hc : ((uattrDict us).get? "counter_signature").isSome = ((uattrDict us').get? "counter_signature").isSome := by
    rcases h.get (t := "counter_signature") (by decide) with ⟨h1, h2⟩ | ⟨vs, vs', h1, h2, _⟩ <;> rw [h1, h2] <;> rfl
  simp only
  rw [hc]
  rcases h.get (t := "microsoft_time_stamp_token") (by decide) with ⟨h1, h2⟩ | ⟨vs, vs', h1, h2, h3⟩
  · rw [h1, h2]
  · rw [h1, h2]
    simp only
    split
    · rfl
    · obtain ⟨l, rfl, rfl, h⟩ := h3.2.1 rfl
      match l, h with
      | [], _ => rfl
      | [s], h =>
        have := h s List.mem_cons_self
        simp only [List.map_cons, List.map_nil, rawSDs]
        rw [this]
      | _ :: _ :: _, _ => rfl

theorem parseNested_same {us us' : List RawUAttr} (h : SameAttrs uattrKinds (FileVals cd i c) us us') :
    parseNested (parseASD cd) us = parseNested (parseASD cd) us' := by
  unfold parseNested
  rcases h.get (t := "microsoft_nested_signature") (by decide) with ⟨h1, h2⟩ | ⟨vs, vs', h1, h2, h3⟩
  · rw [h1, h2]
  · rw [h1, h2]
    exact h3.2.2 rfl

theorem authSigner_same {s s' : RawSI} (hh : s'.head = s.head) (h : SameAttrs uattrKinds (FileVals cd i c) s.unsigned s'.unsigned) :
    authSignerStep cd (parseASD cd) s = authSignerStep cd (parseASD cd) s' := by
  unfold authSignerStep
  rw [hh, parseCounter_same h (by decide) fun vs vs' h => (h.1 rfl).same, parseNested_same cd i c h]
  simp only [parseTimestamp_same cd i c h]

mutual
theorem essence_signerStep : ∀ s : DSI, s.Valid →
    authSignerStep cd (parseASD cd) (s.raw i c) = authSignerStep cd (parseASD cd) (s.essence.raw i c)
  | .mk s none, _ => rfl
  | .mk s (some us), h => authSigner_same cd i c rfl (essenceUAttrs_same us h.2)
theorem essenceSIs_steps : ∀ l : List DSI, validSIs l →
    parseAll (authSignerStep cd (parseASD cd)) (rawSIs i c l) = parseAll (authSignerStep cd (parseASD cd)) (rawSIs i c (essenceSIs l))
  | [], _ => rfl
  | s :: l, h => by
    have h1 := essence_signerStep s h.1
    have h2 := essenceSIs_steps l h.2
    rw [rawSIs, essenceSIs, rawSIs, parseAll, parseAll, h1, h2]
theorem essenceUAttrs_same : ∀ us : List DUAttr, validUAttrs us →
    SameAttrs uattrKinds (FileVals cd i c) (rawUAttrs i c us) (rawUAttrs i c (essenceUAttrs us))
  | [], _ => .nil
  | .counter vs :: us, h =>
    .cons ⟨fun _ => ⟨vs, rfl, rfl, bareSIs_counter cd i c vs h.1⟩, fun h => absurd h (by decide), fun h => absurd h (by decide)⟩ (essenceUAttrs_same us h.2)
  | .timestamp vs :: us, h =>
    .cons ⟨fun h => absurd h (by decide), fun _ => ⟨vs, rfl, rfl, stamps_same cd i c vs h.1⟩, fun h => absurd h (by decide)⟩ (essenceUAttrs_same us h.2)
  | .nested vs :: us, h =>
    .cons ⟨fun h => absurd h (by decide), fun h => absurd h (by decide), fun _ => essenceSDs_same vs h.1⟩ (essenceUAttrs_same us h.2)
  | .other t vs :: us, h => .drop h.1.2.1 (essenceUAttrs_same us h.2)
theorem essence_parse : ∀ s : DSD, s.Valid → parseASD cd (s.raw i c) = parseASD cd (s.essence.raw i c)
  | .mk d ss, h => by
    have h1 := essenceSIs_steps ss h.2
    rw [parseASD_eq, parseASD_eq cd (DSD.raw i c (DSD.essence (.mk d ss)))]
    unfold asdStep
    rw [DSD.essence, DSD.raw, DSD.raw]
    simp only [RawSD.head, RawSD.signers]
    rw [← essence_core, ← h1, ← essence_content]
    rfl
theorem essenceSDs_same : ∀ l : List DSD, validSDs l → NestedVals cd (rawSDs i c l) (rawSDs i c (essenceSDs l))
  | [], _ => rfl
  | s :: l, h => by
    have h1 := essence_parse s h.1
    have h2 : _ = _ := essenceSDs_same l h.2
    unfold NestedVals
    rw [rawSDs, essenceSDs, rawSDs, parseAll, parseAll, h2]
    simp only [parseNestedVal, h1]
end
end

/-- Signatures with the same essence are loaded alike. -/
theorem fromEnvelope_essence {s s' : DSD} (he : s.essence = s'.essence) (h : s.Valid) (h' : s'.Valid)
    (hl : (contentInfo s.encode).length < maxLen) (hl' : (contentInfo s'.encode).length < maxLen) (rest rest' : Bytes) :
    fromEnvelope derCodec (contentInfo s.encode ++ rest) = fromEnvelope derCodec (contentInfo s'.encode ++ rest') := by
  have e : derCodec.envelope (contentInfo s.encode ++ rest) = _ := derEnvelope_ok h hl rest
  have e' : derCodec.envelope (contentInfo s'.encode ++ rest') = _ := derEnvelope_ok h' hl' rest'
  unfold fromEnvelope
  rw [e, e']
  have := (essence_parse derCodec certIdent noCert s h).trans (he ▸ (essence_parse derCodec certIdent noCert s' h').symm)
  simp only [bind, Except.bind]
  rw [this]

end Signify
