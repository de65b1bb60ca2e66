/-
Trust lists in DER (C67).
-/
import Verif.Proofs.DerCtl
import Verif.Props.CtlFile
import Verif.Props.FileTime
import Verif.Props.Der

set_option autoImplicit false

namespace Signify.Props

open Signify Spec Asn1

/-! ### C67 -/

theorem attrOctets_filter {r : RawTrusted} {l : List RawCtlAttr} {oid : List Nat} {x : Option Bytes} (hl : r.attributes = some l)
    (hf : l.filter (fun a => a.oid = oid) = (x.map (fun b => (⟨oid, [b]⟩ : RawCtlAttr))).toList) :
    (∀ b, AttrOctets r oid b ↔ x = some b) ∧ (NoAttrOctets r oid ↔ x = none) := by
  have hex : ∀ b, x = some b → AttrOctets r oid b := by
    rintro b rfl
    simp only [Option.map_some, Option.toList_some] at hf
    obtain ⟨pre, post, h1, h2, h3, h4⟩ := List.filter_eq_cons_iff.mp hf
    refine ⟨l, pre, [], post, hl, h1, ?_⟩
    intro y hy
    simpa using (List.filter_eq_nil_iff.mp h4) y hy
  have hno : x = none → NoAttrOctets r oid := by
    rintro rfl
    simp only [Option.map_none, Option.toList_none] at hf
    intro l' hl' y hy
    rw [hl] at hl'
    cases hl'
    simpa using (List.filter_eq_nil_iff.mp hf) y hy
  have hc : ∀ b, AttrOctets r oid b → ¬ NoAttrOctets r oid := by
    rintro b ⟨l', pre, rest, post, h1, h2, h3⟩ h
    exact h l' h1 ⟨oid, b :: rest⟩ (by rw [h2]; simp) rfl
  constructor
  · intro b
    refine ⟨fun h => ?_, hex b⟩
    cases hx : x with
    | none => exact absurd (hno hx) (hc b h)
    | some b' => rw [attrOctets_unique h (hex b' hx)]
  · refine ⟨fun h => ?_, hno⟩
    cases hx : x with
    | none => rfl
    | some b' => exact absurd h (hc b' (hex b' hx))

theorem filter_ctlAttr {α : Type} (m n : Nat) (enc : α → Bytes) (x : Option α) :
    ((ctlAttr m enc x).map (fun a => (⟨a.oid, a.values⟩ : RawCtlAttr))).filter (fun a => a.oid = ctlOid n) =
      if m = n then ((x.map enc).map (fun b => (⟨ctlOid n, [b]⟩ : RawCtlAttr))).toList else [] := by
  unfold ctlAttr
  by_cases h : m = n
  · subst h
    cases x <;> simp
  · rw [if_neg h]
    cases x <;> simp [ctlOid, h]

theorem filter_others {s : DSubject} (h : s.Valid) {n : Nat} (hn : n ∈ ctlNumbers) :
    (s.others.map (fun a => (⟨a.oid, a.values⟩ : RawCtlAttr))).filter (fun a => a.oid = ctlOid n) = [] := by
  rw [List.filter_eq_nil_iff]
  intro a ha
  obtain ⟨b, hb, rfl⟩ := List.mem_map.mp ha
  simpa using (h.others b hb).2.1 n hn

/-- The octets of the attribute of each kind. -/
def _root_.Signify.Spec.DSubject.octets (s : DSubject) (n : Nat) : Option Bytes :=
  if n = 9 then s.usages.map encodeOids else if n = 11 then s.friendlyName.map (fun n : String => utf16 (n.toList ++ [Char.ofNat 0]))
  else if n = 20 then s.keyIdentifier.map id else if n = 29 then s.subjectNameMd5.map id else if n = 98 then s.authRootSha256.map id
  else if n = 104 then s.disallowedTime.map (fun t : Option Nat => (t.map fileTimeOctets).getD [])
  else if n = 105 then s.chainPolicies.map encodeOids else if n = 122 then s.disallowedUsages.map encodeOids
  else if n = 126 then s.notBeforeTime.map (fun t : Option Nat => (t.map fileTimeOctets).getD []) else s.notBeforeUsages.map encodeOids

theorem subject_octets {s : DSubject} (h : s.Valid) {n : Nat} (hn : n ∈ ctlNumbers) :
    (∀ b, AttrOctets s.entry.raw (ctlOid n) b ↔ s.octets n = some b) ∧ (NoAttrOctets s.entry.raw (ctlOid n) ↔ s.octets n = none) := by
  refine attrOctets_filter (l := s.attributes.map (fun a => ⟨a.oid, a.values⟩)) rfl ?_
  unfold DSubject.attributes
  simp only [List.map_append, List.filter_append, filter_ctlAttr, filter_others h hn]
  simp only [ctlNumbers, List.mem_cons, List.not_mem_nil, or_false] at hn
  rcases hn with rfl | rfl | rfl | rfl | rfl | rfl | rfl | rfl | rfl | rfl <;> simp [DSubject.octets]

/-- The last time that can be read is the last microsecond of the year 9999, counted from the beginning of 1601. -/
theorem C49_last_time : datetimeMax + 1 = (daysToYear 10000 - daysToYear 1601) * (24 * 60 * 60) * 1000000 := by decide +kernel

theorem fileTimeOctets_ok {n : Nat} (h : n * 1000000 ≤ datetimeMax) :
    fileTimeNative (fileTimeOctets n) = .ok (some ((n * 1000000 : Nat) : Int)) := by
  refine C49_whole_seconds _ n ?_ ?_ h
  · simp [fileTimeOctets, packLE]
  · unfold fileTimeOctets
    exact leNat_packLE 8 _ (by unfold datetimeMax at h; omega)

/-- A list of usages that is written as documented is read as it is. -/
theorem C67_usages_read_back (l : List (List Nat)) (h : ∀ o ∈ l, ValidOid o) (hl : (encodeOids l).length < maxLen) (rest : Bytes) :
    derEkus (encodeOids l ++ rest) = .ok (l.map (nameIn purposeNames)) := derEkus_ok h hl rest

/-- A list that is written as documented is read as it is, both as the content of an OCTET STRING and by its contents octets. -/
theorem C67_list_read_back (c : DCtl) (h : c.Valid) (hl : c.contents.length < maxLen) :
    (∀ rest, derCtl true (c.encode ++ rest) = .ok c.raw) ∧ derCtl false c.contents = .ok c.raw := derCtl_ok h hl

theorem ctlOid_inj {m n : Nat} (h : ctlOid m = ctlOid n) : m = n := by simpa [ctlOid] using h

theorem mem_ctlAttr {α : Type} {n : Nat} {enc : α → Bytes} {x : Option α} {a : DCtlAttr} (h : a ∈ ctlAttr n enc x) :
    ∃ v, x = some v ∧ a = ⟨ctlOid n, [enc v]⟩ := by
  unfold ctlAttr at h
  cases x with
  | none => simp at h
  | some v => exact ⟨v, rfl, by simpa using h⟩

theorem subject_ok {s : DSubject} (h : s.Valid) : EntryOk derEkus s.entry.raw := by
  have hu : ∀ l ∈ [s.usages, s.chainPolicies, s.disallowedUsages, s.notBeforeUsages], ∀ n ∈ [9, 105, 122, 127], ∀ a ∈ ctlAttr n encodeOids l,
      a.values ≠ [] ∧ ∀ b ∈ a.values, ValueOk derEkus a.oid b := by
    intro l hl n hn a ha
    obtain ⟨v, rfl, rfl⟩ := mem_ctlAttr ha
    refine ⟨by simp, ?_⟩
    intro b hb
    simp only [List.mem_singleton] at hb
    subst hb
    obtain ⟨h1, h2⟩ := h.usages _ hl v rfl
    have := derEkus_ok h1 h2 []
    rw [List.append_nil] at this
    refine ⟨fun _ => ⟨_, this⟩, ?_, ?_⟩
    · intro e
      rw [ctlOid_inj e] at hn
      simp at hn
    · rintro ⟨m, hm, e⟩
      rw [ctlOid_inj e] at hn
      simp at hn hm
      omega
  have ht : ∀ l ∈ [s.disallowedTime, s.notBeforeTime], ∀ n ∈ [104, 126], ∀ a ∈ ctlAttr n (fun t : Option Nat => (t.map fileTimeOctets).getD []) l,
      a.values ≠ [] ∧ ∀ b ∈ a.values, ValueOk derEkus a.oid b := by
    intro l hl n hn a ha
    obtain ⟨v, rfl, rfl⟩ := mem_ctlAttr ha
    refine ⟨by simp, ?_⟩
    intro b hb
    simp only [List.mem_singleton] at hb
    subst hb
    refine ⟨?_, ?_, ?_⟩
    · rintro ⟨m, hm, e⟩
      rw [ctlOid_inj e] at hn
      simp at hn hm
      omega
    · intro e
      rw [ctlOid_inj e] at hn
      simp at hn
    · intro _
      cases v with
      | none => exact ⟨none, rfl⟩
      | some n => exact ⟨_, fileTimeOctets_ok (h.times _ hl n rfl)⟩
  have ho : ∀ n ∈ [20, 29, 98], ∀ (x : Option Bytes), ∀ a ∈ ctlAttr n id x, a.values ≠ [] ∧ ∀ b ∈ a.values, ValueOk derEkus a.oid b := by
    intro n hn x a ha
    obtain ⟨v, rfl, rfl⟩ := mem_ctlAttr ha
    refine ⟨by simp, ?_⟩
    intro b _
    refine ⟨?_, ?_, ?_⟩
    · rintro ⟨m, hm, e⟩
      rw [ctlOid_inj e] at hn
      simp at hn hm
      omega
    · intro e
      rw [ctlOid_inj e] at hn
      simp at hn
    · rintro ⟨m, hm, e⟩
      rw [ctlOid_inj e] at hn
      simp at hn hm
      omega
  have key : ∀ a ∈ s.attributes, a.values ≠ [] ∧ ∀ b ∈ a.values, ValueOk derEkus a.oid b := by
    intro a ha
    unfold DSubject.attributes at ha
    simp only [List.mem_append] at ha
    rcases ha with (((((((((ha | ha) | ha) | ha) | ha) | ha) | ha) | ha) | ha) | ha) | ha
    · exact hu _ (by simp) 9 (by simp) a ha
    · obtain ⟨v, hv, rfl⟩ := mem_ctlAttr ha
      refine ⟨by simp, ?_⟩
      intro b hb
      simp only [List.mem_singleton] at hb
      subst hb
      refine ⟨?_, fun _ => ⟨v, ⟨1, rfl⟩, h.name v hv⟩, ?_⟩
      · rintro ⟨m, hm, e⟩
        rw [← ctlOid_inj e] at hm
        simp at hm
      · rintro ⟨m, hm, e⟩
        rw [← ctlOid_inj e] at hm
        simp at hm
    · exact ho 20 (by simp) _ a ha
    · exact ho 29 (by simp) _ a ha
    · exact ho 98 (by simp) _ a ha
    · exact ht _ (by simp) 104 (by simp) a ha
    · exact hu _ (by simp) 105 (by simp) a ha
    · exact hu _ (by simp) 122 (by simp) a ha
    · exact ht _ (by simp) 126 (by simp) a ha
    · exact hu _ (by simp) 127 (by simp) a ha
    · obtain ⟨-, h2, h3⟩ := h.others a ha
      refine ⟨h3, fun b _ => ⟨?_, ?_, ?_⟩⟩
      · rintro ⟨m, hm, e⟩
        exact absurd e (h2 m (by simp [ctlNumbers] at hm ⊢; omega))
      · intro e
        exact absurd e (h2 11 (by simp [ctlNumbers]))
      · rintro ⟨m, hm, e⟩
        exact absurd e (h2 m (by simp [ctlNumbers] at hm ⊢; omega))
  intro l hl a ha
  simp only [DSubject.entry, DTrusted.raw, Option.map_some, Option.some.injEq] at hl
  subst hl
  obtain ⟨b, hb, rfl⟩ := List.mem_map.mp ha
  exact key b hb

/-- What a publisher says about a certificate is read from the entry as it was said. -/
theorem C67_subject_read_back (s : DSubject) (h : s.Valid) : EntryOk derEkus s.entry.raw ∧ ReadsEntry derEkus s.entry.raw s.value := by
  refine ⟨subject_ok h, ?_⟩
  have hu : ∀ n ∈ ctlNumbers, ∀ x ∈ [s.usages, s.chainPolicies, s.disallowedUsages, s.notBeforeUsages], s.octets n = x.map encodeOids → ∀ l,
      x.map (·.map (nameIn purposeNames)) = some l ↔ ∃ b, AttrOctets s.entry.raw (ctlOid n) b ∧ derEkus b = .ok l := by
    intro n hn x hx hox l
    simp only [(subject_octets h hn).1, hox]
    cases x with
    | none => simp
    | some u =>
      obtain ⟨h1, h2⟩ := h.usages _ hx u rfl
      have := derEkus_ok h1 h2 []
      rw [List.append_nil] at this
      simp [this]
  have ht : ∀ n ∈ ctlNumbers, ∀ x ∈ [s.disallowedTime, s.notBeforeTime],
      s.octets n = x.map (fun t : Option Nat => (t.map fileTimeOctets).getD []) → ∀ t,
      x.join.map (fun n => ((n * 1000000 : Nat) : Int)) = some t ↔
        ∃ b, AttrOctets s.entry.raw (ctlOid n) b ∧ fileTimeNative b = .ok (some t) := by
    intro n hn x hx hox t
    simp only [(subject_octets h hn).1, hox]
    cases x with
    | none => simp
    | some u =>
      cases u with
      | none => simp [fileTimeNative]
      | some k =>
        have := fileTimeOctets_ok (h.times _ hx k rfl)
        simp [this]
  have ho : ∀ n ∈ ctlNumbers, ∀ x : Option Bytes, s.octets n = x.map id →
      AttrOctets s.entry.raw (ctlOid n) (x.getD []) ∨ (NoAttrOctets s.entry.raw (ctlOid n) ∧ x.getD [] = []) := by
    intro n hn x hox
    simp only [(subject_octets h hn).1, (subject_octets h hn).2, hox]
    cases x <;> simp
  refine ⟨rfl, hu 9 (by decide) _ (by simp) rfl, ?_, ho 20 (by decide) _ rfl, ho 29 (by decide) _ rfl, ho 98 (by decide) _ rfl,
    ht 104 (by decide) _ (by simp) rfl, hu 105 (by decide) _ (by simp) rfl, hu 122 (by decide) _ (by simp) rfl,
    ht 126 (by decide) _ (by simp) rfl, hu 127 (by decide) _ (by simp) rfl⟩
  intro t
  have hox : s.octets 11 = s.friendlyName.map (fun n : String => utf16 (n.toList ++ [Char.ofNat 0])) := rfl
  simp only [(subject_octets h (n := 11) (by decide)).1, hox]
  show s.friendlyName = some t ↔ _
  cases hx : s.friendlyName with
  | none => simp
  | some n =>
    have h0 := h.name n hx
    have h1 : ctlString (utf16 (n.toList ++ [Char.ofNat 0])) = .ok n := C64_round_trip n h0 1
    simp only [Option.some.injEq, Option.map_some]
    constructor
    · rintro rfl
      exact ⟨_, rfl, (C64_name _ _).mp h1⟩
    · rintro ⟨b, rfl, hb⟩
      have := (C64_name _ _).mpr hb
      rw [h1] at this
      exact Except.ok.inj this

theorem list_eq_of_keys {α β : Type} (f : α → β) : ∀ (l l' : List α), l.map f = l'.map f → (l'.map f).Nodup → (∀ a ∈ l, a ∈ l') → l = l'
  | [], [], _, _, _ => rfl
  | [], _ :: _, h, _, _ => by simp at h
  | _ :: _, [], h, _, _ => by simp at h
  | a :: l, b :: l', h, hn, hm => by
    simp only [List.map_cons, List.cons.injEq] at h
    have hab : a = b := nodup_map_inj hn (hm a (by simp)) (by simp) h.1
    subst hab
    simp only [List.map_cons, List.nodup_cons] at hn
    congr 1
    refine list_eq_of_keys f l l' h.2 hn.2 (fun x hx => ?_)
    rcases List.mem_cons.mp (hm x (by simp [hx])) with h1 | h1
    · refine absurd ?_ hn.1
      rw [← h1, ← h.2]
      exact List.mem_map_of_mem hx
    · exact h1

theorem distinct_nodup : ∀ l : List Bytes, l.Nodup → distinct l = l
  | [], _ => rfl
  | a :: l, h => by
    simp only [List.nodup_cons] at h
    unfold distinct
    rw [distinct_nodup l h.2]
    congr 1
    rw [List.filter_eq_self]
    intro b hb
    simp only [decide_eq_true_eq]
    rintro rfl
    exact h.1 hb

theorem ctl_name : nameIn contentNames oidCtl = "microsoft_ctl" := by decide +kernel

theorem holds_list {d : DData} {ss : List DSI} {c : DCtl} {subjects : List DSubject} {alg : String} (h : PublishesList d c subjects alg)
    (hlen : c.contents.length < maxLen) (raw : RawCtl) :
    HoldsList derCtlCodec ((DSD.mk d ss).raw certIdent noCert) raw ↔ raw = c.raw := by
  obtain ⟨⟨a, n, h1, h2⟩, h3, h4, h5, -⟩ := h
  obtain ⟨k1, k2⟩ := derCtl_ok h5 hlen
  have hr : derCtl ((d.raw certIdent noCert).octets) (if d.version = 1 then c.contents else c.encode) = .ok c.raw := by
    simp only [DData.raw]
    by_cases hv : d.version = 1
    · simpa [hv] using k2
    · simpa [hv] using k1 []
  constructor
  · rintro ⟨-, -, b, hb, hb'⟩
    simp only [DSD.raw, RawSD.head, DData.raw, h4, Option.some.injEq] at hb hb'
    subst hb
    exact (Except.ok.inj (hr.symm.trans hb')).symm
  · rintro rfl
    obtain ⟨d1, d2, d3⟩ := isDigest_name h2
    refine ⟨⟨⟨nameIn digestNames a.oid, false⟩, by simp [DSD.raw, RawSD.head, DData.raw, h1], by simp [AcceptedAlg, d1, d2]⟩, ?_, _, h4, hr⟩
    simp only [DSD.raw, RawSD.head, DData.raw, h3]
    exact ctl_name

theorem entries_raw {d : DData} {c : DCtl} {subjects : List DSubject} {alg : String} (h : PublishesList d c subjects alg) :
    entries c.raw = subjects.map (fun s => s.entry.raw) := by
  have : entries c.raw = (c.subjects.getD []).map DTrusted.raw := by
    unfold entries DCtl.raw
    cases c.subjects <;> rfl
  rw [this, h.entries, List.map_map]
  rfl

theorem lastEntry_subject {subjects : List DSubject} {r : RawTrusted} (h : LastEntry (subjects.map (fun s => s.entry.raw)) r) :
    ∃ s ∈ subjects, r = s.entry.raw := by
  obtain ⟨pre, post, h1, -⟩ := h
  have : r ∈ subjects.map (fun s => s.entry.raw) := by rw [h1]; simp
  obtain ⟨s, hs, rfl⟩ := List.mem_map.mp this
  exact ⟨s, hs, rfl⟩

theorem lastEntry_of_subject {subjects : List DSubject} (hn : (subjects.map DSubject.identifier).Nodup) {s : DSubject} (hs : s ∈ subjects) :
    LastEntry (subjects.map (fun s => s.entry.raw)) s.entry.raw := by
  obtain ⟨pre, post, rfl⟩ := List.append_of_mem hs
  refine ⟨pre.map (fun s => s.entry.raw), post.map (fun s => s.entry.raw), by simp, ?_⟩
  intro x hx
  obtain ⟨y, hy, rfl⟩ := List.mem_map.mp hx
  simp only [List.map_append, List.map_cons, List.nodup_append, List.nodup_cons] at hn
  intro e
  exact hn.2.1.1 (List.mem_map.mpr ⟨y, hy, e⟩)

theorem trustList_of {d : DData} {ss : List DSI} {c : DCtl} {subjects : List DSubject} {alg : String} (h : PublishesList d c subjects alg)
    (hlen : c.contents.length < maxLen) :
    ∃ t, parseTrustList derCtlCodec ((DSD.mk d ss).raw certIdent noCert) = .ok t := by
  refine (C63_success _ _).mpr ⟨c.raw, (holds_list h hlen _).mpr rfl, ?_, ?_⟩
  · obtain ⟨d1, d2, d3⟩ := isDigest_name h.algorithm
    simp [DCtl.raw, AcceptedAlg, d1, d2]
  · intro l hl r hr
    have : r ∈ entries c.raw := by unfold entries; rw [hl]; exact hr
    rw [entries_raw h] at this
    obtain ⟨s, hs, rfl⟩ := List.mem_map.mp this
    exact (C67_subject_read_back s (h.subjects s hs)).1

theorem trustList_is {d : DData} {ss : List DSI} {c : DCtl} {subjects : List DSubject} {alg : String} (h : PublishesList d c subjects alg)
    (hlen : c.contents.length < maxLen) {t : TrustList} (ht : parseTrustList derCtlCodec ((DSD.mk d ss).raw certIdent noCert) = .ok t) :
    IsList certIdent d c subjects alg t := by
  obtain ⟨raw, h1, h2, h3, h4, h5, h6, h7, h8, h9, h10, h11⟩ := C63_contents _ _ _ ht
  have := (holds_list h hlen raw).mp h1
  subst this
  obtain ⟨d1, d2, d3⟩ := isDigest_name h.algorithm
  have hk := entries_raw h
  rw [hk] at h9 h10 h11
  have hids : (subjects.map (fun s => s.entry.raw)).map RawTrusted.identifier = subjects.map DSubject.identifier := by
    rw [List.map_map]
    rfl
  have hval : (subjects.map DSubject.value).map CtlSubject.identifier = subjects.map DSubject.identifier := by
    rw [List.map_map]
    rfl
  rw [hids, distinct_nodup _ h.once] at h9
  refine ⟨?_, ?_, h2, h3, h4, h5, h6, ?_⟩
  · obtain ⟨a, n, g1, g2⟩ := h.digest
    have hc := (core_reads (type := oidCtl) (d := d) (c := ⟨n, nameIn contentNames oidCtl, if d.version = 1 then c.contents else c.encode,
      d.certificates certIdent, decide (d.version ≠ 1)⟩) ⟨⟨a, g1, g2⟩, h.type, rfl, h.content, rfl, rfl⟩).certificates
    rw [h8]
    simp only [DSD.raw, RawSD.head]
    simp only at hc
    rw [hc]
    simp only [← Bool.beq_eq_decide_eq]
  · rw [h7]
    exact d1
  · refine list_eq_of_keys CtlSubject.identifier _ _ (by rw [h9, hval]) (by rw [hval]; exact h.once) ?_
    intro x hx
    obtain ⟨r, hr, hr2⟩ := h10 x hx
    obtain ⟨s, hs, rfl⟩ := lastEntry_subject hr
    rw [readsEntry_unique hr2 (C67_subject_read_back s (h.subjects s hs)).2]
    exact List.mem_map_of_mem hs

theorem ctl_length {d : DData} {ss : List DSI} {c : DCtl} {subjects : List DSubject} {alg : String} (h : PublishesList d c subjects alg)
    (hv : (DSD.mk d ss).Valid) (hl : (contentInfo (DSD.mk d ss).encode).length < maxLen) : c.contents.length < maxLen := by
  have he : contentInfo (DSD.mk d ss).encode = (T.node 0x30 [.leaf 6 (oidOctets oidSignedData), .node 0xA0 [(DSD.mk d ss).tree]]).enc := by
    simp [contentInfo, T.enc, encAll, derSeq, derOid, DSD.enc_tree]
  have hg : (T.node 0x30 [.leaf 6 (oidOctets oidSignedData), .node 0xA0 [(DSD.mk d ss).tree]]).good = true := by
    simp [T.good, goodAll, good_sd _ hv]
  have hok := T.ok_of hg (by rw [← he]; exact hl)
  have hk : (DSD.mk d ss).tree.Ok := T.Ok.child (id := 0xA0) (l := [(DSD.mk d ss).tree]) (hok.child (by simp)) (by simp)
  have := sd_content_len hk h.content
  split at this
  · exact this
  · unfold DCtl.encode at this
    have := tlv_length 0x30 c.contents
    omega

/-- A file with a list is read: the list is the one that was published, with what its publisher says about each certificate. -/
theorem C67_file_read_back (d : DData) (ss : List DSI) (c : DCtl) (subjects : List DSubject) (alg : String)
    (h : PublishesList d c subjects alg) (hv : (DSD.mk d ss).Valid) (hl : (contentInfo (DSD.mk d ss).encode).length < maxLen) (rest : Bytes) :
    ∃ t, fromStl derCodec derCtlCodec (contentInfo (DSD.mk d ss).encode ++ rest) = .ok t ∧ IsList certIdent d c subjects alg t := by
  have hlen := ctl_length h hv hl
  obtain ⟨t, ht⟩ := trustList_of (ss := ss) h hlen
  exact ⟨t, (C63_file _ _ _ _).mpr ⟨_, derEnvelope_ok hv hl rest, ht⟩, trustList_is h hlen ht⟩

/-- `find_subject` on the file: what the publisher says about the certificate with this digest, if anything. -/
theorem C67_find_subject (env : Env) (d : DData) (ss : List DSI) (c : DCtl) (subjects : List DSubject) (alg : String)
    (h : PublishesList d c subjects alg) (hv : (DSD.mk d ss).Valid) (hl : (contentInfo (DSD.mk d ss).encode).length < maxLen) (rest : Bytes)
    (halg : alg = "sha1" ∨ alg = "sha256") (t : TrustList)
    (ht : fromStl derCodec derCtlCodec (contentInfo (DSD.mk d ss).encode ++ rest) = .ok t) (cert : Cert) :
    ∃ found, t.ctl.findSubject env cert = .ok found ∧
      (∀ x, found = some x ↔ ∃ s ∈ subjects, s.identifier = env.hash alg cert.der ∧ x = s.value) ∧
      (found = none ↔ ∀ s ∈ subjects, s.identifier ≠ env.hash alg cert.der) := by
  have hlen := ctl_length h hv hl
  obtain ⟨sd, h1, h2⟩ := (C63_file _ _ _ _).mp ht
  have e : derCodec.envelope (contentInfo (DSD.mk d ss).encode ++ rest) = _ := derEnvelope_ok hv hl rest
  rw [e] at h1
  cases h1
  have hi := trustList_is h hlen h2
  obtain ⟨raw, found, k1, k2, k3, k4⟩ := C63_find_subject env _ _ t h2 cert (by rw [hi.algorithm]; exact halg)
  have := (holds_list h hlen raw).mp k1
  subst this
  rw [hi.algorithm, entries_raw h] at k3 k4
  refine ⟨found, k2, fun x => (k3 x).trans ⟨?_, ?_⟩, k4.trans ?_⟩
  · rintro ⟨r, g1, g2, g3, g4⟩
    obtain ⟨s, hs, rfl⟩ := lastEntry_subject g1
    exact ⟨s, hs, g2, readsEntry_unique g4 (C67_subject_read_back s (h.subjects s hs)).2⟩
  · rintro ⟨s, hs, g, rfl⟩
    obtain ⟨g1, g2⟩ := C67_subject_read_back s (h.subjects s hs)
    exact ⟨s.entry.raw, lastEntry_of_subject h.once hs, g, g1, g2⟩
  · simp only [List.mem_map, forall_exists_index, and_imp, forall_apply_eq_imp_iff₂]
    rfl

/-- `verify_trust` with the file: a chain is accepted iff the list is by SHA-1 or SHA-256 and what the publisher says about the root
allows the request. -/
theorem C67_policy (env : Env) (d : DData) (ss : List DSI) (c : DCtl) (subjects : List DSubject) (alg : String)
    (h : PublishesList d c subjects alg) (hv : (DSD.mk d ss).Valid) (hl : (contentInfo (DSD.mk d ss).encode).length < maxLen) (rest : Bytes)
    (t : TrustList) (ht : fromStl derCodec derCtlCodec (contentInfo (DSD.mk d ss).encode ++ rest) = .ok t)
    (cid : Nat) (root leaf : Cert) (chain : List Cert) (hroot : chain.head? = some root) (hleaf : chain.getLast? = some leaf) (w : World) :
    (ctlVerifyTrust env cid t.ctl chain w).1 = .ok () ↔
      (alg = "sha1" ∨ alg = "sha256") ∧ ∃ s ∈ subjects, s.identifier = env.hash alg root.der ∧
        Allows s.value (w.ctxs cid).ekus.elems leaf.validFrom ((w.ctxs cid).timestamp.getD env.now) := by
  have hlen := ctl_length h hv hl
  obtain ⟨sd, h1, h2⟩ := (C63_file _ _ _ _).mp ht
  have e : derCodec.envelope (contentInfo (DSD.mk d ss).encode ++ rest) = _ := derEnvelope_ok hv hl rest
  rw [e] at h1
  cases h1
  have ha : c.raw.algorithm.algorithm = alg := (isDigest_name h.algorithm).1
  rw [C63_policy env _ _ t h2 cid root leaf chain hroot hleaf w]
  constructor
  · rintro ⟨raw, r, x, k1, k2, k3, k4, k5, k6⟩
    have := (holds_list h hlen raw).mp k1
    subst this
    rw [entries_raw h] at k3
    rw [ha] at k2 k4
    obtain ⟨s, hs, rfl⟩ := lastEntry_subject k3
    refine ⟨k2, s, hs, k4, ?_⟩
    rw [← readsEntry_unique k5 (C67_subject_read_back s (h.subjects s hs)).2]
    exact k6
  · rintro ⟨k2, s, hs, k4, k6⟩
    refine ⟨c.raw, s.entry.raw, s.value, (holds_list h hlen _).mpr rfl, by rw [ha]; exact k2, ?_, by rw [ha]; exact k4,
      (C67_subject_read_back s (h.subjects s hs)).2, k6⟩
    rw [entries_raw h]
    exact lastEntry_of_subject h.once hs

theorem entry_valid {s : DSubject} (h : s.Valid) : s.entry.Valid := by
  intro l hl a ha
  simp only [DSubject.entry, Option.some.injEq] at hl
  subst hl
  have ho : ∀ n, ValidOid (ctlOid n) := fun n => ⟨1, 3, _, rfl, by decide, by decide⟩
  unfold DSubject.attributes at ha
  simp only [List.mem_append] at ha
  rcases ha with (((((((((ha | ha) | ha) | ha) | ha) | ha) | ha) | ha) | ha) | ha) | ha
  all_goals first
    | exact (h.others a ha).1
    | (obtain ⟨v, -, rfl⟩ := mem_ctlAttr ha; exact ho _)

/-- A list of two roots, the second of which was distrusted for server authentication in 2020. -/
def exSubjects : List DSubject := [
  { identifier := List.replicate 20 1, usages := some [[1, 3, 6, 1, 5, 5, 7, 3, 3], [1, 3, 6, 1, 5, 5, 7, 3, 1]], friendlyName := some "Root A"
    authRootSha256 := some (List.replicate 32 7) },
  { identifier := List.replicate 20 2, disallowedTime := some (some 13225000000), disallowedUsages := some [[1, 3, 6, 1, 5, 5, 7, 3, 1]]
    notBeforeTime := some none, others := [⟨ctlOid 83, [[5, 0]]⟩] }]

/-- The list. -/
def exDCtl : DCtl where
  version := none
  usage := [[1, 3, 6, 1, 4, 1, 311, 10, 3, 9]]
  listIdentifier := some [65, 0, 0, 0]
  sequenceNumber := some 300
  thisUpdate := ⟨2023, 2, 28, 12, 0, 0⟩
  nextUpdate := none
  algorithm := ⟨[1, 3, 14, 3, 2, 26], true⟩
  subjects := some (exSubjects.map DSubject.entry)
  extensions := none

/-- The SignedData with the list. -/
def exCtlData : DData where
  version := 1
  digestAlgs := [⟨[2, 16, 840, 1, 101, 3, 4, 2, 1], true⟩]
  contentType := oidCtl
  content := some exDCtl.contents
  certs := some [.cert exDCert]
  crls := none

theorem exSubjects_valid : ∀ s ∈ exSubjects, s.Valid := by
  have o1 : ValidOid [1, 3, 6, 1, 5, 5, 7, 3, 3] := ⟨1, 3, _, rfl, by decide, by decide⟩
  have o2 : ValidOid [1, 3, 6, 1, 5, 5, 7, 3, 1] := ⟨1, 3, _, rfl, by decide, by decide⟩
  have hm : ∀ n : Nat, n < 1000 → n < maxLen := fun n h => Nat.lt_trans h (by decide +kernel)
  intro s hs
  simp only [exSubjects, List.mem_cons, List.not_mem_nil, or_false] at hs
  rcases hs with rfl | rfl
  · refine ⟨?_, ?_, ?_, ?_⟩
    · intro l hl u hu
      simp only [List.mem_cons, List.not_mem_nil, or_false] at hl
      rcases hl with rfl | rfl | rfl | rfl
      · cases hu
        exact ⟨by simp [o1, o2], hm _ (by decide +kernel)⟩
      all_goals cases hu
    · intro n hn
      cases hn
      decide
    · simp
    · simp
  · refine ⟨?_, ?_, ?_, ?_⟩
    · intro l hl u hu
      simp only [List.mem_cons, List.not_mem_nil, or_false] at hl
      rcases hl with rfl | rfl | rfl | rfl
      · cases hu
      · cases hu
      · cases hu
        exact ⟨by simp [o2], hm _ (by decide +kernel)⟩
      · cases hu
    · intro n hn
      cases hn
    · intro t ht n hn
      simp only [List.mem_cons, List.not_mem_nil, or_false] at ht
      rcases ht with rfl | rfl
      · cases hn
        decide
      · cases hn
    · intro a ha
      simp only [List.mem_cons, List.not_mem_nil, or_false] at ha
      subst ha
      exact ⟨⟨1, 3, _, rfl, by decide, by decide⟩, by decide, by decide⟩

theorem exDCtl_publishes : PublishesList exCtlData exDCtl exSubjects "sha1" := by
  refine ⟨⟨_, "sha256", rfl, by unfold IsDigest; decide⟩, rfl, rfl, ?_, by unfold IsDigest; decide, rfl, by decide +kernel, exSubjects_valid⟩
  refine ⟨?_, ?_, ?_, ⟨1, 3, _, rfl, by decide, by decide⟩, ?_, ?_⟩
  · intro o ho
    simp only [exDCtl, List.mem_cons, List.not_mem_nil, or_false] at ho
    subst ho
    exact ⟨1, 3, _, rfl, by decide, by decide⟩
  · unfold DTime.Valid
    decide
  · intro t ht
    cases ht
  · intro l hl e he
    simp only [exDCtl, Option.some.injEq] at hl
    subst hl
    obtain ⟨s, hs, rfl⟩ := List.mem_map.mp he
    exact entry_valid (exSubjects_valid s hs)
  · intro l hl
    cases hl

/-- The signed list. -/
def exCtlFile : DSD := .mk exCtlData [.mk (exDSigner (exDAttrs oidCtl [1, 2])) none]

theorem exCtlFile_valid : exCtlFile.Valid := by
  have ho : ValidOid oidCtl := ⟨1, 3, _, rfl, by decide, by decide⟩
  simp only [exCtlFile, DSD.Valid, DSI.Valid, validSIs, and_true]
  refine ⟨⟨?_, ho, ?_, fun l hl => by cases hl⟩, exDSigner_valid _ _ ho⟩
  · intro a ha
    simp only [exCtlData, List.mem_cons, List.not_mem_nil, or_false] at ha
    subst ha
    exact ⟨_, _, _, rfl, by omega, by omega⟩
  · intro l hl c hc
    simp only [exCtlData, Option.some.injEq] at hl
    subst hl
    simp only [List.mem_cons, List.not_mem_nil, or_false] at hc
    subst hc
    exact exDCert_valid

theorem exCtlFile_len : (contentInfo exCtlFile.encode).length < maxLen :=
  Nat.lt_trans (show (contentInfo exCtlFile.encode).length < 2000 by decide +kernel) (by decide +kernel)

/-- The hypotheses are met: this file is read, the list says that the first root may be used for signing code, and that the second
root is distrusted. -/
example : ∃ t, fromStl derCodec derCtlCodec (contentInfo exCtlFile.encode ++ [0, 0]) = .ok t ∧ t.sequenceNumber = some 300 ∧
    t.usage = ["microsoft_root_list_signer"] ∧ t.core.certificates = [exDCert.cert certIdent] ∧
    t.subjects.map CtlSubject.ekus = [some ["code_signing", "server_auth"], none] ∧
    t.subjects.map CtlSubject.friendlyName = [some "Root A", none] ∧
    t.subjects.map CtlSubject.disallowedTime = [none, some 13225000000000000] ∧
    t.subjects.map CtlSubject.disallowedEkus = [none, some ["server_auth"]] := by
  obtain ⟨t, h1, h2⟩ := C67_file_read_back exCtlData _ exDCtl exSubjects "sha1" exDCtl_publishes exCtlFile_valid exCtlFile_len [0, 0]
  refine ⟨t, h1, h2.sequenceNumber, by rw [h2.usage]; decide +kernel, h2.certificates, ?_⟩
  rw [h2.subjects]
  refine ⟨?_, ?_, ?_, ?_⟩ <;> decide +kernel

/-- `verify_trust` with this file accepts a chain whose root has the first identifier, and not one whose root is not listed. -/
example (t : TrustList) (ht : fromStl derCodec derCtlCodec (contentInfo exCtlFile.encode ++ []) = .ok t) :
    (ctlVerifyTrust { exEnv with hash := fun _ _ => List.replicate 20 1 } 0 t.ctl exCtlChain exWorld).1 = .ok () ∧
    (ctlVerifyTrust { exEnv with hash := fun _ _ => List.replicate 20 3 } 0 t.ctl exCtlChain exWorld).1 ≠ .ok () := by
  have key := fun env => C67_policy env exCtlData _ exDCtl exSubjects "sha1" exDCtl_publishes exCtlFile_valid exCtlFile_len [] t ht 0
    exRoot exLeaf exCtlChain rfl rfl exWorld
  constructor
  · refine (key _).mpr ⟨.inl rfl, exSubjects[0], by simp [exSubjects], rfl, ?_⟩
    constructor <;> simp [exSubjects, DSubject.value, Affected]
    decide +kernel
  · intro h
    obtain ⟨-, s, hs, h1, -⟩ := (key _).mp h
    simp only [exSubjects, List.mem_cons, List.not_mem_nil, or_false] at hs
    rcases hs with rfl | rfl <;> revert h1 <;> decide +kernel

example (t : TrustList) (ht : fromStl derCodec derCtlCodec (contentInfo exCtlFile.encode ++ []) = .ok t) :=
  C67_find_subject exEnv _ _ _ _ _ exDCtl_publishes exCtlFile_valid exCtlFile_len [] (.inl rfl) t ht exRoot

example := C67_list_read_back exDCtl exDCtl_publishes.valid (by decide +kernel)

example := C67_subject_read_back (exSubjects.head (by decide)) (exSubjects_valid _ (List.head_mem _))

example := C67_usages_read_back [[1, 3, 6, 1, 5, 5, 7, 3, 3]] (fun o h => by rw [List.mem_singleton.1 h]; exact ⟨_, _, _, rfl, by decide, by decide⟩) (by decide +kernel) [1]

end Signify.Props
