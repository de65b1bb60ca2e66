/-
C45–C47: certificate names.
-/
import Verif.Proofs.DnEscape
import Verif.Proofs.Names

set_option autoImplicit false

namespace Signify.Props

open Signify Spec

/-- CN=Example, O="A, Inc. " with a leading `#` organisational unit: a non-trivial name used below. -/
def exName : Name :=
  ⟨[⟨⟨"2.5.4.10", "organization_name", "A, \"Inc\". "⟩, []⟩, ⟨⟨"2.5.4.11", "organizational_unit_name", "#1\\2"⟩, []⟩,
    ⟨⟨"1.2.3.4", "1.2.3.4", " x=y "⟩, []⟩, ⟨⟨"2.5.4.3", "common_name", "Example"⟩, []⟩]⟩

theorem exName_wellTyped : WellTyped exName := by
  intro r hr
  simp only [exName, List.mem_cons, List.not_mem_nil, or_false] at hr
  rcases hr with rfl | rfl | rfl | rfl <;> exact ⟨⟨_, _, rfl, by decide⟩, by decide⟩

/-! ### C45 -/

/-- C45 is false: two names that differ in the second attribute of a multi-valued RDN compare equal. -/
theorem C45_equal_names_may_differ_false :
    ¬ ∀ a b : Name, WellTyped a → WellTyped b → a.pyEq b = true → attributesOf a = attributesOf b := by
  intro h
  let cn : ATV := ⟨"2.5.4.3", "common_name", "Example"⟩
  let a : Name := ⟨[⟨cn, [⟨"2.5.4.5", "serial_number", "1"⟩]⟩]⟩
  let b : Name := ⟨[⟨cn, [⟨"2.5.4.5", "serial_number", "2"⟩]⟩]⟩
  have hw : ∀ x : List ATV, WellTyped ⟨[⟨cn, x⟩]⟩ := by
    intro x r hr
    simp only [List.mem_singleton] at hr
    subst hr
    have : dottedOid "2.5.4.3" := ⟨⟨_, _, rfl, by decide⟩, by decide⟩
    exact this
  exact absurd (h a b (hw _) (hw _) (by decide)) (by decide)

/-- What equality does compare: the sequences of first attributes, for all names. -/
theorem C45_first_attributes_partial (a b : Name) (ha : WellTyped a) (hb : WellTyped b) :
    a.pyEq b = true ↔
      a.rdnSeq.map (fun r => (r.first.oid, r.first.value)) = b.rdnSeq.map (fun r => (r.first.oid, r.first.value)) := by
  unfold Name.pyEq Name.rdns Name.components
  rw [beq_iff_eq, List.map_reverse, List.map_reverse, List.reverse_inj]
  obtain ⟨la⟩ := a
  obtain ⟨lb⟩ := b
  simp only
  induction la generalizing lb with
  | nil => cases lb <;> simp
  | cons r la ih =>
    cases lb with
    | nil => simp
    | cons s lb =>
      have h1 := ih (fun x hx => ha x (List.mem_cons_of_mem _ hx)) lb (fun x hx => hb x (List.mem_cons_of_mem _ hx))
      simp only [List.map_cons, List.cons.injEq, Prod.mk.injEq, h1]
      constructor
      · rintro ⟨⟨h2, h3⟩, h4⟩
        exact ⟨⟨shortType_inj (ha r (by simp)) (hb s (by simp)) h2, h3⟩, h4⟩
      · rintro ⟨⟨h2, h3⟩, h4⟩
        exact ⟨⟨by rw [h2], h3⟩, h4⟩

/-- For names without multi-valued RDNs equality is exactly agreement of all attributes. -/
theorem C45_single_valued_partial (a b : Name) (ha : WellTyped a) (hb : WellTyped b) (sa : SingleValued a)
    (sb : SingleValued b) : a.pyEq b = true ↔ attributesOf a = attributesOf b := by
  rw [C45_first_attributes_partial a b ha hb]
  have key : ∀ n : Name, SingleValued n →
      attributesOf n = (n.rdnSeq.map (fun r => (r.first.oid, r.first.value))).map (fun p => [p]) := by
    intro n hn
    unfold attributesOf
    rw [List.map_map]
    refine List.map_congr_left ?_
    intro r hr
    simp [hn r hr]
  rw [key a sa, key b sb]
  constructor
  · intro h; rw [h]
  · intro h
    exact (List.map_inj_right (by intro x y hxy; simpa using hxy)).mp h

example : WellTyped exName ∧ SingleValued exName ∧ exName.pyEq exName = true :=
  ⟨exName_wellTyped, by intro r hr; revert r; decide, by decide⟩

/-! ### C46 -/

/-- `dn` returns a string exactly for the names whose (first) values are all text: for the others it raises TypeError. -/
theorem C46_dn_returns (n : Name) :
    ((∃ s, n.dn = .ok s) ↔ Textual n) ∧ (¬ Textual n → ∃ e, n.dn = .error e ∧ e.cls = .typeError) := by
  have h1 : (∃ s, n.dn = .ok s) ↔ Textual n := by
    constructor
    · rintro ⟨s, hs⟩
      obtain ⟨t, ht, -⟩ := dn_ok hs
      exact textual_of_reading ht
    · intro h
      obtain ⟨t, ht⟩ := reading_of_textual h
      exact ⟨_, dn_of_reading ht⟩
  refine ⟨h1, fun h => ?_⟩
  cases hd : n.dn with
  | ok s => exact absurd (h1.1 ⟨s, hd⟩) h
  | error e => exact ⟨e, rfl, dn_error hd⟩

/-- The dn string can be read back to the component sequence by a reader that only knows RFC 2253 quoting. -/
theorem C46_dn_parses_back (n : Name) (h : WellTyped n) (s : String) (hs : n.dn = .ok s) :
    ∃ t, parseDn s = some t ∧ Reading n.components t := by
  obtain ⟨t, ht, rfl⟩ := dn_ok hs
  refine ⟨t, ?_, ht⟩
  unfold parseDn
  rw [String.toList_ofList, readDn_join]
  · simp only [Option.map_some, List.map_map]
    congr 1
    conv => rhs; rw [← List.map_id t]
    refine List.map_congr_left ?_
    intro p _
    simp
  · intro p hp
    have hm : (p.1, NameVal.text p.2) ∈ n.components := by rw [ht]; exact List.mem_map.2 ⟨p, hp, rfl⟩
    obtain ⟨r, hr, hq⟩ := List.mem_map.mp hm
    rw [← (Prod.mk.inj hq).1]
    exact shortType_no_eq (h r (List.mem_reverse.mp hr))

/-- Names with different component sequences have different dn strings. -/
theorem C46_dn_injective (a b : Name) (ha : WellTyped a) (hb : WellTyped b) (s t : String) (hs : a.dn = .ok s) (ht : b.dn = .ok t) :
    s = t ↔ a.components = b.components := by
  constructor
  · rintro rfl
    obtain ⟨x, hx, h1⟩ := C46_dn_parses_back a ha s hs
    obtain ⟨y, hy, h2⟩ := C46_dn_parses_back b hb s ht
    rw [hx] at hy
    cases hy
    rw [Reading] at h1 h2
    rw [h1, h2]
  · intro h
    unfold Name.dn at hs ht
    rw [h, ht] at hs
    exact (Except.ok.inj hs).symm

/-- Consequently `dn` strings agree exactly for names that compare equal. -/
theorem C46_dn_iff_equal (a b : Name) (ha : WellTyped a) (hb : WellTyped b) (s t : String) (hs : a.dn = .ok s) (ht : b.dn = .ok t) :
    s = t ↔ a.pyEq b = true := by
  rw [C46_dn_injective a b ha hb s t hs ht]
  unfold Name.pyEq Name.rdns
  exact beq_iff_eq.symm

example : exName.dn = .ok "CN=Example, 1.2.3.4= x=y\\ , OU=\\#1\\\\2, O=A\\, \\\"Inc\\\".\\ " := by rfl

/-- A name with a unique identifier: it compares and lists as any other, but has no dn. -/
example : let n : Name := ⟨[⟨⟨"2.5.4.3", "common_name", "Example"⟩, []⟩, ⟨⟨"2.5.4.45", "unique_identifier", .octets [7]⟩, []⟩]⟩
    n.pyEq n = true ∧ n.componentsOf "2.5.4.45" = [.octets [7]] ∧ ∃ e, n.dn = .error e ∧ e.cls = .typeError :=
  ⟨rfl, by decide, (C46_dn_returns _).2 (fun h => by obtain ⟨s, hs⟩ := h _ (List.mem_cons_of_mem _ (List.mem_singleton.2 rfl)); cases hs)⟩

/-! ### C58: escaping of values -/

/-- The property is false: the space at the beginning of " x" is not escaped. -/
theorem C58_escaping_false : ¬ ∀ (n : Name) (s : String) (t : List (String × String)), WellTyped n → n.dn = .ok s →
    Reading n.components t → s.toList = [',', ' '].intercalate (t.map (fun p => p.1.toList ++ '=' :: rfc2253 p.2)) := by
  intro h
  have := h ⟨[⟨⟨"2.5.4.3", "common_name", " x"⟩, []⟩]⟩ "CN= x" [("CN", " x")] (by
    intro r hr
    rw [List.mem_singleton.1 hr]
    exact ⟨⟨'2', ".5.4.3".toList, rfl, rfl⟩, by decide⟩) rfl rfl
  revert this
  decide +kernel

/-- Exactly, for all values: everything that RFC 2253 wants escaped is, and nothing else, but for the space at the beginning. -/
theorem C58_exact (n : Name) (s : String) (hs : n.dn = .ok s) :
    ∃ t, Reading n.components t ∧ s.toList = [',', ' '].intercalate (t.map (fun p => p.1.toList ++ '=' ::
      escaped (fun i c => MustEscape p.2.toList.length i c ∧ ¬ (i = 0 ∧ c = ' ' ∧ 1 < p.2.toList.length)) p.2.toList)) := by
  obtain ⟨t, ht, rfl⟩ := dn_ok hs
  refine ⟨t, ht, ?_⟩
  rw [String.toList_ofList, dnJoin_eq]
  congr 1
  refine List.map_congr_left ?_
  intro p _
  unfold textPart
  rw [dnEscape_eq]

/-- `dn` is the list of the components, each `type=value` with the value escaped as RFC 2253 has it, unless a value begins with a
space (and has other characters).  Missing: values that begin with a space, for which the property is false. -/
theorem C58_escaping_partial (n : Name) (s : String) (t : List (String × String)) (hs : n.dn = .ok s) (ht : Reading n.components t)
    (h : ∀ p ∈ t, ¬ LeadingSpace p.2) :
    s.toList = [',', ' '].intercalate (t.map (fun p => p.1.toList ++ '=' :: rfc2253 p.2)) := by
  obtain ⟨t', ht', h'⟩ := C58_exact n s hs
  obtain rfl := reading_unique ht ht'
  rw [h']
  congr 1
  refine List.map_congr_left ?_
  intro p hp
  unfold rfc2253
  congr 2
  refine escaped_congr ?_
  intro i c hc
  refine ⟨fun h => h.1, fun hm => ⟨hm, ?_⟩⟩
  rintro ⟨rfl, rfl, h1⟩
  refine h p hp ?_
  unfold LeadingSpace
  generalize p.2.toList = v at hc h1
  cases v with
  | nil => cases hc
  | cons a v =>
    cases v with
    | nil => simp at h1
    | cons b v => obtain rfl : a = ' ' := by simpa using hc
                  exact ⟨b, v, rfl⟩

example : rfc2253 "#a; b, \\ " = "\\#a\\; b\\, \\\\\\ ".toList := by decide +kernel

/-! ### C47 -/

/-- The names under which the attribute type of an RDN can be asked for: its OID, its asn1crypto name, its short name. -/
def knownAs (t : String) (r : RDN) : Prop :=
  t = r.first.oid ∨ t = r.first.native ∨ (r.first.oid, t) ∈
    [("2.5.4.3", "CN"), ("2.5.4.6", "C"), ("2.5.4.7", "L"), ("2.5.4.8", "ST"), ("2.5.4.9", "STREET"), ("2.5.4.10", "O"),
     ("2.5.4.11", "OU"), ("0.9.2342.19200300.100.1.25", "DC"), ("1.2.840.113549.1.9.1", "EMAIL")]

instance (t : String) (r : RDN) : Decidable (knownAs t r) := by unfold knownAs; infer_instance

/-- `get_components(t)` yields exactly the values of the components known as `t`, most specific first. -/
theorem C47_by_type (n : Name) (t : String) :
    n.componentsOf t = (n.rdnSeq.reverse.filter (fun r => knownAs t r)).map (fun r => r.first.value) := by
  unfold Name.componentsOf
  induction n.rdnSeq.reverse with
  | nil => rfl
  | cons r l ih =>
    have hk : (t = r.first.oid ∨ t = r.first.native ∨ t = shortType r.first.oid) ↔ knownAs t r := by
      unfold knownAs
      constructor
      · rintro (h | h | h)
        · exact .inl h
        · exact .inr (.inl h)
        · rcases shortType_cases r.first.oid with h1 | h1
          · exact .inl (h.trans h1)
          · rw [← h] at h1; exact .inr (.inr h1)
      · rintro (h | h | h)
        · exact .inl h
        · exact .inr (.inl h)
        · refine .inr (.inr ?_)
          have key : ∀ p ∈ oidToRdn, p.2 = shortType p.1 := by decide +kernel
          exact key _ h
    rw [List.filterMap_cons, ih]
    by_cases hc : knownAs t r
    · rw [if_pos (hk.mpr hc), List.filter_cons_of_pos (by simpa using hc)]; rfl
    · rw [if_neg (fun h => hc (hk.mp h)), List.filter_cons_of_neg (by simpa using hc)]

/-- Without argument all pairs are yielded, one per RDN, most specific first. -/
theorem C47_all (n : Name) :
    n.components.map Prod.snd = n.rdnSeq.reverse.map (fun r => r.first.value) ∧
    ∀ (i : Nat) (p : String × NameVal) (r : RDN), n.components[i]? = some p → n.rdnSeq.reverse[i]? = some r →
      p.2 = r.first.value ∧ knownAs p.1 r := by
  constructor
  · unfold Name.components
    rw [List.map_map]
    rfl
  · intro i p r hp hr
    unfold Name.components at hp
    rw [List.getElem?_map, hr] at hp
    cases hp
    refine ⟨rfl, ?_⟩
    unfold knownAs
    rcases shortType_cases r.first.oid with h1 | h1
    · exact .inl h1
    · exact .inr (.inr h1)

example : exName.componentsOf "O" = [.text "A, \"Inc\". "] ∧ exName.componentsOf "organization_name" = [.text "A, \"Inc\". "] ∧
    exName.componentsOf "1.2.3.4" = [.text " x=y "] ∧ exName.componentsOf "X" = [] := by decide +kernel

example := C46_dn_parses_back exName exName_wellTyped _ rfl
example := C46_dn_injective exName exName exName_wellTyped exName_wellTyped _ _ rfl rfl
example := C46_dn_iff_equal exName exName exName_wellTyped exName_wellTyped _ _ rfl rfl
example := C58_exact exName _ rfl

end Signify.Props
