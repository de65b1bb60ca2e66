/-
C63, C64: trust lists read from files.
-/
import Verif.Proofs.CtlFile
import Verif.Proofs.Pkcs7
import Verif.Props.CTL
import Verif.Props.Pkcs7

set_option autoImplicit false

namespace Signify.Props

open Signify Spec

/-! ## C64: friendly names -/

/-- Text is read iff it is UTF-16, and then it is the text encoded. -/
theorem C64_utf16 (b : Bytes) (s : List Char) : utf16le b = .ok s ↔ b = utf16 s := utf16le_iff b s

/-- A friendly name is read iff it is UTF-16 text, and it is that text without the terminating NULs. -/
theorem C64_name (b : Bytes) (s : String) : ctlString b = .ok s ↔ ReadsText b s := ctlString_iff b s

/-- In particular a name that does not end in NUL, written with any number of NULs after it, is read as it was written. -/
theorem C64_round_trip (s : String) (h : s.toList.getLast? ≠ some (Char.ofNat 0)) (k : Nat) :
    ctlString (utf16 (s.toList ++ List.replicate k (Char.ofNat 0))) = .ok s := (ctlString_iff _ _).mpr ⟨⟨k, rfl⟩, h⟩

/-- Anything else raises a ValueError (a UnicodeDecodeError). -/
theorem C64_error (b : Bytes) (e : Exc) (h : ctlString b = .error e) : e.cls = .valueError ∧ ∀ s, ¬ ReadsText b s := by
  refine ⟨ctlString_error b e h, ?_⟩
  intro s hs
  rw [(ctlString_iff b s).mpr hs] at h
  cases h

/-- "Zoë𝄞", terminated by a NUL. -/
example : ctlString [0x5A, 0, 0x6F, 0, 0xEB, 0, 0x34, 0xD8, 0x1E, 0xDD, 0, 0] = .ok "Zoë𝄞" ∧
    ctlString [0x34, 0xD8, 0x41, 0] = .error ⟨.valueError, "'utf-16-le' codec can't decode bytes"⟩ ∧ ctlString [1] = .error ⟨.valueError, "'utf-16-le' codec can't decode bytes"⟩ := by
  decide +kernel

/-! ## C63: entries -/

theorem attributeValue_iff (ekus : Bytes → Except Exc (List String)) (r : RawTrusted) {p : Nat × String} (hp : p ∈ ctlNames) (v : CtlVal) :
    AttributeValue (r.subject ekus) p.2 v ↔
      ∃ b, AttrOctets r (ctlOid p.1) b ∧ (ctlValue ekus (ctlSpecTable (ctlOid p.1)) b).native = .ok v := by
  unfold AttributeValue AttrOctets RawTrusted.subject
  simp only
  constructor
  · rintro ⟨pre, raw, rest, post, h1, h2, h3⟩
    cases ha : r.attributes with
    | none =>
      rw [ha] at h1
      simp at h1
    | some l =>
      rw [ha] at h1
      simp only [Option.getD_some] at h1
      obtain ⟨l1, l2, rfl, rfl, hl2⟩ := List.map_eq_append_iff.mp h1
      obtain ⟨a, l3, rfl, hl3, hpost⟩ := List.map_eq_cons_iff.mp hl2
      obtain ⟨oid, vals⟩ := a
      simp only [Prod.mk.injEq] at hl3
      obtain ⟨hn, hv⟩ := hl3
      have ho := (ctlAttrName_iff hp oid).mp hn
      subst ho
      obtain ⟨b, bs, rfl, hb, -⟩ := List.map_eq_cons_iff.mp hv
      rw [ctlSpecOf_name] at hb
      refine ⟨b, ⟨_, l1, bs, l3, rfl, rfl, ?_⟩, by rw [hb]; exact h3⟩
      rintro x hx he
      refine h2 (ctlAttrName x.oid, x.values.map (ctlValue ekus (ctlSpecOf (ctlAttrName x.oid)))) ?_ ?_
      · rw [← hpost]
        exact List.mem_map_of_mem hx
      · exact (ctlAttrName_iff hp x.oid).mpr he
  · rintro ⟨b, ⟨l, pre, rest, post, ha, rfl, h2⟩, h3⟩
    rw [ha]
    simp only [Option.getD_some, List.map_append, List.map_cons]
    have hn := (ctlAttrName_iff hp (ctlOid p.1)).mpr rfl
    refine ⟨_, _, _, _, by rw [hn], ?_, by rw [← hn, ctlSpecOf_name]; exact h3⟩
    intro x hx
    obtain ⟨y, hy, rfl⟩ := List.mem_map.mp hx
    exact fun he => h2 y hy ((ctlAttrName_iff hp y.oid).mp he)

theorem attrOctets_unique {r : RawTrusted} {oid : List Nat} {b b' : Bytes} (h : AttrOctets r oid b) (h' : AttrOctets r oid b') : b = b' := by
  obtain ⟨l, pre, rest, post, h1, rfl, h3⟩ := h
  obtain ⟨l', pre', rest', post', h1', h2', h3'⟩ := h'
  rw [h1] at h1'
  cases h1'
  have key : ∀ (pre pre' : List RawCtlAttr) (a a' : RawCtlAttr) (post post' : List RawCtlAttr), a.oid = oid → a'.oid = oid →
      (∀ x ∈ post, x.oid ≠ oid) → (∀ x ∈ post', x.oid ≠ oid) → pre ++ a :: post = pre' ++ a' :: post' → a = a' := by
    intro pre
    induction pre with
    | nil =>
      intro pre' a a' post post' ha ha' hp hp' he
      cases pre' with
      | nil => exact (List.cons.inj he).1
      | cons x pre' =>
        obtain ⟨rfl, rfl⟩ := List.cons.inj he
        exact absurd ha' (hp a' (by simp))
    | cons x pre ih =>
      intro pre' a a' post post' ha ha' hp hp' he
      cases pre' with
      | nil =>
        obtain ⟨rfl, rfl⟩ := List.cons.inj he
        exact absurd ha (hp' a (by simp))
      | cons y pre' => exact ih pre' a a' post post' ha ha' hp hp' (List.cons.inj he).2
  have := key pre pre' _ _ post post' rfl rfl h3 h3' h2'
  simp only [RawCtlAttr.mk.injEq, List.cons.injEq] at this
  exact this.2.1

theorem attrOctets_or (ekus : Bytes → Except Exc (List String)) (r : RawTrusted) (hok : EntryOk ekus r) (oid : List Nat) :
    (∃ b, AttrOctets r oid b) ∨ NoAttrOctets r oid := by
  unfold EntryOk at hok
  unfold AttrOctets NoAttrOctets
  cases ha : r.attributes with
  | none => exact .inr (fun l h => by cases h)
  | some l =>
    have hl := hok l ha
    clear hok ha
    have key : (∃ b pre rest post, l = pre ++ ⟨oid, b :: rest⟩ :: post ∧ ∀ x ∈ post, x.oid ≠ oid) ∨ ∀ x ∈ l, x.oid ≠ oid := by
      induction l with
      | nil => exact .inr (fun x h => by cases h)
      | cons a l ih =>
        rcases ih (fun a h => hl a (List.mem_cons_of_mem _ h)) with ⟨b, pre, rest, post, rfl, h⟩ | h
        · exact .inl ⟨b, a :: pre, rest, post, rfl, h⟩
        · by_cases ho : a.oid = oid
          · obtain ⟨hne, -⟩ := hl a (by simp)
            obtain ⟨o, vs⟩ := a
            cases vs with
            | nil => exact absurd rfl hne
            | cons b bs =>
              simp only at ho
              subst ho
              exact .inl ⟨b, [], bs, l, rfl, h⟩
          · right
            intro x hx
            rcases List.mem_cons.mp hx with rfl | hx
            · exact ho
            · exact h x hx
    rcases key with ⟨b, pre, rest, post, h1, h2⟩ | h
    · exact .inl ⟨b, l, pre, rest, post, rfl, h1, h2⟩
    · exact .inr (fun l' h' => by cases h'; exact h)

theorem readsEntry_of (ekus : Bytes → Except Exc (List String)) (r : RawTrusted) (s : CtlSubject)
    (h : parseSubject (r.subject ekus) = .ok s) : ReadsEntry ekus r s := by
  have hok := (entry_ok ekus r).mp ⟨s, h⟩
  obtain ⟨h1, h2, h3, h4, h5, h6, h7, h8, h9, h10, h11⟩ := C57_fields _ s h
  have ek : ∀ p ∈ ctlNames, ctlSpecTable (ctlOid p.1) = some .ekus → ∀ l,
      AttributeValue (r.subject ekus) p.2 (.ekus l) ↔ ∃ b, AttrOctets r (ctlOid p.1) b ∧ ekus b = .ok l := by
    intro p hp hs l
    rw [attributeValue_iff ekus r hp, hs]
    refine exists_congr (fun b => and_congr_right (fun _ => ?_))
    unfold ctlValue
    cases ekus b <;> simp [CtlRaw.native]
  have tm : ∀ p ∈ ctlNames, ctlSpecTable (ctlOid p.1) = some .fileTime → ∀ t,
      AttributeValue (r.subject ekus) p.2 (.time (some t)) ↔ ∃ b, AttrOctets r (ctlOid p.1) b ∧ fileTimeNative b = .ok (some t) := by
    intro p hp hs l
    rw [attributeValue_iff ekus r hp, hs]
    refine exists_congr (fun b => and_congr_right (fun _ => ?_))
    show (fileTimeNative b).map CtlVal.time = _ ↔ _
    cases fileTimeNative b <;> simp [Except.map]
  have tx : ∀ p ∈ ctlNames, ctlSpecTable (ctlOid p.1) = some .string → ∀ t,
      AttributeValue (r.subject ekus) p.2 (.str t) ↔ ∃ b, AttrOctets r (ctlOid p.1) b ∧ ReadsText b t := by
    intro p hp hs l
    rw [attributeValue_iff ekus r hp, hs]
    refine exists_congr (fun b => and_congr_right (fun _ => ?_))
    rw [← ctlString_iff]
    unfold ctlValue
    cases ctlString b <;> simp [CtlRaw.native]
  have oc : ∀ p ∈ ctlNames, ctlSpecTable (ctlOid p.1) = none → ∀ b, OctetsOrEmpty (r.subject ekus) p.2 b →
      AttrOctets r (ctlOid p.1) b ∨ (NoAttrOctets r (ctlOid p.1) ∧ b = []) := by
    intro p hp hs b hb
    have hv : ∀ b, AttributeValue (r.subject ekus) p.2 (.octets b) ↔ AttrOctets r (ctlOid p.1) b := by
      intro b
      rw [attributeValue_iff ekus r hp, hs]
      simp [ctlValue, CtlRaw.native]
    unfold OctetsOrEmpty at hb
    simp only [hv] at hb
    rcases hb with hb | ⟨hb, rfl⟩
    · exact .inl hb
    · rcases attrOctets_or ekus r hok (ctlOid p.1) with ⟨b, h⟩ | h
      · exact absurd h (hb b)
      · exact .inr ⟨h, rfl⟩
  refine ⟨h1, fun l => (h2 l).trans ?_, fun t => (h7 t).trans ?_, ?_, ?_, ?_, fun t => (h5 t).trans ?_, fun l => (h8 l).trans ?_,
    fun l => (h3 l).trans ?_, fun t => (h6 t).trans ?_, fun l => (h4 l).trans ?_⟩
  · exact ek (9, "microsoft_ctl_enhkey_usage") (by decide) (by decide) l
  · exact tx (11, "microsoft_ctl_friendly_name") (by decide) (by decide) t
  · exact oc (20, "microsoft_ctl_key_identifier") (by decide) (by decide) _ h9
  · exact oc (29, "microsoft_ctl_subject_name_md5_hash") (by decide) (by decide) _ h10
  · exact oc (98, "microsoft_ctl_auth_root_sha256_hash") (by decide) (by decide) _ h11
  · exact tm (104, "microsoft_ctl_disallowed_filetime") (by decide) (by decide) t
  · exact ek (105, "microsoft_ctl_root_program_chain_policies") (by decide) (by decide) l
  · exact ek (122, "microsoft_ctl_disallowed_enhkey_usage") (by decide) (by decide) l
  · exact tm (126, "microsoft_ctl_not_before_filetime") (by decide) (by decide) t
  · exact ek (127, "microsoft_ctl_not_before_enhkey_usage") (by decide) (by decide) l

/-- What an entry says is determined by the entry. -/
theorem readsEntry_unique {ekus : Bytes → Except Exc (List String)} {r : RawTrusted} {s t : CtlSubject} (hs : ReadsEntry ekus r s)
    (ht : ReadsEntry ekus r t) : s = t := by
  have op : ∀ {α : Type} {P : α → Prop} {a b : Option α}, (∀ x, a = some x ↔ P x) → (∀ x, b = some x ↔ P x) → a = b := by
    intro α P a b h1 h2
    apply Option.ext
    intro x
    exact (h1 x).trans (h2 x).symm
  have oc : ∀ {oid : List Nat} {a b : Bytes}, AttrOctets r oid a ∨ (NoAttrOctets r oid ∧ a = []) → AttrOctets r oid b ∨ (NoAttrOctets r oid ∧ b = []) → a = b := by
    have no : ∀ {oid : List Nat} {a : Bytes}, AttrOctets r oid a → ¬ NoAttrOctets r oid := by
      rintro oid a ⟨l, pre, rest, post, h1, rfl, -⟩ h
      exact h _ h1 ⟨oid, a :: rest⟩ (by simp) rfl
    rintro oid a b (h1 | ⟨h1, rfl⟩) (h2 | ⟨h2, rfl⟩)
    · exact attrOctets_unique h1 h2
    · exact absurd h2 (no h1)
    · exact absurd h1 (no h2)
    · rfl
  obtain ⟨a1, a2, a3, a4, a5, a6, a7, a8, a9, a10, a11⟩ := hs
  obtain ⟨b1, b2, b3, b4, b5, b6, b7, b8, b9, b10, b11⟩ := ht
  have e1 := a1.trans b1.symm
  have e2 := op a2 b2
  have e3 := op a3 b3
  have e4 := oc a4 b4
  have e5 := oc a5 b5
  have e6 := oc a6 b6
  have e7 := op a7 b7
  have e8 := op a8 b8
  have e9 := op a9 b9
  have e10 := op a10 b10
  have e11 := op a11 b11
  cases s
  cases t
  simp only at e1 e2 e3 e4 e5 e6 e7 e8 e9 e10 e11
  subst e1 e2 e3 e4 e5 e6 e7 e8 e9 e10 e11
  rfl

/-- An entry of a trust list is read iff all its attributes can be read, and then its fields are what the entry says. -/
theorem C63_entry (ekus : Bytes → Except Exc (List String)) (r : RawTrusted) (s : CtlSubject) :
    parseSubject (r.subject ekus) = .ok s ↔ EntryOk ekus r ∧ ReadsEntry ekus r s := by
  constructor
  · intro h
    exact ⟨(entry_ok ekus r).mp ⟨s, h⟩, readsEntry_of ekus r s h⟩
  · rintro ⟨hok, hr⟩
    obtain ⟨s', hs'⟩ := (entry_ok ekus r).mpr hok
    rw [hs', readsEntry_unique (readsEntry_of ekus r s' hs') hr]

/-! ### lists -/

theorem parseTrustList_ok {cc : CtlCodec} {sd : RawSD} {t : TrustList} :
    parseTrustList cc sd = .ok t ↔ ∃ core raw ctl, parseSDCore "microsoft_ctl" sd.head = .ok core ∧ decodeContent cc.ctl sd.head = .ok raw ∧
      parseCTL raw.algorithm.algorithm raw.algorithm.params ((entries raw).map (RawTrusted.subject cc.ekus)) = .ok ctl ∧
      t = { core := core, usage := raw.usage, listIdentifier := raw.listIdentifier, sequenceNumber := raw.sequenceNumber
            thisUpdate := raw.thisUpdate, nextUpdate := raw.nextUpdate, ctl := ctl } := by
  unfold parseTrustList entries
  simp only [Except.bind_eq_ok, Except.ok.injEq]
  constructor
  · rintro ⟨core, h1, raw, h2, ctl, h3, rfl⟩
    exact ⟨core, raw, ctl, h1, h2, h3, rfl⟩
  · rintro ⟨core, raw, ctl, h1, h2, h3, rfl⟩
    exact ⟨core, h1, raw, h2, ctl, h3, rfl⟩

theorem parseCTL_ok {a : RawAlg} {l : List RawSubject} {ctl : CTL} :
    parseCTL a.algorithm a.params l = .ok ctl ↔ AcceptedAlg a ∧ ctl.algorithm = a.algorithm ∧ parseSubjects l [] = .ok ctl.subjects := by
  unfold parseCTL
  cases h : getDigestAlgorithm a.algorithm a.params acceptedDigests with
  | error e =>
    simp only [reduceCtorEq, false_iff, not_and]
    intro h1
    rw [getDigestAlgorithm_ok.2 ⟨h1, rfl⟩] at h
    cases h
  | ok x =>
    obtain ⟨h1, rfl⟩ := getDigestAlgorithm_ok.1 h
    simp only [h1, true_and]
    cases parseSubjects l [] with
    | error e => simp
    | ok d =>
      obtain ⟨y, z⟩ := ctl
      simp only [Except.ok.injEq, CTL.mk.injEq]
      exact ⟨fun ⟨h1, h2⟩ => ⟨h1.symm, h2⟩, fun ⟨h1, h2⟩ => ⟨h1.symm, h2⟩⟩

theorem holdsList_iff {cc : CtlCodec} {sd : RawSD} {raw : RawCtl} :
    HoldsList cc sd raw ↔ (∃ core, parseSDCore "microsoft_ctl" sd.head = .ok core) ∧ decodeContent cc.ctl sd.head = .ok raw := by
  constructor
  · rintro ⟨⟨a, h1, h2⟩, h3, h4⟩
    refine ⟨⟨⟨a.algorithm, _, _, _, _⟩, parseSDCore_ok.2 ⟨⟨a, h1, h2, rfl⟩, h3, rfl, rfl, rfl, rfl⟩⟩, decodeContent_ok.2 h4⟩
  · rintro ⟨⟨core, h1⟩, h2⟩
    obtain ⟨⟨a, k1, k2, -⟩, k3, -⟩ := parseSDCore_ok.1 h1
    exact ⟨⟨a, k1, k2⟩, k3, decodeContent_ok.1 h2⟩

theorem lastEntry_map {ekus : Bytes → Except Exc (List String)} {l : List RawTrusted} {i : Bytes} {s : CtlSubject} :
    (∃ pre r post, l.map (RawTrusted.subject ekus) = pre ++ r :: post ∧ r.identifier = i ∧ (∀ x ∈ post, x.identifier ≠ i) ∧ parseSubject r = .ok s) ↔
    ∃ r, LastEntry l r ∧ r.identifier = i ∧ EntryOk ekus r ∧ ReadsEntry ekus r s := by
  constructor
  · rintro ⟨pre, r, post, h1, rfl, h3, h4⟩
    obtain ⟨l1, l2, rfl, rfl, hl2⟩ := List.map_eq_append_iff.mp h1
    obtain ⟨a, l3, rfl, rfl, rfl⟩ := List.map_eq_cons_iff.mp hl2
    refine ⟨a, ⟨l1, l3, rfl, ?_⟩, rfl, (C63_entry ekus a s).mp h4⟩
    intro x hx
    exact h3 _ (List.mem_map_of_mem hx)
  · rintro ⟨r, ⟨pre, post, rfl, h2⟩, rfl, h4⟩
    refine ⟨_, _, _, by rw [List.map_append, List.map_cons], rfl, ?_, (C63_entry ekus r s).mpr h4⟩
    intro x hx
    obtain ⟨y, hy, rfl⟩ := List.mem_map.mp hx
    exact h2 y hy

/-- A trust list is read iff the structure holds a list of this kind, all of whose entries can be read: success. -/
theorem C63_success (cc : CtlCodec) (sd : RawSD) :
    (∃ t, parseTrustList cc sd = .ok t) ↔ ∃ raw, HoldsList cc sd raw ∧ ListOk cc raw := by
  have key : ∀ raw, (∃ ctl, parseCTL raw.algorithm.algorithm raw.algorithm.params ((entries raw).map (RawTrusted.subject cc.ekus)) = .ok ctl) ↔
      ListOk cc raw := by
    intro raw
    have h1 : (∃ d, parseSubjects ((entries raw).map (RawTrusted.subject cc.ekus)) [] = .ok d) ↔ ∀ r ∈ entries raw, EntryOk cc.ekus r := by
      rw [parseSubjects_ok]
      simp only [List.mem_map, forall_exists_index, and_imp, forall_apply_eq_imp_iff₂, entry_ok]
    have h2 : (∀ r ∈ entries raw, EntryOk cc.ekus r) ↔ ∀ l, raw.subjects = some l → ∀ r ∈ l, EntryOk cc.ekus r := by
      unfold entries
      cases raw.subjects <;> simp
    unfold ListOk
    rw [← h2, ← h1]
    constructor
    · rintro ⟨ctl, h⟩
      obtain ⟨k1, k2, k3⟩ := parseCTL_ok.1 h
      exact ⟨k1, _, k3⟩
    · rintro ⟨k1, d, k3⟩
      exact ⟨⟨_, d⟩, parseCTL_ok.2 ⟨k1, rfl, k3⟩⟩
  constructor
  · rintro ⟨t, h⟩
    obtain ⟨core, raw, ctl, h1, h2, h3, -⟩ := parseTrustList_ok.1 h
    exact ⟨raw, holdsList_iff.2 ⟨⟨core, h1⟩, h2⟩, (key raw).1 ⟨ctl, h3⟩⟩
  · rintro ⟨raw, h1, h2⟩
    obtain ⟨⟨core, k1⟩, k2⟩ := holdsList_iff.1 h1
    obtain ⟨ctl, k3⟩ := (key raw).2 h2
    exact ⟨_, parseTrustList_ok.2 ⟨core, raw, ctl, k1, k2, k3, rfl⟩⟩

/-- … and contents: the fields are those of the list, there is one subject for each identifier (in the order in which these first
occur), made from the last entry with that identifier. -/
theorem C63_contents (cc : CtlCodec) (sd : RawSD) (t : TrustList) (h : parseTrustList cc sd = .ok t) :
    ∃ raw, HoldsList cc sd raw ∧ t.usage = raw.usage ∧ t.listIdentifier = raw.listIdentifier ∧ t.sequenceNumber = raw.sequenceNumber ∧
      t.thisUpdate = raw.thisUpdate ∧ t.nextUpdate = raw.nextUpdate ∧ t.ctl.algorithm = raw.algorithm.algorithm ∧
      t.core.certificates = (sd.head.certs.filter (fun c => c.choice == "certificate")).map RawCert.cert ∧
      t.subjects.map CtlSubject.identifier = distinct ((entries raw).map RawTrusted.identifier) ∧
      (∀ s ∈ t.subjects, ∃ r, LastEntry (entries raw) r ∧ ReadsEntry cc.ekus r s) ∧
      (∀ r, LastEntry (entries raw) r → ∃ s ∈ t.subjects, ReadsEntry cc.ekus r s) := by
  obtain ⟨core, raw, ctl, h1, h2, h3, rfl⟩ := parseTrustList_ok.1 h
  obtain ⟨k1, k2, k3⟩ := parseCTL_ok.1 h3
  obtain ⟨-, -, -, -, hc⟩ := parseSDCore_ok.1 h1
  have hid := parseSubjects_idents _ _ _ k3 (by simp)
  have hkeys := parseSubjects_keys _ _ _ k3
  have hmap : ((entries raw).map (RawTrusted.subject cc.ekus)).map RawSubject.identifier = (entries raw).map RawTrusted.identifier := by
    rw [List.map_map]
    rfl
  rw [hmap, List.map_nil, List.nil_append, List.filter_eq_self.mpr (by simp)] at hkeys
  have hnodup : ∀ l : List Bytes, (distinct l).Nodup := by
    intro l
    induction l with
    | nil => exact List.nodup_nil
    | cons a l ih =>
      unfold distinct
      rw [List.nodup_cons]
      refine ⟨?_, ih.filter _⟩
      intro hm
      simpa using (List.mem_filter.mp hm).2
  have hget : ∀ p ∈ ctl.subjects, ctl.subjects.get? p.1 = some p.2 := by
    intro p hp
    refine Dict.get?_of_mem ?_ (show (p.1, p.2) ∈ _ from hp)
    show (ctl.subjects.map Prod.fst).Nodup
    rw [hkeys]
    exact List.Pairwise.map hexOf (fun a b (h1 : a ≠ b) (h2 : hexOf a = hexOf b) => h1 (hexOf_inj h2)) (hnodup _)
  refine ⟨raw, holdsList_iff.2 ⟨⟨core, h1⟩, h2⟩, rfl, rfl, rfl, rfl, rfl, k2, by rw [hc.1]; simp only [← Bool.beq_eq_decide_eq], ?_, ?_, ?_⟩
  · have he : (TrustList.subjects { core := core, usage := raw.usage, listIdentifier := raw.listIdentifier, sequenceNumber := raw.sequenceNumber, thisUpdate := raw.thisUpdate, nextUpdate := raw.nextUpdate, ctl := ctl }).map CtlSubject.identifier = ctl.subjects.map (fun p => p.2.identifier) := by
      unfold TrustList.subjects
      rw [List.map_map]
      rfl
    rw [he]
    have hx : ctl.subjects.map Prod.fst = (ctl.subjects.map (fun p => p.2.identifier)).map hexOf := by
      rw [List.map_map]
      exact List.map_congr_left (fun p hp => hid p hp)
    rw [hx] at hkeys
    exact (List.map_inj_right (fun a b h => hexOf_inj h)).mp hkeys
  · intro s hs
    unfold TrustList.subjects at hs
    obtain ⟨p, hp, rfl⟩ := List.mem_map.mp hs
    have hg := hget p hp
    rw [hid p hp] at hg
    rcases (parseSubjects_get _ _ _ k3 _ _).mp hg with h | ⟨-, h⟩
    · obtain ⟨r, hr, -, -, hr2⟩ := lastEntry_map.mp h
      exact ⟨r, hr, hr2⟩
    · cases h
  · intro r hr
    have hm : r ∈ entries raw := by
      obtain ⟨pre, post, he, -⟩ := hr
      rw [he]
      simp
    obtain ⟨s, hs⟩ := (parseSubjects_ok _ _).mp ⟨_, k3⟩ (r.subject cc.ekus) (List.mem_map_of_mem hm)
    obtain ⟨e1, e2⟩ := (C63_entry _ _ _).mp hs
    have hg := (parseSubjects_get _ _ _ k3 r.identifier s).mpr (.inl (lastEntry_map.mpr ⟨r, hr, rfl, e1, e2⟩))
    exact ⟨s, List.mem_map_of_mem (Dict.mem_of_get? hg), e2⟩

/-- `find_subject` on a list that was read: the subject is what the last entry says whose identifier is the digest of the
certificate. -/
theorem C63_find_subject (env : Env) (cc : CtlCodec) (sd : RawSD) (t : TrustList) (h : parseTrustList cc sd = .ok t) (c : Cert)
    (halg : t.ctl.algorithm = "sha1" ∨ t.ctl.algorithm = "sha256") :
    ∃ raw found, HoldsList cc sd raw ∧ t.ctl.findSubject env c = .ok found ∧
      (∀ s, found = some s ↔ ∃ r, LastEntry (entries raw) r ∧ r.identifier = env.hash t.ctl.algorithm c.der ∧ EntryOk cc.ekus r ∧ ReadsEntry cc.ekus r s) ∧
      (found = none ↔ ∀ r ∈ entries raw, r.identifier ≠ env.hash t.ctl.algorithm c.der) := by
  obtain ⟨core, raw, ctl, h1, h2, h3, rfl⟩ := parseTrustList_ok.1 h
  obtain ⟨k1, k2, k3⟩ := parseCTL_ok.1 h3
  simp only at halg ⊢
  obtain ⟨found, f1, f2, f3⟩ := C40_find_subject env _ _ _ ctl h3 (by rw [← k2]; exact halg) c
  rw [k2]
  refine ⟨raw, found, holdsList_iff.2 ⟨⟨core, h1⟩, h2⟩, f1, fun s => (f2 s).trans ?_, f3.trans ?_⟩
  · rw [← lastEntry_map]
  · simp only [List.mem_map, forall_exists_index, and_imp, forall_apply_eq_imp_iff₂]
    rfl

/-- `verify_trust` with a list that was read: a chain is accepted iff the list is by SHA-1 or SHA-256, and the last entry for the root's
digest allows the request. -/
theorem C63_policy (env : Env) (cc : CtlCodec) (sd : RawSD) (t : TrustList) (h : parseTrustList cc sd = .ok t) (cid : Nat)
    (root leaf : Cert) (chain : List Cert) (hroot : chain.head? = some root) (hleaf : chain.getLast? = some leaf) (w : World) :
    (ctlVerifyTrust env cid t.ctl chain w).1 = .ok () ↔
      ∃ raw r s, HoldsList cc sd raw ∧ (raw.algorithm.algorithm = "sha1" ∨ raw.algorithm.algorithm = "sha256") ∧
        LastEntry (entries raw) r ∧ r.identifier = env.hash raw.algorithm.algorithm root.der ∧ ReadsEntry cc.ekus r s ∧
        Allows s (w.ctxs cid).ekus.elems leaf.validFrom ((w.ctxs cid).timestamp.getD env.now) := by
  have hne : chain ≠ [] := by rintro rfl; cases hroot
  rw [C38_policy env cid t.ctl chain hne w]
  obtain ⟨core, raw, ctl, h1, h2, h3, rfl⟩ := parseTrustList_ok.1 h
  obtain ⟨k1, k2, k3⟩ := parseCTL_ok.1 h3
  unfold Accepts
  simp only
  rw [k2]
  have hh : HoldsList cc sd raw := holdsList_iff.2 ⟨⟨core, h1⟩, h2⟩
  constructor
  · rintro ⟨ha, root', leaf', s, e1, e2, e3, e4⟩
    rw [hroot] at e1
    rw [hleaf] at e2
    cases e1
    cases e2
    rcases (parseSubjects_get _ _ _ k3 _ _).mp e3 with h | ⟨-, h⟩
    · obtain ⟨r, hr, hi, -, hr2⟩ := lastEntry_map.mp h
      exact ⟨raw, r, s, hh, ha, hr, hi, hr2, e4⟩
    · cases h
  · rintro ⟨raw', r, s, hh', ha, hr, hi, hr2, e4⟩
    have : raw' = raw := by
      have := (holdsList_iff.1 hh').2
      rw [h2] at this
      exact (Except.ok.inj this).symm
    subst this
    refine ⟨ha, root, leaf, s, hroot, hleaf, ?_, e4⟩
    have hm : r ∈ entries raw' := by
      obtain ⟨pre, post, he, -⟩ := hr
      rw [he]
      simp
    obtain ⟨s', hs'⟩ := (parseSubjects_ok _ _).mp ⟨_, k3⟩ (r.subject cc.ekus) (List.mem_map_of_mem hm)
    have hok := ((C63_entry _ _ _).mp hs').1
    exact (parseSubjects_get _ _ _ k3 _ _).mpr (.inl (lastEntry_map.mpr ⟨r, hr, hi, hok, hr2⟩))

/-- The list is read without looking at who signed it: signer infos and CRLs have no influence ("The CTL itself is currently not
verifiable"). -/
theorem C63_signature_not_used (cc : CtlCodec) (h : SDHead) (signers signers' : List RawSI) (n : Nat) :
    parseTrustList cc (.mk { h with crls := n } signers') = parseTrustList cc (.mk h signers) := rfl

/-- A file is read iff it is an envelope of a SignedData with a list; anything else that can be decoded as an envelope raises
CertificateTrustListParseError. -/
theorem C63_file (cd : Codec) (cc : CtlCodec) (data : Bytes) (t : TrustList) :
    fromStl cd cc data = .ok t ↔ ∃ sd, cd.envelope data = .ok ("signed_data", sd) ∧ parseTrustList cc sd = .ok t := by
  unfold fromStl
  rw [Except.bind_eq_ok]
  constructor
  · rintro ⟨⟨type, sd⟩, h1, h2⟩
    simp only at h2
    split at h2
    · cases h2
    · rename_i ht
      rw [Decidable.not_not] at ht
      subst ht
      exact ⟨sd, h1, h2⟩
  · rintro ⟨sd, h1, h2⟩
    exact ⟨_, h1, by simpa using h2⟩

theorem C63_other_envelopes (cd : Codec) (cc : CtlCodec) (data : Bytes) (type : String) (sd : RawSD)
    (h : cd.envelope data = .ok (type, sd)) (ht : type ≠ "signed_data") :
    ∃ m, fromStl cd cc data = .error ⟨.ctlParseError, m⟩ := by
  refine ⟨"ContentInfo does not contain SignedData", ?_⟩
  unfold fromStl
  rw [h]
  show (if type ≠ "signed_data" then _ else _) = _
  rw [if_pos ht]

/-- A list with three entries: the first one is replaced by the third, for the same identifier. -/
def exRawCtl : RawCtl where
  usage := ["microsoft_root_list_signer"]
  listIdentifier := none
  sequenceNumber := some 17
  thisUpdate := 40
  nextUpdate := none
  algorithm := ⟨"sha256", false⟩
  subjects := some [⟨[1], none⟩, ⟨[7], some []⟩,
    ⟨[1], some [⟨[1, 3, 6, 1, 4, 1, 311, 10, 11, 9], [[8]]⟩, ⟨[1, 3, 6, 1, 4, 1, 311, 10, 11, 11], [[0x52, 0, 0x6F, 0, 0, 0]]⟩,
      ⟨[1, 3, 6, 1, 4, 1, 311, 10, 11, 98], [[2, 2]]⟩, ⟨[1, 3, 6, 1, 4, 1, 311, 10, 11, 126], [[208, 7, 0, 0, 0, 0, 0, 0]]⟩,
      ⟨[2, 5], [[1], [2]]⟩]⟩]

def exCtlCodec : CtlCodec where
  ekus := fun b => if b = [8] then .ok ["code_signing"] else .error ⟨.valueError, "cannot decode"⟩
  ctl := fun _ b => if b = [9] then .ok exRawCtl else .error ⟨.valueError, "cannot decode"⟩

def exCtlSD : RawSD := .mk ⟨[⟨"sha256", false⟩], "microsoft_ctl", some [9], [⟨"certificate", exRoot⟩, ⟨"v1_attr_cert", exLeaf⟩], 0, false⟩ []

def exTrustList : TrustList where
  core := ⟨"sha256", "microsoft_ctl", [9], [exRoot], false⟩
  usage := ["microsoft_root_list_signer"]
  listIdentifier := none
  sequenceNumber := some 17
  thisUpdate := 40
  nextUpdate := none
  ctl := ⟨"sha256", [(hexOf [1], ⟨[1], some ["code_signing"], none, none, some 200, none, some "Ro", [], [], [2, 2], none⟩),
    (hexOf [7], ⟨[7], none, none, none, none, none, none, [], [], [], none⟩)]⟩

example : parseTrustList exCtlCodec exCtlSD = .ok exTrustList ∧
    fromStl { exCodec with envelope := fun _ => .ok ("signed_data", exCtlSD) } exCtlCodec [1, 2, 3] = .ok exTrustList ∧
    parseTrustList exCtlCodec (.mk ⟨[⟨"sha256", false⟩], "microsoft_ctl", some [8], [], 0, false⟩ []) = .error ⟨.valueError, "cannot decode"⟩ := by
  decide +kernel

example : HoldsList exCtlCodec exCtlSD exRawCtl ∧ LastEntry (entries exRawCtl) ⟨[7], some []⟩ :=
  ⟨⟨⟨⟨"sha256", false⟩, rfl, by decide⟩, rfl, [9], rfl, rfl⟩, ⟨[⟨[1], none⟩], _, rfl, by decide⟩⟩

example := C63_contents exCtlCodec exCtlSD exTrustList (by decide +kernel)
example := C63_find_subject exEnv exCtlCodec exCtlSD exTrustList (by decide +kernel) exRoot (.inr rfl)
example := C63_policy exEnv exCtlCodec exCtlSD exTrustList (by decide +kernel) 0 exRoot exLeaf [exRoot, exInter, exLeaf] rfl rfl exWorld
example := C63_other_envelopes { exCodec with envelope := fun _ => .ok ("data", exCtlSD) } exCtlCodec [1, 2, 3] "data" exCtlSD rfl (by decide)
example := C64_round_trip "Zoë𝄞" (by decide +kernel) 2
example := C64_error [0x34, 0xD8, 0x41, 0] _ rfl

example := C63_signature_not_used exCtlCodec ⟨[⟨"sha256", false⟩], "microsoft_ctl", some [9], [], 0, false⟩ [] [] 3

end Signify.Props
