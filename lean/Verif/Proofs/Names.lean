import Verif.Spec.Names

set_option autoImplicit false

namespace Signify

open Spec

/-- `e` is an escaped form of `v`, in which only characters satisfying `P` are preceded by a backslash. -/
inductive EscOf (P : Char → Prop) : List Char → List Char → Prop
  | nil : EscOf P [] []
  | plain {c v e} : c ≠ '\\' → c ≠ ',' → EscOf P v e → EscOf P (c :: v) (c :: e)
  | esc {c v e} : P c → EscOf P v e → EscOf P (c :: v) ('\\' :: c :: e)

theorem EscOf.mono {P Q : Char → Prop} (h : ∀ c, P c → Q c) {v e} (he : EscOf P v e) : EscOf Q v e := by
  induction he with
  | nil => exact .nil
  | plain a b _ ih => exact .plain a b ih
  | esc a _ ih => exact .esc (h _ a) ih

theorem escOf_sub (v : List Char) : EscOf (fun c => c ≠ ' ') v (dnSub v) := by
  induction v with
  | nil => exact .nil
  | cons c v ih =>
    unfold dnSub
    split
    · rename_i h
      refine .esc ?_ ih
      rintro rfl
      revert h; decide
    · rename_i h
      refine .plain ?_ ?_ ih
      · rintro rfl; exact h (by decide)
      · rintro rfl; exact h (by decide)

theorem escOf_hash {v e : List Char} (h : EscOf (fun c => c ≠ ' ') v e) : EscOf (fun c => c ≠ ' ') v (dnHash e) := by
  unfold dnHash
  split
  · rename_i hh
    cases h with
    | nil => simp at hh
    | plain a b h =>
      simp at hh
      subst hh
      exact .esc (by decide) h
    | esc a h => simp at hh
  · exact h

theorem escOf_snoc {v e : List Char} (h : EscOf (fun c => c ≠ ' ') v e) (hl : e.getLast? = some ' ') :
    EscOf (fun _ => True) v (e.dropLast ++ ['\\', ' ']) := by
  induction h with
  | nil => simp at hl
  | @plain c v e a b h ih =>
    cases h with
    | nil =>
      simp at hl
      subst hl
      exact .esc trivial .nil
    | plain a' b' h' =>
      have := ih (by simpa using hl)
      simpa using EscOf.plain a b this
    | esc a' h' =>
      have := ih (by simpa using hl)
      simpa using EscOf.plain a b this
  | @esc c v e a h ih =>
    cases h with
    | nil =>
      simp at hl
      exact absurd hl a
    | plain a' b' h' =>
      have := ih (by simpa using hl)
      simpa using EscOf.esc (P := fun _ => True) (c := c) trivial this
    | esc a' h' =>
      have := ih (by simpa using hl)
      simpa using EscOf.esc (P := fun _ => True) (c := c) trivial this

theorem escOf_escape (v : List Char) : EscOf (fun _ => True) v (dnEscape v) := by
  have h := escOf_hash (escOf_sub v)
  unfold dnEscape dnTrail
  split
  · rename_i hl
    exact escOf_snoc h hl
  · exact h.mono (fun _ _ => trivial)

theorem readDn_value_char {t acc : List Char} {c : Char} {l : List Char} (h1 : c ≠ '\\') (h2 : c ≠ ',') :
    readDn (.value t acc) (c :: l) = readDn (.value t (acc ++ [c])) l := by
  conv => lhs; unfold readDn
  split <;> simp_all

theorem readDn_value_esc {t acc : List Char} {c : Char} {l : List Char} :
    readDn (.value t acc) ('\\' :: c :: l) = readDn (.value t (acc ++ [c])) l := by
  simp [readDn]

theorem readDn_value_sep {t acc : List Char} {l : List Char} :
    readDn (.value t acc) (',' :: ' ' :: l) = (readDn (.type []) l).map ((t, acc) :: ·) := by
  simp [readDn]

theorem readDn_value_escOf {v e : List Char} (h : EscOf (fun _ => True) v e) (t acc rest : List Char) :
    readDn (.value t acc) (e ++ rest) = readDn (.value t (acc ++ v)) rest := by
  induction h generalizing acc with
  | nil => simp
  | plain a b _ ih => rw [List.cons_append, readDn_value_char a b, ih]; simp
  | esc a _ ih => rw [List.cons_append, List.cons_append, readDn_value_esc, ih]; simp

theorem readDn_type (t acc rest : List Char) (h : ∀ c ∈ t, c ≠ '=') :
    readDn (.type acc) (t ++ '=' :: rest) = readDn (.value (acc ++ t) []) rest := by
  induction t generalizing acc with
  | nil =>
    conv => lhs; unfold readDn
    simp
  | cons c t ih =>
    have hc : c ≠ '=' := h c (by simp)
    have : readDn (.type acc) ((c :: t) ++ '=' :: rest) = readDn (.type (acc ++ [c])) (t ++ '=' :: rest) := by
      conv => lhs; unfold readDn
      split <;> simp_all
    rw [this, ih _ (fun c' hc' => h c' (List.mem_cons_of_mem _ hc'))]
    simp

/-- A part of the string, for text. -/
def textPart (p : String × String) : List Char := p.1.toList ++ '=' :: dnEscape p.2.toList

theorem dnParts_text (t : List (String × String)) : dnParts (t.map (fun p => (p.1, .text p.2))) = .ok (t.map textPart) := by
  induction t with
  | nil => rfl
  | cons p t ih => simp [dnParts, dnPart, ih, bind, Except.bind, textPart]

theorem dnParts_ok {l : List (String × NameVal)} {r : List (List Char)} (h : dnParts l = .ok r) : ∃ t, Reading l t := by
  induction l generalizing r with
  | nil => exact ⟨[], rfl⟩
  | cons p l ih =>
    obtain ⟨a, v⟩ := p
    cases v with
    | text s =>
      cases hl : dnParts l with
      | error e => simp [dnParts, dnPart, hl, bind, Except.bind] at h
      | ok x =>
        obtain ⟨t, ht⟩ := ih hl
        exact ⟨(a, s) :: t, by rw [Reading] at ht; rw [Reading, List.map_cons, ← ht]⟩
    | octets b => simp [dnParts, dnPart, bind, Except.bind] at h
    | int i => simp [dnParts, dnPart, bind, Except.bind] at h

theorem dnParts_error {l : List (String × NameVal)} {e : Exc} (h : dnParts l = .error e) : e.cls = .typeError := by
  induction l with
  | nil => cases h
  | cons p l ih =>
    obtain ⟨a, v⟩ := p
    cases v with
    | text s =>
      cases hl : dnParts l with
      | error e' =>
        simp [dnParts, dnPart, hl, bind, Except.bind] at h
        subst h
        exact ih hl
      | ok x => simp [dnParts, dnPart, hl, bind, Except.bind] at h
    | octets b => simp [dnParts, dnPart, bind, Except.bind] at h; rw [← h]
    | int i => simp [dnParts, dnPart, bind, Except.bind] at h; rw [← h]

theorem dn_of_reading {n : Name} {t : List (String × String)} (h : Reading n.components t) :
    n.dn = .ok (String.ofList (dnJoin (t.map textPart))) := by
  rw [Reading] at h
  unfold Name.dn
  rw [h, dnParts_text]
  rfl

theorem dn_ok {n : Name} {s : String} (h : n.dn = .ok s) :
    ∃ t, Reading n.components t ∧ s = String.ofList (dnJoin (t.map textPart)) := by
  cases hp : dnParts n.components with
  | error e => simp [Name.dn, hp, bind, Except.bind] at h
  | ok r =>
    obtain ⟨t, ht⟩ := dnParts_ok hp
    refine ⟨t, ht, ?_⟩
    rw [dn_of_reading ht] at h
    exact (Except.ok.inj h).symm

theorem dn_error {n : Name} {e : Exc} (h : n.dn = .error e) : e.cls = .typeError := by
  cases hp : dnParts n.components with
  | error e' =>
    simp [Name.dn, hp, bind, Except.bind] at h
    exact h ▸ dnParts_error hp
  | ok r => simp [Name.dn, hp, bind, Except.bind] at h

theorem reading_of_textual {n : Name} (h : Textual n) : ∃ t, Reading n.components t := by
  have key : ∀ l : List RDN, (∀ r ∈ l, ∃ s, r.first.value = .text s) →
      ∃ t, Reading (l.map (fun r => (shortType r.first.oid, r.first.value))) t := by
    intro l hl
    induction l with
    | nil => exact ⟨[], rfl⟩
    | cons r l ih =>
      obtain ⟨t, ht⟩ := ih (fun x hx => hl x (List.mem_cons_of_mem _ hx))
      obtain ⟨s, hs⟩ := hl r (by simp)
      exact ⟨(shortType r.first.oid, s) :: t, by rw [Reading] at ht ⊢; rw [List.map_cons, List.map_cons, ht, hs]⟩
  exact key _ (fun r hr => h r (List.mem_reverse.mp hr))

theorem textual_of_reading {n : Name} {t : List (String × String)} (h : Reading n.components t) : Textual n := by
  intro r hr
  have hm : (shortType r.first.oid, r.first.value) ∈ n.components :=
    List.mem_map.2 ⟨r, List.mem_reverse.2 hr, rfl⟩
  rw [h] at hm
  obtain ⟨p, -, hp⟩ := List.mem_map.1 hm
  exact ⟨p.2, (Prod.mk.inj hp).2.symm⟩

theorem reading_unique {l : List (String × NameVal)} {t u : List (String × String)} (h1 : Reading l t) (h2 : Reading l u) : t = u := by
  rw [Reading] at h1 h2
  rw [h1] at h2
  refine (List.map_inj_right ?_).1 h2
  rintro ⟨a, b⟩ ⟨c, d⟩ h
  simpa using h

theorem readDn_join (l : List (String × String)) (h : ∀ p ∈ l, ∀ c ∈ p.1.toList, c ≠ '=') :
    readDn (.type []) (dnJoin (l.map textPart)) = some (l.map (fun p => (p.1.toList, p.2.toList))) := by
  induction l with
  | nil => rfl
  | cons p l ih =>
    have hp := h p (by simp)
    have ih := ih (fun q hq => h q (List.mem_cons_of_mem _ hq))
    cases l with
    | nil =>
      have := readDn_value_escOf (escOf_escape p.2.toList) p.1.toList [] []
      simp only [List.append_nil, List.nil_append] at this
      show readDn (.type []) (p.1.toList ++ '=' :: dnEscape p.2.toList) = _
      rw [readDn_type _ _ _ hp, List.nil_append, this]
      rfl
    | cons q l =>
      show readDn (.type []) ((p.1.toList ++ '=' :: dnEscape p.2.toList) ++ ',' :: ' ' :: dnJoin ((q :: l).map textPart)) = _
      rw [List.append_assoc, List.cons_append, readDn_type _ _ _ hp, List.nil_append,
        readDn_value_escOf (escOf_escape _), readDn_value_sep, ih]
      rfl

theorem dict_get?_mem {κ ν : Type} [DecidableEq κ] {d : Dict κ ν} {k : κ} {v : ν} (h : d.get? k = some v) : (k, v) ∈ d := by
  induction d with
  | nil => cases h
  | cons p d ih =>
    obtain ⟨k', v'⟩ := p
    rw [Dict.get?] at h
    split at h
    · rename_i hk
      cases h
      subst hk
      simp
    · exact List.mem_cons_of_mem _ (ih h)

theorem shortType_cases (oid : String) :
    (shortType oid = oid) ∨ (oid, shortType oid) ∈ oidToRdn := by
  unfold shortType
  cases h : oidToRdn.get? oid with
  | none => exact .inl rfl
  | some v => exact .inr (dict_get?_mem h)

theorem shortNames_ok : ∀ p ∈ oidToRdn, (∀ c ∈ p.2.toList, c ≠ '=') ∧ ∀ c ∈ p.2.toList.head?, c.isDigit = false := by
  decide +kernel

theorem oidToRdn_inj : ∀ p ∈ oidToRdn, ∀ q ∈ oidToRdn, p.2 = q.2 → p.1 = q.1 := by
  decide +kernel

theorem shortType_no_eq {oid : String} (h : dottedOid oid) : ∀ c ∈ (shortType oid).toList, c ≠ '=' := by
  rcases shortType_cases oid with h1 | h1
  · rw [h1]
    rintro c hc rfl
    rcases h.2 _ hc with h' | h'
    · revert h'; decide
    · revert h'; decide
  · exact (shortNames_ok _ h1).1

theorem shortType_inj {a b : String} (ha : dottedOid a) (hb : dottedOid b) (h : shortType a = shortType b) : a = b := by
  have key : ∀ {p}, p ∈ oidToRdn → ¬ dottedOid p.2 := by
    rintro p hp ⟨⟨c, l, h1, h2⟩, -⟩
    have := (shortNames_ok p hp).2 c (by rw [h1]; rfl)
    simp [this] at h2
  rcases shortType_cases a with h1 | h1 <;> rcases shortType_cases b with h2 | h2
  · rw [← h1, h, h2]
  · exact absurd (by rw [← h, h1]; exact ha) (key h2)
  · exact absurd (by rw [h, h2]; exact hb) (key h1)
  · exact oidToRdn_inj _ h1 _ h2 h

end Signify
