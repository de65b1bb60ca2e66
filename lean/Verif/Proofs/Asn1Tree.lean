/-
Encodings as trees: decoding an encoded tree follows the tree.
-/
import Verif.Proofs.Asn1Native

set_option autoImplicit false

namespace Signify.Asn1

open Signify Spec

/-- A value to be encoded: with the given contents, or with values as contents. -/
inductive T where
  | leaf (id : UInt8) (c : Bytes)
  | node (id : UInt8) (l : List T)

mutual
/-- The encoding. -/
def T.enc : T → Bytes
  | .leaf id c => tlv id c
  | .node id l => tlv id (encAll l)
/-- The encodings, one after the other. -/
def encAll : List T → Bytes
  | [] => []
  | t :: l => t.enc ++ encAll l
end

mutual
/-- All tags are less than 31. -/
def T.good : T → Bool
  | .leaf id _ => id.toNat % 32 != 31
  | .node id l => id.toNat % 32 != 31 && goodAll l
/-- Likewise. -/
def goodAll : List T → Bool
  | [] => true
  | t :: l => t.good && goodAll l
end

/-- Identifier octet. -/
def T.id : T → UInt8
  | .leaf id _ => id
  | .node id _ => id

/-- Contents octets. -/
def T.cont : T → Bytes
  | .leaf _ c => c
  | .node _ l => encAll l

/-- The parts. -/
def T.parts (t : T) : Parts := tlvParts t.id t.cont

theorem T.enc_eq (t : T) : t.enc = tlv t.id t.cont := by cases t <;> simp [T.enc, T.id, T.cont]

theorem T.good_id {t : T} (h : t.good = true) : t.id.toNat % 32 ≠ 31 := by
  cases t <;> simp [T.good, T.id] at * <;> simp_all

theorem T.cont_lt (t : T) : t.cont.length < t.enc.length := by rw [t.enc_eq]; exact tlv_length _ _

theorem parse_tree (t : T) (rest : Bytes) (h : t.good = true) (hl : t.cont.length < maxLen) :
    parse (t.enc ++ rest) = .ok (t.parts, rest) := by
  rw [t.enc_eq]; exact parse_tlv _ _ _ (T.good_id h) hl

theorem goodAll_iff (l : List T) : goodAll l = true ↔ ∀ t ∈ l, t.good = true := by
  induction l with
  | nil => simp [goodAll]
  | cons t l ih => simp [goodAll, ih]

theorem encAll_le {l : List T} {t : T} (h : t ∈ l) : t.enc.length ≤ (encAll l).length := by
  induction l with
  | nil => cases h
  | cons a l ih =>
    simp only [encAll, List.length_append]
    cases h with
    | head => omega
    | tail _ h => have := ih h; omega

theorem encAll_items (l : List T) : encAll l = items (l.map (fun t => (t.id, t.cont))) := by
  induction l with
  | nil => rfl
  | cons t l ih => simp [encAll, items, ih, t.enc_eq]

theorem readable_trees {l : List T} (h : goodAll l = true) (hl : (encAll l).length < maxLen) :
    Readable (l.map (fun t => (t.id, t.cont))) := by
  intro x hx
  obtain ⟨t, ht, rfl⟩ := List.mem_map.mp hx
  have h1 := (goodAll_iff l).mp h t ht
  have := encAll_le ht
  have := t.cont_lt
  exact ⟨T.good_id h1, by simp only; omega⟩

/-- `untag`, on a tree. -/
def untagT (tagging : Tagging) (k : Option Nat → T → Except Exc Val) (raw : Parts → Except Exc Val) (t : T) : Except Exc Val :=
  match tagging with
  | .none => k none t
  | .implicit n => k (some n) t
  | .explicit n =>
    match t with
    | .node id (c :: l) =>
      if (T.node id (c :: l)).parts.cls ≠ 2 then asn1Err "explicitly-tagged class should have been"
      else if (T.node id (c :: l)).parts.constructed ≠ true then asn1Err "explicitly-tagged method should have been"
      else if (T.node id (c :: l)).parts.tag ≠ n then asn1Err "explicitly-tagged tag should have been"
      else k none c
    | t => raw t.parts

mutual
/-- `Ty.build`, on a tree. -/
def Ty.buildT : Ty → Option Nat → T → Except Exc Val
  | .any, _, t => .ok (.any t.parts)
  | .prim tag, i, t => do
    checkId tag false i t.parts
    .ok (.prim t.cont)
  | .seq fields, i, t =>
    match t with
    | .node id l => do
      checkId 16 true i (T.node id l).parts
      let r ← buildFieldsT fields l
      .ok (.seq (encAll l) r)
    | t => (Ty.seq fields).build i t.parts
  | .seqOf ty, i, t =>
    match t with
    | .node id l => do
      checkId 16 true i (T.node id l).parts
      let r ← parseAll (ty.buildT none) l
      .ok (.list (encAll l) r)
    | t => (Ty.seqOf ty).build i t.parts
  | .setOf ty, i, t =>
    match t with
    | .node id l => do
      checkId 17 true i (T.node id l).parts
      let r ← parseAll (ty.buildT none) l
      .ok (.list (encAll l) r)
    | t => (Ty.setOf ty).build i t.parts
  | .choice alts, _, t => buildAltsT alts t
/-- `buildFields`, on trees. -/
def buildFieldsT : List Field → List T → Except Exc (List (String × Option Val))
  | [], _ => .ok []
  | .mk name tagging optional ty :: fs, l =>
    match l with
    | [] =>
      if optional then do
        let vs ← buildFieldsT fs []
        .ok ((name, none) :: vs)
      else asn1Err "Field is missing from structure"
    | t :: l =>
      if optional && !(Field.mk name tagging optional ty).accepts (t.id.toNat / 64) (t.id.toNat % 32) then do
        let vs ← buildFieldsT fs (t :: l)
        .ok ((name, none) :: vs)
      else do
        let v ← untagT tagging ty.buildT (untag tagging ty.build) t
        let vs ← buildFieldsT fs l
        .ok ((name, some v) :: vs)
/-- `buildAlts`, on a tree. -/
def buildAltsT : List Field → T → Except Exc Val
  | [], _ => asn1Err "The data did not match any of the alternatives"
  | .mk name tagging optional ty :: l, t =>
    if (Field.mk name tagging optional ty).accepts (t.id.toNat / 64) (t.id.toNat % 32) then do
      let v ← untagT tagging ty.buildT (untag tagging ty.build) t
      .ok (.choice name v)
    else buildAltsT l t
end

/-- A tree that can be read. -/
def T.Ok (t : T) : Prop := t.good = true ∧ t.cont.length < maxLen

theorem T.Ok.child {id : UInt8} {l : List T} (h : (T.node id l).Ok) {t : T} (ht : t ∈ l) : t.Ok := by
  obtain ⟨h1, h2⟩ := h
  simp only [T.good, Bool.and_eq_true] at h1
  refine ⟨(goodAll_iff l).mp h1.2 t ht, ?_⟩
  have := encAll_le ht
  have := t.cont_lt
  simp only [T.cont] at h2
  omega

theorem untag_tree (tagging : Tagging) (ty : Ty) (ih : ∀ i t, t.Ok → ty.build i t.parts = ty.buildT i t) (t : T) (h : t.Ok) :
    untag tagging ty.build t.parts = untagT tagging ty.buildT (untag tagging ty.build) t := by
  cases tagging with
  | none => exact ih none t h
  | implicit n => exact ih (some n) t h
  | explicit n =>
    cases t with
    | leaf id c => rfl
    | node id l =>
      cases l with
      | nil => rfl
      | cons c l =>
        have hc := h.child (List.mem_cons_self ..)
        have hp := parse_tree c (encAll l) hc.1 hc.2
        have e : (T.node id (c :: l)).parts.contents = c.enc ++ encAll l := by simp [T.parts, tlvParts, T.cont, encAll]
        simp only [untag, untagT]
        rw [e, hp]
        simp only []
        rw [ih none c hc]

theorem parseAll_congr {α β : Type} {f g : α → Except Exc β} {l : List α} (h : ∀ a ∈ l, f a = g a) :
    parseAll f l = parseAll g l := by
  induction l with
  | nil => rfl
  | cons a l ih =>
    simp only [parseAll]
    rw [h a (List.mem_cons_self ..), ih (fun b hb => h b (List.mem_cons_of_mem _ hb))]

theorem parseAll_map {α β γ : Type} (f : α → Except Exc β) (g : γ → α) (l : List γ) :
    parseAll f (l.map g) = parseAll (fun x => f (g x)) l := by
  induction l with
  | nil => rfl
  | cons a l ih => simp only [List.map_cons, parseAll, ih]

theorem parseAll_ok {α β : Type} {f : α → Except Exc β} {g : α → β} {l : List α} (h : ∀ a ∈ l, f a = .ok (g a)) :
    parseAll f l = .ok (l.map g) := by
  induction l with
  | nil => rfl
  | cons a l ih =>
    simp only [parseAll, h a (List.mem_cons_self ..), ih (fun b hb => h b (List.mem_cons_of_mem _ hb))]
    rfl

theorem buildAll_tree (ty : Ty) (ih : ∀ i t, t.Ok → ty.build i t.parts = ty.buildT i t) (id : UInt8) (l : List T)
    (h : (T.node id l).Ok) (n : Nat) (hn : l.length ≤ n) :
    buildAll (ty.build none) n (encAll l) = parseAll (ty.buildT none) l := by
  have hg := h.1
  simp only [T.good, Bool.and_eq_true] at hg
  rw [encAll_items, buildAll_items _ _ (readable_trees hg.2 h.2) _ (by simpa using hn), parseAll_map]
  exact parseAll_congr (fun t ht => ih none t (h.child ht))

theorem encAll_length (l : List T) : l.length ≤ (encAll l).length := by
  have := items_length (l.map (fun t => (t.id, t.cont)))
  rw [← encAll_items] at this
  simpa using this

mutual
theorem build_tree : (ty : Ty) → (i : Option Nat) → (t : T) → t.Ok → ty.build i t.parts = ty.buildT i t
  | .any, _, _, _ => by simp [Ty.build, Ty.buildT]
  | .prim tag, i, t, _ => by simp [Ty.build, Ty.buildT, T.parts, tlvParts]
  | .seq fs, i, .leaf id c, _ => by simp [Ty.buildT]
  | .seq fs, i, .node id l, h => by
    have e := fields_tree fs id l h
    have ec : (T.node id l).parts.contents = encAll l := rfl
    simp only [Ty.build, Ty.buildT, ec, e]
  | .seqOf ty, i, .leaf id c, _ => by simp [Ty.buildT]
  | .seqOf ty, i, .node id l, h => by
    have e := buildAll_tree ty (fun i t => build_tree ty i t) id l h ((encAll l).length + 1)
      (by have := encAll_length l; omega)
    have ec : (T.node id l).parts.contents = encAll l := rfl
    simp only [Ty.build, Ty.buildT, ec, e]
  | .setOf ty, i, .leaf id c, _ => by simp [Ty.buildT]
  | .setOf ty, i, .node id l, h => by
    have e := buildAll_tree ty (fun i t => build_tree ty i t) id l h ((encAll l).length + 1)
      (by have := encAll_length l; omega)
    have ec : (T.node id l).parts.contents = encAll l := rfl
    simp only [Ty.build, Ty.buildT, ec, e]
  | .choice alts, i, t, h => by
    simp only [Ty.build, Ty.buildT]
    exact alts_tree alts t h
theorem fields_tree : (fs : List Field) → (id : UInt8) → (l : List T) → (T.node id l).Ok →
    buildFields fs (encAll l) = buildFieldsT fs l
  | [], id, l, h => by
    have hg := h.1
    simp only [T.good, Bool.and_eq_true] at hg
    have hr := readable_trees hg.2 h.2
    have := leftOver_items _ hr ((encAll l).length + 1) (by have := encAll_length l; simp; omega)
    rw [← encAll_items] at this
    simp only [buildFields, buildFieldsT, this]
    rfl
  | .mk name tagging optional ty :: fs, id, [], h => by
    have := fields_tree fs id [] h
    simp only [encAll] at this
    simp only [encAll, buildFields, buildFieldsT, this]
  | .mk name tagging optional ty :: fs, id, t :: l, h => by
    have ht := h.child (List.mem_cons_self ..)
    have hl : (T.node id l).Ok := by
      obtain ⟨h1, h2⟩ := h
      simp only [T.good, goodAll, Bool.and_eq_true] at h1
      refine ⟨by simp only [T.good, Bool.and_eq_true]; exact ⟨h1.1, h1.2.2⟩, ?_⟩
      simp only [T.cont, encAll, List.length_append] at h2 ⊢
      omega
    have i1 := fields_tree fs id (t :: l) h
    have i2 := fields_tree fs id l hl
    have hp := parse_tree t (encAll l) ht.1 ht.2
    have hu := untag_tree tagging ty (fun i t => build_tree ty i t) t ht
    have e : encAll (t :: l) = t.enc ++ encAll l := by simp [encAll]
    obtain ⟨b, r, e'⟩ := tlv_ne_nil t.id t.cont (encAll l)
    rw [← t.enc_eq] at e'
    rw [e, e'] at i1 ⊢
    rw [e'] at hp
    simp only [buildFields, buildFieldsT, hp, bind, Except.bind, i1, i2, hu]
    rfl
theorem alts_tree : (l : List Field) → (t : T) → t.Ok → buildAlts l t.parts = buildAltsT l t
  | [], t, h => by simp [buildAlts, buildAltsT]
  | .mk name tagging optional ty :: l, t, h => by
    have hu := untag_tree tagging ty (fun i t => build_tree ty i t) t h
    simp only [buildAlts, buildAltsT, hu, alts_tree l t h]
    rfl
end

end Signify.Asn1
