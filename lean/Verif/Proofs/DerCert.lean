/-
Reading names and certificates.
-/
import Verif.Proofs.DerTime
import Verif.Model.DerCms
import Verif.Spec.DerCms

set_option autoImplicit false

namespace Signify.Asn1

open Signify Spec

theorem parseAll_two {α β γ : Type} {f : α → Except Exc β} {g : β → Except Exc γ} {h : α → γ} {l : List α}
    (H : ∀ a ∈ l, ∃ v, f a = .ok v ∧ g v = .ok (h a)) :
    ∃ vs, parseAll f l = .ok vs ∧ parseAll g vs = .ok (l.map h) := by
  induction l with
  | nil => exact ⟨[], rfl, rfl⟩
  | cons a l ih =>
    obtain ⟨v, h1, h2⟩ := H a (List.mem_cons_self ..)
    obtain ⟨vs, h3, h4⟩ := ih (fun b hb => H b (List.mem_cons_of_mem _ hb))
    refine ⟨v :: vs, ?_, ?_⟩ <;> simp [parseAll, bind, Except.bind, *]

/-- Decode and read. -/
def Reads {α : Type} (ty : Ty) (t : T) (read : Val → Except Exc α) (a : α) : Prop :=
  ∃ v, ty.buildT none t = .ok v ∧ read v = .ok a

theorem reads_seqOf {α γ : Type} {ty : Ty} {tree : α → T} {read : Val → Except Exc γ} {val : α → γ} {l : List α}
    (H : ∀ a ∈ l, Reads ty (tree a) read (val a)) :
    Reads (.seqOf ty) (.node 0x30 (l.map tree)) (fun v => do parseAll read (← v.elems)) (l.map val) := by
  obtain ⟨vs, h1, h2⟩ := parseAll_two H
  rw [← parseAll_map] at h1
  refine ⟨.list (encAll (l.map tree)) vs, by bt [h1], ?_⟩
  simp [Val.elems, bind, Except.bind, h2]

theorem reads_setOf {α γ : Type} {ty : Ty} {tree : α → T} {read : Val → Except Exc γ} {val : α → γ} {l : List α}
    (H : ∀ a ∈ l, Reads ty (tree a) read (val a)) :
    Reads (.setOf ty) (.node 0x31 (l.map tree)) (fun v => do parseAll read (← v.elems)) (l.map val) := by
  obtain ⟨vs, h1, h2⟩ := parseAll_two H
  rw [← parseAll_map] at h1
  refine ⟨.list (encAll (l.map tree)) vs, by bt [h1], ?_⟩
  simp [Val.elems, bind, Except.bind, h2]

theorem nameIn_lookup (map : List (List Nat × String)) (o : List Nat) :
    (map.lookup o).getD (dotted o) = nameIn map o := by
  induction map with
  | nil => rfl
  | cons x map ih =>
    unfold nameIn at *
    obtain ⟨a, b⟩ := x
    by_cases h : o = a
    · subst h; simp [List.lookup]
    · have h1 : (o == a) = false := by simpa using h
      have h2 : ¬ (a = o) := fun e => h e.symm
      rw [List.lookup, h1, List.find?_cons_of_neg (by simpa using h2)]
      exact ih

theorem oidNative_eq (map : List (List Nat × String)) {o : List Nat} (h : ValidOid o) :
    oidNative map (oidOctets o) = nameIn map o := by
  unfold oidNative
  rw [oidArcs_oidOctets h, nameIn_lookup]

/-! ### Names -/

/-- As a tree. -/
def _root_.Signify.Spec.DText.tree : DText → T
  | .utf8 s => .leaf 0x0C s.toByteArray.data.toList
  | .printable s => .leaf 0x13 (asciiOctets s)
  | .ia5 s => .leaf 0x16 (asciiOctets s)
  | .bmp s => .leaf 0x1E (bmpOctets s)

theorem _root_.Signify.Spec.DText.enc_tree (s : DText) : s.tree.enc = s.encode := by
  cases s <;> simp [DText.tree, T.enc, DText.encode]

theorem utf8Native_ok (s : String) : utf8Native s.toByteArray.data.toList = .ok s := by
  unfold utf8Native String.fromUTF8?
  have : (⟨s.toByteArray.data.toList.toArray⟩ : ByteArray) = s.toByteArray := rfl
  rw [this, dif_pos s.isValidUTF8]
  rfl

theorem textNative_ok {s : DText} (h : s.Valid) : textNative s.tree.parts = .ok s.text := by
  cases s with
  | utf8 s => simp [textNative, DText.tree, T.parts, tlvParts, T.id, T.cont, DText.text, utf8Native_ok]
  | printable s => simp [textNative, DText.tree, T.parts, tlvParts, T.id, T.cont, DText.text, asciiNative_asciiOctets h]
  | ia5 s => simp [textNative, DText.tree, T.parts, tlvParts, T.id, T.cont, DText.text, asciiNative_asciiOctets h]
  | bmp s => simp [textNative, DText.tree, T.parts, tlvParts, T.id, T.cont, DText.text, bmpNative_bmpOctets]

/-- As a tree. -/
def _root_.Signify.Spec.DAttrValue.tree : DAttrValue → T
  | .text t => t.tree
  | .unique b => .leaf 0x03 (0 :: b)
  | .octets b => .leaf 0x04 b
  | .int i => .leaf 0x02 (intOctets i)

theorem _root_.Signify.Spec.DAttrValue.enc_tree (v : DAttrValue) : v.tree.enc = v.encode := by
  cases v <;> simp [DAttrValue.tree, T.enc, DAttrValue.encode, DText.enc_tree, derOctets, derInt]

theorem lookup_unknown {map : List (List Nat × String)} {o : List Nat} (h : ∀ x ∈ map, x.1 ≠ o) : map.lookup o = none := by
  induction map with
  | nil => rfl
  | cons x map ih =>
    have h1 : (o == x.1) = false := by simpa using (h x (by simp)).symm
    rw [List.lookup, h1]
    exact ih (fun y hy => h y (List.mem_cons_of_mem _ hy))

theorem nameTypes_eq : nameTypes = attributeNames := rfl

theorem unique_known : ∃ x ∈ attributeNames, x.1 = [2, 5, 4, 45] := by decide

theorem text_tags (t : DText) : t.tree.parts.tag ≠ 4 ∧ t.tree.parts.tag ≠ 2 := by
  cases t <;> simp [DText.tree, T.parts, tlvParts, T.id, T.cont]

theorem readNameVal_ok {o : List Nat} {v : DAttrValue} (h : v.Valid o) : readNameVal o v.tree.parts = .ok v.value := by
  cases v with
  | text t =>
    have := text_tags t
    unfold readNameVal
    rw [if_neg h.2, if_neg (fun hh => (text_tags t).1 hh.2.2.2), if_neg (fun hh => (text_tags t).2 hh.2.2.2)]
    show (textNative t.tree.parts >>= fun s => .ok (NameVal.text s)) = _
    rw [textNative_ok h.1]
    rfl
  | unique b =>
    cases h
    simp [readNameVal, DAttrValue.tree, T.parts, tlvParts, T.id, T.cont, DAttrValue.value]
  | octets b =>
    have h1 := lookup_unknown h
    have h2 : o ≠ [2, 5, 4, 45] := by
      obtain ⟨x, hx, he⟩ := unique_known
      exact fun ho => h x hx (he.trans ho.symm)
    simp [readNameVal, h2, nameTypes_eq, h1, DAttrValue.tree, T.parts, tlvParts, T.id, T.cont, DAttrValue.value]
  | int i =>
    have h1 := lookup_unknown h
    have h2 : o ≠ [2, 5, 4, 45] := by
      obtain ⟨x, hx, he⟩ := unique_known
      exact fun ho => h x hx (he.trans ho.symm)
    simp [readNameVal, h2, nameTypes_eq, h1, DAttrValue.tree, T.parts, tlvParts, T.id, T.cont, DAttrValue.value, intNative_intOctets]

/-- As a tree. -/
def _root_.Signify.Spec.DAtv.tree (a : DAtv) : T := .node 0x30 [.leaf 6 (oidOctets a.oid), a.val.tree]

theorem _root_.Signify.Spec.DAtv.enc_tree (a : DAtv) : a.tree.enc = a.encode := by
  simp [DAtv.tree, T.enc, encAll, DAtv.encode, derSeq, derOid, DAttrValue.enc_tree]

theorem reads_atv {a : DAtv} (h : a.Valid) :
    Reads (.seq [field "type" tOid, field "value" .any]) a.tree readAtv a.value := by
  refine ⟨.seq a.tree.cont [("type", some (.prim (oidOctets a.oid))), ("value", some (.any a.val.tree.parts))], ?_, ?_⟩
  · bt [DAtv.tree, tOid]
  · simp [readAtv, Val.req, Val.get, List.lookup, bind, Except.bind, Val.octets, Val.parts, readNameVal_ok h.2,
      oidNative_eq nameTypes h.1, oidArcs_oidOctets h.1, DAtv.value]
    rfl

/-- As a tree. -/
def rdnTree (r : DAtv × List DAtv) : T := .node 0x31 ((r.1 :: r.2).map DAtv.tree)

/-- As a tree. -/
def _root_.Signify.Spec.DName.tree (n : DName) : T := .node 0x30 (n.map rdnTree)

theorem enc_rdnTree (r : DAtv × List DAtv) : (rdnTree r).enc = derSet ((r.1 :: r.2).map DAtv.encode) := by
  simp [rdnTree, T.enc, encAll, encAll_map, DAtv.enc_tree, derSet]

theorem _root_.Signify.Spec.DName.enc_tree (n : DName) : n.tree.enc = n.encode := by
  simp only [DName.tree, T.enc, encAll_map, enc_rdnTree, DName.encode, derSeq]

theorem reads_rdn {r : DAtv × List DAtv} (h : ∀ a ∈ r.1 :: r.2, a.Valid) :
    Reads (.setOf (.seq [field "type" tOid, field "value" .any])) (rdnTree r) readRdn ⟨r.1.value, r.2.map DAtv.value⟩ := by
  obtain ⟨v, h1, h2⟩ := reads_setOf (fun a ha => reads_atv (h a ha))
  refine ⟨v, h1, ?_⟩
  cases v <;> simp [Val.elems, bind, Except.bind, asn1Bad] at h2
  simp only [readRdn, bind, Except.bind, Val.elems, h2]

theorem reads_name {n : DName} (h : n.Valid) : Reads tName n.tree readName n.value := by
  obtain ⟨v, h1, h2⟩ := reads_seqOf (fun r hr => reads_rdn (h r hr))
  refine ⟨v, h1, ?_⟩
  cases v <;> simp [Val.elems, bind, Except.bind, asn1Bad] at h2
  simp only [readName, bind, Except.bind, Val.elems, h2]
  rfl

/-! ### Certificates -/

/-- As a tree. -/
def _root_.Signify.Spec.DAny.tree (a : DAny) : T := .leaf a.id a.contents

theorem _root_.Signify.Spec.DAny.enc_tree (a : DAny) : a.tree.enc = a.encode := by simp [DAny.tree, T.enc, DAny.encode]

/-- As a tree. -/
def _root_.Signify.Spec.DSigAlg.tree (a : DSigAlg) : T := .node 0x30 (.leaf 6 (oidOctets a.oid) :: optT DAny.tree a.params)

theorem _root_.Signify.Spec.DSigAlg.enc_tree (a : DSigAlg) : a.tree.enc = a.encode := by
  simp [DSigAlg.tree, T.enc, encAll, encAll_optT, DAny.enc_tree, DSigAlg.encode, derSeq, derOid]

theorem reads_sigAlg_exact (map : List (List Nat × String)) {a : DSigAlg} (h : a.Valid) :
    Reads tAlgorithm a.tree (readAlg map) ⟨nameIn map a.oid, (a.params.map (fun p => truthy p.tree.parts)).getD false⟩ := by
  refine ⟨.seq a.tree.cont [("algorithm", some (.prim (oidOctets a.oid))), ("parameters", a.params.map (fun p => .any p.tree.parts))], ?_, ?_⟩
  · obtain ⟨o, p⟩ := a
    cases p <;> bt [DSigAlg.tree, tAlgorithm, tOid]
  · obtain ⟨o, p⟩ := a
    have e := oidNative_eq map h.1
    simp only at e
    cases p <;> simp [readAlg, Val.req, Val.get, List.lookup, bind, Except.bind, Val.octets, Val.parts, e]

theorem reads_sigAlg (map : List (List Nat × String)) {a : DSigAlg} (h : a.Valid) :
    ∃ b, Reads tAlgorithm a.tree (readAlg map) ⟨nameIn map a.oid, b⟩ := ⟨_, reads_sigAlg_exact map h⟩

/-- As a tree. -/
def _root_.Signify.Spec.DAlg.tree (a : DAlg) : T :=
  .node 0x30 (.leaf 6 (oidOctets a.oid) :: if a.null then [.leaf 5 []] else [])

theorem _root_.Signify.Spec.DAlg.enc_tree (a : DAlg) : a.tree.enc = a.encode := by
  unfold DAlg.tree DAlg.encode
  cases a.null <;> simp [T.enc, encAll, derSeq, derOid, derNull]

theorem reads_alg (map : List (List Nat × String)) {a : DAlg} (h : ValidOid a.oid) :
    Reads tAlgorithm a.tree (readAlg map) ⟨nameIn map a.oid, false⟩ := by
  refine ⟨a.val, ?_, ?_⟩
  · obtain ⟨o, p⟩ := a
    cases p <;> bt [DAlg.tree, tAlgorithm, tOid, DAlg.val, encAll, T.enc, derOid, derNull]
  · rw [readAlg_val map a h, nameIn_lookup]

/-- As trees. -/
def _root_.Signify.Spec.DKeyParams.trees : DKeyParams → List T
  | .absent => []
  | .null => [.leaf 5 []]
  | .curve o => [.leaf 6 (oidOctets o)]
  | .dsa p q g => [.node 0x30 [.leaf 2 (intOctets p), .leaf 2 (intOctets q), .leaf 2 (intOctets g)]]

theorem _root_.Signify.Spec.DKeyParams.enc_trees (p : DKeyParams) : encAll p.trees = p.encode := by
  cases p <;> simp [DKeyParams.trees, encAll, T.enc, DKeyParams.encode, derNull, derOid, derSeq, derInt]

theorem T.ok_of {t : T} (h1 : t.good = true) (h2 : t.enc.length < maxLen) : t.Ok := ⟨h1, by have := t.cont_lt; omega⟩

theorem readKeyParams_ok {alg : List Nat} {p : DKeyParams} (h : p.Valid alg) (hl : p.encode.length < maxLen) :
    readKeyParams (nameIn keyNames alg) (p.trees.head?.map (fun t => .any t.parts)) = .ok p.value := by
  cases p with
  | absent => rfl
  | null => rfl
  | curve o =>
    simp only [DKeyParams.trees, List.head?_cons, Option.map_some, readKeyParams, Val.parts, bind, Except.bind]
    rw [if_neg (by simp [T.parts, tlvParts, T.id]), if_pos (by simp [T.parts, tlvParts, T.id])]
    simp only [T.parts, tlvParts, T.cont, DKeyParams.value]
    rw [oidNative_eq _ h]
    rfl
  | dsa p q g =>
    have ha : alg = [1, 2, 840, 10040, 4, 1] := h
    subst ha
    have hn : nameIn keyNames [1, 2, 840, 10040, 4, 1] = "dsa" := by decide +kernel
    have hok : (T.node 0x30 [.leaf 2 (intOctets p), .leaf 2 (intOctets q), .leaf 2 (intOctets g)]).Ok := by
      refine T.ok_of (by simp [T.good, goodAll]) ?_
      rw [← DKeyParams.enc_trees] at hl
      simpa [DKeyParams.trees, encAll] using hl
    have e : (Ty.seq [field "p" tInteger, field "q" tInteger, field "g" tInteger]).build none
        (T.node 0x30 [.leaf 2 (intOctets p), .leaf 2 (intOctets q), .leaf 2 (intOctets g)]).parts =
        .ok (.seq (encAll [.leaf 2 (intOctets p), .leaf 2 (intOctets q), .leaf 2 (intOctets g)])
          [("p", some (.prim (intOctets p))), ("q", some (.prim (intOctets q))), ("g", some (.prim (intOctets g)))]) := by
      rw [build_tree _ _ _ hok]
      bt [tInteger]
    rw [hn]
    simp only [DKeyParams.trees, List.head?_cons, Option.map_some, readKeyParams, Val.parts, bind, Except.bind]
    rw [if_neg (by simp [T.parts, tlvParts, T.id]), if_neg (by simp [T.parts, tlvParts, T.id]), e]
    simp [Val.req, Val.get, List.lookup, bind, Except.bind, Val.octets, intNative_intOctets, DKeyParams.value]

/-! ### Tags -/

theorem goodAll_append (a b : List T) : goodAll (a ++ b) = (goodAll a && goodAll b) := by
  induction a with
  | nil => simp [goodAll]
  | cons x a ih => simp [goodAll, ih, Bool.and_assoc]

theorem goodAll_optT {α : Type} (f : α → T) (o : Option α) (h : ∀ a, o = some a → (f a).good = true) :
    goodAll (optT f o) = true := by
  cases o with
  | none => rfl
  | some a => simp [goodAll, h a rfl]

theorem goodAll_map {α : Type} (f : α → T) (l : List α) (h : ∀ a ∈ l, (f a).good = true) : goodAll (l.map f) = true := by
  rw [goodAll_iff]
  intro t ht
  obtain ⟨a, ha, rfl⟩ := List.mem_map.mp ht
  exact h a ha

theorem good_oids (l : List (List Nat)) : (oidsTree l).good = true := by
  have := goodAll_map (fun o => T.leaf 6 (oidOctets o)) l (fun _ _ => by simp [T.good])
  simp [oidsTree, T.good, this]

theorem good_time (t : DTime) : t.tree.good = true := by unfold DTime.tree; split <;> simp [T.good]

theorem good_atv (a : DAtv) : a.tree.good = true := by
  have : a.val.tree.good = true := by
    cases a.val with
    | text t => cases t <;> simp [DAttrValue.tree, DText.tree, T.good]
    | _ => simp [DAttrValue.tree, T.good]
  simp [DAtv.tree, T.good, goodAll, this]

theorem good_name (n : DName) : n.tree.good = true := by
  have := goodAll_map rdnTree n (fun r _ => by
    have := goodAll_map DAtv.tree (r.1 :: r.2) (fun a _ => good_atv a)
    rw [rdnTree, T.good, this]
    rfl)
  simp [DName.tree, T.good, this]

theorem good_sigAlg {a : DSigAlg} (h : a.Valid) : a.tree.good = true := by
  have := goodAll_optT DAny.tree a.params (fun p hp => by simpa [DAny.tree, T.good, DAny.Valid] using h.2 p hp)
  simp [DSigAlg.tree, T.good, goodAll, this]

theorem good_alg (a : DAlg) : a.tree.good = true := by
  unfold DAlg.tree
  cases a.null <;> simp [T.good, goodAll]

theorem good_keyParams (p : DKeyParams) : goodAll p.trees = true := by
  cases p <;> simp [DKeyParams.trees, T.good, goodAll]

/-! ### Extensions -/

/-- As a tree. -/
def criticalTrees (b : Bool) : List T := if b then [.leaf 1 [0xFF]] else []

/-- As a tree. -/
def _root_.Signify.Spec.DExt.tree : DExt → T
  | .eku c l => .node 0x30 ([.leaf 6 (oidOctets oidEku)] ++ criticalTrees c ++ [.leaf 4 (encodeOids l)])
  | .other o c v => .node 0x30 ([.leaf 6 (oidOctets o)] ++ criticalTrees c ++ [.leaf 4 v])

theorem _root_.Signify.Spec.DExt.enc_tree (e : DExt) : e.tree.enc = e.encode := by
  cases e with
  | eku c l => cases c <;> simp [DExt.tree, T.enc, encAll, criticalTrees, DExt.encode, derSeq, derOid, derOctets, derCritical]
  | other o c v => cases c <;> simp [DExt.tree, T.enc, encAll, criticalTrees, DExt.encode, derSeq, derOid, derOctets, derCritical]

theorem good_ext (e : DExt) : e.tree.good = true := by
  cases e with
  | eku c l => cases c <;> simp [DExt.tree, T.good, goodAll, criticalTrees]
  | other o c v => cases c <;> simp [DExt.tree, T.good, goodAll, criticalTrees]

/-- Identifier and value of an extension. -/
def _root_.Signify.Spec.DExt.oid : DExt → List Nat
  | .eku _ _ => oidEku
  | .other o _ _ => o
/-- Identifier and value of an extension. -/
def _root_.Signify.Spec.DExt.value : DExt → Bytes
  | .eku _ l => encodeOids l
  | .other _ _ v => v

theorem validEku : ValidOid oidEku := ⟨2, 5, [29, 37], rfl, by omega, by omega⟩

theorem DExt.valid_oid {e : DExt} (h : e.Valid) : ValidOid e.oid := by
  cases e with
  | eku c l => exact validEku
  | other o c v => exact h.1

theorem buildT_ext (e : DExt) : ∃ v, tExtension.buildT none e.tree = .ok v ∧
    v.req "extn_id" = .ok (.prim (oidOctets e.oid)) ∧ v.req "extn_value" = .ok (.prim e.value) := by
  cases e with
  | eku c l =>
    cases c
    · refine ⟨.seq (DExt.eku false l).tree.cont [("extn_id", some (.prim (oidOctets oidEku))), ("critical", none),
        ("extn_value", some (.prim (encodeOids l)))], ?_, ?_, ?_⟩
      · bt [tExtension, DExt.tree, criticalTrees, tOid, tBoolean, tOctetString]
      · simp [Val.req, Val.get, List.lookup, bind, Except.bind, DExt.oid]
      · simp [Val.req, Val.get, List.lookup, bind, Except.bind, DExt.value]
    · refine ⟨.seq (DExt.eku true l).tree.cont [("extn_id", some (.prim (oidOctets oidEku))), ("critical", some (.prim [0xFF])),
        ("extn_value", some (.prim (encodeOids l)))], ?_, ?_, ?_⟩
      · bt [tExtension, DExt.tree, criticalTrees, tOid, tBoolean, tOctetString]
      · simp [Val.req, Val.get, List.lookup, bind, Except.bind, DExt.oid]
      · simp [Val.req, Val.get, List.lookup, bind, Except.bind, DExt.value]
  | other o c w =>
    cases c
    · refine ⟨.seq (DExt.other o false w).tree.cont [("extn_id", some (.prim (oidOctets o))), ("critical", none),
        ("extn_value", some (.prim w))], ?_, ?_, ?_⟩
      · bt [tExtension, DExt.tree, criticalTrees, tOid, tBoolean, tOctetString]
      · simp [Val.req, Val.get, List.lookup, bind, Except.bind, DExt.oid]
      · simp [Val.req, Val.get, List.lookup, bind, Except.bind, DExt.value]
    · refine ⟨.seq (DExt.other o true w).tree.cont [("extn_id", some (.prim (oidOctets o))), ("critical", some (.prim [0xFF])),
        ("extn_value", some (.prim w))], ?_, ?_, ?_⟩
      · bt [tExtension, DExt.tree, criticalTrees, tOid, tBoolean, tOctetString]
      · simp [Val.req, Val.get, List.lookup, bind, Except.bind, DExt.oid]
      · simp [Val.req, Val.get, List.lookup, bind, Except.bind, DExt.value]

theorem derEkus_ok {l : List (List Nat)} (h : ∀ o ∈ l, ValidOid o) (hl : (encodeOids l).length < maxLen) (rest : Bytes) :
    derEkus (encodeOids l ++ rest) = .ok (l.map (nameIn purposeNames)) := by
  have hok : (oidsTree l).Ok := T.ok_of (good_oids l) (by rw [enc_oidsTree]; exact hl)
  unfold derEkus Ty.load
  rw [← enc_oidsTree, parse_tree _ _ hok.1 hok.2]
  simp only [bind, Except.bind]
  rw [build_tree _ _ _ hok, tExtKeyUsage, buildT_oids _ _ rfl]
  simp only
  rw [readOids_val _ _ _ h]
  simp only [nameIn_lookup]
  rfl

theorem ext_value_length (e : DExt) : e.value.length ≤ e.encode.length := by
  rw [← e.enc_tree]
  cases e with
  | eku c l =>
    have h1 := (DExt.eku c l).tree.cont_lt
    have h2 : (T.leaf 4 (encodeOids l)).enc.length ≤ (DExt.eku c l).tree.cont.length := encAll_le (by simp)
    have h3 := (T.leaf 4 (encodeOids l)).cont_lt
    simp only [DExt.value, T.cont] at *
    omega
  | other o c v =>
    have h1 := (DExt.other o c v).tree.cont_lt
    have h2 : (T.leaf 4 v).enc.length ≤ (DExt.other o c v).tree.cont.length := encAll_le (by simp)
    have h3 := (T.leaf 4 v).cont_lt
    simp only [DExt.value, T.cont] at *
    omega

theorem readEku_ok {l : List DExt} (h : ∀ e ∈ l, e.Valid) (hl : ∀ e ∈ l, e.encode.length < maxLen) :
    ∃ vs, parseAll (tExtension.buildT none) (l.map DExt.tree) = .ok vs ∧
      readEku vs = .ok ((lastEku l).map (·.map (nameIn purposeNames))) := by
  induction l with
  | nil => exact ⟨[], rfl, rfl⟩
  | cons e l ih =>
    obtain ⟨vs, h1, h2⟩ := ih (fun e he => h e (List.mem_cons_of_mem _ he)) (fun e he => hl e (List.mem_cons_of_mem _ he))
    obtain ⟨v, h3, h4, h5⟩ := buildT_ext e
    have hv := h e (List.mem_cons_self ..)
    have hle := hl e (List.mem_cons_self ..)
    refine ⟨v :: vs, by simp [parseAll, h1, h3, bind, Except.bind], ?_⟩
    have ho := oidArcs_oidOctets (DExt.valid_oid hv)
    cases e with
    | eku c us =>
      have he : derEkus (encodeOids us) = .ok (us.map (nameIn purposeNames)) := by
        have := derEkus_ok hv (by have := ext_value_length (.eku c us); simp only [DExt.value] at this; omega) []
        simpa using this
      simp only [DExt.oid, DExt.value] at ho h4 h5
      have hoe : oidArcs (oidOctets oidEku) = [2, 5, 29, 37] := ho
      simp only [readEku, h4, h5, Val.octets, bind, Except.bind, hoe, if_true, he, h2, lastEku]
      cases lastEku l <;> simp
    | other o c w =>
      simp only [DExt.oid, DExt.value] at ho h4 h5
      have : ¬ o = [2, 5, 29, 37] := hv.2
      simp only [readEku, h4, h5, Val.octets, bind, Except.bind, ho, if_neg this, h2, lastEku]
      cases lastEku l <;> simp

/-! ### Certificates -/

/-- As a tree. -/
def spkiTree (c : DCert) : T :=
  .node 0x30 [.node 0x30 (.leaf 6 (oidOctets c.keyAlg) :: c.keyParams.trees), .leaf 3 (bitOctets c.key)]

/-- As a tree. -/
def tbsTree (c : DCert) : T :=
  .node 0x30 (optT (fun v => .node 0xA0 [.leaf 2 (intOctets v)]) c.version ++ [.leaf 2 (intOctets c.serial), c.sigAlg.tree, c.issuer.tree,
    .node 0x30 [c.notBefore.tree, c.notAfter.tree], c.subject.tree, spkiTree c] ++
    optT (fun b => .leaf 0x81 (bitOctets b)) c.issuerUid ++ optT (fun b => .leaf 0x82 (bitOctets b)) c.subjectUid ++
    optT (fun l : List DExt => .node 0xA3 [.node 0x30 (l.map DExt.tree)]) c.extensions)

/-- As a tree. -/
def _root_.Signify.Spec.DCert.tree (c : DCert) : T := .node 0x30 [tbsTree c, c.sigAlg.tree, .leaf 3 (bitOctets c.signature)]

theorem enc_spki (c : DCert) :
    (spkiTree c).enc = derSeq [derSeq [derOid c.keyAlg, c.keyParams.encode], derBits c.key] := by
  simp [spkiTree, T.enc, encAll, derSeq, derOid, derBits, DKeyParams.enc_trees]

theorem enc_tbs (c : DCert) : (tbsTree c).enc = c.tbs := by
  simp [tbsTree, T.enc, encAll, encAll_append, encAll_optT, DCert.tbs, derSeq, derInt, enc_spki, DSigAlg.enc_tree, DName.enc_tree,
    DTime.enc_tree, encAll_map, DExt.enc_tree]

theorem _root_.Signify.Spec.DCert.enc_tree (c : DCert) : c.tree.enc = c.encode := by
  simp [DCert.tree, T.enc, encAll, DCert.encode, derSeq, derBits, enc_tbs, DSigAlg.enc_tree]

theorem good_spki (c : DCert) : (spkiTree c).good = true := by
  simp [spkiTree, T.good, goodAll, good_keyParams]

theorem good_cert {c : DCert} (h : c.Valid) : c.tree.good = true := by
  have h1 := good_sigAlg h.1
  have h2 := goodAll_optT (fun v => T.node 0xA0 [.leaf 2 (intOctets v)]) c.version (fun _ _ => by simp [T.good, goodAll])
  have h3 := goodAll_optT (fun b => T.leaf 0x81 (bitOctets b)) c.issuerUid (fun _ _ => by simp [T.good])
  have h4 := goodAll_optT (fun b => T.leaf 0x82 (bitOctets b)) c.subjectUid (fun _ _ => by simp [T.good])
  have h5 := goodAll_optT (fun l : List DExt => T.node 0xA3 [.node 0x30 (l.map DExt.tree)]) c.extensions
    (fun l _ => by simp [T.good, goodAll, goodAll_map DExt.tree l (fun e _ => good_ext e)])
  simp [DCert.tree, tbsTree, T.good, goodAll, goodAll_append, h1, h2, h3, h4, h5, good_name, good_time, good_spki]

/-- The value of the algorithm of the key. -/
def keyAlgVal (c : DCert) : Val := .seq (encAll (.leaf 6 (oidOctets c.keyAlg) :: c.keyParams.trees))
  [("algorithm", some (.prim (oidOctets c.keyAlg))), ("parameters", c.keyParams.trees.head?.map (fun t => .any t.parts))]

/-- The value of the key. -/
def spkiVal (c : DCert) : Val := .seq (spkiTree c).cont [("algorithm", some (keyAlgVal c)),
  ("public_key", some (.any (T.leaf 3 (bitOctets c.key)).parts))]

theorem buildT_spki (c : DCert) : tPublicKeyInfo.buildT none (spkiTree c) = .ok (spkiVal c) := by
  unfold spkiVal keyAlgVal spkiTree
  cases c.keyParams <;> bt [spkiTree, tPublicKeyInfo, tAlgorithm, tOid, DKeyParams.trees]

/-- The value of the extensions. -/
def extsVal (c : DCert) (vs : List Val) : Option Val :=
  c.extensions.map (fun l => .list (encAll (l.map DExt.tree)) vs)

theorem buildT_cert {c : DCert} {sa iv nb na sv : Val} {vs : List Val}
    (h1 : tAlgorithm.buildT none c.sigAlg.tree = .ok sa) (h2 : tName.buildT none c.issuer.tree = .ok iv)
    (h3 : tTime.buildT none c.notBefore.tree = .ok nb) (h4 : tTime.buildT none c.notAfter.tree = .ok na)
    (h5 : tName.buildT none c.subject.tree = .ok sv)
    (h6 : ∀ l, c.extensions = some l → parseAll (tExtension.buildT none) (l.map DExt.tree) = .ok vs) :
    tCertificate.buildT none c.tree = .ok (.seq c.tree.cont [
      ("tbs_certificate", some (.seq (tbsTree c).cont [
        ("version", c.version.map (fun v => .prim (intOctets v))),
        ("serial_number", some (.prim (intOctets c.serial))),
        ("signature", some sa),
        ("issuer", some iv),
        ("validity", some (.seq (encAll [c.notBefore.tree, c.notAfter.tree]) [("not_before", some nb), ("not_after", some na)])),
        ("subject", some sv),
        ("subject_public_key_info", some (spkiVal c)),
        ("issuer_unique_id", c.issuerUid.map (fun v => .prim (bitOctets v))),
        ("subject_unique_id", c.subjectUid.map (fun v => .prim (bitOctets v))),
        ("extensions", extsVal c vs)])),
      ("signature_algorithm", some sa),
      ("signature_value", some (.prim (bitOctets c.signature)))]) := by
  have h7 := buildT_spki c
  have e : tTbsCertificate.buildT none (tbsTree c) = .ok (.seq (tbsTree c).cont [
        ("version", c.version.map (fun v => .prim (intOctets v))),
        ("serial_number", some (.prim (intOctets c.serial))),
        ("signature", some sa),
        ("issuer", some iv),
        ("validity", some (.seq (encAll [c.notBefore.tree, c.notAfter.tree]) [("not_before", some nb), ("not_after", some na)])),
        ("subject", some sv),
        ("subject_public_key_info", some (spkiVal c)),
        ("issuer_unique_id", c.issuerUid.map (fun v => .prim (bitOctets v))),
        ("subject_unique_id", c.subjectUid.map (fun v => .prim (bitOctets v))),
        ("extensions", extsVal c vs)]) := by
    unfold tbsTree extsVal
    generalize spkiTree c = sp at *
    generalize spkiVal c = spv at *
    cases c.version <;> cases c.issuerUid <;> cases c.subjectUid <;> cases hx : c.extensions <;>
      bt [tTbsCertificate, h1, h2, h3, h4, h5, h7, tInteger, tBitString] <;> simp [h6 _ hx]
  bt [DCert.tree, tCertificate, e, h1, tBitString]

theorem dump_parts (t : T) : t.parts.dump = t.enc := by
  rw [t.enc_eq]
  simp [T.parts, tlvParts, Parts.dump, tlv]

theorem readCert_ok {c : DCert} (h : c.Valid) (hl : c.encode.length < maxLen) :
    readCert c.tree.parts = .ok (c.cert certIdent) := by
  obtain ⟨v1, v2, v3, v4, v5, v6, v7, v8⟩ := h
  obtain ⟨_, sa, h1, _⟩ := reads_sigAlg digestAlgorithmMap v1
  obtain ⟨iv, h2, h2'⟩ := reads_name v2
  obtain ⟨sv, h5, h5'⟩ := reads_name v5
  have hok : c.tree.Ok := T.ok_of (good_cert ⟨v1, v2, v3, v4, v5, v6, v7, v8⟩) (by rw [c.enc_tree]; exact hl)
  have htbs : (tbsTree c).Ok := hok.child (by simp)
  have hspki : (spkiTree c).Ok := htbs.child (by simp)
  have hkp : c.keyParams.encode.length < maxLen := by
    have h := (hspki.child (t := .node 0x30 (.leaf 6 (oidOctets c.keyAlg) :: c.keyParams.trees)) (by simp)).2
    simp only [T.cont, encAll, List.length_append, DKeyParams.enc_trees] at h
    omega
  have hx : ∃ vs, (∀ l, c.extensions = some l → parseAll (tExtension.buildT none) (l.map DExt.tree) = .ok vs) ∧
      (∀ l, c.extensions = some l → readEku vs = .ok ((lastEku l).map (·.map (nameIn purposeNames)))) := by
    cases hxe : c.extensions with
    | none => exact ⟨[], (fun _ h => by cases h), (fun _ h => by cases h)⟩
    | some l =>
      have hb : (T.node 0xA3 [.node 0x30 (l.map DExt.tree)]).Ok := htbs.child (by simp [hxe])
      have hb2 : (T.node 0x30 (l.map DExt.tree)).Ok := hb.child (by simp)
      obtain ⟨vs, e1, e2⟩ := readEku_ok (v8 l hxe) (fun e he => by
        have h1 : e.tree.enc.length ≤ (encAll (l.map DExt.tree)).length := encAll_le (List.mem_map_of_mem he)
        have h2 := hb2.2
        simp only [T.cont] at h2
        rw [e.enc_tree] at h1
        omega)
      exact ⟨vs, (fun l' h => by cases h; exact e1), (fun l' h => by cases h; exact e2)⟩
  obtain ⟨vs, h6, h6'⟩ := hx
  have hb := buildT_cert h1 h2 (buildT_time _ _) (buildT_time _ _) h5 h6
  have t1 := readTime_val v3
  have t2 := readTime_val v4
  have hk := readKeyParams_ok v7 hkp
  have hn := oidNative_eq publicKeyAlgorithms v6
  have hkn : publicKeyAlgorithms = keyNames := rfl
  rw [hkn] at hn
  unfold readCert
  rw [build_tree _ _ _ hok, hb, dump_parts, c.enc_tree, hkn]
  rd [h2', h5', t1, t2, spkiVal, keyAlgVal, hn, hk, dump_parts, DCert.cert, intNative_intOctets, T.enc, derBits]
  cases hxe : c.extensions with
  | none => simp [extsVal, hxe]
  | some l => simp [extsVal, hxe, Val.elems, h6' l hxe]

end Signify.Asn1
