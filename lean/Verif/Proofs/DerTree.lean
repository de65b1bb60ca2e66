/-
The structures of Authenticode as trees.
-/
import Verif.Proofs.Asn1Tree
import Verif.Proofs.DerSpc

set_option autoImplicit false

namespace Signify.Asn1

open Signify Spec

/-- Evaluate decoding on a given tree. -/
macro "bt" "[" ts:Lean.Parser.Tactic.simpLemma,* "]" : tactic =>
  `(tactic| simp [Ty.buildT, buildFieldsT, buildAltsT, untagT, checkId, T.parts, tlvParts, T.id, T.cont, Field.accepts, Ty.accepts,
    anyAccepts, field, optField, optExplicit, optImplicit, bind, Except.bind, parseAll, $ts,*])

theorem get_hit (c : Bytes) (n : String) (o : Option Val) (l : List (String × Option Val)) :
    Val.get (.seq c ((n, o) :: l)) n = .ok o := by simp [Val.get, List.lookup]

theorem get_miss (c : Bytes) (n name : String) (o : Option Val) (l : List (String × Option Val)) (h : name ≠ n) :
    Val.get (.seq c ((n, o) :: l)) name = Val.get (.seq c l) name := by
  have : (name == n) = false := by simpa using h
  simp [Val.get, List.lookup, this]

theorem req_hit (c : Bytes) (n : String) (v : Val) (l : List (String × Option Val)) :
    Val.req (.seq c ((n, some v) :: l)) n = .ok v := by simp [Val.req, get_hit, bind, Except.bind]

theorem req_miss (c : Bytes) (n name : String) (o : Option Val) (l : List (String × Option Val)) (h : name ≠ n) :
    Val.req (.seq c ((n, o) :: l)) name = Val.req (.seq c l) name := by simp [Val.req, get_miss _ _ _ _ _ h]

/-- Evaluate access to a given value. -/
macro "rd" "[" ts:Lean.Parser.Tactic.simpLemma,* "]" : tactic =>
  `(tactic| simp [get_hit, get_miss, req_hit, req_miss, bind, Except.bind, Val.octets, Val.elems, Val.parts, $ts,*])

/-- An optional component, as a list. -/
def optT {α : Type} (f : α → T) (o : Option α) : List T := (o.map f).toList

@[simp] theorem optT_none {α : Type} (f : α → T) : optT f none = [] := rfl
@[simp] theorem optT_some {α : Type} (f : α → T) (a : α) : optT f (some a) = [f a] := rfl

/-- As a tree. -/
def _root_.Signify.Spec.DString.tree (s : DString) : T := .leaf s.id s.cont

/-- As a tree. -/
def _root_.Signify.Spec.DLink.tree : DLink → T
  | .url s => .leaf 0x80 (asciiOctets s)
  | .moniker c d => .node 0xA1 [.leaf 4 c, .leaf 4 d]
  | .file s => .node 0xA2 [s.tree]

theorem _root_.Signify.Spec.DString.enc_tree (s : DString) : s.tree.enc = s.encode := by
  simp [DString.tree, T.enc, s.encode_eq]

theorem _root_.Signify.Spec.DLink.enc_tree (s : DLink) : s.tree.enc = s.encode := by
  cases s <;> simp [DLink.tree, T.enc, encAll, DLink.encode, derOctets, DString.enc_tree]

theorem buildT_string (s : DString) (i : Option Nat) : tSpcString.buildT i s.tree = .ok s.val := by
  cases s <;> bt [tSpcString, DString.tree, DString.id, DString.cont, DString.val, tBMPString, tIA5String]

theorem buildT_link (s : DLink) (i : Option Nat) : tSpcLink.buildT i s.tree = .ok s.val := by
  cases s with
  | url s => bt [tSpcLink, DLink.tree, DLink.val, tIA5String]
  | moniker c d => bt [tSpcLink, DLink.tree, DLink.val, tSpcSerializedObject, tSpcUuid, tOctetString, encAll, T.enc, derOctets]
  | file s => bt [tSpcLink, DLink.tree, DLink.val, buildT_string]

/-- As a tree. -/
def _root_.Signify.Spec.DOpus.tree (o : DOpus) : T :=
  .node 0x30 (optT (fun s : DString => .node 0xA0 [s.tree]) o.programName ++ optT (fun s : DLink => .node 0xA1 [s.tree]) o.moreInfo ++
    optT (fun s : DLink => .node 0xA2 [s.tree]) o.publisherInfo)

theorem encAll_append (a b : List T) : encAll (a ++ b) = encAll a ++ encAll b := by
  induction a with
  | nil => rfl
  | cons x a ih => simp [encAll, ih]

theorem encAll_optT {α : Type} (f : α → T) (o : Option α) : encAll (optT f o) = derOpt (fun a => (f a).enc) o := by
  cases o <;> simp [encAll, derOpt]

theorem _root_.Signify.Spec.DOpus.enc_tree (o : DOpus) : o.tree.enc = o.encode := by
  simp [DOpus.tree, T.enc, encAll_append, encAll_optT, DOpus.encode, derSeq, encAll, DString.enc_tree, DLink.enc_tree]

/-- The value of an SpcSpOpusInfo. -/
def _root_.Signify.Spec.DOpus.val (o : DOpus) : Val :=
  .seq o.tree.cont [("program_name", o.programName.map DString.val), ("more_info", o.moreInfo.map DLink.val),
    ("publisher_info", o.publisherInfo.map DLink.val)]

theorem buildT_opus (o : DOpus) : tSpcSpOpusInfo.buildT none o.tree = .ok o.val := by
  obtain ⟨a, b, c⟩ := o
  cases a <;> cases b <;> cases c <;> bt [tSpcSpOpusInfo, DOpus.tree, DOpus.val, buildT_string, buildT_link]

theorem readOpus_val {o : DOpus} (h : o.Valid) :
    readOpus o.val = .ok (.opus (o.programName.map DString.text) (o.moreInfo.map DLink.value) (o.publisherInfo.map DLink.value)) := by
  obtain ⟨h1, h2, h3⟩ := h
  have e1 := readOpt_map (f := readSpcString) (fun s hs => readSpcString_val (h1 s hs))
  have e2 := readOpt_map (f := readSpcLink) (fun s hs => readSpcLink_val (h2 s hs))
  have e3 := readOpt_map (f := readSpcLink) (fun s hs => readSpcLink_val (h3 s hs))
  simp [readOpus, DOpus.val, Val.get, List.lookup, bind, Except.bind, e1, e2, e3]

theorem encAll_map {α : Type} (f : α → T) (l : List α) : encAll (l.map f) = (l.map (fun a => (f a).enc)).flatten := by
  induction l with
  | nil => rfl
  | cons a l ih => simp [encAll, ih]

/-- As a tree. -/
def oidsTree (l : List (List Nat)) : T := .node 0x30 (l.map (fun o => .leaf 6 (oidOctets o)))

theorem enc_oidsTree (l : List (List Nat)) : (oidsTree l).enc = encodeOids l := by
  simp [oidsTree, T.enc, encAll_map, encodeOids, derSeq]
  rfl

theorem buildT_oids (l : List (List Nat)) (i : Option Nat) (h : i = none) :
    (Ty.seqOf tOid).buildT i (oidsTree l) = .ok (.list (oidsTree l).cont (l.map (fun o => .prim (oidOctets o)))) := by
  subst h
  have : parseAll (tOid.buildT none) (l.map (fun o => T.leaf 6 (oidOctets o))) = .ok (l.map (fun o => .prim (oidOctets o))) := by
    rw [parseAll_map]
    exact parseAll_ok (fun o _ => by bt [tOid])
  bt [oidsTree, this]

theorem readOids_val (map : List (List Nat × String)) (b : Bytes) (l : List (List Nat)) (h : ∀ o ∈ l, ValidOid o) :
    readOids map (.list b (l.map (fun o => .prim (oidOctets o)))) = .ok (l.map (fun o => (map.lookup o).getD (dotted o))) := by
  simp only [readOids, Val.elems, bind, Except.bind]
  rw [parseAll_map]
  refine parseAll_ok (fun o ho => ?_)
  simp [Val.octets, oidNative, oidArcs_oidOctets (h o ho)]

end Signify.Asn1
