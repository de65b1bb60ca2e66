/-
Reading trust lists.
-/
import Verif.Proofs.DerAuth
import Verif.Spec.DerCtl

set_option autoImplicit false

namespace Signify.Asn1

open Signify Spec

/-- As a tree. -/
def _root_.Signify.Spec.DCtlAttr.tree (a : DCtlAttr) : T :=
  .node 0x30 [.leaf 6 (oidOctets a.oid), .node 0x31 (a.values.map (fun b => .leaf 4 b))]

theorem _root_.Signify.Spec.DCtlAttr.enc_tree (a : DCtlAttr) : a.tree.enc = a.encode := by
  simp [DCtlAttr.tree, T.enc, encAll, encAll_map, DCtlAttr.encode, derSeq, derOid, derSet]
  rfl

theorem good_ctlAttr (a : DCtlAttr) : a.tree.good = true := by
  have := goodAll_map (fun b => T.leaf 4 b) a.values (fun _ _ => by simp [T.good])
  simp [DCtlAttr.tree, T.good, goodAll, this]

theorem reads_ctlAttr {a : DCtlAttr} (h : ValidOid a.oid) : Reads tSubjectAttribute a.tree readCtlAttr ⟨a.oid, a.values⟩ := by
  have hp : parseAll (tOctetString.buildT none) (a.values.map (fun b => T.leaf 4 b)) = .ok (a.values.map .prim) := by
    rw [parseAll_map]
    exact parseAll_ok (fun b _ => by bt [tOctetString])
  refine ⟨.seq a.tree.cont [("type", some (.prim (oidOctets a.oid))),
    ("values", some (.list (encAll (a.values.map (fun b => .leaf 4 b))) (a.values.map .prim)))], ?_, ?_⟩
  · bt [DCtlAttr.tree, tSubjectAttribute, tOid, hp]
  · have e : parseAll Val.octets (a.values.map .prim) = .ok a.values := by
      rw [parseAll_map]
      simpa using parseAll_ok (f := fun b : Bytes => Val.octets (.prim b)) (g := id) (l := a.values) (fun b _ => rfl)
    unfold readCtlAttr
    rd [e, oidArcs_oidOctets h]

/-- As a tree. -/
def _root_.Signify.Spec.DTrusted.tree (e : DTrusted) : T :=
  .node 0x30 (.leaf 4 e.identifier :: optT (fun l : List DCtlAttr => .node 0x31 (l.map DCtlAttr.tree)) e.attributes)

theorem _root_.Signify.Spec.DTrusted.enc_tree (e : DTrusted) : e.tree.enc = e.encode := by
  simp [DTrusted.tree, T.enc, encAll, encAll_optT, encAll_map, DCtlAttr.enc_tree, DTrusted.encode, derSeq, derOctets, derSet]

theorem good_trusted (e : DTrusted) : e.tree.good = true := by
  have := goodAll_optT (fun l : List DCtlAttr => T.node 0x31 (l.map DCtlAttr.tree)) e.attributes
    (fun l _ => by simp [T.good, goodAll_map DCtlAttr.tree l (fun a _ => good_ctlAttr a)])
  simp [DTrusted.tree, T.good, goodAll, this]

theorem reads_trusted {e : DTrusted} (h : e.Valid) : Reads tTrustedSubject e.tree readTrusted e.raw := by
  obtain ⟨i, o⟩ := e
  cases o with
  | none =>
    refine ⟨.seq (DTrusted.tree ⟨i, none⟩).cont [("subject_identifier", some (.prim i)), ("subject_attributes", none)], ?_, ?_⟩
    · bt [DTrusted.tree, tTrustedSubject, tOctetString]
    · unfold readTrusted
      rd [readOpt, DTrusted.raw]
  | some l =>
    obtain ⟨vs, h1, h2⟩ := parseAll_reads (l := l) (tree := DCtlAttr.tree) (val := fun a => (⟨a.oid, a.values⟩ : RawCtlAttr))
      (fun a ha => reads_ctlAttr (h l rfl a ha))
    refine ⟨.seq (DTrusted.tree ⟨i, some l⟩).cont [("subject_identifier", some (.prim i)),
      ("subject_attributes", some (.list (encAll (l.map DCtlAttr.tree)) vs))], ?_, ?_⟩
    · bt [DTrusted.tree, tTrustedSubject, tOctetString, h1]
    · unfold readTrusted
      rd [readOpt, DTrusted.raw, h2]

/-- As trees. -/
def _root_.Signify.Spec.DCtl.trees (c : DCtl) : List T :=
  optT (fun n => .leaf 2 (intOctets n)) c.version ++ [oidsTree c.usage] ++ optT (fun b => .leaf 4 b) c.listIdentifier ++
  optT (fun n => .leaf 2 (intOctets n)) c.sequenceNumber ++ [c.thisUpdate.tree] ++ optT DTime.tree c.nextUpdate ++ [c.algorithm.tree] ++
  optT (fun l : List DTrusted => .node 0x30 (l.map DTrusted.tree)) c.subjects ++
  optT (fun l : List DAny => .node 0xA0 [.node 0x30 (l.map DAny.tree)]) c.extensions

theorem _root_.Signify.Spec.DCtl.enc_trees (c : DCtl) : encAll c.trees = c.contents := by
  have e : derOpt (fun a : DTime => a.encode) c.nextUpdate = derOpt DTime.encode c.nextUpdate := rfl
  simp [DCtl.trees, T.enc, encAll_append, encAll, encAll_optT, DCtl.contents, enc_oidsTree, DTime.enc_tree, DAlg.enc_tree, encAll_map,
    DTrusted.enc_tree, DAny.enc_tree, derSeq, e]
  rfl

theorem good_ctl {c : DCtl} (h : c.Valid) : goodAll c.trees = true := by
  obtain ⟨-, -, -, -, -, v6⟩ := h
  have h1 := goodAll_optT (fun n => T.leaf 2 (intOctets n)) c.version (fun _ _ => by simp [T.good])
  have h2 := goodAll_optT (fun b => T.leaf 4 b) c.listIdentifier (fun _ _ => by simp [T.good])
  have h3 := goodAll_optT (fun n => T.leaf 2 (intOctets n)) c.sequenceNumber (fun _ _ => by simp [T.good])
  have h4 := goodAll_optT DTime.tree c.nextUpdate (fun t _ => good_time t)
  have h5 := goodAll_optT (fun l : List DTrusted => T.node 0x30 (l.map DTrusted.tree)) c.subjects
    (fun l _ => by simp [T.good, goodAll_map DTrusted.tree l (fun a _ => good_trusted a)])
  have h6 := goodAll_optT (fun l : List DAny => T.node 0xA0 [.node 0x30 (l.map DAny.tree)]) c.extensions
    (fun l hl => by simp [T.good, goodAll, goodAll_map DAny.tree l (fun a ha => good_any (v6 l hl a ha))])
  simp [DCtl.trees, goodAll, goodAll_append, good_oids, good_time, good_alg, h1, h2, h3, h4, h5, h6]

theorem tTime_accepts (c n : Nat) : tTime.accepts c n = (c == 0 && (n == 23 || n == 24)) := by
  bt [tTime]
  cases c == 0 <;> simp

theorem time_id (t : DTime) : t.tree.id = 0x17 ∨ t.tree.id = 0x18 := by unfold DTime.tree; split <;> simp [T.id]

/-- The components from the times on. -/
theorem fields_ctl {ts te : Ty} {t1 : T} {t2 : Option T} {v1 : Val} {v2 : Val} {al : List T}
    {av : Val} {st et : Option (List T)} {svs evs : List Val}
    (ht1 : tTime.buildT none t1 = .ok v1)
    (ht2 : ∀ t, t2 = some t → (t.id = 0x17 ∨ t.id = 0x18) ∧ tTime.buildT none t = .ok v2)
    (h2 : tAlgorithm.buildT none (.node 0x30 al) = .ok av)
    (h3 : ∀ l, st = some l → parseAll (ts.buildT none) l = .ok svs)
    (h4 : ∀ l, et = some l → parseAll (te.buildT none) l = .ok evs) :
    buildFieldsT [field "ctl_this_update" tTime, optField "ctl_next_update" tTime,
      field "subject_algorithm" tAlgorithm, optField "trusted_subjects" (.seqOf ts), optExplicit "ctl_extensions" 0 (.seqOf te)]
      (t1 :: (optT id t2 ++ [.node 0x30 al] ++ optT (fun l => .node 0x30 l) st ++
        optT (fun l => .node 0xA0 [.node 0x30 l]) et)) = .ok [
        ("ctl_this_update", some v1), ("ctl_next_update", t2.map (fun _ => v2)),
        ("subject_algorithm", some av), ("trusted_subjects", st.map (fun l => .list (encAll l) svs)),
        ("ctl_extensions", et.map (fun l => .list (encAll l) evs))] := by
  cases h5 : t2 with
  | none =>
    cases h6 : st <;> cases h7 : et <;> bt [ht1, h2, tTime_accepts] <;> (try rw [h3 _ h6]) <;> (try rw [h4 _ h7]) <;> (try simp)
  | some t =>
    obtain ⟨hi, hb⟩ := ht2 t h5
    have hx : tTime.accepts (t.id.toNat / 64) (t.id.toNat % 32) = true := by
      rcases hi with h | h <;> rw [h, tTime_accepts] <;> decide
    cases t with
    | leaf i c =>
      simp only [T.id] at hx
      cases h6 : st <;> cases h7 : et <;> bt [ht1, h2, hx, hb] <;> (try rw [h3 _ h6]) <;> (try rw [h4 _ h7]) <;> (try simp)
    | node i c =>
      simp only [T.id] at hx
      cases h6 : st <;> cases h7 : et <;> bt [ht1, h2, hx, hb] <;> (try rw [h3 _ h6]) <;> (try rw [h4 _ h7]) <;> (try simp)

theorem buildT_ctl {tu : Ty} {fs : List Field} {v li sn : Option Bytes} {ul : List T} {uvs : List Val} {i : UInt8} {c : Bytes} {l : List T}
    {r : List (String × Option Val)} (hi : i = 0x17 ∨ i = 0x18)
    (h1 : parseAll (tu.buildT none) ul = .ok uvs)
    (h2 : buildFieldsT fs (.leaf i c :: l) = .ok r) :
    ∃ c', (Ty.seq (optField "version" tInteger :: field "subject_usage" (.seqOf tu) :: optField "list_identifier" tOctetString ::
      optField "sequence_number" tInteger :: fs)).buildT none
      (.node 0x30 (optT (fun n => .leaf 2 n) v ++ [.node 0x30 ul] ++ optT (fun n => .leaf 4 n) li ++ optT (fun n => .leaf 2 n) sn ++
        .leaf i c :: l)) = .ok (.seq c' (
        ("version", v.map .prim) :: ("subject_usage", some (.list (encAll ul) uvs)) :: ("list_identifier", li.map .prim) ::
        ("sequence_number", sn.map .prim) :: r)) := by
  rcases hi with rfl | rfl <;> cases v <;> cases li <;> cases sn <;> bt [tInteger, tOctetString, h1, h2]

/-- Reading the list, once decoded. -/
theorem readCtl_ok {c : DCtl} (h : c.Valid) : Reads tCertificateTrustList (.node 0x30 c.trees) readCtl c.raw := by
  obtain ⟨v1, v2, v3, v4, v5, v6⟩ := h
  obtain ⟨av, ha, ha'⟩ := reads_alg digestAlgorithmMap v4
  have hsub : ∃ svs, ∀ l, c.subjects = some l → parseAll (tTrustedSubject.buildT none) (l.map DTrusted.tree) = .ok svs ∧
      parseAll readTrusted svs = .ok (l.map DTrusted.raw) := by
    cases hs : c.subjects with
    | none => exact ⟨[], (fun _ h => by cases h)⟩
    | some l =>
      obtain ⟨vs, h⟩ := parseAll_reads (fun e he => reads_trusted (v5 l hs e he))
      exact ⟨vs, (fun _ h' => by cases h'; exact h)⟩
  obtain ⟨svs, hsub⟩ := hsub
  have hany : ∀ l : List T, parseAll (Ty.any.buildT none) l = .ok (l.map (fun t => .any t.parts)) := fun l =>
    parseAll_ok (fun t _ => by simp [Ty.buildT])
  have hal : ∃ al, c.algorithm.tree = .node 0x30 al := by unfold DAlg.tree; exact ⟨_, rfl⟩
  obtain ⟨al, hal⟩ := hal
  have hf := fields_ctl (ts := tTrustedSubject) (te := .any) (t1 := c.thisUpdate.tree) (t2 := c.nextUpdate.map DTime.tree)
    (v1 := c.thisUpdate.val) (v2 := (c.nextUpdate.map DTime.val).getD (.prim [])) (al := al) (av := av)
    (st := c.subjects.map (·.map DTrusted.tree)) (et := c.extensions.map (·.map DAny.tree)) (svs := svs)
    (evs := ((c.extensions.getD []).map DAny.tree).map (fun t => .any t.parts)) (buildT_time _ _)
    (fun t ht => by
      cases hx : c.nextUpdate with
      | none => simp [hx] at ht
      | some t' =>
        simp only [hx, Option.map_some, Option.some.injEq] at ht
        subst ht
        exact ⟨time_id _, by simpa using buildT_time _ _⟩)
    (by rw [← hal]; exact ha)
    (fun l hl => by
      cases hx : c.subjects with
      | none => simp [hx] at hl
      | some l' => simp only [hx, Option.map_some, Option.some.injEq] at hl; subst hl; exact (hsub l' hx).1)
    (fun l hl => by
      cases hx : c.extensions with
      | none => simp [hx] at hl
      | some l' => simp [hx] at hl; subst hl; exact hany _)
  have hleaf : ∃ i b, c.thisUpdate.tree = .leaf i b ∧ (i = 0x17 ∨ i = 0x18) := by
    unfold DTime.tree
    split
    · exact ⟨_, _, rfl, .inl rfl⟩
    · exact ⟨_, _, rfl, .inr rfl⟩
  obtain ⟨i, b, e1, e2⟩ := hleaf
  have hu : parseAll (tOid.buildT none) (c.usage.map (fun o => T.leaf 6 (oidOctets o))) = .ok (c.usage.map (fun o => .prim (oidOctets o))) := by
    rw [parseAll_map]
    exact parseAll_ok (fun o _ => by bt [tOid])
  rw [e1] at hf
  obtain ⟨c', hb⟩ := buildT_ctl (v := c.version.map intOctets) (li := c.listIdentifier) (sn := c.sequenceNumber.map intOctets) e2 hu hf
  have e : c.trees = optT (fun n => .leaf 2 n) (c.version.map intOctets) ++ [.node 0x30 (c.usage.map (fun o => T.leaf 6 (oidOctets o)))] ++
      optT (fun n => .leaf 4 n) c.listIdentifier ++ optT (fun n => .leaf 2 n) (c.sequenceNumber.map intOctets) ++
      .leaf i b :: (optT id (c.nextUpdate.map DTime.tree) ++ [.node 0x30 al] ++
        optT (fun l => .node 0x30 l) (c.subjects.map (·.map DTrusted.tree)) ++
        optT (fun l => .node 0xA0 [.node 0x30 l]) (c.extensions.map (·.map DAny.tree))) := by
    unfold DCtl.trees
    rw [e1, hal]
    cases c.version <;> cases c.sequenceNumber <;> cases c.nextUpdate <;> cases c.subjects <;> cases c.extensions <;> simp [optT, oidsTree]
  refine ⟨_, by rw [e]; exact hb, ?_⟩
  have hda : digestAlgorithmMap = digestNames := rfl
  rw [hda] at ha'
  have hr := readOids_val keyPurposes (encAll (c.usage.map (fun o => T.leaf 6 (oidOctets o)))) c.usage v1
  have hk : keyPurposes = purposeNames := rfl
  simp only [nameIn_lookup, hk] at hr
  have t1 := readTime_val v2
  unfold readCtl DCtl.raw
  rw [hda, hk]
  cases hx : c.nextUpdate with
  | none =>
    cases hy : c.subjects with
    | none => cases hl : c.listIdentifier <;> cases hq : c.sequenceNumber <;> rd [hx, hy, hr, t1, ha', readOpt, intNative_intOctets]
    | some l =>
      have hz := (hsub l hy).2
      cases hl : c.listIdentifier <;> cases hq : c.sequenceNumber <;> rd [hx, hy, hr, t1, ha', readOpt, intNative_intOctets, hz]
  | some t =>
    have t2 := readTime_val (v3 t hx)
    cases hy : c.subjects with
    | none => cases hl : c.listIdentifier <;> cases hq : c.sequenceNumber <;> rd [hx, hy, hr, t1, t2, ha', readOpt, intNative_intOctets]
    | some l =>
      have hz := (hsub l hy).2
      cases hl : c.listIdentifier <;> cases hq : c.sequenceNumber <;> rd [hx, hy, hr, t1, t2, ha', readOpt, intNative_intOctets, hz]

theorem ofContents_seq (fs : List Field) (l : List T) (v : Val) (hok : (T.node 0x30 l).Ok)
    (h : (Ty.seq fs).buildT none (.node 0x30 l) = .ok v) : (Ty.seq fs).ofContents 16 (encAll l) = .ok v := by
  rw [← build_tree _ _ _ hok] at h
  simpa [Ty.ofContents, Ty.build, T.parts, tlvParts, T.cont, T.id, checkId] using h

/-- A trust list that is written as documented is read as it is. -/
theorem derCtl_ok {c : DCtl} (h : c.Valid) (hl : c.contents.length < maxLen) :
    (∀ rest, derCtl true (c.encode ++ rest) = .ok c.raw) ∧ derCtl false c.contents = .ok c.raw := by
  have hok : (T.node 0x30 c.trees).Ok := ⟨by simp [T.good, good_ctl h], by simp only [T.cont, c.enc_trees]; exact hl⟩
  obtain ⟨v, h1, h2⟩ := readCtl_ok h
  constructor
  · intro rest
    have e : c.encode = (T.node 0x30 c.trees).enc := by simp [T.enc, DCtl.encode, c.enc_trees]
    unfold derCtl loadWrapped Ty.load
    rw [e, parse_tree _ _ hok.1 hok.2]
    simp only [if_true, bind, Except.bind]
    rw [build_tree _ _ _ hok, h1]
    exact h2
  · have := ofContents_seq _ _ _ hok h1
    rw [c.enc_trees] at this
    unfold derCtl loadWrapped
    rw [if_neg (by simp)]
    show Except.bind ((Ty.seq _).ofContents 16 c.contents) _ = _
    rw [this]
    exact h2

end Signify.Asn1
