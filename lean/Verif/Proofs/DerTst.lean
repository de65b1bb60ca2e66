/-
Reading time-stamp tokens.
-/
import Verif.Proofs.DerCms
import Verif.Spec.DerAuth

set_option autoImplicit false

namespace Signify.Asn1

open Signify Spec

/-- As a tree. -/
def _root_.Signify.Spec.DAccuracy.tree (a : DAccuracy) : T :=
  .node 0x30 (optT (fun n => .leaf 2 (intOctets n)) a.seconds ++ optT (fun n => .leaf 0x80 (intOctets n)) a.millis ++
    optT (fun n => .leaf 0x81 (intOctets n)) a.micros)

theorem _root_.Signify.Spec.DAccuracy.enc_tree (a : DAccuracy) : a.tree.enc = a.encode := by
  simp [DAccuracy.tree, T.enc, encAll_append, encAll_optT, DAccuracy.encode, derSeq, derInt]
  rfl

theorem good_accuracy (a : DAccuracy) : a.tree.good = true := by
  have h1 := goodAll_optT (fun n => T.leaf 2 (intOctets n)) a.seconds (fun _ _ => by simp [T.good])
  have h2 := goodAll_optT (fun n => T.leaf 0x80 (intOctets n)) a.millis (fun _ _ => by simp [T.good])
  have h3 := goodAll_optT (fun n => T.leaf 0x81 (intOctets n)) a.micros (fun _ _ => by simp [T.good])
  simp [DAccuracy.tree, T.good, goodAll_append, h1, h2, h3]

/-- The type of an accuracy. -/
def tAccuracy : Ty := .seq [optField "seconds" tInteger, optImplicit "millis" 0 tInteger, optImplicit "micros" 1 tInteger]

theorem reads_accuracy (a : DAccuracy) : Reads tAccuracy a.tree readAccuracy ⟨a.seconds, a.millis, a.micros⟩ := by
  refine ⟨.seq a.tree.cont [("seconds", a.seconds.map (fun n => .prim (intOctets n))), ("millis", a.millis.map (fun n => .prim (intOctets n))),
    ("micros", a.micros.map (fun n => .prim (intOctets n)))], ?_, ?_⟩
  · obtain ⟨x, y, z⟩ := a
    cases x <;> cases y <;> cases z <;> bt [DAccuracy.tree, tAccuracy, tInteger]
  · obtain ⟨x, y, z⟩ := a
    unfold readAccuracy
    cases x <;> cases y <;> cases z <;> rd [readOpt, readInt, intNative_intOctets]

/-- As a tree. -/
def _root_.Signify.Spec.DTst.tree (t : DTst) : T :=
  .node 0x30 ([.leaf 2 (intOctets t.version), .leaf 6 (oidOctets t.policy), .node 0x30 [t.hashAlg.tree, .leaf 4 t.hashed],
    .leaf 2 (intOctets t.serial), .leaf 0x18 (genCont t.time t.fraction)] ++ optT DAccuracy.tree t.accuracy ++ criticalTrees t.ordering ++
    optT (fun n => .leaf 2 (intOctets n)) t.nonce ++ optT (fun n : DName => .node 0xA0 [.node 0xA4 [n.tree]]) t.tsa ++
    optT (fun l : List DAny => .node 0xA1 (l.map DAny.tree)) t.extensions)

theorem enc_critical (b : Bool) : encAll (criticalTrees b) = derCritical b := by
  cases b <;> simp [criticalTrees, derCritical, encAll, T.enc]

theorem _root_.Signify.Spec.DTst.enc_tree (t : DTst) : t.tree.enc = t.encode := by
  have e : derOpt (fun a : DAccuracy => a.encode) t.accuracy = derOpt DAccuracy.encode t.accuracy := rfl
  simp [DTst.tree, T.enc, encAll_append, encAll, encAll_optT, DTst.encode, derSeq, derInt, derOid, derOctets, DAlg.enc_tree,
    DAccuracy.enc_tree, enc_critical, DName.enc_tree, encAll_map, DAny.enc_tree, DTime.encodeGen, genCont, e]
  rfl

theorem good_critical (b : Bool) : goodAll (criticalTrees b) = true := by cases b <;> simp [criticalTrees, goodAll, T.good]

theorem good_tst {t : DTst} (h : t.Valid) : t.tree.good = true := by
  have h1 := goodAll_optT DAccuracy.tree t.accuracy (fun a _ => good_accuracy a)
  have h2 := goodAll_optT (fun n => T.leaf 2 (intOctets n)) t.nonce (fun _ _ => by simp [T.good])
  have h3 := goodAll_optT (fun n : DName => T.node 0xA0 [.node 0xA4 [n.tree]]) t.tsa (fun _ _ => by simp [T.good, goodAll, good_name])
  have h4 := goodAll_optT (fun l : List DAny => T.node 0xA1 (l.map DAny.tree)) t.extensions
    (fun l hl => by simp [T.good, goodAll_map DAny.tree l (fun a ha => good_any (h.2.2.2.2.2.2 l hl a ha))])
  simp [DTst.tree, T.good, goodAll, goodAll_append, good_alg, h1, h2, h3, h4, good_critical]

theorem buildT_tst {te : Ty} {v p hs s g : Bytes} {at' : T} {av : Val} {acc : Option (List T)} {accv : Val} {b : Bool} {nn : Option Bytes}
    {tsa : Option T} {tv : Val} {ex : Option (List T)} {evs : List Val}
    (h1 : tAlgorithm.buildT none at' = .ok av)
    (h2 : ∀ a, acc = some a → tAccuracy.buildT none (.node 0x30 a) = .ok accv)
    (h3 : ∀ n, tsa = some n → tName.buildT none n = .ok tv)
    (h4 : ∀ l, ex = some l → parseAll (te.buildT none) l = .ok evs) :
    ∃ c c', (Ty.seq [field "version" tInteger, field "policy" tOid,
      field "message_imprint" (.seq [field "hash_algorithm" tAlgorithm, field "hashed_message" tOctetString]),
      field "serial_number" tInteger, field "gen_time" (.prim 24), optField "accuracy" tAccuracy,
      optField "ordering" tBoolean, optField "nonce" tInteger, optExplicit "tsa" 0 tGeneralName,
      optImplicit "extensions" 1 (.seqOf te)]).buildT none
      (.node 0x30 ([.leaf 2 v, .leaf 6 p, .node 0x30 [at', .leaf 4 hs], .leaf 2 s, .leaf 0x18 g] ++ optT (fun l => .node 0x30 l) acc ++
        criticalTrees b ++ optT (fun n => .leaf 2 n) nn ++ optT (fun n => .node 0xA0 [.node 0xA4 [n]]) tsa ++
        optT (fun l => .node 0xA1 l) ex)) = .ok (.seq c [
        ("version", some (.prim v)), ("policy", some (.prim p)),
        ("message_imprint", some (.seq c' [("hash_algorithm", some av), ("hashed_message", some (.prim hs))])),
        ("serial_number", some (.prim s)), ("gen_time", some (.prim g)), ("accuracy", acc.map (fun _ => accv)),
        ("ordering", if b then some (.prim [0xFF]) else none), ("nonce", nn.map .prim),
        ("tsa", tsa.map (fun _ => .choice "directory_name" tv)), ("extensions", ex.map (fun l => .list (encAll l) evs))]) := by
  have e : ∀ n : T, tGeneralName.buildT none (.node 0xA4 [n]) = (do
      let x ← tName.buildT none n
      .ok (.choice "directory_name" x)) := fun n => by bt [tGeneralName]
  have ea : ∀ c n, tAccuracy.accepts c n = (c == 0 && n == 16) := fun _ _ => by simp [tAccuracy, Ty.accepts]
  cases h5 : acc <;> cases b <;> cases nn <;> cases h6 : tsa <;> cases h7 : ex <;>
    bt [h1, criticalTrees, ea, e, tInteger, tOid, tOctetString, tBoolean] <;> (try rw [h2 _ h5]) <;> (try rw [h3 _ h6]) <;>
    (try rw [h4 _ h7]) <;> simp

theorem readTst_ok {t : DTst} (h : t.Valid) :
    Reads tTstInfo t.tree readTst {
      version := if t.version = 1 then "v1" else "v" ++ toString t.version
      policy := dotted t.policy, hashAlg := ⟨nameIn digestNames t.hashAlg.oid, false⟩, hashed := t.hashed, serial := t.serial
      genTime := t.time.micros + fracVal 5 t.fraction
      accuracy := t.accuracy.map (fun a => ⟨a.seconds, a.millis, a.micros⟩)
      tsa := t.tsa.map (fun n => ⟨"directory_name", n.value⟩) } := by
  obtain ⟨v1, v2, v3, v4, v5, v6, v7⟩ := h
  obtain ⟨av, h1, h1'⟩ := reads_alg digestAlgorithmMap v2
  have hacc : ∃ accv, (∀ a, t.accuracy = some a → tAccuracy.buildT none a.tree = .ok accv ∧
      readAccuracy accv = .ok ⟨a.seconds, a.millis, a.micros⟩) := by
    cases ha : t.accuracy with
    | none => exact ⟨.prim [], (fun _ h => by cases h)⟩
    | some a =>
      obtain ⟨v, h⟩ := reads_accuracy a
      exact ⟨v, (fun _ h' => by cases h'; exact h)⟩
  obtain ⟨accv, hacc⟩ := hacc
  have htsa : ∃ tv, (∀ n, t.tsa = some n → tName.buildT none n.tree = .ok tv ∧ readName tv = .ok n.value) := by
    cases ha : t.tsa with
    | none => exact ⟨.prim [], (fun _ h => by cases h)⟩
    | some a =>
      obtain ⟨v, h⟩ := reads_name (v6 a ha)
      exact ⟨v, (fun _ h' => by cases h'; exact h)⟩
  obtain ⟨tv, htsa⟩ := htsa
  have hany : ∀ l : List T, parseAll (Ty.any.buildT none) l = .ok (l.map (fun t => .any t.parts)) := fun l =>
    parseAll_ok (fun t _ => by simp [Ty.buildT])
  obtain ⟨c, c', hb⟩ := buildT_tst (te := .any) (v := intOctets t.version) (p := oidOctets t.policy) (hs := t.hashed)
    (s := intOctets t.serial) (g := genCont t.time t.fraction) (b := t.ordering) (nn := t.nonce.map intOctets)
    (acc := t.accuracy.map (fun a => optT (fun n => .leaf 2 (intOctets n)) a.seconds ++
      optT (fun n => .leaf 0x80 (intOctets n)) a.millis ++ optT (fun n => .leaf 0x81 (intOctets n)) a.micros))
    (tsa := t.tsa.map DName.tree) (ex := t.extensions.map (·.map DAny.tree))
    (evs := ((t.extensions.getD []).map DAny.tree).map (fun t => .any t.parts)) (accv := accv) (tv := tv) h1
    (fun a ha => by
      cases hx : t.accuracy with
      | none => simp [hx] at ha
      | some a' =>
        simp only [hx, Option.map_some, Option.some.injEq] at ha
        subst ha
        exact (hacc a' hx).1)
    (fun n hn => by
      cases hx : t.tsa with
      | none => simp [hx] at hn
      | some n' =>
        simp only [hx, Option.map_some, Option.some.injEq] at hn
        subst hn
        exact (htsa n' hx).1)
    (fun l hl => by
      cases hx : t.extensions with
      | none => simp [hx] at hl
      | some l' => simp [hx] at hl; subst hl; exact hany _)
  have e : t.tree = .node 0x30 ([.leaf 2 (intOctets t.version), .leaf 6 (oidOctets t.policy), .node 0x30 [t.hashAlg.tree, .leaf 4 t.hashed],
        .leaf 2 (intOctets t.serial), .leaf 0x18 (genCont t.time t.fraction)] ++
        optT (fun l => .node 0x30 l) (t.accuracy.map (fun a => optT (fun n => .leaf 2 (intOctets n)) a.seconds ++
          optT (fun n => .leaf 0x80 (intOctets n)) a.millis ++ optT (fun n => .leaf 0x81 (intOctets n)) a.micros)) ++
        criticalTrees t.ordering ++ optT (fun n => .leaf 2 n) (t.nonce.map intOctets) ++
        optT (fun n => .node 0xA0 [.node 0xA4 [n]]) (t.tsa.map DName.tree) ++
        optT (fun l => .node 0xA1 l) (t.extensions.map (·.map DAny.tree))) := by
    unfold DTst.tree
    cases t.accuracy <;> cases t.nonce <;> cases t.tsa <;> cases t.extensions <;> rfl
  refine ⟨_, by rw [e]; exact hb, ?_⟩
  have hda : digestAlgorithmMap = digestNames := rfl
  rw [hda] at h1'
  have g := generalizedTime_frac v3 t.fraction v4 v5
  have o := oidArcs_oidOctets v1
  unfold readTst
  rw [hda]
  cases hx : t.accuracy with
  | none =>
    cases hy : t.tsa with
    | none => rd [hx, hy, h1', readInt, intNative_intOctets, g, readOpt, o]
    | some n => rd [hx, hy, h1', readInt, intNative_intOctets, g, readOpt, o, readGeneralName, (htsa n hy).2]
  | some a =>
    cases hy : t.tsa with
    | none => rd [hx, hy, h1', readInt, intNative_intOctets, g, readOpt, o, (hacc a hx).2]
    | some n => rd [hx, hy, h1', readInt, intNative_intOctets, g, readOpt, o, readGeneralName, (htsa n hy).2, (hacc a hx).2]

/-- A time-stamp token that is written as documented is read as it is. -/
theorem derTst_ok {t : DTst} (h : t.Valid) (hl : t.encode.length < maxLen) (rest : Bytes) :
    derTst true (t.encode ++ rest) = .ok {
      version := if t.version = 1 then "v1" else "v" ++ toString t.version
      policy := dotted t.policy, hashAlg := ⟨nameIn digestNames t.hashAlg.oid, false⟩, hashed := t.hashed, serial := t.serial
      genTime := t.time.micros + fracVal 5 t.fraction
      accuracy := t.accuracy.map (fun a => ⟨a.seconds, a.millis, a.micros⟩)
      tsa := t.tsa.map (fun n => ⟨"directory_name", n.value⟩) } := by
  have hok : t.tree.Ok := T.ok_of (good_tst h) (by rw [t.enc_tree]; exact hl)
  obtain ⟨v, h1, h2⟩ := readTst_ok h
  unfold derTst Ty.load
  rw [← t.enc_tree, parse_tree _ _ hok.1 hok.2]
  simp only [if_true, bind, Except.bind]
  rw [build_tree _ _ _ hok, h1]
  exact h2

end Signify.Asn1
