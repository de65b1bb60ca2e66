/-
Reading signatures.
-/
import Verif.Proofs.DerCert

set_option autoImplicit false

namespace Signify.Asn1

open Signify Spec

/-! ### Signed attributes -/

theorem good_string (s : DString) : s.tree.good = true := by cases s <;> simp [DString.tree, T.good, DString.id]

theorem good_link (s : DLink) : s.tree.good = true := by
  cases s <;> simp [DLink.tree, T.good, goodAll, good_string]

theorem good_opus (o : DOpus) : o.tree.good = true := by
  have h1 := goodAll_optT (fun s : DString => T.node 0xA0 [s.tree]) o.programName (fun _ _ => by simp [T.good, goodAll, good_string])
  have h2 := goodAll_optT (fun s : DLink => T.node 0xA1 [s.tree]) o.moreInfo (fun _ _ => by simp [T.good, goodAll, good_link])
  have h3 := goodAll_optT (fun s : DLink => T.node 0xA2 [s.tree]) o.publisherInfo (fun _ _ => by simp [T.good, goodAll, good_link])
  simp [DOpus.tree, T.good, goodAll_append, h1, h2, h3]

/-- The values as trees. -/
def _root_.Signify.Spec.DAttr.trees : DAttr → List T
  | .contentType vs => vs.map (fun o => .leaf 6 (oidOctets o))
  | .messageDigest vs => vs.map (.leaf 4)
  | .signingTime vs => vs.map DTime.tree
  | .statementType vs => vs.map oidsTree
  | .opus vs => vs.map DOpus.tree
  | .other _ vs => vs.map DAny.tree

/-- As a tree. -/
def _root_.Signify.Spec.DAttr.tree (a : DAttr) : T := .node 0x30 [.leaf 6 (oidOctets a.type), .node 0x31 a.trees]

theorem enc_values (a : DAttr) : encAll a.trees = a.values.flatten := by
  cases a <;> simp [DAttr.trees, DAttr.values, encAll_map, T.enc, DTime.enc_tree, enc_oidsTree, DOpus.enc_tree, DAny.enc_tree] <;> rfl

theorem _root_.Signify.Spec.DAttr.enc_tree (a : DAttr) : a.tree.enc = a.encode := by
  simp [DAttr.tree, T.enc, encAll, enc_values, DAttr.encode, derSeq, derOid, derSet]

theorem good_attr {a : DAttr} (h : a.Valid) : a.tree.good = true := by
  have : goodAll a.trees = true := by
    cases a with
    | contentType vs => exact goodAll_map _ _ (fun _ _ => by simp [T.good])
    | messageDigest vs => exact goodAll_map _ _ (fun _ _ => by simp [T.good])
    | signingTime vs => exact goodAll_map _ _ (fun _ _ => good_time _)
    | statementType vs => exact goodAll_map _ _ (fun _ _ => good_oids _)
    | opus vs => exact goodAll_map _ _ (fun _ _ => good_opus _)
    | other t vs => exact goodAll_map _ _ (fun v hv => by simpa [DAny.tree, T.good, DAny.Valid] using h.2.2 v hv)
  simp [DAttr.tree, T.good, goodAll, this]

theorem attr_type_valid {a : DAttr} (h : a.Valid) : ValidOid a.type := by
  cases a with
  | contentType vs => exact ⟨_, _, _, rfl, by omega, by omega⟩
  | messageDigest vs => exact ⟨_, _, _, rfl, by omega, by omega⟩
  | signingTime vs => exact ⟨_, _, _, rfl, by omega, by omega⟩
  | statementType vs => exact ⟨_, _, _, rfl, by omega, by omega⟩
  | opus vs => exact ⟨_, _, _, rfl, by omega, by omega⟩
  | other t vs => exact h.1

theorem attr_name (a : DAttr) : nameIn cmsNames a.type = a.raw.type := by
  cases a <;> first | rfl | decide +kernel

theorem readAttrValues_ok {a : DAttr} (h : a.Valid) (hok : (T.node 0x31 a.trees).Ok) :
    parseAll (fun t : T => readAttrValue (nameIn cmsNames a.type) t.parts) a.trees = .ok a.raw.values := by
  rw [attr_name]
  have hch : ∀ t ∈ a.trees, t.Ok := fun t ht => hok.child ht
  cases a with
  | contentType vs =>
    simp only [DAttr.trees, DAttr.raw] at *
    rw [parseAll_map]
    refine parseAll_ok (fun o ho => ?_)
    have hk := hch (.leaf 6 (oidOctets o)) (List.mem_map.mpr ⟨o, ho, rfl⟩)
    simp only [readAttrValue, if_true]
    rw [build_tree _ _ _ hk]
    have e := oidNative_eq contentTypes (h o ho)
    bt [tOid, Val.octets, e]
    rfl
  | messageDigest vs =>
    simp only [DAttr.trees, DAttr.raw] at *
    rw [parseAll_map]
    refine parseAll_ok (fun o ho => ?_)
    have hk := hch (.leaf 4 o) (List.mem_map.mpr ⟨o, ho, rfl⟩)
    simp only [readAttrValue]
    rw [if_neg (by decide), if_pos trivial, build_tree _ _ _ hk]
    bt [tOctetString, Val.octets]
  | signingTime vs =>
    simp only [DAttr.trees, DAttr.raw] at *
    rw [parseAll_map]
    refine parseAll_ok (fun o ho => ?_)
    have hk := hch o.tree (List.mem_map.mpr ⟨o, ho, rfl⟩)
    simp only [readAttrValue]
    rw [if_neg (by decide), if_neg (by decide), if_pos trivial, build_tree _ _ _ hk, buildT_time]
    simp [bind, Except.bind, readTime_val (h o ho)]
  | statementType vs =>
    simp only [DAttr.trees, DAttr.raw] at *
    rw [parseAll_map]
    refine parseAll_ok (fun l hl => ?_)
    have hk := hch (oidsTree l) (List.mem_map.mpr ⟨l, hl, rfl⟩)
    simp only [readAttrValue]
    rw [if_neg (by decide), if_neg (by decide), if_neg (by decide), if_pos trivial, build_tree _ _ _ hk, tSpcStatementType,
      buildT_oids _ _ rfl]
    simp only [bind, Except.bind, readStatementTypes]
    rw [readOids_val _ _ _ (h l hl)]
    simp only [nameIn_lookup]
    rfl
  | opus vs =>
    simp only [DAttr.trees, DAttr.raw] at *
    rw [parseAll_map]
    refine parseAll_ok (fun o ho => ?_)
    have hk := hch o.tree (List.mem_map.mpr ⟨o, ho, rfl⟩)
    simp only [readAttrValue]
    rw [if_neg (by decide), if_neg (by decide), if_neg (by decide), if_neg (by decide), if_pos trivial, build_tree _ _ _ hk, buildT_opus]
    simp [bind, Except.bind, readOpus_val (h o ho)]
  | other t vs =>
    simp only [DAttr.trees, DAttr.raw] at *
    rw [parseAll_map]
    refine parseAll_ok (fun v hv => ?_)
    have hn := h.2.1
    simp only [attrKinds, List.mem_cons, List.not_mem_nil, or_false, not_or] at hn
    simp only [readAttrValue]
    rw [if_neg hn.1, if_neg hn.2.1, if_neg hn.2.2.1, if_neg hn.2.2.2.1, if_neg hn.2.2.2.2, dump_parts, DAny.enc_tree]

theorem buildT_attr' {ty : Ty} {o : List Nat} {l : List T} {vs : List Val} (h : parseAll (ty.buildT none) l = .ok vs) :
    (Ty.seq [field "type" tOid, field "values" (.setOf ty)]).buildT none (.node 0x30 [.leaf 6 (oidOctets o), .node 0x31 l]) =
      .ok (.seq (encAll [.leaf 6 (oidOctets o), .node 0x31 l]) [("type", some (.prim (oidOctets o))),
        ("values", some (.list (encAll l) vs))]) := by
  bt [tOid, h]

theorem buildT_attr (o : List Nat) (l : List T) :
    tCmsAttribute.buildT none (.node 0x30 [.leaf 6 (oidOctets o), .node 0x31 l]) =
      .ok (.seq (encAll [.leaf 6 (oidOctets o), .node 0x31 l]) [("type", some (.prim (oidOctets o))),
        ("values", some (.list (encAll l) (l.map (fun t => .any t.parts))))]) :=
  buildT_attr' (parseAll_ok (fun t _ => by simp [Ty.buildT]))

theorem reads_attr {a : DAttr} (h : a.Valid) (hok : a.tree.Ok) : Reads tCmsAttribute a.tree readAttr a.raw := by
  refine ⟨_, buildT_attr _ _, ?_⟩
  have e := oidNative_eq cmsAttributeTypes (attr_type_valid h)
  have hn : cmsAttributeTypes = cmsNames := rfl
  rw [hn] at e
  have e2 := readAttrValues_ok h (hok.child (t := .node 0x31 a.trees) (by simp))
  unfold readAttr
  rw [hn]
  rd [e, parseAll_map, e2]
  rw [attr_name]

theorem parseAll_reads {α γ : Type} {ty : Ty} {tree : α → T} {read : Val → Except Exc γ} {val : α → γ} {l : List α}
    (H : ∀ a ∈ l, Reads ty (tree a) read (val a)) :
    ∃ vs, parseAll (ty.buildT none) (l.map tree) = .ok vs ∧ parseAll read vs = .ok (l.map val) := by
  obtain ⟨vs, h1, h2⟩ := parseAll_two H
  rw [← parseAll_map] at h1
  exact ⟨vs, h1, h2⟩

theorem ofContents_set (ty : Ty) (l : List T) (hg : goodAll l = true) (hl : (encAll l).length < maxLen) :
    (Ty.setOf ty).ofContents 17 (encAll l) = (do
      let r ← parseAll (ty.buildT none) l
      .ok (.list (encAll l) r)) := by
  have hok : (T.node 0x31 l).Ok := ⟨by simp [T.good, hg], hl⟩
  have e := buildAll_tree ty (fun i t => build_tree ty i t) 0x31 l hok ((encAll l).length + 1) (by have := encAll_length l; omega)
  simp [Ty.ofContents, Ty.build, checkId, bind, Except.bind, e]

theorem enc_attrs (l : List DAttr) : encAll (l.map DAttr.tree) = attrsContents l := by
  simp [encAll_map, DAttr.enc_tree, attrsContents]

theorem derAttrs_ok {l : List DAttr} (h : ∀ a ∈ l, a.Valid) (hl : (attrsContents l).length < maxLen) :
    derAttrs (attrsContents l) = .ok (l.map DAttr.raw) := by
  have hg : goodAll (l.map DAttr.tree) = true := goodAll_map _ _ (fun a ha => good_attr (h a ha))
  have hok : (T.node 0x31 (l.map DAttr.tree)).Ok := ⟨by simp [T.good, hg], by simp only [T.cont, enc_attrs]; exact hl⟩
  obtain ⟨vs, h1, h2⟩ := parseAll_reads (fun a ha => reads_attr (h a ha) (hok.child (List.mem_map_of_mem ha)))
  have e := ofContents_set tCmsAttribute (l.map DAttr.tree) hg (by rw [enc_attrs]; exact hl)
  rw [enc_attrs, h1] at e
  unfold derAttrs
  rw [e]
  simp [bind, Except.bind, Val.elems, h2]

/-! ### Signers -/

/-- As a tree. -/
def _root_.Signify.Spec.DSid.tree : DSid → T
  | .issuerSerial n s => .node 0x30 [n.tree, .leaf 2 (intOctets s)]
  | .keyId b => .leaf 0x80 b

theorem _root_.Signify.Spec.DSid.enc_tree (s : DSid) : s.tree.enc = s.encode := by
  cases s <;> simp [DSid.tree, T.enc, encAll, DSid.encode, derSeq, derInt, DName.enc_tree]

/-- The components of a signer as trees. -/
def signerTrees (s : DSigner) : List T :=
  [.leaf 2 (intOctets s.version), s.sid.tree, s.digestAlg.tree] ++
    optT (fun l : List DAttr => .node 0xA0 (l.map DAttr.tree)) s.attrs ++ [s.sigAlg.tree, .leaf 4 s.signature]

/-- As a tree. -/
def contentTree (d : DData) (b : Bytes) : T := if d.version = 1 then .leaf 0x30 b else .leaf 4 b

/-- The content info of a SignedData as a tree. -/
def encapTree (d : DData) : T :=
  .node 0x30 (.leaf 6 (oidOctets d.contentType) :: optT (fun b => .node 0xA0 [contentTree d b]) d.content)

/-- As a tree. -/
def _root_.Signify.Spec.DCertChoice.tree : DCertChoice → T
  | .cert c => c.tree
  | .other a => a.tree

mutual
/-- As a tree. -/
def _root_.Signify.Spec.DSI.tree : DSI → T
  | .mk s none => .node 0x30 (signerTrees s)
  | .mk s (some us) => .node 0x30 (signerTrees s ++ [.node 0xA1 (uattrTrees us)])
/-- As trees. -/
def siTrees : List DSI → List T
  | [] => []
  | s :: l => s.tree :: siTrees l
/-- As a tree. -/
def _root_.Signify.Spec.DUAttr.tree : DUAttr → T
  | .counter vs => .node 0x30 [.leaf 6 (oidOctets [1, 2, 840, 113549, 1, 9, 6]), .node 0x31 (siTrees vs)]
  | .nested vs => .node 0x30 [.leaf 6 (oidOctets [1, 3, 6, 1, 4, 1, 311, 2, 4, 1]), .node 0x31 (sdTrees vs)]
  | .timestamp vs => .node 0x30 [.leaf 6 (oidOctets [1, 3, 6, 1, 4, 1, 311, 3, 3, 1]), .node 0x31 (sdTrees vs)]
  | .other t vs => .node 0x30 [.leaf 6 (oidOctets t), .node 0x31 (vs.map DAny.tree)]
/-- As trees. -/
def uattrTrees : List DUAttr → List T
  | [] => []
  | a :: l => a.tree :: uattrTrees l
/-- As a tree. -/
def _root_.Signify.Spec.DSD.tree : DSD → T
  | .mk d ss => .node 0x30 ([.leaf 2 (intOctets d.version), .node 0x31 (d.digestAlgs.map DAlg.tree), encapTree d] ++
      optT (fun l : List DCertChoice => .node 0xA0 (l.map DCertChoice.tree)) d.certs ++
      optT (fun l : List DAny => .node 0xA1 (l.map DAny.tree)) d.crls ++ [.node 0x31 (siTrees ss)])
/-- As trees. -/
def sdTrees : List DSD → List T
  | [] => []
  | s :: l => .node 0x30 [.leaf 6 (oidOctets oidSignedData), .node 0xA0 [s.tree]] :: sdTrees l
end

theorem enc_signer (s : DSigner) : encAll (signerTrees s) =
    derInt s.version ++ s.sid.encode ++ s.digestAlg.encode ++ derOpt (fun l => tlv 0xA0 (attrsContents l)) s.attrs ++
      s.sigAlg.encode ++ derOctets s.signature := by
  simp [signerTrees, encAll, encAll_append, encAll_optT, T.enc, DSid.enc_tree, DAlg.enc_tree, DSigAlg.enc_tree, enc_attrs, derInt,
    derOctets]

theorem enc_encap (d : DData) : (encapTree d).enc = d.encap := by
  unfold DData.encap encapTree contentTree
  by_cases h : d.version = 1 <;> simp [T.enc, encAll, encAll_optT, derSeq, derOid, h]

theorem _root_.Signify.Spec.DCertChoice.enc_tree (c : DCertChoice) : c.tree.enc = c.encode := by
  cases c <;> simp [DCertChoice.tree, DCertChoice.encode, DCert.enc_tree, DAny.enc_tree]

mutual
theorem _root_.Signify.Spec.DSI.enc_tree : (s : DSI) → s.tree.enc = s.encode
  | .mk s none => by simp [DSI.tree, T.enc, enc_signer, DSI.encode, derSeq]
  | .mk s (some us) => by
    simp [DSI.tree, T.enc, enc_signer, DSI.encode, derSeq, encAll_append, encAll, enc_uattrs us]
theorem enc_sis : (l : List DSI) → encAll (siTrees l) = encodeSIs l
  | [] => by simp [siTrees, encAll, encodeSIs]
  | s :: l => by simp [siTrees, encAll, encodeSIs, s.enc_tree, enc_sis l]
theorem _root_.Signify.Spec.DUAttr.enc_tree : (a : DUAttr) → a.tree.enc = a.encode
  | .counter vs => by simp [DUAttr.tree, T.enc, encAll, DUAttr.encode, derSeq, derOid, enc_sis vs]
  | .nested vs => by simp [DUAttr.tree, T.enc, encAll, DUAttr.encode, derSeq, derOid, enc_sds vs]
  | .timestamp vs => by simp [DUAttr.tree, T.enc, encAll, DUAttr.encode, derSeq, derOid, enc_sds vs]
  | .other t vs => by
    simp [DUAttr.tree, T.enc, encAll, DUAttr.encode, derSeq, derOid, derSet, encAll_map, DAny.enc_tree]
theorem enc_uattrs : (l : List DUAttr) → encAll (uattrTrees l) = encodeUAttrs l
  | [] => by simp [uattrTrees, encAll, encodeUAttrs]
  | a :: l => by simp [uattrTrees, encAll, encodeUAttrs, a.enc_tree, enc_uattrs l]
theorem _root_.Signify.Spec.DSD.enc_tree : (s : DSD) → s.tree.enc = s.encode
  | .mk d ss => by
    simp [DSD.tree, T.enc, encAll, encAll_append, encAll_optT, DSD.encode, derSeq, enc_sis ss, enc_encap, encAll_map, derInt,
      derSet, DAlg.enc_tree, DAny.enc_tree, DCertChoice.enc_tree]
theorem enc_sds : (l : List DSD) → encAll (sdTrees l) = encodeSDs l
  | [] => by simp [sdTrees, encAll, encodeSDs]
  | s :: l => by simp [sdTrees, encAll, T.enc, encodeSDs, contentInfo, derSeq, derOid, s.enc_tree, enc_sds l]
end


/-! ### Well-formedness -/

theorem good_sid (s : DSid) : s.tree.good = true := by
  cases s <;> simp [DSid.tree, T.good, goodAll, good_name]

theorem good_signer {s : DSigner} (h : s.Valid) : goodAll (signerTrees s) = true := by
  have h1 := goodAll_optT (fun l : List DAttr => T.node 0xA0 (l.map DAttr.tree)) s.attrs
    (fun l hl => by simp [T.good, goodAll_map DAttr.tree l (fun a ha => good_attr (h.2.2.2 l hl a ha))])
  simp [signerTrees, goodAll, goodAll_append, T.good, good_sid, good_alg, good_sigAlg h.2.2.1, h1]

theorem good_any {a : DAny} (h : a.Valid) : a.tree.good = true := by
  simpa [DAny.tree, T.good, DAny.Valid] using h

theorem good_certChoice {c : DCertChoice} (h : c.Valid) : c.tree.good = true := by
  cases c with
  | cert c => exact good_cert h
  | other a =>
    simp only [DCertChoice.Valid, choiceNames, List.map_cons, List.map_nil, List.mem_cons, List.not_mem_nil, or_false] at h
    simp only [DCertChoice.tree, DAny.tree, T.good]
    rcases h with h | h | h | h <;> simp [h]

theorem good_encap (d : DData) : (encapTree d).good = true := by
  have h1 := goodAll_optT (fun b => T.node 0xA0 [contentTree d b]) d.content
    (fun b _ => by unfold contentTree; split <;> simp [T.good, goodAll])
  simp [encapTree, T.good, goodAll, h1]

mutual
theorem good_si : (s : DSI) → s.Valid → s.tree.good = true
  | .mk s none, h => by
    simp only [DSI.Valid] at h
    simp [DSI.tree, T.good, good_signer h]
  | .mk s (some us), h => by
    simp only [DSI.Valid] at h
    simp [DSI.tree, T.good, goodAll_append, goodAll, good_signer h.1, good_uattrs us h.2]
theorem good_sis : (l : List DSI) → validSIs l → goodAll (siTrees l) = true
  | [], _ => by simp [siTrees, goodAll]
  | s :: l, h => by
    simp only [validSIs] at h
    simp [siTrees, goodAll, good_si s h.1, good_sis l h.2]
theorem good_uattr : (a : DUAttr) → a.Valid → a.tree.good = true
  | .counter vs, h => by
    simp only [DUAttr.Valid] at h
    simp [DUAttr.tree, T.good, goodAll, good_sis vs h]
  | .nested vs, h => by
    simp only [DUAttr.Valid] at h
    simp [DUAttr.tree, T.good, goodAll, good_sds vs h]
  | .timestamp vs, h => by
    simp only [DUAttr.Valid] at h
    simp [DUAttr.tree, T.good, goodAll, good_sds vs h]
  | .other t vs, h => by
    simp only [DUAttr.Valid] at h
    simp [DUAttr.tree, T.good, goodAll, goodAll_map DAny.tree vs (fun v hv => good_any (h.2.2 v hv))]
theorem good_uattrs : (l : List DUAttr) → validUAttrs l → goodAll (uattrTrees l) = true
  | [], _ => by simp [uattrTrees, goodAll]
  | a :: l, h => by
    simp only [validUAttrs] at h
    simp [uattrTrees, goodAll, good_uattr a h.1, good_uattrs l h.2]
theorem good_sd : (s : DSD) → s.Valid → s.tree.good = true
  | .mk d ss, h => by
    simp only [DSD.Valid] at h
    obtain ⟨⟨h1, h2, h3, h4⟩, h5⟩ := h
    have e1 := goodAll_optT (fun l : List DCertChoice => T.node 0xA0 (l.map DCertChoice.tree)) d.certs
      (fun l hl => by simp [T.good, goodAll_map DCertChoice.tree l (fun c hc => good_certChoice (h3 l hl c hc))])
    have e2 := goodAll_optT (fun l : List DAny => T.node 0xA1 (l.map DAny.tree)) d.crls
      (fun l hl => by simp [T.good, goodAll_map DAny.tree l (fun c hc => good_any (h4 l hl c hc))])
    have e3 := goodAll_map DAlg.tree d.digestAlgs (fun a _ => good_alg a)
    simp [DSD.tree, T.good, goodAll, goodAll_append, e1, e2, e3, good_encap, good_sis ss h5]
theorem good_sds : (l : List DSD) → validSDs l → goodAll (sdTrees l) = true
  | [], _ => by simp [sdTrees, goodAll]
  | s :: l, h => by
    simp only [validSDs] at h
    simp [sdTrees, goodAll, T.good, good_sd s h.1, good_sds l h.2]
end

/-! ### The head of a signer -/

/-- The type of a signer identifier. -/
def tSid : Ty := .choice [
    field "issuer_and_serial_number" (.seq [field "issuer" tName, field "serial_number" tInteger]),
    .mk "subject_key_identifier" (.implicit 0) false tOctetString]

theorem buildT_si {v : Bytes} {sidT : T} {dl sl : List T} {sg : Bytes} {at' ut : Option (List T)} {sv da sa : Val} {avs uvs : List Val}
    (hs : tSid.buildT none sidT = .ok sv) (h1 : tAlgorithm.buildT none (.node 0x30 dl) = .ok da)
    (h2 : tAlgorithm.buildT none (.node 0x30 sl) = .ok sa)
    (ha : ∀ l, at' = some l → parseAll (tCmsAttribute.buildT none) l = .ok avs)
    (hu : ∀ l, ut = some l → parseAll (tCmsAttribute.buildT none) l = .ok uvs) :
    ∃ b, tSignerInfo.buildT none (.node 0x30 ([.leaf 2 v, sidT, .node 0x30 dl] ++ optT (fun l => .node 0xA0 l) at' ++
      [.node 0x30 sl, .leaf 4 sg] ++ optT (fun l => .node 0xA1 l) ut)) = .ok (.seq b [
        ("version", some (.prim v)), ("sid", some sv), ("digest_algorithm", some da),
        ("signed_attrs", at'.map (fun l => .list (encAll l) avs)), ("signature_algorithm", some sa),
        ("signature", some (.prim sg)), ("unsigned_attrs", ut.map (fun l => .list (encAll l) uvs))]) := by
  have e : tSignerInfo = .seq [
      field "version" tInteger,
      field "sid" tSid,
      field "digest_algorithm" tAlgorithm,
      optImplicit "signed_attrs" 0 (.setOf tCmsAttribute),
      field "signature_algorithm" tAlgorithm,
      field "signature" tOctetString,
      optImplicit "unsigned_attrs" 1 (.setOf tCmsAttribute)] := rfl
  rw [e]
  cases h3 : at' <;> cases h4 : ut <;> bt [hs, h1, h2, tInteger, tOctetString] <;> (try rw [ha _ h3]) <;> (try rw [hu _ h4]) <;>
    simp


theorem sid_ok {s : DSid} (h : s.Valid) : ∃ sv, tSid.buildT none s.tree = .ok sv ∧
    ((∃ n k x nv, s = .issuerSerial n k ∧ sv = .choice "issuer_and_serial_number" x ∧ x.req "issuer" = .ok nv ∧
        readName nv = .ok n.value ∧ x.req "serial_number" = .ok (.prim (intOctets k))) ∨
     (∃ b x, s = .keyId b ∧ sv = .choice "subject_key_identifier" x)) := by
  cases s with
  | issuerSerial n k =>
    obtain ⟨nv, h1, h2⟩ := reads_name h
    refine ⟨.choice "issuer_and_serial_number" (.seq (encAll [n.tree, .leaf 2 (intOctets k)])
      [("issuer", some nv), ("serial_number", some (.prim (intOctets k)))]), ?_, .inl ⟨n, k, _, nv, rfl, rfl, ?_, h2, ?_⟩⟩
    · bt [tSid, DSid.tree, h1, tInteger]
    · rd []
    · rd []
  | keyId b =>
    refine ⟨.choice "subject_key_identifier" (.prim b), ?_, .inr ⟨b, _, rfl, rfl⟩⟩
    bt [tSid, DSid.tree, tOctetString]

/-- The value of the attributes that are not signed, as trees. -/
def uattrsT (ut : Option (List T)) : List T := optT (fun l => .node 0xA1 l) ut

theorem buildAttrs (l : List DAttr) : ∃ vs, parseAll (tCmsAttribute.buildT none) (l.map DAttr.tree) = .ok vs := by
  rw [parseAll_map]
  exact ⟨_, parseAll_ok (fun a _ => buildT_attr _ _)⟩

theorem siHead_ok {s : DSigner} (h : s.Valid) {ut : Option (List T)} {uvs : List Val}
    (hu : ∀ l, ut = some l → parseAll (tCmsAttribute.buildT none) l = .ok uvs) :
    ∃ v, tSignerInfo.buildT none (.node 0x30 (signerTrees s ++ uattrsT ut)) = .ok v ∧ readSIHead v = .ok s.raw ∧
      v.get "unsigned_attrs" = .ok (ut.map (fun l => .list (encAll l) uvs)) := by
  obtain ⟨sv, hs, hs'⟩ := sid_ok h.1
  obtain ⟨da, h1, h1'⟩ := reads_alg digestAlgorithmMap h.2.1
  obtain ⟨_, sa, h2, h2'⟩ := reads_sigAlg signatureAlgorithms h.2.2.1
  have ha : ∃ avs, ∀ l, (s.attrs.map (·.map DAttr.tree)) = some l → parseAll (tCmsAttribute.buildT none) l = .ok avs := by
    cases hat : s.attrs with
    | none => exact ⟨[], (fun l h => by simp at h)⟩
    | some l =>
      obtain ⟨vs, hvs⟩ := buildAttrs l
      exact ⟨vs, (fun l' h => by simp at h; subst h; exact hvs)⟩
  obtain ⟨avs, ha⟩ := ha
  obtain ⟨b, hb⟩ := buildT_si (v := intOctets s.version) (sg := s.signature) hs h1 h2 ha hu
  have this : signerTrees s = [.leaf 2 (intOctets s.version), s.sid.tree, s.digestAlg.tree] ++
      optT (fun l => .node 0xA0 l) (s.attrs.map (·.map DAttr.tree)) ++ [s.sigAlg.tree, .leaf 4 s.signature] := by
    unfold signerTrees
    cases s.attrs <;> rfl
  rw [this]
  refine ⟨_, hb, ?_, ?_⟩
  · have hsa : signatureAlgorithms = signatureNames := rfl
    have hda : digestAlgorithmMap = digestNames := rfl
    rw [hsa] at h2'
    rw [hda] at h1'
    unfold readSIHead
    rw [hsa, hda]
    rcases hs' with ⟨n, k, x, nv, e1, rfl, e3, e4, e5⟩ | ⟨b', x, e1, rfl⟩
    · cases hat : s.attrs <;> rd [e1, e3, e4, e5, h1', h2', hat, intNative_intOctets, DSigner.raw, enc_attrs]
    · cases hat : s.attrs <;> rd [e1, h1', h2', hat, DSigner.raw, enc_attrs]
  · rd []

/-! ### The head of a SignedData -/

theorem readCertChoice_ok {c : DCertChoice} (h : c.Valid) (hl : c.tree.enc.length < maxLen) :
    readCertChoice (.any c.tree.parts) = .ok (c.raw certIdent noCert) := by
  cases c with
  | cert c =>
    have e := readCert_ok h (by rw [← DCert.enc_tree]; exact hl)
    have e2 : certChoice c.tree.parts = .ok "certificate" := by
      simp [certChoice, DCert.tree, T.parts, tlvParts, T.id]
    simp only [readCertChoice, DCertChoice.tree, Val.parts, bind, Except.bind, e2, if_true, e]
    rfl
  | other a =>
    simp only [DCertChoice.Valid, choiceNames, List.map_cons, List.map_nil, List.mem_cons, List.not_mem_nil, or_false] at h
    simp only [readCertChoice, DCertChoice.tree, Val.parts, bind, Except.bind, DCertChoice.raw, DAny.tree, choiceNames]
    rcases h with h | h | h | h <;> rw [h] <;> simp [certChoice, T.parts, tlvParts, T.id, List.lookup]

theorem readEncap_ok {d : DData} (h : ValidOid d.contentType) (hok : (encapTree d).Ok) :
    ∃ v, tContentInfo.buildT none (encapTree d) = .ok v ∧
      readEncap d.version v = .ok (nameIn contentNames d.contentType, d.content, decide (d.version ≠ 1)) := by
  have hn := oidNative_eq contentTypes h
  have hc : contentTypes = contentNames := rfl
  rw [hc] at hn
  cases hd : d.content with
  | none =>
    refine ⟨.seq (encapTree d).cont [("content_type", some (.prim (oidOctets d.contentType))), ("content", none)], ?_, ?_⟩
    · unfold encapTree
      rw [hd]
      bt [tContentInfo, tOid]
    · unfold readEncap
      rw [hc]
      rd [hn]
  | some b =>
    refine ⟨.seq (encapTree d).cont [("content_type", some (.prim (oidOctets d.contentType))),
      ("content", some (.any (contentTree d b).parts))], ?_, ?_⟩
    · unfold encapTree
      rw [hd]
      bt [tContentInfo, tOid]
    · have hk : (contentTree d b).Ok := by
        refine T.Ok.child (id := 0xA0) (l := [contentTree d b]) (T.Ok.child (id := 0x30) hok ?_) (by simp)
        simp [hd]
      unfold readEncap
      rw [hc]
      by_cases hv : d.version = 1
      · rd [hn, hv, contentTree, checkId, T.parts, tlvParts, T.id, T.cont]
      · have e : tOctetString.build none (contentTree d b).parts = .ok (.prim b) := by
          rw [build_tree _ _ _ hk]
          bt [contentTree, hv, tOctetString]
        rd [hn, hv, e]

theorem readAlgs_ok {l : List DAlg} (h : ∀ a ∈ l, ValidOid a.oid) :
    ∃ vs, parseAll (tAlgorithm.buildT none) (l.map DAlg.tree) = .ok vs ∧
      parseAll (readAlg digestAlgorithmMap) vs = .ok (l.map (fun a => ⟨nameIn digestNames a.oid, false⟩)) :=
  parseAll_reads (fun a ha => reads_alg digestAlgorithmMap (h a ha))

theorem buildT_sd {tc tr : Ty} {v : Bytes} {dl : List T} {et : T} {ct rt : Option (List T)} {sl : List T} {dvs svs cvs rvs : List Val}
    {ev : Val} (h1 : parseAll (tAlgorithm.buildT none) dl = .ok dvs) (h2 : tContentInfo.buildT none et = .ok ev)
    (hc : ∀ l, ct = some l → parseAll (tc.buildT none) l = .ok cvs) (hr : ∀ l, rt = some l → parseAll (tr.buildT none) l = .ok rvs)
    (hs : parseAll (tSignerInfo.buildT none) sl = .ok svs) :
    ∃ b, (Ty.seq [field "version" tInteger, field "digest_algorithms" (.setOf tAlgorithm), field "encap_content_info" tContentInfo,
      optImplicit "certificates" 0 (.setOf tc), optImplicit "crls" 1 (.setOf tr), field "signer_infos" (.setOf tSignerInfo)]).buildT none
      (.node 0x30 ([.leaf 2 v, .node 0x31 dl, et] ++ optT (fun l => .node 0xA0 l) ct ++ optT (fun l => .node 0xA1 l) rt ++
        [.node 0x31 sl])) = .ok (.seq b [
        ("version", some (.prim v)), ("digest_algorithms", some (.list (encAll dl) dvs)), ("encap_content_info", some ev),
        ("certificates", ct.map (fun l => .list (encAll l) cvs)), ("crls", rt.map (fun l => .list (encAll l) rvs)),
        ("signer_infos", some (.list (encAll sl) svs))]) := by
  cases h3 : ct <;> cases h4 : rt <;> bt [h1, h2, hs, tInteger] <;> (try rw [hc _ h3]) <;> (try rw [hr _ h4]) <;> simp

theorem sdHead_ok {d : DData} (h : d.Valid) {sl : List T} {svs : List Val}
    (hs : parseAll (tSignerInfo.buildT none) sl = .ok svs)
    (hok : (T.node 0x30 ([.leaf 2 (intOctets d.version), .node 0x31 (d.digestAlgs.map DAlg.tree), encapTree d] ++
      optT (fun l : List DCertChoice => .node 0xA0 (l.map DCertChoice.tree)) d.certs ++
      optT (fun l : List DAny => .node 0xA1 (l.map DAny.tree)) d.crls ++ [.node 0x31 sl])).Ok) :
    ∃ v, tSignedData.buildT none (.node 0x30 ([.leaf 2 (intOctets d.version), .node 0x31 (d.digestAlgs.map DAlg.tree), encapTree d] ++
      optT (fun l : List DCertChoice => .node 0xA0 (l.map DCertChoice.tree)) d.certs ++
      optT (fun l : List DAny => .node 0xA1 (l.map DAny.tree)) d.crls ++ [.node 0x31 sl])) = .ok v ∧
      readSDHead v = .ok (d.raw certIdent noCert) ∧ v.req "signer_infos" = .ok (.list (encAll sl) svs) := by
  obtain ⟨h1, h2, h3, h4⟩ := h
  obtain ⟨as, ha, ha'⟩ := readAlgs_ok h1
  obtain ⟨ev, he, he'⟩ := readEncap_ok h2 (hok.child (by simp))
  have hcs : ∀ l, d.certs = some l → parseAll readCertChoice ((l.map DCertChoice.tree).map (fun t => .any t.parts)) =
      .ok (l.map (DCertChoice.raw certIdent noCert)) := by
    intro l hl
    rw [List.map_map, parseAll_map]
    refine parseAll_ok (fun c hc => readCertChoice_ok (h3 l hl c hc) ?_)
    have hb : (T.node 0xA0 (l.map DCertChoice.tree)).Ok := hok.child (by simp [hl])
    have h5 : c.tree.enc.length ≤ (encAll (l.map DCertChoice.tree)).length := encAll_le (List.mem_map_of_mem hc)
    have h6 := hb.2
    simp only [T.cont] at h6
    omega
  have hany : ∀ l : List T, parseAll (Ty.any.buildT none) l = .ok (l.map (fun t => .any t.parts)) := fun l =>
    parseAll_ok (fun t _ => by simp [Ty.buildT])
  have o1 : optT (fun l : List DCertChoice => T.node 0xA0 (l.map DCertChoice.tree)) d.certs =
      optT (fun l => .node 0xA0 l) (d.certs.map (·.map DCertChoice.tree)) := by cases d.certs <;> rfl
  have o2 : optT (fun l : List DAny => T.node 0xA1 (l.map DAny.tree)) d.crls =
      optT (fun l => .node 0xA1 l) (d.crls.map (·.map DAny.tree)) := by cases d.crls <;> rfl
  rw [o1, o2]
  obtain ⟨b, hb⟩ := buildT_sd (tc := .any) (tr := .any) (v := intOctets d.version)
    (ct := d.certs.map (·.map DCertChoice.tree)) (rt := d.crls.map (·.map DAny.tree))
    (cvs := ((d.certs.getD []).map DCertChoice.tree).map (fun t => .any t.parts))
    (rvs := ((d.crls.getD []).map DAny.tree).map (fun t => .any t.parts)) ha he
    (fun l hl => by
      cases hd : d.certs with
      | none => simp [hd] at hl
      | some l' => simp [hd] at hl; subst hl; exact hany _)
    (fun l hl => by
      cases hd : d.crls with
      | none => simp [hd] at hl
      | some l' => simp [hd] at hl; subst hl; exact hany _) hs
  refine ⟨_, hb, ?_, ?_⟩
  · unfold readSDHead DData.raw
    cases hd : d.certs with
    | none => cases hr : d.crls <;> rd [hd, hr, ha', intNative_intOctets, he']
    | some l =>
      have hc := hcs l hd
      rw [List.map_map] at hc
      cases hr : d.crls <;> rd [hd, hr, ha', intNative_intOctets, he', hc]
  · rd []

/-! ### Nesting -/

theorem T.enc_pos (t : T) : 0 < t.enc.length := by have := t.cont_lt; omega

theorem T.child_lt {id : UInt8} {l : List T} {t : T} (h : t ∈ l) : t.enc.length < (T.node id l).enc.length := by
  have h1 := encAll_le h
  have h2 := (T.node id l).cont_lt
  simp only [T.cont] at h2
  omega

theorem readUAttr_ok {si : Parts → Except Exc RawSI} {sd : Parts → Except Exc RawSD} {o : List Nat} {l : List T} {vs : List RawUVal}
    (h : ValidOid o)
    (hv : parseAll (fun t : T => readUVal si sd (nameIn cmsNames o) t.parts) l = .ok vs) :
    Reads tCmsAttribute (.node 0x30 [.leaf 6 (oidOctets o), .node 0x31 l]) (readUAttr si sd) (.mk (nameIn cmsNames o) vs) := by
  refine ⟨_, buildT_attr _ _, ?_⟩
  have e := oidNative_eq cmsAttributeTypes h
  have hn : cmsAttributeTypes = cmsNames := rfl
  rw [hn] at e
  unfold readUAttr
  rw [hn]
  rd [e, parseAll_map, hv]

theorem readContentInfo_ok {sd : Parts → Except Exc RawSD} {t : T} {r : RawSD}
    (hok : (T.node 0x30 [.leaf 6 (oidOctets oidSignedData), .node 0xA0 [t]]).Ok) (h : sd t.parts = .ok r) :
    readContentInfo sd (T.node 0x30 [.leaf 6 (oidOctets oidSignedData), .node 0xA0 [t]]).parts = .ok ("signed_data", r) := by
  have e : tContentInfo.buildT none (T.node 0x30 [.leaf 6 (oidOctets oidSignedData), .node 0xA0 [t]]) =
      .ok (.seq (encAll [.leaf 6 (oidOctets oidSignedData), .node 0xA0 [t]])
        [("content_type", some (.prim (oidOctets oidSignedData))), ("content", some (.any t.parts))]) := by
    bt [tContentInfo, tOid]
  have e2 : oidNative contentTypes (oidOctets oidSignedData) = "signed_data" := by decide +kernel
  unfold readContentInfo
  rw [build_tree _ _ _ hok, e]
  rd [e2, h]

theorem counter_name : nameIn cmsNames [1, 2, 840, 113549, 1, 9, 6] = "counter_signature" := by decide +kernel
theorem nested_name : nameIn cmsNames [1, 3, 6, 1, 4, 1, 311, 2, 4, 1] = "microsoft_nested_signature" := by decide +kernel
theorem timestamp_name : nameIn cmsNames [1, 3, 6, 1, 4, 1, 311, 3, 3, 1] = "microsoft_time_stamp_token" := by decide +kernel

mutual
theorem si_ok : (s : DSI) → s.Valid → s.tree.Ok → (n : Nat) → s.tree.enc.length ≤ n + 1 →
    Reads tSignerInfo s.tree (readSI (derSI n) (derSD n)) (s.raw certIdent noCert)
  | .mk s none, h, hok, n, hn => by
    simp only [DSI.Valid] at h
    obtain ⟨v, h1, h2, h3⟩ := siHead_ok h (ut := none) (uvs := []) (fun l h => by cases h)
    have e : (DSI.mk s none).tree = .node 0x30 (signerTrees s ++ uattrsT none) := by simp [DSI.tree, uattrsT]
    refine ⟨v, by rw [e]; exact h1, ?_⟩
    simp [readSI, bind, Except.bind, h2, h3, DSI.raw]
  | .mk s (some us), h, hok, n, hn => by
    simp only [DSI.Valid] at h
    have e : (DSI.mk s (some us)).tree = .node 0x30 (signerTrees s ++ uattrsT (some (uattrTrees us))) := by simp [DSI.tree, uattrsT]
    rw [e] at hok hn ⊢
    have hk : (T.node 0xA1 (uattrTrees us)).Ok := hok.child (by simp [uattrsT])
    have hl : (T.node 0xA1 (uattrTrees us)).enc.length < _ := T.child_lt (id := 0x30) (l := signerTrees s ++ uattrsT (some (uattrTrees us)))
      (by simp [uattrsT])
    obtain ⟨uvs, hu, hu'⟩ := uattrs_ok us h.2 (fun t ht => hk.child ht) n (fun t ht => by
      have := T.child_lt (id := 0xA1) ht
      omega)
    obtain ⟨v, h1, h2, h3⟩ := siHead_ok h.1 (ut := some (uattrTrees us)) (uvs := uvs) (fun l h => by cases h; exact hu)
    refine ⟨v, h1, ?_⟩
    simp [readSI, bind, Except.bind, h2, h3, DSI.raw, Val.elems, hu']
theorem sis_ok : (l : List DSI) → validSIs l → (∀ t ∈ siTrees l, t.Ok) → (n : Nat) → (∀ t ∈ siTrees l, t.enc.length ≤ n + 1) →
    ∃ vs, parseAll (tSignerInfo.buildT none) (siTrees l) = .ok vs ∧
      parseAll (readSI (derSI n) (derSD n)) vs = .ok (rawSIs certIdent noCert l)
  | [], _, _, _, _ => ⟨[], by simp [siTrees, parseAll], by simp [parseAll, rawSIs]⟩
  | s :: l, h, hok, n, hn => by
    simp only [validSIs] at h
    simp only [siTrees, List.mem_cons, forall_eq_or_imp] at hok hn
    obtain ⟨v, h1, h2⟩ := si_ok s h.1 hok.1 n hn.1
    obtain ⟨vs, h3, h4⟩ := sis_ok l h.2 hok.2 n hn.2
    exact ⟨v :: vs, by simp [siTrees, parseAll, bind, Except.bind, h1, h3], by simp [parseAll, rawSIs, bind, Except.bind, h2, h4]⟩
theorem counters_ok : (l : List DSI) → validSIs l → (∀ t ∈ siTrees l, t.Ok) → (n : Nat) → (∀ t ∈ siTrees l, t.enc.length ≤ n) →
    parseAll (fun t : T => readUVal (derSI n) (derSD n) "counter_signature" t.parts) (siTrees l) = .ok (rawCounters certIdent noCert l)
  | [], _, _, _, _ => by simp [siTrees, parseAll, rawCounters]
  | s :: l, h, hok, n, hn => by
    simp only [validSIs] at h
    simp only [siTrees, List.mem_cons, forall_eq_or_imp] at hok hn
    have h5 := counters_ok l h.2 hok.2 n hn.2
    cases n with
    | zero => have := s.tree.enc_pos; omega
    | succ m =>
      obtain ⟨v, h1, h2⟩ := si_ok s h.1 hok.1 m hn.1
      have e : derSI (m + 1) s.tree.parts = .ok (s.raw certIdent noCert) := by
        simp only [derSI]
        rw [build_tree _ _ _ hok.1, h1]
        exact h2
      have e2 : readUVal (derSI (m + 1)) (derSD (m + 1)) "counter_signature" s.tree.parts =
          .ok (.signerInfo (s.raw certIdent noCert)) := by
        simp only [readUVal, if_true]
        rw [e]
        rfl
      simp only [siTrees, parseAll, rawCounters, bind, Except.bind]
      rw [e2, h5]
theorem uattr_ok : (a : DUAttr) → a.Valid → a.tree.Ok → (n : Nat) → a.tree.enc.length ≤ n →
    Reads tCmsAttribute a.tree (readUAttr (derSI n) (derSD n)) (a.raw certIdent noCert)
  | .counter vs, h, hok, n, hn => by
    simp only [DUAttr.Valid] at h
    simp only [DUAttr.tree, DUAttr.raw] at *
    have hk : (T.node 0x31 (siTrees vs)).Ok := hok.child (by simp)
    have hl := T.child_lt (t := .node 0x31 (siTrees vs)) (id := 0x30)
      (l := [.leaf 6 (oidOctets [1, 2, 840, 113549, 1, 9, 6]), .node 0x31 (siTrees vs)]) (by simp)
    have := counters_ok vs h (fun t ht => hk.child ht) n (fun t ht => by have := T.child_lt (id := 0x31) ht; omega)
    rw [← counter_name] at this ⊢
    exact readUAttr_ok ⟨_, _, _, rfl, by omega, by omega⟩ this
  | .nested vs, h, hok, n, hn => by
    simp only [DUAttr.Valid] at h
    simp only [DUAttr.tree, DUAttr.raw] at *
    have hk : (T.node 0x31 (sdTrees vs)).Ok := hok.child (by simp)
    have hl := T.child_lt (t := .node 0x31 (sdTrees vs)) (id := 0x30)
      (l := [.leaf 6 (oidOctets [1, 3, 6, 1, 4, 1, 311, 2, 4, 1]), .node 0x31 (sdTrees vs)]) (by simp)
    have := sds_ok vs h (fun t ht => hk.child ht) n (fun t ht => by have := T.child_lt (id := 0x31) ht; omega)
      "microsoft_nested_signature" (by simp)
    rw [← nested_name] at this ⊢
    exact readUAttr_ok ⟨_, _, _, rfl, by omega, by omega⟩ this
  | .timestamp vs, h, hok, n, hn => by
    simp only [DUAttr.Valid] at h
    simp only [DUAttr.tree, DUAttr.raw] at *
    have hk : (T.node 0x31 (sdTrees vs)).Ok := hok.child (by simp)
    have hl := T.child_lt (t := .node 0x31 (sdTrees vs)) (id := 0x30)
      (l := [.leaf 6 (oidOctets [1, 3, 6, 1, 4, 1, 311, 3, 3, 1]), .node 0x31 (sdTrees vs)]) (by simp)
    have := sds_ok vs h (fun t ht => hk.child ht) n (fun t ht => by have := T.child_lt (id := 0x31) ht; omega)
      "microsoft_time_stamp_token" (by simp)
    rw [← timestamp_name] at this ⊢
    exact readUAttr_ok ⟨_, _, _, rfl, by omega, by omega⟩ this
  | .other t vs, h, hok, n, hn => by
    simp only [DUAttr.Valid] at h
    simp only [DUAttr.tree, DUAttr.raw] at *
    refine readUAttr_ok h.1 ?_
    rw [parseAll_map]
    refine parseAll_ok (fun v hv => ?_)
    have hn := h.2.1
    simp only [uattrKinds, List.mem_cons, List.not_mem_nil, or_false, not_or] at hn
    simp [readUVal, hn, dump_parts, DAny.enc_tree]
theorem uattrs_ok : (l : List DUAttr) → validUAttrs l → (∀ t ∈ uattrTrees l, t.Ok) → (n : Nat) →
    (∀ t ∈ uattrTrees l, t.enc.length ≤ n) →
    ∃ vs, parseAll (tCmsAttribute.buildT none) (uattrTrees l) = .ok vs ∧
      parseAll (readUAttr (derSI n) (derSD n)) vs = .ok (rawUAttrs certIdent noCert l)
  | [], _, _, _, _ => ⟨[], by simp [uattrTrees, parseAll], by simp [parseAll, rawUAttrs]⟩
  | a :: l, h, hok, n, hn => by
    simp only [validUAttrs] at h
    simp only [uattrTrees, List.mem_cons, forall_eq_or_imp] at hok hn
    obtain ⟨v, h1, h2⟩ := uattr_ok a h.1 hok.1 n hn.1
    obtain ⟨vs, h3, h4⟩ := uattrs_ok l h.2 hok.2 n hn.2
    exact ⟨v :: vs, by simp [uattrTrees, parseAll, bind, Except.bind, h1, h3],
      by simp [parseAll, rawUAttrs, bind, Except.bind, h2, h4]⟩
theorem sd_ok : (s : DSD) → s.Valid → s.tree.Ok → (n : Nat) → s.tree.enc.length ≤ n → derSD n s.tree.parts = .ok (s.raw certIdent noCert)
  | .mk d ss, h, hok, n, hn => by
    simp only [DSD.Valid] at h
    cases n with
    | zero => have := (DSD.mk d ss).tree.enc_pos; omega
    | succ m =>
      have hm : T.node 0x31 (siTrees ss) ∈ [T.leaf 2 (intOctets d.version), .node 0x31 (d.digestAlgs.map DAlg.tree), encapTree d] ++
        optT (fun l : List DCertChoice => T.node 0xA0 (l.map DCertChoice.tree)) d.certs ++
        optT (fun l : List DAny => T.node 0xA1 (l.map DAny.tree)) d.crls ++ [T.node 0x31 (siTrees ss)] := by simp
      have hok' := hok
      simp only [DSD.tree] at hok' hn
      have hk : (T.node 0x31 (siTrees ss)).Ok := hok'.child hm
      have hl := T.child_lt (id := 0x30) hm
      obtain ⟨svs, h1, h2⟩ := sis_ok ss h.2 (fun t ht => hk.child ht) m (fun t ht => by have := T.child_lt (id := 0x31) ht; omega)
      obtain ⟨v, h3, h4, h5⟩ := sdHead_ok h.1 h1 hok'
      simp only [derSD]
      rw [build_tree _ _ _ hok]
      simp only [DSD.tree, bind, Except.bind]
      rw [h3]
      simp [h4, h5, Val.elems, h2, DSD.raw]
theorem sds_ok : (l : List DSD) → validSDs l → (∀ t ∈ sdTrees l, t.Ok) → (n : Nat) → (∀ t ∈ sdTrees l, t.enc.length ≤ n) →
    (type : String) → type = "microsoft_nested_signature" ∨ type = "microsoft_time_stamp_token" →
    parseAll (fun t : T => readUVal (derSI n) (derSD n) type t.parts) (sdTrees l) = .ok (rawSDs certIdent noCert l)
  | [], _, _, _, _, _, _ => by simp [sdTrees, parseAll, rawSDs]
  | s :: l, h, hok, n, hn, type, ht => by
    simp only [validSDs] at h
    simp only [sdTrees, List.mem_cons, forall_eq_or_imp] at hok hn
    have h5 := sds_ok l h.2 hok.2 n hn.2 type ht
    have hk : s.tree.Ok := T.Ok.child (id := 0xA0) (l := [s.tree]) (hok.1.child (by simp)) (by simp)
    have l1 := T.child_lt (id := 0xA0) (l := [s.tree]) (t := s.tree) (by simp)
    have l2 := T.child_lt (id := 0x30) (l := [.leaf 6 (oidOctets oidSignedData), .node 0xA0 [s.tree]]) (t := .node 0xA0 [s.tree]) (by simp)
    have e := sd_ok s h.1 hk n (by omega)
    have e2 := readContentInfo_ok hok.1 e
    have hne : type ≠ "counter_signature" := by rcases ht with rfl | rfl <;> decide
    simp only [sdTrees, parseAll, rawSDs, bind, Except.bind, readUVal, if_neg hne, if_pos ht]
    rw [e2]
    simp only [readUVal, if_neg hne, if_pos ht, bind, Except.bind] at h5
    rw [h5]
end

/-- A signature that is written as documented is read as it is, also if other bytes follow. -/
theorem derEnvelope_ok {s : DSD} (h : s.Valid) (hl : (contentInfo s.encode).length < maxLen) (rest : Bytes) :
    derEnvelope (contentInfo s.encode ++ rest) = .ok ("signed_data", s.raw certIdent noCert) := by
  have he : contentInfo s.encode = (T.node 0x30 [.leaf 6 (oidOctets oidSignedData), .node 0xA0 [s.tree]]).enc := by
    simp [contentInfo, T.enc, encAll, derSeq, derOid, s.enc_tree]
  have hg : (T.node 0x30 [.leaf 6 (oidOctets oidSignedData), .node 0xA0 [s.tree]]).good = true := by
    simp [T.good, goodAll, good_sd s h]
  rw [he] at hl ⊢
  have hok := T.ok_of hg hl
  have hk : s.tree.Ok := T.Ok.child (id := 0xA0) (l := [s.tree]) (hok.child (by simp)) (by simp)
  have l1 := T.child_lt (id := 0xA0) (l := [s.tree]) (t := s.tree) (by simp)
  have l2 := T.child_lt (id := 0x30) (l := [.leaf 6 (oidOctets oidSignedData), .node 0xA0 [s.tree]]) (t := .node 0xA0 [s.tree]) (by simp)
  unfold derEnvelope
  rw [parse_tree _ _ hg hok.2]
  simp only [bind, Except.bind]
  exact readContentInfo_ok hok (sd_ok s h hk _ (by simp only [List.length_append]; omega))

end Signify.Asn1
