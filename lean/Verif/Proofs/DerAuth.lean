/-
Reading Authenticode signatures as a whole.
-/
import Verif.Proofs.DerTst
import Verif.Proofs.Pkcs7

set_option autoImplicit false

namespace Signify.Asn1

open Signify Spec

/-! ### Lists -/

theorem siTrees_eq (l : List DSI) : siTrees l = l.map DSI.tree := by
  induction l with
  | nil => simp [siTrees]
  | cons a l ih => simp [siTrees, ih]

theorem uattrTrees_eq (l : List DUAttr) : uattrTrees l = l.map DUAttr.tree := by
  induction l with
  | nil => simp [uattrTrees]
  | cons a l ih => simp [uattrTrees, ih]

theorem sdTrees_eq (l : List DSD) :
    sdTrees l = l.map (fun s => .node 0x30 [.leaf 6 (oidOctets oidSignedData), .node 0xA0 [s.tree]]) := by
  induction l with
  | nil => simp [sdTrees]
  | cons a l ih => simp [sdTrees, ih]

theorem rawSIs_eq (i : Bytes → Nat) (c : Cert) (l : List DSI) : rawSIs i c l = l.map (DSI.raw i c) := by
  induction l with
  | nil => simp [rawSIs]
  | cons a l ih => simp [rawSIs, ih]

theorem rawCounters_eq (i : Bytes → Nat) (c : Cert) (l : List DSI) : rawCounters i c l = l.map (fun s => .signerInfo (s.raw i c)) := by
  induction l with
  | nil => simp [rawCounters]
  | cons a l ih => simp [rawCounters, ih]

theorem rawUAttrs_eq (i : Bytes → Nat) (c : Cert) (l : List DUAttr) : rawUAttrs i c l = l.map (DUAttr.raw i c) := by
  induction l with
  | nil => simp [rawUAttrs]
  | cons a l ih => simp [rawUAttrs, ih]

theorem rawSDs_eq (i : Bytes → Nat) (c : Cert) (l : List DSD) :
    rawSDs i c l = l.map (fun s => .contentInfo "signed_data" (s.raw i c)) := by
  induction l with
  | nil => simp [rawSDs]
  | cons a l ih => simp [rawSDs, ih]

theorem validSIs_iff (l : List DSI) : validSIs l ↔ ∀ s ∈ l, s.Valid := by
  induction l with
  | nil => simp [validSIs]
  | cons a l ih => simp [validSIs, ih]

theorem validUAttrs_iff (l : List DUAttr) : validUAttrs l ↔ ∀ s ∈ l, s.Valid := by
  induction l with
  | nil => simp [validUAttrs]
  | cons a l ih => simp [validUAttrs, ih]

theorem validSDs_iff (l : List DSD) : validSDs l ↔ ∀ s ∈ l, s.Valid := by
  induction l with
  | nil => simp [validSDs]
  | cons a l ih => simp [validSDs, ih]

theorem DSI.head_raw (i : Bytes → Nat) (c : Cert) (s : DSI) : (s.raw i c).head = s.signer.raw := by
  obtain ⟨s, us⟩ := s
  cases us <;> simp [DSI.raw, RawSI.head, DSI.signer]

theorem DSI.unsigned_raw (i : Bytes → Nat) (c : Cert) (s : DSI) : (s.raw i c).unsigned = s.unsigned.map (DUAttr.raw i c) := by
  obtain ⟨s, us⟩ := s
  cases us <;> simp [DSI.raw, RawSI.unsigned, DSI.unsigned, rawUAttrs_eq]

theorem DSI.valid_iff (s : DSI) : s.Valid ↔ s.signer.Valid ∧ ∀ a ∈ s.unsigned, a.Valid := by
  obtain ⟨s, us⟩ := s
  cases us <;> simp [DSI.Valid, DSI.signer, DSI.unsigned, validUAttrs_iff]

/-! ### Lengths -/

theorem si_attrs_len {s : DSI} (h : s.tree.Ok) {l : List DAttr} (hl : s.signer.attrs = some l) : (attrsContents l).length < maxLen := by
  obtain ⟨s, us⟩ := s
  simp only [DSI.signer] at hl
  have : (T.node 0xA0 (l.map DAttr.tree)).Ok := by
    cases us <;> simp only [DSI.tree] at h <;> exact h.child (by simp [signerTrees, hl])
  have := this.2
  simpa only [T.cont, enc_attrs] using this

theorem si_uattr_ok {s : DSI} (h : s.tree.Ok) {a : DUAttr} (ha : a ∈ s.unsigned) : a.tree.Ok := by
  obtain ⟨s, us⟩ := s
  cases us with
  | none => simp [DSI.unsigned] at ha
  | some us =>
    simp only [DSI.unsigned, Option.getD_some] at ha
    simp only [DSI.tree] at h
    have h1 : (T.node 0xA1 (uattrTrees us)).Ok := h.child (by simp)
    exact h1.child (by rw [uattrTrees_eq]; exact List.mem_map_of_mem ha)

theorem counter_tree_ok {vs : List DSI} (h : (DUAttr.counter vs).tree.Ok) {s : DSI} (hs : s ∈ vs) : s.tree.Ok := by
  simp only [DUAttr.tree] at h
  have h1 : (T.node 0x31 (siTrees vs)).Ok := h.child (by simp)
  exact h1.child (by rw [siTrees_eq]; exact List.mem_map_of_mem hs)

theorem sds_tree_ok {o : Bytes} {vs : List DSD} (h : (T.node 0x30 [.leaf 6 o, .node 0x31 (sdTrees vs)]).Ok) {s : DSD} (hs : s ∈ vs) :
    s.tree.Ok := by
  have h1 : (T.node 0x31 (sdTrees vs)).Ok := h.child (by simp)
  have h2 : (T.node 0x30 [.leaf 6 (oidOctets oidSignedData), .node 0xA0 [s.tree]]).Ok :=
    h1.child (by rw [sdTrees_eq]; exact List.mem_map.mpr ⟨s, hs, rfl⟩)
  exact T.Ok.child (id := 0xA0) (l := [s.tree]) (h2.child (by simp)) (by simp)

theorem sd_signer_ok {d : DData} {ss : List DSI} (h : (DSD.mk d ss).tree.Ok) {s : DSI} (hs : s ∈ ss) : s.tree.Ok := by
  simp only [DSD.tree] at h
  have h1 : (T.node 0x31 (siTrees ss)).Ok := h.child (by simp)
  exact h1.child (by rw [siTrees_eq]; exact List.mem_map_of_mem hs)

theorem sd_content_len {d : DData} {ss : List DSI} (h : (DSD.mk d ss).tree.Ok) {b : Bytes} (hb : d.content = some b) :
    b.length < maxLen := by
  simp only [DSD.tree] at h
  have h1 : (encapTree d).Ok := h.child (by simp)
  unfold encapTree at h1
  have h2 : (T.node 0xA0 [contentTree d b]).Ok := h1.child (by simp [hb])
  have h3 : (contentTree d b).Ok := h2.child (by simp)
  have := h3.2
  unfold contentTree at this
  split at this <;> simpa [T.cont] using this

/-! ### Attributes -/

theorem find?_unique {α : Type} {p : α → Bool} {l : List α} {a : α} (ha : a ∈ l) (hp : p a = true)
    (hu : ∀ b ∈ l, p b = true → b = a) : l.find? p = some a := by
  cases h : l.find? p with
  | none => exact absurd hp (List.find?_eq_none.mp h a ha)
  | some b => rw [hu b (List.mem_of_find?_eq_some h) (List.find?_some h)]

theorem nodup_map_inj {α β : Type} {f : α → β} {l : List α} (h : (l.map f).Nodup) {a b : α} (ha : a ∈ l) (hb : b ∈ l)
    (e : f a = f b) : a = b := by
  induction l with
  | nil => cases ha
  | cons x l ih =>
    rw [List.map_cons, List.nodup_cons] at h
    rcases List.mem_cons.mp ha with h1 | h1 <;> rcases List.mem_cons.mp hb with h2 | h2
    · rw [h1, h2]
    · exact absurd (List.mem_map.mpr ⟨b, h2, by rw [← e, h1]⟩) h.1
    · exact absurd (List.mem_map.mpr ⟨a, h1, by rw [e, h2]⟩) h.1
    · exact ih h.2 h1 h2

/-- Names of the attributes tell their kinds apart. -/
theorem attr_kind {a b : DAttr} (ha : a.Valid) (hb : b.Valid) (hk : a.raw.type ∈ attrKinds) (e : b.raw.type = a.raw.type) :
    b.type = a.type := by
  cases b with
  | other t vs =>
    rw [← e] at hk
    exact absurd hk hb.2.1
  | _ =>
    cases a with
    | other t vs => exact absurd hk ha.2.1
    | _ => simp_all [DAttr.raw, DAttr.type]

theorem lastAttr_hit {l : List DAttr} (hv : ∀ a ∈ l, a.Valid) (hn : (l.map DAttr.type).Nodup) {a : DAttr} (ha : a ∈ l)
    (hk : a.raw.type ∈ attrKinds) : lastAttr (l.map DAttr.raw) a.raw.type = some a.raw := by
  unfold lastAttr
  refine find?_unique (by simp; exact ⟨a, ha, rfl⟩) (by simp) ?_
  intro b hb hp
  obtain ⟨b, hb', rfl⟩ := List.mem_map.mp (List.mem_reverse.mp hb)
  rw [nodup_map_inj hn hb' ha (attr_kind (hv a ha) (hv b hb') hk (by simpa using hp))]

theorem lastAttr_miss {l : List DAttr} {t : String} (h : ∀ a ∈ l, a.raw.type ≠ t) : lastAttr (l.map DAttr.raw) t = none := by
  unfold lastAttr
  rw [List.find?_eq_none]
  intro b hb
  obtain ⟨b, hb', rfl⟩ := List.mem_map.mp (List.mem_reverse.mp hb)
  simpa using h b hb'

theorem optAttr_reads {α β : Type} {l : List DAttr} (hv : ∀ a ∈ l, a.Valid) (hn : (l.map DAttr.type).Nodup)
    {mk : List α → DAttr} {val : α → β} {x : Option β} {t : String} {rv : β → RawVal} (hr : ∀ vs, (mk vs).raw = ⟨t, vs.map (fun v => rv (val v))⟩)
    (hk : t ∈ attrKinds) (hm : ∀ a : DAttr, a.Valid → a.raw.type = t → ∃ vs, a = mk vs) (h : OptAttr l mk val x) :
    ReadsAttr (l.map DAttr.raw) t rv x := by
  unfold ReadsAttr
  rcases h with ⟨v, h1, h2⟩ | ⟨h1, h2⟩
  · have e := lastAttr_hit hv hn h1 (by rw [hr]; exact hk)
    rw [hr] at e
    rw [e]
    exact ⟨_, by simp, h2⟩
  · rw [lastAttr_miss]
    · exact h2
    · intro a ha e
      obtain ⟨vs, rfl⟩ := hm a (hv a ha) e
      exact h1 vs ha

theorem kind_of {a : DAttr} (ha : a.Valid) :
    (a.raw.type = "content_type" → ∃ vs, a = .contentType vs) ∧ (a.raw.type = "message_digest" → ∃ vs, a = .messageDigest vs) ∧
    (a.raw.type = "signing_time" → ∃ vs, a = .signingTime vs) ∧
    (a.raw.type = "microsoft_spc_statement_type" → ∃ vs, a = .statementType vs) ∧
    (a.raw.type = "microsoft_spc_sp_opus_info" → ∃ vs, a = .opus vs) := by
  cases a with
  | other t vs =>
    have h := ha.2.1
    simp only [attrKinds, List.mem_cons, List.not_mem_nil, or_false, not_or] at h
    simp [DAttr.raw, h]
  | _ => simp [DAttr.raw]

theorem uattr_kind {a b : DUAttr} (ha : a.Valid) (hb : b.Valid) (i : Bytes → Nat) (c : Cert) (hk : (a.raw i c).type ∈ uattrKinds)
    (e : (b.raw i c).type = (a.raw i c).type) : b.type = a.type := by
  cases b with
  | other t vs =>
    rw [← e] at hk
    simp only [DUAttr.Valid] at hb
    simp only [DUAttr.raw, RawUAttr.type] at hk
    exact absurd hk hb.2.1
  | _ =>
    cases a with
    | other t vs =>
      simp only [DUAttr.Valid] at ha
      simp only [DUAttr.raw, RawUAttr.type] at hk
      exact absurd hk ha.2.1
    | _ => simp_all [DUAttr.raw, DUAttr.type, RawUAttr.type]

theorem attrValues_hit {i : Bytes → Nat} {c : Cert} {l : List DUAttr} (hv : ∀ a ∈ l, a.Valid) (hn : OnceU l) {a : DUAttr} (ha : a ∈ l)
    (hk : (a.raw i c).type ∈ uattrKinds) : AttrValues (l.map (DUAttr.raw i c)) (a.raw i c).type (a.raw i c).values := by
  refine ⟨a.raw i c, ?_, rfl⟩
  unfold lastUAttr
  refine find?_unique (by simp; exact ⟨a, ha, rfl⟩) (by simp) ?_
  intro b hb hp
  obtain ⟨b, hb', rfl⟩ := List.mem_map.mp (List.mem_reverse.mp hb)
  rw [nodup_map_inj hn hb' ha (uattr_kind (hv a ha) (hv b hb') i c hk (by simpa using hp))]

theorem ukind_of {a : DUAttr} (ha : a.Valid) (i : Bytes → Nat) (c : Cert) :
    ((a.raw i c).type = "counter_signature" → ∃ vs, a = .counter vs) ∧
    ((a.raw i c).type = "microsoft_nested_signature" → ∃ vs, a = .nested vs) ∧
    ((a.raw i c).type = "microsoft_time_stamp_token" → ∃ vs, a = .timestamp vs) := by
  cases a with
  | other t vs =>
    simp only [DUAttr.Valid] at ha
    have h := ha.2.1
    simp only [uattrKinds, List.mem_cons, List.not_mem_nil, or_false, not_or] at h
    simp [DUAttr.raw, RawUAttr.type, h]
  | _ => simp [DUAttr.raw, RawUAttr.type]

theorem noCounter {i : Bytes → Nat} {c : Cert} {l : List DUAttr} (hv : ∀ a ∈ l, a.Valid) (h : ∀ vs, .counter vs ∉ l) :
    NoAttr (l.map (DUAttr.raw i c)) "counter_signature" := by
  intro r hr e
  obtain ⟨a, ha, rfl⟩ := List.mem_map.mp hr
  obtain ⟨vs, rfl⟩ := (ukind_of (hv a ha) i c).1 e
  exact h vs ha

theorem noNested {i : Bytes → Nat} {c : Cert} {l : List DUAttr} (hv : ∀ a ∈ l, a.Valid) (h : ∀ vs, .nested vs ∉ l) :
    NoAttr (l.map (DUAttr.raw i c)) "microsoft_nested_signature" := by
  intro r hr e
  obtain ⟨a, ha, rfl⟩ := List.mem_map.mp hr
  obtain ⟨vs, rfl⟩ := (ukind_of (hv a ha) i c).2.1 e
  exact h vs ha

theorem noTimestamp {i : Bytes → Nat} {c : Cert} {l : List DUAttr} (hv : ∀ a ∈ l, a.Valid) (h : ∀ vs, .timestamp vs ∉ l) :
    NoAttr (l.map (DUAttr.raw i c)) "microsoft_time_stamp_token" := by
  intro r hr e
  obtain ⟨a, ha, rfl⟩ := List.mem_map.mp hr
  obtain ⟨vs, rfl⟩ := (ukind_of (hv a ha) i c).2.2 e
  exact h vs ha

/-! ### Parts -/

theorem isDigest_name {o : List Nat} {n : String} (h : IsDigest o n) : nameIn digestNames o = n ∧ n ∈ digestAlgorithms ∧ ValidOid o := by
  simp only [IsDigest, algOids, List.mem_cons, Prod.mk.injEq, List.not_mem_nil, or_false] at h
  rcases h with ⟨rfl, rfl⟩ | ⟨rfl, rfl⟩ | ⟨rfl, rfl⟩ | ⟨rfl, rfl⟩ | ⟨rfl, rfl⟩ <;>
    exact ⟨by decide +kernel, by decide, ⟨_, _, _, rfl, by omega, by omega⟩⟩

theorem base256_head (n : Nat) (h : 0 < n) : (base256 n).head? ≠ some 0 := by
  fun_induction base256 n with
  | case1 n h' =>
    simp only [List.head?_cons, ne_eq, Option.some.injEq]
    intro e
    have := congrArg UInt8.toNat e
    rw [toNat_ofNat_lt h'] at this
    simp at this
    omega
  | case2 n h' ih =>
    have := base256_pos (n / 256)
    have ih' := ih (by omega)
    cases hb : base256 (n / 256) with
    | nil => rw [hb] at this; simp at this
    | cons x l => rw [hb] at ih'; simpa using ih'

theorem derSet_tlv (c : Bytes) : DerSet c (tlv 0x31 c) := by
  refine ⟨lengthOctets c.length, ?_, rfl⟩
  unfold lengthOctets
  split
  · exact .inl ⟨by assumption, rfl⟩
  · exact .inr ⟨by omega, _, rfl, intFromBytes_base256 _, base256_head _ (by omega)⟩

theorem signer_reads {type : Option (List Nat)} {si : DSI} {l : List DAttr} {s : Signer} (h : SignerSays type si.signer l s)
    (hv : si.signer.Valid) (hok : si.tree.Ok) (required : List String)
    (hr : ∀ t ∈ required, t = "content_type" ∨ t = "message_digest" ∨ t = "signing_time" ∧ s.signingTime ≠ none) :
    ReadsSigner derCodec required (type.map (nameIn contentNames)) si.signer.raw (l.map DAttr.raw) s := by
  obtain ⟨h1, h2, ⟨n, h3, h4⟩, h5, h6, h7, h8, h9, ⟨b, h10, h11⟩, ⟨o, h12, h13, h14⟩, h15⟩ := h
  have hlv : ∀ a ∈ l, a.Valid := hv.2.2.2 l h1
  obtain ⟨d1, d2, d3⟩ := isDigest_name h5
  have ct : OptAttr l .contentType (nameIn contentNames) s.contentType := .inl ⟨o, h12, h13⟩
  have md : OptAttr l .messageDigest id s.messageDigest := .inl ⟨b, h10, h11⟩
  refine ⟨?_, ?_, ?_, ?_, ?_, ?_, ?_, ?_, ?_, ?_, ?_, ?_, ?_, ?_, ?_⟩
  · simp [DSigner.raw, h3]
  · refine .inr ⟨attrsContents l, by simp [DSigner.raw, h1], ?_⟩
    exact derAttrs_ok hlv (si_attrs_len hok h1)
  · intro t ht
    rcases hr t ht with rfl | rfl | ⟨rfl, hs⟩
    · exact ⟨_, List.mem_map_of_mem h12, rfl⟩
    · exact ⟨_, List.mem_map_of_mem h10, rfl⟩
    · rcases h15 with ⟨v, h15, _⟩ | ⟨_, h15⟩
      · exact ⟨_, List.mem_map_of_mem h15, rfl⟩
      · exact absurd h15 hs
  · simp [DSigner.raw, AcceptedAlg, d1, d2]
  · simp [DSigner.raw, h3, h4]
  · simp [DSigner.raw, h3]
  · simp [DSigner.raw, d1]
  · simp [DSigner.raw, h6]
  · simp [DSigner.raw, h7]
  · rw [h8]
    simp only [DSigner.raw, h1, Option.map_some, Option.getD_some]
    exact derSet_tlv _
  · exact h9
  · exact optAttr_reads (rv := .octets) hlv h2 (fun vs => rfl) (by decide) (fun a ha => (kind_of ha).2.1) md
  · exact optAttr_reads (rv := .oid) hlv h2 (fun vs => rfl) (by decide) (fun a ha => (kind_of ha).1) ct
  · intro x hx y hy
    cases ht : type with
    | none => simp [ht] at hx
    | some t =>
      rw [h13] at hy
      simp only [ht, Option.map_some, Option.some.injEq] at hx hy
      rw [← hx, ← hy, h14 t ht]
  · exact optAttr_reads (rv := .time) hlv h2 (fun vs => rfl) (by decide) (fun a ha => (kind_of ha).2.2.1) h15

theorem counter_reads {si : DSI} {c : CounterInfo} (h : CounterSays si c) (hv : si.Valid) (hok : si.tree.Ok) :
    ReadsCounter derCodec (si.raw certIdent noCert) c := by
  induction h with
  | @last si l s h1 h2 h3 h4 =>
    have hv' := (DSI.valid_iff si).mp hv
    have e := signer_reads h1 hv'.1 hok ["content_type", "signing_time", "message_digest"] (by simp [h2])
    rw [← DSI.head_raw certIdent noCert] at e
    refine .last e ?_
    rw [DSI.unsigned_raw]
    exact noCounter hv'.2 h4
  | @more si si' l s c h1 h2 h3 h4 h5 ih =>
    have hv' := (DSI.valid_iff si).mp hv
    have e := signer_reads h1 hv'.1 hok ["content_type", "signing_time", "message_digest"] (by simp [h2])
    rw [← DSI.head_raw certIdent noCert] at e
    have hcv := hv'.2 _ h4
    simp only [DUAttr.Valid, validSIs] at hcv
    refine .more e ?_ (ih hcv.1 (counter_tree_ok (si_uattr_ok hok h4) (by simp)))
    rw [DSI.unsigned_raw]
    have := attrValues_hit (i := certIdent) (c := noCert) hv'.2 h3 h4 (by simp [DUAttr.raw, RawUAttr.type, uattrKinds])
    simpa [DUAttr.raw, RawUAttr.type, RawUAttr.values, rawCounters] using this

theorem core_reads {type : List Nat} {d : DData} {c : SDCore} (h : CoreSays certIdent type d c) :
    ReadsCore (nameIn contentNames type) (d.raw certIdent noCert) c := by
  obtain ⟨⟨a, h1, h2⟩, h3, h4, h5, h6, h7⟩ := h
  obtain ⟨d1, d2, d3⟩ := isDigest_name h2
  refine ⟨⟨⟨nameIn digestNames a.oid, false⟩, by simp [DData.raw, h1], by simp [AcceptedAlg, d1, d2], d1.symm⟩, ⟨?_, h4⟩, ?_, ?_, ?_⟩
  · simp [DData.raw, h3]
  · simp [DData.raw, h5]
  · rw [h6]
    unfold DData.certificates
    simp only [DData.raw]
    have hn : ∀ a : DAny, (choiceNames.lookup a.id).getD "" ≠ "certificate" := by
      intro a
      simp only [choiceNames, List.lookup]
      repeat (split <;> try decide)
    generalize d.certs.getD [] = l
    induction l with
    | nil => rfl
    | cons c l ih =>
      cases c with
      | cert c => simp [DCertChoice.raw, ih]
      | other a => simp [DCertChoice.raw, ih, hn a]
  · simp [DData.raw, h7]

theorem tst_name : nameIn contentNames oidTstInfo = "tst_info" := by decide +kernel
theorem spc_name : nameIn contentNames oidIndirectData = "microsoft_spc_indirect_data_content" := by decide +kernel

theorem fits_raw {x : Option DAccuracy} :
    (∀ a, x.map (fun a => (⟨a.seconds, a.millis, a.micros⟩ : RawAccuracy)) = some a →
      AccuracyFits (a.seconds.getD 0) (a.millis.getD 0) (a.micros.getD 0)) ↔
    ∀ a, x = some a → AccuracyFits (a.seconds.getD 0) (a.millis.getD 0) (a.micros.getD 0) := by
  constructor
  · rintro h a rfl
    exact h _ rfl
  · intro h a ha
    obtain ⟨b, hb, rfl⟩ := Option.map_eq_some_iff.1 ha
    exact h b hb

theorem rfc_reads {d : DData} {si : DSI} {t : DTst} {r : Rfc3161} (h : RfcSays certIdent d si t r) (hv : (DSD.mk d [si]).Valid)
    (hok : (DSD.mk d [si]).tree.Ok) : ReadsRfc derCodec ((DSD.mk d [si]).raw certIdent noCert) r := by
  obtain ⟨h1, h2, h3, h4, h5, ⟨l, h6⟩, h7⟩ := h
  simp only [DSD.Valid, validSIs] at hv
  have hsv := (DSI.valid_iff si).mp hv.2.1
  have hsok : si.tree.Ok := sd_signer_ok hok (by simp)
  have hc := core_reads h1
  rw [tst_name] at hc
  have hlen := sd_content_len hok h1.content
  have ht := derTst_ok h4 (by rw [← h3]; exact hlen) []
  rw [List.append_nil, ← h3] at ht
  have hs := signer_reads h6 hsv.1 hsok ["content_type", "message_digest"] (by simp)
  simp only [Option.map_some, tst_name] at hs
  rw [← DSI.head_raw certIdent noCert] at hs
  have hoct : derCodec.tst r.core.octets r.core.content = derTst true r.core.content := by
    rw [h1.octets, decide_eq_true h2]
    rfl
  refine ⟨by simpa [DSD.raw, RawSD.head] using hc, ⟨_, hoct.trans ht, ?_⟩, ⟨_, _, by simp [DSD.raw, RawSD.signers, rawSIs], ?_, hs⟩⟩
  · obtain ⟨t1, t2, t3, t4, t5, t6, t7, t9, t8⟩ := h5
    obtain ⟨d1, d2, d3⟩ := isDigest_name t3
    refine ⟨by simp [t1], by simp [AcceptedAlg, d1, d2], d1.symm, t4, t6, t2, t5, ?_, ?_, fits_raw.2 t9⟩
    · cases ha : t.tsa with
      | none => exact .inl ⟨rfl, by rw [t8, ha]; rfl⟩
      | some n => exact .inr ⟨_, rfl, rfl, by rw [t8, ha]; rfl⟩
    · rw [t7]
      cases ha : t.accuracy <;> rfl
  · rw [DSI.unsigned_raw]
    exact noCounter hsv.2 h7

theorem counterSigner_reads {si : DSI} {c : Option CounterSigner} (h : CounterSignerSays certIdent si.unsigned c) (hv : si.Valid)
    (hok : si.tree.Ok) (ho : OnceU si.unsigned) : ReadsCounterSigner derCodec (si.raw certIdent noCert).unsigned c := by
  have hv' := (DSI.valid_iff si).mp hv
  rw [DSI.unsigned_raw]
  cases h with
  | none h1 h2 => exact .none (noCounter hv'.2 h1) (noTimestamp hv'.2 h2)
  | @pkcs9 s c h1 h2 h3 =>
    have hcv := hv'.2 _ h1
    simp only [DUAttr.Valid, validSIs] at hcv
    refine .pkcs9 (si := s.raw certIdent noCert) ?_ (noTimestamp hv'.2 h2)
      (counter_reads h3 hcv.1 (counter_tree_ok (si_uattr_ok hok h1) (by simp)))
    have := attrValues_hit (i := certIdent) (c := noCert) hv'.2 ho h1 (by simp [DUAttr.raw, RawUAttr.type, uattrKinds])
    simpa [DUAttr.raw, RawUAttr.type, RawUAttr.values, rawCounters] using this
  | @rfc3161 d s t r h1 h2 h3 =>
    have hcv := hv'.2 _ h2
    simp only [DUAttr.Valid, validSDs] at hcv
    have hk := si_uattr_ok hok h2
    simp only [DUAttr.tree] at hk
    refine .rfc3161 (sd := (DSD.mk d [s]).raw certIdent noCert) (noCounter hv'.2 h1) ?_
      (rfc_reads h3 hcv.1 (sds_tree_ok hk (by simp)))
    have := attrValues_hit (i := certIdent) (c := noCert) hv'.2 ho h2 (by simp [DUAttr.raw, RawUAttr.type, uattrKinds])
    simpa [DUAttr.raw, RawUAttr.type, RawUAttr.values, rawSDs] using this

theorem spc_reads {x : DIndirect} {s : SpcInfo} (h : SpcSays x s) (hv : x.Valid) (hl : x.contents.length < maxLen) :
    ∃ r, (∀ rest, derSpc true (x.encode ++ rest) = .ok r) ∧ derSpc false x.contents = .ok r ∧ ReadsSpc r s := by
  obtain ⟨h1, h2, ⟨i, h3, h4, h5⟩, h6, h7⟩ := h
  obtain ⟨d1, d2, d3⟩ := isDigest_name h6
  have hr := readSpc_val hl h1 hv d3
  rw [nameIn_lookup] at hr
  obtain ⟨e1, e2⟩ := loadWrapped_indirect x hl
  have hda : digestAlgorithmMap = digestNames := rfl
  rw [hda] at hr
  have w1 : ∀ rest, derSpc true (x.encode ++ rest) = readSpc x.val := fun rest => by
    unfold derSpc
    rw [e1]
    rfl
  have w2 : derSpc false x.contents = readSpc x.val := by
    unfold derSpc
    rw [e2]
    rfl
  refine ⟨_, fun rest => (w1 rest).trans hr, w2.trans hr, ⟨⟨rfl, h2⟩, ?_, ?_, d1.symm, h7⟩⟩
  · simp [h3, h4, h5]
  · simp [AcceptedAlg, d1, d2]

theorem signature_reads {sd : DSD} {a : ASD} (h : SignatureSays certIdent sd a) (hv : sd.Valid) (hok : sd.tree.Ok) :
    ReadsASD derCodec (sd.raw certIdent noCert) a := by
  induction h with
  | @mk d si x l nested a sds h1 h2 h3 h4 h5 h6 h7 h8 h9 h10 h11 h12 h13 ih =>
    simp only [DSD.Valid, validSIs] at hv
    have hsv := (DSI.valid_iff si).mp hv.2.1
    have hsok : si.tree.Ok := sd_signer_ok hok (by simp)
    have hlv : ∀ a ∈ l, a.Valid := hsv.1.2.2.2 l h6.attrs
    have hc := core_reads h1
    rw [spc_name] at hc
    have hlen := sd_content_len hok h1.content
    have hs := signer_reads h6 hsv.1 hsok ["content_type", "message_digest"] (by simp)
    simp only [Option.map_some, spc_name] at hs
    rw [← DSI.head_raw certIdent noCert] at hs
    have hxl : x.contents.length < maxLen := by
      rw [h4] at hlen
      split at hlen
      · exact hlen
      · unfold DIndirect.encode at hlen
        have := tlv_length 0x30 x.contents
        omega
    obtain ⟨r, e1, e2, e3⟩ := spc_reads h5 h3 hxl
    have hspc : derCodec.spc a.core.octets a.core.content = .ok r := by
      rw [h1.octets, h4]
      by_cases hd : d.version = 1
      · simpa [hd, derCodec] using e2
      · have := e1 []
        rw [List.append_nil] at this
        simpa [hd, derCodec] using this
    refine .mk (spc := r) (si := si.raw certIdent noCert) (sds := sds.map (DSD.raw certIdent noCert)) (by simpa [DSD.raw, RawSD.head] using hc)
      (by simp [DSD.raw, RawSD.head, DData.raw, h2]) hspc e3 (by simp [DSD.raw, RawSD.signers, rawSIs]) hs ?_ ?_
      (counterSigner_reads h10 hv.2.1 hsok h9) ?_ (by simpa using h12) ?_
    · exact optAttr_reads (rv := .oids) hlv h6.once (fun vs => rfl) (by decide) (fun a ha => (kind_of ha).2.2.2.1) h7
    · rcases h8 with ⟨o, o1, o2, o3, o4⟩ | ⟨o1, o2⟩
      · have e := lastAttr_hit hlv h6.once o1 (by simp [DAttr.raw, attrKinds])
        have e' : (DAttr.opus [o]).raw.type = "microsoft_spc_sp_opus_info" := rfl
        rw [e'] at e
        rw [e]
        simp [DAttr.raw, o2, o3, o4]
      · rw [lastAttr_miss]
        · exact o2
        · intro b hb e
          obtain ⟨vs, rfl⟩ := (kind_of (hlv b hb)).2.2.2.2 e
          exact o1 vs hb
    · rw [DSI.unsigned_raw]
      rcases h11 with h11 | ⟨h11, rfl⟩
      · have := attrValues_hit (i := certIdent) (c := noCert) hsv.2 h9 h11 (by simp [DUAttr.raw, RawUAttr.type, uattrKinds])
        refine .inr ?_
        simpa [DUAttr.raw, RawUAttr.type, RawUAttr.values, rawSDs_eq, Function.comp_def] using this
      · exact .inl ⟨noNested hsv.2 h11, rfl⟩
    · intro i y z hy hz
      rw [List.getElem?_map, Option.map_eq_some_iff] at hy
      obtain ⟨w, hw, rfl⟩ := hy
      rcases h11 with h11 | ⟨h11, rfl⟩
      · have hm := List.mem_of_getElem? hw
        have hcv := hsv.2 _ h11
        simp only [DUAttr.Valid, validSDs_iff] at hcv
        have hk := si_uattr_ok hsok h11
        simp only [DUAttr.tree] at hk
        exact ih i w z hw hz (hcv w hm) (sds_tree_ok hk hm)
      · simp at hw

/-- Reading a signature. -/
theorem fromEnvelope_says {sd : DSD} {a : ASD} (h : SignatureSays certIdent sd a) (hv : sd.Valid)
    (hl : (contentInfo sd.encode).length < maxLen) (rest : Bytes) : fromEnvelope derCodec (contentInfo sd.encode ++ rest) = .ok a := by
  have he : contentInfo sd.encode = (T.node 0x30 [.leaf 6 (oidOctets oidSignedData), .node 0xA0 [sd.tree]]).enc := by
    simp [contentInfo, T.enc, encAll, derSeq, derOid, sd.enc_tree]
  have hg : (T.node 0x30 [.leaf 6 (oidOctets oidSignedData), .node 0xA0 [sd.tree]]).good = true := by
    simp [T.good, goodAll, good_sd sd hv]
  have hok := T.ok_of hg (by rw [← he]; exact hl)
  have hk : sd.tree.Ok := T.Ok.child (id := 0xA0) (l := [sd.tree]) (hok.child (by simp)) (by simp)
  have e : derCodec.envelope (contentInfo sd.encode ++ rest) = _ := derEnvelope_ok hv hl rest
  unfold fromEnvelope
  rw [e]
  simp only [bind, Except.bind]
  rw [if_neg (by simp)]
  exact parseASD_ok.mpr (signature_reads h hv hk)

/-- What is read is what the structure says. -/
theorem fromEnvelope_iff {sd : DSD} {a : ASD} (hv : sd.Valid) (hl : (contentInfo sd.encode).length < maxLen) (rest : Bytes) :
    fromEnvelope derCodec (contentInfo sd.encode ++ rest) = .ok a ↔ ReadsASD derCodec (sd.raw certIdent noCert) a := by
  have e : derCodec.envelope (contentInfo sd.encode ++ rest) = _ := derEnvelope_ok hv hl rest
  unfold fromEnvelope
  rw [e]
  simp only [bind, Except.bind]
  rw [if_neg (by simp)]
  exact parseASD_ok

end Signify.Asn1
