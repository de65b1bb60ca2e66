/-
Reading the structures of Authenticode.
-/
import Verif.Proofs.Asn1Native

set_option autoImplicit false

namespace Signify.Asn1

open Signify Spec

/-! ### Flags -/

theorem zipIdx_filter (b : List Bool) (n : Nat) :
    ((b.zipIdx n).filter (fun x => x.1)).map Prod.snd = (List.range' n b.length).filter (fun k => b[k - n]? = some true) := by
  induction b generalizing n with
  | nil => rfl
  | cons x b ih =>
    have e : (List.range' (n + 1) b.length).filter (fun k => (x :: b)[k - n]? = some true)
        = (List.range' (n + 1) b.length).filter (fun k => b[k - (n + 1)]? = some true) := by
      apply List.filter_congr
      intro k hk
      have := (List.mem_range'_1.mp hk).1
      rw [show k - n = (k - (n + 1)) + 1 by omega, List.getElem?_cons_succ]
    rw [List.zipIdx_cons, List.length_cons, List.range'_succ, List.filter_cons, List.filter_cons, e]
    cases x <;> simp [ih]

theorem flagName_eq (k : Nat) :
    (match spcPeImageFlags.lookup k with | some s => Flag.name s | none => .bit k) = flagName k := by
  unfold spcPeImageFlags flagName
  match k with
  | 0 => rfl
  | 1 => rfl
  | 2 => rfl
  | k + 3 => simp [List.lookup]

theorem bitNames_bitOctets (b : List Bool) :
    bitNames spcPeImageFlags (bitOctets b) = ((List.range b.length).filter (fun k => b[k]? = some true)).map flagName := by
  have h := zipIdx_filter b 0
  unfold bitNames
  rw [bits_bitOctets]
  simp only [Nat.sub_zero, ← List.range_eq_range'] at h
  rw [← h, List.map_map]
  apply List.map_congr_left
  intro x _
  exact flagName_eq x.2

/-! ### Building blocks -/

theorem build_prim (tag : Nat) (id : UInt8) (c : Bytes) (h1 : id.toNat / 64 = 0) (h2 : id.toNat / 32 % 2 = 0)
    (h3 : id.toNat % 32 = tag) : (Ty.prim tag).build none (tlvParts id c) = .ok (.prim c) := by
  simp [Ty.build, checkId, tlvParts, h1, h2, h3, bind, Except.bind]

theorem build_prim_implicit (tag n : Nat) (id : UInt8) (c : Bytes) (h1 : id.toNat / 64 = 2) (h2 : id.toNat / 32 % 2 = 0)
    (h3 : id.toNat % 32 = n) : (Ty.prim tag).build (some n) (tlvParts id c) = .ok (.prim c) := by
  simp [Ty.build, checkId, tlvParts, h1, h2, h3, bind, Except.bind]

theorem build_seq (fs : List Field) (l : List (UInt8 × Bytes)) (h : Readable l) (r : List (String × Option Val))
    (e : matchFields fs (l.map (fun x => tlvParts x.1 x.2)) = .ok r) :
    (Ty.seq fs).build none (tlvParts 0x30 (items l)) = .ok (.seq (items l) r) := by
  have := buildFields_items fs l h
  rw [e] at this
  simp [Ty.build, checkId, tlvParts, bind, Except.bind, this]

theorem build_seq_implicit (n : Nat) (id : UInt8) (h1 : id.toNat / 64 = 2) (h2 : id.toNat / 32 % 2 = 1)
    (h3 : id.toNat % 32 = n) (fs : List Field) (l : List (UInt8 × Bytes)) (h : Readable l) (r : List (String × Option Val))
    (e : matchFields fs (l.map (fun x => tlvParts x.1 x.2)) = .ok r) :
    (Ty.seq fs).build (some n) (tlvParts id (items l)) = .ok (.seq (items l) r) := by
  have := buildFields_items fs l h
  rw [e] at this
  simp [Ty.build, checkId, tlvParts, bind, Except.bind, this, h1, h2, h3]

theorem untag_explicit (n : Nat) (id id' : UInt8) (c : Bytes) (k : Option Nat → Parts → Except Exc Val)
    (h1 : id.toNat / 64 = 2) (h2 : id.toNat / 32 % 2 = 1) (h3 : id.toNat % 32 = n) (h4 : id'.toNat % 32 ≠ 31)
    (h5 : c.length < maxLen) :
    untag (.explicit n) k (tlvParts id (tlv id' c)) = k none (tlvParts id' c) := by
  have := parse_tlv id' c [] h4 h5
  rw [List.append_nil] at this
  simp [untag, tlvParts, h1, h2, h3, this]

theorem items_append (a b : List (UInt8 × Bytes)) : items (a ++ b) = items a ++ items b := by
  induction a with
  | nil => rfl
  | cons x a ih => simp [items, ih]

theorem readable_cons {id : UInt8} {c : Bytes} {l : List (UInt8 × Bytes)} (h : id.toNat % 32 ≠ 31) (hc : c.length < maxLen)
    (hl : Readable l) : Readable ((id, c) :: l) := by
  intro x hx
  cases hx with
  | head => exact ⟨h, hc⟩
  | tail _ hx => exact hl x hx

theorem readable_nil : Readable [] := fun _ h => by cases h

theorem mf_nil (ps : List Parts) : matchFields [] ps = .ok [] := by simp [matchFields]

theorem mf_req {name : String} {tagging : Tagging} {t : Ty} {l : List Field} {p : Parts} {ps : List Parts} {v : Val}
    {r : List (String × Option Val)} (e : untag tagging t.build p = .ok v) (hr : matchFields l ps = .ok r) :
    matchFields (.mk name tagging false t :: l) (p :: ps) = .ok ((name, some v) :: r) := by
  simp [matchFields, e, hr, bind, Except.bind]

theorem mf_opt {α : Type} {name : String} {tagging : Tagging} {t : Ty} {l : List Field} {ps : List Parts}
    {r : List (String × Option Val)} (o : Option α) (P : α → Parts) (V : α → Val)
    (hit : ∀ a, o = some a → (Field.mk name tagging true t).accepts (P a).cls (P a).tag = true ∧
      untag tagging t.build (P a) = .ok (V a))
    (miss : ∀ p, ps.head? = some p → (Field.mk name tagging true t).accepts p.cls p.tag = false)
    (hr : matchFields l ps = .ok r) :
    matchFields (.mk name tagging true t :: l) ((o.map P).toList ++ ps) = .ok ((name, o.map V) :: r) := by
  cases o with
  | none =>
    cases ps with
    | nil => simp [matchFields, hr, bind, Except.bind]
    | cons p ps => simp [matchFields, hr, bind, Except.bind, miss p rfl]
  | some a =>
    obtain ⟨h1, h2⟩ := hit a rfl
    simp [matchFields, hr, bind, Except.bind, h1, h2]

theorem items_opt {α : Type} (o : Option α) (f : α → UInt8 × Bytes) (l : List (UInt8 × Bytes)) :
    items ((o.map f).toList ++ l) = derOpt (fun a => tlv (f a).1 (f a).2) o ++ items l := by
  cases o <;> simp [items, derOpt]

theorem readable_opt {α : Type} {o : Option α} {f : α → UInt8 × Bytes} {l : List (UInt8 × Bytes)}
    (h : ∀ a, o = some a → (f a).1.toNat % 32 ≠ 31 ∧ (f a).2.length < maxLen) (hl : Readable l) :
    Readable ((o.map f).toList ++ l) := by
  cases o with
  | none => exact hl
  | some a => exact readable_cons (h a rfl).1 (h a rfl).2 hl

theorem buildAlts_hit {name : String} {tagging : Tagging} {optional : Bool} {t : Ty} {l : List Field} {p : Parts} {v : Val}
    (h : (Field.mk name tagging optional t).accepts p.cls p.tag = true) (e : untag tagging t.build p = .ok v) :
    buildAlts (.mk name tagging optional t :: l) p = .ok (.choice name v) := by
  simp only [buildAlts, h, if_true, e, bind, Except.bind]

theorem buildAlts_miss {name : String} {tagging : Tagging} {optional : Bool} {t : Ty} {l : List Field} {p : Parts}
    (h : (Field.mk name tagging optional t).accepts p.cls p.tag = false) :
    buildAlts (.mk name tagging optional t :: l) p = buildAlts l p := by
  simp [buildAlts, h]

theorem build_choice (alts : List Field) (i : Option Nat) (p : Parts) : (Ty.choice alts).build i p = buildAlts alts p := by
  simp [Ty.build]

/-! ### Strings and links -/

/-- The alternative of a string. -/
def _root_.Signify.Spec.DString.val : DString → Val
  | .unicode s => .choice "unicode" (.prim (bmpOctets s))
  | .ascii s => .choice "ascii" (.prim (asciiOctets s))

/-- Identifier octet. -/
def _root_.Signify.Spec.DString.id : DString → UInt8
  | .unicode _ => 0x80
  | .ascii _ => 0x81

/-- Contents. -/
def _root_.Signify.Spec.DString.cont : DString → Bytes
  | .unicode s => bmpOctets s
  | .ascii s => asciiOctets s

theorem _root_.Signify.Spec.DString.encode_eq (s : DString) : s.encode = tlv s.id s.cont := by cases s <;> rfl

theorem _root_.Signify.Spec.DString.id_ne (s : DString) : s.id.toNat % 32 ≠ 31 := by cases s <;> simp [DString.id]

/-- The alternative of a link. -/
def _root_.Signify.Spec.DLink.val : DLink → Val
  | .url s => .choice "url" (.prim (asciiOctets s))
  | .moniker c d => .choice "moniker" (.seq (derOctets c ++ derOctets d)
      [("class_id", some (.prim c)), ("serialized_data", some (.prim d))])
  | .file s => .choice "file" s.val

/-- Identifier octet. -/
def _root_.Signify.Spec.DLink.id : DLink → UInt8
  | .url _ => 0x80
  | .moniker _ _ => 0xA1
  | .file _ => 0xA2

/-- Contents. -/
def _root_.Signify.Spec.DLink.cont : DLink → Bytes
  | .url s => asciiOctets s
  | .moniker c d => derOctets c ++ derOctets d
  | .file s => s.encode

theorem _root_.Signify.Spec.DLink.encode_eq (s : DLink) : s.encode = tlv s.id s.cont := by cases s <;> rfl

theorem _root_.Signify.Spec.DLink.id_ne (s : DLink) : s.id.toNat % 32 ≠ 31 := by cases s <;> simp [DLink.id]

/-- Class and tag of a value. -/
macro "ids" : tactic => `(tactic| simp [tlvParts, Field.accepts, Ty.accepts, DString.id, DLink.id])

theorem build_string (s : DString) : tSpcString.build none (tlvParts s.id s.cont) = .ok s.val := by
  rw [tSpcString, build_choice]
  cases s with
  | unicode s => exact buildAlts_hit (by ids) (build_prim_implicit 30 0 0x80 _ rfl rfl rfl)
  | ascii s =>
    rw [buildAlts_miss (by ids)]
    exact buildAlts_hit (by ids) (build_prim_implicit 22 1 0x81 _ rfl rfl rfl)

theorem readSpcString_val {s : DString} (h : s.Valid) : readSpcString s.val = .ok s.text := by
  cases s with
  | unicode s => exact bmpNative_bmpOctets s
  | ascii s => exact asciiNative_asciiOctets h

theorem build_link (s : DLink) (h : s.cont.length < maxLen) : tSpcLink.build none (tlvParts s.id s.cont) = .ok s.val := by
  rw [tSpcLink, build_choice]
  cases s with
  | url s => exact buildAlts_hit (by ids) (build_prim_implicit 22 0 0x80 _ rfl rfl rfl)
  | moniker c d =>
    simp only [DLink.cont, List.length_append, derOctets] at h
    have h1 := tlv_length 4 c
    have h2 := tlv_length 4 d
    have e := build_seq_implicit 1 0xA1 rfl rfl rfl [field "class_id" tSpcUuid, field "serialized_data" tOctetString]
      [(4, c), (4, d)]
      (readable_cons (by decide) (by omega) (readable_cons (by decide) (by omega) readable_nil))
      [("class_id", some (.prim c)), ("serialized_data", some (.prim d))]
      (by
        simp only [List.map_cons, List.map_nil, matchFields, field, Bool.false_and, untag, tSpcUuid, tOctetString]
        rw [build_prim 4 4 _ rfl rfl rfl, build_prim 4 4 _ rfl rfl rfl]
        rfl)
    rw [show items [((4 : UInt8), c), (4, d)] = derOctets c ++ derOctets d by simp [items, derOctets]] at e
    rw [buildAlts_miss (by ids)]
    exact buildAlts_hit (by ids) e
  | file s =>
    have hl : s.cont.length < maxLen := by
      have := tlv_length s.id s.cont
      simp only [DLink.cont, s.encode_eq] at h
      omega
    rw [buildAlts_miss (by ids), buildAlts_miss (by ids)]
    refine buildAlts_hit (by ids) ?_
    simp only [DLink.id, DLink.cont, s.encode_eq]
    rw [untag_explicit 2 0xA2 s.id s.cont _ rfl rfl rfl s.id_ne hl, build_string]

theorem readSpcLink_val {s : DLink} (h : s.Valid) : readSpcLink s.val = .ok s.value := by
  cases s with
  | url s =>
    simp only [DLink.val, readSpcLink, Val.octets, if_true, bind, Except.bind]
    rw [asciiNative_asciiOctets h]
    rfl
  | moniker c d => rfl
  | file s =>
    simp only [DLink.val, readSpcLink, bind, Except.bind]
    rw [if_neg (by decide), if_neg (by decide), readSpcString_val h]
    rfl

/-! ### Algorithms -/

/-- The value of an AlgorithmIdentifier. -/
def _root_.Signify.Spec.DAlg.val (a : DAlg) : Val :=
  .seq (derOid a.oid ++ if a.null then derNull else [])
    [("algorithm", some (.prim (oidOctets a.oid))), ("parameters", if a.null then some (.any (tlvParts 5 [])) else none)]

/-- Contents. -/
def _root_.Signify.Spec.DAlg.cont (a : DAlg) : Bytes := derOid a.oid ++ if a.null then derNull else []

theorem _root_.Signify.Spec.DAlg.encode_eq (a : DAlg) : a.encode = tlv 0x30 a.cont := by
  simp [DAlg.encode, derSeq, DAlg.cont]

theorem build_alg (a : DAlg) (h : a.cont.length < maxLen) : tAlgorithm.build none (tlvParts 0x30 a.cont) = .ok a.val := by
  have hl : (oidOctets a.oid).length < maxLen := by
    have := tlv_length 6 (oidOctets a.oid)
    simp only [DAlg.cont, derOid, List.length_append] at h
    omega
  have e := build_seq [field "algorithm" tOid, optField "parameters" .any]
    ((6, oidOctets a.oid) :: (((if a.null then some () else none).map (fun _ => ((5 : UInt8), ([] : Bytes)))).toList ++ []))
    (readable_cons (by decide) hl (readable_opt (fun _ _ => ⟨by decide, by decide⟩) readable_nil))
    [("algorithm", some (.prim (oidOctets a.oid))),
      ("parameters", (if a.null then some () else none).map (fun _ => Val.any (tlvParts 5 [])))]
    (by
      rw [List.map_cons, List.map_append]
      refine mf_req (build_prim 6 6 _ rfl rfl rfl) ?_
      rw [← Option.toList_map, Option.map_map]
      exact mf_opt (if a.null then some () else none) _ (fun _ => Val.any (tlvParts 5 []))
        (fun _ _ => ⟨by ids, by simp [untag, Ty.build]⟩) (fun _ h => by cases h) (mf_nil []))
  have c : items ((6, oidOctets a.oid) :: (((if a.null then some () else none).map (fun _ => ((5 : UInt8), ([] : Bytes)))).toList ++ []))
      = a.cont := by
    unfold DAlg.cont
    cases a.null <;> simp [items, derOid, derNull]
  rw [c] at e
  rw [tAlgorithm, e]
  simp only [DAlg.val, DAlg.cont]
  cases a.null <;> rfl

theorem readAlg_val (map : List (List Nat × String)) (a : DAlg) (h : ValidOid a.oid) :
    readAlg map a.val = .ok ⟨(map.lookup a.oid).getD (dotted a.oid), false⟩ := by
  have e := oidArcs_oidOctets h
  unfold readAlg DAlg.val
  cases a.null <;> simp [Val.req, Val.get, List.lookup, bind, Except.bind, Val.octets, oidNative, e, Val.parts, truthy, tlvParts]

/-! ### Images -/

/-- Contents. -/
def _root_.Signify.Spec.DImage.cont (i : DImage) : Bytes :=
  derOpt derBits i.flags ++ derOpt (fun l : DLink => tlv 0xA0 l.encode) i.file

theorem _root_.Signify.Spec.DImage.encode_eq (i : DImage) : i.encode = tlv 0x30 i.cont := by
  simp [DImage.encode, derSeq, DImage.cont]

/-- The value of an SpcPeImageData. -/
def _root_.Signify.Spec.DImage.val (i : DImage) : Val :=
  .seq i.cont [("flags", i.flags.map (fun b => .prim (bitOctets b))), ("file", i.file.map DLink.val)]

theorem derOpt_length {α : Type} {enc : α → Bytes} {o : Option α} {a : α} (h : o = some a) :
    (derOpt enc o).length = (enc a).length := by subst h; rfl

/-- An explicitly tagged link. -/
theorem untag_link (n : Nat) (id : UInt8) (l : DLink) (h1 : id.toNat / 64 = 2) (h2 : id.toNat / 32 % 2 = 1)
    (h3 : id.toNat % 32 = n) (h : l.encode.length < maxLen) :
    untag (.explicit n) tSpcLink.build (tlvParts id l.encode) = .ok l.val := by
  rw [l.encode_eq] at h ⊢
  have := tlv_length l.id l.cont
  rw [untag_explicit n id l.id l.cont _ h1 h2 h3 l.id_ne (by omega), build_link _ (by omega)]

/-- An explicitly tagged string. -/
theorem untag_string (n : Nat) (id : UInt8) (l : DString) (h1 : id.toNat / 64 = 2) (h2 : id.toNat / 32 % 2 = 1)
    (h3 : id.toNat % 32 = n) (h : l.encode.length < maxLen) :
    untag (.explicit n) tSpcString.build (tlvParts id l.encode) = .ok l.val := by
  rw [l.encode_eq] at h ⊢
  have := tlv_length l.id l.cont
  rw [untag_explicit n id l.id l.cont _ h1 h2 h3 l.id_ne (by omega), build_string]

theorem build_image (i : DImage) (h : i.cont.length < maxLen) : tSpcPeImageData.build none (tlvParts 0x30 i.cont) = .ok i.val := by
  have hb : ∀ b, i.flags = some b → (bitOctets b).length < maxLen := by
    intro b hb
    have := tlv_length 3 (bitOctets b)
    have := derOpt_length (enc := derBits) hb
    simp only [DImage.cont, List.length_append, derBits] at *
    omega
  have hf : ∀ l : DLink, i.file = some l → l.encode.length < maxLen := by
    intro l hl
    have := tlv_length 0xA0 l.encode
    have := derOpt_length (enc := fun l : DLink => tlv 0xA0 l.encode) hl
    simp only [DImage.cont, List.length_append] at *
    omega
  have e := build_seq [optField "flags" tBitString, optExplicit "file" 0 tSpcLink]
    ((i.flags.map (fun b => ((3 : UInt8), bitOctets b))).toList ++ ((i.file.map (fun l => ((0xA0 : UInt8), l.encode))).toList ++ []))
    (readable_opt (fun b hb' => ⟨by simp, hb b hb'⟩) (readable_opt (fun l hl => ⟨by simp, hf l hl⟩) readable_nil))
    [("flags", i.flags.map (fun b => .prim (bitOctets b))), ("file", i.file.map DLink.val)]
    (by
      rw [List.map_append, List.map_append, ← Option.toList_map, ← Option.toList_map, Option.map_map, Option.map_map]
      refine mf_opt i.flags _ _ (fun b _ => ⟨by ids; rfl, build_prim 3 3 _ rfl rfl rfl⟩) ?_ ?_
      · intro p hp
        cases hf' : i.file with
        | none => rw [hf'] at hp; cases hp
        | some l =>
          rw [hf'] at hp
          simp at hp
          subst hp
          ids
          decide
      · exact mf_opt i.file _ _ (fun l hl => ⟨by ids, untag_link 0 0xA0 l rfl rfl rfl (hf l hl)⟩) (fun _ h => by cases h) (mf_nil []))
  rw [items_opt, items_opt] at e
  simp only [items, List.append_nil] at e
  exact e

theorem readOpt_map {α β : Type} {f : Val → Except Exc α} {g : β → Val} {k : β → α} {o : Option β}
    (h : ∀ b, o = some b → f (g b) = .ok (k b)) : readOpt f (o.map g) = .ok (o.map k) := by
  cases o with
  | none => rfl
  | some b => simp [readOpt, h b rfl, bind, Except.bind]

theorem readPeImage_val {i : DImage} (h : i.Valid) : readPeImage i.val = .ok (i.flagSet, i.file.map DLink.value) := by
  have e : readOpt readSpcLink (i.file.map DLink.val) = .ok (i.file.map DLink.value) :=
    readOpt_map (fun l hl => readSpcLink_val (h l hl))
  unfold readPeImage DImage.val DImage.flagSet
  cases i.flags with
  | none => simp [Val.get, List.lookup, bind, Except.bind, e]
  | some b => simp [Val.get, List.lookup, bind, Except.bind, e, Val.octets, bitNames_bitOctets]

/-! ### Indirect data -/

theorem items_one (id : UInt8) (c : Bytes) (l : List (UInt8 × Bytes)) : items ((id, c) :: l) = tlv id c ++ items l := rfl

/-- Contents of the first component. -/
def _root_.Signify.Spec.DIndirect.cont1 (x : DIndirect) : Bytes := derOid x.type ++ derOpt DImage.encode x.image
/-- Contents of the second component. -/
def _root_.Signify.Spec.DIndirect.cont2 (x : DIndirect) : Bytes := x.digestAlg.encode ++ derOctets x.digest

theorem _root_.Signify.Spec.DIndirect.contents_eq (x : DIndirect) :
    x.contents = items [(0x30, x.cont1), (0x30, x.cont2)] := by
  simp [DIndirect.contents, derSeq, items, DIndirect.cont1, DIndirect.cont2]

/-- The value of an SpcIndirectDataContent. -/
def _root_.Signify.Spec.DIndirect.val (x : DIndirect) : Val :=
  .seq x.contents [
    ("data", some (.seq x.cont1 [("type", some (.prim (oidOctets x.type))),
      ("value", x.image.map (fun i => .any (tlvParts 0x30 i.cont)))])),
    ("message_digest", some (.seq x.cont2 [("digest_algorithm", some x.digestAlg.val), ("digest", some (.prim x.digest))]))]

theorem _root_.Signify.Spec.DIndirect.lengths {x : DIndirect} (h : x.contents.length < maxLen) :
    x.cont1.length < maxLen ∧ x.cont2.length < maxLen ∧ (oidOctets x.type).length < maxLen ∧
    (∀ i, x.image = some i → i.cont.length < maxLen) ∧ x.digestAlg.cont.length < maxLen ∧ x.digest.length < maxLen := by
  rw [x.contents_eq] at h
  simp only [items, List.length_append, List.length_nil] at h
  have h1 := tlv_length 0x30 x.cont1
  have h2 := tlv_length 0x30 x.cont2
  have h3 := tlv_length 6 (oidOctets x.type)
  have h4 := tlv_length 0x30 x.digestAlg.cont
  have h5 := tlv_length 4 x.digest
  have e1 : x.cont1.length = (tlv 6 (oidOctets x.type)).length + (derOpt DImage.encode x.image).length := by
    simp [DIndirect.cont1, derOid]
  have e2 : x.cont2.length = (tlv 0x30 x.digestAlg.cont).length + (tlv 4 x.digest).length := by
    simp [DIndirect.cont2, derOctets, x.digestAlg.encode_eq]
  refine ⟨by omega, by omega, by omega, ?_, by omega, by omega⟩
  intro i hi
  have h6 := derOpt_length (enc := DImage.encode) hi
  rw [i.encode_eq] at h6
  have h7 := tlv_length 0x30 i.cont
  omega

theorem match_indirect (x : DIndirect) (h : x.contents.length < maxLen) :
    matchFields [field "data" tSpcAttributeTypeAndOptionalValue, field "message_digest" tDigestInfo]
      ([((0x30 : UInt8), x.cont1), (0x30, x.cont2)].map (fun x => tlvParts x.1 x.2)) =
    .ok [("data", some (.seq x.cont1 [("type", some (.prim (oidOctets x.type))),
      ("value", x.image.map (fun i => .any (tlvParts 0x30 i.cont)))])),
      ("message_digest", some (.seq x.cont2 [("digest_algorithm", some x.digestAlg.val), ("digest", some (.prim x.digest))]))] := by
  obtain ⟨l1, l2, l3, l4, l5, l6⟩ := x.lengths h
  have e1 := build_seq [field "type" tOid, optField "value" .any]
    ((6, oidOctets x.type) :: ((x.image.map (fun i => ((0x30 : UInt8), i.cont))).toList ++ []))
    (readable_cons (by decide) l3 (readable_opt (fun i hi => ⟨by simp, l4 i hi⟩) readable_nil))
    [("type", some (.prim (oidOctets x.type))), ("value", x.image.map (fun i => .any (tlvParts 0x30 i.cont)))]
    (by
      rw [List.map_cons, List.map_append, ← Option.toList_map, Option.map_map]
      refine mf_req (build_prim 6 6 _ rfl rfl rfl) ?_
      exact mf_opt x.image _ _ (fun i _ => ⟨by ids, by simp [untag, Ty.build]⟩) (fun _ h => by cases h) (mf_nil []))
  have e2 := build_seq [field "digest_algorithm" tAlgorithm, field "digest" tOctetString]
    [(0x30, x.digestAlg.cont), (4, x.digest)]
    (readable_cons (by decide) l5 (readable_cons (by decide) l6 readable_nil))
    [("digest_algorithm", some x.digestAlg.val), ("digest", some (.prim x.digest))]
    (mf_req (build_alg _ l5) (mf_req (build_prim 4 4 _ rfl rfl rfl) (mf_nil [])))
  rw [items_one, items_opt] at e1
  rw [items_one, items_one] at e2
  have c1 : tlv 6 (oidOctets x.type) ++ (derOpt (fun a : DImage => tlv 0x30 a.cont) x.image ++ items []) = x.cont1 := by
    simp [DIndirect.cont1, items, derOid, ← DImage.encode_eq]
  have c2 : tlv 0x30 x.digestAlg.cont ++ (tlv 4 x.digest ++ items []) = x.cont2 := by
    simp [DIndirect.cont2, items, derOctets, x.digestAlg.encode_eq]
  rw [c1] at e1
  rw [c2] at e2
  exact mf_req e1 (mf_req e2 (mf_nil []))

theorem loadWrapped_seq (fs : List Field) (l : List (UInt8 × Bytes)) (hl : Readable l) (hf : (items l).length < maxLen)
    (r : List (String × Option Val)) (e : matchFields fs (l.map (fun x => tlvParts x.1 x.2)) = .ok r) :
    (∀ rest, loadWrapped (.seq fs) true (tlv 0x30 (items l) ++ rest) = .ok (.seq (items l) r)) ∧
    loadWrapped (.seq fs) false (items l) = .ok (.seq (items l) r) := by
  constructor
  · intro rest
    simp only [loadWrapped, if_true, Ty.load]
    rw [parse_tlv _ _ _ (by decide) hf]
    exact build_seq fs l hl r e
  · have := buildFields_items fs l hl
    rw [e] at this
    simp [loadWrapped, Ty.ofContents, Ty.build, checkId, bind, Except.bind, this]

theorem loadWrapped_indirect (x : DIndirect) (h : x.contents.length < maxLen) :
    (∀ rest, loadWrapped tSpcIndirectDataContent true (x.encode ++ rest) = .ok x.val) ∧
    loadWrapped tSpcIndirectDataContent false x.contents = .ok x.val := by
  obtain ⟨l1, l2, _⟩ := x.lengths h
  have := loadWrapped_seq _ [((0x30 : UInt8), x.cont1), (0x30, x.cont2)]
    (readable_cons (by decide) l1 (readable_cons (by decide) l2 readable_nil)) (by rw [← x.contents_eq]; exact h) _
    (match_indirect x h)
  rw [← x.contents_eq] at this
  exact this

/-- The name of the type. -/
theorem spcTypeName (o : List Nat) (h : ValidOid o) :
    oidNative spcAttributeTypes (oidOctets o) = if o = oidPeImage then "microsoft_spc_pe_image_data" else dotted o := by
  unfold oidNative
  rw [oidArcs_oidOctets h]
  unfold spcAttributeTypes oidPeImage
  by_cases e : o = [1, 3, 6, 1, 4, 1, 311, 2, 1, 15]
  · simp [e, List.lookup]
  · have : (o == [1, 3, 6, 1, 4, 1, 311, 2, 1, 15]) = false := by simpa using e
    simp [List.lookup, this, e]

theorem readSpc_val {x : DIndirect} (h : x.contents.length < maxLen) (ht : x.type = oidPeImage)
    (hv : ∀ i, x.image = some i → i.Valid) (ha : ValidOid x.digestAlg.oid) :
    readSpc x.val = .ok { type := "microsoft_spc_pe_image_data"
                          image := x.image.map (fun i => (i.flagSet, i.file.map DLink.value))
                          digestAlg := ⟨(digestAlgorithmMap.lookup x.digestAlg.oid).getD (dotted x.digestAlg.oid), false⟩
                          digest := x.digest } := by
  have hvt : ValidOid x.type := by rw [ht]; exact ⟨_, _, _, rfl, by omega, by omega⟩
  have e1 := spcTypeName x.type hvt
  rw [if_pos ht] at e1
  have e2 := readAlg_val digestAlgorithmMap x.digestAlg ha
  obtain ⟨_, _, _, l4, _, _⟩ := x.lengths h
  unfold readSpc DIndirect.val
  cases hi : x.image with
  | none => simp [Val.req, Val.get, List.lookup, bind, Except.bind, Val.octets, e1, e2]
  | some i =>
    have e3 := build_image i (l4 i hi)
    have e4 := readPeImage_val (hv i hi)
    simp [Val.req, Val.get, List.lookup, bind, Except.bind, Val.octets, Val.parts, e1, e2, e3, e4]

theorem readSpc_other {x : DIndirect} (ht : x.type ≠ oidPeImage) (hvt : ValidOid x.type) (ha : ValidOid x.digestAlg.oid)
    (hn : dotted x.type ≠ "microsoft_spc_pe_image_data") :
    readSpc x.val = .ok { type := dotted x.type
                          image := none
                          digestAlg := ⟨(digestAlgorithmMap.lookup x.digestAlg.oid).getD (dotted x.digestAlg.oid), false⟩
                          digest := x.digest } := by
  have e1 := spcTypeName x.type hvt
  rw [if_neg ht] at e1
  have e2 := readAlg_val digestAlgorithmMap x.digestAlg ha
  unfold readSpc DIndirect.val
  cases hi : x.image with
  | none => simp [Val.req, Val.get, List.lookup, bind, Except.bind, Val.octets, e1, e2]
  | some i => simp [Val.req, Val.get, List.lookup, bind, Except.bind, Val.octets, e1, e2, hn]

end Signify.Asn1
