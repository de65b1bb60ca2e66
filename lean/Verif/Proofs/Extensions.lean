/-
Reading the extensions of certificates.
-/
import Verif.Spec.Extensions
import Verif.Proofs.DerCms
import Verif.Proofs.CtlFile
import Verif.Proofs.Dict
import Verif.Proofs.Asn1Within

set_option autoImplicit false

namespace Signify.Asn1

open Signify Spec

/-- As a tree. -/
def _root_.Signify.Spec.DLogo.trees (i : DLogo) : List T :=
  optT (fun l : DLink => .node 0xA0 [l.tree]) i.link ++ optT (.leaf 0x81) i.bitmap ++ optT (.leaf 0x82) i.metafile ++
    optT (.leaf 0x83) i.enhancedMetafile ++ optT (.leaf 0x84) i.gifFile

theorem _root_.Signify.Spec.DLogo.enc_trees (i : DLogo) : encAll i.trees = i.contents := by
  simp [DLogo.trees, encAll_append, encAll_optT, T.enc, encAll, DLogo.contents, DLink.enc_tree]

/-- As a tree. -/
def _root_.Signify.Spec.DAgency.tree (a : DAgency) : T :=
  .node 0x30 (.node 0xA0 [a.policy.tree] :: (optT (fun s : DString => .node 0xA1 [s.tree]) a.text ++
    optT (fun i : DLogo => .node 0xA2 i.trees) a.image ++ optT (fun l : DLink => .node 0xA3 [l.tree]) a.link))

theorem _root_.Signify.Spec.DAgency.enc_tree (a : DAgency) : a.tree.enc = a.encode := by
  simp [DAgency.tree, T.enc, encAll, encAll_append, encAll_optT, DAgency.encode, derSeq, DLink.enc_tree, DString.enc_tree,
    DLogo.enc_trees]

theorem good_logo (i : DLogo) : goodAll i.trees = true := by
  have h1 := goodAll_optT (fun l : DLink => T.node 0xA0 [l.tree]) i.link (fun l _ => by simp [T.good, goodAll, good_link])
  have h2 := goodAll_optT (T.leaf 0x81) i.bitmap (fun _ _ => by simp [T.good])
  have h3 := goodAll_optT (T.leaf 0x82) i.metafile (fun _ _ => by simp [T.good])
  have h4 := goodAll_optT (T.leaf 0x83) i.enhancedMetafile (fun _ _ => by simp [T.good])
  have h5 := goodAll_optT (T.leaf 0x84) i.gifFile (fun _ _ => by simp [T.good])
  simp [DLogo.trees, goodAll_append, h1, h2, h3, h4, h5]

theorem good_agency (a : DAgency) : a.tree.good = true := by
  have h1 := goodAll_optT (fun s : DString => T.node 0xA1 [s.tree]) a.text (fun s _ => by simp [T.good, goodAll, good_string])
  have h2 := goodAll_optT (fun i : DLogo => T.node 0xA2 i.trees) a.image (fun i _ => by simp [T.good, good_logo])
  have h3 := goodAll_optT (fun l : DLink => T.node 0xA3 [l.tree]) a.link (fun l _ => by simp [T.good, goodAll, good_link])
  simp [DAgency.tree, T.good, goodAll, goodAll_append, h1, h2, h3, good_link]

/-- The value of an SpcImage. -/
def _root_.Signify.Spec.DLogo.val (i : DLogo) : Val :=
  .seq (encAll i.trees) [("image_link", i.link.map DLink.val), ("bitmap", i.bitmap.map .prim), ("metafile", i.metafile.map .prim),
    ("enhanced_metafile", i.enhancedMetafile.map .prim), ("gif_file", i.gifFile.map .prim)]

theorem buildT_logo (i : DLogo) : tSpcImage.buildT (some 2) (.node 0xA2 i.trees) = .ok i.val := by
  obtain ⟨a, b, c, d, e⟩ := i
  cases a <;> cases b <;> cases c <;> cases d <;> cases e <;> bt [tSpcImage, DLogo.trees, DLogo.val, buildT_link, tOctetString]

theorem readOpt_octets (o : Option Bytes) : readOpt Val.octets (o.map .prim) = .ok o := by cases o <;> rfl

theorem readImage_val {i : DLogo} (h : ∀ l, i.link = some l → l.Valid) : readImage i.val = .ok i.value := by
  have e := readOpt_map (f := readSpcLink) (fun s hs => readSpcLink_val (h s hs))
  simp [readImage, DLogo.val, Val.get, List.lookup, bind, Except.bind, e, readOpt_octets, DLogo.value]

/-- The value of an SpcSpAgencyInformation. -/
def _root_.Signify.Spec.DAgency.val (a : DAgency) : Val :=
  .seq a.tree.cont [("policy_information", some a.policy.val), ("policy_display_text", a.text.map DString.val),
    ("logo_image", a.image.map DLogo.val), ("logo_link", a.link.map DLink.val)]

theorem buildT_agency (a : DAgency) : tSpcSpAgencyInformation.buildT none a.tree = .ok a.val := by
  obtain ⟨p, b, c, d⟩ := a
  cases b <;> cases c <;> cases d <;>
    bt [tSpcSpAgencyInformation, DAgency.tree, DAgency.val, buildT_link, buildT_string] <;> simp [buildT_logo]

theorem readAgency_val {a : DAgency} (h : a.Valid) : readAgency a.val = .ok a.value := by
  obtain ⟨h1, h2, h3, h4⟩ := h
  have e1 := readSpcLink_val h1
  have e2 := readOpt_map (f := readSpcString) (fun s hs => readSpcString_val (h2 s hs))
  have e3 := readOpt_map (f := readImage) (fun i hi => readImage_val (fun l hl => h3 i l hi hl))
  have e4 := readOpt_map (f := readSpcLink) (fun s hs => readSpcLink_val (h4 s hs))
  simp [readAgency, DAgency.val, Val.req, Val.get, List.lookup, bind, Except.bind, e1, e2, e3, e4, DAgency.value]

theorem load_tree (ty : Ty) (t : T) (rest : Bytes) (h : t.Ok) : ty.load (t.enc ++ rest) = ty.buildT none t := by
  unfold Ty.load
  rw [parse_tree _ _ h.1 h.2]
  simp only [bind, Except.bind]
  exact build_tree _ _ _ h

theorem derAgency_ok {a : DAgency} (h : a.Valid) (hl : a.encode.length < maxLen) (rest : Bytes) :
    derAgency (a.encode ++ rest) = .ok a.value := by
  have hok : a.tree.Ok := T.ok_of (good_agency a) (by rw [a.enc_tree]; exact hl)
  unfold derAgency
  rw [← a.enc_tree, load_tree _ _ _ hok, buildT_agency]
  exact readAgency_val h

/-- As a tree. -/
def _root_.Signify.Spec.DFinancial.tree (f : DFinancial) : T :=
  .node 0x30 (optT (fun b => .leaf 1 [if b then 0xFF else 0]) f.available ++ optT (fun b => .leaf 1 [if b then 0xFF else 0]) f.meets)

theorem _root_.Signify.Spec.DFinancial.enc_tree (f : DFinancial) : f.tree.enc = f.encode := by
  simp [DFinancial.tree, T.enc, encAll_append, encAll_optT, DFinancial.encode, derSeq]
  rfl

theorem derFinancial_exact (f : DFinancial) (rest : Bytes) :
    derFinancial (f.encode ++ rest) = .ok (match f.available with
      | some a => ⟨a, f.meets.getD false⟩
      | none => ⟨f.meets.getD false, false⟩) := by
  obtain ⟨a, b⟩ := f
  have hg : (DFinancial.mk a b).tree.good = true := by cases a <;> cases b <;> simp [DFinancial.tree, T.good, goodAll]
  have hl : (DFinancial.mk a b).tree.cont.length < maxLen := by
    have : (DFinancial.mk a b).tree.cont.length ≤ 6 := by
      cases a <;> cases b <;> simp [DFinancial.tree, T.cont, encAll, T.enc, tlv, lengthOctets]
    have : 7 < maxLen := by unfold maxLen; exact Nat.lt_of_lt_of_le (by decide) (Nat.pow_le_pow_right (by decide) (by decide : 1 ≤ 126))
    omega
  unfold derFinancial
  rw [← DFinancial.enc_tree, load_tree _ _ _ ⟨hg, hl⟩]
  rcases a with _ | (_ | _) <;> rcases b with _ | (_ | _) <;>
    bt [tSpcFinancialCriteria, DFinancial.tree, tBoolean] <;>
    simp [readFinancial, Val.get, List.lookup, bind, Except.bind, readFlag, Val.octets, boolNative]

/-! ### Names of extensions -/

theorem extension_name {o : List Nat} {k : List Nat} {n : String} (hk : (k, n) ∈ extensionNames) :
    nameIn extensionNames o = n ↔ o = k := by
  have letters : ∀ p ∈ extensionNames, ∃ c ∈ p.2.toList, c ≠ '.' ∧ c.isDigit = false := by decide +kernel
  have uniq : ∀ p ∈ extensionNames, ∀ q ∈ extensionNames, (p.1 = q.1 ↔ p.2 = q.2) := by decide +kernel
  unfold nameIn
  split
  · rename_i x hx
    obtain ⟨h1, h2⟩ : x ∈ extensionNames ∧ x.1 = o := ⟨List.mem_of_find?_eq_some hx, by simpa using List.find?_some hx⟩
    subst h2
    exact (uniq x h1 _ hk).symm
  · rename_i hx
    constructor
    · intro h
      exact absurd h (dotted_ne o n (letters _ hk))
    · intro h
      subst h
      have := List.find?_eq_none.mp hx _ hk
      simp at this

theorem DExt.oid_ne_eku {o : List Nat} {c : Bool} {v : Bytes} (h : (DExt.other o c v).Valid) : o ≠ oidEku := h.2

theorem readExtension_says {α : Type} {lib : ExtLib α} {e : DExt} {n : String} {x : ExtVal α} (h : Says lib e n x) (hv : e.Valid)
    (hl : e.encode.length < maxLen) {v : Val} (h1 : v.req "extn_id" = .ok (.prim (oidOctets e.oid)))
    (h2 : v.req "extn_value" = .ok (.prim e.value)) : readExtension lib v = .ok (n, x) := by
  have hon := oidNative_eq extensionIds (DExt.valid_oid hv)
  have hmap : extensionIds = extensionNames := rfl
  have hlen := ext_value_length e
  have neku := @extension_name e.oid [2, 5, 29, 37] "extended_key_usage" (by decide +kernel)
  have nag := @extension_name e.oid oidAgency "microsoft_spc_sp_agency_info" (by decide +kernel)
  have nfin := @extension_name e.oid oidFinancial "microsoft_spc_financial_criteria" (by decide +kernel)
  unfold readExtension
  simp only [h1, h2, bind, Except.bind, Val.octets]
  rw [hon, hmap]
  cases h with
  | usages c l =>
    have hn := neku.mpr rfl
    have he := derEkus_ok (l := l) hv (by simp only [DExt.value] at hlen; omega) []
    rw [List.append_nil] at he
    rw [if_pos hn, hn]
    simp only [DExt.value, he]
  | agency c a ha =>
    have hn := nag.mpr rfl
    have he := derAgency_ok ha (by simp only [DExt.value] at hlen; omega) []
    rw [List.append_nil] at he
    rw [hn, if_neg (by decide), if_pos rfl]
    simp only [DExt.value, he]
  | financial c a b =>
    have hn := nfin.mpr rfl
    have he := derFinancial_exact ⟨some a, some b⟩ []
    rw [List.append_nil] at he
    rw [hn, if_neg (by decide), if_neg (by decide), if_pos rfl]
    simp only [DExt.value, he]
    rfl
  | known o c w f y h3 h4 h5 h6 =>
    rw [if_neg (fun k => hv.2 (neku.mp k)), if_neg (fun k => h3 (nag.mp k)), if_neg (fun k => h4 (nfin.mp k))]
    simp only [DExt.oid, DExt.value, h5, h6]
  | unknown o c w h3 h4 h5 =>
    rw [if_neg (fun k => hv.2 (neku.mp k)), if_neg (fun k => h3 (nag.mp k)), if_neg (fun k => h4 (nfin.mp k))]
    simp only [DExt.oid, DExt.value, h5]

/-- What is said last. -/
def LastSays {α : Type} (lib : ExtLib α) (n : String) (x : ExtVal α) : List DExt → Prop
  | [] => False
  | e :: l => LastSays lib n x l ∨ (Says lib e n x ∧ ∀ e' ∈ l, ∀ x', ¬ Says lib e' n x')

theorem lastSays_iff {α : Type} {lib : ExtLib α} {n : String} {x : ExtVal α} (l : List DExt) : LastSays lib n x l ↔
    ∃ pre e post, l = pre ++ e :: post ∧ Says lib e n x ∧ ∀ e' ∈ post, ∀ x', ¬ Says lib e' n x' := by
  induction l with
  | nil => simp [LastSays]
  | cons a l ih =>
    constructor
    · rintro (h | ⟨h1, h2⟩)
      · obtain ⟨pre, e, post, h1, h2, h3⟩ := ih.mp h
        exact ⟨a :: pre, e, post, by simp [h1], h2, h3⟩
      · exact ⟨[], a, l, rfl, h1, h2⟩
    · rintro ⟨pre, e, post, h1, h2, h3⟩
      cases pre with
      | nil =>
        obtain ⟨rfl, rfl⟩ := List.cons.inj h1
        exact .inr ⟨h2, h3⟩
      | cons b pre =>
        obtain ⟨rfl, h1'⟩ := List.cons.inj h1
        exact .inl (ih.mpr ⟨pre, e, post, h1', h2, h3⟩)

theorem readExtensions_ok {α : Type} {lib : ExtLib α} {l : List DExt} (h : ∀ e ∈ l, e.Valid)
    (hl : ∀ e ∈ l, e.encode.length < maxLen) (hs : ∀ e ∈ l, ∃ n x, Says lib e n x) :
    ∃ vs, parseAll (tExtension.buildT none) (l.map DExt.tree) = .ok vs ∧ ∀ d, ∃ r, readExtensions lib vs d = .ok r ∧
      ∀ n x, r.get? n = some x ↔ LastSays lib n x l ∨ ((∀ e ∈ l, ∀ x', ¬ Says lib e n x') ∧ d.get? n = some x) := by
  induction l with
  | nil => exact ⟨[], rfl, fun d => ⟨d, rfl, fun n x => by simp [LastSays]⟩⟩
  | cons e l ih =>
    obtain ⟨vs, h1, h2⟩ := ih (fun e he => h e (List.mem_cons_of_mem _ he)) (fun e he => hl e (List.mem_cons_of_mem _ he))
      (fun e he => hs e (List.mem_cons_of_mem _ he))
    obtain ⟨v, h3, h4, h5⟩ := buildT_ext e
    have hv := h e (List.mem_cons_self ..)
    have hle := hl e (List.mem_cons_self ..)
    obtain ⟨n0, x0, h0⟩ := hs e (List.mem_cons_self ..)
    have hr := readExtension_says h0 hv hle h4 h5
    have func : ∀ n x, Says lib e n x ↔ n = n0 ∧ x = x0 := by
      intro n x
      constructor
      · intro k
        have := readExtension_says k hv hle h4 h5
        rw [hr] at this
        simp only [Except.ok.injEq, Prod.mk.injEq] at this
        exact ⟨this.1.symm, this.2.symm⟩
      · rintro ⟨rfl, rfl⟩
        exact h0
    refine ⟨v :: vs, by simp [parseAll, h1, h3, bind, Except.bind], fun d => ?_⟩
    obtain ⟨r, h6, h7⟩ := h2 (d.set n0 x0)
    refine ⟨r, by simp [readExtensions, hr, bind, Except.bind, h6], fun n x => ?_⟩
    rw [h7, Dict.get?_set]
    simp only [LastSays, func, List.mem_cons, forall_eq_or_imp]
    by_cases hn : n = n0
    · subst hn
      by_cases hx : x = x0
      · subst hx; simp
      · have : ¬ x0 = x := fun k => hx k.symm
        simp [hx, this]
    · simp [hn]

/-! ### Certificates -/

theorem versionName_eq (i : Int) :
    (if i = 0 then VersionVal.name "v1" else if i = 1 then .name "v2" else if i = 2 then .name "v3" else .number i)
      = versionName (some i) := by
  by_cases h0 : i = 0
  · subst h0; rfl
  by_cases h1 : i = 1
  · subst h1; rfl
  by_cases h2 : i = 2
  · subst h2; rfl
  rw [if_neg h0, if_neg h1, if_neg h2]
  unfold versionName
  split <;> simp_all

theorem readVersion_ok (v : Option Int) : readVersion (v.map (fun v => .prim (intOctets v))) = .ok (versionName v) := by
  cases v with
  | none => rfl
  | some i => simp [readVersion, Val.octets, bind, Except.bind, intNative_intOctets, versionName_eq]

theorem readCertAttrs_ok {α : Type} {lib : ExtLib α} {c : DCert} (h : c.Valid) (hl : c.encode.length < maxLen)
    (hs : ∀ l, c.extensions = some l → ∀ e ∈ l, ∃ n x, Says lib e n x) :
    ∃ r, readCertAttrs lib c.tree.parts = .ok ⟨versionName c.version, r⟩ ∧
      ∀ n x, r.get? n = some x ↔ LastSays lib n x (c.extensions.getD []) := by
  obtain ⟨v1, v2, v3, v4, v5, v6, v7, v8⟩ := h
  obtain ⟨_, sa, h1, _⟩ := reads_sigAlg digestAlgorithmMap v1
  obtain ⟨iv, h2, h2'⟩ := reads_name v2
  obtain ⟨sv, h5, h5'⟩ := reads_name v5
  have hok : c.tree.Ok := T.ok_of (good_cert ⟨v1, v2, v3, v4, v5, v6, v7, v8⟩) (by rw [c.enc_tree]; exact hl)
  have htbs : (tbsTree c).Ok := hok.child (by simp)
  have hx : ∃ vs r, (∀ l, c.extensions = some l → parseAll (tExtension.buildT none) (l.map DExt.tree) = .ok vs ∧
        readExtensions lib vs [] = .ok r) ∧ (c.extensions = none → r = []) ∧
      ∀ n x, r.get? n = some x ↔ LastSays lib n x (c.extensions.getD []) := by
    cases hxe : c.extensions with
    | none => exact ⟨[], [], (fun _ h => by cases h), fun _ => rfl, fun n x => by simp [LastSays, Dict.get?]⟩
    | some l =>
      have hb : (T.node 0xA3 [.node 0x30 (l.map DExt.tree)]).Ok := htbs.child (by simp [hxe])
      have hb2 : (T.node 0x30 (l.map DExt.tree)).Ok := hb.child (by simp)
      obtain ⟨vs, e1, e2⟩ := readExtensions_ok (lib := lib) (v8 l hxe) (fun e he => by
        have h1 : e.tree.enc.length ≤ (encAll (l.map DExt.tree)).length := encAll_le (List.mem_map_of_mem he)
        have h2 := hb2.2
        simp only [T.cont] at h2
        rw [e.enc_tree] at h1
        omega) (hs l hxe)
      obtain ⟨r, e3, e4⟩ := e2 []
      exact ⟨vs, r, (fun l' h => by cases h; exact ⟨e1, e3⟩), (fun h => by cases h), fun n x => by rw [e4]; simp [Dict.get?]⟩
  obtain ⟨vs, r, h6, h6', h7⟩ := hx
  have hb := buildT_cert h1 h2 (buildT_time _ _) (buildT_time _ _) h5 (fun l hl => (h6 l hl).1)
  refine ⟨r, ?_, h7⟩
  unfold readCertAttrs
  rw [build_tree _ _ _ hok, hb]
  rd [readVersion_ok]
  cases hxe : c.extensions with
  | none => simp [extsVal, hxe, h6' hxe]
  | some l => simp [extsVal, hxe, (h6 l hxe).2]

/-! ### Extensions that cannot be read -/

/-- The decoded extension. -/
noncomputable def extVal (e : DExt) : Val := Classical.choose (buildT_ext e)

theorem extVal_spec (e : DExt) : tExtension.buildT none e.tree = .ok (extVal e) ∧
    (extVal e).req "extn_id" = .ok (.prim (oidOctets e.oid)) ∧ (extVal e).req "extn_value" = .ok (.prim e.value) :=
  Classical.choose_spec (buildT_ext e)

theorem parseAll_exts (l : List DExt) : parseAll (tExtension.buildT none) (l.map DExt.tree) = .ok (l.map extVal) := by
  rw [parseAll_map]
  exact parseAll_ok (fun e _ => (extVal_spec e).1)

theorem readExtension_fails {α : Type} {lib : ExtLib α} {o : List Nat} {c : Bool} {w : Bytes} {f : Bytes → Except Exc α} {x : Exc}
    (hv : (DExt.other o c w).Valid) (h3 : o ≠ oidAgency) (h4 : o ≠ oidFinancial) (h5 : lib (nameIn extensionNames o) = some f)
    (h6 : f w = .error x) : readExtension lib (extVal (.other o c w)) = .error x := by
  have hon := oidNative_eq extensionIds (DExt.valid_oid hv)
  have hmap : extensionIds = extensionNames := rfl
  have neku := @extension_name (DExt.other o c w).oid [2, 5, 29, 37] "extended_key_usage" (by decide +kernel)
  have nag := @extension_name (DExt.other o c w).oid oidAgency "microsoft_spc_sp_agency_info" (by decide +kernel)
  have nfin := @extension_name (DExt.other o c w).oid oidFinancial "microsoft_spc_financial_criteria" (by decide +kernel)
  obtain ⟨_, h1, h2⟩ := extVal_spec (.other o c w)
  unfold readExtension
  simp only [h1, h2, bind, Except.bind, Val.octets]
  rw [hon, hmap]
  rw [if_neg (fun k => hv.2 (neku.mp k)), if_neg (fun k => h3 (nag.mp k)), if_neg (fun k => h4 (nfin.mp k))]
  simp only [DExt.oid, DExt.value, h5, h6]

theorem readExtensions_fails {α : Type} {lib : ExtLib α} {e : DExt} {post : List DExt} {x : Exc}
    (he : readExtension lib (extVal e) = .error x) (pre : List DExt) (hp : ∀ e ∈ pre, e.Valid ∧ e.encode.length < maxLen ∧
      ∃ n x, Says lib e n x) (d : Dict String (ExtVal α)) :
    readExtensions lib ((pre ++ e :: post).map extVal) d = .error x := by
  induction pre generalizing d with
  | nil => simp [readExtensions, he, bind, Except.bind]
  | cons a pre ih =>
    obtain ⟨h1, h2, n, y, h3⟩ := hp a (List.mem_cons_self ..)
    have := readExtension_says h3 h1 h2 (extVal_spec a).2.1 (extVal_spec a).2.2
    simp only [List.cons_append, List.map_cons, readExtensions, this, bind, Except.bind]
    exact ih (fun e he => hp e (List.mem_cons_of_mem _ he)) _

theorem ext_length {c : DCert} (h : c.Valid) (hl : c.encode.length < maxLen) {l : List DExt} (hx : c.extensions = some l) {e : DExt}
    (he : e ∈ l) : e.encode.length < maxLen := by
  have hok : c.tree.Ok := T.ok_of (good_cert h) (by rw [c.enc_tree]; exact hl)
  have htbs : (tbsTree c).Ok := hok.child (by simp)
  have hb : (T.node 0xA3 [.node 0x30 (l.map DExt.tree)]).Ok := htbs.child (by simp [hx])
  have hb2 : (T.node 0x30 (l.map DExt.tree)).Ok := hb.child (by simp)
  have h1 : e.tree.enc.length ≤ (encAll (l.map DExt.tree)).length := encAll_le (List.mem_map_of_mem he)
  have h2 := hb2.2
  simp only [T.cont] at h2
  rw [e.enc_tree] at h1
  omega

theorem readCertAttrs_fails {α : Type} {lib : ExtLib α} {c : DCert} (h : c.Valid) (hl : c.encode.length < maxLen) {l : List DExt}
    (hx : c.extensions = some l) {x : Exc} (hf : ∀ d, readExtensions lib (l.map extVal) d = .error x) :
    readCertAttrs lib c.tree.parts = .error x := by
  have hok : c.tree.Ok := T.ok_of (good_cert h) (by rw [c.enc_tree]; exact hl)
  obtain ⟨v1, v2, v3, v4, v5, v6, v7, v8⟩ := h
  obtain ⟨_, sa, h1, _⟩ := reads_sigAlg digestAlgorithmMap v1
  obtain ⟨iv, h2, h2'⟩ := reads_name v2
  obtain ⟨sv, h5, h5'⟩ := reads_name v5
  have hb := buildT_cert h1 h2 (buildT_time _ _) (buildT_time _ _) h5
    (fun l' hl' => by rw [hx] at hl'; cases hl'; exact parseAll_exts l)
  unfold readCertAttrs
  rw [build_tree _ _ _ hok, hb]
  rd [readVersion_ok, extsVal, hx, hf]

/-! ### Extended key usages -/

theorem oidNative_eku (o : Bytes) : oidNative extensionIds o = "extended_key_usage" ↔ oidArcs o = [2, 5, 29, 37] := by
  unfold oidNative
  rw [nameIn_lookup, show extensionIds = extensionNames from rfl]
  exact extension_name (by decide +kernel)

theorem readExtensions_eku {α : Type} {lib : ExtLib α} {vs : List Val} {u : Option (List String)} (h : readEku vs = .ok u)
    {d r : Dict String (ExtVal α)} (hr : readExtensions lib vs d = .ok r) :
    r.get? "extended_key_usage" = (u.map ExtVal.usages).or (d.get? "extended_key_usage") := by
  induction vs generalizing d u with
  | nil =>
    cases h; cases hr; rfl
  | cons v vs ih =>
    simp only [readEku, bind, Except.bind] at h
    simp only [readExtensions, readExtension, bind, Except.bind] at hr
    cases h1 : v.req "extn_id" with
    | error e => simp [h1] at h
    | ok o =>
      cases h2 : o.octets with
      | error e => simp [h1, h2] at h
      | ok ob =>
        cases h3 : v.req "extn_value" with
        | error e => simp [h1, h2, h3] at h
        | ok w =>
          cases h4 : w.octets with
          | error e => simp [h1, h2, h3, h4] at h
          | ok b =>
            simp only [h1, h2, h3, h4] at h hr
            by_cases ho : oidArcs ob = [2, 5, 29, 37]
            · have hn := (oidNative_eku ob).mpr ho
              simp only [hn, if_true] at hr
              simp only [ho, if_true] at h
              cases h5 : derEkus b with
              | error e => simp [h5] at h
              | ok k =>
                simp only [h5] at h hr
                cases h6 : readEku vs with
                | error e => simp [h6] at h
                | ok u' =>
                  have := ih h6 hr
                  rw [this, Dict.get?_set]
                  simp only [h6] at h
                  cases u' with
                  | none => cases h; rfl
                  | some x => cases h; rfl
            · have hn : ¬ oidNative extensionIds ob = "extended_key_usage" := fun k => ho ((oidNative_eku ob).mp k)
              simp only [ho, if_false] at h
              simp only [if_neg hn] at hr
              cases h6 : readEku vs with
              | error e => simp [h6] at h
              | ok u' =>
                simp only [h6] at h
                have hu : u' = u := by cases u' <;> simp_all
                subst hu
                split at hr
                · cases hr
                · rename_i p hp
                  have hp1 : p.1 = oidNative extensionIds ob := by
                    split at hp
                    · cases hp
                    · cases hp; rfl
                  have := ih h6 hr
                  rw [this, Dict.get?_set, hp1, if_neg (fun k => hn k.symm)]

theorem certObject_eku {α : Type} {lib : ExtLib α} {data : Bytes} {c : Cert} {a : CertAttrs α}
    (h : certObject lib data = .ok (c, a)) : a.extensions.get? "extended_key_usage" = c.eku.map .usages := by
  unfold certObject certFromDer at h
  obtain ⟨c', hc, h⟩ := eok_bind h
  obtain ⟨⟨p, r⟩, hp, hc⟩ := eok_bind hc
  obtain ⟨⟨p', r'⟩, hp', h⟩ := eok_bind h
  rw [hp] at hp'
  cases hp'
  obtain ⟨a', ha, h⟩ := eok_bind h
  cases h
  simp only at hc ha
  unfold readCert at hc
  unfold readCertAttrs at ha
  obtain ⟨v, hv, hc⟩ := eok_bind hc
  obtain ⟨v', hv', ha⟩ := eok_bind ha
  rw [hv] at hv'
  cases hv'
  obtain ⟨t, ht, hc⟩ := eok_bind hc
  obtain ⟨t', ht', ha⟩ := eok_bind ha
  rw [ht] at ht'
  cases ht'
  iterate 19 obtain ⟨_, _, hc⟩ := eok_bind hc
  obtain ⟨o, ho, hc⟩ := eok_bind hc
  obtain ⟨u, hu, hc⟩ := eok_bind hc
  cases hc
  obtain ⟨_, _, ha⟩ := eok_bind ha
  obtain ⟨_, _, ha⟩ := eok_bind ha
  obtain ⟨o', ho', ha⟩ := eok_bind ha
  rw [ho] at ho'
  cases ho'
  obtain ⟨d, hd, ha⟩ := eok_bind ha
  cases ha
  simp only
  cases o with
  | none =>
    cases hu; cases hd; rfl
  | some x =>
    obtain ⟨vs, hvs, hu⟩ := eok_bind hu
    obtain ⟨vs', hvs', hd⟩ := eok_bind hd
    rw [hvs] at hvs'
    cases hvs'
    rw [readExtensions_eku hu hd]
    simp [Dict.get?]

end Signify.Asn1
