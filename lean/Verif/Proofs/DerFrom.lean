/-
What is decoded from a signature is part of it.
-/
import Verif.Spec.DerFrom
import Verif.Proofs.DerWithin
import Verif.Proofs.Pkcs7

set_option autoImplicit false

namespace Signify.Asn1

open Signify Spec

/-- The octets of a SignerInfo are part of the data. -/
structure HeadFrom (data : Bytes) (h : SIHead) : Prop where
  attrs : ∀ b, h.signedAttrs = some b → b <:+: data
  signature : h.signature <:+: data

/-- The octets of a SignedData are part of the data. -/
structure SDFrom (data : Bytes) (h : SDHead) : Prop where
  content : ∀ b, h.content = some b → b <:+: data
  certs : ∀ c ∈ h.certs, c.choice = "certificate" → c.cert.der <:+: data ∧ certFromDer c.cert.der = .ok c.cert

mutual
/-- Likewise, with the unsigned attributes. -/
inductive RawSIFrom (data : Bytes) : RawSI → Prop where
  | mk {h : SIHead} {us : List RawUAttr} : HeadFrom data h → (∀ u ∈ us, RawUAttrFrom data u) → RawSIFrom data (.mk h us)
/-- Likewise. -/
inductive RawUAttrFrom (data : Bytes) : RawUAttr → Prop where
  | mk {t : String} {vs : List RawUVal} : (∀ v ∈ vs, RawUValFrom data v) → RawUAttrFrom data (.mk t vs)
/-- Likewise. -/
inductive RawUValFrom (data : Bytes) : RawUVal → Prop where
  | signerInfo {si : RawSI} : RawSIFrom data si → RawUValFrom data (.signerInfo si)
  | contentInfo {t : String} {sd : RawSD} : RawSDFrom data sd → RawUValFrom data (.contentInfo t sd)
  | other {b : Bytes} : RawUValFrom data (.other b)
/-- Likewise, with the signers. -/
inductive RawSDFrom (data : Bytes) : RawSD → Prop where
  | mk {h : SDHead} {ss : List RawSI} : SDFrom data h → (∀ s ∈ ss, RawSIFrom data s) → RawSDFrom data (.mk h ss)
end

theorem parseAll_mem {α β : Type} {f : α → Except Exc β} {l : List α} {bs : List β} (h : parseAll f l = .ok bs) :
    ∀ b ∈ bs, ∃ a ∈ l, f a = .ok b := by
  induction l generalizing bs with
  | nil => cases h; simp
  | cons a l ih =>
    rw [parseAll] at h
    obtain ⟨b, h1, h⟩ := eok_bind h
    obtain ⟨bs', h2, h⟩ := eok_bind h
    cases h
    intro x hx
    cases hx with
    | head => exact ⟨a, List.mem_cons_self, h1⟩
    | tail _ hx =>
      obtain ⟨y, hy, hf⟩ := ih h2 x hx
      exact ⟨y, List.mem_cons_of_mem _ hy, hf⟩

/-! ### Certificates -/

theorem readCert_der {p : Parts} {c : Cert} (h : readCert p = .ok c) : c.der = p.dump := by
  unfold readCert at h
  repeat (obtain ⟨_, _, h⟩ := eok_bind h)
  cases h
  rfl

theorem readCert_from {p : Parts} {c : Cert} {data : Bytes} (h : readCert p = .ok c) (hp : p.In data) :
    c.der <:+: data ∧ certFromDer c.der = .ok c := by
  rw [readCert_der h]
  refine ⟨hp.1, ?_⟩
  unfold certFromDer
  rw [hp.2.2]
  exact h

theorem readCertChoice_from {v : Val} {c : RawCert} {data : Bytes} (h : readCertChoice v = .ok c) (hv : v.In data) :
    c.choice = "certificate" → c.cert.der <:+: data ∧ certFromDer c.cert.der = .ok c.cert := by
  unfold readCertChoice at h
  obtain ⟨p, h1, h⟩ := eok_bind h
  obtain ⟨n, h2, h⟩ := eok_bind h
  intro hc
  split at h
  · obtain ⟨c', h3, h⟩ := eok_bind h
    cases h
    exact readCert_from h3 (parts_in hv h1)
  · rename_i hn
    cases h
    exact absurd hc hn

/-! ### Signatures -/

theorem readSIHead_from {v : Val} {h : SIHead} {data : Bytes} (hr : readSIHead v = .ok h) (hv : v.In data) : HeadFrom data h := by
  unfold readSIHead at hr
  obtain ⟨sid, h1, hr⟩ := eok_bind hr
  obtain ⟨⟨a, b, c⟩, h2, hr⟩ := eok_bind hr
  obtain ⟨x1, h3, hr⟩ := eok_bind hr
  obtain ⟨x2, h4, hr⟩ := eok_bind hr
  obtain ⟨x3, h5, hr⟩ := eok_bind hr
  obtain ⟨sa, h6, hr⟩ := eok_bind hr
  obtain ⟨x4, h7, hr⟩ := eok_bind hr
  obtain ⟨x5, h8, hr⟩ := eok_bind hr
  obtain ⟨x6, h9, hr⟩ := eok_bind hr
  obtain ⟨x7, h10, hr⟩ := eok_bind hr
  cases hr
  refine ⟨fun d hd => ?_, octets_in (req_in hv h9) h10⟩
  simp only at hd
  subst hd
  split at h6
  · cases h6
  · rename_i contents vs
    cases h6
    have := get_in hv h5
    cases this
    assumption
  · cases h6

theorem readEncap_from {n : Int} {v : Val} {data : Bytes} {t : String} {c : Option Bytes} {w : Bool}
    (h : readEncap n v = .ok (t, c, w)) (hv : v.In data) : ∀ b, c = some b → b <:+: data := by
  unfold readEncap at h
  obtain ⟨x1, h1, h⟩ := eok_bind h
  obtain ⟨x2, h2, h⟩ := eok_bind h
  simp only at h
  obtain ⟨x3, h3, h⟩ := eok_bind h
  intro b hb
  cases x3 with
  | none => cases h; cases hb
  | some x =>
    obtain ⟨p, h4, h⟩ := eok_bind h
    have hp := parts_in (get_in hv h3) h4
    split at h
    · obtain ⟨_, _, h⟩ := eok_bind h
      cases h
      cases hb
      exact hp.contents
    · obtain ⟨y, h5, h⟩ := eok_bind h
      obtain ⟨z, h6, h⟩ := eok_bind h
      cases h
      cases hb
      exact octets_in (build_in _ _ _ _ _ h5 hp) h6

theorem readSDHead_from {v : Val} {h : SDHead} {data : Bytes} (hr : readSDHead v = .ok h) (hv : v.In data) : SDFrom data h := by
  unfold readSDHead at hr
  obtain ⟨x1, h1, hr⟩ := eok_bind hr
  obtain ⟨x2, h2, hr⟩ := eok_bind hr
  obtain ⟨x3, h3, hr⟩ := eok_bind hr
  obtain ⟨x4, h4, hr⟩ := eok_bind hr
  obtain ⟨x5, h5, hr⟩ := eok_bind hr
  obtain ⟨x6, h6, hr⟩ := eok_bind hr
  obtain ⟨⟨t, c, w⟩, h7, hr⟩ := eok_bind hr
  simp only at hr
  obtain ⟨x8, h8, hr⟩ := eok_bind hr
  obtain ⟨certs, h9, hr⟩ := eok_bind hr
  obtain ⟨x10, h10, hr⟩ := eok_bind hr
  obtain ⟨x11, h11, hr⟩ := eok_bind hr
  cases hr
  refine ⟨readEncap_from h7 (req_in hv h6), fun rc hrc => ?_⟩
  simp only at hrc
  cases x8 with
  | none => cases h9; cases hrc
  | some x =>
    obtain ⟨l, h12, h9⟩ := eok_bind h9
    obtain ⟨y, hy, hf⟩ := parseAll_mem h9 rc hrc
    exact readCertChoice_from hf (elems_in (get_in hv h8) h12 y hy)

theorem readContentInfo_from {sd : Parts → Except Exc RawSD} {p : Parts} {data : Bytes} (hp : p.contents <:+: data)
    (hsd : ∀ q s, q.In data → sd q = .ok s → RawSDFrom data s) {t : String} {s : RawSD}
    (h : readContentInfo sd p = .ok (t, s)) : RawSDFrom data s := by
  unfold readContentInfo at h
  obtain ⟨v, h1, h⟩ := eok_bind h
  obtain ⟨x2, h2, h⟩ := eok_bind h
  obtain ⟨x3, h3, h⟩ := eok_bind h
  have hv := (build_seq_in h1).mono hp
  simp only at h
  split at h
  · obtain ⟨x4, h4, h⟩ := eok_bind h
    cases x4 with
    | none => cases h
    | some x =>
      obtain ⟨q, h5, h⟩ := eok_bind h
      obtain ⟨s', h6, h⟩ := eok_bind h
      cases h
      exact hsd q s (parts_in (get_in hv h4) h5) h6
  · cases h
    exact .mk ⟨fun b hb => (by cases hb), fun c hc => (by cases hc)⟩ (fun _ hs => (by cases hs))

theorem readUVal_from {si : Parts → Except Exc RawSI} {sd : Parts → Except Exc RawSD} {type : String} {p : Parts} {data : Bytes}
    (hp : p.In data) (hsi : ∀ q s, q.In data → si q = .ok s → RawSIFrom data s)
    (hsd : ∀ q s, q.In data → sd q = .ok s → RawSDFrom data s) {v : RawUVal} (h : readUVal si sd type p = .ok v) :
    RawUValFrom data v := by
  unfold readUVal at h
  split at h
  · obtain ⟨s, h1, h⟩ := eok_bind h
    cases h
    exact .signerInfo (hsi p s hp h1)
  · split at h
    · obtain ⟨⟨t, s⟩, h1, h⟩ := eok_bind h
      cases h
      exact .contentInfo (readContentInfo_from hp.contents hsd h1)
    · cases h
      exact .other

theorem readUAttr_from {si : Parts → Except Exc RawSI} {sd : Parts → Except Exc RawSD} {w : Val} {data : Bytes} (hw : w.In data)
    (hsi : ∀ q s, q.In data → si q = .ok s → RawSIFrom data s) (hsd : ∀ q s, q.In data → sd q = .ok s → RawSDFrom data s)
    {u : RawUAttr} (h : readUAttr si sd w = .ok u) : RawUAttrFrom data u := by
  unfold readUAttr at h
  obtain ⟨x1, h1, h⟩ := eok_bind h
  obtain ⟨x2, h2, h⟩ := eok_bind h
  obtain ⟨x3, h3, h⟩ := eok_bind h
  obtain ⟨x4, h4, h⟩ := eok_bind h
  obtain ⟨vs, h5, h⟩ := eok_bind h
  cases h
  refine .mk (fun v hv => ?_)
  obtain ⟨y, hy, hf⟩ := parseAll_mem h5 v hv
  obtain ⟨p, h6, hf⟩ := eok_bind hf
  exact readUVal_from (parts_in (elems_in (req_in hw h3) h4 y hy) h6) hsi hsd hf

theorem readSI_from {si : Parts → Except Exc RawSI} {sd : Parts → Except Exc RawSD} {w : Val} {data : Bytes} (hw : w.In data)
    (hsi : ∀ q s, q.In data → si q = .ok s → RawSIFrom data s) (hsd : ∀ q s, q.In data → sd q = .ok s → RawSDFrom data s)
    {s : RawSI} (h : readSI si sd w = .ok s) : RawSIFrom data s := by
  unfold readSI at h
  obtain ⟨hd, h1, h⟩ := eok_bind h
  obtain ⟨x2, h2, h⟩ := eok_bind h
  obtain ⟨us, h3, h⟩ := eok_bind h
  cases h
  refine .mk (readSIHead_from h1 hw) (fun u hu => ?_)
  cases x2 with
  | none => cases h3; cases hu
  | some x =>
    obtain ⟨l, h4, h3⟩ := eok_bind h3
    obtain ⟨y, hy, hf⟩ := parseAll_mem h3 u hu
    exact readUAttr_from (elems_in (get_in hw h2) h4 y hy) hsi hsd hf

theorem der_from (n : Nat) (data : Bytes) : (∀ q s, q.In data → derSI n q = .ok s → RawSIFrom data s) ∧
    ∀ q s, q.In data → derSD n q = .ok s → RawSDFrom data s := by
  induction n with
  | zero => exact ⟨fun _ _ _ h => (by cases h), fun _ _ _ h => (by cases h)⟩
  | succ n ih =>
    refine ⟨fun q s hq h => ?_, fun q s hq h => ?_⟩
    · rw [derSI] at h
      obtain ⟨v, h1, h⟩ := eok_bind h
      exact readSI_from (build_in _ _ _ _ _ h1 hq) ih.1 ih.2 h
    · rw [derSD] at h
      obtain ⟨v, h1, h⟩ := eok_bind h
      have hv := build_in _ _ _ _ _ h1 hq
      obtain ⟨hd, h2, h⟩ := eok_bind h
      obtain ⟨x3, h3, h⟩ := eok_bind h
      obtain ⟨x4, h4, h⟩ := eok_bind h
      obtain ⟨ss, h5, h⟩ := eok_bind h
      cases h
      refine .mk (readSDHead_from h2 hv) (fun s hs => ?_)
      obtain ⟨y, hy, hf⟩ := parseAll_mem h5 s hs
      exact readSI_from (elems_in (req_in hv h3) h4 y hy) ih.1 ih.2 hf

theorem derEnvelope_from {data : Bytes} {t : String} {s : RawSD} (h : derEnvelope data = .ok (t, s)) : RawSDFrom data s := by
  unfold derEnvelope at h
  obtain ⟨⟨p, r⟩, h1, h⟩ := eok_bind h
  exact readContentInfo_from (parse_in h1).1.contents (der_from _ data).2 h

/-! ### Attributes and contents -/

theorem ofContents_setOf_in {t : Ty} {tag : Nat} {data : Bytes} {v : Val} (h : (Ty.setOf t).ofContents tag data = .ok v) :
    v.In data := build_setOf_in h

theorem derAttrs_from {data : Bytes} {l : List RawAttr} (h : derAttrs data = .ok l) :
    ∀ a ∈ l, a.type = "message_digest" → ∀ b, .octets b ∈ a.values → b <:+: data := by
  unfold derAttrs at h
  obtain ⟨v, h1, h⟩ := eok_bind h
  obtain ⟨es, h2, h⟩ := eok_bind h
  intro a ha ht b hb
  obtain ⟨x, hx, hf⟩ := parseAll_mem h a ha
  have hin := elems_in (ofContents_setOf_in h1) h2 x hx
  unfold readAttr at hf
  obtain ⟨x1, k1, hf⟩ := eok_bind hf
  obtain ⟨x2, k2, hf⟩ := eok_bind hf
  obtain ⟨x3, k3, hf⟩ := eok_bind hf
  obtain ⟨x4, k4, hf⟩ := eok_bind hf
  obtain ⟨vs, k5, hf⟩ := eok_bind hf
  cases hf
  simp only at ht hb
  obtain ⟨y, hy, hg⟩ := parseAll_mem k5 _ hb
  obtain ⟨p, k6, hg⟩ := eok_bind hg
  have hp := parts_in (elems_in (req_in hin k3) k4 y hy) k6
  rw [ht] at hg
  unfold readAttrValue at hg
  rw [if_neg (by decide), if_pos rfl] at hg
  obtain ⟨z, k7, hg⟩ := eok_bind hg
  obtain ⟨b', k8, hg⟩ := eok_bind hg
  cases hg
  exact octets_in (build_in _ _ _ _ _ k7 hp) k8

theorem loadWrapped_in {fs : List Field} {w : Bool} {data : Bytes} {v : Val} (h : loadWrapped (.seq fs) w data = .ok v) :
    v.In data := by
  unfold loadWrapped at h
  split at h
  · exact load_in h
  · exact build_seq_in h

theorem derSpc_from {w : Bool} {data : Bytes} {r : RawSpc} (h : derSpc w data = .ok r) : r.digest <:+: data := by
  unfold derSpc at h
  obtain ⟨v, h1, h⟩ := eok_bind h
  have hv := loadWrapped_in h1
  unfold readSpc at h
  obtain ⟨x1, k1, h⟩ := eok_bind h
  obtain ⟨x2, k2, h⟩ := eok_bind h
  obtain ⟨x3, k3, h⟩ := eok_bind h
  simp only at h
  obtain ⟨x4, k4, h⟩ := eok_bind h
  obtain ⟨x5, k5, h⟩ := eok_bind h
  obtain ⟨x6, k6, h⟩ := eok_bind h
  obtain ⟨x7, k7, h⟩ := eok_bind h
  obtain ⟨x8, k8, h⟩ := eok_bind h
  obtain ⟨x9, k9, h⟩ := eok_bind h
  obtain ⟨x10, k10, h⟩ := eok_bind h
  cases h
  exact octets_in (req_in (req_in hv k6) k9) k10

theorem derTst_from {w : Bool} {data : Bytes} {r : RawTst} (h : derTst w data = .ok r) : r.hashed <:+: data := by
  unfold derTst at h
  split at h
  · obtain ⟨v, h1, h⟩ := eok_bind h
    have hv := load_in h1
    unfold readTst at h
    obtain ⟨x1, k1, h⟩ := eok_bind h
    obtain ⟨x2, k2, h⟩ := eok_bind h
    obtain ⟨x3, k3, h⟩ := eok_bind h
    obtain ⟨x4, k4, h⟩ := eok_bind h
    obtain ⟨x5, k5, h⟩ := eok_bind h
    obtain ⟨x6, k6, h⟩ := eok_bind h
    obtain ⟨x7, k7, h⟩ := eok_bind h
    obtain ⟨x8, k8, h⟩ := eok_bind h
    obtain ⟨x9, k9, h⟩ := eok_bind h
    repeat (obtain ⟨_, _, h⟩ := eok_bind h)
    cases h
    exact octets_in (req_in (req_in hv k5) k8) k9
  · cases h

theorem load_seq_starts {fs : List Field} {data : Bytes} {v : Val} (h : (Ty.seq fs).load data = .ok v) : StartsSequence data := by
  obtain ⟨⟨p, r⟩, h1, h⟩ := eok_bind h
  simp only at h
  rw [Ty.build] at h
  obtain ⟨_, hc, -⟩ := eok_bind h
  unfold parse at h1
  obtain ⟨⟨b, t, l, rest⟩, hh, h1⟩ := eok_bind h1
  have hp : p.cls = b.toNat / 64 ∧ p.constructed = decide (b.toNat / 32 % 2 = 1) ∧ p.tag = t := by
    simp only at h1
    split at h1
    · split at h1
      · cases h1
      · cases h1; exact ⟨rfl, rfl, rfl⟩
    · split at h1
      · cases h1
      · obtain ⟨_, _, h1⟩ := eok_bind h1
        cases h1; exact ⟨rfl, rfl, rfl⟩
  obtain ⟨p1, p2, p3⟩ := hp
  unfold readHeader at hh
  split at hh
  · cases hh
  · rename_i b' rest'
    obtain ⟨⟨t', r'⟩, ht, hh⟩ := eok_bind hh
    obtain ⟨_, _, hh⟩ := eok_bind hh
    cases hh
    unfold checkId at hc
    simp only at hc
    have h16 : t = 16 ∧ b.toNat / 64 = 0 ∧ b.toNat / 32 % 2 = 1 := by
      split at hc
      · cases hc
      · split at hc
        · cases hc
        · split at hc
          · cases hc
          · rename_i g1 g2 g3
            rw [p1] at g1; rw [p2] at g2; rw [p3] at g3
            simp only [ne_eq, Decidable.not_not, decide_eq_true_eq] at g1 g2 g3
            exact ⟨g3, g1, g2⟩
    unfold readTag at ht
    have hb : b.toNat = 0x30 := by
      split at ht
      · split at ht
        · cases ht
        · split at ht
          · cases ht
          · cases ht; omega
      · injection ht with ht; injection ht with ht _
        omega
    have : b = 0x30 := UInt8.toNat_inj.1 hb
    subst this
    rfl

theorem derTst_starts {w : Bool} {data : Bytes} {r : RawTst} (h : derTst w data = .ok r) : StartsSequence data := by
  unfold derTst at h
  split at h
  · obtain ⟨v, h1, h⟩ := eok_bind h
    exact load_seq_starts h1
  · cases h

/-! ### What is parsed -/

theorem lastAttr_mem {l : List RawAttr} {t : String} {a : RawAttr} (h : lastAttr l t = some a) : a ∈ l ∧ a.type = t := by
  unfold lastAttr at h
  have h1 := List.mem_of_find?_eq_some h
  have h2 := List.find?_some h
  exact ⟨List.mem_reverse.1 h1, of_decide_eq_true h2⟩

theorem attrValues_from {data : Bytes} {us : List RawUAttr} (hu : ∀ u ∈ us, RawUAttrFrom data u) {t : String} {vs : List RawUVal}
    (h : AttrValues us t vs) : ∀ v ∈ vs, RawUValFrom data v := by
  obtain ⟨a, h1, rfl⟩ := h
  unfold lastUAttr at h1
  have := hu a (List.mem_reverse.1 (List.mem_of_find?_eq_some h1))
  cases this with
  | mk h => exact h

theorem signer_from {data : Bytes} {req : List String} {ex : Option String} {h : SIHead} {attrs : List RawAttr} {s : Signer}
    (hr : ReadsSigner derCodec req ex h attrs s) (hf : HeadFrom data h) : SignerFrom data s := by
  refine ⟨?_, hr.signature ▸ hf.signature⟩
  refine ⟨h.signedAttrs.getD [], ?_, hr.encoded, fun d hd => ?_⟩
  · cases hs : h.signedAttrs with
    | none => exact ⟨[], data, rfl⟩
    | some b => exact hf.attrs b hs
  · have hm := hr.messageDigest
    unfold ReadsAttr at hm
    split at hm
    · rw [hm] at hd; cases hd
    · rename_i a ha
      obtain ⟨y, hy, he⟩ := hm
      rw [he] at hd
      cases hd
      obtain ⟨hm, ht⟩ := lastAttr_mem ha
      rcases hr.decoded with ⟨-, e⟩ | ⟨b, e, hb⟩
      · subst e; cases hm
      · rw [e]
        exact derAttrs_from hb a hm ht d (by rw [hy]; exact List.mem_singleton.2 rfl)

theorem core_from {data : Bytes} {t : String} {h : SDHead} {c : SDCore} (hr : ReadsCore t h c) (hf : SDFrom data h) :
    CoreFrom data c := by
  refine ⟨hf.content _ hr.content, fun x hx => ?_⟩
  rw [hr.certificates] at hx
  obtain ⟨rc, hrc, rfl⟩ := List.mem_map.1 hx
  obtain ⟨hm, hc⟩ := List.mem_filter.1 hrc
  exact hf.certs rc hm (of_decide_eq_true hc)

theorem counter_from {data : Bytes} {si : RawSI} {c : CounterInfo} (hr : ReadsCounter derCodec si c) (hf : RawSIFrom data si) :
    CounterFrom data c := by
  induction hr with
  | last hs hc =>
    cases hf with
    | mk h1 h2 => exact .last (signer_from hs h1)
  | more hs hc hn ih =>
    cases hf with
    | mk h1 h2 =>
      refine .more (signer_from hs h1) (ih ?_)
      have := attrValues_from h2 hc _ (List.mem_singleton.2 rfl)
      cases this
      assumption

theorem rfc_from {data : Bytes} {sd : RawSD} {r : Rfc3161} (hr : ReadsRfc derCodec sd r) (hf : RawSDFrom data sd) :
    CounterSignerFrom data (.rfc3161 r) := by
  cases hf with
  | mk h1 h2 =>
    obtain ⟨raw, e, ht⟩ := hr.tst
    obtain ⟨si, attrs, hs, -, hg⟩ := hr.signer
    refine .rfc3161 (core_from hr.core h1) (ht.digest ▸ derTst_from e) (derTst_starts e) ?_
    have h3 := h2 si (by simp only [RawSD.signers] at hs; rw [hs]; exact List.mem_singleton.2 rfl)
    cases h3 with
    | mk h4 h5 => exact signer_from hg h4

theorem counterSigner_from {data : Bytes} {us : List RawUAttr} {c : Option CounterSigner} (hr : ReadsCounterSigner derCodec us c)
    (hu : ∀ u ∈ us, RawUAttrFrom data u) : ∀ x, c = some x → CounterSignerFrom data x := by
  intro x hx
  cases hr with
  | none => cases hx
  | pkcs9 h1 h2 hr =>
    cases hx
    have := attrValues_from hu h1 _ (List.mem_singleton.2 rfl)
    cases this with
    | signerInfo h => exact .pkcs9 (counter_from hr h)
  | rfc3161 h1 h2 hr =>
    cases hx
    have := attrValues_from hu h2 _ (List.mem_singleton.2 rfl)
    cases this with
    | contentInfo h => exact rfc_from hr h

theorem signature_from {data : Bytes} {sd : RawSD} {a : ASD} (hr : ReadsASD derCodec sd a) (hf : RawSDFrom data sd) :
    SignatureFrom data a := by
  induction hr with
  | @mk sd d nested si attrs spc sds core noCrls content hspc one signer statement opus counter nestedIn all rec ih =>
    cases hf with
    | mk h1 h2 =>
      have h3 := h2 si (by simp only [RawSD.signers] at one; rw [one]; exact List.mem_singleton.2 rfl)
      cases h3 with
      | mk h4 h5 =>
        refine .mk (core_from core h1) (hspc.digest ▸ derSpc_from content) (signer_from signer h4) (counterSigner_from counter h5)
          (fun x hx => ?_)
        obtain ⟨i, hi⟩ := List.getElem?_of_mem hx
        obtain ⟨hlt, -⟩ := List.getElem?_eq_some_iff.1 hi
        obtain ⟨y, hy⟩ : ∃ y, sds[i]? = some y := ⟨sds[i]'(by omega), List.getElem?_eq_getElem (by omega)⟩
        refine ih i y x hy hi ?_
        have hm := List.mem_of_getElem? hy
        rcases nestedIn with ⟨-, e⟩ | hv
        · subst e; cases hm
        · have := attrValues_from h5 hv _ (List.mem_map.2 ⟨y, hm, rfl⟩)
          cases this
          assumption

theorem fromEnvelope_from {data : Bytes} {a : ASD} (h : fromEnvelope derCodec data = .ok a) : SignatureFrom data a := by
  unfold fromEnvelope at h
  obtain ⟨⟨t, sd⟩, h1, h⟩ := eok_bind h
  simp only at h
  split at h
  · cases h
  · exact signature_from (parseASD_ok.1 h) (derEnvelope_from h1)

theorem SignerFrom.mono {data data' : Bytes} {s : Signer} (h : SignerFrom data s) (hd : data <:+: data') : SignerFrom data' s := by
  obtain ⟨⟨b, h1, h2⟩, h3⟩ := h
  exact ⟨⟨b, h1.trans hd, h2⟩, h3.trans hd⟩

theorem CoreFrom.mono {data data' : Bytes} {s : SDCore} (h : CoreFrom data s) (hd : data <:+: data') : CoreFrom data' s :=
  ⟨h.content.trans hd, fun x hx => ⟨(h.certificates x hx).1.trans hd, (h.certificates x hx).2⟩⟩

theorem CounterFrom.mono {data data' : Bytes} {c : CounterInfo} (h : CounterFrom data c) (hd : data <:+: data') : CounterFrom data' c := by
  induction h with
  | last h => exact .last (SignerFrom.mono h hd)
  | more h _ ih => exact .more (SignerFrom.mono h hd) ih

theorem CounterSignerFrom.mono {data data' : Bytes} {c : CounterSigner} (h : CounterSignerFrom data c) (hd : data <:+: data') :
    CounterSignerFrom data' c := by
  cases h with
  | pkcs9 h => exact .pkcs9 (CounterFrom.mono h hd)
  | rfc3161 h1 h2 h3 h4 => exact .rfc3161 (CoreFrom.mono h1 hd) h2 h3 (SignerFrom.mono h4 hd)

theorem SignatureFrom.mono {data data' : Bytes} {a : ASD} (h : SignatureFrom data a) (hd : data <:+: data') : SignatureFrom data' a := by
  induction h with
  | mk h1 h2 h3 h4 _ ih =>
    exact .mk (CoreFrom.mono h1 hd) h2 (SignerFrom.mono h3 hd) (fun c hc => CounterSignerFrom.mono (h4 c hc) hd) ih

end Signify.Asn1
