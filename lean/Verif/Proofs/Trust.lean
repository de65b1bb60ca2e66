import Verif.Proofs.Chains
import Verif.Proofs.Names

set_option autoImplicit false

namespace Signify

open Spec

/-! ### CTL entries -/

theorem anyOf_iff {req l : List String} : anyOf req l = true ↔ ∃ e ∈ req, e ∈ l := by
  simp [anyOf, List.any_eq_true]

theorem notAll_iff {req l : List String} : notAll req l = true ↔ ¬ ∀ e ∈ req, e ∈ l := by
  simp [notAll, List.any_eq_true]

theorem restricted_iff {time : Option Int} {ekus : Option (List String)} {req : List String} {t : Int} :
    restricted time ekus req t = true ↔ Affected time ekus req t := by
  unfold restricted Affected
  cases time with
  | none =>
    cases ekus with
    | none => simp
    | some l => simp [anyOf_iff]
  | some x =>
    simp only
    split
    · rename_i hx
      cases ekus with
      | none => simp; omega
      | some l =>
        simp only [anyOf_iff]
        constructor
        · intro h
          refine ⟨.inl (by simp), ?_, ?_⟩
          · rintro y hy; cases hy; exact hx
          · rintro l' hl'; cases hl'; exact h
        · rintro ⟨-, -, h⟩
          exact h l rfl
    · rename_i hx
      simp only [Bool.false_eq_true, false_iff]
      rintro ⟨-, h, -⟩
      exact hx (h x rfl)

theorem ekusBad_iff {s : CtlSubject} {req : List String} :
    s.ekusBad req = true ↔ ¬ ∀ l, s.ekus = some l → l ≠ [] → ∀ e ∈ req, e ∈ l := by
  unfold CtlSubject.ekusBad
  rcases h : s.ekus with _ | ⟨_ | ⟨x, l⟩⟩
  · simp
  · simp
  · simp only [notAll_iff]
    constructor
    · intro h1 h2
      exact h1 (h2 _ rfl (by simp))
    · intro h1 h2
      refine h1 ?_
      rintro l' hl' -
      cases hl'
      exact h2

theorem subjectVerify_cases (s : CtlSubject) (chain : List Cert) (leaf : Cert) (hl : chain.getLast? = some leaf)
    (req : List String) (t : Int) :
    (s.verifyTrust chain req t = .ok () ∧ Allows s req leaf.validFrom t) ∨
    ((∃ m, s.verifyTrust chain req t = .error ⟨.ctlCertificateVerificationError, m⟩) ∧ ¬ Allows s req leaf.validFrom t) := by
  unfold CtlSubject.verifyTrust
  rw [hl]
  by_cases h1 : s.ekusBad req = true
  · rw [if_pos h1]
    exact .inr ⟨⟨_, rfl⟩, fun h => ekusBad_iff.mp h1 h.within⟩
  · rw [if_neg h1]
    have h1' : ∀ l, s.ekus = some l → l ≠ [] → ∀ e ∈ req, e ∈ l := by
      have := mt ekusBad_iff.mpr h1
      exact Classical.not_not.mp this
    simp only
    by_cases h2 : restricted s.notBeforeTime s.notBeforeEkus req leaf.validFrom = true
    · rw [if_pos h2]
      exact .inr ⟨⟨_, rfl⟩, fun h => h.notBefore (restricted_iff.mp h2)⟩
    · rw [if_neg h2]
      by_cases h3 : restricted s.disallowedTime s.disallowedEkus req t = true
      · rw [if_pos h3]
        exact .inr ⟨⟨_, rfl⟩, fun h => h.allowed (restricted_iff.mp h3)⟩
      · rw [if_neg h3]
        exact .inl ⟨rfl, h1', fun h => h2 (restricted_iff.mpr h), fun h => h3 (restricted_iff.mpr h)⟩

/-! ### iterables -/

/-- Not a one-shot iterator. -/
def Reiterable (p : PyIter) : Prop := p.consumed = p

/-- The state after the EKUs of a context have been iterated. -/
def exhaustEkus (w : World) (cid : Nat) : World :=
  { w with ctxs := fun j => if j = cid then { w.ctxs cid with ekus := (w.ctxs cid).ekus.consumed } else w.ctxs j }

/-- The state after the key usages of a context have been iterated. -/
def exhaustKus (w : World) (cid : Nat) : World :=
  { w with ctxs := fun j => if j = cid then { w.ctxs cid with keyUsages := (w.ctxs cid).keyUsages.consumed } else w.ctxs j }

theorem exhaustEkus_of {w : World} {cid : Nat} (h : Reiterable (w.ctxs cid).ekus) : exhaustEkus w cid = w := by
  unfold exhaustEkus
  rw [h]
  obtain ⟨s, c, n⟩ := w
  congr 1
  funext j
  simp only
  split
  · rename_i hj; subst hj; rfl
  · rfl

theorem exhaustKus_of {w : World} {cid : Nat} (h : Reiterable (w.ctxs cid).keyUsages) : exhaustKus w cid = w := by
  unfold exhaustKus
  rw [h]
  obtain ⟨s, c, n⟩ := w
  congr 1
  funext j
  simp only
  split
  · rename_i hj; subst hj; rfl
  · rfl

theorem not_truthy {p : PyIter} (h : ¬ p.truthy = true) : p.elems = [] ∧ Reiterable p := by
  cases p with
  | none => exact ⟨rfl, rfl⟩
  | list l => cases l with
    | nil => exact ⟨rfl, rfl⟩
    | cons x l => simp [PyIter.truthy] at h
  | gen l => simp [PyIter.truthy] at h

theorem takeEkus_run (cid : Nat) (w : World) : takeEkus cid w = (.ok (w.ctxs cid).ekus.elems, exhaustEkus w cid) := by
  unfold takeEkus
  rw [M.getCtx_bind]
  split
  · rfl
  · rename_i h
    obtain ⟨h1, h2⟩ := not_truthy h
    rw [h1, exhaustEkus_of h2]
    rfl

theorem takeKeyUsages_run (cid : Nat) (w : World) :
    takeKeyUsages cid w = (.ok (w.ctxs cid).keyUsages.elems, exhaustKus w cid) := by
  unfold takeKeyUsages
  rw [M.getCtx_bind]
  split
  · rfl
  · rename_i h
    obtain ⟨h1, h2⟩ := not_truthy h
    rw [h1, exhaustKus_of h2]
    rfl

/-! ### trust -/

/-- The EKUs requested by a context and the time it verifies at. -/
def reqEkus (w : World) (cid : Nat) : List String := (w.ctxs cid).ekus.elems
def reqTime (env : Env) (w : World) (cid : Nat) : Int := (w.ctxs cid).timestamp.getD env.now

/-- Raising an exception that names a certificate. -/
theorem raiseNaming_cases {α : Type} (c : Cert) (e : Exc) :
    (Textual c.subject ∧ (raiseNaming c e : Except Exc α) = .error e) ∨
    (¬ Textual c.subject ∧ ∃ m, (raiseNaming c e : Except Exc α) = .error ⟨.typeError, m⟩) := by
  by_cases ht : Textual c.subject
  · obtain ⟨t, h⟩ := reading_of_textual ht
    refine .inl ⟨ht, ?_⟩
    unfold raiseNaming
    rw [dn_of_reading h]
    rfl
  · refine .inr ⟨ht, ?_⟩
    cases hd : c.subject.dn with
    | ok d =>
      obtain ⟨t, h, -⟩ := dn_ok hd
      exact absurd (textual_of_reading h) ht
    | error e' =>
      have h := dn_error hd
      refine ⟨e'.msg, ?_⟩
      unfold raiseNaming
      rw [hd, ← h]
      rfl

theorem raiseNaming_textual {α : Type} {c : Cert} (h : Textual c.subject) (e : Exc) : (raiseNaming c e : Except Exc α) = .error e := by
  rcases raiseNaming_cases (α := α) c e with ⟨-, h'⟩ | ⟨h', -⟩
  · exact h'
  · exact absurd h h'

theorem raiseNaming_ne_ok {α : Type} (c : Cert) (e : Exc) (a : α) : (raiseNaming c e : Except Exc α) ≠ .ok a := by
  rcases raiseNaming_cases (α := α) c e with ⟨-, h⟩ | ⟨-, m, h⟩ <;> rw [h] <;> exact fun h => nomatch h

theorem raiseNaming_error {α : Type} {c : Cert} {e e' : Exc} (h : (raiseNaming c e : Except Exc α) = .error e') :
    (Textual c.subject ∧ e' = e) ∨ (¬ Textual c.subject ∧ e'.cls = .typeError) := by
  rcases raiseNaming_cases (α := α) c e with ⟨ht, h'⟩ | ⟨ht, m, h'⟩ <;> rw [h'] at h <;> cases h
  · exact .inl ⟨ht, rfl⟩
  · exact .inr ⟨ht, rfl⟩

/-- The exceptions of `verify_signature`. -/
theorem verifySignature_error {env : Env} {c : Cert} {sig data : Bytes} {alg : String} {legacy : Bool} {e : Exc}
    (h : c.verifySignature env sig data alg legacy = .error e) :
    (Textual c.subject ∧ e.cls = .certificateVerificationError) ∨ (¬ Textual c.subject ∧ e.cls = .typeError) ∨
      env.loadKey c.spki = .error e := by
  unfold Cert.verifySignature at h
  cases hk : env.loadKey c.spki with
  | error e' => rw [hk] at h; cases h; exact .inr (.inr rfl)
  | ok k =>
    rw [hk] at h
    simp only at h
    have key : ∀ msg, (certErr c msg : Except Exc Unit) = .error e → (Textual c.subject ∧ e.cls = .certificateVerificationError) ∨
        (¬ Textual c.subject ∧ e.cls = .typeError) ∨ Except.ok k = Except.error e := by
      intro msg hm
      rcases raiseNaming_error hm with ⟨h1, h2⟩ | h1
      · exact .inl ⟨h1, by rw [h2]⟩
      · exact .inr (.inl h1)
    split at h
    · split at h
      · cases h
      · split at h
        · exact key _ h
        · split at h
          · cases h
          · exact key _ h
    · exact key _ h

/-- The outcome of `CertificateTrustList.verify_trust`. -/
theorem ctlVerifyTrust_cases (env : Env) (cid : Nat) (ctl : CTL) (chain : List Cert) (hne : chain ≠ []) (w : World) :
    (Accepts env ctl chain (reqEkus w cid) (reqTime env w cid) ∧
      ctlVerifyTrust env cid ctl chain w = (.ok (), exhaustEkus w cid)) ∨
    (¬ Accepts env ctl chain (reqEkus w cid) (reqTime env w cid) ∧ (ctl.algorithm = "sha1" ∨ ctl.algorithm = "sha256") ∧
      (∀ root, chain.head? = some root → ctl.subjects.get? (hexOf (env.hash ctl.algorithm root.der)) = none → Textual root.subject) ∧
      ∃ m w', (w' = w ∨ w' = exhaustEkus w cid) ∧
        ctlVerifyTrust env cid ctl chain w = (.error ⟨.ctlCertificateVerificationError, m⟩, w')) ∨
    (¬ Accepts env ctl chain (reqEkus w cid) (reqTime env w cid) ∧ ¬ (ctl.algorithm = "sha1" ∨ ctl.algorithm = "sha256") ∧
      ∃ m, ctlVerifyTrust env cid ctl chain w = (.error ⟨.ctlParseError, m⟩, w)) ∨
    (¬ Accepts env ctl chain (reqEkus w cid) (reqTime env w cid) ∧ (ctl.algorithm = "sha1" ∨ ctl.algorithm = "sha256") ∧
      (∃ root, chain.head? = some root ∧ ¬ Textual root.subject ∧
        ctl.subjects.get? (hexOf (env.hash ctl.algorithm root.der)) = none) ∧
      ∃ m, ctlVerifyTrust env cid ctl chain w = (.error ⟨.typeError, m⟩, w)) := by
  obtain ⟨root, rest, rfl⟩ : ∃ root rest, chain = root :: rest := by
    cases chain with
    | nil => exact absurd rfl hne
    | cons a l => exact ⟨a, l, rfl⟩
  obtain ⟨leaf, hleaf⟩ : ∃ leaf, (root :: rest).getLast? = some leaf := ⟨_, List.getLast?_eq_some_getLast hne⟩
  by_cases halg : ctl.algorithm = "sha1" ∨ ctl.algorithm = "sha256"
  · have hfind : ctl.findSubject env root = .ok (ctl.subjects.get? (hexOf (env.hash ctl.algorithm root.der))) := by
      unfold CTL.findSubject
      rcases halg with h | h
      · rw [if_pos h, h]; rfl
      · rw [if_neg (by rw [h]; decide), if_pos h, h]; rfl
    have hrun : ctlVerifyTrust env cid ctl (root :: rest) w =
        (match ctl.subjects.get? (hexOf (env.hash ctl.algorithm root.der)) with
        | none => (raiseNaming root ⟨.ctlCertificateVerificationError, "The root is not in the certificate trust list"⟩, w)
        | some s => (s.verifyTrust (root :: rest) (reqEkus w cid) (reqTime env w cid), exhaustEkus w cid)) := by
      unfold ctlVerifyTrust
      simp only [List.head?_cons]
      rw [hfind, M.bind_ok (M.lift_run _ w)]
      cases ctl.subjects.get? (hexOf (env.hash ctl.algorithm root.der)) with
      | none => rfl
      | some s =>
        simp only
        rw [M.getCtx_bind, M.bind_ok (takeEkus_run cid w)]
        rfl
    rw [hrun]
    cases hs : ctl.subjects.get? (hexOf (env.hash ctl.algorithm root.der)) with
    | none =>
      have hna : ¬ Accepts env ctl (root :: rest) (reqEkus w cid) (reqTime env w cid) := by
        rintro ⟨-, root', leaf', s, h1, -, h3, -⟩
        cases h1
        rw [hs] at h3
        cases h3
      simp only
      rcases raiseNaming_cases (α := Unit) root ⟨.ctlCertificateVerificationError, "The root is not in the certificate trust list"⟩ with
        ⟨ht, h⟩ | ⟨ht, m, h⟩
      · rw [h]
        exact .inr (.inl ⟨hna, halg, fun root' h1 _ => (by cases h1; exact ht), _, w, .inl rfl, rfl⟩)
      · rw [h]
        exact .inr (.inr (.inr ⟨hna, halg, ⟨root, rfl, ht, hs⟩, m, rfl⟩))
    | some s =>
      rcases subjectVerify_cases s (root :: rest) leaf hleaf (reqEkus w cid) (reqTime env w cid) with ⟨h1, h2⟩ | ⟨⟨m, h1⟩, h2⟩
      · refine .inl ⟨⟨halg, root, leaf, s, rfl, hleaf, hs, h2⟩, ?_⟩
        simp only [h1]
      · refine .inr (.inl ⟨?_, halg, fun root' k1 k2 => (by cases k1; rw [hs] at k2; cases k2), m, _, .inr rfl, by simp only [h1]⟩)
        rintro ⟨-, root', leaf', s', k1, k2, k3, k4⟩
        cases k1
        rw [hleaf] at k2
        cases k2
        rw [hs] at k3
        cases k3
        exact h2 k4
  · refine .inr (.inr (.inl ⟨fun h => halg h.1, halg, "The specified subject algorithm is not yet supported.", ?_⟩))
    have h1 : ¬ ctl.algorithm = "sha1" := fun h => halg (.inl h)
    have h2 : ¬ ctl.algorithm = "sha256" := fun h => halg (.inr h)
    unfold ctlVerifyTrust
    simp only [List.head?_cons]
    unfold CTL.findSubject
    rw [if_neg h1, if_neg h2]
    rfl

theorem storeIsTrusted_iff {w : World} {r : StoreRef} {c : Cert} :
    storeIsTrusted w r c = true ↔ ∃ i, r = .heap i ∧ (w.stores i).trusted = true ∧ ∃ d ∈ (w.stores i).items, SameCert c d := by
  cases r with
  | embedded _ => simp [storeIsTrusted]
  | heap i =>
    simp only [storeIsTrusted, Bool.and_eq_true, certIn_iff]
    constructor
    · rintro ⟨h1, h2⟩; exact ⟨i, rfl, h1, h2⟩
    · rintro ⟨j, h0, h1, h2⟩; cases h0; exact ⟨h1, h2⟩

/-- The outcome of `store.verify_trust`. -/
theorem storeVerifyTrust_cases (env : Env) (cid : Nat) (r : StoreRef) (chain : List Cert) (hne : chain ≠ []) (w : World) :
    (StoreAccepts env w r chain (reqEkus w cid) (reqTime env w cid) ∧
      ∃ w', (w' = w ∨ w' = exhaustEkus w cid) ∧ storeVerifyTrust env cid r chain w = (.ok (), w')) ∨
    (¬ StoreAccepts env w r chain (reqEkus w cid) (reqTime env w cid) ∧ ¬ StoreHasRoot w r chain ∧ ¬ StoreUnnameable env w r chain ∧
      ∃ m, storeVerifyTrust env cid r chain w = (.error ⟨.certificateNotTrusted, m⟩, w)) ∨
    (¬ StoreAccepts env w r chain (reqEkus w cid) (reqTime env w cid) ∧ StoreHasRoot w r chain ∧
      ¬ StoreUnsupported w r chain ∧ ¬ StoreUnnameable env w r chain ∧ ∃ m w', (w' = w ∨ w' = exhaustEkus w cid) ∧
        storeVerifyTrust env cid r chain w = (.error ⟨.ctlCertificateVerificationError, m⟩, w')) ∨
    (¬ StoreAccepts env w r chain (reqEkus w cid) (reqTime env w cid) ∧ StoreUnsupported w r chain ∧ ¬ StoreUnnameable env w r chain ∧
      ∃ m, storeVerifyTrust env cid r chain w = (.error ⟨.ctlParseError, m⟩, w)) ∨
    (¬ StoreAccepts env w r chain (reqEkus w cid) (reqTime env w cid) ∧ ¬ StoreUnsupported w r chain ∧ StoreUnnameable env w r chain ∧
      ∃ m, storeVerifyTrust env cid r chain w = (.error ⟨.typeError, m⟩, w)) := by
  obtain ⟨root, rest, rfl⟩ : ∃ root rest, chain = root :: rest := by
    cases chain with
    | nil => exact absurd rfl hne
    | cons a l => exact ⟨a, l, rfl⟩
  by_cases ht : storeIsTrusted w r root = true
  · obtain ⟨i, rfl, h1, h2⟩ := storeIsTrusted_iff.mp ht
    have hroot : StoreHasRoot w (.heap i) (root :: rest) := ⟨i, root, rfl, h1, rfl, h2⟩
    cases hc : (w.stores i).ctl with
    | none =>
      refine .inl ⟨⟨i, root, rfl, h1, rfl, h2, fun ctl hctl => ?_⟩, w, .inl rfl, ?_⟩
      · rw [hc] at hctl; cases hctl
      · simp [storeVerifyTrust, ht, hc]
    | some ctl =>
      have hrun : storeVerifyTrust env cid (.heap i) (root :: rest) w = ctlVerifyTrust env cid ctl (root :: rest) w := by
        simp [storeVerifyTrust, ht, hc]
      rw [hrun]
      have hna : ¬ Accepts env ctl (root :: rest) (reqEkus w cid) (reqTime env w cid) →
          ¬ StoreAccepts env w (.heap i) (root :: rest) (reqEkus w cid) (reqTime env w cid) := by
        rintro ha ⟨j, root', e1, -, -, -, e5⟩
        cases e1
        exact ha (e5 ctl hc)
      have hns : (ctl.algorithm = "sha1" ∨ ctl.algorithm = "sha256") → ¬ StoreUnsupported w (.heap i) (root :: rest) := by
        rintro halg ⟨-, j, ctl', e1, e2, e3⟩
        cases e1
        rw [hc] at e2; cases e2
        exact e3 halg
      rcases ctlVerifyTrust_cases env cid ctl (root :: rest) hne w with
        ⟨ha, h⟩ | ⟨ha, halg, hl, m, w', hw, h⟩ | ⟨ha, halg, m, h⟩ | ⟨ha, halg, ⟨root', k1, k2, k3⟩, m, h⟩
      · refine .inl ⟨⟨i, root, rfl, h1, rfl, h2, fun ctl' hctl' => ?_⟩, _, .inr rfl, h⟩
        rw [hc] at hctl'; cases hctl'; exact ha
      · refine .inr (.inr (.inl ⟨hna ha, hroot, hns halg, ?_, m, w', hw, h⟩))
        rintro ⟨root', e1, e2, e3 | ⟨j, ctl', e3, -, e4, -, e5⟩⟩
        · exact e3 hroot
        · cases e3
          rw [hc] at e4; cases e4
          exact e2 (hl root' e1 e5)
      · refine .inr (.inr (.inr (.inl ⟨hna ha, ⟨hroot, i, ctl, rfl, hc, halg⟩, ?_, m, h⟩)))
        rintro ⟨root', e1, e2, e3 | ⟨j, ctl', e3, -, e4, e5, -⟩⟩
        · exact e3 hroot
        · cases e3
          rw [hc] at e4; cases e4
          exact halg e5
      · exact .inr (.inr (.inr (.inr ⟨hna ha, hns halg, ⟨root', k1, k2, .inr ⟨i, ctl, rfl, hroot, hc, halg, k3⟩⟩, m, h⟩)))
  · have hnr : ¬ StoreHasRoot w r (root :: rest) := by
      rintro ⟨i, root', e1, e2, e3, e4⟩
      cases e3
      exact ht (storeIsTrusted_iff.mpr ⟨i, e1, e2, e4⟩)
    have hna : ¬ StoreAccepts env w r (root :: rest) (reqEkus w cid) (reqTime env w cid) := by
      rintro ⟨i, root', e1, e2, e3, e4, -⟩
      exact hnr ⟨i, root', e1, e2, e3, e4⟩
    have hrun : storeVerifyTrust env cid r (root :: rest) w =
        (raiseNaming root ⟨.certificateNotTrusted, "not trusted by the store"⟩, w) := by
      simp [storeVerifyTrust, ht]
    rw [hrun]
    rcases raiseNaming_cases (α := Unit) root ⟨.certificateNotTrusted, "not trusted by the store"⟩ with ⟨hx, h⟩ | ⟨hx, m, h⟩
    · rw [h]
      refine .inr (.inl ⟨hna, hnr, ?_, _, rfl⟩)
      rintro ⟨root', e1, e2, -⟩
      cases e1
      exact e2 hx
    · rw [h]
      exact .inr (.inr (.inr (.inr ⟨hna, fun hu => hnr hu.1, ⟨root, rfl, hx, .inl hnr⟩, m, rfl⟩)))

theorem is_notTrusted : Exc.is ⟨.certificateNotTrusted, ""⟩ .certificateNotTrusted = true := by decide

/-- `verify_trust` with re-iterable EKUs and supported CTLs: the state does not change, and it returns iff a store accepts. -/
theorem verifyTrustLoop_reiterable (env : Env) (cid : Nat) (chain : List Cert) (hne : chain ≠ []) (w : World)
    (hr : Reiterable (w.ctxs cid).ekus) (rs : List StoreRef) (exc : Option Exc)
    (hexc : ∀ e, exc = some e → e.cls = .ctlCertificateVerificationError) (hs : ∀ r ∈ rs, ¬ StoreUnsupported w r chain ∧ ¬ StoreUnnameable env w r chain) :
    ((∃ r ∈ rs, StoreAccepts env w r chain (reqEkus w cid) (reqTime env w cid)) ∧
      verifyTrustLoop env cid chain rs exc w = (.ok (), w)) ∨
    ((¬ ∃ r ∈ rs, StoreAccepts env w r chain (reqEkus w cid) (reqTime env w cid)) ∧
      ∃ e, verifyTrustLoop env cid chain rs exc w = (.error e, w) ∧
        (((exc ≠ none ∨ ∃ r ∈ rs, StoreHasRoot w r chain) ∧ e.cls = .ctlCertificateVerificationError) ∨
         ((exc = none ∧ ¬ ∃ r ∈ rs, StoreHasRoot w r chain) ∧ e.cls = .certificateVerificationError))) := by
  have hex : ∀ {w'}, (w' = w ∨ w' = exhaustEkus w cid) → w' = w := by
    rintro w' (h | h)
    · exact h
    · rw [h, exhaustEkus_of hr]
  induction rs generalizing exc with
  | nil =>
    refine .inr ⟨by simp, ?_⟩
    cases exc with
    | none => exact ⟨_, rfl, .inr ⟨⟨rfl, by simp⟩, rfl⟩⟩
    | some e => exact ⟨e, rfl, .inl ⟨.inl (by simp), hexc e rfl⟩⟩
  | cons r rs ih =>
    have hs' : ∀ r ∈ rs, ¬ StoreUnsupported w r chain ∧ ¬ StoreUnnameable env w r chain := fun r' hr' => hs r' (List.mem_cons_of_mem _ hr')
    have hrun : verifyTrustLoop env cid chain (r :: rs) exc w =
        (match storeVerifyTrust env cid r chain w with
        | (.ok (), w') => (.ok (), w')
        | (.error e, w') =>
          if e.is .certificateNotTrusted then verifyTrustLoop env cid chain rs exc w'
          else if e.is .verificationError then verifyTrustLoop env cid chain rs (some e) w'
          else (.error e, w')) := rfl
    rw [hrun]
    rcases storeVerifyTrust_cases env cid r chain hne w with ⟨ha, w', hw, h⟩ | ⟨ha, hroot, -, m, h⟩ | ⟨ha, hroot, -, -, m, w', hw, h⟩ | ⟨-, hu, -⟩ | ⟨-, -, hu, -⟩
    · rw [h, hex hw]
      exact .inl ⟨⟨r, by simp, ha⟩, rfl⟩
    · rw [h]
      have : Exc.is ⟨.certificateNotTrusted, m⟩ .certificateNotTrusted = true := by simp [Exc.is]; decide
      simp only [this, if_true]
      rcases ih exc hexc hs' with ⟨⟨r', hr', h1⟩, h2⟩ | ⟨h1, e, h2, h3⟩
      · exact .inl ⟨⟨r', List.mem_cons_of_mem _ hr', h1⟩, h2⟩
      · refine .inr ⟨?_, e, h2, ?_⟩
        · rintro ⟨r', hr', h'⟩
          rcases List.mem_cons.mp hr' with rfl | hr'
          · exact ha h'
          · exact h1 ⟨r', hr', h'⟩
        · rcases h3 with ⟨h3 | ⟨r', hr', h'⟩, h4⟩ | ⟨⟨h3, h4⟩, h5⟩
          · exact .inl ⟨.inl h3, h4⟩
          · exact .inl ⟨.inr ⟨r', List.mem_cons_of_mem _ hr', h'⟩, h4⟩
          · refine .inr ⟨⟨h3, ?_⟩, h5⟩
            rintro ⟨r', hr', h'⟩
            rcases List.mem_cons.mp hr' with rfl | hr'
            · exact hroot h'
            · exact h4 ⟨r', hr', h'⟩
    · rw [h, hex hw]
      have h1 : Exc.is ⟨.ctlCertificateVerificationError, m⟩ .certificateNotTrusted = false := by simp [Exc.is]; decide
      have h2 : Exc.is ⟨.ctlCertificateVerificationError, m⟩ .verificationError = true := by simp [Exc.is]; decide
      simp only [h1, h2, if_true, Bool.false_eq_true, if_false]
      rcases ih (some ⟨.ctlCertificateVerificationError, m⟩) (by rintro e he; cases he; rfl) hs' with ⟨⟨r', hr', h1⟩, h2⟩ | ⟨h1, e, h2, h3⟩
      · exact .inl ⟨⟨r', List.mem_cons_of_mem _ hr', h1⟩, h2⟩
      · refine .inr ⟨?_, e, h2, ?_⟩
        · rintro ⟨r', hr', h'⟩
          rcases List.mem_cons.mp hr' with rfl | hr'
          · exact ha h'
          · exact h1 ⟨r', hr', h'⟩
        · rcases h3 with ⟨-, h4⟩ | ⟨⟨h3, -⟩, -⟩
          · exact .inl ⟨.inr ⟨r, by simp, hroot⟩, h4⟩
          · cases h3
    · exact absurd hu (hs r (by simp)).1
    · exact absurd hu (hs r (by simp)).2

/-- Whatever the iterables and CTLs, the root of an accepted chain is in a trusted store. -/
theorem verifyTrustLoop_sound (env : Env) (cid : Nat) (chain : List Cert) (rs : List StoreRef) (exc : Option Exc) (w w' : World)
    (h : verifyTrustLoop env cid chain rs exc w = (.ok (), w')) :
    w'.stores = w.stores ∧ ∃ r ∈ rs, StoreHasRoot w r chain := by
  induction rs generalizing exc w with
  | nil => cases exc <;> simp [verifyTrustLoop, M.raise] at h
  | cons r rs ih =>
    have hrun : verifyTrustLoop env cid chain (r :: rs) exc w =
        (match storeVerifyTrust env cid r chain w with
        | (.ok (), w') => (.ok (), w')
        | (.error e, w') =>
          if e.is .certificateNotTrusted then verifyTrustLoop env cid chain rs exc w'
          else if e.is .verificationError then verifyTrustLoop env cid chain rs (some e) w'
          else (.error e, w')) := rfl
    rw [hrun] at h
    have hst : ∀ {w1}, (w1 = w ∨ w1 = exhaustEkus w cid) → w1.stores = w.stores := by
      rintro w1 (h | h) <;> rw [h]
      rfl
    have hcongr : ∀ {w1 : World}, w1.stores = w.stores → (∃ r ∈ rs, StoreHasRoot w1 r chain) → ∃ r' ∈ r :: rs, StoreHasRoot w r' chain := by
      rintro w1 hw ⟨r', hr', i, root, e1, e2, e3, e4⟩
      rw [hw] at e2 e4
      exact ⟨r', List.mem_cons_of_mem _ hr', i, root, e1, e2, e3, e4⟩
    by_cases hne : chain = []
    · subst hne
      have : storeVerifyTrust env cid r [] w = (.error ⟨.indexError, "list index out of range"⟩, w) := rfl
      rw [this] at h
      have h1 : Exc.is ⟨.indexError, "list index out of range"⟩ .certificateNotTrusted = false := by decide
      have h2 : Exc.is ⟨.indexError, "list index out of range"⟩ .verificationError = false := by decide
      simp [h1, h2] at h
    · rcases storeVerifyTrust_cases env cid r chain hne w with 
        ⟨ha, w1, hw, h1⟩ | ⟨-, -, -, m, h1⟩ | ⟨-, -, -, -, m, w1, hw, h1⟩ | ⟨-, -, -, m, h1⟩ | ⟨-, -, -, m, h1⟩
      · rw [h1] at h
        cases h
        obtain ⟨i, root, e1, e2, e3, e4, -⟩ := ha
        exact ⟨hst hw, r, by simp, i, root, e1, e2, e3, e4⟩
      · rw [h1] at h
        have : Exc.is ⟨.certificateNotTrusted, m⟩ .certificateNotTrusted = true := by simp [Exc.is]; decide
        simp only [this, if_true] at h
        obtain ⟨k1, k2⟩ := ih exc w h
        exact ⟨k1, hcongr rfl k2⟩
      · rw [h1] at h
        have g1 : Exc.is ⟨.ctlCertificateVerificationError, m⟩ .certificateNotTrusted = false := by simp [Exc.is]; decide
        have g2 : Exc.is ⟨.ctlCertificateVerificationError, m⟩ .verificationError = true := by simp [Exc.is]; decide
        simp only [g1, g2, if_true, Bool.false_eq_true, if_false] at h
        obtain ⟨k1, k2⟩ := ih _ w1 h
        exact ⟨k1.trans (hst hw), hcongr (hst hw) k2⟩
      · rw [h1] at h
        have g1 : Exc.is ⟨.ctlParseError, m⟩ .certificateNotTrusted = false := by simp [Exc.is]; decide
        have g2 : Exc.is ⟨.ctlParseError, m⟩ .verificationError = false := by simp [Exc.is]; decide
        simp [g1, g2] at h
      · rw [h1] at h
        have g1 : Exc.is ⟨.typeError, m⟩ .certificateNotTrusted = false := by simp [Exc.is]; decide
        have g2 : Exc.is ⟨.typeError, m⟩ .verificationError = false := by simp [Exc.is]; decide
        simp [g1, g2] at h

end Signify
