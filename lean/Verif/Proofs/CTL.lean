/-
Lemmas about parsing of trust lists, and what an accepting store has checked.
-/
import Verif.Proofs.Loading

set_option autoImplicit false

namespace Signify

open Spec

theorem parseSubject_identifier {r : RawSubject} {s : CtlSubject} (h : parseSubject r = .ok s) : s.identifier = r.identifier := by
  unfold parseSubject at h
  split at h
  · cases h
  · cases h; rfl

theorem parseSubjects_get (raws : List RawSubject) (d0 d : Dict String CtlSubject) (h : parseSubjects raws d0 = .ok d) (i : Bytes)
    (s : CtlSubject) :
    d.get? (hexOf i) = some s ↔
      (∃ pre r post, raws = pre ++ r :: post ∧ r.identifier = i ∧ (∀ x ∈ post, x.identifier ≠ i) ∧ parseSubject r = .ok s) ∨
      ((∀ x ∈ raws, x.identifier ≠ i) ∧ d0.get? (hexOf i) = some s) := by
  induction raws generalizing d0 with
  | nil =>
    cases h
    simp
  | cons r l ih =>
    unfold parseSubjects at h
    cases hr : parseSubject r with
    | error e => rw [hr] at h; cases h
    | ok s0 =>
      rw [hr] at h
      simp only at h
      rw [ih _ h, Dict.get?_set, parseSubject_identifier hr]
      constructor
      · rintro (⟨pre, r', post, rfl, h1, h2, h3⟩ | ⟨h1, h2⟩)
        · exact .inl ⟨r :: pre, r', post, rfl, h1, h2, h3⟩
        · split at h2
          · rename_i hk
            cases h2
            exact .inl ⟨[], r, l, rfl, (hexOf_inj hk).symm, h1, hr⟩
          · rename_i hk
            refine .inr ⟨?_, h2⟩
            intro x hx
            rcases List.mem_cons.mp hx with rfl | hx
            · intro hc; exact hk (by rw [hc])
            · exact h1 x hx
      · rintro (⟨pre, r', post, he, h1, h2, h3⟩ | ⟨h1, h2⟩)
        · cases pre with
          | nil =>
            obtain ⟨rfl, rfl⟩ := List.cons.inj he
            refine .inr ⟨h2, ?_⟩
            rw [hr] at h3
            cases h3
            rw [if_pos (by rw [h1])]
          | cons a pre =>
            obtain ⟨rfl, rfl⟩ := List.cons.inj he
            exact .inl ⟨pre, r', post, rfl, h1, h2, h3⟩
        · refine .inr ⟨fun x hx => h1 x (List.mem_cons_of_mem _ hx), ?_⟩
          rw [if_neg (fun hk => h1 r (by simp) (hexOf_inj hk).symm)]
          exact h2

theorem nativeAll_head {v : CtlVal} {vs : List CtlRaw} {l : List CtlVal} (h : nativeAll vs = .ok (v :: l)) :
    ∃ r rest, vs = r :: rest ∧ r.native = .ok v := by
  cases vs with
  | nil => cases h
  | cons r rest =>
    refine ⟨r, rest, rfl, ?_⟩
    unfold nativeAll at h
    cases hr : r.native with
    | error e => rw [hr] at h; cases h
    | ok x =>
      rw [hr] at h
      simp only at h
      split at h
      · cases h
      · cases h; rfl

theorem subjectAttributes_get (attrs : List (String × List CtlRaw)) (d0 d : Dict String CtlVal)
    (h : subjectAttributes attrs d0 = .ok d) (t : String) (v : CtlVal) :
    d.get? t = some v ↔
      (∃ pre raw rest post, attrs = pre ++ (t, raw :: rest) :: post ∧ (∀ x ∈ post, x.1 ≠ t) ∧ raw.native = .ok v) ∨
      ((∀ x ∈ attrs, x.1 ≠ t) ∧ d0.get? t = some v) := by
  induction attrs generalizing d0 with
  | nil => cases h; simp
  | cons a l ih =>
    obtain ⟨t0, vs⟩ := a
    unfold subjectAttributes at h
    rcases hn : nativeAll vs with e | ⟨_ | ⟨v0, vl⟩⟩
    · rw [hn] at h; cases h
    · rw [hn] at h; cases h
    · rw [hn] at h
      simp only at h
      obtain ⟨raw, rest, rfl, hraw⟩ := nativeAll_head hn
      rw [ih _ h, Dict.get?_set]
      constructor
      · rintro (⟨pre, raw', rest', post, rfl, h1, h2⟩ | ⟨h1, h2⟩)
        · exact .inl ⟨_ :: pre, raw', rest', post, rfl, h1, h2⟩
        · split at h2
          · rename_i hk
            cases h2
            subst hk
            exact .inl ⟨[], raw, rest, l, rfl, h1, hraw⟩
          · rename_i hk
            refine .inr ⟨?_, h2⟩
            intro x hx
            rcases List.mem_cons.mp hx with rfl | hx
            · exact fun hc => hk hc.symm
            · exact h1 x hx
      · rintro (⟨pre, raw', rest', post, he, h1, h2⟩ | ⟨h1, h2⟩)
        · cases pre with
          | nil =>
            obtain ⟨e1, rfl⟩ := List.cons.inj he
            cases e1
            refine .inr ⟨h1, ?_⟩
            rw [hraw] at h2
            cases h2
            rw [if_pos rfl]
          | cons b pre =>
            obtain ⟨rfl, rfl⟩ := List.cons.inj he
            exact .inl ⟨pre, raw', rest', post, rfl, h1, h2⟩
        · refine .inr ⟨fun x hx => h1 x (List.mem_cons_of_mem _ hx), ?_⟩
          rw [if_neg (fun hk => h1 _ (List.mem_cons_self) hk.symm)]
          exact h2

theorem exhaustEkus_idem (w : World) (cid : Nat) : exhaustEkus (exhaustEkus w cid) cid = exhaustEkus w cid := by
  refine exhaustEkus_of ?_
  simp only [exhaustEkus, if_true]
  unfold Reiterable
  cases (w.ctxs cid).ekus <;> rfl

/-- A chain is accepted only by a store that contains its root, and by the CTL of that store, for the requested EKUs (or, if
these had been given as a one-shot iterator already used up, for none). -/
theorem verifyTrustLoop_accepts (env : Env) (cid : Nat) (chain : List Cert) (rs : List StoreRef) (exc : Option Exc) (w w' : World)
    (h : verifyTrustLoop env cid chain rs exc w = (.ok (), w')) :
    ∃ r ∈ rs, ∃ v, (v = w ∨ v = exhaustEkus w cid) ∧ StoreAccepts env w r chain (reqEkus v cid) (reqTime env w cid) := by
  have key : ∀ (rs : List StoreRef) (exc : Option Exc) (w1 : World), (w1 = w ∨ w1 = exhaustEkus w cid) →
      verifyTrustLoop env cid chain rs exc w1 = (.ok (), w') →
      ∃ r ∈ rs, ∃ v, (v = w ∨ v = exhaustEkus w cid) ∧ StoreAccepts env w r chain (reqEkus v cid) (reqTime env w cid) := by
    intro rs
    induction rs with
    | nil => intro exc w1 _ h; cases exc <;> simp [verifyTrustLoop, M.raise] at h
    | cons r rs ih =>
      intro exc w1 hw1 h
      have hstep : ∀ w2, (w2 = w1 ∨ w2 = exhaustEkus w1 cid) → (w2 = w ∨ w2 = exhaustEkus w cid) := by
        rintro w2 (rfl | rfl)
        · exact hw1
        · rcases hw1 with rfl | rfl
          · exact .inr rfl
          · exact .inr (exhaustEkus_idem w cid)
      have hrun : verifyTrustLoop env cid chain (r :: rs) exc w1 =
          (match storeVerifyTrust env cid r chain w1 with
          | (.ok (), w') => (.ok (), w')
          | (.error e, w') =>
            if e.is .certificateNotTrusted then verifyTrustLoop env cid chain rs exc w'
            else if e.is .verificationError then verifyTrustLoop env cid chain rs (some e) w'
            else (.error e, w')) := rfl
      rw [hrun] at h
      by_cases hne : chain = []
      · subst hne
        have : storeVerifyTrust env cid r [] w1 = (.error ⟨.indexError, "list index out of range"⟩, w1) := rfl
        rw [this] at h
        have h1 : Exc.is ⟨.indexError, "list index out of range"⟩ .certificateNotTrusted = false := by decide
        have h2 : Exc.is ⟨.indexError, "list index out of range"⟩ .verificationError = false := by decide
        simp [h1, h2] at h
      · have lift : (∃ r' ∈ rs, ∃ v, (v = w ∨ v = exhaustEkus w cid) ∧
              StoreAccepts env w r' chain (reqEkus v cid) (reqTime env w cid)) →
            ∃ r' ∈ r :: rs, ∃ v, (v = w ∨ v = exhaustEkus w cid) ∧
              StoreAccepts env w r' chain (reqEkus v cid) (reqTime env w cid) := by
          rintro ⟨r', hr', x⟩
          exact ⟨r', List.mem_cons_of_mem _ hr', x⟩
        rcases storeVerifyTrust_cases env cid r chain hne w1 with
          ⟨ha, w2, hw, h1⟩ | ⟨-, -, -, m, h1⟩ | ⟨-, -, -, -, m, w2, hw, h1⟩ | ⟨-, -, -, m, h1⟩ | ⟨-, -, -, m, h1⟩
        · refine ⟨r, by simp, w1, hw1, ?_⟩
          have ht : reqTime env w1 cid = reqTime env w cid := by
            rcases hw1 with rfl | rfl
            · rfl
            · simp [reqTime, exhaustEkus]
          have hs : w1.stores = w.stores := by rcases hw1 with rfl | rfl <;> rfl
          rw [ht] at ha
          unfold StoreAccepts at ha ⊢
          rw [← hs]
          exact ha
        · rw [h1] at h
          have : Exc.is ⟨.certificateNotTrusted, m⟩ .certificateNotTrusted = true := by simp [Exc.is]; decide
          simp only [this, if_true] at h
          exact lift (ih exc w1 hw1 h)
        · rw [h1] at h
          have g1 : Exc.is ⟨.ctlCertificateVerificationError, m⟩ .certificateNotTrusted = false := by simp [Exc.is]; decide
          have g2 : Exc.is ⟨.ctlCertificateVerificationError, m⟩ .verificationError = true := by simp [Exc.is]; decide
          simp only [g1, g2, if_true, Bool.false_eq_true, if_false] at h
          exact lift (ih _ w2 (hstep w2 hw) h)
        · rw [h1] at h
          have g1 : Exc.is ⟨.ctlParseError, m⟩ .certificateNotTrusted = false := by simp [Exc.is]; decide
          have g2 : Exc.is ⟨.ctlParseError, m⟩ .verificationError = false := by simp [Exc.is]; decide
          simp [g1, g2] at h
        · rw [h1] at h
          have g1 : Exc.is ⟨.typeError, m⟩ .certificateNotTrusted = false := by simp [Exc.is]; decide
          have g2 : Exc.is ⟨.typeError, m⟩ .verificationError = false := by simp [Exc.is]; decide
          simp [g1, g2] at h
  exact key rs exc w (.inl rfl) h

/-- Without CTLs the trust decision looks at the stores only, and changes nothing. -/
theorem verifyTrustLoop_noCtl (env : Env) (cid cid' : Nat) (chain : List Cert) (rs : List StoreRef) (exc : Option Exc) (w w' : World)
    (hs : w.stores = w'.stores) (hc : ∀ i, .heap i ∈ rs → (w.stores i).ctl = none) :
    (verifyTrustLoop env cid chain rs exc w).1 = (verifyTrustLoop env cid' chain rs exc w').1 := by
  induction rs generalizing exc with
  | nil => cases exc <;> rfl
  | cons r rs ih =>
    have ih' := fun exc => ih exc (fun i hi => hc i (List.mem_cons_of_mem _ hi))
    have h1 : ∃ x, storeVerifyTrust env cid r chain w = (x, w) ∧ storeVerifyTrust env cid' r chain w' = (x, w') := by
      unfold storeVerifyTrust
      cases chain.head? with
      | none => exact ⟨_, rfl, rfl⟩
      | some root =>
        have ht : storeIsTrusted w r root = storeIsTrusted w' r root := by
          cases r with
          | embedded _ => rfl
          | heap i => simp only [storeIsTrusted, hs]
        simp only [ht]
        split
        · exact ⟨_, rfl, rfl⟩
        · cases r with
          | embedded _ => exact ⟨_, rfl, rfl⟩
          | heap i =>
            simp only [hc i (by simp), ← hs]
            exact ⟨_, rfl, rfl⟩
    obtain ⟨x, hx1, hx2⟩ := h1
    unfold verifyTrustLoop
    rw [hx1, hx2]
    cases x with
    | ok u => rfl
    | error e =>
      simp only
      split
      · exact ih' _
      · split
        · exact ih' _
        · rfl

end Signify
