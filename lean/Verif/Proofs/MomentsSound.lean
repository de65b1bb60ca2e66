/-
What a successful verification shows when time passes during the call (C100).
-/
import Verif.Proofs.Moments
import Verif.Proofs.CTL

set_option autoImplicit false

namespace Signify

open Spec

namespace Keeps

variable {D T : Nat → Prop}

theorem verifyTrustLoopT (m : Moments) {cid : Nat} (h : D cid) (chain : List Cert) (rs : List StoreRef) (exc : Option Exc) :
    Keeps D T (verifyTrustLoopT m cid chain rs exc) := by
  induction rs generalizing exc with
  | nil => cases exc <;> exact raise _
  | cons r rs ih =>
    intro w
    unfold Signify.verifyTrustLoopT
    have hk := storeVerifyTrust (T := T) { m.start with now := m.clock rs.length } h r chain w
    rcases hx : Signify.storeVerifyTrust { m.start with now := m.clock rs.length } cid r chain w with ⟨x, w1⟩
    rw [hx] at hk
    cases x with
    | ok u => exact hk
    | error e =>
      dsimp only
      split
      · exact hk.trans (ih _ w1)
      · split
        · exact hk.trans (ih _ w1)
        · exact hk

theorem ctxVerifyT (m : Moments) {cid : Nat} (h : D cid) (c : Cert) : Keeps D T (ctxVerifyT m cid c) := by
  unfold Signify.ctxVerifyT
  refine bind (getCtx _) (fun ctx => bind (collectCerts _ _ _ _) (fun x => ?_))
  obtain ⟨roots, inter, all⟩ := x
  refine bind (lift _) (fun _ => bind (takeKeyUsages h) (fun _ => bind (takeEkus h) (fun _ => ?_)))
  split
  · exact lift _
  · exact bind (lift _) (fun _ => bind (getCtx _) (fun _ => bind (verifyTrustLoopT m h _ _ _) (fun _ => pure _)))

theorem verifyIssuerT (env : Env) (m : Cert → Moments) {cid : Nat} (h : D cid) (hT : T cid) (s : Signer) (t : Option Int) (issuer : Cert) :
    Keeps D T (verifyIssuerT env m cid s t issuer) :=
  bind (verifyIssuerSignature env cid s issuer) (fun _ => bind (applySigningTime h hT t) (fun _ => ctxVerifyT (m issuer) h issuer))

theorem signerVerifyT (env : Env) (m : Cert → Moments) {cid : Nat} (h : D cid) (hT : T cid) (s : Signer) (t : Option Int) :
    Keeps D T (signerVerifyT env m cid s t) :=
  signerVerifyWith env cid s (verifyIssuerT env m h hT s t)

theorem authSignerVerifyT (env : Env) (m : Cert → Moments) {cid : Nat} (h : D cid) (hT : T cid) (s : Signer) (t : Option Int) :
    Keeps D T (authSignerVerifyT env m cid s t) :=
  signerVerifyWith env cid s (fun c => verifyIssuerT env m h hT s _ c)

theorem rfcVerifyT (env : Env) (m : Cert → Moments) (r : Rfc3161) {cid : Nat} (h : D cid) (hT : T cid) (trusted : StoreRef) :
    Keeps D T (rfcVerifyT env m r (some cid) trusted) := by
  unfold Signify.rfcVerifyT
  split
  · exact raise _
  · exact signerVerifyT (D := D) (T := T) env m h hT r.signer none

theorem counterVerifyT (env : Env) (m : Cert → Moments) (c : CounterSigner) {cid : Nat} (h : D cid) (hT : T cid) : Keeps D T (c.verifyT env m cid) := by
  cases c with
  | pkcs9 c => exact signerVerifyT env m h hT _ _
  | rfc3161 r => exact rfcVerifyT env m r h hT (.embedded [])

theorem checkCounterT (env : Env) (m : Cert → Moments) (a : AuthData) (c : CounterSigner) {cid : Nat} (h : D cid) (hT : T cid) :
    Keeps D T (checkCounterT env m a c cid) := by
  unfold Signify.checkCounterT
  split
  · exact raise _
  · exact bind (setTimestamp h hT _) (fun _ => bind (counterVerifyT env m c h hT) (fun _ => pure _))

theorem counterTimeT (env : Env) (m : Cert → Moments) (a : AuthData) (mode : String) (csCid : Option Nat) (h : ∀ i, csCid = some i → D i)
    (hT : ∀ i, csCid = some i → T i) : Keeps D T (counterTimeT env m a mode csCid) := by
  unfold Signify.counterTimeT
  split
  · exact pure _
  · split
    · split
      · exact raise _
      · refine bind (attempt (checkCounterT env m a _ (h _ rfl) (hT _ rfl))) (fun r => ?_)
        split
        · exact pure _
        · split
          · exact pure _
          · exact raise _
    · exact pure _

end Keeps

/-! ### one certificate -/

theorem restricted_earlier {time : Option Int} {ekus : Option (List String)} {requested : List String} {t t' : Int} (h : t ≤ t')
    (hr : restricted time ekus requested t' = false) : restricted time ekus requested t = false := by
  unfold restricted at *
  cases time with
  | none => exact hr
  | some x =>
    dsimp only at *
    by_cases hx : t ≥ x
    · rw [if_pos (show t' ≥ x from Int.le_trans hx h)] at hr
      rw [if_pos hx]
      exact hr
    · rw [if_neg hx]

/-- A trust list says the same at an earlier moment, or accepts then. -/
theorem verifyTrust_earlier {s : CtlSubject} {chain : List Cert} {req : List String} {t t' : Int} (h : t ≤ t') :
    s.verifyTrust chain req t = s.verifyTrust chain req t' ∨ s.verifyTrust chain req t = .ok () := by
  unfold CtlSubject.verifyTrust
  split
  · exact .inl rfl
  · split
    · exact .inl rfl
    · split
      · exact .inl rfl
      · cases hr : restricted s.disallowedTime s.disallowedEkus req t with
        | false => right; rfl
        | true =>
          left
          cases hr' : restricted s.disallowedTime s.disallowedEkus req t' with
          | true => rfl
          | false => rw [restricted_earlier h hr'] at hr; cases hr

theorem ctlVerifyTrust_earlier (env : Env) {t : Int} (h : env.now ≤ t) (cid : Nat) (ctl : CTL) (chain : List Cert) (w : World) :
    ctlVerifyTrust env cid ctl chain w = ctlVerifyTrust { env with now := t } cid ctl chain w ∨
    ctlVerifyTrust env cid ctl chain w = (.ok (), (ctlVerifyTrust { env with now := t } cid ctl chain w).2) := by
  unfold ctlVerifyTrust
  cases chain.head? with
  | none => exact .inl rfl
  | some root =>
    dsimp only
    have e : ctl.findSubject { env with now := t } root = ctl.findSubject env root := rfl
    rw [e]
    cases ctl.findSubject env root with
    | error e => exact .inl rfl
    | ok so =>
      cases so with
      | none => exact .inl rfl
      | some s =>
        rw [M.bind_ok (show M.lift (.ok (some s)) w = (.ok (some s), w) from rfl),
          M.bind_ok (show M.lift (.ok (some s)) w = (.ok (some s), w) from rfl)]
        dsimp only
        rw [M.getCtx_bind, M.getCtx_bind, M.bind_ok (takeEkus_run cid w), M.bind_ok (takeEkus_run cid w)]
        have hle : (w.ctxs cid).timestamp.getD env.now ≤ (w.ctxs cid).timestamp.getD t := by
          cases (w.ctxs cid).timestamp with
          | some x => exact Int.le_refl _
          | none => exact h
        rcases verifyTrust_earlier (s := s) (chain := chain) (req := (w.ctxs cid).ekus.elems) hle with e | e
        · left; rw [e]
        · right; rw [e]; rfl

/-- A store says the same at an earlier moment, or accepts then. -/
theorem storeVerifyTrust_earlier (env : Env) {t : Int} (h : env.now ≤ t) (cid : Nat) (r : StoreRef) (chain : List Cert) (w : World) :
    storeVerifyTrust env cid r chain w = storeVerifyTrust { env with now := t } cid r chain w ∨
    storeVerifyTrust env cid r chain w = (.ok (), (storeVerifyTrust { env with now := t } cid r chain w).2) := by
  unfold Signify.storeVerifyTrust
  split
  · exact .inl rfl
  · split
    · exact .inl rfl
    · split
      · exact .inl rfl
      · split
        · exact .inl rfl
        · exact ctlVerifyTrust_earlier env h cid _ chain w

theorem storeVerifyTrust_world (env : Env) (cid : Nat) (r : StoreRef) (chain : List Cert) (w : World) (hx : exhaustEkus w cid = w) :
    (storeVerifyTrust env cid r chain w).2 = w := by
  by_cases hne : chain = []
  · subst hne; rfl
  · rcases storeVerifyTrust_cases env cid r chain hne w with ⟨-, w', h1, h2⟩ | ⟨-, -, -, m, h2⟩ | ⟨-, -, -, -, m, w', h1, h2⟩ | ⟨-, -, -, m, h2⟩ |
      ⟨-, -, -, m, h2⟩
    · rw [h2]; rcases h1 with h1 | h1 <;> simp [h1, hx]
    · rw [h2]
    · rw [h2]; rcases h1 with h1 | h1 <;> simp [h1, hx]
    · rw [h2]
    · rw [h2]

/-- What the stores accept while time passes, they accept at the moment at which the verification began. -/
theorem verifyTrustLoopT_start {m : Moments} (hm : Forward m) {cid : Nat} {chain : List Cert} {rs : List StoreRef} {exc exc' : Option Exc}
    {w w' : World} (hx : exhaustEkus w cid = w) (h : verifyTrustLoopT m cid chain rs exc w = (.ok (), w')) :
    w' = w ∧ verifyTrustLoop m.start cid chain rs exc' w = (.ok (), w) := by
  induction rs generalizing exc exc' with
  | nil => cases exc <;> cases (Prod.mk.inj h).1
  | cons r rs ih =>
    unfold verifyTrustLoopT at h
    unfold verifyTrustLoop
    have hw := storeVerifyTrust_world { m.start with now := m.clock rs.length } cid r chain w hx
    rcases hs : storeVerifyTrust { m.start with now := m.clock rs.length } cid r chain w with ⟨x, w1⟩
    rw [hs] at h hw
    subst hw
    have key : w' = w1 ∧ (x = .ok () ∨ ∃ e, x = .error e ∧ (e.is .certificateNotTrusted = true ∨ e.is .verificationError = true) ∧
        ∀ exc', verifyTrustLoop m.start cid chain rs exc' w1 = (.ok (), w1)) := by
      cases x with
      | ok u => exact ⟨(Prod.mk.inj h).2.symm, .inl rfl⟩
      | error e =>
        dsimp only at h
        split at h
        · rename_i h1
          exact ⟨(ih (exc' := none) h).1, .inr ⟨e, rfl, .inl h1, fun exc' => (ih (exc' := exc') h).2⟩⟩
        · split at h
          · rename_i h1
            exact ⟨(ih (exc' := none) h).1, .inr ⟨e, rfl, .inr h1, fun exc' => (ih (exc' := exc') h).2⟩⟩
          · cases (Prod.mk.inj h).1
    refine ⟨key.1, ?_⟩
    rcases storeVerifyTrust_earlier m.start (hm rs.length) cid r chain w1 with e | e
    · rw [e, hs]
      rcases key.2 with rfl | ⟨e, rfl, h1, h2⟩
      · rfl
      · dsimp only
        split
        · exact h2 _
        · rename_i hn
          rw [if_pos (h1.resolve_left hn)]
          exact h2 _
    · rw [e, hs]

/-- A chain found while time passes is one that is found if the clock stands still at the moment at which the verification began. -/
theorem ctxVerifyT_start {m : Moments} (hm : Forward m) {cid : Nat} {c : Cert} {w w' : World} {chain : List Cert}
    (h : ctxVerifyT m cid c w = (.ok chain, w')) : ctxVerify m.start cid c w = (.ok chain, w') := by
  unfold ctxVerifyT at h
  unfold ctxVerify
  rw [M.getCtx_bind] at h ⊢
  obtain ⟨⟨roots, inter, all⟩, w1, h1, h⟩ := M.bind_eq_ok h
  rw [M.bind_ok h1]
  simp only at h ⊢
  replace h := M.bind_eq_ok h
  obtain ⟨u, w2, h2, h⟩ := h
  rw [M.bind_ok h2]
  obtain ⟨-, e2⟩ := lift_eq_ok h2
  subst e2
  rw [M.bind_ok (takeKeyUsages_run cid _), M.bind_ok (takeEkus_run cid _)] at h ⊢
  generalize m.start.validate _ = res at h ⊢
  cases res with
  | error e => exact absurd (Prod.mk.inj h).1 (raiseNaming_ne_ok _ _ _)
  | ok ids =>
    obtain ⟨ch, w3, h3, h⟩ := M.bind_eq_ok h
    dsimp only
    rw [M.bind_ok h3]
    obtain ⟨-, e3⟩ := lift_eq_ok h3
    subst e3
    rw [M.getCtx_bind] at h
    obtain ⟨u, w4, h4, h⟩ := M.bind_eq_ok h
    obtain ⟨e4, h5⟩ := verifyTrustLoopT_start (exc' := none) hm (exhaustEkus_idem _ _) h4
    subst e4
    have h6 : ctxVerifyTrust m.start cid ch (exhaustEkus (exhaustKus w2 cid) cid) = (.ok (), exhaustEkus (exhaustKus w2 cid) cid) := by
      unfold ctxVerifyTrust
      rw [M.getCtx_bind]
      exact h5
    rw [M.bind_ok h6]
    exact h

theorem ctxVerifyT_validated {m : Moments} (hm : Forward m) {cid : Nat} {c : Cert} {w w' : World} {chain : List Cert}
    (h : ctxVerifyT m cid c w = (.ok chain, w')) : Validated m.start w' (w.ctxs cid) (w.ctxs cid).timestamp c chain :=
  ctxVerify_validated (ctxVerifyT_start hm h)

theorem verifyIssuerT_run (env : Env) (m : Cert → Moments) (cid : Nat) (s : Signer) (t : Option Int) (c : Cert) (w : World) :
    (ValidSignature env c s.encryptedDigest s.encodedAuth s.digestAlg (w.ctxs cid).allowLegacy ∧
      verifyIssuerT env m cid s t c w = ctxVerifyT (m c) cid c (atTime w cid t)) ∨
    (¬ ValidSignature env c s.encryptedDigest s.encodedAuth s.digestAlg (w.ctxs cid).allowLegacy ∧
      ∃ e, verifyIssuerT env m cid s t c w = (.error e, w) ∧
        ((e.cls = .signerInfoVerificationError ∧ Textual c.subject) ∨ (e.cls = .typeError ∧ ¬ Textual c.subject) ∨
          (e.is .verificationError = false ∧ env.loadKey c.spki = .error e))) := by
  unfold verifyIssuerT
  rcases verifyIssuerSignature_cases env cid s c w with ⟨h1, h2⟩ | ⟨h1, e, h2, h3⟩
  · refine .inl ⟨h1, ?_⟩
    rw [M.bind_ok h2, M.bind_ok (applySigningTime_run cid t w)]
  · refine .inr ⟨h1, e, ?_, h3⟩
    rw [M.bind_error h2]

/-! ### signers -/

/-- `SignerInfo.verify` while time passes, where the time used for a candidate depends on the candidate. -/
theorem signerVerifyWithT_sound {env : Env} {m : Cert → Moments} (hfw : ∀ c, Forward (m c)) {cid : Nat} {s : Signer} {tf : Cert → Option Int} {w w' : World}
    {chains : List (List Cert)}
    (h : signerVerifyWith env cid s (fun c => verifyIssuerT env m cid s (tf c) c) w = (.ok chains, w')) :
    chains ≠ [] ∧ ∀ chain ∈ chains, ∃ c t', SignedBy env w' (w.ctxs cid) s c ∧ Validated (m c).start w' (w.ctxs cid) t' c chain ∧
      (∀ x, tf c = some x → t' = some x) ∧
      (tf c = none → t' = (w.ctxs cid).timestamp ∨
        ∃ c' x, SignedBy env w' (w.ctxs cid) s c' ∧ tf c' = some x ∧ t' = some x) := by
  unfold signerVerifyWith at h
  obtain ⟨ch, w1, h1, h⟩ := M.bind_eq_ok h
  cases hem : ch.isEmpty with
  | true => rw [hem] at h; cases (Prod.mk.inj h).1
  | false =>
    rw [hem] at h
    rw [if_neg (by simp), M.pure_run] at h
    cases h
    refine ⟨by intro h; subst h; simp at hem, ?_⟩
    unfold buildChain at h1
    obtain ⟨acc, w2, h2, h1⟩ := M.bind_eq_ok h1
    have hacc : acc.1 = chains ∧ w2 = w' := by
      cases ha : acc.2 with
      | error e => rw [ha] at h1; cases (Prod.mk.inj h1).1
      | none => rw [ha] at h1; exact ⟨by have := (Prod.mk.inj h1).1; injection this, (Prod.mk.inj h1).2⟩
      | false => rw [ha] at h1; exact ⟨by have := (Prod.mk.inj h1).1; injection this, (Prod.mk.inj h1).2⟩
    obtain ⟨hacc, hw2⟩ := hacc
    subst hw2
    have hk : ∀ c, Keeps (fun j => j = cid) (fun j => j = cid) (verifyIssuerT env m cid s (tf c) c) :=
      fun c => Keeps.verifyIssuerT (D := fun j => j = cid) (T := fun j => j = cid) env m rfl rfl s (tf c) c
    let TI : World → Prop := fun u => (u.ctxs cid).timestamp = (w.ctxs cid).timestamp ∨
      ∃ c' x, SignedBy env u (w.ctxs cid) s c' ∧ tf c' = some x ∧ (u.ctxs cid).timestamp = some x
    let Q : World → List Cert → Prop := fun u chain =>
      ∃ c t', SignedBy env u (w.ctxs cid) s c ∧ Validated (m c).start u (w.ctxs cid) t' c chain ∧
      (∀ x, tf c = some x → t' = some x) ∧
      (tf c = none → t' = (w.ctxs cid).timestamp ∨
        ∃ c' x, SignedBy env u (w.ctxs cid) s c' ∧ tf c' = some x ∧ t' = some x)
    have hQ : ∀ {D T : Nat → Prop} u v chain, Q u chain → Frame D T u v → Q v chain := by
      rintro D T u v chain ⟨c, t', q1, q2, q3, q4⟩ hf
      refine ⟨c, t', q1.mono hf, q2.mono hf, q3, fun hn => ?_⟩
      rcases q4 hn with h | ⟨c', x, h1, h2, h3⟩
      · exact .inl h
      · exact .inr ⟨c', x, h1.mono hf, h2, h3⟩
    have key := forFind_inv (fun a c => Keeps.buildChainBody hk a c)
      (fun a u => (∀ chain ∈ a.1, Q u chain) ∧ TI u) w ?_ ?_ ?_ h2
    · intro chain hchain
      exact key.1 chain (by rw [hacc]; exact hchain)
    · rintro a u v ⟨g1, g2⟩ hf
      refine ⟨fun chain hc => hQ u v chain (g1 chain hc) hf, ?_⟩
      have ht := hf.times cid (fun h => h)
      rcases g2 with g2 | ⟨c', x, g2, g3, g4⟩
      · exact .inl (ht.trans g2)
      · exact .inr ⟨c', x, g2.mono hf, g3, ht.trans g4⟩
    · rintro a c u a' v ⟨g1, g2⟩ hf hm ⟨r, hr, hld, hcr⟩ hbody
      have hleg : (u.ctxs cid).allowLegacy = (w.ctxs cid).allowLegacy := (hf.ctxs cid).allowLegacy
      have hsigned : ValidSignature env c s.encryptedDigest s.encodedAuth s.digestAlg (u.ctxs cid).allowLegacy →
          SignedBy env u (w.ctxs cid) s c := by
        intro hv
        obtain ⟨m1, m2⟩ := named_query.mp hm
        exact ⟨⟨⟨r, hr, hcr⟩, m1, m2⟩, by rw [← hleg]; exact hv⟩
      unfold buildChainBody at hbody
      have hatt : M.attempt (verifyIssuerT env m cid s (tf c) c) u =
          (.ok (verifyIssuerT env m cid s (tf c) c u).1, (verifyIssuerT env m cid s (tf c) c u).2) := rfl
      rw [M.bind_ok hatt] at hbody
      have hfv : Frame (fun j => j = cid) (fun j => j = cid) u (verifyIssuerT env m cid s (tf c) c u).2 := hk c u
      have hti : TI (verifyIssuerT env m cid s (tf c) c u).2 := by
        rcases verifyIssuerT_run env m cid s (tf c) c u with ⟨hv, hrun⟩ | ⟨hv, e, hrun, -⟩
        · have h1 : ((verifyIssuerT env m cid s (tf c) c u).2.ctxs cid).timestamp = ((atTime u cid (tf c)).ctxs cid).timestamp := by
            rw [hrun]
            exact (Keeps.ctxVerifyT (D := fun j => j = cid) (T := fun _ => False) (m c) rfl c (atTime u cid (tf c))).times cid (fun h => h)
          rw [atTime_timestamp] at h1
          have htc : (∃ x, tf c = some x) ∨ tf c = none := by cases tf c <;> simp
          rcases htc with ⟨x, htf⟩ | htf
          · refine .inr ⟨c, x, (hsigned hv).mono hfv, htf, h1.trans ?_⟩
            rw [htf]; rfl
          · have h1' : ((verifyIssuerT env m cid s (tf c) c u).2.ctxs cid).timestamp = (u.ctxs cid).timestamp := by
              rw [h1, htf]; rfl
            rcases g2 with g2 | ⟨c', x, g2, g3, g4⟩
            · exact .inl (h1'.trans g2)
            · exact .inr ⟨c', x, g2.mono hfv, g3, h1'.trans g4⟩
        · have h2 : (verifyIssuerT env m cid s (tf c) c u).2 = u := by rw [hrun]
          rw [h2]; exact g2
      cases hx : (verifyIssuerT env m cid s (tf c) c u).1 with
      | error e =>
        rw [hx] at hbody
        simp only at hbody
        split at hbody
        · rw [M.pure_run] at hbody
          cases hbody
          exact ⟨fun chain hc => hQ u _ chain (g1 chain hc) hfv, hti⟩
        · cases (Prod.mk.inj hbody).1
      | ok chain =>
        rw [hx] at hbody
        simp only at hbody
        rw [M.pure_run] at hbody
        cases hbody
        refine ⟨?_, hti⟩
        intro chain' hc'
        rcases List.mem_append.mp hc' with hc' | hc'
        · exact hQ u _ chain' (g1 chain' hc') hfv
        · simp only [List.mem_singleton] at hc'
          subst hc'
          rcases verifyIssuerT_run env m cid s (tf c) c u with ⟨hv, hrun⟩ | ⟨hv, e, hrun, -⟩
          · rw [hrun] at hx hfv ⊢
            have hval := ctxVerifyT_validated (hfw c) (show ctxVerifyT (m c) cid c (atTime u cid (tf c)) =
              (.ok chain', (ctxVerifyT (m c) cid c (atTime u cid (tf c))).2) from by rw [← hx])
            have hstep : CtxStep (w.ctxs cid) ((atTime u cid (tf c)).ctxs cid) := (hf.ctxs cid).trans ((frame_atTime u cid (tf c)).ctxs cid)
            have hval := hval.ctxStep hstep
            rw [atTime_timestamp] at hval
            refine ⟨c, _, (hsigned hv).mono hfv, hval, ?_, ?_⟩
            · intro x hx; rw [hx]; rfl
            · intro hn
              rw [hn]
              show (u.ctxs cid).timestamp = _ ∨ _
              rcases g2 with g2 | ⟨c', x, g2, g3, g4⟩
              · exact .inl g2
              · rw [hn] at hfv
                exact .inr ⟨c', x, g2.mono hfv, g3, g4⟩
          · rw [hrun] at hx; cases hx
    · exact ⟨by simp, .inl rfl⟩

theorem signerVerifyT_sound {env : Env} {m : Cert → Moments} (hfw : ∀ c, Forward (m c)) {cid : Nat} {s : Signer} {t : Option Int} {w w' : World} {chains : List (List Cert)}
    (h : signerVerifyT env m cid s t w = (.ok chains, w')) :
    chains ≠ [] ∧ AllValidatedAt env m w' (w.ctxs cid) s (t.or (w.ctxs cid).timestamp) chains := by
  obtain ⟨h1, h2⟩ := signerVerifyWithT_sound hfw (tf := fun _ => t) h
  refine ⟨h1, fun chain hc => ?_⟩
  obtain ⟨c, t', g1, g2, g3, g4⟩ := h2 chain hc
  refine ⟨c, g1, ?_⟩
  cases t with
  | some x => rw [g3 x rfl] at g2; exact g2
  | none =>
    rcases g4 rfl with g4 | ⟨c', x, -, g5, -⟩
    · rw [g4] at g2; exact g2
    · cases g5

theorem Spec.AllValidatedAt.ctxStep {env : Env} {m : Cert → Moments} {w : World} {ctx ctx' : Ctx} {s : Signer} {t : Option Int}
    {chains : List (List Cert)} (h : AllValidatedAt env m w ctx' s t chains) (hs : CtxStep ctx ctx') : AllValidatedAt env m w ctx s t chains := by
  intro chain hc
  obtain ⟨c, h1, h2⟩ := h chain hc
  exact ⟨c, h1.ctxStep hs, h2.ctxStep hs⟩

theorem Spec.AllValidatedAt.mono {env : Env} {m : Cert → Moments} {w w' : World} {D T : Nat → Prop} {ctx : Ctx} {s : Signer} {t : Option Int}
    {chains : List (List Cert)} (h : AllValidatedAt env m w ctx s t chains) (hf : Frame D T w w') : AllValidatedAt env m w' ctx s t chains := by
  intro chain hc
  obtain ⟨c, h1, h2⟩ := h chain hc
  exact ⟨c, h1.mono hf, h2.mono hf⟩

theorem Spec.CounterGoodAt.mono {env : Env} {m : Cert → Moments} {w w' : World} {D T : Nat → Prop} {ctx : Ctx} {data : Bytes} {c : CounterSigner}
    (h : CounterGoodAt env m w ctx data c) (hf : Frame D T w w') : CounterGoodAt env m w' ctx data c := by
  refine ⟨fun i hi => ?_, fun r hr => ?_⟩
  · obtain ⟨h1, chains, h2, h3⟩ := h.pkcs9 i hi
    exact ⟨h1, chains, h2, h3.mono hf⟩
  · obtain ⟨h0, h1, chains, h2, h3⟩ := h.rfc3161 r hr
    exact ⟨h0, h1, chains, h2, h3.mono hf⟩

theorem rfcVerifyT_ok {env : Env} {m : Cert → Moments} {r : Rfc3161} {cid : Nat} {trusted : StoreRef} {w w' : World} {chains : List (List Cert)}
    (h : rfcVerifyT env m r (some cid) trusted w = (.ok chains, w')) :
    r.signer.messageDigest = some (env.hash r.core.digestAlg r.core.content) ∧
      signerVerifyT env m cid r.signer none w = (.ok chains, w') := by
  unfold rfcVerifyT at h
  by_cases hd : some (r.core.contentDigest env) = r.signer.messageDigest
  · rw [if_neg (not_not_intro hd)] at h
    exact ⟨hd.symm, h⟩
  · rw [if_pos hd] at h
    cases (Prod.mk.inj h).1

theorem checkCounterT_sound {env : Env} {m : Cert → Moments} (hfw : ∀ c, Forward (m c)) {a : AuthData} {c : CounterSigner} {cid : Nat} {w w' : World}
    (h : checkCounterT env m a c cid w = (.ok (), w')) : CounterGoodAt env m w' (w.ctxs cid) a.signer.encryptedDigest c := by
  unfold checkCounterT at h
  by_cases hd : c.checkMessageDigest env a.signer.encryptedDigest = true
  · rw [if_neg (by simp [hd]), M.bind_ok (setTimestamp_run cid _ w)] at h
    obtain ⟨chains, w1, h1, h⟩ := M.bind_eq_ok h
    rw [M.pure_run] at h
    cases h
    have hstep := withTime_step w cid c.signingTime
    refine ⟨fun i hi => ?_, fun r hr => ?_⟩
    · subst hi
      obtain ⟨g1, g2⟩ := signerVerifyT_sound hfw (show signerVerifyT env m cid i.signer none _ = _ from h1)
      refine ⟨?_, chains, g1, ?_⟩
      · simp only [CounterSigner.checkMessageDigest, Signer.checkMessageDigest, beq_iff_eq] at hd
        exact hd.symm
      · have g3 := g2.ctxStep hstep
        rw [withTime_ctx] at g3
        exact g3
    · subst hr
      obtain ⟨k1, k2⟩ := rfcVerifyT_ok (show rfcVerifyT env m r (some cid) (.embedded []) _ = _ from h1)
      obtain ⟨g1, g2⟩ := signerVerifyT_sound hfw k2
      refine ⟨?_, k1, chains, g1, ?_⟩
      · simp only [CounterSigner.checkMessageDigest, beq_iff_eq] at hd
        exact hd.symm
      · have g3 := g2.ctxStep hstep
        rw [withTime_ctx] at g3
        exact g3
  · rw [if_pos (by simpa using hd)] at h
    cases (Prod.mk.inj h).1

theorem asdVerifyT_steps {env : Env} {m : SignatureMoments} {file : Option Bytes} {a : AuthData} {args : VerifyArgs} {w w' : World}
    {chains : List (List Cert)} {cid : Nat} {cs : Option Nat} {v : World} (hs : Setup w a args cid cs v)
    (h : asdVerifyT env m file a args w = (.ok chains, w')) :
    DigestsMatch env file a args.expectedHash ∧ ∃ t u, counterTimeT env m.counter a args.countersignatureMode cs v = (.ok t, u) ∧
      authSignerVerifyT env m.signer cid a.signer t u = (.ok chains, w') := by
  have hrun := hs.run (fun cid cs => M.lift (checkDigests env file a args.expectedHash) >>= fun _ =>
    counterTimeT env m.counter a args.countersignatureMode cs >>= fun t => authSignerVerifyT env m.signer cid a.signer t)
  have h' : asdVerifyT env m file a args w = _ := hrun
  rw [h'] at h
  obtain ⟨u, v1, h1, h2⟩ := M.bind_eq_ok h
  obtain ⟨g1, e1⟩ := lift_eq_ok h1
  subst e1
  obtain ⟨t, v2, h3, h4⟩ := M.bind_eq_ok h2
  exact ⟨checkDigests_ok.1 g1, t, v2, h3, h4⟩

theorem counterTimeT_ok {env : Env} {m : Cert → Moments} {a : AuthData} {mode : String} {cs : Option Nat} {v u : World} {t : Option Int}
    (h : counterTimeT env m a mode cs v = (.ok t, u)) :
    (a.counter = none ∧ t = none ∧ u = v) ∨
    (∃ c, a.counter = some c ∧ mode = "ignore" ∧ t = none ∧ u = v) ∨
    (∃ c i, a.counter = some c ∧ mode ≠ "ignore" ∧ cs = some i ∧ checkCounterT env m a c i v = (.ok (), u) ∧ t = c.signingTime) ∨
    (∃ c i e, a.counter = some c ∧ mode ≠ "ignore" ∧ mode ≠ "strict" ∧ cs = some i ∧ checkCounterT env m a c i v = (.error e, u) ∧
      t = none) := by
  unfold counterTimeT at h
  cases hc : a.counter with
  | none =>
    rw [hc] at h
    cases h
    exact .inl ⟨rfl, rfl, rfl⟩
  | some c =>
    rw [hc] at h
    simp only at h
    by_cases hm : mode = "ignore"
    · rw [if_neg (not_not_intro hm), M.pure_run] at h
      cases h
      exact .inr (.inl ⟨c, rfl, hm, rfl, rfl⟩)
    · rw [if_pos hm] at h
      cases cs with
      | none => cases (Prod.mk.inj h).1
      | some i =>
        simp only at h
        rcases hx : checkCounterT env m a c i v with ⟨r, v1⟩
        rw [M.bind_ok (show M.attempt (checkCounterT env m a c i) v = (.ok r, v1) by unfold M.attempt; rw [hx])] at h
        cases r with
        | ok x =>
          simp only at h
          rw [M.pure_run] at h
          cases h
          exact .inr (.inr (.inl ⟨c, i, rfl, hm, rfl, hx, rfl⟩))
        | error e =>
          simp only at h
          by_cases hst : mode = "strict"
          · rw [if_neg (not_not_intro hst)] at h
            cases (Prod.mk.inj h).1
          · rw [if_pos hst, M.pure_run] at h
            cases h
            exact .inr (.inr (.inr ⟨c, i, e, rfl, hm, hst, rfl, hx, rfl⟩))

/-- A successful verification while time passes, for any contexts. -/
theorem asdVerifyT_sound {env : Env} {m : SignatureMoments} (hfc : ∀ c, Forward (m.counter c)) (hfs : ∀ c, Forward (m.signer c)) {file : Option Bytes} {a : AuthData} {args : VerifyArgs} {w w' : World}
    {chains : List (List Cert)} (he : ContextsExist w args) (h : asdVerifyT env m file a args w = (.ok chains, w')) :
    DigestsMatch env file a args.expectedHash ∧ chains ≠ [] ∧ ∃ t ts,
      (SeparateContexts args → ts = (signerContext w a args).timestamp) ∧
      (a.counter = none ∨ args.countersignatureMode = "ignore" → t = none ∧ ts = (signerContext w a args).timestamp) ∧
      (∀ c, a.counter = some c → args.countersignatureMode ≠ "ignore" →
        (t = c.signingTime ∧ CounterGoodAt env m.counter w' (counterContext w a c args) a.signer.encryptedDigest c) ∨
        (t = none ∧ args.countersignatureMode ≠ "strict")) ∧
      ∀ chain ∈ chains, ∃ c t', SignedBy env w' (signerContext w a args) a.signer c ∧
        Validated (m.signer c).start w' (signerContext w a args) t' c chain ∧
        (¬ LifetimeSigning c → t' = t.or ts) ∧
        (LifetimeSigning c → t' = ts ∨ ∃ c', SignedBy env w' (signerContext w a args) a.signer c' ∧ ¬ LifetimeSigning c' ∧
          t.isSome = true ∧ t' = t) := by
  obtain ⟨cid, cs, v, hs⟩ := setup w a args he
  obtain ⟨hd, t, u, h1, h2⟩ := asdVerifyT_steps hs h
  have hkeep : Frame (fun j => cs = some j) (fun j => cs = some j) v u := by
    have := Keeps.counterTimeT (D := fun j => cs = some j) (T := fun j => cs = some j) env m.counter a args.countersignatureMode cs
      (fun i hi => hi) (fun i hi => hi) v
    rw [h1] at this
    exact this
  have hkeep2 : Frame (fun j => j = cid) (fun j => j = cid) u w' := by
    have := Keeps.authSignerVerifyT (D := fun j => j = cid) (T := fun j => j = cid) env m.signer rfl rfl a.signer t u
    rw [h2] at this
    exact this
  have hstep : CtxStep (signerContext w a args) (u.ctxs cid) := by
    have := hkeep.ctxs cid
    rw [hs.signer] at this
    exact this
  obtain ⟨g1, g2⟩ := signerVerifyWithT_sound hfs (tf := fun c => if lifetimeSigning c then none else t)
    (show signerVerifyWith env cid a.signer (fun c => verifyIssuerT env m.signer cid a.signer (if lifetimeSigning c then none else t) c) u
      = (.ok chains, w') from h2)
  refine ⟨hd, g1, t, (u.ctxs cid).timestamp, ?_, ?_, ?_, ?_⟩
  · intro hsep
    rw [hkeep.times cid (hs.separate he hsep), hs.signer]
  · intro hno
    rcases counterTimeT_ok h1 with ⟨k1, k2, k3⟩ | ⟨c, k1, k2, k3, k4⟩ | ⟨c, i, k1, k2, -⟩ | ⟨c, i, e, k1, k2, -⟩
    · subst k3; exact ⟨k2, by rw [hs.signer]⟩
    · subst k4; exact ⟨k3, by rw [hs.signer]⟩
    · rcases hno with hno | hno
      · rw [hno] at k1; cases k1
      · exact absurd hno k2
    · rcases hno with hno | hno
      · rw [hno] at k1; cases k1
      · exact absurd hno k2
  · intro c hc hm
    obtain ⟨i0, e0, hci⟩ := hs.counter c hc hm
    rcases counterTimeT_ok h1 with ⟨k1, -⟩ | ⟨c', -, k2, -⟩ | ⟨c', i, k1, -, k3, k4, k5⟩ | ⟨c', i, e, k1, -, k3, -, -, k5⟩
    · rw [k1] at hc; cases hc
    · exact absurd k2 hm
    · rw [k1] at hc; cases hc
      rw [e0] at k3; cases k3
      left
      have := checkCounterT_sound hfc k4
      rw [hci] at this
      exact ⟨k5, this.mono hkeep2⟩
    · exact .inr ⟨k5, k3⟩
  · intro chain hc
    obtain ⟨c, t', s1, s2, s3, s4⟩ := g2 chain hc
    refine ⟨c, t', s1.ctxStep hstep, s2.ctxStep hstep, ?_, ?_⟩
    · intro hl
      have hl' : lifetimeSigning c = false := by
        cases hb : lifetimeSigning c with
        | false => rfl
        | true => exact absurd (lifetimeSigning_iff.1 hb) hl
      simp only [hl', Bool.false_eq_true, if_false] at s3 s4
      cases t with
      | some x => exact s3 x rfl
      | none =>
        rcases s4 rfl with s4 | ⟨c', x, -, s5, -⟩
        · exact s4
        · split at s5 <;> cases s5
    · intro hl
      have hl' : lifetimeSigning c = true := lifetimeSigning_iff.2 hl
      simp only [hl', if_true] at s4
      rcases s4 trivial with s4 | ⟨c', x, s5, s6, s7⟩
      · exact .inl s4
      · right
        cases hb : lifetimeSigning c' with
        | true => rw [hb] at s6; cases s6
        | false =>
          rw [hb] at s6
          simp only [Bool.false_eq_true, if_false] at s6
          refine ⟨c', s5.ctxStep hstep, ?_, by rw [s6]; rfl, by rw [s7, s6]⟩
          intro h
          rw [lifetimeSigning_iff.2 h] at hb
          cases hb

end Signify
