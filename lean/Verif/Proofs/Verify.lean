/-
What a successful verification means, in any state (also with stores that are loaded on the way).
-/
import Verif.Proofs.Frame
import Verif.Proofs.CTL
import Verif.Spec.Verify

set_option autoImplicit false

namespace Signify

open Spec

/-! ### contexts -/

theorem requestFor_congr {w w' : World} {ctx : Ctx} {c : Cert} (h : ∀ r ∈ ctx.stores, certsOf w' r = certsOf w r)
    (ht : ∀ r ∈ ctx.stores, storeTrusted w' r = storeTrusted w r) : requestFor w' ctx c = requestFor w ctx c := by
  have h1 : ∀ (rs : List StoreRef), (∀ r ∈ rs, certsOf w' r = certsOf w r) → (∀ r ∈ rs, storeTrusted w' r = storeTrusted w r) →
      (rs.filter (fun r => storeTrusted w' r)).flatMap (fun r => (certsOf w' r).map Cert.obj) =
      (rs.filter (fun r => storeTrusted w r)).flatMap (fun r => (certsOf w r).map Cert.obj) ∧
      (rs.filter (fun r => !storeTrusted w' r)).flatMap (fun r => (certsOf w' r).map Cert.obj) =
      (rs.filter (fun r => !storeTrusted w r)).flatMap (fun r => (certsOf w r).map Cert.obj) := by
    intro rs
    induction rs with
    | nil => intro _ _; exact ⟨rfl, rfl⟩
    | cons r rs ih =>
      intro g1 g2
      obtain ⟨i1, i2⟩ := ih (fun r hr => g1 r (List.mem_cons_of_mem _ hr)) (fun r hr => g2 r (List.mem_cons_of_mem _ hr))
      have e1 := g1 r (by simp)
      have e2 := g2 r (by simp)
      cases hb : storeTrusted w r with
      | true =>
        simp only [List.filter_cons, e2, hb, if_true, Bool.not_true, Bool.false_eq_true, if_false, List.flatMap_cons, e1, i1, i2,
          and_self]
      | false =>
        simp only [List.filter_cons, e2, hb, if_true, Bool.not_false, Bool.false_eq_true, if_false, List.flatMap_cons, e1, i1, i2,
          and_self]
  unfold requestFor
  rw [(h1 _ h ht).1, (h1 _ h ht).2]

theorem iterStore_ok {r : StoreRef} {w w' : World} {l : List Cert} (h : iterStore r w = (.ok l, w')) :
    l = certsOf w' r ∧ LoadedStore w' r := by
  cases r with
  | embedded certs => cases h; exact ⟨rfl, trivial⟩
  | heap i =>
    have hrun : Signify.iterStore (.heap i) w = (match (w.stores i).pending with
      | none => Pure.pure (w.stores i).items
      | some (certs, exc) =>
        (M.setStore i { w.stores i with items := (w.stores i).items ++ certs, pending := none } >>= fun _ =>
          match exc with
          | none => Pure.pure ((w.stores i).items ++ certs)
          | some e => M.raise e) : M (List Cert)) w := rfl
    rw [hrun] at h
    rcases hp : (w.stores i).pending with _ | ⟨certs, exc⟩
    · rw [hp] at h; cases h; exact ⟨rfl, hp⟩
    · rw [hp] at h
      cases exc with
      | none =>
        cases h
        simp [certsOf, LoadedStore]
      | some e => cases (Prod.mk.inj h).1

theorem collectCerts_ok {rs : List StoreRef} {roots inter : List Nat} {all : Dict Nat Cert} {w w' : World}
    {x : List Nat × List Nat × Dict Nat Cert} (h : collectCerts rs roots inter all w = (.ok x, w')) :
    (∀ r ∈ rs, LoadedStore w' r) ∧
    x = (roots ++ (rs.filter (fun r => storeTrusted w' r)).flatMap (fun r => (certsOf w' r).map Cert.obj),
        inter ++ (rs.filter (fun r => !storeTrusted w' r)).flatMap (fun r => (certsOf w' r).map Cert.obj),
        (rs.flatMap (certsOf w')).foldl (fun d c => d.set c.obj c) all) := by
  induction rs generalizing roots inter all w with
  | nil =>
    unfold collectCerts at h
    rw [M.pure_run] at h
    cases h
    simp
  | cons r rs ih =>
    unfold collectCerts at h
    obtain ⟨l, w1, h1, h⟩ := M.bind_eq_ok h
    rw [M.bind_ok (show M.world w1 = (.ok w1, w1) from rfl)] at h
    obtain ⟨hl, hld⟩ := iterStore_ok h1
    have main : ∀ roots' inter', collectCerts rs roots' inter' (l.foldl (fun d c => d.set c.obj c) all) w1 = (.ok x, w') →
        (storeTrusted w' r = storeTrusted w1 r ∧ l = certsOf w' r ∧ LoadedStore w' r) := by
      intro roots' inter' h
      have hf : Frame (fun _ => False) (fun _ => False) w1 w' := (Keeps.collectCerts rs _ _ _).of_eq h
      exact ⟨hf.storeTrusted r, by rw [hl, hf.certsOf hld], hf.loadedStore hld⟩
    by_cases ht : storeTrusted w1 r = true
    · rw [if_pos ht] at h
      obtain ⟨m1, m2, m3⟩ := main _ _ h
      obtain ⟨i1, i2⟩ := ih h
      refine ⟨?_, ?_⟩
      · intro r' hr'
        rcases List.mem_cons.mp hr' with rfl | hr'
        · exact m3
        · exact i1 r' hr'
      · rw [i2, m2]
        rw [ht] at m1
        rw [List.filter_cons_of_pos m1, List.filter_cons_of_neg (by simp [m1]), List.flatMap_cons,
          List.flatMap_cons, List.foldl_append, List.append_assoc]
    · rw [if_neg ht] at h
      obtain ⟨m1, m2, m3⟩ := main _ _ h
      obtain ⟨i1, i2⟩ := ih h
      refine ⟨?_, ?_⟩
      · intro r' hr'
        rcases List.mem_cons.mp hr' with rfl | hr'
        · exact m3
        · exact i1 r' hr'
      · rw [i2, m2]
        have m1' : ¬ storeTrusted w' r = true := by rw [m1]; exact ht
        rw [List.filter_cons_of_neg m1', List.filter_cons_of_pos (by simp [m1']), List.flatMap_cons,
          List.flatMap_cons, List.foldl_append, List.append_assoc]

theorem given_of_step {p p' : PyIter} (h : IterStep p p') : Given p p'.elems := by
  rcases h with rfl | rfl
  · exact .inl rfl
  · cases p with
    | none => exact .inl rfl
    | list l => exact .inl rfl
    | gen l => exact .inr ⟨rfl, l, rfl⟩

theorem given_consumed (p : PyIter) : Given p p.consumed.elems := given_of_step (.inr rfl)

/-- `StoreAccepts` depends only on the stores. -/
theorem storeAccepts_congr {env : Env} {w w' : World} (h : w.stores = w'.stores) {r : StoreRef} {chain : List Cert}
    {l : List String} {t : Int} (ha : StoreAccepts env w r chain l t) : StoreAccepts env w' r chain l t := by
  unfold StoreAccepts at *
  rw [← h]
  exact ha

/-- A chain returned by `verify`, in any state. -/
theorem ctxVerify_validated {env : Env} {cid : Nat} {c : Cert} {w w' : World} {chain : List Cert}
    (h : ctxVerify env cid c w = (.ok chain, w')) : Validated env w' (w.ctxs cid) (w.ctxs cid).timestamp c chain := by
  unfold ctxVerify at h
  rw [M.getCtx_bind] at h
  obtain ⟨⟨roots, inter, all⟩, w1, h1, h⟩ := M.bind_eq_ok h
  have hc1 : w1.ctxs = w.ctxs := by
    have := collectCerts_ctxs (w.ctxs cid).stores [] [] [(c.obj, c)] w
    rw [h1] at this
    exact this
  obtain ⟨hl1, hx⟩ := collectCerts_ok h1
  simp only at h
  replace h := M.bind_eq_ok h
  obtain ⟨u, w2, h2, h⟩ := h
  obtain ⟨-, e2⟩ := lift_eq_ok h2
  subst e2
  rw [M.bind_ok (takeKeyUsages_run cid _), M.bind_ok (takeEkus_run cid _)] at h
  have hek : ((exhaustKus w2 cid).ctxs cid).ekus = (w.ctxs cid).ekus := by rw [← hc1]; simp [exhaustKus]
  have hku : (w2.ctxs cid).keyUsages = (w.ctxs cid).keyUsages := by rw [hc1]
  rw [hek, hku] at h
  generalize hres : env.validate _ = res at h
  cases res with
  | error e => exact absurd (Prod.mk.inj h).1 (raiseNaming_ne_ok _ _ _)
  | ok ids =>
    obtain ⟨ch, w3, h3, h⟩ := M.bind_eq_ok h
    obtain ⟨hlk, e3⟩ := lift_eq_ok h3
    subst e3
    obtain ⟨u, w4, h4, h⟩ := M.bind_eq_ok h
    rw [M.pure_run] at h
    have e5 := (Prod.mk.inj h).1
    have e6 := (Prod.mk.inj h).2
    cases e5
    subst e6
    unfold ctxVerifyTrust at h4
    rw [M.getCtx_bind] at h4
    have hst : ((exhaustEkus (exhaustKus w2 cid) cid).ctxs cid).stores = (w.ctxs cid).stores := by
      rw [← hc1]; exact exhaust_ctx_stores w2 cid cid
    rw [hst] at h4
    have hstores := (verifyTrustLoop_sound env cid _ _ _ _ _ h4).1
    have hs24 : w2.stores = w4.stores := hstores.symm
    have hcerts : ∀ r, certsOf w4 r = certsOf w2 r := by
      intro r; cases r with
      | embedded _ => rfl
      | heap i => simp only [certsOf, hs24]
    have htr : ∀ r, storeTrusted w4 r = storeTrusted w2 r := by
      intro r; cases r with
      | embedded _ => rfl
      | heap i => simp only [storeTrusted, hs24]
    simp only [List.nil_append] at hx
    injection hx with x1 x2
    injection x2 with x2 x3
    obtain ⟨hobj, hmem⟩ := lookupAll_certMap (known := (w.ctxs cid).stores.flatMap (certsOf w2)) (c := c) (ids := ids) (by
      rw [x3] at hlk; exact hlk)
    refine ⟨?_, ?_, ?_, ?_⟩
    · refine ⟨(w.ctxs cid).keyUsages.elems, (w.ctxs cid).ekus.elems, .inl rfl, .inl rfl, ?_⟩
      rw [hobj, ← hres, requestFor_congr (w := w2) (fun r _ => hcerts r) (fun r _ => htr r)]
      unfold requestFor
      rw [x1, x2]
    · intro d hd
      rcases hmem d hd with rfl | hd
      · exact .inl rfl
      · obtain ⟨r, hr, hd⟩ := List.mem_flatMap.mp hd
        exact .inr ⟨r, hr, by rw [hcerts]; exact hd⟩
    · obtain ⟨r, hr, v, hv, ha⟩ := verifyTrustLoop_accepts env cid _ _ _ _ _ h4
      refine ⟨r, hr, reqEkus v cid, ?_, ?_⟩
      · have : reqEkus v cid = (w.ctxs cid).ekus.consumed.elems := by
          rcases hv with rfl | rfl
          · simp only [reqEkus, exhaustEkus, if_true]; rw [hek]
          · simp only [reqEkus, exhaustEkus, if_true]; rw [hek, consumed_consumed]
        rw [this]
        exact given_consumed _
      · have ht : reqTime env (exhaustEkus (exhaustKus w2 cid) cid) cid = (w.ctxs cid).timestamp.getD env.now := by
          simp [reqTime, exhaustEkus, exhaustKus, hc1]
        rw [ht] at ha
        exact storeAccepts_congr hs24 ha
    · intro r hr
      have := hl1 r hr
      cases r with
      | embedded _ => trivial
      | heap i => simp only [LoadedStore, ← hs24]; exact this

/-- A validation stays one when later stores are loaded. -/
theorem Spec.Validated.mono {env : Env} {w w' : World} {D T : Nat → Prop} {ctx : Ctx} {t : Option Int} {c : Cert} {chain : List Cert}
    (h : Validated env w ctx t c chain) (hf : Frame D T w w') : Validated env w' ctx t c chain := by
  have hcerts : ∀ r ∈ ctx.stores, certsOf w' r = certsOf w r := fun r hr => hf.certsOf (h.loaded r hr)
  refine ⟨?_, ?_, ?_, fun r hr => hf.loadedStore (h.loaded r hr)⟩
  · obtain ⟨k, e, h1, h2, h3⟩ := h.answer
    refine ⟨k, e, h1, h2, ?_⟩
    rw [requestFor_congr hcerts (fun r _ => hf.storeTrusted r)]
    exact h3
  · intro d hd
    rcases h.members d hd with rfl | ⟨r, hr, h1⟩
    · exact .inl rfl
    · exact .inr ⟨r, hr, by rw [hcerts r hr]; exact h1⟩
  · obtain ⟨r, hr, e, he, i, root, rfl, h1, h2, h3, h4⟩ := h.anchored
    have : w'.stores i = w.stores i := (hf.stores i).eq_of_none (h.loaded _ hr)
    exact ⟨_, hr, e, he, i, root, rfl, by rw [this]; exact h1, h2, by rw [this]; exact h3, by rw [this]; exact h4⟩

theorem given_step {p p' : PyIter} {l : List String} (h : Given p' l) (hs : IterStep p p') : Given p l := by
  rcases h with rfl | ⟨rfl, g, rfl⟩
  · exact given_of_step hs
  · rcases hs with hs | hs
    · exact .inr ⟨rfl, g, hs.symm⟩
    · cases p with
      | gen l => exact .inr ⟨rfl, l, rfl⟩
      | none => cases hs
      | list l => cases hs

/-- A validation in the name of a context whose iterators or timestamp have changed meanwhile. -/
theorem Spec.Validated.ctxStep {env : Env} {w : World} {ctx ctx' : Ctx} {t : Option Int} {c : Cert} {chain : List Cert}
    (h : Validated env w ctx' t c chain) (hs : CtxStep ctx ctx') : Validated env w ctx t c chain := by
  obtain ⟨e0, hk, he⟩ := hs
  have est : ctx'.stores = ctx.stores := by rw [e0]
  refine ⟨?_, ?_, ?_, ?_⟩
  · obtain ⟨k, e, h1, h2, h3⟩ := h.answer
    refine ⟨k, e, given_step h1 hk, given_step h2 he, ?_⟩
    rw [← h3, e0]
    rfl
  · rw [← est]; exact h.members
  · obtain ⟨r, hr, e, h1, h2⟩ := h.anchored
    exact ⟨r, by rw [← est]; exact hr, e, given_step h1 he, h2⟩
  · rw [← est]; exact h.loaded

/-! ### loops over candidates -/

theorem forCerts_inv {σ : Type} {env : Env} {q : Query} {body : σ → Cert → M σ} {D T : Nat → Prop} (hb : ∀ a c, Keeps D T (body a c))
    {I : σ → World → Prop} {P : Cert → Prop} {w0 : World} (r : StoreRef)
    (hstep : ∀ a c u a' v, I a u → Frame D T w0 u → q.matches env c = true → LoadedStore u r → c ∈ certsOf u r →
      body a c u = (.ok a', v) → I a' v)
    (l seen : List Cert) (acc : σ) (u : World) (res : List Cert × σ) (v : World)
    (h : forCerts env q body l seen acc u = (.ok res, v)) (hI : I acc u) (hf : Frame D T w0 u) (hld : LoadedStore u r)
    (hl : ∀ c ∈ l, c ∈ certsOf u r) : I res.2 v := by
  induction l generalizing seen acc u with
  | nil =>
    unfold forCerts at h
    rw [M.pure_run] at h
    cases h
    exact hI
  | cons c l ih =>
    unfold forCerts at h
    have hl' : ∀ c ∈ l, c ∈ certsOf u r := fun c hc => hl c (List.mem_cons_of_mem _ hc)
    split at h
    · rename_i hm
      split at h
      · exact ih seen acc u h hI hf hld hl'
      · obtain ⟨a', u', h1, h⟩ := M.bind_eq_ok h
        have hf' := (hb acc c).of_eq h1
        refine ih _ a' u' h (hstep acc c u a' u' hI hf hm hld (hl c (by simp)) h1) (hf.trans hf') (hf'.loadedStore hld) ?_
        intro d hd
        rw [hf'.certsOf hld]
        exact hl' d hd
    · exact ih seen acc u h hI hf hld hl'

theorem forStores_inv {σ : Type} {env : Env} {q : Query} {body : σ → Cert → M σ} {D T : Nat → Prop} (hb : ∀ a c, Keeps D T (body a c))
    {I : σ → World → Prop} {w0 : World} (hIf : ∀ a u v, I a u → Frame (fun _ => False) (fun _ => False) u v → I a v)
    (rs0 : List StoreRef)
    (hstep : ∀ a c u a' v, I a u → Frame D T w0 u → q.matches env c = true → (∃ r ∈ rs0, LoadedStore u r ∧ c ∈ certsOf u r) →
      body a c u = (.ok a', v) → I a' v)
    (rs : List StoreRef) (hsub : ∀ r ∈ rs, r ∈ rs0) (seen : List Cert) (acc : σ) (u : World) (res : σ) (v : World)
    (h : forStores env q body rs seen acc u = (.ok res, v)) (hI : I acc u) (hf : Frame D T w0 u) : I res v := by
  induction rs generalizing seen acc u with
  | nil =>
    unfold forStores at h
    rw [M.pure_run] at h
    cases h
    exact hI
  | cons r rs ih =>
    unfold forStores at h
    obtain ⟨l, u1, h1, h⟩ := M.bind_eq_ok h
    obtain ⟨x, u2, h2, h⟩ := M.bind_eq_ok h
    obtain ⟨e1, e2⟩ := iterStore_ok h1
    have hf1 : Frame D T u u1 := (Keeps.iterStore r).of_eq h1
    have hI1 : I acc u1 := hIf _ _ _ hI ((Keeps.iterStore r).of_eq h1)
    have hI2 := forCerts_inv hb (P := fun _ => True) r
      (fun a c u a' v g1 g2 g3 g4 g5 g6 => hstep a c u a' v g1 g2 g3 ⟨r, hsub r (by simp), g4, g5⟩ g6)
      l seen acc u1 x u2 h2 hI1 (hf.trans hf1) e2 (fun c hc => by rw [← e1]; exact hc)
    have hf2 : Frame D T u1 u2 := (Keeps.forCerts env q hb l seen acc).of_eq h2
    exact ih (fun r hr => hsub r (List.mem_cons_of_mem _ hr)) _ _ _ h hI2 ((hf.trans hf1).trans hf2)

/-- An invariant of a loop over `find_certificates`, in any state. -/
theorem forFind_inv {σ : Type} {env : Env} {cid : Nat} {q : Query} {init : σ} {body : σ → Cert → M σ} {D T : Nat → Prop}
    (hb : ∀ a c, Keeps D T (body a c)) (I : σ → World → Prop) (w : World)
    (hIf : ∀ a u v, I a u → Frame (fun _ => False) (fun _ => False) u v → I a v)
    (hstep : ∀ a c u a' v, I a u → Frame D T w u → q.matches env c = true →
      (∃ r ∈ (w.ctxs cid).stores, LoadedStore u r ∧ c ∈ certsOf u r) → body a c u = (.ok a', v) → I a' v)
    (hI : I init w) {res : σ} {w' : World} (h : forFind env cid q init body w = (.ok res, w')) : I res w' := by
  unfold forFind at h
  rw [M.getCtx_bind] at h
  exact forStores_inv hb hIf (w.ctxs cid).stores hstep _ (fun _ h => h) [] init w res w' h hI (.refl D T w)

/-! ### signers -/

theorem named_query {env : Env} {s : Signer} {c : Cert} :
    ({ issuer := some s.issuer, serial := some s.serial } : Query).matches env c = true ↔
      c.issuer.components = s.issuer.components ∧ c.serial = s.serial := by
  rw [matches_iff]
  constructor
  · intro h; exact ⟨h.issuer _ rfl, h.serial _ rfl⟩
  · rintro ⟨h1, h2⟩
    exact ⟨(by intro n hn; cases hn), (by intro n hn; cases hn; exact h2), (by intro n hn; cases hn; exact h1), (by intro n hn; cases hn)⟩

theorem lifetimeSigning_iff {c : Cert} : lifetimeSigning c = true ↔ LifetimeSigning c := by
  unfold lifetimeSigning LifetimeSigning
  cases c.eku with
  | none => simp
  | some l => simp

theorem loaded_items (s : Store) : ∀ c ∈ s.items, c ∈ (Spec.Store.loaded s).items := by
  intro c hc
  unfold Spec.Store.loaded
  split
  · exact hc
  · exact List.mem_append_left _ hc

theorem Frame.certs_mono {D T : Nat → Prop} {a b : World} (h : Frame D T a b) {r : StoreRef} {c : Cert} (hc : c ∈ Spec.certsOf a r) :
    c ∈ Spec.certsOf b r := by
  cases r with
  | embedded _ => exact hc
  | heap i =>
    show c ∈ (b.stores i).items
    rcases h.stores i with e | e
    · rw [e]; exact hc
    · rw [e]; exact loaded_items _ c hc

theorem Spec.SignedBy.mono {env : Env} {w w' : World} {D T : Nat → Prop} {ctx : Ctx} {s : Signer} {c : Cert}
    (h : SignedBy env w ctx s c) (hf : Frame D T w w') : SignedBy env w' ctx s c := by
  obtain ⟨⟨⟨r, hr, h0⟩, h1, h2⟩, h3⟩ := h
  exact ⟨⟨⟨r, hr, hf.certs_mono h0⟩, h1, h2⟩, h3⟩

theorem validSignature_iff {env : Env} {c : Cert} {sig data : Bytes} {alg : String} {legacy : Bool} :
    c.verifySignature env sig data alg legacy = .ok () ↔ ValidSignature env c sig data alg legacy := by
  unfold ValidSignature Cert.verifySignature
  cases env.loadKey c.spki with
  | error e => simp
  | ok k =>
    simp only [Except.ok.injEq, List.mem_cons, List.not_mem_nil, or_false, exists_eq_left']
    by_cases hk : k = "rsa" ∨ k = "dsa" ∨ k = "ec"
    · rw [if_pos hk]
      simp only [hk, true_and]
      cases env.pkVerify k c.spki sig data alg with
      | ok u => simp
      | error e =>
        simp only [reduceCtorEq, false_or]
        by_cases hl : legacy = true ∧ k = "rsa"
        · obtain ⟨rfl, rfl⟩ := hl
          cases env.rawVerify c.spki sig (env.hash alg data) <;> simp [certErr, raiseNaming_ne_ok]
        · cases legacy <;> simp_all [certErr, raiseNaming_ne_ok]
    · rw [if_neg hk]
      simp only [hk, false_and, iff_false]
      exact raiseNaming_ne_ok _ _ _

theorem verifyIssuerSignature_cases (env : Env) (cid : Nat) (s : Signer) (c : Cert) (w : World) :
    (ValidSignature env c s.encryptedDigest s.encodedAuth s.digestAlg (w.ctxs cid).allowLegacy ∧
      verifyIssuerSignature env cid s c w = (.ok (), w)) ∨
    (¬ ValidSignature env c s.encryptedDigest s.encodedAuth s.digestAlg (w.ctxs cid).allowLegacy ∧
      ∃ e, verifyIssuerSignature env cid s c w = (.error e, w) ∧
        ((e.cls = .signerInfoVerificationError ∧ Textual c.subject) ∨ (e.cls = .typeError ∧ ¬ Textual c.subject) ∨
          (e.is .verificationError = false ∧ env.loadKey c.spki = .error e))) := by
  unfold verifyIssuerSignature
  rw [M.getCtx_bind, ← validSignature_iff]
  cases h : c.verifySignature env s.encryptedDigest s.encodedAuth s.digestAlg (w.ctxs cid).allowLegacy with
  | ok u => exact .inl ⟨rfl, rfl⟩
  | error e =>
    refine .inr ⟨by simp, ?_⟩
    have hcls := verifySignature_error h
    dsimp only
    cases hv : e.is .verificationError with
    | true =>
      rcases raiseNaming_cases (α := Unit) c ⟨.signerInfoVerificationError, "Could not verify the signer of the authenticated attributes"⟩ with
        ⟨ht, hr⟩ | ⟨ht, m, hr⟩
      · exact ⟨_, by simp only [if_true]; rw [hr]; rfl, .inl ⟨rfl, ht⟩⟩
      · exact ⟨_, by simp only [if_true]; rw [hr]; rfl, .inr (.inl ⟨rfl, ht⟩)⟩
    | false =>
      refine ⟨e, rfl, .inr ?_⟩
      rcases hcls with ⟨-, hc⟩ | hc | hc
      · exfalso
        unfold Exc.is at hv
        rw [hc] at hv
        revert hv
        decide
      · exact .inl ⟨hc.2, hc.1⟩
      · exact .inr ⟨hv, hc⟩

/-- The state after `context.timestamp = t`, if `t` is given. -/
def atTime (w : World) (cid : Nat) (t : Option Int) : World :=
  match t with
  | none => w
  | some x => { w with ctxs := fun j => if j = cid then { w.ctxs cid with timestamp := some x } else w.ctxs j }

theorem applySigningTime_run (cid : Nat) (t : Option Int) (w : World) : applySigningTime cid t w = (.ok (), atTime w cid t) := by
  cases t <;> rfl

theorem atTime_timestamp (w : World) (cid : Nat) (t : Option Int) :
    ((atTime w cid t).ctxs cid).timestamp = t.or (w.ctxs cid).timestamp := by
  cases t with
  | none => rfl
  | some x => simp [atTime]

theorem verifyIssuer_run (env : Env) (cid : Nat) (s : Signer) (t : Option Int) (c : Cert) (w : World) :
    (ValidSignature env c s.encryptedDigest s.encodedAuth s.digestAlg (w.ctxs cid).allowLegacy ∧
      verifyIssuer env cid s t c w = ctxVerify env cid c (atTime w cid t)) ∨
    (¬ ValidSignature env c s.encryptedDigest s.encodedAuth s.digestAlg (w.ctxs cid).allowLegacy ∧
      ∃ e, verifyIssuer env cid s t c w = (.error e, w) ∧
        ((e.cls = .signerInfoVerificationError ∧ Textual c.subject) ∨ (e.cls = .typeError ∧ ¬ Textual c.subject) ∨
          (e.is .verificationError = false ∧ env.loadKey c.spki = .error e))) := by
  unfold verifyIssuer
  rcases verifyIssuerSignature_cases env cid s c w with ⟨h1, h2⟩ | ⟨h1, e, h2, h3⟩
  · refine .inl ⟨h1, ?_⟩
    rw [M.bind_ok h2, M.bind_ok (applySigningTime_run cid t w)]
  · refine .inr ⟨h1, e, ?_, h3⟩
    rw [M.bind_error h2]

theorem frame_atTime (w : World) (cid : Nat) (t : Option Int) : Frame (fun j => j = cid) (fun j => j = cid) w (atTime w cid t) :=
  (Keeps.applySigningTime (D := fun j => j = cid) (T := fun j => j = cid) rfl rfl t).of_eq (applySigningTime_run cid t w)

/-- `SignerInfo.verify`, where the time used for a candidate depends on the candidate. -/
theorem signerVerifyWith_sound {env : Env} {cid : Nat} {s : Signer} {tf : Cert → Option Int} {w w' : World}
    {chains : List (List Cert)}
    (h : signerVerifyWith env cid s (fun c => verifyIssuer env cid s (tf c) c) w = (.ok chains, w')) :
    chains ≠ [] ∧ ∀ chain ∈ chains, ∃ c t', SignedBy env w' (w.ctxs cid) s c ∧ Validated env w' (w.ctxs cid) t' c chain ∧
      (∀ x, tf c = some x → t' = some x) ∧
      (tf c = none → t' = (w.ctxs cid).timestamp ∨
        ∃ c' x, SignedBy env w' (w.ctxs cid) s c' ∧ tf c' = some x ∧ t' = some x) := by
  unfold signerVerifyWith at h
  obtain ⟨ch, w1, h1, h⟩ := M.bind_eq_ok h
  cases hem : ch.isEmpty with
  | true => rw [hem] at h; cases (Prod.mk.inj h).1
  | false =>
    rw [hem] at h
    rw [if_neg (by simp), M.pure_run] at h
    cases h
    refine ⟨by intro h; subst h; simp at hem, ?_⟩
    unfold buildChain at h1
    obtain ⟨acc, w2, h2, h1⟩ := M.bind_eq_ok h1
    have hacc : acc.1 = chains ∧ w2 = w' := by
      cases ha : acc.2 with
      | error e => rw [ha] at h1; cases (Prod.mk.inj h1).1
      | none => rw [ha] at h1; exact ⟨by have := (Prod.mk.inj h1).1; injection this, (Prod.mk.inj h1).2⟩
      | false => rw [ha] at h1; exact ⟨by have := (Prod.mk.inj h1).1; injection this, (Prod.mk.inj h1).2⟩
    obtain ⟨hacc, hw2⟩ := hacc
    subst hw2
    have hk : ∀ c, Keeps (fun j => j = cid) (fun j => j = cid) (verifyIssuer env cid s (tf c) c) :=
      fun c => Keeps.verifyIssuer (D := fun j => j = cid) (T := fun j => j = cid) env rfl rfl s (tf c) c
    let TI : World → Prop := fun u => (u.ctxs cid).timestamp = (w.ctxs cid).timestamp ∨
      ∃ c' x, SignedBy env u (w.ctxs cid) s c' ∧ tf c' = some x ∧ (u.ctxs cid).timestamp = some x
    let Q : World → List Cert → Prop := fun u chain =>
      ∃ c t', SignedBy env u (w.ctxs cid) s c ∧ Validated env u (w.ctxs cid) t' c chain ∧
      (∀ x, tf c = some x → t' = some x) ∧
      (tf c = none → t' = (w.ctxs cid).timestamp ∨
        ∃ c' x, SignedBy env u (w.ctxs cid) s c' ∧ tf c' = some x ∧ t' = some x)
    have hQ : ∀ {D T : Nat → Prop} u v chain, Q u chain → Frame D T u v → Q v chain := by
      rintro D T u v chain ⟨c, t', q1, q2, q3, q4⟩ hf
      refine ⟨c, t', q1.mono hf, q2.mono hf, q3, fun hn => ?_⟩
      rcases q4 hn with h | ⟨c', x, h1, h2, h3⟩
      · exact .inl h
      · exact .inr ⟨c', x, h1.mono hf, h2, h3⟩
    have key := forFind_inv (fun a c => Keeps.buildChainBody hk a c)
      (fun a u => (∀ chain ∈ a.1, Q u chain) ∧ TI u) w ?_ ?_ ?_ h2
    · intro chain hchain
      exact key.1 chain (by rw [hacc]; exact hchain)
    · rintro a u v ⟨g1, g2⟩ hf
      refine ⟨fun chain hc => hQ u v chain (g1 chain hc) hf, ?_⟩
      have ht := hf.times cid (fun h => h)
      rcases g2 with g2 | ⟨c', x, g2, g3, g4⟩
      · exact .inl (ht.trans g2)
      · exact .inr ⟨c', x, g2.mono hf, g3, ht.trans g4⟩
    · rintro a c u a' v ⟨g1, g2⟩ hf hm ⟨r, hr, hld, hcr⟩ hbody
      have hleg : (u.ctxs cid).allowLegacy = (w.ctxs cid).allowLegacy := (hf.ctxs cid).allowLegacy
      have hsigned : ValidSignature env c s.encryptedDigest s.encodedAuth s.digestAlg (u.ctxs cid).allowLegacy →
          SignedBy env u (w.ctxs cid) s c := by
        intro hv
        obtain ⟨m1, m2⟩ := named_query.mp hm
        exact ⟨⟨⟨r, hr, hcr⟩, m1, m2⟩, by rw [← hleg]; exact hv⟩
      unfold buildChainBody at hbody
      have hatt : M.attempt (verifyIssuer env cid s (tf c) c) u =
          (.ok (verifyIssuer env cid s (tf c) c u).1, (verifyIssuer env cid s (tf c) c u).2) := rfl
      rw [M.bind_ok hatt] at hbody
      have hfv : Frame (fun j => j = cid) (fun j => j = cid) u (verifyIssuer env cid s (tf c) c u).2 := hk c u
      have hti : TI (verifyIssuer env cid s (tf c) c u).2 := by
        rcases verifyIssuer_run env cid s (tf c) c u with ⟨hv, hrun⟩ | ⟨hv, e, hrun, -⟩
        · have h1 : ((verifyIssuer env cid s (tf c) c u).2.ctxs cid).timestamp = ((atTime u cid (tf c)).ctxs cid).timestamp := by
            rw [hrun]
            exact (Keeps.ctxVerify (D := fun j => j = cid) (T := fun _ => False) env rfl c (atTime u cid (tf c))).times cid (fun h => h)
          rw [atTime_timestamp] at h1
          have htc : (∃ x, tf c = some x) ∨ tf c = none := by cases tf c <;> simp
          rcases htc with ⟨x, htf⟩ | htf
          · refine .inr ⟨c, x, (hsigned hv).mono hfv, htf, h1.trans ?_⟩
            rw [htf]; rfl
          · have h1' : ((verifyIssuer env cid s (tf c) c u).2.ctxs cid).timestamp = (u.ctxs cid).timestamp := by
              rw [h1, htf]; rfl
            rcases g2 with g2 | ⟨c', x, g2, g3, g4⟩
            · exact .inl (h1'.trans g2)
            · exact .inr ⟨c', x, g2.mono hfv, g3, h1'.trans g4⟩
        · have h2 : (verifyIssuer env cid s (tf c) c u).2 = u := by rw [hrun]
          rw [h2]; exact g2
      cases hx : (verifyIssuer env cid s (tf c) c u).1 with
      | error e =>
        rw [hx] at hbody
        simp only at hbody
        split at hbody
        · rw [M.pure_run] at hbody
          cases hbody
          exact ⟨fun chain hc => hQ u _ chain (g1 chain hc) hfv, hti⟩
        · cases (Prod.mk.inj hbody).1
      | ok chain =>
        rw [hx] at hbody
        simp only at hbody
        rw [M.pure_run] at hbody
        cases hbody
        refine ⟨?_, hti⟩
        intro chain' hc'
        rcases List.mem_append.mp hc' with hc' | hc'
        · exact hQ u _ chain' (g1 chain' hc') hfv
        · simp only [List.mem_singleton] at hc'
          subst hc'
          rcases verifyIssuer_run env cid s (tf c) c u with ⟨hv, hrun⟩ | ⟨hv, e, hrun, -⟩
          · rw [hrun] at hx hfv ⊢
            have hval := ctxVerify_validated (show ctxVerify env cid c (atTime u cid (tf c)) =
              (.ok chain', (ctxVerify env cid c (atTime u cid (tf c))).2) from by rw [← hx])
            have hstep : CtxStep (w.ctxs cid) ((atTime u cid (tf c)).ctxs cid) := (hf.ctxs cid).trans ((frame_atTime u cid (tf c)).ctxs cid)
            have hval := hval.ctxStep hstep
            rw [atTime_timestamp] at hval
            refine ⟨c, _, (hsigned hv).mono hfv, hval, ?_, ?_⟩
            · intro x hx; rw [hx]; rfl
            · intro hn
              rw [hn]
              show (u.ctxs cid).timestamp = _ ∨ _
              rcases g2 with g2 | ⟨c', x, g2, g3, g4⟩
              · exact .inl g2
              · rw [hn] at hfv
                exact .inr ⟨c', x, g2.mono hfv, g3, g4⟩
          · rw [hrun] at hx; cases hx
    · exact ⟨by simp, .inl rfl⟩

/-- `SignerInfo.verify` (not the Authenticode one): every chain was validated for the signing time given, or else the time of the
context. -/
theorem signerVerify_sound {env : Env} {cid : Nat} {s : Signer} {t : Option Int} {w w' : World} {chains : List (List Cert)}
    (h : signerVerify env cid s t w = (.ok chains, w')) :
    chains ≠ [] ∧ AllValidated env w' (w.ctxs cid) s (t.or (w.ctxs cid).timestamp) chains := by
  obtain ⟨h1, h2⟩ := signerVerifyWith_sound (tf := fun _ => t) h
  refine ⟨h1, fun chain hc => ?_⟩
  obtain ⟨c, t', g1, g2, g3, g4⟩ := h2 chain hc
  refine ⟨c, g1, ?_⟩
  cases t with
  | some x => rw [g3 x rfl] at g2; exact g2
  | none =>
    rcases g4 rfl with g4 | ⟨c', x, -, g5, -⟩
    · rw [g4] at g2; exact g2
    · cases g5

end Signify
