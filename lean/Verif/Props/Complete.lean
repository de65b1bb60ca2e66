/-
Completeness of verification: a valid signature is accepted, an invalid one is not (C61).
-/
import Verif.Spec.Complete
import Verif.Props.CTL
import Verif.Props.Errors
import Verif.Props.Signer
import Verif.Props.Resign

set_option autoImplicit false

namespace Signify.Props

open Signify Spec

/-! ### Paths -/

theorem _root_.Signify.Spec.Ordinary.withCtxs {w : World} {ctx : Ctx} (h : Ordinary w ctx) (f : Nat → Ctx) : Ordinary { w with ctxs := f } ctx :=
  ⟨⟨h.stores.readable, h.stores.lists⟩, h.names, h.keyUsages, h.ekus, h.objects⟩

theorem certMap_mem {known : List Cert} {c d : Cert} (h : d = c ∨ d ∈ known) : (certMap known c).get? d.obj ≠ none := by
  have key : ∀ (l : List Cert) (acc : Dict Nat Cert), (acc.get? d.obj ≠ none ∨ d ∈ l) →
      (l.foldl (fun d c => d.set c.obj c) acc).get? d.obj ≠ none := by
    intro l
    induction l with
    | nil =>
      rintro acc (h | h)
      · exact h
      · cases h
    | cons e l ih =>
      intro acc h
      rw [List.foldl_cons]
      refine ih _ ?_
      by_cases he : d.obj = e.obj
      · left
        rw [Dict.get?_set, if_pos he]
        simp
      · rcases h with h | h
        · left
          rw [Dict.get?_set, if_neg he]
          exact h
        · rcases List.mem_cons.1 h with h | h
          · subst h; exact absurd rfl he
          · exact .inr h
  refine key known _ ?_
  rcases h with rfl | h
  · left
    simp [Dict.get?]
  · exact .inr h

theorem lookupAll_certMap_of {known : List Cert} {c : Cert} {chain : List Cert}
    (hobj : ∀ d ∈ c :: known, ∀ e ∈ c :: known, d.obj = e.obj → d = e) (h : ∀ d ∈ chain, d = c ∨ d ∈ known) :
    lookupAll (certMap known c) (chain.map Cert.obj) = .ok chain := by
  induction chain with
  | nil => rfl
  | cons d l ih =>
    have hd := h d (by simp)
    rw [List.map_cons]
    unfold lookupAll
    cases hx : (certMap known c).get? d.obj with
    | none => exact absurd hx (certMap_mem hd)
    | some d' =>
      obtain ⟨h1, h2⟩ := certMap_get hx
      have : d' = d := hobj d' (by simpa using h2) d (by simpa using hd) h1
      subst this
      simp only [ih (fun e he => h e (List.mem_cons_of_mem _ he))]

theorem reiterable_of {p : PyIter} (h : ∀ g, p ≠ .gen g) : Reiterable p := by
  unfold Reiterable
  cases p with
  | none => rfl
  | list l => rfl
  | gen l => exact absurd rfl (h l)

theorem _root_.Signify.Spec.Ordinary.readable {w : World} {ctx : Ctx} (h : Ordinary w ctx) : Readable w ctx :=
  fun i hi certs e he => h.stores.readable i certs e hi he

theorem _root_.Signify.Spec.Ordinary.atTime {w : World} {ctx : Ctx} (h : Ordinary w ctx) (t : Option Int) : Ordinary w { ctx with timestamp := t } :=
  ⟨h.stores, h.names, h.keyUsages, h.ekus, h.objects⟩

theorem ctxVerify_complete {env : Env} {w : World} {cid : Nat} {c : Cert} (hl : LibrariesBehave env) (ho : Ordinary w (w.ctxs cid))
    (hn : Textual c.subject) (hc : ∀ d ∈ (w.ctxs cid).stores.flatMap (certsOf (loadedWorld w)), d.obj = c.obj → d = c) (chain : List Cert) :
    (ctxVerify env cid c w).1 = .ok chain ↔ ValidPath env w (w.ctxs cid) c chain := by
  have hf : LoadsFine w cid := fun r hr i hi certs e he => by subst hi; exact ho.stores.readable i certs e hr he
  have hobj : ∀ d ∈ c :: knownCerts (loadedWorld w) cid, ∀ e ∈ c :: knownCerts (loadedWorld w) cid, d.obj = e.obj → d = e := by
    intro d hd e he hde
    rcases List.mem_cons.1 hd with rfl | hd' <;> rcases List.mem_cons.1 he with rfl | he'
    · rfl
    · exact (hc e he' hde.symm).symm
    · exact hc d hd' hde
    · exact ho.objects d hd' e he' hde
  have hekus : Reiterable ((loadedWorld w).ctxs cid).ekus := reiterable_of ho.ekus
  have hkus : Reiterable ((loadedWorld w).ctxs cid).keyUsages := reiterable_of ho.keyUsages
  have hlists : ∀ i, .heap i ∈ ((loadedWorld w).ctxs cid).stores → ∀ ctl, ((loadedWorld w).stores i).ctl = some ctl →
      ctl.algorithm = "sha1" ∨ ctl.algorithm = "sha256" := by
    intro i hi ctl hctl
    refine ho.stores.lists i ctl hi ?_
    rw [← hctl]
    exact ((StoreStep.ctl (s := w.stores i) (s' := (loadedWorld w).stores i) (.inr rfl))).symm
  have htrust : ∀ chain, chain ≠ [] → (∀ d ∈ chain, d = c ∨ ∃ r ∈ (w.ctxs cid).stores, d ∈ certsOf (loadedWorld w) r) → ((ctxVerifyTrust env cid chain (loadedWorld w)).1 = .ok () ↔ ∃ r ∈ (w.ctxs cid).stores,
      StoreAccepts env (loadedWorld w) r chain (w.ctxs cid).ekus.elems ((w.ctxs cid).timestamp.getD env.now)) := by
    intro chain hne hmem
    refine (C37_iff_partial env cid chain hne (loadedWorld w) (fun root hroot => ?_) ho.ekus hlists).1
    rcases hmem root (List.mem_of_mem_head? hroot) with h | ⟨r, hr, hd⟩
    · rw [h]; exact hn
    · exact ho.names r hr _ hd
  rw [ctxVerify_loading env cid c w hf, ctxVerify_loaded env cid c _ (fun r _ => loadedWorld_loadedStore w r), exhaust_of hekus hkus]
  cases hm : env.mkValidator { request (loadedWorld w) cid c with keyUsages := [], ekus := [] } with
  | error e => exact absurd hm (hl.validators _ _)
  | ok u =>
    simp only
    have hreq : request (loadedWorld w) cid c = requestFor (loadedWorld w) (w.ctxs cid) c := rfl
    cases hv : env.validate (request (loadedWorld w) cid c) with
    | error e =>
      simp only
      constructor
      · intro h; exact absurd h (raiseNaming_ne_ok _ _ _)
      · intro h
        have := h.answer
        rw [← hreq, hv] at this
        cases this
    | ok ids =>
      have hids : ids ≠ [] := fun h => hl.nonempty _ (h ▸ hv)
      simp only
      cases hlk : lookupAll (certMap (knownCerts (loadedWorld w) cid) c) ids with
      | error e =>
        simp only
        constructor
        · intro h; cases h
        · intro h
          have := h.answer
          rw [← hreq, hv] at this
          injection this with this
          subst this
          rw [lookupAll_certMap_of hobj ?_] at hlk
          · cases hlk
          · intro d hd
            rcases h.members d hd with h | ⟨r, hr, hdr⟩
            · exact .inl h
            · exact .inr (List.mem_flatMap.2 ⟨r, hr, hdr⟩)
      | ok chain' =>
        simp only
        obtain ⟨h1, h2⟩ := lookupAll_certMap hlk
        have hne' : chain' ≠ [] := fun h => hids (by rw [← h1, h]; rfl)
        have hmem : ∀ d ∈ chain', d = c ∨ ∃ r ∈ (w.ctxs cid).stores, d ∈ certsOf (loadedWorld w) r := by
          intro d hd
          rcases h2 d hd with h | h
          · exact .inl h
          · exact .inr (List.mem_flatMap.1 h)
        have hvp : chain = chain' → (ValidPath env w (w.ctxs cid) c chain ↔ (ctxVerifyTrust env cid chain' (loadedWorld w)).1 = .ok ()) := by
          rintro rfl
          constructor
          · intro h
            exact (htrust _ hne' hmem).2 h.anchored
          · intro h
            exact ⟨by rw [← hreq, hv, h1], hmem, (htrust _ hne' hmem).1 h⟩
        constructor
        · intro h
          rw [M.bind_run] at h
          rcases hx : ctxVerifyTrust env cid chain' (loadedWorld w) with ⟨r, w1⟩
          rw [hx] at h
          cases r with
          | error e => cases h
          | ok _ =>
            have e : chain = chain' := by
              simp only at h
              injection h with h
              exact h.symm
            refine (hvp e).2 ?_
            rw [hx]
        · intro h
          have e : chain = chain' := by
            have := h.answer
            rw [← hreq, hv] at this
            injection this with this
            subst this
            rw [lookupAll_certMap_of hobj ?_] at hlk
            · injection hlk
            · intro d hd
              rcases h.members d hd with h | ⟨r, hr, hdr⟩
              · exact .inl h
              · exact .inr (List.mem_flatMap.2 ⟨r, hr, hdr⟩)
          have h' := (hvp e).1 h
          rw [M.bind_run]
          rcases hx : ctxVerifyTrust env cid chain' (loadedWorld w) with ⟨r, w1⟩
          rw [hx] at h'
          simp only at h'
          subst h'
          simp only
          rw [e]
          rfl

/-- `context.verify(c)` returns a chain iff that chain is a valid path for `c`. -/
theorem C61_context (env : Env) (w : World) (ctx : Ctx) (c : Cert) (hl : LibrariesBehave env) (ho : Ordinary w ctx)
    (hn : Textual c.subject) (hc : ∀ d ∈ ctx.stores.flatMap (certsOf (loadedWorld w)), d.obj = c.obj → d = c) (chain : List Cert) :
    InContext w ctx (fun i => ctxVerify env i c) (.ok chain) ↔ ValidPath env w ctx c chain := by
  constructor
  · rintro ⟨i, v, h1, rfl, h3⟩
    have hlw : certsOf (loadedWorld v) = certsOf (loadedWorld w) := by
      funext r
      cases r with
      | embedded _ => rfl
      | heap i => simp [certsOf, loadedWorld, h1]
    have hst : (loadedWorld v).stores = (loadedWorld w).stores := by simp [loadedWorld, h1]
    have ho' : Ordinary v (v.ctxs i) :=
      ⟨⟨fun j certs e hj he => ho.stores.readable j certs e hj (by rw [← h1]; exact he),
        fun j ctl hj hctl => ho.stores.lists j ctl hj (by rw [← h1]; exact hctl)⟩,
       fun r hr d hd => ho.names r hr d (by rw [← hlw]; exact hd), ho.keyUsages, ho.ekus,
       by rw [hlw]; exact ho.objects⟩
    have := (ctxVerify_complete hl ho' hn (by rw [hlw]; exact hc) chain).1 h3
    have htr : storeTrusted (loadedWorld v) = storeTrusted (loadedWorld w) := by
      funext r
      cases r with
      | embedded _ => rfl
      | heap i => simp [storeTrusted, hst]
    refine ⟨?_, ?_, ?_⟩
    · rw [← this.answer]
      simp only [requestFor, hlw, htr]
    · rw [← hlw]; exact this.members
    · obtain ⟨r, hr, i', root, h4⟩ := this.anchored
      refine ⟨r, hr, i', root, ?_⟩
      rw [← hst]; exact h4
  · intro h
    refine ⟨0, { w with ctxs := fun _ => ctx }, rfl, rfl, ?_⟩
    exact (ctxVerify_complete (w := { w with ctxs := fun _ => ctx }) (cid := 0) hl (ho.withCtxs _) hn hc chain).2
      ⟨h.answer, h.members, h.anchored⟩

/-! ### Signers -/

theorem candidates_known {w : World} {ctx : Ctx} {s : Signer} {cands : List Cert} (h : Candidates w ctx s cands) {c : Cert}
    (hc : c ∈ cands) : c ∈ ctx.stores.flatMap (certsOf (loadedWorld w)) := h.ordered.subset hc

theorem candidates_unique {w : World} {ctx : Ctx} {s : Signer} {l l' : List Cert} (h : Candidates w ctx s l) (h' : Candidates w ctx s l') :
    l = l' := firstOccurrences_unique h h'

/-- The outcome for a candidate is a chain iff it made the signature and the chain is a valid path; and it is no unexpected error. -/
theorem candidate_iff {env : Env} {w : World} {ctx : Ctx} {s : Signer} {t : Option Int} {c : Cert} {r : Except Exc (List Cert)}
    (hl : LibrariesBehave env) (ho : Ordinary w ctx) (hc : c ∈ ctx.stores.flatMap (certsOf (loadedWorld w)))
    (h : CandidateOutcome env w ctx s t c r) :
    (∀ chain, r = .ok chain ↔ ValidSignature env c s.encryptedDigest s.encodedAuth s.digestAlg ctx.allowLegacy ∧
      ValidPath env w { ctx with timestamp := t.or ctx.timestamp } c chain) ∧ Regular r := by
  have hobj : ∀ d ∈ ctx.stores.flatMap (certsOf (loadedWorld w)), d.obj = c.obj → d = c := fun d hd he => ho.objects d hd c hc he
  have ho' := ho.atTime (t.or ctx.timestamp)
  have hn : Textual c.subject := by
    obtain ⟨r, hr, hd⟩ := List.mem_flatMap.1 hc
    exact ho.names r hr c hd
  cases h with
  | badSignature e h1 h2 =>
    refine ⟨fun chain => ⟨fun h => (by cases h), fun h => absurd h.1 h1⟩, ?_⟩
    rintro e' he'
    cases he'
    rcases h2 with ⟨h2, -⟩ | ⟨-, h2⟩ | ⟨-, h2⟩
    · rw [isinstance_iff]
      rw [h2]; decide
    · exact absurd hn h2
    · exact absurd h2 (hl.keys _ _)
  | goodSignature r h1 h2 =>
    constructor
    · intro chain
      rw [← C61_context env w _ c hl ho' hn hobj chain]
      constructor
      · rintro rfl; exact ⟨h1, h2⟩
      · rintro ⟨-, h⟩
        exact inContext_unique (Uniform.ctxVerify env c) ho'.readable h2 h
    · rintro e rfl
      obtain ⟨i, v, hv1, hv2, hv3⟩ := h2
      have hs : StoresBehave v (v.ctxs i).stores := by
        rw [hv2]
        exact ⟨fun j certs e hj he => ho.stores.readable j certs e hj (by rw [← hv1]; exact he),
          fun j ctl hj hctl => ho.stores.lists j ctl hj (by rw [← hv1]; exact hctl)⟩
      have hp : NamesPrint v (v.ctxs i).stores := by
        rw [hv2]
        intro r hr d hd
        refine ho.names r hr d ?_
        cases r with
        | embedded _ => exact hd
        | heap j => simpa [certsOf, loadedWorld, hv1] using hd
      exact (isinstance_iff _ _).2 (C56_behaved_partial env i v hl hs hp e (.inl ⟨c, hn, hv3⟩))

theorem verdict_ok_iff {os : List (Except Exc (List Cert))} {r : Except Exc (List (List Cert))} (h : Verdict os r)
    (hreg : ∀ o ∈ os, Regular o) : (∃ chains, r = .ok chains) ↔ ∃ chain, .ok chain ∈ os := by
  constructor
  · rintro ⟨chains, rfl⟩
    obtain ⟨h1, h2⟩ := (C35_verdict_meaning os _ h hreg).1 chains rfl
    cases chains with
    | nil => exact absurd rfl h1
    | cons x l =>
      have : x ∈ os.filterMap Except.toOption := by rw [← h2]; simp
      obtain ⟨o, ho, hox⟩ := List.mem_filterMap.1 this
      cases o with
      | error e => cases hox
      | ok y => cases hox; exact ⟨_, ho⟩
  · exact (C35_verdict_meaning os r h hreg).2.1

/-- `SignerInfo.verify` (for `SignerInfo`, `CounterSignerInfo` and `RFC3161SignerInfo`) succeeds iff the signer holds, at the time given
if one is given. -/
theorem C61_signer (env : Env) (w : World) (ctx : Ctx) (s : Signer) (t : Option Int) (hl : LibrariesBehave env) (ho : Ordinary w ctx) :
    (∃ chains, InContext w ctx (fun i => signerVerify env i s t) (.ok chains)) ↔
      SignerHolds env w { ctx with timestamp := t.or ctx.timestamp } s := by
  obtain ⟨cands, hc, -⟩ := C35_candidates w ctx s
  let v : World := { w with ctxs := fun _ => ctx }
  obtain ⟨os, h1, h2, h3⟩ := C35_verdict_partial env 0 s t v ho.readable (reiterable_of ho.keyUsages) (reiterable_of ho.ekus) cands hc
  have hv : Ordinary v ctx := ho.withCtxs _
  have hcand : ∀ p ∈ os, (∀ chain, p.2 = .ok chain ↔ ValidSignature env p.1 s.encryptedDigest s.encodedAuth s.digestAlg ctx.allowLegacy ∧
      ValidPath env v { ctx with timestamp := t.or ctx.timestamp } p.1 chain) ∧ Regular p.2 := by
    intro p hp
    have hpc : p.1 ∈ cands := by rw [← h1]; exact List.mem_map_of_mem hp
    exact candidate_iff hl hv (candidates_known (w := v) hc hpc) (h2 p hp)
  have hreg : ∀ o ∈ os.map Prod.snd, Regular o := by
    intro o hom
    obtain ⟨p, hp, rfl⟩ := List.mem_map.1 hom
    exact (hcand p hp).2
  have hiff := verdict_ok_iff h3 hreg
  have hin : (∃ chains, InContext w ctx (fun i => signerVerify env i s t) (.ok chains)) ↔ ∃ chains, (signerVerify env 0 s t v).1 = .ok chains := by
    constructor
    · rintro ⟨chains, h⟩
      exact ⟨chains, inContext_run (Uniform.signerVerify env s t) ho.readable h rfl (fun _ => .inl rfl)⟩
    · rintro ⟨chains, h⟩
      exact ⟨chains, 0, v, rfl, rfl, h⟩
  rw [hin, hiff]
  constructor
  · rintro ⟨chain, hm⟩
    obtain ⟨p, hp, hpc⟩ := List.mem_map.1 hm
    obtain ⟨k1, k2⟩ := ((hcand p hp).1 chain).1 hpc
    exact ⟨cands, p.1, chain, hc, by rw [← h1]; exact List.mem_map_of_mem hp, k1, ⟨k2.answer, k2.members, k2.anchored⟩⟩
  · rintro ⟨cands', c, chain, hc', hcm, k1, k2⟩
    have : cands' = cands := candidates_unique (w := w) (ctx := ctx) hc' hc
    subst this
    rw [← h1] at hcm
    obtain ⟨p, hp, rfl⟩ := List.mem_map.1 hcm
    refine ⟨chain, List.mem_map.2 ⟨p, hp, ((hcand p hp).1 chain).2 ⟨k1, ⟨k2.answer, k2.members, k2.anchored⟩⟩⟩⟩

/-- Likewise `AuthenticodeSignerInfo.verify`, where lifetime signing certificates are judged without the time. -/
theorem C61_authenticode_signer (env : Env) (w : World) (ctx : Ctx) (s : Signer) (t : Option Int) (hl : LibrariesBehave env)
    (ho : Ordinary w ctx) :
    (∃ chains, InContext w ctx (fun i => authSignerVerify env i s t) (.ok chains)) ↔ FileSignerHolds env w ctx s t := by
  obtain ⟨cands, hc, -⟩ := C35_candidates w ctx s
  let v : World := { w with ctxs := fun _ => ctx }
  obtain ⟨os, h1, h2, h3⟩ := C32_exact_partial env 0 s t v ho.readable (reiterable_of ho.keyUsages) (reiterable_of ho.ekus) cands hc
  have hv : Ordinary v ctx := ho.withCtxs _
  -- the time that each candidate is judged at
  have hcand : ∀ pre p post, os = pre ++ p :: post → ∃ u : Option Int,
      ((∃ d ∈ pre.map Prod.fst ++ [p.1], ValidSignature env d s.encryptedDigest s.encodedAuth s.digestAlg ctx.allowLegacy ∧ ¬ LifetimeSigning d) →
        u = t) ∧
      ((∀ d ∈ pre.map Prod.fst ++ [p.1], ValidSignature env d s.encryptedDigest s.encodedAuth s.digestAlg ctx.allowLegacy → LifetimeSigning d) →
        u = none) ∧
      (∀ chain, p.2 = .ok chain ↔ ValidSignature env p.1 s.encryptedDigest s.encodedAuth s.digestAlg ctx.allowLegacy ∧
        ValidPath env v { ctx with timestamp := u.or ctx.timestamp } p.1 chain) ∧ Regular p.2 := by
    intro pre p post hos
    have hpc : p.1 ∈ cands := by rw [← h1, hos]; simp
    by_cases hx : ∃ d ∈ pre.map Prod.fst ++ [p.1], ValidSignature env d s.encryptedDigest s.encodedAuth s.digestAlg ctx.allowLegacy ∧
        ¬ LifetimeSigning d
    · refine ⟨t, fun _ => rfl, fun h => ?_, candidate_iff hl hv (candidates_known (w := v) hc hpc) ((h2 pre p post hos).1 hx)⟩
      obtain ⟨d, hd, hv, hn⟩ := hx
      exact absurd (h d hd hv) hn
    · exact ⟨none, fun h => absurd h hx, fun _ => rfl, candidate_iff hl hv (candidates_known (w := v) hc hpc) ((h2 pre p post hos).2 hx)⟩
  have hreg : ∀ o ∈ os.map Prod.snd, Regular o := by
    intro o hom
    obtain ⟨p, hp, rfl⟩ := List.mem_map.1 hom
    obtain ⟨pre, post, hos⟩ := List.append_of_mem hp
    obtain ⟨u, -, -, -, hr⟩ := hcand pre p post hos
    exact hr
  have hiff := verdict_ok_iff h3 hreg
  have hin : (∃ chains, InContext w ctx (fun i => authSignerVerify env i s t) (.ok chains)) ↔
      ∃ chains, (authSignerVerify env 0 s t v).1 = .ok chains := by
    constructor
    · rintro ⟨chains, h⟩
      exact ⟨chains, inContext_run (Uniform.authSignerVerify env s t) ho.readable h rfl (fun _ => .inl rfl)⟩
    · rintro ⟨chains, h⟩
      exact ⟨chains, 0, v, rfl, rfl, h⟩
  rw [hin, hiff]
  constructor
  · rintro ⟨chain, hm⟩
    obtain ⟨p, hp, hpc⟩ := List.mem_map.1 hm
    obtain ⟨pre, post, hos⟩ := List.append_of_mem hp
    obtain ⟨u, hu1, hu2, hu3, -⟩ := hcand pre p post hos
    obtain ⟨k1, k2⟩ := (hu3 chain).1 hpc
    refine ⟨pre.map Prod.fst, p.1, post.map Prod.fst, chain, u.or ctx.timestamp, ?_, k1, ?_, ?_, ⟨k2.answer, k2.members, k2.anchored⟩⟩
    · rw [hos, List.map_append] at h1
      rw [← h1] at hc
      exact hc
    · intro h; rw [hu1 h]
    · intro h; rw [hu2 h]; rfl
  · rintro ⟨pre', c, post', chain, time, hc', k1, ht1, ht2, k2⟩
    have : pre' ++ c :: post' = cands := candidates_unique hc' hc
    rw [← h1] at this
    obtain ⟨pre, l2, hos, e1, e2⟩ := List.map_eq_append_iff.1 this.symm
    obtain ⟨p, post, rfl, rfl, -⟩ := List.map_eq_cons_iff.1 e2
    subst e1
    obtain ⟨u, hu1, hu2, hu3, -⟩ := hcand pre p post hos
    have : time = u.or ctx.timestamp := by
      by_cases hx : ∃ d ∈ pre.map Prod.fst ++ [p.1], ValidSignature env d s.encryptedDigest s.encodedAuth s.digestAlg ctx.allowLegacy ∧
          ¬ LifetimeSigning d
      · rw [ht1 hx, hu1 hx]
      · have hx' : ∀ d ∈ pre.map Prod.fst ++ [p.1], ValidSignature env d s.encryptedDigest s.encodedAuth s.digestAlg ctx.allowLegacy →
            LifetimeSigning d := fun d hd hv => Classical.byContradiction fun hn => hx ⟨d, hd, hv, hn⟩
        rw [ht2 hx', hu2 hx']
        rfl
    subst this
    exact ⟨chain, List.mem_map.2 ⟨p, by rw [hos]; simp, (hu3 chain).2 ⟨k1, ⟨k2.answer, k2.members, k2.anchored⟩⟩⟩⟩

/-! ### Signatures -/

theorem counterPasses_iff {env : Env} {w : World} {a : AuthData} {c : CounterSigner} {args : VerifyArgs} (hl : LibrariesBehave env)
    (ho : Ordinary w (counterContext w a c args)) : CounterPasses env w a c args ↔ CounterHolds env w a args c := by
  have ho' := ho.atTime c.signingTime
  unfold CounterPasses
  cases c with
  | pkcs9 i =>
    have hs := C61_signer env w { counterContext w a (.pkcs9 i) args with timestamp := i.signer.signingTime } i.signer none hl ho'
    show ((some (env.hash i.signer.digestAlg a.signer.encryptedDigest) == i.signer.messageDigest) = true ∧ _) ↔ _
    rw [beq_iff_eq, eq_comm]
    exact and_congr_right (fun _ => hs)
  | rfc3161 r =>
    show (env.hash r.tst.hashAlg a.signer.encryptedDigest == r.tst.messageDigest) = true ∧ _ ↔ _
    have hs := C61_signer env w { counterContext w a (.rfc3161 r) args with timestamp := some r.tst.signingTime } r.signer none hl ho'
    rw [beq_iff_eq, eq_comm]
    show _ ↔ r.tst.messageDigest = env.hash r.tst.hashAlg a.signer.encryptedDigest ∧
      r.signer.messageDigest = some (env.hash r.core.digestAlg r.core.content) ∧ _
    refine and_congr_right (fun _ => ?_)
    rw [show SignerHolds env w { counterContext w a (.rfc3161 r) args with timestamp := some r.tst.signingTime } r.signer ↔ _ from hs.symm]
    by_cases hd : r.signer.messageDigest = some (env.hash r.core.digestAlg r.core.content)
    · have e : ∀ i, (CounterSigner.rfc3161 r).verify env i = signerVerify env i r.signer none := by
        intro i
        show rfcVerify env r (some i) (.embedded []) = _
        unfold rfcVerify
        rw [if_neg (by rw [hd]; simp [SDCore.contentDigest])]
        rfl
      simp only [e, hd, true_and]
      exact Iff.rfl
    · constructor
      · rintro ⟨chains, i, v, -, -, h⟩
        exfalso
        change (rfcVerify env r (some i) (.embedded []) v).1 = _ at h
        unfold rfcVerify at h
        rw [if_pos (by simp only [SDCore.contentDigest]; exact fun h => hd h.symm)] at h
        cases h
      · rintro ⟨h, -⟩; exact absurd h hd

/-- `AuthenticodeSignedData.verify` succeeds iff the signature holds. -/
theorem C61_signature (env : Env) (file : Option Bytes) (a : AuthData) (args : VerifyArgs) (w : World) (hl : LibrariesBehave env)
    (ho : OrdinaryCall w a args) :
    (∃ chains, (asdVerify env file a args w).1 = .ok chains) ↔ SignatureHolds env file w a args := by
  have hsig := fun t => C61_authenticode_signer env w (signerContext w a args) a.signer t hl ho.signer
  have hex : ∀ chains, (asdVerify env file a args w).1 = .ok chains ↔ _ :=
    C28_exact env file a args w ho.exist ho.separate ho.signer.readable (fun c hc => (ho.counter c hc).readable)
  have hfails : ∀ c, a.counter = some c → (CounterFails env w a c args ↔ ¬ CounterHolds env w a args c) := by
    intro c hc
    rw [← counterPasses_iff hl (ho.counter c hc)]
    rcases counter_dichotomy (env := env) (ho.counter c hc).readable with ⟨h1, h2⟩ | ⟨h1, h2⟩
    · exact ⟨fun h => absurd h h2, fun h => absurd h1 h⟩
    · exact ⟨fun _ => h2, fun _ => h1⟩
  constructor
  · rintro ⟨chains, h⟩
    obtain ⟨hd, h⟩ := (hex chains).1 h
    refine ⟨hd, ?_⟩
    rcases h with ⟨h1, h2⟩ | ⟨c, hc, h1, h2, h3⟩ | ⟨c, hc, h1, h2, h3, h4⟩
    · exact .inl ⟨h1, (hsig none).1 ⟨chains, h2⟩⟩
    · exact .inr ⟨c, hc, h1, .inl ⟨(counterPasses_iff hl (ho.counter c hc)).1 h2, (hsig _).1 ⟨chains, h3⟩⟩⟩
    · exact .inr ⟨c, hc, h1, .inr ⟨(hfails c hc).1 h3, h2, (hsig none).1 ⟨chains, h4⟩⟩⟩
  · rintro ⟨hd, h⟩
    rcases h with ⟨h1, h2⟩ | ⟨c, hc, h1, ⟨h2, h3⟩ | ⟨h2, h3, h4⟩⟩
    · obtain ⟨chains, h⟩ := (hsig none).2 h2
      exact ⟨chains, (hex chains).2 ⟨hd, .inl ⟨h1, h⟩⟩⟩
    · obtain ⟨chains, h⟩ := (hsig _).2 h3
      exact ⟨chains, (hex chains).2 ⟨hd, .inr (.inl ⟨c, hc, h1, (counterPasses_iff hl (ho.counter c hc)).2 h2, h⟩)⟩⟩
    · obtain ⟨chains, h⟩ := (hsig none).2 h4
      exact ⟨chains, (hex chains).2 ⟨hd, .inr (.inr ⟨c, hc, h1, h3, (hfails c hc).2 h2, h⟩)⟩⟩

/-! ### Files -/

theorem alone_ok_iff {env : Env} {file : Bytes} {provided : Dict String Bytes} {kwargs : VerifyArgs} {w : World} {a : ASD}
    (hl : LibrariesBehave env) (ho : OrdinaryCall w a.d kwargs) :
    (∃ c, Alone env file provided kwargs w a (.ok c)) ↔ HoldsInFile env file provided kwargs w a := by
  have ho' : ∀ d, OrdinaryCall w a.d { kwargs with expectedHash := some d } :=
    fun d => ⟨⟨ho.exist.context, ho.exist.csContext⟩, ho.separate, ho.signer, ho.counter⟩
  constructor
  · rintro ⟨c, d, h1, h2⟩
    exact ⟨d, h1, (C61_signature env (some file) a.d _ w hl (ho' d)).1 ⟨c, h2⟩⟩
  · rintro ⟨d, h1, h2⟩
    obtain ⟨c, h⟩ := (C61_signature env (some file) a.d _ w hl (ho' d)).2 h2
    exact ⟨c, d, h1, h⟩

/-- `SignedPEFile.verify` called without contexts: in mode 'any' it succeeds iff one of the signatures holds, in mode 'all' iff all do, in
mode 'first' iff the first one does, in mode 'best' iff one of those with the strongest algorithm does. -/
theorem C61_file (env : Env) (cd : Codec) (file : Bytes) (args : PEVerifyArgs) (w : World) (a : ASD) (l : List ASD)
    (hl : LibrariesBehave env) (hp : PlainCall w args) (hc : Considered cd file args.ignoreParseErrors (a :: l))
    (ho : ∀ b ∈ a :: l, OrdinaryCall w b.d args.kwargs) :
    (args.multiVerifyMode = "any" → ((∃ res, (peVerify env cd file args w).1 = .ok res) ↔
      ∃ b ∈ a :: l, HoldsInFile env file (providedBy w args) args.kwargs w b)) ∧
    (args.multiVerifyMode = "all" → ((∃ res, (peVerify env cd file args w).1 = .ok res) ↔
      ∀ b ∈ a :: l, HoldsInFile env file (providedBy w args) args.kwargs w b)) ∧
    (args.multiVerifyMode = "first" → ((∃ res, (peVerify env cd file args w).1 = .ok res) ↔
      HoldsInFile env file (providedBy w args) args.kwargs w a)) ∧
    (args.multiVerifyMode = "best" → ((∃ res, (peVerify env cd file args w).1 = .ok res) ↔
      ∃ b ∈ a :: l, Strongest (a :: l) b ∧ HoldsInFile env file (providedBy w args) args.kwargs w b)) := by
  have hf := hp.historyFree env file
  have hal := fun b (hb : b ∈ a :: l) => alone_ok_iff (env := env) (file := file) (provided := providedBy w args) hl (ho b hb)
  -- the first success among some signatures
  have hfirst : ∀ (sel : List ASD), (∀ b ∈ sel, b ∈ a :: l) →
      (∀ e, (peVerify env cd file args w).1 = .error e → ∃ pre b, sel = pre ++ [b] ∧
        (∀ x ∈ pre, ∃ e', Alone env file (providedBy w args) args.kwargs w x (.error e')) ∧
        Alone env file (providedBy w args) args.kwargs w b (.error e)) →
      (∃ b ∈ sel, HoldsInFile env file (providedBy w args) args.kwargs w b) → ∃ res, (peVerify env cd file args w).1 = .ok res := by
    rintro sel hsel herr ⟨b, hb, hh⟩
    cases hx : (peVerify env cd file args w).1 with
    | ok res => exact ⟨res, rfl⟩
    | error e =>
      obtain ⟨pre, x, h1, h2, h3⟩ := herr e hx
      obtain ⟨c, hac⟩ := (hal b (hsel b hb)).2 hh
      rw [h1] at hb
      rcases List.mem_append.1 hb with hb | hb
      · obtain ⟨e', he'⟩ := h2 b hb
        cases alone_unique hac he'
      · rw [List.mem_singleton] at hb
        subst hb
        cases alone_unique hac h3
  refine ⟨fun hm => ?_, fun hm => ?_, fun hm => ?_, fun hm => ?_⟩
  · obtain ⟨h1, h2⟩ := C16_any env cd file args w (a :: l) hm hc (by simp) hp.names hf
    constructor
    · rintro ⟨res, h⟩
      obtain ⟨pre, b, post, c, hs, -, hb, -⟩ := (h1 res).1 h
      have hm : b ∈ a :: l := by rw [hs]; simp
      exact ⟨b, hm, (hal b hm).1 ⟨c, hb⟩⟩
    · exact hfirst (a :: l) (fun _ h => h) (fun e he => (h2 e).1 he)
  · obtain ⟨h1, h2⟩ := C16_all env cd file args w (a :: l) hm hc (by simp) hp.names hf
    constructor
    · rintro ⟨res, h⟩ b hb
      obtain ⟨hs, hr⟩ := (h1 res).1 h
      rw [← hs] at hb
      obtain ⟨p, hpm, rfl⟩ := List.mem_map.1 hb
      rw [hs] at hb
      exact (hal _ hb).1 ⟨_, hr p hpm⟩
    · intro hall
      cases hx : (peVerify env cd file args w).1 with
      | ok res => exact ⟨res, rfl⟩
      | error e =>
        obtain ⟨pre, b, post, hs, -, hb⟩ := (h2 e).1 hx
        have hm : b ∈ a :: l := by rw [hs]; simp
        obtain ⟨c, hac⟩ := (hal b hm).2 (hall b hm)
        cases alone_unique hac hb
  · obtain ⟨h1, h2⟩ := C16_first env cd file args w hm a l hc hp.names hf
    constructor
    · rintro ⟨res, h⟩
      obtain ⟨c, hac, -⟩ := (h1 res).1 h
      exact (hal a (by simp)).1 ⟨c, hac⟩
    · intro hh
      obtain ⟨c, hac⟩ := (hal a (by simp)).2 hh
      exact ⟨_, (h1 _).2 ⟨c, hac, rfl⟩⟩
  · obtain ⟨sel, hs1, -, hs2, h1, h2⟩ := C16_best env cd file args w (a :: l) hm hc (by simp) hp.names hf
    constructor
    · rintro ⟨res, h⟩
      obtain ⟨pre, b, post, c, hs, -, hb, -⟩ := (h1 res).1 h
      have hm : b ∈ sel := by rw [hs]; simp
      have hm' := hs1.subset hm
      exact ⟨b, hm', (hs2 b hm').1 hm, (hal b hm').1 ⟨c, hb⟩⟩
    · rintro ⟨b, hb, hst, hh⟩
      exact hfirst sel (fun x hx => hs1.subset hx) (fun e he => (h2 e).1 he) ⟨b, (hs2 b hb).2 hst, hh⟩

/-! ### Examples -/

theorem exOrdinary (certs more : List Cert) (ekus : List String)
    (h : (∀ d ∈ exRoot :: (certs ++ more), Textual d.subject) ∧
      ∀ d ∈ exRoot :: (certs ++ more), ∀ e ∈ exRoot :: (certs ++ more), d.obj = e.obj → d = e) :
    Ordinary exWorld (contextOf [.heap 0, .embedded certs, .embedded more] ekus {}) := by
  have e : (contextOf [.heap 0, .embedded certs, .embedded more] ekus {}).stores.flatMap (certsOf (loadedWorld exWorld)) =
      exRoot :: (certs ++ more) := by
    simp [contextOf, certsOf, loadedWorld, exWorld, exStoreT, Spec.Store.loaded]
  refine ⟨⟨?_, ?_⟩, fun r hr d hd => ?_, fun _ h => (by cases h), fun _ h => (by cases h), ?_⟩
  · intro i c e hi he
    simp only [exWorld] at he
    split at he <;> cases he
  · intro i ctl hi he
    simp only [exWorld] at he
    split at he <;> cases he
  · refine h.1 d ?_
    rw [← e]
    exact List.mem_flatMap.2 ⟨r, hr, hd⟩
  · rw [e]
    exact h.2

theorem exOrdinary' (certs : List Cert) (ekus : List String) 
    (h : (∀ d ∈ exRoot :: certs, Textual d.subject) ∧ ∀ d ∈ exRoot :: certs, ∀ e ∈ exRoot :: certs, d.obj = e.obj → d = e) :
    Ordinary exWorld (contextOf [.heap 0, .embedded certs] ekus {}) := by
  have := exOrdinary certs [] ekus (by rwa [List.append_nil])
  refine ⟨⟨fun i c e hi he => this.stores.readable i c e (by simpa [contextOf] using hi) he,
    fun i ctl hi he => this.stores.lists i ctl (by simpa [contextOf] using hi) he⟩,
    fun r hr d hd => this.names r (by
      have hr : r ∈ [.heap 0, .embedded certs] := hr
      exact List.mem_append_left [.embedded []] hr) d hd, this.keyUsages, this.ekus, ?_⟩
  have e : (contextOf [.heap 0, .embedded certs] ekus {}).stores.flatMap (certsOf (loadedWorld exWorld)) =
      exRoot :: certs := by
    simp [contextOf, certsOf, loadedWorld, exWorld, exStoreT, Spec.Store.loaded]
  rw [e]
  exact h.2

/-- The countersigned signature of the examples is an ordinary one ... -/
theorem exOrdinaryCall (counter : Option CounterSigner) (hc : counter = none ∨ counter = some exCounter ∨ counter = some exRfc ∨ counter = some exBadCounter)
    (mode : String) : OrdinaryCall exWorld (exAuth exCerts counter) { exArgs with countersignatureMode := mode } := by
  refine ⟨⟨fun _ h => (by cases h), fun _ h => (by cases h)⟩, .inl rfl, exOrdinary' exCerts _ (by decide +kernel), ?_⟩
  intro c hcc
  change counter = some c at hcc
  subst hcc
  rcases hc with hc | hc | hc | hc
  · cases hc
  · cases hc; exact exOrdinary' _ _ (by decide +kernel)
  · cases hc; exact exOrdinary _ _ _ (by decide +kernel)
  · cases hc; exact exOrdinary' _ _ (by decide +kernel)

theorem toOption_isSome {α : Type} {x : Except Exc α} (h : x.toOption.isSome = true) : ∃ a, x = .ok a := by
  cases x with
  | ok a => exact ⟨a, rfl⟩
  | error e => cases h

theorem toOption_isNone {α : Type} {x : Except Exc α} (h : x.toOption.isSome = false) : ¬ ∃ a, x = .ok a := by
  rintro ⟨a, rfl⟩
  cases h

/-- ... which holds, with either kind of countersignature; with the bad one it does not hold in the mode 'strict', but otherwise. -/
example : SignatureHolds exBehaved none exWorld (exAuth exCerts none) exArgs ∧
    SignatureHolds exBehaved none exWorld (exAuth exCerts (some exCounter)) exArgs ∧
    SignatureHolds exBehaved none exWorld (exAuth exCerts (some exRfc)) exArgs ∧
    ¬ SignatureHolds exBehaved none exWorld (exAuth exCerts (some exBadCounter)) exArgs ∧
    SignatureHolds exBehaved none exWorld (exAuth exCerts (some exBadCounter)) { exArgs with countersignatureMode := "permit" } :=
  ⟨(C61_signature _ none _ _ exWorld exBehaved_behaves (exOrdinaryCall none (by simp) "strict")).1 (toOption_isSome (by decide +kernel)),
   (C61_signature _ none _ _ exWorld exBehaved_behaves (exOrdinaryCall (some exCounter) (by simp) "strict")).1 (toOption_isSome (by decide +kernel)),
   (C61_signature _ none _ _ exWorld exBehaved_behaves (exOrdinaryCall (some exRfc) (by simp) "strict")).1 (toOption_isSome (by decide +kernel)),
   fun h => toOption_isNone (by decide +kernel)
    ((C61_signature _ none _ _ exWorld exBehaved_behaves (exOrdinaryCall (some exBadCounter) (by simp) "strict")).2 h),
   (C61_signature _ none _ _ exWorld exBehaved_behaves (exOrdinaryCall (some exBadCounter) (by simp) "permit")).1 (toOption_isSome (by decide +kernel))⟩

/-- The same validator with the checksum of the file examples. -/
def exPEBehaved : Env := { exBehaved with hash := fun _ b => exSum b }

theorem exPEBehaved_behaves : LibrariesBehave exPEBehaved :=
  ⟨exBehaved_behaves.keys, exBehaved_behaves.validators, exBehaved_behaves.nonempty, exBehaved_behaves.known⟩

example := C61_context exBehaved exWorld (contextOf [.heap 0, .embedded exCerts] [] {}) exLeaf exBehaved_behaves
  (exOrdinary' exCerts _ (by decide +kernel)) (by decide +kernel) (by decide +kernel) [exRoot, exInter, exLeaf]
example := C61_signer exBehaved exWorld (contextOf [.heap 0, .embedded exCerts] [] {}) (exAuth exCerts none).signer none exBehaved_behaves
  (exOrdinary' exCerts _ (by decide +kernel))
example := C61_authenticode_signer exBehaved exWorld (contextOf [.heap 0, .embedded exCerts] [] {}) (exAuth exCerts none).signer (some 300)
  exBehaved_behaves (exOrdinary' exCerts _ (by decide +kernel))

theorem exPlainCall (mode : String) : PlainCall exWorld (exPEArgs mode) where
  context := rfl
  csContext := rfl
  readable := fun i certs e hi he => (by
    cases hi
    cases he)
  names := exPEArgs_names mode

theorem exPair_of {cd : Codec} {file : Bytes} {β : Type} {f : ASD → β} {x y : β}
    (h : (iterSignedDatas cd file true true).1.map f = [x, y]) (he : (iterSignedDatas cd file true true).2 = none) :
    ∃ a b, Considered cd file true [a, b] ∧ [a, b].map f = [x, y] := by
  generalize hi : iterSignedDatas cd file true true = r at h he
  obtain ⟨l, e⟩ := r
  change l.map f = _ at h
  change e = none at he
  subst he
  match l, h with
  | [a, b], h => exact ⟨a, b, considered_iff.2 (by rw [hi]; rfl), h⟩

/-- A file whose first signature does not hold, and whose second does. -/
example : ∃ a b, Considered exPECodec (exTwice 3 2 [7, 7, 7]) true [a, b] ∧
    ¬ HoldsInFile exPEBehaved (exTwice 3 2 [7, 7, 7]) [] (exPEArgs "any").kwargs exWorld a ∧
    HoldsInFile exPEBehaved (exTwice 3 2 [7, 7, 7]) [] (exPEArgs "any").kwargs exWorld b := by
  have hlab : (iterSignedDatas exPECodec (exTwice 3 2 [7, 7, 7]) true true).1.map (fun a => (a.d.core.certificates, a.d.counter.isNone)) =
      [([exInter, exLeaf], true), ([exInter, exLeaf], true)] := by decide +kernel
  have herr : (iterSignedDatas exPECodec (exTwice 3 2 [7, 7, 7]) true true).2 = none := by decide +kernel
  obtain ⟨a, b, hc, hlab⟩ := exPair_of hlab herr
  simp only [List.map_cons, List.map_nil, List.cons.injEq, Prod.mk.injEq, and_true, Option.isNone_iff_eq_none] at hlab
  have ho : ∀ x ∈ [a, b], OrdinaryCall exWorld x.d (exPEArgs "any").kwargs := by
    intro x hx
    have hx' : x.d.core.certificates = [exInter, exLeaf] ∧ x.d.counter = none := by
      simp only [List.mem_cons, List.not_mem_nil, or_false] at hx
      rcases hx with rfl | rfl
      · exact hlab.1
      · exact hlab.2
    have hctx : signerContext exWorld x.d (exPEArgs "any").kwargs = contextOf [.heap 0, .embedded [exInter, exLeaf]] ["code_signing"] {} := by
      unfold signerContext
      rw [hx'.1]
      rfl
    refine ⟨⟨fun _ h => (by cases h), fun _ h => (by cases h)⟩, .inl rfl, ?_, ?_⟩
    · rw [hctx]; exact exOrdinary' _ _ (by decide +kernel)
    · intro c hcc; rw [hx'.2] at hcc; cases hcc
  refine ⟨a, b, hc, fun h => ?_, ?_⟩
  · refine toOption_isNone (by decide +kernel) (((C61_file exPEBehaved exPECodec (exTwice 3 2 [7, 7, 7]) (exPEArgs "first") exWorld a [b] exPEBehaved_behaves
      (exPlainCall _) hc ho).2.2.1 rfl).2 h)
  · obtain ⟨x, hx, hh⟩ := ((C61_file exPEBehaved exPECodec (exTwice 3 2 [7, 7, 7]) (exPEArgs "any") exWorld a [b] exPEBehaved_behaves
      (exPlainCall _) hc ho).1 rfl).1 (toOption_isSome (by decide +kernel))
    simp only [List.mem_cons, List.not_mem_nil, or_false] at hx
    rcases hx with rfl | rfl
    · exfalso
      exact toOption_isNone (by decide +kernel) (((C61_file exPEBehaved exPECodec (exTwice 3 2 [7, 7, 7]) (exPEArgs "first") exWorld x [b] exPEBehaved_behaves
        (exPlainCall _) hc ho).2.2.1 rfl).2 hh)
    · exact hh

end Signify.Props
