/-
What verification returns while others use the same stores and contexts.
-/
import Verif.Proofs.Together

set_option autoImplicit false

namespace Signify

open Spec

/-- `I` is not affected by others, by changes of stores, and by using the usages of the context. -/
structure Inv (R : World → World → Prop) (cid : Nat) (I : World → Prop) : Prop where
  stable : Unaffected R I
  stores : ∀ w w', w'.ctxs = w.ctxs → w'.nextCtx = w.nextCtx → I w → I w'
  kus : ∀ w, I w → I (takeKeyUsages cid w).2
  ekus : ∀ w, I w → I (takeEkus cid w).2

section
variable {M : World → Prop} {R : World → World → Prop} {cid : Nat} {I : World → Prop}

theorem extend_tri (h : Inv R cid I) (i : Nat) : ∀ l : List Cert, Tri M R I (extendW i l) (Returns I (fun _ => True))
  | [] => .ok trivial
  | _ :: l => .seq (.look (P := fun _ => True) h.stable (fun w _ hw => ⟨h.stores w _ rfl rfl hw, fun _ _ => trivial⟩)) (fun _ _ => extend_tri h i l)

theorem load_tri (h : Inv R cid I) (i : Nat) : Tri M R I (loadW i) (Returns I (fun _ => True)) := by
  unfold loadW
  refine .seq (.look (P := fun _ => True) h.stable (fun w _ hw => ⟨hw, fun _ _ => trivial⟩)) (fun s _ => ?_)
  cases s.pending with
  | none => exact .ok trivial
  | some x =>
    obtain ⟨certs, exc⟩ := x
    refine .seq (.look (P := fun _ => True) h.stable (fun w _ hw => ⟨h.stores w _ rfl rfl hw, fun _ _ => trivial⟩)) (fun _ _ => ?_)
    refine .seq (extend_tri h i certs) (fun _ _ => ?_)
    cases exc with
    | none => exact .ok trivial
    | some e => exact .raise

variable {σ : Type} {G : σ → Prop}

theorem list_tri {C : Cert → Prop} {body : σ → Cert → WProg σ} (hb : ∀ a c, G a → C c → Tri M R I (body a c) (Returns I G)) :
    ∀ (l : List Cert) (a : σ), (∀ c ∈ l, C c) → G a → Tri M R I (listW body l a) (Returns I G)
  | [], _, _, ha => .ok ha
  | c :: l, a, hl, ha =>
    .seq (hb a c ha (hl c (List.mem_cons_self ..))) (fun b hb' => list_tri hb l b (fun c hc => hl c (List.mem_cons_of_mem _ hc)) hb')

theorem scan_tri (h : Inv R cid I) (i : Nat) {body : σ → Cert → WProg σ}
    (hb : ∀ a c, G a → InStoreThen (fun m => M m ∧ I m) (.heap i) c → Tri M R I (body a c) (Returns I G)) :
    ∀ (f n : Nat) (a : σ), G a → Tri M R I (scanW i body f n a) (Returns I G)
  | 0, _, _, _ => .raise
  | f + 1, n, a, ha => by
    unfold scanW
    refine .seq (.look (P := fun x => ∀ c, x = some c → InStoreThen (fun m => M m ∧ I m) (.heap i) c) h.stable ?_) (fun x hx => ?_)
    · intro w hm hw
      refine ⟨hw, fun x hx c hc => ⟨w, ⟨hm, hw⟩, ?_⟩⟩
      cases hx
      exact List.mem_of_getElem? hc
    · cases x with
      | none => exact .ok ha
      | some c => exact .seq (hb a c ha (hx c rfl)) (fun b hb' => scan_tri h i hb f (n + 1) b hb')

theorem forStore_tri (h : Inv R cid I) (fuel : Nat) (r : StoreRef) {body : σ → Cert → WProg σ}
    (hb : ∀ a c, G a → InStoreThen (fun m => M m ∧ I m) r c → Tri M R I (body a c) (Returns I G)) (a : σ) (ha : G a) :
    Tri M R I (forStoreW fuel r body a) (Returns I G) := by
  cases r with
  | embedded certs => exact list_tri (C := fun c => c ∈ certs) hb certs a (fun _ hc => hc) ha
  | heap i => exact .seq (load_tri h i) (fun _ _ => scan_tri h i hb fuel 0 a ha)

theorem forStores_tri (h : Inv R cid I) (env : Env) (fuel : Nat) (q : Query) {body : σ → Cert → WProg σ} :
    ∀ (rs : List StoreRef), (∀ r ∈ rs, ∀ a c, G a → InStoreThen (fun m => M m ∧ I m) r c → q.matches env c = true → Tri M R I (body a c) (Returns I G)) →
    ∀ (x : List Cert × σ), G x.2 → Tri M R I (forStoresW env fuel q body rs x) (Returns I (fun y => G y.2))
  | [], _, _, hx => .ok hx
  | r :: rs, hb, x, hx => by
    unfold forStoresW
    refine .seq (forStore_tri (G := fun y => G y.2) h fuel r (fun a c ha hc => ?_) x hx)
      (fun y hy => forStores_tri h env fuel q rs (fun r hr => hb r (List.mem_cons_of_mem _ hr)) y hy)
    unfold findBodyW
    by_cases h1 : q.matches env c = true
    · simp only [h1, if_true]
      split
      · exact .ok ha
      · exact .seq (hb r (List.mem_cons_self ..) a.2 c ha hc h1) (fun b hb' => .ok hb')
    · simp only [h1, if_false]
      exact .ok ha

theorem forFind_tri (h : Inv R cid I) (env : Env) (fuel : Nat) (q : Query) {body : σ → Cert → WProg σ}
    (hb : ∀ a c, G a → KnownThen (fun m => M m ∧ I m) cid c → q.matches env c = true → Tri M R I (body a c) (Returns I G)) (init : σ) (hi : G init) :
    Tri M R I (forFindW env fuel cid q init body) (Returns I G) := by
  unfold forFindW
  refine .seq (.look (P := fun x => ∃ m, (M m ∧ I m) ∧ x = m.ctxs cid) h.stable ?_) (fun ctx hx => ?_)
  · intro w hm hw
    exact ⟨hw, fun x hx => ⟨w, ⟨hm, hw⟩, by cases hx; rfl⟩⟩
  · obtain ⟨m, hm, rfl⟩ := hx
    exact .seq (forStores_tri h env fuel q _ (fun r hr a c ha hc hq => hb a c ha ⟨m, r, hm, hr, hc⟩ hq) ([], init) hi) (fun y hy => .ok hy)

/-- What the certificates collected for the validator are. -/
structure Gathered (At : World → Prop) (cid : Nat) (c : Cert) (x : Collected) : Prop where
  roots : ∀ y ∈ x.roots, ∃ d : Cert, d.obj = y ∧ TrustedThen At cid d
  inter : ∀ y ∈ x.inter, ∃ d : Cert, d.obj = y ∧ KnownThen At cid d
  all : ∀ y d, x.all.get? y = some d → d.obj = y ∧ (d = c ∨ KnownThen At cid d)

theorem collect_tri (h : Inv R cid I) (fuel : Nat) (c : Cert) : ∀ (rs : List StoreRef),
    (∀ r ∈ rs, ∃ m, (M m ∧ I m) ∧ r ∈ (m.ctxs cid).stores) →
    ∀ x, Gathered (fun m => M m ∧ I m) cid c x → Tri M R I (collectW fuel rs x) (Returns I (Gathered (fun m => M m ∧ I m) cid c))
  | [], _, _, hx => .ok hx
  | r :: rs, hr, x, hx => by
    unfold collectW
    obtain ⟨m0, hm0, hr0⟩ := hr r (List.mem_cons_self ..)
    refine .seq (forStore_tri (G := Gathered (fun m => M m ∧ I m) cid c) h fuel r (fun a d ha hd => ?_) x hx)
      (fun y hy => collect_tri h fuel c rs (fun r h' => hr r (List.mem_cons_of_mem _ h')) y hy)
    have hk : KnownThen (fun m => M m ∧ I m) cid d := ⟨m0, r, hm0, hr0, hd⟩
    have hall : ∀ y e, (a.all.set d.obj d).get? y = some e → e.obj = y ∧ (e = c ∨ KnownThen (fun m => M m ∧ I m) cid e) := by
      intro y e he
      rw [Dict.get?_set] at he
      split at he
      · rename_i hy
        cases he
        exact ⟨hy.symm, .inr hk⟩
      · exact ha.all y e he
    unfold collectBodyW
    refine .seq (.look (P := fun t => t = true → ∃ i m, r = .heap i ∧ (M m ∧ I m) ∧ (m.stores i).trusted = true) h.stable ?_) (fun t ht => ?_)
    · intro w hm hw
      refine ⟨hw, fun t h1 h2 => ?_⟩
      cases h1
      cases r with
      | embedded l => cases h2
      | heap i => exact ⟨i, w, rfl, ⟨hm, hw⟩, h2⟩
    · cases t with
      | true =>
        obtain ⟨i, m, rfl, hm, ht'⟩ := ht rfl
        refine .ok ⟨fun y hy => ?_, ha.inter, hall⟩
        rcases List.mem_append.1 hy with hy | hy
        · exact ha.roots y hy
        · rw [List.mem_singleton.1 hy]
          exact ⟨d, rfl, m0, i, hm0, hr0, hd, m, hm, ht'⟩
      | false =>
        refine .ok ⟨ha.roots, fun y hy => ?_, hall⟩
        rcases List.mem_append.1 hy with hy | hy
        · exact ha.inter y hy
        · rw [List.mem_singleton.1 hy]
          exact ⟨d, rfl, hk⟩

theorem takeEkus_look (h : Inv R cid I) :
    Tri M R I (WProg.act (takeEkus cid)) (Returns I (fun l => ∃ m, (M m ∧ I m) ∧ l = (m.ctxs cid).ekus.elems)) :=
  .look h.stable (fun w hm hw => ⟨h.ekus w hw, fun l hl => ⟨w, ⟨hm, hw⟩, by rw [takeEkus_run] at hl; cases hl; rfl⟩⟩)

theorem takeKeyUsages_look (h : Inv R cid I) :
    Tri M R I (WProg.act (takeKeyUsages cid)) (Returns I (fun l => ∃ m, (M m ∧ I m) ∧ l = (m.ctxs cid).keyUsages.elems)) :=
  .look h.stable (fun w hm hw => ⟨h.kus w hw, fun l hl => ⟨w, ⟨hm, hw⟩, by rw [takeKeyUsages_run] at hl; cases hl; rfl⟩⟩)

theorem getCtx_look (h : Inv R cid I) : Tri M R I (WProg.act (Signify.M.getCtx cid)) (Returns I (fun x => ∃ m, (M m ∧ I m) ∧ x = m.ctxs cid)) :=
  .look h.stable (fun w hm hw => ⟨hw, fun x hx => ⟨w, ⟨hm, hw⟩, by cases hx; rfl⟩⟩)

theorem ctlVerifyTrust_tri (h : Inv R cid I) (env : Env) (ctl : CTL) (chain : List Cert) :
    Tri M R I (ctlVerifyTrustW env cid ctl chain) (Returns I (fun _ => ∃ m1 m2, (M m1 ∧ I m1) ∧ (M m2 ∧ I m2) ∧
      Accepts env ctl chain (m1.ctxs cid).ekus.elems ((m2.ctxs cid).timestamp.getD env.now))) := by
  unfold ctlVerifyTrustW
  cases hh : chain.head? with
  | none => exact .raise
  | some root =>
    simp only
    refine .seq (.lift (P := fun x => ∀ s, x = some s → (ctl.algorithm = "sha1" ∨ ctl.algorithm = "sha256") ∧
      ctl.subjects.get? (hexOf (env.hash ctl.algorithm root.der)) = some s) ?_) (fun x hx => ?_)
    · intro x hx s hs
      subst hs
      unfold CTL.findSubject at hx
      split at hx
      · rename_i ha
        refine ⟨.inl ha, ?_⟩
        rw [ha]
        exact Except.ok.inj hx
      · split at hx
        · rename_i ha
          refine ⟨.inr ha, ?_⟩
          rw [ha]
          exact Except.ok.inj hx
        · cases hx
    · cases x with
      | none => exact .lift (fun _ hc => absurd hc (raiseNaming_ne_ok _ _ _))
      | some s =>
        obtain ⟨halg, hsub⟩ := hx s rfl
        refine .seq (getCtx_look h) (fun ctx hc => ?_)
        obtain ⟨m2, hm2, rfl⟩ := hc
        refine .seq (takeEkus_look h) (fun l hl => ?_)
        obtain ⟨m1, hm1, rfl⟩ := hl
        refine .lift (fun _ hv => ⟨m1, m2, hm1, hm2, ?_⟩)
        have hne : chain ≠ [] := by
          intro h0
          rw [h0] at hh
          cases hh
        have hleaf := List.getLast?_eq_some_getLast hne
        rcases subjectVerify_cases s chain _ hleaf (m1.ctxs cid).ekus.elems ((m2.ctxs cid).timestamp.getD env.now) with ⟨-, h2⟩ | ⟨⟨e, h1⟩, -⟩
        · exact ⟨halg, root, _, s, hh, hleaf, hsub, h2⟩
        · rw [h1] at hv
          cases hv

theorem look_tri (h : Inv R cid I) (i : Nat) (c : Cert) : ∀ (f n : Nat),
    Tri M R I (lookW i c f n) (Returns I (fun b => b = true → ∃ m, (M m ∧ I m) ∧ ∃ d ∈ (m.stores i).items, SameCert c d))
  | 0, _ => .raise
  | f + 1, n => by
    unfold lookW
    refine .seq (.look (P := fun x => ∀ d, x = some d → ∃ m, (M m ∧ I m) ∧ d ∈ (m.stores i).items) h.stable ?_) (fun x hx => ?_)
    · intro w hm hw
      refine ⟨hw, fun x hx d hd => ⟨w, ⟨hm, hw⟩, ?_⟩⟩
      subst hd
      exact List.mem_of_getElem? (Except.ok.inj hx)
    · cases x with
      | none => exact .ok (fun hb => by cases hb)
      | some d =>
        simp only
        split
        · rename_i hp
          obtain ⟨m, hm, hd⟩ := hx d rfl
          exact .ok (fun _ => ⟨m, hm, d, hd, Cert.pyEq_iff.1 hp⟩)
        · exact look_tri h i c f (n + 1)

theorem isTrusted_tri (h : Inv R cid I) (fuel : Nat) (r : StoreRef) (c : Cert) :
    Tri M R I (isTrustedW fuel r c) (Returns I (fun b => b = true → ∃ i, r = .heap i ∧ (∃ m, (M m ∧ I m) ∧ (m.stores i).trusted = true) ∧
      ∃ m, (M m ∧ I m) ∧ ∃ d ∈ (m.stores i).items, SameCert c d)) := by
  cases r with
  | embedded l => exact .ok (fun hb => by cases hb)
  | heap i =>
    refine .seq (.look (P := fun s => ∃ m, (M m ∧ I m) ∧ s = m.stores i) h.stable
      (fun w hm hw => ⟨hw, fun x hx => ⟨w, ⟨hm, hw⟩, by cases hx; rfl⟩⟩)) (fun s hs => ?_)
    obtain ⟨m, hm, rfl⟩ := hs
    split
    · rename_i ht
      exact (look_tri h i c fuel 0).weaken (fun x w hx => ⟨hx.1, fun b hb e => ⟨i, rfl, ⟨m, hm, ht⟩, hx.2 b hb e⟩⟩)
    · exact .ok (fun hb => by cases hb)

theorem storeVerifyTrust_tri (h : Inv R cid I) (env : Env) (fuel : Nat) (r : StoreRef) (hr : ∃ m, (M m ∧ I m) ∧ r ∈ (m.ctxs cid).stores) (chain : List Cert) :
    Tri M R I (storeVerifyTrustW env fuel cid r chain) (Returns I (fun _ => AnchoredThen env (fun m => M m ∧ I m) cid chain)) := by
  unfold storeVerifyTrustW
  cases hh : chain.head? with
  | none => exact .raise
  | some root =>
    simp only
    refine .seq (isTrusted_tri h fuel r root) (fun t ht => ?_)
    · cases t with
      | false => exact .lift (fun _ hc => absurd hc (raiseNaming_ne_ok _ _ _))
      | true =>
        obtain ⟨i, rfl, e2, e3⟩ := ht rfl
        simp only [Bool.not_true, Bool.false_eq_true, if_false]
        refine .seq (.look (P := fun s => ∃ m, (M m ∧ I m) ∧ s = m.stores i) h.stable
          (fun w hm hw => ⟨hw, fun x hx => ⟨w, ⟨hm, hw⟩, by cases hx; rfl⟩⟩)) (fun s hs => ?_)
        obtain ⟨m3, hm3, rfl⟩ := hs
        cases hc : (m3.stores i).ctl with
        | none =>
          exact .ok ⟨i, root, hh, hr, e2, e3, m3, hm3, fun ctl hctl => by rw [hc] at hctl; cases hctl⟩
        | some ctl =>
          refine (ctlVerifyTrust_tri h env ctl chain).weaken (fun x w hx => ⟨hx.1, fun a ha => ?_⟩)
          obtain ⟨m1, m2, h1, h2, h3⟩ := hx.2 a ha
          exact ⟨i, root, hh, hr, e2, e3, m3, hm3, fun ctl' hctl => by rw [hc] at hctl; cases hctl; exact ⟨m1, m2, h1, h2, h3⟩⟩

theorem verifyTrustLoop_tri (h : Inv R cid I) (env : Env) (fuel : Nat) (chain : List Cert) : ∀ (rs : List StoreRef) (exc : Option Exc),
    (∀ r ∈ rs, ∃ m, (M m ∧ I m) ∧ r ∈ (m.ctxs cid).stores) →
    Tri M R I (verifyTrustLoopW env fuel cid chain rs exc) (Returns I (fun _ => AnchoredThen env (fun m => M m ∧ I m) cid chain))
  | [], exc, _ => by cases exc <;> exact .raise
  | r :: rs, exc, hr => by
    unfold verifyTrustLoopW
    refine .onResult (storeVerifyTrust_tri h env fuel r (hr r (List.mem_cons_self ..)) chain) (fun x => ?_)
    have hrec := fun exc => (verifyTrustLoop_tri h env fuel chain rs exc (fun r h' => hr r (List.mem_cons_of_mem _ h')))
    cases x with
    | ok u => exact .ret (fun w hw => ⟨hw.1, fun a ha => hw.2 a ha⟩)
    | error e =>
      simp only
      split
      · exact (hrec exc).pre (fun w hw => hw.1)
      · split
        · exact (hrec (some e)).pre (fun w hw => hw.1)
        · exact .ret (fun w hw => ⟨hw.1, fun a ha => by cases ha⟩)

theorem ctxVerify_tri (h : Inv R cid I) (env : Env) (fuel : Nat) (c : Cert) :
    Tri M R I (ctxVerifyW env fuel cid c) (Returns I (ValidatedThen env (fun m => M m ∧ I m) cid c)) := by
  unfold ctxVerifyW
  refine .seq (getCtx_look h) (fun ctx hc => ?_)
  obtain ⟨m0, hm0, rfl⟩ := hc
  refine .seq (collect_tri h fuel c _ (fun r hr => ⟨m0, hm0, hr⟩) _ ⟨fun y hy => (by cases hy), fun y hy => (by cases hy), ?_⟩) (fun x hx => ?_)
  · intro y d hd
    simp only [Dict.get?] at hd
    split at hd
    · rename_i hy; cases hd; exact ⟨hy, .inl rfl⟩
    · cases hd
  refine .seq (getCtx_look h) (fun ctx hc => ?_)
  obtain ⟨m1, hm1, rfl⟩ := hc
  refine .seq (.lift (P := fun _ => True) (fun _ _ => trivial)) (fun _ _ => ?_)
  refine .seq (takeKeyUsages_look h) (fun kus hk => ?_)
  refine .seq (takeEkus_look h) (fun ekus he => ?_)
  split
  · exact .lift (fun _ hc => absurd hc (by unfold certErr; exact raiseNaming_ne_ok _ _ _))
  · rename_i ids hv
    refine .seq (.lift (P := fun l => lookupAll x.all ids = .ok l) (fun _ h => h)) (fun l hl => ?_)
    have hmap := lookupAll_ok hl
    have hmem : ∀ d ∈ l, ∃ y, x.all.get? y = some d := by
      intro d hd
      have : some d ∈ l.map some := List.mem_map.2 ⟨d, hd, rfl⟩
      rw [← hmap] at this
      obtain ⟨y, -, hy⟩ := List.mem_map.1 this
      exact ⟨y, hy⟩
    have hids : l.map Cert.obj = ids := by
      clear hv hl hmem
      induction ids generalizing l with
      | nil =>
        cases l with
        | nil => rfl
        | cons a l => cases hmap
      | cons y ids ih =>
        cases l with
        | nil => cases hmap
        | cons a l =>
          rw [List.map_cons, List.map_cons] at hmap
          obtain ⟨h1, h2⟩ := List.cons.inj hmap
          rw [List.map_cons, ih l h2, (hx.all y a h1).1]
    unfold ctxVerifyTrustW
    refine .seq (P := fun _ => AnchoredThen env (fun m => M m ∧ I m) cid l) ?_ (fun _ ha => .ok ⟨?_, ?_, ha⟩)
    · refine .seq (getCtx_look h) (fun ctx hc => ?_)
      obtain ⟨m4, hm4, rfl⟩ := hc
      exact verifyTrustLoop_tri h env fuel l _ none (fun r hr => ⟨m4, hm4, hr⟩)
    · exact ⟨m1, x.roots, x.inter, kus, ekus, hm1, hx.roots, hx.inter, hk, he, by rw [hids]; exact hv⟩
    · intro d hd
      obtain ⟨y, hy⟩ := hmem d hd
      exact (hx.all y d hy).2

/-- Each part of a family of invariants. -/
theorem Tri.exists_ {α ι : Type} {U : ι → Prop} {J : ι → World → Prop} {p : WProg α} {Q : Except Exc α → World → Prop}
    (h : ∀ u, U u → Tri M R (J u) p Q) : Tri M R (fun w => ∃ u, U u ∧ J u w) p Q := by
  intro τ hτ n w hw hm
  obtain ⟨u, hu, hj⟩ := hw
  exact h u hu τ hτ n w hj hm

theorem Inv.exists_ {ι : Type} {U : ι → Prop} {J : ι → World → Prop} (h : ∀ u, Inv R cid (J u)) : Inv R cid (fun w => ∃ u, U u ∧ J u w) where
  stable := fun w w' hr hw => by obtain ⟨u, hu, hj⟩ := hw; exact ⟨u, hu, (h u).stable w w' hr hj⟩
  stores := fun w w' h1 h2 hw => by obtain ⟨u, hu, hj⟩ := hw; exact ⟨u, hu, (h u).stores w w' h1 h2 hj⟩
  kus := fun w hw => by obtain ⟨u, hu, hj⟩ := hw; exact ⟨u, hu, (h u).kus w hj⟩
  ekus := fun w hw => by obtain ⟨u, hu, hj⟩ := hw; exact ⟨u, hu, (h u).ekus w hj⟩

/-- What is known of the chain of a candidate: its signature, and its validation while the invariant was that of one `u`. -/
def Checked (env : Env) (M : World → Prop) (cid : Nat) (U : Option Int → Prop) (J : Option Int → World → Prop) (s : Signer) (t : Option Int)
    (c : Cert) (chain : List Cert) : Prop :=
  ∃ u, U u ∧ (∀ x, t = some x → u = some x) ∧ (∃ m, (M m ∧ ∃ u, U u ∧ J u m) ∧ ValidSignature env c s.encryptedDigest s.encodedAuth s.digestAlg (m.ctxs cid).allowLegacy) ∧
    ValidatedThen env (fun m => M m ∧ J u m) cid c chain

theorem verifyIssuer_tri {U : Option Int → Prop} {J : Option Int → World → Prop} (h : ∀ u, Inv R cid (J u))
    (hset : ∀ u t w, J u w → J (some t) (setTimestamp cid (some t) w).2) (env : Env) (fuel : Nat) (s : Signer) (t : Option Int)
    (ht : ∀ x, t = some x → U (some x)) (c : Cert) :
    Tri M R (fun w => ∃ u, U u ∧ J u w) (verifyIssuerW env fuel cid s t c)
      (Returns (fun w => ∃ u, U u ∧ J u w) (Checked env M cid U J s t c)) := by
  refine .exists_ (fun u hu => ?_)
  unfold verifyIssuerW verifyIssuerSignatureW
  have h1 : Tri M R (J u) (WProg.act (verifyIssuerSignature env cid s c)) (Returns (J u) (fun _ =>
      ∃ m, (M m ∧ ∃ u, U u ∧ J u m) ∧ ValidSignature env c s.encryptedDigest s.encodedAuth s.digestAlg (m.ctxs cid).allowLegacy)) := by
    refine .look (h u).stable (fun w hm hw => ?_)
    rcases verifyIssuerSignature_cases env cid s c w with ⟨h1, h2⟩ | ⟨h1, e, h2, -⟩
    · rw [h2]
      exact ⟨hw, fun _ _ => ⟨w, ⟨hm, u, hu, hw⟩, h1⟩⟩
    · rw [h2]
      exact ⟨hw, fun _ hc => by cases hc⟩
  refine .bind h1 (fun e w hw => ⟨⟨u, hu, hw.1⟩, fun a ha => by cases ha⟩) (fun _ => ?_)
  intro τ hτ n w hw hm
  have hsig := hw.2 () rfl
  revert n w
  have key : ∀ u', U u' → (∀ x, t = some x → u' = some x) → Tri M R (J u') (ctxVerifyW env fuel cid c) (Returns (fun w => ∃ u, U u ∧ J u w) (Checked env M cid U J s t c)) :=
    fun u' hu' ht' => (ctxVerify_tri (h u') env fuel c).weaken (fun r w hr => ⟨⟨u', hu', hr.1⟩, fun a ha => ⟨u', hu', ht', hsig, hr.2 a ha⟩⟩)
  intro n w hw hm
  suffices Tri M R (J u) (do WProg.act (applySigningTime cid t); ctxVerifyW env fuel cid c) (Returns (fun w => ∃ u, U u ∧ J u w) (Checked env M cid U J s t c)) from
    this τ hτ n w hw.1 hm
  cases t with
  | none =>
    refine .bind (Q := Returns (J u) (fun _ => True)) (.look (h u).stable (fun w _ hw => ⟨hw, fun _ _ => trivial⟩))
      (fun e w hw => ⟨⟨u, hu, hw.1⟩, fun a ha => by cases ha⟩) (fun _ => (key u hu (fun x hx => by cases hx)).pre (fun w hw => hw.1))
  | some x =>
    refine .bind (Q := Returns (J (some x)) (fun _ => True)) (.act (h u).stable (fun w _ hw => ⟨hset u x w hw, fun _ _ => trivial⟩))
      (fun e w hw => ⟨⟨some x, ht x rfl, hw.1⟩, fun a ha => by cases ha⟩) (fun _ => (key (some x) (ht x rfl) (fun y hy => hy)).pre (fun w hw => hw.1))

theorem signer_tri (h : Inv R cid I) (env : Env) (fuel : Nat) (s : Signer) {check : Cert → WProg (List Cert)} {Good : Cert → List Cert → Prop}
    (hc : ∀ c, Tri M R I (check c) (Returns I (Good c))) :
    Tri M R I (signerVerifyWithW env fuel cid s check) (Returns I (fun chains => chains ≠ [] ∧
      ∀ chain ∈ chains, ∃ c, NamedThen (fun m => M m ∧ I m) cid s c ∧ Good c chain)) := by
  unfold signerVerifyWithW
  refine .seq (P := fun acc => ∀ chain ∈ acc.1, ∃ c, NamedThen (fun m => M m ∧ I m) cid s c ∧ Good c chain)
    (forFind_tri h env fuel _ (fun acc c hacc hk hq => ?_) _ (fun chain hch => by cases hch)) (fun acc hacc => ?_)
  · unfold buildChainBodyW
    have hmeets := matches_iff.1 hq
    refine .onResult (hc c) (fun x => ?_)
    cases x with
    | ok chain =>
      refine .ret (fun w hw => ⟨hw.1, fun a ha => ?_⟩)
      cases ha
      intro ch hch
      rcases List.mem_append.1 hch with hch | hch
      · exact hacc ch hch
      · rw [List.mem_singleton.1 hch]
        exact ⟨c, ⟨hk, hmeets.issuer _ rfl, hmeets.serial _ rfl⟩, hw.2 chain rfl⟩
    | error e =>
      simp only
      split
      · exact .ret (fun w hw => ⟨hw.1, fun a ha => by cases ha; exact hacc⟩)
      · exact .ret (fun w hw => ⟨hw.1, fun a ha => by cases ha⟩)
  · have hgo : Tri M R I (if acc.1.isEmpty = true then WProg.raise ⟨.signerInfoVerificationError, "No valid certificate chain found to a trust anchor"⟩ else pure acc.1)
        (Returns I (fun chains => chains ≠ [] ∧ ∀ chain ∈ chains, ∃ c, NamedThen (fun m => M m ∧ I m) cid s c ∧ Good c chain)) := by
      split
      · exact .raise
      · rename_i hne
        refine .ok ⟨fun h0 => hne (by rw [h0]; rfl), hacc⟩
    split
    · exact .raise
    · exact hgo

end

end Signify
