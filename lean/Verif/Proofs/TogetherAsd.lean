/-
`AuthenticodeSignedData.verify` while others use the same stores and contexts.
-/
import Verif.Proofs.TogetherSound

set_option autoImplicit false

namespace Signify

open Spec

/-! ### more moments -/

section
variable {A B : World → Prop} (hAB : ∀ m, A m → B m)
include hAB

theorem InStoreThen.mono {r : StoreRef} {c : Cert} (h : InStoreThen A r c) : InStoreThen B r c := by
  cases r with
  | embedded l => exact h
  | heap i =>
    obtain ⟨m, h1, h2⟩ := h
    exact ⟨m, hAB m h1, h2⟩

theorem KnownThen.mono {cid : Nat} {c : Cert} (h : KnownThen A cid c) : KnownThen B cid c := by
  obtain ⟨m, r, h1, h2, h3⟩ := h
  exact ⟨m, r, hAB m h1, h2, InStoreThen.mono hAB h3⟩

theorem TrustedThen.mono {cid : Nat} {c : Cert} (h : TrustedThen A cid c) : TrustedThen B cid c := by
  obtain ⟨m, i, h1, h2, h3, m', h4, h5⟩ := h
  exact ⟨m, i, hAB m h1, h2, InStoreThen.mono hAB h3, m', hAB m' h4, h5⟩

theorem NamedThen.mono {cid : Nat} {s : Signer} {c : Cert} (h : NamedThen A cid s c) : NamedThen B cid s c :=
  ⟨KnownThen.mono hAB h.known, h.issuer, h.serial⟩

theorem AnchoredThen.mono {env : Env} {cid : Nat} {chain : List Cert} (h : AnchoredThen env A cid chain) : AnchoredThen env B cid chain := by
  obtain ⟨i, root, h1, ⟨m1, h2, h3⟩, ⟨m2, h4, h5⟩, ⟨m4, h11, h12⟩, m3, h6, h7⟩ := h
  refine ⟨i, root, h1, ⟨m1, hAB _ h2, h3⟩, ⟨m2, hAB _ h4, h5⟩, ⟨m4, hAB _ h11, h12⟩, m3, hAB _ h6, fun ctl hc => ?_⟩
  obtain ⟨a, b, h8, h9, h10⟩ := h7 ctl hc
  exact ⟨a, b, hAB _ h8, hAB _ h9, h10⟩

theorem ValidatedThen.mono {env : Env} {cid : Nat} {c : Cert} {chain : List Cert} (h : ValidatedThen env A cid c chain) :
    ValidatedThen env B cid c chain := by
  refine ⟨?_, fun d hd => (h.members d hd).imp id (KnownThen.mono hAB), AnchoredThen.mono hAB h.anchored⟩
  obtain ⟨m, roots, inter, kus, ekus, h1, h2, h3, ⟨m1, h4, h5⟩, ⟨m2, h6, h7⟩, h8⟩ := h.answer
  refine ⟨m, roots, inter, kus, ekus, hAB _ h1, fun x hx => ?_, fun x hx => ?_, ⟨m1, hAB _ h4, h5⟩, ⟨m2, hAB _ h6, h7⟩, h8⟩
  · obtain ⟨d, e1, e2⟩ := h2 x hx
    exact ⟨d, e1, TrustedThen.mono hAB e2⟩
  · obtain ⟨d, e1, e2⟩ := h3 x hx
    exact ⟨d, e1, KnownThen.mono hAB e2⟩

end

/-- If the context was the same at all moments, as far as it matters. -/
theorem evidence_of {env : Env} {M A B : World → Prop} {cid : Nat} {ctx : Ctx} {s : Signer} {c : Cert} {chain : List Cert}
    (hA : ∀ m, A m → M m ∧ (m.ctxs cid).stores = ctx.stores ∧ (m.ctxs cid).allowLegacy = ctx.allowLegacy)
    (hB : ∀ m, B m → M m ∧ m.ctxs cid = ctx)
    (hn : NamedThen A cid s c)
    (hs : ∃ m, A m ∧ ValidSignature env c s.encryptedDigest s.encodedAuth s.digestAlg (m.ctxs cid).allowLegacy)
    (hv : ValidatedThen env B cid c chain) : EvidenceIn env M ctx s chain c := by
  have hknown : ∀ d, KnownThen B cid d → ∃ r ∈ ctx.stores, InStoreThen M r d := by
    rintro d ⟨m, r, h1, h2, h3⟩
    rw [(hB m h1).2] at h2
    exact ⟨r, h2, InStoreThen.mono (fun m h => (hB m h).1) h3⟩
  refine ⟨?_, hn.issuer, hn.serial, ?_, ?_, fun d hd => (hv.members d hd).imp id (hknown d), ?_⟩
  · obtain ⟨m, r, h1, h2, h3⟩ := hn.known
    rw [(hA m h1).2.1] at h2
    exact ⟨r, h2, InStoreThen.mono (fun m h => (hA m h).1) h3⟩
  · obtain ⟨m, h1, h2⟩ := hs
    rw [(hA m h1).2.2] at h2
    exact h2
  · obtain ⟨m, roots, inter, kus, ekus, h1, h2, h3, ⟨m1, h4, h5⟩, ⟨m2, h6, h7⟩, h8⟩ := hv.answer
    rw [(hB m1 h4).2] at h5
    rw [(hB m2 h6).2] at h7
    rw [(hB m h1).2, h5, h7] at h8
    refine ⟨roots, inter, fun x hx => ?_, fun x hx => ?_, h8⟩
    · obtain ⟨d, e1, m, i, h1, h2, h3, m', h4, h5⟩ := h2 x hx
      rw [(hB m h1).2] at h2
      exact ⟨d, i, e1, h2, InStoreThen.mono (fun m h => (hB m h).1) h3, m', (hB _ h4).1, h5⟩
    · obtain ⟨d, e1, e2⟩ := h3 x hx
      obtain ⟨r, e3, e4⟩ := hknown d e2
      exact ⟨d, r, e1, e3, e4⟩
  · obtain ⟨i, root, h1, ⟨m1, h2, h3⟩, ⟨m2, h4, h5⟩, ⟨m4, h11, h12⟩, m3, h6, h7⟩ := hv.anchored
    rw [(hB m1 h2).2] at h3
    refine ⟨i, root, h1, h3, ⟨m2, (hB _ h4).1, h5⟩, ⟨m4, (hB _ h11).1, h12⟩, m3, (hB _ h6).1, fun ctl hc => ?_⟩
    obtain ⟨a, b, h8, h9, h10⟩ := h7 ctl hc
    rw [(hB _ h8).2, (hB _ h9).2] at h10
    exact h10

/-! ### the countersignature -/

theorem checkMessageDigest_pkcs9 {env : Env} {s : Signer} {data : Bytes} (h : s.checkMessageDigest env data = true) :
    s.messageDigest = some (env.hash s.digestAlg data) := by
  unfold Signer.checkMessageDigest at h
  exact (eq_of_beq h).symm

section
variable {M : World → Prop} {R : World → World → Prop} {cid : Nat}

theorem signerVerify_tri {U : Option Int → Prop} {J : Option Int → World → Prop} (h : ∀ u, Inv R cid (J u))
    (hset : ∀ u t w, J u w → J (some t) (setTimestamp cid (some t) w).2) (env : Env) (fuel : Nat) (s : Signer) :
    Tri M R (fun w => ∃ u, U u ∧ J u w) (signerVerifyW env fuel cid s) (Returns (fun w => ∃ u, U u ∧ J u w) (fun chains => chains ≠ [] ∧
      ∀ chain ∈ chains, ∃ c, NamedThen (fun m => M m ∧ ∃ u, U u ∧ J u m) cid s c ∧ Checked env M cid U J s none c chain)) :=
  signer_tri (Inv.exists_ h) env fuel s (fun c => verifyIssuer_tri h hset env fuel s none (fun x hx => by cases hx) c)

theorem authSigner_tri {U : Option Int → Prop} {J : Option Int → World → Prop} (h : ∀ u, Inv R cid (J u))
    (hset : ∀ u t w, J u w → J (some t) (setTimestamp cid (some t) w).2) (env : Env) (fuel : Nat) (s : Signer) (t : Option Int)
    (ht : ∀ x, t = some x → U (some x)) :
    Tri M R (fun w => ∃ u, U u ∧ J u w) (authSignerVerifyW env fuel cid s t) (Returns (fun w => ∃ u, U u ∧ J u w) (fun chains => chains ≠ [] ∧
      ∀ chain ∈ chains, ∃ c, NamedThen (fun m => M m ∧ ∃ u, U u ∧ J u m) cid s c ∧
        Checked env M cid U J s (if lifetimeSigning c then none else t) c chain)) :=
  signer_tri (Inv.exists_ h) env fuel s (fun c => verifyIssuer_tri h hset env fuel s _ (fun x hx => by
    split at hx
    · cases hx
    · exact ht x hx) c)

theorem checkCounter_tri {I0 F : World → Prop} {J : Option Int → World → Prop} (h0 : Unaffected R I0) (h : ∀ u, Inv R cid (J u))
    (hset : ∀ u t w, J u w → J (some t) (setTimestamp cid (some t) w).2) (env : Env) (fuel : Nat) (a : AuthData) (k : CounterSigner)
    (hset0 : ∀ w, I0 w → J k.signingTime (setTimestamp cid k.signingTime w).2) (hF0 : ∀ w, I0 w → F w) (hF : ∀ u w, J u w → F w) :
    Tri M R I0 (checkCounterW env fuel a k cid) (Returns F (fun _ => CounterOf env a.signer.encryptedDigest
      (fun s chain => ∃ c, NamedThen (fun m => M m ∧ ∃ u, u = k.signingTime ∧ J u m) cid s c ∧
        Checked env M cid (fun u => u = k.signingTime) J s none c chain) k)) := by
  unfold checkCounterW
  split
  · exact .ret (fun w hw => ⟨hF0 w hw, fun _ hc => by cases hc⟩)
  · rename_i hd
    have hd' : k.checkMessageDigest env a.signer.encryptedDigest = true := by simpa using hd
    refine .bind (Q := Returns (J k.signingTime) (fun _ => True)) (.act h0 (fun w _ hw => ⟨hset0 w hw, fun _ _ => trivial⟩))
      (fun e w hw => ⟨hF _ w hw.1, fun _ hc => by cases hc⟩) (fun _ => ?_)
    have hgo : ∀ s, Tri M R (fun w => ∃ u, u = k.signingTime ∧ J u w) (signerVerifyW env fuel cid s)
        (Returns F (fun chains => chains ≠ [] ∧ ∀ chain ∈ chains, ∃ c, NamedThen (fun m => M m ∧ ∃ u, u = k.signingTime ∧ J u m) cid s c ∧
          Checked env M cid (fun u => u = k.signingTime) J s none c chain)) :=
      fun s => (signerVerify_tri h hset env fuel s).weaken (fun r w hr => ⟨by obtain ⟨u, -, hu⟩ := hr.1; exact hF u w hu, hr.2⟩)
    refine .pre (I := fun w => ∃ u, u = k.signingTime ∧ J u w) ?_ (fun w hw => ⟨_, rfl, hw.1⟩)
    refine .bind (Q := Returns F (fun _ => CounterOf env a.signer.encryptedDigest
      (fun s chain => ∃ c, NamedThen (fun m => M m ∧ ∃ u, u = k.signingTime ∧ J u m) cid s c ∧
        Checked env M cid (fun u => u = k.signingTime) J s none c chain) k)) ?_ (fun e w hw => ⟨hw.1, fun _ hc => by cases hc⟩)
      (fun chains => .ret (fun w hw => ⟨hw.1, fun _ _ => hw.2 chains rfl⟩))
    unfold CounterSigner.verifyW CounterOf
    cases k with
    | pkcs9 i => exact (hgo i.signer).weaken (fun r w hr => ⟨hr.1, fun chains hc => ⟨checkMessageDigest_pkcs9 hd', chains, hr.2 chains hc⟩⟩)
    | rfc3161 r =>
      simp only
      split
      · exact .ret (fun w hw => ⟨by obtain ⟨u, -, hu⟩ := hw; exact hF u w hu, fun _ hc => by cases hc⟩)
      · rename_i hm
        refine (hgo r.signer).weaken (fun x w hr => ⟨hr.1, fun chains hc => ⟨?_, ?_, chains, hr.2 chains hc⟩⟩)
        · exact (eq_of_beq hd').symm
        · exact (Classical.not_not.1 hm).symm

/-- The signing time established, and what it rests upon. -/
theorem counterTime_tri {F : World → Prop} (env : Env) (fuel : Nat) (a : AuthData) (mode : String) (csCid : Option Nat)
    {C : CounterSigner → Prop} {I0 : World → Prop} (hF0 : ∀ w, I0 w → F w)
    (hc : ∀ k i, a.counter = some k → csCid = some i → mode ≠ "ignore" → Tri M R I0 (checkCounterW env fuel a k i) (Returns F (fun _ => C k))) :
    Tri M R I0 (counterTimeW env fuel a mode csCid) (Returns F (fun t =>
      (∀ k, a.counter = some k → mode = "strict" → C k ∧ t = k.signingTime) ∧
      ∀ x, t = some x → ∃ k, a.counter = some k ∧ mode ≠ "ignore" ∧ C k ∧ k.signingTime = some x)) := by
  unfold counterTimeW
  cases hk : a.counter with
  | none => exact .ret (fun w hw => ⟨hF0 w hw, fun t ht => by cases ht; exact ⟨fun k h => (by cases h), fun x h => (by cases h)⟩⟩)
  | some k =>
    simp only
    split
    · rename_i hmode
      cases csCid with
      | none => exact .ret (fun w hw => ⟨hF0 w hw, fun t ht => by cases ht⟩)
      | some i =>
        refine .onResult (hc k i hk rfl hmode) (fun x => ?_)
        cases x with
        | ok u =>
          refine .ret (fun w hw => ⟨hw.1, fun t ht => ?_⟩)
          cases ht
          refine ⟨fun k' h' _ => ?_, fun x hx => ⟨k, rfl, hmode, hw.2 _ rfl, hx⟩⟩
          cases h'
          exact ⟨hw.2 _ rfl, rfl⟩
        | error e =>
          simp only
          split
          · rename_i hs
            refine .ret (fun w hw => ⟨hw.1, fun t ht => ?_⟩)
            cases ht
            exact ⟨fun k' _ h' => absurd h' hs, fun x hx => by cases hx⟩
          · exact .ret (fun w hw => ⟨hw.1, fun t ht => by cases ht⟩)
    · rename_i hmode
      refine .ret (fun w hw => ⟨hF0 w hw, fun t ht => ?_⟩)
      cases ht
      refine ⟨fun k' _ h' => ?_, fun x hx => by cases hx⟩
      subst h'
      exact absurd (by decide) hmode

end

/-! ### whatever the others do -/

theorem inv_true (cid : Nat) : Inv (fun _ _ => True) cid (fun _ => True) := ⟨fun _ _ _ h => h, fun _ _ _ _ h => h, fun _ h => h, fun _ h => h⟩

theorem chain_of_checked {env : Env} {M : World → Prop} {cid : Nat} {U : Option Int → Prop} {s : Signer} {t : Option Int} {c : Cert} {chain : List Cert}
    (hn : NamedThen (fun m => M m ∧ ∃ u : Option Int, U u ∧ True) cid s c) (h : Checked env M cid U (fun _ _ => True) s t c chain) :
    ChainThen env M cid s chain c := by
  obtain ⟨u, -, -, ⟨m, h1, h2⟩, h3⟩ := h
  exact ⟨NamedThen.mono (fun _ h => h.1) hn, ⟨m, h1.1, h2⟩, ValidatedThen.mono (fun _ h => h.1) h3⟩

theorem asdVerify_any (env : Env) (fuel : Nat) (file : Option Bytes) (a : AuthData) (args : VerifyArgs) (M : World → Prop) :
    Tri M (fun _ _ => True) (fun _ => True) (asdVerifyW env fuel file a args) (Returns (fun _ => True) (fun chains =>
      DigestsMatch env file a args.expectedHash ∧
      (∀ k, a.counter = some k → args.countersignatureMode = "strict" → ∃ i, (∀ j, args.csContext = some j → i = j) ∧
        CounterOf env a.signer.encryptedDigest (fun s chain => ∃ c, ChainThen env M i s chain c) k) ∧
      chains ≠ [] ∧ ∃ cid, (∀ j, args.context = some j → cid = j) ∧ ∀ chain ∈ chains, ∃ c, ChainThen env M cid a.signer chain c)) := by
  have hs : Unaffected (fun _ _ : World => True) (fun _ => True) := fun _ _ _ h => h
  unfold asdVerifyW
  refine .seq (.look (P := fun cid => ∀ j, args.context = some j → cid = j) hs (fun w _ _ => ⟨trivial, fun x hx j hj => ?_⟩)) (fun cid hcid => ?_)
  · unfold chooseContext at hx
    rw [hj] at hx
    cases hx
    rfl
  refine .seq (.look (P := fun cs => ∀ i, cs = some i → ∀ j, args.csContext = some j → i = j) hs (fun w _ _ => ⟨trivial, fun x hx i hi j hj => ?_⟩))
    (fun cs hcs => ?_)
  · unfold chooseCsContext at hx
    rw [hj] at hx
    cases hx
    cases hi
    rfl
  refine .seq (.lift (P := fun _ => DigestsMatch env file a args.expectedHash) (fun _ h => checkDigests_ok.1 h)) (fun _ hd => ?_)
  refine .seq (counterTime_tri (F := fun _ => True) (C := fun k => ∃ i, (∀ j, args.csContext = some j → i = j) ∧
      CounterOf env a.signer.encryptedDigest (fun s chain => ∃ c, ChainThen env M i s chain c) k) env fuel a args.countersignatureMode cs (fun _ h => h)
    (fun k i hk hi hm => ?_)) (fun t ht => ?_)
  · refine (checkCounter_tri (J := fun _ _ => True) (F := fun _ => True) hs (fun _ => inv_true i) (fun _ _ _ _ => trivial) env fuel a k (fun _ _ => trivial) (fun _ _ => trivial)
      (fun _ _ _ => trivial)).weaken (fun r w hr => ⟨trivial, fun u hu => ⟨i, hcs i hi, ?_⟩⟩)
    have := hr.2 u hu
    unfold CounterOf at this ⊢
    cases k with
    | pkcs9 k =>
      obtain ⟨h1, chains, h2, h3⟩ := this
      refine ⟨h1, chains, h2, fun chain hch => ?_⟩
      obtain ⟨c, h4, h5⟩ := h3 chain hch
      exact ⟨c, chain_of_checked h4 h5⟩
    | rfc3161 k =>
      obtain ⟨h0, h1, chains, h2, h3⟩ := this
      refine ⟨h0, h1, chains, h2, fun chain hch => ?_⟩
      obtain ⟨c, h4, h5⟩ := h3 chain hch
      exact ⟨c, chain_of_checked h4 h5⟩
  · have h1 := authSigner_tri (M := M) (R := fun _ _ => True) (cid := cid) (U := fun _ => True) (J := fun _ _ => True) (fun _ => inv_true cid)
      (fun _ _ _ _ => trivial) env fuel a.signer t (fun _ _ => trivial)
    refine (h1.pre (fun w _ => ⟨none, trivial, trivial⟩)).weaken (fun r w hr => ⟨trivial, fun chains hch => ?_⟩)
    obtain ⟨h2, h3⟩ := hr.2 chains hch
    refine ⟨hd, fun k hk hm => (ht.1 k hk hm).1, h2, cid, hcid, fun chain hch => ?_⟩
    obtain ⟨c, h4, h5⟩ := h3 chain hch
    exact ⟨c, chain_of_checked h4 h5⟩

/-! ### when contexts are not shared -/

/-- A context object that others do not change, and whose usages can be read again. -/
def IsCtx (i : Nat) (x : Ctx) (w : World) : Prop := w.ctxs i = x

theorem stable_isCtx (i : Nat) (x : Ctx) : Unaffected StoresOnly (IsCtx i x) := fun w w' h hw => by
  show w'.ctxs i = x
  rw [h.1]
  exact hw

theorem take_same {cid : Nat} {w : World} (h : Reiterable (w.ctxs cid).ekus) (k : Reiterable (w.ctxs cid).keyUsages) :
    (takeEkus cid w).2 = w ∧ (takeKeyUsages cid w).2 = w := by
  rw [takeEkus_run, takeKeyUsages_run]
  exact ⟨exhaustEkus_of h, exhaustKus_of k⟩

theorem inv_isCtx (i : Nat) (x : Ctx) (he : Reiterable x.ekus) (hk : Reiterable x.keyUsages) {F : World → Prop} (hF : Unaffected StoresOnly F)
    (hFs : ∀ w w', w'.ctxs = w.ctxs → F w → F w') : Inv StoresOnly i (fun w => IsCtx i x w ∧ F w) where
  stable := fun w w' h hw => ⟨stable_isCtx i x w w' h hw.1, hF w w' h hw.2⟩
  stores := fun w w' h _ hw => ⟨by show w'.ctxs i = x; rw [h]; exact hw.1, hFs w w' h hw.2⟩
  kus := fun w hw => by
    have h : w.ctxs i = x := hw.1
    rw [(take_same (by rw [h]; exact he) (by rw [h]; exact hk)).2]
    exact hw
  ekus := fun w hw => by
    have h : w.ctxs i = x := hw.1
    rw [(take_same (by rw [h]; exact he) (by rw [h]; exact hk)).1]
    exact hw

theorem set_isCtx {i : Nat} {x : Ctx} {u : Option Int} {w : World} (t : Option Int) (h : IsCtx i { x with timestamp := u } w) :
    IsCtx i { x with timestamp := t } (setTimestamp i t w).2 := by
  show (if i = i then { w.ctxs i with timestamp := t } else w.ctxs i) = _
  rw [if_pos rfl, show w.ctxs i = _ from h]

theorem set_other {i j : Nat} (hij : j ≠ i) (t : Option Int) (w : World) : ((setTimestamp i t w).2).ctxs j = w.ctxs j := by
  show (if j = i then _ else w.ctxs j) = _
  rw [if_neg hij]

theorem reiterable_contextOf (stores : List StoreRef) (ekus : List String) (o : CtxOptions) (t : Option Int) :
    Reiterable ({ contextOf stores ekus o with timestamp := t } : Ctx).ekus ∧ Reiterable ({ contextOf stores ekus o with timestamp := t } : Ctx).keyUsages := by
  refine ⟨rfl, ?_⟩
  unfold contextOf
  cases o.keyUsages <;> rfl

theorem asdVerify_private (env : Env) (fuel : Nat) (file : Option Bytes) (a : AuthData) (args : VerifyArgs) (h1 : args.context = none)
    (h2 : args.csContext = none) (M : World → Prop) (w₀ : World) :
    Tri M StoresOnly (fun _ => True) (asdVerifyW env fuel file a args) (Returns (fun _ => True) (fun chains =>
      DigestsMatch env file a args.expectedHash ∧ ∃ t : Option Int,
      (∀ k, a.counter = some k → args.countersignatureMode = "strict" → t = k.signingTime ∧
        CounterOf env a.signer.encryptedDigest (fun s chain => ∃ c,
          EvidenceIn env M { counterContext w₀ a k args with timestamp := k.signingTime } s chain c) k) ∧
      (∀ x, t = some x → ∃ k, a.counter = some k ∧ args.countersignatureMode ≠ "ignore" ∧ k.signingTime = some x ∧
        CounterOf env a.signer.encryptedDigest (fun s chain => ∃ c,
          EvidenceIn env M { counterContext w₀ a k args with timestamp := k.signingTime } s chain c) k) ∧
      chains ≠ [] ∧ ∀ chain ∈ chains, ∃ c u, (u = args.options.timestamp ∨ u = t) ∧ (¬ LifetimeSigning c → t ≠ none → u = t) ∧
        EvidenceIn env M { signerContext w₀ a args with timestamp := u } a.signer chain c)) := by
  obtain ⟨X, hX⟩ : ∃ X, X = signerContext w₀ a args := ⟨_, rfl⟩
  have hXc : X = contextOf [args.trusted, .embedded a.core.certificates] ["code_signing"] args.options := by rw [hX]; unfold signerContext; rw [h1]
  obtain ⟨Y, hY⟩ : ∃ Y : CounterSigner → Ctx, Y = fun k => counterContext w₀ a k args := ⟨_, rfl⟩
  have hYc : ∀ k, Y k = contextOf (counterStores a k args.trusted) ["time_stamping"] args.options := by
    intro k; rw [hY]; unfold counterContext; simp only [h2]; rfl
  have hreX : ∀ u, Reiterable ({ X with timestamp := u } : Ctx).ekus ∧ Reiterable ({ X with timestamp := u } : Ctx).keyUsages := by
    intro u; rw [hXc]; exact reiterable_contextOf _ _ _ u
  have hreY : ∀ k u, Reiterable ({ Y k with timestamp := u } : Ctx).ekus ∧ Reiterable ({ Y k with timestamp := u } : Ctx).keyUsages := by
    intro k u; rw [hYc]; exact reiterable_contextOf _ _ _ u
  rw [← hX]
  have hYk : ∀ k, counterContext w₀ a k args = Y k := by intro k; rw [hY]
  simp only [hYk]
  unfold asdVerifyW
  refine .bind (Q := fun r w => ∀ cid, r = .ok cid → w.ctxs cid = X ∧ cid < w.nextCtx) (.act (fun _ _ _ h => h) (fun w _ _ cid hr => ?_))
    (fun e w _ => ⟨trivial, fun a ha => by cases ha⟩) (fun cid => ?_)
  · unfold chooseContext at hr ⊢
    rw [h1] at hr ⊢
    cases hr
    refine ⟨?_, Nat.lt_succ_self _⟩
    show (if w.nextCtx = w.nextCtx then _ else _) = _
    rw [if_pos rfl, hXc]
    rfl
  refine .pre (I := fun w => w.ctxs cid = X ∧ cid < w.nextCtx) ?_ (fun w hw => hw cid rfl)
  refine .bind (Q := fun r w => w.ctxs cid = X ∧ ∀ cs, r = .ok cs → ∀ i, cs = some i → i ≠ cid ∧ ∃ k, a.counter = some k ∧ w.ctxs i = Y k)
    (.act (fun w w' hr hw => by rw [hr.1, hr.2.1]; exact hw) (fun w _ hw => ?_))
    (fun e w _ => ⟨trivial, fun a ha => by cases ha⟩) (fun cs => ?_)
  · unfold chooseCsContext
    rw [h2]
    cases hk : a.counter with
    | none => exact ⟨hw.1, fun cs hcs i hi => by cases hcs; cases hi⟩
    | some k =>
      simp only
      split
      · refine ⟨?_, fun cs hcs i hi => ?_⟩
        · show (if cid = w.nextCtx then _ else w.ctxs cid) = _
          rw [if_neg (Nat.ne_of_lt hw.2)]
          exact hw.1
        · cases hcs
          cases hi
          refine ⟨Nat.ne_of_gt hw.2, k, rfl, ?_⟩
          show (if w.nextCtx = w.nextCtx then _ else _) = _
          rw [if_pos rfl, hYc]
          rfl
      · exact ⟨hw.1, fun cs hcs i hi => by cases hcs; cases hi⟩
  refine .pre (I := fun w => w.ctxs cid = X ∧ ∀ i, cs = some i → i ≠ cid ∧ ∃ k, a.counter = some k ∧ w.ctxs i = Y k) ?_ (fun w hw => ⟨hw.1, hw.2 cs rfl⟩)
  refine .bind (Q := Returns _ (fun _ => DigestsMatch env file a args.expectedHash)) (.lift (fun _ h => checkDigests_ok.1 h))
    (fun e w _ => ⟨trivial, fun a ha => by cases ha⟩) (fun _ => ?_)
  intro τ hτ n w hw hm
  have hd := hw.2 () rfl
  revert n w
  intro n w hw hm
  refine (?_ : Tri M StoresOnly (fun w => w.ctxs cid = X ∧ ∀ i, cs = some i → i ≠ cid ∧ ∃ k, a.counter = some k ∧ w.ctxs i = Y k)
    (do let t ← counterTimeW env fuel a args.countersignatureMode cs; authSignerVerifyW env fuel cid a.signer t) _) τ hτ n w hw.1 hm
  have hstab : Unaffected StoresOnly (fun w => w.ctxs cid = X) := stable_isCtx cid X
  refine .bind (counterTime_tri (F := fun w => w.ctxs cid = X) (C := fun k => CounterOf env a.signer.encryptedDigest (fun s chain => ∃ c,
      EvidenceIn env M { Y k with timestamp := k.signingTime } s chain c) k) env fuel a args.countersignatureMode cs (fun _ h => h.1)
    (fun k i hk hi hmode => ?_)) (fun e w _ => ⟨trivial, fun a ha => by cases ha⟩) (fun t => ?_)
  · by_cases hic : i = cid
    · -- not possible
      intro τ hτ n w hw hm
      exact absurd hic (hw.2 i hi).1
    · refine .pre (I := fun w => IsCtx i (Y k) w ∧ w.ctxs cid = X) ?_ (fun w hw => ?_)
      · refine (checkCounter_tri (J := fun u w => IsCtx i { Y k with timestamp := u } w ∧ w.ctxs cid = X) (F := fun w => w.ctxs cid = X)
          (fun w w' hr hw => ⟨stable_isCtx i _ w w' hr hw.1, hstab w w' hr hw.2⟩)
          (fun u => inv_isCtx i _ (hreY k u).1 (hreY k u).2 hstab (fun w w' h hw => by rw [h]; exact hw))
          (fun u t w hw => ⟨set_isCtx _ hw.1, by rw [set_other (fun h => hic h.symm)]; exact hw.2⟩) env fuel a k
          (fun w hw => ⟨set_isCtx (u := (Y k).timestamp) _ hw.1, by rw [set_other (fun h => hic h.symm)]; exact hw.2⟩)
          (fun w hw => hw.2) (fun u w hw => hw.2)).weaken (fun r w hr => ⟨hr.1, fun u hu => ?_⟩)
        have hev : ∀ s chain, (∃ c, NamedThen (fun m => M m ∧ ∃ u, u = k.signingTime ∧ IsCtx i { Y k with timestamp := u } m ∧ m.ctxs cid = X) i s c ∧
            Checked env M i (fun u => u = k.signingTime) (fun u w => IsCtx i { Y k with timestamp := u } w ∧ w.ctxs cid = X) s none c chain) →
            ∃ c, EvidenceIn env M { Y k with timestamp := k.signingTime } s chain c := by
          rintro s chain ⟨c, hn, u, rfl, -, hs, hv⟩
          refine ⟨c, evidence_of (A := fun m => M m ∧ ∃ u, u = k.signingTime ∧ IsCtx i { Y k with timestamp := u } m ∧ m.ctxs cid = X)
            (fun m hm => ?_) (fun m hm => ⟨hm.1, hm.2.1⟩) hn hs hv⟩
          obtain ⟨hm1, u, rfl, hm2, -⟩ := hm
          rw [show m.ctxs i = _ from hm2]
          exact ⟨hm1, rfl, rfl⟩
        have hc := hr.2 u hu
        unfold CounterOf at hc ⊢
        cases k with
        | pkcs9 k =>
          obtain ⟨h1, chains, h2, h3⟩ := hc
          exact ⟨h1, chains, h2, fun chain hch => hev _ chain (h3 chain hch)⟩
        | rfc3161 k =>
          obtain ⟨h0, h1, chains, h2, h3⟩ := hc
          exact ⟨h0, h1, chains, h2, fun chain hch => hev _ chain (h3 chain hch)⟩
      · obtain ⟨-, k', hk', hY'⟩ := hw.2 i hi
        rw [hk] at hk'
        cases hk'
        exact ⟨hY', hw.1⟩
  · intro τ hτ n w hw hm
    have ht := hw.2 t rfl
    refine (?_ : Tri M StoresOnly (fun w => w.ctxs cid = X) (authSignerVerifyW env fuel cid a.signer t) _) τ hτ n w hw.1 hm
    have hgo := authSigner_tri (M := M) (R := StoresOnly) (cid := cid) (U := fun u => u = args.options.timestamp ∨ u = t)
      (J := fun u w => IsCtx cid { X with timestamp := u } w ∧ True)
      (fun u => inv_isCtx cid _ (hreX u).1 (hreX u).2 (F := fun _ => True) (fun _ _ _ h => h) (fun _ _ _ h => h))
      (fun u t w hw => ⟨set_isCtx _ hw.1, trivial⟩) env fuel a.signer t (fun x hx => .inr hx.symm)
    refine (hgo.pre (fun w hw => ⟨args.options.timestamp, .inl rfl, ?_, trivial⟩)).weaken (fun r w hr => ⟨trivial, fun chains hch => ?_⟩)
    · show w.ctxs cid = _
      rw [show w.ctxs cid = X from hw, hXc]
      rfl
    · obtain ⟨h3, h4⟩ := hr.2 chains hch
      refine ⟨hd, t, fun k hk hmode => ⟨(ht.1 k hk hmode).2, (ht.1 k hk hmode).1⟩, fun x hx => ?_, h3, fun chain hc => ?_⟩
      · obtain ⟨k, e1, e2, e3, e4⟩ := ht.2 x hx
        exact ⟨k, e1, e2, e4, e3⟩
      · obtain ⟨c, hn, u, hu, hut, hs, hv⟩ := h4 chain hc
        refine ⟨c, u, hu, fun hl hne => ?_, evidence_of (A := fun m => M m ∧ ∃ u, (u = args.options.timestamp ∨ u = t) ∧ IsCtx cid { X with timestamp := u } m ∧ True)
          (fun m hm => ?_) (fun m hm => ⟨hm.1, hm.2.1⟩) hn hs hv⟩
        · cases t with
          | none => exact absurd rfl hne
          | some x =>
            have : ¬ lifetimeSigning c = true := fun h => hl (lifetimeSigning_iff.1 h)
            exact hut x (by rw [if_neg this])
        · obtain ⟨hm1, u, -, hm2, -⟩ := hm
          rw [show m.ctxs cid = _ from hm2]
          exact ⟨hm1, rfl, rfl⟩

end Signify
