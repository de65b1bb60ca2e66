/-
What verification may change: stores only by loading them, contexts only in their timestamp and one-shot iterators.
-/
import Verif.Model.Verify
import Verif.Proofs.Loading

set_option autoImplicit false

namespace Signify

open Spec

/-- `p'` is `p`, or `p` used up. -/
def IterStep (p p' : PyIter) : Prop := p' = p ∨ p' = p.consumed

theorem consumed_consumed (p : PyIter) : p.consumed.consumed = p.consumed := by cases p <;> rfl

theorem IterStep.refl (p : PyIter) : IterStep p p := .inl rfl

theorem IterStep.trans {a b c : PyIter} (h : IterStep a b) (k : IterStep b c) : IterStep a c := by
  rcases h with rfl | rfl <;> rcases k with rfl | rfl
  · exact .inl rfl
  · exact .inr rfl
  · exact .inr rfl
  · exact .inr (consumed_consumed a)

/-- A context that differs at most in its timestamp and in iterators used up. -/
structure CtxStep (c c' : Ctx) : Prop where
  same : c' = { c with timestamp := c'.timestamp, keyUsages := c'.keyUsages, ekus := c'.ekus }
  kus : IterStep c.keyUsages c'.keyUsages
  ekus : IterStep c.ekus c'.ekus

theorem CtxStep.refl (c : Ctx) : CtxStep c c := ⟨rfl, .refl _, .refl _⟩

theorem CtxStep.trans {a b c : Ctx} (h : CtxStep a b) (k : CtxStep b c) : CtxStep a c := by
  refine ⟨?_, h.kus.trans k.kus, h.ekus.trans k.ekus⟩
  have h1 := h.same
  have h2 := k.same
  rw [h1] at h2
  exact h2

/-- A store that is the same, or has been loaded. -/
def StoreStep (s s' : Store) : Prop := s' = s ∨ s' = Spec.Store.loaded s

theorem loaded_loaded (s : Store) : Spec.Store.loaded (Spec.Store.loaded s) = Spec.Store.loaded s := loaded_of_none (loaded_pending s)

theorem StoreStep.trans {a b c : Store} (h : StoreStep a b) (k : StoreStep b c) : StoreStep a c := by
  rcases h with rfl | rfl <;> rcases k with rfl | rfl
  · exact .inl rfl
  · exact .inr rfl
  · exact .inr rfl
  · exact .inr (loaded_loaded a)

theorem StoreStep.eq_of_none {s s' : Store} (h : StoreStep s s') (hn : s.pending = none) : s' = s := by
  rcases h with h | h
  · exact h
  · rw [h, loaded_of_none hn]

theorem StoreStep.loaded_eq {s s' : Store} (h : StoreStep s s') : Spec.Store.loaded s' = Spec.Store.loaded s := by
  rcases h with rfl | rfl
  · rfl
  · exact loaded_loaded s

/-- The state changes that happen while contexts in `D` are used for verification, where only those in `T` get a new timestamp. -/
structure Frame (D T : Nat → Prop) (w w' : World) : Prop where
  stores : ∀ i, StoreStep (w.stores i) (w'.stores i)
  dicts : w'.dicts = w.dicts
  next : w'.nextCtx = w.nextCtx
  other : ∀ j, ¬ D j → w'.ctxs j = w.ctxs j
  times : ∀ j, ¬ T j → (w'.ctxs j).timestamp = (w.ctxs j).timestamp
  ctxs : ∀ j, CtxStep (w.ctxs j) (w'.ctxs j)

theorem Frame.refl (D T : Nat → Prop) (w : World) : Frame D T w w :=
  ⟨fun _ => .inl rfl, rfl, rfl, fun _ _ => rfl, fun _ _ => rfl, fun _ => .refl _⟩

theorem Frame.trans {D T : Nat → Prop} {a b c : World} (h : Frame D T a b) (k : Frame D T b c) : Frame D T a c :=
  ⟨fun i => (h.stores i).trans (k.stores i), k.dicts.trans h.dicts, k.next.trans h.next,
    fun j hj => (k.other j hj).trans (h.other j hj), fun j hj => (k.times j hj).trans (h.times j hj), fun j => (h.ctxs j).trans (k.ctxs j)⟩

theorem Frame.mono {D E T U : Nat → Prop} {a b : World} (h : Frame D T a b) (hs : ∀ j, D j → E j) (ht : ∀ j, T j → U j) :
    Frame E U a b :=
  ⟨h.stores, h.dicts, h.next, fun j hj => h.other j (fun k => hj (hs j k)), fun j hj => h.times j (fun k => hj (ht j k)), h.ctxs⟩

theorem CtxStep.stores {c c' : Ctx} (h : CtxStep c c') : c'.stores = c.stores := by rw [h.same]
theorem CtxStep.allowLegacy {c c' : Ctx} (h : CtxStep c c') : c'.allowLegacy = c.allowLegacy := by rw [h.same]

theorem Frame.ctxStores {D T : Nat → Prop} {a b : World} (h : Frame D T a b) (j : Nat) : (b.ctxs j).stores = (a.ctxs j).stores :=
  (h.ctxs j).stores

/-- A loaded store does not change any more. -/
theorem Frame.certsOf {D T : Nat → Prop} {a b : World} (h : Frame D T a b) {r : StoreRef} (hr : LoadedStore a r) :
    certsOf b r = certsOf a r := by
  cases r with
  | embedded _ => rfl
  | heap i => simp only [Spec.certsOf, (h.stores i).eq_of_none hr]

theorem Frame.loadedStore {D T : Nat → Prop} {a b : World} (h : Frame D T a b) {r : StoreRef} (hr : LoadedStore a r) : LoadedStore b r := by
  cases r with
  | embedded _ => trivial
  | heap i => simp only [LoadedStore, (h.stores i).eq_of_none hr]; exact hr

theorem StoreStep.trusted {s s' : Store} (h : StoreStep s s') : s'.trusted = s.trusted := by
  rcases h with rfl | rfl
  · rfl
  · exact loaded_trusted s

theorem loaded_ctl (s : Store) : (Spec.Store.loaded s).ctl = s.ctl := by
  unfold Spec.Store.loaded
  split <;> rfl

theorem StoreStep.ctl {s s' : Store} (h : StoreStep s s') : s'.ctl = s.ctl := by
  rcases h with rfl | rfl
  · rfl
  · exact loaded_ctl s

theorem Frame.storeTrusted {D T : Nat → Prop} {a b : World} (h : Frame D T a b) (r : StoreRef) : storeTrusted b r = storeTrusted a r := by
  cases r with
  | embedded _ => rfl
  | heap i => exact (h.stores i).trusted

/-! ### actions that change no more than that -/

/-- The action changes the state only as `Frame D T` says. -/
def Keeps {α : Type} (D T : Nat → Prop) (x : M α) : Prop := ∀ w, Frame D T w (x w).2

namespace Keeps

variable {α β : Type} {D T : Nat → Prop}

theorem of_eq {x : M α} {w w' : World} {r : Except Exc α} (h : Keeps D T x) (e : x w = (r, w')) : Frame D T w w' := by
  have := h w
  rw [e] at this
  exact this

theorem pure (a : α) : Keeps D T (Pure.pure a : M α) := fun w => .refl D T w
theorem raise (e : Exc) : Keeps D T (M.raise e : M α) := fun w => .refl D T w
theorem lift (x : Except Exc α) : Keeps D T (M.lift x) := fun w => .refl D T w
theorem getCtx (i : Nat) : Keeps D T (M.getCtx i) := fun w => .refl D T w
theorem world : Keeps D T M.world := fun w => .refl D T w

theorem bind {x : M α} {f : α → M β} (hx : Keeps D T x) (hf : ∀ a, Keeps D T (f a)) : Keeps D T (x >>= f) := by
  intro w
  rw [M.bind_run]
  rcases h : x w with ⟨r, w1⟩
  have h1 := hx.of_eq h
  cases r with
  | error e => exact h1
  | ok a => exact h1.trans (hf a w1)

theorem attempt {x : M α} (hx : Keeps D T x) : Keeps D T (M.attempt x) := by
  intro w
  have := hx w
  unfold M.attempt
  rcases h : x w with ⟨r, w1⟩
  rw [h] at this
  exact this

theorem iterStore (r : StoreRef) : Keeps D T (iterStore r) := by
  intro w
  cases r with
  | embedded _ => exact .refl D T w
  | heap i =>
    have hrun : Signify.iterStore (.heap i) w = (match (w.stores i).pending with
      | none => Pure.pure (w.stores i).items
      | some (certs, exc) =>
        (M.setStore i { w.stores i with items := (w.stores i).items ++ certs, pending := none } >>= fun _ =>
          match exc with
          | none => Pure.pure ((w.stores i).items ++ certs)
          | some e => M.raise e) : M (List Cert)) w := rfl
    rw [hrun]
    rcases hp : (w.stores i).pending with _ | ⟨certs, exc⟩
    · exact .refl D T w
    · have : Frame D T w { w with stores := fun j => if j = i then
          { w.stores i with items := (w.stores i).items ++ certs, pending := none } else w.stores j } := by
        refine ⟨fun j => ?_, rfl, rfl, fun _ _ => rfl, fun _ _ => rfl, fun _ => .refl _⟩
        simp only
        split
        · rename_i h; subst h
          refine .inr ?_
          unfold Spec.Store.loaded
          rw [hp]
        · exact .inl rfl
      cases exc <;> exact this

theorem collectCerts (rs : List StoreRef) (roots inter : List Nat) (all : Dict Nat Cert) :
    Keeps D T (collectCerts rs roots inter all) := by
  induction rs generalizing roots inter all with
  | nil => exact pure _
  | cons r rs ih =>
    unfold Signify.collectCerts
    refine bind (iterStore r) (fun l => bind world (fun w => ?_))
    dsimp only
    split
    · exact ih _ _ _
    · exact ih _ _ _

theorem takeEkus {cid : Nat} (h : D cid) : Keeps D T (takeEkus cid) := by
  intro w
  rw [takeEkus_run]
  refine ⟨fun _ => .inl rfl, rfl, rfl, fun j hj => ?_, fun j hj => ?_, fun j => ?_⟩
  · simp only [exhaustEkus]
    split
    · rename_i e; subst e; exact absurd h hj
    · rfl
  · simp only [exhaustEkus]
    split
    · rename_i e; subst e; rfl
    · rfl
  · simp only [exhaustEkus]
    split
    · rename_i e; subst e; exact ⟨rfl, .refl _, .inr rfl⟩
    · exact .refl _

theorem takeKeyUsages {cid : Nat} (h : D cid) : Keeps D T (takeKeyUsages cid) := by
  intro w
  rw [takeKeyUsages_run]
  refine ⟨fun _ => .inl rfl, rfl, rfl, fun j hj => ?_, fun j hj => ?_, fun j => ?_⟩
  · simp only [exhaustKus]
    split
    · rename_i e; subst e; exact absurd h hj
    · rfl
  · simp only [exhaustKus]
    split
    · rename_i e; subst e; rfl
    · rfl
  · simp only [exhaustKus]
    split
    · rename_i e; subst e; exact ⟨rfl, .inr rfl, .refl _⟩
    · exact .refl _

theorem ctlVerifyTrust (env : Env) {cid : Nat} (h : D cid) (ctl : CTL) (chain : List Cert) :
    Keeps D T (ctlVerifyTrust env cid ctl chain) := by
  unfold Signify.ctlVerifyTrust
  split
  · exact raise _
  · refine bind (lift _) (fun subj => ?_)
    split
    · exact lift _
    · exact bind (getCtx _) (fun _ => bind (takeEkus h) (fun _ => lift _))

theorem storeVerifyTrust (env : Env) {cid : Nat} (h : D cid) (r : StoreRef) (chain : List Cert) :
    Keeps D T (storeVerifyTrust env cid r chain) := by
  intro w
  unfold Signify.storeVerifyTrust
  split
  · exact .refl D T w
  · split
    · exact .refl D T w
    · split
      · exact .refl D T w
      · split
        · exact .refl D T w
        · exact ctlVerifyTrust env h _ _ w

theorem verifyTrustLoop (env : Env) {cid : Nat} (h : D cid) (chain : List Cert) (rs : List StoreRef) (exc : Option Exc) :
    Keeps D T (verifyTrustLoop env cid chain rs exc) := by
  induction rs generalizing exc with
  | nil => cases exc <;> exact raise _
  | cons r rs ih =>
    intro w
    unfold Signify.verifyTrustLoop
    have hk := storeVerifyTrust (T := T) env h r chain w
    rcases hx : Signify.storeVerifyTrust env cid r chain w with ⟨x, w1⟩
    rw [hx] at hk
    cases x with
    | ok u => exact hk
    | error e =>
      dsimp only
      split
      · exact hk.trans (ih _ w1)
      · split
        · exact hk.trans (ih _ w1)
        · exact hk

theorem ctxVerifyTrust (env : Env) {cid : Nat} (h : D cid) (chain : List Cert) : Keeps D T (ctxVerifyTrust env cid chain) :=
  bind (getCtx _) (fun _ => verifyTrustLoop env h _ _ _)

theorem ctxVerify (env : Env) {cid : Nat} (h : D cid) (c : Cert) : Keeps D T (ctxVerify env cid c) := by
  unfold Signify.ctxVerify
  refine bind (getCtx _) (fun ctx => bind (collectCerts _ _ _ _) (fun x => ?_))
  obtain ⟨roots, inter, all⟩ := x
  refine bind (lift _) (fun _ => bind (takeKeyUsages h) (fun _ => bind (takeEkus h) (fun _ => ?_)))
  split
  · exact lift _
  · exact bind (lift _) (fun _ => bind (ctxVerifyTrust env h _) (fun _ => pure _))

theorem setTimestamp {cid : Nat} (h : D cid) (hT : T cid) (t : Option Int) : Keeps D T (setTimestamp cid t) := by
  intro w
  refine ⟨fun _ => .inl rfl, rfl, rfl, fun j hj => ?_, fun j hj => ?_, fun j => ?_⟩
  · show (if j = cid then _ else w.ctxs j : Ctx) = _
    rw [if_neg (fun e => hj (by subst e; exact h))]
  · show (if j = cid then _ else w.ctxs j : Ctx).timestamp = _
    rw [if_neg (fun e => hj (by subst e; exact hT))]
  · show CtxStep (w.ctxs j) (if j = cid then _ else w.ctxs j : Ctx)
    split
    · rename_i e; subst e; exact ⟨rfl, .refl _, .refl _⟩
    · exact .refl _

theorem applySigningTime {cid : Nat} (h : D cid) (hT : T cid) (t : Option Int) : Keeps D T (applySigningTime cid t) := by
  cases t with
  | none => exact pure _
  | some t => exact setTimestamp h hT _

theorem verifyIssuerSignature (env : Env) (cid : Nat) (s : Signer) (issuer : Cert) :
    Keeps D T (verifyIssuerSignature env cid s issuer) := by
  unfold Signify.verifyIssuerSignature
  refine bind (getCtx _) (fun ctx => ?_)
  split
  · exact pure _
  · split
    · exact lift _
    · exact raise _

theorem verifyIssuer (env : Env) {cid : Nat} (h : D cid) (hT : T cid) (s : Signer) (t : Option Int) (issuer : Cert) :
    Keeps D T (verifyIssuer env cid s t issuer) :=
  bind (verifyIssuerSignature env cid s issuer) (fun _ => bind (applySigningTime h hT t) (fun _ => ctxVerify env h issuer))

theorem verifyIssuerAuth (env : Env) {cid : Nat} (h : D cid) (hT : T cid) (s : Signer) (t : Option Int) (issuer : Cert) :
    Keeps D T (verifyIssuerAuth env cid s t issuer) := verifyIssuer env h hT s _ issuer

theorem buildChainBody {check : Cert → M (List Cert)} (hc : ∀ c, Keeps D T (check c)) (acc : List (List Cert) × FirstError)
    (issuer : Cert) : Keeps D T (buildChainBody check acc issuer) := by
  unfold Signify.buildChainBody
  refine bind (attempt (hc issuer)) (fun r => ?_)
  split
  · exact pure _
  · split
    · exact pure _
    · exact raise _

theorem forCerts {σ : Type} (env : Env) (q : Query) {body : σ → Cert → M σ} (hb : ∀ a c, Keeps D T (body a c)) (l seen : List Cert)
    (acc : σ) : Keeps D T (forCerts env q body l seen acc) := by
  induction l generalizing seen acc with
  | nil => exact pure _
  | cons c l ih =>
    unfold Signify.forCerts
    split
    · split
      · exact ih _ _
      · exact bind (hb _ _) (fun _ => ih _ _)
    · exact ih _ _

theorem forStores {σ : Type} (env : Env) (q : Query) {body : σ → Cert → M σ} (hb : ∀ a c, Keeps D T (body a c)) (rs : List StoreRef)
    (seen : List Cert) (acc : σ) : Keeps D T (forStores env q body rs seen acc) := by
  induction rs generalizing seen acc with
  | nil => exact pure _
  | cons r rs ih => exact bind (iterStore r) (fun l => bind (forCerts env q hb l seen acc) (fun x => ih _ _))

theorem forFind {σ : Type} (env : Env) (cid : Nat) (q : Query) (init : σ) {body : σ → Cert → M σ} (hb : ∀ a c, Keeps D T (body a c)) :
    Keeps D T (forFind env cid q init body) := bind (getCtx _) (fun _ => forStores env q hb _ _ _)

theorem buildChain (env : Env) (cid : Nat) (s : Signer) {check : Cert → M (List Cert)} (hc : ∀ c, Keeps D T (check c)) :
    Keeps D T (buildChain env cid s check) := by
  unfold Signify.buildChain
  refine bind (forFind env cid _ _ (buildChainBody hc)) (fun acc => ?_)
  split
  · exact raise _
  · exact pure _

theorem signerVerifyWith (env : Env) (cid : Nat) (s : Signer) {check : Cert → M (List Cert)} (hc : ∀ c, Keeps D T (check c)) :
    Keeps D T (signerVerifyWith env cid s check) := by
  unfold Signify.signerVerifyWith
  refine bind (buildChain env cid s hc) (fun chains => ?_)
  split
  · exact raise _
  · exact pure _

theorem signerVerify (env : Env) {cid : Nat} (h : D cid) (hT : T cid) (s : Signer) (t : Option Int) : Keeps D T (signerVerify env cid s t) :=
  signerVerifyWith env cid s (verifyIssuer env h hT s t)

theorem authSignerVerify (env : Env) {cid : Nat} (h : D cid) (hT : T cid) (s : Signer) (t : Option Int) : Keeps D T (authSignerVerify env cid s t) :=
  signerVerifyWith env cid s (verifyIssuerAuth env h hT s t)

theorem rfcVerify (env : Env) (r : Rfc3161) {cid : Nat} (h : D cid) (hT : T cid) (trusted : StoreRef) :
    Keeps D T (rfcVerify env r (some cid) trusted) := by
  unfold Signify.rfcVerify
  split
  · exact raise _
  · exact signerVerify (D := D) (T := T) env h hT r.signer none

theorem counterVerify (env : Env) (c : CounterSigner) {cid : Nat} (h : D cid) (hT : T cid) : Keeps D T (c.verify env cid) := by
  cases c with
  | pkcs9 c => exact signerVerify env h hT _ _
  | rfc3161 r => exact rfcVerify env r h hT (.embedded [])

theorem checkCounter (env : Env) (a : AuthData) (c : CounterSigner) {cid : Nat} (h : D cid) (hT : T cid) : Keeps D T (checkCounter env a c cid) := by
  unfold Signify.checkCounter
  split
  · exact raise _
  · exact bind (setTimestamp h hT _) (fun _ => bind (counterVerify env c h hT) (fun _ => pure _))

theorem counterTime (env : Env) (a : AuthData) (mode : String) (csCid : Option Nat) (h : ∀ i, csCid = some i → D i) (hT : ∀ i, csCid = some i → T i) :
    Keeps D T (counterTime env a mode csCid) := by
  unfold Signify.counterTime
  split
  · exact pure _
  · split
    · split
      · exact raise _
      · refine bind (attempt (checkCounter env a _ (h _ rfl) (hT _ rfl))) (fun r => ?_)
        split
        · exact pure _
        · split
          · exact pure _
          · exact raise _
    · exact pure _

/-- Without a signing time no timestamp is set. -/
theorem authSignerVerify_none (env : Env) {cid : Nat} (h : D cid) (s : Signer) : Keeps D T (Signify.authSignerVerify env cid s none) := by
  refine signerVerifyWith env cid s (fun issuer => ?_)
  unfold Signify.verifyIssuerAuth
  have : ∀ b : Bool, (if b = true then none else none : Option Int) = none := by intro b; cases b <;> rfl
  rw [this]
  exact bind (verifyIssuerSignature env cid s issuer) (fun _ => bind (pure _) (fun _ => ctxVerify env h issuer))

end Keeps

end Signify
