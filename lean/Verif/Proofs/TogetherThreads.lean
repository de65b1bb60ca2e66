/-
Threads that verify signatures with the same stores.
-/
import Verif.Proofs.TogetherAsd
import Verif.Proofs.TogetherAlone

set_option autoImplicit false

namespace Signify

open Spec

namespace WProg
variable {α β : Type}

/-- Each access of the code preserves `I`. -/
def Keeps (I : World → Prop) : WProg α → Prop
  | .ret _ => True
  | .step f k => ∀ w, I w → I (f w) ∧ (k w).Keeps I

theorem Keeps.ret {I : World → Prop} (r : Except Exc α) : Keeps I (.ret r : WProg α) := trivial

theorem Keeps.pure {I : World → Prop} (a : α) : Keeps I (Pure.pure a : WProg α) := trivial

theorem Keeps.lift {I : World → Prop} (r : Except Exc α) : Keeps I (WProg.lift r) := trivial

theorem Keeps.raise {I : World → Prop} (e : Exc) : Keeps I (WProg.raise e : WProg α) := trivial

theorem Keeps.act {I : World → Prop} {m : M α} (h : ∀ w, I w → I (m w).2) : Keeps I (act m) := fun w hw => ⟨h w hw, trivial⟩

theorem Keeps.onResult {I : World → Prop} {p : WProg α} {f : Except Exc α → WProg β} (h : p.Keeps I) (hf : ∀ r, (f r).Keeps I) : (p.onResult f).Keeps I := by
  induction p with
  | ret r => exact hf r
  | step g k ih => exact fun w hw => ⟨(h w hw).1, ih w (h w hw).2⟩

theorem Keeps.bind {I : World → Prop} {p : WProg α} {k : α → WProg β} (h : p.Keeps I) (hk : ∀ a, (k a).Keeps I) : (p >>= k).Keeps I := by
  refine onResult h (fun r => ?_)
  cases r with
  | ok a => exact hk a
  | error e => trivial

theorem Keeps.turn {I : World → Prop} {p : WProg α} (h : p.Keeps I) {w : World} (hw : I w) : I (p.turn w).2 ∧ (p.turn w).1.Keeps I := by
  cases p with
  | ret r => exact ⟨hw, trivial⟩
  | step f k => exact h w hw

/-- What happens later does not depend on what others do earlier. -/
theorem amid_late (p : WProg α) : ∀ (n : Nat) (w : World) (σ τ : Nat → World → World), (∀ k, n ≤ k → σ k = τ k) → p.amid σ n w = p.amid τ n w := by
  induction p with
  | ret r => intro n w σ τ _; rfl
  | step f k ih =>
    intro n w σ τ h
    unfold amid
    rw [h n (Nat.le_refl n), ih (τ n w) (n + 1) (f (τ n w)) σ τ (fun j hj => h j (by omega))]

/-- What a thread does when others take their turns is a run amid others that change the stores only. -/
theorem turns_amid (i : Nat) (S : (Nat → Store) → Prop) : ∀ (l : List Nat) (ps : Nat → WProg α) (stores : Nat → Store) (priv : Nat → World) (n : Nat)
    (r : Except Exc α), (turns l ps stores priv).1 i = .ret r → S stores → (∀ j, (ps j).Keeps (fun w => S w.stores)) →
    ∀ x : World, StoresOnly (priv i) x →
    ∃ σ, (∀ k w, StoresOnly w (σ k w)) ∧ ((ps i).amid σ n x).1 = r ∧ ∀ m ∈ ((ps i).amid σ n x).2.1, S m.stores := by
  intro l
  induction l with
  | nil =>
    intro ps stores priv n r hr _ _ x _
    refine ⟨nobodyElse, fun _ _ => ⟨rfl, rfl, rfl⟩, ?_⟩
    rw [show ps i = .ret r from hr]
    exact ⟨rfl, fun m hm => by cases hm⟩
  | cons j l ih =>
    intro ps stores priv n r hr hS hK x hx
    unfold turns at hr
    cases ht : (ps j).turn { priv j with stores := stores } with
    | mk p w' =>
      rw [ht] at hr
      simp only at hr
      have hk := (hK j).turn (w := { priv j with stores := stores }) hS
      rw [ht] at hk
      have hK' : ∀ k, ((fun k => if k = j then p else ps k) k).Keeps (fun w => S w.stores) := by
        intro k
        by_cases hkj : k = j
        · simp only [hkj, if_true]; exact hk.2
        · simp only [hkj, if_false]; exact hK k
      by_cases hij : i = j
      · subst hij
        obtain ⟨σ, s1, s2, s3⟩ := ih _ _ _ (n + 1) r hr hk.1 hK' w' (by simp only [if_true]; exact ⟨rfl, rfl, rfl⟩)
        simp only [if_true] at s2 s3
        cases hp : ps i with
        | ret r' =>
          rw [hp] at ht
          cases ht
          refine ⟨σ, s1, s2, fun m hm => by cases hm⟩
        | step f k =>
          rw [hp] at ht
          cases ht
          have hlate : ∀ m, n + 1 ≤ m → (fun (m : Nat) (y : World) => if m = n then ({ y with stores := stores } : World) else σ m y) m = σ m := by
            intro m hm
            funext y
            have : m ≠ n := by omega
            simp [this]
          refine ⟨fun m y => if m = n then { y with stores := stores } else σ m y, fun m y => ?_, ?_⟩
          · by_cases hm : m = n
            · simp only [hm, if_true]; exact ⟨rfl, rfl, rfl⟩
            · simp only [hm, if_false]; exact s1 m y
          · have h0 : ({ x with stores := stores } : World) = { priv i with stores := stores } := by
              obtain ⟨a, b, c⟩ := hx
              cases x
              simp only at a b c
              subst a; subst b; subst c
              rfl
            unfold amid
            simp only [if_true]
            rw [h0, amid_late _ _ _ _ σ hlate]
            exact ⟨s2, fun m hm => by
              rcases List.mem_cons.1 hm with rfl | hm
              · exact hS
              · exact s3 m hm⟩
      · have hij' : ¬ i = j := hij
        have := ih _ _ _ n r hr hk.1 hK' x (by simp only [hij', if_false]; exact hx)
        simp only [hij', if_false] at this
        exact this

theorem storesOnly_eq {w w' : World} (h : StoresOnly w w') (hs : w'.stores = w.stores) : w' = w := by
  obtain ⟨a, b, c⟩ := h
  cases w
  cases w'
  simp only at a b c hs
  subst a; subst b; subst c; subst hs
  rfl

/-- If the stores are the same at all accesses, the others do not matter. -/
theorem amid_same {σ : Nat → World → World} {s₀ : Nat → Store} (hσ : ∀ k w, StoresOnly w (σ k w)) (p : WProg α) : ∀ (n : Nat) (w : World),
    p.Keeps (fun w => w.stores = s₀) → w.stores = s₀ → (∀ m ∈ (p.amid σ n w).2.1, m.stores = s₀) → p.amid σ n w = p.amid nobodyElse n w := by
  induction p with
  | ret r => intro n w _ _ _; rfl
  | step f k ih =>
    intro n w hk hw hm
    have h0 : σ n w = w := storesOnly_eq (hσ n w) (by rw [hw]; exact hm _ (List.mem_cons_self ..))
    have h1 : ∀ m ∈ ((k w).amid σ (n + 1) (f w)).2.1, m.stores = s₀ := by
      intro m hx
      refine hm m (List.mem_cons_of_mem _ ?_)
      rw [h0]
      exact hx
    have := ih w (n + 1) (f w) (hk w hw).2 (hk w hw).1 h1
    unfold amid
    rw [h0]
    show (match (k w).amid σ (n + 1) (f w) with | (r, ms, w') => (r, w :: ms, w')) = (match (k w).amid nobodyElse (n + 1) (f w) with | (r, ms, w') => (r, w :: ms, w'))
    rw [this]

end WProg

open WProg

/-! ### what verification does to the stores -/

/-- `I` concerns the stores only, and loading a store preserves it. -/
structure KeepInv (I : World → Prop) : Prop where
  same : ∀ w w', w'.stores = w.stores → I w → I w'
  load : ∀ i, (loadW i).Keeps I

section
variable {I : World → Prop} {σ : Type}

theorem list_keeps {body : σ → Cert → WProg σ} (hb : ∀ a c, (body a c).Keeps I) : ∀ (l : List Cert) (a : σ), (listW body l a).Keeps I
  | [], _ => trivial
  | c :: l, a => .bind (hb a c) (fun b => list_keeps hb l b)

theorem scan_keeps (i : Nat) {body : σ → Cert → WProg σ} (hb : ∀ a c, (body a c).Keeps I) : ∀ (f n : Nat) (a : σ), (scanW i body f n a).Keeps I
  | 0, _, _ => trivial
  | f + 1, n, a => by
    unfold scanW
    refine .bind (.act (fun w hw => hw)) (fun x => ?_)
    cases x with
    | none => trivial
    | some c => exact .bind (hb a c) (fun b => scan_keeps i hb f (n + 1) b)

theorem forStore_keeps (h : KeepInv I) (fuel : Nat) (r : StoreRef) {body : σ → Cert → WProg σ} (hb : ∀ a c, (body a c).Keeps I) (a : σ) :
    (forStoreW fuel r body a).Keeps I := by
  cases r with
  | embedded l => exact list_keeps hb l a
  | heap i => exact .bind (h.load i) (fun _ => scan_keeps i hb fuel 0 a)

theorem forStores_keeps (h : KeepInv I) (env : Env) (fuel : Nat) (q : Query) {body : σ → Cert → WProg σ} (hb : ∀ a c, (body a c).Keeps I) :
    ∀ (rs : List StoreRef) (x : List Cert × σ), (forStoresW env fuel q body rs x).Keeps I
  | [], _ => trivial
  | r :: rs, x => by
    unfold forStoresW
    refine .bind (forStore_keeps h fuel r (fun a c => ?_) x) (fun y => forStores_keeps h env fuel q hb rs y)
    unfold findBodyW
    split
    · split
      · trivial
      · exact .bind (hb _ _) (fun _ => trivial)
    · trivial

theorem forFind_keeps (h : KeepInv I) (env : Env) (fuel cid : Nat) (q : Query) {body : σ → Cert → WProg σ} (hb : ∀ a c, (body a c).Keeps I) (a : σ) :
    (forFindW env fuel cid q a body).Keeps I :=
  .bind (.act (fun w hw => hw)) (fun _ => .bind (forStores_keeps h env fuel q hb _ _) (fun _ => trivial))

theorem collect_keeps (h : KeepInv I) (fuel : Nat) : ∀ (rs : List StoreRef) (x : Collected), (collectW fuel rs x).Keeps I
  | [], _ => trivial
  | r :: rs, x => by
    unfold collectW
    refine .bind (forStore_keeps h fuel r (fun a c => ?_) x) (fun y => collect_keeps h fuel rs y)
    unfold collectBodyW
    refine .bind (.act (fun w hw => hw)) (fun t => ?_)
    cases t <;> trivial

theorem takeEkus_keepsI (h : KeepInv I) (cid : Nat) : (WProg.act (takeEkus cid)).Keeps I :=
  .act (fun w hw => h.same w _ (by rw [takeEkus_run]; rfl) hw)

theorem takeKeyUsages_keepsI (h : KeepInv I) (cid : Nat) : (WProg.act (takeKeyUsages cid)).Keeps I :=
  .act (fun w hw => h.same w _ (by rw [takeKeyUsages_run]; rfl) hw)

theorem ctlVerifyTrust_keeps (h : KeepInv I) (env : Env) (cid : Nat) (ctl : CTL) (chain : List Cert) : (ctlVerifyTrustW env cid ctl chain).Keeps I := by
  unfold ctlVerifyTrustW
  split
  · trivial
  · refine .bind (.lift _) (fun x => ?_)
    cases x with
    | none => trivial
    | some s => exact .bind (.act (fun w hw => hw)) (fun _ => .bind (takeEkus_keepsI h cid) (fun _ => trivial))

theorem look_keeps (i : Nat) (c : Cert) : ∀ (f n : Nat), (lookW i c f n).Keeps I
  | 0, _ => trivial
  | f + 1, n => by
    unfold lookW
    refine .bind (.act (fun w hw => hw)) (fun x => ?_)
    cases x with
    | none => trivial
    | some d =>
      simp only
      split
      · trivial
      · exact look_keeps i c f (n + 1)

theorem isTrusted_keeps (fuel : Nat) (r : StoreRef) (c : Cert) : (isTrustedW fuel r c).Keeps I := by
  cases r with
  | embedded l => trivial
  | heap i =>
    refine .bind (.act (fun w hw => hw)) (fun s => ?_)
    split
    · exact look_keeps i c fuel 0
    · trivial

theorem storeVerifyTrust_keeps (h : KeepInv I) (env : Env) (fuel cid : Nat) (r : StoreRef) (chain : List Cert) : (storeVerifyTrustW env fuel cid r chain).Keeps I := by
  unfold storeVerifyTrustW
  split
  · trivial
  · refine .bind (isTrusted_keeps fuel r _) (fun t => ?_)
    split
    · trivial
    · split
      · trivial
      · refine .bind (.act (fun w hw => hw)) (fun s => ?_)
        split
        · trivial
        · exact ctlVerifyTrust_keeps h env cid _ chain

theorem verifyTrustLoop_keeps (h : KeepInv I) (env : Env) (fuel cid : Nat) (chain : List Cert) : ∀ (rs : List StoreRef) (exc : Option Exc),
    (verifyTrustLoopW env fuel cid chain rs exc).Keeps I
  | [], exc => by cases exc <;> trivial
  | r :: rs, exc => by
    unfold verifyTrustLoopW
    refine .onResult (storeVerifyTrust_keeps h env fuel cid r chain) (fun x => ?_)
    cases x with
    | ok u => trivial
    | error e =>
      simp only
      split
      · exact verifyTrustLoop_keeps h env fuel cid chain rs exc
      · split
        · exact verifyTrustLoop_keeps h env fuel cid chain rs (some e)
        · trivial

theorem ctxVerify_keeps (h : KeepInv I) (env : Env) (fuel cid : Nat) (c : Cert) : (ctxVerifyW env fuel cid c).Keeps I := by
  unfold ctxVerifyW
  refine .bind (.act (fun w hw => hw)) (fun _ => .bind (collect_keeps h fuel _ _) (fun _ => .bind (.act (fun w hw => hw)) (fun _ =>
    .bind (.lift _) (fun _ => .bind (takeKeyUsages_keepsI h cid) (fun _ => .bind (takeEkus_keepsI h cid) (fun _ => ?_))))))
  split
  · trivial
  · exact .bind (.lift _) (fun _ => .bind (.bind (.act (fun w hw => hw)) (fun _ => verifyTrustLoop_keeps h env fuel cid _ _ _)) (fun _ => trivial))

theorem setTimestamp_keepsI (h : KeepInv I) (cid : Nat) (t : Option Int) : (WProg.act (setTimestamp cid t)).Keeps I :=
  .act (fun w hw => h.same w _ rfl hw)

theorem verifyIssuer_keeps (h : KeepInv I) (env : Env) (fuel cid : Nat) (s : Signer) (t : Option Int) (c : Cert) :
    (verifyIssuerW env fuel cid s t c).Keeps I := by
  unfold verifyIssuerW
  refine .bind (.act (fun w hw => ?_)) (fun _ => .bind ?_ (fun _ => ctxVerify_keeps h env fuel cid c))
  · rcases verifyIssuerSignature_cases env cid s c w with ⟨-, h2⟩ | ⟨-, e, h2, -⟩ <;> rw [h2] <;> exact hw
  · cases t with
    | none => exact .act (fun w hw => hw)
    | some t => exact setTimestamp_keepsI h cid _

theorem signerVerifyWith_keeps (h : KeepInv I) (env : Env) (fuel cid : Nat) (s : Signer) {check : Cert → WProg (List Cert)}
    (hc : ∀ c, (check c).Keeps I) : (signerVerifyWithW env fuel cid s check).Keeps I := by
  unfold signerVerifyWithW
  refine .bind (forFind_keeps h env fuel cid _ (fun a c => ?_) _) (fun acc => ?_)
  · unfold buildChainBodyW
    refine .onResult (hc c) (fun x => ?_)
    cases x with
    | ok l => trivial
    | error e =>
      simp only
      split <;> trivial
  · split
    · trivial
    · split <;> trivial

theorem counterVerify_keeps (h : KeepInv I) (env : Env) (fuel : Nat) (k : CounterSigner) (cid : Nat) : (k.verifyW env fuel cid).Keeps I := by
  unfold CounterSigner.verifyW
  cases k with
  | pkcs9 i => exact signerVerifyWith_keeps h env fuel cid _ (fun c => verifyIssuer_keeps h env fuel cid _ none c)
  | rfc3161 r =>
    simp only
    split
    · trivial
    · exact signerVerifyWith_keeps h env fuel cid _ (fun c => verifyIssuer_keeps h env fuel cid _ none c)

theorem counterTime_keeps (h : KeepInv I) (env : Env) (fuel : Nat) (a : AuthData) (mode : String) (cs : Option Nat) :
    (counterTimeW env fuel a mode cs).Keeps I := by
  unfold counterTimeW
  split
  · trivial
  · split
    · split
      · trivial
      · refine .onResult ?_ (fun x => ?_)
        · unfold checkCounterW
          split
          · trivial
          · exact .bind (setTimestamp_keepsI h _ _) (fun _ => .bind (counterVerify_keeps h env fuel _ _) (fun _ => trivial))
        · cases x with
          | ok u => trivial
          | error e =>
            simp only
            split <;> trivial
    · trivial

theorem asdVerify_keeps (h : KeepInv I) (env : Env) (fuel : Nat) (file : Option Bytes) (a : AuthData) (args : VerifyArgs) :
    (asdVerifyW env fuel file a args).Keeps I := by
  unfold asdVerifyW
  refine .bind (.act (fun w hw => ?_)) (fun cid => .bind (.act (fun w hw => ?_)) (fun cs => .bind (.lift _) (fun _ =>
    .bind (counterTime_keeps h env fuel a _ cs) (fun t => signerVerifyWith_keeps h env fuel cid _ (fun c => verifyIssuer_keeps h env fuel cid _ _ c)))))
  · unfold chooseContext
    cases args.context with
    | some c => exact hw
    | none => exact h.same w _ rfl hw
  · unfold chooseCsContext
    cases args.csContext with
    | some c => exact hw
    | none =>
      cases a.counter with
      | none => exact hw
      | some k =>
        simp only
        split
        · exact h.same w _ rfl hw
        · exact hw

end

/-- Stores that are loaded are not changed. -/
theorem keepInv_loaded (s₀ : Nat → Store) (h : ∀ i, (s₀ i).pending = none) : KeepInv (fun w => w.stores = s₀) where
  same := fun w w' hs hw => by rw [hs]; exact hw
  load := fun i w hw => by
    refine ⟨hw, ?_⟩
    show (match (w.stores i).pending with | none => _ | some (certs, exc) => _ : WProg Unit).Keeps _
    rw [hw, h i]
    trivial

theorem partly_set {w₀ w : World} (h : PartlyLoaded w₀ w) (i : Nat) {s : Store} (h1 : s.trusted = (w₀.stores i).trusted)
    (h2 : s.ctl = (w₀.stores i).ctl) (h3 : ∀ c ∈ s.items, c ∈ (Spec.Store.loaded (w₀.stores i)).items)
    (h4 : s.pending = none ∨ s.pending = (w₀.stores i).pending) :
    PartlyLoaded w₀ { w with stores := fun j => if j = i then s else w.stores j } := by
  intro j
  by_cases h' : j = i
  · subst h'
    simp only [if_true]
    exact ⟨h1, h2, h3, h4⟩
  · simp only [h', if_false]
    exact h j

theorem extend_partly (w₀ : World) (i : Nat) : ∀ (l : List Cert), (∀ c ∈ l, c ∈ (Spec.Store.loaded (w₀.stores i)).items) → (extendW i l).Keeps (PartlyLoaded w₀)
  | [], _ => trivial
  | c :: l, hl => by
    refine .bind (.act (fun w hw => ?_)) (fun _ => extend_partly w₀ i l (fun c hc => hl c (List.mem_cons_of_mem _ hc)))
    obtain ⟨h1, h2, h3, h4⟩ := hw i
    refine partly_set (s := { w.stores i with items := (w.stores i).items ++ [c] }) hw i h1 h2 (fun d hd => ?_) h4
    rcases List.mem_append.1 hd with hd | hd
    · exact h3 d hd
    · rw [List.mem_singleton.1 hd]
      exact hl c (List.mem_cons_self ..)

/-- Stores are loaded, and not changed in other ways. -/
theorem keepInv_partly (w₀ : World) : KeepInv (PartlyLoaded w₀) where
  same := fun w w' hs hw i => by rw [hs]; exact hw i
  load := fun i w hw => by
    refine ⟨hw, ?_⟩
    show (match (w.stores i).pending with | none => _ | some (certs, exc) => _ : WProg Unit).Keeps _
    obtain ⟨h1, h2, h3, h4⟩ := hw i
    cases hp : (w.stores i).pending with
    | none => trivial
    | some x =>
      obtain ⟨certs, exc⟩ := x
      rw [hp] at h4
      have h5 : (w₀.stores i).pending = some (certs, exc) := by
        rcases h4 with h4 | h4
        · cases h4
        · exact h4.symm
      refine .bind (.act (fun v hv => ?_)) (fun _ => .bind (extend_partly w₀ i certs (fun c hc => ?_)) (fun _ => ?_))
      · obtain ⟨g1, g2, g3, -⟩ := hv i
        exact partly_set (s := { v.stores i with pending := none }) hv i g1 g2 g3 (.inl rfl)
      · unfold Spec.Store.loaded
        rw [h5]
        exact List.mem_append.2 (.inr hc)
      · cases exc <;> trivial

end Signify
