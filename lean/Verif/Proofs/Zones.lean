/-
`verify_trust` with times that may have no time zone.
-/
import Verif.Spec.Zones
import Verif.Proofs.Trust

set_option autoImplicit false

namespace Signify

open Spec

theorem restrictedZ_aware (time : Option Int) (ekus : Option (List String)) (requested : List String) (t : Int) :
    restrictedZ time ekus requested (.aware t) = .ok (restricted time ekus requested t) := by
  cases time with
  | none => cases ekus <;> rfl
  | some x =>
    by_cases h : t ≥ x
    · cases ekus <;> simp [restrictedZ, restricted, PyTime.ge, h, bind, Except.bind]
    · simp [restrictedZ, restricted, PyTime.ge, h, bind, Except.bind]

theorem restrictedZ_none (ekus : Option (List String)) (requested : List String) (t t' : PyTime) :
    restrictedZ none ekus requested t = restrictedZ none ekus requested t' := rfl

theorem restrictedZ_naive (x : Int) (ekus : Option (List String)) (requested : List String) (r : Int) :
    restrictedZ (some x) ekus requested (.naive r) = .error ⟨.typeError, "can't compare offset-naive and offset-aware datetimes"⟩ := rfl

theorem restrictedZ_cases (time : Option Int) (ekus : Option (List String)) (requested : List String) (t : PyTime) :
    (restrictedZ time ekus requested t = .error ⟨.typeError, "can't compare offset-naive and offset-aware datetimes"⟩ ∧ time ≠ none ∧ Zoneless t) ∨
    (¬ (time ≠ none ∧ Zoneless t) ∧ ∀ i, MayMean t i → restrictedZ time ekus requested t = .ok (restricted time ekus requested i)) := by
  cases time with
  | none => exact .inr ⟨fun h => h.1 rfl, fun i _ => by rw [restrictedZ_none _ _ t (.aware i), restrictedZ_aware]⟩
  | some x =>
    cases t with
    | naive r => exact .inl ⟨rfl, by simp, r, rfl⟩
    | aware u => exact .inr ⟨fun h => (by obtain ⟨r, h⟩ := h.2; cases h), fun i h => (by rw [h u rfl, restrictedZ_aware])⟩

theorem mayMean_some (t : PyTime) : ∃ i, MayMean t i := by
  cases t with
  | aware u => exact ⟨u, fun v h => by cases h; rfl⟩
  | naive r => exact ⟨0, fun v h => by cases h⟩

theorem verifyTrustZ_aware (s : CtlSubject) (chain : List Cert) (requested : List String) (t : Int) {leaf : Cert} (hl : chain.getLast? = some leaf) :
    s.verifyTrustZ chain requested (.aware leaf.validFrom) (.aware t) = s.verifyTrust chain requested t := by
  unfold CtlSubject.verifyTrustZ CtlSubject.verifyTrust
  split
  · rfl
  · rw [hl]
    simp only [restrictedZ_aware]
    rfl

/-- Without a time zone: the same, or not comparable. -/
theorem verifyTrustZ_cases (s : CtlSubject) (chain : List Cert) (requested : List String) (issued timestamp : PyTime) :
    (Incomparable (s.verifyTrustZ chain requested issued timestamp) ∧
      (s.notBeforeTime ≠ none ∧ Zoneless issued ∨ s.disallowedTime ≠ none ∧ Zoneless timestamp)) ∨
    ∀ i t, MayMean issued i → MayMean timestamp t →
      s.verifyTrustZ chain requested issued timestamp = s.verifyTrustZ chain requested (.aware i) (.aware t) := by
  unfold CtlSubject.verifyTrustZ
  split
  · exact .inr fun _ _ _ _ => rfl
  · cases chain.getLast? with
    | none => exact .inr fun _ _ _ _ => rfl
    | some leaf =>
      simp only [restrictedZ_aware]
      rcases restrictedZ_cases s.notBeforeTime s.notBeforeEkus requested issued with ⟨h1, h2⟩ | ⟨-, h1⟩
      · rw [h1]
        exact .inl ⟨rfl, .inl h2⟩
      · rcases restrictedZ_cases s.disallowedTime s.disallowedEkus requested timestamp with ⟨k1, k2⟩ | ⟨-, k1⟩
        · obtain ⟨i, hi⟩ := mayMean_some issued
          rw [h1 i hi, k1]
          cases hr : restricted s.notBeforeTime s.notBeforeEkus requested i with
          | false => exact .inl ⟨rfl, .inr k2⟩
          | true =>
            refine .inr fun j t hj _ => ?_
            have : restricted s.notBeforeTime s.notBeforeEkus requested j = true := by
              have := (h1 j hj).symm.trans (h1 i hi)
              rw [hr] at this
              exact Except.ok.inj this
            rw [this]
            rfl
        · exact .inr fun i t hi ht => by rw [h1 i hi, k1 t ht]

theorem takeEkus_withInstant (cid : Nat) (t : Int) (w : World) :
    takeEkus cid (withInstant w cid t) = ((takeEkus cid w).1, withInstant (takeEkus cid w).2 cid t) := by
  rw [takeEkus_run, takeEkus_run]
  refine Prod.ext ?_ ?_
  · simp [withInstant]
  · show exhaustEkus (withInstant w cid t) cid = withInstant (exhaustEkus w cid) cid t
    simp only [exhaustEkus, withInstant]
    congr 1
    funext j
    by_cases hj : j = cid
    · subst hj; simp
    · simp [hj]

theorem ctlVerifyTrustZ_run (env : Env) (issued timestamp : PyTime) (cid : Nat) (ctl : CTL) (chain : List Cert) (w : World) :
    ctlVerifyTrustZ env issued timestamp cid ctl chain w =
      match chain.head? with
      | none => (.error ⟨.indexError, "list index out of range"⟩, w)
      | some root =>
        match ctl.findSubject env root with
        | .error e => (.error e, w)
        | .ok none => (raiseNaming root ⟨.ctlCertificateVerificationError, "The root is not in the certificate trust list"⟩, w)
        | .ok (some s) => (s.verifyTrustZ chain (w.ctxs cid).ekus.elems issued timestamp, exhaustEkus w cid) := by
  unfold ctlVerifyTrustZ
  cases chain.head? with
  | none => rfl
  | some root =>
    cases h : ctl.findSubject env root with
    | error e => simp only [h]; rfl
    | ok o =>
      cases o with
      | none => simp only [h]; rfl
      | some s =>
        simp only [h]
        show (M.bnd (takeEkus cid) (fun requested => M.lift (s.verifyTrustZ chain requested issued timestamp))) w = _
        unfold M.bnd
        rw [takeEkus_run]
        rfl

theorem ctlVerifyTrustZ_aware {leaf : Cert} (env : Env) (t : Int) (cid : Nat) (ctl : CTL) (chain : List Cert) (hl : chain.getLast? = some leaf) (w : World) :
    ctlVerifyTrust env cid ctl chain (withInstant w cid t) =
      ((ctlVerifyTrustZ env (.aware leaf.validFrom) (.aware t) cid ctl chain w).1, withInstant (ctlVerifyTrustZ env (.aware leaf.validFrom) (.aware t) cid ctl chain w).2 cid t) := by
  rw [ctlVerifyTrustZ_run]
  unfold ctlVerifyTrust
  cases chain.head? with
  | none => rfl
  | some root =>
    cases h : ctl.findSubject env root with
    | error e => simp only [h]; rfl
    | ok o =>
      cases o with
      | none => simp only [h]; rfl
      | some s =>
        simp only [h]
        show (M.bnd (M.getCtx cid) (fun ctx => M.bnd (takeEkus cid) (fun requested =>
          M.lift (s.verifyTrust chain requested (ctx.timestamp.getD env.now))))) (withInstant w cid t) = _
        unfold M.bnd
        simp only [M.getCtx]
        rw [takeEkus_withInstant, takeEkus_run, verifyTrustZ_aware _ _ _ _ hl]
        simp [M.lift, withInstant]

theorem ctlVerifyTrustZ_cases (env : Env) (issued timestamp : PyTime) (cid : Nat) (ctl : CTL) (chain : List Cert) (w : World) :
    (Incomparable (ctlVerifyTrustZ env issued timestamp cid ctl chain w).1 ∧ ∃ root, chain.head? = some root ∧ HasDate env ctl root issued timestamp) ∨
    ∀ i t, MayMean issued i → MayMean timestamp t → ctlVerifyTrustZ env issued timestamp cid ctl chain w = ctlVerifyTrustZ env (.aware i) (.aware t) cid ctl chain w := by
  simp only [ctlVerifyTrustZ_run]
  cases chain.head? with
  | none => exact .inr fun _ _ _ _ => rfl
  | some root =>
    cases h : ctl.findSubject env root with
    | error e => simp only [h]; exact .inr fun _ _ _ _ => trivial
    | ok o =>
      cases o with
      | none => simp only [h]; exact .inr fun _ _ _ _ => trivial
      | some s =>
        simp only [h]
        rcases verifyTrustZ_cases s chain (w.ctxs cid).ekus.elems issued timestamp with ⟨h1, h2⟩ | h1
        · exact .inl ⟨h1, root, rfl, s, h, h2⟩
        · exact .inr fun i t hi ht => by rw [h1 i t hi ht]

theorem storeVerifyTrustZ_aware {leaf : Cert} (env : Env) (t : Int) (cid : Nat) (s : StoreRef) (chain : List Cert) (hl : chain.getLast? = some leaf) (w : World) :
    storeVerifyTrust env cid s chain (withInstant w cid t) =
      ((storeVerifyTrustZ env (.aware leaf.validFrom) (.aware t) cid s chain w).1, withInstant (storeVerifyTrustZ env (.aware leaf.validFrom) (.aware t) cid s chain w).2 cid t) := by
  unfold storeVerifyTrust storeVerifyTrustZ
  cases chain.head? with
  | none => rfl
  | some root =>
    have ht : storeIsTrusted (withInstant w cid t) s root = storeIsTrusted w s root := by cases s <;> rfl
    simp only [ht]
    split
    · rfl
    · cases s with
      | embedded l => rfl
      | heap i =>
        have hc : ((withInstant w cid t).stores i).ctl = (w.stores i).ctl := rfl
        simp only [hc]
        cases h : (w.stores i).ctl with
        | none => rfl
        | some ctl => exact ctlVerifyTrustZ_aware env t cid ctl chain hl w

theorem storeVerifyTrustZ_cases (env : Env) (issued timestamp : PyTime) (cid : Nat) (s : StoreRef) (chain : List Cert) (w : World) :
    (Incomparable (storeVerifyTrustZ env issued timestamp cid s chain w).1 ∧
      ∃ i ctl root, s = .heap i ∧ (w.stores i).ctl = some ctl ∧ chain.head? = some root ∧ HasDate env ctl root issued timestamp) ∨
    ∀ i t, MayMean issued i → MayMean timestamp t → storeVerifyTrustZ env issued timestamp cid s chain w = storeVerifyTrustZ env (.aware i) (.aware t) cid s chain w := by
  unfold storeVerifyTrustZ
  cases hh : chain.head? with
  | none => exact .inr fun _ _ _ _ => rfl
  | some root =>
    simp only
    split
    · exact .inr fun _ _ _ _ => rfl
    · cases s with
      | embedded l => exact .inr fun _ _ _ _ => rfl
      | heap i =>
        simp only
        cases h : (w.stores i).ctl with
        | none => exact .inr fun _ _ _ _ => rfl
        | some ctl =>
          rcases ctlVerifyTrustZ_cases env issued timestamp cid ctl chain w with ⟨h1, root', h2, h3⟩ | h1
          · rw [hh] at h2; cases h2
            exact .inl ⟨h1, i, ctl, root, rfl, h, rfl, h3⟩
          · exact .inr h1

theorem storeVerifyTrustZ_stores (env : Env) (issued timestamp : PyTime) (cid : Nat) (s : StoreRef) (chain : List Cert) (w : World) :
    (storeVerifyTrustZ env issued timestamp cid s chain w).2.stores = w.stores := by
  unfold storeVerifyTrustZ
  cases chain.head? with
  | none => rfl
  | some root =>
    simp only
    split
    · rfl
    · cases s with
      | embedded l => rfl
      | heap i =>
        simp only
        cases (w.stores i).ctl with
        | none => rfl
        | some ctl =>
          simp only [ctlVerifyTrustZ_run]
          split
          · rfl
          · split <;> rfl

theorem verifyTrustLoopZ_aware {leaf : Cert} (env : Env) (t : Int) (cid : Nat) (chain : List Cert) (hl : chain.getLast? = some leaf) (l : List StoreRef) : ∀ (exc : Option Exc) (w : World),
    verifyTrustLoop env cid chain l exc (withInstant w cid t) =
      ((verifyTrustLoopZ env (.aware leaf.validFrom) (.aware t) cid chain l exc w).1, withInstant (verifyTrustLoopZ env (.aware leaf.validFrom) (.aware t) cid chain l exc w).2 cid t) := by
  induction l with
  | nil => intro exc w; cases exc <;> rfl
  | cons s l ih =>
    intro exc w
    unfold verifyTrustLoop verifyTrustLoopZ
    rw [storeVerifyTrustZ_aware env t cid s chain hl]
    cases h : storeVerifyTrustZ env (.aware leaf.validFrom) (.aware t) cid s chain w with
    | mk res w' =>
      cases res with
      | ok u => rfl
      | error e =>
        simp only
        split
        · exact ih exc w'
        · split
          · exact ih (some e) w'
          · rfl

theorem verifyTrustLoopZ_cases (env : Env) (issued timestamp : PyTime) (cid : Nat) (chain : List Cert) (l : List StoreRef) : ∀ (exc : Option Exc) (w : World),
    (Incomparable (verifyTrustLoopZ env issued timestamp cid chain l exc w).1 ∧
      ∃ i ctl root, .heap i ∈ l ∧ (w.stores i).ctl = some ctl ∧ chain.head? = some root ∧ HasDate env ctl root issued timestamp) ∨
    ∀ i t, MayMean issued i → MayMean timestamp t → verifyTrustLoopZ env issued timestamp cid chain l exc w = verifyTrustLoopZ env (.aware i) (.aware t) cid chain l exc w := by
  induction l with
  | nil => intro exc w; cases exc <;> exact .inr fun _ _ _ _ => rfl
  | cons s l ih =>
    intro exc w
    have hs := storeVerifyTrustZ_stores env issued timestamp cid s chain w
    rcases storeVerifyTrustZ_cases env issued timestamp cid s chain w with ⟨h1, i, ctl, root, h2, h3⟩ | h1
    · refine .inl ⟨?_, i, ctl, root, by rw [h2]; exact List.mem_cons_self, h3⟩
      unfold verifyTrustLoopZ
      cases h : storeVerifyTrustZ env issued timestamp cid s chain w with
      | mk res w' =>
        rw [h] at h1
        cases h1
        rfl
    · cases h : storeVerifyTrustZ env issued timestamp cid s chain w with
      | mk res w' =>
        rw [h] at hs
        have here : ∀ exc', verifyTrustLoopZ env issued timestamp cid chain (s :: l) exc w = verifyTrustLoopZ env issued timestamp cid chain l exc' w' →
            (∀ i t, MayMean issued i → MayMean timestamp t →
              verifyTrustLoopZ env (.aware i) (.aware t) cid chain (s :: l) exc w = verifyTrustLoopZ env (.aware i) (.aware t) cid chain l exc' w') →
            (Incomparable (verifyTrustLoopZ env issued timestamp cid chain (s :: l) exc w).1 ∧
              ∃ i ctl root, .heap i ∈ s :: l ∧ (w.stores i).ctl = some ctl ∧ chain.head? = some root ∧ HasDate env ctl root issued timestamp) ∨
            ∀ i t, MayMean issued i → MayMean timestamp t →
              verifyTrustLoopZ env issued timestamp cid chain (s :: l) exc w = verifyTrustLoopZ env (.aware i) (.aware t) cid chain (s :: l) exc w := by
          intro exc' e1 e2
          rcases ih exc' w' with ⟨k1, i, ctl, root, k2, k3, k4⟩ | k
          · exact .inl ⟨by rw [e1]; exact k1, i, ctl, root, List.mem_cons_of_mem _ k2, by rw [← hs]; exact k3, k4⟩
          · exact .inr fun i t hi ht => by rw [e1, e2 i t hi ht, k i t hi ht]
        cases res with
        | ok u => exact .inr fun i t hi ht => by simp only [verifyTrustLoopZ, ← h1 i t hi ht, h]
        | error e =>
          by_cases c1 : e.is .certificateNotTrusted = true
          · exact here exc (by simp only [verifyTrustLoopZ, h, c1, if_true])
              (fun i t hi ht => by simp only [verifyTrustLoopZ, ← h1 i t hi ht, h, c1, if_true])
          · by_cases c2 : e.is .verificationError = true
            · exact here (some e) (by simp only [verifyTrustLoopZ, h, if_neg c1, c2, if_true])
                (fun i t hi ht => by simp only [verifyTrustLoopZ, ← h1 i t hi ht, h, if_neg c1, c2, if_true])
            · exact .inr fun i t hi ht => by simp only [verifyTrustLoopZ, ← h1 i t hi ht, h, if_neg c1, if_neg c2]

/-! ### `verify` -/

/-- `x` in a state does what `y` does in the state in which the context has the instant. -/
def Dated {α : Type} (cid : Nat) (t : Int) (x y : M α) : Prop := ∀ w, y (withInstant w cid t) = ((x w).1, withInstant (x w).2 cid t)

namespace Dated

variable {α β : Type} {cid : Nat} {t : Int}

theorem bind {x y : M α} {f g : α → M β} (h : Dated cid t x y) (k : ∀ a, Dated cid t (f a) (g a)) : Dated cid t (x >>= f) (y >>= g) := by
  intro w
  show M.bnd y g _ = ((M.bnd x f w).1, withInstant (M.bnd x f w).2 cid t)
  unfold M.bnd
  rw [h w]
  cases x w with
  | mk r w' =>
    cases r with
    | ok a => exact k a w'
    | error e => rfl

theorem pure (a : α) : Dated cid t (Pure.pure a) (Pure.pure a) := fun _ => rfl
theorem lift (x : Except Exc α) : Dated cid t (M.lift x) (M.lift x) := fun _ => rfl
theorem raise (e : Exc) : Dated cid t (M.raise e : M α) (M.raise e) := fun _ => rfl
theorem getStore (i : Nat) : Dated cid t (M.getStore i) (M.getStore i) := fun _ => rfl
theorem setStore (i : Nat) (s : Store) : Dated cid t (M.setStore i s) (M.setStore i s) := fun _ => rfl

theorem iterStore (r : StoreRef) : Dated cid t (Signify.iterStore r) (Signify.iterStore r) := by
  cases r with
  | embedded l => exact pure _
  | heap i =>
    unfold Signify.iterStore
    refine bind (getStore i) (fun s => ?_)
    split
    · exact pure _
    · refine bind (setStore _ _) (fun _ => ?_)
      split
      · exact pure _
      · exact raise _

theorem collectCerts (l : List StoreRef) : ∀ roots inter all, Dated cid t (Signify.collectCerts l roots inter all) (Signify.collectCerts l roots inter all) := by
  induction l with
  | nil => intro roots inter all; exact pure _
  | cons r l ih =>
    intro roots inter all
    unfold Signify.collectCerts
    refine bind (iterStore r) (fun a => ?_)
    intro w
    have ht : storeTrusted (withInstant w cid t) r = storeTrusted w r := by cases r <;> rfl
    show (if storeTrusted (withInstant w cid t) r then _ else _ : M _) (withInstant w cid t) =
      (((if storeTrusted w r then _ else _ : M _) w).1, withInstant ((if storeTrusted w r then _ else _ : M _) w).2 cid t)
    rw [ht]
    split
    · exact ih _ _ _ w
    · exact ih _ _ _ w

theorem takeEkus : Dated cid t (Signify.takeEkus cid) (Signify.takeEkus cid) := takeEkus_withInstant cid t

theorem takeKeyUsages : Dated cid t (Signify.takeKeyUsages cid) (Signify.takeKeyUsages cid) := by
  intro w
  rw [takeKeyUsages_run, takeKeyUsages_run]
  refine Prod.ext ?_ ?_
  · simp [withInstant]
  · show exhaustKus (withInstant w cid t) cid = withInstant (exhaustKus w cid) cid t
    simp only [exhaustKus, withInstant]
    congr 1
    funext j
    by_cases hj : j = cid
    · subst hj; simp
    · simp [hj]

theorem ctxVerifyTrust (env : Env) (chain : List Cert) :
    Dated cid t (ctxVerifyTrustZ env ((chain.getLast?.map (fun c => PyTime.aware c.validFrom)).getD (.aware 0)) (.aware t) cid chain)
      (Signify.ctxVerifyTrust env cid chain) := by
  intro w
  have h : Signify.ctxVerifyTrust env cid chain (withInstant w cid t) =
      verifyTrustLoop env cid chain (w.ctxs cid).stores none (withInstant w cid t) := by
    show verifyTrustLoop env cid chain ((withInstant w cid t).ctxs cid).stores none (withInstant w cid t) = _
    simp [withInstant]
  rw [h]
  cases hl : chain.getLast? with
  | some leaf => exact verifyTrustLoopZ_aware env t cid chain hl _ none w
  | none =>
    obtain rfl := List.getLast?_eq_none_iff.1 hl
    have key : ∀ (issued timestamp : PyTime) (l : List StoreRef) (exc : Option Exc),
        verifyTrustLoop env cid [] l exc (withInstant w cid t) =
          ((verifyTrustLoopZ env issued timestamp cid [] l exc w).1, withInstant (verifyTrustLoopZ env issued timestamp cid [] l exc w).2 cid t) := by
      intro issued timestamp l exc
      cases l with
      | nil => cases exc <;> rfl
      | cons s l => rfl
    exact key _ _ _ _

theorem ctxVerify (env : Env) (lib : ZonelessValidator) (c : Cert) :
    Dated cid t (ctxVerifyZ env lib (fun c => .aware c.validFrom) (.aware t) cid c) (Signify.ctxVerify env cid c) := by
  intro w
  unfold ctxVerifyZ Signify.ctxVerify
  rw [M.getCtx_bind, M.getCtx_bind]
  have hc : (withInstant w cid t).ctxs cid = { w.ctxs cid with timestamp := some t } := by simp [withInstant]
  rw [hc]
  refine bind (collectCerts _ _ _ _) (fun x => ?_) w
  obtain ⟨roots, inter, all⟩ := x
  refine bind (lift _) (fun _ => bind takeKeyUsages (fun kus => bind takeEkus (fun ekus => ?_)))
  simp only [ZonelessValidator.validateAt]
  split
  · rename_i e he
    simp only [he]
    exact lift _
  · rename_i chain he
    simp only [he]
    exact bind (lift _) (fun l => bind (ctxVerifyTrust env l) (fun _ => pure _))

end Dated

/-- `x` raises the `TypeError` of the comparison, or does what `y` does. -/
def Vain {α : Type} (x y : M α) : Prop :=
  ∀ w, (x w).1 = .error ⟨.typeError, "can't compare offset-naive and offset-aware datetimes"⟩ ∨ x w = y w

theorem Vain.refl {α : Type} (x : M α) : Vain x x := fun _ => .inr rfl

theorem Vain.bind {α β : Type} {x y : M α} {f g : α → M β} (h : Vain x y) (k : ∀ a, Vain (f a) (g a)) : Vain (x >>= f) (y >>= g) := by
  intro w
  show (M.bnd x f w).1 = _ ∨ M.bnd x f w = M.bnd y g w
  unfold M.bnd
  rcases h w with h | h
  · left
    cases hx : x w with
    | mk r w' =>
      rw [hx] at h
      subst h
      rfl
  · rw [← h]
    cases x w with
    | mk r w' =>
      cases r with
      | ok a => exact k a w'
      | error e => exact .inr rfl

/-- `x` does not return. -/
def ReturnsNot {α : Type} (x : M α) : Prop := ∀ w a, (x w).1 ≠ .ok a

theorem ReturnsNot.bind {α β : Type} {x : M α} {f : α → M β} (h : ∀ a, ReturnsNot (f a)) : ReturnsNot (x >>= f) := by
  intro w b
  show (M.bnd x f w).1 ≠ .ok b
  unfold M.bnd
  cases x w with
  | mk r w1 =>
    cases r with
    | ok a => exact h a w1 b
    | error e => intro h; cases h

end Signify
