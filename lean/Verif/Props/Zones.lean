/-
C104: `verify_trust` with times that have no time zone.
-/
import Verif.Proofs.Zones
import Verif.Props.CTL
import Verif.Props.Moments

set_option autoImplicit false

namespace Signify.Props

open Signify Spec

/-- Times with time zones: as in the rest of the model, whichever time zones they are in. -/
theorem C104_aware (env : Env) (cid : Nat) (chain : List Cert) (w : World) (leaf : Cert) (hl : chain.getLast? = some leaf) (t : Int) :
    (ctxVerifyTrustZ env (.aware leaf.validFrom) (.aware t) cid chain w).1 = (ctxVerifyTrust env cid chain (withInstant w cid t)).1 := by
  have h : ctxVerifyTrust env cid chain (withInstant w cid t) =
      verifyTrustLoop env cid chain (w.ctxs cid).stores none (withInstant w cid t) := by
    show verifyTrustLoop env cid chain ((withInstant w cid t).ctxs cid).stores none (withInstant w cid t) = _
    simp [withInstant]
  rw [h, verifyTrustLoopZ_aware env t cid chain hl]
  rfl

/-- Times without a time zone: the call raises `TypeError`, or its outcome is what it is for all instants that may have been meant. -/
theorem C104_any_instant (env : Env) (cid : Nat) (chain : List Cert) (w : World) (issued timestamp : PyTime) :
    Incomparable (ctxVerifyTrustZ env issued timestamp cid chain w).1 ∨
    ∀ i t, MayMean issued i → MayMean timestamp t →
      (ctxVerifyTrustZ env issued timestamp cid chain w).1 = (ctxVerifyTrustZ env (.aware i) (.aware t) cid chain w).1 := by
  rcases verifyTrustLoopZ_cases env issued timestamp cid chain (w.ctxs cid).stores none w with ⟨h, -⟩ | h
  · exact .inl h
  · exact .inr fun i t hi ht => congrArg Prod.fst (h i t hi ht)

/-- In particular, a chain is accepted only if it is accepted at every instant that may have been meant. -/
theorem C104_accepted (env : Env) (cid : Nat) (chain : List Cert) (w : World) (issued timestamp : PyTime)
    (h : (ctxVerifyTrustZ env issued timestamp cid chain w).1 = .ok ()) (leaf : Cert) (hl : chain.getLast? = some leaf) (t : Int)
    (hi : MayMean issued leaf.validFrom) (ht : MayMean timestamp t) :
    (ctxVerifyTrust env cid chain (withInstant w cid t)).1 = .ok () := by
  rcases C104_any_instant env cid chain w issued timestamp with h' | h'
  · rw [h] at h'; cases h'
  · rw [← C104_aware env cid chain w leaf hl t, ← h' _ t hi ht, h]

/-- Without a date, in any trust list of the stores of the context, that a time without time zone may be compared to, the time zones do
not matter. -/
theorem C104_dateless (env : Env) (cid : Nat) (chain : List Cert) (w : World) (issued timestamp : PyTime)
    (h : ∀ i ctl root, StoreRef.heap i ∈ (w.ctxs cid).stores → (w.stores i).ctl = some ctl → chain.head? = some root →
      ¬ HasDate env ctl root issued timestamp)
    (leaf : Cert) (hl : chain.getLast? = some leaf) (t : Int) (hi : MayMean issued leaf.validFrom) (ht : MayMean timestamp t) :
    (ctxVerifyTrustZ env issued timestamp cid chain w).1 = (ctxVerifyTrust env cid chain (withInstant w cid t)).1 := by
  rcases verifyTrustLoopZ_cases env issued timestamp cid chain (w.ctxs cid).stores none w with ⟨-, i, ctl, root, h1, h2, h3, h4⟩ | k
  · exact absurd h4 (h i ctl root h1 h2 h3)
  · rw [← C104_aware env cid chain w leaf hl t]
    exact congrArg Prod.fst (k _ t hi ht)

/-- When a trust list raises `TypeError` for a root that it lists: exactly if its entry asks for a time that has no time zone. -/
theorem C104_list (env : Env) (cid : Nat) (ctl : CTL) (chain : List Cert) (w : World) (issued timestamp : PyTime) (root : Cert) (s : CtlSubject)
    (hroot : chain.head? = some root) (hs : ctl.findSubject env root = .ok (some s)) :
    Incomparable (ctlVerifyTrustZ env issued timestamp cid ctl chain w).1 ↔ AsksInVain s (w.ctxs cid).ekus.elems issued timestamp := by
  rw [ctlVerifyTrustZ_run, hroot]
  simp only [hs]
  obtain ⟨leaf, hleaf⟩ : ∃ leaf, chain.getLast? = some leaf := by
    cases chain with
    | nil => cases hroot
    | cons c l => exact ⟨_, List.getLast?_eq_some_getLast (by simp)⟩
  unfold CtlSubject.verifyTrustZ AsksInVain
  rw [hleaf]
  generalize hq : (w.ctxs cid).ekus.elems = req
  have hb : s.ekusBad req = false ↔ ∀ e l, s.ekus = some (e :: l) → ∀ x ∈ req, x ∈ e :: l := by
    unfold CtlSubject.ekusBad
    split
    · rename_i e l he
      constructor
      · intro h e' l' hl
        rw [he] at hl
        cases hl
        exact Classical.byContradiction fun hn => by rw [notAll_iff.2 hn] at h; cases h
      · intro h
        refine Bool.eq_false_iff.2 fun hn => notAll_iff.1 hn (h e l he)
    · rename_i hne
      exact ⟨fun _ e l h => absurd h (hne e l), fun _ => rfl⟩
  split
  · rename_i h
    refine ⟨fun k => (by cases k), fun k => ?_⟩
    rw [hb.2 k.1] at h
    cases h
  · rename_i h
    have h := hb.1 (Bool.eq_false_iff.2 h)
    simp only
    rcases restrictedZ_cases s.notBeforeTime s.notBeforeEkus req issued with ⟨h1, h2⟩ | ⟨h2, h1⟩
    · rw [h1]
      exact ⟨fun _ => ⟨h, .inl h2⟩, fun _ => rfl⟩
    · obtain ⟨i, hi⟩ := mayMean_some issued
      rw [h1 i hi]
      cases hr : restricted s.notBeforeTime s.notBeforeEkus req i with
      | true =>
        refine ⟨fun k => (by cases k), fun k => ?_⟩
        rcases k.2 with k | k
        · exact absurd k h2
        · exact absurd (restricted_iff.1 hr) (k.1 i hi)
      | false =>
        have hn : ∀ j, MayMean issued j → ¬ Affected s.notBeforeTime s.notBeforeEkus req j := by
          intro j hj ha
          have e := (h1 j hj).symm.trans (h1 i hi)
          rw [hr, restricted_iff.2 ha] at e
          cases e
        rcases restrictedZ_cases s.disallowedTime s.disallowedEkus req timestamp with ⟨k1, k2⟩ | ⟨k2, k1⟩
        · rw [k1]
          exact ⟨fun _ => ⟨h, .inr ⟨hn, k2⟩⟩, fun _ => rfl⟩
        · obtain ⟨t, ht⟩ := mayMean_some timestamp
          rw [k1 t ht]
          refine ⟨fun k => ?_, fun k => ?_⟩
          · cases hr' : restricted s.disallowedTime s.disallowedEkus req t <;> rw [hr'] at k <;> cases k
          · rcases k.2 with k | k
            · exact absurd k h2
            · exact absurd k.2 k2

/-- `verify` in a context whose `timestamp` has a time zone, for certificates whose dates do: as in the rest of the model. -/
theorem C104_verify_aware (env : Env) (lib : ZonelessValidator) (cid : Nat) (c : Cert) (w : World) (t : Int) :
    (ctxVerifyZ env lib (fun c => .aware c.validFrom) (.aware t) cid c w).1 = (ctxVerify env cid c (withInstant w cid t)).1 := by
  rw [Dated.ctxVerify env lib c w]

/-- `verify` for certificates with dates that have no time zone: it raises `TypeError`, or its outcome is the same whatever was meant. -/
theorem C104_verify_any_instant (env : Env) (lib : ZonelessValidator) (cid : Nat) (c : Cert) (w : World) (t : Int) (issued : Cert → PyTime)
    (hi : ∀ c, MayMean (issued c) c.validFrom) :
    Incomparable (ctxVerifyZ env lib issued (.aware t) cid c w).1 ∨
    (ctxVerifyZ env lib issued (.aware t) cid c w).1 = (ctxVerify env cid c (withInstant w cid t)).1 := by
  have h : Vain (ctxVerifyZ env lib issued (.aware t) cid c) (ctxVerifyZ env lib (fun c => .aware c.validFrom) (.aware t) cid c) := by
    unfold ctxVerifyZ
    refine Vain.bind (Vain.refl _) (fun ctx => Vain.bind (Vain.refl _) (fun x => ?_))
    obtain ⟨roots, inter, all⟩ := x
    refine Vain.bind (Vain.refl _) (fun _ => Vain.bind (Vain.refl _) (fun kus => Vain.bind (Vain.refl _) (fun ekus => ?_)))
    simp only
    split
    · exact Vain.refl _
    · refine Vain.bind (Vain.refl _) (fun l => Vain.bind ?_ (fun _ => Vain.refl _))
      intro v
      cases hl : l.getLast? with
      | none => exact .inr rfl
      | some leaf =>
        rcases verifyTrustLoopZ_cases env (issued leaf) (.aware t) cid l (v.ctxs cid).stores none v with ⟨h, -⟩ | h
        · exact .inl h
        · exact .inr (h _ t (hi leaf) (fun u h => (by cases h; rfl)))
  rcases h w with h | h
  · exact .inl h
  · exact .inr ((congrArg Prod.fst h).trans (C104_verify_aware env lib cid c w t))

/-- `verify` in a context whose `timestamp` has no time zone, if certvalidator finds no chains at such moments: no chain is returned, whatever
the stores and the certificates. -/
theorem C104_verify_zoneless (env : Env) (lib : ZonelessValidator) (hlib : NeedsZone lib) (issued : Cert → PyTime) (timestamp : PyTime)
    (hz : Zoneless timestamp) (cid : Nat) (c : Cert) (w : World) (chain : List Cert) :
    (ctxVerifyZ env lib issued timestamp cid c w).1 ≠ .ok chain := by
  obtain ⟨r, rfl⟩ := hz
  have h : ReturnsNot (ctxVerifyZ env lib issued (.naive r) cid c) := by
    unfold ctxVerifyZ
    refine ReturnsNot.bind (fun ctx => ReturnsNot.bind (fun x => ?_))
    obtain ⟨roots, inter, all⟩ := x
    refine ReturnsNot.bind (fun _ => ReturnsNot.bind (fun kus => ReturnsNot.bind (fun ekus => ?_)))
    simp only [ZonelessValidator.validateAt]
    split
    · intro w a h
      change certErr c "Chain verification failed" = .ok a at h
      unfold certErr raiseNaming at h
      cases hd : c.subject.dn <;> rw [hd] at h <;> cases h
    · rename_i l hv
      exact absurd hv (hlib _ _ _)
  exact h w chain

/-! Examples: `exCTL` does not accept signatures from time 800 on, for code signing, and certificates issued from 200 on. -/

/-- An older leaf: the answer depends on the time. -/
def exOldLeaf : Cert := { exLeaf with validFrom := 50 }
def exOldChain : List Cert := [exRoot, exOldLeaf]

example : (ctxVerifyTrust exEnv 0 exOldChain (withInstant exDisallowing 0 799)).1 = .ok () := by decide +kernel
example : (ctxVerifyTrust exEnv 0 exOldChain (withInstant exDisallowing 0 800)).1 ≠ .ok () := by decide +kernel
example : (ctxVerifyTrustZ exEnv (.aware 50) (.aware 500) 0 exOldChain exDisallowing).1 = .ok () := by decide +kernel
example : Incomparable (ctxVerifyTrustZ exEnv (.aware 50) (.naive 500) 0 exOldChain exDisallowing).1 := by
  show _ = _
  decide +kernel
example : Incomparable (ctxVerifyTrustZ exEnv (.naive 50) (.aware 500) 0 exOldChain exDisallowing).1 := by
  show _ = _
  decide +kernel
/-- A certificate issued too late is refused, and the time of the signature is not looked at. -/
example : ¬ Incomparable (ctxVerifyTrustZ exEnv (.aware 250) (.naive 500) 0 exOldChain exDisallowing).1 := by
  show ¬ _ = _
  decide +kernel
example := (C104_list exEnv 0 exCTL exOldChain exDisallowing (.aware 50) (.naive 500) exRoot exSubject rfl (by decide +kernel)).1
  (by show _ = _; decide +kernel)

/-- The root is trusted without a trust list. -/
example := C104_accepted exEnv 0 exOldChain exWorld (.naive 7) (.naive 500) (by decide +kernel) exOldLeaf rfl 100000
  (fun u h => by cases h) (fun u h => by cases h)
example := C104_dateless exEnv 0 exOldChain exWorld (.naive 7) (.naive 500) (fun i ctl root _ h => by
  have : (exWorld.stores i).ctl = none := by simp only [exWorld]; split <;> rfl
  rw [this] at h; cases h)

/-- A validator that refuses moments without a time zone. -/
def exStrict : ZonelessValidator := { make := fun _ _ => .ok (), validate := fun _ _ => .error ⟨.typeError, "can't compare offset-naive and offset-aware datetimes"⟩ }

example : NeedsZone exStrict := fun _ _ _ h => by cases h
example := C104_verify_zoneless exEnv exStrict (fun _ _ _ h => by cases h) (fun c => .aware c.validFrom) (.naive 500) ⟨_, rfl⟩ 0 exLeaf exWorld
example : (ctxVerifyZ exEnv exStrict (fun c => .aware c.validFrom) (.aware 500) 0 exLeaf (exEkuWorld (.list ["time_stamping"]))).1 = .ok exCtlChain := by decide +kernel
example := C104_verify_any_instant exEnv exStrict 0 exLeaf exWorld 500 (fun _ => .naive 7) (fun _ u h => by cases h)

end Signify.Props
