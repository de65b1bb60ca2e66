/-
Verification with a time that the context has already.
-/
import Verif.Proofs.Stamps

set_option autoImplicit false

namespace Signify

open Spec

/-- The two actions do the same in states in which the context has the time `t`, and keep this time. -/
def SameAt {α : Type} (cid : Nat) (t : Option Int) (x y : M α) : Prop :=
  ∀ w, (w.ctxs cid).timestamp = t → x w = y w ∧ ((x w).2.ctxs cid).timestamp = t

namespace SameAt

variable {α β : Type} {cid : Nat} {t : Option Int}

theorem of_keeps {x : M α} (h : Keeps (fun _ => True) (fun _ => False) x) : SameAt cid t x x :=
  fun w hw => ⟨rfl, by rw [(h w).times cid (fun h => h), hw]⟩

theorem bind {x y : M α} {f g : α → M β} (hx : SameAt cid t x y) (hf : ∀ a, SameAt cid t (f a) (g a)) :
    SameAt cid t (x >>= f) (y >>= g) := by
  intro w hw
  obtain ⟨h1, h2⟩ := hx w hw
  rw [M.bind_run, M.bind_run, ← h1]
  rcases hr : x w with ⟨r, w'⟩
  rw [hr] at h2
  cases r with
  | error e => exact ⟨rfl, h2⟩
  | ok a => exact hf a w' h2

theorem attempt {x y : M α} (hx : SameAt cid t x y) : SameAt cid t (M.attempt x) (M.attempt y) := by
  intro w hw
  obtain ⟨h1, h2⟩ := hx w hw
  unfold M.attempt
  rw [← h1]
  rcases hr : x w with ⟨r, w'⟩
  rw [hr] at h2
  cases r <;> exact ⟨rfl, h2⟩

theorem apply (x : Option Int) (h : x = none ∨ x = t) : SameAt cid t (applySigningTime cid x) (applySigningTime cid none) := by
  intro w hw
  cases x with
  | none => exact ⟨rfl, hw⟩
  | some x =>
    rcases h with h | h
    · cases h
    · have e : withTime w cid (some x) = w := by
        unfold withTime
        rw [h, ← hw]
        obtain ⟨s, c, d, n⟩ := w
        congr 1
        funext j
        simp only
        split
        · rename_i hj; subst hj; rfl
        · rfl
      have e1 : applySigningTime cid (some x) w = (.ok (), w) := by
        show setTimestamp cid (some x) w = _
        rw [setTimestamp_run, e]
      rw [e1]
      exact ⟨rfl, hw⟩

theorem verifyIssuer (env : Env) (s : Signer) (x : Option Int) (h : x = none ∨ x = t) (c : Cert) :
    SameAt cid t (verifyIssuer env cid s x c) (verifyIssuer env cid s none c) :=
  bind (of_keeps (Keeps.verifyIssuerSignature env cid s c)) (fun _ => bind (apply x h) (fun _ => of_keeps (Keeps.ctxVerify env trivial c)))

theorem buildChainBody {f g : Cert → M (List Cert)} (hc : ∀ c, SameAt cid t (f c) (g c)) (acc : List (List Cert) × FirstError)
    (issuer : Cert) : SameAt cid t (buildChainBody f acc issuer) (buildChainBody g acc issuer) := by
  unfold Signify.buildChainBody
  refine bind (attempt (hc issuer)) (fun r => ?_)
  split
  · exact of_keeps (Keeps.pure _)
  · split
    · exact of_keeps (Keeps.pure _)
    · exact of_keeps (Keeps.raise _)

theorem forCerts {σ : Type} (env : Env) (q : Query) {f g : σ → Cert → M σ} (hb : ∀ a c, SameAt cid t (f a c) (g a c)) (l seen : List Cert)
    (acc : σ) : SameAt cid t (forCerts env q f l seen acc) (forCerts env q g l seen acc) := by
  induction l generalizing seen acc with
  | nil => exact of_keeps (Keeps.pure _)
  | cons c l ih =>
    unfold Signify.forCerts
    split
    · split
      · exact ih _ _
      · exact bind (hb _ _) (fun _ => ih _ _)
    · exact ih _ _

theorem forStores {σ : Type} (env : Env) (q : Query) {f g : σ → Cert → M σ} (hb : ∀ a c, SameAt cid t (f a c) (g a c)) (rs : List StoreRef)
    (seen : List Cert) (acc : σ) : SameAt cid t (forStores env q f rs seen acc) (forStores env q g rs seen acc) := by
  induction rs generalizing seen acc with
  | nil => exact of_keeps (Keeps.pure _)
  | cons r rs ih => exact bind (of_keeps (Keeps.iterStore r)) (fun l => bind (forCerts env q hb l seen acc) (fun x => ih _ _))

theorem signerVerifyWith (env : Env) (s : Signer) {f g : Cert → M (List Cert)} (hc : ∀ c, SameAt cid t (f c) (g c)) :
    SameAt cid t (signerVerifyWith env cid s f) (signerVerifyWith env cid s g) := by
  unfold Signify.signerVerifyWith Signify.buildChain
  refine bind (bind (bind (of_keeps (Keeps.getCtx _)) fun _ => forStores env _ (buildChainBody hc) _ _ _) (fun acc => ?_)) (fun chains => ?_)
  · split
    · exact of_keeps (Keeps.raise _)
    · exact of_keeps (Keeps.pure _)
  · split
    · exact of_keeps (Keeps.raise _)
    · exact of_keeps (Keeps.pure _)

theorem authSignerVerify (env : Env) (s : Signer) (x : Option Int) (h : x = none ∨ x = t) :
    SameAt cid t (authSignerVerify env cid s x) (authSignerVerify env cid s none) := by
  refine signerVerifyWith env s (fun c => ?_)
  unfold Signify.verifyIssuerAuth
  split
  · exact verifyIssuer env s none (.inl rfl) c
  · exact verifyIssuer env s x h c

end SameAt

/-- The time of the countersignature, and the state after looking at it, for a context that can be used again. -/
theorem counterTime_shared {env : Env} {a : AuthData} {c : CounterSigner} {mode : String} {i : Nat} {w : World} (hc : a.counter = some c)
    (hm : mode ≠ "ignore") (hd : c.checkMessageDigest env a.signer.encryptedDigest = true)
    (hk : Reiterable (w.ctxs i).keyUsages) (hu : Reiterable (w.ctxs i).ekus)
    (hp : mode ≠ "strict" ∨ ∃ u, checkCounter env a c i w = (.ok (), u)) :
    ∃ t u, counterTime env a mode (some i) w = (.ok t, u) ∧ (t = none ∨ t = c.signingTime) ∧
      u.ctxs i = (withTime w i c.signingTime).ctxs i ∧ ∀ k, StoreStep (w.stores k) (u.stores k) := by
  have hcheck : ∃ r u, checkCounter env a c i w = (r, u) ∧ u.ctxs i = (withTime w i c.signingTime).ctxs i ∧
      ∀ k, StoreStep (w.stores k) (u.stores k) := by
    unfold checkCounter
    rw [if_neg (by simp [hd]), M.bind_ok (setTimestamp_run i _ w), M.bind_run]
    have hf := Keeps.counterVerify (D := fun _ => True) (T := fun _ => True) env c (cid := i) trivial trivial (withTime w i c.signingTime)
    have ht := Stamps.counterVerify (V := fun _ _ => False) env c i (withTime w i c.signingTime) i
    rcases hx : c.verify env i (withTime w i c.signingTime) with ⟨r, u⟩
    rw [hx] at hf ht
    have h1 : u.ctxs i = (withTime w i c.signingTime).ctxs i := by
      have h2 := ctx_eq (by rw [withTime_ctx]; exact hk) (by rw [withTime_ctx]; exact hu) (hf.ctxs i)
      rcases ht with ht | ht
      · rw [← ht] at h2
        exact h2
      · exact ht.elim
    cases r with
    | ok _ => exact ⟨_, _, rfl, h1, hf.stores⟩
    | error e => exact ⟨_, _, rfl, h1, hf.stores⟩
  obtain ⟨r, u, h1, h2, h3⟩ := hcheck
  cases r with
  | ok x =>
    exact ⟨_, u, counterTime_of_ok hc hm h1, .inr rfl, h2, h3⟩
  | error e =>
    rcases hp with hp | ⟨u', hp⟩
    · refine ⟨none, u, ?_, .inl rfl, h2, h3⟩
      unfold counterTime
      rw [hc]
      simp only
      rw [if_pos hm, M.bind_ok (show M.attempt (checkCounter env a c i) w = (.ok (.error e), u) by unfold M.attempt; rw [h1])]
      simp only
      rw [if_pos hp]
      rfl
    · rw [h1] at hp
      cases hp

end Signify
