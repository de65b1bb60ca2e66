/-
Searches in a context whose trusted stores have been loaded, while others have not.
-/
import Verif.Proofs.Loading
import Verif.Proofs.Chains

set_option autoImplicit false

namespace Signify

open Spec

/-- States that differ from the loaded one only by untrusted stores that have not been read yet. -/
structure Ready (L : World) (rs : List StoreRef) (w : World) : Prop where
  same : loadedWorld w = L
  fine : FineStores w rs
  trusted : ∀ i, .heap i ∈ rs → (w.stores i).trusted = true → (w.stores i).pending = none

/-- The same result as in the loaded state, which is left as it is. -/
def Transparent {α : Type} (L : World) (rs : List StoreRef) (x : M α) : Prop :=
  ∀ w, Ready L rs w → ∃ r w1, x w = (r, w1) ∧ x L = (r, L) ∧ Ready L rs w1

theorem Transparent.pure {α : Type} {L : World} {rs : List StoreRef} (a : α) : Transparent L rs (pure a : M α) :=
  fun w h => ⟨.ok a, w, rfl, rfl, h⟩

theorem Transparent.bind {α β : Type} {L : World} {rs : List StoreRef} {x : M α} {f : α → M β} (hx : Transparent L rs x)
    (hf : ∀ a, Transparent L rs (f a)) : Transparent L rs (x >>= f) := by
  intro w h
  obtain ⟨r, w1, h1, h2, h3⟩ := hx w h
  cases r with
  | error e => exact ⟨.error e, w1, M.bind_error h1, M.bind_error h2, h3⟩
  | ok a =>
    obtain ⟨r, w2, g1, g2, g3⟩ := hf a w1 h3
    exact ⟨r, w2, (M.bind_ok h1).trans g1, (M.bind_ok h2).trans g2, g3⟩

theorem Transparent.iterStore {L : World} {rs : List StoreRef} {r : StoreRef} (hr : r ∈ rs) : Transparent L rs (iterStore r) := by
  intro w h
  obtain ⟨w1, h1, h2, h3, h4, h5⟩ := iterStore_fine w r (h.fine r hr)
  refine ⟨_, w1, h1, ?_, ⟨h2.trans h.same, ?_, ?_⟩⟩
  · rw [h.same]
    refine iterStore_loaded ?_
    rw [← h.same]
    exact loadedWorld_loadedStore w r
  · exact fun r' hr' i hi certs e he => h.fine r' hr' i hi certs e (h5 i certs e he)
  · intro i hi ht
    cases hp : (w1.stores i).pending with
    | none => rfl
    | some p =>
      have hw := h5 i p.1 p.2 hp
      have e1 : (w1.stores i).trusted = (w.stores i).trusted := by
        rw [← loaded_trusted (w1.stores i), ← loaded_trusted (w.stores i)]
        exact congrArg (fun u : World => (u.stores i).trusted) h2
      rw [h.trusted i hi (by rw [← e1]; exact ht)] at hw
      cases hw

theorem Transparent.forCerts {σ : Type} {L : World} {rs : List StoreRef} (env : Env) (q : Query) (body : σ → Cert → M σ)
    (hb : ∀ a c, Transparent L rs (body a c)) (l seen : List Cert) (acc : σ) : Transparent L rs (forCerts env q body l seen acc) := by
  induction l generalizing seen acc with
  | nil => exact Transparent.pure _
  | cons c l ih =>
    unfold Signify.forCerts
    split
    · split
      · exact ih seen acc
      · exact (hb acc c).bind (fun a => ih _ a)
    · exact ih seen acc

theorem Transparent.forStores {σ : Type} {L : World} {rs : List StoreRef} (env : Env) (q : Query) (body : σ → Cert → M σ)
    (hb : ∀ a c, Transparent L rs (body a c)) (l : List StoreRef) (hl : ∀ r ∈ l, r ∈ rs) (seen : List Cert) (acc : σ) :
    Transparent L rs (forStores env q body l seen acc) := by
  induction l generalizing seen acc with
  | nil => exact Transparent.pure _
  | cons r l ih =>
    unfold Signify.forStores
    refine (Transparent.iterStore (hl r (by simp))).bind (fun cs => ?_)
    refine (Transparent.forCerts env q body hb cs seen acc).bind (fun p => ?_)
    exact ih (fun r' hr' => hl r' (List.mem_cons_of_mem _ hr')) p.1 p.2

theorem Ready.ctxs {L w : World} {rs : List StoreRef} (h : Ready L rs w) : w.ctxs = L.ctxs := by
  rw [← h.same]; rfl

theorem Ready.isTrusted {L w : World} {cid : Nat} (h : Ready L (L.ctxs cid).stores w) : ctxIsTrusted w cid = ctxIsTrusted L cid := by
  funext c
  unfold ctxIsTrusted
  rw [h.ctxs]
  rw [Bool.eq_iff_iff, List.any_eq_true, List.any_eq_true]
  have key : ∀ r ∈ (L.ctxs cid).stores, storeIsTrusted w r c = storeIsTrusted L r c := by
    intro r hr
    cases r with
    | embedded _ => rfl
    | heap i =>
      have hL : L.stores i = Spec.Store.loaded (w.stores i) := by rw [← h.same]; rfl
      unfold storeIsTrusted
      simp only
      rw [hL]
      cases ht : (w.stores i).trusted with
      | true => rw [loaded_of_none (h.trusted i hr ht), ht]
      | false => rw [loaded_trusted, ht, Bool.false_and, Bool.false_and]
  constructor
  · rintro ⟨r, hr, hx⟩; exact ⟨r, hr, by rw [← key r hr]; exact hx⟩
  · rintro ⟨r, hr, hx⟩; exact ⟨r, hr, by rw [key r hr]; exact hx⟩

theorem Transparent.potentialChains {L : World} {cid : Nat} (env : Env) (depth : Nat) (c : Cert) :
    Transparent L (L.ctxs cid).stores (potentialChains env cid depth c) := by
  induction depth generalizing c with
  | zero =>
    intro w h
    unfold Signify.potentialChains
    rw [h.isTrusted]
    split
    · exact ⟨_, w, rfl, rfl, h⟩
    · exact ⟨_, w, rfl, rfl, h⟩
  | succ depth ih =>
    intro w h
    unfold Signify.potentialChains
    simp only
    rw [h.isTrusted]
    split
    · exact ⟨_, w, rfl, rfl, h⟩
    · unfold forFind
      rw [M.getCtx_bind, M.getCtx_bind, h.ctxs]
      exact Transparent.forStores env _ _ (fun a cand => (ih cand).bind (fun _ => Transparent.pure _)) _ (fun _ h => h) _ _ w h

end Signify
