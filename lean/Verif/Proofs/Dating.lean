/-
Countersignatures whose time nothing supports.
-/
import Verif.Spec.Dating
import Verif.Proofs.Modes
import Verif.Proofs.Times

set_option autoImplicit false

namespace Signify

open Spec

theorem certsOf_of_loaded {w : World} {r : StoreRef} (h : LoadedStore w r) : certsOf (loadedWorld w) r = certsOf w r := by
  cases r with
  | embedded _ => rfl
  | heap i =>
    have h : (w.stores i).pending = none := h
    simp only [certsOf, loadedWorld, Spec.Store.loaded, h]

theorem not_allValidated {env : Env} {w u : World} {ctx : Ctx} {c : CounterSigner} {chains : List (List Cert)}
    (hn : Unsupported env w ctx c) (hs : ∀ k, StoreStep (w.stores k) (u.stores k)) (ctx' : Ctx) (hc : ctx'.stores = ctx.stores)
    (hne : chains ≠ []) (h : AllValidated env u ctx' (counterSignerInfo c) c.signingTime chains) : False := by
  obtain ⟨chain, l, rfl⟩ : ∃ chain l, chains = chain :: l := by
    cases chains with
    | nil => exact absurd rfl hne
    | cons a l => exact ⟨a, l, rfl⟩
  obtain ⟨cert, hsig, hval⟩ := h chain (by simp)
  obtain ⟨r, hr, hmem⟩ := hsig.named.known
  obtain ⟨kus, ekus, -, -, ha⟩ := hval.answer
  refine hn cert ⟨r, hc ▸ hr, ?_⟩ hsig.named.issuer hsig.named.serial _ _ ?_ ?_ ha
  · rw [← certsOf_loaded_step hs, certsOf_of_loaded (hval.loaded r hr)]
    exact hmem
  · rfl
  · rfl

/-- Such a countersignature does not hold. -/
theorem unsupported_fails {env : Env} {w : World} {a : AuthData} {c : CounterSigner} {args : VerifyArgs}
    (hr : Readable w (counterContext w a c args)) (hn : Unsupported env w (counterContext w a c args) c) : CounterFails env w a c args := by
  rcases counter_dichotomy (env := env) hr with ⟨⟨-, chains, i, v, hv, hctx, h⟩, -⟩ | ⟨h, -⟩
  · exfalso
    rcases hx : c.verify env i v with ⟨r, u⟩
    have hr : r = .ok chains := by simpa only [hx] using h
    subst hr
    have hf : ∀ k, StoreStep (w.stores k) (u.stores k) := by
      rw [← hv]
      exact ((Keeps.counterVerify (D := fun _ => True) (T := fun _ => True) env c trivial trivial).of_eq hx).stores
    cases c with
    | pkcs9 s =>
      obtain ⟨g1, g2⟩ := signerVerify_sound (show signerVerify env i s.signer none v = _ from hx)
      rw [hctx] at g2
      exact not_allValidated hn hf _ (by rfl) g1 g2
    | rfc3161 s =>
      obtain ⟨-, k2⟩ := rfcVerify_ok (show rfcVerify env s (some i) (.embedded []) v = _ from hx)
      obtain ⟨g1, g2⟩ := signerVerify_sound k2
      rw [hctx] at g2
      exact not_allValidated hn hf _ (by rfl) g1 g2
  · exact h

end Signify
