/-
Rules for programs that run while others use the same stores and contexts.
-/
import Verif.Spec.Together
import Verif.Proofs.Trust
import Verif.Proofs.AsdVerify

set_option autoImplicit false

namespace Signify

open Spec

/-- From a state with `I`, and while others do what `R` allows, the code ends with `Q`; `M` holds at its accesses. -/
def Tri {α : Type} (M : World → Prop) (R : World → World → Prop) (I : World → Prop) (p : WProg α) (Q : Except Exc α → World → Prop) : Prop :=
  ∀ σ : Nat → World → World, (∀ n w, R w (σ n w)) → ∀ n w, I w → (∀ m ∈ (p.amid σ n w).2.1, M m) →
    Q (p.amid σ n w).1 (p.amid σ n w).2.2

/-- `I` is not affected by what others do. -/
def Unaffected (R : World → World → Prop) (I : World → Prop) : Prop := ∀ w w', R w w' → I w → I w'

namespace Tri
variable {α β : Type} {M : World → Prop} {R : World → World → Prop} {I : World → Prop}

theorem ret {r : Except Exc α} {Q : Except Exc α → World → Prop} (h : ∀ w, I w → Q r w) : Tri M R I (.ret r) Q :=
  fun _ _ _ w hw _ => h w hw

theorem pure {a : α} {Q : Except Exc α → World → Prop} (h : ∀ w, I w → Q (.ok a) w) : Tri M R I (Pure.pure a : WProg α) Q :=
  ret h

theorem act {m : Signify.M α} {Q : Except Exc α → World → Prop} (hs : Unaffected R I) (h : ∀ w, M w → I w → Q (m w).1 (m w).2) :
    Tri M R I (WProg.act m) Q := by
  intro σ hσ n w hw hm
  exact h (σ n w) (hm (σ n w) (List.mem_cons_self ..)) (hs _ _ (hσ n w) hw)

theorem weaken {p : WProg α} {Q Q' : Except Exc α → World → Prop} (h : Tri M R I p Q) (hq : ∀ r w, Q r w → Q' r w) : Tri M R I p Q' :=
  fun σ hσ n w hw hm => hq _ _ (h σ hσ n w hw hm)

theorem pre {I' : World → Prop} {p : WProg α} {Q : Except Exc α → World → Prop} (h : Tri M R I p Q) (hi : ∀ w, I' w → I w) : Tri M R I' p Q :=
  fun σ hσ n w hw hm => h σ hσ n w (hi w hw) hm

end Tri

namespace WProg
variable {α β : Type}

theorem amid_onResult (σ : Nat → World → World) (p : WProg α) (f : Except Exc α → WProg β) : ∀ (n : Nat) (w : World),
    (p.onResult f).amid σ n w =
      (((f (p.amid σ n w).1).amid σ (n + (p.amid σ n w).2.1.length) (p.amid σ n w).2.2).1,
        (p.amid σ n w).2.1 ++ ((f (p.amid σ n w).1).amid σ (n + (p.amid σ n w).2.1.length) (p.amid σ n w).2.2).2.1,
        ((f (p.amid σ n w).1).amid σ (n + (p.amid σ n w).2.1.length) (p.amid σ n w).2.2).2.2) := by
  induction p with
  | ret r => intro n w; rfl
  | step g k ih =>
    intro n w
    have h := ih (σ n w) (n + 1) (g (σ n w))
    have e1 : ((WProg.step g k).onResult f).amid σ n w =
        ((((k (σ n w)).onResult f).amid σ (n + 1) (g (σ n w))).1, σ n w :: (((k (σ n w)).onResult f).amid σ (n + 1) (g (σ n w))).2.1,
          (((k (σ n w)).onResult f).amid σ (n + 1) (g (σ n w))).2.2) := rfl
    have e2 : (WProg.step g k).amid σ n w = (((k (σ n w)).amid σ (n + 1) (g (σ n w))).1, σ n w :: ((k (σ n w)).amid σ (n + 1) (g (σ n w))).2.1,
          ((k (σ n w)).amid σ (n + 1) (g (σ n w))).2.2) := rfl
    rw [e1, e2, h]
    simp only [List.length_cons, List.cons_append, Nat.add_assoc, Nat.add_comm 1]

end WProg

namespace Tri
variable {α β : Type} {M : World → Prop} {R : World → World → Prop} {I : World → Prop}

theorem onResult {p : WProg α} {f : Except Exc α → WProg β} {Q : Except Exc α → World → Prop} {Q' : Except Exc β → World → Prop}
    (h : Tri M R I p Q) (hf : ∀ r, Tri M R (Q r) (f r) Q') : Tri M R I (p.onResult f) Q' := by
  intro σ hσ n w hw hm
  rw [WProg.amid_onResult] at hm ⊢
  refine hf _ σ hσ _ _ (h σ hσ n w hw (fun m hx => hm m (List.mem_append.2 (.inl hx)))) (fun m hx => hm m (List.mem_append.2 (.inr hx)))

theorem bind {p : WProg α} {k : α → WProg β} {Q : Except Exc α → World → Prop} {Q' : Except Exc β → World → Prop}
    (h : Tri M R I p Q) (he : ∀ e w, Q (.error e) w → Q' (.error e) w) (hk : ∀ a, Tri M R (Q (.ok a)) (k a) Q') :
    Tri M R I (p >>= k) Q' := by
  refine onResult h (fun r => ?_)
  cases r with
  | ok a => exact hk a
  | error e => exact ret (he e)

end Tri

/-- What holds of values that are returned. -/
def Returns {α : Type} (J : World → Prop) (P : α → Prop) : Except Exc α → World → Prop := fun r w => J w ∧ ∀ a, r = .ok a → P a

namespace Tri
variable {α β : Type} {M : World → Prop} {R : World → World → Prop} {I J L : World → Prop}

theorem lift {r : Except Exc α} {P : α → Prop} (h : ∀ a, r = .ok a → P a) : Tri M R I (WProg.lift r) (Returns I P) :=
  ret (fun _ hw => ⟨hw, h⟩)

theorem ok {a : α} {P : α → Prop} (h : P a) : Tri M R I (Pure.pure a : WProg α) (Returns I P) :=
  ret (fun _ hw => ⟨hw, fun b hb => by cases hb; exact h⟩)

theorem raise {e : Exc} {P : α → Prop} : Tri M R I (WProg.raise e : WProg α) (Returns I P) :=
  ret (fun _ hw => ⟨hw, fun b hb => by cases hb⟩)

/-- sequencing, when the invariant does not change -/
theorem seq {p : WProg α} {k : α → WProg β} {P : α → Prop} {P' : β → Prop} (h : Tri M R I p (Returns I P))
    (hk : ∀ a, P a → Tri M R I (k a) (Returns I P')) : Tri M R I (p >>= k) (Returns I P') := by
  refine bind h (fun e w hw => ⟨hw.1, fun b hb => by cases hb⟩) (fun a => ?_)
  intro σ hσ n w hw hm
  exact hk a (hw.2 a rfl) σ hσ n w hw.1 hm

/-- an access that the invariant allows -/
theorem look {m : Signify.M α} {P : α → Prop} (hs : Unaffected R I) (h : ∀ w, M w → I w → I (m w).2 ∧ ∀ a, (m w).1 = .ok a → P a) :
    Tri M R I (WProg.act m) (Returns I P) :=
  act hs (fun w h1 h2 => h w h1 h2)

end Tri

end Signify
