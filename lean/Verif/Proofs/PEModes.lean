/-
The verification modes of `SignedPEFile.verify` in terms of the outcomes of the single signatures.
-/
import Verif.Proofs.PEErrors
import Verif.Props.Modes

set_option autoImplicit false

namespace Signify

open Spec

theorem digestFor_unique {env : Env} {file : Bytes} {provided : Dict String Bytes} {alg : String} {d d' : Bytes}
    (h : DigestFor env file provided alg d) (h' : DigestFor env file provided alg d') : d = d' := by
  rcases h with h | ⟨h, ha⟩ <;> rcases h' with h' | ⟨h', ha'⟩
  · rw [h] at h'; exact Option.some.inj h'
  · rw [h] at h'; cases h'
  · rw [h] at h'; cases h'
  · obtain ⟨a, b, c, k1, e1⟩ := (Props.C09_authentihash_iff env.hash alg 1 (by omega) file d).1 (ha 1 (by omega))
    obtain ⟨a', b', c', k1', e1'⟩ := (Props.C09_authentihash_iff env.hash alg 1 (by omega) file d').1 (ha' 1 (by omega))
    obtain ⟨rfl, rfl, rfl⟩ := header_unique k1 k1'
    rw [e1, e1']

theorem alone_unique {env : Env} {file : Bytes} {provided : Dict String Bytes} {kwargs : VerifyArgs} {w : World} {a : ASD}
    {r r' : Except Exc (List (List Cert))} (h : Alone env file provided kwargs w a r) (h' : Alone env file provided kwargs w a r') :
    r = r' := by
  obtain ⟨d, h1, rfl⟩ := h
  obtain ⟨d', h1', rfl⟩ := h'
  rw [digestFor_unique h1 h1']

/-- Attempts one after the other, put together. -/
theorem Spec.Attempts.snoc {env : Env} {file : Bytes} {provided : Dict String Bytes} {kwargs : VerifyArgs} {w w' : World}
    {l : List (ASD × Except Exc (List (List Cert)))} (h : Attempts env file provided kwargs w l w') (a : ASD) (d : Bytes)
    (hd : DigestFor env file provided a.d.core.digestAlg d) :
    Attempts env file provided kwargs w (l ++ [(a, (asdVerify env (some file) a.d { kwargs with expectedHash := some d } w').1)])
      (asdVerify env (some file) a.d { kwargs with expectedHash := some d } w').2 := by
  induction h with
  | nil w => exact .cons a d w _ [] hd (.nil _)
  | cons b e w w' l hb _ ih => exact .cons b e w _ _ hb ih

theorem attempts_alone_aux {env : Env} {file : Bytes} {provided : Dict String Bytes} {kwargs : VerifyArgs} {w v : World}
    (hf : ∀ a d, ∀ u tried, Attempts env file provided kwargs v tried u →
      (asdVerify env (some file) a { kwargs with expectedHash := some d } u).1 =
      (asdVerify env (some file) a { kwargs with expectedHash := some d } w).1)
    {u u' : World} {l : List (ASD × Except Exc (List (List Cert)))} (h : Attempts env file provided kwargs u l u') :
    ∀ before, Attempts env file provided kwargs v before u → ∀ p ∈ l, Alone env file provided kwargs w p.1 p.2 := by
  induction h with
  | nil w => intro _ _ p hp; cases hp
  | cons a d u u' l hd _ ih =>
    intro before hb p hp
    rcases List.mem_cons.1 hp with rfl | hp
    · exact ⟨d, hd, (hf a.d d u before hb).symm⟩
    · exact ih _ (hb.snoc a d hd) p hp

/-- Without influence of the history, the attempts are those of the signatures alone. -/
theorem attempts_alone {env : Env} {file : Bytes} {provided : Dict String Bytes} {kwargs : VerifyArgs} {w w0 w1 : World}
    (hf : HistoryFree env file provided kwargs w) (h0 : ExceptDicts w w0)
    {l : List (ASD × Except Exc (List (List Cert)))} (h : Attempts env file provided kwargs w0 l w1) :
    ∀ p ∈ l, Alone env file provided kwargs w p.1 p.2 :=
  attempts_alone_aux (fun a d u tried hu => hf w0 tried u h0 hu a d) h [] (.nil w0)

/-- The contexts and stores after some attempts. -/
theorem attempts_grow {env : Env} {file : Bytes} {provided : Dict String Bytes} {kwargs : VerifyArgs} {w w' : World}
    {l : List (ASD × Except Exc (List (List Cert)))} (h : Attempts env file provided kwargs w l w') (he : ContextsExist w kwargs) :
    Grows (Passed kwargs) (Passed kwargs) w w' := by
  induction h with
  | nil w => exact .refl _ _ w
  | cons a d w w' l hd _ ih =>
    have hg := asdVerify_grows env (some file) a.d { kwargs with expectedHash := some d } w (contextsExist_expected he (some d))
    exact (hg.mono (fun _ h => h) (fun _ h => h.1)).trans (ih (he.grows hg))

theorem historyFree_of {env : Env} {file : Bytes} {provided : Dict String Bytes} {kwargs : VerifyArgs} {w : World}
    (h1 : kwargs.context = none) (h2 : kwargs.csContext = none)
    (hr : ∀ i certs e, kwargs.trusted = .heap i → (w.stores i).pending = some (certs, e) → e = none) :
    HistoryFree env file provided kwargs w := by
  intro w0 tried w1 h0 ha a d
  have he : ContextsExist w0 kwargs := ⟨fun c hc => (by rw [h1] at hc; cases hc), fun c hc => (by rw [h2] at hc; cases hc)⟩
  refine Props.C34_function_partial env (some file) a { kwargs with expectedHash := some d } w1 w h1 h2 (fun i hi => ?_)
  have hg := (attempts_grow ha he).stores i
  rw [h0.1] at hg
  exact ⟨hg.loaded_eq, FineStore.step (fun certs e => hr i certs e hi) hg, fun certs e => hr i certs e hi⟩

/-- The first element with a property is unique. -/
theorem first_split {α : Type} {P : α → Prop} {pre pre' post post' : List α} {a a' : α} (h : pre ++ a :: post = pre' ++ a' :: post')
    (hp : ∀ x ∈ pre, ¬ P x) (ha : P a) (hp' : ∀ x ∈ pre', ¬ P x) (ha' : P a') : pre = pre' ∧ a = a' ∧ post = post' := by
  induction pre generalizing pre' with
  | nil =>
    cases pre' with
    | nil => simp at h; exact ⟨rfl, h.1, h.2⟩
    | cons x l =>
      simp at h
      exact absurd (h.1 ▸ ha) (hp' x (by simp))
  | cons x l ih =>
    cases pre' with
    | nil =>
      simp at h
      exact absurd (h.1 ▸ ha') (hp x (by simp))
    | cons y m =>
      simp at h
      obtain ⟨h1, h2, h3⟩ := ih h.2 (fun z hz => hp z (by simp [hz])) (fun z hz => hp' z (by simp [hz]))
      exact ⟨by rw [h.1, h1], h2, h3⟩

section
variable {mode : String} {tried : List (ASD × Except Exc (List (List Cert)))} {rest sel : List ASD}
  {r : Except Exc (List (ASD × List (List Cert)))} {A : ASD → Except Exc (List (List Cert)) → Prop}

theorem overall_lax_ok (h : Overall mode tried rest r) (hs : ¬ Strict mode) (hsel : sel = tried.map Prod.fst ++ rest)
    (hA : ∀ p ∈ tried, A p.1 p.2) (hu : ∀ a x y, A a x → A a y → x = y) (res : List (ASD × List (List Cert))) :
    r = .ok res ↔ ∃ pre a post c, sel = pre ++ a :: post ∧ (∀ b ∈ pre, ∃ e, A b (.error e)) ∧ A a (.ok c) ∧ res = [(a, c)] := by
  have hne : ∀ b, (∃ e, A b (.error e)) → ¬ ∃ c, A b (.ok c) := by
    rintro b ⟨e, h1⟩ ⟨c, h2⟩
    have := hu _ _ _ h1 h2
    cases this
  cases h with
  | allVerify l hs' => exact absurd hs' hs
  | firstFailure l a e rest hs' => exact absurd hs' hs
  | firstSuccess l a c rest _ =>
    have hpre : ∀ b ∈ l.map Prod.fst, ∃ e, A b (.error e) := by
      intro b hb
      obtain ⟨p, hp, rfl⟩ := List.mem_map.1 hb
      exact ⟨p.2, hA (p.1, .error p.2) (List.mem_append_left _ (List.mem_map.2 ⟨p, hp, rfl⟩))⟩
    have ha : A a (.ok c) := hA (a, .ok c) (by simp)
    have hsel' : sel = l.map Prod.fst ++ a :: rest := by rw [hsel]; simp [Function.comp_def]
    constructor
    · intro hr; cases hr
      exact ⟨l.map Prod.fst, a, rest, c, hsel', hpre, ha, rfl⟩
    · rintro ⟨pre, a', post, c', e1, e2, e3, rfl⟩
      obtain ⟨-, rfl, -⟩ := first_split (P := fun b => ∃ c, A b (.ok c)) (hsel'.symm.trans e1) (fun x hx => hne x (hpre x hx)) ⟨c, ha⟩
        (fun x hx => hne x (e2 x hx)) ⟨c', e3⟩
      have := hu _ _ _ ha e3
      cases this
      rfl
  | allFail l a e _ =>
    constructor
    · intro hr; cases hr
    · rintro ⟨pre, a', post, c', e1, e2, e3, rfl⟩
      exfalso
      have hm : a' ∈ sel := by rw [e1]; simp
      rw [hsel, List.append_nil, List.mem_map] at hm
      obtain ⟨p, hp, rfl⟩ := hm
      have := hu _ _ _ (hA p hp) e3
      rcases List.mem_append.1 hp with hp | hp
      · obtain ⟨q, -, rfl⟩ := List.mem_map.1 hp
        cases this
      · rw [List.mem_singleton] at hp
        subst hp
        cases this

theorem overall_lax_error (h : Overall mode tried rest r) (hs : ¬ Strict mode) (hsel : sel = tried.map Prod.fst ++ rest)
    (hA : ∀ p ∈ tried, A p.1 p.2) (hu : ∀ a x y, A a x → A a y → x = y) (e : Exc) :
    r = .error e ↔ ∃ pre a, sel = pre ++ [a] ∧ (∀ b ∈ pre, ∃ e', A b (.error e')) ∧ A a (.error e) := by
  cases h with
  | allVerify l hs' => exact absurd hs' hs
  | firstFailure l a e rest hs' => exact absurd hs' hs
  | firstSuccess l a c rest _ =>
    constructor
    · intro hr; cases hr
    · rintro ⟨pre, a', e1, e2, e3⟩
      exfalso
      have ha : A a (.ok c) := hA (a, .ok c) (by simp)
      have hm : a ∈ sel := by rw [hsel]; simp
      rw [e1] at hm
      rcases List.mem_append.1 hm with hm | hm
      · obtain ⟨e', he'⟩ := e2 a hm
        have := hu _ _ _ ha he'
        cases this
      · rw [List.mem_singleton] at hm
        subst hm
        have := hu _ _ _ ha e3
        cases this
  | allFail l a e0 _ =>
    have hpre : ∀ b ∈ l.map Prod.fst, ∃ e, A b (.error e) := by
      intro b hb
      obtain ⟨p, hp, rfl⟩ := List.mem_map.1 hb
      exact ⟨p.2, hA (p.1, .error p.2) (List.mem_append_left _ (List.mem_map.2 ⟨p, hp, rfl⟩))⟩
    have ha : A a (.error e0) := hA (a, .error e0) (by simp)
    have hsel' : sel = l.map Prod.fst ++ [a] := by rw [hsel]; simp [Function.comp_def]
    constructor
    · intro hr; cases hr
      exact ⟨_, a, hsel', hpre, ha⟩
    · rintro ⟨pre, a', e1, e2, e3⟩
      rw [hsel'] at e1
      obtain ⟨-, h2⟩ := List.append_inj' e1 rfl
      cases h2
      have := hu _ _ _ ha e3
      cases this
      rfl

theorem overall_strict_ok (h : Overall mode tried rest r) (hs : Strict mode) (hsel : sel = tried.map Prod.fst ++ rest)
    (hA : ∀ p ∈ tried, A p.1 p.2) (hu : ∀ a x y, A a x → A a y → x = y) (res : List (ASD × List (List Cert))) :
    r = .ok res ↔ res.map Prod.fst = sel ∧ ∀ p ∈ res, A p.1 (.ok p.2) := by
  cases h with
  | firstSuccess l a c rest hs' => exact absurd hs hs'
  | allFail l a e0 hs' => exact absurd hs hs'
  | allVerify l _ =>
    have hl : ∀ p ∈ l, A p.1 (.ok p.2) := fun p hp => hA (p.1, .ok p.2) (List.mem_map.2 ⟨p, hp, rfl⟩)
    have hsel' : sel = l.map Prod.fst := by rw [hsel]; simp [Function.comp_def]
    constructor
    · intro hr; cases hr
      exact ⟨hsel'.symm, hl⟩
    · rintro ⟨e1, e2⟩
      rw [hsel'] at e1
      congr 1
      clear hsel hA hsel'
      induction l generalizing res with
      | nil => simp at e1; exact e1.symm
      | cons p l ih =>
        cases res with
        | nil => simp at e1
        | cons q res =>
          simp only [List.map_cons, List.cons.injEq] at e1
          obtain ⟨q1, q2⟩ := q
          obtain ⟨p1, p2⟩ := p
          simp only at e1
          obtain ⟨rfl, e1⟩ := e1
          have h1 := hu _ _ _ (hl (q1, p2) (by simp)) (e2 (q1, q2) (by simp))
          cases h1
          rw [ih res (fun p hp => hl p (by simp [hp])) e1 (fun p hp => e2 p (by simp [hp]))]
  | firstFailure l a e rest _ =>
    constructor
    · intro hr; cases hr
    · rintro ⟨e1, e2⟩
      exfalso
      have ha : A a (.error e) := hA (a, .error e) (by simp)
      have hm : a ∈ sel := by rw [hsel]; simp
      rw [← e1] at hm
      obtain ⟨p, hp, rfl⟩ := List.mem_map.1 hm
      have := hu _ _ _ ha (e2 p hp)
      cases this

theorem overall_strict_error (h : Overall mode tried rest r) (hs : Strict mode) (hsel : sel = tried.map Prod.fst ++ rest)
    (hA : ∀ p ∈ tried, A p.1 p.2) (hu : ∀ a x y, A a x → A a y → x = y) (e : Exc) :
    r = .error e ↔ ∃ pre a post, sel = pre ++ a :: post ∧ (∀ b ∈ pre, ∃ c, A b (.ok c)) ∧ A a (.error e) := by
  have hne : ∀ b, (∃ c, A b (.ok c)) → ¬ ∃ e, A b (.error e) := by
    rintro b ⟨e, h1⟩ ⟨c, h2⟩
    have := hu _ _ _ h1 h2
    cases this
  cases h with
  | firstSuccess l a c rest hs' => exact absurd hs hs'
  | allFail l a e0 hs' => exact absurd hs hs'
  | allVerify l _ =>
    constructor
    · intro hr; cases hr
    · rintro ⟨pre, a, post, e1, e2, e3⟩
      exfalso
      have hm : a ∈ sel := by rw [e1]; simp
      rw [hsel, List.append_nil, List.mem_map] at hm
      obtain ⟨p, hp, rfl⟩ := hm
      have := hu _ _ _ (hA p hp) e3
      obtain ⟨q, -, rfl⟩ := List.mem_map.1 hp
      cases this
  | firstFailure l a e0 rest _ =>
    have hpre : ∀ b ∈ l.map Prod.fst, ∃ c, A b (.ok c) := by
      intro b hb
      obtain ⟨p, hp, rfl⟩ := List.mem_map.1 hb
      exact ⟨p.2, hA (p.1, .ok p.2) (List.mem_append_left _ (List.mem_map.2 ⟨p, hp, rfl⟩))⟩
    have ha : A a (.error e0) := hA (a, .error e0) (by simp)
    have hsel' : sel = l.map Prod.fst ++ a :: rest := by rw [hsel]; simp [Function.comp_def]
    constructor
    · intro hr; cases hr
      exact ⟨_, a, rest, hsel', hpre, ha⟩
    · rintro ⟨pre, a', post, e1, e2, e3⟩
      obtain ⟨-, rfl, -⟩ := first_split (P := fun b => ∃ e, A b (.error e)) (hsel'.symm.trans e1) (fun x hx => hne x (hpre x hx)) ⟨e0, ha⟩
        (fun x hx => hne x (e2 x hx)) ⟨e, e3⟩
      have := hu _ _ _ ha e3
      cases this
      rfl

end

theorem withHashes_except (w : World) (e : Option Nat) (d : Dict String Bytes) : ExceptDicts w (withHashes w e d) := by
  cases e <;> exact ⟨rfl, rfl, rfl⟩

/-- If `verify` returns, the file has signatures, and the caller's dictionary has the right keys. -/
theorem peVerify_ok {env : Env} {cd : Codec} {file : Bytes} {args : PEVerifyArgs} {w : World} {res : List (ASD × List (List Cert))}
    (h : (peVerify env cd file args w).1 = .ok res) :
    ∃ sds, Considered cd file args.ignoreParseErrors sds ∧ sds ≠ [] ∧ HashNames (providedBy w args) := by
  cases hi : (iterSignedDatas cd file true args.ignoreParseErrors).toList with
  | error e => rw [peVerify_error hi] at h; cases h
  | ok sds =>
    have hc := considered_iff.2 hi
    refine ⟨sds, hc, ?_, ?_⟩
    · rintro rfl
      rw [peVerify_unsigned hc] at h; cases h
    · apply Classical.byContradiction
      intro hp
      by_cases hne : sds = []
      · subst hne
        rw [peVerify_unsigned hc] at h; cases h
      · rw [peVerify_badName hc hne hp] at h; cases h

end Signify
