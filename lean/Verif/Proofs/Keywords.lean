/-
How Python binds keyword arguments (C103).
-/
import Verif.Model.Keywords
import Verif.Spec.Keywords
import Verif.Proofs.PEModes

set_option autoImplicit false

namespace Signify

open Spec

theorem bindKeywords_ok {parameters given more : List String} :
    bindKeywords parameters given more = .ok () ↔ ∀ n ∈ more, n ∉ given ∧ n ∈ parameters := by
  unfold bindKeywords
  by_cases h1 : (more.any (fun n => given.contains n)) = true
  · rw [if_pos h1]
    refine ⟨fun h => (by cases h), fun h => ?_⟩
    obtain ⟨n, hn, hg⟩ := List.any_eq_true.1 h1
    exact absurd (List.contains_iff_mem.1 hg) (h n hn).1
  · rw [if_neg h1]
    by_cases h2 : (more.any (fun n => !parameters.contains n)) = true
    · rw [if_pos h2]
      refine ⟨fun h => (by cases h), fun h => ?_⟩
      obtain ⟨n, hn, hg⟩ := List.any_eq_true.1 h2
      rw [List.contains_iff_mem.2 (h n hn).2] at hg
      cases hg
    · rw [if_neg h2]
      refine ⟨fun _ n hn => ⟨fun hg => h1 (List.any_eq_true.2 ⟨n, hn, List.contains_iff_mem.2 hg⟩), ?_⟩, fun _ => rfl⟩
      cases hc : parameters.contains n with
      | true => exact List.contains_iff_mem.1 hc
      | false => exact absurd (List.any_eq_true.2 ⟨n, hn, by rw [hc]; rfl⟩) h2

theorem bindKeywords_error {parameters given more : List String} (h : bindKeywords parameters given more ≠ .ok ()) :
    ∃ e, e.cls = .typeError ∧ bindKeywords parameters given more = .error e := by
  unfold bindKeywords at h ⊢
  split
  · exact ⟨_, rfl, rfl⟩
  · rename_i h1
    rw [if_neg h1] at h
    split
    · exact ⟨_, rfl, rfl⟩
    · rename_i h2
      rw [if_neg h2] at h
      exact absurd rfl h

theorem arguments_ok {names : List String} : bindKeywords asdParameters ["expected_hash"] names = .ok () ↔ KnownArguments names := by
  rw [bindKeywords_ok]
  refine ⟨fun h n hn => ?_, fun h n hn => ?_⟩
  · obtain ⟨h1, h2⟩ := h n hn
    simp only [asdParameters, List.mem_cons, List.not_mem_nil, or_false] at h1 h2
    rcases h2 with h2 | h2
    · exact absurd h2 h1
    · exact h2
  · have := h n hn
    simp only [asdParameters, List.mem_cons, List.not_mem_nil, or_false]
    refine ⟨?_, .inr this⟩
    rintro rfl
    rcases this with h | h | h | h | h <;> exact absurd h (by decide)

theorem direct_ok {names : List String} : bindKeywords asdParameters [] names = .ok () ↔ DirectArguments names := by
  rw [bindKeywords_ok]
  refine ⟨fun h n hn => ?_, fun h n hn => ?_⟩
  · have := (h n hn).2
    simpa only [asdParameters, List.mem_cons, List.not_mem_nil, or_false] using this
  · refine ⟨fun h => (by cases h), ?_⟩
    simpa only [asdParameters, List.mem_cons, List.not_mem_nil, or_false] using h n hn

theorem options_ok {options : List String} : bindKeywords ctxParameters ["extended_key_usages"] options = .ok () ↔ KnownOptions options := by
  rw [bindKeywords_ok]
  refine ⟨fun h n hn => ?_, fun h n hn => ?_⟩
  · obtain ⟨h1, h2⟩ := h n hn
    simp only [ctxParameters, List.mem_cons, List.not_mem_nil, or_false] at h1 h2
    rcases h2 with h2 | h2 | h2 | h2
    · exact .inl h2
    · exact .inr (.inl h2)
    · exact absurd h2 h1
    · exact .inr (.inr h2)
  · have := h n hn
    simp only [ctxParameters, List.mem_cons, List.not_mem_nil, or_false]
    constructor
    · rintro rfl
      rcases this with h | h | h | h | h | h | h | h | h <;> exact absurd h (by decide)
    · rcases this with h | h | h
      · exact .inl h
      · exact .inr (.inl h)
      · exact .inr (.inr (.inr h))

theorem M.lift_ok_bind {α β : Type} {x : Except Exc α} {a : α} (h : x = .ok a) (f : α → M β) (w : World) : (M.lift x >>= f) w = f a w := by
  rw [h]; rfl

theorem M.lift_error_bind {α β : Type} {x : Except Exc α} {e : Exc} (h : x = .error e) (f : α → M β) (w : World) :
    (M.lift x >>= f) w = (.error e, w) := by
  rw [h]; rfl

/-- The call once the names have been accepted. -/
theorem asdVerifyKw_bound {env : Env} {file : Option Bytes} {a : AuthData} {given : List String} {kw : Keywords} {args : VerifyArgs}
    (h : bindKeywords asdParameters given kw.names = .ok ()) (w : World) :
    (KnownOptions kw.options ∨ ¬ MakesContext a args → asdVerifyKw env file a given kw args w = asdVerify env file a args w) ∧
    (¬ KnownOptions kw.options → MakesContext a args → RaisesTypeError (asdVerifyKw env file a given kw args) w) := by
  have hc : (a.counter.isSome = true) ↔ a.counter ≠ none := by cases a.counter <;> simp
  unfold asdVerifyKw
  constructor
  · intro hk
    rw [M.lift_ok_bind h]
    rcases hk with hk | hk
    · have ho := options_ok.2 hk
      rw [ho]
      by_cases h1 : args.context = none
      · rw [if_pos h1]
        split <;> rfl
      · rw [if_neg h1]
        split <;> rfl
    · rw [if_neg (fun h1 => hk (.inl h1)), if_neg (fun h2 => hk (.inr ⟨h2.1, hc.1 h2.2.1, h2.2.2⟩))]
  · intro hk hm
    obtain ⟨e, he, ho⟩ := bindKeywords_error (fun h => hk (options_ok.1 h))
    refine ⟨e, he, ?_⟩
    rw [M.lift_ok_bind h, ho]
    by_cases h1 : args.context = none
    · rw [if_pos h1]; rfl
    · rw [if_neg h1]
      rcases hm with hm | hm
      · exact absurd hm h1
      · rw [if_pos ⟨hm.1, hc.2 hm.2.1, hm.2.2⟩]; rfl

theorem asdVerifyKw_unbound {env : Env} {file : Option Bytes} {a : AuthData} {given : List String} {kw : Keywords} {args : VerifyArgs}
    (h : bindKeywords asdParameters given kw.names ≠ .ok ()) (w : World) : RaisesTypeError (asdVerifyKw env file a given kw args) w := by
  obtain ⟨e, he, hb⟩ := bindKeywords_error h
  refine ⟨e, he, ?_⟩
  unfold asdVerifyKw
  rw [M.lift_error_bind hb]

theorem asdVerifyKw_file {env : Env} {file : Option Bytes} {a : AuthData} {kw : Keywords} {args : VerifyArgs} (w : World) :
    (¬ Impossible kw a args → asdVerifyKw env file a ["expected_hash"] kw args w = asdVerify env file a args w) ∧
    (Impossible kw a args → RaisesTypeError (asdVerifyKw env file a ["expected_hash"] kw args) w) := by
  by_cases hk : KnownArguments kw.names
  · obtain ⟨h1, h2⟩ := asdVerifyKw_bound (env := env) (file := file) (a := a) (args := args) (arguments_ok.2 hk) w
    refine ⟨fun hn => h1 ?_, fun hi => ?_⟩
    · apply Classical.byContradiction
      intro hc
      refine hn (.inr ⟨fun h => hc (.inl h), ?_⟩)
      apply Classical.byContradiction
      exact fun h => hc (.inr h)
    · rcases hi with hi | hi
      · exact absurd hk hi
      · exact h2 hi.1 hi.2
  · exact ⟨fun hn => absurd (.inl hk) hn, fun _ => asdVerifyKw_unbound (fun h => hk (arguments_ok.1 h)) w⟩

theorem attemptsKw_of_tried {env : Env} {file : Bytes} {provided hashes : Dict String Bytes} {kw : Keywords} {kwargs : VerifyArgs} {w w' : World}
    {l : List (ASD × Except Exc (List (List Cert)))}
    (h : ∀ a ∈ l.map Prod.fst, ∃ d, hashes.get? a.d.core.digestAlg = some d ∧ DigestFor env file provided a.d.core.digestAlg d)
    (ht : Tried (verifyOneKw env file hashes kw kwargs) w l w') : AttemptsKw env file provided kw kwargs w l w' := by
  induction ht with
  | nil w => exact .nil w
  | cons a w w' l _ ih =>
    obtain ⟨d, h1, h2⟩ := h a (List.mem_cons_self ..)
    have hv : verifyOneKw env file hashes kw kwargs a = asdVerifyKw env (some file) a.d ["expected_hash"] kw { kwargs with expectedHash := some d } := by
      unfold verifyOneKw
      rw [h1]
    have ih := ih (fun b hb => h b (List.mem_cons_of_mem _ hb))
    rw [hv] at ih ⊢
    have hi : Impossible kw a.d { kwargs with expectedHash := some d } ↔ Impossible kw a.d kwargs := Iff.rfl
    by_cases hx : Impossible kw a.d kwargs
    · obtain ⟨e, he, hr⟩ := (asdVerifyKw_file w).2 (hi.2 hx)
      rw [hr] at ih ⊢
      exact .impossible a e w w' l hx he ih
    · have hr := (asdVerifyKw_file (env := env) (file := some file) w).1 (fun h => hx (hi.1 h))
      rw [hr] at ih ⊢
      exact .made a d w w' l hx h2 ih

theorem self_known {names : List String} (h : KnownArguments names) : names.contains "self" = false := by
  cases hc : names.contains "self" with
  | false => rfl
  | true =>
    rcases h _ (List.contains_iff_mem.1 hc) with h | h | h | h | h <;> exact absurd h (by decide)

theorem peVerifyKw_self {env : Env} {cd : Codec} {file : Bytes} {kw : Keywords} {args : PEVerifyArgs} {w : World} (h : "self" ∈ kw.names) :
    RaisesTypeError (peVerifyKw env cd file kw args) w := by
  unfold peVerifyKw
  rw [if_pos (List.contains_iff_mem.2 h)]
  exact ⟨_, rfl, rfl⟩

theorem peVerifyKw_signed {env : Env} {cd : Codec} {file : Bytes} {kw : Keywords} {args : PEVerifyArgs} {w : World} {sds : List ASD}
    (hs : "self" ∉ kw.names) (h : Considered cd file args.ignoreParseErrors sds) (hne : sds ≠ []) (hp : HashNames (providedBy w args)) :
    ∃ sel tried rest w0, Selected args.multiVerifyMode sds sel ∧ sel = tried.map Prod.fst ++ rest ∧ ExceptDicts w w0 ∧
      AttemptsKw env file (providedBy w args) kw args.kwargs w0 tried (peVerifyKw env cd file kw args w).2 ∧
      Overall args.multiVerifyMode tried rest (peVerifyKw env cd file kw args w).1 := by
  obtain ⟨oho, ohs, dir, hh⟩ := header_of_considered h hne
  have hit := considered_iff.1 h
  have halg := fun x hx => considered_alg h (x := x) hx
  obtain ⟨d, hd, hget⟩ := calculateExpectedHashes_ok env file ((selectSignatures args.multiVerifyMode sds).map (fun a => a.d.core.digestAlg)) args w hp hh
  obtain ⟨tried, rest, w', r, h1, h2, h3, h4⟩ := verifyLoop_overall (verifyOneKw env file d kw args.kwargs) args.multiVerifyMode
    (selectSignatures args.multiVerifyMode sds) (withHashes w args.expectedHashes d) (selected_ne_nil hne halg)
  have hv : peVerifyKw env cd file kw args w = (r, w') := by
    unfold peVerifyKw
    rw [if_neg (fun hc => hs (List.contains_iff_mem.1 hc))]
    simp only [pure_bind]
    show (M.lift _ >>= _) w = _
    rw [M.bind_ok (show M.lift _ w = (.ok sds, w) from by unfold M.lift; rw [hit])]
    rw [if_neg (by rw [List.isEmpty_iff]; exact hne)]
    rw [M.bind_ok hd, h4]
  refine ⟨_, tried, rest, withHashes w args.expectedHashes d, (selected_iff hne halg).2 rfl, h1, withHashes_except w _ d, ?_, by rw [hv]; exact h3⟩
  rw [hv]
  refine attemptsKw_of_tried (fun a ha => ?_) h2
  have hm : a.d.core.digestAlg ∈ (selectSignatures args.multiVerifyMode sds).map (fun a => a.d.core.digestAlg) :=
    List.mem_map.2 ⟨a, by rw [h1]; exact List.mem_append_left _ ha, rfl⟩
  have hg := hget a.d.core.digestAlg
  rw [if_pos hm] at hg
  cases hx : d.get? a.d.core.digestAlg with
  | none =>
    rw [hx] at hg
    cases hp : (providedBy w args).get? a.d.core.digestAlg <;> rw [hp] at hg <;> cases hg
  | some x => exact ⟨x, rfl, digestFor_of_header hh (hg.symm.trans hx)⟩

/-- The names are not looked at if no signature is reached. -/
theorem peVerifyKw_early {env : Env} {cd : Codec} {file : Bytes} {kw : Keywords} {args : PEVerifyArgs} {w : World}
    (hs : "self" ∉ kw.names) (h : ¬ ∃ sds, Considered cd file args.ignoreParseErrors sds ∧ sds ≠ [] ∧ HashNames (providedBy w args)) :
    peVerifyKw env cd file kw args w = peVerify env cd file args w := by
  have hr : ∀ kw', "self" ∉ kw'.names → peVerifyKw env cd file kw' args w = ((do
    let sds ← M.lift (iterSignedDatas cd file true args.ignoreParseErrors).toList
    if sds.isEmpty then M.raise ⟨.authenticodeNotSigned, "No valid SignedData structure was found."⟩
    else
      let sel := selectSignatures args.multiVerifyMode sds
      let hashes ← calculateExpectedHashes env file (sel.map (fun (a : ASD) => a.d.core.digestAlg)) args.expectedHashes
      verifyLoop (verifyOneKw env file hashes kw' args.kwargs) args.multiVerifyMode sel [] none) : M (List (ASD × List (List Cert)))) w := by
    intro kw' hs'
    unfold peVerifyKw
    rw [if_neg (fun hc => hs' (List.contains_iff_mem.1 hc))]
  rw [hr kw hs]
  cases hi : (iterSignedDatas cd file true args.ignoreParseErrors).toList with
  | error e => rw [peVerify_error hi]; rfl
  | ok sds =>
    have hc := considered_iff.2 hi
    by_cases hne : sds = []
    · subst hne
      rw [peVerify_unsigned hc]; rfl
    · have hp : ¬ HashNames (providedBy w args) := fun hp => h ⟨sds, hc, hne, hp⟩
      rw [M.bind_ok (show M.lift _ w = (.ok sds, w) from rfl)]
      rw [if_neg (by rw [List.isEmpty_iff]; exact hne)]
      have hb := peVerify_badName (env := env) hc hne hp
      rw [hb]
      have hx : ∃ w1, calculateExpectedHashes env file ((selectSignatures args.multiVerifyMode sds).map (fun a => a.d.core.digestAlg)) args.expectedHashes w =
          (.error ⟨.attributeError, "module 'hashlib' has no attribute"⟩, w1) ∧ w1 = w := by
        have hall : (providedBy w args).all (fun kv => hashlibNames.contains kv.1) = false := by
          rw [Bool.eq_false_iff]
          intro hc
          refine hp (fun k v hkv => ?_)
          have := List.all_eq_true.1 hc (k, v) hkv
          rw [show hashConstructors = hashlibNames from rfl]
          simpa using this
        unfold calculateExpectedHashes
        cases hx : args.expectedHashes with
        | none => exact absurd (by unfold providedBy; rw [hx]; intro k v h; cases h) hp
        | some i =>
          have hd : providedBy w args = w.dicts i := by unfold providedBy; rw [hx]
          rw [hd] at hall
          simp only
          have hn : neededHashes env file ((selectSignatures args.multiVerifyMode sds).map (fun a => a.d.core.digestAlg)) (w.dicts i) =
              .error ⟨.attributeError, "module 'hashlib' has no attribute"⟩ := by
            unfold neededHashes
            rw [hall]
            rfl
          refine ⟨w, ?_, rfl⟩
          rw [M.bind_ok (show M.getDict i w = (.ok (w.dicts i), w) from rfl)]
          rw [M.bind_error (show M.lift _ w = (.error _, w) from by unfold M.lift; rw [hn])]
      obtain ⟨w1, hx, rfl⟩ := hx
      rw [M.bind_error hx]

/-- Attempts that can all be made. -/
theorem peVerifyKw_made {env : Env} {cd : Codec} {file : Bytes} {kw : Keywords} {args : PEVerifyArgs} (hs : "self" ∉ kw.names)
    (h : ∀ a, ¬ Impossible kw a args.kwargs) : peVerifyKw env cd file kw args = peVerify env cd file args := by
  funext w
  unfold peVerifyKw peVerify
  rw [if_neg (fun hc => hs (List.contains_iff_mem.1 hc))]
  have : ∀ hashes, verifyOneKw env file hashes kw args.kwargs = verifyOne env file hashes args.kwargs := by
    intro hashes
    funext a w
    unfold verifyOneKw verifyOne
    cases hashes.get? a.d.core.digestAlg with
    | none => rfl
    | some d => exact (asdVerifyKw_file w).1 (h a.d)
  simp only [this]

theorem attemptsKw_impossible {env : Env} {file : Bytes} {provided : Dict String Bytes} {kw : Keywords} {kwargs : VerifyArgs} {w w' : World}
    {l : List (ASD × Except Exc (List (List Cert)))} (h : AttemptsKw env file provided kw kwargs w l w')
    (hi : ∀ p ∈ l, Impossible kw p.1.d kwargs) : w' = w ∧ ∀ p ∈ l, ∃ e, e.cls = .typeError ∧ p.2 = .error e := by
  induction h with
  | nil w => exact ⟨rfl, fun p hp => (by cases hp)⟩
  | made a d w w' l hx _ _ _ => exact absurd (hi _ (List.mem_cons_self ..)) hx
  | impossible a e w w' l _ he _ ih =>
    obtain ⟨h1, h2⟩ := ih (fun p hp => hi p (List.mem_cons_of_mem _ hp))
    refine ⟨h1, fun p hp => ?_⟩
    rcases List.mem_cons.1 hp with rfl | hp
    · exact ⟨e, he, rfl⟩
    · exact h2 p hp

theorem attemptsKw_returned {env : Env} {file : Bytes} {provided : Dict String Bytes} {kw : Keywords} {kwargs : VerifyArgs} {w w' : World}
    {l : List (ASD × Except Exc (List (List Cert)))} (h : AttemptsKw env file provided kw kwargs w l w') :
    ∀ a c, (a, Except.ok c) ∈ l → ¬ Impossible kw a.d kwargs := by
  induction h with
  | nil w => intro a c h; cases h
  | made b d w w' l hx _ _ ih =>
    intro a c h
    rcases List.mem_cons.1 h with h | h
    · rw [show a = b from congrArg Prod.fst h]; exact hx
    · exact ih a c h
  | impossible b e w w' l _ _ _ ih =>
    intro a c h
    rcases List.mem_cons.1 h with h | h
    · cases h
    · exact ih a c h

end Signify
