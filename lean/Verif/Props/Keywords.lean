/-
Keyword arguments of `verify` and `explain_verify` (C103).
-/
import Verif.Proofs.Keywords
import Verif.Props.PEFile
import Verif.Props.Errors
import Verif.Props.OneShotFile

set_option autoImplicit false

namespace Signify.Props

open Signify Spec

/-- **C103** Calls with arguments and options that exist are the calls described elsewhere. -/
theorem C103_known (env : Env) (cd : Codec) (file : Bytes) (kw : Keywords) (args : PEVerifyArgs) (h1 : KnownArguments kw.names)
    (h2 : KnownOptions kw.options) :
    peVerifyKw env cd file kw args = peVerify env cd file args ∧ peExplainVerifyKw env cd file kw args = peExplainVerify env cd file args := by
  have hs : ∀ n, Unmentionable n → n ∉ kw.names := by
    rintro n (rfl | rfl | rfl) hn <;> rcases h1 _ hn with h | h | h | h | h <;> exact absurd h (by decide)
  have he : peVerifyKw env cd file kw args = peVerify env cd file args :=
    peVerifyKw_made (hs _ (.inl rfl)) (fun a hi => hi.elim (fun h => h h1) (fun h => h.1 h2))
  refine ⟨he, ?_⟩
  unfold peExplainVerifyKw explainKw peExplainVerify
  rw [if_neg, he]
  intro ha
  obtain ⟨n, hn, hc⟩ := List.any_eq_true.1 ha
  have := List.contains_iff_mem.1 hc
  simp only [List.mem_cons, List.not_mem_nil, or_false] at this
  exact hs n this hn

/-- **C103** Exactly what happens for a file with signatures: they are selected and tried in order, and the outcome is made of theirs, as
without the other names (`C16_outcome`); only that those signatures for which the call cannot be made fail with a TypeError. -/
theorem C103_outcome (env : Env) (cd : Codec) (file : Bytes) (kw : Keywords) (args : PEVerifyArgs) (w : World) (sds : List ASD)
    (hs : "self" ∉ kw.names) (h : Considered cd file args.ignoreParseErrors sds) (hne : sds ≠ []) (hp : HashNames (providedBy w args)) :
    ∃ sel tried rest w0, Selected args.multiVerifyMode sds sel ∧ sel = tried.map Prod.fst ++ rest ∧ ExceptDicts w w0 ∧
      AttemptsKw env file (providedBy w args) kw args.kwargs w0 tried (peVerifyKw env cd file kw args w).2 ∧
      Overall args.multiVerifyMode tried rest (peVerifyKw env cd file kw args w).1 :=
  peVerifyKw_signed hs h hne hp

/-- **C103** A file without signatures, one that cannot be parsed, and expected hashes with a wrong name are reported as such, whatever the
other names are; only `self` is refused at once. -/
theorem C103_early (env : Env) (cd : Codec) (file : Bytes) (kw : Keywords) (args : PEVerifyArgs) (w : World) :
    ("self" ∈ kw.names → RaisesTypeError (peVerifyKw env cd file kw args) w) ∧
    ("self" ∉ kw.names → (¬ ∃ sds, Considered cd file args.ignoreParseErrors sds ∧ sds ≠ [] ∧ HashNames (providedBy w args)) →
      peVerifyKw env cd file kw args w = peVerify env cd file args w) :=
  ⟨peVerifyKw_self, peVerifyKw_early⟩

/-- **C103** An argument that does not exist, a hash given for all signatures at once, and an option that does not exist when no context is
given: a file with signatures is never accepted.  A TypeError is raised, and the stores and contexts are as before. -/
theorem C103_unknown (env : Env) (cd : Codec) (file : Bytes) (kw : Keywords) (args : PEVerifyArgs) (w : World)
    (hk : ¬ KnownArguments kw.names ∨ (¬ KnownOptions kw.options ∧ args.kwargs.context = none)) :
    (∀ res, (peVerifyKw env cd file kw args w).1 ≠ .ok res) ∧
    ∀ sds, Considered cd file args.ignoreParseErrors sds → sds ≠ [] → HashNames (providedBy w args) →
      ∃ e, (peVerifyKw env cd file kw args w).1 = .error e ∧ e.cls = .typeError ∧ ExceptDicts w (peVerifyKw env cd file kw args w).2 := by
  have hi : ∀ a, Impossible kw a args.kwargs := fun a => hk.elim .inl (fun h => .inr ⟨h.1, .inl h.2⟩)
  have key : ∀ sds, Considered cd file args.ignoreParseErrors sds → sds ≠ [] → HashNames (providedBy w args) →
      ∃ e, (peVerifyKw env cd file kw args w).1 = .error e ∧ e.cls = .typeError ∧ ExceptDicts w (peVerifyKw env cd file kw args w).2 := by
    intro sds hc hne hp
    by_cases hs : "self" ∈ kw.names
    · obtain ⟨e, he, hr⟩ := peVerifyKw_self (env := env) (cd := cd) (file := file) (args := args) (w := w) hs
      rw [hr]
      exact ⟨e, rfl, he, rfl, rfl, rfl⟩
    · obtain ⟨sel, tried, rest, w0, h1, h2, h3, h4, h5⟩ := peVerifyKw_signed (env := env) hs hc hne hp
      obtain ⟨hw, ht⟩ := attemptsKw_impossible h4 (fun p _ => hi p.1.d)
      rw [hw]
      cases hr : (peVerifyKw env cd file kw args w).1 with
      | error e =>
        obtain ⟨a, ha⟩ := overall_error h5 hr
        obtain ⟨e', he', h⟩ := ht _ ha
        cases h
        exact ⟨e, rfl, he', h3⟩
      | ok res =>
        exfalso
        rw [hr] at h5
        have hn : ∀ a c, (a, Except.ok c) ∉ tried := by
          intro a c hm
          obtain ⟨e, -, h⟩ := ht _ hm
          cases h
        have hsel : sel ≠ [] := by
          rw [(selected_iff hne (fun x hx => considered_alg hc hx)).1 h1]
          exact selected_ne_nil hne (fun x hx => considered_alg hc hx)
        cases h5 with
        | allVerify l _ =>
          cases res with
          | nil => exact hsel (by rw [h2]; rfl)
          | cons p l => exact hn p.1 p.2 (List.mem_cons_self ..)
        | firstSuccess l a c rest _ => exact hn a c (by simp)
  refine ⟨fun res hr => ?_, key⟩
  by_cases hx : ∃ sds, Considered cd file args.ignoreParseErrors sds ∧ sds ≠ [] ∧ HashNames (providedBy w args)
  · obtain ⟨sds, h1, h2, h3⟩ := hx
    obtain ⟨e, he, -⟩ := key sds h1 h2 h3
    rw [he] at hr
    cases hr
  · by_cases hs : "self" ∈ kw.names
    · obtain ⟨e, -, h⟩ := peVerifyKw_self (env := env) (cd := cd) (file := file) (args := args) (w := w) hs
      rw [h] at hr
      cases hr
    · rw [peVerifyKw_early hs hx] at hr
      exact hx (peVerify_ok hr)

/-- **C103** Signatures are returned only if all arguments exist, and, if an option does not exist, only those for which no context had to
be made. -/
theorem C103_returned (env : Env) (cd : Codec) (file : Bytes) (kw : Keywords) (args : PEVerifyArgs) (w : World)
    (res : List (ASD × List (List Cert))) (h : (peVerifyKw env cd file kw args w).1 = .ok res) :
    KnownArguments kw.names ∧ (KnownOptions kw.options ∨ ∀ p ∈ res, ¬ MakesContext p.1.d args.kwargs) := by
  have h1 : KnownArguments kw.names := by
    apply Classical.byContradiction
    intro hc
    exact (C103_unknown env cd file kw args w (.inl hc)).1 res h
  refine ⟨h1, ?_⟩
  by_cases h2 : KnownOptions kw.options
  · exact .inl h2
  · have hs : "self" ∉ kw.names := fun hn => by
      have := self_known h1
      rw [List.contains_iff_mem.2 hn] at this
      cases this
    refine .inr (fun p hp hm => ?_)
    by_cases hx : ∃ sds, Considered cd file args.ignoreParseErrors sds ∧ sds ≠ [] ∧ HashNames (providedBy w args)
    · obtain ⟨sds, g1, g2, g3⟩ := hx
      obtain ⟨sel, tried, rest, w0, -, -, -, h4, h5⟩ := peVerifyKw_signed (env := env) hs g1 g2 g3
      exact attemptsKw_returned h4 _ _ (overall_returned h5 h p hp) (.inr ⟨h2, hm⟩)
    · rw [peVerifyKw_early hs hx] at h
      exact hx (peVerify_ok h)

/-- **C103** An option that does not exist does no harm if no context is made for any signature. -/
theorem C103_unused (env : Env) (cd : Codec) (file : Bytes) (kw : Keywords) (args : PEVerifyArgs) (h1 : KnownArguments kw.names)
    (h2 : args.kwargs.context ≠ none) (h3 : args.kwargs.csContext ≠ none ∨ args.kwargs.countersignatureMode = "ignore") :
    peVerifyKw env cd file kw args = peVerify env cd file args := by
  refine peVerifyKw_made (fun hn => ?_) (fun a hi => ?_)
  · have := self_known h1
    rw [List.contains_iff_mem.2 hn] at this
    cases this
  · rcases hi with hi | ⟨-, hi⟩
    · exact hi h1
    · rcases hi with hi | ⟨g1, -, g3⟩
      · exact h2 hi
      · exact h3.elim (fun h => h g1) (fun h => g3 h)

/-- **C103** One signature by itself: what is checked, in which order, and that nothing has been done before. -/
theorem C103_signature (env : Env) (file : Option Bytes) (a : AuthData) (kw : Keywords) (args : VerifyArgs) (w : World) :
    (DirectArguments kw.names → KnownOptions kw.options ∨ ¬ MakesContext a args → asdVerifyKw env file a [] kw args w = asdVerify env file a args w) ∧
    (DirectArguments kw.names → ¬ KnownOptions kw.options → MakesContext a args → RaisesTypeError (asdVerifyKw env file a [] kw args) w) ∧
    (¬ DirectArguments kw.names → RaisesTypeError (asdVerifyKw env file a [] kw args) w) :=
  ⟨fun h => (asdVerifyKw_bound (direct_ok.2 h) w).1, fun h => (asdVerifyKw_bound (direct_ok.2 h) w).2,
   fun h => asdVerifyKw_unbound (fun hb => h (direct_ok.1 hb)) w⟩

theorem explain_typeError {α : Type} {f : M α} {w : World} {e : Exc} (he : e.cls = .typeError) (h : (f w).1 = .error e) :
    explain f w = (.ok (.unknownError, some e), (f w).2) := by
  obtain ⟨r, x, h1, -, -, h4⟩ := C22_explain f w
  obtain ⟨hx, hd⟩ := (h4 e).1 h
  subst hx
  rw [h1]
  rw [he] at hd
  have : r = .unknownError := by
    cases e with
    | mk c m =>
      cases he
      have hr : (explain f w).1 = .ok (.unknownError, some ⟨.typeError, m⟩) := by
        unfold explain
        rcases hf : f w with ⟨y, w'⟩
        rw [hf] at h
        cases h
        rw [M.bind_ok (show M.attempt f w = (.ok _, w') from by unfold M.attempt; rw [hf])]
        rfl
      rw [h1] at hr
      exact congrArg Prod.fst (Except.ok.inj hr)
  rw [this]

/-- **C103** `explain_verify` reports these TypeErrors as UNKNOWN_ERROR, with three exceptions, which it raises itself. -/
theorem C103_explain (env : Env) (cd : Codec) (file : Bytes) (kw : Keywords) (args : PEVerifyArgs) (w : World) :
    ((∃ n ∈ kw.names, Unmentionable n) → RaisesTypeError (peExplainVerifyKw env cd file kw args) w) ∧
    ((∀ n ∈ kw.names, ¬ Unmentionable n) → peExplainVerifyKw env cd file kw args w = explain (peVerifyKw env cd file kw args) w ∧
      ∀ e, e.cls = .typeError → (peVerifyKw env cd file kw args w).1 = .error e →
        (peExplainVerifyKw env cd file kw args w).1 = .ok (.unknownError, some e)) := by
  have hu : ∀ n, ["self", "cls", "function"].contains n = true ↔ Unmentionable n := by
    intro n
    rw [List.contains_iff_mem]
    simp only [List.mem_cons, List.not_mem_nil, or_false]
    exact Iff.rfl
  constructor
  · rintro ⟨n, hn, hx⟩
    unfold peExplainVerifyKw explainKw
    rw [if_pos (List.any_eq_true.2 ⟨n, hn, (hu n).2 hx⟩)]
    exact ⟨_, rfl, rfl⟩
  · intro hn
    have hr : peExplainVerifyKw env cd file kw args w = explain (peVerifyKw env cd file kw args) w := by
      unfold peExplainVerifyKw explainKw
      rw [if_neg]
      intro ha
      obtain ⟨n, h1, h2⟩ := List.any_eq_true.1 ha
      exact hn n h1 ((hu n).1 h2)
    refine ⟨hr, fun e he h => ?_⟩
    rw [hr, explain_typeError he h]

/-- The same for one signature. -/
theorem C103_explain_signature (env : Env) (file : Option Bytes) (a : AuthData) (kw : Keywords) (args : VerifyArgs) (w : World) :
    ((∃ n ∈ kw.names, Unmentionable n) → RaisesTypeError (asdExplainVerifyKw env file a kw args) w) ∧
    ((∀ n ∈ kw.names, ¬ Unmentionable n) → asdExplainVerifyKw env file a kw args w = explain (asdVerifyKw env file a [] kw args) w ∧
      ∀ e, e.cls = .typeError → (asdVerifyKw env file a [] kw args w).1 = .error e →
        (asdExplainVerifyKw env file a kw args w).1 = .ok (.unknownError, some e)) := by
  have hu : ∀ n, ["self", "cls", "function"].contains n = true ↔ Unmentionable n := by
    intro n
    rw [List.contains_iff_mem]
    simp only [List.mem_cons, List.not_mem_nil, or_false]
    exact Iff.rfl
  constructor
  · rintro ⟨n, hn, hx⟩
    unfold asdExplainVerifyKw explainKw
    rw [if_pos (List.any_eq_true.2 ⟨n, hn, (hu n).2 hx⟩)]
    exact ⟨_, rfl, rfl⟩
  · intro hn
    have hr : asdExplainVerifyKw env file a kw args w = explain (asdVerifyKw env file a [] kw args) w := by
      unfold asdExplainVerifyKw explainKw
      rw [if_neg]
      intro ha
      obtain ⟨n, h1, h2⟩ := List.any_eq_true.1 ha
      exact hn n h1 ((hu n).1 h2)
    refine ⟨hr, fun e he h => ?_⟩
    rw [hr, explain_typeError he h]

/-! ### Examples -/

theorem exKw_considered : ∃ a b, Considered exPECodec (exTwice 1 2 [7, 7, 7]) true [a, b] :=
  exPair_considered exPECodec _ ("sha256", [1]) ("sha1", [2]) (by decide +kernel) (by decide +kernel)

/-- A file with two good signatures, verified with a store and an option. -/
example : exOutcome (peVerifyKw exPEEnv exPECodec (exTwice 1 2 [7, 7, 7]) ⟨["trusted_certificate_store", "verification_context_kwargs"], ["timestamp"]⟩
    (exPEArgs "all") exWorld).1 = .ok [(("sha256", [1]), [[1, 2, 3]]), (("sha1", [2]), [[1, 2, 3]])] := by
  rw [(C103_known exPEEnv exPECodec _ _ (exPEArgs "all") (by decide) (by decide)).1]
  exact exTwice_all

/-- A misspelt name, a hash for all signatures, and an option that `verify` itself gives: the same file is not accepted. -/
example : ∀ kw ∈ [(⟨["countersignature_mod"], []⟩ : Keywords), ⟨["expected_hash"], []⟩, ⟨["verification_context_kwargs"], ["extended_key_usages"]⟩],
    exOutcome (peVerifyKw exPEEnv exPECodec (exTwice 1 2 [7, 7, 7]) kw (exPEArgs "any") exWorld).1 = .error .typeError ∧
    (peExplainVerifyKw exPEEnv exPECodec (exTwice 1 2 [7, 7, 7]) kw (exPEArgs "any") exWorld).1.toOption.map Prod.fst = some .unknownError := by
  intro kw hk
  rcases List.mem_cons.1 hk with rfl | hk
  · exact ⟨by decide +kernel, by decide +kernel⟩
  rcases List.mem_cons.1 hk with rfl | hk
  · exact ⟨by decide +kernel, by decide +kernel⟩
  rcases List.mem_cons.1 hk with rfl | hk
  · exact ⟨by decide +kernel, by decide +kernel⟩
  · cases hk

/-- `C103_unknown` and `C103_explain` apply to it. -/
example : ∃ e, (peVerifyKw exPEEnv exPECodec (exTwice 1 2 [7, 7, 7]) ⟨["countersignature_mod"], []⟩ (exPEArgs "best") exWorld).1 = .error e ∧
    (peExplainVerifyKw exPEEnv exPECodec (exTwice 1 2 [7, 7, 7]) ⟨["countersignature_mod"], []⟩ (exPEArgs "best") exWorld).1 =
      .ok (.unknownError, some e) := by
  obtain ⟨a, b, hc⟩ := exKw_considered
  obtain ⟨e, he, ht, -⟩ := (C103_unknown exPEEnv exPECodec (exTwice 1 2 [7, 7, 7]) ⟨["countersignature_mod"], []⟩ (exPEArgs "best") exWorld
    (.inl (by decide))).2 _ hc (by intro h; cases h) (fun n d hn => by cases hn)
  exact ⟨e, he, ((C103_explain exPEEnv exPECodec (exTwice 1 2 [7, 7, 7]) ⟨["countersignature_mod"], []⟩ (exPEArgs "best") exWorld).2
    (by decide)).2 e ht he⟩

/-- With a context for the signers, and no countersignatures, an option that does not exist is not noticed; without the context it is. -/
example : exOutcome (peVerifyKw exPEEnv exPECodec (exTwice 1 2 [7, 7, 7]) ⟨["verification_context", "verification_context_kwargs"], ["time"]⟩
    { exPEArgs "all" with kwargs := { trusted := .heap 0, context := some 0 } } exWorld).1 =
      .ok [(("sha256", [1]), [[1, 2, 3]]), (("sha1", [2]), [[1, 2, 3]])] ∧
    exOutcome (peVerifyKw exPEEnv exPECodec (exTwice 1 2 [7, 7, 7]) ⟨["verification_context_kwargs"], ["time"]⟩ (exPEArgs "all") exWorld).1 =
      .error .typeError := ⟨by decide +kernel, by decide +kernel⟩

/-- `C103_returned` and `C103_outcome` apply to it. -/
example : ∃ res tried w0 w1, AttemptsKw exPEEnv (exTwice 1 2 [7, 7, 7]) [] ⟨["verification_context_kwargs"], ["time"]⟩
      { trusted := .heap 0, context := some 0 } w0 tried w1 ∧ tried ≠ [] ∧ res ≠ [] ∧
    ∀ p ∈ (res : List (ASD × List (List Cert))), ¬ MakesContext p.1.d { trusted := .heap 0, context := some 0 } := by
  have h : exOutcome (peVerifyKw exPEEnv exPECodec (exTwice 1 2 [7, 7, 7]) ⟨["verification_context_kwargs"], ["time"]⟩
    { exPEArgs "all" with kwargs := { trusted := .heap 0, context := some 0 } } exWorld).1 =
      .ok [(("sha256", [1]), [[1, 2, 3]]), (("sha1", [2]), [[1, 2, 3]])] := by decide +kernel
  obtain ⟨res, hr⟩ := exOutcome_ok h
  obtain ⟨a, b, hc⟩ := exKw_considered
  obtain ⟨sel, tried, rest, w0, -, -, -, h4, h5⟩ := C103_outcome exPEEnv exPECodec (exTwice 1 2 [7, 7, 7]) ⟨["verification_context_kwargs"], ["time"]⟩
    { exPEArgs "all" with kwargs := { trusted := .heap 0, context := some 0 } } exWorld _ (by decide) hc (by intro h; cases h) (fun n d hn => by cases hn)
  have hne : res ≠ [] := by
    rintro rfl
    rw [hr] at h
    cases h
  refine ⟨res, tried, w0, _, h4, ?_, hne, ?_⟩
  · rintro rfl
    cases res with
    | nil => exact hne rfl
    | cons p l => cases overall_returned h5 hr p (List.mem_cons_self ..)
  · exact (C103_returned exPEEnv exPECodec (exTwice 1 2 [7, 7, 7]) ⟨["verification_context_kwargs"], ["time"]⟩
      { exPEArgs "all" with kwargs := { trusted := .heap 0, context := some 0 } } exWorld res hr).2.resolve_left (by decide)

/-- `C103_unused` applies to it if the countersignatures are ignored. -/
example : peVerifyKw exPEEnv exPECodec (exTwice 1 2 [7, 7, 7]) ⟨["verification_context", "countersignature_mode"], ["time"]⟩
      { exPEArgs "all" with kwargs := { trusted := .heap 0, context := some 0, countersignatureMode := "ignore" } } =
    peVerify exPEEnv exPECodec (exTwice 1 2 [7, 7, 7])
      { exPEArgs "all" with kwargs := { trusted := .heap 0, context := some 0, countersignatureMode := "ignore" } } :=
  C103_unused exPEEnv exPECodec _ _ _ (by decide) (by decide) (.inr rfl)

/-- A countersigned signature with a context for the signer only: the option is noticed when the other context is made. -/
example : RaisesTypeError (asdVerifyKw (exVEnv (fun _ _ => true)) none (exAuth exCerts (some exRfc)) [] ⟨["verification_context"], ["time"]⟩
      { exArgs with context := some 0 }) exWorld ∧
    asdVerifyKw (exVEnv (fun _ _ => true)) none (exAuth exCerts none) [] ⟨["verification_context"], ["time"]⟩ { exArgs with context := some 0 } exWorld =
      asdVerify (exVEnv (fun _ _ => true)) none (exAuth exCerts none) { exArgs with context := some 0 } exWorld :=
  ⟨(C103_signature _ none (exAuth exCerts (some exRfc)) ⟨["verification_context"], ["time"]⟩ { exArgs with context := some 0 } exWorld).2.1
      (by decide) (by decide) (.inr ⟨rfl, (by intro h; cases h), (by decide)⟩),
   (C103_signature _ none (exAuth exCerts none) ⟨["verification_context"], ["time"]⟩ { exArgs with context := some 0 } exWorld).1
      (by decide) (.inr (by rintro (h | ⟨-, h, -⟩); cases h; exact h rfl))⟩

/-- `C103_explain_signature` applies to them. -/
example : RaisesTypeError (asdExplainVerifyKw (exVEnv (fun _ _ => true)) none (exAuth exCerts none) ⟨["function"], []⟩ exArgs) exWorld :=
  (C103_explain_signature _ none (exAuth exCerts none) ⟨["function"], []⟩ exArgs exWorld).1 ⟨"function", by decide, .inr (.inr rfl)⟩

/-- A file that is not signed is reported as such, though the name does not exist. -/
example : exOutcome (peVerifyKw exPEEnv exPECodec [] ⟨["countersignature_mod"], []⟩ (exPEArgs "all") exWorld).1 = .error .authenticodeNotSigned ∧
    exOutcome (peVerifyKw exPEEnv exPECodec [] ⟨["self"], []⟩ (exPEArgs "all") exWorld).1 = .error .typeError :=
  ⟨by decide +kernel, by decide +kernel⟩

/-- `C103_early` applies to it. -/
example : peVerifyKw exPEEnv exPECodec [] ⟨["countersignature_mod"], []⟩ (exPEArgs "all") exWorld =
    peVerify exPEEnv exPECodec [] (exPEArgs "all") exWorld := by
  refine (C103_early exPEEnv exPECodec [] ⟨["countersignature_mod"], []⟩ (exPEArgs "all") exWorld).2 (by decide) ?_
  rintro ⟨sds, h1, hne, -⟩
  have h2 := considered_iff.1 h1
  have h3 : (match (iterSignedDatas exPECodec [] true true).toList with | .ok l => l.isEmpty | .error _ => true) = true := by decide +kernel
  rw [show (exPEArgs "all").ignoreParseErrors = true from rfl] at h2
  rw [h2] at h3
  exact hne (List.isEmpty_iff.1 h3)

end Signify.Props
