/-
C99: verification of files while others use the same stores.
-/
import Verif.Proofs.TogetherPE
import Verif.Props.Together
import Verif.Props.PEFile

set_option autoImplicit false

namespace Signify.Props

open Signify Spec

/-! ### With nobody else -/

/-- **C99**: when nobody else uses the stores, the call is the one described elsewhere: the same outcome, and the same state afterwards. -/
theorem C99_alone (env : Env) (fuel : Nat) (cd : Codec) (file : Bytes) (args : PEVerifyArgs) (w : World)
    (hf : ∀ i, (Store.loaded (w.stores i)).items.length < fuel) (n : Nat) :
    ((peVerifyW env fuel cd file args).amid nobodyElse n w).1 = (peVerify env cd file args w).1 ∧
    ((peVerifyW env fuel cd file args).amid nobodyElse n w).2.2 = (peVerify env cd file args w).2 := by
  have h := WProg.amid_nobody (peVerifyW env fuel cd file args) n w
  rw [peVerify_alone env cd file args w hf] at h
  rw [← h]
  exact ⟨rfl, rfl⟩

theorem exWorld_all_bounded : ∀ i, (Store.loaded (exWorld.stores i)).items.length < 9 := by
  intro j
  unfold exWorld
  by_cases h : j = 0 <;> simp [h, exStoreT, exStoreU, Store.loaded]

theorem exWorld_all_loaded : ∀ j, (exWorld.stores j).pending = none := by
  intro j
  unfold exWorld
  by_cases h : j = 0 <;> simp [h, exStoreT, exStoreU]

/-- A file with two signatures, both of which are verified. -/
example : exOutcome ((peVerifyW exPEEnv 9 exPECodec (exTwice 1 2 [7, 7, 7]) (exPEArgs "all")).amid nobodyElse 0 exWorld).1 =
    exOutcome (peVerify exPEEnv exPECodec (exTwice 1 2 [7, 7, 7]) (exPEArgs "all") exWorld).1 := by
  rw [(C99_alone exPEEnv 9 exPECodec (exTwice 1 2 [7, 7, 7]) (exPEArgs "all") exWorld exWorld_all_bounded 0).1]

/-! ### Whatever others do with the stores -/

/-- **C99**: whatever others do with the stores during the call, if it makes its own contexts and returns, the signatures returned are
those that the mode asks for, and each has been found good — for the digest of the file, or the one given, and with what was in the
stores at some moment of the call. -/
theorem C99_private (env : Env) (fuel : Nat) (cd : Codec) (file : Bytes) (args : PEVerifyArgs) (h1 : args.kwargs.context = none)
    (h2 : args.kwargs.csContext = none) (others : Nat → World → World) (ho : ∀ n w, StoresOnly w (others n w)) (w : World)
    (res : List (ASD × List (List Cert))) (h : ((peVerifyW env fuel cd file args).amid others 0 w).1 = .ok res) :
    FileFoundGood env (· ∈ ((peVerifyW env fuel cd file args).amid others 0 w).2.1) cd w file args res :=
  (peVerify_private env fuel cd file args h1 h2 _ w others ho 0 w rfl (fun _ hm => hm)).2 res h

/-- The stores of `exWorld`, not yet loaded. -/
def exUnloaded : World :=
  { exWorld with stores := fun i => { exWorld.stores i with items := [], pending := some ((exWorld.stores i).items, none) } }

theorem exUnloaded_bounded : ∀ i, (Store.loaded (exUnloaded.stores i)).items.length < 9 := by
  intro j
  unfold exUnloaded exWorld
  by_cases h : j = 0 <;> simp [h, exStoreT, exStoreU, Store.loaded]

/-- Others put the certificates into the stores when the call is about to load them. -/
def exFilling : Nat → World → World := fun n w => if n = 5 then { w with stores := exWorld.stores } else w

theorem exFilling_returns : exOutcome ((peVerifyW exPEEnv 9 exPECodec (exTwice 1 2 [7, 7, 7]) (exPEArgs "all")).amid exFilling 0 exUnloaded).1 =
    exOutcome (peVerify exPEEnv exPECodec (exTwice 1 2 [7, 7, 7]) (exPEArgs "all") exWorld).1 := by
  decide +kernel

example : ∃ res, FileFoundGood exPEEnv (· ∈ ((peVerifyW exPEEnv 9 exPECodec (exTwice 1 2 [7, 7, 7]) (exPEArgs "all")).amid exFilling 0 exUnloaded).2.1)
    exPECodec exUnloaded (exTwice 1 2 [7, 7, 7]) (exPEArgs "all") res := by
  obtain ⟨res, hr⟩ := exOutcome_ok (exFilling_returns.trans exTwice_all)
  refine ⟨res, C99_private _ _ _ _ _ rfl rfl _ (fun n w => ?_) _ _ hr⟩
  unfold exFilling
  split <;> exact ⟨rfl, rfl, rfl⟩

/-! ### Threads -/

theorem FileFoundGood.loaded {env : Env} {cd : Codec} {w v : World} {A : World → Prop} (hA : ∀ m, A m → PartlyLoaded w m) {file : Bytes}
    {args : PEVerifyArgs} {res : List (ASD × List (List Cert))} (h : FileFoundGood env A cd v file args res) :
    FileFoundGood env (fun m => m = loadedWorld w) cd v file args res := by
  obtain ⟨sds, sel, h1, h2, h3, h4, h5, h6⟩ := h
  refine ⟨sds, sel, h1, h2, h3, h4, h5, fun p hp => ?_⟩
  obtain ⟨d, h7, h8⟩ := h6 p hp
  exact ⟨d, h7, FoundGood.loaded hA h8⟩

/-- **C99**: threads that verify files, each its own, with stores that they share and contexts and dictionaries of their own: however
they interleave, and whether the stores have been loaded before or not, what a thread returns is right for the stores as they are when
loaded. -/
theorem C99_threads (env : Env) (fuel : Nat) (cd : Codec) (file : Nat → Bytes) (args : Nat → PEVerifyArgs) (schedule : List Nat) (w : World)
    (priv : Nat → World) (i : Nat) (h1 : (args i).kwargs.context = none) (h2 : (args i).kwargs.csContext = none)
    (res : List (ASD × List (List Cert)))
    (h : (WProg.turns schedule (fun j => peVerifyW env fuel cd (file j) (args j)) w.stores priv).1 i = .ret (.ok res)) :
    FileFoundGood env (fun m => m = loadedWorld w) cd (priv i) (file i) (args i) res := by
  obtain ⟨σ, hσ, hr, hm⟩ := WProg.turns_amid i (fun s => PartlyLoaded w { w with stores := s }) schedule _ w.stores priv 0 _ h
    (partly_self w) (fun j => peVerify_keeps (keepInv_partly w) env fuel cd (file j) (args j)) (priv i) ⟨rfl, rfl, rfl⟩
  refine FileFoundGood.loaded (A := (· ∈ ((peVerifyW env fuel cd (file i) (args i)).amid σ 0 (priv i)).2.1)) hm ?_
  exact C99_private env fuel cd (file i) (args i) h1 h2 σ hσ (priv i) res hr

/-- Two threads verify two files, one of them with a signature that is not for it. -/
def exTwoFiles : Nat → Bytes := fun i => if i = 0 then exTwice 3 2 [7, 7, 7] else exTwice 1 2 [7, 7, 7]

/-- Thread 0 makes `k` steps, then thread 1 the whole call, and thread 0 the rest. -/
def exAfter (k : Nat) : List Nat := List.replicate k 0 ++ List.replicate 300 1 ++ List.replicate 300 0

/-- What has been returned or raised, for comparison (`none` while the call goes on). -/
def exFinal (p : WProg (List (ASD × List (List Cert)))) : Option (Except ExcClass (List ((String × Bytes) × List (List Nat)))) :=
  match p with
  | .ret r => some (exOutcome r)
  | .step _ _ => none

/-- Whether two outcomes are the same. -/
def exSame (x : Option (Except ExcClass (List ((String × Bytes) × List (List Nat))))) (y : Except ExcClass (List ((String × Bytes) × List (List Nat)))) : Bool :=
  match x with
  | some x => decide (x = y)
  | none => false

theorem exSame_some {p : WProg (List (ASD × List (List Cert)))} {y : Except ExcClass (List ((String × Bytes) × List (List Nat)))}
    (h : exSame (exFinal p) y = true) : ∃ r, p = .ret r ∧ exOutcome r = y := by
  cases p with
  | ret r => exact ⟨r, rfl, of_decide_eq_true h⟩
  | step f k => cases h

theorem exAfter_returns : exSame (exFinal ((WProg.turns (exAfter 1) (fun i => peVerifyW exPEEnv 9 exPECodec (exTwoFiles i) (exPEArgs "any")) exUnloaded.stores
    (fun _ => exUnloaded)).1 0)) (exOutcome (peVerify exPEEnv exPECodec (exTwice 3 2 [7, 7, 7]) (exPEArgs "any") exWorld).1) = true := by
  decide +kernel

example : ∃ res, FileFoundGood exPEEnv (fun m => m = loadedWorld exUnloaded) exPECodec exUnloaded (exTwice 3 2 [7, 7, 7]) (exPEArgs "any") res := by
  obtain ⟨r, h1, h2⟩ := exSame_some exAfter_returns
  obtain ⟨res, rfl⟩ := exOutcome_ok (h2.trans exTwice_bad_any)
  exact ⟨res, C99_threads exPEEnv 9 exPECodec exTwoFiles (fun _ => exPEArgs "any") (exAfter 1) exUnloaded (fun _ => exUnloaded) 0 rfl rfl res h1⟩

/-- **C99**: if the stores have been loaded, the threads do not affect each other: a thread returns, or raises, what it does alone. -/
theorem C99_threads_loaded (env : Env) (fuel : Nat) (cd : Codec) (file : Nat → Bytes) (args : Nat → PEVerifyArgs) (schedule : List Nat)
    (w : World) (hl : ∀ j, (w.stores j).pending = none) (hf : ∀ j, (w.stores j).items.length < fuel) (priv : Nat → World) (i : Nat)
    (r : Except Exc (List (ASD × List (List Cert))))
    (h : (WProg.turns schedule (fun j => peVerifyW env fuel cd (file j) (args j)) w.stores priv).1 i = .ret r) :
    r = (peVerify env cd (file i) (args i) { priv i with stores := w.stores }).1 := by
  have hk := fun j => peVerify_keeps (keepInv_loaded w.stores hl) env fuel cd (file j) (args j)
  obtain ⟨σ, hσ, hr, hm⟩ := WProg.turns_amid i (fun s => s = w.stores) schedule _ w.stores priv 0 _ h rfl hk
    { priv i with stores := w.stores } ⟨rfl, rfl, rfl⟩
  rw [WProg.amid_same (s₀ := w.stores) hσ (peVerifyW env fuel cd (file i) (args i)) 0 { priv i with stores := w.stores } (hk i) rfl hm] at hr
  rw [← hr]
  refine (C99_alone env fuel cd (file i) (args i) _ (fun j => ?_) 0).1
  show (Store.loaded (w.stores j)).items.length < fuel
  unfold Store.loaded
  rw [hl j]
  exact hf j

/-- **C99**: the same for `explain_verify`: the verdict is that of the call alone. -/
theorem C99_explain_loaded (env : Env) (fuel : Nat) (cd : Codec) (file : Nat → Bytes) (args : Nat → PEVerifyArgs) (schedule : List Nat)
    (w : World) (hl : ∀ j, (w.stores j).pending = none) (hf : ∀ j, (w.stores j).items.length < fuel) (priv : Nat → World) (i : Nat)
    (r : Except Exc (VResult × Option Exc))
    (h : (WProg.turns schedule (fun j => peExplainVerifyW env fuel cd (file j) (args j)) w.stores priv).1 i = .ret r) :
    r = (peExplainVerify env cd (file i) (args i) { priv i with stores := w.stores }).1 := by
  have hk := fun j => peExplainVerify_keeps (keepInv_loaded w.stores hl) env fuel cd (file j) (args j)
  obtain ⟨σ, hσ, hr, hm⟩ := WProg.turns_amid i (fun s => s = w.stores) schedule _ w.stores priv 0 _ h rfl hk
    { priv i with stores := w.stores } ⟨rfl, rfl, rfl⟩
  rw [WProg.amid_same (s₀ := w.stores) hσ (peExplainVerifyW env fuel cd (file i) (args i)) 0 { priv i with stores := w.stores } (hk i) rfl hm] at hr
  have ha := WProg.amid_nobody (peExplainVerifyW env fuel cd (file i) (args i)) 0 { priv i with stores := w.stores }
  rw [peExplainVerify_alone env cd (file i) (args i) { priv i with stores := w.stores } (fun j => by
    show (Store.loaded (w.stores j)).items.length < fuel
    unfold Store.loaded
    rw [hl j]
    exact hf j)] at ha
  rw [← hr, ← ha]
  rfl

/-- The two threads, with loaded stores, in turns. -/
def exInTurns : List Nat := (List.replicate 300 [0, 1]).flatten

theorem exInTurns_outcome : exSame (exFinal ((WProg.turns exInTurns (fun i => peVerifyW exPEEnv 9 exPECodec (exTwoFiles i) (exPEArgs "all")) exWorld.stores
    (fun _ => exUnloaded)).1 1)) (exOutcome (peVerify exPEEnv exPECodec (exTwice 1 2 [7, 7, 7]) (exPEArgs "all") exWorld).1) = true := by
  decide +kernel

example : ∃ res, (peVerify exPEEnv exPECodec (exTwoFiles 1) (exPEArgs "all") { exUnloaded with stores := exWorld.stores }).1 = .ok res := by
  obtain ⟨r, h1, h2⟩ := exSame_some exInTurns_outcome
  obtain ⟨res, rfl⟩ := exOutcome_ok (h2.trans exTwice_all)
  refine ⟨res, (C99_threads_loaded exPEEnv 9 exPECodec exTwoFiles (fun _ => exPEArgs "all") exInTurns exWorld exWorld_all_loaded (fun j => ?_)
    (fun _ => exUnloaded) 1 _ h1).symm⟩
  have := exWorld_all_bounded j
  unfold Store.loaded at this
  rw [exWorld_all_loaded j] at this
  exact this

/-- The verdict on a file with a signature that is not for it. -/
theorem exInTurns_verdict : (match (WProg.turns exInTurns (fun i => peExplainVerifyW exPEEnv 9 exPECodec (exTwoFiles i) (exPEArgs "all")) exWorld.stores
    (fun _ => exUnloaded)).1 0 with | .ret (.ok x) => some x.1 | _ => none) = some VResult.invalidDigest := by
  decide +kernel

example : (match (peExplainVerify exPEEnv exPECodec (exTwoFiles 0) (exPEArgs "all") { exUnloaded with stores := exWorld.stores }).1 with
    | .ok x => some x.1 | .error _ => none) = some VResult.invalidDigest := by
  have h := exInTurns_verdict
  cases hp : (WProg.turns exInTurns (fun i => peExplainVerifyW exPEEnv 9 exPECodec (exTwoFiles i) (exPEArgs "all")) exWorld.stores (fun _ => exUnloaded)).1 0 with
  | step f k => rw [hp] at h; cases h
  | ret r =>
    rw [hp] at h
    rw [← C99_explain_loaded exPEEnv 9 exPECodec exTwoFiles (fun _ => exPEArgs "all") exInTurns exWorld exWorld_all_loaded (fun j => ?_)
      (fun _ => exUnloaded) 0 r hp]
    · cases r with
      | ok x => exact h
      | error e => cases h
    · have := exWorld_all_bounded j
      unfold Store.loaded at this
      rw [exWorld_all_loaded j] at this
      exact this

/-! ### What does not hold -/

/-- **C99**, the other part: if the stores have not been loaded, `verify` in a thread may raise although the file verifies. -/
theorem C99_race_false :
    ¬ ∀ (env : Env) (fuel : Nat) (cd : Codec) (file : Nat → Bytes) (args : Nat → PEVerifyArgs) (schedule : List Nat)
      (w : World) (_ : ∀ j, (Store.loaded (w.stores j)).items.length < fuel) (i : Nat) (r : Except Exc (List (ASD × List (List Cert))))
      (_ : (WProg.turns schedule (fun j => peVerifyW env fuel cd (file j) (args j)) w.stores (fun _ => w)).1 i = .ret r),
      r = (peVerify env cd (file i) (args i) w).1 := by
  intro h
  have h0 : exSame (exFinal ((WProg.turns (exAfter 8) (fun i => peVerifyW exPEEnv 9 exPECodec (exTwoFiles i) (exPEArgs "any")) exUnloaded.stores
      (fun _ => exUnloaded)).1 1)) (.error .certificateVerificationError) = true := by decide +kernel
  have h1 : exOutcome (peVerify exPEEnv exPECodec (exTwoFiles 1) (exPEArgs "any") exUnloaded).1 ≠ .error .certificateVerificationError := by decide +kernel
  obtain ⟨r, h2, h3⟩ := exSame_some h0
  refine h1 ?_
  rw [← h exPEEnv 9 exPECodec exTwoFiles (fun _ => exPEArgs "any") (exAfter 8) exUnloaded exUnloaded_bounded 1 r h2]
  exact h3

end Signify.Props
