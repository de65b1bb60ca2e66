/-
C98: verification while others use the same stores and contexts.
-/
import Verif.Proofs.TogetherAlone
import Verif.Proofs.TogetherAsd
import Verif.Proofs.TogetherThreads
import Verif.Props.Verify

set_option autoImplicit false

namespace Signify.Props

open Signify Spec

/-! ### With nobody else -/

/-- **C98**: when nobody else uses the stores and contexts, the call is the one described elsewhere: the same outcome, and the same
state afterwards. -/
theorem C98_alone (env : Env) (fuel : Nat) (file : Option Bytes) (a : AuthData) (args : VerifyArgs) (w : World)
    (hf : ∀ i, (Store.loaded (w.stores i)).items.length < fuel) (n : Nat) :
    ((asdVerifyW env fuel file a args).amid nobodyElse n w).1 = (asdVerify env file a args w).1 ∧
    ((asdVerifyW env fuel file a args).amid nobodyElse n w).2.2 = (asdVerify env file a args w).2 := by
  have h := WProg.amid_nobody (asdVerifyW env fuel file a args) n w
  rw [asdVerify_alone env file a args w hf] at h
  rw [← h]
  exact ⟨rfl, rfl⟩

theorem exLazy_bounded : ∀ i, (Store.loaded (exLazy.stores i)).items.length < 9 := by
  intro i
  unfold exLazy
  by_cases h : i = 0
  · subst h; decide
  · simp only [if_neg h]; decide

/-- A call that loads the store, checks the countersignature and returns a chain. -/
example : ((asdVerifyW exLifeEnv 9 none exLifeAuth exArgs).amid nobodyElse 0 exLazy).1 = .ok [[exRoot, exInter, exLife]] := by
  rw [(C98_alone exLifeEnv 9 none exLifeAuth exArgs exLazy exLazy_bounded 0).1]
  decide +kernel

/-! ### Whatever others do -/

/-- **C98**: whatever others do with the stores and the contexts between the accesses of the call, if it returns chains, the digests
agree, and every chain is one of a certificate that the SignerInfo names and that has signed it, and has been validated — where what
the call has found of a store or a context is what was there at some moment of the call.  In mode `strict` the same holds for the
countersignature, if there is one. -/
theorem C98_returned (env : Env) (fuel : Nat) (file : Option Bytes) (a : AuthData) (args : VerifyArgs) (others : Nat → World → World) (w : World)
    (chains : List (List Cert)) (h : ((asdVerifyW env fuel file a args).amid others 0 w).1 = .ok chains) :
    DigestsAgree env file a args.expectedHash ∧
    (∀ k, a.counter = some k → args.countersignatureMode = "strict" → ∃ i, (∀ j, args.csContext = some j → i = j) ∧
      CounterOf env a.signer.encryptedDigest (fun s chain => ∃ c,
        ChainThen env (· ∈ ((asdVerifyW env fuel file a args).amid others 0 w).2.1) i s chain c) k) ∧
    chains ≠ [] ∧ ∃ cid, (∀ j, args.context = some j → cid = j) ∧ ∀ chain ∈ chains, ∃ c,
      ChainThen env (· ∈ ((asdVerifyW env fuel file a args).amid others 0 w).2.1) cid a.signer chain c := by
  rw [← digestsMatch_iff]
  exact (asdVerify_any env fuel file a args _ others (fun _ _ => trivial) 0 w trivial (fun _ hm => hm)).2 chains h

/-- Others put the certificates into the store while the call is loading it, and later set the time of a context. -/
def exOthers : Nat → World → World := fun n w =>
  if n = 6 then { w with stores := exWorld.stores } else if n = 20 then (setTimestamp 1 (some 300) w).2 else w

theorem exOthers_returns : ((asdVerifyW exLifeEnv 9 none exLifeAuth exArgs).amid exOthers 0 exLazy).1 = .ok [[exRoot, exInter, exLife]] := by
  decide +kernel

example : ∃ cid, ∃ c, ChainThen exLifeEnv (· ∈ ((asdVerifyW exLifeEnv 9 none exLifeAuth exArgs).amid exOthers 0 exLazy).2.1) cid exLifeAuth.signer
    [exRoot, exInter, exLife] c := by
  obtain ⟨-, -, -, cid, -, h⟩ := C98_returned exLifeEnv 9 none exLifeAuth exArgs exOthers exLazy _ exOthers_returns
  obtain ⟨c, hc⟩ := h _ (List.mem_singleton.2 rfl)
  exact ⟨cid, c, hc⟩

/-- **C98**: the same when others use only the stores, and the call makes its contexts itself: these have the attributes that the
arguments say, as without the others. -/
theorem C98_private (env : Env) (fuel : Nat) (file : Option Bytes) (a : AuthData) (args : VerifyArgs) (h1 : args.context = none)
    (h2 : args.csContext = none) (others : Nat → World → World) (ho : ∀ n w, StoresOnly w (others n w)) (w : World)
    (chains : List (List Cert)) (h : ((asdVerifyW env fuel file a args).amid others 0 w).1 = .ok chains) :
    FoundGood env (· ∈ ((asdVerifyW env fuel file a args).amid others 0 w).2.1) w file a args chains := by
  unfold FoundGood
  rw [← digestsMatch_iff]
  exact (asdVerify_private env fuel file a args h1 h2 _ w others ho 0 w trivial (fun _ hm => hm)).2 chains h

/-- Others put the certificates into the store when the call is about to load it. -/
def exStoreOthers : Nat → World → World := fun n w =>
  if n = 4 then { w with stores := exWorld.stores } else w

theorem exStoreOthers_returns : ((asdVerifyW exLifeEnv 9 none exLifeAuth exArgs).amid exStoreOthers 0 exLazy).1 = .ok [[exRoot, exInter, exLife]] := by
  decide +kernel

example : FoundGood exLifeEnv (· ∈ ((asdVerifyW exLifeEnv 9 none exLifeAuth exArgs).amid exStoreOthers 0 exLazy).2.1) exLazy none exLifeAuth exArgs
    [[exRoot, exInter, exLife]] := by
  refine C98_private _ _ _ _ _ rfl rfl _ (fun n w => ?_) _ _ exStoreOthers_returns
  unfold exStoreOthers
  split <;> exact ⟨rfl, rfl, rfl⟩

/-! ### Stores that are only loaded -/

theorem InStoreThen.loaded {w : World} {A : World → Prop} (hA : ∀ m, A m → PartlyLoaded w m) {r : StoreRef} {c : Cert} (h : InStoreThen A r c) :
    InStoreThen (fun m => m = loadedWorld w) r c := by
  cases r with
  | embedded l => exact h
  | heap i =>
    obtain ⟨m, hm, hc⟩ := h
    exact ⟨_, rfl, (hA m hm i).2.2.1 c hc⟩

theorem loaded_trusted (s : Store) : (Store.loaded s).trusted = s.trusted := by unfold Store.loaded; split <;> rfl
theorem loaded_ctl (s : Store) : (Store.loaded s).ctl = s.ctl := by unfold Store.loaded; split <;> rfl

theorem EvidenceIn.loaded {env : Env} {w : World} {A : World → Prop} (hA : ∀ m, A m → PartlyLoaded w m) {ctx : Ctx} {s : Signer} {chain : List Cert} {c : Cert}
    (h : EvidenceIn env A ctx s chain c) : EvidenceIn env (fun m => m = loadedWorld w) ctx s chain c := by
  obtain ⟨⟨r, hr, hk⟩, h2, h3, h4, ⟨roots, inter, h5, h6, h7⟩, h8, i, root, h9, h10, ⟨m, hm, ht⟩, ⟨m1, hm1, d, hd, hs⟩, m', hm', hc⟩ := h
  refine ⟨⟨r, hr, InStoreThen.loaded hA hk⟩, h2, h3, h4, ⟨roots, inter, fun x hx => ?_, fun x hx => ?_, h7⟩, fun d hd => ?_, i, root, h9, h10,
    ⟨_, rfl, ?_⟩, ⟨_, rfl, d, (hA m1 hm1 i).2.2.1 d hd, hs⟩, _, rfl, fun ctl hctl => hc ctl ?_⟩
  · obtain ⟨d, i, e1, e2, e3, m, hm, e4⟩ := h5 x hx
    refine ⟨d, i, e1, e2, InStoreThen.loaded hA e3, _, rfl, ?_⟩
    show (Store.loaded _).trusted = true
    rw [loaded_trusted, ← (hA m hm i).1]
    exact e4
  · obtain ⟨d, r, e1, e2, e3⟩ := h6 x hx
    exact ⟨d, r, e1, e2, InStoreThen.loaded hA e3⟩
  · rcases h8 d hd with h8 | ⟨r, hr, h8⟩
    · exact .inl h8
    · exact .inr ⟨r, hr, InStoreThen.loaded hA h8⟩
  · show (Store.loaded _).trusted = true
    rw [loaded_trusted, ← (hA m hm i).1]
    exact ht
  · rw [(hA m' hm' i).2.1, ← loaded_ctl]
    exact hctl

theorem CounterOf.imp {env : Env} {data : Bytes} {P P' : Signer → List Cert → Prop} {k : CounterSigner} (hp : ∀ s chain, P s chain → P' s chain)
    (h : CounterOf env data P k) : CounterOf env data P' k := by
  unfold CounterOf at h ⊢
  cases k with
  | pkcs9 k =>
    obtain ⟨h1, chains, h2, h3⟩ := h
    exact ⟨h1, chains, h2, fun chain hc => hp _ _ (h3 chain hc)⟩
  | rfc3161 k =>
    obtain ⟨h0, h1, chains, h2, h3⟩ := h
    exact ⟨h0, h1, chains, h2, fun chain hc => hp _ _ (h3 chain hc)⟩

theorem FoundGood.loaded {env : Env} {w v : World} {A : World → Prop} (hA : ∀ m, A m → PartlyLoaded w m) {file : Option Bytes} {a : AuthData}
    {args : VerifyArgs} {chains : List (List Cert)} (h : FoundGood env A v file a args chains) :
    FoundGood env (fun m => m = loadedWorld w) v file a args chains := by
  obtain ⟨h1, t, h2, h3, h4, h5⟩ := h
  refine ⟨h1, t, fun k hk hm => ?_, fun x hx => ?_, h4, fun chain hc => ?_⟩
  · obtain ⟨e1, e2⟩ := h2 k hk hm
    exact ⟨e1, CounterOf.imp (fun s chain ⟨c, hc⟩ => ⟨c, EvidenceIn.loaded hA hc⟩) e2⟩
  · obtain ⟨k, e1, e2, e3, e4⟩ := h3 x hx
    exact ⟨k, e1, e2, e3, CounterOf.imp (fun s chain ⟨c, hc⟩ => ⟨c, EvidenceIn.loaded hA hc⟩) e4⟩
  · obtain ⟨c, u, e1, e2, e3⟩ := h5 chain hc
    exact ⟨c, u, e1, e2, EvidenceIn.loaded hA e3⟩

theorem loaded_items (s : Store) : ∀ c ∈ s.items, c ∈ (Store.loaded s).items := by
  intro c hc
  unfold Store.loaded
  split
  · exact hc
  · exact List.mem_append_left _ hc

theorem partly_self (w : World) : PartlyLoaded w w := fun i => ⟨rfl, rfl, loaded_items _, .inr rfl⟩

/-- **C98**: threads that verify signatures, with stores that they share and contexts of their own: however they interleave, and
whether the stores have been loaded before or not, what a thread returns is right for the stores as they are when loaded. -/
theorem C98_threads (env : Env) (fuel : Nat) (file : Nat → Option Bytes) (a : Nat → AuthData) (args : Nat → VerifyArgs) (schedule : List Nat) (w : World)
    (priv : Nat → World) (i : Nat) (h1 : (args i).context = none) (h2 : (args i).csContext = none) (chains : List (List Cert))
    (h : (WProg.turns schedule (fun j => asdVerifyW env fuel (file j) (a j) (args j)) w.stores priv).1 i = .ret (.ok chains)) :
    FoundGood env (fun m => m = loadedWorld w) (priv i) (file i) (a i) (args i) chains := by
  obtain ⟨σ, hσ, hr, hm⟩ := WProg.turns_amid i (fun s => PartlyLoaded w { w with stores := s }) schedule _ w.stores priv 0 _ h
    (partly_self w) (fun j => asdVerify_keeps (keepInv_partly w) env fuel (file j) (a j) (args j)) (priv i) ⟨rfl, rfl, rfl⟩
  refine FoundGood.loaded (A := (· ∈ ((asdVerifyW env fuel (file i) (a i) (args i)).amid σ 0 (priv i)).2.1)) hm ?_
  exact C98_private env fuel (file i) (a i) (args i) h1 h2 σ hσ (priv i) chains hr

/-- Two threads verify the same signature; thread 0 makes `k` steps, then thread 1 the whole call, and thread 0 the rest. -/
def exTwoThreads (k : Nat) : List Nat := List.replicate k 0 ++ List.replicate 200 1 ++ List.replicate 200 0

/-- What has been returned or raised. -/
def outcomeOf {α : Type} : WProg α → Option (Except Exc α)
  | .ret r => some r
  | .step _ _ => none

theorem outcomeOf_some {α : Type} {p : WProg α} {r : Except Exc α} (h : outcomeOf p = some r) : p = .ret r := by
  cases p with
  | ret r' => cases h; rfl
  | step f k => cases h

/-- Thread 0 is loading the store: it has marked it as loaded, and read the certificate, when thread 1 begins. -/
theorem exTogether_returns : outcomeOf ((WProg.turns (exTwoThreads 7) (fun _ => asdVerifyW exLifeEnv 9 none exLifeAuth exArgs) exLazy.stores (fun _ => exLazy)).1 1) =
    some (.ok [[exRoot, exInter, exLife]]) := by decide +kernel

example : FoundGood exLifeEnv (fun m => m = loadedWorld exLazy) exLazy none exLifeAuth exArgs [[exRoot, exInter, exLife]] :=
  C98_threads exLifeEnv 9 (fun _ => none) (fun _ => exLifeAuth) (fun _ => exArgs) (exTwoThreads 7) exLazy (fun _ => exLazy) 1 rfl rfl _
    (outcomeOf_some exTogether_returns)

/-- **C98**: if the stores have been loaded, the threads do not affect each other: a thread returns, or raises, what it does alone. -/
theorem C98_threads_loaded (env : Env) (fuel : Nat) (file : Nat → Option Bytes) (a : Nat → AuthData) (args : Nat → VerifyArgs) (schedule : List Nat)
    (w : World) (hl : ∀ j, (w.stores j).pending = none) (hf : ∀ j, (w.stores j).items.length < fuel) (priv : Nat → World) (i : Nat)
    (r : Except Exc (List (List Cert)))
    (h : (WProg.turns schedule (fun j => asdVerifyW env fuel (file j) (a j) (args j)) w.stores priv).1 i = .ret r) :
    r = (asdVerify env (file i) (a i) (args i) { priv i with stores := w.stores }).1 := by
  have hk := fun j => asdVerify_keeps (keepInv_loaded w.stores hl) env fuel (file j) (a j) (args j)
  obtain ⟨σ, hσ, hr, hm⟩ := WProg.turns_amid i (fun s => s = w.stores) schedule _ w.stores priv 0 _ h rfl hk
    { priv i with stores := w.stores } ⟨rfl, rfl, rfl⟩
  rw [WProg.amid_same (s₀ := w.stores) hσ (asdVerifyW env fuel (file i) (a i) (args i)) 0 { priv i with stores := w.stores } (hk i) rfl hm] at hr
  rw [← hr]
  refine (C98_alone env fuel (file i) (a i) (args i) _ (fun j => ?_) 0).1
  show (Store.loaded (w.stores j)).items.length < fuel
  unfold Store.loaded
  rw [hl j]
  exact hf j

theorem exLoaded_returns : outcomeOf ((WProg.turns (exTwoThreads 6) (fun _ => asdVerifyW exLifeEnv 9 none exLifeAuth exArgs) exWorld.stores (fun _ => exLazy)).1 1) =
    some (.ok [[exRoot, exInter, exLife]]) := by decide +kernel

example : (.ok [[exRoot, exInter, exLife]] : Except Exc _) = (asdVerify exLifeEnv none exLifeAuth exArgs { exLazy with stores := exWorld.stores }).1 := by
  refine C98_threads_loaded exLifeEnv 9 (fun _ => none) (fun _ => exLifeAuth) (fun _ => exArgs) (exTwoThreads 6) exWorld (fun j => ?_) (fun j => ?_)
    (fun _ => exLazy) 1 _ (outcomeOf_some exLoaded_returns)
  · unfold exWorld; by_cases h : j = 0 <;> simp [h, exStoreT, exStoreU]
  · unfold exWorld; by_cases h : j = 0 <;> simp [h, exStoreT, exStoreU]

/-! ### What does not hold -/

/-- **C98**, the other part: if the stores have not been loaded, a thread may fail although its signature verifies: another has begun to
load the trusted store, and it is found empty. -/
theorem C98_race_false :
    ¬ ∀ (env : Env) (fuel : Nat) (file : Nat → Option Bytes) (a : Nat → AuthData) (args : Nat → VerifyArgs) (schedule : List Nat)
      (w : World) (_ : ∀ j, (Store.loaded (w.stores j)).items.length < fuel) (i : Nat) (r : Except Exc (List (List Cert)))
      (_ : (WProg.turns schedule (fun j => asdVerifyW env fuel (file j) (a j) (args j)) w.stores (fun _ => w)).1 i = .ret r),
      r = (asdVerify env (file i) (a i) (args i) w).1 := by
  intro h
  have h1 := h exLifeEnv 9 (fun _ => none) (fun _ => exLifeAuth) (fun _ => exArgs) (exTwoThreads 6) exLazy exLazy_bounded 1
    (.error ⟨.authenticodeCounterSigner, "An error occurred while validating the countersignature"⟩) (outcomeOf_some (by decide +kernel))
  revert h1
  decide +kernel

/-- A signature without countersignature, and the same signature with one, made at 300, when alone the certificate was valid. -/
def exPlainAuth : AuthData := exAuth exCerts none
def exTimedAuth : AuthData := exAuth exCerts (some exCounter)
def exOneContext : VerifyArgs := { exArgs with context := some 0 }
def exOneWorld : World := { exWorld with ctxs := fun _ => exCtx [.heap 0, .embedded exCerts] }

/-- **C98**, the other part: if two threads use one context, a signature may be found good although it does not verify: the certificate
is validated for the time of the countersignature that the other thread verifies. -/
theorem C98_context_false :
    ¬ ∀ (env : Env) (fuel : Nat) (file : Option Bytes) (a a' : AuthData) (args : VerifyArgs) (w : World) (k : Nat) (chains : List (List Cert))
      (_ : ∀ j, (Store.loaded (w.stores j)).items.length < fuel) (_ : ∀ j, (w.stores j).pending = none)
      (_ : ((asdVerifyW env fuel file a args).amid (fun n w => if n = k then (asdVerify env file a' args w).2 else w) 0 w).1 = .ok chains),
      ∃ chains', (asdVerify env file a args w).1 = .ok chains' := by
  intro h
  obtain ⟨chains', h1⟩ := h (exVEnv (fun _ t => t = some 300)) 9 none exPlainAuth exTimedAuth exOneContext exOneWorld 3 [[exRoot, exInter, exLeaf]]
    (fun j => by unfold exOneWorld exWorld; by_cases h : j = 0 <;> simp [h, exStoreT, exStoreU, Store.loaded])
    (fun j => by unfold exOneWorld exWorld; by_cases h : j = 0 <;> simp [h, exStoreT, exStoreU])
    (by decide +kernel)
  have h2 : ∀ c, (asdVerify (exVEnv (fun _ t => t = some 300)) none exPlainAuth exOneContext exOneWorld).1 ≠ .ok c := by
    have : (match (asdVerify (exVEnv (fun _ t => t = some 300)) none exPlainAuth exOneContext exOneWorld).1 with | .ok _ => false | .error _ => true) = true := by
      decide +kernel
    intro c hc
    rw [hc] at this
    cases this
  exact h2 chains' h1

end Signify.Props
