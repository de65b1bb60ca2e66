/-
Time that passes during a call (C100).
-/
import Verif.Proofs.MomentsSound
import Verif.Props.Clock
import Verif.Props.CTL

set_option autoImplicit false

namespace Signify.Props

open Signify Spec

/-! ### C100: time passing during a call -/

/-- If nothing that matters changes while a signature is verified, the outcome and the state left are those with a clock that stands still. -/
theorem C100_quiet (env : Env) (m : SignatureMoments) (file : Option Bytes) (a : AuthData) (args : VerifyArgs) (w : World)
    (he : ContextsExist w args) (hc : ∀ c, Quiet env w (m.counter c)) (hs : ∀ c, Quiet env w (m.signer c)) :
    asdVerifyT env m file a args w = asdVerify env file a args w :=
  (MovingEq.asdVerifyT (Tracks.quiet hc) (Tracks.quiet hs) (OnStores.ctl w) file a (fun h => h.elim) (fun h => h.elim) w
    ⟨fun _ => rfl, he, fun h => h.elim⟩).1.symm

/-- The same for the verification of a file, in all modes. -/
theorem C100_quiet_file (env : Env) (m : Nat → SignatureMoments) (cd : Codec) (file : Bytes) (args : PEVerifyArgs) (w : World)
    (he : ContextsExist w args.kwargs) (hc : ∀ n c, Quiet env w ((m n).counter c)) (hs : ∀ n c, Quiet env w ((m n).signer c)) :
    peVerifyT env m cd file args w = peVerify env cd file args w :=
  (MovingEq.peVerifyT (fun n => Tracks.quiet (hc n)) (fun n => Tracks.quiet (hs n)) (OnStores.ctl w) cd file args (fun h => h.elim)
    (fun h => h.elim) w ⟨fun _ => rfl, he, fun h => h.elim⟩).1.symm

theorem quiet_frozen (env : Env) (w : World) : Quiet env w (Moments.frozen env) := ⟨rfl, rfl, rfl, fun _ _ _ _ _ _ _ _ => Iff.rfl⟩

/-- A clock that stands still is the special case in which every reading shows the same time. -/
theorem C100_still (env : Env) (cd : Codec) (file : Bytes) (args : PEVerifyArgs) (w : World) (he : ContextsExist w args.kwargs) :
    peVerifyT env (fun _ => ⟨fun _ => Moments.frozen env, fun _ => Moments.frozen env⟩) cd file args w = peVerify env cd file args w :=
  C100_quiet_file env _ cd file args w he (fun _ _ => quiet_frozen env w) (fun _ _ => quiet_frozen env w)

/-- With a time in the signer's context, or among the options for it, the passing of time makes no difference. -/
theorem C100_dated (env : Env) (m : Nat → SignatureMoments) (cd : Codec) (file : Bytes) (args : PEVerifyArgs) (w : World)
    (he : ContextsExist w args.kwargs)
    (ht : (∃ i, args.kwargs.context = some i ∧ (w.ctxs i).timestamp ≠ none) ∨
      args.kwargs.context = none ∧ args.kwargs.options.timestamp ≠ none)
    (hd : ∀ sds, (iterSignedDatas cd file true args.ignoreParseErrors).toList = .ok sds →
      ∀ a ∈ sds, CounterDated a.d args.kwargs.countersignatureMode)
    (hc : ∀ n c, SameButClock env ((m n).counter c).start) (hs : ∀ n c, SameButClock env ((m n).signer c).start) :
    peVerifyT env m cd file args w = peVerify env cd file args w := by
  refine (MovingEq.peVerifyT (D := True) (fun n => Tracks.dated (hc n)) (fun n => Tracks.dated (hs n)) OnStores.true cd file args
    (fun _ hn => ?_) (fun _ => hd) w ⟨trivial, he, fun _ i hi => ?_⟩).1.symm
  · rcases ht with ⟨i, hi, -⟩ | ⟨-, ht⟩
    · rw [hn] at hi; cases hi
    · exact ht
  · rcases ht with ⟨j, hj, ht⟩ | ⟨hn, -⟩
    · rw [hi] at hj; cases hj; exact ht
    · rw [hi] at hn; cases hn

/-- A chain that `VerificationContext.verify` returns while time passes is the one that it returns, leaving the same state, if the clock
stands still at the moment at which the path validator was asked: a trust list consulted later is only stricter. -/
theorem C100_context (m : Moments) (hm : Forward m) (cid : Nat) (c : Cert) (w w' : World) (chain : List Cert)
    (h : ctxVerifyT m cid c w = (.ok chain, w')) : ctxVerify m.start cid c w = (.ok chain, w') :=
  ctxVerifyT_start hm h

/-- What a successful verification shows, although time passes during the call.  All that holds for a clock that stands still holds: the
digests, the countersignature, and for each chain the signature, the answer of the path validator and the trusted store with its trust
list.  The time, where none is given, is that at which the verification of the certificate concerned began. -/
theorem C100_sound (env : Env) (m : SignatureMoments) (hfc : ∀ c, Forward (m.counter c)) (hfs : ∀ c, Forward (m.signer c))
    (file : Option Bytes) (a : AuthData) (args : VerifyArgs) (w w' : World) (chains : List (List Cert)) (he : ContextsExist w args)
    (h : asdVerifyT env m file a args w = (.ok chains, w')) :
    DigestsMatch env file a args.expectedHash ∧ chains ≠ [] ∧ ∃ t ts,
      (SeparateContexts args → ts = (signerContext w a args).timestamp) ∧
      (a.counter = none ∨ args.countersignatureMode = "ignore" → t = none ∧ ts = (signerContext w a args).timestamp) ∧
      (∀ c, a.counter = some c → args.countersignatureMode ≠ "ignore" →
        (t = c.signingTime ∧ CounterGoodAt env m.counter w' (counterContext w a c args) a.signer.encryptedDigest c) ∨
        (t = none ∧ args.countersignatureMode ≠ "strict")) ∧
      ∀ chain ∈ chains, ∃ c t', SignedBy env w' (signerContext w a args) a.signer c ∧
        Validated (m.signer c).start w' (signerContext w a args) t' c chain ∧
        (¬ LifetimeSigning c → t' = t.or ts) ∧
        (LifetimeSigning c → t' = ts ∨ ∃ c', SignedBy env w' (signerContext w a args) a.signer c' ∧ ¬ LifetimeSigning c' ∧
          t.isSome = true ∧ t' = t) :=
  asdVerifyT_sound hfc hfs he h

/-- Without a caller's context, the root of each chain is in the trusted store given, and its trust list accepted the chain at the moment
at which the verification of the certificate began. -/
theorem C100_anchored (env : Env) (m : SignatureMoments) (hfc : ∀ c, Forward (m.counter c)) (hfs : ∀ c, Forward (m.signer c))
    (file : Option Bytes) (a : AuthData) (args : VerifyArgs) (w w' : World) (chains : List (List Cert)) (he : ContextsExist w args)
    (hn : args.context = none) (h : asdVerifyT env m file a args w = (.ok chains, w')) :
    ∀ chain ∈ chains, ∃ (c : Cert) (t : Option Int) (i : Nat) (root : Cert), SignedBy env w' (signerContext w a args) a.signer c ∧
      args.trusted = .heap i ∧ chain.head? = some root ∧ (w'.stores i).trusted = true ∧
      (∃ d ∈ (w'.stores i).items, SameCert root d) ∧
      ∀ ctl, (w'.stores i).ctl = some ctl → Accepts (m.signer c).start ctl chain ["code_signing"] (t.getD (m.signer c).start.now) := by
  intro chain hc
  obtain ⟨-, -, t, ts, -, -, -, h1⟩ := C100_sound env m hfc hfs file a args w w' chains he h
  obtain ⟨c, t', hs, hv, -⟩ := h1 chain hc
  obtain ⟨r, hr, ekus, hg, i, root, rfl, k1, k2, k3, k4⟩ := hv.anchored
  unfold signerContext at hr hg
  rw [hn] at hr hg
  simp only [contextOf, List.mem_cons, List.not_mem_nil, or_false] at hr
  have hek : ekus = ["code_signing"] := by
    rcases hg with h | ⟨-, g, hg⟩
    · exact h
    · cases hg
  subst hek
  rcases hr with hr | hr
  · exact ⟨c, t', i, root, hs, hr.symm, k2, k1, k3, k4⟩
  · cases hr

/-! Examples.  The trust list of `exCTL` disallows the root from time 800 on. -/

def exDisallowing : World := { exWorld with stores := fun i => if i = 0 then ⟨[exRoot], true, some exCTL, none⟩ else exStoreU }

/-- The clock shows 500 when the path validator is asked, and `t` when the stores are. -/
def exPassing (t : Int) : Moments := { start := exVEnv (fun _ _ => true), clock := fun _ => t }
def exMoments (t : Int) : SignatureMoments := ⟨fun _ => exPassing t, fun _ => exPassing t⟩

theorem exPassing_quiet : Quiet (exVEnv (fun _ _ => true)) exDisallowing (exPassing 799) := by
  refine ⟨rfl, rfl, rfl, fun i ctl e t n h1 h2 h3 => ?_⟩
  have hctl : ctl = exCTL := by
    by_cases hi : i = 0
    · subst hi; cases h1; rfl
    · simp only [exDisallowing, if_neg hi, exStoreU] at h1; cases h1
  subst hctl
  have he : e = (hexOf [1], exSubject) := List.mem_singleton.1 h2
  subst he
  have ht : t = 800 := by simpa [exSubject] using h3.symm
  subst ht
  show (800 : Int) ≤ 799 ↔ (800 : Int) ≤ 500
  decide

theorem exPassing_forward (t : Int) (h : 500 ≤ t) : Forward (exPassing t) := fun _ => h

/-- Time passing up to 799 makes no difference, and the signature verifies. -/
example := C100_quiet _ (exMoments 799) none (exAuth exCerts none) exArgs exDisallowing (exArgs_contexts _) (fun _ => exPassing_quiet) (fun _ => exPassing_quiet)
example : (asdVerifyT (exVEnv (fun _ _ => true)) (exMoments 799) none (exAuth exCerts none) exArgs exDisallowing).1 =
    .ok [[exRoot, exInter, exLeaf]] := by decide +kernel
example := C100_quiet_file _ (fun _ => exMoments 799) exPECodec (exTwice 1 2 [7, 7, 7]) { kwargs := { trusted := .heap 0 } } exDisallowing
  ⟨fun _ h => (by cases h), fun _ h => (by cases h)⟩ (fun _ _ => exPassing_quiet) (fun _ _ => exPassing_quiet)
example : ∀ chain ∈ [[exRoot, exInter, exLeaf]], ∃ (c : Cert) (t : Option Int) (i : Nat) (root : Cert), exArgs.trusted = .heap i ∧ chain.head? = some root ∧
    ∀ ctl, (exDisallowing.stores i).ctl = some ctl → Accepts ((exMoments 799).signer c).start ctl chain ["code_signing"] (t.getD 500) := by
  obtain ⟨w', h⟩ := exists_ok (x := asdVerifyT (exVEnv (fun _ _ => true)) (exMoments 799) none (exAuth exCerts none) exArgs) (w := exDisallowing)
    (a := [[exRoot, exInter, exLeaf]]) (by decide +kernel)
  have hst : w'.stores 0 = exDisallowing.stores 0 := by
    have : (asdVerifyT (exVEnv (fun _ _ => true)) (exMoments 799) none (exAuth exCerts none) exArgs exDisallowing).2.stores 0 = exDisallowing.stores 0 := by
      decide +kernel
    rw [h] at this
    exact this
  intro chain hc
  obtain ⟨c, t, i, root, -, k1, k2, -, -, k5⟩ := C100_anchored _ _ (fun _ => exPassing_forward 799 (by decide)) (fun _ => exPassing_forward 799 (by decide))
    none (exAuth exCerts none) exArgs exDisallowing w' _ (exArgs_contexts _) rfl h chain hc
  cases k1
  exact ⟨c, t, 0, root, rfl, k2, fun ctl hctl => k5 ctl (by rw [hst]; exact hctl)⟩
example := C100_dated exEarly (fun _ => ⟨fun _ => ⟨exLate, fun _ => 9000⟩, fun _ => ⟨exLate, fun _ => 9000⟩⟩) exPECodec (exTwice 1 2 [7, 7, 7])
  { multiVerifyMode := "all", kwargs := { trusted := .heap 0, options := { timestamp := some 300 } } } exWorld
  ⟨fun _ h => (by cases h), fun _ h => (by cases h)⟩ (.inr ⟨rfl, by decide⟩) exUncountered (fun _ _ => exEarly_late) (fun _ _ => exEarly_late)

/-- The converse of `C100_context` fails: a date that passes between the two readings of the clock makes the verification fail, although
it succeeds for the moment at which it began. -/
theorem C100_refused : ∃ (m : SignatureMoments) (a : AuthData) (args : VerifyArgs) (w : World), (∀ c, Forward (m.signer c)) ∧
    a.counter = none ∧ (∀ c, m.signer c = m.signer exLeaf) ∧ (asdVerify (m.signer exLeaf).start none a args w).1 = .ok [[exRoot, exInter, exLeaf]] ∧
    (asdVerifyT (m.signer exLeaf).start m none a args w).1 = .error ⟨.ctlCertificateVerificationError, "disallowed since"⟩ :=
  ⟨exMoments 800, exAuth exCerts none, exArgs, exDisallowing, fun _ => exPassing_forward 800 (by decide), rfl, fun _ => rfl, by decide +kernel, by decide +kernel⟩

/-- A success need not be one at any single moment: an undated countersigner that is valid only at the first of two moments, and a signer
that is valid only at the second. -/
theorem C100_mixed : ∃ (early late : Env) (a : AuthData) (args : VerifyArgs) (w : World), SameButClock early late ∧ early.now < late.now ∧
    (asdVerifyT early ⟨fun _ => Moments.frozen early, fun _ => Moments.frozen late⟩ none a args w).1 = .ok [[exRoot, exInter, exLeaf]] ∧
    (asdVerify early none a args w).1 = .error ⟨.certificateVerificationError, "Chain verification failed"⟩ ∧
    (asdVerify late none a args w).1 =
      .error ⟨.authenticodeCounterSigner, "An error occurred while validating the countersignature"⟩ :=
  ⟨exVEnv (fun e t => e = 6 ∧ t = none), { exVEnv (fun e t => e = 3 ∧ t = none) with now := 5000 },
    exAuth exCerts (some (.pkcs9 (.mk (exSign 6 [8] [9] none) none))), exArgs, exWorld,
    ⟨rfl, rfl, rfl, rfl, fun _ _ => rfl, fun req h => by simp [exVEnv, h]⟩, by decide, by decide +kernel, by decide +kernel, by decide +kernel⟩

end Signify.Props
