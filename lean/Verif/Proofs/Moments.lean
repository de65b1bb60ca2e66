/-
Verification while time passes (C100).
-/
import Verif.Spec.Moments
import Verif.Proofs.Clock

set_option autoImplicit false

namespace Signify

open Spec

section

variable {env : Env} {I : World → Prop}

namespace MovingEq

theorem verifyTrustLoopT {m : Moments} {cid : Nat} {chain : List Cert}
    (hs : ∀ n r, EqOn I (storeVerifyTrust env cid r chain) (storeVerifyTrust { m.start with now := m.clock n } cid r chain))
    (rs : List StoreRef) (exc : Option Exc) : EqOn I (verifyTrustLoop env cid chain rs exc) (verifyTrustLoopT m cid chain rs exc) := by
  induction rs generalizing exc with
  | nil => cases exc <;> exact EqOn.raise _
  | cons r rs ih =>
    intro w hw
    obtain ⟨h1, h2⟩ := hs rs.length r w hw
    unfold Signify.verifyTrustLoop Signify.verifyTrustLoopT
    rw [← h1]
    rcases hx : Signify.storeVerifyTrust env cid r chain w with ⟨x, w1⟩
    rw [hx] at h2
    cases x with
    | ok u => exact ⟨rfl, h2⟩
    | error e =>
      dsimp only
      split
      · exact ih _ w1 h2
      · split
        · exact ih _ w1 h2
        · exact ⟨rfl, h2⟩

/-- A certificate is verified in the same way, if the path validator and the stores say the same. -/
theorem ctxVerifyT (hI : Stable I) {m : Moments} {cid : Nat} {V : Option Int → Prop} (ht : ∀ w, I w → V (w.ctxs cid).timestamp)
    (hmk : ∀ req, V req.moment → m.start.mkValidator req = env.mkValidator req)
    (hva : ∀ req, V req.moment → m.start.validate req = env.validate req)
    (hs : ∀ n r chain, EqOn I (storeVerifyTrust env cid r chain) (storeVerifyTrust { m.start with now := m.clock n } cid r chain)) (c : Cert) :
    EqOn I (ctxVerify env cid c) (ctxVerifyT m cid c) := by
  unfold Signify.ctxVerify Signify.ctxVerifyT
  refine EqOn.bindV (V := fun c => V c.timestamp) (EqOn.of_keeps hI (Keeps.getCtx cid)) (fun w hw c hc => ?_) (fun ctx hctx => ?_)
  · rw [getCtx_ok hc]; exact ht w hw
  · refine EqOn.bind (EqOn.of_keeps hI (Keeps.collectCerts _ _ _ _)) (fun x => ?_)
    obtain ⟨roots, inter, all⟩ := x
    dsimp only
    refine EqOn.bind ?_ (fun _ => EqOn.bind (EqOn.of_keeps hI (Keeps.takeKeyUsages trivial)) (fun kus => EqOn.bind (EqOn.of_keeps hI (Keeps.takeEkus trivial)) (fun ekus => ?_)))
    · rw [hmk _ (by exact hctx)]
      exact EqOn.lift _
    · rw [hva _ (by exact hctx)]
      generalize env.validate _ = res
      cases res with
      | error e => exact EqOn.lift _
      | ok ids =>
        refine EqOn.bind (EqOn.lift _) (fun chain => ?_)
        intro w hw
        have := EqOn.bind (EqOn.bind (EqOn.of_keeps hI (Keeps.getCtx cid)) (fun ctx => verifyTrustLoopT (fun n r => hs n r chain) ctx.stores none))
          (fun _ => EqOn.pure chain) w hw
        refine ⟨?_, this.2⟩
        exact this.1

end MovingEq

/-- Time passing during the verification of a certificate makes no difference in states that satisfy `B` and, if `D`, in which the context
has a time. -/
def Tracks (env : Env) (m : Cert → Moments) (D : Prop) (B : World → Prop) : Prop :=
  ∀ (J : World → Prop) cid, Stable J → (∀ w, J w → B w) → (D → ∀ w, J w → (w.ctxs cid).timestamp ≠ none) → ∀ c,
    EqOn J (ctxVerify env cid c) (ctxVerifyT (m c) cid c)

/-- It makes none if the context has a time. -/
theorem Tracks.dated {m : Cert → Moments} (h : ∀ c, SameButClock env (m c).start) : Tracks env m True (fun _ => True) := by
  intro J cid hJ _ ht c
  refine MovingEq.ctxVerifyT hJ (V := fun t => t ≠ none) (ht trivial) (h c).accepts (h c).answers (fun n r chain => ?_) c
  have e : ({ (m c).start with now := (m c).clock n } : Env) = env.later ((m c).clock n) (m c).start.mkValidator (m c).start.validate := by
    exact congrArg (fun e : Env => ({ e with now := (m c).clock n } : Env)) (h c).eq
  rw [e]
  exact EqOn.storeVerifyTrust hJ (ht trivial) r chain

theorem restricted_congr {time : Option Int} {ekus : Option (List String)} {requested : List String} {t t' : Int}
    (h : ∀ x, time = some x → (x ≤ t' ↔ x ≤ t)) : restricted time ekus requested t' = restricted time ekus requested t := by
  unfold restricted
  cases time with
  | none => rfl
  | some x =>
    dsimp only
    by_cases hx : x ≤ t
    · rw [if_pos (show t ≥ x from hx), if_pos (show t' ≥ x from (h x rfl).2 hx)]
    · rw [if_neg (show ¬ t ≥ x from hx), if_neg (show ¬ t' ≥ x from fun k => hx ((h x rfl).1 k))]

theorem findSubject_mem {ctl : CTL} {c : Cert} {s : CtlSubject} (h : ctl.findSubject env c = .ok (some s)) : ∃ k, (k, s) ∈ ctl.subjects := by
  unfold CTL.findSubject at h
  split at h
  · exact ⟨_, dict_get?_mem (by injection h)⟩
  · split at h
    · exact ⟨_, dict_get?_mem (by injection h)⟩
    · cases h

/-- No date of the trust lists of `w` lies between the times `t` and `t'`. -/
def NoDateBetween (t t' : Int) (w : World) : Prop :=
  ∀ i ctl entry x, (w.stores i).ctl = some ctl → entry ∈ ctl.subjects → entry.2.disallowedTime = some x → (x ≤ t' ↔ x ≤ t)

theorem ctlVerifyTrust_quiet {env' : Env} {cid : Nat} {ctl : CTL} (hh : env'.hash = env.hash)
    (hq : ∀ entry x, entry ∈ ctl.subjects → entry.2.disallowedTime = some x → (x ≤ env'.now ↔ x ≤ env.now)) (chain : List Cert) (w : World) :
    ctlVerifyTrust env cid ctl chain w = ctlVerifyTrust env' cid ctl chain w := by
  unfold ctlVerifyTrust
  cases chain.head? with
  | none => rfl
  | some root =>
    dsimp only
    have e : ctl.findSubject env' root = ctl.findSubject env root := by
      unfold CTL.findSubject Cert.fingerprint
      rw [hh]
    rw [e]
    cases hf : ctl.findSubject env root with
    | error e => rfl
    | ok so =>
      cases so with
      | none => rfl
      | some s =>
        obtain ⟨k, hk⟩ := findSubject_mem hf
        rw [M.bind_ok (show M.lift (.ok (some s)) w = (.ok (some s), w) from rfl),
          M.bind_ok (show M.lift (.ok (some s)) w = (.ok (some s), w) from rfl)]
        dsimp only
        rw [M.getCtx_bind, M.getCtx_bind, M.bind_ok (takeEkus_run cid w), M.bind_ok (takeEkus_run cid w)]
        have e2 : ∀ req, s.verifyTrust chain req ((w.ctxs cid).timestamp.getD env.now) =
            s.verifyTrust chain req ((w.ctxs cid).timestamp.getD env'.now) := by
          intro req
          cases (w.ctxs cid).timestamp with
          | some t => rfl
          | none =>
            have := restricted_congr (ekus := s.disallowedEkus) (requested := req) (fun x hx => hq (k, s) x hk hx)
            show s.verifyTrust chain req env.now = s.verifyTrust chain req env'.now
            unfold CtlSubject.verifyTrust
            rw [this]
        rw [e2]

theorem MovingEq.storeVerifyTrust_quiet {env' : Env} {cid : Nat} (hI : Stable I) (hh : env'.hash = env.hash)
    (hq : ∀ w, I w → NoDateBetween env.now env'.now w) (r : StoreRef) (chain : List Cert) :
    EqOn I (storeVerifyTrust env cid r chain) (storeVerifyTrust env' cid r chain) := by
  intro w hw
  refine ⟨?_, hI _ _ (Keeps.storeVerifyTrust (D := fun _ => True) (T := fun _ => False) env trivial r chain w) hw⟩
  unfold Signify.storeVerifyTrust
  split
  · rfl
  · split
    · rfl
    · split
      · rfl
      · split
        · rfl
        · rename_i i _ _ ctl hctl
          exact ctlVerifyTrust_quiet hh (fun e x h1 h2 => hq w hw i ctl e x hctl h1 h2) chain w

/-- It makes none if nothing that matters changes. -/
theorem Tracks.quiet {m : Cert → Moments} {w0 : World} (h : ∀ c, Quiet env w0 (m c)) :
    Tracks env m False (fun w => ∀ i, (w.stores i).ctl = (w0.stores i).ctl) := by
  intro J cid hJ hB _ c
  have hs : ∀ n r chain, EqOn J (storeVerifyTrust env cid r chain) (storeVerifyTrust { (m c).start with now := (m c).clock n } cid r chain) := by
    intro n r chain
    refine MovingEq.storeVerifyTrust_quiet (env' := { (m c).start with now := (m c).clock n }) hJ (h c).hash ?_ r chain
    intro w hw i ctl e x h1 h2 h3
    rw [hB w hw i] at h1
    exact (h c).lists i ctl e x n h1 h2 h3
  exact MovingEq.ctxVerifyT hJ (V := fun _ => True) (fun _ _ => trivial) (fun req _ => by rw [(h c).accepts])
    (fun req _ => by rw [(h c).answers]) hs c

namespace MovingEq

variable {m : Cert → Moments} {D : Prop} {B : World → Prop}

theorem verifyIssuerT (hT : Tracks env m D B) (hI : Robust I) (hB : ∀ w, I w → B w) {cid : Nat} (t : Option Int)
    (ht : D → t = none → ∀ w, I w → (w.ctxs cid).timestamp ≠ none) (s : Signer) (c : Cert) :
    EqOn I (verifyIssuer env cid s t c) (verifyIssuerT env m cid s t c) := by
  refine EqOn.bind (EqOn.of_keeps hI.1 (Keeps.verifyIssuerSignature env cid s c)) (fun _ => ?_)
  cases t with
  | none => exact EqOn.bind (EqOn.pure _) (fun _ => hT I cid hI.1 hB (fun hD => ht hD rfl) c)
  | some t =>
    intro w hw
    have e : applySigningTime cid (some t) w = (.ok (), withTime w cid (some t)) := setTimestamp_run cid _ w
    rw [M.bind_ok e, M.bind_ok e]
    have := hT (fun w => I w ∧ (w.ctxs cid).timestamp ≠ none) cid (hI.dated cid).1 (fun w h => hB w h.1) (fun _ w h => h.2) c
      (withTime w cid (some t)) ⟨hI.2 w cid t hw, by simp [withTime]⟩
    exact ⟨this.1, this.2.1⟩

theorem signerVerifyT (hT : Tracks env m D B) (hI : Robust I) (hB : ∀ w, I w → B w) {cid : Nat} (t : Option Int)
    (ht : D → t = none → ∀ w, I w → (w.ctxs cid).timestamp ≠ none) (s : Signer) :
    EqOn I (signerVerify env cid s t) (signerVerifyT env m cid s t) :=
  EqOn.signerVerifyWith (env := env) (now := env.now) (mk := env.mkValidator) (va := env.validate) hI.1 cid s
    (fun _ _ _ _ _ _ _ _ c _ _ => verifyIssuerT hT hI hB t ht s c)

theorem authSignerVerifyT (hT : Tracks env m D B) (hI : Robust I) (hB : ∀ w, I w → B w) {cid : Nat} (t : Option Int)
    (ht : D → ∀ w, I w → (w.ctxs cid).timestamp ≠ none) (s : Signer) :
    EqOn I (authSignerVerify env cid s t) (authSignerVerifyT env m cid s t) :=
  EqOn.signerVerifyWith (env := env) (now := env.now) (mk := env.mkValidator) (va := env.validate) hI.1 cid s
    (fun _ _ _ _ _ _ _ _ c _ _ => verifyIssuerT hT hI hB _ (fun hD _ => ht hD) s c)

theorem counterVerifyT (hT : Tracks env m D B) (hI : Robust I) (hB : ∀ w, I w → B w) {cid : Nat}
    (ht : D → ∀ w, I w → (w.ctxs cid).timestamp ≠ none) (c : CounterSigner) : EqOn I (c.verify env cid) (c.verifyT env m cid) := by
  cases c with
  | pkcs9 c => exact signerVerifyT hT hI hB none (fun hD _ => ht hD) _
  | rfc3161 r =>
    show EqOn I (rfcVerify env r (some cid) (.embedded [])) (rfcVerifyT env m r (some cid) (.embedded []))
    unfold Signify.rfcVerify Signify.rfcVerifyT
    split
    · exact EqOn.raise _
    · exact signerVerifyT hT hI hB none (fun hD _ => ht hD) _

theorem checkCounterT (hT : Tracks env m D B) (hI : Robust I) (hB : ∀ w, I w → B w) (hS : ∀ w i t, ¬ D → I w → I (withTime w i t))
    (a : AuthData) (c : CounterSigner) (hc : D → c.signingTime ≠ none) (i : Nat) :
    EqOn I (checkCounter env a c i) (checkCounterT env m a c i) := by
  unfold Signify.checkCounter Signify.checkCounterT
  split
  · exact EqOn.raise _
  · intro w hw
    rw [M.bind_ok (setTimestamp_run i c.signingTime w), M.bind_ok (setTimestamp_run i c.signingTime w)]
    cases ht : c.signingTime with
    | some t =>
      have := EqOn.bind (counterVerifyT hT (hI.dated i) (fun w h => hB w h.1) (cid := i) (fun _ _ h => h.2) c)
        (fun _ => EqOn.pure ()) (withTime w i (some t)) ⟨hI.2 w i t hw, by rw [withTime_ctx]; simp⟩
      exact ⟨this.1, this.2.1⟩
    | none =>
      have hD : ¬ D := fun hD => hc hD ht
      exact EqOn.bind (counterVerifyT hT hI hB (cid := i) (fun h => absurd h hD) c) (fun _ => EqOn.pure ()) _ (hS w i none hD hw)

theorem counterTimeT (hT : Tracks env m D B) (hI : Robust I) (hB : ∀ w, I w → B w) (hS : ∀ w i t, ¬ D → I w → I (withTime w i t))
    (a : AuthData) (mode : String) (hc : D → CounterDated a mode) (cs : Option Nat) :
    EqOn I (counterTime env a mode cs) (counterTimeT env m a mode cs) := by
  unfold Signify.counterTime Signify.counterTimeT
  cases hac : a.counter with
  | none => exact EqOn.pure _
  | some c =>
    dsimp only
    by_cases hm : mode ≠ "ignore"
    · rw [if_pos hm, if_pos hm]
      cases cs with
      | none => exact EqOn.raise _
      | some i =>
        refine EqOn.bind (EqOn.attempt (checkCounterT hT hI hB hS a c (fun hD => (hc hD).resolve_left hm c hac) i)) (fun r => ?_)
        cases r with
        | ok _ => exact EqOn.pure _
        | error e =>
          dsimp only
          split
          · exact EqOn.pure _
          · exact EqOn.raise _
    · rw [if_neg hm, if_neg hm]
      exact EqOn.pure _

end MovingEq

end

/-- States in which the contexts that the caller passes exist, and, if `D`, the signer's has a time, and that satisfy `B`. -/
def GivenFor (D : Prop) (B : World → Prop) (args : VerifyArgs) (w : World) : Prop :=
  B w ∧ ContextsExist w args ∧ (D → ∀ i, args.context = some i → (w.ctxs i).timestamp ≠ none)

/-- A condition on the stores, as far as loading them does not change it. -/
structure OnStores (B : World → Prop) : Prop where
  frame : ∀ {D T : Nat → Prop} w w', Frame D T w w' → B w → B w'
  stores : ∀ w w' : World, w'.stores = w.stores → B w → B w'

theorem OnStores.true : OnStores (fun _ => True) := ⟨fun _ _ _ _ => trivial, fun _ _ _ _ => trivial⟩

theorem OnStores.ctl (w0 : World) : OnStores (fun w => ∀ i, (w.stores i).ctl = (w0.stores i).ctl) := by
  refine ⟨fun w w' hf h i => ?_, fun w w' e h i => ?_⟩
  · rw [(hf.stores i).ctl]; exact h i
  · rw [e]; exact h i

section

variable {env : Env} {D : Prop} {B : World → Prop} {args : VerifyArgs}

theorem GivenFor.frame {w w' : World} (hB : OnStores B) (hf : Frame (fun _ => True) (fun _ => False) w w') (h : GivenFor D B args w) :
    GivenFor D B args w' := by
  refine ⟨hB.frame _ _ hf h.1, ⟨fun c hc => ?_, fun c hc => ?_⟩, fun hD i hi => ?_⟩
  · rw [hf.next]; exact h.2.1.1 c hc
  · rw [hf.next]; exact h.2.1.2 c hc
  · rw [hf.times i (fun h => h)]; exact h.2.2 hD i hi

theorem GivenFor.robust (hB : OnStores B) (args : VerifyArgs) : Robust (GivenFor D B args) :=
  ⟨fun _ _ hf h => h.frame hB hf, fun w _ _ h =>
    ⟨hB.stores w _ rfl h.1, ⟨h.2.1.1, h.2.1.2⟩, fun hD j hj => withTime_ne_none (h.2.2 hD j hj)⟩⟩

theorem GivenFor.untimed (hB : OnStores B) {w : World} {i : Nat} {t : Option Int} (hD : ¬ D) (h : GivenFor D B args w) :
    GivenFor D B args (withTime w i t) :=
  ⟨hB.stores w _ rfl h.1, ⟨h.2.1.1, h.2.1.2⟩, fun k => absurd k hD⟩

theorem GivenFor.newCtx (hB : OnStores B) {w : World} (c : Ctx) (h : GivenFor D B args w) : GivenFor D B args (M.newCtx c w).2 := by
  refine ⟨hB.stores w _ rfl h.1, ⟨fun i hi => Nat.lt_succ_of_lt (h.2.1.1 i hi), fun i hi => Nat.lt_succ_of_lt (h.2.1.2 i hi)⟩, fun hD i hi => ?_⟩
  show ((if i = w.nextCtx then c else w.ctxs i).timestamp) ≠ none
  rw [if_neg (Nat.ne_of_lt (h.2.1.1 i hi))]
  exact h.2.2 hD i hi

/-- Time passing during the verification of a signature makes no difference, where it makes none during the verification of a certificate. -/
theorem MovingEq.asdVerifyT {m : SignatureMoments} (hT : Tracks env m.counter D B) (hT' : Tracks env m.signer D B) (hB : OnStores B)
    (file : Option Bytes) (a : AuthData) (ht : D → args.context = none → args.options.timestamp ≠ none)
    (hc : D → CounterDated a args.countersignatureMode) :
    EqOn (GivenFor D B args) (asdVerify env file a args) (asdVerifyT env m file a args) := by
  intro w hw
  have h1 : ∃ cid v, chooseContext a args w = (.ok cid, v) ∧ GivenFor D B args v ∧ (D → (v.ctxs cid).timestamp ≠ none) ∧ cid < v.nextCtx := by
    unfold chooseContext
    cases hx : args.context with
    | some i => exact ⟨i, w, rfl, hw, fun hD => hw.2.2 hD i hx, hw.2.1.1 i hx⟩
    | none =>
      refine ⟨_, _, newCtx_run _ w, hw.newCtx hB _, ?_, Nat.lt_succ_self _⟩
      intro hD
      simp only [if_true, mkCtx]
      exact ht hD hx
  obtain ⟨cid, v, e1, hv, hv1, hv2⟩ := h1
  have h2 : ∃ cs u, chooseCsContext a args v = (.ok cs, u) ∧ GivenFor D B args u ∧ (D → (u.ctxs cid).timestamp ≠ none) := by
    rcases chooseCs_cases a args v with ⟨cs, e⟩ | ⟨c, e⟩
    · exact ⟨_, _, e, hv, hv1⟩
    · refine ⟨_, _, e, hv.newCtx hB _, fun hD => ?_⟩
      show ((if cid = v.nextCtx then _ else v.ctxs cid : Ctx).timestamp) ≠ none
      rw [if_neg (Nat.ne_of_lt hv2)]
      exact hv1 hD
  obtain ⟨cs, u, e2, hu, hu1⟩ := h2
  unfold Signify.asdVerify Signify.asdVerifyT
  rw [M.bind_ok e1, M.bind_ok e1, M.bind_ok e2, M.bind_ok e2]
  have hR : Robust (fun w => GivenFor D B args w ∧ (D → (w.ctxs cid).timestamp ≠ none)) := by
    have hR := GivenFor.robust (D := D) hB args
    refine ⟨fun w w' hf h => ⟨hR.1 _ _ hf h.1, fun hD => ?_⟩, fun w i t h => ⟨hR.2 _ _ _ h.1, fun hD => withTime_ne_none (h.2 hD)⟩⟩
    rw [hf.times cid (fun h => h)]
    exact h.2 hD
  have := (EqOn.bind (EqOn.lift (checkDigests env file a args.expectedHash)) (fun _ =>
    EqOn.bind (MovingEq.counterTimeT hT hR (fun _ h => h.1.1) (fun w i t hD h => ⟨h.1.untimed hB hD, fun k => absurd k hD⟩)
      a args.countersignatureMode hc cs) (fun t =>
      MovingEq.authSignerVerifyT hT' hR (fun _ h => h.1.1) (cid := cid) t (fun hD _ h => h.2 hD) a.signer)) :
      EqOn (fun w => GivenFor D B args w ∧ (D → (w.ctxs cid).timestamp ≠ none)) _ _) u ⟨hu, hu1⟩
  exact ⟨this.1, this.2.1⟩

theorem MovingEq.verifyOneT {m : SignatureMoments} (hT : Tracks env m.counter D B) (hT' : Tracks env m.signer D B) (hB : OnStores B)
    (file : Bytes) (hashes : Dict String Bytes) (ht : D → args.context = none → args.options.timestamp ≠ none) (a : ASD)
    (hc : D → CounterDated a.d args.countersignatureMode) :
    EqOn (GivenFor D B args) (verifyOne env file hashes args a) (verifyOneT env m file hashes args a) := by
  unfold Signify.verifyOne Signify.verifyOneT
  cases hashes.get? a.d.core.digestAlg with
  | none => exact EqOn.raise _
  | some h =>
    intro w hw
    have := MovingEq.asdVerifyT (args := { args with expectedHash := some h }) hT hT' hB (some file) a.d ht hc w ⟨hw.1, ⟨hw.2.1.1, hw.2.1.2⟩, hw.2.2⟩
    exact ⟨this.1, ⟨this.2.1, ⟨this.2.2.1.1, this.2.2.1.2⟩, this.2.2.2⟩⟩

theorem MovingEq.verifyLoopT {I : World → Prop} {f : ASD → M (List (List Cert))} {g : Nat → ASD → M (List (List Cert))} (mode : String)
    (l : List ASD) (h : ∀ n, ∀ a ∈ l, EqOn I (f a) (g n a)) (chains : List (ASD × List (List Cert))) (e : Option Exc) :
    EqOn I (verifyLoop f mode l chains e) (verifyLoopT g mode l chains e) := by
  induction l generalizing chains e with
  | nil => cases e <;> first | exact EqOn.pure _ | exact EqOn.raise _
  | cons a l ih =>
    have ih' := fun chains e => ih (fun n b hb => h n b (List.mem_cons_of_mem _ hb)) chains e
    unfold Signify.verifyLoop Signify.verifyLoopT
    refine EqOn.bind (EqOn.attempt (h l.length a (by simp))) (fun r => ?_)
    split
    · split
      · exact EqOn.raise _
      · exact ih' _ _
    · split
      · exact ih' _ _
      · exact EqOn.pure _

theorem MovingEq.calculateExpectedHashes (hB : OnStores B) (file : Bytes) (algs : List String) (d : Option Nat) :
    EqOn (GivenFor D B args) (calculateExpectedHashes env file algs d) (calculateExpectedHashes env file algs d) := by
  unfold Signify.calculateExpectedHashes
  split
  · exact EqOn.bind (EqOn.lift _) (fun _ => EqOn.pure _)
  · exact EqOn.bind (fun _ hw => ⟨rfl, hw⟩) (fun _ => EqOn.bind (EqOn.lift _) (fun _ => EqOn.bind
      (fun w hw => ⟨rfl, ⟨hB.stores w _ rfl hw.1, ⟨hw.2.1.1, hw.2.1.2⟩, hw.2.2⟩⟩) (fun _ => EqOn.pure _)))

theorem MovingEq.peVerifyT {m : Nat → SignatureMoments} (hT : ∀ n, Tracks env (m n).counter D B) (hT' : ∀ n, Tracks env (m n).signer D B)
    (hB : OnStores B) (cd : Codec) (file : Bytes) (args : PEVerifyArgs)
    (ht : D → args.kwargs.context = none → args.kwargs.options.timestamp ≠ none)
    (hc : D → ∀ sds, (iterSignedDatas cd file true args.ignoreParseErrors).toList = .ok sds →
      ∀ a ∈ sds, CounterDated a.d args.kwargs.countersignatureMode) :
    EqOn (GivenFor D B args.kwargs) (peVerify env cd file args) (peVerifyT env m cd file args) := by
  unfold Signify.peVerify Signify.peVerifyT
  refine EqOn.bindV (V := fun sds => (iterSignedDatas cd file true args.ignoreParseErrors).toList = .ok sds) (EqOn.lift _)
    (fun w _ sds h => h) (fun sds hs => ?_)
  split
  · exact EqOn.raise _
  · exact EqOn.bind (MovingEq.calculateExpectedHashes hB _ _ _) (fun hashes => MovingEq.verifyLoopT _ _
      (fun n a ha => MovingEq.verifyOneT (hT n) (hT' n) hB file hashes ht a (fun hD => hc hD sds hs a (selectSignatures_mem ha))) _ _)

end

end Signify
