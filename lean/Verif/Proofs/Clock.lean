/-
Verification at two moments (C89).
-/
import Verif.Spec.Clock
import Verif.Proofs.SameTime
import Verif.Proofs.Modes
import Verif.Proofs.Throws
import Verif.Model.PEFile

set_option autoImplicit false

namespace Signify

open Spec

/-- The same surroundings, except for the clock and for what the path validator says. -/
def Env.later (env : Env) (now : Int) (mk : ValReq → Except Exc Unit) (va : ValReq → Except Exc (List Nat)) : Env :=
  { env with now := now, mkValidator := mk, validate := va }

theorem Spec.SameButClock.eq {env env' : Env} (h : SameButClock env env') : env' = env.later env'.now env'.mkValidator env'.validate := by
  obtain ⟨h1, h2, h3, h4, -, -⟩ := h
  cases env; cases env'
  simp only at h1 h2 h3 h4
  subst h1 h2 h3 h4
  rfl

/-- The two actions do the same in states that satisfy `I`, and `I` stays true. -/
def EqOn {α : Type} (I : World → Prop) (x y : M α) : Prop := ∀ w, I w → x w = y w ∧ I (x w).2

/-- States that satisfy `I` may be changed by loading stores and using up iterators. -/
def Stable (I : World → Prop) : Prop := ∀ w w', Frame (fun _ => True) (fun _ => False) w w' → I w → I w'

namespace EqOn

variable {α β : Type} {I : World → Prop}

theorem of_keeps {x : M α} (hI : Stable I) (h : Keeps (fun _ => True) (fun _ => False) x) : EqOn I x x :=
  fun w hw => ⟨rfl, hI _ _ (h w) hw⟩

theorem pure (a : α) : EqOn I (Pure.pure a : M α) (Pure.pure a) := fun _ hw => ⟨rfl, hw⟩
theorem raise (e : Exc) : EqOn I (M.raise e : M α) (M.raise e) := fun _ hw => ⟨rfl, hw⟩
theorem lift (x : Except Exc α) : EqOn I (M.lift x) (M.lift x) := fun _ hw => ⟨rfl, hw⟩

/-- The second actions need to agree only for values that the first can return. -/
theorem bindV {x y : M α} {f g : α → M β} {V : α → Prop} (hx : EqOn I x y) (hV : ∀ w, I w → ∀ a, (x w).1 = .ok a → V a)
    (hf : ∀ a, V a → EqOn I (f a) (g a)) : EqOn I (x >>= f) (y >>= g) := by
  intro w hw
  obtain ⟨h1, h2⟩ := hx w hw
  have h3 := hV w hw
  rw [M.bind_run, M.bind_run, ← h1]
  rcases hr : x w with ⟨r, w'⟩
  rw [hr] at h2 h3
  cases r with
  | error e => exact ⟨rfl, h2⟩
  | ok a => exact hf a (h3 a rfl) w' h2

theorem bind {x y : M α} {f g : α → M β} (hx : EqOn I x y) (hf : ∀ a, EqOn I (f a) (g a)) : EqOn I (x >>= f) (y >>= g) :=
  bindV (V := fun _ => True) hx (fun _ _ _ _ => trivial) (fun a _ => hf a)

theorem attempt {x y : M α} (hx : EqOn I x y) : EqOn I (M.attempt x) (M.attempt y) := by
  intro w hw
  obtain ⟨h1, h2⟩ := hx w hw
  unfold M.attempt
  rw [← h1]
  rcases hr : x w with ⟨r, w'⟩
  rw [hr] at h2
  cases r <;> exact ⟨rfl, h2⟩

end EqOn

section

variable {env : Env} {now : Int} {mk : ValReq → Except Exc Unit} {va : ValReq → Except Exc (List Nat)} {I : World → Prop}

theorem getCtx_ok {i : Nat} {w : World} {c : Ctx} (h : (M.getCtx i w).1 = .ok c) : c = w.ctxs i := by cases h; rfl

namespace EqOn

theorem ctlVerifyTrust (hI : Stable I) {cid : Nat} (ht : ∀ w, I w → (w.ctxs cid).timestamp ≠ none) (ctl : CTL) (chain : List Cert) :
    EqOn I (ctlVerifyTrust env cid ctl chain) (ctlVerifyTrust (env.later now mk va) cid ctl chain) := by
  unfold Signify.ctlVerifyTrust
  split
  · exact raise _
  · refine bind (lift _) (fun subj => ?_)
    split
    · exact lift _
    · refine bindV (V := fun c => c.timestamp ≠ none) (of_keeps hI (Keeps.getCtx cid)) (fun w hw c hc => ?_) (fun c hc => ?_)
      · rw [getCtx_ok hc]; exact ht w hw
      · obtain ⟨t, e⟩ := Option.ne_none_iff_exists'.mp hc
        rw [e]
        exact bind (of_keeps hI (Keeps.takeEkus trivial)) (fun _ => lift _)

theorem storeVerifyTrust (hI : Stable I) {cid : Nat} (ht : ∀ w, I w → (w.ctxs cid).timestamp ≠ none) (r : StoreRef) (chain : List Cert) :
    EqOn I (storeVerifyTrust env cid r chain) (storeVerifyTrust (env.later now mk va) cid r chain) := by
  intro w hw
  unfold Signify.storeVerifyTrust
  split
  · exact ⟨rfl, hw⟩
  · split
    · exact ⟨rfl, hw⟩
    · split
      · exact ⟨rfl, hw⟩
      · split
        · exact ⟨rfl, hw⟩
        · exact ctlVerifyTrust hI ht _ _ w hw

theorem verifyTrustLoop (hI : Stable I) {cid : Nat} (ht : ∀ w, I w → (w.ctxs cid).timestamp ≠ none) (chain : List Cert) (rs : List StoreRef)
    (exc : Option Exc) : EqOn I (verifyTrustLoop env cid chain rs exc) (verifyTrustLoop (env.later now mk va) cid chain rs exc) := by
  induction rs generalizing exc with
  | nil => cases exc <;> exact raise _
  | cons r rs ih =>
    intro w hw
    obtain ⟨h1, h2⟩ := storeVerifyTrust (env := env) (now := now) (mk := mk) (va := va) hI ht r chain w hw
    unfold Signify.verifyTrustLoop
    rw [← h1]
    rcases hx : Signify.storeVerifyTrust env cid r chain w with ⟨x, w1⟩
    rw [hx] at h2
    cases x with
    | ok u => exact ⟨rfl, h2⟩
    | error e =>
      dsimp only
      split
      · exact ih _ w1 h2
      · split
        · exact ih _ w1 h2
        · exact ⟨rfl, h2⟩

/-- With a time in the context, a certificate is verified in the same way at any moment. -/
theorem ctxVerify (hI : Stable I) {cid : Nat} (ht : ∀ w, I w → (w.ctxs cid).timestamp ≠ none)
    (hmk : ∀ req, req.moment ≠ none → mk req = env.mkValidator req) (hva : ∀ req, req.moment ≠ none → va req = env.validate req) (c : Cert) :
    EqOn I (ctxVerify env cid c) (ctxVerify (env.later now mk va) cid c) := by
  unfold Signify.ctxVerify
  refine bindV (V := fun c => c.timestamp ≠ none) (of_keeps hI (Keeps.getCtx cid)) (fun w hw c hc => ?_) (fun ctx hctx => ?_)
  · rw [getCtx_ok hc]; exact ht w hw
  · refine bind (of_keeps hI (Keeps.collectCerts _ _ _ _)) (fun x => ?_)
    obtain ⟨roots, inter, all⟩ := x
    dsimp only
    refine bind ?_ (fun _ => bind (of_keeps hI (Keeps.takeKeyUsages trivial)) (fun kus => bind (of_keeps hI (Keeps.takeEkus trivial)) (fun ekus => ?_)))
    · show EqOn I _ (M.lift (mk _))
      rw [hmk _ (by exact hctx)]
      exact lift _
    · have e3 : (env.later now mk va).validate = va := rfl
      rw [e3, hva _ (by exact hctx)]
      split
      · exact lift _
      · refine bind (lift _) (fun _ => bind ?_ (fun _ => pure _))
        exact bind (of_keeps hI (Keeps.getCtx cid)) (fun _ => verifyTrustLoop hI ht _ _ _)

theorem verifyIssuerSignature (hI : Stable I) (cid : Nat) (s : Signer) (issuer : Cert) :
    EqOn I (verifyIssuerSignature env cid s issuer) (verifyIssuerSignature (env.later now mk va) cid s issuer) :=
  of_keeps hI (Keeps.verifyIssuerSignature env cid s issuer)

theorem verifyIssuer_none (hI : Stable I) {cid : Nat} (ht : ∀ w, I w → (w.ctxs cid).timestamp ≠ none)
    (hmk : ∀ req, req.moment ≠ none → mk req = env.mkValidator req) (hva : ∀ req, req.moment ≠ none → va req = env.validate req)
    (s : Signer) (c : Cert) : EqOn I (verifyIssuer env cid s none c) (verifyIssuer (env.later now mk va) cid s none c) :=
  bind (verifyIssuerSignature hI cid s c) (fun _ => bind (pure _) (fun _ => ctxVerify hI ht hmk hva c))

/-- With a time that is put into the context, nothing needs to be known about the context. -/
theorem verifyIssuer_some (hI : Stable I) {cid : Nat} (hs : ∀ w t, I w → I (withTime w cid (some t)))
    (hmk : ∀ req, req.moment ≠ none → mk req = env.mkValidator req) (hva : ∀ req, req.moment ≠ none → va req = env.validate req)
    (s : Signer) (t : Int) (c : Cert) :
    EqOn I (verifyIssuer env cid s (some t) c) (verifyIssuer (env.later now mk va) cid s (some t) c) := by
  refine bind (verifyIssuerSignature hI cid s c) (fun _ => ?_)
  intro w hw
  have e : applySigningTime cid (some t) w = (.ok (), withTime w cid (some t)) := setTimestamp_run cid _ w
  rw [M.bind_ok e, M.bind_ok e]
  have hJ : Stable (fun w => I w ∧ (w.ctxs cid).timestamp ≠ none) := by
    intro u u' hf hu
    refine ⟨hI _ _ hf hu.1, ?_⟩
    rw [hf.times cid (fun h => h)]
    exact hu.2
  have := ctxVerify (env := env) (now := now) (mk := mk) (va := va) hJ (cid := cid) (fun w h => h.2) hmk hva c (withTime w cid (some t))
    ⟨hs w t hw, by simp [withTime]⟩
  exact ⟨this.1, this.2.1⟩

theorem buildChainBody {f g : Cert → M (List Cert)} {c : Cert} (hc : EqOn I (f c) (g c)) (acc : List (List Cert) × FirstError) :
    EqOn I (buildChainBody f acc c) (buildChainBody g acc c) := by
  unfold Signify.buildChainBody
  refine bind (attempt hc) (fun r => ?_)
  split
  · exact pure _
  · split
    · exact pure _
    · exact raise _

theorem forCerts {σ : Type} (q : Query) {f g : σ → Cert → M σ} (l seen : List Cert)
    (hb : ∀ c ∈ l, q.matches env c = true → ∀ a, EqOn I (f a c) (g a c)) (acc : σ) :
    EqOn I (forCerts env q f l seen acc) (forCerts (env.later now mk va) q g l seen acc) := by
  induction l generalizing seen acc with
  | nil => exact pure _
  | cons c l ih =>
    have ih' := fun seen acc => ih seen (fun d hd => hb d (List.mem_cons_of_mem _ hd)) acc
    unfold Signify.forCerts
    have e : q.matches (env.later now mk va) c = q.matches env c := rfl
    rw [e]
    by_cases hm : q.matches env c = true
    · rw [if_pos hm, if_pos hm]
      split
      · exact ih' _ _
      · exact bind (hb c (by simp) hm _) (fun _ => ih' _ _)
    · rw [if_neg hm, if_neg hm]
      exact ih' _ _

theorem forStores {σ : Type} (hI : Stable I) (q : Query) {f g : σ → Cert → M σ} (rs : List StoreRef)
    (hb : ∀ r ∈ rs, ∀ w, I w → ∀ l, (iterStore r w).1 = .ok l → ∀ c ∈ l, q.matches env c = true → ∀ a, EqOn I (f a c) (g a c))
    (seen : List Cert) (acc : σ) : EqOn I (forStores env q f rs seen acc) (forStores (env.later now mk va) q g rs seen acc) := by
  induction rs generalizing seen acc with
  | nil => exact pure _
  | cons r rs ih =>
    exact bindV (V := fun l => ∀ c ∈ l, q.matches env c = true → ∀ a, EqOn I (f a c) (g a c)) (of_keeps hI (Keeps.iterStore r))
      (hb r (by simp)) (fun l hl => bind (forCerts q l seen hl acc) (fun x => ih (fun r' hr' => hb r' (List.mem_cons_of_mem _ hr')) _ _))

theorem signerVerifyWith (hI : Stable I) (cid : Nat) (s : Signer) {f g : Cert → M (List Cert)}
    (hb : ∀ w, I w → ∀ r ∈ (w.ctxs cid).stores, ∀ w', I w' → ∀ l, (iterStore r w').1 = .ok l → ∀ c ∈ l,
      Query.matches env { issuer := some s.issuer, serial := some s.serial } c = true → EqOn I (f c) (g c)) :
    EqOn I (signerVerifyWith env cid s f) (signerVerifyWith (env.later now mk va) cid s g) := by
  unfold Signify.signerVerifyWith Signify.buildChain
  refine bind (bind (bindV (V := fun c => ∃ w, I w ∧ c = w.ctxs cid) (of_keeps hI (Keeps.getCtx _)) (fun w hw c hc => ⟨w, hw, getCtx_ok hc⟩)
    fun c hc => ?_) (fun acc => ?_)) (fun chains => ?_)
  · obtain ⟨w, hw, rfl⟩ := hc
    exact forStores hI _ _ (fun r hr w' hw' l hl c hc hm a => buildChainBody (hb w hw r hr w' hw' l hl c hc hm) a) _ _
  · split
    · exact raise _
    · exact pure _
  · split
    · exact raise _
    · exact pure _

theorem signerVerify_none (hI : Stable I) {cid : Nat} (ht : ∀ w, I w → (w.ctxs cid).timestamp ≠ none)
    (hmk : ∀ req, req.moment ≠ none → mk req = env.mkValidator req) (hva : ∀ req, req.moment ≠ none → va req = env.validate req)
    (s : Signer) : EqOn I (signerVerify env cid s none) (signerVerify (env.later now mk va) cid s none) :=
  signerVerifyWith hI cid s (fun _ _ _ _ _ _ _ _ c _ _ => verifyIssuer_none hI ht hmk hva s c)

theorem counterVerify (hI : Stable I) {cid : Nat} (ht : ∀ w, I w → (w.ctxs cid).timestamp ≠ none)
    (hmk : ∀ req, req.moment ≠ none → mk req = env.mkValidator req) (hva : ∀ req, req.moment ≠ none → va req = env.validate req)
    (c : CounterSigner) : EqOn I (c.verify env cid) (c.verify (env.later now mk va) cid) := by
  cases c with
  | pkcs9 c => exact signerVerify_none hI ht hmk hva _
  | rfc3161 r =>
    show EqOn I (rfcVerify env r (some cid) (.embedded [])) (rfcVerify (env.later now mk va) r (some cid) (.embedded []))
    unfold Signify.rfcVerify
    have e : r.core.contentDigest (env.later now mk va) = r.core.contentDigest env := rfl
    rw [e]
    split
    · exact raise _
    · exact signerVerify_none hI ht hmk hva r.signer

end EqOn

/-- `I` is also kept when a context gets a time. -/
def Robust (I : World → Prop) : Prop := Stable I ∧ ∀ w i t, I w → I (withTime w i (some t))

theorem withTime_ne_none {w : World} {cid i : Nat} {t : Int} (h : (w.ctxs cid).timestamp ≠ none) :
    ((withTime w i (some t)).ctxs cid).timestamp ≠ none := by
  simp only [withTime]
  split
  · simp
  · exact h

/-- A robust condition together with a time in a context. -/
theorem Robust.dated (hI : Robust I) (cid : Nat) : Robust (fun w => I w ∧ (w.ctxs cid).timestamp ≠ none) := by
  refine ⟨fun w w' hf hw => ⟨hI.1 _ _ hf hw.1, ?_⟩, fun w i t hw => ⟨hI.2 w i t hw.1, withTime_ne_none hw.2⟩⟩
  rw [hf.times cid (fun h => h)]
  exact hw.2

namespace EqOn

theorem checkCounter (hI : Robust I) (hmk : ∀ req, req.moment ≠ none → mk req = env.mkValidator req)
    (hva : ∀ req, req.moment ≠ none → va req = env.validate req) (a : AuthData) (c : CounterSigner) (hc : c.signingTime ≠ none) (i : Nat) :
    EqOn I (checkCounter env a c i) (checkCounter (env.later now mk va) a c i) := by
  unfold Signify.checkCounter
  have e : c.checkMessageDigest (env.later now mk va) a.signer.encryptedDigest = c.checkMessageDigest env a.signer.encryptedDigest := rfl
  rw [e]
  split
  · exact raise _
  · obtain ⟨t, ht⟩ := Option.ne_none_iff_exists'.mp hc
    rw [ht]
    intro w hw
    rw [M.bind_ok (setTimestamp_run i (some t) w), M.bind_ok (setTimestamp_run i (some t) w)]
    have := bind (counterVerify (env := env) (now := now) (mk := mk) (va := va) (hI.dated i).1 (cid := i) (fun _ h => h.2) hmk hva c)
      (fun _ => pure ()) (withTime w i (some t)) ⟨hI.2 w i t hw, by rw [withTime_ctx]; simp⟩
    exact ⟨this.1, this.2.1⟩

theorem counterTime (hI : Robust I) (hmk : ∀ req, req.moment ≠ none → mk req = env.mkValidator req)
    (hva : ∀ req, req.moment ≠ none → va req = env.validate req) (a : AuthData) (mode : String) (hc : CounterDated a mode) (cs : Option Nat) :
    EqOn I (counterTime env a mode cs) (counterTime (env.later now mk va) a mode cs) := by
  unfold Signify.counterTime
  split
  · exact pure _
  · rename_i c hac
    by_cases hm : mode ≠ "ignore"
    · rw [if_pos hm, if_pos hm]
      split
      · exact raise _
      · rename_i i
        refine bind (attempt (checkCounter hI hmk hva a c (hc.resolve_left hm c hac) i)) (fun r => ?_)
        split
        · exact pure _
        · split
          · exact pure _
          · exact raise _
    · rw [if_neg hm, if_neg hm]
      exact pure _

theorem authSignerVerify (hI : Robust I) {cid : Nat} (ht : ∀ w, I w → (w.ctxs cid).timestamp ≠ none)
    (hmk : ∀ req, req.moment ≠ none → mk req = env.mkValidator req) (hva : ∀ req, req.moment ≠ none → va req = env.validate req)
    (s : Signer) (t : Option Int) : EqOn I (authSignerVerify env cid s t) (authSignerVerify (env.later now mk va) cid s t) := by
  refine signerVerifyWith hI.1 cid s (fun _ _ _ _ _ _ _ _ c _ _ => ?_)
  unfold Signify.verifyIssuerAuth
  generalize (if lifetimeSigning c then none else t : Option Int) = x
  cases x with
  | none => exact verifyIssuer_none hI.1 ht hmk hva s c
  | some x => exact verifyIssuer_some hI.1 (fun w t => hI.2 w cid t) hmk hva s x c

/-- With a time that is given, only lifetime signing certificates are verified with the time of the context. -/
theorem authSignerVerify_some (hI : Robust I) {cid : Nat} (s : Signer)
    (hb : ∀ w, I w → ∀ r ∈ (w.ctxs cid).stores, ∀ w', I w' → ∀ l, (iterStore r w').1 = .ok l → ∀ c ∈ l,
      Query.matches env { issuer := some s.issuer, serial := some s.serial } c = true → lifetimeSigning c = false)
    (hmk : ∀ req, req.moment ≠ none → mk req = env.mkValidator req) (hva : ∀ req, req.moment ≠ none → va req = env.validate req)
    (t : Int) : EqOn I (Signify.authSignerVerify env cid s (some t)) (Signify.authSignerVerify (env.later now mk va) cid s (some t)) := by
  refine signerVerifyWith hI.1 cid s (fun w hw r hr w' hw' l hl c hc hm => ?_)
  unfold Signify.verifyIssuerAuth
  rw [hb w hw r hr w' hw' l hl c hc hm]
  exact verifyIssuer_some hI.1 (fun w t => hI.2 w cid t) hmk hva s t c

end EqOn

/-- The contexts that the caller passes exist, and the signer's has a time. -/
def GivenDated (args : VerifyArgs) (w : World) : Prop :=
  ContextsExist w args ∧ (∀ i, args.context = some i → (w.ctxs i).timestamp ≠ none)

theorem GivenDated.robust (args : VerifyArgs) : Robust (GivenDated args) := by
  refine ⟨fun w w' hf hw => ⟨⟨fun c hc => ?_, fun c hc => ?_⟩, fun i hi => ?_⟩, fun w i t hw => ⟨⟨hw.1.1, hw.1.2⟩, fun j hj => ?_⟩⟩
  · rw [hf.next]; exact hw.1.1 c hc
  · rw [hf.next]; exact hw.1.2 c hc
  · rw [hf.times i (fun h => h)]; exact hw.2 i hi
  · exact withTime_ne_none (hw.2 j hj)

theorem GivenDated.newCtx {args : VerifyArgs} {w : World} (c : Ctx) (h : GivenDated args w) : GivenDated args (M.newCtx c w).2 := by
  refine ⟨⟨fun i hi => Nat.lt_succ_of_lt (h.1.1 i hi), fun i hi => Nat.lt_succ_of_lt (h.1.2 i hi)⟩, fun i hi => ?_⟩
  show ((if i = w.nextCtx then c else w.ctxs i).timestamp) ≠ none
  rw [if_neg (Nat.ne_of_lt (h.1.1 i hi))]
  exact h.2 i hi

theorem EqOn.newCtx {args : VerifyArgs} (c : Ctx) : EqOn (GivenDated args) (M.newCtx c) (M.newCtx c) := fun _ hw => ⟨rfl, hw.newCtx c⟩

theorem chooseCs_cases (a : AuthData) (args : VerifyArgs) (v : World) :
    (∃ cs, chooseCsContext a args v = (.ok cs, v)) ∨ ∃ c, chooseCsContext a args v = (.ok (some v.nextCtx), (M.newCtx c v).2) := by
  unfold chooseCsContext
  cases args.csContext with
  | some i => exact .inl ⟨_, rfl⟩
  | none =>
    cases a.counter with
    | none => exact .inl ⟨_, rfl⟩
    | some c =>
      simp only
      split
      · exact .inr ⟨_, rfl⟩
      · exact .inl ⟨_, rfl⟩

theorem checkDigests_later (file : Option Bytes) (a : AuthData) (x : Option Bytes) :
    checkDigests (env.later now mk va) file a x = checkDigests env file a x := rfl

/-- With a time in the signer's context, the outcome of verification and what it leaves are the same at any moment. -/
theorem EqOn.asdVerify (hmk : ∀ req, req.moment ≠ none → mk req = env.mkValidator req)
    (hva : ∀ req, req.moment ≠ none → va req = env.validate req) (file : Option Bytes) (a : AuthData) (args : VerifyArgs)
    (ht : args.context = none → args.options.timestamp ≠ none) (hc : CounterDated a args.countersignatureMode) :
    EqOn (GivenDated args) (asdVerify env file a args) (asdVerify (env.later now mk va) file a args) := by
  intro w hw
  have h1 : ∃ cid v, chooseContext a args w = (.ok cid, v) ∧ GivenDated args v ∧ (v.ctxs cid).timestamp ≠ none ∧ cid < v.nextCtx := by
    unfold chooseContext
    cases hx : args.context with
    | some i => exact ⟨i, w, rfl, hw, hw.2 i hx, hw.1.1 i hx⟩
    | none =>
      refine ⟨_, _, newCtx_run _ w, hw.newCtx _, ?_, Nat.lt_succ_self _⟩
      simp only [if_true, mkCtx]
      exact ht hx
  obtain ⟨cid, v, e1, hv, hv1, hv2⟩ := h1
  have h2 : ∃ cs u, chooseCsContext a args v = (.ok cs, u) ∧ GivenDated args u ∧ (u.ctxs cid).timestamp ≠ none := by
    rcases chooseCs_cases a args v with ⟨cs, e⟩ | ⟨c, e⟩
    · exact ⟨_, _, e, hv, hv1⟩
    · refine ⟨_, _, e, hv.newCtx _, ?_⟩
      show ((if cid = v.nextCtx then _ else v.ctxs cid : Ctx).timestamp) ≠ none
      rw [if_neg (Nat.ne_of_lt hv2)]
      exact hv1
  obtain ⟨cs, u, e2, hu, hu1⟩ := h2
  unfold Signify.asdVerify
  rw [M.bind_ok e1, M.bind_ok e1, M.bind_ok e2, M.bind_ok e2, checkDigests_later]
  have hI := (GivenDated.robust args).dated cid
  have := (EqOn.bind (EqOn.lift (checkDigests env file a args.expectedHash)) (fun _ =>
    EqOn.bind (EqOn.counterTime (now := now) hI hmk hva a args.countersignatureMode hc cs) (fun t =>
      EqOn.authSignerVerify (now := now) hI (cid := cid) (fun _ h => h.2) hmk hva a.signer t)) :
      EqOn (fun w => GivenDated args w ∧ (w.ctxs cid).timestamp ≠ none) _ _) u ⟨hu, hu1⟩
  exact ⟨this.1, this.2.1⟩

/-- The stores of the context are these, and know no lifetime signing certificate of the signer. -/
def SignerKnown (cid : Nat) (s : Signer) (rs : List StoreRef) (w : World) : Prop :=
  (w.ctxs cid).stores = rs ∧ NoLifetimeSigner w (w.ctxs cid) s

theorem certsOf_loaded_step {w w' : World} (h : ∀ i, StoreStep (w.stores i) (w'.stores i)) (r : StoreRef) :
    certsOf (loadedWorld w') r = certsOf (loadedWorld w) r := by
  cases r with
  | embedded _ => rfl
  | heap i => simp only [Spec.certsOf, loadedWorld, (h i).loaded_eq]

theorem SignerKnown.robust (cid : Nat) (s : Signer) (rs : List StoreRef) : Robust (SignerKnown cid s rs) := by
  refine ⟨fun w w' hf hw => ⟨(hf.ctxStores cid).trans hw.1, ?_⟩, fun w i t hw => ⟨?_, ?_⟩⟩
  · intro r hr c hc
    rw [hf.ctxStores] at hr
    rw [certsOf_loaded_step hf.stores] at hc
    exact hw.2 r hr c hc
  · rw [← hw.1]
    simp only [withTime]
    split
    · rename_i e; rw [e]
    · rfl
  · have e : ((withTime w i (some t)).ctxs cid).stores = (w.ctxs cid).stores := by
      simp only [withTime]
      split
      · rename_i e; rw [e]
      · rfl
    intro r hr c hc
    rw [e] at hr
    exact hw.2 r hr c (by cases r <;> exact hc)

/-- With a time stamp that must hold, likewise, as long as the signer is no lifetime signing certificate. -/
theorem asdVerify_strict (hmk : ∀ req, req.moment ≠ none → mk req = env.mkValidator req)
    (hva : ∀ req, req.moment ≠ none → va req = env.validate req) (file : Option Bytes) (a : AuthData) (args : VerifyArgs) (w : World)
    (he : ContextsExist w args) (hm : args.countersignatureMode = "strict") {c : CounterSigner} (hac : a.counter = some c)
    (hc : c.signingTime ≠ none) (hn : NoLifetimeSigner w (signerContext w a args) a.signer) :
    asdVerify env file a args w = asdVerify (env.later now mk va) file a args w := by
  have h1 : ∃ cid v, chooseContext a args w = (.ok cid, v) ∧ SignerKnown cid a.signer (v.ctxs cid).stores v ∧ cid < v.nextCtx := by
    unfold chooseContext
    unfold signerContext at hn
    cases hx : args.context with
    | some i =>
      rw [hx] at hn
      exact ⟨i, w, rfl, ⟨rfl, hn⟩, he.1 i hx⟩
    | none =>
      rw [hx] at hn
      refine ⟨_, _, newCtx_run _ w, ⟨rfl, ?_⟩, Nat.lt_succ_self _⟩
      simp only [if_true]
      intro r hr c hc
      exact hn r hr c (by cases r <;> exact hc)
  obtain ⟨cid, v, e1, hv, hv2⟩ := h1
  have h2 : ∃ cs u, chooseCsContext a args v = (.ok cs, u) ∧ SignerKnown cid a.signer (v.ctxs cid).stores u := by
    rcases chooseCs_cases a args v with ⟨cs, e⟩ | ⟨d, e⟩
    · exact ⟨_, _, e, hv⟩
    · refine ⟨_, _, e, ?_⟩
      unfold SignerKnown
      rw [newCtx_run]
      simp only [if_neg (Nat.ne_of_lt hv2), true_and]
      intro r hr c hc
      exact hv.2 r hr c (by cases r <;> exact hc)
  obtain ⟨cs, u, e2, hu⟩ := h2
  unfold Signify.asdVerify
  rw [M.bind_ok e1, M.bind_ok e1, M.bind_ok e2, M.bind_ok e2, checkDigests_later]
  have hI := SignerKnown.robust cid a.signer (v.ctxs cid).stores
  refine ((EqOn.bind (EqOn.lift (checkDigests env file a args.expectedHash)) (fun _ =>
    EqOn.bindV (V := fun t => t = c.signingTime) (EqOn.counterTime hI hmk hva a args.countersignatureMode (.inr ?_) cs) ?_ (fun t ht => ?_)) :
      EqOn (SignerKnown cid a.signer (v.ctxs cid).stores) _ _) u hu).1
  · intro d hd
    rw [hac] at hd
    cases hd
    exact hc
  · intro x _ t ht
    unfold counterTime at ht
    rw [hac, hm] at ht
    simp only [ne_eq, String.reduceEq, not_false_eq_true, if_true, not_true_eq_false, if_false] at ht
    cases cs with
    | none => cases ht
    | some i =>
      simp only at ht
      rw [M.bind_run] at ht
      rcases hk : M.attempt (checkCounter env a c i) x with ⟨r, x'⟩
      rw [hk] at ht
      rcases r with e | (e | y)
      · cases ht
      · cases ht
      · cases ht; rfl
  · obtain ⟨x, hx⟩ := Option.ne_none_iff_exists'.mp hc
    rw [ht, hx]
    refine EqOn.authSignerVerify_some hI a.signer (fun w hw r hr w' hw' l hl c hcl hmt => ?_) hmk hva x
    rw [iterStore_value hl] at hcl
    rw [hw.1, ← hw'.1] at hr
    have hmeets := matches_iff.mp hmt
    have := hw'.2 r hr c hcl (hmeets.issuer _ rfl) (hmeets.serial _ rfl)
    unfold lifetimeSigning
    simpa using this

namespace EqOn

theorem verifyOne (hmk : ∀ req, req.moment ≠ none → mk req = env.mkValidator req)
    (hva : ∀ req, req.moment ≠ none → va req = env.validate req) (file : Bytes) (hashes : Dict String Bytes) (args : VerifyArgs)
    (ht : args.context = none → args.options.timestamp ≠ none) (a : ASD) (hc : CounterDated a.d args.countersignatureMode) :
    EqOn (GivenDated args) (verifyOne env file hashes args a) (verifyOne (env.later now mk va) file hashes args a) := by
  unfold Signify.verifyOne
  split
  · exact raise _
  · rename_i h _
    intro w hw
    have := asdVerify (env := env) (now := now) hmk hva (some file) a.d { args with expectedHash := some h } ht hc w ⟨⟨hw.1.1, hw.1.2⟩, hw.2⟩
    exact ⟨this.1, ⟨⟨this.2.1.1, this.2.1.2⟩, this.2.2⟩⟩

theorem verifyLoop {f g : ASD → M (List (List Cert))} (mode : String) (l : List ASD) (h : ∀ a ∈ l, EqOn I (f a) (g a))
    (chains : List (ASD × List (List Cert))) (e : Option Exc) : EqOn I (verifyLoop f mode l chains e) (verifyLoop g mode l chains e) := by
  induction l generalizing chains e with
  | nil => cases e <;> first | exact pure _ | exact raise _
  | cons a l ih =>
    have ih' := fun chains e => ih (fun b hb => h b (List.mem_cons_of_mem _ hb)) chains e
    unfold Signify.verifyLoop
    refine bind (attempt (h a (by simp))) (fun r => ?_)
    split
    · split
      · exact raise _
      · exact ih' _ _
    · split
      · exact ih' _ _
      · exact pure _

theorem calculateExpectedHashes (args : VerifyArgs) (file : Bytes) (algs : List String) (d : Option Nat) :
    EqOn (GivenDated args) (calculateExpectedHashes env file algs d) (calculateExpectedHashes (env.later now mk va) file algs d) := by
  have e : neededHashes (env.later now mk va) file algs = neededHashes env file algs := rfl
  unfold Signify.calculateExpectedHashes
  rw [e]
  split
  · exact bind (lift _) (fun _ => pure _)
  · exact bind (fun _ hw => ⟨rfl, hw⟩) (fun _ => bind (lift _) (fun _ => bind (fun _ hw => ⟨rfl, ⟨⟨hw.1.1, hw.1.2⟩, hw.2⟩⟩) (fun _ => pure _)))

end EqOn

theorem selectSignatures_mem {mode : String} {sds : List ASD} {a : ASD} (h : a ∈ selectSignatures mode sds) : a ∈ sds := by
  unfold selectSignatures at h
  split at h
  · exact List.mem_of_mem_take h
  · split at h
    · split at h
      · cases h
      · exact (List.mem_filter.1 h).1
    · exact h

theorem EqOn.peVerify (hmk : ∀ req, req.moment ≠ none → mk req = env.mkValidator req)
    (hva : ∀ req, req.moment ≠ none → va req = env.validate req) (cd : Codec) (file : Bytes) (args : PEVerifyArgs)
    (ht : args.kwargs.context = none → args.kwargs.options.timestamp ≠ none)
    (hc : ∀ sds, (iterSignedDatas cd file true args.ignoreParseErrors).toList = .ok sds →
      ∀ a ∈ sds, CounterDated a.d args.kwargs.countersignatureMode) :
    EqOn (GivenDated args.kwargs) (peVerify env cd file args) (peVerify (env.later now mk va) cd file args) := by
  unfold Signify.peVerify
  refine EqOn.bindV (V := fun sds => (iterSignedDatas cd file true args.ignoreParseErrors).toList = .ok sds) (EqOn.lift _)
    (fun w _ sds h => h) (fun sds hs => ?_)
  split
  · exact EqOn.raise _
  · exact EqOn.bind (EqOn.calculateExpectedHashes _ _ _ _) (fun hashes => EqOn.verifyLoop _ _
      (fun a ha => EqOn.verifyOne hmk hva file hashes args.kwargs ht a (hc sds hs a (selectSignatures_mem ha))) _ _)

end

end Signify
