/-
Key usages given as a container or as an iterator (C95).
-/
import Verif.Proofs.OneShot
import Verif.Spec.OneShot
import Verif.Props.Modes

set_option autoImplicit false

namespace Signify.Props

open Signify Spec

/-! ### Containers -/

theorem given_reiterable {p : PyIter} {l : List String} (h : Given p l) (hp : Reiterable p) : l = p.elems := by
  rcases h with h | ⟨rfl, g, rfl⟩
  · exact h
  · cases hp; rfl

theorem Validated.answered {env : Env} {w : World} {ctx : Ctx} {t : Option Int} {c : Cert} {chain : List Cert}
    (h : Validated env w ctx t c chain) (hp : Reiterable ctx.keyUsages) :
    ∃ req, req.keyUsages = ctx.keyUsages.elems ∧ env.validate req = .ok (chain.map Cert.obj) := by
  obtain ⟨kus, ekus, h1, -, h3⟩ := h.answer
  exact ⟨_, given_reiterable h1 hp, h3⟩

/-- Missing in the partial versions: iterators, for which the claim is false (`C95_once_false`).

With a container, in any context: every chain that `SignerInfo.verify` returns, for however many candidates, is the answer to a
question about exactly the key usages of the context. -/
theorem C95_container_signer_partial (env : Env) (cid : Nat) (s : Signer) (t : Option Int) (w w' : World) (chains : List (List Cert))
    (hp : Reiterable (w.ctxs cid).keyUsages)
    (h : signerVerify env cid s t w = (.ok chains, w') ∨ authSignerVerify env cid s t w = (.ok chains, w')) :
    AnsweredFor env (w.ctxs cid).keyUsages.elems chains := by
  intro chain hc
  rcases h with h | h
  · obtain ⟨-, h2⟩ := signerVerifyWith_sound (tf := fun _ => t) h
    obtain ⟨c, t', -, hv, -⟩ := h2 chain hc
    exact Validated.answered hv hp
  · obtain ⟨-, h2⟩ := signerVerifyWith_sound (tf := fun c => if lifetimeSigning c then none else t) h
    obtain ⟨c, t', -, hv, -⟩ := h2 chain hc
    exact Validated.answered hv hp

/-- With a container as `key_usages` of the options: every chain that `AuthenticodeSignedData.verify` returns is the answer to a
question about exactly these. -/
theorem C95_container_verify_partial (env : Env) (file : Option Bytes) (a : AuthData) (args : VerifyArgs) (l : List String) (w w' : World)
    (chains : List (List Cert)) (he : ContextsExist w args) (hn : args.context = none)
    (h : asdVerify env file a (args.requiring l) w = (.ok chains, w')) : AnsweredFor env l chains := by
  have he' : ContextsExist w (args.requiring l) := ⟨he.context, he.csContext⟩
  obtain ⟨-, -, -, -, -, h6⟩ := C28_binding env file a (args.requiring l) w w' chains he' h
  intro chain hc
  obtain ⟨c, t, -, hv⟩ := h6 chain hc
  have hk : (signerContext w a (args.requiring l)).keyUsages = .list l := by
    unfold signerContext
    have : (args.requiring l).context = none := hn
    rw [this]; rfl
  have := Validated.answered hv (by rw [hk]; rfl)
  rw [hk] at this
  exact this

/-! ### Iterators -/

/-- In one context with an iterator: the first certificate is checked for the usages, and once a verification has succeeded, no
further certificate is checked for any. -/
theorem C95_once_context (env : Env) (cid : Nat) (c : Cert) (w w1 : World) (hf : LoadsFine w cid) (l : List String)
    (hk : (w.ctxs cid).keyUsages = .gen l) (chain : List Cert) (h : ctxVerify env cid c w = (.ok chain, w1)) :
    AnsweredFor env l [chain] ∧
    (∀ d chain' w2, ctxVerify env cid d w1 = (.ok chain', w2) → AnsweredFor env [] [chain']) ∧
    (∀ s t chains w2, signerVerify env cid s t w1 = (.ok chains, w2) ∨ authSignerVerify env cid s t w1 = (.ok chains, w2) →
      AnsweredFor env [] chains) := by
  have hg : (w1.ctxs cid).keyUsages = .gen [] := by rw [(ctxVerify_used h).1, hk]; rfl
  have hval : ∀ {w ctx t c chain}, ctx.keyUsages = .gen [] → Validated env w ctx t c chain →
      ∃ req, req.keyUsages = [] ∧ env.validate req = .ok (chain.map Cert.obj) := by
    intro w ctx t c chain hx hv
    obtain ⟨kus, ekus, h1, -, h3⟩ := hv.answer
    refine ⟨_, ?_, h3⟩
    rw [hx] at h1
    rcases h1 with h1 | ⟨h1, -⟩ <;> exact h1
  refine ⟨?_, ?_, ?_⟩
  · intro ch hc
    rw [List.mem_singleton] at hc
    subst hc
    refine ⟨_, ?_, (C29_members env cid c w hf ch (by rw [h])).1⟩
    show (w.ctxs cid).keyUsages.elems = l
    rw [hk]; rfl
  · intro d chain' w2 h2 ch hc
    rw [List.mem_singleton] at hc
    subst hc
    exact hval hg (ctxVerify_validated h2)
  · intro s t chains w2 h2 ch hc
    rcases h2 with h2 | h2
    · obtain ⟨-, h2⟩ := signerVerifyWith_sound (tf := fun _ => t) h2
      obtain ⟨c, t', -, hv, -⟩ := h2 ch hc
      exact hval hg hv
    · obtain ⟨-, h2⟩ := signerVerifyWith_sound (tf := fun c => if lifetimeSigning c then none else t) h2
      obtain ⟨c, t', -, hv, -⟩ := h2 ch hc
      exact hval hg hv

/-- What holds of `AuthenticodeSignedData.verify` with an iterator as `key_usages` of the options, exactly: without a countersignature the
signer's context has the iterator; with one that holds, the countersigner's context has it, and the signer's context what is left,
which is nothing; with one that fails and is permitted to, the signer's context has what is left. -/
theorem C95_once_exact (env : Env) (file : Option Bytes) (a : AuthData) (args : VerifyArgs) (l : List String) (w : World)
    (h1 : args.context = none) (h2 : args.csContext = none) (hr : Readable w (signerContext w a args))
    (hrc : ∀ c, a.counter = some c → Readable w (counterContext w a c args)) (chains : List (List Cert)) :
    (asdVerifyOnce env file a args l w).1 = .ok chains ↔ DigestsAgree env file a args.expectedHash ∧
      ((a.counter = none ∨ args.countersignatureMode = "ignore") ∧
          InContext w ((signerContext w a args).requiring (.gen l)) (fun i => authSignerVerify env i a.signer none) (.ok chains) ∨
       (∃ c, a.counter = some c ∧ args.countersignatureMode ≠ "ignore" ∧
          CounterHoldsIn env w a c ((counterContext w a c args).requiring (.gen l)) ∧
          InContext w ((signerContext w a args).requiring (.gen [])) (fun i => authSignerVerify env i a.signer c.signingTime) (.ok chains)) ∨
       (∃ c p, a.counter = some c ∧ args.countersignatureMode ≠ "ignore" ∧ args.countersignatureMode ≠ "strict" ∧
          ¬ CounterHoldsIn env w a c ((counterContext w a c args).requiring (.gen l)) ∧
          LeftBy env w a c ((counterContext w a c args).requiring (.gen l)) p ∧
          InContext w ((signerContext w a args).requiring p) (fun i => authSignerVerify env i a.signer none) (.ok chains))) := by
  obtain ⟨cid, cs, v, hs⟩ := onceSetup w a args l h1 h2
  rw [hs.asdVerifyOnce, ← digestsMatch_iff, ← checkDigests_ok]
  cases hd : checkDigests env file a args.expectedHash with
  | error e => exact ⟨fun h => (by cases h), fun h => (by cases h.1)⟩
  | ok u =>
    rw [M.bind_ok (M.lift_run _ _)]
    by_cases hno : a.counter = none ∨ args.countersignatureMode = "ignore"
    · have hcs := hs.ignored hno
      subst hcs
      have hct : counterTime env a args.countersignatureMode none v = (.ok none, v) := by
        unfold counterTime
        rcases hno with hno | hno
        · rw [hno]; rfl
        · cases a.counter with
          | none => rfl
          | some c => simp only; rw [if_neg (not_not_intro hno)]; rfl
      have hsh : shareUsages args cid none v = (.ok (), v) := by unfold shareUsages; rw [h1, h2]; rfl
      rw [M.bind_ok hct, M.bind_ok hsh]
      have hiff : InContext w ((signerContext w a args).requiring (.gen l)) (fun i => authSignerVerify env i a.signer none) (.ok chains) ↔
          (authSignerVerify env cid a.signer none v).1 = .ok chains :=
        inContext_iff (Uniform.authSignerVerify env a.signer none) hr hs.signer (fun k => .inl (by rw [hs.stores]))
      rw [← hiff]
      constructor
      · exact fun h => ⟨rfl, .inl ⟨hno, h⟩⟩
      · rintro ⟨-, ⟨-, h⟩ | ⟨c, hc, hm, -⟩ | ⟨c, p, hc, hm, -⟩⟩
        · exact h
        all_goals
          exfalso
          rcases hno with hno | hno
          · rw [hno] at hc; cases hc
          · exact hm hno
    · have hm : args.countersignatureMode ≠ "ignore" := fun e => hno (.inr e)
      cases hc : a.counter with
      | none => exact absurd (.inl hc) hno
      | some c =>
        obtain ⟨i, rfl, hne, hi⟩ := hs.counter c hc hm
        have hrc' : Readable w ((counterContext w a c args).requiring (.gen l)) := hrc c hc
        have hout := checkCounter_outcome (env := env) (a := a) (c := c) hrc' hs.stores hi
        have hfr : Frame (fun j => j = i) (fun j => j = i) v (checkCounter env a c i v).2 :=
          Keeps.checkCounter (D := fun j => j = i) (T := fun j => j = i) env a c rfl rfl v
        rcases hx : checkCounter env a c i v with ⟨r, u'⟩
        rw [hx] at hout hfr
        have hct : counterTime env a args.countersignatureMode (some i) v =
            (match r with
             | .ok _ => (.ok c.signingTime, u')
             | .error _ => if args.countersignatureMode ≠ "strict" then (.ok none, u')
                else (.error ⟨.authenticodeCounterSigner, "An error occurred while validating the countersignature"⟩, u')) := by
          unfold counterTime
          rw [hc]
          simp only
          rw [if_pos hm, M.bind_ok (show M.attempt (checkCounter env a c i) v = (.ok r, u') by unfold M.attempt; rw [hx])]
          cases r with
          | ok _ => rfl
          | error e => simp only; split <;> rfl
        cases r with
        | ok x =>
          have hh : CounterHoldsIn env w a c ((counterContext w a c args).requiring (.gen l)) := hout.1 rfl
          have hu : (u'.ctxs i).keyUsages = .gen [] := by
            rw [checkCounter_used hx, hi]; rfl
          rw [M.bind_ok hct, signer_shared hs h1 h2 hne hfr _ hr, hu]
          constructor
          · exact fun h => ⟨rfl, .inr (.inl ⟨c, rfl, hm, hh, h⟩)⟩
          · rintro ⟨-, ⟨h | h, -⟩ | ⟨c', hc', -, -, h⟩ | ⟨c', p, hc', -, -, hn, -⟩⟩
            · cases h
            · exact absurd h hm
            · cases hc'; exact h
            · cases hc'; exact absurd hh hn
        | error e =>
          have hh : ¬ CounterHoldsIn env w a c ((counterContext w a c args).requiring (.gen l)) := fun h => by cases hout.2 h
          have hleft : ∀ p, LeftBy env w a c ((counterContext w a c args).requiring (.gen l)) p ↔ (u'.ctxs i).keyUsages = p := by
            intro p
            constructor
            · rintro ⟨j, v', g1, g2, g3⟩
              have := (Sim.checkCounter env (P := fun x y => x = j ∧ y = i) ⟨rfl, rfl⟩ a c v' v
                (Rel.single hrc' g1 g2 hi (fun k => .inl (by rw [hs.stores])))).2.ctx j i ⟨rfl, rfl⟩
              rw [hx] at this
              rw [← g3, this]
            · intro g
              exact ⟨i, v, hs.stores, hi, by rw [hx]; exact g⟩
          by_cases hst : args.countersignatureMode = "strict"
          · rw [if_neg (not_not_intro hst)] at hct
            rw [M.bind_error hct]
            refine ⟨fun h => (by cases h), ?_⟩
            rintro ⟨-, ⟨h | h, -⟩ | ⟨c', hc', -, h, -⟩ | ⟨c', p, -, -, h, -⟩⟩
            · cases h
            · exact absurd h hm
            · cases hc'; exact absurd h hh
            · exact absurd hst h
          · rw [if_pos hst] at hct
            rw [M.bind_ok hct, signer_shared hs h1 h2 hne hfr _ hr]
            constructor
            · exact fun h => ⟨rfl, .inr (.inr ⟨c, _, rfl, hm, hst, hh, (hleft _).2 rfl, h⟩)⟩
            · rintro ⟨-, ⟨h | h, -⟩ | ⟨c', hc', -, h, -⟩ | ⟨c', p, hc', -, -, -, h, h'⟩⟩
              · cases h
              · exact absurd h hm
              · cases hc'; exact absurd h hh
              · cases hc'
                rw [(hleft p).1 h]
                exact h'

/-- So a signature with a countersignature that holds is verified without any of the key usages asked for. -/
theorem C95_once_unchecked (env : Env) (file : Option Bytes) (a : AuthData) (args : VerifyArgs) (l : List String) (w : World)
    (h1 : args.context = none) (h2 : args.csContext = none) (hr : Readable w (signerContext w a args))
    (hrc : ∀ c, a.counter = some c → Readable w (counterContext w a c args)) (chains : List (List Cert)) (c : CounterSigner)
    (hc : a.counter = some c) (hm : args.countersignatureMode = "strict")
    (h : (asdVerifyOnce env file a args l w).1 = .ok chains) : AnsweredFor env [] chains := by
  rcases ((C95_once_exact env file a args l w h1 h2 hr hrc chains).1 h).2 with ⟨h | h, -⟩ | ⟨c', -, -, -, i, v, -, g2, g3⟩ | ⟨c', p, -, -, h, -⟩
  · rw [hc] at h; cases h
  · rw [hm] at h; exact absurd h (by decide)
  · intro chain hch
    obtain ⟨-, g4⟩ := signerVerifyWith_sound (tf := fun c => if lifetimeSigning c then none else c'.signingTime)
      (show authSignerVerify env i a.signer c'.signingTime v = (.ok chains, (authSignerVerify env i a.signer c'.signingTime v).2) by rw [← g3])
    obtain ⟨d, t', -, hv, -⟩ := g4 chain hch
    obtain ⟨kus, ekus, k1, -, k3⟩ := hv.answer
    refine ⟨_, ?_, k3⟩
    rw [g2] at k1
    rcases k1 with k1 | ⟨k1, -⟩ <;> exact k1
  · exact absurd hm h

/-! ### Instances -/

/-- A path validator that finds a chain for every certificate; only the certificate of the time stamping authority has key usages. -/
def exUsageEnv : Env :=
  { exEnv with
    validate := fun r => if 1 ∈ r.trustRoots ∧ (r.keyUsages = [] ∨ r.endEntity = 6) then .ok [1, 2, r.endEntity] else .error ⟨.foreign, "path"⟩ }

/-- C95 fails for iterators: asked for the key usage 'digital_signature', which the signer's certificate does not have, `verify`
refuses the signature if the usage is given in a list and accepts it if it is given by a generator. -/
theorem C95_once_false :
    (∃ e, (asdVerify exUsageEnv none (exAuth exCerts (some exCounter)) (exArgs.requiring ["digital_signature"]) exWorld).1 = .error e ∧
      e.is .certificateVerificationError = true) ∧
    (asdVerifyOnce exUsageEnv none (exAuth exCerts (some exCounter)) exArgs ["digital_signature"] exWorld).1 = .ok [[exRoot, exInter, exLeaf]] ∧
    ∀ req, req.endEntity = exLeaf.obj → "digital_signature" ∈ req.keyUsages → ∀ ids, exUsageEnv.validate req ≠ .ok ids := by
  refine ⟨?_, by decide +kernel, ?_⟩
  · have : (asdVerify exUsageEnv none (exAuth exCerts (some exCounter)) (exArgs.requiring ["digital_signature"]) exWorld).1.toOption = none := by
      decide +kernel
    generalize hx : (asdVerify exUsageEnv none (exAuth exCerts (some exCounter)) (exArgs.requiring ["digital_signature"]) exWorld).1 = x at this
    have h2 : (match (asdVerify exUsageEnv none (exAuth exCerts (some exCounter)) (exArgs.requiring ["digital_signature"]) exWorld).1 with
      | .error e => e.is .certificateVerificationError | .ok _ => false) = true := by decide +kernel
    rw [hx] at h2
    cases x with
    | error e => exact ⟨e, rfl, h2⟩
    | ok _ => cases h2
  · intro req h3 hk ids h
    simp only [exUsageEnv] at h
    split at h
    · rename_i hc
      rcases hc.2 with g | g
      · rw [g] at hk; cases hk
      · rw [g] at h3; exact absurd h3 (by decide)
    · cases h

theorem exWorld_readable (ctx : Ctx) : Readable exWorld ctx := by
  intro i _ certs e he
  simp only [exWorld] at he
  split at he <;> cases he

/-- A countersigned signature, with a generator. -/
example : AnsweredFor exUsageEnv [] [[exRoot, exInter, exLeaf]] :=
  C95_once_unchecked exUsageEnv none (exAuth exCerts (some exCounter)) exArgs ["digital_signature"] exWorld rfl rfl (exWorld_readable _)
    (fun _ _ => exWorld_readable _) _ exCounter rfl rfl C95_once_false.2.1

example : CounterHoldsIn exUsageEnv exWorld (exAuth exCerts (some exCounter)) exCounter
    ((counterContext exWorld (exAuth exCerts (some exCounter)) exCounter exArgs).requiring (.gen ["digital_signature"])) := by
  rcases ((C95_once_exact exUsageEnv none (exAuth exCerts (some exCounter)) exArgs ["digital_signature"] exWorld rfl rfl (exWorld_readable _)
    (fun _ _ => exWorld_readable _) _).1 C95_once_false.2.1).2 with ⟨h | h, -⟩ | ⟨c, hc, -, h, -⟩ | ⟨c, p, -, -, h, -⟩
  · cases h
  · exact absurd h (by decide)
  · cases hc; exact h
  · exact absurd rfl h

/-- The time stamping authority's own certificate, checked with a context that has a generator, and then the signer's. -/
def exOnceWorld : World := { exWorld with ctxs := fun _ => (exCtx [.heap 0, .embedded exCerts]).requiring (.gen ["digital_signature"]) }

theorem exOnceWorld_fine : LoadsFine exOnceWorld 0 := by
  intro r _ i _ certs e he
  simp only [exOnceWorld, exWorld] at he
  split at he <;> cases he

example : ∃ w1, ctxVerify exUsageEnv 0 exTsa exOnceWorld = (.ok [exRoot, exInter, exTsa], w1) ∧
    AnsweredFor exUsageEnv ["digital_signature"] [[exRoot, exInter, exTsa]] ∧
    (ctxVerify exUsageEnv 0 exLeaf exOnceWorld).1.toOption = none ∧ (ctxVerify exUsageEnv 0 exLeaf w1).1 = .ok [exRoot, exInter, exLeaf] := by
  obtain ⟨w1, h⟩ := exists_ok (show (ctxVerify exUsageEnv 0 exTsa exOnceWorld).1 = .ok [exRoot, exInter, exTsa] by decide +kernel)
  refine ⟨w1, h, (C95_once_context _ _ _ _ _ exOnceWorld_fine _ rfl _ h).1, by decide +kernel, ?_⟩
  have hw : w1 = (ctxVerify exUsageEnv 0 exTsa exOnceWorld).2 := by rw [h]
  rw [hw]
  decide +kernel

/-- Containers: the signature verifies for a usage that the signer's certificate has. -/
example : AnsweredFor (exVEnv (fun _ _ => true)) ["digital_signature"] [[exRoot, exInter, exLeaf]] := by
  obtain ⟨w', h⟩ := exists_ok (show (asdVerify (exVEnv (fun _ _ => true)) none (exAuth exCerts (some exCounter))
    (exArgs.requiring ["digital_signature"]) exWorld).1 = .ok [[exRoot, exInter, exLeaf]] by decide +kernel)
  exact C95_container_verify_partial _ _ _ _ _ _ _ _ (exArgs_contexts _) rfl h

example : AnsweredFor (exVEnv (fun _ _ => true)) [] [[exRoot, exInter, exLeaf]] := by
  obtain ⟨w', h⟩ := exists_ok (show (signerVerify (exVEnv (fun _ _ => true)) 0 (exSign 3 [9] [5] none) (some 300) exWorld).1 =
    .ok [[exRoot, exInter, exLeaf]] by decide +kernel)
  exact C95_container_signer_partial _ 0 _ _ exWorld _ _ rfl (.inl h)

end Signify.Props
