/-
`AuthenticodeSignedData.verify`: creation of contexts, digests, countersignature, signer.
-/
import Verif.Proofs.Verify
import Verif.Proofs.Expected

set_option autoImplicit false

namespace Signify

open Spec

/-! ### digests -/

/-- What the digest checks establish. -/
structure DigestsMatch (env : Env) (file : Option Bytes) (a : AuthData) (expected : Option Bytes) : Prop where
  spc : a.core.digestAlg = a.spc.digestAlg
  signer : a.core.digestAlg = a.signer.digestAlg
  file : (∃ h, expected = some h ∧ h = a.spc.digest) ∨ (expected = none ∧ computeExpected env file a.core.digestAlg = .ok a.spc.digest)
  content : a.signer.messageDigest = some (env.hash a.core.digestAlg a.core.content)

theorem checkDigests_ok {env : Env} {file : Option Bytes} {a : AuthData} {expected : Option Bytes} :
    checkDigests env file a expected = .ok () ↔ DigestsMatch env file a expected := by
  unfold checkDigests
  by_cases h1 : a.core.digestAlg = a.spc.digestAlg
  · rw [if_neg (not_not_intro h1)]
    by_cases h2 : a.core.digestAlg = a.signer.digestAlg
    · rw [if_neg (not_not_intro h2)]
      have tail : ∀ h : Bytes, (if h ≠ a.spc.digest then
            (.error ⟨.authenticodeInvalidDigest, "The expected hash does not match the digest in SpcInfo"⟩ : Except Exc Unit)
          else if some (a.core.contentDigest env) ≠ a.signer.messageDigest then
            .error ⟨.authenticodeInvalidDigest, "The expected hash of the SpcInfo does not match SignerInfo"⟩
          else .ok ()) = .ok () ↔ h = a.spc.digest ∧ a.signer.messageDigest = some (env.hash a.core.digestAlg a.core.content) := by
        intro h
        unfold SDCore.contentDigest
        by_cases h3 : h = a.spc.digest
        · rw [if_neg (not_not_intro h3)]
          by_cases h4 : some (env.hash a.core.digestAlg a.core.content) = a.signer.messageDigest
          · rw [if_neg (not_not_intro h4)]; simp [h3, h4.symm]
          · rw [if_pos h4]
            constructor
            · intro h; cases h
            · rintro ⟨-, h⟩; exact absurd h.symm h4
        · rw [if_pos h3]
          constructor
          · intro h; cases h
          · rintro ⟨h, -⟩; exact absurd h h3
      cases expected with
      | some h =>
        refine (tail h).trans ⟨?_, ?_⟩
        · rintro ⟨k1, k2⟩; exact ⟨h1, h2, .inl ⟨h, rfl, k1⟩, k2⟩
        · rintro ⟨-, -, ⟨h', e, k1⟩ | ⟨e, -⟩, k2⟩
          · cases e; exact ⟨k1, k2⟩
          · cases e
      | none =>
        simp only
        cases hc : computeExpected env file a.core.digestAlg with
        | error e =>
          constructor
          · intro h; cases h
          · rintro ⟨-, -, ⟨h', e, -⟩ | ⟨-, k⟩, -⟩
            · cases e
            · rw [hc] at k; cases k
        | ok d =>
          refine (tail d).trans ⟨?_, ?_⟩
          · rintro ⟨k1, k2⟩; exact ⟨h1, h2, .inr ⟨rfl, by rw [hc, k1]⟩, k2⟩
          · rintro ⟨-, -, ⟨h', e, -⟩ | ⟨-, k⟩, k2⟩
            · cases e
            · rw [hc] at k; cases k; exact ⟨rfl, k2⟩
    · rw [if_pos h2]
      constructor
      · intro h; cases h
      · intro h; exact absurd h.signer h2
  · rw [if_pos h1]
    constructor
    · intro h; cases h
    · intro h; exact absurd h.spc h1

theorem digestsMatch_iff {env : Env} {file : Option Bytes} {a : AuthData} {expected : Option Bytes} :
    DigestsMatch env file a expected ↔ DigestsAgree env file a expected := by
  constructor
  · intro hd
    refine ⟨⟨hd.spc, hd.signer⟩, ?_, ?_, hd.content⟩
    · intro d hd'
      rcases hd.file with ⟨d', e, k⟩ | ⟨e, -⟩
      · rw [hd'] at e; cases e; exact k.symm
      · rw [hd'] at e; cases e
    · intro hn
      rcases hd.file with ⟨d', e, k⟩ | ⟨-, k⟩
      · rw [hn] at e; cases e
      · obtain ⟨f, hf, -⟩ := (computeExpected_authentihash (bs := 1) (by decide)).1 k
        refine ⟨f, hf, fun bs hbs => ?_⟩
        obtain ⟨f', hf', hA⟩ := (computeExpected_authentihash (bs := bs) hbs).1 k
        rw [hf] at hf'; cases hf'
        exact hA
  · intro h
    refine ⟨h.algorithms.1, h.algorithms.2, ?_, h.content⟩
    cases he : expected with
    | some d => exact .inl ⟨d, rfl, (h.given d he).symm⟩
    | none =>
      obtain ⟨f, hf, hA⟩ := h.computed he
      exact .inr ⟨rfl, (computeExpected_authentihash (bs := 1) (by decide)).2 ⟨f, hf, hA 1 (by decide)⟩⟩

/-! ### countersigners -/

theorem Spec.SignedBy.ctxStep {env : Env} {w : World} {ctx ctx' : Ctx} {s : Signer} {c : Cert} (h : SignedBy env w ctx' s c)
    (hs : CtxStep ctx ctx') : SignedBy env w ctx s c := by
  obtain ⟨⟨⟨r, hr, h0⟩, h1, h2⟩, h3⟩ := h
  exact ⟨⟨⟨r, by rw [← hs.stores]; exact hr, h0⟩, h1, h2⟩, by rw [← hs.allowLegacy]; exact h3⟩

theorem Spec.AllValidated.ctxStep {env : Env} {w : World} {ctx ctx' : Ctx} {s : Signer} {t : Option Int} {chains : List (List Cert)}
    (h : AllValidated env w ctx' s t chains) (hs : CtxStep ctx ctx') : AllValidated env w ctx s t chains := by
  intro chain hc
  obtain ⟨c, h1, h2⟩ := h chain hc
  exact ⟨c, h1.ctxStep hs, h2.ctxStep hs⟩

theorem Spec.AllValidated.mono {env : Env} {w w' : World} {D T : Nat → Prop} {ctx : Ctx} {s : Signer} {t : Option Int}
    {chains : List (List Cert)} (h : AllValidated env w ctx s t chains) (hf : Frame D T w w') : AllValidated env w' ctx s t chains := by
  intro chain hc
  obtain ⟨c, h1, h2⟩ := h chain hc
  exact ⟨c, h1.mono hf, h2.mono hf⟩

theorem Spec.CounterGood.mono {env : Env} {w w' : World} {D T : Nat → Prop} {ctx : Ctx} {data : Bytes} {c : CounterSigner}
    (h : CounterGood env w ctx data c) (hf : Frame D T w w') : CounterGood env w' ctx data c := by
  refine ⟨fun i hi => ?_, fun r hr => ?_⟩
  · obtain ⟨h1, chains, h2, h3⟩ := h.pkcs9 i hi
    exact ⟨h1, chains, h2, h3.mono hf⟩
  · obtain ⟨h0, h1, chains, h2, h3⟩ := h.rfc3161 r hr
    exact ⟨h0, h1, chains, h2, h3.mono hf⟩

theorem setTimestamp_run (cid : Nat) (t : Option Int) (w : World) : setTimestamp cid t w = (.ok (), withTime w cid t) := rfl

theorem withTime_ctx (w : World) (cid : Nat) (t : Option Int) : (withTime w cid t).ctxs cid = { w.ctxs cid with timestamp := t } := by
  simp [withTime]

theorem withTime_step (w : World) (cid : Nat) (t : Option Int) : CtxStep (w.ctxs cid) ((withTime w cid t).ctxs cid) := by
  rw [withTime_ctx]; exact ⟨rfl, .refl _, .refl _⟩

theorem rfcVerify_ok {env : Env} {r : Rfc3161} {cid : Nat} {trusted : StoreRef} {w w' : World} {chains : List (List Cert)}
    (h : rfcVerify env r (some cid) trusted w = (.ok chains, w')) :
    r.signer.messageDigest = some (env.hash r.core.digestAlg r.core.content) ∧
      signerVerify env cid r.signer none w = (.ok chains, w') := by
  unfold rfcVerify at h
  by_cases hd : some (r.core.contentDigest env) = r.signer.messageDigest
  · rw [if_neg (not_not_intro hd)] at h
    exact ⟨hd.symm, h⟩
  · rw [if_pos hd] at h
    cases (Prod.mk.inj h).1

theorem checkCounter_sound {env : Env} {a : AuthData} {c : CounterSigner} {cid : Nat} {w w' : World}
    (h : checkCounter env a c cid w = (.ok (), w')) : CounterGood env w' (w.ctxs cid) a.signer.encryptedDigest c := by
  unfold checkCounter at h
  by_cases hd : c.checkMessageDigest env a.signer.encryptedDigest = true
  · rw [if_neg (by simp [hd]), M.bind_ok (setTimestamp_run cid _ w)] at h
    obtain ⟨chains, w1, h1, h⟩ := M.bind_eq_ok h
    rw [M.pure_run] at h
    cases h
    have hstep := withTime_step w cid c.signingTime
    refine ⟨fun i hi => ?_, fun r hr => ?_⟩
    · subst hi
      obtain ⟨g1, g2⟩ := signerVerify_sound (show signerVerify env cid i.signer none _ = _ from h1)
      refine ⟨?_, chains, g1, ?_⟩
      · simp only [CounterSigner.checkMessageDigest, Signer.checkMessageDigest, beq_iff_eq] at hd
        exact hd.symm
      · have g3 := g2.ctxStep hstep
        rw [withTime_ctx] at g3
        exact g3
    · subst hr
      obtain ⟨k1, k2⟩ := rfcVerify_ok (show rfcVerify env r (some cid) (.embedded []) _ = _ from h1)
      obtain ⟨g1, g2⟩ := signerVerify_sound k2
      refine ⟨?_, k1, chains, g1, ?_⟩
      · simp only [CounterSigner.checkMessageDigest, beq_iff_eq] at hd
        exact hd.symm
      · have g3 := g2.ctxStep hstep
        rw [withTime_ctx] at g3
        exact g3
  · rw [if_pos (by simpa using hd)] at h
    cases (Prod.mk.inj h).1

/-! ### contexts -/

/-- The contexts with which the rest of `verify` runs, and the state then. -/
structure Setup (w : World) (a : AuthData) (args : VerifyArgs) (cid : Nat) (cs : Option Nat) (v : World) : Prop where
  run : ∀ {β : Type} (k : Nat → Option Nat → M β),
    (chooseContext a args >>= fun cid => chooseCsContext a args >>= fun cs => k cid cs) w = k cid cs v
  stores : v.stores = w.stores
  dicts : v.dicts = w.dicts
  next : w.nextCtx ≤ v.nextCtx
  old : ∀ j, j < w.nextCtx → v.ctxs j = w.ctxs j
  signer : v.ctxs cid = signerContext w a args
  counter : ∀ c, a.counter = some c → args.countersignatureMode ≠ "ignore" → ∃ i, cs = some i ∧ v.ctxs i = counterContext w a c args
  hcid : args.context = some cid ∨ (args.context = none ∧ w.nextCtx ≤ cid)
  hcs : ∀ i, cs = some i → args.csContext = some i ∨ (args.csContext = none ∧ w.nextCtx ≤ i ∧ i ≠ cid)

theorem newCtx_run (c : Ctx) (w : World) : M.newCtx c w =
    (.ok w.nextCtx, { w with ctxs := fun j => if j = w.nextCtx then c else w.ctxs j, nextCtx := w.nextCtx + 1 }) := rfl

theorem mkCtx_eq (stores : List StoreRef) (ekus : List String) (o : CtxOptions) : mkCtx stores ekus o = contextOf stores ekus o := rfl

theorem setup (w : World) (a : AuthData) (args : VerifyArgs) (he : ContextsExist w args) :
    ∃ cid cs v, Setup w a args cid cs v := by
  obtain ⟨cid, v1, h1, s1, d1, n1, o1, c1, i1⟩ : ∃ cid v1, chooseContext a args w = (.ok cid, v1) ∧ v1.stores = w.stores ∧
      v1.dicts = w.dicts ∧ w.nextCtx ≤ v1.nextCtx ∧ (∀ j, j < w.nextCtx → v1.ctxs j = w.ctxs j) ∧
      v1.ctxs cid = signerContext w a args ∧
      ((args.context = some cid ∧ v1.nextCtx = w.nextCtx) ∨ (args.context = none ∧ cid = w.nextCtx ∧ v1.nextCtx = w.nextCtx + 1)) := by
    unfold chooseContext signerContext
    cases args.context with
    | some c => exact ⟨c, w, rfl, rfl, rfl, Nat.le_refl _, fun _ _ => rfl, rfl, .inl ⟨rfl, rfl⟩⟩
    | none =>
      refine ⟨_, _, newCtx_run _ w, rfl, rfl, Nat.le_succ _, fun j hj => ?_, by simp [mkCtx_eq], .inr ⟨rfl, rfl, rfl⟩⟩
      simp only
      rw [if_neg (Nat.ne_of_lt hj)]
  have hcid : cid < v1.nextCtx := by
    rcases i1 with ⟨h, e⟩ | ⟨-, e1, e2⟩
    · rw [e]; exact he.context _ h
    · rw [e1, e2]; exact Nat.lt_succ_self _
  have hbase : ∀ cs, (∀ c, a.counter = some c → args.countersignatureMode ≠ "ignore" → ∃ i, cs = some i ∧ v1.ctxs i = counterContext w a c args) →
      (∀ i, cs = some i → args.csContext = some i) → chooseCsContext a args v1 = (.ok cs, v1) → ∃ cid cs v, Setup w a args cid cs v := by
    intro cs hc hcs hrun
    refine ⟨cid, cs, v1, ?_, s1, d1, n1, o1, c1, hc, ?_, fun i hi => .inl (hcs i hi)⟩
    · intro β k
      rw [M.bind_ok h1, M.bind_ok hrun]
    · rcases i1 with ⟨h, -⟩ | ⟨h, e1, -⟩
      · exact .inl h
      · exact .inr ⟨h, by omega⟩
  cases hcs : args.csContext with
  | some i =>
    refine hbase (some i) (fun c _ _ => ⟨i, rfl, ?_⟩) (fun j hj => by cases hj; exact hcs) ?_
    · rw [o1 i (he.csContext i hcs)]
      unfold counterContext
      rw [hcs]
    · unfold chooseCsContext; rw [hcs]; rfl
  | none =>
    cases hcnt : a.counter with
    | none =>
      refine hbase none (fun c hc _ => by rw [hcnt] at hc; cases hc) (fun i hi => by cases hi) ?_
      unfold chooseCsContext; rw [hcs, hcnt]; rfl
    | some c =>
      by_cases hm : args.countersignatureMode = "ignore"
      · refine hbase none (fun c _ hn => absurd hm hn) (fun i hi => by cases hi) ?_
        unfold chooseCsContext; rw [hcs, hcnt]
        simp only
        rw [if_neg (not_not_intro hm)]; rfl
      · let v2 : World := { v1 with
          ctxs := fun j => if j = v1.nextCtx then mkCtx (counterStores a c args.trusted) ["time_stamping"] args.options else v1.ctxs j
          nextCtx := v1.nextCtx + 1 }
        have hrun : chooseCsContext a args v1 = (.ok (some v1.nextCtx), v2) := by
          unfold chooseCsContext; rw [hcs, hcnt]
          simp only
          rw [if_pos hm]; rfl
        refine ⟨cid, some v1.nextCtx, v2, ?_, s1, d1, by show w.nextCtx ≤ v1.nextCtx + 1; omega, ?_, ?_, ?_, ?_, ?_⟩
        · intro β k
          rw [M.bind_ok h1, M.bind_ok hrun]
        · intro j hj
          show (if j = v1.nextCtx then _ else v1.ctxs j) = _
          rw [if_neg (by omega)]
          exact o1 j hj
        · show (if cid = v1.nextCtx then _ else v1.ctxs cid) = _
          rw [if_neg (Nat.ne_of_lt hcid)]
          exact c1
        · intro c' hc' _
          rw [hcnt] at hc'
          cases hc'
          refine ⟨_, rfl, ?_⟩
          show (if v1.nextCtx = v1.nextCtx then _ else v1.ctxs v1.nextCtx) = _
          rw [if_pos rfl]
          unfold counterContext counterStores
          rw [hcs]
          cases c <;> rfl
        · rcases i1 with ⟨h, -⟩ | ⟨h, e1, -⟩
          · exact .inl h
          · exact .inr ⟨h, by omega⟩
        · intro i hi
          cases hi
          exact .inr ⟨hcs, n1, by omega⟩

theorem Setup.separate {w : World} {a : AuthData} {args : VerifyArgs} {cid : Nat} {cs : Option Nat} {v : World}
    (h : Setup w a args cid cs v) (he : ContextsExist w args) (hs : SeparateContexts args) : cs ≠ some cid := by
  intro e
  rcases h.hcs cid e with h1 | ⟨-, -, h1⟩
  · rcases h.hcid with h2 | ⟨h2, h3⟩
    · rcases hs with hs | hs
      · rw [hs] at h2; cases h2
      · exact hs (h2.trans h1.symm)
    · have := he.csContext cid h1
      omega
  · exact h1 rfl

/-! ### the whole -/

/-- The steps of a successful verification. -/
theorem asdVerify_steps {env : Env} {file : Option Bytes} {a : AuthData} {args : VerifyArgs} {w w' : World}
    {chains : List (List Cert)} {cid : Nat} {cs : Option Nat} {v : World} (hs : Setup w a args cid cs v)
    (h : asdVerify env file a args w = (.ok chains, w')) :
    DigestsMatch env file a args.expectedHash ∧ ∃ t u, counterTime env a args.countersignatureMode cs v = (.ok t, u) ∧
      authSignerVerify env cid a.signer t u = (.ok chains, w') := by
  have hrun := hs.run (fun cid cs => M.lift (checkDigests env file a args.expectedHash) >>= fun _ =>
    counterTime env a args.countersignatureMode cs >>= fun t => authSignerVerify env cid a.signer t)
  have h' : asdVerify env file a args w = _ := hrun
  rw [h'] at h
  obtain ⟨u, v1, h1, h2⟩ := M.bind_eq_ok h
  obtain ⟨g1, e1⟩ := lift_eq_ok h1
  subst e1
  obtain ⟨t, v2, h3, h4⟩ := M.bind_eq_ok h2
  exact ⟨checkDigests_ok.1 g1, t, v2, h3, h4⟩

/-- The signing time obtained from the countersignature. -/
theorem counterTime_ok {env : Env} {a : AuthData} {mode : String} {cs : Option Nat} {v u : World} {t : Option Int}
    (h : counterTime env a mode cs v = (.ok t, u)) :
    (a.counter = none ∧ t = none ∧ u = v) ∨
    (∃ c, a.counter = some c ∧ mode = "ignore" ∧ t = none ∧ u = v) ∨
    (∃ c i, a.counter = some c ∧ mode ≠ "ignore" ∧ cs = some i ∧ checkCounter env a c i v = (.ok (), u) ∧ t = c.signingTime) ∨
    (∃ c i e, a.counter = some c ∧ mode ≠ "ignore" ∧ mode ≠ "strict" ∧ cs = some i ∧ checkCounter env a c i v = (.error e, u) ∧
      t = none) := by
  unfold counterTime at h
  cases hc : a.counter with
  | none =>
    rw [hc] at h
    cases h
    exact .inl ⟨rfl, rfl, rfl⟩
  | some c =>
    rw [hc] at h
    simp only at h
    by_cases hm : mode = "ignore"
    · rw [if_neg (not_not_intro hm), M.pure_run] at h
      cases h
      exact .inr (.inl ⟨c, rfl, hm, rfl, rfl⟩)
    · rw [if_pos hm] at h
      cases cs with
      | none => cases (Prod.mk.inj h).1
      | some i =>
        simp only at h
        rcases hx : checkCounter env a c i v with ⟨r, v1⟩
        rw [M.bind_ok (show M.attempt (checkCounter env a c i) v = (.ok r, v1) by unfold M.attempt; rw [hx])] at h
        cases r with
        | ok x =>
          simp only at h
          rw [M.pure_run] at h
          cases h
          exact .inr (.inr (.inl ⟨c, i, rfl, hm, rfl, hx, rfl⟩))
        | error e =>
          simp only at h
          by_cases hst : mode = "strict"
          · rw [if_neg (not_not_intro hst)] at h
            cases (Prod.mk.inj h).1
          · rw [if_pos hst, M.pure_run] at h
            cases h
            exact .inr (.inr (.inr ⟨c, i, e, rfl, hm, hst, rfl, hx, rfl⟩))

/-- A successful verification, for any contexts. -/
theorem asdVerify_sound {env : Env} {file : Option Bytes} {a : AuthData} {args : VerifyArgs} {w w' : World}
    {chains : List (List Cert)} (he : ContextsExist w args) (h : asdVerify env file a args w = (.ok chains, w')) :
    DigestsMatch env file a args.expectedHash ∧ chains ≠ [] ∧ ∃ t ts,
      (SeparateContexts args → ts = (signerContext w a args).timestamp) ∧
      (a.counter = none ∨ args.countersignatureMode = "ignore" → t = none ∧ ts = (signerContext w a args).timestamp) ∧
      (∀ c, a.counter = some c → args.countersignatureMode ≠ "ignore" →
        (t = c.signingTime ∧ CounterGood env w' (counterContext w a c args) a.signer.encryptedDigest c) ∨
        (t = none ∧ args.countersignatureMode ≠ "strict")) ∧
      ∀ chain ∈ chains, ∃ c t', SignedBy env w' (signerContext w a args) a.signer c ∧
        Validated env w' (signerContext w a args) t' c chain ∧
        (¬ LifetimeSigning c → t' = t.or ts) ∧
        (LifetimeSigning c → t' = ts ∨ ∃ c', SignedBy env w' (signerContext w a args) a.signer c' ∧ ¬ LifetimeSigning c' ∧
          t.isSome = true ∧ t' = t) := by
  obtain ⟨cid, cs, v, hs⟩ := setup w a args he
  obtain ⟨hd, t, u, h1, h2⟩ := asdVerify_steps hs h
  have hkeep : Frame (fun j => cs = some j) (fun j => cs = some j) v u := by
    have := Keeps.counterTime (D := fun j => cs = some j) (T := fun j => cs = some j) env a args.countersignatureMode cs
      (fun i hi => hi) (fun i hi => hi) v
    rw [h1] at this
    exact this
  have hkeep2 : Frame (fun j => j = cid) (fun j => j = cid) u w' := by
    have := Keeps.authSignerVerify (D := fun j => j = cid) (T := fun j => j = cid) env rfl rfl a.signer t u
    rw [h2] at this
    exact this
  have hstep : CtxStep (signerContext w a args) (u.ctxs cid) := by
    have := hkeep.ctxs cid
    rw [hs.signer] at this
    exact this
  obtain ⟨g1, g2⟩ := signerVerifyWith_sound (tf := fun c => if lifetimeSigning c then none else t)
    (show signerVerifyWith env cid a.signer (fun c => verifyIssuer env cid a.signer (if lifetimeSigning c then none else t) c) u
      = (.ok chains, w') from h2)
  refine ⟨hd, g1, t, (u.ctxs cid).timestamp, ?_, ?_, ?_, ?_⟩
  · intro hsep
    rw [hkeep.times cid (hs.separate he hsep), hs.signer]
  · intro hno
    rcases counterTime_ok h1 with ⟨k1, k2, k3⟩ | ⟨c, k1, k2, k3, k4⟩ | ⟨c, i, k1, k2, -⟩ | ⟨c, i, e, k1, k2, -⟩
    · subst k3; exact ⟨k2, by rw [hs.signer]⟩
    · subst k4; exact ⟨k3, by rw [hs.signer]⟩
    · rcases hno with hno | hno
      · rw [hno] at k1; cases k1
      · exact absurd hno k2
    · rcases hno with hno | hno
      · rw [hno] at k1; cases k1
      · exact absurd hno k2
  · intro c hc hm
    obtain ⟨i0, e0, hci⟩ := hs.counter c hc hm
    rcases counterTime_ok h1 with ⟨k1, -⟩ | ⟨c', -, k2, -⟩ | ⟨c', i, k1, -, k3, k4, k5⟩ | ⟨c', i, e, k1, -, k3, -, -, k5⟩
    · rw [k1] at hc; cases hc
    · exact absurd k2 hm
    · rw [k1] at hc; cases hc
      rw [e0] at k3; cases k3
      left
      have := checkCounter_sound k4
      rw [hci] at this
      exact ⟨k5, this.mono hkeep2⟩
    · exact .inr ⟨k5, k3⟩
  · intro chain hc
    obtain ⟨c, t', s1, s2, s3, s4⟩ := g2 chain hc
    refine ⟨c, t', s1.ctxStep hstep, s2.ctxStep hstep, ?_, ?_⟩
    · intro hl
      have hl' : lifetimeSigning c = false := by
        cases hb : lifetimeSigning c with
        | false => rfl
        | true => exact absurd (lifetimeSigning_iff.1 hb) hl
      simp only [hl', Bool.false_eq_true, if_false] at s3 s4
      cases t with
      | some x => exact s3 x rfl
      | none =>
        rcases s4 rfl with s4 | ⟨c', x, -, s5, -⟩
        · exact s4
        · split at s5 <;> cases s5
    · intro hl
      have hl' : lifetimeSigning c = true := lifetimeSigning_iff.2 hl
      simp only [hl', if_true] at s4
      rcases s4 trivial with s4 | ⟨c', x, s5, s6, s7⟩
      · exact .inl s4
      · right
        cases hb : lifetimeSigning c' with
        | true => rw [hb] at s6; cases s6
        | false =>
          rw [hb] at s6
          simp only [Bool.false_eq_true, if_false] at s6
          refine ⟨c', s5.ctxStep hstep, ?_, by rw [s6]; rfl, by rw [s7, s6]⟩
          intro h
          rw [lifetimeSigning_iff.2 h] at hb
          cases hb

end Signify
