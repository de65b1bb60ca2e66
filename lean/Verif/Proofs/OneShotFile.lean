/-
`SignedPEFile.verify` with an iterator of key usages: what is left of the iterator from signature to signature (C95).
-/
import Verif.Model.OneShotFile
import Verif.Spec.OneShotFile
import Verif.Proofs.OneShot
import Verif.Proofs.Files

set_option autoImplicit false

namespace Signify

open Spec

theorem handUsages_run (i j : Nat) (u : World) :
    handUsages i j u = (.ok (), { u with ctxs := fun k => if k = j then { u.ctxs j with keyUsages := (u.ctxs i).keyUsages } else u.ctxs k }) := rfl

/-- The outcome is that of `asdVerifyOnce`; what the call does to the place of the iterator comes last. -/
theorem asdVerifyFrom_once (env : Env) (file : Option Bytes) (a : AuthData) (args : VerifyArgs) (slot : Nat) (w : World) :
    (asdVerifyFrom env file a args slot w).1 = (asdVerifyOnce env file a args (w.ctxs slot).keyUsages.elems w).1 := by
  unfold asdVerifyFrom asdVerifyOnce
  rw [M.bind_ok (show M.getCtx slot w = (.ok (w.ctxs slot), w) from rfl), M.bind_run, M.bind_run]
  rcases chooseContextOnce a args (w.ctxs slot).keyUsages.elems w with ⟨r, w1⟩
  cases r with
  | error e => rfl
  | ok cid =>
    simp only
    rw [M.bind_run, M.bind_run]
    rcases chooseCsContextOnce a args (w.ctxs slot).keyUsages.elems w1 with ⟨r, w2⟩
    cases r with
    | error e => rfl
    | ok cs =>
      simp only
      rw [M.bind_run, M.bind_run]
      rcases M.lift (checkDigests env file a args.expectedHash) w2 with ⟨r, w3⟩
      cases r with
      | error e => rfl
      | ok u =>
        simp only
        rcases hx : counterTime env a args.countersignatureMode cs w3 with ⟨r, w4⟩
        rw [M.bind_ok (show M.attempt (counterTime env a args.countersignatureMode cs) w3 = (.ok r, w4) by unfold M.attempt; rw [hx])]
        cases r with
        | error e =>
          rw [M.bind_error hx]
          simp only
          unfold leftByCounter
          split <;> rfl
        | ok t =>
          rw [M.bind_ok hx]
          simp only
          rw [M.bind_run, M.bind_run]
          rcases shareUsages args cid cs w4 with ⟨r, w5⟩
          cases r with
          | error e => rfl
          | ok u =>
            simp only
            rcases hy : authSignerVerify env cid a.signer t w5 with ⟨r, w6⟩
            rw [M.bind_ok (show M.attempt (authSignerVerify env cid a.signer t) w5 = (.ok r, w6) by unfold M.attempt; rw [hy])]
            unfold leftBySigner leftByCounter
            split
            · rfl
            · split <;> rfl

/-- The place `slot` holds an iterator from which `l` is still to come. -/
def Holds (slot : Nat) (l : List String) (w : World) : Prop := slot < w.nextCtx ∧ (w.ctxs slot).keyUsages = .gen l

theorem iterStep_gen {l : List String} {p : PyIter} (h : IterStep (.gen l) p) : p = .gen l ∨ p = .gen [] := h

/-- The chains that are accepted with an iterator from which `l` is still to come. -/
theorem signer_answered {env : Env} {cid : Nat} {s : Signer} {t : Option Int} {w w' : World} {chains : List (List Cert)} {l : List String}
    (hk : (w.ctxs cid).keyUsages = .gen l) (h : authSignerVerify env cid s t w = (.ok chains, w')) :
    ∀ chain ∈ chains, AnsweredFor env l [chain] ∨ AnsweredFor env [] [chain] := by
  intro chain hc
  obtain ⟨-, h2⟩ := signerVerifyWith_sound (tf := fun c => if lifetimeSigning c then none else t) h
  obtain ⟨c, t', -, hv, -⟩ := h2 chain hc
  obtain ⟨kus, ekus, h1, -, h3⟩ := hv.answer
  rw [hk] at h1
  rcases h1 with h1 | ⟨h1, -⟩
  · refine .inl fun ch hch => ?_
    rw [List.mem_singleton] at hch
    subst hch
    exact ⟨_, h1, h3⟩
  · refine .inr fun ch hch => ?_
    rw [List.mem_singleton] at hch
    subst hch
    exact ⟨_, h1, h3⟩

/-- One signature: what is left of the iterator. -/
theorem asdVerifyFrom_after {env : Env} {file : Option Bytes} {a : AuthData} {args : VerifyArgs} {slot : Nat} {l : List String} {w : World}
    (h1 : args.context = none) (h2 : args.csContext = none) (hw : Holds slot l w) :
    ∃ l', Holds slot l' (asdVerifyFrom env file a args slot w).2 ∧ LeftAfter env file w a args l (asdVerifyFrom env file a args slot w).1 l' ∧
      (∀ i, StoreStep (w.stores i) ((asdVerifyFrom env file a args slot w).2.stores i)) ∧
      ∀ chains, (asdVerifyFrom env file a args slot w).1 = .ok chains → ∀ chain ∈ chains, AnsweredFor env l [chain] ∨ AnsweredFor env [] [chain] := by
  obtain ⟨hlt, hg⟩ := hw
  have hel : (w.ctxs slot).keyUsages.elems = l := by rw [hg]; rfl
  obtain ⟨cid, cs, v, hs⟩ := onceSetup w a args l h1 h2
  obtain ⟨hsc, hss, hsv⟩ := hs.older slot hlt
  have hrun : asdVerifyFrom env file a args slot w = (M.lift (checkDigests env file a args.expectedHash) >>= fun _ =>
      M.attempt (counterTime env a args.countersignatureMode cs) >>= fun
      | .error e => leftByCounter args slot cs >>= fun _ => M.raise e
      | .ok t => shareUsages args cid cs >>= fun _ => M.attempt (authSignerVerify env cid a.signer t) >>= fun r =>
          leftBySigner args slot cid cs >>= fun _ => M.lift r) v := by
    unfold asdVerifyFrom
    rw [M.bind_ok (show M.getCtx slot w = (.ok (w.ctxs slot), w) from rfl), hel]
    exact hs.run (fun cid cs => M.lift (checkDigests env file a args.expectedHash) >>= fun _ =>
      M.attempt (counterTime env a args.countersignatureMode cs) >>= fun
      | .error e => leftByCounter args slot cs >>= fun _ => M.raise e
      | .ok t => shareUsages args cid cs >>= fun _ => M.attempt (authSignerVerify env cid a.signer t) >>= fun r =>
          leftBySigner args slot cid cs >>= fun _ => M.lift r)
  have hlt' : slot < v.nextCtx := Nat.lt_of_lt_of_le hlt hs.next
  rw [hrun]
  cases hd : checkDigests env file a args.expectedHash with
  | error e =>
    rw [M.bind_error (M.lift_run _ _)]
    have hda : ¬ DigestsAgree env file a args.expectedHash := by
      rw [← digestsMatch_iff, ← checkDigests_ok, hd]
      intro h; cases h
    refine ⟨l, ⟨hlt', by rw [hsv]; exact hg⟩, ⟨.inl rfl, fun _ => rfl, fun _ h => (by cases h), fun _ _ _ h => absurd h hda, fun _ h => absurd h hda⟩,
      fun i => .inl (by rw [hs.stores]), fun _ h => (by cases h)⟩
  | ok u =>
    rw [M.bind_ok (M.lift_run _ _)]
    have hda : DigestsAgree env file a args.expectedHash := by
      rw [← digestsMatch_iff, ← checkDigests_ok, hd]
    have hfr : Frame (fun j => cs = some j) (fun j => cs = some j) v (counterTime env a args.countersignatureMode cs v).2 :=
      Keeps.counterTime env a args.countersignatureMode cs (fun _ h => h) (fun _ h => h) v
    -- the countersignature leaves what it leaves
    have hleft : ∀ c, a.counter = some c → args.countersignatureMode ≠ "ignore" → ∃ i, cs = some i ∧
        LeftBy env w a c ((counterContext w a c args).requiring (.gen l)) ((counterTime env a args.countersignatureMode cs v).2.ctxs i).keyUsages := by
      intro c hc hm
      obtain ⟨i, hi, -, hv⟩ := hs.counter c hc hm
      refine ⟨i, hi, i, v, hs.stores, hv, ?_⟩
      have : (counterTime env a args.countersignatureMode cs v).2 = (checkCounter env a c i v).2 := by
        unfold counterTime
        rw [hc, hi]
        simp only
        rw [if_pos hm]
        rcases hx : checkCounter env a c i v with ⟨r, u'⟩
        rw [M.bind_ok (show M.attempt (checkCounter env a c i) v = (.ok r, u') by unfold M.attempt; rw [hx])]
        cases r with
        | ok _ => rfl
        | error e => simp only; split <;> rfl
      rw [this]
    have hnone : a.counter = none ∨ args.countersignatureMode = "ignore" → counterTime env a args.countersignatureMode cs v = (.ok none, v) := by
      intro hno
      unfold counterTime
      rcases hno with hno | hno
      · rw [hno]; rfl
      · cases a.counter with
        | none => rfl
        | some c => simp only; rw [if_neg (not_not_intro hno)]; rfl
    rcases hx : counterTime env a args.countersignatureMode cs v with ⟨r, u1⟩
    rw [hx] at hfr hleft hnone
    simp only at hfr hleft
    rw [M.bind_ok (show M.attempt (counterTime env a args.countersignatureMode cs) v = (.ok r, u1) by unfold M.attempt; rw [hx])]
    have hu1 : u1.ctxs slot = w.ctxs slot := by rw [hfr.other slot hss, hsv]
    have hn1 : slot < u1.nextCtx := by rw [hfr.next]; exact hlt'
    have hst1 : ∀ i, StoreStep (w.stores i) (u1.stores i) := fun i => by have := hfr.stores i; rw [hs.stores] at this; exact this
    -- the iterator in the context of the countersigner
    have hcs : ∀ i, cs = some i → (u1.ctxs i).keyUsages = .gen l ∨ (u1.ctxs i).keyUsages = .gen [] := by
      intro i hi
      by_cases hno : a.counter = none ∨ args.countersignatureMode = "ignore"
      · rw [hs.ignored hno] at hi; cases hi
      · cases hc : a.counter with
        | none => exact absurd (.inl hc) hno
        | some c =>
          obtain ⟨j, hj, -, hv⟩ := hs.counter c hc (fun e => hno (.inr e))
          rw [hi] at hj
          cases hj
          have := (hfr.ctxs i).kus
          rw [hv] at this
          exact iterStep_gen this
    have hcs' : ∀ i, cs = some i → ∃ x, (x = l ∨ x = []) ∧ (u1.ctxs i).keyUsages = .gen x := fun i hi =>
      (hcs i hi).elim (fun h => ⟨l, .inl rfl, h⟩) (fun h => ⟨[], .inr rfl, h⟩)
    cases r with
    | error e =>
      simp only
      have hno : ¬ (a.counter = none ∨ args.countersignatureMode = "ignore") := fun h => by cases (Prod.mk.inj (hnone h)).1
      cases hc : a.counter with
      | none => exact absurd (.inl hc) hno
      | some c =>
        obtain ⟨i, rfl, hl⟩ := hleft c hc (fun e => hno (.inr e))
        obtain ⟨x, hx1, hx2⟩ := hcs' i rfl
        have : leftByCounter args slot (some i) u1 = handUsages i slot u1 := by unfold leftByCounter; rw [h2]
        rw [M.bind_ok (this.trans (handUsages_run i slot u1))]
        refine ⟨x, ⟨hn1, ?_⟩, ⟨hx1, fun h => absurd hda h, fun _ h => (by cases h), ?_, fun h => ?_⟩, hst1, fun _ h => (by cases h)⟩
        · show (if slot = slot then { u1.ctxs slot with keyUsages := (u1.ctxs i).keyUsages } else u1.ctxs slot).keyUsages = _
          rw [if_pos rfl]
          exact hx2
        · intro c' hc' _ _
          cases hc.symm.trans hc'
          rw [hx2] at hl
          exact hl
        · exact absurd h hno
    | ok t =>
      simp only
      -- the iterator in the context of the signer
      have hshare : ∃ u2 l', shareUsages args cid cs u1 = (.ok (), u2) ∧ slot < u2.nextCtx ∧ (l' = l ∨ l' = []) ∧ (u2.ctxs cid).keyUsages = .gen l' ∧
          u2.stores = u1.stores ∧ (∀ i, cs = some i → (u1.ctxs i).keyUsages = .gen l') ∧ (cs = none → u2 = u1 ∧ l' = l) := by
        cases cs with
        | none =>
          refine ⟨u1, l, (by unfold shareUsages; rw [h1, h2]; rfl), hn1, .inl rfl, ?_, rfl, fun i h => (by cases h), fun _ => ⟨rfl, rfl⟩⟩
          rw [hfr.other cid (by intro h; cases h), hs.signer]
        | some i =>
          obtain ⟨x, hx1, hx2⟩ := hcs' i rfl
          refine ⟨_, x, shareUsages_run h1 h2 cid i u1, hn1, hx1, ?_, rfl, fun j h => (by cases h; exact hx2), fun h => (by cases h)⟩
          show (if cid = cid then { u1.ctxs cid with keyUsages := (u1.ctxs i).keyUsages } else u1.ctxs cid).keyUsages = _
          rw [if_pos rfl]
          exact hx2
      obtain ⟨u2, l', e2, hn2, hl', hk2, hst2, hcl, hnl⟩ := hshare
      rw [M.bind_ok e2]
      have hfr2 : Frame (fun j => j = cid) (fun j => j = cid) u2 (authSignerVerify env cid a.signer t u2).2 :=
        Keeps.authSignerVerify (D := fun j => j = cid) (T := fun j => j = cid) env rfl rfl a.signer t u2
      rcases hy : authSignerVerify env cid a.signer t u2 with ⟨r, u3⟩
      rw [hy] at hfr2
      simp only at hfr2
      rw [M.bind_ok (show M.attempt (authSignerVerify env cid a.signer t) u2 = (.ok r, u3) by unfold M.attempt; rw [hy])]
      have : leftBySigner args slot cid cs u3 = handUsages cid slot u3 := by unfold leftBySigner; rw [h1]
      rw [M.bind_ok (this.trans (handUsages_run cid slot u3)), M.lift_run]
      have hn3 : slot < u3.nextCtx := by rw [hfr2.next]; exact hn2
      have hk3 := (hfr2.ctxs cid).kus
      rw [hk2] at hk3
      obtain ⟨x, hx1, hx2, hx3⟩ : ∃ x, (x = l' ∨ x = []) ∧ (u3.ctxs cid).keyUsages = .gen x ∧ (l' = [] → x = []) :=
        (iterStep_gen hk3).elim (fun h => ⟨l', .inl rfl, h, id⟩) (fun h => ⟨[], .inr rfl, h, fun _ => rfl⟩)
      have hxl : x = l ∨ x = [] := by
        rcases hx1 with rfl | rfl
        · exact hl'
        · exact .inr rfl
      have hver : ∀ chains, r = .ok chains → x = [] := by
        intro chains hr
        subst hr
        have := signerVerifyWith_used (tf := fun c => if lifetimeSigning c then none else t) hy
        rw [hk2, hx2] at this
        cases this
        rfl
      refine ⟨x, ⟨hn3, ?_⟩, ⟨hxl, fun h => absurd hda h, hver, ?_, ?_⟩, ?_, fun chains hc chain hch => ?_⟩
      · show (if slot = slot then { u3.ctxs slot with keyUsages := (u3.ctxs cid).keyUsages } else u3.ctxs slot).keyUsages = _
        rw [if_pos rfl]
        exact hx2
      · intro c hc hm _
        have hm' : args.countersignatureMode ≠ "ignore" := by rw [hm]; decide
        obtain ⟨i, hi, hl⟩ := hleft c hc hm'
        rw [hcl i hi] at hl
        -- the countersignature has been accepted, so that nothing is left
        have hl0 : l' = [] := by
          subst hi
          rcases counterTime_ok hx with ⟨h, -⟩ | ⟨_, _, h, -⟩ | ⟨c', j, hc', -, hj, hk, -⟩ | ⟨c', i', e', hc', -, h, -⟩
          · rw [hc] at h; cases h
          · exact absurd h hm'
          · cases hj
            obtain ⟨j, hj, -, hv⟩ := hs.counter c hc hm'
            cases hj
            have h3 := checkCounter_used hk
            rw [hv, hcl i rfl] at h3
            cases h3
            rfl
          · exact absurd hm h
        rw [hx3 hl0]
        rw [hl0] at hl
        exact hl
      · intro hno _
        have hcs0 := hs.ignored hno
        obtain ⟨rfl, rfl⟩ := hnl hcs0
        obtain ⟨ht, hu⟩ := Prod.mk.inj (hnone hno)
        cases ht
        subst hu
        exact ⟨cid, u2, hs.stores, hs.signer, by rw [hy]; exact hx2⟩
      · intro i
        have h3 := hfr2.stores i
        rw [hst2] at h3
        exact (hst1 i).trans h3
      · simp only at hc
        subst hc
        rcases hl' with rfl | rfl
        · exact signer_answered hk2 hy chain hch
        · exact .inr ((signer_answered hk2 hy chain hch).elim id id)

/-- One signature: the iterator is as before or used up; it is used up if the signature verifies. -/
theorem asdVerifyFrom_left {env : Env} {file : Option Bytes} {a : AuthData} {args : VerifyArgs} {slot : Nat} {l : List String} {w : World}
    (h1 : args.context = none) (h2 : args.csContext = none) (hw : Holds slot l w) :
    (Holds slot l (asdVerifyFrom env file a args slot w).2 ∨ Holds slot [] (asdVerifyFrom env file a args slot w).2) ∧
    ∀ chains, (asdVerifyFrom env file a args slot w).1 = .ok chains → Holds slot [] (asdVerifyFrom env file a args slot w).2 ∧
      ∀ chain ∈ chains, AnsweredFor env l [chain] ∨ AnsweredFor env [] [chain] := by
  obtain ⟨l', g1, g2, -, g4⟩ := asdVerifyFrom_after (env := env) (file := file) (a := a) h1 h2 hw
  refine ⟨?_, fun chains hc => ⟨by rw [← g2.verified chains hc]; exact g1, g4 chains hc⟩⟩
  rcases g2.either with rfl | rfl
  · exact .inl g1
  · exact .inr g1

/-- The signatures tried, one after the other. -/
theorem attemptsOnce_of_tried {env : Env} {file : Bytes} {hashes provided : Dict String Bytes} {kwargs : VerifyArgs} {slot : Nat}
    (h1 : kwargs.context = none) (h2 : kwargs.csContext = none) {w w' : World} {tried : List (ASD × Except Exc (List (List Cert)))}
    (hh : ∀ a ∈ tried.map Prod.fst, ∃ d, hashes.get? a.d.core.digestAlg = some d ∧ DigestFor env file provided a.d.core.digestAlg d)
    (ht : Tried (verifyOneFrom env file hashes kwargs slot) w tried w') : ∀ {l : List String}, Holds slot l w →
    AttemptsOnce env file provided kwargs l w tried := by
  induction ht with
  | nil w => intro l _; exact .nil l w
  | cons a w w' rest _ ih =>
    intro l hw
    obtain ⟨d, hd, hf⟩ := hh a (List.mem_cons_self ..)
    have e : verifyOneFrom env file hashes kwargs slot a = asdVerifyFrom env (some file) a.d { kwargs with expectedHash := some d } slot := by
      unfold verifyOneFrom; rw [hd]
    rw [e] at ih ⊢
    obtain ⟨l', g1, g2, g3, -⟩ := asdVerifyFrom_after (env := env) (file := some file) (a := a.d) (args := { kwargs with expectedHash := some d }) h1 h2 hw
    have e1 : (asdVerifyFrom env (some file) a.d { kwargs with expectedHash := some d } slot w).1 =
        (asdVerifyOnce env (some file) a.d { kwargs with expectedHash := some d } l w).1 := by
      rw [asdVerifyFrom_once, hw.2]; rfl
    rw [e1] at g2 ⊢
    exact .cons a d l l' w _ rest hf g2 g3 (ih (fun b hb => hh b (List.mem_cons_of_mem _ hb)) g1)

/-- The loop. -/
theorem verifyLoop_left {env : Env} {check : ASD → M (List (List Cert))} {slot : Nat} {l0 : List String} (mode : String)
    (hc : ∀ a l w, Holds slot l w → (Holds slot l (check a w).2 ∨ Holds slot [] (check a w).2) ∧
      ∀ chains, (check a w).1 = .ok chains → Holds slot [] (check a w).2 ∧ ∀ chain ∈ chains, AnsweredFor env l [chain] ∨ AnsweredFor env [] [chain])
    (sel : List ASD) : ∀ (chains : List (ASD × List (List Cert))) (last : Option Exc) (l : List String) (w : World),
    Holds slot l w → (l = l0 ∨ l = []) → (chains ≠ [] → l = []) → AskedOnce env l0 chains →
    ∀ res, (verifyLoop check mode sel chains last w).1 = .ok res → AskedOnce env l0 res := by
  induction sel with
  | nil =>
    intro chains last l w _ _ _ hq res h
    cases last with
    | none => rw [verifyLoop] at h; cases h; exact hq
    | some e => rw [verifyLoop] at h; cases h
  | cons a sel ih =>
    intro chains last l w hw hl hch hq res h
    rw [verifyLoop] at h
    obtain ⟨h1, h2⟩ := hc a l w hw
    rcases hx : check a w with ⟨r, w1⟩
    rw [hx] at h1 h2
    simp only at h1 h2
    rw [M.bind_ok (show M.attempt (check a) w = (.ok r, w1) by unfold M.attempt; rw [hx])] at h
    cases r with
    | error e =>
      simp only at h
      split at h
      · cases h
      · rcases h1 with h1 | h1
        · exact ih _ _ _ _ h1 hl hch hq res h
        · exact ih _ _ _ _ h1 (.inr rfl) (fun _ => rfl) hq res h
    | ok c =>
      obtain ⟨h3, h4⟩ := h2 c rfl
      have hone : ∀ chain ∈ c, AnsweredFor env l0 [chain] ∨ AnsweredFor env [] [chain] := by
        intro chain hcm
        rcases hl with rfl | rfl
        · exact h4 chain hcm
        · exact .inr ((h4 chain hcm).elim id id)
      simp only at h
      split at h
      · refine ih _ _ _ _ h3 (.inr rfl) (fun _ => rfl) ⟨?_, ?_⟩ res h
        · intro p hp
          rcases List.mem_append.1 hp with hp | hp
          · exact hq.1 p hp
          · rw [List.mem_singleton] at hp; subst hp; exact hone
        · intro p hp
          cases chains with
          | nil => cases hp
          | cons x xs =>
            have hp' : p ∈ xs ++ [(a, c)] := hp
            rcases List.mem_append.1 hp' with hp' | hp'
            · exact hq.2 p hp'
            · rw [List.mem_singleton] at hp'
              subst hp'
              intro chain hcm
              have hle := hch (by intro h; cases h)
              subst hle
              exact ((h4 chain hcm).elim id id) chain (List.mem_singleton.2 rfl)
      · cases h
        exact ⟨fun p hp => (by rw [List.mem_singleton] at hp; subst hp; exact hone), fun p hp => (by cases hp)⟩

end Signify
