/-
Which timestamps verifications leave in contexts.
-/
import Verif.Proofs.History

set_option autoImplicit false

namespace Signify

open Spec

/-- Every context has after the action the timestamp it had before, or one that `V` allows for it. -/
def Stamps {α : Type} (V : Nat → Option Int → Prop) (x : M α) : Prop :=
  ∀ w j, ((x w).2.ctxs j).timestamp = (w.ctxs j).timestamp ∨ V j ((x w).2.ctxs j).timestamp

namespace Stamps

variable {α β : Type} {V : Nat → Option Int → Prop}

theorem of_keeps {x : M α} (h : Keeps (fun _ => True) (fun _ => False) x) : Stamps V x :=
  fun w j => .inl ((h w).times j (fun h => h))

theorem bind {x : M α} {f : α → M β} (hx : Stamps V x) (hf : ∀ a, Stamps V (f a)) : Stamps V (x >>= f) := by
  intro w j
  have h1 := hx w j
  show ((match x w with | (.ok a, w') => f a w' | (.error e, w') => (.error e, w') : Except Exc β × World).2.ctxs j).timestamp = _ ∨
    V j ((match x w with | (.ok a, w') => f a w' | (.error e, w') => (.error e, w') : Except Exc β × World).2.ctxs j).timestamp
  cases hr : x w with
  | mk r w' =>
    rw [hr] at h1
    cases r with
    | error e => exact h1
    | ok a =>
      rcases hf a w' j with h2 | h2
      · simp only
        rw [h2]
        exact h1
      · exact .inr h2

theorem attempt {x : M α} (hx : Stamps V x) : Stamps V (M.attempt x) := by
  intro w j
  have h1 := hx w j
  have e : (M.attempt x w).2 = (x w).2 := by
    unfold M.attempt
    split <;> (rename_i h; rw [h])
  rw [e]
  exact h1

theorem setTimestamp {cid : Nat} {t : Option Int} (h : V cid t) : Stamps V (setTimestamp cid t) := by
  intro w j
  by_cases e : j = cid
  · subst e
    refine .inr ?_
    show V j (if j = j then _ else w.ctxs j : Ctx).timestamp
    rw [if_pos rfl]
    exact h
  · refine .inl ?_
    show (if j = cid then _ else w.ctxs j : Ctx).timestamp = _
    rw [if_neg e]

theorem verifyIssuer (env : Env) {cid : Nat} (s : Signer) {t : Option Int} (h : ∀ x, t = some x → V cid (some x)) (issuer : Cert) :
    Stamps V (verifyIssuer env cid s t issuer) := by
  refine bind (of_keeps (Keeps.verifyIssuerSignature env cid s issuer)) (fun _ => bind ?_ (fun _ => of_keeps (Keeps.ctxVerify env trivial issuer)))
  cases t with
  | none => exact of_keeps (Keeps.pure _)
  | some x => exact setTimestamp (h x rfl)

theorem buildChainBody {check : Cert → M (List Cert)} (hc : ∀ c, Stamps V (check c)) (acc : List (List Cert) × FirstError)
    (issuer : Cert) : Stamps V (buildChainBody check acc issuer) := by
  unfold Signify.buildChainBody
  refine bind (attempt (hc issuer)) (fun r => ?_)
  split
  · exact of_keeps (Keeps.pure _)
  · split
    · exact of_keeps (Keeps.pure _)
    · exact of_keeps (Keeps.raise _)

theorem forCerts {σ : Type} (env : Env) (q : Query) {body : σ → Cert → M σ} (hb : ∀ a c, Stamps V (body a c)) (l seen : List Cert)
    (acc : σ) : Stamps V (forCerts env q body l seen acc) := by
  induction l generalizing seen acc with
  | nil => exact of_keeps (Keeps.pure _)
  | cons c l ih =>
    unfold Signify.forCerts
    split
    · split
      · exact ih _ _
      · exact bind (hb _ _) (fun _ => ih _ _)
    · exact ih _ _

theorem forStores {σ : Type} (env : Env) (q : Query) {body : σ → Cert → M σ} (hb : ∀ a c, Stamps V (body a c)) (rs : List StoreRef)
    (seen : List Cert) (acc : σ) : Stamps V (forStores env q body rs seen acc) := by
  induction rs generalizing seen acc with
  | nil => exact of_keeps (Keeps.pure _)
  | cons r rs ih => exact bind (of_keeps (Keeps.iterStore r)) (fun l => bind (forCerts env q hb l seen acc) (fun x => ih _ _))

theorem signerVerifyWith (env : Env) (cid : Nat) (s : Signer) {check : Cert → M (List Cert)} (hc : ∀ c, Stamps V (check c)) :
    Stamps V (signerVerifyWith env cid s check) := by
  unfold Signify.signerVerifyWith Signify.buildChain
  refine bind (bind (bind (of_keeps (Keeps.getCtx _)) fun _ => forStores env _ (buildChainBody hc) _ _ _) (fun acc => ?_)) (fun chains => ?_)
  · split
    · exact of_keeps (Keeps.raise _)
    · exact of_keeps (Keeps.pure _)
  · split
    · exact of_keeps (Keeps.raise _)
    · exact of_keeps (Keeps.pure _)

theorem signerVerify_none (env : Env) (cid : Nat) (s : Signer) : Stamps V (signerVerify env cid s none) :=
  signerVerifyWith env cid s (verifyIssuer env s (fun _ h => by cases h))

theorem authSignerVerify (env : Env) {cid : Nat} (s : Signer) {t : Option Int} (h : ∀ x, t = some x → V cid (some x)) :
    Stamps V (authSignerVerify env cid s t) := by
  refine signerVerifyWith env cid s (fun issuer => ?_)
  unfold Signify.verifyIssuerAuth
  refine verifyIssuer env s (fun x hx => ?_) issuer
  split at hx
  · cases hx
  · exact h x hx

theorem counterVerify (env : Env) (c : CounterSigner) (cid : Nat) : Stamps V (c.verify env cid) := by
  cases c with
  | pkcs9 c => exact signerVerify_none env cid _
  | rfc3161 r =>
    show Stamps V (rfcVerify env r (some cid) (.embedded []))
    unfold rfcVerify
    split
    · exact of_keeps (Keeps.raise _)
    · exact bind (of_keeps (Keeps.pure _)) (fun _ => signerVerify_none env _ _)

theorem checkCounter (env : Env) (a : AuthData) (c : CounterSigner) {cid : Nat} (h : V cid c.signingTime) : Stamps V (checkCounter env a c cid) := by
  unfold Signify.checkCounter
  split
  · exact of_keeps (Keeps.raise _)
  · exact bind (setTimestamp h) (fun _ => bind (counterVerify env c cid) (fun _ => of_keeps (Keeps.pure _)))

end Stamps

/-- The time that the signature may be verified at is the countersignature's. -/
theorem counterTime_value {env : Env} {a : AuthData} {mode : String} {cs : Option Nat} {w w' : World} {t : Option Int}
    (h : counterTime env a mode cs w = (.ok t, w')) : t = none ∨ ∃ c, a.counter = some c ∧ mode ≠ "ignore" ∧ t = c.signingTime := by
  unfold counterTime at h
  cases hc : a.counter with
  | none => rw [hc] at h; cases h; exact .inl rfl
  | some c =>
    rw [hc] at h
    simp only at h
    split at h
    · rename_i hm
      cases cs with
      | none => cases h
      | some i =>
        simp only at h
        obtain ⟨r, u, -, h2⟩ := M.bind_eq_ok h
        cases r with
        | ok _ => cases h2; exact .inr ⟨c, rfl, hm, rfl⟩
        | error e =>
          simp only at h2
          split at h2
          · cases h2; exact .inl rfl
          · cases h2
    · cases h; exact .inl rfl

/-- A call leaves a context with the timestamp it had, or with that of the countersignature it looked at. -/
theorem asdVerify_stamps (env : Env) (file : Option Bytes) (a : AuthData) (args : VerifyArgs) (w : World) (he : ContextsExist w args)
    (j : Nat) (hj : j < w.nextCtx) :
    ((asdVerify env file a args w).2.ctxs j).timestamp = (w.ctxs j).timestamp ∨
    Passed args j ∧ args.countersignatureMode ≠ "ignore" ∧ ∃ c, a.counter = some c ∧ ((asdVerify env file a args w).2.ctxs j).timestamp = c.signingTime := by
  have g := asdVerify_grows env file a args w he
  refine (Classical.em (Passed args j)).elim (fun hp => ?_) (fun hp => .inl (g.times j hj (fun h => hp h.1)))
  obtain ⟨cid, cs, v, hs⟩ := setup w a args he
  rw [hs.asdVerify]
  let V : Nat → Option Int → Prop := fun _ x => args.countersignatureMode ≠ "ignore" ∧ ∃ c, a.counter = some c ∧ x = c.signingTime
  have key : ∀ (r : Except Exc (List (List Cert)) × World),
      (M.lift (checkDigests env file a args.expectedHash) >>= fun _ => counterTime env a args.countersignatureMode cs >>= fun t =>
        authSignerVerify env cid a.signer t : M (List (List Cert))) v = r →
      (r.2.ctxs j).timestamp = (v.ctxs j).timestamp ∨ V j (r.2.ctxs j).timestamp := by
    intro r hr
    have h0 : Stamps V (counterTime env a args.countersignatureMode cs) := by
      unfold counterTime
      cases hc : a.counter with
      | none => exact .of_keeps (Keeps.pure _)
      | some c =>
        simp only
        split
        · rename_i hm
          cases cs with
          | none => exact .of_keeps (Keeps.raise _)
          | some i =>
            refine .bind (.attempt (.checkCounter env a c ⟨hm, c, hc, rfl⟩)) (fun r => ?_)
            split
            · exact .of_keeps (Keeps.pure _)
            · split
              · exact .of_keeps (Keeps.pure _)
              · exact .of_keeps (Keeps.raise _)
        · exact .of_keeps (Keeps.pure _)
    cases hd : checkDigests env file a args.expectedHash with
    | error e =>
      rw [hd] at hr
      have : r = (.error e, v) := hr.symm
      rw [this]
      exact .inl rfl
    | ok u =>
      rw [hd] at hr
      have hr : (counterTime env a args.countersignatureMode cs >>= fun t => authSignerVerify env cid a.signer t) v = r := hr
      have h1 := h0 v j
      cases ht : counterTime env a args.countersignatureMode cs v with
      | mk t v' =>
        rw [ht] at h1
        cases t with
        | error e =>
          have : r = (.error e, v') := by rw [← hr, M.bind_error ht]
          rw [this]
          exact h1
        | ok t =>
          have : r = authSignerVerify env cid a.signer t v' := by
            rw [← hr, M.bind_ok ht]
          rw [this]
          have h2 : Stamps V (authSignerVerify env cid a.signer t) := by
            refine .authSignerVerify env a.signer (fun x hx => ?_)
            rcases counterTime_value ht with h | ⟨c, hc, hm, h⟩
            · rw [h] at hx; cases hx
            · exact ⟨hm, c, hc, by rw [← h, hx]⟩
          rcases h2 v' j with h3 | h3
          · rw [h3]; exact h1
          · exact .inr h3
  rcases key _ rfl with h | ⟨hm, h⟩
  · rw [hs.old j hj] at h
    exact .inl h
  · exact .inr ⟨hp, hm, h⟩

/-- After a history, a context has the timestamp it had at first, or that of a countersignature looked at with it. -/
theorem afterCalls_stamps (env : Env) (calls : List Call) (w : World) (he : ∀ c ∈ calls, ContextsExist w c.args) (j : Nat) (hj : j < w.nextCtx) :
    ((afterCalls env calls w).ctxs j).timestamp = (w.ctxs j).timestamp ∨
    ∃ c ∈ calls, Passed c.args j ∧ c.args.countersignatureMode ≠ "ignore" ∧
      ∃ k, c.a.counter = some k ∧ ((afterCalls env calls w).ctxs j).timestamp = k.signingTime := by
  induction calls generalizing w with
  | nil => exact .inl rfl
  | cons c cs ih =>
    have h1 := asdVerify_grows env c.file c.a c.args w (he c (List.mem_cons_self ..))
    have h2 := asdVerify_stamps env c.file c.a c.args w (he c (List.mem_cons_self ..)) j hj
    rcases ih (asdVerify env c.file c.a c.args w).2 (fun c' hc' => (he c' (List.mem_cons_of_mem _ hc')).grows h1) (Nat.lt_of_lt_of_le hj h1.next) with h | ⟨c', hc', h⟩
    · rcases h2 with h2 | ⟨hp, hm, k, hk, h2⟩
      · exact .inl (h.trans h2)
      · exact .inr ⟨c, List.mem_cons_self .., hp, hm, k, hk, h.trans h2⟩
    · exact .inr ⟨c', List.mem_cons_of_mem _ hc', h⟩

end Signify
