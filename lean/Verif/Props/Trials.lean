/-
`SignerInfo.verify` for all contexts: usages that can be read only once, and stores that cannot be read (C35, C95).
-/
import Verif.Proofs.Trials
import Verif.Props.Signer
import Verif.Props.OneShot

set_option autoImplicit false

namespace Signify.Props

open Signify Spec

/-- The exact law for contexts of any kind whose stores can be read: the candidates are tried in order with the context as the trials before
left it, and the outcomes combine as in C35. -/
theorem C35_sequence (env : Env) (cid : Nat) (s : Signer) (t : Option Int) (w : World) (hr : Readable w (w.ctxs cid)) (cands : List Cert)
    (hc : Candidates w (w.ctxs cid) s cands) :
    ∃ os : List (Cert × Except Exc (List Cert)), os.map Prod.fst = cands ∧ Trials env w s t (fun _ => False) (w.ctxs cid) os ∧
      Verdict (os.map Prod.snd) (signerVerify env cid s t w).1 :=
  signerVerifyWith_trials env cid s t (fun _ => t) (fun _ => False) (fun _ => .inr ⟨fun h => h, rfl⟩) w hr cands hc

/-- The same for `AuthenticodeSignerInfo`, whose lifetime signing certificates are exempt from the time given; the candidates may be of
both kinds. -/
theorem C35_sequence_authenticode (env : Env) (cid : Nat) (s : Signer) (t : Option Int) (w : World) (hr : Readable w (w.ctxs cid))
    (cands : List Cert) (hc : Candidates w (w.ctxs cid) s cands) :
    ∃ os : List (Cert × Except Exc (List Cert)), os.map Prod.fst = cands ∧ Trials env w s t LifetimeSigning (w.ctxs cid) os ∧
      Verdict (os.map Prod.snd) (authSignerVerify env cid s t w).1 := by
  refine signerVerifyWith_trials env cid s t (fun c => if lifetimeSigning c then none else t) LifetimeSigning (fun c => ?_) w hr cands hc
  by_cases h : lifetimeSigning c = true
  · exact .inl ⟨lifetimeSigning_iff.1 h, if_pos h⟩
  · exact .inr ⟨fun k => h (lifetimeSigning_iff.2 k), if_neg h⟩

/-- What a verification leaves of the context: its usages have been read once, unless the path validator refused its arguments; nothing
else has changed. -/
theorem C35_left (env : Env) (w : World) (ctx ctx' : Ctx) (c : Cert) (r : Except Exc (List Cert)) (hr : Readable w ctx)
    (h : InContextTo w ctx (fun i => ctxVerify env i c) r ctx') :
    (ctx' = ctx ∧ ∃ req e, env.mkValidator req = .error e ∧ r = .error e) ∨ ctx' = ctx.usedUp :=
  inContextTo_ctxVerify hr h

/-- With a store that cannot be read, `SignerInfo.verify` never succeeds: its exception is that of the store, unless a candidate from a store
before it cannot be refused properly. -/
theorem C35_unreadable (env : Env) (cid : Nat) (s : Signer) (t : Option Int) (w : World) (pre post : List StoreRef)
    (k : Nat) (certs : List Cert) (e : Exc) (hl : (w.ctxs cid).stores = pre ++ .heap k :: post)
    (hpre : ∀ i, .heap i ∈ pre → ∀ certs e, (w.stores i).pending = some (certs, e) → e = none)
    (hk : (w.stores k).pending = some (certs, some e)) (he : e.is .verificationError = false) :
    (∃ e', (signerVerify env cid s t w).1 = .error e' ∧ (e' = e ∨
      ∃ r ∈ pre, ∃ c ∈ certsOf (loadedWorld w) r, (c.issuer.components = s.issuer.components ∧ c.serial = s.serial) ∧
        BadRefusal env s (w.ctxs cid).allowLegacy c e')) ∧
    (∃ e', (authSignerVerify env cid s t w).1 = .error e' ∧ (e' = e ∨
      ∃ r ∈ pre, ∃ c ∈ certsOf (loadedWorld w) r, (c.issuer.components = s.issuer.components ∧ c.serial = s.serial) ∧
        BadRefusal env s (w.ctxs cid).allowLegacy c e')) :=
  ⟨signerVerifyWith_unreadable env cid s (fun _ => t) w pre post k certs e hl hpre hk he,
    signerVerifyWith_unreadable env cid s (fun c => if lifetimeSigning c then none else t) w pre post k certs e hl hpre hk he⟩

/-! ### Iterators -/

theorem Verdict.ok {os : List (Except Exc (List Cert))} {chains : List (List Cert)} (h : Verdict os (.ok chains)) :
    chains = os.filterMap Except.toOption ∧ ∀ o ∈ os, Regular o := by
  generalize hr : Except.ok chains = r at h
  cases h with
  | chains _ h1 _ => cases hr; exact ⟨rfl, h1⟩
  | firstError _ _ _ _ => cases hr
  | noCandidate _ => cases hr
  | abort _ _ _ _ _ => cases hr

theorem answered_to {env : Env} {w : World} {ctx ctx' : Ctx} {c : Cert} {chain : List Cert} (hr : Readable w ctx)
    (h : InContextTo w ctx (fun i => ctxVerify env i c) (.ok chain) ctx') : AnsweredFor env ctx.keyUsages.elems [chain] := by
  obtain ⟨i, v, hv, hi, h1, -⟩ := h
  intro ch hch
  rw [List.mem_singleton] at hch
  subst hch
  have hf : LoadsFine v i := by
    intro r hrm j hj certs e he
    subst hj
    rw [hi] at hrm
    rw [hv] at he
    exact hr j hrm certs e he
  refine ⟨_, ?_, (C29_members env i c v hf ch h1).1⟩
  show (v.ctxs i).keyUsages.elems = _
  rw [hi]

theorem trials_answered {env : Env} {w : World} {s : Signer} {t : Option Int} {exempt : Cert → Prop} {stores : List StoreRef} {legacy : Bool}
    (hread : ∀ ctx : Ctx, ctx.stores = stores → Readable w ctx) (hm : ∀ req e, env.mkValidator req = .error e → e.is .verificationError = false)
    {ctx : Ctx} {os : List (Cert × Except Exc (List Cert))} (h : Trials env w s t exempt ctx os) (hs : ctx.stores = stores)
    (hl : ctx.allowLegacy = legacy) (hreg : ∀ o ∈ os, Regular o.2) (l : List String) (hk : ctx.keyUsages = .gen l) :
    ∀ pre c chain post, os = pre ++ (c, .ok chain) :: post →
      ((∃ p ∈ pre, ValidSignature env p.1 s.encryptedDigest s.encodedAuth s.digestAlg legacy) → AnsweredFor env [] [chain]) ∧
      ((¬ ∃ p ∈ pre, ValidSignature env p.1 s.encryptedDigest s.encodedAuth s.digestAlg legacy) → AnsweredFor env l [chain]) := by
  induction h generalizing l with
  | done ctx => intro pre c chain post h; cases pre <;> cases h
  | refused ctx c e os h1 h2 _ ih =>
    intro pre d chain post hos
    cases pre with
    | nil => cases hos
    | cons p pre =>
      injection hos with hp hos
      obtain ⟨i1, i2⟩ := ih hs hl (fun o ho => hreg o (List.mem_cons_of_mem _ ho)) l hk pre d chain post hos
      subst hp
      refine ⟨fun ⟨p, hp, hv⟩ => ?_, fun hn => i2 (fun ⟨p, hp, hv⟩ => hn ⟨p, List.mem_cons_of_mem _ hp, hv⟩)⟩
      rcases List.mem_cons.1 hp with rfl | hp
      · rw [hl] at h1; exact absurd hv h1
      · exact i1 ⟨p, hp, hv⟩
  | verified ctx ctx' c o os t' h1 h2 h3 _ ih =>
    have hrd : Readable w { ctx with timestamp := t'.or ctx.timestamp } := hread _ hs
    intro pre d chain post hos
    cases pre with
    | nil =>
      injection hos with hp hos
      cases hp
      refine ⟨fun ⟨p, hp, _⟩ => (by cases hp), fun _ => ?_⟩
      have := answered_to hrd h3
      rw [show ({ ctx with timestamp := t'.or ctx.timestamp } : Ctx).keyUsages = .gen l from hk] at this
      exact this
    | cons p pre =>
      injection hos with hp hos
      subst hp
      refine ⟨fun _ => ?_, fun hn => absurd ⟨_, List.mem_cons_self .., by rw [← hl]; exact h1⟩ hn⟩
      have hleft : ctx'.keyUsages = .gen [] ∧ ctx'.stores = stores ∧ ctx'.allowLegacy = legacy := by
        rcases inContextTo_ctxVerify hrd h3 with ⟨-, req, e, he, ho⟩ | he
        · have := hreg _ (List.mem_cons_self ..) e ho
          rw [hm req e he] at this
          cases this
        · rw [he]
          refine ⟨?_, hs, hl⟩
          show ctx.keyUsages.consumed = _
          rw [hk]; rfl
      obtain ⟨i1, i2⟩ := ih hleft.2.1 hleft.2.2 (fun o ho => hreg o (List.mem_cons_of_mem _ ho)) [] hleft.1 pre d chain post hos
      by_cases hx : ∃ p ∈ pre, ValidSignature env p.1 s.encryptedDigest s.encodedAuth s.digestAlg legacy
      · exact i1 hx
      · exact i2 hx

/-- With an iterator of key usages, whatever else the context is like: the first candidate that made the signature is asked for the
usages, and no further one is asked for any.  (The path validator does not refuse its arguments with a VerificationError.) -/
theorem C95_once_signer (env : Env) (cid : Nat) (s : Signer) (t : Option Int) (w : World) (hr : Readable w (w.ctxs cid)) (l : List String)
    (hk : (w.ctxs cid).keyUsages = .gen l) (hm : ∀ req e, env.mkValidator req = .error e → e.is .verificationError = false)
    (cands : List Cert) (hc : Candidates w (w.ctxs cid) s cands) (chains : List (List Cert))
    (h : (signerVerify env cid s t w).1 = .ok chains ∨ (authSignerVerify env cid s t w).1 = .ok chains) :
    ∃ os : List (Cert × Except Exc (List Cert)), os.map Prod.fst = cands ∧ chains = (os.map Prod.snd).filterMap Except.toOption ∧
      ∀ pre c chain post, os = pre ++ (c, .ok chain) :: post →
        ((∃ p ∈ pre, ValidSignature env p.1 s.encryptedDigest s.encodedAuth s.digestAlg (w.ctxs cid).allowLegacy) →
          AnsweredFor env [] [chain]) ∧
        ((¬ ∃ p ∈ pre, ValidSignature env p.1 s.encryptedDigest s.encodedAuth s.digestAlg (w.ctxs cid).allowLegacy) →
          AnsweredFor env l [chain]) := by
  have key : ∀ exempt (os : List (Cert × Except Exc (List Cert))), os.map Prod.fst = cands → Trials env w s t exempt (w.ctxs cid) os →
      Verdict (os.map Prod.snd) (.ok chains) → ∃ os : List (Cert × Except Exc (List Cert)), os.map Prod.fst = cands ∧
      chains = (os.map Prod.snd).filterMap Except.toOption ∧ ∀ pre c chain post, os = pre ++ (c, .ok chain) :: post →
        ((∃ p ∈ pre, ValidSignature env p.1 s.encryptedDigest s.encodedAuth s.digestAlg (w.ctxs cid).allowLegacy) →
          AnsweredFor env [] [chain]) ∧
        ((¬ ∃ p ∈ pre, ValidSignature env p.1 s.encryptedDigest s.encodedAuth s.digestAlg (w.ctxs cid).allowLegacy) →
          AnsweredFor env l [chain]) := by
    intro exempt os h1 h2 h3
    obtain ⟨h4, h5⟩ := Verdict.ok h3
    exact ⟨os, h1, h4, trials_answered (stores := (w.ctxs cid).stores) (fun ctx h k hk => hr k (by rw [← h]; exact hk)) hm h2 rfl rfl
      (fun o ho => h5 _ (List.mem_map.2 ⟨o, ho, rfl⟩)) l hk⟩
  rcases h with h | h
  · obtain ⟨os, h1, h2, h3⟩ := C35_sequence env cid s t w hr cands hc
    rw [h] at h3
    exact key _ os h1 h2 h3
  · obtain ⟨os, h1, h2, h3⟩ := C35_sequence_authenticode env cid s t w hr cands hc
    rw [h] at h3
    exact key _ os h1 h2 h3

/-! ### Instances -/

/-- Two candidates that both made the signature, in a context with an iterator of key usages. -/
def exOnceTwo : World :=
  { exWorld with ctxs := fun _ => { exCtx [.heap 0, .embedded [exInter, exFake, exLeaf]] with keyUsages := .gen ["digital_signature"] } }

theorem exOnceTwo_candidates : Candidates exOnceTwo (exOnceTwo.ctxs 0) (exSign 3 [9] [5] none) [exFake, exLeaf] := exTwo_candidates

theorem exOnceTwo_readable : Readable exOnceTwo (exOnceTwo.ctxs 0) := by
  intro i _ certs e he
  simp only [exOnceTwo, exWorld] at he
  split at he <;> cases he

example := C35_sequence exUsageEnv 0 (exSign 3 [9] [5] none) none exOnceTwo exOnceTwo_readable _ exOnceTwo_candidates
example := C35_sequence_authenticode exUsageEnv 0 (exSign 3 [9] [5] none) (some 300) exOnceTwo exOnceTwo_readable _ exOnceTwo_candidates

/-- A refused certificate uses the iterator up. -/
example : ∃ ctx' r, InContextTo exOnceTwo (exOnceTwo.ctxs 0) (fun i => ctxVerify exUsageEnv i exFake) r ctx' ∧
    ctx' = (exOnceTwo.ctxs 0).usedUp ∧ ctx'.keyUsages = .gen [] ∧ ∃ e, r = .error e := by
  refine ⟨_, _, ⟨0, exOnceTwo, rfl, rfl, rfl, rfl⟩, ?_⟩
  have hto : InContextTo exOnceTwo (exOnceTwo.ctxs 0) (fun i => ctxVerify exUsageEnv i exFake) _ _ := ⟨0, exOnceTwo, rfl, rfl, rfl, rfl⟩
  have hl := (C35_left exUsageEnv exOnceTwo _ _ exFake _ exOnceTwo_readable hto).resolve_left (fun ⟨_, _, _, h, _⟩ => by cases h)
  refine ⟨hl, by rw [hl]; rfl, ?_⟩
  have hnone : (ctxVerify exUsageEnv 0 exFake exOnceTwo).1.toOption = none := by decide +kernel
  cases hx : (ctxVerify exUsageEnv 0 exFake exOnceTwo).1 with
  | error e => exact ⟨e, rfl⟩
  | ok x => rw [hx] at hnone; cases hnone

/-- The first candidate lacks the usage and is refused; the second lacks it as well, and is accepted. -/
example : (signerVerify exUsageEnv 0 (exSign 3 [9] [5] none) none exOnceTwo).1 = .ok [[exRoot, exInter, exLeaf]] ∧
    AnsweredFor exUsageEnv [] [[exRoot, exInter, exLeaf]] := by
  have hrun : (signerVerify exUsageEnv 0 (exSign 3 [9] [5] none) none exOnceTwo).1 = .ok [[exRoot, exInter, exLeaf]] := by decide +kernel
  refine ⟨hrun, ?_⟩
  obtain ⟨os, h1, h2, h3⟩ := C95_once_signer exUsageEnv 0 (exSign 3 [9] [5] none) none exOnceTwo exOnceTwo_readable ["digital_signature"] rfl
    (fun _ _ h => by cases h) _ exOnceTwo_candidates _ (.inl hrun)
  obtain ⟨⟨c1, o1⟩, os, rfl, hp, h1⟩ := List.map_eq_cons_iff.1 h1
  obtain ⟨⟨c2, o2⟩, os, rfl, hq, h1⟩ := List.map_eq_cons_iff.1 h1
  cases List.map_eq_nil_iff.1 h1
  have hp : c1 = exFake := hp
  have hq : c2 = exLeaf := hq
  subst hp hq
  cases o2 with
  | ok chain =>
    have h4 := (h3 [(exFake, o1)] exLeaf chain [] rfl).1 ⟨_, List.mem_cons_self .., ⟨"rsa", rfl, by decide, .inl rfl⟩⟩
    cases o1 with
    | error e =>
      have h2 : [[exRoot, exInter, exLeaf]] = [chain] := h2
      rw [h2]
      exact h4
    | ok chain' =>
      have h2 : [[exRoot, exInter, exLeaf]] = [chain', chain] := h2
      cases h2
  | error e =>
    cases o1 with
    | error e' =>
      have h2 : [[exRoot, exInter, exLeaf]] = [] := h2
      cases h2
    | ok chain' =>
      have h4 := (h3 [] exFake chain' _ rfl).2 (fun ⟨_, h, _⟩ => by cases h)
      have h2 : [[exRoot, exInter, exLeaf]] = [chain'] := h2
      cases h2
      obtain ⟨req, h5, h6⟩ := h4 _ (List.mem_cons_self ..)
      simp only [exUsageEnv, h5] at h6
      split at h6
      · rename_i h7
        rcases h7.2 with h8 | h8
        · cases h8
        · rw [h8] at h6
          cases h6
      · cases h6

/-- A store in front of which no candidate is found, and which cannot be read. -/
def exUnreadTwo : World :=
  { exWorld with
    stores := fun i => if i = 0 then exStoreT else { exStoreU with items := [], pending := some ([], some ⟨.foreign, "OSError"⟩) }
    ctxs := fun _ => exCtx [.heap 0, .embedded [exInter, exLeaf], .heap 1] }

example : ∃ e', (signerVerify (exVEnv (fun _ _ => true)) 0 (exSign 3 [9] [5] none) none exUnreadTwo).1 = .error e' ∧ e'.msg = "OSError" := by
  obtain ⟨⟨e', h1, -⟩, -⟩ := C35_unreadable (exVEnv (fun _ _ => true)) 0 (exSign 3 [9] [5] none) none exUnreadTwo
    [.heap 0, .embedded [exInter, exLeaf]] [] 1 [] ⟨.foreign, "OSError"⟩ rfl (by
      intro i hi certs e he
      simp at hi
      subst hi
      cases he) rfl rfl
  have h2 : (signerVerify (exVEnv (fun _ _ => true)) 0 (exSign 3 [9] [5] none) none exUnreadTwo).1 = .error ⟨.foreign, "OSError"⟩ := by decide +kernel
  rw [h2] at h1
  cases h1
  exact ⟨_, h2, rfl⟩

end Signify.Props
