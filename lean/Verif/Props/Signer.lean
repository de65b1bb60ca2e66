/-
`SignerInfo.verify` and its candidates (C35), `SignerInfo.potential_chains` (C62).
-/
import Verif.Proofs.Lifetime
import Verif.Props.Modes

set_option autoImplicit false

namespace Signify.Props

open Signify Spec

/-- Missing in the partial versions: usages given as iterators that can be used only once, and stores that cannot be read.

The outcome of `SignerInfo.verify` (for `SignerInfo`, `CounterSignerInfo` and `RFC3161SignerInfo`) combines the outcomes for the
candidates, each of which is what it would be for that candidate alone. -/
theorem C35_verdict_partial (env : Env) (cid : Nat) (s : Signer) (t : Option Int) (w : World) (hr : Readable w (w.ctxs cid))
    (hk : Reiterable (w.ctxs cid).keyUsages) (hu : Reiterable (w.ctxs cid).ekus) (cands : List Cert)
    (hc : Candidates w (w.ctxs cid) s cands) :
    ∃ os : List (Cert × Except Exc (List Cert)), os.map Prod.fst = cands ∧
      (∀ p ∈ os, CandidateOutcome env w (w.ctxs cid) s t p.1 p.2) ∧
      Verdict (os.map Prod.snd) (signerVerify env cid s t w).1 := by
  refine signerVerifyWith_verdict env cid s (fun _ => t) w hr hk hu cands hc ?_
  cases t with
  | none => exact .inl (fun _ _ => rfl)
  | some x => exact .inr ⟨x, fun _ _ => rfl⟩

/-- The same for `AuthenticodeSignerInfo`, where lifetime signing certificates are checked without the time given, if the candidates
agree in this respect. Missing: candidates that differ (see `C32_lifetime_false`). -/
theorem C35_authenticode_partial (env : Env) (cid : Nat) (s : Signer) (t : Option Int) (w : World) (hr : Readable w (w.ctxs cid))
    (hk : Reiterable (w.ctxs cid).keyUsages) (hu : Reiterable (w.ctxs cid).ekus) (cands : List Cert)
    (hc : Candidates w (w.ctxs cid) s cands) (hlife : (∀ c ∈ cands, LifetimeSigning c) ∨ (∀ c ∈ cands, ¬ LifetimeSigning c)) :
    ∃ os : List (Cert × Except Exc (List Cert)), os.map Prod.fst = cands ∧
      (∀ p ∈ os, (LifetimeSigning p.1 → CandidateOutcome env w (w.ctxs cid) s none p.1 p.2) ∧
        (¬ LifetimeSigning p.1 → CandidateOutcome env w (w.ctxs cid) s t p.1 p.2)) ∧
      Verdict (os.map Prod.snd) (authSignerVerify env cid s t w).1 := by
  have htf : (∀ c ∈ cands, (if lifetimeSigning c then none else t) = none) ∨ ∃ x, ∀ c ∈ cands, (if lifetimeSigning c then none else t) = some x := by
    rcases hlife with h | h
    · exact .inl (fun c hcm => by rw [if_pos (lifetimeSigning_iff.2 (h c hcm))])
    · cases t with
      | none => exact .inl (fun c _ => by split <;> rfl)
      | some x => exact .inr ⟨x, fun c hcm => by rw [if_neg (fun k => h c hcm (lifetimeSigning_iff.1 k))]⟩
  obtain ⟨os, h1, h2, h3⟩ := signerVerifyWith_verdict env cid s (fun c => if lifetimeSigning c then none else t) w hr hk hu cands hc htf
  refine ⟨os, h1, fun p hp => ⟨fun hl => ?_, fun hl => ?_⟩, h3⟩
  · have := h2 p hp
    rwa [if_pos (lifetimeSigning_iff.2 hl)] at this
  · have := h2 p hp
    rwa [if_neg (fun k => hl (lifetimeSigning_iff.1 k))] at this

theorem timeAfter_fold {env : Env} {s : Signer} {legacy : Bool} {t : Option Int} (l : List Cert) (cur : Option Int) (hcur : cur = none ∨ cur = t) :
    ((∃ d ∈ l, ValidSignature env d s.encryptedDigest s.encodedAuth s.digestAlg legacy ∧ ¬ LifetimeSigning d) →
      l.foldl (timeAfter env s legacy (fun c => if lifetimeSigning c then none else t)) cur = t) ∧
    ((¬ ∃ d ∈ l, ValidSignature env d s.encryptedDigest s.encodedAuth s.digestAlg legacy ∧ ¬ LifetimeSigning d) →
      l.foldl (timeAfter env s legacy (fun c => if lifetimeSigning c then none else t)) cur = cur) := by
  induction l generalizing cur with
  | nil => exact ⟨fun ⟨d, hd, _⟩ => (by cases hd), fun _ => rfl⟩
  | cons c l ih =>
    have hstep : (ValidSignature env c s.encryptedDigest s.encodedAuth s.digestAlg legacy ∧ ¬ LifetimeSigning c →
        timeAfter env s legacy (fun c => if lifetimeSigning c then none else t) cur c = t) ∧
        (¬ (ValidSignature env c s.encryptedDigest s.encodedAuth s.digestAlg legacy ∧ ¬ LifetimeSigning c) →
        timeAfter env s legacy (fun c => if lifetimeSigning c then none else t) cur c = cur) := by
      unfold timeAfter
      refine ⟨fun ⟨h1, h2⟩ => ?_, fun h => ?_⟩
      · rw [if_pos h1]
        simp only
        rw [if_neg (fun k => h2 (lifetimeSigning_iff.1 k))]
        cases t with
        | some x => rfl
        | none => rcases hcur with h | h <;> rw [h] <;> rfl
      · by_cases h1 : ValidSignature env c s.encryptedDigest s.encodedAuth s.digestAlg legacy
        · rw [if_pos h1]
          simp only
          rw [if_pos (lifetimeSigning_iff.2 (Classical.byContradiction (fun k => h ⟨h1, k⟩)))]
          rfl
        · rw [if_neg h1]
    rw [List.foldl_cons]
    by_cases hc : ValidSignature env c s.encryptedDigest s.encodedAuth s.digestAlg legacy ∧ ¬ LifetimeSigning c
    · rw [hstep.1 hc]
      refine ⟨fun _ => ?_, fun h => absurd ⟨c, List.mem_cons_self .., hc⟩ h⟩
      by_cases hl : ∃ d ∈ l, ValidSignature env d s.encryptedDigest s.encodedAuth s.digestAlg legacy ∧ ¬ LifetimeSigning d
      · exact (ih t (.inr rfl)).1 hl
      · exact (ih t (.inr rfl)).2 hl
    · rw [hstep.2 hc]
      refine ⟨fun ⟨d, hd, h⟩ => ?_, fun h => ?_⟩
      · rcases List.mem_cons.1 hd with rfl | hd
        · exact absurd h hc
        · exact (ih cur hcur).1 ⟨d, hd, h⟩
      · exact (ih cur hcur).2 (fun ⟨d, hd, h'⟩ => h ⟨d, List.mem_cons_of_mem _ hd, h'⟩)

/-- The same for candidates of both kinds, and what holds in place of C32: the time given (that of the countersignature) is used for a
candidate iff it, or a candidate tried before it, made the signature and is not a lifetime signing certificate; the others are validated
at the context's own time.  Missing: usages given as iterators that can be used only once, and stores that cannot be read. -/
theorem C32_exact_partial (env : Env) (cid : Nat) (s : Signer) (t : Option Int) (w : World) (hr : Readable w (w.ctxs cid))
    (hk : Reiterable (w.ctxs cid).keyUsages) (hu : Reiterable (w.ctxs cid).ekus) (cands : List Cert)
    (hc : Candidates w (w.ctxs cid) s cands) :
    ∃ os : List (Cert × Except Exc (List Cert)), os.map Prod.fst = cands ∧
      (∀ pre p post, os = pre ++ p :: post →
        ((∃ d ∈ pre.map Prod.fst ++ [p.1], ValidSignature env d s.encryptedDigest s.encodedAuth s.digestAlg (w.ctxs cid).allowLegacy ∧
            ¬ LifetimeSigning d) → CandidateOutcome env w (w.ctxs cid) s t p.1 p.2) ∧
        ((¬ ∃ d ∈ pre.map Prod.fst ++ [p.1], ValidSignature env d s.encryptedDigest s.encodedAuth s.digestAlg (w.ctxs cid).allowLegacy ∧
            ¬ LifetimeSigning d) → CandidateOutcome env w (w.ctxs cid) s none p.1 p.2)) ∧
      Verdict (os.map Prod.snd) (authSignerVerify env cid s t w).1 := by
  let step := timeAfter env s (w.ctxs cid).allowLegacy (fun c => if lifetimeSigning c then none else t)
  let out : Option Int → Cert → Except Exc (List Cert) := fun t c => (verifyIssuer env cid s t c w).1
  refine ⟨pairsFrom step out none cands, pairsFrom_fst _ _ _ _, fun pre p post hos => ?_, ?_⟩
  · have h1 := pairsFrom_at _ _ _ _ hos
    have h2 : step ((pre.map Prod.fst).foldl step none) p.1 = (pre.map Prod.fst ++ [p.1]).foldl step none := by
      rw [List.foldl_append]; rfl
    rw [h2] at h1
    obtain ⟨h3, h4⟩ := timeAfter_fold (env := env) (s := s) (legacy := (w.ctxs cid).allowLegacy) (t := t) (pre.map Prod.fst ++ [p.1]) none (.inl rfl)
    refine ⟨fun h => ?_, fun h => ?_⟩
    · rw [h1, show _ = t from h3 h]
      exact candidateOutcome env cid s t p.1 w
    · rw [h1, show _ = (none : Option Int) from h4 h]
      exact candidateOutcome env cid s none p.1 w
  · rw [pairsFrom_snd]
    exact signerVerifyWith_times env cid s (fun c => if lifetimeSigning c then none else t) w hr hk hu cands hc

/-- Candidates exist in every state, and are determined. -/
theorem C35_candidates (w : World) (ctx : Ctx) (s : Signer) : ∃ l, Candidates w ctx s l ∧ ∀ l', Candidates w ctx s l' → l' = l := by
  have h := newOnes_firstOccurrences (fun c => c.issuer.components = s.issuer.components ∧ c.serial = s.serial)
    _ (fun _ => query_iff (env := exEnv)) (ctx.stores.flatMap (certsOf (loadedWorld w)))
  exact ⟨_, h, fun l' h' => firstOccurrences_unique h' h⟩

/-- What the verdict says, in the words of the property. -/
theorem C35_verdict_meaning (os : List (Except Exc (List Cert))) (r : Except Exc (List (List Cert))) (h : Verdict os r)
    (hreg : ∀ o ∈ os, Regular o) :
    (∀ chains, r = .ok chains → chains ≠ [] ∧ chains = os.filterMap Except.toOption) ∧
    ((∃ chain, .ok chain ∈ os) → ∃ chains, r = .ok chains) ∧
    ((∀ chain, .ok chain ∉ os) → ∀ e, os.head? = some (.error e) → r = .error e) ∧
    (os = [] → ∃ e, r = .error e ∧ e.cls = .signerInfoVerificationError) := by
  cases h with
  | chains _ h1 h2 =>
    refine ⟨fun chains he => (by cases he; exact ⟨h2, rfl⟩), fun _ => ⟨_, rfl⟩, fun hn => ?_, fun e => (by subst e; exact absurd rfl h2)⟩
    exfalso
    refine h2 ?_
    cases hx : os.filterMap Except.toOption with
    | nil => rfl
    | cons a l =>
      have : a ∈ os.filterMap Except.toOption := by rw [hx]; exact List.mem_cons_self ..
      obtain ⟨o, ho, hoa⟩ := List.mem_filterMap.1 this
      cases o with
      | error e => cases hoa
      | ok c => exact absurd ho (hn c)
  | firstError e os h1 h2 =>
    refine ⟨fun _ he => (by cases he), ?_, ?_, fun he => (by cases he)⟩
    · rintro ⟨chain, hm⟩
      rcases List.mem_cons.1 hm with hm | hm
      · cases hm
      · obtain ⟨e', he'⟩ := h2 _ hm
        cases he'
    · intro _ e' he'
      cases he'
      rfl
  | noCandidate msg =>
    refine ⟨fun _ he => (by cases he), ?_, ?_, fun _ => ⟨_, rfl, rfl⟩⟩
    · rintro ⟨chain, hm⟩; cases hm
    · intro _ e he; cases he
  | abort pre post e h1 h2 =>
    exfalso
    have := hreg (.error e) (by simp) e rfl
    rw [h2] at this
    cases this

/-! ### C62: potential chains of a signer -/

theorem certsOf_loadedWorld {w : World} {rs : List StoreRef} (h : ∀ r ∈ rs, LoadedStore w r) :
    rs.flatMap (certsOf (loadedWorld w)) = rs.flatMap (certsOf w) := by
  induction rs with
  | nil => rfl
  | cons r rs ih =>
    rw [List.flatMap_cons, List.flatMap_cons, ih (fun r' hr' => h r' (List.mem_cons_of_mem _ hr'))]
    congr 1
    cases r with
    | embedded _ => rfl
    | heap i =>
      have hp : (w.stores i).pending = none := h (.heap i) (by simp)
      simp [certsOf, loadedWorld, Spec.Store.loaded, hp]

/-- `SignerInfo.potential_chains` yields, each once, the potential chains (to the depth of ten issuers) of the candidates for the
signer's certificate, and nothing else. -/
theorem C62_signer_chains (env : Env) (cid : Nat) (s : Signer) (w : World) (hl : Loaded w cid) (cands : List Cert)
    (hc : Candidates w (w.ctxs cid) s cands) :
    ∃ l, signerPotentialChains env cid s w = (.ok l, w) ∧ l.Nodup ∧
      ∀ chain, chain ∈ l ↔ ∃ c ∈ cands, PotentialChain w cid 10 c chain := by
  have hcands : cands = newOnes [] ((knownCerts w cid).filter (Query.matches env { issuer := some s.issuer, serial := some s.serial })) := by
    refine firstOccurrences_unique hc ?_
    have h := newOnes_firstOccurrences (fun c => c.issuer.components = s.issuer.components ∧ c.serial = s.serial)
      (Query.matches env { issuer := some s.issuer, serial := some s.serial }) (fun _ => query_iff) (knownCerts w cid)
    unfold knownCerts at h
    rw [← certsOf_loadedWorld hl] at h
    unfold knownCerts
    rwa [← certsOf_loadedWorld hl]
  have hb : ∀ (acc : List (List Cert)) (c : Cert), (potentialChains env cid 10 c >>= fun chains => (pure (acc ++ chains) : M _)) w =
      (.ok (acc ++ pcs (ctxIsTrusted w cid) (knownCerts w cid) 10 c), w) := by
    intro acc c
    rw [M.bind_ok (potentialChains_loaded env cid w hl 10 c)]
    rfl
  refine ⟨cands.flatMap (pcs (ctxIsTrusted w cid) (knownCerts w cid) 10), ?_, ?_, ?_⟩
  · unfold signerPotentialChains
    rw [forFind_loaded env cid _ _ _ w (fun w' => w' = w) (fun _ h => by rw [h]) rfl hl, ← hcands]
    · rw [foldMc_flatMap _ _ w hb, List.nil_append]
    · rintro acc c' w' rfl
      rw [hb]
  · unfold List.Nodup
    rw [List.pairwise_flatMap]
    refine ⟨fun c _ => (pcs_nodup _ _ _ _).1, ?_⟩
    refine List.Pairwise.imp ?_ hc.distinct
    intro x y hxy a ha b hb hab
    subst hab
    have h1 := (pcs_nodup _ _ _ _).2 a ha
    rw [(pcs_nodup _ _ _ _).2 a hb] at h1
    cases h1
    exact hxy ⟨rfl, rfl, rfl, rfl⟩
  · intro chain
    rw [List.mem_flatMap]
    constructor
    · rintro ⟨c, h1, h2⟩; exact ⟨c, h1, (mem_pcs_iff 10 c chain).1 h2⟩
    · rintro ⟨c, h1, h2⟩; exact ⟨c, h1, (mem_pcs_iff 10 c chain).2 h2⟩

/-! ### examples -/

/-- Two candidates, of which the second validates. -/
def exTwoSigners : World := { exWorld with ctxs := fun _ => exCtx [.heap 0, .embedded [exInter, exFake, exLeaf]] }

theorem exTwo_candidates : Candidates exTwoSigners (exTwoSigners.ctxs 0) (exSign 3 [9] [5] none) [exFake, exLeaf] := by
  have h := newOnes_firstOccurrences (fun c => c.issuer.components = (exSign 3 [9] [5] none).issuer.components ∧ c.serial = (exSign 3 [9] [5] none).serial)
    _ (fun _ => query_iff (env := exEnv)) ((exTwoSigners.ctxs 0).stores.flatMap (certsOf (loadedWorld exTwoSigners)))
  have e : newOnes [] (((exTwoSigners.ctxs 0).stores.flatMap (certsOf (loadedWorld exTwoSigners))).filter
      (Query.matches exEnv { issuer := some (exSign 3 [9] [5] none).issuer, serial := some (exSign 3 [9] [5] none).serial })) = [exFake, exLeaf] := by
    decide +kernel
  rw [e] at h
  exact h

theorem exTwo_readable : Readable exTwoSigners (exTwoSigners.ctxs 0) := by
  intro i _ certs e he
  simp only [exTwoSigners, exWorld] at he
  split at he <;> cases he

example : (signerVerify (exVEnv (fun o _ => o ≠ 7)) 0 (exSign 3 [9] [5] none) (some 300) exTwoSigners).1 = .ok [[exRoot, exInter, exLeaf]] ∧
    ∃ o1 o2, CandidateOutcome (exVEnv (fun o _ => o ≠ 7)) exTwoSigners (exTwoSigners.ctxs 0) (exSign 3 [9] [5] none) (some 300) exFake o1 ∧
      CandidateOutcome (exVEnv (fun o _ => o ≠ 7)) exTwoSigners (exTwoSigners.ctxs 0) (exSign 3 [9] [5] none) (some 300) exLeaf o2 ∧
      Verdict [o1, o2] (signerVerify (exVEnv (fun o _ => o ≠ 7)) 0 (exSign 3 [9] [5] none) (some 300) exTwoSigners).1 := by
  refine ⟨by decide +kernel, ?_⟩
  obtain ⟨os, h1, h2, h3⟩ := C35_verdict_partial (exVEnv (fun o _ => o ≠ 7)) 0 (exSign 3 [9] [5] none) (some 300) exTwoSigners exTwo_readable rfl rfl
    _ exTwo_candidates
  obtain ⟨p, os, rfl, hp, h1⟩ := List.map_eq_cons_iff.1 h1
  obtain ⟨q, os, rfl, hq, h1⟩ := List.map_eq_cons_iff.1 h1
  cases List.map_eq_nil_iff.1 h1
  refine ⟨p.2, q.2, ?_, ?_, h3⟩
  · rw [← hp]; exact h2 p (by simp)
  · rw [← hq]; exact h2 q (by simp)

/-- Two candidates made the signature, and only the second is a lifetime signing certificate: the time given is used for both. -/
def exFakeLife : World := { exWorld with ctxs := fun _ => exCtx [.heap 0, .embedded [exInter, exFake, exLife]] }

theorem exFakeLife_candidates : Candidates exFakeLife (exFakeLife.ctxs 0) (exSign 3 [9] [5] none) [exFake, exLife] := by
  have h := newOnes_firstOccurrences (fun c => c.issuer.components = (exSign 3 [9] [5] none).issuer.components ∧ c.serial = (exSign 3 [9] [5] none).serial)
    _ (fun _ => query_iff (env := exEnv)) ((exFakeLife.ctxs 0).stores.flatMap (certsOf (loadedWorld exFakeLife)))
  have e : newOnes [] (((exFakeLife.ctxs 0).stores.flatMap (certsOf (loadedWorld exFakeLife))).filter
      (Query.matches exEnv { issuer := some (exSign 3 [9] [5] none).issuer, serial := some (exSign 3 [9] [5] none).serial })) = [exFake, exLife] := by
    decide +kernel
  rw [e] at h
  exact h

example : (authSignerVerify exLifeEnv 0 (exSign 3 [9] [5] none) (some 300) exFakeLife).1 = .ok [[exRoot, exInter, exLife]] ∧
    (∃ e, (authSignerVerify exLifeEnv 0 (exSign 3 [9] [5] none) (some 300)
      { exWorld with ctxs := fun _ => exCtx [.heap 0, .embedded [exInter, exLife]] }).1 = .error e) ∧
    ∃ o, CandidateOutcome exLifeEnv exFakeLife (exFakeLife.ctxs 0) (exSign 3 [9] [5] none) (some 300) exLife o := by
  refine ⟨by decide +kernel, ⟨_, rfl⟩, ?_⟩
  have hr : Readable exFakeLife (exFakeLife.ctxs 0) := by
    intro i _ certs e he
    simp only [exFakeLife, exWorld] at he
    split at he <;> cases he
  obtain ⟨os, h1, h2, -⟩ := C32_exact_partial exLifeEnv 0 (exSign 3 [9] [5] none) (some 300) exFakeLife hr rfl rfl _ exFakeLife_candidates
  obtain ⟨p, os, rfl, hp, h1⟩ := List.map_eq_cons_iff.1 h1
  obtain ⟨q, os, rfl, hq, h1⟩ := List.map_eq_cons_iff.1 h1
  cases List.map_eq_nil_iff.1 h1
  have h := (h2 [p] q [] rfl).1 ⟨exFake, by simp [hp], ⟨"rsa", rfl, by decide, .inl rfl⟩,
    fun h => absurd (lifetimeSigning_iff.2 h) (by decide +kernel)⟩
  rw [hq] at h
  exact ⟨_, h⟩

/-- Potential chains of the signer with two candidates (neither signature nor validity matters). -/
example : ∃ l, signerPotentialChains exEnv 0 (exSign 3 [9] [5] none) exTwoSigners = (.ok l, exTwoSigners) ∧
    [exRoot, exInter, exFake] ∈ l ∧ [exRoot, exInter, exLeaf] ∈ l ∧ ∃ c ∈ [exFake, exLeaf], PotentialChain exTwoSigners 0 10 c [exRoot, exInter, exLeaf] := by
  have hl : Loaded exTwoSigners 0 := by
    intro r hr
    cases r with
    | embedded _ => trivial
    | heap i =>
      show (exTwoSigners.stores i).pending = none
      simp only [exTwoSigners, exWorld]
      split <;> rfl
  obtain ⟨l, h1, -, h2⟩ := C62_signer_chains exEnv 0 (exSign 3 [9] [5] none) exTwoSigners hl _ exTwo_candidates
  have h3 : (signerPotentialChains exEnv 0 (exSign 3 [9] [5] none) exTwoSigners).1 =
    .ok [[exRoot, exInter, exFake], [exRoot, exInter, exLeaf]] := by decide +kernel
  rw [h1] at h3
  cases h3
  exact ⟨_, h1, by simp, by simp, (h2 _).1 (by simp)⟩

/-- A candidate with a key that cannot be loaded. -/
def exOdd : Cert := { exFake with spki := { exFake.spki with algorithm := "gost" } }
def exOddEnv : Env := { exVEnv (fun _ _ => true) with loadKey := fun s => if s.algorithm = "gost" then .error ⟨.foreign, "UnsupportedAlgorithm"⟩ else .ok s.algorithm }
def exOddWorld : World := { exWorld with ctxs := fun _ => exCtx [.heap 0, .embedded [exInter, exLeaf, exOdd]] }

/-- The property as stated is false: a candidate whose public key cannot be loaded ends the verification with an exception that is
not a VerificationError, even if other candidates validate. -/
theorem C35_verdict_false : ¬ ∀ (env : Env) (cid : Nat) (s : Signer) (t : Option Int) (w : World) (cands : List Cert),
    Readable w (w.ctxs cid) → Reiterable (w.ctxs cid).keyUsages → Reiterable (w.ctxs cid).ekus → Candidates w (w.ctxs cid) s cands →
    ∀ c ∈ cands, ∀ chain, CandidateOutcome env w (w.ctxs cid) s t c (.ok chain) →
      ∃ chains, (signerVerify env cid s t w).1 = .ok chains := by
  intro hall
  have hc : Candidates exOddWorld (exOddWorld.ctxs 0) (exSign 3 [9] [5] none) [exLeaf, exOdd] := by
    have h := newOnes_firstOccurrences (fun c => c.issuer.components = (exSign 3 [9] [5] none).issuer.components ∧ c.serial = (exSign 3 [9] [5] none).serial)
      _ (fun _ => query_iff (env := exEnv)) ((exOddWorld.ctxs 0).stores.flatMap (certsOf (loadedWorld exOddWorld)))
    have e : newOnes [] (((exOddWorld.ctxs 0).stores.flatMap (certsOf (loadedWorld exOddWorld))).filter
        (Query.matches exEnv { issuer := some (exSign 3 [9] [5] none).issuer, serial := some (exSign 3 [9] [5] none).serial })) = [exLeaf, exOdd] := by
      decide +kernel
    rw [e] at h
    exact h
  have hr : Readable exOddWorld (exOddWorld.ctxs 0) := by
    intro i _ certs e he
    simp only [exOddWorld, exWorld] at he
    split at he <;> cases he
  have hout : CandidateOutcome exOddEnv exOddWorld (exOddWorld.ctxs 0) (exSign 3 [9] [5] none) none exLeaf (.ok [exRoot, exInter, exLeaf]) := by
    refine .goodSignature _ ⟨"rsa", by decide, by decide, .inl (by decide)⟩ ⟨0, exOddWorld, rfl, rfl, ?_⟩
    decide +kernel
  obtain ⟨chains, h⟩ := hall exOddEnv 0 (exSign 3 [9] [5] none) none exOddWorld _ hr rfl rfl hc exLeaf (by simp) _ hout
  have he : (signerVerify exOddEnv 0 (exSign 3 [9] [5] none) none exOddWorld).1 = .error ⟨.foreign, "UnsupportedAlgorithm"⟩ := by
    decide +kernel
  rw [he] at h
  cases h

example := C35_authenticode_partial (exVEnv (fun o _ => o ≠ 7)) 0 (exSign 3 [9] [5] none) (some 300) exTwoSigners exTwo_readable rfl rfl _
  exTwo_candidates (.inr (fun c hc h => by
    simp only [List.mem_cons, List.not_mem_nil, or_false] at hc
    rcases hc with rfl | rfl <;> exact absurd h (by simp [LifetimeSigning, exFake, exLeaf, exCert])))

end Signify.Props
