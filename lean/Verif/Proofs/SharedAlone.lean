/-
Code on a file that nobody else uses: the programs do what the functions of `Model/Handle.lean` do.
-/
import Verif.Proofs.Shared

set_option autoImplicit false

namespace Signify

open Spec Prog

/-! ### Nobody else uses the file -/

namespace Prog
variable {α β : Type}

/-- The code on a file that nobody else uses. -/
def alone (p : Prog α) : HM α := fun h => ((p.amid nobody 0 h).1.1, (p.amid nobody 0 h).2.2)

theorem amid_nobody : ∀ (p : Prog α) (n m : Nat) (h : Handle),
    ((p.amid nobody n h).1.1, (p.amid nobody n h).2.2) = ((p.amid nobody m h).1.1, (p.amid nobody m h).2.2) := by
  intro p
  induction p with
  | ret r => intro n m h; rfl
  | seek p k ih => intro n m h; simp only [amid]; exact ih _ _ _
  | seekEnd k ih => intro n m h; simp only [amid]; exact ih _ _ _
  | tell k ih => intro n m h; simp only [amid]; exact ih _ _ _ _
  | read c k ih => intro n m h; simp only [amid]; exact ih _ _ _ _

theorem alone_onResult (p : Prog α) (f : Except Exc α → Prog β) (h : Handle) :
    (p.onResult f).alone h = (f (p.alone h).1).alone (p.alone h).2 := by
  unfold alone
  rw [amid_onResult]
  simp only
  exact amid_nobody _ _ _ _

theorem alone_bind (p : Prog α) (k : α → Prog β) : (p >>= k).alone = (p.alone >>= fun a => (k a).alone) := by
  funext h
  rw [HM.bind_def]
  show (p.onResult _).alone h = _
  rw [alone_onResult]
  cases hp : p.alone h with
  | mk r h' => cases r <;> rfl

theorem alone_ret (r : Except Exc α) : (Prog.ret r).alone = HM.lift r := rfl
theorem alone_pure (a : α) : (Pure.pure a : Prog α).alone = (Pure.pure a : HM α) := rfl
theorem alone_raise (e : Exc) : (Prog.raise e : Prog α).alone = HM.raise e := rfl

theorem alone_tryCatch (p : Prog α) (k : Exc → Prog α) : (Prog.tryCatch p k).alone = HM.tryCatch p.alone (fun e => (k e).alone) := by
  funext h
  show (p.onResult _).alone h = _
  rw [alone_onResult]
  unfold HM.tryCatch
  cases hp : p.alone h with
  | mk r h' => cases r <;> rfl

theorem alone_seek (p : Int) : (Prog.doSeek p).alone = HM.seek p := by
  funext h
  unfold Prog.doSeek HM.seek
  split <;> rfl

theorem alone_read (n : Int) : (Prog.doRead n).alone = HM.read n := rfl

theorem alone_unpack (n : Nat) : (Prog.unpack n).alone = HM.unpack n := by
  funext h
  rw [HM.unpack_run]
  show (unpackLE n (answer h n), ({ h with pos := h.pos + (answer h n).length } : Handle)) = _
  rw [answer_nat]
  rfl

theorem alone_ite (c : Prop) [Decidable c] (p q : Prog α) : (if c then p else q).alone = if c then p.alone else q.alone := by
  split <;> rfl

end Prog

theorem openLengthP_alone : openLengthP.alone = openLength := rfl

theorem parseDirectoriesP_alone (flen oho ohs rva cert : Nat) :
    (parseDirectoriesP flen oho ohs rva cert).alone = parseDirectoriesH flen oho ohs rva cert := by
  unfold parseDirectoriesP parseDirectoriesH
  simp only [alone_ite, alone_bind, alone_pure, alone_raise, alone_seek, alone_read, alone_unpack]

theorem parsePEHeaderP_alone (flen : Nat) : (parsePEHeaderP flen).alone = parsePEHeaderH flen := by
  unfold parsePEHeaderP parsePEHeaderH
  simp only [alone_ite, alone_bind, alone_pure, alone_raise, alone_seek, alone_read, alone_unpack, alone_ret, parseDirectoriesP_alone]

theorem omitSectionsP_alone (flen : Nat) : (omitSectionsP flen).alone = omitSectionsH flen := by
  unfold omitSectionsP omitSectionsH
  simp only [alone_ite, alone_bind, alone_pure, alone_raise, alone_tryCatch, parsePEHeaderP_alone]

theorem certWhileP_alone (flen tableEnd pos : Nat) : (certWhileP flen tableEnd pos).alone = certWhileH flen tableEnd pos := by
  unfold certWhileP certWhileH
  simp only [alone_ite, alone_bind, alone_pure, alone_raise, alone_seek, alone_read, alone_unpack]

theorem CertGen.runP_alone (flen : Nat) (g : CertGen) : (g.runP flen).alone = g.run flen := by
  cases g with
  | start =>
    unfold CertGen.runP CertGen.run
    simp only [alone_bind, omitSectionsP_alone]
    congr 1
    funext o
    cases o with
    | none => rfl
    | some loc =>
      simp only
      cases loc.get? "certtable" with
      | none => rfl
      | some t => exact certWhileP_alone _ _ _
  | suspended p l t => exact certWhileP_alone _ _ _
  | finished => rfl

theorem sdPullP_alone (cd : Codec) (flen : Nat) (nested : Bool) : ∀ (fuel : Nat) (certs : CertGen) (found : Bool),
    (sdPullP cd flen nested fuel certs found).alone = sdPullH cd flen nested fuel certs found := by
  intro fuel
  induction fuel with
  | zero => intro _ _; rfl
  | succ fuel ih =>
    intro certs found
    unfold sdPullP sdPullH
    simp only [alone_bind, CertGen.runP_alone]
    congr 1
    funext r
    match r with
    | none => simp only [alone_ite, alone_raise, alone_pure]
    | some (c, g) =>
      simp only [alone_ite, alone_raise, alone_bind, alone_ret, ih]
      congr 1
      congr 1
      congr 1
      funext a
      cases recursiveNested nested a with
      | nil => exact ih _ _
      | cons x q => rfl

theorem SdGen.runP_alone (cd : Codec) (flen : Nat) (nested ignore : Bool) (g : SdGen) :
    (g.runP cd flen nested ignore).alone = g.run cd flen nested ignore := by
  have hc : ∀ p, (sdCatchP ignore p).alone = sdCatch ignore p.alone := by
    intro p
    unfold sdCatchP sdCatch
    simp only [alone_tryCatch, alone_ite, alone_pure, alone_raise]
  match g with
  | .start => unfold SdGen.runP SdGen.run; rw [hc, sdPullP_alone]
  | .suspended certs [] => unfold SdGen.runP SdGen.run; rw [hc, sdPullP_alone]
  | .suspended certs (x :: q) => rfl
  | .finished => rfl

theorem drainP_alone (cd : Codec) (flen : Nat) (nested ignore : Bool) : ∀ (fuel : Nat) (g : SdGen) (h : Handle),
    (SdGen.drainP cd flen nested ignore fuel g).alone h =
      (.ok (SdGen.drainH cd flen nested ignore fuel g h).1, (SdGen.drainH cd flen nested ignore fuel g h).2) := by
  intro fuel
  induction fuel with
  | zero => intro g h; rfl
  | succ fuel ih =>
    intro g h
    unfold SdGen.drainP SdGen.drainH SdGen.next
    rw [alone_onResult, SdGen.runP_alone]
    cases hr : g.run cd flen nested ignore h with
    | mk r h' =>
      match r with
      | .error e => rfl
      | .ok none => rfl
      | .ok (some (a, g')) =>
        simp only
        rw [alone_bind, HM.bind_def, ih]
        cases hd : SdGen.drainH cd flen nested ignore fuel g' h' with
        | mk r' h'' =>
          simp only
          match r' with
          | none => rfl
          | some (l, e) => rfl

/-- The fingerprinter with another file. -/
def FP.withFile (fp : FP) (b : Bytes) : FP := { fp with file := b }

/-- The outcome of a step with another file. -/
def Step.withFile (b : Bytes) : Step → Step
  | .done => .done
  | .raised e fp => .raised e (fp.withFile b)
  | .next iv fp => .next iv (fp.withFile b)

theorem stepP_alone (fp : FP) (b : Bytes) (h : Handle) :
    (fp.stepP).alone h = (.ok (((fp.withFile b).stepH h).1.withFile fp.file), ((fp.withFile b).stepH h).2) := by
  obtain ⟨file, bs, fingers, heap, next⟩ := fp
  simp only [FP.stepP, FP.stepH, FP.withFile]
  cases nextInterval bs fingers heap with
  | none => rfl
  | some iv =>
    simp only
    rw [alone_onResult, alone_bind, alone_seek]
    simp only [alone_read]
    cases (do HM.seek iv.start; HM.read (iv.stop - iv.start) : HM Bytes) h with
    | mk r h' =>
      cases r with
      | error e => rfl
      | ok block =>
        simp only
        split
        · rfl
        · cases hashBlock heap block iv.start iv.stop fingers with
          | mk fingers o =>
            cases o with
            | some e => rfl
            | none =>
              simp only
              cases consumeAll iv.start iv.stop fingers heap with
              | mk heap o => cases o <;> rfl

theorem stepH_file {fp fp' : FP} {h h' : Handle} {iv : Range} (hs : fp.stepH h = (.next iv fp', h')) : fp'.file = fp.file := by
  unfold FP.stepH at hs
  split at hs
  · cases hs
  · split at hs
    · cases hs
    · split at hs
      · cases hs
      · split at hs
        · cases hs
        · split at hs
          · cases hs
          · cases hs
            rfl

theorem raised_file {fp fp' : FP} {h h' : Handle} {e : Exc} (hs : fp.stepH h = (.raised e fp', h')) : fp'.file = fp.file := by
  unfold FP.stepH at hs
  split at hs
  · cases hs
  · split at hs
    · cases hs
      rfl
    · split at hs
      · cases hs
        rfl
      · split at hs
        · cases hs
          rfl
        · split at hs
          · cases hs
            rfl
          · cases hs

theorem loopH_file : ∀ {n : Nat} {fp fp' : FP} {h h' : Handle} {o : Option Exc}, fp.loopH n h = (some (fp', o), h') → fp'.file = fp.file := by
  intro n
  induction n with
  | zero => intro fp fp' h h' o hl; cases hl
  | succ n ih =>
    intro fp fp' h h' o hl
    unfold FP.loopH at hl
    cases hs : fp.stepH h with
    | mk s h1 =>
      rw [hs] at hl
      cases s with
      | done => cases hl; rfl
      | raised e fp1 => cases hl; exact raised_file hs
      | next iv fp1 => exact (ih hl).trans (stepH_file hs)

theorem loopP_alone : ∀ (n : Nat) (fp : FP) (b : Bytes) (h : Handle),
    (fp.loopP n).alone h = (.ok (((fp.withFile b).loopH n h).1.map (fun x => (x.1.withFile fp.file, x.2))), ((fp.withFile b).loopH n h).2) := by
  intro n
  induction n with
  | zero => intro fp b h; rfl
  | succ n ih =>
    intro fp b h
    unfold FP.loopP FP.loopH
    rw [alone_bind, HM.bind_def, stepP_alone fp b]
    cases hs : (fp.withFile b).stepH h with
    | mk s h' =>
      cases s with
      | done => rfl
      | raised e fp' => rfl
      | next iv fp' =>
        have hf : fp'.file = b := stepH_file hs
        show (FP.loopP n (fp'.withFile fp.file)).alone h' = _
        rw [ih (fp'.withFile fp.file) b h']
        have : (fp'.withFile fp.file).withFile b = fp' := by
          cases fp'
          cases hf
          rfl
        rw [this]
        rfl

theorem authentihashesP_alone (env : Env) (algs : List String) (h : Handle) :
    (authentihashesP env (h.bytes.length + 10) algs).alone h = authentihashesH env algs h := by
  unfold authentihashesP authentihashesH newFingerprinterH
  have ho : openLength h = (.ok h.bytes.length, { h with pos := h.bytes.length }) := rfl
  rw [alone_bind, HM.bind_def, openLengthP_alone, ho]
  simp only
  unfold FP.addAuthenticodeHashersH
  rw [alone_bind, openLengthP_alone, HM.bind_def, HM.bind_def]
  have ho' : openLength { h with pos := h.bytes.length } = (.ok h.bytes.length, { h with pos := h.bytes.length }) := rfl
  rw [ho']
  simp only
  rw [alone_bind, omitSectionsP_alone, HM.bind_def]
  have fin : ∀ (fp : FP) (h' : Handle), fp.file = List.replicate h.bytes.length 0 →
      (authentihashesP.finish env (h.bytes.length + 10) fp).alone h' =
      (match (fp.withFile h.bytes).hashesH env.hash ((fp.withFile h.bytes).file.length + 10) h' with
      | (none, h) => (.error ⟨.runtimeError, "not terminated"⟩, h)
      | (some (r, _), h) => (r, h)) := by
    intro fp h' hf
    unfold authentihashesP.finish FP.hashesH
    rw [alone_bind, HM.bind_def, loopP_alone _ fp h.bytes]
    rw [show (fp.withFile h.bytes).file.length = h.bytes.length from rfl]
    cases hl : (fp.withFile h.bytes).loopH (h.bytes.length + 10) h' with
    | mk r h'' =>
      match r with
      | none => rfl
      | some (fp', some e) => rfl
      | some (fp', none) =>
        have hff : fp'.file = h.bytes := loopH_file hl
        simp only [Option.map_some, alone_ret, HM.lift]
        have h1 : (fp'.withFile fp.file).filelength = fp'.filelength := by
          unfold FP.filelength FP.withFile
          simp only [hf, hff, List.length_replicate]
        rw [h1]
        show (collect env.hash fp'.filelength fp'.heap fp'.fingers [], h'') = _
        cases collect env.hash fp'.filelength fp'.heap fp'.fingers [] <;> rfl
  cases omitSectionsH h.bytes.length { h with pos := h.bytes.length } with
  | mk r h' =>
    match r with
    | .error e => rfl
    | .ok none =>
      simp only
      rw [fin _ _ rfl]
      rfl
    | .ok (some om) =>
      simp only
      rw [fin _ _ (by rw [FP.addHashers_file]; rfl)]
      have hne : complementRanges h.bytes.length 0 (sortRel (om.map Prod.snd)) ≠ [] := complement_ne_nil _ _ _
      simp only [FP.addHashers, FP.new, RangeHeap.set, FP.withFile, Nat.zero_add, Nat.sub_self, if_true, hne, if_false]
      rfl

theorem neededHashesP_alone (env : Env) (algs : List String) (provided : Dict String Bytes) (h : Handle) :
    (neededHashesP env (h.bytes.length + 10) algs provided).alone h = neededHashesH env algs provided h := by
  unfold neededHashesP neededHashesH
  split
  · rfl
  · simp only
    split
    · rfl
    · refine Eq.trans ?_ (HM.bind_def _ _ h).symm
      rw [alone_bind, HM.bind_def, authentihashesP_alone]
      cases authentihashesH env ((dedupNames algs).filter (fun a => (provided.get? a).isNone)) h with
      | mk r h' =>
        cases r with
        | error e => rfl
        | ok res =>
          simp only
          cases res.get? "authentihash" <;> rfl

/-- A signature that is given its expected hash does not use the file. -/
theorem verifyOne_file (env : Env) (b b' : Bytes) (hashes : Dict String Bytes) (kwargs : VerifyArgs) :
    verifyOne env b hashes kwargs = verifyOne env b' hashes kwargs := by
  funext a
  unfold verifyOne
  cases hashes.get? a.d.core.digestAlg with
  | none => rfl
  | some d => rfl

theorem peVerifyAmid_nobody (env : Env) (cd : Codec) (fuel : Nat) (args : PEVerifyArgs) (h : Handle) (w : World)
    (hf : (iterSignedDatas cd h.bytes true args.ignoreParseErrors).1.length < fuel) :
    (peVerifyAmid env cd h.bytes.length fuel (h.bytes.length + 10) args nobody h w).1 = peVerify env cd h.bytes args w := by
  rw [← (peVerifyH_gives env cd h.bytes fuel args h w rfl hf).1]
  unfold peVerifyH
  generalize hg : (match args.expectedHashes with | none => ([] : Dict String Bytes) | some i => w.dicts i) = given
  have ha : ((verifyReadsP env cd h.bytes.length fuel (h.bytes.length + 10) args given).amid nobody 0 h).1.1 =
      ((verifyReadsP env cd h.bytes.length fuel (h.bytes.length + 10) args given).alone h).1 := rfl
  obtain ⟨d1, d2⟩ := drainH_gives cd (Seen.self h.bytes) true args.ignoreParseErrors fuel .start _ h rfl (SdLeft.start _ _ _ _) hf
  have hp : (peVerifyAmid env cd h.bytes.length fuel (h.bytes.length + 10) args nobody h w).1 =
      verifyRead env args given ((verifyReadsP env cd h.bytes.length fuel (h.bytes.length + 10) args given).amid nobody 0 h).1.1 w := by
    rw [← hg]
    rfl
  rw [hp, ha]
  unfold verifyReadsP
  rw [alone_bind, HM.bind_def, drainP_alone]
  cases hd : SdGen.drainH cd h.bytes.length true args.ignoreParseErrors fuel .start h with
  | mk r h' =>
    rw [hd] at d1 d2
    simp only at d1 d2
    subst d1
    generalize iterSignedDatas cd h.bytes true args.ignoreParseErrors = listed
    simp only
    rw [alone_bind, HM.bind_def, alone_ret]
    unfold verifyListed HM.lift
    cases listed.toList with
    | error e => rfl
    | ok sds =>
      simp only
      by_cases hs : sds.isEmpty = true
      · rw [if_pos hs, if_pos hs]
        rfl
      · rw [if_neg hs, if_neg hs]
        rw [alone_bind, HM.bind_def]
        have hl : h.bytes.length = h'.bytes.length := by rw [d2]
        rw [hl, neededHashesP_alone]
        unfold verifyRead
        cases he : args.expectedHashes with
        | none =>
          rw [he] at hg
          simp only at hg
          subst hg
          simp only
          cases neededHashesH env ((selectSignatures args.multiVerifyMode sds).map (fun a => a.d.core.digestAlg)) [] h' with
          | mk r h'' =>
            cases r with
            | error e => rfl
            | ok more =>
              simp only [alone_pure]
              rw [verifyOne_file env h''.bytes []]
              rfl
        | some i =>
          rw [he] at hg
          simp only at hg
          subst hg
          simp only
          cases neededHashesH env ((selectSignatures args.multiVerifyMode sds).map (fun a => a.d.core.digestAlg)) (w.dicts i) h' with
          | mk r h'' =>
            cases r with
            | error e => rfl
            | ok more =>
              simp only [alone_pure]
              rw [verifyOne_file env h''.bytes []]
              rfl

/-! ### Threads -/

namespace Prog
variable {α : Type}

theorem turn_bytes (p : Prog α) (h : Handle) : (p.turn h).2.bytes = h.bytes := by
  cases p <;> rfl

/-- What a thread does when others take their turns is a run amid others that move the position only. -/
theorem turns_amid (i : Nat) : ∀ (l : List Nat) (ps : Nat → Prog α) (h : Handle) (n : Nat) (r : Except Exc α),
    (turns l ps h).1 i = .ret r → ∀ hi : Handle, hi.bytes = h.bytes →
    ∃ σ, PositionOnly σ ∧ ((ps i).amid σ n hi).1.1 = r ∧ ∀ m ∈ ((ps i).amid σ n hi).1.2, m.bytes = h.bytes := by
  intro l
  induction l with
  | nil =>
    intro ps h n r hr hi hb
    refine ⟨nobody, fun _ _ => rfl, ?_⟩
    rw [show ps i = .ret r from hr]
    exact ⟨rfl, fun m hm => by cases hm⟩
  | cons j l ih =>
    intro ps h n r hr hi hb
    unfold turns at hr
    simp only at hr
    have hbt := turn_bytes (ps j) h
    cases ht : (ps j).turn h with
    | mk p h' =>
      rw [ht] at hr hbt
      simp only at hr hbt
      by_cases hij : i = j
      · -- the thread takes its turn: the others have moved the file to where it is now
        subst hij
        have hpi : (fun k => if k = i then p else ps k) i = p := by simp
        obtain ⟨σ, s1, s2, s3⟩ := ih _ h' (n + 1) r hr h' rfl
        simp only [if_true] at s2 s3
        have hσn : ∀ (q : Prog α) (x : Handle) (σ' : Nat → Handle → Handle), (∀ k, n + 1 ≤ k → σ' k = σ k) →
            ∀ k, n + 1 ≤ k → q.amid σ' k x = q.amid σ k x := by
          intro q
          induction q with
          | ret r => intro x σ' _ k _; rfl
          | seek p q ihq => intro x σ' h1 k hk; simp only [amid, h1 k hk, ihq _ σ' h1 (k + 1) (by omega)]
          | seekEnd q ihq => intro x σ' h1 k hk; simp only [amid, h1 k hk, ihq _ σ' h1 (k + 1) (by omega)]
          | tell q ihq => intro x σ' h1 k hk; simp only [amid, h1 k hk, ihq _ _ σ' h1 (k + 1) (by omega)]
          | read c q ihq => intro x σ' h1 k hk; simp only [amid, h1 k hk, ihq _ _ σ' h1 (k + 1) (by omega)]
        refine ⟨fun k x => if k = n then { x with pos := h.pos } else σ k x, ?_, ?_⟩
        · intro k x
          by_cases hk : k = n
          · simp [hk]
          · simp only [hk, if_false]
            exact s1 k x
        · have hx : ({ hi with pos := h.pos } : Handle) = h := by
            cases hi
            cases h
            cases hb
            rfl
          have hlate : ∀ k, n + 1 ≤ k → (fun k x => if k = n then ({ x with pos := h.pos } : Handle) else σ k x) k = σ k := by
            intro k hk
            funext x
            have : k ≠ n := by omega
            simp [this]
          generalize hσ' : (fun (k : Nat) (x : Handle) => if k = n then ({ x with pos := h.pos } : Handle) else σ k x) = σ' at hlate
          have h0 : σ' n hi = h := by rw [← hσ']; simp only [if_true]; exact hx
          rw [hbt] at s3
          cases hp : ps i with
          | ret r' =>
            rw [hp] at ht
            cases ht
            refine ⟨?_, fun m hm => by cases hm⟩
            exact s2
          | seek q k =>
            rw [hp] at ht
            cases ht
            simp only [amid, h0, hσn _ _ σ' hlate (n + 1) (Nat.le_refl _)]
            refine ⟨s2, fun m hm => ?_⟩
            rcases List.mem_cons.1 hm with rfl | hm
            · rfl
            · exact s3 m hm
          | seekEnd k =>
            rw [hp] at ht
            cases ht
            simp only [amid, h0, hσn _ _ σ' hlate (n + 1) (Nat.le_refl _)]
            refine ⟨s2, fun m hm => ?_⟩
            rcases List.mem_cons.1 hm with rfl | hm
            · rfl
            · exact s3 m hm
          | tell k =>
            rw [hp] at ht
            cases ht
            simp only [amid, h0, hσn _ _ σ' hlate (n + 1) (Nat.le_refl _)]
            refine ⟨s2, fun m hm => ?_⟩
            rcases List.mem_cons.1 hm with rfl | hm
            · rfl
            · exact s3 m hm
          | read c k =>
            rw [hp] at ht
            cases ht
            simp only [amid, h0, hσn _ _ σ' hlate (n + 1) (Nat.le_refl _)]
            refine ⟨s2, fun m hm => ?_⟩
            rcases List.mem_cons.1 hm with rfl | hm
            · rfl
            · exact s3 m hm
      · have hpi : (fun k => if k = j then p else ps k) i = ps i := by simp [hij]
        have := ih _ h' n r hr hi (by rw [hb, hbt])
        simp only [hij, if_false] at this
        rw [hbt] at this
        exact this

end Prog

end Signify
