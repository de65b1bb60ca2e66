/-
Key usages given as a container or as an iterator to `SignedPEFile.verify` (C95).
-/
import Verif.Proofs.OneShotFile
import Verif.Props.OneShot
import Verif.Props.Custody

set_option autoImplicit false

namespace Signify.Props

open Signify Spec

/-- **C95** for files, with a container as `key_usages`: every chain that `SignedPEFile.verify` returns, for however many signatures, is the
answer to a question about exactly these. -/
theorem C95_container_file_partial (env : Env) (cd : Codec) (file : Bytes) (args : PEVerifyArgs) (l : List String) (w : World)
    (hc : args.kwargs.context = none) (hcs : ∀ c, args.kwargs.csContext = some c → c < w.nextCtx) (res : List (ASD × List (List Cert)))
    (h : (peVerify env cd file { args with kwargs := args.kwargs.requiring l } w).1 = .ok res) : ∀ p ∈ res, AnsweredFor env l p.2 := by
  have he : ContextsExist w args.kwargs := ⟨fun c h => (by rw [hc] at h; cases h), hcs⟩
  intro p hp
  obtain ⟨sds, hcon, hne, hn⟩ := peVerify_ok h
  obtain ⟨sel, tried, rest, w0, -, -, h3, h4, h5⟩ := C16_outcome env cd file _ w sds hcon hne hn
  have he0 : ContextsExist w0 (args.kwargs.requiring l) :=
    ⟨fun c hc => (by rw [h3.2.2]; exact he.context c hc), fun c hc => (by rw [h3.2.2]; exact he.csContext c hc)⟩
  obtain ⟨dig, w1, w2, -, k2, -, -, k5⟩ := attempts_call h4 he0 _ _ (overall_returned h5 h _ hp)
  exact C95_container_verify_partial env (some file) p.1.d { args.kwargs with expectedHash := some dig } l w1 w2 p.2 ⟨k2.context, k2.csContext⟩ hc k5

/-- **C95** for files, with an iterator as `key_usages`, exactly what is left of the claim: the first signature that is returned has been
asked for the usages or for none (see `C95_once_exact`), and every further one for none. -/
theorem C95_once_file (env : Env) (cd : Codec) (file : Bytes) (args : PEVerifyArgs) (l : List String) (w : World)
    (hc : args.kwargs.context = none) (hcs : args.kwargs.csContext = none) (res : List (ASD × List (List Cert)))
    (h : (peVerifyOnce env cd file args l w).1 = .ok res) : AskedOnce env l res := by
  unfold peVerifyOnce at h
  have hnew : M.newCtx (mkCtxOnce [] [] args.kwargs.options l) w = (.ok w.nextCtx, { w with
    ctxs := fun j => if j = w.nextCtx then mkCtxOnce [] [] args.kwargs.options l else w.ctxs j, nextCtx := w.nextCtx + 1 }) := rfl
  rw [M.bind_ok hnew] at h
  cases hi : (iterSignedDatas cd file true args.ignoreParseErrors).toList with
  | error e => rw [hi, M.bind_error (M.lift_run _ _)] at h; cases h
  | ok sds =>
    rw [hi, M.bind_ok (M.lift_run _ _)] at h
    simp only at h
    split at h
    · cases h
    · obtain ⟨D, -, hD⟩ := calculateExpectedHashes_state env file ((selectSignatures args.multiVerifyMode sds).map (fun a => a.d.core.digestAlg))
        args.expectedHashes { w with ctxs := fun j => if j = w.nextCtx then mkCtxOnce [] [] args.kwargs.options l else w.ctxs j, nextCtx := w.nextCtx + 1 }
      rw [M.bind_run] at h
      split at h
      · rename_i d w1 hx
        rw [hx] at hD
        simp only at hD
        subst hD
        refine verifyLoop_left (l0 := l) (slot := w.nextCtx) args.multiVerifyMode ?_ _ [] none l _ ⟨Nat.lt_succ_self _, ?_⟩ (.inl rfl) (fun h => absurd rfl h)
          ⟨fun p hp => (by cases hp), fun p hp => (by cases hp)⟩ res h
        · intro a l' w' hw
          cases hg : Dict.get? d a.d.core.digestAlg with
          | none =>
            have : verifyOneFrom env file d args.kwargs w.nextCtx a = M.raise ⟨.keyError, a.d.core.digestAlg⟩ := by unfold verifyOneFrom; rw [hg]
            rw [this]
            exact ⟨.inl hw, fun _ h => (by cases h)⟩
          | some x =>
            have : verifyOneFrom env file d args.kwargs w.nextCtx a =
                asdVerifyFrom env (some file) a.d { args.kwargs with expectedHash := some x } w.nextCtx := by unfold verifyOneFrom; rw [hg]
            rw [this]
            exact asdVerifyFrom_left hc hcs hw
        · show (if w.nextCtx = w.nextCtx then mkCtxOnce [] [] args.kwargs.options l else _).keyUsages = _
          rw [if_pos rfl]; rfl
      · cases h

/-- The exact law: the signatures that the mode selects are tried as by `peVerify` (`C16_outcome`), each as the call described by
`C95_once_exact` with what the ones before have left of the iterator; the first gets all of it. -/
theorem C95_file_exact (env : Env) (cd : Codec) (file : Bytes) (args : PEVerifyArgs) (l : List String) (w : World)
    (hc : args.kwargs.context = none) (hcs : args.kwargs.csContext = none) (sds : List ASD)
    (h : Considered cd file args.ignoreParseErrors sds) (hne : sds ≠ []) (hp : HashNames (providedBy w args)) :
    ∃ sel tried rest w0, Selected args.multiVerifyMode sds sel ∧ sel = tried.map Prod.fst ++ rest ∧ w0.stores = w.stores ∧
      AttemptsOnce env file (providedBy w args) args.kwargs l w0 tried ∧
      Overall args.multiVerifyMode tried rest (peVerifyOnce env cd file args l w).1 := by
  obtain ⟨oho, ohs, dir, hh⟩ := header_of_considered h hne
  have hit := considered_iff.1 h
  have halg := fun x hx => considered_alg h (x := x) hx
  let w1 : World := { w with ctxs := fun j => if j = w.nextCtx then mkCtxOnce [] [] args.kwargs.options l else w.ctxs j, nextCtx := w.nextCtx + 1 }
  have hp1 : providedBy w1 args = providedBy w args := by unfold providedBy; rfl
  obtain ⟨d, hd, hget⟩ := calculateExpectedHashes_ok env file ((selectSignatures args.multiVerifyMode sds).map (fun a => a.d.core.digestAlg)) args w1
    (by rw [hp1]; exact hp) hh
  rw [hp1] at hget
  obtain ⟨tried, rest, w', r, h1, h2, h3, h4⟩ := verifyLoop_overall (verifyOneFrom env file d args.kwargs w.nextCtx) args.multiVerifyMode
    (selectSignatures args.multiVerifyMode sds) (withHashes w1 args.expectedHashes d) (selected_ne_nil hne halg)
  have hv : peVerifyOnce env cd file args l w = (r, w') := by
    unfold peVerifyOnce
    rw [M.bind_ok (show M.newCtx (mkCtxOnce [] [] args.kwargs.options l) w = (.ok w.nextCtx, w1) from rfl),
      M.bind_ok (show M.lift _ w1 = (.ok sds, w1) from by unfold M.lift; rw [hit])]
    rw [if_neg (by rw [List.isEmpty_iff]; exact hne)]
    rw [M.bind_ok hd, h4]
  have hx := withHashes_except w1 args.expectedHashes d
  refine ⟨_, tried, rest, withHashes w1 args.expectedHashes d, (selected_iff hne halg).2 rfl, h1, hx.1, ?_, by rw [hv]; exact h3⟩
  refine attemptsOnce_of_tried hc hcs (fun a ha => ?_) h2 ⟨?_, ?_⟩
  · have hm : a.d.core.digestAlg ∈ (selectSignatures args.multiVerifyMode sds).map (fun a => a.d.core.digestAlg) :=
      List.mem_map.2 ⟨a, by rw [h1]; exact List.mem_append_left _ ha, rfl⟩
    have hg := hget a.d.core.digestAlg
    rw [if_pos hm] at hg
    cases hx : d.get? a.d.core.digestAlg with
    | none =>
      rw [hx] at hg
      cases hp : (providedBy w args).get? a.d.core.digestAlg <;> rw [hp] at hg <;> cases hg
    | some x => exact ⟨x, rfl, digestFor_of_header hh (hg.symm.trans hx)⟩
  · rw [hx.2.2]; exact Nat.lt_succ_self _
  · rw [hx.2.1]
    show (if w.nextCtx = w.nextCtx then mkCtxOnce [] [] args.kwargs.options l else _).keyUsages = _
    rw [if_pos rfl]; rfl

/-- The part of it that concerns one signature is the call described by `C95_once_exact`. -/
theorem C95_once_each (env : Env) (file : Option Bytes) (a : AuthData) (args : VerifyArgs) (slot : Nat) (l : List String) (w : World)
    (h : (w.ctxs slot).keyUsages = .gen l) : (asdVerifyFrom env file a args slot w).1 = (asdVerifyOnce env file a args l w).1 := by
  rw [asdVerifyFrom_once, h]; rfl

/-! #### Instances -/

/-- As `exPECodec`, but the signatures of the entries of 1s are made with the certificate `exTsa`. -/
def exUsageCodec : Codec :=
  { exPECodec with
    envelope := fun b =>
      if b.length = 8 then
        .ok ("signed_data", .mk ⟨[⟨if b.head? = some 2 then "sha1" else "sha256", false⟩], "microsoft_spc_indirect_data_content",
            some (b.take 1), [⟨"certificate", exInter⟩, ⟨"certificate", if b.head? = some 1 then exTsa else exLeaf⟩], 0, false⟩
          [.mk ⟨"issuer_and_serial_number", exN "Inter", if b.head? = some 1 then 6 else 3, some (b.take 1),
            ⟨if b.head? = some 2 then "sha1" else "sha256", false⟩, "rsa", [0x31, 1] ++ b.take 1⟩ []])
      else .error ⟨.foreign, "cannot decode"⟩ }

/-- Only certificate 6 has key usages. -/
def exUsagePEEnv : Env := { exPEEnv with validate := exUsageEnv.validate }

theorem exUsage_list : exOutcome (peVerify exUsagePEEnv exUsageCodec (exTwice 1 2 [7, 7, 7])
    { exPEArgs "all" with kwargs := (exPEArgs "all").kwargs.requiring ["digital_signature"] } exWorld).1 = .error .certificateVerificationError := by
  decide +kernel

theorem exUsage_first : exOutcome (peVerify exUsagePEEnv exUsageCodec (exTwice 1 2 [7, 7, 7])
    { exPEArgs "first" with kwargs := (exPEArgs "first").kwargs.requiring ["digital_signature"] } exWorld).1 = .ok [(("sha256", [1]), [[1, 2, 6]])] := by
  decide +kernel

theorem exUsage_once : exOutcome (peVerifyOnce exUsagePEEnv exUsageCodec (exTwice 1 2 [7, 7, 7]) (exPEArgs "all") ["digital_signature"] exWorld).1 =
    .ok [(("sha256", [1]), [[1, 2, 6]]), (("sha1", [2]), [[1, 2, 3]])] := by decide +kernel

/-- **C95** is false for files verified with an iterator, also without countersignatures: in mode `all`, a file whose second signature was
made with a certificate that does not have the usage asked for is refused if the usage is given in a list, and accepted, with a chain of
that certificate, if it is given by a generator. -/
theorem C95_once_file_false : ∃ (env : Env) (cd : Codec) (file : Bytes) (args : PEVerifyArgs) (l : List String) (w : World),
    args.multiVerifyMode = "all" ∧ (∃ e, (peVerify env cd file { args with kwargs := args.kwargs.requiring l } w).1 = .error e ∧
      e.cls = .certificateVerificationError) ∧
    ∃ res, (peVerifyOnce env cd file args l w).1 = .ok res ∧ ∃ p ∈ res, p.2 ≠ [] ∧ ¬ AnsweredFor env l p.2 := by
  refine ⟨exUsagePEEnv, exUsageCodec, exTwice 1 2 [7, 7, 7], exPEArgs "all", ["digital_signature"], exWorld, rfl, ?_, ?_⟩
  · have h := exUsage_list
    generalize (peVerify exUsagePEEnv exUsageCodec (exTwice 1 2 [7, 7, 7])
      { exPEArgs "all" with kwargs := (exPEArgs "all").kwargs.requiring ["digital_signature"] } exWorld).1 = r at h
    cases r with
    | ok res => cases h
    | error e => exact ⟨e, rfl, Except.error.inj h⟩
  · obtain ⟨res, hr⟩ := exOutcome_ok exUsage_once
    have h := exUsage_once
    rw [hr] at h
    have h' : res.map (fun p => (exLabel p.1, p.2.map (fun c => c.map Cert.obj))) =
      [(("sha256", [1]), [[1, 2, 6]]), (("sha1", [2]), [[1, 2, 3]])] := Except.ok.inj h
    have hq : ∃ q ∈ res, q.2.map (fun c => c.map Cert.obj) = [[1, 2, 3]] := by
      have : (("sha1", [2]), [[1, 2, 3]]) ∈ res.map (fun p => (exLabel p.1, p.2.map (fun c => c.map Cert.obj))) := by
        rw [h']; exact List.mem_cons_of_mem _ (List.mem_cons_self ..)
      obtain ⟨q, hq, e⟩ := List.mem_map.1 this
      exact ⟨q, hq, congrArg Prod.snd e⟩
    obtain ⟨q, hq, e⟩ := hq
    refine ⟨res, hr, q, hq, ?_, fun hn => ?_⟩
    · intro h0; rw [h0] at e; cases e
    · cases hc : q.2 with
      | nil => rw [hc] at e; cases e
      | cons chain rest =>
        rw [hc] at e hn
        have e1 : chain.map Cert.obj = [1, 2, 3] := (List.cons.inj e).1
        obtain ⟨req, h1, h2⟩ := hn chain (List.mem_cons_self ..)
        rw [e1] at h2
        have h3 : (if 1 ∈ req.trustRoots ∧ (req.keyUsages = [] ∨ req.endEntity = 6) then (.ok [1, 2, req.endEntity] : Except Exc (List Nat))
          else .error ⟨.foreign, "path"⟩) = .ok [1, 2, 3] := h2
        split at h3
        · rename_i hx
          rcases hx.2 with g | g
          · rw [h1] at g; cases g
          · rw [g] at h3; cases h3
        · cases h3

/-- `C95_once_file` applies to it. -/
example : ∃ res, AskedOnce exUsagePEEnv ["digital_signature"] res ∧ res.length = 2 := by
  obtain ⟨res, hr⟩ := exOutcome_ok exUsage_once
  refine ⟨res, C95_once_file exUsagePEEnv exUsageCodec _ (exPEArgs "all") _ exWorld rfl rfl res hr, ?_⟩
  have h := exUsage_once
  rw [hr] at h
  have h' : res.map (fun p => (exLabel p.1, p.2.map (fun c => c.map Cert.obj))) =
      [(("sha256", [1]), [[1, 2, 6]]), (("sha1", [2]), [[1, 2, 3]])] := Except.ok.inj h
  have := congrArg List.length h'
  rw [List.length_map] at this
  exact this

/-- The file has signatures. -/
theorem exUsage_considered : ∃ sds, Considered exUsageCodec (exTwice 1 2 [7, 7, 7]) true sds ∧ sds ≠ [] := by
  have h : (match (iterSignedDatas exUsageCodec (exTwice 1 2 [7, 7, 7]) true true).toList with | .ok l => !l.isEmpty | .error _ => false) = true := by
    decide +kernel
  cases hx : (iterSignedDatas exUsageCodec (exTwice 1 2 [7, 7, 7]) true true).toList with
  | error e => rw [hx] at h; cases h
  | ok sds =>
    rw [hx] at h
    refine ⟨sds, considered_iff.2 hx, ?_⟩
    rintro rfl
    cases h

/-- `C95_file_exact` applies to it. -/
example : ∃ tried w0, AttemptsOnce exUsagePEEnv (exTwice 1 2 [7, 7, 7]) [] (exPEArgs "all").kwargs ["digital_signature"] w0 tried ∧
    tried.length = 2 := by
  obtain ⟨sds, h1, h2⟩ := exUsage_considered
  obtain ⟨sel, tried, rest, w0, -, -, -, h4, h5⟩ := C95_file_exact exUsagePEEnv exUsageCodec _ (exPEArgs "all") ["digital_signature"] exWorld rfl rfl sds h1 h2
    (fun n d hn => by cases hn)
  refine ⟨tried, w0, h4, ?_⟩
  obtain ⟨res, hr⟩ := exOutcome_ok exUsage_once
  have h := exUsage_once
  rw [hr] at h h5
  have h' : res.map (fun p => (exLabel p.1, p.2.map (fun c => c.map Cert.obj))) =
      [(("sha256", [1]), [[1, 2, 6]]), (("sha1", [2]), [[1, 2, 3]])] := Except.ok.inj h
  have h6 := congrArg List.length h'
  rw [List.length_map] at h6
  cases h5 with
  | allVerify l _ => rw [List.length_map]; exact h6
  | firstSuccess l a c rest hn => exact absurd (.inl rfl) hn

/-- `C95_container_file_partial` applies to the first signature. -/
example : ∃ res : List (ASD × List (List Cert)), (∀ p ∈ res, AnsweredFor exUsagePEEnv ["digital_signature"] p.2) ∧ res ≠ [] := by
  obtain ⟨res, hr⟩ := exOutcome_ok exUsage_first
  refine ⟨res, C95_container_file_partial exUsagePEEnv exUsageCodec _ (exPEArgs "first") _ exWorld rfl (fun _ h => (by cases h)) res hr, ?_⟩
  rintro rfl
  have h := exUsage_first
  rw [hr] at h
  cases h

end Signify.Props
