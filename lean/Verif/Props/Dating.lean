/-
C105: countersignatures whose time nothing supports.
-/
import Verif.Proofs.Dating
import Verif.Props.Modes
import Verif.Props.Resign

set_option autoImplicit false

namespace Signify.Props

open Signify Spec

/-- In mode 'strict' (the default) the signature is refused; if the digests agree, because of the countersignature. -/
theorem C105_strict (env : Env) (file : Option Bytes) (a : AuthData) (args : VerifyArgs) (w : World) (he : ContextsExist w args)
    (c : CounterSigner) (hc : a.counter = some c) (hr : Readable w (counterContext w a c args))
    (hn : Unsupported env w (counterContext w a c args) c) :
    ∃ e, (asdVerify env file a (args.inMode "strict") w).1 = .error e ∧
      (DigestsAgree env file a args.expectedHash → e.cls = .authenticodeCounterSigner) := by
  obtain ⟨h1, h2⟩ := C30_strict_bad env file a args w he c hc hr (unsupported_fails hr hn)
  by_cases hd : DigestsAgree env file a args.expectedHash
  · obtain ⟨msg, h⟩ := h1 hd
    exact ⟨_, h, fun _ => rfl⟩
  · obtain ⟨e, h, -⟩ := h2 hd
    exact ⟨e, h, fun k => absurd k hd⟩

/-- In mode 'permit' the signature is verified as if it had no countersignature: at the time of the context, or now. -/
theorem C105_permit (env : Env) (file : Option Bytes) (a : AuthData) (args : VerifyArgs) (w : World) (he : ContextsExist w args)
    (hsep : SeparateContexts args) (hrs : Readable w (signerContext w a args)) (c : CounterSigner) (hc : a.counter = some c)
    (hr : Readable w (counterContext w a c args)) (hn : Unsupported env w (counterContext w a c args) c) :
    (asdVerify env file a (args.inMode "permit") w).1 = (asdVerify env file (withoutCounter a) args w).1 :=
  C30_permit_bad_partial env file a args w he hsep hrs c hc hr (unsupported_fails hr hn)

/-- In files: no signature that is returned has such a countersignature, whichever way the signatures are combined. -/
theorem C105_file (env : Env) (cd : Codec) (file : Bytes) (args : PEVerifyArgs) (w : World) (hp : PlainCall w args)
    (hm : args.kwargs.countersignatureMode = "strict") (sds : List ASD) (hc : Considered cd file args.ignoreParseErrors sds) (hne : sds ≠ [])
    (res : List (ASD × List (List Cert))) (h : (peVerify env cd file args w).1 = .ok res) (p : ASD × List (List Cert)) (hmem : p ∈ res)
    (c : CounterSigner) (hcs : p.1.d.counter = some c) : ¬ Unsupported env w (counterContext w p.1.d c args.kwargs) c := by
  intro hn
  obtain ⟨sel, tried, rest, w0, h1, h2, h3, h4, h5⟩ := C16_outcome env cd file args w sds hc hne hp.names
  have ht : (p.1, .ok p.2) ∈ tried := by
    rw [h] at h5
    cases h5 with
    | allVerify l _ => exact List.mem_map.2 ⟨p, hmem, rfl⟩
    | firstSuccess l a c rest _ =>
      rw [List.mem_singleton] at hmem
      subst hmem
      simp
  obtain ⟨d, -, hd⟩ := attempts_alone (hp.historyFree env file) h3 h4 _ ht
  have hr : Readable w (counterContext w p.1.d c { args.kwargs with expectedHash := some d }) := by
    intro i hi certs e hpend
    have hi : StoreRef.heap i ∈ (counterContext w p.1.d c args.kwargs).stores := hi
    unfold counterContext at hi
    rw [hp.csContext] at hi
    refine hp.readable i certs e ?_ hpend
    cases c <;> simp [contextOf] at hi <;> exact hi.symm
  obtain ⟨e, he, -⟩ := C105_strict env (some file) p.1.d { args.kwargs with expectedHash := some d } w
    ⟨fun i hi => (by rw [show _ = _ from hp.context] at hi; cases hi), fun i hi => (by rw [show _ = _ from hp.csContext] at hi; cases hi)⟩ c hcs hr hn
  have hsame : VerifyArgs.inMode { args.kwargs with expectedHash := some d } "strict" = { args.kwargs with expectedHash := some d } := by
    unfold VerifyArgs.inMode
    rw [← hm]
  rw [hsame, hd] at he
  cases he

/-- In files, in mode 'permit': if no countersignature of the file is supported, the outcome is that in mode 'ignore'. -/
theorem C105_permit_file (env : Env) (cd : Codec) (file : Bytes) (args : PEVerifyArgs) (w : World) (hp : PlainCall w args) (sds : List ASD)
    (hc : Considered cd file args.ignoreParseErrors sds) (hne : sds ≠ [])
    (hn : ∀ a ∈ sds, ∀ c, a.d.counter = some c → Unsupported env w (counterContext w a.d c args.kwargs) c) :
    (peVerify env cd file { args with kwargs := args.kwargs.inMode "permit" } w).1 =
      (peVerify env cd file { args with kwargs := args.kwargs.inMode "ignore" } w).1 := by
  have hpi : ∀ m, PlainCall w { args with kwargs := args.kwargs.inMode m } := fun m => ⟨hp.context, hp.csContext, hp.readable, hp.names⟩
  obtain ⟨sel, tried, rest, w0, h1, h2, h3, h4, h5⟩ := C16_outcome env cd file { args with kwargs := args.kwargs.inMode "permit" } w sds hc hne hp.names
  obtain ⟨sel', tried', rest', w0', h1', h2', h3', h4', h5'⟩ := C16_outcome env cd file { args with kwargs := args.kwargs.inMode "ignore" } w sds hc hne hp.names
  obtain rfl := C16_selection_unique cd file _ _ sds sel sel' hc hne h1 h1'
  have hal' := attempts_alone ((hpi "ignore").historyFree env file) h3' h4'
  have hal : ∀ p ∈ tried, Alone env file (providedBy w args) (args.kwargs.inMode "ignore") w p.1 p.2 := by
    intro p hpt
    obtain ⟨d, hd, h⟩ := attempts_alone ((hpi "permit").historyFree env file) h3 h4 p hpt
    refine ⟨d, hd, h ▸ ?_⟩
    have hsel : p.1 ∈ sel := by rw [h2]; exact List.mem_append_left _ (List.mem_map_of_mem hpt)
    have hmem : p.1 ∈ sds := by
      rw [(selected_iff hne (fun x hx => considered_alg hc hx)).1 h1] at hsel
      exact selected_subset _ hsel
    have hex : ContextsExist w { args.kwargs with expectedHash := some d } :=
      ⟨fun i hi => (by rw [show _ = _ from hp.context] at hi; cases hi), fun i hi => (by rw [show _ = _ from hp.csContext] at hi; cases hi)⟩
    have e : asdVerify env (some file) p.1.d { args.kwargs.inMode "ignore" with expectedHash := some d } =
      asdVerify env (some file) (withoutCounter p.1.d) { args.kwargs with expectedHash := some d } :=
      C30_ignore env (some file) p.1.d { args.kwargs with expectedHash := some d }
    rw [e]
    cases hcs : p.1.d.counter with
    | none =>
      have e : withoutCounter p.1.d = p.1.d := by unfold withoutCounter; rw [← hcs]
      rw [e]
      exact congrArg (fun f => (f w).1) (C30_absent env (some file) p.1.d { args.kwargs with expectedHash := some d } "permit" hcs).symm
    | some c =>
      refine (C105_permit env (some file) p.1.d { args.kwargs with expectedHash := some d } w hex (.inl hp.context) ?_ c hcs ?_ (hn _ hmem c hcs)).symm
      · intro i hi certs e hpend
        unfold signerContext at hi
        rw [show _ = _ from hp.context] at hi
        refine hp.readable i certs e ?_ hpend
        simp [contextOf] at hi
        exact hi.symm
      · intro i hi certs e hpend
        unfold counterContext at hi
        rw [show _ = _ from hp.csContext] at hi
        refine hp.readable i certs e ?_ hpend
        cases c <;> simp [contextOf] at hi <;> exact hi.symm
  by_cases hs : Strict args.multiVerifyMode
  · exact except_ext
      (fun res => (overall_strict_ok h5 hs h2 hal (fun _ _ _ => alone_unique) res).trans (overall_strict_ok h5' hs h2' hal' (fun _ _ _ => alone_unique) res).symm)
      (fun e => (overall_strict_error h5 hs h2 hal (fun _ _ _ => alone_unique) e).trans (overall_strict_error h5' hs h2' hal' (fun _ _ _ => alone_unique) e).symm)
  · exact except_ext
      (fun res => (overall_lax_ok h5 hs h2 hal (fun _ _ _ => alone_unique) res).trans (overall_lax_ok h5' hs h2' hal' (fun _ _ _ => alone_unique) res).symm)
      (fun e => (overall_lax_error h5 hs h2 hal (fun _ _ _ => alone_unique) e).trans (overall_lax_error h5' hs h2' hal' (fun _ _ _ => alone_unique) e).symm)

/-! Examples: the certificates are not valid at time 300, that of the countersignature, or this time has no time zone, and
the validator finds no chain for it. -/

theorem exCounter_unsupported : Unsupported (exVEnv (fun _ t => t ≠ some 300)) exWorld
    (counterContext exWorld (exAuth exCerts (some exCounter)) exCounter exArgs) exCounter := by
  intro cert _ _ _ req chain _ hm
  have hm : req.moment = some 300 := hm
  simp [exVEnv, hm]

example := C105_strict (exVEnv (fun _ t => t ≠ some 300)) none (exAuth exCerts (some exCounter)) exArgs exWorld (exArgs_contexts _) exCounter rfl
  (fun i hi certs e h => by
    have : (exWorld.stores i).pending = none := by simp only [exWorld]; split <;> rfl
    rw [this] at h; cases h) exCounter_unsupported

/-- In mode 'permit' the signature verifies, as at present. -/
example : (asdVerify (exVEnv (fun _ t => t ≠ some 300)) none (exAuth exCerts (some exCounter)) (exArgs.inMode "permit") exWorld).1 =
    .ok [[exRoot, exInter, exLeaf]] := by decide +kernel
example := C105_permit (exVEnv (fun _ t => t ≠ some 300)) none (exAuth exCerts (some exCounter)) exArgs exWorld (exArgs_contexts _) (.inl rfl)
  (fun i hi certs e h => by
    have : (exWorld.stores i).pending = none := by simp only [exWorld]; split <;> rfl
    rw [this] at h; cases h) exCounter rfl
  (fun i hi certs e h => by
    have : (exWorld.stores i).pending = none := by simp only [exWorld]; split <;> rfl
    rw [this] at h; cases h) exCounter_unsupported

/-- A validator that knows the countersigner's certificate at that time supports it. -/
example : ¬ Unsupported (exVEnv (fun _ t => t = some 300)) exWorld (counterContext exWorld (exAuth exCerts (some exCounter)) exCounter exArgs) exCounter := by
  intro h
  exact h exTsa ⟨.embedded exCerts, by decide, by decide⟩ rfl rfl
    { requestFor exWorld (exCtx []) exTsa with trustRoots := [1], moment := some 300 } [1, 2, 6] rfl rfl (by decide +kernel)

/-- The decoder of the examples, with a countersignature, at time 300, in each signature. -/
def exDatedCodec : Codec :=
  { exPECodec with
    attrs := fun b =>
      if b.head? = some 99 then .ok [⟨"content_type", [.oid "data"]⟩, ⟨"signing_time", [.time 300]⟩, ⟨"message_digest", [.octets ([0x31, 1] ++ b.drop 1)]⟩]
      else exPECodec.attrs b
    envelope := fun b =>
      if b.length = 8 then
        .ok ("signed_data", .mk ⟨[⟨"sha256", false⟩], "microsoft_spc_indirect_data_content",
            some (b.take 1), [⟨"certificate", exInter⟩, ⟨"certificate", exLeaf⟩, ⟨"certificate", exTsa⟩], 0, false⟩
          [.mk ⟨"issuer_and_serial_number", exN "Inter", 3, some (b.take 1), ⟨"sha256", false⟩, "rsa", [0x31, 1] ++ b.take 1⟩
            [.mk "counter_signature" [.signerInfo (.mk ⟨"issuer_and_serial_number", exN "Inter", 6, some (99 :: b.take 1), ⟨"sha256", false⟩, "rsa",
              [0x31, 2, 99] ++ b.take 1⟩ [])]]])
      else .error ⟨.foreign, "cannot decode"⟩ }

def exDatedEnv (valid : Nat → Option Int → Bool) : Env := { exVEnv valid with hash := fun _ b => exSum b }

/-- The file verifies, at the time of its countersignature, if the certificates were valid then; -/
example : exOutcome (peVerify (exDatedEnv (fun _ t => t = some 300)) exDatedCodec (exTwice 1 3 [7, 7, 7]) (exPEArgs "first") exWorld).1 =
    .ok [(("sha256", [1]), [[1, 2, 3]])] := by decide +kernel
/-- and if the certificate of the countersigner was not valid then it is refused, although its own certificate is valid. -/
example : exOutcome (peVerify (exDatedEnv (fun c t => c = 3 || t = none)) exDatedCodec (exTwice 1 3 [7, 7, 7]) (exPEArgs "any") exWorld).1 =
    .error .authenticodeInvalidDigest ∧
    exOutcome (peVerify (exDatedEnv (fun c t => c = 3 || t = none)) exDatedCodec (exTwice 1 3 [7, 7, 7]) (exPEArgs "first") exWorld).1 =
    .error .authenticodeCounterSigner := ⟨by decide +kernel, by decide +kernel⟩

/-- The hypotheses of `C105_file`, with a signature returned. -/
example : ∃ (p : ASD × List (List Cert)) (c : CounterSigner), p.1.d.counter = some c ∧
    ¬ Unsupported (exDatedEnv (fun _ t => t = some 300)) exWorld (counterContext exWorld p.1.d c (exPEArgs "first").kwargs) c := by
  obtain ⟨a, b, hc⟩ := exPair_considered exDatedCodec (exTwice 1 3 [7, 7, 7]) ("sha256", [1]) ("sha256", [3]) (by decide +kernel) (by decide +kernel)
  have hv : (match (peVerify (exDatedEnv (fun _ t => t = some 300)) exDatedCodec (exTwice 1 3 [7, 7, 7]) (exPEArgs "first") exWorld).1 with
    | .ok (p :: _) => p.1.d.counter.isSome
    | _ => false) = true := by decide +kernel
  revert hv
  split
  · rename_i p l h
    intro hs
    obtain ⟨c, hcs⟩ := Option.isSome_iff_exists.1 hs
    exact ⟨p, c, hcs, C105_file _ exDatedCodec _ (exPEArgs "first") exWorld
      ⟨rfl, rfl, fun i certs e hi he => (by cases hi; cases he), exPEArgs_names _⟩ rfl _ hc (by simp) _ h p (by simp) c hcs⟩
  · intro h; cases h

/-- The hypotheses of `C105_permit_file`: the certificates are valid at present, but not at the time of the countersignatures. -/
example : (peVerify (exDatedEnv (fun _ t => t ≠ some 300)) exDatedCodec (exTwice 1 3 [7, 7, 7])
      { exPEArgs "any" with kwargs := (exPEArgs "any").kwargs.inMode "permit" } exWorld).1 =
    (peVerify (exDatedEnv (fun _ t => t ≠ some 300)) exDatedCodec (exTwice 1 3 [7, 7, 7])
      { exPEArgs "any" with kwargs := (exPEArgs "any").kwargs.inMode "ignore" } exWorld).1 ∧
    exOutcome (peVerify (exDatedEnv (fun _ t => t ≠ some 300)) exDatedCodec (exTwice 1 3 [7, 7, 7])
      { exPEArgs "any" with kwargs := (exPEArgs "any").kwargs.inMode "permit" } exWorld).1 = .ok [(("sha256", [1]), [[1, 2, 3]])] := by
  obtain ⟨a, b, hc⟩ := exPair_considered exDatedCodec (exTwice 1 3 [7, 7, 7]) ("sha256", [1]) ("sha256", [3]) (by decide +kernel) (by decide +kernel)
  refine ⟨C105_permit_file _ exDatedCodec _ (exPEArgs "any") exWorld ⟨rfl, rfl, fun i certs e hi he => (by cases hi; cases he), exPEArgs_names _⟩
    _ hc (by simp) (fun x hx c hcs => ?_), by decide +kernel⟩
  have ht : (match (iterSignedDatas exDatedCodec (exTwice 1 3 [7, 7, 7]) true true).toList with
    | .ok l => l.all (fun x => match x.d.counter with | some c => decide (c.signingTime = some 300) | none => false)
    | .error _ => false) = true := by decide +kernel
  have hl : (iterSignedDatas exDatedCodec (exTwice 1 3 [7, 7, 7]) true true).toList = .ok [a, b] := considered_iff.1 hc
  rw [hl] at ht
  have hx := List.all_eq_true.1 ht x hx
  rw [hcs] at hx
  have hx : c.signingTime = some 300 := of_decide_eq_true hx
  intro cert _ _ _ req chain _ hm
  rw [hx] at hm
  simp [exDatedEnv, exVEnv, hm]

end Signify.Props
