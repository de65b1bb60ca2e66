/-
The name of the signature algorithm is copied and not looked at.
-/
import Verif.Spec.Unnamed
import Verif.Proofs.Essence
import Verif.Proofs.PEFile

set_option autoImplicit false

namespace Signify

open Spec Asn1

mutual
/-- The decoded signer without names. -/
def RawSI.anon : RawSI → RawSI
  | .mk h us => .mk { h with sigAlg := "" } (anonUAttrs us)
/-- Likewise. -/
def anonUAttrs : List RawUAttr → List RawUAttr
  | [] => []
  | a :: l => a.anon :: anonUAttrs l
/-- Likewise. -/
def RawUAttr.anon : RawUAttr → RawUAttr
  | .mk t vs => .mk t (anonUVals vs)
/-- Likewise. -/
def anonUVals : List RawUVal → List RawUVal
  | [] => []
  | v :: l => v.anon :: anonUVals l
/-- Likewise. -/
def RawUVal.anon : RawUVal → RawUVal
  | .signerInfo si => .signerInfo si.anon
  | .contentInfo t sd => .contentInfo t sd.anon
  | .other b => .other b
/-- Likewise. -/
def RawSD.anon : RawSD → RawSD
  | .mk h ss => .mk h (anonSIs ss)
/-- Likewise. -/
def anonSIs : List RawSI → List RawSI
  | [] => []
  | s :: l => s.anon :: anonSIs l
end

theorem anonSIs_map (l : List RawSI) : anonSIs l = l.map RawSI.anon := by
  induction l with
  | nil => rfl
  | cons a l ih => rw [anonSIs, ih, List.map_cons]

theorem anonUVals_map (l : List RawUVal) : anonUVals l = l.map RawUVal.anon := by
  induction l with
  | nil => rfl
  | cons a l ih => rw [anonUVals, ih, List.map_cons]

theorem anonUAttrs_map (l : List RawUAttr) : anonUAttrs l = l.map RawUAttr.anon := by
  induction l with
  | nil => rfl
  | cons a l ih => rw [anonUAttrs, ih, List.map_cons]

theorem anon_get (us : List RawUAttr) (t : String) : (uattrDict (anonUAttrs us)).get? t = ((uattrDict us).get? t).map anonUVals := by
  rw [uattrDict_get?, uattrDict_get?]
  induction us with
  | nil => rfl
  | cons a us ih =>
    obtain ⟨t', vs⟩ := a
    rw [anonUAttrs, RawUAttr.anon, lastUAttr_mk, lastUAttr_mk]
    cases h : lastUAttr us t with
    | none =>
      rw [h] at ih
      cases h' : lastUAttr (anonUAttrs us) t with
      | some _ => rw [h'] at ih; cases ih
      | none => by_cases hb : t' = t <;> simp [hb, RawUAttr.values]
    | some x =>
      rw [h] at ih
      cases h' : lastUAttr (anonUAttrs us) t with
      | none => rw [h'] at ih; cases ih
      | some y => rw [h'] at ih; exact ih

section
variable (cd : Codec)

theorem anon_signer (req : List String) (e : Option String) (h : SIHead) :
    parseSigner cd req e { h with sigAlg := "" } = (parseSigner cd req e h).map Signer.unnamed := by
  unfold parseSigner
  simp only [bind, Except.bind]
  split
  · rfl
  · split
    · rfl
    · split
      · rfl
      · split
        · rfl
        · split
          · rfl
          · split
            · rfl
            · split <;> rfl

theorem anon_counter {α β : Type} {p : RawSI → Except Exc α} {p' : RawSI → Except Exc β} {f : α → β} (hp : ∀ s, p' s.anon = (p s).map f)
    (us : List RawUAttr) : parseCounter p' (anonUAttrs us) = (parseCounter p us).map (Option.map f) := by
  unfold parseCounter
  rw [anon_get]
  cases (uattrDict us).get? "counter_signature" with
  | none => rfl
  | some vs =>
    match vs with
    | [] => rfl
    | [.signerInfo si] =>
      simp only [Option.map_some, anonUVals, RawUVal.anon, hp]
      cases p si <;> rfl
    | [.contentInfo t sd] => rfl
    | [.other b] => rfl
    | a :: b :: l => cases a <;> rfl

theorem anon_counterN : ∀ (n : Nat) (si : RawSI), parseCounterInfoN cd n si.anon = (parseCounterInfoN cd n si).map CounterInfo.unnamed
  | 0, _ => rfl
  | n + 1, .mk h us => by
    rw [parseCounterInfoN, parseCounterInfoN]
    unfold counterInfoStep
    simp only [RawSI.anon, RawSI.head, RawSI.unsigned]
    rw [anon_signer, anon_counter (anon_counterN n)]
    cases parseSigner cd requiredCounter none h with
    | error e => rfl
    | ok s =>
      cases parseCounter (parseCounterInfoN cd n) us with
      | error e => rfl
      | ok c => cases c <;> rfl

mutual
theorem anon_si_depth : ∀ s : RawSI, s.anon.depth = s.depth
  | .mk h us => by rw [RawSI.anon, RawSI.depth, RawSI.depth, anon_attrs_depth us]
theorem anon_attrs_depth : ∀ l : List RawUAttr, depthAttrs (anonUAttrs l) = depthAttrs l
  | [] => rfl
  | a :: l => by rw [anonUAttrs, depthAttrs, depthAttrs, anon_attr_depth a, anon_attrs_depth l]
theorem anon_attr_depth : ∀ a : RawUAttr, a.anon.depth = a.depth
  | .mk t vs => by rw [RawUAttr.anon, RawUAttr.depth, RawUAttr.depth, anon_vals_depth vs]
theorem anon_vals_depth : ∀ l : List RawUVal, depthVals (anonUVals l) = depthVals l
  | [] => rfl
  | a :: l => by rw [anonUVals, depthVals, depthVals, anon_val_depth a, anon_vals_depth l]
theorem anon_val_depth : ∀ v : RawUVal, v.anon.depth = v.depth
  | .signerInfo si => by rw [RawUVal.anon, RawUVal.depth, RawUVal.depth, anon_si_depth si]
  | .contentInfo t sd => by rw [RawUVal.anon, RawUVal.depth, RawUVal.depth, anon_sd_depth sd]
  | .other b => rfl
theorem anon_sd_depth : ∀ s : RawSD, s.anon.depth = s.depth
  | .mk h ss => by rw [RawSD.anon, RawSD.depth, RawSD.depth, anon_sis_depth ss]
theorem anon_sis_depth : ∀ l : List RawSI, depthSIs (anonSIs l) = depthSIs l
  | [] => rfl
  | a :: l => by rw [anonSIs, depthSIs, depthSIs, anon_si_depth a, anon_sis_depth l]
end

theorem anon_counterInfo (si : RawSI) : parseCounterInfo cd si.anon = (parseCounterInfo cd si).map CounterInfo.unnamed := by
  unfold parseCounterInfo
  rw [anon_si_depth, anon_counterN]

theorem anon_rfcSigner (si : RawSI) : parseRfcSigner cd si.anon = (parseRfcSigner cd si).map Signer.unnamed := by
  obtain ⟨h, us⟩ := si
  unfold parseRfcSigner
  simp only [RawSI.anon, RawSI.head, RawSI.unsigned]
  rw [anon_signer, anon_counter (p := fun _ => .error ⟨.assertionError, ""⟩) (f := fun (x : Unit) => x) (fun _ => rfl)]
  cases parseSigner cd requiredPlain (some "tst_info") h with
  | error e => rfl
  | ok s =>
    cases parseCounter (fun _ => (.error ⟨.assertionError, ""⟩ : Except Exc Unit)) us with
    | error e => rfl
    | ok c => cases c <;> rfl

theorem parseAll_map {α β γ δ : Type} {f : α → Except Exc β} {g : γ → Except Exc δ} {u : α → γ} {v : β → δ} (h : ∀ a, g (u a) = (f a).map v) :
    ∀ l : List α, parseAll g (l.map u) = (parseAll f l).map (List.map v)
  | [] => rfl
  | a :: l => by
    rw [List.map_cons, parseAll, parseAll, h, parseAll_map h l]
    cases f a with
    | error e => rfl
    | ok b => cases parseAll f l <;> rfl

theorem anon_stamp (sd : RawSD) :
    parseRfc3161 cd sd.anon = (parseRfc3161 cd sd).map (fun r => { r with signer := r.signer.unnamed }) := by
  obtain ⟨h, ss⟩ := sd
  unfold parseRfc3161
  simp only [RawSD.anon, RawSD.head, RawSD.signers]
  rw [anonSIs_map, parseAll_map (anon_rfcSigner cd)]
  simp only [bind, Except.bind]
  cases parseSDCore "tst_info" h with
  | error e => rfl
  | ok core =>
    cases parseAll (parseRfcSigner cd) ss with
    | error e => rfl
    | ok l =>
      cases decodeContent cd.tst h with
      | error e => rfl
      | ok raw =>
        simp only [Except.map]
        cases parseTst raw with
        | error e => rfl
        | ok t =>
          match l with
          | [] => rfl
          | [s] => rfl
          | _ :: _ :: _ => rfl

theorem unnamedASDs_map (l : List ASD) : unnamedASDs l = l.map ASD.unnamed := by
  induction l with
  | nil => rfl
  | cons a l ih => rw [unnamedASDs, ih, List.map_cons]

theorem anon_timestamp (us : List RawUAttr) (c : Option CounterInfo) :
    parseTimestamp cd (anonUAttrs us) (c.map CounterInfo.unnamed) = (parseTimestamp cd us c).map (Option.map CounterSigner.unnamed) := by
  unfold parseTimestamp
  simp only
  rw [anon_get, anon_get]
  cases (uattrDict us).get? "microsoft_time_stamp_token" with
  | none => cases c <;> rfl
  | some vs =>
    simp only [Option.map_some, Option.isSome_map]
    split
    · rfl
    · match vs with
      | [] => rfl
      | [.signerInfo si] => rfl
      | [.other b] => rfl
      | [.contentInfo t sd] =>
        simp only [anonUVals, RawUVal.anon]
        split
        · rfl
        · rw [anon_stamp]
          cases parseRfc3161 cd sd <;> rfl
      | a :: b :: l => cases a <;> rfl

theorem anon_nestedVal {p : RawSD → Except Exc ASD} (hp : ∀ s, p s.anon = (p s).map ASD.unnamed) (v : RawUVal) :
    parseNestedVal p v.anon = (parseNestedVal p v).map ASD.unnamed := by
  cases v with
  | signerInfo si => rfl
  | other b => rfl
  | contentInfo t sd =>
    simp only [parseNestedVal, RawUVal.anon, hp]
    split <;> rfl

theorem anon_nested {p : RawSD → Except Exc ASD} (hp : ∀ s, p s.anon = (p s).map ASD.unnamed) (us : List RawUAttr) :
    parseNested p (anonUAttrs us) = (parseNested p us).map (List.map ASD.unnamed) := by
  unfold parseNested
  rw [anon_get]
  cases (uattrDict us).get? "microsoft_nested_signature" with
  | none => rfl
  | some vs =>
    simp only [Option.map_some]
    rw [anonUVals_map, parseAll_map (anon_nestedVal hp)]

/-- The parts of the signer. -/
def AuthSigner.unnamed (s : AuthSigner) : AuthSigner :=
  { s with signer := s.signer.unnamed, nested := s.nested.map ASD.unnamed, counter := s.counter.map CounterSigner.unnamed }

theorem anon_authSigner {p : RawSD → Except Exc ASD} (hp : ∀ s, p s.anon = (p s).map ASD.unnamed) (si : RawSI) :
    authSignerStep cd p si.anon = (authSignerStep cd p si).map AuthSigner.unnamed := by
  obtain ⟨h, us⟩ := si
  unfold authSignerStep
  simp only [RawSI.anon, RawSI.head, RawSI.unsigned]
  rw [anon_signer, anon_counter (anon_counterInfo cd), anon_nested hp]
  simp only [bind, Except.bind]
  cases parseSigner cd requiredPlain (some "microsoft_spc_indirect_data_content") h with
  | error e => rfl
  | ok s =>
    cases parseCounter (parseCounterInfo cd) us with
    | error e => rfl
    | ok c =>
      simp only [Except.map]
      rw [show s.unnamed.auth = s.auth from rfl]
      cases statementTypesOf s.auth with
      | error e => rfl
      | ok st =>
        cases opusOf s.auth with
        | error e => rfl
        | ok op =>
          cases parseNested p us with
          | error e => rfl
          | ok n =>
            simp only
            rw [anon_timestamp]
            cases parseTimestamp cd us c <;> rfl

theorem anon_asdN : ∀ (n : Nat) (sd : RawSD), parseASDN cd n sd.anon = (parseASDN cd n sd).map ASD.unnamed
  | 0, _ => rfl
  | n + 1, .mk h ss => by
    rw [parseASDN, parseASDN]
    unfold asdStep
    simp only [RawSD.anon, RawSD.head, RawSD.signers]
    rw [anonSIs_map, parseAll_map (anon_authSigner cd (anon_asdN n))]
    simp only [bind, Except.bind]
    cases parseSDCore "microsoft_spc_indirect_data_content" h with
    | error e => rfl
    | ok core =>
      cases parseAll (authSignerStep cd (parseASDN cd n)) ss with
      | error e => rfl
      | ok l =>
        cases decodeContent cd.spc h with
        | error e => rfl
        | ok raw =>
          simp only [Except.map]
          cases parseSpc raw with
          | error e => rfl
          | ok spc =>
            match l with
            | [] => rfl
            | [s] =>
              simp only [List.map_cons, List.map_nil]
              show ite (h.crls ≠ 0) _ _ = Except.map _ (ite (h.crls ≠ 0) _ _)
              by_cases hc : h.crls ≠ 0
              · rw [if_pos hc, if_pos hc]
                rfl
              · rw [if_neg hc, if_neg hc]
                show _ = Except.ok (ASD.mk _ (unnamedASDs _))
                rw [unnamedASDs_map]
                rfl
            | _ :: _ :: _ => rfl

theorem anon_asd (sd : RawSD) : parseASD cd sd.anon = (parseASD cd sd).map ASD.unnamed := by
  unfold parseASD
  rw [anon_sd_depth, anon_asdN]

/-- Decoding, without the names of the signature algorithms. -/
def Codec.anon (cd : Codec) : Codec := { cd with envelope := fun b => (cd.envelope b).map (fun x => (x.1, x.2.anon)) }

theorem codec_counterN : ∀ (n : Nat) (si : RawSI), parseCounterInfoN cd.anon n si = parseCounterInfoN cd n si
  | 0, _ => rfl
  | n + 1, si => by
    rw [parseCounterInfoN, parseCounterInfoN, funext (codec_counterN n)]
    rfl

theorem codec_counter : parseCounterInfo cd.anon = parseCounterInfo cd := funext fun si => codec_counterN cd si.depth si

theorem codec_asdN : ∀ (n : Nat) (sd : RawSD), parseASDN cd.anon n sd = parseASDN cd n sd
  | 0, _ => rfl
  | n + 1, sd => by
    rw [parseASDN, parseASDN, funext (codec_asdN n)]
    have : authSignerStep cd.anon (parseASDN cd n) = authSignerStep cd (parseASDN cd n) := by
      funext si
      unfold authSignerStep
      rw [codec_counter]
      rfl
    unfold asdStep
    rw [this]
    rfl

theorem codec_asd (sd : RawSD) : parseASD cd.anon sd = parseASD cd sd := codec_asdN cd sd.depth sd

theorem anon_envelope (b : Bytes) : fromEnvelope cd.anon b = (fromEnvelope cd b).map ASD.unnamed := by
  unfold fromEnvelope
  rw [show cd.anon.envelope b = (cd.envelope b).map (fun x => (x.1, x.2.anon)) from rfl]
  cases cd.envelope b with
  | error e => rfl
  | ok x =>
    obtain ⟨t, sd⟩ := x
    simp only [bind, Except.bind, Except.map]
    by_cases ht : t ≠ "signed_data"
    · rw [if_pos ht, if_pos ht]
    · rw [if_neg ht, if_neg ht, codec_asd]
      exact anon_asd cd sd

end

/-! ### Structures -/

section
variable (i : Bytes → Nat) (c : Cert)

mutual
theorem unnamed_si : ∀ s : DSI, (s.unnamed.raw i c).anon = (s.raw i c).anon
  | .mk s none => rfl
  | .mk s (some us) => by
    rw [DSI.unnamed, DSI.raw, DSI.raw, RawSI.anon, RawSI.anon, unnamed_uattrs us]
    rfl
theorem unnamed_sis : ∀ l : List DSI, anonSIs (rawSIs i c (unnamedSIs l)) = anonSIs (rawSIs i c l)
  | [] => rfl
  | s :: l => by rw [unnamedSIs, rawSIs, rawSIs, anonSIs, anonSIs, unnamed_si s, unnamed_sis l]
theorem unnamed_counters : ∀ l : List DSI, anonUVals (rawCounters i c (unnamedSIs l)) = anonUVals (rawCounters i c l)
  | [] => rfl
  | s :: l => by
    rw [unnamedSIs, rawCounters, rawCounters, anonUVals, anonUVals, unnamed_counters l, RawUVal.anon, RawUVal.anon, unnamed_si s]
theorem unnamed_uattr : ∀ a : DUAttr, (a.unnamed.raw i c).anon = (a.raw i c).anon
  | .counter vs => by rw [DUAttr.unnamed, DUAttr.raw, DUAttr.raw, RawUAttr.anon, RawUAttr.anon, unnamed_counters vs]
  | .nested vs => by rw [DUAttr.unnamed, DUAttr.raw, DUAttr.raw, RawUAttr.anon, RawUAttr.anon, unnamed_sds vs]
  | .timestamp vs => by rw [DUAttr.unnamed, DUAttr.raw, DUAttr.raw, RawUAttr.anon, RawUAttr.anon, unnamed_sds vs]
  | .other t vs => by rw [DUAttr.unnamed]
theorem unnamed_uattrs : ∀ l : List DUAttr, anonUAttrs (rawUAttrs i c (unnamedUAttrs l)) = anonUAttrs (rawUAttrs i c l)
  | [] => rfl
  | s :: l => by rw [unnamedUAttrs, rawUAttrs, rawUAttrs, anonUAttrs, anonUAttrs, unnamed_uattr s, unnamed_uattrs l]
theorem unnamed_sd : ∀ s : DSD, (s.unnamed.raw i c).anon = (s.raw i c).anon
  | .mk d ss => by rw [DSD.unnamed, DSD.raw, DSD.raw, RawSD.anon, RawSD.anon, unnamed_sis ss]
theorem unnamed_sds : ∀ l : List DSD, anonUVals (rawSDs i c (unnamedSDs l)) = anonUVals (rawSDs i c l)
  | [] => rfl
  | s :: l => by
    rw [unnamedSDs, rawSDs, rawSDs, anonUVals, anonUVals, unnamed_sds l, RawUVal.anon, RawUVal.anon, unnamed_sd s]
end
end

theorem fromEnvelope_unnamed {s s' : DSD} (he : s.essence.unnamed = s'.essence.unnamed) (h : s.Valid) (h' : s'.Valid)
    (hl : (contentInfo s.encode).length < maxLen) (hl' : (contentInfo s'.encode).length < maxLen) (rest rest' : Bytes) :
    (fromEnvelope derCodec (contentInfo s.encode ++ rest)).map ASD.unnamed =
      (fromEnvelope derCodec (contentInfo s'.encode ++ rest')).map ASD.unnamed := by
  have e : derCodec.envelope (contentInfo s.encode ++ rest) = _ := derEnvelope_ok h hl rest
  have e' : derCodec.envelope (contentInfo s'.encode ++ rest') = _ := derEnvelope_ok h' hl' rest'
  unfold fromEnvelope
  rw [e, e']
  simp only [bind, Except.bind]
  rw [if_neg (by simp), if_neg (by simp), essence_parse derCodec certIdent noCert s h, essence_parse derCodec certIdent noCert s' h', ← anon_asd,
    ← anon_asd, ← unnamed_sd, he, unnamed_sd]

/-! ### Verification -/

theorem unnamed_counter_signer (c : CounterInfo) : c.unnamed.signer = c.signer.unnamed := by
  obtain ⟨s, c⟩ := c
  cases c <;> rfl

theorem counterTime_unnamed (env : Env) (a : AuthData) (mode : String) (cs : Option Nat) :
    counterTime env a.unnamed mode cs = counterTime env a mode cs := by
  unfold counterTime
  rw [show a.unnamed.counter = a.counter.map CounterSigner.unnamed from rfl]
  cases a.counter with
  | none => rfl
  | some c =>
    have hc : ∀ i, checkCounter env a.unnamed c.unnamed i = checkCounter env a c i := by
      intro i
      unfold checkCounter
      cases c with
      | rfc3161 r => rfl
      | pkcs9 c =>
        obtain ⟨s', c⟩ := c
        cases c <;> rfl
    have ht : c.unnamed.signingTime = c.signingTime := by
      cases c with
      | rfc3161 r => rfl
      | pkcs9 c =>
        obtain ⟨s', c⟩ := c
        cases c <;> rfl
    simp only [Option.map_some, hc, ht]

theorem chooseCs_unnamed (a : AuthData) (args : VerifyArgs) : chooseCsContext a.unnamed args = chooseCsContext a args := by
  unfold chooseCsContext
  rw [show a.unnamed.counter = a.counter.map CounterSigner.unnamed from rfl]
  cases a.counter with
  | none => rfl
  | some c => cases args.csContext <;> cases c <;> rfl

theorem asdVerify_unnamed (env : Env) (file : Option Bytes) (a : AuthData) (args : VerifyArgs) :
    asdVerify env file a.unnamed args = asdVerify env file a args := by
  unfold asdVerify
  rw [chooseCs_unnamed]
  simp only [counterTime_unnamed]
  rfl

mutual
theorem unnamed_preorder : ∀ a : ASD, a.unnamed.preorder = a.preorder.map ASD.unnamed
  | .mk d l => by rw [ASD.unnamed, ASD.preorder, ASD.preorder, unnamed_preorders l, List.map_cons, ASD.unnamed]
theorem unnamed_preorders : ∀ l : List ASD, preorderAll (unnamedASDs l) = (preorderAll l).map ASD.unnamed
  | [] => rfl
  | a :: l => by rw [unnamedASDs, preorderAll, preorderAll, unnamed_preorder a, unnamed_preorders l, List.map_append]
end

theorem unnamed_nested (b : Bool) (a : ASD) : recursiveNested b a.unnamed = (recursiveNested b a).map ASD.unnamed := by
  unfold recursiveNested
  cases b
  · rfl
  · exact unnamed_preorder a

theorem anon_loop (cd : Codec) (b : Bool) (last : Option Exc) : ∀ (l : List CertEntry) (found : Bool),
    signedDatasLoop cd.anon b last l found =
      ((signedDatasLoop cd b last l found).1.map ASD.unnamed, (signedDatasLoop cd b last l found).2)
  | [], found => by
    cases last with
    | some e => rfl
    | none => cases found <;> rfl
  | x :: l, found => by
    rw [signedDatasLoop, signedDatasLoop]
    split
    · rfl
    · split
      · rw [anon_envelope]
        cases fromEnvelope cd x.certificate with
        | error e => rfl
        | ok a =>
          simp only [Except.map]
          rw [anon_loop cd b last l true, unnamed_nested, List.map_append]
      · exact anon_loop cd b last l found

theorem anon_iter (cd : Codec) (file : Bytes) (b ip : Bool) :
    iterSignedDatas cd.anon file b ip = ((iterSignedDatas cd file b ip).1.map ASD.unnamed, (iterSignedDatas cd file b ip).2) := by
  unfold iterSignedDatas
  cases parseCertTable file with
  | mk entries last =>
    simp only
    rw [anon_loop]
    cases signedDatasLoop cd b last entries false with
    | mk l e =>
      cases e with
      | none => rfl
      | some e => simp only; split <;> rfl

theorem unnamed_alg (a : ASD) : a.unnamed.d.core.digestAlg = a.d.core.digestAlg := by
  obtain ⟨d, l⟩ := a
  rfl

theorem unnamed_d (a : ASD) : a.unnamed.d = a.d.unnamed := by
  obtain ⟨d, l⟩ := a
  rfl

theorem unnamed_select (mode : String) (l : List ASD) :
    selectSignatures mode (l.map ASD.unnamed) = (selectSignatures mode l).map ASD.unnamed := by
  have ha : (l.map ASD.unnamed).map (fun a => a.d.core.digestAlg) = l.map (fun a => a.d.core.digestAlg) := by
    rw [List.map_map]
    exact List.map_congr_left fun a _ => unnamed_alg a
  unfold selectSignatures
  split
  · rw [List.map_take]
  · split
    · rw [ha]
      cases bestAlg (l.map (fun a => a.d.core.digestAlg)) with
      | none => rfl
      | some b =>
        simp only
        rw [List.filter_map]
        congr 1
        exact List.filter_congr fun a _ => by simp only [Function.comp, unnamed_alg]
    · rfl

theorem unnamed_one (env : Env) (file : Bytes) (hashes : Dict String Bytes) (kw : VerifyArgs) (a : ASD) :
    verifyOne env file hashes kw a.unnamed = verifyOne env file hashes kw a := by
  unfold verifyOne
  rw [unnamed_alg, unnamed_d]
  simp only [asdVerify_unnamed]

theorem unnamed_verifyLoop (check : ASD → M (List (List Cert))) (hc : ∀ a, check a.unnamed = check a) (mode : String) :
    ∀ (l : List ASD) (chains : List (ASD × List (List Cert))) (e : Option Exc) (w : World),
      verifyLoop check mode (l.map ASD.unnamed) (chains.map (fun x => (x.1.unnamed, x.2))) e w =
        (unnamedOutcome (verifyLoop check mode l chains e w).1, (verifyLoop check mode l chains e w).2)
  | [], chains, e, w => by cases e <;> rfl
  | a :: l, chains, e, w => by
    rw [List.map_cons, verifyLoop, verifyLoop, hc]
    rw [M.bind_run, M.bind_run]
    cases h : M.attempt (check a) w with
    | mk r w' =>
      cases r with
      | error x => rfl
      | ok r =>
        cases r with
        | error x =>
          simp only
          split
          · rfl
          · exact unnamed_verifyLoop check hc mode l chains (some x) w'
        | ok ch =>
          simp only
          split
          · have := unnamed_verifyLoop check hc mode l (chains ++ [(a, ch)]) e w'
            rw [List.map_append] at this
            exact this
          · rfl

/-- Without the names, verification goes the same way. -/
theorem peVerify_anon (env : Env) (cd : Codec) (file : Bytes) (args : PEVerifyArgs) (w : World) :
    peVerify env cd.anon file args w = (unnamedOutcome (peVerify env cd file args w).1, (peVerify env cd file args w).2) := by
  unfold peVerify
  rw [M.bind_run, M.bind_run, M.lift_run, M.lift_run, anon_iter]
  cases h : iterSignedDatas cd file true args.ignoreParseErrors with
  | mk l e =>
    cases e with
    | some e => rfl
    | none =>
      simp only [Gen.toList, List.isEmpty_map]
      split
      · rfl
      · rw [unnamed_select]
        have ha : ((selectSignatures args.multiVerifyMode l).map ASD.unnamed).map (fun a => a.d.core.digestAlg) =
            (selectSignatures args.multiVerifyMode l).map (fun a => a.d.core.digestAlg) := by
          rw [List.map_map]
          exact List.map_congr_left fun a _ => unnamed_alg a
        rw [ha, M.bind_run, M.bind_run]
        cases calculateExpectedHashes env file ((selectSignatures args.multiVerifyMode l).map (fun a => a.d.core.digestAlg)) args.expectedHashes w with
        | mk r w' =>
          cases r with
          | error e => rfl
          | ok hs => exact unnamed_verifyLoop _ (unnamed_one env file hs args.kwargs) args.multiVerifyMode _ [] none w'

end Signify
