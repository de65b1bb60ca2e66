/-
Proofs about the interpreter giving up (C101).
-/
import Verif.Spec.Strikes
import Verif.Proofs.Pkcs7
import Verif.Proofs.PEFile

set_option autoImplicit false

namespace Signify

open Spec

/-- `r'` is the result `r`, or an exception with which the interpreter gives up. -/
def Lim {α : Type} (x : Strikes) (r r' : Except Exc α) : Prop := r' = r ∨ ∃ e, GivesUp x e ∧ r' = .error e

namespace Lim

variable {x : Strikes} {α β : Type}

theorem refl (r : Except Exc α) : Lim x r r := .inl rfl

theorem struck {o : Option Exc} (ho : ∀ e, o = some e → GivesUp x e) {r r' : Except Exc α} (h : Lim x r r') : Lim x r (struck o r') := by
  cases o with
  | none => exact h
  | some e => exact .inr ⟨e, ho e rfl, rfl⟩

theorem bind {r r' : Except Exc α} {f f' : α → Except Exc β} (h : Lim x r r') (hf : ∀ a, Lim x (f a) (f' a)) :
    Lim x (r >>= f) (r' >>= f') := by
  rcases h with rfl | ⟨e, he, rfl⟩
  · cases r' with
    | error e => exact .inl rfl
    | ok a => exact hf a
  · exact .inr ⟨e, he, rfl⟩

theorem parseAll {f f' : α → Except Exc β} (l : List α) (h : ∀ a ∈ l, Lim x (f a) (f' a)) : Lim x (parseAll f l) (parseAll f' l) := by
  induction l with
  | nil => exact .inl rfl
  | cons a l ih =>
    unfold Signify.parseAll
    exact bind (h a (by simp)) fun b => bind (ih fun c hc => h c (by simp [hc])) fun _ => .refl _

theorem parseCounter {f f' : RawSI → Except Exc α} (h : ∀ s, Lim x (f s) (f' s)) (us : List RawUAttr) :
    Lim x (parseCounter f us) (parseCounter f' us) := by
  unfold Signify.parseCounter
  split
  · exact .refl _
  · exact bind (h _) fun _ => .refl _
  · exact .refl _
  · exact .refl _

theorem parseNested {f f' : RawSD → Except Exc ASD} (h : ∀ s, Lim x (f s) (f' s)) (us : List RawUAttr) :
    Lim x (parseNested f us) (parseNested f' us) := by
  unfold Signify.parseNested
  split
  · exact .refl _
  · refine parseAll _ fun v _ => ?_
    unfold parseNestedVal
    split
    · split
      · exact .refl _
      · exact h _
    · exact .refl _

theorem parseCounterInfo (cd : Codec) : ∀ (n level : Nat) (si : RawSI), Lim x (parseCounterInfoN cd n si) (parseCounterInfoS cd x n level si)
  | 0, _, _ => .refl _
  | n + 1, level, si => by
    unfold parseCounterInfoN parseCounterInfoS counterInfoStep
    exact bind (struck (fun e h => .si _ _ _ h) (.refl _)) fun _ =>
      bind (struck (fun e h => .si _ _ _ h) (parseCounter (parseCounterInfo cd n (level + 1)) _)) fun _ =>
        struck (fun e h => .si _ _ _ h) (.refl _)

theorem authSignerStep (cd : Codec) (level : Nat) {f f' : RawSD → Except Exc ASD} (h : ∀ s, Lim x (f s) (f' s)) (si : RawSI) :
    Lim x (authSignerStep cd f si) (authSignerStepS cd x level f' si) := by
  unfold Signify.authSignerStep authSignerStepS
  exact bind (struck (fun e h => .si _ _ _ h) (.refl _)) fun _ =>
    bind (struck (fun e h => .si _ _ _ h) (parseCounter (fun c => parseCounterInfo cd _ (level + 1) c) _)) fun _ =>
    bind (struck (fun e h => .si _ _ _ h) (.refl _)) fun _ =>
    bind (struck (fun e h => .si _ _ _ h) (.refl _)) fun _ =>
    bind (struck (fun e h => .si _ _ _ h) (parseNested h _)) fun _ =>
    bind (struck (fun e h => .si _ _ _ h) (.refl _)) fun _ =>
    struck (fun e h => .si _ _ _ h) (.refl _)

theorem parseASD (cd : Codec) : ∀ (n level : Nat) (sd : RawSD), Lim x (parseASDN cd n sd) (parseASDS cd x n level sd)
  | 0, _, _ => .refl _
  | n + 1, level, sd => by
    unfold parseASDN parseASDS asdStep asdStepS
    exact bind (struck (fun e h => .sd _ _ _ h) (.refl _)) fun _ =>
      bind (struck (fun e h => .sd _ _ _ h) (parseAll _ fun si _ => authSignerStep cd level (parseASD cd n (level + 1)) si)) fun _ =>
      bind (struck (fun e h => .sd _ _ _ h) (.refl _)) fun _ =>
      bind (struck (fun e h => .sd _ _ _ h) (.refl _)) fun _ =>
      struck (fun e h => .sd _ _ _ h) (.refl _)

theorem fromEnvelope (cd : Codec) (data : Bytes) : Lim x (fromEnvelope cd data) (fromEnvelopeS cd x data) := by
  unfold Signify.fromEnvelope fromEnvelopeS
  refine bind (struck (fun e h => .envelope _ h) (.refl _)) fun p => ?_
  obtain ⟨t, sd⟩ := p
  dsimp only
  split
  · exact .refl _
  · exact parseASD cd _ 0 sd

end Lim

/-- `g'` is the generator `g`, or yields a prefix of it and then an exception with which the interpreter gives up. -/
def LimGen {α : Type} (x : Strikes) (g g' : Gen α) : Prop := g' = g ∨ ∃ e, GivesUp x e ∧ g'.1 <+: g.1 ∧ g'.2 = some e

mutual
theorem preorderS_lim (x : Strikes) (level : Nat) : ∀ a : ASD, LimGen x (a.preorder, none) (preorderS x level a)
  | .mk d nested => by
    have ih := preorderAllS_lim x (level + 1) nested
    unfold preorderS ASD.preorder
    cases hs : x.iter level (.mk d nested) with
    | some e => exact .inr ⟨e, .iter _ _ hs, List.nil_prefix, rfl⟩
    | none =>
      dsimp only
      rcases ih with h | ⟨e, h1, h2, h3⟩
      · rw [h]; exact .inl rfl
      · exact .inr ⟨e, h1, (List.prefix_cons_inj _).2 h2, h3⟩
theorem preorderAllS_lim (x : Strikes) (level : Nat) : ∀ l : List ASD, LimGen x (preorderAll l, none) (preorderAllS x level l)
  | [] => .inl rfl
  | a :: l => by
    have h1 := preorderS_lim x level a
    have h2 := preorderAllS_lim x level l
    unfold preorderAllS preorderAll
    rcases h1 with h1 | ⟨e, g1, g2, g3⟩
    · rw [h1]
      dsimp only
      rcases h2 with h2 | ⟨e, k1, k2, k3⟩
      · rw [h2]; exact .inl rfl
      · exact .inr ⟨e, k1, (List.prefix_append_right_inj _).2 k2, k3⟩
    · rcases hp : preorderS x level a with ⟨m, o⟩
      rw [hp] at g2 g3
      cases g3
      exact .inr ⟨e, g1, g2.trans (List.prefix_append _ _), rfl⟩
end

theorem recursiveNestedS_lim (x : Strikes) (b : Bool) (a : ASD) : LimGen x (recursiveNested b a, none) (recursiveNestedS x b a) := by
  unfold recursiveNested recursiveNestedS
  split
  · exact preorderS_lim x 0 a
  · cases hs : x.iter 0 a with
    | some e => exact .inr ⟨e, .iter _ _ hs, List.nil_prefix, rfl⟩
    | none => exact .inl rfl

theorem signedDatasLoopS_lim (cd : Codec) (x : Strikes) (b : Bool) (last : Option Exc) :
    ∀ (l : List CertEntry) (found : Bool), LimGen x (signedDatasLoop cd b last l found) (signedDatasLoopS cd x b last l found)
  | [], found => .inl rfl
  | c :: l, found => by
    unfold signedDatasLoop signedDatasLoopS
    split
    · exact .inl rfl
    · split
      · have ih := signedDatasLoopS_lim cd x b last l true
        rcases Lim.fromEnvelope (x := x) cd c.certificate with h | ⟨e, he, h⟩
        · rw [h]
          cases fromEnvelope cd c.certificate with
          | error e => exact .inl rfl
          | ok a =>
            dsimp only
            rcases recursiveNestedS_lim x b a with g | ⟨e, g1, g2, g3⟩
            · rw [g]
              dsimp only
              rcases ih with k | ⟨e, k1, k2, k3⟩
              · rw [k]; exact .inl rfl
              · exact .inr ⟨e, k1, (List.prefix_append_right_inj _).2 k2, k3⟩
            · rcases hp : recursiveNestedS x b a with ⟨m, o⟩
              rw [hp] at g2 g3
              cases g3
              exact .inr ⟨e, g1, g2.trans (List.prefix_append _ _), rfl⟩
        · rw [h]
          exact .inr ⟨e, he, List.nil_prefix, rfl⟩
      · exact signedDatasLoopS_lim cd x b last l found

theorem iterSignedDatas_fst (cd : Codec) (file : Bytes) (b i : Bool) :
    (iterSignedDatas cd file b i).1 = (signedDatasLoop cd b (parseCertTable file).2 (parseCertTable file).1 false).1 := by
  unfold iterSignedDatas
  dsimp only
  split
  · split <;> rfl
  · rfl

theorem iterSignedDatasS_lim (cd : Codec) (x : Strikes) (hx : OwnExceptions x) (file : Bytes) (b i : Bool) :
    LimGen x (iterSignedDatas cd file b i) (iterSignedDatasS cd x file b i) := by
  rcases signedDatasLoopS_lim cd x b (parseCertTable file).2 (parseCertTable file).1 false with h | ⟨e, h1, h2, h3⟩
  · left
    unfold iterSignedDatas iterSignedDatasS
    dsimp only
    rw [h]
    cases (signedDatasLoop cd b (parseCertTable file).2 (parseCertTable file).1 false).2 <;> rfl
  · right
    have hn : e.is .signedPEParseError = false := by
      have := hx e h1
      cases hc : e.is .signedPEParseError with
      | false => rfl
      | true =>
        have : e.is .signifyError = true := by
          obtain ⟨cls, msg⟩ := e
          revert hc
          show cls.isSub .signedPEParseError = true → cls.isSub .signifyError = true
          cases cls <;> decide
        rw [hx e h1] at this; cases this
    refine ⟨e, h1, ?_, ?_⟩
    · rw [iterSignedDatas_fst]
      unfold iterSignedDatasS
      dsimp only
      rw [h3]
      dsimp only
      rw [hn]
      exact h2
    · unfold iterSignedDatasS
      dsimp only
      rw [h3]
      dsimp only
      rw [hn]
      rfl

theorem peVerifyS_lim (env : Env) (cd : Codec) (x : Strikes) (hx : OwnExceptions x) (file : Bytes) (args : PEVerifyArgs) (w : World) :
    peVerifyS env cd x file args w = peVerify env cd file args w ∨ ∃ e, GivesUp x e ∧ peVerifyS env cd x file args w = (.error e, w) := by
  rcases iterSignedDatasS_lim cd x hx file true args.ignoreParseErrors with h | ⟨e, h1, h2, h3⟩
  · left
    unfold peVerify peVerifyS
    rw [h]
  · right
    refine ⟨e, h1, ?_⟩
    unfold peVerifyS
    have ht : (iterSignedDatasS cd x file true args.ignoreParseErrors).toList = .error e := by
      rcases hp : iterSignedDatasS cd x file true args.ignoreParseErrors with ⟨m, o⟩
      rw [hp] at h3
      cases h3
      rfl
    rw [ht]
    rfl

/-! ### limits that are not reached -/

theorem struck_none {α : Type} {o : Option Exc} (h : o = none) (r : Except Exc α) : struck o r = r := by rw [h]; rfl

theorem parseCounterInfoS_below {x : Strikes} {limit : Nat} (hx : OnlyBelow x limit) (cd : Codec) :
    ∀ (n level : Nat) (si : RawSI), level + si.depth ≤ limit → parseCounterInfoS cd x n level si = parseCounterInfoN cd n si
  | 0, _, _, _ => rfl
  | n + 1, level, si, h => by
    have hl : level < limit := by rw [si_depth] at h; omega
    unfold parseCounterInfoS parseCounterInfoN counterInfoStep
    simp only [struck_none (hx.si _ _ _ hl)]
    have : parseCounter (parseCounterInfoS cd x n (level + 1)) si.unsigned = parseCounter (parseCounterInfoN cd n) si.unsigned := by
      refine parseCounter_congr fun s hs => parseCounterInfoS_below hx cd n (level + 1) s ?_
      have := attrValues_depth hs List.mem_cons_self
      rw [RawUVal.depth] at this
      rw [si_depth] at h
      omega
    rw [this]

theorem parseNested_below {p q : RawSD → Except Exc ASD} {us : List RawUAttr} (h : ∀ sd, sd.depth ≤ depthAttrs us → p sd = q sd) :
    parseNested p us = parseNested q us := by
  unfold parseNested
  split
  · rfl
  · rename_i vs hvs
    refine parseAll_congr fun v hv => ?_
    have := attrValues_depth (uattrDict_some.1 hvs) hv
    unfold parseNestedVal
    split
    · rw [RawUVal.depth] at this
      rw [h _ this]
    · rfl

theorem parseASDS_below {x : Strikes} {limit : Nat} (hx : OnlyBelow x limit) (cd : Codec) :
    ∀ (n level : Nat) (sd : RawSD), level + sd.depth ≤ limit → parseASDS cd x n level sd = parseASDN cd n sd
  | 0, _, _, _ => rfl
  | n + 1, level, sd, h => by
    rw [sd_depth] at h
    have hl : level < limit := by omega
    unfold parseASDS parseASDN asdStepS asdStep
    simp only [struck_none (hx.sd _ _ _ hl)]
    have : parseAll (authSignerStepS cd x level (parseASDS cd x n (level + 1))) sd.signers =
        parseAll (authSignerStep cd (parseASDN cd n)) sd.signers := by
      refine parseAll_congr fun si hs => ?_
      have h2 := depthSIs_mem hs
      rw [si_depth] at h2
      unfold authSignerStepS authSignerStep
      simp only [struck_none (hx.si _ _ _ hl)]
      have h3 : parseCounter (fun c => parseCounterInfoS cd x c.depth (level + 1) c) si.unsigned = parseCounter (parseCounterInfo cd) si.unsigned := by
        refine parseCounter_congr fun s hs => parseCounterInfoS_below hx cd _ (level + 1) s ?_
        have := attrValues_depth hs List.mem_cons_self
        rw [RawUVal.depth] at this
        omega
      have h4 : parseNested (parseASDS cd x n (level + 1)) si.unsigned = parseNested (parseASDN cd n) si.unsigned :=
        parseNested_below fun s hs => parseASDS_below hx cd n (level + 1) s (by omega)
      rw [h3, h4]
    rw [this]
    rfl

theorem fromEnvelopeS_below {x : Strikes} {limit : Nat} (hx : OnlyBelow x limit) (cd : Codec) (data : Bytes)
    (h : ∀ t sd, cd.envelope data = .ok (t, sd) → sd.depth ≤ limit) : fromEnvelopeS cd x data = fromEnvelope cd data := by
  unfold fromEnvelopeS fromEnvelope
  rw [struck_none (hx.envelope _)]
  cases he : cd.envelope data with
  | error e => rfl
  | ok p =>
    obtain ⟨t, sd⟩ := p
    show (if _ then _ else _) = (if _ then _ else _)
    split
    · rfl
    · exact parseASDS_below hx cd _ 0 sd (by have := h t sd he; omega)

end Signify
