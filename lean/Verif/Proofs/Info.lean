/-
Proofs for C94: the report on files.
-/
import Verif.Spec.Info
import Verif.Proofs.Files
import Verif.Proofs.Names
import Verif.Props.Errors

set_option autoImplicit false

namespace Signify

open Spec

theorem sp4 : String.ofList (List.replicate 4 ' ') = "    " := by decide +kernel
theorem sp6 : String.ofList (List.replicate 6 ' ') = "      " := by decide +kernel
theorem sp8 : String.ofList (List.replicate 8 ' ') = "        " := by decide +kernel
theorem sp10 : String.ofList (List.replicate 10 ' ') = "          " := by decide +kernel
theorem sp12 : String.ofList (List.replicate 12 ' ') = "            " := by decide +kernel

theorem named_eq (n : Nat) (label pre : String) (x : Name) (h : ∀ s, pre ++ s = labelled n label s) :
    (dnLine pre x).toOption = named n label x := by
  unfold dnLine named
  cases x.dn with
  | error e => rfl
  | ok s => exact congrArg some (h s)

theorem infoCert6 (p : Printing) (c : Cert) : (infoCert p "      " c).map Except.toOption = certificateText p 6 c := by
  simp only [infoCert, certificateText, List.map_cons, List.map_nil]
  rw [named_eq 6 "- Subject" _ c.subject, named_eq 8 "Issuer" _ c.issuer]
  · simp only [labelled, sp8, ← String.append_assoc]
    rfl
  · intro s; simp only [labelled, sp8, ← String.append_assoc]; rfl
  · intro s; simp only [labelled, sp6, ← String.append_assoc]; rfl

theorem infoCert10 (p : Printing) (c : Cert) : (infoCert p "          " c).map Except.toOption = certificateText p 10 c := by
  simp only [infoCert, certificateText, List.map_cons, List.map_nil]
  rw [named_eq 10 "- Subject" _ c.subject, named_eq 12 "Issuer" _ c.issuer]
  · simp only [labelled, sp12, ← String.append_assoc]
    rfl
  · intro s; simp only [labelled, sp12, ← String.append_assoc]; rfl
  · intro s; simp only [labelled, sp10, ← String.append_assoc]; rfl

theorem infoIssuer (n : Name) : (dnLine "        Issuer: " n).toOption = named 8 "Issuer" n :=
  named_eq 8 "Issuer" _ n (fun s => by simp only [labelled, sp8, ← String.append_assoc]; rfl)

theorem infoCounter_text (p : Printing) (c : CounterSigner) : (infoCounter p c).map Except.toOption = counterText p c := by
  cases c with
  | pkcs9 i =>
    simp only [infoCounter, counterText, signerText, CounterSigner.signingTime, List.map_cons, List.map_nil, infoIssuer, labelled, sp8]
    cases i.signer.signingTime <;> (simp only [orNone, ← String.append_assoc]; rfl)
  | rfc3161 r =>
    simp only [infoCounter, counterText, signerText, CounterSigner.signingTime, orNone, List.map_cons, List.map_nil, infoIssuer,
      List.map_append, List.map_flatMap, infoCert10, labelled, sp8]
    simp only [← String.append_assoc]
    rfl

theorem infoSignature_text (p : Printing) (a : AuthData) : (infoSignature p a).map Except.toOption = signatureText p a := by
  have h1 : orNone (fun s => s) a.programName = a.programName.getD "None" := by cases a.programName <;> rfl
  have h2 : orNone p.link a.moreInfo = (a.moreInfo.map p.link).getD "None" := by cases a.moreInfo <;> rfl
  unfold infoSignature signatureText
  rw [← h1, ← h2]
  simp only [signerText, labelled, sp8, sp4, List.map_append, List.map_cons, List.map_nil, List.map_flatMap, infoCert6, infoIssuer]
  cases a.counter <;>
  · simp only [infoCounter_text, ← String.append_assoc, Option.map_none, Option.map_some, Option.getD_none, Option.getD_some,
      List.append_assoc, List.cons_append, List.nil_append, List.map_nil]
    rfl

theorem printLines_none {l : List (Except Exc String)} {s : List String} (h : printLines l = (s, none)) :
    l.map Except.toOption = s.map some := by
  induction l generalizing s with
  | nil => cases h; rfl
  | cons x l ih =>
    cases x with
    | error e => cases h
    | ok y =>
      obtain ⟨h1, h2⟩ := Prod.mk.inj h
      subst h1
      rw [List.map_cons, List.map_cons, ih (Prod.ext rfl h2)]
      rfl

theorem printLines_some {l : List (Except Exc String)} {s : List String} {e : Exc} (h : printLines l = (s, some e)) :
    ∃ post, l.map Except.toOption = s.map some ++ none :: post ∧ .error e ∈ l := by
  induction l generalizing s with
  | nil => cases h
  | cons x l ih =>
    cases x with
    | error e => cases h; exact ⟨_, rfl, by simp⟩
    | ok y =>
      obtain ⟨h1, h2⟩ := Prod.mk.inj h
      subst h1
      obtain ⟨post, h3, h4⟩ := ih (Prod.ext rfl h2)
      exact ⟨post, by rw [List.map_cons, List.map_cons, h3]; rfl, List.mem_cons_of_mem _ h4⟩

/-- Lines of which the text can only be missing for a name. -/
def OnlyType (l : List (Except Exc String)) : Prop := ∀ e, .error e ∈ l → e.cls = .typeError

theorem onlyType_append {l m : List (Except Exc String)} (h1 : OnlyType l) (h2 : OnlyType m) : OnlyType (l ++ m) := fun e he =>
  (List.mem_append.1 he).elim (h1 e) (h2 e)

theorem onlyType_cons {x : Except Exc String} {m : List (Except Exc String)} (h1 : ∀ e, x = .error e → e.cls = .typeError) (h2 : OnlyType m) :
    OnlyType (x :: m) := fun e he => (List.mem_cons.1 he).elim (fun h => h1 e h.symm) (h2 e)

theorem onlyType_nil : OnlyType [] := fun _ h => by cases h

theorem dnLine_type (l : String) (n : Name) : ∀ e, dnLine l n = .error e → e.cls = .typeError := by
  intro e h
  unfold dnLine at h
  cases hn : n.dn with
  | ok s => rw [hn] at h; cases h
  | error e' => rw [hn] at h; cases h; exact dn_error hn

theorem ok_type (s : String) : ∀ e, (.ok s : Except Exc String) = .error e → e.cls = .typeError := fun _ h => by cases h

theorem infoCert_type (p : Printing) (i : String) (c : Cert) : OnlyType (infoCert p i c) :=
  onlyType_cons (dnLine_type _ _) (onlyType_cons (dnLine_type _ _) (onlyType_cons (ok_type _) (onlyType_cons (ok_type _)
    (onlyType_cons (ok_type _) onlyType_nil))))

theorem infoCerts_type (p : Printing) (i : String) (l : List Cert) : OnlyType (l.flatMap (infoCert p i)) := by
  intro e he
  obtain ⟨c, -, hc⟩ := List.mem_flatMap.1 he
  exact infoCert_type p i c e hc

theorem infoCounter_type (p : Printing) (c : CounterSigner) : OnlyType (infoCounter p c) := by
  cases c with
  | pkcs9 i =>
    exact onlyType_cons (ok_type _) (onlyType_cons (ok_type _) (onlyType_cons (dnLine_type _ _) (onlyType_cons (ok_type _)
      (onlyType_cons (ok_type _) onlyType_nil))))
  | rfc3161 r =>
    exact onlyType_append (onlyType_cons (ok_type _) (onlyType_cons (ok_type _) (onlyType_cons (dnLine_type _ _) (onlyType_cons (ok_type _)
      (onlyType_cons (ok_type _) (onlyType_cons (ok_type _) onlyType_nil)))))) (infoCerts_type p _ _)

theorem infoSignature_type (p : Printing) (a : AuthData) : OnlyType (infoSignature p a) := by
  refine onlyType_append (onlyType_append (onlyType_append (onlyType_cons (ok_type _) (infoCerts_type p _ _)) ?_) ?_) ?_
  · exact onlyType_cons (ok_type _) (onlyType_cons (ok_type _) (onlyType_cons (dnLine_type _ _) (onlyType_cons (ok_type _)
      (onlyType_cons (ok_type _) (onlyType_cons (ok_type _) onlyType_nil)))))
  · cases a.counter with
    | none => exact onlyType_nil
    | some c => exact infoCounter_type p c
  · exact onlyType_cons (ok_type _) (onlyType_cons (ok_type _) (onlyType_cons (ok_type _) (onlyType_cons (ok_type _) onlyType_nil)))

theorem infoVerdict_text {α : Type} (p : Printing) (indent : String) (f : M α) (w : World) :
    ∃ v, explain f w = (.ok v, (f w).2) ∧ VerdictText p indent (f w).1 (infoVerdict p indent v) := by
  obtain ⟨r, x, h1, h2, h3, h4⟩ := Props.C22_explain f w
  refine ⟨(r, x), h1, ?_⟩
  cases hf : (f w).1 with
  | ok a =>
    obtain ⟨rfl, rfl⟩ := h2.2 ⟨a, hf⟩
    rfl
  | error e =>
    obtain ⟨rfl, hd⟩ := (h4 e).1 hf
    refine ⟨r, _, hd, ?_, rfl⟩
    cases r <;> simp [resultNames]

/-! ### The same store -/

theorem sameStore_grows {w w' v : World} {r : StoreRef} (h : SameStore w v r) (hs : ∀ k, StoreStep (w.stores k) (w'.stores k)) :
    SameStore w' v r := fun i hi => by
  obtain ⟨h1, h2, h3⟩ := h i hi
  exact ⟨(hs i).loaded_eq.trans h1, FineStore.step h2 (hs i), h3⟩

theorem asdVerify_default {env : Env} {trusted : StoreRef} {file : Bytes} (a : AuthData) {w v : World} (h : SameStore w v trusted) :
    (asdVerify env (some file) a { trusted := trusted } w).1 = (asdVerify env (some file) a { trusted := trusted } v).1 ∧
    SameStore (asdVerify env (some file) a { trusted := trusted } w).2 v trusted :=
  ⟨Props.C34_function_partial env (some file) a { trusted := trusted } w v rfl rfl h,
    sameStore_grows h (asdVerify_grows env (some file) a { trusted := trusted } w ⟨fun _ h => (by cases h), fun _ h => (by cases h)⟩).stores⟩

theorem peVerify_default {env : Env} {cd : Codec} {trusted : StoreRef} (file : Bytes) {w v : World} (h : SameStore w v trusted) :
    (peVerify env cd file { kwargs := { trusted := trusted } } w).1 = (peVerify env cd file { kwargs := { trusted := trusted } } v).1 ∧
    SameStore (peVerify env cd file { kwargs := { trusted := trusted } } w).2 v trusted := by
  constructor
  · exact peVerify_sim env cd file { kwargs := { trusted := trusted } } w v 0 (fun k => trusted = .heap k) (fun _ => False)
      (fun i hi => by cases hi) (fun i hi => by cases hi) (fun k hk => hk) (fun i hi => by cases hi)
      ⟨fun i i' _ _ h => absurd h.2 (Nat.not_lt_zero _), fun _ _ h => absurd h.2 (Nat.not_lt_zero _),
        fun _ _ h => absurd h.2 (Nat.not_lt_zero _), fun k hk => (h k hk).1, fun k hk => .inl (h k hk).2, fun _ h => h.elim⟩
      (Nat.zero_le _) (Nat.zero_le _)
  · obtain ⟨calls, D, h1, -, h3⟩ := peVerify_calls env cd file { kwargs := { trusted := trusted } } w
    rw [h3]
    have hex : ∀ c ∈ calls, ContextsExist w c.args := by
      intro c hc
      obtain ⟨-, ⟨x, hx⟩, -⟩ := h1 c hc
      rw [hx]
      exact ⟨fun _ h => (by cases h), fun _ h => (by cases h)⟩
    exact sameStore_grows (w' := { afterCalls env calls w with dicts := D }) h (afterCalls_grows env calls w hex).stores

theorem infoSignatures_text (p : Printing) (env : Env) (trusted : StoreRef) (file : Bytes) (l : List ASD) (w v : World)
    (h : SameStore w v trusted) : ∃ lines err w', infoSignatures p env trusted file l w = (.ok (lines, err), w') ∧
      SignaturesText p env trusted file v l lines err ∧ SameStore w' v trusted := by
  induction l generalizing w with
  | nil => exact ⟨[], none, w, rfl, .nil, h⟩
  | cons a l ih =>
    rcases hp : printLines (infoSignature p a.d) with ⟨lines, err⟩
    cases err with
    | some e =>
      obtain ⟨post, h1, h2⟩ := printLines_some hp
      rw [infoSignature_text] at h1
      exact ⟨lines, some e, w, by rw [infoSignatures, hp]; rfl, .stop a l lines post e h1 (infoSignature_type p a.d e h2), h⟩
    | none =>
      have h0 := printLines_none hp
      rw [infoSignature_text] at h0
      obtain ⟨x, h1, h2⟩ := infoVerdict_text p "    " (asdVerify env (some file) a.d { trusted := trusted }) w
      obtain ⟨h3, h4⟩ := asdVerify_default (env := env) (file := file) a.d h
      obtain ⟨rest, err, w', h5, h6, h7⟩ := ih _ h4
      refine ⟨_, _, w', ?_, .cons a l lines (infoVerdict p "    " x) rest err h0 (h3 ▸ h2) h6, h7⟩
      rw [infoSignatures, hp]
      simp only
      rw [M.bind_ok (show asdExplainVerify env (some file) a.d { trusted := trusted } w = _ from h1), M.bind_ok h5]
      rfl

theorem infoFile_text (p : Printing) (env : Env) (cd : Codec) (trusted : StoreRef) (file : Bytes) (w v : World)
    (h : SameStore w v trusted) : ∃ lines w', infoFile p env cd trusted file w = (.ok lines, w') ∧
      FileText p env cd trusted v file lines ∧ SameStore w' v trusted := by
  obtain ⟨tops, sds, err, ht, hp, hi⟩ := Props.C15_iteration cd file
  have hi := hi true true
  simp only [if_true, true_and] at hi
  obtain ⟨blocks, stop, w1, h1, h2, h3⟩ := infoSignatures_text p env trusted file sds w v h
  unfold infoFile
  rw [hi]
  simp only
  rw [M.bind_ok h1]
  cases stop with
  | some e =>
    refine ⟨_, w1, rfl, .inr (.inr ⟨sds, blocks, err, e, ⟨tops, ht, hp⟩, h2, ?_⟩), h3⟩
    rw [labelled, sp4]
    simp only [← String.append_assoc]
    rfl
  | none =>
    simp only [Option.orElse_none]
    by_cases hx : ∃ e, err = some e ∧ e.is .signedPEParseError = true
    · rw [if_pos hx]
      simp only
      obtain ⟨x, k1, k2⟩ := infoVerdict_text p "" (peVerify env cd file { kwargs := { trusted := trusted } }) w1
      obtain ⟨k3, k4⟩ := peVerify_default (env := env) (cd := cd) file h3
      rw [M.bind_ok (show peExplainVerify env cd file { kwargs := { trusted := trusted } } w1 = _ from k1)]
      refine ⟨_, _, rfl, .inl ⟨sds, blocks, _, ⟨err, ⟨tops, ht, hp⟩, .inr ⟨rfl, fun e he => ?_⟩⟩, h2, k3 ▸ k2, rfl⟩, k4⟩
      obtain ⟨e', he', h'⟩ := hx
      rw [he] at he'; cases he'; exact h'
    · rw [if_neg hx]
      cases err with
      | none =>
        simp only
        obtain ⟨x, k1, k2⟩ := infoVerdict_text p "" (peVerify env cd file { kwargs := { trusted := trusted } }) w1
        obtain ⟨k3, k4⟩ := peVerify_default (env := env) (cd := cd) file h3
        rw [M.bind_ok (show peExplainVerify env cd file { kwargs := { trusted := trusted } } w1 = _ from k1)]
        exact ⟨_, _, rfl, .inl ⟨sds, blocks, _, ⟨none, ⟨tops, ht, hp⟩, .inl rfl⟩, h2, k3 ▸ k2, rfl⟩, k4⟩
      | some e =>
        simp only
        refine ⟨_, w1, rfl, .inr (.inl ⟨sds, blocks, e, ⟨tops, ht, hp⟩, fun hig => hx ⟨e, rfl, hig e rfl⟩, h2, ?_, ?_⟩), h3⟩
        · rw [peVerify_error (args := { kwargs := { trusted := trusted } }) (e := e)]
          rw [hi, if_neg hx]
          rfl
        · rw [labelled, sp4]
          simp only [← String.append_assoc]
          rfl

end Signify
