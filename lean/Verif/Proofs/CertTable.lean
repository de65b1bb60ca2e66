/-
Helper lemmas about the certificate table loop.
-/
import Verif.Proofs.SignedPEImage

set_option autoImplicit false

namespace Signify
open Spec

/-- The possible shapes of one iteration. -/
theorem certLoop_step (file : Bytes) (tableEnd fuel pos : Nat) :
    (¬ pos < tableEnd ∧ certLoop file tableEnd (fuel + 1) pos = some ([], none)) ∨
    (pos < tableEnd ∧ ∃ e, e.cls = .signedPEParseError ∧ certLoop file tableEnd (fuel + 1) pos = some ([], some e) ∧
      (file.length < pos + 8 ∨ leAt file pos 4 ≤ 8 ∨ tableEnd < pos + leAt file pos 4)) ∨
    (pos < tableEnd ∧ pos + 8 ≤ file.length ∧ 8 < leAt file pos 4 ∧ pos + leAt file pos 4 ≤ tableEnd ∧
      certLoop file tableEnd (fuel + 1) pos =
        match certLoop file tableEnd fuel (pos + (leAt file pos 4 + (8 - leAt file pos 4 % 8) % 8)) with
        | none => none
        | some (es, e) => some (⟨leAt file (pos + 4) 2, leAt file (pos + 6) 2,
            readN file (pos + 8) (leAt file pos 4 - 8)⟩ :: es, e)) := by
  by_cases h1 : pos < tableEnd
  · by_cases h2 : pos + 8 > file.length
    · right; left
      refine ⟨h1, ⟨.signedPEParseError, "Position of certificate table is beyond length of file"⟩, rfl, ?_,
        Or.inl (by omega)⟩
      unfold certLoop; rw [if_pos h1, if_pos h2]
    · have u1 := unpackLE_ok (file := file) (pos := pos) (n := 4) (by omega)
      have u2 := unpackLE_ok (file := file) (pos := pos + 4) (n := 2) (by omega)
      have u3 := unpackLE_ok (file := file) (pos := pos + 6) (n := 2) (by omega)
      by_cases h3 : leAt file pos 4 ≤ 8 ∨ pos + leAt file pos 4 > tableEnd
      · right; left
        refine ⟨h1, ⟨.signedPEParseError, "Invalid length in certificate table header"⟩, rfl, ?_,
          Or.inr (h3.imp id (fun h => by omega))⟩
        unfold certLoop; rw [if_pos h1, if_neg h2, u1, u2, u3]; simp only; rw [if_pos h3]
      · right; right
        refine ⟨h1, by omega, by omega, by omega, ?_⟩
        conv => lhs; unfold certLoop
        rw [if_pos h1, if_neg h2, u1, u2, u3]; simp only; rw [if_neg h3]
        rfl
  · left
    exact ⟨h1, by unfold certLoop; rw [if_neg h1]⟩

theorem readN_len {file : Bytes} {p n : Nat} (h : p + n ≤ file.length) : (readN file p n).length = n := by
  rw [readN_length]; omega

/-- Main invariant of the loop. -/
theorem certLoop_facts (file : Bytes) (tableEnd : Nat) (hend : tableEnd ≤ file.length) : ∀ (fuel pos : Nat),
    tableEnd < pos + fuel → 0 < fuel → ∃ es e, certLoop file tableEnd fuel pos = some (es, e) ∧
      SlicesIn file pos tableEnd (es.map CertEntry.certificate) ∧
      (∀ x ∈ es, x.revision < 2 ^ 16 ∧ x.type < 2 ^ 16) ∧
      (es ≠ [] → 16 * (es.length - 1) + 9 + pos ≤ tableEnd) ∧
      (∀ x, e = some x → x.cls = .signedPEParseError)
  | 0, _, _, h0 => by omega
  | fuel + 1, pos, hf, _ => by
    have two : ∀ p, leAt file p 2 < 2 ^ 16 := by
      intro p
      simp only [leAt]
      have := UInt8.toNat_lt (file.getD (p + 0) 0)
      have := UInt8.toNat_lt (file.getD (p + 1) 0)
      omega
    rcases certLoop_step file tableEnd fuel pos with ⟨h1, h2⟩ | ⟨h1, e, he, h2, _⟩ | ⟨h1, h2, h3, h4, h5⟩
    · exact ⟨[], none, h2, trivial, by simp, by simp, by simp⟩
    · exact ⟨[], some e, h2, trivial, by simp, by simp, by rintro x ⟨⟩; exact he⟩
    · have hfuel : 0 < fuel := by omega
      obtain ⟨es, e, i1, i2, i3, i4, i5⟩ := certLoop_facts file tableEnd hend fuel
        (pos + (leAt file pos 4 + (8 - leAt file pos 4 % 8) % 8)) (by omega) hfuel
      rw [i1] at h5
      have hrl := readN_len (file := file) (p := pos + 8) (n := leAt file pos 4 - 8) (by omega)
      refine ⟨_, e, h5, ?_, ?_, ?_, i5⟩
      · refine ⟨pos + 8, by omega, ?_, ?_, ?_, ?_⟩
        · intro hc
          simp only at hc
          rw [hc] at hrl; simp at hrl; omega
        · simp only; rw [hrl]; omega
        · simp only; rw [hrl]; rfl
        · simp only; rw [hrl]
          have mono : ∀ (cs : List Bytes) (lo lo' hi : Nat), lo' ≤ lo → SlicesIn file lo hi cs → SlicesIn file lo' hi cs := by
            intro cs lo lo' hi hle h
            cases cs with
            | nil => trivial
            | cons c cs =>
              obtain ⟨p, a, b⟩ := h
              exact ⟨p, by omega, b⟩
          exact mono _ _ _ _ (by omega) i2
      · intro x hx
        rcases List.mem_cons.1 hx with rfl | hx
        · exact ⟨two _, two _⟩
        · exact i3 x hx
      · intro _
        simp only [List.length_cons, Nat.add_sub_cancel]
        by_cases hes : es = []
        · subst hes; simp only [List.length_nil]; omega
        · have := i4 hes
          have : 0 < es.length := List.length_pos_iff.2 hes
          omega

theorem winCertificate_length (e : CertEntry) :
    (winCertificate e).length = (8 + e.certificate.length) + (8 - (8 + e.certificate.length) % 8) % 8 := by
  unfold winCertificate
  simp only [List.length_append, leBytes_length, List.length_replicate]

/-- Reading back serialised records. -/
theorem certLoop_roundtrip (file : Bytes) : ∀ (es : List CertEntry) (fuel pos : Nat),
    (file.drop pos).take (certTable es).length = certTable es → (∀ e ∈ es, Fits e) → es.length < fuel →
    certLoop file (pos + (certTable es).length) fuel pos = some (es, none)
  | es, 0, _, _, _, h => by omega
  | [], fuel + 1, pos, _, _, _ => by
    unfold certLoop
    rw [if_neg (by simp [certTable])]
  | e :: es, fuel + 1, pos, hw, hfit, hfuel => by
    have hc : certTable (e :: es) = winCertificate e ++ certTable es := rfl
    obtain ⟨f1, f2, f3, f4⟩ := hfit e List.mem_cons_self
    have hpos : 0 < e.certificate.length := List.length_pos_iff.2 f1
    have hwl := winCertificate_length e
    rw [hc, List.length_append] at hw
    have hlen : pos + ((winCertificate e).length + (certTable es).length) ≤ file.length := by
      have := congrArg List.length hw
      simp only [List.length_take, List.length_drop, List.length_append] at this
      omega
    have hdrop : file.drop pos = winCertificate e ++ certTable es ++
        file.drop (pos + ((winCertificate e).length + (certTable es).length)) := by
      rw [← hw, ← List.drop_drop, List.take_append_drop]
    have win : ∀ (a b c : Bytes), file.drop pos = a ++ (b ++ c) → (file.drop (pos + a.length)).take b.length = b := by
      intro a b c h
      rw [← List.drop_drop, h]
      simp
    have hexp : file.drop pos = leBytes 4 (8 + e.certificate.length) ++ (leBytes 2 e.revision ++ (leBytes 2 e.type ++
        (e.certificate ++ (List.replicate ((8 - (8 + e.certificate.length) % 8) % 8) 0 ++ (certTable es ++
        file.drop (pos + ((winCertificate e).length + (certTable es).length))))))) := by
      conv => lhs; rw [hdrop]
      simp only [winCertificate, List.append_assoc]
    have w1 := win [] (leBytes 4 (8 + e.certificate.length)) _ (hexp.trans (List.nil_append _).symm)
    have w2 := win (leBytes 4 (8 + e.certificate.length)) _ _ hexp
    have w3 := win (leBytes 4 (8 + e.certificate.length) ++ leBytes 2 e.revision) (leBytes 2 e.type) _
      (by rw [List.append_assoc]; exact hexp)
    have w4 := win (leBytes 4 (8 + e.certificate.length) ++ (leBytes 2 e.revision ++ leBytes 2 e.type))
      e.certificate _ (by rw [List.append_assoc, List.append_assoc]; exact hexp)
    simp only [leBytes_length, List.length_append, List.length_nil, Nat.add_zero] at w1 w2 w3 w4
    have l1 := leAt_of_window w1 (by omega)
    have l2 := leAt_of_window w2 (by omega)
    have l3 := leAt_of_window w3 (by omega)
    have hnext : pos + (8 + e.certificate.length + (8 - (8 + e.certificate.length) % 8) % 8) =
        pos + (winCertificate e).length := by rw [hwl]
    have hw' : (file.drop (pos + (winCertificate e).length)).take (certTable es).length = certTable es :=
      win (winCertificate e) (certTable es) _ (by rw [← List.append_assoc]; exact hdrop)
    have ih := certLoop_roundtrip file es fuel (pos + (winCertificate e).length) hw'
      (fun x hx => hfit x (List.mem_cons_of_mem _ hx)) (by simpa using hfuel)
    rw [hc, List.length_append]
    rcases certLoop_step file (pos + ((winCertificate e).length + (certTable es).length)) fuel pos with
      ⟨h1, _⟩ | ⟨_, _, _, _, h2⟩ | ⟨_, _, _, _, h5⟩
    · omega
    · rw [l1] at h2; omega
    · rw [h5, l1, hnext, show pos + ((winCertificate e).length + (certTable es).length) =
        pos + (winCertificate e).length + (certTable es).length from by omega, ih]
      simp only [Nat.add_sub_cancel_left]
      rw [show pos + 6 = pos + (4 + 2) from rfl, l2, l3]
      have : readN file (pos + 8) e.certificate.length = e.certificate := w4
      rw [this]

theorem certTable_count (es : List CertEntry) : es.length ≤ (certTable es).length := by
  induction es with
  | nil => simp
  | cons e es ih =>
    have hc : certTable (e :: es) = winCertificate e ++ certTable es := rfl
    rw [hc, List.length_append, winCertificate_length, List.length_cons]
    omega

/-- Where the table is. -/
theorem parseCertTable_table {file : Bytes} {oho ohs dir a s : Nat} (h : Header file oho ohs dir)
    (hT : HasTable file oho ohs dir a s) (fuel : Nat) :
    parseCertTableN fuel file = certLoop file (a + s) fuel a := by
  have hT' := hT
  obtain ⟨hE, ha, hs, _, _, _⟩ := hT
  unfold parseCertTableN
  rw [getOmit_of h]
  unfold omitOf
  rw [← ha, ← hs, if_pos hE, if_pos hT']
  rfl

theorem parseCertTable_noTable {file : Bytes}
    (h : ¬ ∃ oho ohs dir a s, Header file oho ohs dir ∧ HasTable file oho ohs dir a s) (fuel : Nat) :
    ∃ e, e.cls = .signedPEParseError ∧ parseCertTableN fuel file = some ([], some e) := by
  rcases getOmit_cases file with ⟨h1, _⟩ | ⟨oho, ohs, dir, hh, h1⟩
  · refine ⟨⟨.signedPEParseError, "The PE file does not contain a certificate table."⟩, rfl, ?_⟩
    unfold parseCertTableN; rw [h1]
  · have hT : ¬ HasTable file oho ohs dir (leAt file dir 4) (leAt file (dir + 4) 4) := fun hT => h ⟨_, _, _, _, _, hh, hT⟩
    refine ⟨⟨.signedPEParseError, "The PE file does not contain a certificate table."⟩, rfl, ?_⟩
    unfold parseCertTableN; rw [h1]; unfold omitOf; rw [if_neg hT]
    by_cases hE : HasEntry file oho ohs dir
    · rw [if_pos hE]; rfl
    · rw [if_neg hE]; rfl

end Signify
