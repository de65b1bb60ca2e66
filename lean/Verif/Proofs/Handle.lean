/-
The code on the file object computes what the byte-level model computes, wherever the file is positioned.
-/
import Verif.Spec.Handle
import Verif.Proofs.CertTable
import Verif.Proofs.X509

set_option autoImplicit false

namespace Signify

/-- Started on a file with content `b`, at any position, the code gives `r` and leaves the content alone. -/
def HGives {α : Type} (b : Bytes) (p : HM α) (r : Except Exc α) : Prop :=
  ∀ h : Handle, h.bytes = b → (p h).1 = r ∧ (p h).2.bytes = b

theorem HM.bind_def {α β : Type} (p : HM α) (k : α → HM β) (h : Handle) :
    (p >>= k) h = match p h with
      | (.ok a, h') => k a h'
      | (.error e, h') => (.error e, h') := rfl

theorem HGives.pure {α : Type} (b : Bytes) (a : α) : HGives b (Pure.pure a : HM α) (.ok a) := fun _ hb => ⟨rfl, hb⟩
theorem HGives.raise {α : Type} (b : Bytes) (e : Exc) : HGives b (HM.raise e : HM α) (.error e) := fun _ hb => ⟨rfl, hb⟩
theorem HGives.lift {α : Type} (b : Bytes) (r : Except Exc α) : HGives b (HM.lift r) r := fun _ hb => ⟨rfl, hb⟩

theorem HGives.bind_ok {α β : Type} {b : Bytes} {p : HM α} {k : α → HM β} {a : α} {s : Except Exc β}
    (hp : HGives b p (.ok a)) (hk : HGives b (k a) s) : HGives b (p >>= k) s := by
  intro h hb
  obtain ⟨h1, h2⟩ := hp h hb
  rw [HM.bind_def]
  cases hph : p h with
  | mk r h' =>
    rw [hph] at h1 h2
    simp only at h1 h2
    subst h1
    exact hk h' h2

theorem HGives.bind_error {α β : Type} {b : Bytes} {p : HM α} {k : α → HM β} {e : Exc}
    (hp : HGives b p (.error e)) : HGives b (p >>= k) (.error e) := by
  intro h hb
  obtain ⟨h1, h2⟩ := hp h hb
  rw [HM.bind_def]
  cases hph : p h with
  | mk r h' =>
    rw [hph] at h1 h2
    simp only at h1 h2
    subst h1
    exact ⟨rfl, h2⟩

theorem HGives.tryCatch_ok {α : Type} {b : Bytes} {p : HM α} {k : Exc → HM α} {a : α}
    (hp : HGives b p (.ok a)) : HGives b (HM.tryCatch p k) (.ok a) := by
  intro h hb
  obtain ⟨h1, h2⟩ := hp h hb
  unfold HM.tryCatch
  cases hph : p h with
  | mk r h' =>
    rw [hph] at h1 h2
    simp only at h1 h2
    subst h1
    exact ⟨rfl, h2⟩

theorem HGives.tryCatch_error {α : Type} {b : Bytes} {p : HM α} {k : Exc → HM α} {e : Exc} {s : Except Exc α}
    (hp : HGives b p (.error e)) (hk : HGives b (k e) s) : HGives b (HM.tryCatch p k) s := by
  intro h hb
  obtain ⟨h1, h2⟩ := hp h hb
  unfold HM.tryCatch
  cases hph : p h with
  | mk r h' =>
    rw [hph] at h1 h2
    simp only at h1 h2
    subst h1
    exact hk h' h2

theorem HM.seek_nat (n : Nat) (h : Handle) : HM.seek (n : Int) h = (.ok (), { h with pos := n }) := by
  unfold HM.seek
  rw [if_neg (by omega)]
  simp

theorem HM.read_nat (n : Nat) (h : Handle) : HM.read (n : Int) h =
    (.ok (readN h.bytes h.pos n), { h with pos := h.pos + (readN h.bytes h.pos n).length }) := by
  unfold HM.read
  simp only
  rw [if_neg (by omega)]
  simp [readN]

/-- `seek` and then something that gives `r` at that position. -/
theorem HGives.seek {α : Type} {b : Bytes} {n : Nat} {k : HM α} {s : Except Exc α}
    (hk : (k ⟨b, n⟩).1 = s ∧ (k ⟨b, n⟩).2.bytes = b) : HGives b (do HM.seek (n : Int); k) s := by
  intro h hb
  rw [HM.bind_def, HM.seek_nat]
  obtain ⟨bytes, pos⟩ := h
  simp only at hb
  subst hb
  exact hk

theorem seek_read {α : Type} {b : Bytes} {p n : Nat} {k : Bytes → HM α} {s : Except Exc α}
    (hk : HGives b (k (readN b p n)) s) : HGives b (do HM.seek (p : Int); let x ← HM.read (n : Int); k x) s := by
  refine HGives.seek ?_
  rw [HM.bind_def, HM.read_nat]
  exact hk _ rfl

theorem HM.unpack_run (n : Nat) (h : Handle) : HM.unpack n h =
    (unpackLE n (readN h.bytes h.pos n), { h with pos := h.pos + (readN h.bytes h.pos n).length }) := by
  unfold HM.unpack
  rw [HM.bind_def, HM.read_nat]
  rfl

theorem seek_unpack {α : Type} {b : Bytes} {p n : Nat} {k : Nat → HM α} {s : Except Exc α}
    (hk : match unpackLE n (readN b p n) with
      | .ok v => HGives b (k v) s
      | .error e => s = .error e) : HGives b (do HM.seek (p : Int); let x ← HM.unpack n; k x) s := by
  refine HGives.seek ?_
  rw [HM.bind_def, HM.unpack_run]
  cases hu : unpackLE n (readN b p n) with
  | ok v =>
    rw [hu] at hk
    exact hk _ rfl
  | error e =>
    rw [hu] at hk
    simp only at hk
    subst hk
    exact ⟨rfl, rfl⟩

theorem openLength_gives (b : Bytes) : HGives b openLength (.ok b.length) := by
  intro h hb
  subst hb
  exact ⟨rfl, rfl⟩

theorem readN_take {b : Bytes} {flen p n : Nat} (h : p + n ≤ flen) : readN (b.take flen) p n = readN b p n := by
  unfold readN
  rw [List.drop_take, List.take_take]
  congr 1
  omega

/-- Both fail, with errors that `get_authenticode_omit_sections` catches. -/
def SoftFail {α : Type} (r : Except Exc α) : Prop :=
  ∃ e, r = .error e ∧ (e.is .signedPEParseError || e.is .structError) = true

theorem SoftFail.pe {α : Type} (m : String) : SoftFail (peErr m : Except Exc α) := ⟨_, rfl, rfl⟩

theorem SoftFail.unpack {α : Type} {n : Nat} {x : Bytes} {e : Exc} (h : unpackLE n x = .error e) : SoftFail (.error e : Except Exc α) := by
  unfold unpackLE at h
  split at h
  · cases h
  · cases h; exact ⟨_, rfl, rfl⟩

theorem unpackLE_short {n : Nat} {x : Bytes} (h : x.length ≠ n) : SoftFail (unpackLE n x) := by
  unfold unpackLE
  rw [if_neg h]
  exact ⟨_, rfl, rfl⟩

theorem unpackLE_long {n : Nat} {x : Bytes} (h : x.length = n) : unpackLE n x = .ok (leNat x) := by
  unfold unpackLE
  rw [if_pos h]

theorem parseDirectoriesH_take {b : Bytes} {flen oho ohs rva cert : Nat} (hl : flen ≤ b.length) (ho : oho + ohs ≤ flen) :
    HGives b (parseDirectoriesH flen oho ohs rva cert) (parseDirectories (b.take flen) oho ohs rva cert) := by
  have tl : (b.take flen).length = flen := by rw [List.length_take]; omega
  unfold parseDirectoriesH parseDirectories
  simp only
  split
  · exact HGives.pure _ _
  · rw [readN_take (show rva + 4 ≤ flen by omega)]
    refine seek_unpack ?_
    cases hu : unpackLE 4 (readN b rva 4) with
    | error e => rfl
    | ok v =>
      simp only
      split
      · exact HGives.pure _ _
      · split
        · exact HGives.pure _ _
        · rw [readN_take (show cert + 8 ≤ flen by omega), tl]
          refine seek_read (n := 8) ?_
          split
          · exact HGives.raise _ _
          · split
            · exact HGives.pure _ _
            · split
              · exact HGives.pure _ _
              · exact HGives.pure _ _

/-- With a length that is not more than the actual one, the code finds the header that it would find in the file cut off at
that length. -/
theorem parsePEHeaderH_take {b : Bytes} {flen : Nat} (hl : flen ≤ b.length) :
    ∃ r, HGives b (parsePEHeaderH flen) r ∧ (r = parsePEHeader (b.take flen) ∨ (SoftFail r ∧ SoftFail (parsePEHeader (b.take flen)))) := by
  have tl : (b.take flen).length = flen := by rw [List.length_take]; omega
  -- a header that does not fit into `flen` bytes is rejected
  have back : ∀ v : Nat, v + 92 > flen → ∃ r, HGives b (do
        HM.seek (v : Int)
        let magic ← HM.read 4
        if magic ≠ [0x50, 0x45, 0, 0] then HM.lift (peErr "PE header not found")
        else do
          HM.seek (v + 20 : Nat)
          let ohs ← HM.unpack 2
          let oho := v + 24
          if ohs + oho > flen then HM.lift (peErr "The optional header exceeds the file length")
          else if ohs < 68 then HM.lift (peErr "The optional header size is insufficient for authenticode")
          else do
            HM.seek oho
            let signature ← HM.unpack 2
            if signature = 0x10B then parseDirectoriesH flen oho ohs (oho + 92) (oho + 128)
            else if signature = 0x20B then parseDirectoriesH flen oho ohs (oho + 108) (oho + 144)
            else HM.lift (peErr "The PE Optional Header signature is unknown")) r ∧ SoftFail r := by
    intro v hv
    by_cases hm : readN b v 4 ≠ [0x50, 0x45, 0, 0]
    · refine ⟨_, seek_read (n := 4) ?_, SoftFail.pe "PE header not found"⟩
      rw [if_pos hm]
      exact HGives.lift _ _
    · cases hu : unpackLE 2 (readN b (v + 20) 2) with
      | error e =>
        refine ⟨_, seek_read (n := 4) ?_, SoftFail.unpack hu⟩
        rw [if_neg hm]
        refine seek_unpack ?_
        rw [hu]
      | ok ohs =>
        by_cases hb : ohs + (v + 24) > flen
        · refine ⟨_, seek_read (n := 4) ?_, SoftFail.pe "The optional header exceeds the file length"⟩
          rw [if_neg hm]
          refine seek_unpack ?_
          rw [hu]
          simp only
          rw [if_pos hb]
          exact HGives.lift _ _
        · refine ⟨_, seek_read (n := 4) ?_, SoftFail.pe "The optional header size is insufficient for authenticode"⟩
          rw [if_neg hm]
          refine seek_unpack ?_
          rw [hu]
          simp only
          rw [if_neg hb, if_pos (by omega)]
          exact HGives.lift _ _
  by_cases h0 : flen < 64
  · -- both fail
    have ht : SoftFail (parsePEHeader (b.take flen)) := by
      unfold parsePEHeader
      split
      · exact SoftFail.pe _
      · obtain ⟨e, h1, h2⟩ := unpackLE_short (n := 4) (x := readN (b.take flen) 0x3C 4) (by rw [readN_length, tl]; omega)
        rw [h1]
        exact ⟨e, rfl, h2⟩
    unfold parsePEHeaderH
    by_cases hm : readN b 0 2 ≠ [0x4D, 0x5A]
    · refine ⟨_, seek_read (p := 0) (n := 2) ?_, .inr ⟨SoftFail.pe "MZ header not found", ht⟩⟩
      rw [if_pos hm]
      exact HGives.lift _ _
    · cases hu : unpackLE 4 (readN b 0x3C 4) with
      | error e =>
        refine ⟨_, seek_read (p := 0) (n := 2) ?_, .inr ⟨SoftFail.unpack hu, ht⟩⟩
        rw [if_neg hm]
        refine seek_unpack (p := 0x3C) ?_
        rw [hu]
      | ok v =>
        by_cases hv : v ≥ flen
        · refine ⟨_, seek_read (p := 0) (n := 2) ?_, .inr ⟨SoftFail.pe "PE header location is beyond file boundaries", ht⟩⟩
          rw [if_neg hm]
          refine seek_unpack (p := 0x3C) ?_
          rw [hu]
          simp only
          rw [if_pos hv]
          exact HGives.lift _ _
        · obtain ⟨r, hr, hs⟩ := back v (by omega)
          refine ⟨r, seek_read (p := 0) (n := 2) ?_, .inr ⟨hs, ht⟩⟩
          rw [if_neg hm]
          refine seek_unpack (p := 0x3C) ?_
          rw [hu]
          simp only
          rw [if_neg hv]
          exact hr
  · unfold parsePEHeaderH parsePEHeader
    rw [readN_take (show 0 + 2 ≤ flen by omega), readN_take (show 0x3C + 4 ≤ flen by omega), tl]
    by_cases hm : readN b 0 2 ≠ [0x4D, 0x5A]
    · refine ⟨_, seek_read (p := 0) (n := 2) ?_, .inl rfl⟩
      rw [if_pos hm, if_pos hm]
      exact HGives.lift _ _
    · rw [if_neg hm]
      have step : ∀ s, (match unpackLE 4 (readN b 0x3C 4) with
          | .ok v => HGives b (if v ≥ flen then HM.lift (peErr "PE header location is beyond file boundaries")
              else do
                HM.seek (v : Int)
                let magic ← HM.read 4
                if magic ≠ [0x50, 0x45, 0, 0] then HM.lift (peErr "PE header not found")
                else do
                  HM.seek (v + 20 : Nat)
                  let ohs ← HM.unpack 2
                  let oho := v + 24
                  if ohs + oho > flen then HM.lift (peErr "The optional header exceeds the file length")
                  else if ohs < 68 then HM.lift (peErr "The optional header size is insufficient for authenticode")
                  else do
                    HM.seek oho
                    let signature ← HM.unpack 2
                    if signature = 0x10B then parseDirectoriesH flen oho ohs (oho + 92) (oho + 128)
                    else if signature = 0x20B then parseDirectoriesH flen oho ohs (oho + 108) (oho + 144)
                    else HM.lift (peErr "The PE Optional Header signature is unknown")) s
          | .error e => s = .error e) → HGives b (parsePEHeaderH flen) s := by
        intro s hs
        unfold parsePEHeaderH
        refine seek_read (p := 0) (n := 2) ?_
        rw [if_neg hm]
        exact seek_unpack (p := 0x3C) hs
      cases hu : unpackLE 4 (readN b 0x3C 4) with
      | error e =>
        rw [hu] at step
        exact ⟨_, step _ rfl, .inl rfl⟩
      | ok v =>
        rw [hu] at step
        simp only at step ⊢
        by_cases hv : v ≥ flen
        · refine ⟨_, step _ ?_, .inl rfl⟩
          rw [if_pos hv, if_pos hv]
          exact HGives.lift _ _
        · rw [if_neg hv] at step ⊢
          by_cases hbig : v + 92 > flen
          · obtain ⟨r, hr, hs⟩ := back v hbig
            refine ⟨r, step _ hr, .inr ⟨hs, ?_⟩⟩
            split
            · exact SoftFail.pe _
            · split
              · rename_i hx; exact SoftFail.unpack hx
              · split
                · exact SoftFail.pe _
                · split
                  · exact SoftFail.pe _
                  · omega
          · refine ⟨_, step _ ?_, .inl rfl⟩
            rw [readN_take (show v + 4 ≤ flen by omega), readN_take (show v + 20 + 2 ≤ flen by omega),
              readN_take (show v + 24 + 2 ≤ flen by omega)]
            refine seek_read (n := 4) ?_
            split
            · exact HGives.lift _ _
            · refine seek_unpack ?_
              cases hu : unpackLE 2 (readN b (v + 20) 2) with
              | error e => rfl
              | ok ohs =>
                simp only
                split
                · exact HGives.lift _ _
                · split
                  · exact HGives.lift _ _
                  · refine seek_unpack ?_
                    cases hu : unpackLE 2 (readN b (v + 24) 2) with
                    | error e => rfl
                    | ok sg =>
                      simp only
                      split
                      · exact parseDirectoriesH_take hl (by omega)
                      · split
                        · exact parseDirectoriesH_take hl (by omega)
                        · exact HGives.lift _ _

theorem omitSectionsH_take {b : Bytes} {flen : Nat} (hl : flen ≤ b.length) :
    HGives b (omitSectionsH flen) (getOmit (b.take flen)) := by
  obtain ⟨r, hr, h⟩ := parsePEHeaderH_take hl
  unfold omitSectionsH getOmit
  rcases h with rfl | ⟨⟨e, rfl, he⟩, e', he', hs⟩
  · cases hp : parsePEHeader (b.take flen) with
    | ok l =>
      rw [hp] at hr
      exact HGives.tryCatch_ok (HGives.bind_ok hr (HGives.pure _ _))
    | error e =>
      rw [hp] at hr
      refine HGives.tryCatch_error (HGives.bind_error hr) ?_
      simp only
      split
      · exact HGives.pure _ _
      · exact HGives.raise _ _
  · rw [he']
    refine HGives.tryCatch_error (HGives.bind_error hr) ?_
    simp only
    rw [if_pos he, if_pos hs]
    exact HGives.pure _ _

/-- The code sees the first `flen` bytes, `t`, of the content `b`. -/
structure Seen (b : Bytes) (flen : Nat) (t : Bytes) : Prop where
  le : flen ≤ b.length
  eq : t = b.take flen

theorem Seen.self (b : Bytes) : Seen b b.length b := ⟨Nat.le_refl _, (List.take_length).symm⟩

theorem Seen.len {b t : Bytes} {flen : Nat} (h : Seen b flen t) : t.length = flen := by
  have := h.le
  rw [h.eq, List.length_take]; omega

theorem Seen.read {b t : Bytes} {flen : Nat} (h : Seen b flen t) {p n : Nat} (hp : p + n ≤ flen) : readN b p n = readN t p n := by
  rw [h.eq, readN_take hp]

theorem Seen.omit {b t : Bytes} {flen : Nat} (h : Seen b flen t) : HGives b (omitSectionsH flen) (getOmit t) := by
  rw [h.eq]
  exact omitSectionsH_take h.le

theorem omitSectionsH_gives (b : Bytes) : HGives b (omitSectionsH b.length) (getOmit b) := (Seen.self b).omit

theorem getOmit_certtable {t : Bytes} {loc : Dict String RelRange} {r : RelRange} (h : getOmit t = .ok (some loc))
    (hr : loc.get? "certtable" = some r) : r.start + r.length ≤ t.length := by
  rcases getOmit_cases t with ⟨h1, _⟩ | ⟨oho, ohs, dir, _, h2⟩
  · rw [h] at h1; cases h1
  · rw [h] at h2
    simp only [Except.ok.injEq, Option.some.injEq] at h2
    subst h2
    unfold Spec.omitOf at hr
    split at hr
    · split at hr
      · rename_i hT
        simp [Dict.get?] at hr
        subst hr
        exact hT.2.2.2.2.2
      · simp [Dict.get?] at hr
    · split at hr
      · rename_i hE hT
        exact absurd hT.1 hE
      · simp [Dict.get?] at hr

/-- The generator `g` still has the values `l` to give and then ends with the exception `e`, if any. -/
def CertRep (b : Bytes) : CertGen → Gen CertEntry → Prop
  | .start, r => r = parseCertTable b
  | .suspended position length tableEnd, r => tableEnd ≤ b.length ∧
    ∃ fuel, certLoop b tableEnd fuel (position + (length + (8 - length % 8) % 8)) = some r
  | .finished, r => r = ([], none)

theorem certWhileH_gives {b t : Bytes} {flen : Nat} (hs : Seen b flen t) {tableEnd pos fuel : Nat} {r : Gen CertEntry}
    (hend : tableEnd ≤ t.length) (hr : certLoop t tableEnd fuel pos = some r) :
    (∃ c l e g, r = (c :: l, e) ∧ HGives b (certWhileH flen tableEnd pos) (.ok (some (c, g))) ∧ CertRep t g (l, e)) ∨
    (∃ e, r = ([], some e) ∧ HGives b (certWhileH flen tableEnd pos) (.error e)) ∨
    (r = ([], none) ∧ HGives b (certWhileH flen tableEnd pos) (.ok none)) := by
  cases fuel with
  | zero => simp [certLoop] at hr
  | succ fuel =>
    unfold certLoop at hr
    unfold certWhileH
    rw [← hs.len]
    have tl := hs.len
    split at hr
    · rename_i h1
      split at hr
      · rename_i h2
        simp only [Option.some.injEq] at hr
        refine .inr (.inl ⟨_, hr.symm, ?_⟩)
        rw [if_pos h1, if_pos h2]
        exact HGives.raise _ _
      · rename_i h2
        rw [if_pos h1, if_neg h2]
        have l4 : (readN t pos 4).length = 4 := readN_len (by omega)
        have l2 : (readN t (pos + 4) 2).length = 2 := readN_len (by omega)
        have l2' : (readN t (pos + 6) 2).length = 2 := readN_len (by omega)
        have e1 : unpackLE 4 (readN t pos 4) = .ok (leNat (readN t pos 4)) := by rw [unpackLE, if_pos l4]
        have e2 : unpackLE 2 (readN t (pos + 4) 2) = .ok (leNat (readN t (pos + 4) 2)) := by rw [unpackLE, if_pos l2]
        have e3 : unpackLE 2 (readN t (pos + 6) 2) = .ok (leNat (readN t (pos + 6) 2)) := by rw [unpackLE, if_pos l2']
        rw [e1, e2, e3] at hr
        simp only at hr
        -- after the three reads of the header
        have key : ∀ (k : Nat → Nat → Nat → HM (Option (CertEntry × CertGen))) (s : Except Exc (Option (CertEntry × CertGen))),
            (k (leNat (readN t pos 4)) (leNat (readN t (pos + 4) 2)) (leNat (readN t (pos + 6) 2)) ⟨b, pos + 8⟩).1 = s ∧
            (k (leNat (readN t pos 4)) (leNat (readN t (pos + 4) 2)) (leNat (readN t (pos + 6) 2)) ⟨b, pos + 8⟩).2.bytes = b →
            HGives b (do
              HM.seek (pos : Int)
              let length ← HM.unpack 4
              let revision ← HM.unpack 2
              let type ← HM.unpack 2
              k length revision type) s := by
          intro k s hk
          refine HGives.seek ?_
          rw [HM.bind_def, HM.unpack_run]
          simp only [hs.read (show pos + 4 ≤ flen by omega), l4, e1]
          rw [HM.bind_def, HM.unpack_run]
          simp only [hs.read (show pos + 4 + 2 ≤ flen by omega), l2, e2]
          rw [HM.bind_def, HM.unpack_run]
          simp only [show pos + 4 + 2 = pos + 6 from rfl, hs.read (show pos + 6 + 2 ≤ flen by omega), l2', e3]
          exact hk
        split at hr
        · rename_i h3
          simp only [Option.some.injEq] at hr
          refine .inr (.inl ⟨_, hr.symm, key _ _ ?_⟩)
          rw [if_pos h3]
          exact ⟨rfl, rfl⟩
        · rename_i h3
          split at hr
          · cases hr
          · rename_i es e hl
            simp only [Option.some.injEq] at hr
            refine .inl ⟨_, es, e, .suspended pos (leNat (readN t pos 4)) tableEnd, hr.symm, key _ _ ?_, hend, fuel, hl⟩
            rw [if_neg h3, HM.bind_def, HM.read_nat]
            simp only [hs.read (show pos + 8 + (leNat (readN t pos 4) - 8) ≤ flen by omega)]
            exact ⟨rfl, rfl⟩
    · rename_i h1
      simp only [Option.some.injEq] at hr
      refine .inr (.inr ⟨hr.symm, ?_⟩)
      rw [if_neg h1]
      exact HGives.pure _ _

theorem certLoop_len (b : Bytes) (tableEnd : Nat) : ∀ (fuel pos : Nat) (es : List CertEntry) (e : Option Exc),
    certLoop b tableEnd fuel pos = some (es, e) → es = [] ∨ es.length + pos ≤ b.length := by
  intro fuel
  induction fuel with
  | zero => intro pos es e h; simp [certLoop] at h
  | succ fuel ih =>
    intro pos es e h
    rcases certLoop_step b tableEnd fuel pos with ⟨_, h2⟩ | ⟨_, x, _, h2, _⟩ | ⟨_, h2, h3, _, h5⟩
    · rw [h2] at h; simp only [Option.some.injEq, Prod.mk.injEq] at h; exact .inl h.1.symm
    · rw [h2] at h; simp only [Option.some.injEq, Prod.mk.injEq] at h; exact .inl h.1.symm
    · rw [h5] at h
      split at h
      · cases h
      · rename_i es' e' hl
        simp only [Option.some.injEq, Prod.mk.injEq] at h
        obtain ⟨rfl, rfl⟩ := h
        right
        rcases ih _ _ _ hl with rfl | hle
        · simp only [List.length_cons, List.length_nil]; omega
        · simp only [List.length_cons]; omega

theorem certLoop_some (b : Bytes) (tableEnd : Nat) : ∀ (fuel pos : Nat), b.length < pos + fuel → 0 < fuel →
    ∃ r, certLoop b tableEnd fuel pos = some r := by
  intro fuel
  induction fuel with
  | zero => intro pos _ h; omega
  | succ fuel ih =>
    intro pos hf _
    rcases certLoop_step b tableEnd fuel pos with ⟨_, h2⟩ | ⟨_, x, _, h2, _⟩ | ⟨_, h2, h3, _, h5⟩
    · exact ⟨_, h2⟩
    · exact ⟨_, h2⟩
    · obtain ⟨r, hr⟩ := ih (pos + (Spec.leAt b pos 4 + (8 - Spec.leAt b pos 4 % 8) % 8)) (by omega) (by omega)
      rw [hr] at h5
      exact ⟨_, h5⟩

theorem CertRep.len {b : Bytes} {g : CertGen} {es : List CertEntry} {e : Option Exc} (h : CertRep b g (es, e)) :
    es.length ≤ b.length := by
  cases g with
  | start =>
    replace h : _ = parseCertTable b := h
    unfold parseCertTable parseCertTableN at h
    split at h
    · simp only [Option.getD_some, Prod.mk.injEq] at h; rw [h.1]; simp
    · simp only [Option.getD_some, Prod.mk.injEq] at h; rw [h.1]; simp
    · split at h
      · simp only [Option.getD_some, Prod.mk.injEq] at h; rw [h.1]; simp
      · rename_i t _
        obtain ⟨r, hr⟩ := certLoop_some b (t.start + t.length) (b.length + 1) t.start (by omega) (by omega)
        rw [hr] at h
        simp only [Option.getD_some] at h
        subst h
        rcases certLoop_len _ _ _ _ _ _ hr with rfl | hle
        · simp
        · omega
  | suspended p l t =>
    obtain ⟨_, fuel, hf⟩ := h
    rcases certLoop_len _ _ _ _ _ _ hf with rfl | hle
    · simp
    · omega
  | finished => unfold CertRep at h; simp only [Prod.mk.injEq] at h; rw [h.1]; simp

/-- One step of the generator `_parse_cert_table()`. -/
theorem CertGen.run_gives {b t : Bytes} {flen : Nat} (hs : Seen b flen t) {g : CertGen} {r : Gen CertEntry} (h : CertRep t g r) :
    (∃ c l e g', r = (c :: l, e) ∧ HGives b (g.run flen) (.ok (some (c, g'))) ∧ CertRep t g' (l, e)) ∨
    (∃ e, r = ([], some e) ∧ HGives b (g.run flen) (.error e)) ∨
    (r = ([], none) ∧ HGives b (g.run flen) (.ok none)) := by
  cases g with
  | start =>
    have ho := hs.omit
    replace h : _ = parseCertTable t := h
    unfold parseCertTable parseCertTableN at h
    have hrun : ∀ s, HGives b (do
        match ← omitSectionsH flen with
        | none => HM.raise ⟨.signedPEParseError, "The PE file does not contain a certificate table."⟩
        | some locations =>
          match locations.get? "certtable" with
          | none => HM.raise ⟨.signedPEParseError, "The PE file does not contain a certificate table."⟩
          | some t' => certWhileH flen (t'.start + t'.length) t'.start) s → HGives b (CertGen.run flen .start) s :=
      fun _ h => h
    split at h
    · rename_i e hg
      rw [hg] at ho
      exact .inr (.inl ⟨e, h, hrun _ (HGives.bind_error ho)⟩)
    · rename_i hg
      rw [hg] at ho
      exact .inr (.inl ⟨_, h, hrun _ (HGives.bind_ok ho (HGives.raise _ _))⟩)
    · rename_i loc hg
      rw [hg] at ho
      split at h
      · rename_i ht
        refine .inr (.inl ⟨_, h, hrun _ (HGives.bind_ok ho ?_)⟩)
        simp only [ht]
        exact HGives.raise _ _
      · rename_i t' ht
        obtain ⟨r', hr⟩ := certLoop_some t (t'.start + t'.length) (t.length + 1) t'.start (by omega) (by omega)
        have hr' : r = r' := by rw [hr] at h; exact h
        subst hr'
        have fin : ∀ s, HGives b (certWhileH flen (t'.start + t'.length) t'.start) s →
            HGives b (CertGen.run flen .start) s := by
          intro s hs
          refine hrun _ (HGives.bind_ok ho ?_)
          simp only [ht]
          exact hs
        rcases certWhileH_gives hs (getOmit_certtable hg ht) hr with ⟨c, l, e, g, h1, h2, h3⟩ | ⟨e, h1, h2⟩ | ⟨h1, h2⟩
        · exact .inl ⟨c, l, e, g, h1, fin _ h2, h3⟩
        · exact .inr (.inl ⟨e, h1, fin _ h2⟩)
        · exact .inr (.inr ⟨h1, fin _ h2⟩)
  | suspended p l te =>
    obtain ⟨hend, fuel, hf⟩ := h
    unfold CertGen.run
    exact certWhileH_gives hs hend hf
  | finished =>
    unfold CertRep at h
    unfold CertGen.run
    exact .inr (.inr ⟨h, HGives.pure _ _⟩)

theorem recursiveNested_cons (nested : Bool) (a : ASD) : ∃ x q, recursiveNested nested a = x :: q := by
  unfold recursiveNested
  split
  · cases a with
    | mk d n => exact ⟨_, _, by rw [ASD.preorder]⟩
  · exact ⟨_, _, rfl⟩

/-- The generator `iter_signed_datas(...)` still has the values `r.1` to give before its `except` clause sees `r.2`. -/
def SdRep (cd : Codec) (b : Bytes) (nested : Bool) : SdGen → Gen ASD → Prop
  | .start, r => r = signedDatasLoop cd nested (parseCertTable b).2 (parseCertTable b).1 false
  | .suspended certs queue, r => ∃ l e, CertRep b certs (l, e) ∧
      r = (queue ++ (signedDatasLoop cd nested e l true).1, (signedDatasLoop cd nested e l true).2)
  | .finished, r => r = ([], none)

theorem sdPullH_gives (cd : Codec) {b t : Bytes} {flen : Nat} (hs : Seen b flen t) (nested : Bool) : ∀ (fuel : Nat) (certs : CertGen) (found : Bool)
    (l : List CertEntry) (e : Option Exc), CertRep t certs (l, e) → l.length < fuel →
    (∃ x m e' g, signedDatasLoop cd nested e l found = (x :: m, e') ∧
      HGives b (sdPullH cd flen nested fuel certs found) (.ok (some (x, g))) ∧ SdRep cd t nested g (m, e')) ∨
    (∃ e', signedDatasLoop cd nested e l found = ([], some e') ∧
      HGives b (sdPullH cd flen nested fuel certs found) (.error e')) ∨
    (signedDatasLoop cd nested e l found = ([], none) ∧
      HGives b (sdPullH cd flen nested fuel certs found) (.ok none)) := by
  intro fuel
  induction fuel with
  | zero => intro _ _ l _ _ h; omega
  | succ fuel ih =>
    intro certs found l e hrep hlen
    unfold sdPullH
    rcases CertGen.run_gives hs hrep with ⟨c, l', e', g', h1, h2, h3⟩ | ⟨e', h1, h2⟩ | ⟨h1, h2⟩
    · simp only [Prod.mk.injEq] at h1
      obtain ⟨rfl, rfl⟩ := h1
      unfold signedDatasLoop
      by_cases hrev : c.revision ≠ 0x200
      · rw [if_pos hrev]
        refine .inr (.inl ⟨_, rfl, HGives.bind_ok h2 ?_⟩)
        simp only
        rw [if_pos hrev]
        exact HGives.raise _ _
      · rw [if_neg hrev]
        by_cases hty : c.type = 2
        · rw [if_pos hty]
          cases hf : fromEnvelope cd c.certificate with
          | error x =>
            refine .inr (.inl ⟨x, rfl, HGives.bind_ok h2 ?_⟩)
            simp only
            rw [if_neg hrev, if_pos hty, hf]
            exact HGives.bind_error (HGives.lift _ _)
          | ok a =>
            obtain ⟨x, q, hq⟩ := recursiveNested_cons nested a
            refine .inl ⟨x, q ++ (signedDatasLoop cd nested e l' true).1, (signedDatasLoop cd nested e l' true).2,
              .suspended g' q, ?_, HGives.bind_ok h2 ?_, l', e, h3, rfl⟩
            · simp only [hq, List.cons_append]
            · simp only
              rw [if_neg hrev, if_pos hty, hf]
              refine HGives.bind_ok (HGives.lift _ _) ?_
              rw [hq]
              exact HGives.pure _ _
        · rw [if_neg hty]
          simp only [List.length_cons] at hlen
          have fin : ∀ s, HGives b (sdPullH cd flen nested fuel g' found) s →
              HGives b (do
                match ← certs.run flen with
                | none =>
                  if !found then HM.raise ⟨.signedPEParseError, "A SignedData structure was not found"⟩ else pure none
                | some (c, certs) =>
                  if c.revision ≠ 0x200 then HM.raise ⟨.signedPEParseError, "Unknown certificate revision"⟩
                  else if c.type = 2 then do
                    let a ← HM.lift (fromEnvelope cd c.certificate)
                    match recursiveNested nested a with
                    | x :: queue => pure (some (x, .suspended certs queue))
                    | [] => sdPullH cd flen nested fuel certs true
                  else sdPullH cd flen nested fuel certs found) s := by
            intro s hx
            refine HGives.bind_ok h2 ?_
            simp only
            rw [if_neg hrev, if_neg hty]
            exact hx
          rcases ih g' found l' e h3 (by omega) with ⟨x, m, e'', g, i1, i2, i3⟩ | ⟨e'', i1, i2⟩ | ⟨i1, i2⟩
          · exact .inl ⟨x, m, e'', g, i1, fin _ i2, i3⟩
          · exact .inr (.inl ⟨e'', i1, fin _ i2⟩)
          · exact .inr (.inr ⟨i1, fin _ i2⟩)
    · simp only [Prod.mk.injEq] at h1
      obtain ⟨rfl, rfl⟩ := h1
      exact .inr (.inl ⟨e', rfl, HGives.bind_error h2⟩)
    · simp only [Prod.mk.injEq] at h1
      obtain ⟨rfl, rfl⟩ := h1
      cases found with
      | false => exact .inr (.inl ⟨_, rfl, HGives.bind_ok h2 (HGives.raise _ _)⟩)
      | true => exact .inr (.inr ⟨rfl, HGives.bind_ok h2 (HGives.pure _ _)⟩)

/-- The effect of the `except` clause of `iter_signed_datas`. -/
def sdFinish (ignore : Bool) (r : Gen ASD) : Gen ASD :=
  match r.2 with
  | some e => if e.is .signedPEParseError && ignore then (r.1, none) else (r.1, some e)
  | none => (r.1, none)

/-- The generator still has the values `q.1` to give and then stops with `q.2`. -/
def SdLeft (cd : Codec) (b : Bytes) (nested ignore : Bool) (g : SdGen) (q : Gen ASD) : Prop :=
  ∃ r, SdRep cd b nested g r ∧ q = sdFinish ignore r

theorem SdLeft.start (cd : Codec) (b : Bytes) (nested ignore : Bool) :
    SdLeft cd b nested ignore .start (iterSignedDatas cd b nested ignore) := by
  refine ⟨_, rfl, ?_⟩
  unfold iterSignedDatas sdFinish
  rfl

theorem SdLeft.finished (cd : Codec) (b : Bytes) (nested ignore : Bool) : SdLeft cd b nested ignore .finished ([], none) :=
  ⟨_, rfl, rfl⟩

theorem sdFinish_cons (ignore : Bool) (x : ASD) (t : List ASD) (e : Option Exc) :
    sdFinish ignore (x :: t, e) = (x :: (sdFinish ignore (t, e)).1, (sdFinish ignore (t, e)).2) := by
  unfold sdFinish
  cases e with
  | none => rfl
  | some e =>
    simp only
    split <;> rfl

theorem sdCatch_gives {b t' : Bytes} {cd : Codec} {nested ignore : Bool} {p : HM (Option (ASD × SdGen))} {r : Gen ASD}
    (h : (∃ x t e' g, r = (x :: t, e') ∧ HGives b p (.ok (some (x, g))) ∧ SdRep cd t' nested g (t, e')) ∨
      (∃ e', r = ([], some e') ∧ HGives b p (.error e')) ∨ (r = ([], none) ∧ HGives b p (.ok none))) :
    (∃ x t e g', sdFinish ignore r = (x :: t, e) ∧ HGives b (sdCatch ignore p) (.ok (some (x, g'))) ∧
      SdLeft cd t' nested ignore g' (t, e)) ∨
    (∃ e, sdFinish ignore r = ([], some e) ∧ HGives b (sdCatch ignore p) (.error e)) ∨
    (sdFinish ignore r = ([], none) ∧ HGives b (sdCatch ignore p) (.ok none)) := by
  rcases h with ⟨x, t, e', g, rfl, h2, h3⟩ | ⟨e', rfl, h2⟩ | ⟨rfl, h2⟩
  · exact .inl ⟨x, _, _, g, sdFinish_cons _ _ _ _, HGives.tryCatch_ok h2, _, h3, rfl⟩
  · by_cases hc : (e'.is .signedPEParseError && ignore) = true
    · refine .inr (.inr ⟨?_, HGives.tryCatch_error h2 ?_⟩)
      · unfold sdFinish; simp only; rw [if_pos hc]
      · rw [if_pos hc]; exact HGives.pure _ _
    · refine .inr (.inl ⟨e', ?_, HGives.tryCatch_error h2 ?_⟩)
      · unfold sdFinish; simp only; rw [if_neg hc]
      · rw [if_neg hc]; exact HGives.raise _ _
  · exact .inr (.inr ⟨rfl, HGives.tryCatch_ok h2⟩)

theorem SdGen.run_gives {cd : Codec} {b t' : Bytes} {flen : Nat} (hs : Seen b flen t') {nested ignore : Bool} {g : SdGen} {q : Gen ASD}
    (h : SdLeft cd t' nested ignore g q) :
    (∃ x t e g', q = (x :: t, e) ∧ HGives b (g.run cd flen nested ignore) (.ok (some (x, g'))) ∧
      SdLeft cd t' nested ignore g' (t, e)) ∨
    (∃ e, q = ([], some e) ∧ HGives b (g.run cd flen nested ignore) (.error e)) ∨
    (q = ([], none) ∧ HGives b (g.run cd flen nested ignore) (.ok none)) := by
  obtain ⟨r, hr, rfl⟩ := h
  cases g with
  | start =>
    replace hr : r = signedDatasLoop cd nested (parseCertTable t').2 (parseCertTable t').1 false := hr
    subst hr
    have hrep : CertRep t' .start ((parseCertTable t').1, (parseCertTable t').2) := rfl
    exact sdCatch_gives (sdPullH_gives cd hs nested (flen + 2) .start false _ _ hrep (by have := hrep.len; have := hs.len; omega))
  | suspended certs queue =>
    obtain ⟨l, e, hrep, rfl⟩ := hr
    cases queue with
    | nil =>
      exact sdCatch_gives (sdPullH_gives cd hs nested (flen + 2) certs true l e hrep (by have := hrep.len; have := hs.len; omega))
    | cons x queue =>
      exact .inl ⟨x, _, _, .suspended certs queue, sdFinish_cons _ _ _ _, HGives.pure _ _, _, ⟨l, e, hrep, rfl⟩, rfl⟩
  | finished =>
    replace hr : r = ([], none) := hr
    subst hr
    exact .inr (.inr ⟨rfl, HGives.pure _ _⟩)

/-- What is left of an iteration after one request. -/
def genTail {α : Type} (q : Gen α) : Gen α :=
  match q with
  | (_ :: t, e) => (t, e)
  | ([], _) => ([], none)

theorem SdGen.next_gives {cd : Codec} {b t' : Bytes} {flen : Nat} (hs : Seen b flen t') {nested ignore : Bool} {g : SdGen} {q : Gen ASD}
    (hl : SdLeft cd t' nested ignore g q) {h : Handle} (hb : h.bytes = b) :
    ∃ g' h', g.next cd flen nested ignore h = (Spec.answer q 0, g', h') ∧ h'.bytes = b ∧
      SdLeft cd t' nested ignore g' (genTail q) := by
  unfold SdGen.next
  rcases SdGen.run_gives hs hl with ⟨x, t, e, g', rfl, h2, h3⟩ | ⟨e, rfl, h2⟩ | ⟨rfl, h2⟩
  · obtain ⟨k1, k2⟩ := h2 h hb
    cases hr : g.run cd flen nested ignore h with
    | mk r h' =>
      rw [hr] at k1 k2
      simp only at k1 k2
      subst k1
      exact ⟨g', h', rfl, k2, h3⟩
  · obtain ⟨k1, k2⟩ := h2 h hb
    cases hr : g.run cd flen nested ignore h with
    | mk r h' =>
      rw [hr] at k1 k2
      simp only at k1 k2
      subst k1
      exact ⟨.finished, h', rfl, k2, SdLeft.finished _ _ _ _⟩
  · obtain ⟨k1, k2⟩ := h2 h hb
    cases hr : g.run cd flen nested ignore h with
    | mk r h' =>
      rw [hr] at k1 k2
      simp only at k1 k2
      subst k1
      exact ⟨.finished, h', rfl, k2, SdLeft.finished _ _ _ _⟩

theorem answer_succ {α : Type} (q : Gen α) (k : Nat) : Spec.answer q (k + 1) = Spec.answer (genTail q) k := by
  obtain ⟨l, e⟩ := q
  cases l with
  | nil =>
    unfold Spec.answer genTail
    simp
  | cons x t =>
    unfold Spec.answer genTail
    simp

theorem play_gives (cd : Codec) {t' : Bytes} {flen : Nat} (opts : Nat → Bool × Bool) : ∀ (acts : List FileAct) (gens : Nat → SdGen)
    (h : Handle) (q : Nat → Gen ASD), Seen h.bytes flen t' → (∀ b, .write b ∈ acts → Seen b flen t') →
    (∀ i, SdLeft cd t' (opts i).1 (opts i).2 (gens i) (q i)) →
    ∀ i, Spec.answersOf i (play cd flen opts acts gens h) = (List.range (Spec.requests i acts)).map (Spec.answer (q i)) := by
  intro acts
  induction acts with
  | nil => intros; rfl
  | cons a acts ih =>
    intro gens h q hs hw hq i
    have hw' : ∀ b, .write b ∈ acts → Seen b flen t' := fun b hb => hw b (List.mem_cons_of_mem _ hb)
    cases a with
    | move p =>
      unfold play
      rw [ih gens _ q (by exact hs) hw' hq i]
      simp [Spec.requests]
    | write b =>
      unfold play
      rw [ih gens _ q (hw b (List.mem_cons_self ..)) hw' hq i]
      simp [Spec.requests]
    | next j =>
      unfold play
      obtain ⟨g', h', h1, h2, h3⟩ := SdGen.next_gives hs (hq j) (h := h) rfl
      rw [h1]
      simp only
      have hq' : ∀ i, SdLeft cd t' (opts i).1 (opts i).2 (if i = j then g' else gens i) (if i = j then genTail (q j) else q i) := by
        intro i
        by_cases hij : i = j
        · subst hij; simp only [if_true]; exact h3
        · simp only [if_neg hij]; exact hq i
      have := ih (fun i => if i = j then g' else gens i) h' (fun i => if i = j then genTail (q j) else q i) (by rw [h2]; exact hs) hw' hq' i
      by_cases hij : j = i
      · subst hij
        have e1 : Spec.requests j (.next j :: acts) = Spec.requests j acts + 1 := by simp [Spec.requests]
        rw [e1, List.range_succ_eq_map]
        simp only [List.map_cons, List.map_map]
        simp only [if_true] at this
        have e2 : (Spec.answer (q j) ∘ Nat.succ) = Spec.answer (genTail (q j)) := by
          funext k; exact answer_succ _ _
        rw [e2, ← this]
        simp [Spec.answersOf]
      · have e1 : Spec.requests i (.next j :: acts) = Spec.requests i acts := by simp [Spec.requests, hij]
        rw [e1]
        simp only [if_neg (show ¬ i = j from fun h => hij h.symm)] at this
        rw [← this]
        simp [Spec.answersOf, hij]

theorem drainH_gives (cd : Codec) {b t' : Bytes} {flen : Nat} (hs : Seen b flen t') (nested ignore : Bool) : ∀ (fuel : Nat) (g : SdGen) (q : Gen ASD) (h : Handle),
    h.bytes = b → SdLeft cd t' nested ignore g q → q.1.length < fuel →
    (SdGen.drainH cd flen nested ignore fuel g h).1 = some q ∧
    (SdGen.drainH cd flen nested ignore fuel g h).2.bytes = b := by
  intro fuel
  induction fuel with
  | zero => intro _ _ _ _ _ h; omega
  | succ fuel ih =>
    intro g q h hb hl hlen
    unfold SdGen.drainH
    obtain ⟨g', h', h1, h2, h3⟩ := SdGen.next_gives hs hl hb
    rw [h1]
    obtain ⟨l, e⟩ := q
    cases l with
    | nil =>
      cases e with
      | none => exact ⟨rfl, h2⟩
      | some e => exact ⟨rfl, h2⟩
    | cons x t =>
      simp only [List.length_cons] at hlen
      obtain ⟨i1, i2⟩ := ih g' (t, e) h' h2 h3 (by simp only; omega)
      have : Spec.answer (x :: t, e) 0 = .ok (some x) := rfl
      rw [this]
      simp only
      cases hd : SdGen.drainH cd flen nested ignore fuel g' h' with
      | mk r h'' =>
        rw [hd] at i1 i2
        simp only at i1 i2
        subst i1
        exact ⟨rfl, i2⟩

/-! ### Hashing -/

theorem seek_read_int (b : Bytes) (start n : Int) : HGives b (do HM.seek start; HM.read n) (readAt b start n) := by
  intro h hb
  rw [HM.bind_def]
  unfold HM.seek readAt
  by_cases hs : start < 0
  · rw [if_pos hs, if_pos hs]; exact ⟨rfl, hb⟩
  · rw [if_neg hs, if_neg hs]
    subst hb
    simp only [HM.read]
    refine ⟨?_, trivial⟩
    split <;> rfl

theorem FP.stepH_gives (fp : FP) {h : Handle} (hb : h.bytes = fp.file) :
    (fp.stepH h).1 = fp.step ∧ (fp.stepH h).2.bytes = fp.file := by
  unfold FP.stepH FP.step
  cases hn : nextInterval fp.blockSize fp.fingers fp.heap with
  | none => exact ⟨rfl, hb⟩
  | some iv =>
    simp only
    obtain ⟨h1, h2⟩ := seek_read_int fp.file iv.start (iv.stop - iv.start) h hb
    cases hr : (do HM.seek iv.start; HM.read (iv.stop - iv.start) : HM Bytes) h with
    | mk r h' =>
      rw [hr] at h1 h2
      simp only at h1 h2
      rw [← h1]
      cases r with
      | error e => exact ⟨rfl, h2⟩
      | ok block =>
        simp only
        split
        · exact ⟨rfl, h2⟩
        · split
          · rename_i hx; rw [hx]; exact ⟨rfl, h2⟩
          · rename_i hx; rw [hx]
            simp only
            split
            · rename_i hy; rw [hy]; exact ⟨rfl, h2⟩
            · rename_i hy; rw [hy]; exact ⟨rfl, h2⟩

theorem FP.step_file {fp fp' : FP} {iv : Range} (h : fp.step = .next iv fp') : fp'.file = fp.file := by
  unfold FP.step at h
  repeat' split at h
  all_goals first | cases h | skip
  rfl

theorem FP.loopH_gives : ∀ (n : Nat) (fp : FP) (h : Handle), h.bytes = fp.file →
    (fp.loopH n h).1 = fp.loop n ∧ (fp.loopH n h).2.bytes = fp.file := by
  intro n
  induction n with
  | zero => intro fp h hb; exact ⟨rfl, hb⟩
  | succ n ih =>
    intro fp h hb
    obtain ⟨h1, h2⟩ := FP.stepH_gives fp hb
    unfold FP.loopH FP.loop
    cases hr : fp.stepH h with
    | mk r h' =>
      rw [hr] at h1 h2
      simp only at h1 h2
      rw [← h1]
      cases r with
      | done => exact ⟨rfl, h2⟩
      | raised e fp' => exact ⟨rfl, h2⟩
      | next iv fp' =>
        have hf := FP.step_file h1.symm
        obtain ⟨i1, i2⟩ := ih fp' h' (by rw [h2, hf])
        exact ⟨i1, by rw [← hf]; exact i2⟩

theorem FP.hashesH_gives (H : String → Bytes → Bytes) (n : Nat) (fp : FP) (h : Handle) (hb : h.bytes = fp.file) :
    (fp.hashesH H n h).1 = fp.hashes H n ∧ (fp.hashesH H n h).2.bytes = fp.file := by
  obtain ⟨h1, h2⟩ := FP.loopH_gives n fp h hb
  unfold FP.hashesH FP.hashes
  cases hr : fp.loopH n h with
  | mk r h' =>
    rw [hr] at h1 h2
    simp only at h1 h2
    rw [← h1]
    match r with
    | none => exact ⟨rfl, h2⟩
    | some (fp', some e) => exact ⟨rfl, h2⟩
    | some (fp', none) =>
      simp only
      cases collect H fp'.filelength fp'.heap fp'.fingers [] with
      | error e => exact ⟨rfl, h2⟩
      | ok res => exact ⟨rfl, h2⟩

theorem openOmit_gives (b : Bytes) : HGives b (do let flen ← openLength; omitSectionsH flen) (getOmit b) :=
  HGives.bind_ok (openLength_gives b) (omitSectionsH_gives b)

theorem FP.addAuthenticodeHashersH_gives (fp : FP) (algs : List String) (h : Handle) (hb : h.bytes = fp.file) :
    ∃ h', fp.addAuthenticodeHashersH algs h = ((fp.addAuthenticodeHashers algs).1, (fp.addAuthenticodeHashers algs).2, h') ∧
      h'.bytes = fp.file := by
  obtain ⟨h1, h2⟩ := openOmit_gives fp.file h hb
  unfold FP.addAuthenticodeHashersH FP.addAuthenticodeHashers
  cases hr : (do let flen ← openLength; omitSectionsH flen : HM (Option (Dict String RelRange))) h with
  | mk r h' =>
    rw [hr] at h1 h2
    simp only at h1 h2
    rw [← h1]
    match r with
    | .error e => exact ⟨h', rfl, h2⟩
    | .ok none => exact ⟨h', rfl, h2⟩
    | .ok (some om) => exact ⟨h', rfl, h2⟩

/-- What the byte-level model computes for `fp = pe.get_fingerprinter(); fp.add_authenticode_hashers(*algs); fp.hashes()`. -/
def authentihashes (env : Env) (b : Bytes) (algs : List String) : Except Exc Hashes :=
  match (FP.new b).addAuthenticodeHashers algs with
  | (.error e, _) => .error e
  | (.ok _, fp) => hashesOf env fp

theorem FP.addHashers_file (fp : FP) (hs : List String) (r : Option Nat) (d : String) : (fp.addHashers hs r d).file = fp.file := by
  unfold FP.addHashers
  cases r with
  | none => rfl
  | some r =>
    simp only
    split <;> rfl

theorem FP.addAuthenticodeHashers_file (fp : FP) (algs : List String) : (fp.addAuthenticodeHashers algs).2.file = fp.file := by
  unfold FP.addAuthenticodeHashers
  split
  · rfl
  · rfl
  · exact FP.addHashers_file _ _ _ _

theorem authentihashesH_gives (env : Env) (b : Bytes) (algs : List String) :
    HGives b (authentihashesH env algs) (authentihashes env b algs) := by
  intro h hb
  unfold authentihashesH authentihashes newFingerprinterH
  obtain ⟨h1, h2⟩ := openLength_gives b h hb
  cases hr : openLength h with
  | mk r h0 =>
    rw [hr] at h2
    simp only at h2
    simp only [h2]
    obtain ⟨h', i1, i2⟩ := FP.addAuthenticodeHashersH_gives (FP.new b) algs h0 h2
    have hfile := FP.addAuthenticodeHashers_file (FP.new b) algs
    rw [i1]
    cases ha : (FP.new b).addAuthenticodeHashers algs with
    | mk r1 fp =>
      rw [ha] at hfile
      simp only at hfile ⊢
      cases r1 with
      | error e => exact ⟨rfl, i2⟩
      | ok v =>
        simp only
        obtain ⟨j1, j2⟩ := FP.hashesH_gives env.hash (fp.file.length + 10) fp h' (by rw [i2, hfile])
        unfold hashesOf
        cases hh : fp.hashesH env.hash (fp.file.length + 10) h' with
        | mk r2 h'' =>
          rw [hh] at j1 j2
          simp only at j1 j2
          rw [← j1]
          cases r2 with
          | none => exact ⟨rfl, by rw [j2, hfile]; rfl⟩
          | some x => exact ⟨rfl, by rw [j2, hfile]; rfl⟩

theorem computeExpectedH_gives (env : Env) (b : Bytes) (alg : String) :
    HGives b (computeExpectedH env alg) (computeExpected env (some b) alg) := by
  have := authentihashesH_gives env b [alg]
  unfold computeExpectedH computeExpected
  unfold authentihashes at this
  simp only
  cases ha : (FP.new b).addAuthenticodeHashers [alg] with
  | mk r fp =>
    rw [ha] at this
    cases r with
    | error e => exact HGives.bind_error this
    | ok v =>
      simp only at this ⊢
      cases hh : hashesOf env fp with
      | error e =>
        rw [hh] at this
        exact HGives.bind_error (e := e) this
      | ok res =>
        rw [hh] at this
        refine HGives.bind_ok this ?_
        show HGives b _ (match res with
          | [(_, ds)] =>
            match ds.get? alg with
            | some d => .ok d
            | none => .error ⟨.keyError, alg⟩
          | _ => .error ⟨.runtimeError, "Can't return a single hash, use hashes() instead"⟩)
        match res with
        | [] => exact HGives.raise _ _
        | [(_, ds)] =>
          simp only
          cases ds.get? alg with
          | none => exact HGives.raise _ _
          | some d => exact HGives.pure _ _
        | _ :: _ :: _ => exact HGives.raise _ _

theorem neededHashesH_gives (env : Env) (b : Bytes) (algs : List String) (provided : Dict String Bytes) :
    HGives b (neededHashesH env algs provided) (neededHashes env b algs provided) := by
  unfold neededHashesH neededHashes
  simp only
  split
  · exact HGives.raise _ _
  · split
    · exact HGives.pure _ _
    · have := authentihashesH_gives env b ((dedupNames algs).filter (fun a => (provided.get? a).isNone))
      unfold authentihashes at this
      cases ha : (FP.new b).addAuthenticodeHashers ((dedupNames algs).filter (fun a => (provided.get? a).isNone)) with
      | mk r fp =>
        rw [ha] at this
        cases r with
        | error e => exact HGives.bind_error this
        | ok v =>
          simp only at this ⊢
          cases hh : hashesOf env fp with
          | error e =>
            rw [hh] at this
            exact HGives.bind_error this
          | ok res =>
            rw [hh] at this
            refine HGives.bind_ok this ?_
            show HGives b _ (match res.get? "authentihash" with
              | none => .error ⟨.keyError, "authentihash"⟩
              | some ds => .ok ds)
            cases res.get? "authentihash" with
            | none => exact HGives.raise _ _
            | some d => exact HGives.pure _ _

theorem peVerifyH_gives (env : Env) (cd : Codec) (b : Bytes) (fuel : Nat) (args : PEVerifyArgs) (h : Handle) (w : World)
    (hb : h.bytes = b) (hf : (iterSignedDatas cd b true args.ignoreParseErrors).1.length < fuel) :
    (peVerifyH env cd b.length fuel args h w).1 = peVerify env cd b args w ∧
    (peVerifyH env cd b.length fuel args h w).2.bytes = b := by
  obtain ⟨d1, d2⟩ := drainH_gives cd (Seen.self b) true args.ignoreParseErrors fuel .start _ h hb (SdLeft.start cd b true _) hf
  unfold peVerifyH verifyListed peVerify
  cases hd : SdGen.drainH cd b.length true args.ignoreParseErrors fuel .start h with
  | mk r h1 =>
    rw [hd] at d1 d2
    simp only at d1 d2
    subst d1
    simp only
    cases hl : (iterSignedDatas cd b true args.ignoreParseErrors).toList with
    | error e => exact ⟨rfl, d2⟩
    | ok sds =>
      simp only
      rw [show (do
          let sds ← M.lift (Except.ok sds : Except Exc (List ASD))
          if sds.isEmpty = true then M.raise ⟨.authenticodeNotSigned, "No valid SignedData structure was found."⟩
          else
            let sel := selectSignatures args.multiVerifyMode sds
            let hashes ← calculateExpectedHashes env b (sel.map (fun a => a.d.core.digestAlg)) args.expectedHashes
            verifyLoop (verifyOne env b hashes args.kwargs) args.multiVerifyMode sel [] none :
          M (List (ASD × List (List Cert)))) w = (if sds.isEmpty = true then
            (M.raise ⟨.authenticodeNotSigned, "No valid SignedData structure was found."⟩ : M (List (ASD × List (List Cert))))
          else do
            let hashes ← calculateExpectedHashes env b ((selectSignatures args.multiVerifyMode sds).map
              (fun a => a.d.core.digestAlg)) args.expectedHashes
            verifyLoop (verifyOne env b hashes args.kwargs) args.multiVerifyMode
              (selectSignatures args.multiVerifyMode sds) [] none) w from rfl]
      split
      · exact ⟨rfl, d2⟩
      · unfold calculateExpectedHashes
        cases hx : args.expectedHashes with
        | none =>
          simp only
          obtain ⟨n1, n2⟩ := neededHashesH_gives env b ((selectSignatures args.multiVerifyMode sds).map
            (fun a => a.d.core.digestAlg)) [] h1 d2
          cases hn : neededHashesH env ((selectSignatures args.multiVerifyMode sds).map
            (fun a => a.d.core.digestAlg)) [] h1 with
          | mk r2 h2 =>
            rw [hn] at n1 n2
            simp only at n1 n2
            rw [← n1]
            cases r2 with
            | error e => exact ⟨rfl, n2⟩
            | ok more =>
              simp only
              rw [n2]
              exact ⟨rfl, rfl⟩
        | some i =>
          simp only
          obtain ⟨n1, n2⟩ := neededHashesH_gives env b ((selectSignatures args.multiVerifyMode sds).map
            (fun a => a.d.core.digestAlg)) (w.dicts i) h1 d2
          have step : ((do
              let hashes ← (do
                let d ← M.getDict i
                let more ← M.lift (neededHashes env b ((selectSignatures args.multiVerifyMode sds).map
                  (fun a => a.d.core.digestAlg)) d)
                M.setDict i (d.update more)
                pure (d.update more))
              verifyLoop (verifyOne env b hashes args.kwargs) args.multiVerifyMode
                (selectSignatures args.multiVerifyMode sds) [] none : M (List (ASD × List (List Cert)))) w) =
              (match neededHashes env b ((selectSignatures args.multiVerifyMode sds).map
                (fun a => a.d.core.digestAlg)) (w.dicts i) with
              | .error e => (.error e, w)
              | .ok more => verifyLoop (verifyOne env b ((w.dicts i).update more) args.kwargs) args.multiVerifyMode
                (selectSignatures args.multiVerifyMode sds) [] none (M.setDict i ((w.dicts i).update more) w).2) := by
            cases hq : neededHashes env b ((selectSignatures args.multiVerifyMode sds).map
                (fun a => a.d.core.digestAlg)) (w.dicts i) with
            | error e =>
              simp only [M.bind_run, M.getDict, hq]
              rfl
            | ok more =>
              simp only [M.bind_run, M.getDict, hq]
              rfl
          rw [step]
          cases hn : neededHashesH env ((selectSignatures args.multiVerifyMode sds).map
            (fun a => a.d.core.digestAlg)) (w.dicts i) h1 with
          | mk r2 h2 =>
            rw [hn] at n1 n2
            simp only at n1 n2
            rw [← n1]
            cases r2 with
            | error e => exact ⟨rfl, n2⟩
            | ok more =>
              simp only
              rw [n2]
              exact ⟨rfl, rfl⟩

end Signify
