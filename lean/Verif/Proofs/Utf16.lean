/-
UTF-16: the decoder inverts the encoding, and accepts nothing else.
-/
import Verif.Spec.CtlFile

set_option autoImplicit false

namespace Signify

open Spec

theorem unitLE_toNat {u : Nat} (h : u < 65536) :
    (UInt8.ofNat (u % 256)).toNat + 256 * (UInt8.ofNat (u / 256)).toNat = u := by
  simp only [UInt8.toNat_ofNat']
  omega

theorem unitLE_of (a b : UInt8) : unitLE (a.toNat + 256 * b.toNat) = [a, b] := by
  have ha := a.toNat_lt
  have hb := b.toNat_lt
  unfold unitLE
  have h1 : (a.toNat + 256 * b.toNat) % 256 = a.toNat := by omega
  have h2 : (a.toNat + 256 * b.toNat) / 256 = b.toNat := by omega
  rw [h1, h2, UInt8.ofNat_toNat, UInt8.ofNat_toNat]

theorem char_toNat_ofNat {u : Nat} (h : u.isValidChar) : (Char.ofNat u).toNat = u := by
  rw [Char.ofNat, dif_pos h]
  rfl

theorem char_not_surrogate (c : Char) : ¬ (0xD800 ≤ c.toNat ∧ c.toNat < 0xE000) := by
  have := c.valid
  have h2 : c.toNat = c.val.toNat := rfl
  rw [h2]
  rcases this with h | ⟨h, -⟩ <;> omega

theorem char_lt (c : Char) : c.toNat < 0x110000 := by
  have := c.valid
  have h2 : c.toNat = c.val.toNat := rfl
  rw [h2]
  rcases this with h | ⟨-, h⟩ <;> omega

theorem utf16le_cons (a b : UInt8) (rest : Bytes) :
    utf16le (a :: b :: rest) =
      (if a.toNat + 256 * b.toNat < 0xD800 ∨ 0xE000 ≤ a.toNat + 256 * b.toNat then
        (match utf16le rest with
        | .error e => .error e
        | .ok cs => .ok (Char.ofNat (a.toNat + 256 * b.toNat) :: cs))
      else if 0xDC00 ≤ a.toNat + 256 * b.toNat then unicodeErr
      else
        match rest with
        | c :: d :: rest' =>
          if 0xDC00 ≤ c.toNat + 256 * d.toNat ∧ c.toNat + 256 * d.toNat < 0xE000 then
            match utf16le rest' with
            | .error e => .error e
            | .ok cs => .ok (Char.ofNat (0x10000 + (a.toNat + 256 * b.toNat - 0xD800) * 0x400 + (c.toNat + 256 * d.toNat - 0xDC00)) :: cs)
          else unicodeErr
        | _ => unicodeErr) := by
  match rest with
  | [] => rw [utf16le]; rfl
  | [c] => rw [utf16le]; rfl
  | c :: d :: rest' => rw [utf16le]; rfl

/-- One character is decoded. -/
theorem utf16le_char (c : Char) (rest : Bytes) :
    utf16le (utf16Char c ++ rest) = (match utf16le rest with | .error e => .error e | .ok cs => .ok (c :: cs)) := by
  have hs := char_not_surrogate c
  have hl := char_lt c
  unfold utf16Char
  split
  · rename_i h
    show utf16le (_ :: _ :: rest) = _
    rw [utf16le_cons]
    simp only [unitLE_toNat (show c.toNat < 65536 by omega)]
    rw [if_pos (by omega), Char.ofNat_toNat]
  · rename_i h
    show utf16le (_ :: _ :: _ :: _ :: rest) = _
    rw [utf16le_cons]
    simp only [unitLE_toNat (show 0xD800 + (c.toNat - 0x10000) / 0x400 < 65536 by omega),
      unitLE_toNat (show 0xDC00 + (c.toNat - 0x10000) % 0x400 < 65536 by omega)]
    rw [if_neg (by omega), if_neg (by omega), if_pos (by omega)]
    have e : 0x10000 + (0xD800 + (c.toNat - 0x10000) / 0x400 - 0xD800) * 0x400 + (0xDC00 + (c.toNat - 0x10000) % 0x400 - 0xDC00) =
        c.toNat := by omega
    rw [e, Char.ofNat_toNat]

theorem utf16le_encode (s : List Char) : utf16le (utf16 s) = .ok s := by
  induction s with
  | nil => rfl
  | cons c s ih =>
    show utf16le (utf16Char c ++ utf16 s) = _
    rw [utf16le_char, ih]

theorem utf16le_sound (n : Nat) (b : Bytes) (hn : b.length ≤ n) (cs : List Char) (h : utf16le b = .ok cs) : b = utf16 cs := by
  induction n generalizing b cs with
  | zero =>
    cases b with
    | nil => rw [utf16le] at h; cases h; rfl
    | cons _ _ => simp at hn
  | succ n ih =>
    match b, hn, h with
    | [], _, h => rw [utf16le] at h; cases h; rfl
    | [x], _, h => rw [utf16le] at h; cases h
    | a :: b :: rest, hn, h =>
      have ha := a.toNat_lt
      have hb := b.toNat_lt
      rw [utf16le_cons] at h
      simp only [List.length_cons] at hn
      split at h
      · rename_i hu
        cases hr : utf16le rest with
        | error e => rw [hr] at h; cases h
        | ok cs' =>
          rw [hr] at h
          cases h
          have hv : (a.toNat + 256 * b.toNat).isValidChar := by
            unfold Nat.isValidChar
            omega
          show a :: b :: rest = utf16Char _ ++ utf16 cs'
          rw [← ih rest (by omega) _ hr]
          unfold utf16Char
          rw [char_toNat_ofNat hv, if_pos (by omega), unitLE_of]
          rfl
      · rename_i hu
        split at h
        · cases h
        · rename_i hu2
          split at h
          · rename_i c d rest'
            have hc := c.toNat_lt
            have hd := d.toNat_lt
            simp only [List.length_cons] at hn
            split at h
            · rename_i hv
              cases hr : utf16le rest' with
              | error e => rw [hr] at h; cases h
              | ok cs' =>
                rw [hr] at h
                cases h
                have hvc : (0x10000 + (a.toNat + 256 * b.toNat - 0xD800) * 0x400 + (c.toNat + 256 * d.toNat - 0xDC00)).isValidChar := by
                  unfold Nat.isValidChar
                  omega
                show a :: b :: c :: d :: rest' = utf16Char _ ++ utf16 cs'
                rw [← ih rest' (by omega) _ hr]
                unfold utf16Char
                rw [char_toNat_ofNat hvc, if_neg (by omega)]
                have e1 : 0xD800 + (0x10000 + (a.toNat + 256 * b.toNat - 0xD800) * 0x400 + (c.toNat + 256 * d.toNat - 0xDC00) - 0x10000) / 0x400 =
                    a.toNat + 256 * b.toNat := by omega
                have e2 : 0xDC00 + (0x10000 + (a.toNat + 256 * b.toNat - 0xD800) * 0x400 + (c.toNat + 256 * d.toNat - 0xDC00) - 0x10000) % 0x400 =
                    c.toNat + 256 * d.toNat := by omega
                rw [e1, e2, unitLE_of, unitLE_of]
                rfl
            · cases h
          · cases h

theorem utf16le_iff (b : Bytes) (cs : List Char) : utf16le b = .ok cs ↔ b = utf16 cs :=
  ⟨utf16le_sound _ b (Nat.le_refl _) cs, fun h => by rw [h, utf16le_encode]⟩

theorem utf16_inj {a b : List Char} (h : utf16 a = utf16 b) : a = b := by
  have h1 := utf16le_encode a
  rw [h, utf16le_encode] at h1
  exact (Except.ok.inj h1).symm

theorem utf16le_error (n : Nat) (b : Bytes) (hn : b.length ≤ n) (e : Exc) (h : utf16le b = .error e) : e.cls = .valueError := by
  induction n generalizing b with
  | zero =>
    cases b with
    | nil => rw [utf16le] at h; cases h
    | cons _ _ => simp at hn
  | succ n ih =>
    match b, hn, h with
    | [], _, h => rw [utf16le] at h; cases h
    | [x], _, h => rw [utf16le] at h; cases h; rfl
    | a :: b :: rest, hn, h =>
      rw [utf16le_cons] at h
      simp only [List.length_cons] at hn
      split at h
      · cases hr : utf16le rest with
        | error e' => rw [hr] at h; cases h; exact ih rest (by omega) hr
        | ok cs' => rw [hr] at h; cases h
      · split at h
        · cases h; rfl
        · split at h
          · rename_i c d rest'
            simp only [List.length_cons] at hn
            split at h
            · cases hr : utf16le rest' with
              | error e' => rw [hr] at h; cases h; exact ih rest' (by omega) hr
              | ok cs' => rw [hr] at h; cases h
            · cases h; rfl
          · cases h; rfl

/-! ### trailing NULs -/

theorem dropWhile_replicate_append (s : List Char) (k : Nat) (z : Char) (h : s.head? ≠ some z) :
    (List.replicate k z ++ s).dropWhile (fun c => c == z) = s := by
  induction k with
  | zero =>
    cases s with
    | nil => rfl
    | cons c s =>
      have : (c == z) = false := by
        simp only [List.head?_cons, ne_eq, Option.some.injEq] at h
        simpa using h
      simp [this]
  | succ k ih => rw [List.replicate_succ, List.cons_append, List.dropWhile_cons_of_pos (by simp)]; exact ih

theorem dropWhile_split (s : List Char) (z : Char) :
    ∃ k, s = List.replicate k z ++ s.dropWhile (fun c => c == z) ∧ (s.dropWhile (fun c => c == z)).head? ≠ some z := by
  induction s with
  | nil => exact ⟨0, rfl, by simp⟩
  | cons c s ih =>
    by_cases hc : c = z
    · subst hc
      obtain ⟨k, h1, h2⟩ := ih
      rw [List.dropWhile_cons_of_pos (by simp)]
      exact ⟨k + 1, by rw [List.replicate_succ, List.cons_append, ← h1], h2⟩
    · rw [List.dropWhile_cons_of_neg (by simpa using hc)]
      exact ⟨0, rfl, by simpa using hc⟩

theorem rstripNul_iff (l s : List Char) :
    rstripNul l = s ↔ (∃ k, l = s ++ List.replicate k (Char.ofNat 0)) ∧ s.getLast? ≠ some (Char.ofNat 0) := by
  unfold rstripNul
  constructor
  · rintro rfl
    obtain ⟨k, h1, h2⟩ := dropWhile_split l.reverse (Char.ofNat 0)
    refine ⟨⟨k, ?_⟩, ?_⟩
    · have := congrArg List.reverse h1
      rw [List.reverse_reverse, List.reverse_append, List.reverse_replicate] at this
      exact this
    · rw [List.getLast?_reverse]
      exact h2
  · rintro ⟨⟨k, rfl⟩, h⟩
    rw [List.reverse_append, List.reverse_replicate, dropWhile_replicate_append _ _ _ (by rw [List.head?_reverse]; exact h),
      List.reverse_reverse]

theorem ctlString_iff (b : Bytes) (s : String) : ctlString b = .ok s ↔ ReadsText b s := by
  unfold ctlString ReadsText
  constructor
  · intro h
    cases hd : utf16le b with
    | error e => rw [hd] at h; cases h
    | ok cs =>
      rw [hd] at h
      cases h
      obtain ⟨⟨k, h1⟩, h2⟩ := (rstripNul_iff cs _).mp rfl
      rw [String.toList_ofList]
      exact ⟨⟨k, by rw [← h1]; exact (utf16le_iff _ _).mp hd⟩, h2⟩
  · rintro ⟨⟨k, rfl⟩, h⟩
    rw [utf16le_encode]
    simp only
    rw [(rstripNul_iff _ s.toList).mpr ⟨⟨k, rfl⟩, h⟩, String.ofList_toList]

theorem ctlString_error (b : Bytes) (e : Exc) (h : ctlString b = .error e) : e.cls = .valueError := by
  unfold ctlString at h
  cases hd : utf16le b with
  | error e' => rw [hd] at h; cases h; exact utf16le_error _ b (Nat.le_refl _) _ hd
  | ok cs => rw [hd] at h; cases h

end Signify
