/-
C48, C49: FILETIME values.  A FILETIME is a 64-bit number of ticks of 100 ns since 1601; times are microseconds since 1601.
-/
import Verif.Proofs.FileTime
import Verif.Spec.SignedPE

set_option autoImplicit false

namespace Signify.Props

open Signify Spec

theorem fileTimeNative_eight {c : Bytes} (h : c.length = 8) :
    fileTimeNative c = (if timedeltaUs (toDouble (leNat c) 10) > datetimeMax then
      .error ⟨.overflowError, "date value out of range"⟩ else .ok (some (timedeltaUs (toDouble (leNat c) 10) : Nat))) := by
  unfold fileTimeNative
  rw [if_neg (by intro h0; rw [h0] at h; simp at h), if_neg (by simp [h])]

/-! ### C49 -/

/-- Later FILETIMEs are read as later (or equal) times. -/
theorem C49_monotone (c d : Bytes) (s t : Int) (hc : c.length = 8) (hd : d.length = 8) (h : leNat c ≤ leNat d)
    (hs : fileTimeNative c = .ok (some s)) (ht : fileTimeNative d = .ok (some t)) : s ≤ t := by
  rw [fileTimeNative_eight hc] at hs
  rw [fileTimeNative_eight hd] at ht
  have := timedeltaUs_mono (toDouble_mono 10 (by decide) h)
  split at hs
  · cases hs
  · split at ht
    · cases ht
    · cases hs; cases ht
      exact Int.ofNat_le.mpr this

/-- The readable FILETIMEs form an initial segment: if a value can be read then so can every smaller one, and a value that
cannot be read is too late for `datetime`. -/
theorem C49_readable (c d : Bytes) (hc : c.length = 8) (hd : d.length = 8) (h : leNat c ≤ leNat d) (t : Int)
    (ht : fileTimeNative d = .ok (some t)) : ∃ s, fileTimeNative c = .ok (some s) ∧ 0 ≤ s ∧ s ≤ datetimeMax := by
  rw [fileTimeNative_eight hd] at ht
  have := timedeltaUs_mono (toDouble_mono 10 (by decide) h)
  split at ht
  · cases ht
  · rename_i h1
    refine ⟨(timedeltaUs (toDouble (leNat c) 10) : Nat), ?_, Int.natCast_nonneg _, Int.ofNat_le.mpr (by omega)⟩
    rw [fileTimeNative_eight hc, if_neg (by omega)]

/-- Whole seconds are read exactly, over the whole range of `datetime`. -/
theorem C49_whole_seconds (c : Bytes) (s : Nat) (hc : c.length = 8) (h : leNat c = s * 10000000)
    (hs : s * 1000000 ≤ datetimeMax) : fileTimeNative c = .ok (some (s * 1000000 : Nat)) := by
  have e : toDouble (leNat c) 10 = s * 15625 * 2 ^ 6 * 2 ^ 100 := by
    refine toDouble_exact (by decide) ?_ ?_
    · unfold datetimeMax at hs; omega
    · rw [h]; omega
  rw [fileTimeNative_eight hc, e, timedeltaUs_mul]
  have e2 : s * 15625 * 2 ^ 6 = s * 1000000 := by omega
  rw [e2, if_neg (by omega)]

/-- The accuracy claim of C49 is false late in the range: at the FILETIME of 2171-11-08T23:35:09.481986Z the time read is two
microseconds off. -/
theorem C49_accuracy_false :
    ¬ ∀ (c : Bytes) (t : Int), c.length = 8 → fileTimeNative c = .ok (some t) → (10 * t - (leNat c : Int)).natAbs ≤ 10 := by
  intro h
  have := h (packLE 8 180143985094819860) 18014398509481984 (by decide) (by decide +kernel)
  revert this
  decide +kernel

/-- Before 2171-11-08 (2⁵⁴ microseconds after 1601) the time read is within one microsecond. Missing: later times, where the
claim fails (`C49_accuracy_false`). -/
theorem C49_accuracy_partial (c : Bytes) (t : Int) (hc : c.length = 8) (hv : leNat c < 10 * 2 ^ 54)
    (ht : fileTimeNative c = .ok (some t)) : (10 * t - (leNat c : Int)).natAbs ≤ 10 := by
  obtain ⟨h1, h2⟩ := timedelta_toDouble_near hv
  rw [fileTimeNative_eight hc] at ht
  split at ht
  · cases ht
  · cases ht
    generalize timedeltaUs (toDouble (leNat c) 10) = y at *
    omega

/-- From 2⁵³ microseconds after 1601 (June 1886) on, the time read is the multiple of `2 ^ (k + 1)` microseconds that is nearest to the time
stored, where `2 ^ (53 + k)` is the largest power of two that is not larger: two microseconds for the times of today. -/
theorem C49_late (c : Bytes) (t : Int) (k : Nat) (hc : c.length = 8) (h0 : 10 * 2 ^ (53 + k) ≤ leNat c) (hv : leNat c < 10 * 2 ^ (54 + k))
    (ht : fileTimeNative c = .ok (some t)) : ((2 ^ (k + 1) : Nat) : Int) ∣ t ∧ (10 * t - (leNat c : Int)).natAbs ≤ 10 * 2 ^ k := by
  obtain ⟨m, h1, h2, h3⟩ := timedelta_toDouble_late h0 hv
  rw [fileTimeNative_eight hc] at ht
  split at ht
  · cases ht
  · cases ht
    rw [h1]
    refine ⟨⟨m, by rw [Int.natCast_mul, Int.mul_comm]⟩, ?_⟩
    generalize m * 2 ^ (k + 1) = y at *
    omega

/-- Every time that can be read at all is read to within 16 microseconds. -/
theorem C49_accuracy_all (c : Bytes) (t : Int) (hc : c.length = 8) (ht : fileTimeNative c = .ok (some t)) :
    (10 * t - (leNat c : Int)).natAbs ≤ 160 := by
  by_cases hv : leNat c < 10 * 2 ^ 54
  · have := C49_accuracy_partial c t hc hv ht
    omega
  have hlt : leNat c < 10 * 2 ^ 58 := by
    refine Nat.lt_of_not_le (fun h => ?_)
    have h1 := timedeltaUs_mono (toDouble_mono 10 (by decide) h)
    have h2 := toDouble_exact (n := 10 * 2 ^ 58) (d := 10) (q := 1) (t := 58) (by decide) (by decide) (by decide)
    rw [h2, timedeltaUs_mul] at h1
    rw [fileTimeNative_eight hc, if_pos (by unfold datetimeMax; omega)] at ht
    cases ht
  have step : ∀ k, k ≤ 4 → 10 * 2 ^ (53 + k) ≤ leNat c → leNat c < 10 * 2 ^ (54 + k) → (10 * t - (leNat c : Int)).natAbs ≤ 160 := by
    intro k hk h1 h2
    have h3 := (C49_late c t k hc h1 h2 ht).2
    have h4 : 2 ^ k ≤ 2 ^ 4 := Nat.pow_le_pow_right (by decide) hk
    omega
  by_cases h1 : leNat c < 10 * 2 ^ 55
  · exact step 1 (by decide) (by omega) h1
  by_cases h2 : leNat c < 10 * 2 ^ 56
  · exact step 2 (by decide) (by omega) h2
  by_cases h3 : leNat c < 10 * 2 ^ 57
  · exact step 3 (by decide) (by omega) h3
  · exact step 4 (by decide) (by omega) hlt

/-- Which values are refused with an `OverflowError`: those from sixteen microseconds before the year 10000 on. -/
theorem C49_range (c : Bytes) (hc : c.length = 8) :
    (∃ e, fileTimeNative c = .error e ∧ e.cls = .overflowError) ↔ 10 * (265046774400000000 - 16) ≤ leNat c := by
  rw [fileTimeNative_eight hc]
  constructor
  · rintro ⟨e, he, -⟩
    refine Nat.le_of_not_lt (fun h => ?_)
    have h1 := timedeltaUs_mono (toDouble_mono (m := 10 * (265046774400000000 - 16) - 1) 10 (by decide) (n := leNat c) (by omega))
    have h2 : timedeltaUs (toDouble (10 * (265046774400000000 - 16) - 1) 10) ≤ datetimeMax := by decide +kernel
    rw [if_neg (by omega)] at he
    cases he
  · intro h
    have h1 := timedeltaUs_mono (toDouble_mono 10 (by decide) h)
    have h2 : datetimeMax < timedeltaUs (toDouble (10 * (265046774400000000 - 16)) 10) := by decide +kernel
    rw [if_pos (by omega)]
    exact ⟨_, rfl, rfl⟩

-- a time in 2023 with an odd number of microseconds comes back with an even one, and the bound of 16 microseconds is met
example : fileTimeNative (packLE 8 133233682620000010) = .ok (some 13323368262000000) := by decide +kernel
example : fileTimeNative (packLE 8 (10 * (2 ^ 57 + 16))) = .ok (some (2 ^ 57)) := by decide +kernel

/-- Empty contents read as `None`, and any other length than eight raises `struct.error`. -/
theorem C49_lengths (c : Bytes) :
    (fileTimeNative c = .ok none ↔ c = []) ∧
    ((∃ e, fileTimeNative c = .error e ∧ e.cls = .structError) ↔ c ≠ [] ∧ c.length ≠ 8) := by
  by_cases h0 : c = []
  · subst h0
    refine ⟨⟨fun _ => rfl, fun _ => rfl⟩, ⟨?_, fun h => absurd rfl h.1⟩⟩
    rintro ⟨e, he, -⟩
    cases he
  · by_cases h8 : c.length = 8
    · rw [fileTimeNative_eight h8]
      split
      · refine ⟨⟨fun h => by simp at h, fun h => absurd h h0⟩, ⟨?_, fun h => absurd h8 h.2⟩⟩
        rintro ⟨e, he, h⟩
        cases he
        cases h
      · refine ⟨⟨fun h => by simp at h, fun h => absurd h h0⟩, ⟨?_, fun h => absurd h8 h.2⟩⟩
        rintro ⟨e, he, h⟩
        cases he
    · have e : fileTimeNative c = .error ⟨.structError, "unpack requires a buffer of 8 bytes"⟩ := by
        unfold fileTimeNative
        rw [if_neg h0, if_pos h8]
      rw [e]
      exact ⟨⟨fun h => by simp at h, fun h => absurd h h0⟩, ⟨fun _ => ⟨h0, h8⟩, fun _ => ⟨_, rfl, rfl⟩⟩⟩

-- 2023-03-15T13:37:42Z as a FILETIME is read exactly; a value with odd ticks is read to the nearest microsecond
example : fileTimeNative (packLE 8 133233682620000000) = .ok (some 13323368262000000) := by decide +kernel
example : fileTimeNative (packLE 8 133233682620000017) = .ok (some 13323368262000002) := by decide +kernel
example : fileTimeNative [1, 2, 3] = .error ⟨.structError, "unpack requires a buffer of 8 bytes"⟩ := by decide

/-! ### C48 -/

theorem fileTimeTicks_seconds' (s : Nat) (hs' : s < 2 ^ 39) : fileTimeTicks (s * 1000000) = 100 * s := by
  have e1 : toDouble (s * 1000000) 1000000 = s * 2 ^ 100 := by
    have := toDouble_exact (n := s * 1000000) (d := 1000000) (q := s) (t := 0) (by decide) (by omega) (by omega)
    rwa [Nat.pow_zero, Nat.mul_one] at this
  unfold fileTimeTicks
  rw [e1]
  have := toDouble_exact (n := s * 2 ^ 100 * 100) (d := 2 ^ 100) (q := 100 * s) (t := 0) (Nat.two_pow_pos _) (by omega)
    (by rw [Nat.pow_zero, Nat.mul_one, Nat.mul_comm, Nat.mul_assoc])
  rw [this, Nat.mul_div_cancel _ (Nat.two_pow_pos _), Nat.pow_zero, Nat.mul_one]

theorem fileTimeTicks_seconds (s : Nat) (hs : s * 1000000 ≤ datetimeMax) : fileTimeTicks (s * 1000000) = 100 * s :=
  fileTimeTicks_seconds' s (by unfold datetimeMax at hs; omega)

theorem fileTimeTicks_mono {a b : Nat} (h : a ≤ b) : fileTimeTicks a ≤ fileTimeTicks b :=
  Nat.div_le_div_right (toDouble_mono _ (Nat.two_pow_pos _) (Nat.mul_le_mul_right _ (toDouble_mono _ (by decide) h)))

/-- C48 is false for every whole second after 1601: the time comes back a hundred thousand times too close to 1601, because
`set` multiplies by 100 instead of 10⁷. -/
theorem C48_round_trip_false (s : Nat) (h0 : 0 < s) (hs : s * 1000000 ≤ datetimeMax) :
    ∃ c, fileTimeSet ((s * 1000000 : Nat) : Int) = .ok c ∧ fileTimeNative c = .ok (some ((10 * s : Nat) : Int)) ∧
      fileTimeNative c ≠ .ok (some ((s * 1000000 : Nat) : Int)) := by
  have hs' : s < 2 ^ 38 := by unfold datetimeMax at hs; omega
  have e2 := fileTimeTicks_seconds s hs
  have e3 : fileTimeSet ((s * 1000000 : Nat) : Int) = .ok (packLE 8 (100 * s)) := by
    unfold fileTimeSet
    simp only [Int.natAbs_natCast, e2]
    rw [if_neg (by omega), if_neg (by omega)]
  have e4 : leNat (packLE 8 (100 * s)) = 100 * s := leNat_packLE 8 _ (by omega)
  have e5 : fileTimeNative (packLE 8 (100 * s)) = .ok (some ((10 * s : Nat) : Int)) := by
    rw [fileTimeNative_eight (packLE_length 8 _), e4]
    have := toDouble_exact (n := 100 * s) (d := 10) (q := 10 * s) (t := 0) (by decide) (by omega) (by omega)
    rw [this, timedeltaUs_mul, Nat.pow_zero, Nat.mul_one, if_neg (by unfold datetimeMax; omega)]
  refine ⟨_, e3, e5, ?_⟩
  rw [e5]
  intro h
  injection h with h
  injection h with h
  omega

/-- What is left of C48: the epoch itself round-trips, and whole seconds before it are rejected with `struct.error`.
Missing: every later time (false, see above). -/
theorem C48_epoch_partial :
    (fileTimeSet 0).bind fileTimeNative = .ok (some 0) ∧
    ∀ s : Nat, 0 < s → s * 1000000 ≤ datetimeMax →
      ∃ e, fileTimeSet (-((s * 1000000 : Nat) : Int)) = .error e ∧ e.cls = .structError := by
  refine ⟨by decide +kernel, ?_⟩
  intro s h0 hs
  have e2 := fileTimeTicks_seconds s hs
  refine ⟨⟨.structError, "argument out of range"⟩, ?_, rfl⟩
  unfold fileTimeSet
  simp only [Int.natAbs_neg, Int.natAbs_natCast, e2]
  rw [if_pos (by omega)]

/-- What is read back, for every time from 1601 on that `datetime` can represent: the number of seconds since 1601, rounded down and
taken ten times, up to ten microseconds more.  So the same time comes back iff it is the epoch itself. -/
theorem C48_exact (us : Nat) (h : us ≤ datetimeMax) :
    ∃ c t, fileTimeSet (us : Int) = .ok c ∧ fileTimeNative c = .ok (some ((t : Nat) : Int)) ∧
      10 * (us / 1000000) ≤ t ∧ t ≤ 10 * (us / 1000000) + 10 ∧ (t = us ↔ us = 0) := by
  have hs : us / 1000000 < 2 ^ 38 := by unfold datetimeMax at h; omega
  have lo : 100 * (us / 1000000) ≤ fileTimeTicks us := by
    rw [← fileTimeTicks_seconds' _ (by omega)]
    exact fileTimeTicks_mono (by omega)
  have hi : fileTimeTicks us ≤ 100 * (us / 1000000 + 1) := by
    rw [← fileTimeTicks_seconds' _ (by omega)]
    exact fileTimeTicks_mono (by omega)
  have e3 : fileTimeSet (us : Int) = .ok (packLE 8 (fileTimeTicks us)) := by
    unfold fileTimeSet
    simp only [Int.natAbs_natCast]
    rw [if_neg (by omega), if_neg (by omega)]
  have e4 : leNat (packLE 8 (fileTimeTicks us)) = fileTimeTicks us := leNat_packLE 8 _ (by omega)
  have read : ∀ s, s < 2 ^ 39 → timedeltaUs (toDouble (100 * s) 10) = 10 * s := by
    intro s hs
    have := toDouble_exact (n := 100 * s) (d := 10) (q := 10 * s) (t := 0) (by decide) (by omega) (by omega)
    rw [this, timedeltaUs_mul, Nat.pow_zero, Nat.mul_one]
  have lo' : 10 * (us / 1000000) ≤ timedeltaUs (toDouble (fileTimeTicks us) 10) := by
    rw [← read _ (by omega)]
    exact timedeltaUs_mono (toDouble_mono _ (by decide) lo)
  have hi' : timedeltaUs (toDouble (fileTimeTicks us) 10) ≤ 10 * (us / 1000000) + 10 := by
    have := timedeltaUs_mono (toDouble_mono 10 (by decide) hi)
    rw [read _ (by omega)] at this
    omega
  refine ⟨_, timedeltaUs (toDouble (fileTimeTicks us) 10), e3, ?_, lo', hi', ?_⟩
  · rw [fileTimeNative_eight (packLE_length 8 _), e4, if_neg (by unfold datetimeMax; omega)]
  · constructor
    · intro ht
      -- at most ten microseconds after the epoch, and these are stored as zero
      have h10 : us ≤ 10 := by omega
      have hz : fileTimeTicks us = 0 := by
        have h1 := fileTimeTicks_mono h10
        have h2 : fileTimeTicks 10 = 0 := by decide +kernel
        omega
      rw [hz] at ht
      have h0 : timedeltaUs (toDouble 0 10) = 0 := by decide +kernel
      omega
    · rintro rfl
      decide +kernel

/-- Times before 1601 are refused, except for the last ten milliseconds, which are stored as the epoch. -/
theorem C48_before (us : Nat) :
    (us < 10000 → (fileTimeSet (-(us : Int))).bind fileTimeNative = .ok (some 0)) ∧
    (10000 ≤ us → ∃ e, fileTimeSet (-(us : Int)) = .error e ∧ e.cls = .structError) := by
  constructor
  · intro h
    have hz : fileTimeTicks us = 0 := by
      have h1 := fileTimeTicks_mono (show us ≤ 9999 by omega)
      have h2 : fileTimeTicks 9999 = 0 := by decide +kernel
      omega
    have e : fileTimeSet (-(us : Int)) = .ok (packLE 8 0) := by
      unfold fileTimeSet
      simp only [Int.natAbs_neg, Int.natAbs_natCast, hz]
      rw [if_neg (by omega), if_neg (by omega)]
    rw [e]
    decide +kernel
  · intro h
    have hz : 1 ≤ fileTimeTicks us := by
      have h1 := fileTimeTicks_mono h
      have h2 : fileTimeTicks 10000 = 1 := by decide +kernel
      omega
    refine ⟨⟨.structError, "argument out of range"⟩, ?_, rfl⟩
    unfold fileTimeSet
    simp only [Int.natAbs_neg, Int.natAbs_natCast]
    rw [if_pos (by omega)]

/-- 2023-03-15T13:37:42.5Z comes back as a time on 2 January 1601. -/
example : (fileTimeSet 13323368262500000).bind fileTimeNative = .ok (some 133233682625) := by decide +kernel

example : fileTimeSet 13323368262000000 = .ok (packLE 8 1332336826200) := by decide +kernel

/-! ### Instances -/

example := C48_exact 13323368262500000 (by decide +kernel)
example := C49_accuracy_all (packLE 8 133233682620000017) 13323368262000002 (by decide) (by decide +kernel)
example := C49_accuracy_partial (packLE 8 133233682620000017) 13323368262000002 (by decide) (by decide +kernel) (by decide +kernel)
example := C49_late (packLE 8 (10 * (2 ^ 57 + 16))) (2 ^ 57) 4 (by decide) (by decide +kernel) (by decide +kernel) (by decide +kernel)
example := C49_monotone (packLE 8 133233682620000000) (packLE 8 133233682620000017) 13323368262000000 13323368262000002 (by decide) (by decide)
  (by decide +kernel) (by decide +kernel) (by decide +kernel)
example := C49_range (packLE 8 (2 ^ 63)) (by decide)
example := C49_readable (packLE 8 133233682620000000) (packLE 8 133233682620000017) (by decide) (by decide) (by decide +kernel) 13323368262000002
  (by decide +kernel)
example := C49_whole_seconds (packLE 8 133233682620000000) 13323368262 (by decide) (by decide +kernel) (by decide +kernel)

end Signify.Props
