/-
Reading times.
-/
import Verif.Proofs.DerTree

set_option autoImplicit false

namespace Signify.Asn1

open Signify Spec

theorem yearLength_leap (y : Nat) : yearLength y = if isLeap y then 366 else 365 := by
  unfold yearLength isLeap
  by_cases h1 : y % 4 = 0 <;> by_cases h2 : y % 100 = 0 <;> by_cases h3 : y % 400 = 0 <;>
    simp [Nat.dvd_iff_mod_eq_zero, h1, h2, h3]

theorem daysBeforeYear_succ (y : Nat) : daysBeforeYear (y + 2) = daysBeforeYear (y + 1) + yearLength (y + 1) := by
  have e : yearLength (y + 1) =
      if (y + 1) % 4 = 0 ∧ ((y + 1) % 100 = 0 → (y + 1) % 400 = 0) then 366 else 365 := by
    unfold yearLength
    simp only [Nat.dvd_iff_mod_eq_zero]
  rw [e]
  unfold daysBeforeYear
  rw [show y + 2 - 1 = y + 1 by omega, show y + 1 - 1 = y by omega]
  split
  · rename_i h
    by_cases h2 : (y + 1) % 100 = 0
    · have := h.2 h2; omega
    · omega
  · rename_i h
    by_cases h1 : (y + 1) % 4 = 0
    · have h2 : (y + 1) % 100 = 0 := by
        by_cases h2 : (y + 1) % 100 = 0
        · exact h2
        · exact absurd ⟨h1, fun h => absurd h h2⟩ h
      have h3 : ¬ (y + 1) % 400 = 0 := fun h3 => h ⟨h1, fun _ => h3⟩
      omega
    · omega

theorem daysToYear_eq (y : Nat) : daysToYear (y + 1) = daysBeforeYear (y + 1) := by
  induction y with
  | zero => rfl
  | succ y ih =>
    rw [daysBeforeYear_succ, ← ih]
    unfold daysToYear
    rw [show y + 1 + 1 - 1 = y + 1 by omega, show y + 1 - 1 = y by omega, List.range'_1_concat]
    simp [Nat.add_comm]

theorem monthLength_eq (y m : Nat) : monthLength y m = monthDays y m := by
  unfold monthDays monthLength
  rw [yearLength_leap y]
  simp only [List.mem_cons, List.not_mem_nil, or_false]
  split
  · cases isLeap y <;> simp
  · rfl

theorem daysBeforeMonth_eq (y m : Nat) :
    ((List.range' 1 m).map (monthLength y)).sum = daysBeforeMonth y (m + 1) := by
  induction m with
  | zero => rfl
  | succ m ih =>
    rw [List.range'_1_concat, List.map_append, List.sum_append, ih, daysBeforeMonth]
    simp [monthLength_eq, Nat.add_comm]

theorem mkDatetime_valid {t : DTime} (h : t.Valid) (us : Nat) :
    mkDatetime t.year t.month t.day t.hour t.minute t.second us = .ok (t.micros + us) := by
  obtain ⟨h1, h2, h3, h4, h5, h6, h7, h8, h9⟩ := h
  rw [monthLength_eq] at h6
  unfold mkDatetime
  rw [if_neg (by omega)]
  have e1 : daysToYear t.year = daysBeforeYear t.year := by
    have := daysToYear_eq (t.year - 1)
    rwa [show t.year - 1 + 1 = t.year by omega] at this
  have e2 : daysToYear 1601 = daysBeforeYear 1601 := daysToYear_eq 1600
  have e3 : ((List.range' 1 (t.month - 1)).map (monthLength t.year)).sum = daysBeforeMonth t.year t.month := by
    have := daysBeforeMonth_eq t.year (t.month - 1)
    rwa [show t.month - 1 + 1 = t.month by omega] at this
  unfold DTime.micros DTime.days
  rw [e1, e2, e3]

theorem twoDigits_twoDigit {n : Nat} (h : n < 100) (rest : Bytes) : twoDigits (twoDigit n ++ rest) = some (n, rest) := by
  unfold twoDigit
  simp only [List.cons_append, List.nil_append, twoDigits]
  rw [toNat_ofNat_lt (by omega), toNat_ofNat_lt (by omega), if_pos (by omega)]
  congr 2
  omega

theorem digits2_twoDigit {n : Nat} (h : n < 100) (rest : Bytes) : digits2 (twoDigit n ++ rest) = .ok (n, rest) := by
  simp [digits2, twoDigits_twoDigit h]

theorem monthLength_le (y m : Nat) : monthLength y m ≤ 31 := by
  rw [monthLength_eq]; unfold monthDays; split <;> split <;> omega

theorem utcTime_valid {t : DTime} (h : t.Valid) (hy : 1950 ≤ t.year ∧ t.year ≤ 2049) :
    utcTime (twoDigit (t.year % 100) ++ t.rest ++ [0x5A]) = .ok t.micros := by
  have e := mkDatetime_valid h 0
  obtain ⟨h1, h2, h3, h4, h5, h6, h7, h8, h9⟩ := h
  have := monthLength_le t.year t.month
  unfold utcTime DTime.rest
  simp only [List.append_assoc, bind, Except.bind]
  rw [digits2_twoDigit (by omega)]; simp only
  rw [digits2_twoDigit (by omega)]; simp only
  rw [digits2_twoDigit (by omega)]; simp only
  rw [digits2_twoDigit (by omega)]; simp only
  rw [digits2_twoDigit (by omega)]; simp only
  rw [twoDigits_twoDigit (by omega)]
  simp only [Option.getD_some, readZone]
  rw [show (if t.year % 100 < 50 then 2000 + t.year % 100 else 1900 + t.year % 100) = t.year by split <;> omega, e]
  simp

theorem readZone_offset (optional ahead : Bool) {hh mm : Nat} (h1 : hh ≤ 23) (h2 : mm ≤ 59) :
    readZone optional (zoneOctets ahead hh mm) = .ok (zoneMicros ahead hh mm) := by
  have e : digits2 (twoDigit hh ++ twoDigit mm) = .ok (hh, twoDigit mm) := digits2_twoDigit (by omega) _
  have e2 : digits2 (twoDigit mm) = .ok (mm, []) := by simpa using digits2_twoDigit (n := mm) (by omega) []
  have e0 : twoDigit hh ++ twoDigit mm ≠ [] := by simp [twoDigit]
  cases ahead
  · simp only [zoneOctets, readZone, Bool.false_eq_true, if_false]
    simp [e, e2, bind, Except.bind, zoneMicros, show ¬ (23 < hh ∨ 59 < mm) by omega]
    omega
  · simp only [zoneOctets, readZone, if_true]
    simp [e, e2, bind, Except.bind, zoneMicros, show ¬ (23 < hh ∨ 59 < mm) by omega]

theorem utcTime_zone {t : DTime} (h : t.Valid) (hy : 1950 ≤ t.year ∧ t.year ≤ 2049) (ahead : Bool) {hh mm : Nat} (hz1 : hh ≤ 23)
    (hz2 : mm ≤ 59) :
    utcTime (twoDigit (t.year % 100) ++ t.rest ++ zoneOctets ahead hh mm) = .ok (t.micros - zoneMicros ahead hh mm) := by
  have e := mkDatetime_valid h 0
  obtain ⟨h1, h2, h3, h4, h5, h6, h7, h8, h9⟩ := h
  have := monthLength_le t.year t.month
  unfold utcTime DTime.rest
  simp only [List.append_assoc, bind, Except.bind]
  rw [digits2_twoDigit (by omega)]; simp only
  rw [digits2_twoDigit (by omega)]; simp only
  rw [digits2_twoDigit (by omega)]; simp only
  rw [digits2_twoDigit (by omega)]; simp only
  rw [digits2_twoDigit (by omega)]; simp only
  rw [twoDigits_twoDigit (by omega)]
  simp only [Option.getD_some, readZone_offset _ _ hz1 hz2]
  rw [show (if t.year % 100 < 50 then 2000 + t.year % 100 else 1900 + t.year % 100) = t.year by split <;> omega, e]
  simp

theorem generalizedTime_zone {t : DTime} (h : t.Valid) (ahead : Bool) {hh mm : Nat} (hz1 : hh ≤ 23) (hz2 : mm ≤ 59) :
    generalizedTime (t.digits ++ zoneOctets ahead hh mm) = .ok (t.micros - zoneMicros ahead hh mm) := by
  have e := mkDatetime_valid h 0
  obtain ⟨h1, h2, h3, h4, h5, h6, h7, h8, h9⟩ := h
  have := monthLength_le t.year t.month
  unfold generalizedTime fractionPart DTime.digits DTime.rest
  simp only [List.append_assoc, bind, Except.bind]
  rw [digits2_twoDigit (by omega)]; simp only
  rw [digits2_twoDigit (by omega)]; simp only
  rw [digits2_twoDigit (by omega)]; simp only
  rw [digits2_twoDigit (by omega)]; simp only
  rw [digits2_twoDigit (by omega)]; simp only
  rw [digits2_twoDigit (by omega)]; simp only
  rw [digits2_twoDigit (by omega)]; simp only
  rw [show t.year / 100 * 100 + t.year % 100 = t.year by omega]
  have hz : zoneOctets ahead hh mm = (if ahead then 0x2B else 0x2D) :: UInt8.ofNat (48 + hh / 10) :: (twoDigit hh ++ twoDigit mm).tail := rfl
  have hs : ¬ (((if ahead then 0x2B else 0x2D : UInt8) = 0x2E ∨ (if ahead then 0x2B else 0x2D : UInt8) = 0x2C) ∧
      48 ≤ (UInt8.ofNat (48 + hh / 10)).toNat ∧ (UInt8.ofNat (48 + hh / 10)).toNat ≤ 57) := by
    cases ahead <;> simp
  have rz := readZone_offset true ahead hz1 hz2
  rw [hz] at rz ⊢
  simp only [if_neg hs, rz, e]
  simp

theorem fraction_digits (k : Nat) (l : List Nat) (us : Nat) (h : l.length ≤ k) (hd : ∀ d ∈ l, d ≤ 9) :
    fraction (10 ^ k) us (l.map (fun d => UInt8.ofNat (48 + d)) ++ [0x5A]) = (us + fracVal (k - 1) l, [0x5A]) := by
  induction l generalizing k us with
  | nil => simp [fraction, fracVal]
  | cons d l ih =>
    have h1 := hd d (List.mem_cons_self ..)
    obtain ⟨k, rfl⟩ : ∃ j, k = j + 1 := ⟨k - 1, by simp at h; omega⟩
    simp only [List.map_cons, List.cons_append, fraction]
    rw [toNat_ofNat_lt (by omega), if_pos (by omega), show 10 ^ (k + 1) / 10 = 10 ^ k by rw [Nat.pow_succ]; omega,
      ih k _ (by simpa using h) (fun d hd' => hd d (List.mem_cons_of_mem _ hd'))]
    simp only [fracVal, show k + 1 - 1 = k by omega, show 48 + d - 48 = d by omega]
    rw [Nat.add_assoc]

/-- The contents of a GeneralizedTime with a fraction. -/
def genCont (t : DTime) (frac : List Nat) : Bytes :=
  t.digits ++ (if frac = [] then [] else 0x2E :: frac.map (fun d => UInt8.ofNat (48 + d))) ++ [0x5A]

theorem generalizedTime_frac {t : DTime} (h : t.Valid) (frac : List Nat) (hf : frac.length ≤ 6) (hd : ∀ d ∈ frac, d ≤ 9) :
    generalizedTime (genCont t frac) = .ok (t.micros + fracVal 5 frac) := by
  have e := mkDatetime_valid h (fracVal 5 frac)
  obtain ⟨h1, h2, h3, h4, h5, h6, h7, h8, h9⟩ := h
  have := monthLength_le t.year t.month
  unfold generalizedTime fractionPart genCont DTime.digits DTime.rest
  simp only [List.append_assoc, bind, Except.bind]
  rw [digits2_twoDigit (by omega)]; simp only
  rw [digits2_twoDigit (by omega)]; simp only
  rw [digits2_twoDigit (by omega)]; simp only
  rw [digits2_twoDigit (by omega)]; simp only
  rw [digits2_twoDigit (by omega)]; simp only
  rw [digits2_twoDigit (by omega)]; simp only
  rw [digits2_twoDigit (by omega)]; simp only
  rw [show t.year / 100 * 100 + t.year % 100 = t.year by omega]
  cases frac with
  | nil => simp only [fracVal] at e; simp [readZone, e, fracVal]
  | cons d l =>
    have h10 := hd d (List.mem_cons_self ..)
    have ef := fraction_digits 6 (d :: l) 0 hf hd
    simp only [List.map_cons, List.cons_append] at ef
    simp only [reduceCtorEq, if_false, List.map_cons, List.cons_append]
    rw [if_pos ⟨by simp, by rw [toNat_ofNat_lt (by omega)]; omega, by rw [toNat_ofNat_lt (by omega)]; omega⟩]
    have e6 : (1000000 : Nat) = 10 ^ 6 := rfl
    rw [e6, ef]
    simp [readZone, e]

theorem generalizedTime_valid {t : DTime} (h : t.Valid) : generalizedTime (t.digits ++ [0x5A]) = .ok t.micros := by
  have := generalizedTime_frac h [] (by simp) (fun _ h => by cases h)
  simpa [genCont, fracVal] using this

/-- As a tree. -/
def _root_.Signify.Spec.DTime.tree (t : DTime) : T :=
  if 1950 ≤ t.year ∧ t.year ≤ 2049 then .leaf 0x17 (twoDigit (t.year % 100) ++ t.rest ++ [0x5A])
  else .leaf 0x18 (t.digits ++ [0x5A])

theorem _root_.Signify.Spec.DTime.enc_tree (t : DTime) : t.tree.enc = t.encode := by
  unfold DTime.tree DTime.encode; split <;> simp [T.enc]

/-- The value of a Time. -/
def _root_.Signify.Spec.DTime.val (t : DTime) : Val :=
  if 1950 ≤ t.year ∧ t.year ≤ 2049 then .choice "utc_time" (.prim (twoDigit (t.year % 100) ++ t.rest ++ [0x5A]))
  else .choice "general_time" (.prim (t.digits ++ [0x5A]))

theorem buildT_time (t : DTime) (i : Option Nat) : tTime.buildT i t.tree = .ok t.val := by
  unfold DTime.tree DTime.val; split <;> bt [tTime]

theorem readTime_val {t : DTime} (h : t.Valid) : readTime t.val = .ok t.micros := by
  unfold DTime.val
  split
  · rename_i hy
    simp only [readTime, Val.octets, bind, Except.bind, if_true]
    exact utcTime_valid h hy
  · simp only [readTime, Val.octets, bind, Except.bind]
    rw [if_neg (by decide)]
    exact generalizedTime_valid h

/-! ### Only such texts are read -/

theorem mkDatetime_inv {y m d hh mm ss us : Nat} {u : Int} (hy : y ≤ 9999) (h : mkDatetime y m d hh mm ss us = .ok u) :
    (DTime.mk y m d hh mm ss).Valid ∧ u = (DTime.mk y m d hh mm ss).micros + us := by
  have hv : (DTime.mk y m d hh mm ss).Valid := by
    unfold mkDatetime at h
    split at h
    · cases h
    · rename_i hn
      rw [← monthLength_eq] at hn
      refine ⟨?_, ?_, ?_, ?_, ?_, ?_, ?_, ?_, ?_⟩ <;> simp only <;> omega
  refine ⟨hv, ?_⟩
  have := mkDatetime_valid hv us
  exact (Except.ok.inj (this.symm.trans h)).symm

theorem okBind {α β : Type} {x : Except Exc α} {f : α → Except Exc β} {b : β} (h : (x >>= f) = .ok b) :
    ∃ a, x = .ok a ∧ f a = .ok b := by
  cases x with
  | error e => cases h
  | ok a => exact ⟨a, rfl, h⟩

theorem twoDigits_inv {b l : Bytes} {n : Nat} (h : twoDigits b = some (n, l)) : n < 100 ∧ b = twoDigit n ++ l := by
  match b, h with
  | x :: y :: l', h =>
    simp only [twoDigits] at h
    split at h
    · rename_i hd
      injection h with h
      injection h with h1 h2
      subst h2
      refine ⟨by omega, ?_⟩
      unfold twoDigit
      rw [show 48 + n / 10 = x.toNat by omega, show 48 + n % 10 = y.toNat by omega]
      simp
    · cases h
  | [], h => cases h
  | [_], h => cases h

theorem digits2_inv {b l : Bytes} {n : Nat} (h : digits2 b = .ok (n, l)) : n < 100 ∧ b = twoDigit n ++ l := by
  unfold digits2 at h
  split at h
  · rename_i y hy
    injection h with h
    subst h
    exact twoDigits_inv hy
  · cases h

theorem readZone_inv {optional : Bool} {b : Bytes} {z : Int} (h : readZone optional b = .ok z) :
    ZoneText b z ∨ (optional = true ∧ b = [] ∧ z = 0) := by
  unfold readZone at h
  split at h
  · split at h
    · rename_i ho
      injection h with h
      exact Or.inr ⟨ho, rfl, h.symm⟩
    · cases h
  · injection h with h
    subst h
    exact Or.inl .utc
  · rename_i s l _
    split at h
    · rename_i hs
      obtain ⟨⟨hh, l1⟩, hx, h⟩ := okBind h
      obtain ⟨⟨mm, l2⟩, hy, h⟩ := okBind h
      obtain ⟨h1, e1⟩ := digits2_inv hx
      obtain ⟨h2, e2⟩ := digits2_inv hy
      simp only at h
      split at h
      · rename_i hnil
        split at h
        · cases h
        · rename_i hb
          injection h with h
          subst h
          rw [hnil, List.append_nil] at e2
          have hz := ZoneText.offset (decide (s = 0x2B)) hh mm (by omega) (by omega)
          have e3 : zoneOctets (decide (s = 0x2B)) hh mm = s :: l := by
            unfold zoneOctets
            rw [e1, e2]
            rcases hs with rfl | rfl <;> simp
          have e4 : zoneMicros (decide (s = 0x2B)) hh mm =
              (if s = 0x2B then 1 else -1) * ((hh * 60 + mm : Nat) : Int) * 60000000 := by
            unfold zoneMicros
            rcases hs with rfl | rfl <;> simp <;> omega
          rw [e3, e4] at hz
          exact Or.inl hz
      · cases h
    · cases h

theorem readZone_text {b : Bytes} {z : Int} (optional : Bool) (h : ZoneText b z) : readZone optional b = .ok z := by
  cases h with
  | utc => rfl
  | offset ahead hh mm h1 h2 => exact readZone_offset optional ahead h1 h2


theorem utcTime_inv {b : Bytes} {u : Int} (h : utcTime b = .ok u) :
    ∃ (t : DTime) (zone : Bytes) (z : Int), t.Valid ∧ 1950 ≤ t.year ∧ t.year ≤ 2049 ∧ ZoneText zone z ∧ u = t.micros - z ∧
      (b = twoDigit (t.year % 100) ++ t.rest ++ zone ∨
       t.second = 0 ∧ b = twoDigit (t.year % 100) ++
         (twoDigit t.month ++ twoDigit t.day ++ twoDigit t.hour ++ twoDigit t.minute) ++ zone) := by
  unfold utcTime at h
  obtain ⟨⟨y, b1⟩, hx1, k1⟩ := okBind h
  obtain ⟨g1, e1⟩ := digits2_inv hx1
  obtain ⟨⟨m, b2⟩, hx2, k2⟩ := okBind k1
  obtain ⟨g2, e2⟩ := digits2_inv hx2
  obtain ⟨⟨d, b3⟩, hx3, k3⟩ := okBind k2
  obtain ⟨g3, e3⟩ := digits2_inv hx3
  obtain ⟨⟨hh, b4⟩, hx4, k4⟩ := okBind k3
  obtain ⟨g4, e4⟩ := digits2_inv hx4
  obtain ⟨⟨mm, b5⟩, hx5, k5⟩ := okBind k4
  obtain ⟨g5, e5⟩ := digits2_inv hx5
  clear hx1 hx2 hx3 hx4 hx5 k1 k2 k3 k4 h
  subst e1 e2 e3 e4 e5
  have h := k5
  clear k5
  simp only at h ⊢
  have hyear : (if y < 50 then 2000 + y else 1900 + y) % 100 = y ∧ 1950 ≤ (if y < 50 then 2000 + y else 1900 + y) ∧
      (if y < 50 then 2000 + y else 1900 + y) ≤ 2049 := by split <;> omega
  cases h6 : twoDigits b5 with
  | none =>
    rw [h6] at h
    simp only [Option.getD_none] at h
    obtain ⟨z, hz, h⟩ := okBind h
    obtain ⟨t, ht, h⟩ := okBind h
    obtain ⟨hv, et⟩ := mkDatetime_inv (by omega) ht
    have hu : t - z = u := Except.ok.inj h
    rcases readZone_inv hz with hz | ⟨h', _⟩
    · refine ⟨_, _, z, hv, hyear.2.1, hyear.2.2, hz, ?_, Or.inr ⟨rfl, ?_⟩⟩
      · rw [← hu, et, Int.natCast_zero, Int.add_zero]
      · simp [hyear.1]
    · cases h'
  | some p =>
    obtain ⟨ss, b6⟩ := p
    rw [h6] at h
    obtain ⟨g6, rfl⟩ := twoDigits_inv h6
    simp only [Option.getD_some] at h
    obtain ⟨z, hz, h⟩ := okBind h
    obtain ⟨t, ht, h⟩ := okBind h
    obtain ⟨hv, et⟩ := mkDatetime_inv (by omega) ht
    have hu : t - z = u := Except.ok.inj h
    rcases readZone_inv hz with hz | ⟨h', _⟩
    · refine ⟨_, _, z, hv, hyear.2.1, hyear.2.2, hz, ?_, Or.inl ?_⟩
      · rw [← hu, et, Int.natCast_zero, Int.add_zero]
      · simp [hyear.1, DTime.rest]
    · cases h'

theorem zone_not_digits {zone : Bytes} {z : Int} (h : ZoneText zone z) : twoDigits zone = none := by
  cases h with
  | utc => rfl
  | offset ahead hh mm _ _ => cases ahead <;> simp [zoneOctets, twoDigit, twoDigits]

theorem utcTime_text {t : DTime} (h : t.Valid) (hy : 1950 ≤ t.year ∧ t.year ≤ 2049) {zone : Bytes} {z : Int} (hz : ZoneText zone z) :
    utcTime (twoDigit (t.year % 100) ++ t.rest ++ zone) = .ok (t.micros - z) ∧
    (t.second = 0 → utcTime (twoDigit (t.year % 100) ++
      (twoDigit t.month ++ twoDigit t.day ++ twoDigit t.hour ++ twoDigit t.minute) ++ zone) = .ok (t.micros - z)) := by
  have e := mkDatetime_valid h 0
  obtain ⟨h1, h2, h3, h4, h5, h6, h7, h8, h9⟩ := h
  have := monthLength_le t.year t.month
  unfold utcTime DTime.rest
  simp only [List.append_assoc, bind, Except.bind]
  rw [digits2_twoDigit (by omega), digits2_twoDigit (by omega)]; simp only
  rw [digits2_twoDigit (by omega), digits2_twoDigit (by omega)]; simp only
  rw [digits2_twoDigit (by omega), digits2_twoDigit (by omega)]; simp only
  rw [digits2_twoDigit (by omega), digits2_twoDigit (by omega)]; simp only
  rw [digits2_twoDigit (by omega), digits2_twoDigit (by omega)]; simp only
  rw [twoDigits_twoDigit (by omega), zone_not_digits hz]
  simp only [Option.getD_some, Option.getD_none, readZone_text _ hz]
  rw [show (if t.year % 100 < 50 then 2000 + t.year % 100 else 1900 + t.year % 100) = t.year by split <;> omega]
  constructor
  · rw [e]; simp
  · intro h0
    rw [h0] at e
    rw [e]; simp


theorem ofNat_digit {b : UInt8} (h1 : 48 ≤ b.toNat) : UInt8.ofNat (48 + (b.toNat - 48)) = b := by
  rw [show 48 + (b.toNat - 48) = b.toNat by omega]; simp

theorem fraction_zero (us : Nat) (b : Bytes) :
    ∃ l : List Nat, (∀ d ∈ l, d ≤ 9) ∧ b = l.map (fun d => UInt8.ofNat (48 + d)) ++ (fraction 0 us b).2 ∧
      (fraction 0 us b).1 = us := by
  induction b with
  | nil => exact ⟨[], by simp, by simp [fraction], by simp [fraction]⟩
  | cons x b ih =>
    unfold fraction
    split
    · rename_i hx
      obtain ⟨l, h1, h2, h3⟩ := ih
      rw [show 0 / 10 = 0 from rfl, Nat.mul_zero, Nat.add_zero]
      refine ⟨(x.toNat - 48) :: l, ?_, ?_, h3⟩
      · intro d hd
        rcases List.mem_cons.1 hd with rfl | hd
        · omega
        · exact h1 d hd
      · rw [List.map_cons, List.cons_append, ← h2, ofNat_digit hx.1]
    · exact ⟨[], by simp, by simp, rfl⟩

theorem fraction_inv (k us : Nat) (b : Bytes) :
    ∃ l : List Nat, (∀ d ∈ l, d ≤ 9) ∧ b = l.map (fun d => UInt8.ofNat (48 + d)) ++ (fraction (10 ^ k) us b).2 ∧
      (fraction (10 ^ k) us b).1 = us + fracVal (k - 1) (l.take k) := by
  induction b generalizing k us with
  | nil => exact ⟨[], by simp, by simp [fraction], by simp [fraction, fracVal]⟩
  | cons x b ih =>
    unfold fraction
    split
    · rename_i hx
      cases k with
      | zero =>
        obtain ⟨l, h1, h2, h3⟩ := fraction_zero us b
        rw [show 10 ^ 0 / 10 = 0 from rfl, Nat.mul_zero, Nat.add_zero]
        refine ⟨(x.toNat - 48) :: l, ?_, ?_, by simpa [fracVal] using h3⟩
        · intro d hd
          rcases List.mem_cons.1 hd with rfl | hd
          · omega
          · exact h1 d hd
        · rw [List.map_cons, List.cons_append, ← h2, ofNat_digit hx.1]
      | succ k =>
        obtain ⟨l, h1, h2, h3⟩ := ih k (us + (x.toNat - 48) * 10 ^ k)
        rw [show 10 ^ (k + 1) / 10 = 10 ^ k by rw [Nat.pow_succ]; omega]
        refine ⟨(x.toNat - 48) :: l, ?_, ?_, ?_⟩
        · intro d hd
          rcases List.mem_cons.1 hd with rfl | hd
          · omega
          · exact h1 d hd
        · rw [List.map_cons, List.cons_append, ← h2, ofNat_digit hx.1]
        · rw [h3]
          simp only [List.take_succ_cons, fracVal, show k + 1 - 1 = k by omega]
          omega
    · exact ⟨[], by simp, by simp, by simp [fracVal]⟩


/-- The octets that end the digits of a fraction. -/
theorem fraction_stop (unit us : Nat) (b : Bytes) :
    ∀ x l, (fraction unit us b).2 = x :: l → ¬ (48 ≤ x.toNat ∧ x.toNat ≤ 57) := by
  induction b generalizing unit us with
  | nil => intro x l h; simp [fraction] at h
  | cons y b ih =>
    intro x l h
    unfold fraction at h
    split at h
    · exact ih _ _ x l h
    · rename_i hy
      injection h with h1 h2
      exact h1 ▸ hy

theorem fraction_text (k us : Nat) (l : List Nat) (hd : ∀ d ∈ l, d ≤ 9) (rest : Bytes)
    (hr : ∀ x l', rest = x :: l' → ¬ (48 ≤ x.toNat ∧ x.toNat ≤ 57)) :
    fraction (10 ^ k) us (l.map (fun d => UInt8.ofNat (48 + d)) ++ rest) = (us + fracVal (k - 1) (l.take k), rest) := by
  have hz : ∀ us, ∀ l : List Nat, (∀ d ∈ l, d ≤ 9) →
      fraction 0 us (l.map (fun d => UInt8.ofNat (48 + d)) ++ rest) = (us, rest) := by
    intro us l
    induction l with
    | nil =>
      intro _
      cases rest with
      | nil => rfl
      | cons x r => simp [fraction, hr x r rfl]
    | cons d l ih =>
      intro hd
      have h1 := hd d (List.mem_cons_self ..)
      simp only [List.map_cons, List.cons_append, fraction]
      rw [toNat_ofNat_lt (by omega), if_pos (by omega), show 0 / 10 = 0 from rfl, Nat.mul_zero, Nat.add_zero]
      exact ih fun d hd' => hd d (List.mem_cons_of_mem _ hd')
  induction l generalizing k us with
  | nil =>
    cases rest with
    | nil => simp [fraction, fracVal]
    | cons x r => simp [fraction, fracVal, hr x r rfl]
  | cons d l ih =>
    have h1 := hd d (List.mem_cons_self ..)
    have h2 : ∀ d ∈ l, d ≤ 9 := fun d hd' => hd d (List.mem_cons_of_mem _ hd')
    simp only [List.map_cons, List.cons_append, fraction]
    rw [toNat_ofNat_lt (by omega), if_pos (by omega)]
    cases k with
    | zero => rw [show 10 ^ 0 / 10 = 0 from rfl, hz _ _ h2]; simp [fracVal]
    | succ k =>
      rw [show 10 ^ (k + 1) / 10 = 10 ^ k by rw [Nat.pow_succ]; omega, ih k _ h2]
      simp only [List.take_succ_cons, fracVal, show k + 1 - 1 = k by omega, show 48 + d - 48 = d by omega]
      rw [Nat.add_assoc]

theorem generalizedTime_inv {b : Bytes} {u : Int} (h : generalizedTime b = .ok u) :
    ∃ (t : DTime) (frac : Bytes) (us : Nat) (zone : Bytes) (z : Int), t.Valid ∧ FracText frac us ∧
      (ZoneText zone z ∨ zone = [] ∧ z = 0) ∧ u = t.micros + us - z ∧ b = t.digits ++ frac ++ zone := by
  unfold generalizedTime at h
  obtain ⟨⟨c, b0⟩, hx0, k0⟩ := okBind h
  obtain ⟨g0, e0⟩ := digits2_inv hx0
  obtain ⟨⟨y, b1⟩, hx1, k1⟩ := okBind k0
  obtain ⟨g1, e1⟩ := digits2_inv hx1
  obtain ⟨⟨m, b2⟩, hx2, k2⟩ := okBind k1
  obtain ⟨g2, e2⟩ := digits2_inv hx2
  obtain ⟨⟨d, b3⟩, hx3, k3⟩ := okBind k2
  obtain ⟨g3, e3⟩ := digits2_inv hx3
  obtain ⟨⟨hh, b4⟩, hx4, k4⟩ := okBind k3
  obtain ⟨g4, e4⟩ := digits2_inv hx4
  obtain ⟨⟨mm, b5⟩, hx5, k5⟩ := okBind k4
  obtain ⟨g5, e5⟩ := digits2_inv hx5
  obtain ⟨⟨ss, b6⟩, hx6, k6⟩ := okBind k5
  obtain ⟨g6, e6⟩ := digits2_inv hx6
  clear hx0 hx1 hx2 hx3 hx4 hx5 hx6 h k0 k1 k2 k3 k4 k5
  subst e0 e1 e2 e3 e4 e5 e6
  simp only at k6
  have hq : ∃ frac us rest, FracText frac us ∧ b6 = frac ++ rest ∧
      fractionPart b6 = (us, rest) := by
    clear k6
    match b6 with
    | [] => exact ⟨[], 0, [], .none, rfl, rfl⟩
    | [x] => exact ⟨[], 0, [x], .none, rfl, rfl⟩
    | s :: x :: l =>
      by_cases hs : (s = 0x2E ∨ s = 0x2C) ∧ 48 ≤ x.toNat ∧ x.toNat ≤ 57
      · obtain ⟨ds, h1, h2, h3⟩ := fraction_inv 6 0 (x :: l)
        refine ⟨_, _, (fraction (10 ^ 6) 0 (x :: l)).2, .some s ds hs.1 ?_ h1, ?_, ?_⟩
        · rintro rfl
          exact fraction_stop (10 ^ 6) 0 (x :: l) x l (by simpa using h2.symm) hs.2
        · rw [List.cons_append, ← h2]
        · simp only [fractionPart, if_pos hs]
          rw [show (1000000 : Nat) = 10 ^ 6 from rfl]
          exact Prod.ext (by rw [h3]; simp) rfl
      · exact ⟨[], 0, _, .none, rfl, by simp only [fractionPart, if_neg hs]⟩
  obtain ⟨frac, us, rest, hf, hb, hm⟩ := hq
  rw [hm] at k6
  simp only at k6
  obtain ⟨z, hz, k7⟩ := okBind k6
  obtain ⟨t, ht, k8⟩ := okBind k7
  obtain ⟨hv, et⟩ := mkDatetime_inv (by omega) ht
  have hu : t - z = u := Except.ok.inj k8
  refine ⟨_, frac, us, rest, z, hv, hf, ?_, ?_, ?_⟩
  · rcases readZone_inv hz with h | ⟨_, h⟩
    · exact Or.inl h
    · exact Or.inr h
  · rw [← hu, et]
  · simp only [DTime.digits, DTime.rest, List.append_assoc]
    rw [show (c * 100 + y) / 100 = c by omega, show (c * 100 + y) % 100 = y by omega, hb]

theorem generalizedTime_text {t : DTime} (h : t.Valid) {frac : Bytes} {us : Nat} (hf : FracText frac us) {zone : Bytes} {z : Int}
    (hz : ZoneText zone z ∨ zone = [] ∧ z = 0) :
    generalizedTime (t.digits ++ frac ++ zone) = .ok (t.micros + us - z) := by
  have e := mkDatetime_valid h us
  obtain ⟨h1, h2, h3, h4, h5, h6, h7, h8, h9⟩ := h
  have := monthLength_le t.year t.month
  have hr : readZone true zone = .ok z := by
    rcases hz with hz | ⟨rfl, rfl⟩
    · exact readZone_text true hz
    · rfl
  have hstart : ∀ x l, zone = x :: l → ¬ (x = 0x2E ∨ x = 0x2C) ∧ ¬ (48 ≤ x.toNat ∧ x.toNat ≤ 57) := by
    intro x l hx
    rcases hz with hz | ⟨rfl, _⟩
    · cases hz with
      | utc => injection hx with hx _; subst hx; decide
      | offset ahead hh mm _ _ =>
        injection hx with hx _; subst hx; cases ahead <;> decide
    · cases hx
  unfold generalizedTime DTime.digits DTime.rest
  simp only [List.append_assoc, bind, Except.bind]
  rw [digits2_twoDigit (by omega)]; simp only
  rw [digits2_twoDigit (by omega)]; simp only
  rw [digits2_twoDigit (by omega)]; simp only
  rw [digits2_twoDigit (by omega)]; simp only
  rw [digits2_twoDigit (by omega)]; simp only
  rw [digits2_twoDigit (by omega)]; simp only
  rw [digits2_twoDigit (by omega)]; simp only
  rw [show t.year / 100 * 100 + t.year % 100 = t.year by omega]
  have hm : fractionPart (frac ++ zone) = (us, zone) := by
    cases hf with
    | none =>
      match zone, hstart with
      | [], _ => rfl
      | [x], _ => rfl
      | s :: x :: l, hs => simp [fractionPart, (hs s _ rfl).1]
    | some sep ds hsep hne hd =>
      obtain ⟨d, ds, rfl⟩ := List.exists_cons_of_ne_nil hne
      have hft := fraction_text 6 0 (d :: ds) hd zone (fun x l hx => (hstart x l hx).2)
      have h9 := hd d (List.mem_cons_self ..)
      simp only [List.map_cons, List.cons_append, fractionPart] at hft ⊢
      rw [if_pos ⟨hsep, by rw [toNat_ofNat_lt (by omega)]; omega, by rw [toNat_ofNat_lt (by omega)]; omega⟩,
        show (1000000 : Nat) = 10 ^ 6 from rfl, hft]
      simp
  rw [hm]
  simp only [hr, e]

end Signify.Asn1
