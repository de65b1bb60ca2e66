import Verif.Model.FileTime

set_option autoImplicit false

namespace Signify

theorem rhe_cases (n d : Nat) : roundHalfEven n d = n / d ∨ roundHalfEven n d = n / d + 1 := by
  unfold roundHalfEven
  split
  · exact .inl rfl
  · split
    · exact .inr rfl
    · split
      · exact .inl rfl
      · exact .inr rfl

theorem rhe_bounds (n d : Nat) (hd : 0 < d) :
    2 * (roundHalfEven n d * d) ≤ 2 * n + d ∧ 2 * n ≤ 2 * (roundHalfEven n d * d) + d := by
  have h := Nat.div_add_mod n d
  have hlt := Nat.mod_lt n hd
  have hm : d * (n / d) = n / d * d := Nat.mul_comm _ _
  unfold roundHalfEven
  have e : (n / d + 1) * d = n / d * d + d := by rw [Nat.add_mul, Nat.one_mul]
  split
  · omega
  · split
    · rw [e]; omega
    · split
      · omega
      · rw [e]; omega

theorem rhe_mul (q d : Nat) (hd : 0 < d) : roundHalfEven (q * d) d = q := by
  unfold roundHalfEven
  rw [Nat.mul_mod_left, Nat.mul_div_cancel _ hd]
  simp [hd]

theorem rhe_mono {n m : Nat} (d : Nat) (h : n ≤ m) : roundHalfEven n d ≤ roundHalfEven m d := by
  have hq : n / d ≤ m / d := Nat.div_le_div_right h
  rcases Nat.lt_or_ge (n / d) (m / d) with hlt | hge
  · rcases rhe_cases n d with h1 | h1 <;> rcases rhe_cases m d with h2 | h2 <;> omega
  · have heq : n / d = m / d := by omega
    have hr : n % d ≤ m % d := by
      have h1 := Nat.div_add_mod n d
      have h2 := Nat.div_add_mod m d
      rw [heq] at h1
      omega
    unfold roundHalfEven
    rw [heq]
    generalize m / d = q at *
    generalize n % d = r at *
    generalize m % d = s at *
    repeat' split
    all_goals omega

/-- `toDouble` with an arbitrary unit. -/
def tdK (K n d : Nat) : Nat :=
  let b := Nat.log2 (n * K / d)
  roundHalfEven (n * K) (d * 2 ^ (b - 52)) * 2 ^ (b - 52)

theorem toDouble_tdK (n d : Nat) : toDouble n d = tdK (2 ^ 100) n d := rfl

/-- The rounding position. -/
def ulp (K n d : Nat) : Nat := 2 ^ (Nat.log2 (n * K / d) - 52)

theorem tdK_eq (K n d : Nat) : tdK K n d = roundHalfEven (n * K) (d * ulp K n d) * ulp K n d := rfl

theorem ulp_pos (K n d : Nat) : 0 < ulp K n d := Nat.two_pow_pos _

theorem tdK_bounds (K n d : Nat) (hd : 0 < d) :
    2 * (tdK K n d * d) ≤ 2 * (n * K) + d * ulp K n d ∧
    2 * (n * K) ≤ 2 * (tdK K n d * d) + d * ulp K n d := by
  have h := rhe_bounds (n * K) (d * ulp K n d) (Nat.mul_pos hd (ulp_pos K n d))
  have e : tdK K n d * d = roundHalfEven (n * K) (d * ulp K n d) * (d * ulp K n d) := by
    rw [tdK_eq, Nat.mul_assoc, Nat.mul_comm (ulp K n d) d]
  rw [e]
  exact h

/-- Rounding never crosses a power of two at or above the value. -/
theorem tdK_le_pow {K n d k : Nat} (hd : 0 < d) (hk : Nat.log2 (n * K / d) - 52 ≤ k)
    (h : n * K ≤ d * 2 ^ k) : tdK K n d ≤ 2 ^ k := by
  unfold tdK
  simp only
  generalize Nat.log2 (n * K / d) - 52 = e at *
  have hpos : 0 < d * 2 ^ e := Nat.mul_pos hd (Nat.two_pow_pos e)
  have e2 : d * 2 ^ k = 2 ^ (k - e) * (d * 2 ^ e) := by
    rw [Nat.mul_left_comm, ← Nat.pow_add, Nat.sub_add_cancel hk]
  have h1 := rhe_mono (d * 2 ^ e) h
  rw [e2, rhe_mul _ _ hpos] at h1
  calc _ ≤ 2 ^ (k - e) * 2 ^ e := Nat.mul_le_mul_right _ h1
    _ = 2 ^ k := by rw [← Nat.pow_add, Nat.sub_add_cancel hk]

/-- Rounding never crosses a power of two at or below the value. -/
theorem pow_le_tdK {K n d k : Nat} (hd : 0 < d) (hk : Nat.log2 (n * K / d) - 52 ≤ k)
    (h : d * 2 ^ k ≤ n * K) : 2 ^ k ≤ tdK K n d := by
  unfold tdK
  simp only
  generalize Nat.log2 (n * K / d) - 52 = e at *
  have hpos : 0 < d * 2 ^ e := Nat.mul_pos hd (Nat.two_pow_pos e)
  have e2 : d * 2 ^ k = 2 ^ (k - e) * (d * 2 ^ e) := by
    rw [Nat.mul_left_comm, ← Nat.pow_add, Nat.sub_add_cancel hk]
  have h1 := rhe_mono (d * 2 ^ e) h
  rw [e2, rhe_mul _ _ hpos] at h1
  calc 2 ^ k = 2 ^ (k - e) * 2 ^ e := by rw [← Nat.pow_add, Nat.sub_add_cancel hk]
    _ ≤ _ := Nat.mul_le_mul_right _ h1

theorem tdK_mono {K n m : Nat} (d : Nat) (hd : 0 < d) (h : n ≤ m) : tdK K n d ≤ tdK K m d := by
  have hx : n * K ≤ m * K := Nat.mul_le_mul_right _ h
  have hq : n * K / d ≤ m * K / d := Nat.div_le_div_right hx
  by_cases hn : n * K / d = 0
  · -- the ulp is the smallest one on the left
    by_cases hb : Nat.log2 (n * K / d) = Nat.log2 (m * K / d)
    · rw [tdK_eq, tdK_eq, ulp, ulp, hb]
      exact Nat.mul_le_mul_right _ (rhe_mono _ hx)
    · have hm : m * K / d ≠ 0 := by
        intro h0; rw [hn, h0] at hb; exact hb rfl
      have h1 : n * K ≤ d * 2 ^ 0 := by
        rw [Nat.pow_zero, Nat.mul_one]
        have := (Nat.div_eq_zero_iff).mp hn
        omega
      have h2 : tdK K n d ≤ 2 ^ 0 := tdK_le_pow hd (by rw [hn]; simp) h1
      have h3 : 2 ^ (Nat.log2 (m * K / d)) ≤ tdK K m d := by
        refine pow_le_tdK hd (by omega) ?_
        have := Nat.log2_self_le hm
        calc d * 2 ^ _ ≤ d * (m * K / d) := Nat.mul_le_mul_left _ this
          _ ≤ m * K := Nat.mul_div_le _ _
      have h4 : 2 ^ 0 ≤ 2 ^ (Nat.log2 (m * K / d)) := Nat.pow_le_pow_right (by decide) (by omega)
      omega
  · have hm : m * K / d ≠ 0 := fun h0 => hn (Nat.le_zero.mp (h0 ▸ hq))
    have hle : Nat.log2 (n * K / d) ≤ Nat.log2 (m * K / d) := by
      rw [Nat.le_log2 hm]
      exact Nat.le_trans (Nat.log2_self_le hn) hq
    by_cases hb : Nat.log2 (n * K / d) = Nat.log2 (m * K / d)
    · rw [tdK_eq, tdK_eq, ulp, ulp, hb]
      exact Nat.mul_le_mul_right _ (rhe_mono _ hx)
    · have h2 : tdK K n d ≤ 2 ^ (Nat.log2 (n * K / d) + 1) := by
        refine tdK_le_pow hd (by omega) ?_
        have := @Nat.lt_log2_self (n * K / d)
        have h5 := (Nat.div_lt_iff_lt_mul hd).mp this
        rw [Nat.mul_comm d]
        omega
      have h3 : 2 ^ (Nat.log2 (m * K / d)) ≤ tdK K m d := by
        refine pow_le_tdK hd (by omega) ?_
        have := Nat.log2_self_le hm
        calc d * 2 ^ _ ≤ d * (m * K / d) := Nat.mul_le_mul_left _ this
          _ ≤ m * K := Nat.mul_div_le _ _
      have h4 : 2 ^ (Nat.log2 (n * K / d) + 1) ≤ 2 ^ (Nat.log2 (m * K / d)) :=
        Nat.pow_le_pow_right (by decide) (by omega)
      omega

/-- A value with at most 53 significant bits is represented exactly: `n / d = q * 2 ^ t` with `q < 2 ^ 53`. -/
theorem tdK_exact {u n d q t : Nat} (hd : 0 < d) (hq : q < 2 ^ 53) (h : n = q * 2 ^ t * d) :
    tdK (2 ^ u) n d = q * 2 ^ t * 2 ^ u := by
  have e1 : n * 2 ^ u / d = q * 2 ^ (t + u) := by
    rw [h, Nat.mul_right_comm, Nat.mul_div_cancel _ hd, Nat.mul_assoc, Nat.pow_add]
  have hlog : Nat.log2 (q * 2 ^ (t + u)) - 52 ≤ t + u := by
    by_cases h0 : q * 2 ^ (t + u) = 0
    · rw [h0]; simp
    · have : Nat.log2 (q * 2 ^ (t + u)) < 53 + (t + u) := by
        rw [Nat.log2_lt h0, Nat.pow_add 2 53]
        exact Nat.mul_lt_mul_of_pos_right hq (Nat.two_pow_pos _)
      omega
  unfold tdK
  simp only
  rw [e1]
  generalize Nat.log2 (q * 2 ^ (t + u)) - 52 = e at *
  have hpos : 0 < d * 2 ^ e := Nat.mul_pos hd (Nat.two_pow_pos e)
  have e2 : n * 2 ^ u = (q * 2 ^ (t + u - e)) * (d * 2 ^ e) := by
    rw [h]
    have : 2 ^ (t + u - e) * 2 ^ e = 2 ^ t * 2 ^ u := by
      rw [← Nat.pow_add, Nat.sub_add_cancel hlog, Nat.pow_add]
    calc q * 2 ^ t * d * 2 ^ u = q * d * (2 ^ t * 2 ^ u) := by
          rw [Nat.mul_right_comm q, Nat.mul_assoc (q * d)]
      _ = q * d * (2 ^ (t + u - e) * 2 ^ e) := by rw [this]
      _ = _ := by rw [← Nat.mul_assoc, Nat.mul_right_comm q d, Nat.mul_assoc]
  rw [e2, rhe_mul _ _ hpos, Nat.mul_assoc, ← Nat.pow_add, Nat.sub_add_cancel hlog, Nat.pow_add, Nat.mul_assoc]

theorem timedeltaUs_mono {a b : Nat} (h : a ≤ b) : timedeltaUs a ≤ timedeltaUs b :=
  rhe_mono _ h

theorem timedeltaUs_mul (q : Nat) : timedeltaUs (q * 2 ^ 100) = q := rhe_mul _ _ (Nat.two_pow_pos _)

theorem leNat_packLE : ∀ (n v : Nat), v < 256 ^ n → leNat (packLE n v) = v
  | 0, v, h => by simp at h; simp [packLE, leNat, h]
  | n + 1, v, h => by
    simp only [packLE, leNat]
    rw [leNat_packLE n (v / 256) (by rw [Nat.pow_succ] at h; omega)]
    have : (UInt8.ofNat (v % 256)).toNat = v % 256 := by
      simp [UInt8.toNat_ofNat']
    rw [this]
    omega

theorem packLE_length : ∀ (n v : Nat), (packLE n v).length = n
  | 0, _ => rfl
  | n + 1, v => by simp [packLE, packLE_length n]

/-- Accuracy of `value / 10` followed by the rounding of `timedelta`, for a unit `2 ^ u`. -/
theorem tdK_near {u v : Nat} (h : v < 10 * 2 ^ 54) (hu : 0 < u) :
    v ≤ 10 * roundHalfEven (tdK (2 ^ u) v 10) (2 ^ u) + 10 ∧ 10 * roundHalfEven (tdK (2 ^ u) v 10) (2 ^ u) ≤ v + 10 := by
  obtain ⟨b1, b2⟩ := tdK_bounds (2 ^ u) v 10 (by decide)
  have hK := Nat.two_pow_pos u
  rcases Nat.lt_or_ge (Nat.log2 (v * 2 ^ u / 10)) (u + 53) with hl | hl
  · have hulp : ulp (2 ^ u) v 10 ≤ 2 ^ u := by
      unfold ulp
      exact Nat.pow_le_pow_right (by decide) (by omega)
    obtain ⟨c1, c2⟩ := rhe_bounds (tdK (2 ^ u) v 10) (2 ^ u) hK
    generalize tdK (2 ^ u) v 10 = x at *
    generalize roundHalfEven x (2 ^ u) = y at *
    generalize ulp (2 ^ u) v 10 = w at *
    generalize 2 ^ u = K at *
    constructor
    · refine Nat.le_of_mul_le_mul_right ?_ hK
      have : (10 * y + 10) * K = 10 * (y * K) + 10 * K := by rw [Nat.add_mul, Nat.mul_assoc]
      omega
    · refine Nat.le_of_mul_le_mul_right ?_ hK
      have : (v + 10) * K = v * K + 10 * K := by rw [Nat.add_mul]
      have : (10 * y) * K = 10 * (y * K) := by rw [Nat.mul_assoc]
      omega
  · have hlt : Nat.log2 (v * 2 ^ u / 10) < u + 54 := by
      by_cases h0 : v * 2 ^ u / 10 = 0
      · rw [h0]; simp
      · rw [Nat.log2_lt h0]
        refine (Nat.div_lt_iff_lt_mul (by decide)).mpr ?_
        have : v * 2 ^ u < 10 * 2 ^ 54 * 2 ^ u := Nat.mul_lt_mul_of_pos_right h hK
        have e : (2 : Nat) ^ (u + 54) * 10 = 10 * 2 ^ 54 * 2 ^ u := by rw [Nat.pow_add, Nat.mul_comm, Nat.mul_comm (2 ^ u), Nat.mul_assoc]
        omega
    have hlog : Nat.log2 (v * 2 ^ u / 10) - 52 = u + 1 := by omega
    have hul : ulp (2 ^ u) v 10 = 2 * 2 ^ u := by
      unfold ulp
      rw [hlog, Nat.pow_succ, Nat.mul_comm]
    have e3 : tdK (2 ^ u) v 10 = roundHalfEven (v * 2 ^ u) (10 * (2 * 2 ^ u)) * 2 * 2 ^ u := by
      rw [tdK_eq, hul, Nat.mul_assoc]
    rw [e3, hul] at b1 b2
    rw [e3, rhe_mul _ _ hK]
    generalize roundHalfEven (v * 2 ^ u) (10 * (2 * 2 ^ u)) * 2 = y at *
    generalize 2 ^ u = K at *
    have e1 : y * K * 10 = 10 * (y * K) := Nat.mul_comm _ _
    constructor
    · refine Nat.le_of_mul_le_mul_right ?_ hK
      have : (10 * y + 10) * K = 10 * (y * K) + 10 * K := by rw [Nat.add_mul, Nat.mul_assoc]
      omega
    · refine Nat.le_of_mul_le_mul_right ?_ hK
      have : (v + 10) * K = v * K + 10 * K := by rw [Nat.add_mul]
      have : (10 * y) * K = 10 * (y * K) := by rw [Nat.mul_assoc]
      omega

/-- From 2⁵³ microseconds on, where the floating-point numbers are `2 ^ (k + 1)` microseconds apart. -/
theorem tdK_late {u v k : Nat} (h0 : 10 * 2 ^ (53 + k) ≤ v) (h : v < 10 * 2 ^ (54 + k)) :
    ∃ m, roundHalfEven (tdK (2 ^ u) v 10) (2 ^ u) = m * 2 ^ (k + 1) ∧
      v ≤ 10 * (m * 2 ^ (k + 1)) + 10 * 2 ^ k ∧ 10 * (m * 2 ^ (k + 1)) ≤ v + 10 * 2 ^ k := by
  obtain ⟨b1, b2⟩ := tdK_bounds (2 ^ u) v 10 (by decide)
  have hK := Nat.two_pow_pos u
  have hne : v * 2 ^ u / 10 ≠ 0 := by
    have : 1 ≤ 2 ^ (53 + k) := Nat.two_pow_pos _
    have : v * 1 ≤ v * 2 ^ u := Nat.mul_le_mul_left _ hK
    omega
  have hge : u + (53 + k) ≤ Nat.log2 (v * 2 ^ u / 10) := by
    rw [Nat.le_log2 hne]
    refine (Nat.le_div_iff_mul_le (by decide)).mpr ?_
    have : 10 * 2 ^ (53 + k) * 2 ^ u ≤ v * 2 ^ u := Nat.mul_le_mul_right _ h0
    have e : (2 : Nat) ^ (u + (53 + k)) * 10 = 10 * 2 ^ (53 + k) * 2 ^ u := by rw [Nat.pow_add, Nat.mul_comm, Nat.mul_comm (2 ^ u), Nat.mul_assoc]
    omega
  have hlt : Nat.log2 (v * 2 ^ u / 10) < u + (54 + k) := by
    rw [Nat.log2_lt hne]
    refine (Nat.div_lt_iff_lt_mul (by decide)).mpr ?_
    have : v * 2 ^ u < 10 * 2 ^ (54 + k) * 2 ^ u := Nat.mul_lt_mul_of_pos_right h hK
    have e : (2 : Nat) ^ (u + (54 + k)) * 10 = 10 * 2 ^ (54 + k) * 2 ^ u := by rw [Nat.pow_add, Nat.mul_comm, Nat.mul_comm (2 ^ u), Nat.mul_assoc]
    omega
  have hlog : Nat.log2 (v * 2 ^ u / 10) - 52 = (k + 1) + u := by omega
  have hul : ulp (2 ^ u) v 10 = 2 ^ (k + 1) * 2 ^ u := by
    unfold ulp
    rw [hlog, Nat.pow_add]
  have e3 : tdK (2 ^ u) v 10 = roundHalfEven (v * 2 ^ u) (10 * (2 ^ (k + 1) * 2 ^ u)) * 2 ^ (k + 1) * 2 ^ u := by
    rw [tdK_eq, hul, Nat.mul_assoc]
  rw [e3, hul] at b1 b2
  refine ⟨roundHalfEven (v * 2 ^ u) (10 * (2 ^ (k + 1) * 2 ^ u)), ?_, ?_⟩
  · rw [e3, rhe_mul _ _ hK]
  generalize roundHalfEven (v * 2 ^ u) (10 * (2 ^ (k + 1) * 2 ^ u)) * 2 ^ (k + 1) = y at *
  have e4 : 2 ^ (k + 1) * 2 ^ u = 2 * (2 ^ k * 2 ^ u) := by rw [Nat.pow_succ, Nat.mul_comm (2 ^ k) 2, Nat.mul_assoc]
  rw [e4] at b1 b2
  generalize 2 ^ u = K at *
  generalize 2 ^ k = L at *
  have e1 : y * K * 10 = 10 * (y * K) := Nat.mul_comm _ _
  constructor
  · refine Nat.le_of_mul_le_mul_right ?_ hK
    have : (10 * y + 10 * L) * K = 10 * (y * K) + 10 * (L * K) := by rw [Nat.add_mul, Nat.mul_assoc, Nat.mul_assoc]
    omega
  · refine Nat.le_of_mul_le_mul_right ?_ hK
    have : (v + 10 * L) * K = v * K + 10 * (L * K) := by rw [Nat.add_mul, Nat.mul_assoc]
    have : (10 * y) * K = 10 * (y * K) := by rw [Nat.mul_assoc]
    omega

theorem timedelta_toDouble_late {v k : Nat} (h0 : 10 * 2 ^ (53 + k) ≤ v) (h : v < 10 * 2 ^ (54 + k)) :
    ∃ m, timedeltaUs (toDouble v 10) = m * 2 ^ (k + 1) ∧
      v ≤ 10 * (m * 2 ^ (k + 1)) + 10 * 2 ^ k ∧ 10 * (m * 2 ^ (k + 1)) ≤ v + 10 * 2 ^ k := tdK_late (u := 100) h0 h

theorem timedelta_toDouble_near {v : Nat} (h : v < 10 * 2 ^ 54) :
    v ≤ 10 * timedeltaUs (toDouble v 10) + 10 ∧ 10 * timedeltaUs (toDouble v 10) ≤ v + 10 :=
  tdK_near (u := 100) h (by decide)

theorem toDouble_mono {n m : Nat} (d : Nat) (hd : 0 < d) (h : n ≤ m) : toDouble n d ≤ toDouble m d :=
  tdK_mono (K := 2 ^ 100) d hd h

theorem toDouble_exact {n d q t : Nat} (hd : 0 < d) (hq : q < 2 ^ 53) (h : n = q * 2 ^ t * d) :
    toDouble n d = q * 2 ^ t * 2 ^ 100 := tdK_exact (u := 100) hd hq h

end Signify
