import Verif.Py.Float
import Mathlib.Tactic.Linarith
import Mathlib.Tactic.Ring
import Mathlib.Tactic.FieldSimp
import Mathlib.Tactic.Positivity
import Mathlib.Data.Rat.Floor
import Mathlib.Algebra.Order.Field.Power
import Mathlib.Algebra.Order.Floor.Ring

/-!
# Lemmas about rounding to floating point numbers
-/

namespace Ama

theorem roundEven_near (x : ℚ) : |x - roundEven x| ≤ 1 / 2 := by
  have h1 : ((x.floor : ℤ) : ℚ) ≤ x := Rat.floor_le x
  have h2 : x < (x.floor : ℤ) + 1 := by exact_mod_cast Rat.lt_floor_add_one x
  unfold roundEven
  simp only []
  rw [abs_le]
  split_ifs with h3 h4 h5 <;> push_cast <;> constructor <;> linarith

theorem roundEven_int (n : ℤ) : roundEven (n : ℚ) = n := by
  unfold roundEven
  have : (n : ℚ).floor = n := Rat.floor_intCast n
  simp [this]

theorem roundEven_mono {x y : ℚ} (h : x ≤ y) : roundEven x ≤ roundEven y := by
  have hx1 : ((x.floor : ℤ) : ℚ) ≤ x := Rat.floor_le x
  have hx2 : x < (x.floor : ℤ) + 1 := by exact_mod_cast Rat.lt_floor_add_one x
  have hy1 : ((y.floor : ℤ) : ℚ) ≤ y := Rat.floor_le y
  have hy2 : y < (y.floor : ℤ) + 1 := by exact_mod_cast Rat.lt_floor_add_one y
  have hf : x.floor ≤ y.floor := Rat.floor_monotone h
  rcases hf.lt_or_eq with hlt | heq
  · have hx : roundEven x ≤ x.floor + 1 := by
      unfold roundEven
      simp only []
      split_ifs <;> omega
    have hy : y.floor ≤ roundEven y := by
      unfold roundEven
      simp only []
      split_ifs <;> omega
    omega
  · unfold roundEven
    simp only [heq]
    rw [heq] at hx1 hx2
    split_ifs <;> first | omega | (exfalso; linarith)

theorem roundEven_neg (x : ℚ) : roundEven (-x) = -roundEven x := by
  by_cases hi : ∃ n : ℤ, x = n
  · obtain ⟨n, rfl⟩ := hi
    rw [roundEven_int, ← Int.cast_neg, roundEven_int]
  · have hx1 : ((x.floor : ℤ) : ℚ) < x :=
      lt_of_le_of_ne (Rat.floor_le x) fun h => hi ⟨_, h.symm⟩
    have hx2 : x < (x.floor : ℤ) + 1 := by exact_mod_cast Rat.lt_floor_add_one x
    have hf : (-x).floor = -x.floor - 1 := by
      have : ⌊-x⌋ = -⌊x⌋ - 1 := by
        rw [Int.floor_eq_iff]
        rw [show x.floor = ⌊x⌋ from rfl] at hx1 hx2
        push_cast
        constructor <;> linarith
      exact this
    unfold roundEven
    simp only [hf]
    push_cast
    split_ifs <;> first | omega | (exfalso; linarith)

theorem pow2_eq (e : ℤ) : pow2 e = (2 : ℚ) ^ e := by
  cases e with
  | ofNat n => simp [pow2]
  | negSucc n => simp [pow2, zpow_negSucc]

theorem pow2_pos (e : ℤ) : 0 < pow2 e := by
  rw [pow2_eq]
  positivity

theorem pow2_add (a b : ℤ) : pow2 (a + b) = pow2 a * pow2 b := by
  simp only [pow2_eq]
  exact zpow_add₀ two_ne_zero a b

theorem pow2_mono {a b : ℤ} (h : a ≤ b) : pow2 a ≤ pow2 b := by
  simp only [pow2_eq]
  exact zpow_le_zpow_right₀ one_le_two h

theorem pow2_nat (n : ℕ) : pow2 n = ((2 ^ n : ℤ) : ℚ) := by
  simp [pow2_eq]

theorem pow2_lt_iff {a b : ℤ} : pow2 a < pow2 b ↔ a < b := by
  simp only [pow2_eq]
  exact zpow_lt_zpow_iff_right₀ one_lt_two

/-- The exponent is what it should be. -/
theorem exponent_spec {x : ℚ} (hx : x ≠ 0) : pow2 (exponent x) ≤ |x| ∧ |x| < pow2 (exponent x + 1) := by
  have hn : x.num.natAbs ≠ 0 := by simpa using hx
  have hd : x.den ≠ 0 := x.den_nz
  have n1 := Nat.log2_self_le hn
  have n2 := Nat.lt_log2_self (n := x.num.natAbs)
  have d1 := Nat.log2_self_le hd
  have d2 := Nat.lt_log2_self (n := x.den)
  set a := Nat.log2 x.num.natAbs
  set b := Nat.log2 x.den
  have habs : |x| = (x.num.natAbs : ℚ) / x.den := by
    conv_lhs => rw [← Rat.num_div_den x]
    rw [abs_div, Nat.abs_cast, ← Int.cast_abs, Int.abs_eq_natAbs]
    simp
  have n1' : (2 : ℚ) ^ a ≤ x.num.natAbs := by exact_mod_cast n1
  have n2' : (x.num.natAbs : ℚ) < 2 ^ (a + 1) := by exact_mod_cast n2
  have d1' : (2 : ℚ) ^ b ≤ x.den := by exact_mod_cast d1
  have d2' : (x.den : ℚ) < 2 ^ (b + 1) := by exact_mod_cast d2
  have hdpos : (0 : ℚ) < x.den := by exact_mod_cast Nat.pos_of_ne_zero hd
  have up : |x| < pow2 ((a : ℤ) - b + 1) := by
    rw [habs, div_lt_iff₀ hdpos, pow2_eq, show (a : ℤ) - b + 1 = ((a + 1 : ℕ) : ℤ) - (b : ℕ) by push_cast; ring,
      zpow_sub₀ two_ne_zero, zpow_natCast, zpow_natCast]
    have : (2 : ℚ) ^ (a + 1) ≤ 2 ^ (a + 1) / 2 ^ b * x.den := by
      rw [div_mul_eq_mul_div, le_div_iff₀ (by positivity)]
      exact mul_le_mul_of_nonneg_left d1' (by positivity)
    linarith
  have lo : pow2 ((a : ℤ) - b - 1) ≤ |x| := by
    rw [habs, le_div_iff₀ hdpos, pow2_eq, show (a : ℤ) - b - 1 = ((a : ℕ) : ℤ) - ((b + 1 : ℕ)) by push_cast; ring,
      zpow_sub₀ two_ne_zero, zpow_natCast, zpow_natCast]
    have : (2 : ℚ) ^ a / 2 ^ (b + 1) * x.den ≤ 2 ^ a := by
      rw [div_mul_eq_mul_div, div_le_iff₀ (by positivity)]
      exact mul_le_mul_of_nonneg_left d2'.le (by positivity)
    linarith
  unfold exponent
  simp only []
  split_ifs with h
  · exact ⟨h, up⟩
  · rw [show (a : ℤ) - b - 1 + 1 = (a : ℤ) - b by ring]
    exact ⟨lo, not_le.1 h⟩

theorem exponent_unique {x : ℚ} {e : ℤ} (h1 : pow2 e ≤ |x|) (h2 : |x| < pow2 (e + 1)) : exponent x = e := by
  have hx : x ≠ 0 := by
    rintro rfl
    have := pow2_pos e
    simp at h1
    linarith
  obtain ⟨g1, g2⟩ := exponent_spec hx
  have := pow2_lt_iff.1 (lt_of_le_of_lt h1 g2)
  have := pow2_lt_iff.1 (lt_of_le_of_lt g1 h2)
  omega

theorem exponent_neg (x : ℚ) : exponent (-x) = exponent x := by
  unfold exponent
  simp

theorem float64_neg (x : ℚ) : float64 (-x) = -float64 x := by
  unfold float64
  simp only [neg_eq_zero, exponent_neg, neg_div, roundEven_neg]
  split_ifs
  · simp
  · push_cast
    ring

theorem exponent_mono {x y : ℚ} (hx : 0 < x) (h : x ≤ y) : exponent x ≤ exponent y := by
  have hy := lt_of_lt_of_le hx h
  have h1 := (exponent_spec hx.ne').1
  have h2 := (exponent_spec hy.ne').2
  rw [abs_of_pos hx] at h1
  rw [abs_of_pos hy] at h2
  have := pow2_lt_iff.1 (lt_of_le_of_lt (h1.trans h) h2)
  omega

theorem ulp_pow (e : ℤ) (k : ℕ) : pow2 (e + k) / pow2 (e) = ((2 ^ k : ℤ) : ℚ) := by
  rw [pow2_add, mul_div_cancel_left₀ _ (pow2_pos e).ne', pow2_nat]

/-- The result lies in the same binade, or is its upper end. -/
theorem float64_binade {x : ℚ} (hx : 0 < x) :
    pow2 (exponent x) ≤ float64 x ∧ float64 x ≤ pow2 (exponent x + 1) := by
  obtain ⟨h1, h2⟩ := exponent_spec hx.ne'
  rw [abs_of_pos hx] at h1 h2
  unfold float64
  rw [if_neg hx.ne']
  simp only []
  set e := exponent x
  set u := pow2 (e - 52) with hu
  have hup : 0 < u := pow2_pos _
  have k1 : pow2 e / u = ((2 ^ 52 : ℤ) : ℚ) := by
    have := ulp_pow (e - 52) 52
    rwa [show e - 52 + ((52 : ℕ) : ℤ) = e by push_cast; ring] at this
  have k2 : pow2 (e + 1) / u = ((2 ^ 53 : ℤ) : ℚ) := by
    have := ulp_pow (e - 52) 53
    rwa [show e - 52 + ((53 : ℕ) : ℤ) = e + 1 by push_cast; ring] at this
  constructor
  · have : roundEven (pow2 e / u) ≤ roundEven (x / u) :=
      roundEven_mono (div_le_div_of_nonneg_right h1 hup.le)
    rw [k1, roundEven_int] at this
    have h' : pow2 e = u * ((2 ^ 52 : ℤ) : ℚ) := by rw [← k1]; field_simp
    rw [h']
    exact mul_le_mul_of_nonneg_left (by exact_mod_cast this) hup.le
  · have : roundEven (x / u) ≤ roundEven (pow2 (e + 1) / u) :=
      roundEven_mono (div_le_div_of_nonneg_right h2.le hup.le)
    rw [k2, roundEven_int] at this
    have h' : pow2 (e + 1) = u * ((2 ^ 53 : ℤ) : ℚ) := by rw [← k2]; field_simp
    rw [h']
    exact mul_le_mul_of_nonneg_left (by exact_mod_cast this) hup.le

theorem float64_pos {x : ℚ} (hx : 0 < x) : 0 < float64 x :=
  lt_of_lt_of_le (pow2_pos _) (float64_binade hx).1

theorem float64_zero : float64 0 = 0 := by simp [float64]

theorem float64_mono_pos {x y : ℚ} (hx : 0 < x) (h : x ≤ y) : float64 x ≤ float64 y := by
  have hy := lt_of_lt_of_le hx h
  rcases (exponent_mono hx h).lt_or_eq with hlt | heq
  · have h1 := (float64_binade hx).2
    have h2 := (float64_binade hy).1
    exact h1.trans ((pow2_mono (by omega)).trans h2)
  · unfold float64
    rw [if_neg hx.ne', if_neg hy.ne']
    simp only [heq]
    refine mul_le_mul_of_nonneg_left ?_ (pow2_pos _).le
    exact_mod_cast roundEven_mono (div_le_div_of_nonneg_right h (pow2_pos _).le)

/-- Rounding respects the order. -/
theorem float64_mono {x y : ℚ} (h : x ≤ y) : float64 x ≤ float64 y := by
  rcases lt_trichotomy x 0 with hx | rfl | hx
  · rcases lt_or_ge y 0 with hy | hy
    · have := float64_mono_pos (x := -y) (y := -x) (by linarith) (by linarith)
      rw [float64_neg, float64_neg] at this
      linarith
    · have h1 := float64_pos (x := -x) (by linarith)
      rw [float64_neg] at h1
      have h2 : 0 ≤ float64 y := by
        rcases hy.eq_or_lt with rfl | hy
        · rw [float64_zero]
        · exact (float64_pos hy).le
      linarith
  · rw [float64_zero]
    rcases h.eq_or_lt with rfl | hy
    · rw [float64_zero]
    · exact (float64_pos hy).le
  · exact float64_mono_pos hx h

/-- Numbers with at most 53 binary digits are not changed. -/
theorem float64_exact {x : ℚ} (k : ℤ) (hk : x = pow2 (exponent x - 52) * k) : float64 x = x := by
  by_cases hx : x = 0
  · rw [hx, float64_zero]
  · unfold float64
    rw [if_neg hx]
    simp only []
    have hu := (pow2_pos (exponent x - 52)).ne'
    have : x / pow2 (exponent x - 52) = (k : ℚ) := by
      rw [div_eq_iff hu, mul_comm]
      exact hk
    rw [this, roundEven_int]
    exact hk.symm

/-- Rounding twice is rounding once. -/
theorem float64_idem (x : ℚ) : float64 (float64 x) = float64 x := by
  have pos : ∀ x : ℚ, 0 < x → float64 (float64 x) = float64 x := by
    intro x hx
    obtain ⟨h1, h2⟩ := float64_binade hx
    have hp := float64_pos hx
    rcases h2.lt_or_eq with hlt | heq
    · have he : exponent (float64 x) = exponent x := by
        apply exponent_unique
        · rwa [abs_of_pos hp]
        · rwa [abs_of_pos hp]
      refine float64_exact (roundEven (x / pow2 (exponent x - 52))) ?_
      rw [he]
      conv_lhs => unfold float64
      rw [if_neg hx.ne']
    · rw [heq]
      have he : exponent (pow2 (exponent x + 1)) = exponent x + 1 := by
        apply exponent_unique
        · rw [abs_of_pos (pow2_pos _)]
        · rw [abs_of_pos (pow2_pos _)]
          exact pow2_lt_iff.2 (by omega)
      refine float64_exact (2 ^ 52) ?_
      rw [he]
      have := ulp_pow (exponent x + 1 - 52) 52
      rw [show exponent x + 1 - 52 + ((52 : ℕ) : ℤ) = exponent x + 1 by push_cast; ring,
        div_eq_iff (pow2_pos _).ne'] at this
      rw [mul_comm]
      exact this
  rcases lt_trichotomy x 0 with hx | rfl | hx
  · have := pos (-x) (by linarith)
    rw [float64_neg, float64_neg] at this
    linarith
  · rw [float64_zero, float64_zero]
  · exact pos x hx

/-- Integers up to `2 ^ 53` are not changed. -/
theorem float64_int {n : ℤ} (h : |n| ≤ 2 ^ 53) : float64 (n : ℚ) = n := by
  by_cases hn : n = 0
  · rw [hn]
    simpa using float64_zero
  · have hn' : (n : ℚ) ≠ 0 := by exact_mod_cast hn
    obtain ⟨h1, h2⟩ := exponent_spec hn'
    have hle : |(n : ℚ)| ≤ pow2 53 := by
      rw [show (53 : ℤ) = ((53 : ℕ) : ℤ) from rfl, pow2_nat]
      exact_mod_cast h
    have he : exponent (n : ℚ) ≤ 53 := by
      by_contra hc
      have := pow2_lt_iff.2 (show (53 : ℤ) < exponent (n : ℚ) by omega)
      linarith
    rcases he.lt_or_eq with hlt | heq
    · refine float64_exact (n * 2 ^ (52 - exponent (n : ℚ)).toNat) ?_
      have : pow2 (exponent (n : ℚ) - 52) * pow2 (52 - exponent (n : ℚ)) = 1 := by
        rw [← pow2_add]
        simp [pow2]
      have h3 : pow2 (52 - exponent (n : ℚ)) = ((2 ^ (52 - exponent (n : ℚ)).toNat : ℤ) : ℚ) := by
        rw [← pow2_nat, Int.toNat_of_nonneg (by omega)]
      push_cast at h3 ⊢
      rw [← h3, ← mul_assoc, mul_comm _ (n : ℚ), mul_assoc, this, mul_one]
    · have hge : pow2 53 ≤ |(n : ℚ)| := by rwa [heq] at h1
      have habs : |(n : ℚ)| = pow2 53 := le_antisymm hle hge
      have h52 : pow2 53 = pow2 1 * ((2 ^ 52 : ℤ) : ℚ) := by
        rw [show (53 : ℤ) = 1 + (52 : ℕ) by norm_num, pow2_add, pow2_nat]
      rcases abs_eq (pow2_pos 53).le |>.1 habs with h4 | h4
      · refine float64_exact (2 ^ 52) ?_
        rw [heq, h4]
        norm_num
        rw [h52]
        norm_num
      · refine float64_exact (-2 ^ 52) ?_
        rw [heq, h4]
        norm_num
        rw [h52]
        norm_num

/-- The relative error of rounding. -/
theorem float64_error (x : ℚ) : |float64 x - x| ≤ |x| / 2 ^ 53 := by
  by_cases hx : x = 0
  · rw [hx, float64_zero]
    simp
  · obtain ⟨h1, -⟩ := exponent_spec hx
    unfold float64
    rw [if_neg hx]
    simp only []
    set u := pow2 (exponent x - 52)
    have hup : 0 < u := pow2_pos _
    have h2 := roundEven_near (x / u)
    have h3 : u * roundEven (x / u) - x = -(u * (x / u - roundEven (x / u))) := by
      field_simp
      ring
    rw [h3, abs_neg, abs_mul, abs_of_pos hup]
    have h4 : u * 2 ^ 52 ≤ |x| := by
      have := ulp_pow (exponent x - 52) 52
      rw [show exponent x - 52 + ((52 : ℕ) : ℤ) = exponent x by push_cast; ring, div_eq_iff hup.ne'] at this
      rw [this] at h1
      push_cast at h1
      linarith
    have h5 : u * |x / u - roundEven (x / u)| ≤ u * (1 / 2) := mul_le_mul_of_nonneg_left h2 hup.le
    refine h5.trans ?_
    rw [le_div_iff₀ (by positivity)]
    norm_num at h4 ⊢
    linarith

theorem pyRound2_mono {x y : ℚ} (h : x ≤ y) : pyRound2 x ≤ pyRound2 y := by
  unfold pyRound2
  apply float64_mono
  have : roundEven (100 * x) ≤ roundEven (100 * y) := roundEven_mono (by linarith)
  exact div_le_div_of_nonneg_right (by exact_mod_cast this) (by norm_num)

end Ama
