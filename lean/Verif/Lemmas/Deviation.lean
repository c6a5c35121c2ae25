import Mathlib.Analysis.Real.Sqrt
import Mathlib.Algebra.Order.BigOperators.Ring.Finset
import Mathlib.Tactic.Linarith
import Mathlib.Tactic.Positivity

/-!
# Lemmas about the standard deviation of weighted values
-/

namespace Ama.Deviation

open Finset

variable {ι : Type} [Fintype ι] (p : ι → ℝ)

/-- The mean with weights `p`. -/
def wmean (x : ι → ℝ) : ℝ := ∑ i, p i * x i

/-- The variance with weights `p`. -/
def wvar (x : ι → ℝ) : ℝ := wmean p (fun i => x i ^ 2) - wmean p x ^ 2

variable {p}

theorem wvar_eq (h1 : ∑ i, p i = 1) (x : ι → ℝ) : wvar p x = ∑ i, p i * (x i - wmean p x) ^ 2 := by
  have e : ∀ i, p i * (x i - wmean p x) ^ 2 = p i * x i ^ 2 - 2 * wmean p x * (p i * x i) + wmean p x ^ 2 * p i := by
    intro i; ring
  simp only [e, sum_add_distrib, sum_sub_distrib, ← mul_sum, h1]
  unfold wvar wmean
  ring

theorem wvar_nonneg (hp : ∀ i, 0 ≤ p i) (h1 : ∑ i, p i = 1) (x : ι → ℝ) : 0 ≤ wvar p x := by
  rw [wvar_eq h1]
  exact sum_nonneg fun i _ => mul_nonneg (hp i) (sq_nonneg _)

/-- The triangle inequality for standard deviations. -/
theorem sqrt_wvar_add (hp : ∀ i, 0 ≤ p i) (h1 : ∑ i, p i = 1) (x z : ι → ℝ) :
    √(wvar p (fun i => x i + z i)) ≤ √(wvar p x) + √(wvar p z) := by
  have hx := wvar_nonneg hp h1 x
  have hz := wvar_nonneg hp h1 z
  rw [Real.sqrt_le_left (by positivity)]
  have em : wmean p (fun i => x i + z i) = wmean p x + wmean p z := by
    unfold wmean
    simp only [mul_add, sum_add_distrib]
  set u := fun i => x i - wmean p x with hu
  set w := fun i => z i - wmean p z with hw
  have ev : wvar p (fun i => x i + z i) = wvar p x + 2 * ∑ i, p i * (u i * w i) + wvar p z := by
    rw [wvar_eq h1, wvar_eq h1, wvar_eq h1, em, mul_sum, ← sum_add_distrib, ← sum_add_distrib]
    refine sum_congr rfl fun i _ => ?_
    simp only [hu, hw]
    ring
  have cs : (∑ i, p i * (u i * w i)) ^ 2 ≤ wvar p x * wvar p z := by
    have := sum_mul_sq_le_sq_mul_sq univ (fun i => √(p i) * u i) (fun i => √(p i) * w i)
    have e1 : ∀ i, √(p i) * u i * (√(p i) * w i) = p i * (u i * w i) := by
      intro i
      have := Real.mul_self_sqrt (hp i)
      calc _ = √(p i) * √(p i) * (u i * w i) := by ring
        _ = _ := by rw [this]
    have e2 : ∀ v : ι → ℝ, ∀ i, (√(p i) * v i) ^ 2 = p i * v i ^ 2 := by
      intro v i
      rw [mul_pow, Real.sq_sqrt (hp i)]
    simp only [e1, e2] at this
    rw [wvar_eq h1, wvar_eq h1]
    exact this
  have hc : ∑ i, p i * (u i * w i) ≤ √(wvar p x) * √(wvar p z) := by
    rw [← Real.sqrt_mul hx]
    exact Real.le_sqrt_of_sq_le cs
  rw [ev]
  nlinarith [Real.sq_sqrt hx, Real.sq_sqrt hz]

/-- Values within an interval of length `L`. -/
theorem sqrt_wvar_le (hp : ∀ i, 0 ≤ p i) (h1 : ∑ i, p i = 1) {z : ι → ℝ} {a L : ℝ} (hL : 0 ≤ L)
    (hz : ∀ i, a ≤ z i ∧ z i ≤ a + L) : √(wvar p z) ≤ L / 2 := by
  rw [Real.sqrt_le_left (by positivity)]
  have e : wvar p z = ∑ i, p i * (z i - (a + L / 2)) ^ 2 - (wmean p z - (a + L / 2)) ^ 2 := by
    rw [wvar_eq h1]
    have e : ∀ i, p i * (z i - wmean p z) ^ 2 = p i * (z i - (a + L / 2)) ^ 2 -
        2 * (wmean p z - (a + L / 2)) * (p i * z i) + (wmean p z ^ 2 - (a + L / 2) ^ 2) * p i := by
      intro i; ring
    simp only [e, sum_add_distrib, sum_sub_distrib, ← mul_sum, h1]
    change _ - 2 * (wmean p z - (a + L / 2)) * wmean p z + _ = _
    ring
  have b : ∑ i, p i * (z i - (a + L / 2)) ^ 2 ≤ ∑ i, p i * (L / 2) ^ 2 := by
    refine sum_le_sum fun i _ => mul_le_mul_of_nonneg_left ?_ (hp i)
    obtain ⟨k1, k2⟩ := hz i
    exact sq_le_sq' (by linarith) (by linarith)
  rw [← sum_mul, h1] at b
  rw [e]
  nlinarith [sq_nonneg (wmean p z - (a + L / 2))]

/-- Values that differ by at most `L` in one direction have standard deviations that differ by at most `L / 2`. -/
theorem sqrt_wvar_near (hp : ∀ i, 0 ≤ p i) (h1 : ∑ i, p i = 1) {x y : ι → ℝ} {L : ℝ} (hL : 0 ≤ L)
    (h : ∀ i, y i - L ≤ x i ∧ x i ≤ y i) : |√(wvar p x) - √(wvar p y)| ≤ L / 2 := by
  have k1 := sqrt_wvar_add hp h1 x (fun i => y i - x i)
  have k2 := sqrt_wvar_add hp h1 y (fun i => x i - y i)
  have l1 := sqrt_wvar_le hp h1 (z := fun i => y i - x i) (a := 0) hL
    (fun i => ⟨by linarith [(h i).2], by linarith [(h i).1]⟩)
  have l2 := sqrt_wvar_le hp h1 (z := fun i => x i - y i) (a := -L) hL
    (fun i => ⟨by linarith [(h i).1], by linarith [(h i).2]⟩)
  simp only [add_sub_cancel] at k1 k2
  rw [abs_le]
  constructor <;> linarith

theorem sqrt_near {a b e : ℝ} (ha : 0 ≤ a) (hb : 0 ≤ b) (h : |a - b| ≤ e ^ 2) (he : 0 ≤ e) : |√a - √b| ≤ e := by
  obtain ⟨h1, h2⟩ := abs_le.1 h
  have k1 : √a ≤ √b + e := by
    rw [Real.sqrt_le_left (by positivity)]
    nlinarith [Real.sq_sqrt hb, Real.sqrt_nonneg b]
  have k2 : √b ≤ √a + e := by
    rw [Real.sqrt_le_left (by positivity)]
    nlinarith [Real.sq_sqrt ha, Real.sqrt_nonneg a]
  rw [abs_le]
  constructor <;> linarith

end Ama.Deviation
