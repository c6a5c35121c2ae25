import Mathlib.Algebra.BigOperators.Fin
import Mathlib.Tactic.FinCases
import Verif.Spec.SampleDeviation
import Verif.Lemmas.SampleMean
import Verif.Lemmas.Deviation

/-!
# Lemmas about the standard deviation over all random numbers
-/

namespace Ama.Formulas

open Spec DamageTracker DamageSimulator Deviation

theorem meanOf_cast {α : Type} (l : List α) (f : α → ℚ) :
    ((meanOf (l.map f) : ℚ) : ℝ) = wmean (fun _ : Fin l.length => 1 / (l.length : ℝ)) (fun i => (f l[i] : ℝ)) := by
  unfold meanOf wmean
  rw [List.length_map, ← Finset.mul_sum]
  have : ((l.map f).sum : ℝ) = ∑ i : Fin l.length, (f l[i] : ℝ) := by
    have h := Fin.sum_univ_fun_getElem l f
    rw [← h]
    exact map_sum (Rat.castHom ℝ) (fun i : Fin l.length => f l[i]) Finset.univ
  push_cast
  rw [this]
  ring

/-- The variance of a list as a weighted variance. -/
theorem variance_cast {α : Type} (l : List α) (f : α → ℚ) :
    ((sampleVariance (l.map f) : ℚ) : ℝ) = wvar (fun _ : Fin l.length => 1 / (l.length : ℝ)) (fun i => (f l[i] : ℝ)) := by
  unfold sampleVariance wvar
  push_cast
  rw [List.map_map, meanOf_cast, meanOf_cast]
  simp only [Function.comp_def]
  push_cast
  rfl

theorem weights_sum {n : ℕ} (h : 0 < n) : ∑ _ : Fin n, 1 / (n : ℝ) = 1 := by
  rw [Finset.sum_const, Finset.card_univ, Fintype.card_fin, nsmul_eq_mul]
  field_simp

/-- Lists that differ by at most `L` in one direction. -/
theorem variance_near {α : Type} {l : List α} (hl : l ≠ []) {f g : α → ℚ} {L : ℚ} (hL : 0 ≤ L)
    (h : ∀ a, g a - L ≤ f a ∧ f a ≤ g a) :
    |√(sampleVariance (l.map f) : ℚ) - √(sampleVariance (l.map g) : ℚ)| ≤ (L : ℝ) / 2 := by
  rw [variance_cast, variance_cast]
  refine sqrt_wvar_near (fun i => by positivity) (weights_sum (List.length_pos_iff.2 hl)) (by exact_mod_cast hL)
    fun i => ?_
  exact_mod_cast h l[i]

theorem variance_nonneg {α : Type} {l : List α} (hl : l ≠ []) (f : α → ℚ) : 0 ≤ sampleVariance (l.map f) := by
  have := wvar_nonneg (p := fun _ : Fin l.length => 1 / (l.length : ℝ)) (fun i => by positivity)
    (weights_sum (List.length_pos_iff.2 hl)) (fun i => (f l[i] : ℝ))
  rw [← variance_cast] at this
  exact_mod_cast this

/-- The damage of one sample without rounding. -/
def idealOf (r : DamageRow) (w : Draw) : ℚ :=
  r.baseDamage * (95 / 100 + w.spread / 10) * hitMultiplier r.critBonus r.traitDamageMult r.damageMult
    (decide (w.crit ≤ r.critRate)) (decide (w.dh ≤ r.dhRate))

theorem sum_spread_sq {N : ℕ} (hN : 0 < N) : ((unitGrid N).map fun x => (95 / 100 + x / 10) ^ 2).sum =
    (N : ℚ) * (1201 / 1200 - 1 / (10 * N) + 1 / (600 * N ^ 2)) := by
  have hN' : (N : ℚ) ≠ 0 := by exact_mod_cast hN.ne'
  have key : ∀ m : ℕ, (((List.range m).map fun k : ℕ => ((95 / 100 : ℚ) + (k : ℚ) / N / 10) ^ 2)).sum =
      361 / 400 * (m : ℚ) + 19 / 200 * ((m : ℚ) * ((m : ℚ) - 1)) / N +
        ((m : ℚ) - 1) * m * (2 * m - 1) / (600 * (N : ℚ) ^ 2) := by
    intro m
    induction m with
    | zero => simp
    | succ m ih =>
      rw [List.range_succ, List.map_append, List.sum_append, ih]
      simp only [List.map_cons, List.map_nil, List.sum_cons, List.sum_nil]
      push_cast
      field_simp
      ring
  unfold unitGrid
  rw [List.map_map]
  simp only [Function.comp_def]
  rw [key]
  field_simp
  ring

theorem sum_one_add_sq (l : List ℚ) (c r : ℚ) :
    (l.map fun x => (1 + if decide (x ≤ r) then c else 0) ^ 2).sum =
      (l.length : ℚ) + (2 * c + c ^ 2) * ((l.countP fun x => decide (x ≤ r) : ℕ) : ℚ) := by
  induction l with
  | nil => simp
  | cons a l ih =>
    rw [List.map_cons, List.sum_cons, ih, List.countP_cons, List.length_cons]
    by_cases h : a ≤ r <;> simp [h] <;> ring

theorem ideal_sq_sum (r : DamageRow) {N : ℕ} (hN : 0 < N) :
    ((allDraws N).map fun w => idealOf r w ^ 2).sum =
    (r.baseDamage * r.traitDamageMult * r.damageMult) ^ 2 *
      ((N : ℚ) * (1201 / 1200 - 1 / (10 * N) + 1 / (600 * N ^ 2)) *
      (N + (2 * r.critBonus + r.critBonus ^ 2) * ((unitGrid N).countP fun x => decide (x ≤ r.critRate) : ℕ)) *
      (N + 9 / 16 * ((unitGrid N).countP fun x => decide (x ≤ r.dhRate) : ℕ))) := by
  have e : (fun w : Draw => idealOf r w ^ 2) =
      fun w => ((r.baseDamage * r.traitDamageMult * r.damageMult) ^ 2 * (95 / 100 + w.spread / 10) ^ 2) *
        (1 + if decide (w.crit ≤ r.critRate) then r.critBonus else 0) ^ 2 *
        (1 + if decide (w.dh ≤ r.dhRate) then 1 / 4 else 0) ^ 2 := by
    funext w
    unfold idealOf hitMultiplier
    ring
  rw [e, allDraws_sum N (fun x => (r.baseDamage * r.traitDamageMult * r.damageMult) ^ 2 * (95 / 100 + x / 10) ^ 2)
    (fun x => (1 + if decide (x ≤ r.critRate) then r.critBonus else 0) ^ 2)
    (fun x => (1 + if decide (x ≤ r.dhRate) then 1 / 4 else 0) ^ 2), sum_map_mul, sum_spread_sq hN, sum_one_add_sq,
    sum_one_add_sq, unitGrid_length]
  ring

/-- The variance without rounding, with random numbers of any fineness. -/
def idealVariance (r : DamageRow) : ℚ :=
  (r.baseDamage * r.traitDamageMult * r.damageMult) ^ 2 *
    (1201 / 1200 * (1 + (2 * r.critBonus + r.critBonus ^ 2) * r.critRate) * (1 + 9 / 16 * r.dhRate) -
      ((1 + r.critBonus * r.critRate) * (1 + r.dhRate / 4)) ^ 2)

/-- The arithmetic of the granularity. -/
theorem granularity {b c d c' d' t : ℚ} (hb : 0 ≤ b) (hc : 0 ≤ c) (hd : 0 ≤ d) (t0 : 0 ≤ t) (t1 : t ≤ 1)
    (c1 : c ≤ c') (c2 : c' ≤ c + t) (c3 : c' ≤ 1) (d1 : d ≤ d') (d2 : d' ≤ d + t) (d3 : d' ≤ 1) :
    |((1201 / 1200 - t / 10 + t ^ 2 / 600) * (1 + (2 * b + b ^ 2) * c') * (1 + 9 / 16 * d') -
        ((1 - t / 20) * ((1 + b * c') * (1 + d' / 4))) ^ 2) -
      (1201 / 1200 * (1 + (2 * b + b ^ 2) * c) * (1 + 9 / 16 * d) - ((1 + b * c) * (1 + d / 4)) ^ 2)| ≤
    (105 / 100 * ((1 + b) * (1 + 1 / 4))) ^ 2 * (3 * t) := by
  have hβ : 0 ≤ 2 * b + b ^ 2 := by positivity
  have hB : (1 + b) ^ 2 = 1 + (2 * b + b ^ 2) := by ring
  set β := 2 * b + b ^ 2 with hβ'
  -- first part
  have P1 : 1 + β * c ≤ 1 + β * c' := by gcongr
  have P2 : 1 + β * c' ≤ 1 + β * c + β * t := by linarith [mul_le_mul_of_nonneg_left c2 hβ]
  have P3 : 1 + β * c' ≤ 1 + β := by linarith [mul_le_mul_of_nonneg_left c3 hβ]
  have P0 : 1 ≤ 1 + β * c := by linarith [mul_nonneg hβ hc]
  have U1 : 1 + b * c ≤ 1 + b * c' := by gcongr
  have U2 : 1 + b * c' ≤ 1 + b * c + b * t := by linarith [mul_le_mul_of_nonneg_left c2 hb]
  have U3 : 1 + b * c' ≤ 1 + b := by linarith [mul_le_mul_of_nonneg_left c3 hb]
  have U0 : 1 ≤ 1 + b * c := by linarith [mul_nonneg hb hc]
  generalize 1 + β * c = P at *
  generalize 1 + β * c' = P' at *
  generalize 1 + b * c = U at *
  generalize 1 + b * c' = U' at *
  have Q1 : 1 + 9 / 16 * d ≤ 1 + 9 / 16 * d' := by linarith
  have Q2 : 1 + 9 / 16 * d' ≤ 1 + 9 / 16 * d + 9 / 16 * t := by linarith
  have Q3 : 1 + 9 / 16 * d' ≤ 25 / 16 := by linarith
  have Q0 : 1 ≤ 1 + 9 / 16 * d := by linarith
  have V1 : 1 + d / 4 ≤ 1 + d' / 4 := by linarith
  have V2 : 1 + d' / 4 ≤ 1 + d / 4 + t / 4 := by linarith
  have V3 : 1 + d' / 4 ≤ 5 / 4 := by linarith
  have V0 : 1 ≤ 1 + d / 4 := by linarith
  generalize 1 + 9 / 16 * d = Q at *
  generalize 1 + 9 / 16 * d' = Q' at *
  generalize 1 + d / 4 = V at *
  generalize 1 + d' / 4 = V' at *
  have hBp : 1 ≤ 1 + β := by linarith
  have hbt : 0 ≤ β * t := mul_nonneg hβ t0
  have PQlo : P * Q ≤ P' * Q' := mul_le_mul P1 Q1 (by linarith) (by linarith)
  have PQhi : P' * Q' ≤ P * Q + 34 / 16 * ((1 + β) * t) := by
    have k1 : (P' - P) * Q' ≤ β * t * (25 / 16) := by
      apply mul_le_mul (by linarith) Q3 (by linarith) hbt
    have k2 : P * (Q' - Q) ≤ (1 + β) * (9 / 16 * t) := by
      apply mul_le_mul (by linarith) (by linarith) (by linarith) (by linarith)
    have k3 : P' * Q' - P * Q = (P' - P) * Q' + P * (Q' - Q) := by ring
    linarith
  have PQmax : P * Q ≤ (1 + β) * (25 / 16) :=
    mul_le_mul (by linarith) (by linarith) (by linarith) (by linarith)
  have PQ0 : 0 ≤ P * Q := by positivity
  have UVlo : U * V ≤ U' * V' := mul_le_mul U1 V1 (by linarith) (by linarith)
  have UVhi : U' * V' ≤ U * V + 3 / 2 * ((1 + b) * t) := by
    have k1 : (U' - U) * V' ≤ b * t * (5 / 4) := by
      apply mul_le_mul (by linarith) V3 (by linarith) (mul_nonneg hb t0)
    have k2 : U * (V' - V) ≤ (1 + b) * (t / 4) := by
      apply mul_le_mul (by linarith) (by linarith) (by linarith) (by linarith)
    have k3 : U' * V' - U * V = (U' - U) * V' + U * (V' - V) := by ring
    linarith
  have UV'max : U' * V' ≤ (1 + b) * (5 / 4) := by
    apply mul_le_mul U3 V3 (by linarith) (by linarith)
  have UV0 : 0 ≤ U * V := by positivity
  rw [mul_assoc _ P' Q', mul_assoc _ P Q]
  generalize P * Q = X at *
  generalize P' * Q' = X' at *
  generalize U * V = Y at *
  generalize U' * V' = Y' at *
  have htt : t ^ 2 ≤ t := by linarith [mul_le_mul_of_nonneg_left t1 t0, sq t]
  have s1 : 1201 / 1200 - t / 10 ≤ 1201 / 1200 - t / 10 + t ^ 2 / 600 := by linarith [sq_nonneg t]
  have s2 : 1201 / 1200 - t / 10 + t ^ 2 / 600 ≤ 1201 / 1200 := by linarith
  generalize 1201 / 1200 - t / 10 + t ^ 2 / 600 = σ at *
  have f1 : σ * X' ≤ 1201 / 1200 * X + 1201 / 1200 * (34 / 16) * ((1 + β) * t) := by
    have : σ * X' ≤ 1201 / 1200 * X' := mul_le_mul_of_nonneg_right s2 (by linarith)
    linarith
  have f2 : 1201 / 1200 * X - 1 / 10 * (25 / 16) * ((1 + β) * t) ≤ σ * X' := by
    have k1 : (1201 / 1200 - t / 10) * X ≤ σ * X' := mul_le_mul s1 PQlo PQ0 (by linarith)
    have k2 : t * X ≤ t * ((1 + β) * (25 / 16)) := mul_le_mul_of_nonneg_left PQmax t0
    linarith
  have Y'0 : 0 ≤ Y' := UV0.trans UVlo
  have g1 : ((1 - t / 20) * Y') ^ 2 ≤ Y ^ 2 + 15 / 4 * ((1 + β) * t) := by
    have k0 : ((1 - t / 20) * Y') ^ 2 ≤ Y' ^ 2 := by
      apply pow_le_pow_left₀ (mul_nonneg (by linarith) Y'0)
      exact mul_le_of_le_one_left Y'0 (by linarith)
    have k1 : (Y' - Y) * (Y' + Y) ≤ 3 / 2 * ((1 + b) * t) * (2 * ((1 + b) * (5 / 4))) := by
      apply mul_le_mul (by linarith) (by linarith) (by linarith) (by positivity)
    have e : 3 / 2 * ((1 + b) * t) * (2 * ((1 + b) * (5 / 4))) = 15 / 4 * ((1 + β) * t) := by
      rw [← hB]; ring
    have k3 : Y' ^ 2 - Y ^ 2 = (Y' - Y) * (Y' + Y) := by ring
    linarith
  have g2 : Y ^ 2 - 1 / 10 * (25 / 16) * ((1 + β) * t) ≤ ((1 - t / 20) * Y') ^ 2 := by
    have k0 : ((1 - t / 20) * Y) ^ 2 ≤ ((1 - t / 20) * Y') ^ 2 := by
      apply pow_le_pow_left₀ (mul_nonneg (by linarith) UV0)
      exact mul_le_mul_of_nonneg_left UVlo (by linarith)
    have k1 : Y ^ 2 ≤ ((1 + b) * (5 / 4)) ^ 2 := pow_le_pow_left₀ UV0 (UVlo.trans UV'max) 2
    have e : ((1 + b) * (5 / 4)) ^ 2 = (1 + β) * (25 / 16) := by rw [← hB]; ring
    rw [e] at k1
    have k2 := mul_le_mul_of_nonneg_left k1 t0
    have k3 : ((1 - t / 20) * Y) ^ 2 = Y ^ 2 - t * Y ^ 2 / 10 + (t * Y) ^ 2 / 400 := by ring
    have k4 := sq_nonneg (t * Y)
    linarith
  have e : (105 / 100 * ((1 + b) * (1 + 1 / 4))) ^ 2 * (3 * t) = (105 / 100 * (5 / 4)) ^ 2 * 3 * ((1 + β) * t) := by
    rw [← hB]; ring
  rw [e]
  have hz : 0 ≤ (1 + β) * t := by positivity
  generalize (1 + β) * t = z at *
  rw [abs_le]
  constructor <;> linarith

theorem topDamage_nonneg {r : DamageRow} (h : Sane r) :
    0 ≤ topDamage r.baseDamage r.critBonus r.traitDamageMult r.damageMult := by
  have hb := h.base
  have hbo := h.bonus
  have ht := h.trait
  have hm := h.mult
  unfold topDamage hitMultiplier
  simp only [if_true]
  positivity

/-- The variance over all random numbers, without rounding. -/
theorem grid_near {r : DamageRow} (h : Sane r) (hc : IsProb r.critRate) (hd : IsProb r.dhRate) {N : ℕ} (hN : 0 < N) :
    |sampleVariance ((allDraws N).map (idealOf r)) - idealVariance r| ≤
      topDamage r.baseDamage r.critBonus r.traitDamageMult r.damageMult ^ 2 * (3 / N) := by
  have hN' : (0 : ℚ) < N := by exact_mod_cast hN
  have hN1 : (1 : ℚ) ≤ N := by exact_mod_cast hN
  have hbo := h.bonus
  obtain ⟨p1, p2⟩ := count_le N hc
  obtain ⟨q1, q2⟩ := count_le N hd
  have p3 : (((unitGrid N).countP fun x => decide (x ≤ r.critRate) : ℕ) : ℚ) ≤ N := by
    have := List.countP_le_length (p := fun x => decide (x ≤ r.critRate)) (l := unitGrid N)
    rw [unitGrid_length] at this
    exact_mod_cast this
  have q3 : (((unitGrid N).countP fun x => decide (x ≤ r.dhRate) : ℕ) : ℚ) ≤ N := by
    have := List.countP_le_length (p := fun x => decide (x ≤ r.dhRate)) (l := unitGrid N)
    rw [unitGrid_length] at this
    exact_mod_cast this
  have e2 := ideal_sq_sum r hN
  have e1 : ((allDraws N).map (idealOf r)).sum = _ := ideal_sum r N
  rw [if_neg hN.ne'] at e1
  unfold sampleVariance meanOf
  rw [List.map_map, List.length_map, List.length_map, allDraws_length]
  simp only [Function.comp_def]
  rw [e1, e2]
  clear e1 e2
  generalize (((unitGrid N).countP fun x => decide (x ≤ r.critRate) : ℕ) : ℚ) = p at *
  generalize (((unitGrid N).countP fun x => decide (x ≤ r.dhRate) : ℕ) : ℚ) = q at *
  have t1 : 1 / (N : ℚ) ≤ 1 := (div_le_one hN').2 hN1
  have key := granularity (b := r.critBonus) (c := r.critRate) (d := r.dhRate) (c' := p / N) (d' := q / N)
    (t := 1 / N) hbo hc.1 hd.1 (by positivity) t1 ((le_div_iff₀ hN').2 p1)
    ((div_le_iff₀ hN').2 (p2.trans (le_of_eq (by field_simp)))) ((div_le_one hN').2 p3) ((le_div_iff₀ hN').2 q1)
    ((div_le_iff₀ hN').2 (q2.trans (le_of_eq (by field_simp)))) ((div_le_one hN').2 q3)
  have hA : 0 ≤ (r.baseDamage * r.traitDamageMult * r.damageMult) ^ 2 := sq_nonneg _
  have k := mul_le_mul_of_nonneg_left key hA
  rw [← abs_of_nonneg hA, ← abs_mul, abs_of_nonneg hA] at k
  unfold topDamage hitMultiplier
  simp only [if_true]
  refine le_of_eq_of_le ?_ (k.trans (le_of_eq ?_))
  · congr 1
    unfold idealVariance
    push_cast
    field_simp
  · ring

/-- Weights of Simpson's rule. -/
noncomputable def simpson : Fin 3 → ℝ
  | 0 => 1 / 6
  | 1 => 4 / 6
  | 2 => 1 / 6

/-- Points of Simpson's rule. -/
noncomputable def point (a b : ℝ) : Fin 3 → ℝ
  | 0 => a
  | 1 => (a + b) / 2
  | 2 => b

/-- The weights of the four outcomes times those of Simpson's rule. -/
noncomputable def mixWeight (r : DamageRow) (i : Bool × Bool × Fin 3) : ℝ :=
  ((probOf i.1 r.critRate * probOf i.2.1 r.dhRate : ℚ) : ℝ) * simpson i.2.2

theorem mixWeight_nonneg {r : DamageRow} (hc : IsProb r.critRate) (hd : IsProb r.dhRate) (i : Bool × Bool × Fin 3) :
    0 ≤ mixWeight r i := by
  have := mul_nonneg (probOf_nonneg hc i.1) (probOf_nonneg hd i.2.1)
  refine mul_nonneg (by exact_mod_cast this) ?_
  obtain ⟨_, _, i⟩ := i
  fin_cases i <;> norm_num [simpson]

theorem mixWeight_sum (r : DamageRow) : ∑ i, mixWeight r i = 1 := by
  simp only [Fintype.sum_prod_type, Fintype.sum_bool, Fin.sum_univ_three, mixWeight, simpson, probOf]
  push_cast
  ring

/-- The variance of a mixture of four ranges as a weighted variance. -/
theorem mix_variance (r : DamageRow) (lo hi : Bool → Bool → ℚ) :
    ((varianceOf ([(false, false), (true, false), (false, true), (true, true)].map fun o =>
      (⟨lo o.1 o.2, hi o.1 o.2, probOf o.1 r.critRate * probOf o.2 r.dhRate⟩ : OutcomeRange)) : ℚ) : ℝ) =
      wvar (mixWeight r) (fun i => point (lo i.1 i.2.1) (hi i.1 i.2.1) i.2.2) := by
  unfold wvar wmean varianceOf expectedOf
  simp only [Fintype.sum_prod_type, Fintype.sum_bool, Fin.sum_univ_three, mixWeight, simpson, point, List.map_cons,
    List.map_nil, List.sum_cons, List.sum_nil]
  push_cast
  ring

theorem point_near {a b a' b' L : ℚ} (ha : a' - L ≤ a ∧ a ≤ a') (hb : b' - L ≤ b ∧ b ≤ b') (i : Fin 3) :
    point (a' : ℝ) b' i - (L : ℝ) ≤ point (a : ℝ) b i ∧ point (a : ℝ) b i ≤ point (a' : ℝ) b' i := by
  have a1 : (a' : ℝ) - L ≤ a := by exact_mod_cast ha.1
  have a2 : (a : ℝ) ≤ a' := by exact_mod_cast ha.2
  have b1 : (b' : ℝ) - L ≤ b := by exact_mod_cast hb.1
  have b2 : (b : ℝ) ≤ b' := by exact_mod_cast hb.2
  fin_cases i <;> simp only [point] <;> constructor <;> linarith

theorem hitLoss_nonneg {bonus trait mult : ℚ} (hb : 0 ≤ bonus) (ht : 0 ≤ trait) (hm : 0 ≤ mult) :
    0 ≤ hitLoss bonus trait mult := by
  unfold hitLoss
  positivity

/-- The reported variance against the variance without rounding. -/
theorem report_near {r : DamageRow} (h : Sane r) (hc : IsProb r.critRate) (hd : IsProb r.dhRate) :
    0 ≤ idealVariance r ∧
    |√(varianceOf [plain r false false, plain r true false, plain r false true, plain r true true] : ℚ) -
      √(idealVariance r : ℚ)| ≤ (hitLoss r.critBonus r.traitDamageMult r.damageMult : ℝ) / 2 := by
  have e1 := mix_variance r (fun c d => (plain r c d).low) (fun c d => (plain r c d).high)
  have e2 := mix_variance r
    (fun c d => 95 / 100 * r.baseDamage * hitMultiplier r.critBonus r.traitDamageMult r.damageMult c d)
    (fun c d => 105 / 100 * r.baseDamage * hitMultiplier r.critBonus r.traitDamageMult r.damageMult c d)
  have e3 : varianceOf ([(false, false), (true, false), (false, true), (true, true)].map fun o =>
      (⟨95 / 100 * r.baseDamage * hitMultiplier r.critBonus r.traitDamageMult r.damageMult o.1 o.2,
        105 / 100 * r.baseDamage * hitMultiplier r.critBonus r.traitDamageMult r.damageMult o.1 o.2,
        probOf o.1 r.critRate * probOf o.2 r.dhRate⟩ : OutcomeRange)) = idealVariance r := by
    unfold varianceOf expectedOf idealVariance hitMultiplier probOf
    simp only [List.map_cons, List.map_nil, List.sum_cons, List.sum_nil, if_true, Bool.false_eq_true, if_false]
    ring
  rw [e3] at e2
  have hL := hitLoss_nonneg h.bonus h.trait h.mult
  have n := wvar_nonneg (mixWeight_nonneg hc hd) (mixWeight_sum r) (fun i => point
    ((95 / 100 * r.baseDamage * hitMultiplier r.critBonus r.traitDamageMult r.damageMult i.1 i.2.1 : ℚ) : ℝ)
    ((105 / 100 * r.baseDamage * hitMultiplier r.critBonus r.traitDamageMult r.damageMult i.1 i.2.1 : ℚ) : ℝ) i.2.2)
  refine ⟨?_, ?_⟩
  · rw [← e2] at n
    exact_mod_cast n
  · have k := sqrt_wvar_near (mixWeight_nonneg hc hd) (mixWeight_sum r) (L := hitLoss r.critBonus r.traitDamageMult r.damageMult)
      (by exact_mod_cast hL) fun i => point_near
        (afterSpread_bounds h.bonus h.trait h.mult (95 / 100 * r.baseDamage) i.1 i.2.1)
        (afterSpread_bounds h.bonus h.trait h.mult (105 / 100 * r.baseDamage) i.1 i.2.1) i.2.2
    rw [← e2] at k
    refine le_of_eq_of_le ?_ k
    rw [← mix_variance r (fun c d => afterSpread r.critBonus r.traitDamageMult r.damageMult (npFloor (95 / 100 * r.baseDamage)) c d)
      (fun c d => afterSpread r.critBonus r.traitDamageMult r.damageMult (npFloor (105 / 100 * r.baseDamage)) c d)]
    rfl

/-- The difference between the standard deviation over all random numbers and the reported one. -/
theorem deviation_near {r : DamageRow} (h : Sane r) (hc : IsProb r.critRate) (hd : IsProb r.dhRate) {N : ℕ}
    (hN : 0 < N) :
    |√(sampleVariance ((allDraws N).map (damageOf r)) : ℚ) -
      √(varianceOf [plain r false false, plain r true false, plain r false true, plain r true true] : ℚ)| ≤
      deviationAllowance r.baseDamage r.critBonus r.traitDamageMult r.damageMult N := by
  have hL := hitLoss_nonneg h.bonus h.trait h.mult
  have hne : allDraws N ≠ [] := by
    rw [← List.length_pos_iff, allDraws_length]
    positivity
  have k1 := variance_near hne (f := damageOf r) (g := idealOf r) hL (damageOf_bounds h)
  obtain ⟨n2, k2⟩ := report_near h hc hd
  have n1 := variance_nonneg hne (idealOf r)
  have hT := topDamage_nonneg h
  have k3 := grid_near h hc hd hN
  have k4 := sqrt_near (a := (sampleVariance ((allDraws N).map (idealOf r)) : ℚ)) (b := (idealVariance r : ℚ))
    (e := topDamage r.baseDamage r.critBonus r.traitDamageMult r.damageMult * √(3 / N))
    (by exact_mod_cast n1) (by exact_mod_cast n2) (by
      rw [mul_pow, Real.sq_sqrt (by positivity)]
      have : (((|sampleVariance ((allDraws N).map (idealOf r)) - idealVariance r| : ℚ)) : ℝ) ≤ _ := Rat.cast_le.2 k3
      push_cast at this
      exact this) (mul_nonneg (by exact_mod_cast hT) (Real.sqrt_nonneg _))
  unfold deviationAllowance
  obtain ⟨a1, a2⟩ := abs_le.1 k1
  obtain ⟨b1, b2⟩ := abs_le.1 k2
  obtain ⟨c1, c2⟩ := abs_le.1 k4
  rw [abs_le]
  constructor <;> linarith

theorem sampleVariance_draws {r : DamageRow} {n N : ℕ} {w : ℕ → Draw}
    (hg : EquallyOften ((List.range n).map w) (allDraws N)) :
    sampleVariance ((List.range n).map ((fun x : ℚ × Bool × Bool => x.1) ∘ fun j => getDamage r.baseDamage r.critBonus
      r.critRate r.dhRate r.traitDamageMult r.damageMult (1 / 10) (w j))) =
      sampleVariance ((allDraws N).map (damageOf r)) := by
  unfold sampleVariance
  rw [mean_draws hg, List.map_map, List.map_map, ← mean_equally hg ((fun x => x ^ 2) ∘ damageOf r), List.map_map]
  rfl

/-- The mean over the samples. -/
def sampleMean (n : ℕ) (f : ℕ → ℚ) : ℚ := meanOf ((List.range n).map f)

theorem sampleMean_add (n : ℕ) (f g : ℕ → ℚ) :
    sampleMean n (fun j => f j + g j) = sampleMean n f + sampleMean n g := by
  unfold sampleMean meanOf
  simp only [List.length_map, List.length_range]
  rw [← add_div, ← List.sum_map_add]

theorem sampleMean_mul (n : ℕ) (c : ℚ) (f : ℕ → ℚ) : sampleMean n (fun j => c * f j) = c * sampleMean n f := by
  unfold sampleMean meanOf
  simp only [List.length_map, List.length_range]
  rw [List.sum_map_mul_left, mul_div_assoc]

/-- The mean of the product is the product of the means. -/
def Uncorrelated (n : ℕ) (f g : ℕ → ℚ) : Prop := sampleMean n (fun j => f j * g j) = sampleMean n f * sampleMean n g

theorem sampleMean_total (n : ℕ) (g : ℕ → ℚ) : ∀ {fs : List (ℕ → ℚ)}, (∀ f ∈ fs, Uncorrelated n g f) →
    Uncorrelated n g (fun j => (fs.map fun f => f j).sum)
  | [], _ => by
    unfold Uncorrelated sampleMean meanOf
    simp
  | f :: fs, h => by
    have k := sampleMean_total n g (fs := fs) fun f hf => h f (List.mem_cons_of_mem _ hf)
    have k0 := h f (List.mem_cons_self ..)
    unfold Uncorrelated at *
    simp only [List.map_cons, List.sum_cons, mul_add, sampleMean_add]
    rw [k, k0]

theorem variance_add {n : ℕ} {f g : ℕ → ℚ} (h : Uncorrelated n f g) :
    sampleVariance ((List.range n).map fun j => f j + g j) =
      sampleVariance ((List.range n).map f) + sampleVariance ((List.range n).map g) := by
  have e : ∀ g : ℕ → ℚ, sampleVariance ((List.range n).map g) = sampleMean n (fun j => g j * g j) - sampleMean n g ^ 2 := by
    intro g
    unfold sampleVariance sampleMean
    rw [List.map_map]
    simp only [Function.comp_def, sq]
  rw [e, e, e, sampleMean_add]
  have k : (fun j => (f j + g j) * (f j + g j)) = fun j => f j * f j + (2 * (f j * g j) + g j * g j) := by
    funext j
    ring
  unfold Uncorrelated at h
  rw [k, sampleMean_add, sampleMean_add, sampleMean_mul, h]
  ring

/-- The variance of a total is the total of the variances. -/
theorem variance_total (n : ℕ) : ∀ {fs : List (ℕ → ℚ)}, fs.Pairwise (Uncorrelated n) →
    sampleVariance ((List.range n).map fun j => (fs.map fun f => f j).sum) =
      (fs.map fun f => sampleVariance ((List.range n).map f)).sum
  | [], _ => by
    unfold sampleVariance meanOf
    simp
  | f :: fs, h => by
    obtain ⟨h1, h2⟩ := List.pairwise_cons.1 h
    have k := sampleMean_total n f h1
    have ih := variance_total n h2
    rw [List.map_cons, List.sum_cons, ← ih]
    exact variance_add k

/-- The product of two independent samples. -/
theorem uncorrelated_of {n N : ℕ} {w w' : ℕ → Draw} (f g : Draw → ℚ)
    (h : EquallyOften ((List.range n).map fun j => (w j, w' j)) (allPairs (allDraws N)))
    (h1 : EquallyOften ((List.range n).map w) (allDraws N)) (h2 : EquallyOften ((List.range n).map w') (allDraws N)) :
    Uncorrelated n (fun j => f (w j)) (fun j => g (w' j)) := by
  have e := mean_equally h fun p => f p.1 * g p.2
  have e1 := mean_equally h1 f
  have e2 := mean_equally h2 g
  rw [List.map_map] at e e1 e2
  unfold Uncorrelated sampleMean
  simp only [Function.comp_def] at e e1 e2
  rw [e, e1, e2]
  unfold meanOf allPairs
  have k : (((allDraws N).flatMap fun a => (allDraws N).map fun b => (a, b)).map fun p => f p.1 * g p.2).sum =
      ((allDraws N).map f).sum * ((allDraws N).map g).sum := by
    rw [sum_flatMap_map]
    simp only [List.map_map, Function.comp_def]
    simp only [List.sum_map_mul_left, List.sum_map_mul_right]
  rw [k]
  simp only [List.length_map, List.length_flatMap, List.map_const', List.sum_replicate, smul_eq_mul]
  push_cast
  rw [div_mul_div_comm]

/-- Lengths of vectors. -/
theorem sqrt_add_near {A a B b C d : ℝ} (hA : 0 ≤ A) (ha : 0 ≤ a) (hB : 0 ≤ B) (hb : 0 ≤ b) (hC : 0 ≤ C)
    (h1 : |√A - √B| ≤ √C) (h2 : |√a - √b| ≤ d) : |√(A + a) - √(B + b)| ≤ √(C + d ^ 2) := by
  apply Real.le_sqrt_of_sq_le
  rw [sq_abs]
  have cs : √A * √B + √a * √b ≤ √(A + a) * √(B + b) := by
    rw [← Real.sqrt_mul (add_nonneg hA ha) (B + b)]
    apply Real.le_sqrt_of_sq_le
    have e1 := Real.sq_sqrt hA
    have e2 := Real.sq_sqrt hB
    have e3 := Real.sq_sqrt ha
    have e4 := Real.sq_sqrt hb
    calc (√A * √B + √a * √b) ^ 2 ≤ (√A ^ 2 + √a ^ 2) * (√B ^ 2 + √b ^ 2) := by
          nlinarith [sq_nonneg (√A * √b - √a * √B)]
      _ = _ := by rw [e1, e2, e3, e4]
  have k1 : (√A - √B) ^ 2 ≤ C := by
    have := pow_le_pow_left₀ (abs_nonneg _) h1 2
    rwa [sq_abs, Real.sq_sqrt hC] at this
  have k2 : (√a - √b) ^ 2 ≤ d ^ 2 := by
    have := pow_le_pow_left₀ (abs_nonneg _) h2 2
    rwa [sq_abs] at this
  have e1 := Real.sq_sqrt hA
  have e2 := Real.sq_sqrt hB
  have e3 := Real.sq_sqrt ha
  have e4 := Real.sq_sqrt hb
  have e5 := Real.sq_sqrt (add_nonneg hA ha)
  have e6 := Real.sq_sqrt (add_nonneg hB hb)
  nlinarith

theorem sqrt_sum_near {α : Type} {V v a : α → ℝ} : ∀ {l : List α},
    (∀ x ∈ l, 0 ≤ V x ∧ 0 ≤ v x ∧ |√(V x) - √(v x)| ≤ a x) →
    |√((l.map V).sum) - √((l.map v).sum)| ≤ √((l.map fun x => a x ^ 2).sum)
  | [], _ => by simp
  | x :: l, h => by
    have ih := sqrt_sum_near (l := l) fun y hy => h y (List.mem_cons_of_mem _ hy)
    obtain ⟨h1, h2, h3⟩ := h x (List.mem_cons_self ..)
    simp only [List.map_cons, List.sum_cons]
    rw [add_comm (V x), add_comm (v x), add_comm (a x ^ 2)]
    refine sqrt_add_near ?_ h1 ?_ h2 ?_ ih h3
    · refine List.sum_nonneg fun y hy => ?_
      obtain ⟨z, hz, rfl⟩ := List.mem_map.1 hy
      exact (h z (List.mem_cons_of_mem _ hz)).1
    · refine List.sum_nonneg fun y hy => ?_
      obtain ⟨z, hz, rfl⟩ := List.mem_map.1 hy
      exact (h z (List.mem_cons_of_mem _ hz)).2.1
    · refine List.sum_nonneg fun y hy => ?_
      obtain ⟨z, hz, rfl⟩ := List.mem_map.1 hy
      exact sq_nonneg _

end Ama.Formulas
