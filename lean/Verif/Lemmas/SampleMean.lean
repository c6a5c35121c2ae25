import Verif.Spec.SampleMean
import Verif.Lemmas.HitDamage

/-!
# Lemmas about the mean over all random numbers
-/

namespace Ama.Formulas

open Spec DamageTracker DamageSimulator

theorem unitGrid_length (N : ℕ) : (unitGrid N).length = N := by simp [unitGrid]

theorem sum_flatMap_map {α β : Type} (l : List α) (f : α → List β) (g : β → ℚ) :
    ((l.flatMap f).map g).sum = (l.map fun a => ((f a).map g).sum).sum := by
  induction l with
  | nil => rfl
  | cons a l ih => simp [ih]

theorem sum_map_mul (l : List ℚ) (c : ℚ) (f : ℚ → ℚ) : (l.map fun x => c * f x).sum = c * (l.map f).sum := by
  induction l with
  | nil => simp
  | cons a l ih => simp [ih, mul_add]

theorem sum_map_mul' (l : List ℚ) (c : ℚ) (f : ℚ → ℚ) : (l.map fun x => f x * c).sum = (l.map f).sum * c := by
  induction l with
  | nil => simp
  | cons a l ih => simp [ih, add_mul]

theorem countP_range (N m : ℕ) : ((List.range N).countP fun k => decide (k < m)) = min N m := by
  induction N with
  | zero => simp
  | succ N ih =>
    rw [List.range_succ, List.countP_append, ih]
    by_cases h : N < m
    · simp [h]; omega
    · simp [h]; omega

theorem allDraws_sum (N : ℕ) (f g h : ℚ → ℚ) :
    ((allDraws N).map fun w => f w.spread * g w.crit * h w.dh).sum =
      ((unitGrid N).map f).sum * ((unitGrid N).map g).sum * ((unitGrid N).map h).sum := by
  unfold allDraws
  rw [sum_flatMap_map]
  simp only [sum_flatMap_map, List.map_map, Function.comp_def]
  simp only [mul_assoc, sum_map_mul, sum_map_mul']

theorem allDraws_length (N : ℕ) : (allDraws N).length = N * (N * N) := by
  simp [allDraws, unitGrid_length, List.length_flatMap]

/-- How many of the numbers are at most a rate. -/
theorem count_le (N : ℕ) {r : ℚ} (h : IsProb r) :
    r * N ≤ ((unitGrid N).countP fun x => decide (x ≤ r)) ∧
      (((unitGrid N).countP fun x => decide (x ≤ r) : ℕ) : ℚ) ≤ r * N + 1 := by
  rcases Nat.eq_zero_or_pos N with rfl | hN
  · simp [unitGrid]
  have hN' : (0 : ℚ) < N := by exact_mod_cast hN
  have e : ((unitGrid N).countP fun x => decide (x ≤ r)) = min N (Nat.floor (r * N) + 1) := by
    unfold unitGrid
    rw [List.countP_map]
    have : ((fun x => decide (x ≤ r)) ∘ fun k : ℕ => (k : ℚ) / N) = fun k => decide (k < Nat.floor (r * N) + 1) := by
      funext k
      simp only [Function.comp]
      congr 1
      rw [div_le_iff₀ hN', Nat.lt_succ_iff, Nat.le_floor_iff (mul_nonneg h.1 hN'.le)]
    rw [this, countP_range]
  rw [e]
  have k1 := Nat.lt_floor_add_one (r * N)
  have k2 := Nat.floor_le (mul_nonneg h.1 hN'.le)
  rw [Nat.cast_min]
  push_cast
  refine ⟨le_min ?_ k1.le, (min_le_right _ _).trans (by linarith)⟩
  nlinarith [h.2]

theorem sum_one_add (l : List ℚ) (c r : ℚ) :
    (l.map fun x => 1 + if decide (x ≤ r) then c else 0).sum =
      (l.length : ℚ) + c * ((l.countP fun x => decide (x ≤ r) : ℕ) : ℚ) := by
  induction l with
  | nil => simp
  | cons a l ih =>
    rw [List.map_cons, List.sum_cons, ih, List.countP_cons, List.length_cons]
    by_cases h : a ≤ r <;> simp [h] <;> ring

theorem sum_spread (N : ℕ) : ((unitGrid N).map fun x => 95 / 100 + x / 10).sum = (N : ℚ) - if N = 0 then 0 else 1 / 20 := by
  rcases Nat.eq_zero_or_pos N with rfl | hN
  · simp [unitGrid]
  have hN' : (N : ℚ) ≠ 0 := by exact_mod_cast hN.ne'
  have key : ∀ m : ℕ, (((List.range m).map fun k : ℕ => (95 / 100 : ℚ) + (k : ℚ) / N / 10)).sum =
      95 / 100 * m + m * (m - 1) / (20 * N) := by
    intro m
    induction m with
    | zero => simp
    | succ m ih =>
      rw [List.range_succ, List.map_append, List.sum_append, ih]
      simp only [List.map_cons, List.map_nil, List.sum_cons, List.sum_nil]
      push_cast
      field_simp
      ring
  unfold unitGrid
  rw [List.map_map]
  simp only [Function.comp_def]
  rw [key, if_neg hN.ne']
  field_simp
  ring

/-- The damage of one sample. -/
abbrev damageOf (r : DamageRow) (w : Draw) : ℚ :=
  (getDamage r.baseDamage r.critBonus r.critRate r.dhRate r.traitDamageMult r.damageMult (1 / 10) w).1

theorem damageOf_bounds {r : DamageRow} (h : Sane r) (w : Draw) :
    r.baseDamage * (95 / 100 + w.spread / 10) * hitMultiplier r.critBonus r.traitDamageMult r.damageMult
        (decide (w.crit ≤ r.critRate)) (decide (w.dh ≤ r.dhRate)) -
        hitLoss r.critBonus r.traitDamageMult r.damageMult ≤ damageOf r w ∧
      damageOf r w ≤ r.baseDamage * (95 / 100 + w.spread / 10) *
        hitMultiplier r.critBonus r.traitDamageMult r.damageMult
          (decide (w.crit ≤ r.critRate)) (decide (w.dh ≤ r.dhRate)) := by
  unfold damageOf
  rw [getDamage_eq]
  have e : r.baseDamage * (95 / 100 + w.spread / 10) = r.baseDamage * (1 - 1 / 10 / 2 + 1 / 10 * w.spread) := by ring
  rw [e]
  exact afterSpread_bounds h.bonus h.trait h.mult _ _ _

theorem sum_le_map {l : List Draw} {f g : Draw → ℚ} (h : ∀ w, f w ≤ g w) : (l.map f).sum ≤ (l.map g).sum := by
  induction l with
  | nil => rfl
  | cons a l ih => simpa using add_le_add (h a) ih

theorem sum_sub_map (l : List Draw) (f : Draw → ℚ) (c : ℚ) :
    (l.map fun w => f w - c).sum = (l.map f).sum - l.length * c := by
  induction l with
  | nil => simp
  | cons a l ih => simp [ih]; ring

theorem ideal_sum (r : DamageRow) (N : ℕ) :
    ((allDraws N).map fun w => r.baseDamage * (95 / 100 + w.spread / 10) *
      hitMultiplier r.critBonus r.traitDamageMult r.damageMult
        (decide (w.crit ≤ r.critRate)) (decide (w.dh ≤ r.dhRate))).sum =
    r.baseDamage * r.traitDamageMult * r.damageMult * (((N : ℚ) - if N = 0 then 0 else 1 / 20) *
      (N + r.critBonus * ((unitGrid N).countP fun x => decide (x ≤ r.critRate) : ℕ)) *
      (N + 1 / 4 * ((unitGrid N).countP fun x => decide (x ≤ r.dhRate) : ℕ))) := by
  have e : (fun w : Draw => r.baseDamage * (95 / 100 + w.spread / 10) *
      hitMultiplier r.critBonus r.traitDamageMult r.damageMult
        (decide (w.crit ≤ r.critRate)) (decide (w.dh ≤ r.dhRate))) =
      fun w => (r.baseDamage * r.traitDamageMult * r.damageMult * (95 / 100 + w.spread / 10)) *
        (1 + if decide (w.crit ≤ r.critRate) then r.critBonus else 0) *
        (1 + if decide (w.dh ≤ r.dhRate) then 1 / 4 else 0) := by
    funext w
    unfold hitMultiplier
    ring
  rw [e, allDraws_sum N (fun x => r.baseDamage * r.traitDamageMult * r.damageMult * (95 / 100 + x / 10))
    (fun x => 1 + if decide (x ≤ r.critRate) then r.critBonus else 0)
    (fun x => 1 + if decide (x ≤ r.dhRate) then 1 / 4 else 0), sum_map_mul, sum_spread, sum_one_add, sum_one_add,
    unitGrid_length]
  ring

/-- The mean of the damage over all random numbers. -/
theorem mean_bounds {r : DamageRow} (h : Sane r) (hc : IsProb r.critRate) (hd : IsProb r.dhRate) {N : ℕ}
    (hN : 0 < N) :
    r.baseDamage * meanMultiplier r.critRate r.critBonus r.dhRate r.traitDamageMult r.damageMult *
        (1 - 1 / (20 * N)) - hitLoss r.critBonus r.traitDamageMult r.damageMult ≤
        meanOf ((allDraws N).map (damageOf r)) ∧
      meanOf ((allDraws N).map (damageOf r)) ≤ r.baseDamage *
        meanMultiplier (r.critRate + 1 / N) r.critBonus (r.dhRate + 1 / N) r.traitDamageMult r.damageMult := by
  have hN' : (0 : ℚ) < N := by exact_mod_cast hN
  have hN1 : (1 : ℚ) ≤ N := by exact_mod_cast hN
  have u := sum_le_map (l := allDraws N) fun w => (damageOf_bounds h w).2
  have l := sum_le_map (l := allDraws N) fun w => (damageOf_bounds h w).1
  rw [sum_sub_map, ideal_sum, allDraws_length, if_neg hN.ne'] at l
  rw [ideal_sum, if_neg hN.ne'] at u
  obtain ⟨p1, p2⟩ := count_le N hc
  obtain ⟨q1, q2⟩ := count_le N hd
  have hb := h.base
  have hbo := h.bonus
  have ht := h.trait
  have hm := h.mult
  have hcr := hc.1
  have hdr := hd.1
  generalize (((unitGrid N).countP fun x => decide (x ≤ r.critRate) : ℕ) : ℚ) = p at *
  generalize (((unitGrid N).countP fun x => decide (x ≤ r.dhRate) : ℕ) : ℚ) = q at *
  unfold meanOf
  rw [List.length_map, allDraws_length]
  push_cast at l ⊢
  unfold meanMultiplier
  have hp0 : 0 ≤ p := le_trans (by positivity) p1
  have hq0 : 0 ≤ q := le_trans (by positivity) q1
  constructor
  · rw [le_div_iff₀ (by positivity)]
    refine le_trans ?_ l
    have a : (N : ℚ) + r.critBonus * (r.critRate * N) ≤ N + r.critBonus * p := by gcongr
    have b : (N : ℚ) + 1 / 4 * (r.dhRate * N) ≤ N + 1 / 4 * q := by gcongr
    have a0 : 0 ≤ (N : ℚ) + r.critBonus * (r.critRate * N) := by positivity
    have b0 : 0 ≤ (N : ℚ) + 1 / 4 * (r.dhRate * N) := by positivity
    have c0 : 0 ≤ (N : ℚ) - 1 / 20 := by linarith
    have k : r.baseDamage * r.traitDamageMult * r.damageMult * (((N : ℚ) - 1 / 20) *
        (N + r.critBonus * (r.critRate * N)) * (N + 1 / 4 * (r.dhRate * N))) ≤
        r.baseDamage * r.traitDamageMult * r.damageMult * (((N : ℚ) - 1 / 20) *
          (N + r.critBonus * p) * (N + 1 / 4 * q)) := by
      gcongr
    have e : r.baseDamage * ((1 + r.critRate * r.critBonus) * (1 + r.dhRate / 4) * r.traitDamageMult * r.damageMult) *
        (1 - 1 / (20 * (N : ℚ))) * (N * (N * N)) = r.baseDamage * r.traitDamageMult * r.damageMult *
        (((N : ℚ) - 1 / 20) * (N + r.critBonus * (r.critRate * N)) * (N + 1 / 4 * (r.dhRate * N))) := by
      field_simp
    rw [sub_mul, e]
    linarith
  · rw [div_le_iff₀ (by positivity)]
    refine le_trans u ?_
    have k : r.baseDamage * r.traitDamageMult * r.damageMult * (((N : ℚ) - 1 / 20) *
          (N + r.critBonus * p) * (N + 1 / 4 * q)) ≤
        r.baseDamage * r.traitDamageMult * r.damageMult * ((N : ℚ) *
        (N + r.critBonus * (r.critRate * N + 1)) * (N + 1 / 4 * (r.dhRate * N + 1))) := by
      have c0 : (N : ℚ) - 1 / 20 ≤ N := by linarith
      gcongr
    refine k.trans (le_of_eq ?_)
    field_simp

/-- The difference between the mean and the reported expected damage. -/
theorem mean_near {r : DamageRow} (h : Sane r) (hc : IsProb r.critRate) (hd : IsProb r.dhRate) {N : ℕ} (hN : 0 < N) :
    |meanOf ((allDraws N).map (damageOf r)) - expectedRow r| ≤
      meanAllowance r.baseDamage r.critBonus r.traitDamageMult r.damageMult N := by
  obtain ⟨m1, m2⟩ := mean_bounds h hc hd hN
  obtain ⟨e1, e2⟩ := expectedRow_bounds h hc hd
  have hN1 : (1 : ℚ) ≤ N := by exact_mod_cast hN
  have hN0 : (0 : ℚ) < N := by linarith
  have hb := h.base
  have hbo := h.bonus
  have ht := h.trait
  have hm := h.mult
  have hcr := hc.1
  have hdr := hd.1
  have hc1 := hc.2
  have hd1 := hd.2
  unfold meanAllowance
  unfold meanMultiplier at *
  generalize meanOf ((allDraws N).map (damageOf r)) = m at *
  generalize expectedRow r = e at *
  generalize hitLoss r.critBonus r.traitDamageMult r.damageMult = L at *
  generalize r.critRate = c at *
  generalize r.dhRate = d at *
  generalize r.critBonus = b at *
  have hA : 0 ≤ r.baseDamage * r.traitDamageMult * r.damageMult := by positivity
  have t0 : 0 < 1 / (N : ℚ) := by positivity
  have t1 : 1 / (N : ℚ) ≤ 1 := (div_le_one hN0).2 hN1
  have e20 : 1 / (20 * (N : ℚ)) = 1 / N / 20 := by field_simp
  have eN : r.baseDamage * (1 + 2 * b) * r.traitDamageMult * r.damageMult / N =
    (r.baseDamage * r.traitDamageMult * r.damageMult) * ((1 + 2 * b) * (1 / N)) := by ring
  rw [e20] at m1
  rw [eN]
  generalize 1 / (N : ℚ) = t at *
  have up : (1 + (c + t) * b) * (1 + (d + t) / 4) - (1 + c * b) * (1 + d / 4) ≤ (1 + 2 * b) * t := by
    have k : 0 ≤ t * (3 / 4 + b * (1 - d / 4 - c / 4 - t / 4)) :=
      mul_nonneg t0.le (add_nonneg (by norm_num) (mul_nonneg hbo (by linarith)))
    linarith
  have lo : (1 + c * b) * (1 + d / 4) * (t / 20) ≤ (1 + 2 * b) * t := by
    have k1 : (1 + c * b) * (1 + d / 4) ≤ (1 + 1 * b) * (1 + 1 / 4) := by gcongr
    have k2 := mul_le_mul_of_nonneg_right k1 (by linarith : 0 ≤ t / 20)
    have k3 := mul_nonneg hbo t0.le
    linarith
  have up' := mul_le_mul_of_nonneg_left up hA
  have lo' := mul_le_mul_of_nonneg_left lo hA
  rw [abs_le]
  constructor <;> linarith

theorem sum_replicate {α : Type} (m : ℕ) (all : List α) (f : α → ℚ) :
    (((List.replicate m all).flatten).map f).sum = m * (all.map f).sum := by
  induction m with
  | zero => simp
  | succ m ih =>
    rw [List.replicate_succ, List.flatten_cons, List.map_append, List.sum_append, ih]
    push_cast
    ring

theorem countP_replicate (m : ℕ) {α : Type} (all : List α) (p : α → Bool) :
    ((List.replicate m all).flatten).countP p = m * all.countP p := by
  induction m with
  | zero => simp
  | succ m ih => rw [List.replicate_succ, List.flatten_cons, List.countP_append, ih]; ring

theorem length_replicate (m : ℕ) {α : Type} (all : List α) :
    ((List.replicate m all).flatten).length = m * all.length := by
  simp

/-- Repetitions do not change a mean. -/
theorem mean_equally {α : Type} {l all : List α} (h : EquallyOften l all) (f : α → ℚ) :
    meanOf (l.map f) = meanOf (all.map f) := by
  obtain ⟨m, hm, p⟩ := h
  have hm' : (m : ℚ) ≠ 0 := by exact_mod_cast hm.ne'
  unfold meanOf
  rw [(p.map f).sum_eq, sum_replicate, List.length_map, List.length_map, p.length_eq, length_replicate]
  push_cast
  rw [mul_div_mul_left _ _ hm']

/-- Repetitions do not change a share. -/
theorem share_equally {α : Type} {l all : List α} (h : EquallyOften l all) (p : α → Bool) :
    ((l.countP p : ℕ) : ℚ) / l.length = ((all.countP p : ℕ) : ℚ) / all.length := by
  obtain ⟨m, hm, q⟩ := h
  have hm' : (m : ℚ) ≠ 0 := by exact_mod_cast hm.ne'
  rw [q.countP_eq, q.length_eq, countP_replicate, length_replicate]
  push_cast
  rw [mul_div_mul_left _ _ hm']

theorem mean_draws {r : DamageRow} {n N : ℕ} {w : ℕ → Draw} (hg : EquallyOften ((List.range n).map w) (allDraws N)) :
    meanOf ((List.range n).map ((fun x : ℚ × Bool × Bool => x.1) ∘ fun j => getDamage r.baseDamage r.critBonus
      r.critRate r.dhRate r.traitDamageMult r.damageMult (1 / 10) (w j))) = meanOf ((allDraws N).map (damageOf r)) := by
  rw [← mean_equally hg, List.map_map]
  rfl

theorem countP_flatMap' {α β : Type} (l : List α) (f : α → List β) (p : β → Bool) :
    (l.flatMap f).countP p = (l.map fun a => (f a).countP p).sum := by
  induction l with
  | nil => rfl
  | cons a l ih => simp [ih]

theorem sum_ite_nat (l : List ℚ) (p : ℚ → Bool) (c : ℕ) : (l.map fun a => if p a then c else 0).sum = l.countP p * c := by
  induction l with
  | nil => simp
  | cons a l ih => cases h : p a <;> simp [ih, h]; ring

theorem countP_const {α : Type} (l : List α) (p : Bool) : (l.countP fun _ => p) = if p then l.length else 0 := by
  cases p <;> simp

theorem sum_const_nat {α : Type} (l : List α) (c : ℕ) : (l.map fun _ => c).sum = l.length * c := by
  induction l with
  | nil => simp
  | cons a l ih => rw [List.map_cons, List.sum_cons, ih, List.length_cons]; ring

theorem allDraws_crit (N : ℕ) (r : ℚ) : ((allDraws N).countP fun w => decide (w.crit ≤ r)) =
    (unitGrid N).countP (fun x => decide (x ≤ r)) * (N * N) := by
  unfold allDraws
  rw [countP_flatMap']
  simp only [countP_flatMap', List.countP_map, Function.comp_def]
  change ((unitGrid N).map fun _ => ((unitGrid N).map fun b => (unitGrid N).countP fun _ => decide (b ≤ r)).sum).sum = _
  have e : (fun a : ℚ => (unitGrid N).countP fun _ => decide (a ≤ r)) = fun a => if decide (a ≤ r) then N else 0 := by
    funext a
    rw [countP_const, unitGrid_length]
  rw [e, sum_ite_nat _ (fun x => decide (x ≤ r)), sum_const_nat, unitGrid_length]
  ring

theorem allDraws_dh (N : ℕ) (r : ℚ) : ((allDraws N).countP fun w => decide (w.dh ≤ r)) =
    (unitGrid N).countP (fun x => decide (x ≤ r)) * (N * N) := by
  unfold allDraws
  rw [countP_flatMap']
  simp only [countP_flatMap', List.countP_map, Function.comp_def]
  change ((unitGrid N).map fun _ => ((unitGrid N).map fun _ => (unitGrid N).countP fun c => decide (c ≤ r)).sum).sum = _
  rw [sum_const_nat, sum_const_nat, unitGrid_length]
  ring

theorem share_bounds' {N k : ℕ} {r : ℚ} (hN : 0 < N) (h : r * N ≤ k ∧ (k : ℚ) ≤ r * N + 1) :
    r ≤ ((k * (N * N) : ℕ) : ℚ) / (N * (N * N) : ℕ) ∧ ((k * (N * N) : ℕ) : ℚ) / (N * (N * N) : ℕ) ≤ r + 1 / N := by
  have hN' : (0 : ℚ) < N := by exact_mod_cast hN
  have e : ((k * (N * N) : ℕ) : ℚ) / (N * (N * N) : ℕ) = k / N := by
    push_cast
    field_simp
  rw [e, le_div_iff₀ hN', div_le_iff₀ hN']
  refine ⟨h.1, h.2.trans (le_of_eq ?_)⟩
  field_simp

theorem sum_range_get (row : List (ℚ × Bool × Bool)) :
    ((List.range row.length).map fun j => (row[j]?.map (·.1)).getD 0) = row.map (·.1) := by
  refine List.ext_getElem (by simp) fun i h1 h2 => ?_
  have : i < row.length := by simpa using h2
  simp [this]

theorem sum_swap {α β : Type} (xs : List α) (ys : List β) (f : α → β → ℚ) :
    (xs.map fun x => (ys.map fun y => f x y).sum).sum = (ys.map fun y => (xs.map fun x => f x y).sum).sum := by
  induction ys with
  | nil => simp
  | cons y ys ih =>
    rw [List.map_cons, List.sum_cons, ← ih]
    simp only [List.map_cons, List.sum_cons]
    clear ih
    induction xs with
    | nil => simp
    | cons x xs ih => simp only [List.map_cons, List.sum_cons, ih]; ring

/-- The mean of the totals is the total of the means. -/
theorem mean_sampleSums {n : ℕ} {m : List (List (ℚ × Bool × Bool))} (h : ∀ row ∈ m, row.length = n) :
    meanOf (sampleSums n m) = (m.map fun row => meanOf (row.map (·.1))).sum := by
  unfold meanOf sampleSums
  rw [sum_swap]
  simp only [List.length_map, List.length_range]
  induction m with
  | nil => simp
  | cons row m ih =>
    have hr := h row (List.mem_cons_self ..)
    simp only [List.map_cons, List.sum_cons]
    rw [← ih fun r hr => h r (List.mem_cons_of_mem _ hr), add_div, ← hr, sum_range_get]

theorem abs_sum_le {α : Type} {f g a : α → ℚ} : ∀ {l : List α}, (∀ x ∈ l, |f x - g x| ≤ a x) →
    |(l.map f).sum - (l.map g).sum| ≤ (l.map a).sum
  | [], _ => by simp
  | x :: l, h => by
    have h1 := abs_le.1 (h x (List.mem_cons_self ..))
    have h2 := abs_le.1 (abs_sum_le (l := l) fun y hy => h y (List.mem_cons_of_mem _ hy))
    simp only [List.map_cons, List.sum_cons]
    rw [abs_le]
    constructor <;> linarith [h1.1, h1.2, h2.1, h2.2]

end Ama.Formulas
