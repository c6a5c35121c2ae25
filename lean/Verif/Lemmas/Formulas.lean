import Verif.Spec.Formulas
import Verif.Props.BaseDamage

/-!
# Lemmas about the damage formulas without rounding
-/

namespace Ama.Formulas

open Spec StatFns GameConsts ComputeDamage

theorem lt_npFloor (x : ℚ) : x - 1 < npFloor x := Int.sub_one_lt_floor x

/-- Rounding down to multiples of `1 / c`. -/
theorem floor_div {c x y : ℚ} (hc : 0 < c) (h : y = x * c) : x - 1 / c ≤ npFloor y / c ∧ npFloor y / c ≤ x := by
  have h1 := lt_npFloor y
  have h2 := npFloor_le y
  constructor
  · rw [le_div_iff₀ hc, sub_mul, one_div, inv_mul_cancel₀ hc.ne', ← h]
    exact h1.le
  · rw [div_le_iff₀ hc, ← h]
    exact h2

theorem floor_one (x : ℚ) : x - 1 ≤ npFloor x ∧ npFloor x ≤ x := ⟨(lt_npFloor x).le, npFloor_le x⟩

theorem floor_floor (x : ℚ) : npFloor (npFloor x) = npFloor x := npFloor_int _

/-- Two roundings, the second one to hundredths or thousandths of the first. -/
theorem floor_floor_div {c : ℕ} (hc : 0 < c) (x : ℚ) :
    x / c - 1 ≤ npFloor (npFloor x / c) ∧ npFloor (npFloor x / c) ≤ x / c := by
  have hc' : (0 : ℚ) < c := by exact_mod_cast hc
  constructor
  · have h : npFloor (x / c) ≤ npFloor (npFloor x / c) := by
      unfold npFloor
      have : ⌊x / (c : ℚ)⌋ ≤ ⌊((⌊x⌋ : ℤ) : ℚ) / c⌋ := by
        rw [Int.le_floor, le_div_iff₀ hc']
        have h1 : (⌊x / (c : ℚ)⌋ : ℚ) * c ≤ x := by
          rw [← le_div_iff₀ hc']; exact Int.floor_le _
        have h2 : (⌊x / (c : ℚ)⌋ * (c : ℤ) : ℤ) ≤ ⌊x⌋ := by
          rw [Int.le_floor]; push_cast; exact h1
        exact_mod_cast h2
      exact_mod_cast this
    linarith [lt_npFloor (x / c)]
  · refine (npFloor_le _).trans ?_
    exact div_le_div_of_nonneg_right (npFloor_le x) hc'.le

section

variable {p ap wd det t spd x b : ℚ}

/-- Direct damage of healers and casters. -/
theorem mage_bounds (hp : 0 ≤ p) (ha : 0 ≤ ap) (hw : 0 ≤ wd) (hd : 0 ≤ det)
    (hb : b = npFloor (npFloor (ap * det / 1000) / 100 * npFloor (wd * p / 100))) :
    0 ≤ b ∧ p / 100 * (ap / 100 * wd * (det / 1000)) - (ap / 100 * (det / 1000) + p * wd / 10000 + 1) ≤ b ∧
      b ≤ p / 100 * (ap / 100 * wd * (det / 1000)) := by
  have x0 : 0 ≤ ap * det / 1000 := by positivity
  have y0 : 0 ≤ wd * p / 100 := by positivity
  obtain ⟨x1, x2⟩ := floor_one (ap * det / 1000)
  obtain ⟨y1, y2⟩ := floor_one (wd * p / 100)
  have X0 := npFloor_nonneg x0
  have Y0 := npFloor_nonneg y0
  have e : p / 100 * (ap / 100 * wd * (det / 1000)) = ap * det / 1000 * (wd * p / 100) / 100 := by ring
  generalize hx : ap * det / 1000 = u at *
  generalize hy : wd * p / 100 = v at *
  generalize npFloor u = U at *
  generalize npFloor v = V at *
  obtain ⟨b1, b2⟩ := floor_one (U / 100 * V)
  have e1 : ap / 100 * (det / 1000) = u / 100 := by rw [← hx]; ring
  have e2 : p * wd / 10000 = v / 100 := by rw [← hy]; ring
  rw [e, e1, e2, hb]
  have k1 : (u - U) * v ≤ 1 * v := mul_le_mul_of_nonneg_right (by linarith) y0
  have k2 : U * (v - V) ≤ u * 1 := mul_le_mul x2 (by linarith) (by linarith) x0
  have k3 : U * V ≤ u * v := mul_le_mul x2 y2 Y0 x0
  refine ⟨npFloor_nonneg (by positivity), ?_, ?_⟩ <;> linarith

/-- Potency, attack power and determination, for direct damage, pets and auto-attacks. -/
theorem chain_bounds (hp : 0 ≤ p) (ha : 0 ≤ ap) (hd : 0 ≤ det)
    (hb : b = npFloor (npFloor (p * ap / 100) / 100 * det / 10) / 100) :
    0 ≤ b ∧ p / 100 * (ap / 100) * (det / 1000) - (det / 1000 + 1) / 100 ≤ b ∧
      b ≤ p / 100 * (ap / 100) * (det / 1000) := by
  obtain ⟨x1, x2⟩ := floor_div (c := 100) (x := p / 100 * (ap / 100)) (y := p * ap / 100) (by norm_num) (by ring)
  have X0 : 0 ≤ npFloor (p * ap / 100) / 100 := div_nonneg (npFloor_nonneg (by positivity)) (by norm_num)
  obtain ⟨y1, y2⟩ := floor_div (c := 100) (x := npFloor (p * ap / 100) / 100 * (det / 1000))
    (y := npFloor (p * ap / 100) / 100 * det / 10) (by norm_num) (by ring)
  generalize npFloor (p * ap / 100) / 100 = U at *
  have d0 : 0 ≤ det / 1000 := by positivity
  have k1 := mul_le_mul_of_nonneg_right x1 d0
  have k2 := mul_le_mul_of_nonneg_right x2 d0
  rw [hb]
  refine ⟨div_nonneg (npFloor_nonneg (by positivity)) (by norm_num), ?_, y2.trans k2⟩
  linarith

theorem tank_bounds (hx : 0 ≤ x) (ht : 0 ≤ t) :
    0 ≤ npFloor (x * t / 10) / 100 ∧ x * (t / 1000) - 1 / 100 ≤ npFloor (x * t / 10) / 100 ∧
      npFloor (x * t / 10) / 100 ≤ x * (t / 1000) :=
  ⟨div_nonneg (npFloor_nonneg (by positivity)) (by norm_num),
    floor_div (c := 100) (x := x * (t / 1000)) (by norm_num) (by ring)⟩

theorem tankDot_bounds (hx : 0 ≤ x) (ht : 0 ≤ t) :
    0 ≤ npFloor (x * t / 1000) ∧ x * (t / 1000) - 1 ≤ npFloor (x * t / 1000) ∧
      npFloor (x * t / 1000) ≤ x * (t / 1000) := by
  have e : x * t / 1000 = x * (t / 1000) := by ring
  refine ⟨npFloor_nonneg (by positivity), ?_⟩
  rw [e]
  exact floor_one _

end

section

variable {P A W D T S z r b spd wd : ℚ}

/-- Direct damage and pets: the weapon comes last. -/
theorem weapon_bounds (hW : 0 ≤ W) (hT : 0 ≤ T)
    (hz : P * A * D - (D + 1) / 100 ≤ z ∧ z ≤ P * A * D)
    (hr : 0 ≤ r ∧ z * T - 1 / 100 ≤ r ∧ r ≤ z * T) (hb : b = npFloor (npFloor (r * W))) :
    0 ≤ b ∧ P * (A * W * D * T) - (W * (D * T + T + 1) / 100 + 1) ≤ b ∧ b ≤ P * (A * W * D * T) := by
  rw [floor_floor] at hb
  obtain ⟨b1, b2⟩ := floor_one (r * W)
  have k1 := mul_le_mul_of_nonneg_right (mul_le_mul_of_nonneg_right hz.1 hT) hW
  have k2 := mul_le_mul_of_nonneg_right (mul_le_mul_of_nonneg_right hz.2 hT) hW
  have k3 := mul_le_mul_of_nonneg_right hr.2.1 hW
  have k4 := mul_le_mul_of_nonneg_right hr.2.2 hW
  rw [hb]
  refine ⟨npFloor_nonneg (mul_nonneg hr.1 hW), ?_, ?_⟩ <;> linarith

/-- Auto-attacks: speed, then the weapon. -/
theorem auto_bounds (hW : 0 ≤ W) (hT : 0 ≤ T) (hS : 0 ≤ S) (hspd : spd = S * 1000)
    (hz : P * A * D - (D + 1) / 100 ≤ z ∧ z ≤ P * A * D)
    (hr : 0 ≤ r ∧ z * T - 1 / 100 ≤ r ∧ r ≤ z * T)
    (hb : b = npFloor (npFloor (npFloor (r * spd) / 10 * W) / 100)) :
    0 ≤ b ∧ P * (A * W * D * T * S) - (W * (S * (D * T + T + 1) + 1) / 100 + 2) ≤ b ∧
      b ≤ P * (A * W * D * T * S) := by
  obtain ⟨x1, x2⟩ := floor_div (c := 10) (x := r * S * 100) (y := r * spd) (by norm_num) (by rw [hspd]; ring)
  have X0 : 0 ≤ npFloor (r * spd) / 10 :=
    div_nonneg (npFloor_nonneg (mul_nonneg hr.1 (by rw [hspd]; positivity))) (by norm_num)
  generalize npFloor (r * spd) / 10 = X at *
  obtain ⟨b1, b2⟩ := floor_floor_div (c := 100) (by norm_num) (X * W)
  push_cast at b1 b2
  have hSW : 0 ≤ S * W := mul_nonneg hS hW
  have k1 := mul_le_mul_of_nonneg_right (mul_le_mul_of_nonneg_right hz.1 hT) hSW
  have k2 := mul_le_mul_of_nonneg_right (mul_le_mul_of_nonneg_right hz.2 hT) hSW
  have k3 := mul_le_mul_of_nonneg_right hr.2.1 hSW
  have k4 := mul_le_mul_of_nonneg_right hr.2.2 hSW
  have k5 := mul_le_mul_of_nonneg_right x1 hW
  have k6 := mul_le_mul_of_nonneg_right x2 hW
  rw [hb]
  refine ⟨npFloor_nonneg (div_nonneg (npFloor_nonneg (mul_nonneg X0 hW)) (by norm_num)), ?_, ?_⟩ <;> linarith

end

/-- A whole number. -/
def Whole (x : ℚ) : Prop := npFloor x = x

theorem Whole.floor (x : ℚ) : Whole (npFloor x) := floor_floor x

theorem Whole.int (z : ℤ) : Whole (z : ℚ) := npFloor_int z

theorem Whole.exists {x : ℚ} (h : Whole x) : ∃ z : ℤ, x = z := ⟨⌊x⌋, h.symm⟩

theorem Whole.mul {x y : ℚ} (hx : Whole x) (hy : Whole y) : Whole (x * y) := by
  obtain ⟨a, rfl⟩ := hx.exists
  obtain ⟨b, rfl⟩ := hy.exists
  have := Whole.int (a * b)
  push_cast at this
  exact this

theorem Whole.add {x y : ℚ} (hx : Whole x) (hy : Whole y) : Whole (x + y) := by
  obtain ⟨a, rfl⟩ := hx.exists
  obtain ⟨b, rfl⟩ := hy.exists
  have := Whole.int (a + b)
  push_cast at this
  exact this

section

variable {p ap wd det spd A W D T S z r b : ℚ}

/-- Magical dots, before tenacity. -/
theorem magical_bounds (hp : 0 ≤ p) (ha : 0 ≤ ap) (hw : 0 ≤ wd) (hd : 0 ≤ det) (hs : 0 ≤ spd) (wa : Whole ap)
    (wdet : Whole det) (ws : Whole spd)
    (hz : z = npFloor (npFloor (npFloor (npFloor (npFloor (npFloor (npFloor (p * wd) / 100) * ap) * spd)) * det) / 1000)) :
    0 ≤ z ∧ (p / 100 * wd - 1) * ap * spd * det / 1000 - 1 ≤ z ∧ z ≤ p / 100 * wd * ap * spd * det / 1000 := by
  have h := floor_floor_div (c := 100) (by norm_num) (p * wd)
  push_cast at h
  have X0 : 0 ≤ npFloor (npFloor (p * wd) / 100) :=
    npFloor_nonneg (div_nonneg (npFloor_nonneg (mul_nonneg hp hw)) (by norm_num))
  have Xw : Whole (npFloor (npFloor (p * wd) / 100)) := Whole.floor _
  generalize npFloor (npFloor (p * wd) / 100) = X at *
  have w1 : npFloor (X * ap) = X * ap := Xw.mul wa
  have w2 : npFloor (X * ap * spd) = X * ap * spd := (Xw.mul wa).mul ws
  have w3 : npFloor (X * ap * spd * det) = X * ap * spd * det := ((Xw.mul wa).mul ws).mul wdet
  rw [w1, w2, w2, w3] at hz
  obtain ⟨z1, z2⟩ := floor_one (X * ap * spd * det / 1000)
  have k : 0 ≤ ap * spd * det := by positivity
  have k1 := mul_le_mul_of_nonneg_right h.1 k
  have k2 := mul_le_mul_of_nonneg_right h.2 k
  rw [hz]
  refine ⟨npFloor_nonneg (by positivity), ?_, ?_⟩ <;> linarith

/-- Magical dots: tenacity and the last division. -/
theorem magicalEnd_bounds (hT : 0 ≤ T) (hA : ap = A * 100) (hS : spd = S * 1000) (hD : det = D * 1000)
    (hz : (p / 100 * wd - 1) * ap * spd * det / 1000 - 1 ≤ z ∧ z ≤ p / 100 * wd * ap * spd * det / 1000)
    (hr : 0 ≤ r ∧ z * T - 1 ≤ r ∧ r ≤ z * T) (hb : b = npFloor (npFloor (r / 1000) / 100)) :
    0 ≤ b ∧ p / 100 * (A * wd * D * T * S) - (A * S * D * T + T / 100 + 2) ≤ b ∧
      b ≤ p / 100 * (A * wd * D * T * S) := by
  obtain ⟨b1, b2⟩ := floor_floor_div (c := 100) (by norm_num) (r / 1000)
  push_cast at b1 b2
  subst hA hS hD
  have k1 := mul_le_mul_of_nonneg_right hz.1 hT
  have k2 := mul_le_mul_of_nonneg_right hz.2 hT
  rw [hb]
  refine ⟨npFloor_nonneg (div_nonneg (npFloor_nonneg (div_nonneg hr.1 (by norm_num))) (by norm_num)), ?_, ?_⟩ <;>
    linarith

/-- Physical dots, before tenacity. -/
theorem physical_bounds (hp : 0 ≤ p) (ha : 0 ≤ ap) (hd : 0 ≤ det)
    (hz : z = npFloor (p * ap * det / 100) / 1000) :
    0 ≤ z ∧ p / 100 * (ap / 100) * (det / 1000) * 100 - 1 / 1000 ≤ z ∧
      z ≤ p / 100 * (ap / 100) * (det / 1000) * 100 := by
  rw [hz]
  exact ⟨div_nonneg (npFloor_nonneg (by positivity)) (by norm_num),
    floor_div (c := 1000) (by norm_num) (by ring)⟩

/-- Physical dots: tenacity, speed, weapon. -/
theorem physicalEnd_bounds {P : ℚ} (hT : 0 ≤ T) (hS : 0 ≤ S) (hW : 0 ≤ W) (hspd : spd = S * 1000)
    (hz : P * A * D * 100 - 1 / 1000 ≤ z ∧ z ≤ P * A * D * 100)
    (hr : 0 ≤ r ∧ z * T - 1 ≤ r ∧ r ≤ z * T)
    (hb : b = npFloor (npFloor (npFloor (npFloor (r * spd) / 1000) * W) / 100)) :
    0 ≤ b ∧ P * (A * W * D * T * S) - (W * (T * S + S + 2) / 100 + 2) ≤ b ∧
      b ≤ P * (A * W * D * T * S) := by
  have h := floor_floor_div (c := 1000) (by norm_num) (r * spd)
  have X0 : 0 ≤ npFloor (npFloor (r * spd) / 1000) :=
    npFloor_nonneg (div_nonneg (npFloor_nonneg (mul_nonneg hr.1 (by rw [hspd]; positivity))) (by norm_num))
  push_cast at h
  generalize npFloor (npFloor (r * spd) / 1000) = X at *
  have b' := floor_floor_div (c := 100) (by norm_num) (X * W)
  push_cast at b'
  obtain ⟨b1, b2⟩ := b'
  subst hspd
  have hSW : 0 ≤ S * W := mul_nonneg hS hW
  have k0 : 0 ≤ T * (S * W) := mul_nonneg hT hSW
  have k1 := mul_le_mul_of_nonneg_right (mul_le_mul_of_nonneg_right hz.1 hT) hSW
  have k2 := mul_le_mul_of_nonneg_right (mul_le_mul_of_nonneg_right hz.2 hT) hSW
  have k3 := mul_le_mul_of_nonneg_right hr.2.1 hSW
  have k4 := mul_le_mul_of_nonneg_right hr.2.2 hSW
  have k5 := mul_le_mul_of_nonneg_right h.1 hW
  have k6 := mul_le_mul_of_nonneg_right h.2 hW
  rw [hb]
  refine ⟨npFloor_nonneg (div_nonneg (npFloor_nonneg (mul_nonneg X0 hW)) (by norm_num)), ?_, ?_⟩ <;> linarith

/-- The guaranteed bonuses and the multiplier of the skill. -/
theorem finish_bounds {g1 g2 mult : ℚ} (hm : 0 ≤ mult) (x : ℚ) :
    (x * (1 + g1 + g2) - 2) * mult ≤ (x + (npFloor (x * g1) + npFloor (x * g2))) * mult ∧
      (x + (npFloor (x * g1) + npFloor (x * g2))) * mult ≤ x * (1 + g1 + g2) * mult := by
  obtain ⟨a1, a2⟩ := floor_one (x * g1)
  obtain ⟨b1, b2⟩ := floor_one (x * g2)
  constructor <;> apply mul_le_mul_of_nonneg_right _ hm <;> linarith

end

/-! ### The tables -/

/-- What the tables say about a job. -/
structure JobFacts (version job : String) (jobMod : ℚ) : Prop where
  jobMod : jobMod = jobModifier job
  tank : JobClassFns.isTank version job = decide (Tank job)
  mage : (JobClassFns.isHealer version job || JobClassFns.isCaster version job) = decide (Mage job)
  speed : JobClassFns.usesSks version job = decide (SkillSpeed job)
  trait : JobClassFns.traitDamageMult version job = traitMultiplier job

theorem jobFacts {version job : String} {x : ℚ} (h : Dict.get (JobClassFns.jobMods version) job = .ok x) :
    JobFacts version job x := by
  have h1 := Dict.mem_of_get? (Dict.get_ok.1 h)
  have key : ∀ v ∈ ["test", ""], ∀ kv ∈ JobClassFns.jobMods v, kv.2 = jobModifier kv.1 ∧
      JobClassFns.isTank v kv.1 = decide (Tank kv.1) ∧
      (JobClassFns.isHealer v kv.1 || JobClassFns.isCaster v kv.1) = decide (Mage kv.1) ∧
      JobClassFns.usesSks v kv.1 = decide (SkillSpeed kv.1) ∧
      JobClassFns.traitDamageMult v kv.1 = traitMultiplier kv.1 := by decide +kernel
  by_cases hv : version = "test"
  · subst hv
    obtain ⟨a, b, c, d, e⟩ := key "test" (by simp) _ h1
    exact ⟨a, b, c, d, e⟩
  · have e1 : JobClassFns.jobMods version = JobClassFns.jobMods "" := by
      unfold JobClassFns.jobMods
      rw [if_neg hv, if_neg (by decide)]
    rw [e1] at h1
    obtain ⟨a, b, c, d, e⟩ := key "" (by simp) _ h1
    unfold JobClassFns.isTank at b
    unfold JobClassFns.isHealer JobClassFns.isCaster at c
    unfold JobClassFns.usesSks at d
    unfold JobClassFns.traitDamageMult at e
    rw [if_neg (by decide)] at b d e
    rw [if_neg (by decide), if_neg (by decide)] at c
    refine ⟨a, ?_, ?_, ?_, ?_⟩
    · unfold JobClassFns.isTank
      rw [if_neg hv]
      exact b
    · unfold JobClassFns.isHealer JobClassFns.isCaster
      rw [if_neg hv, if_neg hv]
      exact c
    · unfold JobClassFns.usesSks
      rw [if_neg hv]
      exact d
    · unfold JobClassFns.traitDamageMult
      rw [if_neg hv]
      exact e

theorem defaultDelay_eq {job : String} {x : ℚ} (h : Dict.get WEAPON_DELAYS job = .ok x) :
    x = defaultDelay job := by
  have h1 := Dict.mem_of_get? (Dict.get_ok.1 h)
  have key : ∀ kv ∈ WEAPON_DELAYS, kv.2 = defaultDelay kv.1 := by decide +kernel
  exact key _ h1

/-- The constants of the level. -/
def row (raw : RawStats) : Row :=
  ⟨130, 200, 50, 400, 550, 140, (levelNumbers raw).tenacity, (levelNumbers raw).div, (levelNumbers raw).main,
    (levelNumbers raw).sub, (levelNumbers raw).attack, (levelNumbers raw).tankAttack⟩

theorem isRow {raw : RawStats} (h : Supported raw.version raw.level) : IsRow raw.version raw.level (row raw) := by
  unfold row levelNumbers
  by_cases hv : raw.version = "test"
  · rw [if_neg (fun h => h.1 hv), hv]
    exact ⟨List.mem_cons_self, rfl, rfl, rfl, rfl, rfl, rfl, rfl, rfl, rfl, rfl, rfl, rfl⟩
  · have key : ∀ tv a b : ℚ, lookup tv [(90, a), (100, b)] raw.version raw.level =
        Dict.get [(90, a), (100, b)] raw.level := fun tv a b => if_neg hv
    rcases h with h | h | h
    · exact absurd h hv
    · rw [if_neg (by rw [h]; simp)]
      rw [h] at key ⊢
      exact ⟨List.mem_cons_self,
        key _ _ _, key _ _ _, key _ _ _, key _ _ _, key _ _ _, key _ _ _, key _ _ _, key _ _ _,
        key _ _ _, key _ _ _, key _ _ _, key _ _ _⟩
    · rw [if_pos ⟨hv, h⟩]
      rw [h] at key ⊢
      exact ⟨List.mem_cons_of_mem _ List.mem_cons_self,
        key _ _ _, key _ _ _, key _ _ _, key _ _ _, key _ _ _, key _ _ _, key _ _ _, key _ _ _,
        key _ _ _, key _ _ _, key _ _ _, key _ _ _⟩

theorem levelNumbers_pos (raw : RawStats) : 0 < (levelNumbers raw).main ∧ 0 < (levelNumbers raw).div ∧
    0 < (levelNumbers raw).attack ∧ 0 < (levelNumbers raw).tankAttack := by
  unfold levelNumbers
  split_ifs <;> norm_num

/-- The stats of a character. -/
structure StatFacts (raw : RawStats) (stats : Stats) : Prop where
  row : IsRow stats.version stats.level (row raw)
  jobMod : stats.processed.jobMod = jobModifier raw.jobClass
  tank : JobClassFns.isTank stats.version stats.jobClass = decide (Tank raw.jobClass)
  mage : (JobClassFns.isHealer stats.version stats.jobClass || JobClassFns.isCaster stats.version stats.jobClass) =
    decide (Mage raw.jobClass)
  speed : JobClassFns.usesSks stats.version stats.jobClass = decide (SkillSpeed raw.jobClass)
  trait : stats.processed.traitDamageMult = traitMultiplier raw.jobClass
  delay : stats.weaponDelay = delayOf raw

theorem statFacts {raw : RawStats} {stats : Stats} (h : mkStats raw = .ok stats) : StatFacts raw stats := by
  have p := mkStats_spec h
  have j := jobFacts p.jobMod
  have sup : Supported raw.version raw.level := by
    have := supported_crit p.crit
    rwa [p.version, p.level] at this
  have r := isRow sup
  rw [← p.version, ← p.level] at r
  rw [p.jobClass] at j
  have hj := p.jobClass
  refine ⟨r, j.jobMod, hj ▸ j.tank, hj ▸ j.mage, hj ▸ j.speed, p.trait.trans (hj ▸ j.trait), ?_⟩
  unfold delayOf
  rcases p.weaponDelay with h | ⟨h, h'⟩
  · rw [h]; rfl
  · rw [h]; exact defaultDelay_eq h'

/-! ### The factors -/

/-- Factors that are rounded down, by no more than the units. -/
structure Between (f u g : Factors) : Prop where
  attack : f.attack - u.attack ≤ g.attack ∧ g.attack ≤ f.attack
  weapon : f.weapon - u.weapon ≤ g.weapon ∧ g.weapon ≤ f.weapon
  determination : f.determination - u.determination ≤ g.determination ∧ g.determination ≤ f.determination
  tenacity : f.tenacity - u.tenacity ≤ g.tenacity ∧ g.tenacity ≤ f.tenacity
  speed : f.speed - u.speed ≤ g.speed ∧ g.speed ≤ f.speed
  guaranteed : f.guaranteed - u.guaranteed ≤ g.guaranteed ∧ g.guaranteed ≤ f.guaranteed

variable {raw : RawStats} {stats : Stats} {d : DamageSpec} {m : SkillModifier} {se : StatusEffects × StatusEffects}

theorem attack_between (hs : mkStats raw = .ok stats) {M tank ap}
    (hM : exactMainStat raw d se - mainStatUnit raw d ≤ M ∧ M ≤ exactMainStat raw d se)
    (ht : tank = decide (Tank raw.jobClass ∧ d.damageClass ≠ .pet))
    (h : fAP M tank stats.version stats.level = .ok ap) :
    Whole ap ∧ (factors raw d m se).attack - (units raw d se).attack ≤ ap / 100 ∧
      ap / 100 ≤ (factors raw d m se).attack := by
  have f := statFacts hs
  rw [ap_eq f.row] at h
  cases h
  have e : (if tank = true then (row raw).fapTank else (row raw).fap) = attackSlope raw d := by
    rw [ht]
    unfold attackSlope row
    simp only [decide_eq_true_eq]
  obtain ⟨p1, -, p3, p4⟩ := levelNumbers_pos raw
  have s0 : 0 < attackSlope raw d := by
    unfold attackSlope
    split_ifs
    · exact p4
    · exact p3
  rw [e]
  refine ⟨(Whole.floor _).add (Whole.int 100), ?_⟩
  unfold factors units
  simp only [row]
  generalize attackSlope raw d = c at *
  generalize (levelNumbers raw).main = L at *
  generalize exactMainStat raw d se = E at *
  generalize mainStatUnit raw d = k at *
  obtain ⟨a1, a2⟩ := floor_one (c * (M - L) / L)
  have k1 : c * (M - L) / L ≤ c * (E - L) / L := by
    apply div_le_div_of_nonneg_right _ p1.le
    apply mul_le_mul_of_nonneg_left _ s0.le
    linarith
  have k2 : c * (E - L) / L - c * k / L ≤ c * (M - L) / L := by
    rw [← sub_div]
    apply div_le_div_of_nonneg_right _ p1.le
    rw [← mul_sub]
    apply mul_le_mul_of_nonneg_left _ s0.le
    linarith
  constructor <;> linarith

theorem weapon_between (hs : mkStats raw = .ok stats) {wd} (hc : d.damageClass ≠ .auto)
    (h : fWD stats.wd (if d.damageClass = .pet then petJobMod stats d else stats.processed.jobMod)
      stats.version stats.level = .ok wd) :
    (factors raw d m se).weapon - (units raw d se).weapon ≤ wd ∧ wd ≤ (factors raw d m se).weapon := by
  have f := statFacts hs
  have p := mkStats_spec hs
  rw [wd_eq f.row] at h
  cases h
  have e : (factors raw d m se).weapon = (row raw).main *
      (if d.damageClass = .pet then petJobMod stats d else stats.processed.jobMod) / 1000 + stats.wd := by
    unfold factors petJobMod petModifier row
    simp only
    rw [f.jobMod, p.wd]
    cases hd : d.damageClass with
    | auto => exact absurd hd hc
    | pet => cases d.petJobModOverride <;> rfl
    | _ => rfl
  rw [e]
  unfold units
  simp only [if_neg hc]
  exact floor_one _

theorem auto_between (hs : mkStats raw = .ok stats) {wd} (hc : d.damageClass = .auto) (h0 : 0 ≤ delayOf raw)
    (h : fAuto stats.wd stats.weaponDelay stats.processed.jobMod stats.version stats.level = .ok wd) :
    (factors raw d m se).weapon - (units raw d se).weapon ≤ wd ∧ wd ≤ (factors raw d m se).weapon := by
  have f := statFacts hs
  have p := mkStats_spec hs
  rw [auto_eq f.row, f.delay, f.jobMod, p.wd] at h
  cases h
  unfold factors units row
  simp only [hc, if_true]
  obtain ⟨a1, a2⟩ := floor_one ((levelNumbers raw).main * jobModifier raw.jobClass / 1000 + raw.wd)
  generalize (levelNumbers raw).main * jobModifier raw.jobClass / 1000 + raw.wd = x at *
  generalize npFloor x = y at *
  obtain ⟨b1, b2⟩ := floor_one (y * (delayOf raw / 3))
  have h3 : 0 ≤ delayOf raw / 3 := by linarith
  have k1 := mul_le_mul_of_nonneg_right a1 h3
  have k2 := mul_le_mul_of_nonneg_right a2 h3
  constructor <;> linarith

theorem det_between (hs : mkStats raw = .ok stats) {det} (h : detDh stats d m se = .ok det) :
    Whole det ∧ (factors raw d m se).determination - (units raw d se).determination ≤ det / 1000 ∧
      det / 1000 ≤ (factors raw d m se).determination := by
  have f := statFacts hs
  have p := mkStats_spec hs
  unfold detDh at h
  unfold factors units
  simp only
  obtain ⟨a1, a2⟩ := floor_one (140 * (raw.detStat - (levelNumbers raw).main) / (levelNumbers raw).div)
  obtain ⟨b1, b2⟩ := floor_one (140 * (raw.dhStat - (levelNumbers raw).sub) / (levelNumbers raw).div)
  by_cases hy : Forced.forceYes ∈ dhSources d m se
  · rw [if_pos ((dhFlag_iff).2 hy), detDh_eq f.row, p.detStat, p.dhStat] at h
    cases h
    rw [if_pos hy]
    refine ⟨((Whole.floor _).add (Whole.int 1000)).add (Whole.floor _), ?_⟩
    simp only [row]
    constructor <;> linarith
  · rw [if_neg (fun h => hy ((dhFlag_iff).1 h))] at h
    have hdet := p.det
    rw [det_eq f.row, p.detStat] at hdet
    rw [← hdet] at h
    cases h
    rw [if_neg hy]
    refine ⟨(Whole.floor _).add (Whole.int 1000), ?_⟩
    simp only [row]
    constructor <;> linarith

theorem speed_between (hs : mkStats raw = .ok stats) {spd}
    (hc : d.damageClass = .magicalDot ∨ d.damageClass = .physicalDot ∨
      (d.damageClass = .auto ∧ SkillSpeed raw.jobClass))
    (h : fSpd stats.speedStat stats.version stats.level = .ok spd) :
    Whole spd ∧ (factors raw d m se).speed - (units raw d se).speed ≤ spd / 1000 ∧
      spd / 1000 ≤ (factors raw d m se).speed := by
  have f := statFacts hs
  have p := mkStats_spec hs
  rw [spd_eq f.row, p.speedStat] at h
  cases h
  refine ⟨Whole.floor _, ?_⟩
  unfold factors units
  simp only [if_pos hc, row]
  obtain ⟨a1, a2⟩ := floor_one (130 * (raw.speedStat - (levelNumbers raw).sub) / (levelNumbers raw).div + 1000)
  constructor <;> linarith

theorem tenacity_between (hs : mkStats raw = .ok stats) (ht : Tank raw.jobClass) {t} (h : tnc stats = .ok t) :
    (factors raw d m se).tenacity - (units raw d se).tenacity ≤ t / 1000 ∧
      t / 1000 ≤ (factors raw d m se).tenacity := by
  have f := statFacts hs
  have p := mkStats_spec hs
  unfold tnc at h
  rw [p.tenacity] at h
  unfold factors units
  simp only [if_pos ht]
  cases hten : raw.tenacity with
  | none => rw [hten] at h; cases h
  | some x =>
    rw [hten] at h
    simp only at h
    rw [tnc_eq f.row] at h
    cases h
    simp only [row, Option.getD_some]
    obtain ⟨a1, a2⟩ := floor_one ((levelNumbers raw).tenacity * (x - (levelNumbers raw).sub) / (levelNumbers raw).div)
    constructor <;> linarith

/-- The tenacity step of direct damage, pets and auto-attacks. -/
theorem tankStep_between (hs : mkStats raw = .ok stats)
    (hu : 0 ≤ (factors raw d m se).tenacity - (units raw d se).tenacity) {x r : ℚ} (hx : 0 ≤ x)
    (h : tankStep stats x = .ok r) :
    ∃ T, ((factors raw d m se).tenacity - (units raw d se).tenacity ≤ T ∧ T ≤ (factors raw d m se).tenacity) ∧
      0 ≤ r ∧ x * T - 1 / 100 ≤ r ∧ r ≤ x * T := by
  have f := statFacts hs
  unfold tankStep at h
  rw [f.tank] at h
  by_cases ht : Tank raw.jobClass
  · rw [if_pos (by simpa using ht)] at h
    obtain ⟨t, h1, h⟩ := Py.bind_eq_ok.1 h
    cases h
    have b := tenacity_between (d := d) (m := m) (se := se) hs ht h1
    have t0 : 0 ≤ t := by linarith [hu.trans b.1]
    exact ⟨t / 1000, b, tank_bounds hx t0⟩
  · rw [if_neg (by simpa using ht)] at h
    cases h
    refine ⟨1, ?_, hx, by linarith, by linarith⟩
    unfold factors units
    simp [if_neg ht]

/-- The tenacity step of dots. -/
theorem tankStepDot_between (hs : mkStats raw = .ok stats)
    (hu : 0 ≤ (factors raw d m se).tenacity - (units raw d se).tenacity) {x r : ℚ} (hx : 0 ≤ x)
    (h : tankStepDot stats x = .ok r) :
    ∃ T, ((factors raw d m se).tenacity - (units raw d se).tenacity ≤ T ∧ T ≤ (factors raw d m se).tenacity) ∧
      0 ≤ r ∧ x * T - 1 ≤ r ∧ r ≤ x * T := by
  have f := statFacts hs
  unfold tankStepDot at h
  rw [f.tank] at h
  by_cases ht : Tank raw.jobClass
  · rw [if_pos (by simpa using ht)] at h
    obtain ⟨t, h1, h⟩ := Py.bind_eq_ok.1 h
    cases h
    have b := tenacity_between (d := d) (m := m) (se := se) hs ht h1
    have t0 : 0 ≤ t := by linarith [hu.trans b.1]
    exact ⟨t / 1000, b, tankDot_bounds hx t0⟩
  · rw [if_neg (by simpa using ht)] at h
    cases h
    refine ⟨1, ?_, hx, by linarith, by linarith⟩
    unfold factors units
    simp [if_neg ht]

theorem critBonus_between (hs : mkStats raw = .ok stats) :
    exactCritBonus raw - 1 / 1000 < stats.processed.critBonus ∧ stats.processed.critBonus ≤ exactCritBonus raw ∧
    exactCritRate raw - 1 / 1000 < stats.processed.critRate ∧ stats.processed.critRate ≤ exactCritRate raw := by
  have f := statFacts hs
  have p := mkStats_spec hs
  have h := p.crit
  rw [crit_eq f.row, p.critStat] at h
  have h' := Except.ok.inj h
  simp only [Prod.mk.injEq, row] at h'
  rw [← h'.1, ← h'.2]
  unfold exactCritBonus exactCritRate
  have a1 := lt_npFloor (200 * (raw.critStat - (levelNumbers raw).sub) / (levelNumbers raw).div)
  have a2 := npFloor_le (200 * (raw.critStat - (levelNumbers raw).sub) / (levelNumbers raw).div)
  refine ⟨?_, ?_, ?_, ?_⟩ <;> linarith

theorem guaranteed_between (hs : mkStats raw = .ok stats) (hc : 0 ≤ addedCrit se) :
    (factors raw d m se).guaranteed - (units raw d se).guaranteed ≤
        1 + (guaranteedBonus stats d m se).1 + (guaranteedBonus stats d m se).2 ∧
      1 + (guaranteedBonus stats d m se).1 + (guaranteedBonus stats d m se).2 ≤ (factors raw d m se).guaranteed := by
  obtain ⟨b1, b2, -⟩ := critBonus_between hs
  have e1 : (guaranteedBonus stats d m se).1 =
      if Forced.forceYes ∈ dhSources d m se then addedDh se / 4 else 0 := by
    unfold guaranteedBonus dhBonusMult DH_DAMAGE_MULT_BONUS addedDh
    simp only [dhFlag_iff]
    split_ifs <;> ring
  have e2 : (guaranteedBonus stats d m se).2 =
      if Forced.forceYes ∈ critSources d m se then stats.processed.critBonus * addedCrit se else 0 := by
    unfold guaranteedBonus critBonusMult addedCrit
    simp only [critFlag_iff]
  rw [e1, e2]
  unfold factors units
  simp only
  have k1 := mul_le_mul_of_nonneg_right b1.le hc
  have k2 := mul_le_mul_of_nonneg_right b2 hc
  constructor <;> (split_ifs <;> linarith)

theorem party_between (hs : mkStats raw = .ok stats) (hp : 0 ≤ raw.numRolesInParty) :
    (raw.mainStat * se.1.mainStatMult * se.2.mainStatMult + se.1.mainStatAdd + se.2.mainStatAdd) * partyBonus raw -
        (partyBonus raw + 1) ≤ partyMainStat stats se ∧
      partyMainStat stats se ≤
        (raw.mainStat * se.1.mainStatMult * se.2.mainStatMult + se.1.mainStatAdd + se.2.mainStatAdd) *
          partyBonus raw := by
  have p := mkStats_spec hs
  unfold partyMainStat partyBonus
  rw [p.mainStat, p.party]
  obtain ⟨a1, a2⟩ := floor_one (raw.mainStat * se.1.mainStatMult * se.2.mainStatMult)
  generalize raw.mainStat * se.1.mainStatMult * se.2.mainStatMult = x at *
  generalize npFloor x = y at *
  have e : (1 + 1 / 100 * raw.numRolesInParty) = 1 + raw.numRolesInParty / 100 := by ring
  rw [e]
  obtain ⟨b1, b2⟩ := floor_one ((y + (se.1.mainStatAdd + se.2.mainStatAdd)) * (1 + raw.numRolesInParty / 100))
  have h3 : 0 ≤ 1 + raw.numRolesInParty / 100 := by positivity
  have k1 := mul_le_mul_of_nonneg_right a1 h3
  have k2 := mul_le_mul_of_nonneg_right a2 h3
  constructor <;> linarith

theorem pet_between (hs : mkStats raw = .ok stats) (hc : d.damageClass = .pet) (hp : 0 ≤ d.petScalar) {lm}
    (h : getLevelMain stats.version stats.level = .ok lm) :
    exactMainStat raw d se - mainStatUnit raw d ≤ petMainStat stats d se lm ∧
      petMainStat stats d se lm ≤ exactMainStat raw d se := by
  have f := statFacts hs
  have p := mkStats_spec hs
  rw [f.row.main] at h
  cases h
  have e : petJobMod stats d = petModifier raw d := by
    unfold petJobMod petModifier
    rw [f.jobMod]
    cases d.petJobModOverride <;> rfl
  unfold exactMainStat mainStatUnit petMainStat
  rw [e, f.jobMod, p.mainStat, hc]
  simp only [row]
  have e1 : ∀ x : ℚ, npFloor x = ((⌊x⌋ : ℤ) : ℚ) := fun _ => rfl
  rw [e1 ((levelNumbers raw).main * jobModifier raw.jobClass / 100),
    e1 ((levelNumbers raw).main * petModifier raw d / 100)]
  generalize ((⌊(levelNumbers raw).main * jobModifier raw.jobClass / 100⌋ : ℤ) : ℚ) = u
  generalize ((⌊(levelNumbers raw).main * petModifier raw d / 100⌋ : ℤ) : ℚ) = v
  obtain ⟨a1, a2⟩ := floor_one ((raw.mainStat - (u - v)) * se.1.mainStatMult * se.2.mainStatMult)
  have k1 := mul_le_mul_of_nonneg_right a1 hp
  have k2 := mul_le_mul_of_nonneg_right a2 hp
  constructor <;> linarith

theorem autoMain_between (hs : mkStats raw = .ok stats) (hc : d.damageClass = .auto)
    (hp : 0 ≤ raw.numRolesInParty) {x} (h : autoMainStat stats se = .ok x) :
    exactMainStat raw d se - mainStatUnit raw d ≤ x ∧ x ≤ exactMainStat raw d se := by
  have f := statFacts hs
  have p := mkStats_spec hs
  unfold autoMainStat at h
  unfold exactMainStat mainStatUnit
  rw [f.mage] at h
  rw [hc]
  simp only
  by_cases hm : Mage raw.jobClass
  · rw [if_pos (by simpa using hm), p.strength] at h
    rw [if_pos hm]
    cases hst : raw.healerOrCasterStrength with
    | none => rw [hst] at h; cases h
    | some y =>
      rw [hst] at h
      simp only [p.party] at h
      cases h
      unfold partyBonus
      have e : y * (1 + 1 / 100 * raw.numRolesInParty) = y * (1 + raw.numRolesInParty / 100) := by ring
      rw [e]
      simp only [Option.getD_some]
      constructor <;> linarith
  · rw [if_neg (by simpa using hm)] at h
    rw [if_neg hm]
    cases h
    exact party_between hs hp

theorem partyMain_between (hs : mkStats raw = .ok stats) (hc : d.damageClass ≠ .auto ∧ d.damageClass ≠ .pet)
    (hp : 0 ≤ raw.numRolesInParty) :
    exactMainStat raw d se - mainStatUnit raw d ≤ partyMainStat stats se ∧
      partyMainStat stats se ≤ exactMainStat raw d se := by
  have e1 : exactMainStat raw d se =
      (raw.mainStat * se.1.mainStatMult * se.2.mainStatMult + se.1.mainStatAdd + se.2.mainStatAdd) * partyBonus raw := by
    unfold exactMainStat
    cases hd : d.damageClass with
    | auto => exact absurd hd hc.1
    | pet => exact absurd hd hc.2
    | _ => rfl
  have e2 : mainStatUnit raw d = partyBonus raw + 1 := by
    unfold mainStatUnit
    cases hd : d.damageClass with
    | pet => exact absurd hd hc.2
    | _ => rfl
  rw [e1, e2]
  exact party_between hs hp

theorem speed_one (hc : ¬ (d.damageClass = .magicalDot ∨ d.damageClass = .physicalDot ∨
      (d.damageClass = .auto ∧ SkillSpeed raw.jobClass))) :
    (factors raw d m se).speed - (units raw d se).speed ≤ 1 ∧ 1 ≤ (factors raw d m se).speed := by
  unfold factors units
  simp only [if_neg hc]
  norm_num

end Ama.Formulas
