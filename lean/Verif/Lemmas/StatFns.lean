import Verif.Lemmas.Float
import Verif.Spec.Numbers
import Verif.Lemmas.Py
import Mathlib.Algebra.Order.Floor.Ring
import Mathlib.Tactic.Linarith
import Mathlib.Tactic.NormNum
import Mathlib.Tactic.Positivity
import Mathlib.Tactic.Ring
import Mathlib.Tactic.FieldSimp
import Mathlib.Tactic.GCongr

/-!
# Lemmas about rounding and the stat functions
-/

namespace Ama

theorem npFloor_mono {x y : ℚ} (h : x ≤ y) : npFloor x ≤ npFloor y := by
  unfold npFloor
  exact_mod_cast Int.floor_le_floor h

theorem npCeil_mono {x y : ℚ} (h : x ≤ y) : npCeil x ≤ npCeil y := by
  unfold npCeil
  exact_mod_cast Int.ceil_le_ceil h

theorem npFloor_le (x : ℚ) : npFloor x ≤ x := Int.floor_le x

theorem npFloor_int (z : ℤ) : npFloor (z : ℚ) = z := by simp [npFloor]

theorem le_npFloor {z : ℤ} {x : ℚ} (h : (z : ℚ) ≤ x) : (z : ℚ) ≤ npFloor x := by
  unfold npFloor
  exact_mod_cast Int.le_floor.2 h

theorem npFloor_nonneg {x : ℚ} (h : 0 ≤ x) : 0 ≤ npFloor x := by
  have := le_npFloor (z := 0) (x := x) (by simpa using h)
  simpa using this

theorem npFloor_nonpos {x : ℚ} (h : x ≤ 0) : npFloor x ≤ 0 := (npFloor_le x).trans h

theorem le_npCeil {x : ℚ} : x ≤ npCeil x := Int.le_ceil x

theorem pyInt_int (z : ℤ) : pyInt (z : ℚ) = z := by
  unfold pyInt
  split_ifs <;> simp

theorem pyInt_mono {x y : ℚ} (h : x ≤ y) : pyInt x ≤ pyInt y := by
  unfold pyInt
  split_ifs with h1 h2 h2
  · exact Int.floor_le_floor h
  · exact absurd (h1.trans h) h2
  · have a : ⌈x⌉ ≤ 0 := Int.ceil_le.2 (by push_cast; linarith)
    have b : 0 ≤ ⌊y⌋ := Int.le_floor.2 (by push_cast; linarith)
    omega
  · exact Int.ceil_le_ceil h

namespace GameConsts

open Spec

theorem lookup_total {tv a b : ℚ} {version : String} {level : ℕ} (h : Supported version level) :
    ∃ c, lookup tv [(90, a), (100, b)] version level = .ok c := by
  unfold lookup kTestStr
  split_ifs with hv
  · exact ⟨_, rfl⟩
  · rcases h with h | rfl | rfl
    · exact absurd h hv
    · exact ⟨_, rfl⟩
    · exact ⟨_, rfl⟩

theorem supported_of_lookup {tv a b c : ℚ} {version : String} {level : ℕ}
    (h : lookup tv [(90, a), (100, b)] version level = .ok c) : Supported version level := by
  unfold lookup kTestStr at h
  split_ifs at h with hv
  · exact .inl hv
  · simp only [Dict.get, Dict.get?] at h
    by_cases h90 : level = 90
    · exact .inr (.inl h90)
    · by_cases h100 : level = 100
      · exact .inr (.inr h100)
      · simp [Ne.symm h90, Ne.symm h100] at h

/-- One row of the tables of constants. -/
structure Row where
  speed : ℚ
  crit0 : ℚ
  crit1 : ℚ
  crit2 : ℚ
  dh : ℚ
  det : ℚ
  ten : ℚ
  div : ℚ
  main : ℚ
  sub : ℚ
  fap : ℚ
  fapTank : ℚ

def rows : List Row :=
  [⟨130, 200, 50, 400, 550, 140, 100, 1900, 390, 400, 195, 156⟩,
   ⟨130, 200, 50, 400, 550, 140, 112, 2780, 440, 420, 237, 190⟩]

/-- The constants in use form one of the rows. -/
structure IsRow (version : String) (level : ℕ) (r : Row) : Prop where
  mem : r ∈ rows
  speed : getSpeedConst version level = .ok r.speed
  crit0 : getCritConst0 version level = .ok r.crit0
  crit1 : getCritConst1 version level = .ok r.crit1
  crit2 : getCritConst2 version level = .ok r.crit2
  dh : getDhConst version level = .ok r.dh
  det : getDetConst version level = .ok r.det
  ten : getTenConst version level = .ok r.ten
  div : getLevelDiv version level = .ok r.div
  main : getLevelMain version level = .ok r.main
  sub : getLevelSub version level = .ok r.sub
  fap : getFAP version level = .ok r.fap
  fapTank : getFAPTank version level = .ok r.fapTank

theorem exists_row {version : String} {level : ℕ} (h : Supported version level) :
    ∃ r, IsRow version level r := by
  by_cases hv : version = "test"
  · subst hv
    exact ⟨⟨130, 200, 50, 400, 550, 140, 100, 1900, 390, 400, 195, 156⟩, List.mem_cons_self,
      rfl, rfl, rfl, rfl, rfl, rfl, rfl, rfl, rfl, rfl, rfl, rfl⟩
  · have key : ∀ tv a b : ℚ, lookup tv [(90, a), (100, b)] version level =
        Dict.get [(90, a), (100, b)] level := fun tv a b => if_neg hv
    rcases h with h | rfl | rfl
    · exact absurd h hv
    · exact ⟨⟨130, 200, 50, 400, 550, 140, 100, 1900, 390, 400, 195, 156⟩, List.mem_cons_self,
        key _ _ _, key _ _ _, key _ _ _, key _ _ _, key _ _ _, key _ _ _, key _ _ _, key _ _ _,
        key _ _ _, key _ _ _, key _ _ _, key _ _ _⟩
    · exact ⟨⟨130, 200, 50, 400, 550, 140, 112, 2780, 440, 420, 237, 190⟩,
        List.mem_cons_of_mem _ List.mem_cons_self,
        key _ _ _, key _ _ _, key _ _ _, key _ _ _, key _ _ _, key _ _ _, key _ _ _, key _ _ _,
        key _ _ _, key _ _ _, key _ _ _, key _ _ _⟩

end GameConsts

namespace StatFns

open GameConsts Spec

variable {version : String} {level : ℕ} {r : Row} {x y a b : ℚ}

theorem supported_time {t s : ℚ} {z : ℤ} (h : getTimeUsingSpeedStat t s version level = .ok z) :
    Supported version level := by
  obtain ⟨_, h1, -⟩ := Py.bind_eq_ok.1 h
  exact supported_of_lookup h1

theorem supported_crit {p : ℚ × ℚ} (h : getCritStats x version level = .ok p) :
    Supported version level := by
  obtain ⟨_, h1, -⟩ := Py.bind_eq_ok.1 h
  exact supported_of_lookup h1

theorem supported_dh (h : getDhRate x version level = .ok a) : Supported version level := by
  obtain ⟨_, h1, -⟩ := Py.bind_eq_ok.1 h
  exact supported_of_lookup h1

theorem supported_wd (h : fWD x y version level = .ok a) : Supported version level := by
  obtain ⟨_, h1, -⟩ := Py.bind_eq_ok.1 h
  exact supported_of_lookup h1

theorem supported_ap {tank : Bool} (h : fAP x tank version level = .ok a) :
    Supported version level := by
  obtain ⟨_, h1, -⟩ := Py.bind_eq_ok.1 h
  exact supported_of_lookup h1

/-- The speed factor, in thousandths. -/
def speedFactor (r : Row) (s : ℚ) : ℚ := 1000 + npCeil (float64 (r.speed * (r.sub - s) / r.div))

/-- The time in hundredths of a second. -/
def centis (r : Row) (t s : ℚ) : ℚ := npFloor (float64 (float64 (t * speedFactor r s) / 10000))

/-- Milliseconds from hundredths of a second. -/
def centisToMs (c : ℚ) : ℤ := pyInt (float64 (1000 * float64 (c / 100)))

theorem time_eq (hr : IsRow version level r) (t s : ℚ) :
    getTimeUsingSpeedStat t s version level = .ok (centisToMs (centis r t s)) := by
  unfold getTimeUsingSpeedStat
  simp only [hr.sub, hr.div, hr.speed, Py.ok_bind, Py.pure_eq]
  rfl

theorem centisToMs_mono {c c' : ℚ} (h : c ≤ c') : centisToMs c ≤ centisToMs c' := by
  unfold centisToMs
  apply pyInt_mono
  apply float64_mono
  apply mul_le_mul_of_nonneg_left _ (by norm_num)
  exact float64_mono (div_le_div_of_nonneg_right h (by norm_num))

theorem float64_nonneg {x : ℚ} (h : 0 ≤ x) : 0 ≤ float64 x := by
  have := float64_mono h
  rwa [float64_zero] at this

theorem centisToMs_nonneg {c : ℚ} (h : 0 ≤ c) : 0 ≤ centisToMs c := by
  have := centisToMs_mono h
  have h0 : centisToMs 0 = 0 := by
    unfold centisToMs
    simp [float64_zero, pyInt]
  rwa [h0] at this

theorem centis_le {t t' s s' : ℚ} (h : t * speedFactor r s ≤ t' * speedFactor r s') :
    centis r t s ≤ centis r t' s' := by
  unfold centis
  apply npFloor_mono
  apply float64_mono
  exact div_le_div_of_nonneg_right (float64_mono h) (by norm_num)

theorem centis_nonneg {t s : ℚ} (h : 0 ≤ t * speedFactor r s) : 0 ≤ centis r t s := by
  unfold centis
  apply npFloor_nonneg
  apply float64_nonneg
  exact div_nonneg (float64_nonneg h) (by norm_num)

/-! ### Integers -/

theorem float64_ratio_error {p : ℤ} {q : ℤ} (hq : 0 < q) (hp : |p| ≤ 2 ^ 50) :
    |float64 ((p : ℚ) / q) - (p : ℚ) / q| < 1 / q := by
  have hq' : (0 : ℚ) < q := by exact_mod_cast hq
  have h1 := float64_error ((p : ℚ) / q)
  have h2 : |(p : ℚ) / q| = |(p : ℚ)| / q := by rw [abs_div, abs_of_pos hq']
  have h3 : |(p : ℚ)| ≤ 2 ^ 50 := by exact_mod_cast hp
  rw [h2] at h1
  refine lt_of_le_of_lt h1 ?_
  rw [div_div, div_lt_div_iff₀ (by positivity) hq']
  have : |(p : ℚ)| < 2 ^ 53 := lt_of_le_of_lt h3 (by norm_num)
  nlinarith

/-- Rounding a ratio of integers to a float does not change what it is rounded down to. -/
theorem floor_float64 {p q : ℤ} (hq : 0 < q) (hp : |p| ≤ 2 ^ 50) :
    ⌊float64 ((p : ℚ) / q)⌋ = ⌊(p : ℚ) / q⌋ := by
  have hq' : (0 : ℚ) < q := by exact_mod_cast hq
  have herr := abs_lt.1 (float64_ratio_error hq hp)
  set n := ⌊(p : ℚ) / q⌋ with hn
  have hb : |n| ≤ 2 ^ 53 := by
    have h1 : (n : ℚ) ≤ (p : ℚ) / q := Int.floor_le _
    have h2 : (p : ℚ) / q < n + 1 := Int.lt_floor_add_one _
    have h3 : (n : ℚ) * q ≤ p := (le_div_iff₀ hq').1 h1
    have h4 : (p : ℚ) < (n + 1) * q := (div_lt_iff₀ hq').1 h2
    have h3' : n * q ≤ p := by exact_mod_cast h3
    have h4' : p < (n + 1) * q := by exact_mod_cast h4
    have hp' := abs_le.1 hp
    rw [abs_le]
    constructor <;> nlinarith
  rw [Int.floor_eq_iff]
  constructor
  · have := float64_mono (Int.floor_le ((p : ℚ) / q))
    rwa [← hn, float64_int hb] at this
  · have h2 : (p : ℚ) / q < n + 1 := Int.lt_floor_add_one _
    have h4 : (p : ℚ) < (n + 1) * q := (div_lt_iff₀ hq').1 h2
    have h4' : p < (n + 1) * q := by exact_mod_cast h4
    have h5 : (p : ℚ) + 1 ≤ (n + 1) * q := by exact_mod_cast h4'
    have h6 : (p : ℚ) / q + 1 / q ≤ n + 1 := by
      rw [← add_div, div_le_iff₀ hq']
      exact h5
    linarith [herr.2]

theorem ceil_float64 {p q : ℤ} (hq : 0 < q) (hp : |p| ≤ 2 ^ 50) :
    ⌈float64 ((p : ℚ) / q)⌉ = ⌈(p : ℚ) / q⌉ := by
  have := floor_float64 (p := -p) hq (by simpa using hp)
  rw [Int.cast_neg, neg_div, float64_neg, Int.floor_neg, Int.floor_neg] at this
  exact neg_inj.1 this

/-- Converting whole hundredths to milliseconds may lose one millisecond. -/
theorem centisToMs_int {k : ℤ} (hk : 0 ≤ k) (hk' : k ≤ 2 ^ 40) :
    centisToMs k = 10 * k ∨ centisToMs k = 10 * k - 1 := by
  unfold centisToMs
  have hk0 : (0 : ℚ) ≤ k := by exact_mod_cast hk
  have hk1 : (k : ℚ) ≤ 2 ^ 40 := by exact_mod_cast hk'
  have e1 := float64_error ((k : ℚ) / 100)
  rw [abs_of_nonneg (show (0 : ℚ) ≤ (k : ℚ) / 100 by positivity)] at e1
  have e1' := abs_le.1 e1
  have hy : 0 ≤ float64 ((k : ℚ) / 100) := float64_nonneg (by positivity)
  have e2 := float64_error (1000 * float64 ((k : ℚ) / 100))
  rw [abs_of_nonneg (show (0 : ℚ) ≤ 1000 * float64 ((k : ℚ) / 100) by positivity)] at e2
  have e2' := abs_le.1 e2
  have hz : 0 ≤ float64 (1000 * float64 ((k : ℚ) / 100)) := float64_nonneg (by positivity)
  set y := float64 ((k : ℚ) / 100)
  set z := float64 (1000 * y)
  have hlo : 10 * (k : ℚ) - 1 < z := by
    norm_num at e1' e2'
    linarith [e1'.1, e2'.1, e1'.2]
  have hhi : z < 10 * (k : ℚ) + 1 := by
    norm_num at e1' e2'
    linarith [e1'.2, e2'.2]
  have hp : pyInt z = ⌊z⌋ := by
    unfold pyInt
    rw [if_pos hz]
  rw [hp]
  have h1 : 10 * k - 1 ≤ ⌊z⌋ := Int.le_floor.2 (by push_cast; exact hlo.le)
  have h2 : ⌊z⌋ < 10 * k + 1 := Int.floor_lt.2 (by push_cast; exact hhi)
  omega

theorem crit_eq (hr : IsRow version level r) (x : ℚ) :
    getCritStats x version level =
      .ok ((npFloor (r.crit0 * (x - r.sub) / r.div) + r.crit1) / 1000,
        (npFloor (r.crit0 * (x - r.sub) / r.div) + r.crit2) / 1000) := by
  unfold getCritStats
  simp only [hr.sub, hr.div, hr.crit0, hr.crit1, hr.crit2, Py.ok_bind, Py.pure_eq]

theorem dh_eq (hr : IsRow version level r) (x : ℚ) :
    getDhRate x version level = .ok (npFloor (r.dh * (x - r.sub) / r.div) / 1000) := by
  unfold getDhRate
  simp only [hr.sub, hr.div, hr.dh, Py.ok_bind, Py.pure_eq]

theorem wd_eq (hr : IsRow version level r) (x y : ℚ) :
    fWD x y version level = .ok (npFloor (r.main * y / 1000 + x)) := by
  unfold fWD
  simp only [hr.main, Py.ok_bind, Py.pure_eq]

theorem spd_eq (hr : IsRow version level r) (x : ℚ) :
    fSpd x version level = .ok (npFloor (r.speed * (x - r.sub) / r.div + 1000)) := by
  unfold fSpd
  simp only [hr.sub, hr.div, hr.speed, Py.ok_bind, Py.pure_eq]

theorem tnc_eq (hr : IsRow version level r) (x : ℚ) :
    fTnc x version level = .ok (npFloor (r.ten * (x - r.sub) / r.div) + 1000) := by
  unfold fTnc
  simp only [hr.sub, hr.div, hr.ten, Py.ok_bind, Py.pure_eq]

theorem ap_eq (hr : IsRow version level r) (x : ℚ) (tank : Bool) :
    fAP x tank version level =
      .ok (npFloor ((if tank then r.fapTank else r.fap) * (x - r.main) / r.main) + 100) := by
  unfold fAP
  cases tank <;> simp [hr.main, hr.fap, hr.fapTank]

theorem det_eq (hr : IsRow version level r) (x : ℚ) :
    fDet x version level = .ok (npFloor (r.det * (x - r.main) / r.div) + 1000) := by
  unfold fDet
  simp only [hr.main, hr.div, hr.det, Py.ok_bind, Py.pure_eq]

theorem detDh_eq (hr : IsRow version level r) (x y : ℚ) :
    fDetDH x y version level = .ok (npFloor (r.det * (x - r.main) / r.div) + 1000 +
      npFloor (r.det * (y - r.sub) / r.div)) := by
  unfold fDetDH
  simp only [hr.sub, hr.div, hr.det, det_eq hr, Py.ok_bind, Py.pure_eq]

theorem auto_eq (hr : IsRow version level r) (x d y : ℚ) :
    fAuto x d y version level = .ok (npFloor (npFloor (r.main * y / 1000 + x) * (d / 3))) := by
  unfold fAuto
  simp only [hr.main, Py.ok_bind, Py.pure_eq]

/-- What is known about the constants. -/
theorem row_pos (hr : r ∈ rows) :
    0 < r.speed ∧ 0 < r.crit0 ∧ 0 < r.dh ∧ 0 < r.det ∧ 0 < r.ten ∧ 0 < r.div ∧ 0 < r.main ∧
      0 < r.sub ∧ 0 < r.fap ∧ 0 < r.fapTank := by
  simp only [rows, List.mem_cons, List.not_mem_nil, or_false] at hr
  rcases hr with rfl | rfl <;> norm_num

/-- A stat below its base value costs less than half of the full effect. -/
theorem row_bounds (hr : r ∈ rows) :
    (-100 : ℚ) ≤ r.det * (0 - r.main) / r.div ∧ (-100 : ℚ) ≤ r.det * (0 - r.sub) / r.div ∧
      (-100 : ℚ) ≤ r.ten * (0 - r.sub) / r.div ∧ (-100 : ℚ) ≤ r.speed * (0 - r.sub) / r.div ∧
      (-100 : ℚ) ≤ r.crit0 * (0 - r.sub) / r.div ∧ r.crit2 = 400 := by
  simp only [rows, List.mem_cons, List.not_mem_nil, or_false] at hr
  rcases hr with rfl | rfl <;> norm_num

theorem speed_factor_nonneg (hr : r ∈ rows) {s : ℚ} (hs : s ≤ 15000) :
    0 ≤ speedFactor r s := by
  have h1 : float64 (r.speed * (r.sub - s) / r.div) ≤ npCeil (float64 (r.speed * (r.sub - s) / r.div)) :=
    le_npCeil
  have h2 : (-1000 : ℚ) ≤ r.speed * (r.sub - s) / r.div := by
    simp only [rows, List.mem_cons, List.not_mem_nil, or_false] at hr
    rcases hr with rfl | rfl
    · rw [le_div_iff₀ (by norm_num)]
      norm_num
      linarith
    · rw [le_div_iff₀ (by norm_num)]
      norm_num
      linarith
  have h3 := float64_mono h2
  have h4 : float64 (-1000 : ℚ) = -1000 := by
    have := float64_int (n := -1000) (by norm_num)
    simpa using this
  unfold speedFactor
  linarith

/-- More speed, a smaller factor. -/
theorem speedFactor_anti (hr : r ∈ rows) {s s' : ℚ} (h : s ≤ s') : speedFactor r s' ≤ speedFactor r s := by
  obtain ⟨h1, -, -, -, -, h2, -⟩ := row_pos hr
  unfold speedFactor
  have : npCeil (float64 (r.speed * (r.sub - s') / r.div)) ≤ npCeil (float64 (r.speed * (r.sub - s) / r.div)) := by
    apply npCeil_mono
    apply float64_mono
    gcongr
  linarith

theorem speedFactor_int (hr : r ∈ rows) {s : ℕ} (hs : s ≤ 15000) :
    speedFactor r s = 1000 + ⌈r.speed * (r.sub - s) / r.div⌉ := by
  unfold speedFactor npCeil
  have hs' : (s : ℤ) ≤ 15000 := by exact_mod_cast hs
  have hs0 : (0 : ℤ) ≤ s := by positivity
  simp only [rows, List.mem_cons, List.not_mem_nil, or_false] at hr
  rcases hr with rfl | rfl
  · have := ceil_float64 (p := 130 * (400 - s)) (q := 1900) (by norm_num)
      (by rw [abs_le]; constructor <;> norm_num <;> linarith)
    push_cast at this
    simp only [this]
  · have := ceil_float64 (p := 130 * (420 - s)) (q := 2780) (by norm_num)
      (by rw [abs_le]; constructor <;> norm_num <;> linarith)
    push_cast at this
    simp only [this]

theorem speed_ceil_bound (hr : r ∈ rows) (s : ℕ) : ⌈r.speed * (r.sub - s) / r.div⌉ ≤ 28 := by
  have hs0 : (0 : ℚ) ≤ s := by positivity
  rw [Int.ceil_le]
  simp only [rows, List.mem_cons, List.not_mem_nil, or_false] at hr
  rcases hr with rfl | rfl
  · rw [div_le_iff₀ (by norm_num)]
    norm_num
    linarith
  · rw [div_le_iff₀ (by norm_num)]
    norm_num
    linarith

theorem centis_int (hr : r ∈ rows) {t s : ℕ} (ht : t ≤ 1000000) (hs : s ≤ 15000) :
    centis r t s = (⌊(t : ℚ) * (1000 + ⌈r.speed * (r.sub - s) / r.div⌉) / 10000⌋ : ℤ) := by
  unfold centis npFloor
  rw [speedFactor_int hr hs]
  have h0 := speed_factor_nonneg hr (s := s) (by exact_mod_cast hs)
  rw [speedFactor_int hr hs] at h0
  have h1 := speed_ceil_bound hr s
  set c := ⌈r.speed * (r.sub - s) / r.div⌉
  have h0' : 0 ≤ 1000 + c := by exact_mod_cast h0
  have ht' : (t : ℤ) ≤ 1000000 := by exact_mod_cast ht
  have ht0 : (0 : ℤ) ≤ t := by positivity
  have hb : |(t : ℤ) * (1000 + c)| ≤ 2 ^ 50 := by
    rw [abs_of_nonneg (by positivity)]
    calc (t : ℤ) * (1000 + c) ≤ 1000000 * 1028 := by
          apply mul_le_mul ht' (by linarith) h0' (by norm_num)
      _ ≤ 2 ^ 50 := by norm_num
  have e : (t : ℚ) * (1000 + (c : ℚ)) = (((t : ℤ) * (1000 + c) : ℤ) : ℚ) := by push_cast; rfl
  have e2 : float64 ((t : ℚ) * (1000 + (c : ℚ))) = (t : ℚ) * (1000 + (c : ℚ)) := by
    rw [e]
    exact float64_int (hb.trans (by norm_num))
  rw [e2, e]
  have := floor_float64 (q := 10000) (by norm_num) hb
  push_cast at this ⊢
  rw [this]

theorem centis_bound (hr : r ∈ rows) {t s : ℕ} (ht : t ≤ 1000000) (hs : s ≤ 15000) :
    ⌊(t : ℚ) * (1000 + ⌈r.speed * (r.sub - s) / r.div⌉) / 10000⌋ ≤ 2 ^ 40 := by
  have h0 := speed_factor_nonneg hr (s := s) (by exact_mod_cast hs)
  rw [speedFactor_int hr hs] at h0
  have h1 := speed_ceil_bound hr s
  set c := ⌈r.speed * (r.sub - s) / r.div⌉
  have h1' : (c : ℚ) ≤ 28 := by exact_mod_cast h1
  have ht' : (t : ℚ) ≤ 1000000 := by exact_mod_cast ht
  have : (t : ℚ) * (1000 + c) ≤ 1000000 * 1028 :=
    mul_le_mul ht' (by linarith) h0 (by norm_num)
  have h2 : (t : ℚ) * (1000 + c) / 10000 ≤ 102800 := by
    rw [div_le_iff₀ (by norm_num)]
    linarith
  have h3 := (Int.floor_le ((t : ℚ) * (1000 + c) / 10000)).trans h2
  have h4 : ⌊(t : ℚ) * (1000 + c) / 10000⌋ ≤ 102800 := by exact_mod_cast h3
  exact h4.trans (by norm_num)

/-- The scaled stat is monotone. -/
theorem scale_mono {c s d : ℚ} (hc : 0 ≤ c) (hd : 0 < d) (h : x ≤ y) :
    c * (x - s) / d ≤ c * (y - s) / d := by gcongr

theorem scale_ge {c s d : ℚ} (hc : 0 ≤ c) (hd : 0 < d) (hx : 0 ≤ x)
    (h : (-100 : ℚ) ≤ c * (0 - s) / d) : (-100 : ℚ) ≤ npFloor (c * (x - s) / d) := by
  have := le_npFloor (z := -100) (x := c * (x - s) / d)
    (by push_cast; exact h.trans (scale_mono hc hd hx))
  simpa using this

end StatFns

theorem truncate_eq (x : ℚ) : Utils.truncateToDigit x 2 = 10 * ⌊x / 10⌋ := by
  unfold Utils.truncateToDigit npFloor
  refine (congrArg pyInt ?_).trans (pyInt_int _)
  norm_num

theorem truncate_mono {x y : ℚ} (h : x ≤ y) : Utils.truncateToDigit x 2 ≤ Utils.truncateToDigit y 2 := by
  rw [truncate_eq, truncate_eq]
  have : x / 10 ≤ y / 10 := by gcongr
  have := Int.floor_le_floor this
  omega

theorem truncate_le (x : ℚ) : ((Utils.truncateToDigit x 2 : ℤ) : ℚ) ≤ x := by
  rw [truncate_eq]
  push_cast
  have := Int.floor_le (x / 10)
  linarith

/-- The reductions by traits lie between 0 and 1/5. -/
theorem traitReduction_range {version jobClass : String} {level : ℕ} {x : ℚ}
    (h : JobClassFns.traitReduction version jobClass level = .ok x) : 0 ≤ x ∧ x ≤ 1 := by
  unfold JobClassFns.traitReduction at h
  split_ifs at h with hv hj
  · cases h
    norm_num
  · cases h
    norm_num
  · obtain ⟨table, h1, h⟩ := Py.bind_eq_ok.1 h
    obtain ⟨jobs, h2, h⟩ := Py.bind_eq_ok.1 h
    cases jobs with
    | none =>
      cases h
      norm_num
    | some jobs =>
      simp only [Py.pure_eq, Except.ok.injEq] at h
      have hj : ∀ kv ∈ jobs, 0 ≤ kv.2 ∧ kv.2 ≤ (1 : ℚ) := by
        have hm : ∃ v, (v, jobs) ∈ table := by
          unfold Utils.getGreatestDictKeyVal at h2
          split at h2
          · cases h2
          · obtain ⟨w, h3, h4⟩ := Py.bind_eq_ok.1 h2
            simp only [Py.pure_eq, Except.ok.injEq, Option.some.injEq] at h4
            subst h4
            exact ⟨_, Dict.mem_of_get? (Dict.get_ok.1 h3)⟩
        have ht := Dict.mem_of_get? (Dict.get_ok.1 h1)
        obtain ⟨v, hm⟩ := hm
        simp only [JobClassFns.allData, List.mem_cons, List.not_mem_nil, or_false, Prod.mk.injEq] at ht
        rcases ht with ⟨-, rfl⟩ | ⟨-, rfl⟩
        · simp only [List.mem_cons, List.not_mem_nil, or_false, Prod.mk.injEq] at hm
          obtain ⟨-, rfl⟩ := hm
          intro kv hkv
          simp only [List.mem_cons, List.not_mem_nil, or_false] at hkv
          rcases hkv with rfl
          norm_num
        · simp only [List.mem_cons, List.not_mem_nil, or_false, Prod.mk.injEq] at hm
          rcases hm with ⟨-, rfl⟩ | ⟨-, rfl⟩
          · intro kv hkv
            simp only [List.mem_cons, List.not_mem_nil, or_false] at hkv
            rcases hkv with rfl
            norm_num
          · intro kv hkv
            simp only [List.mem_cons, List.not_mem_nil, or_false] at hkv
            rcases hkv with rfl | rfl <;> norm_num
      cases hg : Dict.get? jobs jobClass with
      | none =>
        rw [hg] at h
        rw [← h]
        norm_num
      | some y =>
        rw [hg] at h
        simp only [Option.getD_some] at h
        subst h
        exact hj _ (Dict.mem_of_get? hg)

/-- What the constructors put into the processed stats. -/
structure Processed (raw : RawStats) (stats : Stats) : Prop where
  det : StatFns.fDet stats.detStat stats.version stats.level = .ok stats.processed.detBonus
  dh : StatFns.getDhRate stats.dhStat stats.version stats.level = .ok stats.processed.dhRate
  crit : StatFns.getCritStats stats.critStat stats.version stats.level =
    .ok (stats.processed.critRate, stats.processed.critBonus)
  jobMod : Dict.get (JobClassFns.jobMods stats.version) stats.jobClass = .ok stats.processed.jobMod
  haste : JobClassFns.traitReduction stats.version stats.jobClass stats.level =
    .ok stats.processed.traitHasteTimeReduction
  auto : JobClassFns.traitReduction stats.version stats.jobClass stats.level =
    .ok stats.processed.traitAutoAttackDelayReduction
  trait : stats.processed.traitDamageMult = JobClassFns.traitDamageMult stats.version stats.jobClass
  wd : stats.wd = raw.wd
  mainStat : stats.mainStat = raw.mainStat
  detStat : stats.detStat = raw.detStat
  dhStat : stats.dhStat = raw.dhStat
  critStat : stats.critStat = raw.critStat
  speedStat : stats.speedStat = raw.speedStat
  jobClass : stats.jobClass = raw.jobClass
  version : stats.version = raw.version
  level : stats.level = raw.level
  tenacity : stats.tenacity = raw.tenacity
  party : stats.numRolesInParty = raw.numRolesInParty
  strength : stats.healerOrCasterStrength = raw.healerOrCasterStrength
  weaponDelay : raw.weaponDelay = some stats.weaponDelay ∨
    (raw.weaponDelay = none ∧ Dict.get GameConsts.WEAPON_DELAYS raw.jobClass = .ok stats.weaponDelay)

theorem mkStats_spec {raw : RawStats} {stats : Stats} (h : mkStats raw = .ok stats) :
    Processed raw stats := by
  unfold mkStats at h
  obtain ⟨p, hp, h⟩ := Py.bind_eq_ok.1 h
  have hw : ∃ d, stats = ⟨raw.wd, d, raw.mainStat, raw.detStat, raw.dhStat, raw.critStat,
      raw.speedStat, raw.jobClass, raw.version, raw.tenacity, raw.numRolesInParty,
      raw.healerOrCasterStrength, raw.level, p⟩ ∧
      (raw.weaponDelay = some d ∨
        (raw.weaponDelay = none ∧ Dict.get GameConsts.WEAPON_DELAYS raw.jobClass = .ok d)) := by
    cases hd : raw.weaponDelay with
    | some d =>
      rw [hd] at h
      cases h
      exact ⟨d, rfl, .inl rfl⟩
    | none =>
      rw [hd] at h
      obtain ⟨d, h1, h⟩ := Py.bind_eq_ok.1 h
      cases h
      exact ⟨d, rfl, .inr ⟨rfl, h1⟩⟩
  obtain ⟨d, rfl, hd⟩ := hw
  unfold mkProcessedStats at hp
  obtain ⟨⟨cr, cb⟩, h1, hp⟩ := Py.bind_eq_ok.1 hp
  obtain ⟨det, h2, hp⟩ := Py.bind_eq_ok.1 hp
  obtain ⟨dh, h3, hp⟩ := Py.bind_eq_ok.1 hp
  obtain ⟨jm, h4, hp⟩ := Py.bind_eq_ok.1 hp
  obtain ⟨ha, h5, hp⟩ := Py.bind_eq_ok.1 hp
  obtain ⟨au, h6, hp⟩ := Py.bind_eq_ok.1 hp
  cases hp
  exact ⟨h2, h3, h1, h4, h5, h6, rfl, rfl, rfl, rfl, rfl, rfl, rfl, rfl, rfl, rfl, rfl, rfl, rfl, hd⟩

end Ama
