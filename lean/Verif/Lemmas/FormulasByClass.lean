import Verif.Lemmas.Formulas

/-!
# Lemmas about the damage formulas without rounding: the kinds of damage
-/

namespace Ama.Formulas

open Spec StatFns GameConsts ComputeDamage

theorem not_tank_of_mage {job : String} (h : Mage job) : ¬ Tank job := by
  unfold Mage at h
  unfold Tank
  simp only [List.mem_cons, List.not_mem_nil, or_false] at h
  rcases h with rfl | rfl | rfl | rfl | rfl | rfl | rfl | rfl | rfl <;> decide

/-- The rounded factors and the damage before the last steps. -/
structure Steps (raw : RawStats) (stats : Stats) (d : DamageSpec) (m : SkillModifier)
    (se : StatusEffects × StatusEffects) (x : ℚ) (g : Factors) (b : ℚ) : Prop where
  between : Between (factors raw d m se) (units raw d se) g
  nonneg : 0 ≤ b
  least : d.potency / 100 * (g.attack * g.weapon * g.determination * g.tenacity * g.speed) -
    roundingLoss raw d g ≤ b
  most : b ≤ d.potency / 100 * (g.attack * g.weapon * g.determination * g.tenacity * g.speed)
  finish : x = finish stats d m se b
  guaranteed : g.guaranteed = 1 + (guaranteedBonus stats d m se).1 + (guaranteedBonus stats d m se).2

variable {raw : RawStats} {stats : Stats} {d : DamageSpec} {m : SkillModifier} {se : StatusEffects × StatusEffects}
  {skill : Skill}

section

variable (hs : mkStats raw = .ok stats) (hd : skill.getDamageSpec m = .ok (some d)) (hpot : 0 ≤ d.potency)
  (hp : 0 ≤ raw.numRolesInParty) (hc : 0 ≤ addedCrit se)
  (hu : ((factors raw d m se).minus (units raw d se)).NonNeg)

include hs hd hpot hp hc hu

theorem direct_steps (hk : d.damageClass = .direct) {x} (h : directDamage skill m stats se = .ok x) :
    ∃ g b, Steps raw stats d m se x g b := by
  have f := statFacts hs
  obtain ⟨u1, u2, u3, u4, u5, u6⟩ := hu
  unfold directDamage at h
  rw [specOf_ok hd, Py.ok_bind] at h
  obtain ⟨ap, hap, h⟩ := Py.bind_eq_ok.1 h
  obtain ⟨wd, hwd, h⟩ := Py.bind_eq_ok.1 h
  obtain ⟨det, hdet, h⟩ := Py.bind_eq_ok.1 h
  obtain ⟨b, hb, h⟩ := Py.bind_eq_ok.1 h
  cases h
  have A := attack_between (m := m) hs (partyMain_between hs (by rw [hk]; simp) hp)
    (by rw [f.tank, hk]; simp) hap
  have W := weapon_between (m := m) (se := se) hs (d := d) (by rw [hk]; simp) (by rw [hk]; simpa using hwd)
  have D := det_between hs hdet
  have S := speed_one (raw := raw) (m := m) (se := se) (d := d) (by rw [hk]; simp)
  have G := guaranteed_between (d := d) (m := m) hs hc
  have a0 : 0 ≤ ap := by have := u1.trans A.2.1; linarith
  have w0 : 0 ≤ wd := u2.trans W.1
  have d0 : 0 ≤ det := by have := u3.trans D.2.1; linarith
  unfold directBase at hb
  rw [f.mage] at hb
  by_cases hm : Mage raw.jobClass
  · rw [if_pos (by simpa using hm)] at hb
    have B := mage_bounds hpot a0 w0 d0 (Except.ok.inj hb).symm
    have T : (factors raw d m se).tenacity - (units raw d se).tenacity ≤ 1 ∧ 1 ≤ (factors raw d m se).tenacity := by
      unfold factors units
      simp [if_neg (not_tank_of_mage hm)]
    refine ⟨⟨ap / 100, wd, det / 1000, 1, 1, _⟩, b, ⟨A.2, W, D.2, T, S, G⟩, B.1, ?_, ?_, rfl, rfl⟩
    · unfold roundingLoss
      simp only [hk, if_pos hm]
      linarith [B.2.1]
    · simp only
      linarith [B.2.2]
  · rw [if_neg (by simpa using hm)] at hb
    obtain ⟨r, hr, hb⟩ := Py.bind_eq_ok.1 hb
    cases hb
    have Z := chain_bounds hpot a0 d0 rfl
    obtain ⟨T, hT, R⟩ := tankStep_between hs u4 Z.1 hr
    have B := weapon_bounds w0 (u4.trans hT.1) Z.2 R rfl
    refine ⟨⟨ap / 100, wd, det / 1000, T, 1, _⟩, _, ⟨A.2, W, D.2, hT, S, G⟩, B.1, ?_, ?_, rfl, rfl⟩
    · unfold roundingLoss
      simp only [hk, if_neg hm]
      linarith [B.2.1]
    · simp only
      linarith [B.2.2]

theorem magical_steps (hk : d.damageClass = .magicalDot) {x} (h : magicalDotDamage skill m stats se = .ok x) :
    ∃ g b, Steps raw stats d m se x g b := by
  have f := statFacts hs
  obtain ⟨u1, u2, u3, u4, u5, u6⟩ := hu
  unfold magicalDotDamage at h
  rw [specOf_ok hd, Py.ok_bind] at h
  obtain ⟨spd, hspd, h⟩ := Py.bind_eq_ok.1 h
  obtain ⟨ap, hap, h⟩ := Py.bind_eq_ok.1 h
  obtain ⟨wd, hwd, h⟩ := Py.bind_eq_ok.1 h
  obtain ⟨det, hdet, h⟩ := Py.bind_eq_ok.1 h
  obtain ⟨r, hr, h⟩ := Py.bind_eq_ok.1 h
  cases h
  have A := attack_between (m := m) hs (partyMain_between hs (by rw [hk]; simp) hp)
    (by rw [f.tank, hk]; simp) hap
  have W := weapon_between (m := m) (se := se) hs (d := d) (by rw [hk]; simp) (by rw [hk]; simpa using hwd)
  have D := det_between hs hdet
  have S := speed_between (m := m) (se := se) (d := d) hs (.inl hk) hspd
  have G := guaranteed_between (d := d) (m := m) hs hc
  have a0 : 0 ≤ ap := by have := u1.trans A.2.1; linarith
  have w0 : 0 ≤ wd := u2.trans W.1
  have d0 : 0 ≤ det := by have := u3.trans D.2.1; linarith
  have s0 : 0 ≤ spd := by have := u5.trans S.2.1; linarith
  have Z := magical_bounds hpot a0 w0 d0 s0 A.1 D.1 S.1 rfl
  obtain ⟨T, hT, R⟩ := tankStepDot_between hs u4 Z.1 hr
  have B := magicalEnd_bounds (A := ap / 100) (S := spd / 1000) (D := det / 1000) (u4.trans hT.1) (by ring) (by ring)
    (by ring) Z.2 R rfl
  refine ⟨⟨ap / 100, wd, det / 1000, T, spd / 1000, _⟩, _, ⟨A.2, W, D.2, hT, S.2, G⟩, B.1, ?_, ?_, rfl, rfl⟩
  · unfold roundingLoss
    simp only [hk]
    linarith [B.2.1]
  · simp only
    linarith [B.2.2]

theorem physical_steps (hk : d.damageClass = .physicalDot) {x} (h : physicalDotDamage skill m stats se = .ok x) :
    ∃ g b, Steps raw stats d m se x g b := by
  have f := statFacts hs
  obtain ⟨u1, u2, u3, u4, u5, u6⟩ := hu
  unfold physicalDotDamage at h
  rw [specOf_ok hd, Py.ok_bind] at h
  obtain ⟨spd, hspd, h⟩ := Py.bind_eq_ok.1 h
  obtain ⟨ap, hap, h⟩ := Py.bind_eq_ok.1 h
  obtain ⟨wd, hwd, h⟩ := Py.bind_eq_ok.1 h
  obtain ⟨det, hdet, h⟩ := Py.bind_eq_ok.1 h
  obtain ⟨r, hr, h⟩ := Py.bind_eq_ok.1 h
  cases h
  have A := attack_between (m := m) hs (partyMain_between hs (by rw [hk]; simp) hp)
    (by rw [f.tank, hk]; simp) hap
  have W := weapon_between (m := m) (se := se) hs (d := d) (by rw [hk]; simp) (by rw [hk]; simpa using hwd)
  have D := det_between hs hdet
  have S := speed_between (m := m) (se := se) (d := d) hs (.inr (.inl hk)) hspd
  have G := guaranteed_between (d := d) (m := m) hs hc
  have a0 : 0 ≤ ap := by have := u1.trans A.2.1; linarith
  have w0 : 0 ≤ wd := u2.trans W.1
  have d0 : 0 ≤ det := by have := u3.trans D.2.1; linarith
  have Z := physical_bounds hpot a0 d0 rfl
  obtain ⟨T, hT, R⟩ := tankStepDot_between hs u4 Z.1 hr
  have B := physicalEnd_bounds (S := spd / 1000) (u4.trans hT.1) (u5.trans S.2.1) w0 (by ring) Z.2 R rfl
  refine ⟨⟨ap / 100, wd, det / 1000, T, spd / 1000, _⟩, _, ⟨A.2, W, D.2, hT, S.2, G⟩, B.1, ?_, ?_, rfl, rfl⟩
  · unfold roundingLoss
    simp only [hk]
    linarith [B.2.1]
  · simp only
    linarith [B.2.2]

omit hp in
theorem pet_steps (hk : d.damageClass = .pet) (hsc : 0 ≤ d.petScalar) {x} (h : petDamage skill m stats se = .ok x) :
    ∃ g b, Steps raw stats d m se x g b := by
  obtain ⟨u1, u2, u3, u4, u5, u6⟩ := hu
  unfold petDamage at h
  obtain ⟨lm, hlm, h⟩ := Py.bind_eq_ok.1 h
  rw [specOf_ok hd, Py.ok_bind] at h
  obtain ⟨ap, hap, h⟩ := Py.bind_eq_ok.1 h
  obtain ⟨wd, hwd, h⟩ := Py.bind_eq_ok.1 h
  obtain ⟨det, hdet, h⟩ := Py.bind_eq_ok.1 h
  obtain ⟨r, hr, h⟩ := Py.bind_eq_ok.1 h
  cases h
  have A := attack_between (m := m) hs (pet_between hs hk hsc hlm) (by rw [hk]; simp) hap
  have W := weapon_between (m := m) (se := se) hs (d := d) (by rw [hk]; simp) (by rw [hk]; simpa using hwd)
  have D := det_between hs hdet
  have S := speed_one (raw := raw) (m := m) (se := se) (d := d) (by rw [hk]; simp)
  have G := guaranteed_between (d := d) (m := m) hs hc
  have a0 : 0 ≤ ap := by have := u1.trans A.2.1; linarith
  have w0 : 0 ≤ wd := u2.trans W.1
  have d0 : 0 ≤ det := by have := u3.trans D.2.1; linarith
  have Z := chain_bounds hpot a0 d0 rfl
  obtain ⟨T, hT, R⟩ := tankStep_between hs u4 Z.1 hr
  have B := weapon_bounds w0 (u4.trans hT.1) Z.2 R rfl
  refine ⟨⟨ap / 100, wd, det / 1000, T, 1, _⟩, _, ⟨A.2, W, D.2, hT, S, G⟩, B.1, ?_, ?_, rfl, rfl⟩
  · unfold roundingLoss
    simp only [hk]
    linarith [B.2.1]
  · simp only
    linarith [B.2.2]

theorem auto_steps (hk : d.damageClass = .auto) (hw : 0 ≤ delayOf raw) {x} (h : autoDamage skill m stats se = .ok x) :
    ∃ g b, Steps raw stats d m se x g b := by
  have f := statFacts hs
  obtain ⟨u1, u2, u3, u4, u5, u6⟩ := hu
  unfold autoDamage at h
  obtain ⟨main, hmain, h⟩ := Py.bind_eq_ok.1 h
  rw [specOf_ok hd, Py.ok_bind] at h
  obtain ⟨spd, hspd, h⟩ := Py.bind_eq_ok.1 h
  obtain ⟨ap, hap, h⟩ := Py.bind_eq_ok.1 h
  obtain ⟨wd, hwd, h⟩ := Py.bind_eq_ok.1 h
  obtain ⟨det, hdet, h⟩ := Py.bind_eq_ok.1 h
  obtain ⟨r, hr, h⟩ := Py.bind_eq_ok.1 h
  cases h
  have A := attack_between (m := m) hs (autoMain_between hs hk hp hmain) (by rw [f.tank, hk]; simp) hap
  have W := auto_between (m := m) (se := se) hs hk hw hwd
  have D := det_between hs hdet
  have S : (factors raw d m se).speed - (units raw d se).speed ≤ spd / 1000 ∧
      spd / 1000 ≤ (factors raw d m se).speed := by
    unfold autoSpd at hspd
    rw [f.speed] at hspd
    by_cases hss : SkillSpeed raw.jobClass
    · rw [if_pos (by simpa using hss)] at hspd
      exact (speed_between hs (.inr (.inr ⟨hk, hss⟩)) hspd).2
    · rw [if_neg (by simpa using hss)] at hspd
      cases hspd
      rw [div_self (by norm_num)]
      exact speed_one (by rw [hk]; simpa using hss)
  have G := guaranteed_between (d := d) (m := m) hs hc
  have a0 : 0 ≤ ap := by have := u1.trans A.2.1; linarith
  have w0 : 0 ≤ wd := u2.trans W.1
  have d0 : 0 ≤ det := by have := u3.trans D.2.1; linarith
  have Z := chain_bounds hpot a0 d0 rfl
  obtain ⟨T, hT, R⟩ := tankStep_between hs u4 Z.1 hr
  have B := auto_bounds (S := spd / 1000) w0 (u4.trans hT.1) (u5.trans S.1) (by ring) Z.2 R rfl
  refine ⟨⟨ap / 100, wd, det / 1000, T, spd / 1000, _⟩, _, ⟨A.2, W, D.2, hT, S, G⟩, B.1, ?_, ?_, rfl, rfl⟩
  · unfold roundingLoss
    simp only [hk]
    linarith [B.2.1]
  · simp only
    linarith [B.2.2]

theorem byClass_steps (hsc : 0 ≤ d.petScalar) (hw : 0 ≤ delayOf raw) {x}
    (h : byClass d.damageClass skill m stats se = .ok x) : ∃ g b, Steps raw stats d m se x g b := by
  unfold byClass at h
  cases hk : d.damageClass with
  | direct => rw [hk] at h; exact direct_steps hs hd hpot hp hc hu hk h
  | magicalDot => rw [hk] at h; exact magical_steps hs hd hpot hp hc hu hk h
  | physicalDot => rw [hk] at h; exact physical_steps hs hd hpot hp hc hu hk h
  | auto => rw [hk] at h; exact auto_steps hs hd hpot hp hc hu hk hw h
  | pet => rw [hk] at h; exact pet_steps hs hd hpot hc hu hk hsc h
  | unknown => rw [hk] at h; cases h

end

theorem roundingLoss_mono (hpot : 0 ≤ d.potency) {f g : Factors} (h0 : g.NonNeg) (h1 : g.attack ≤ f.attack)
    (h2 : g.weapon ≤ f.weapon) (h3 : g.determination ≤ f.determination) (h4 : g.tenacity ≤ f.tenacity)
    (h5 : g.speed ≤ f.speed) : 0 ≤ roundingLoss raw d g ∧ roundingLoss raw d g ≤ roundingLoss raw d f := by
  obtain ⟨u1, u2, u3, u4, u5, u6⟩ := h0
  have v1 := u1.trans h1
  have v2 := u2.trans h2
  have v3 := u3.trans h3
  have v4 := u4.trans h4
  have v5 := u5.trans h5
  unfold roundingLoss
  cases d.damageClass <;> simp only <;> (try split_ifs) <;> constructor <;> first | positivity | gcongr

/-- From the steps to the bounds. -/
theorem Steps.bounds (hpot : 0 ≤ d.potency) (hm : 0 ≤ d.singleDamageMult)
    (hu : ((factors raw d m se).minus (units raw d se)).NonNeg) {x b : ℚ} {g : Factors}
    (h : Steps raw stats d m se x g b) : x ≤ exactDamage raw d m se ∧ leastDamage raw d m se ≤ x := by
  obtain ⟨B, b0, h1, h2, h3, h4⟩ := h
  obtain ⟨u1, u2, u3, u4, u5, u6⟩ := hu
  have g0 : g.NonNeg := ⟨u1.trans B.attack.1, u2.trans B.weapon.1, u3.trans B.determination.1, u4.trans B.tenacity.1,
    u5.trans B.speed.1, u6.trans B.guaranteed.1⟩
  obtain ⟨L0, L1⟩ := roundingLoss_mono (raw := raw) hpot g0 B.attack.2 B.weapon.2 B.determination.2 B.tenacity.2
    B.speed.2
  obtain ⟨g1, g2, g3, g4, g5, g6⟩ := g0
  have v1 := g1.trans B.attack.2
  have v2 := g2.trans B.weapon.2
  have v3 := g3.trans B.determination.2
  have v4 := g4.trans B.tenacity.2
  have v5 := g5.trans B.speed.2
  have v6 := g6.trans B.guaranteed.2
  obtain ⟨f1, f2⟩ := finish_bounds (g1 := (guaranteedBonus stats d m se).1) (g2 := (guaranteedBonus stats d m se).2)
    hm b
  rw [← h4] at f1 f2
  unfold ComputeDamage.finish at h3
  rw [← h3] at f1 f2
  constructor
  · refine f2.trans ?_
    unfold exactDamage Factors.product
    apply mul_le_mul_of_nonneg_right _ hm
    have k1 := mul_le_mul_of_nonneg_right h2 g6
    refine k1.trans ?_
    rw [mul_assoc]
    gcongr ?_ * (?_ * ?_ * ?_ * ?_ * ?_ * ?_)
    exacts [B.attack.2, B.weapon.2, B.determination.2, B.tenacity.2, B.speed.2, B.guaranteed.2]
  · refine le_trans ?_ f1
    unfold leastDamage
    apply mul_le_mul_of_nonneg_right _ hm
    have k1 := mul_le_mul_of_nonneg_right h1 g6
    have k2 : roundingLoss raw d g * g.guaranteed ≤
        roundingLoss raw d (factors raw d m se) * (factors raw d m se).guaranteed :=
      mul_le_mul L1 B.guaranteed.2 g6 (L0.trans L1)
    have k3 : d.potency / 100 * ((factors raw d m se).minus (units raw d se)).product ≤
        d.potency / 100 * (g.attack * g.weapon * g.determination * g.tenacity * g.speed * g.guaranteed) := by
      unfold Factors.product
      have hP : 0 ≤ d.potency / 100 := by positivity
      gcongr ?_ * (?_ * ?_ * ?_ * ?_ * ?_ * ?_)
      exacts [B.attack.1, B.weapon.1, B.determination.1, B.tenacity.1, B.speed.1, B.guaranteed.1]
    linarith

end Ama.Formulas
