import Verif.Lemmas.StatFns
import Verif.Spec.Simulation

/-!
# Damage can be computed
-/

namespace Ama

open Spec GameConsts

namespace ComputeDamage

variable {stats : Stats} {skill : Skill} {m : SkillModifier} {se : StatusEffects × StatusEffects}
  {d : DamageSpec} {r : Row}

theorem specOf_eq (hd : skill.getDamageSpec m = .ok (some d)) : specOf skill m = .ok d := by
  unfold specOf
  rw [hd]
  rfl

theorem fAP_total (hr : IsRow stats.version stats.level r) (x : ℚ) (tank : Bool) :
    ∃ y, StatFns.fAP x tank stats.version stats.level = .ok y := by
  unfold StatFns.fAP
  rw [hr.main, Py.ok_bind]
  cases tank
  · simp only [Bool.false_eq_true, if_false]
    rw [hr.fap]
    exact ⟨_, rfl⟩
  · simp only [if_true]
    rw [hr.fapTank]
    exact ⟨_, rfl⟩

theorem fWD_total (hr : IsRow stats.version stats.level r) (x y : ℚ) :
    ∃ z, StatFns.fWD x y stats.version stats.level = .ok z := by
  unfold StatFns.fWD
  rw [hr.main]
  exact ⟨_, rfl⟩

theorem fSpd_total (hr : IsRow stats.version stats.level r) (x : ℚ) :
    ∃ z, StatFns.fSpd x stats.version stats.level = .ok z := by
  unfold StatFns.fSpd
  rw [hr.sub, hr.div, hr.speed]
  exact ⟨_, rfl⟩

theorem fAuto_total (hr : IsRow stats.version stats.level r) (x y w : ℚ) :
    ∃ z, StatFns.fAuto x y w stats.version stats.level = .ok z := by
  unfold StatFns.fAuto
  rw [hr.main]
  exact ⟨_, rfl⟩

theorem detDh_total (hr : IsRow stats.version stats.level r) : ∃ z, detDh stats d m se = .ok z := by
  unfold detDh StatFns.fDetDH StatFns.fDet
  split_ifs
  · rw [hr.sub, hr.div, hr.det, hr.main]
    exact ⟨_, rfl⟩
  · exact ⟨_, rfl⟩

theorem tankStep_total (hr : IsRow stats.version stats.level r)
    (ht : JobClassFns.isTank stats.version stats.jobClass = true → ∃ x, stats.tenacity = some x) (x : ℚ) :
    (∃ z, tankStep stats x = .ok z) ∧ ∃ z, tankStepDot stats x = .ok z := by
  unfold tankStep tankStepDot tnc StatFns.fTnc
  split_ifs with h
  · obtain ⟨t, ht⟩ := ht h
    rw [ht]
    simp only
    rw [hr.sub, hr.div, hr.ten]
    exact ⟨⟨_, rfl⟩, _, rfl⟩
  · exact ⟨⟨_, rfl⟩, _, rfl⟩

theorem byClass_total (hr : IsRow stats.version stats.level r)
    (ht : JobClassFns.isTank stats.version stats.jobClass = true → ∃ x, stats.tenacity = some x)
    (hd : skill.getDamageSpec m = .ok (some d)) (hu : d.damageClass ≠ .unknown)
    (ha : d.damageClass = .auto → JobClassFns.isHealer stats.version stats.jobClass = true ∨
      JobClassFns.isCaster stats.version stats.jobClass = true →
        ∃ x, stats.healerOrCasterStrength = some x) :
    ∃ z, byClass d.damageClass skill m stats se = .ok z := by
  obtain ⟨det, hdet⟩ := detDh_total (d := d) (m := m) (se := se) hr
  obtain ⟨spd, hspd⟩ := fSpd_total hr stats.speedStat
  have hspec := specOf_eq hd
  cases hc : d.damageClass with
  | unknown => exact absurd hc hu
  | direct =>
    obtain ⟨ap, hap⟩ := fAP_total hr (partyMainStat stats se) (JobClassFns.isTank stats.version stats.jobClass)
    obtain ⟨wd, hwd⟩ := fWD_total hr stats.wd stats.processed.jobMod
    simp only [byClass, directDamage, hspec, hap, hwd, hdet, Py.ok_bind]
    unfold directBase
    split_ifs
    · exact ⟨_, rfl⟩
    · obtain ⟨b, hb⟩ := (tankStep_total hr ht (npFloor (npFloor (d.potency * ap / 100) / 100 * det / 10) / 100)).1
      rw [hb]
      exact ⟨_, rfl⟩
  | magicalDot =>
    obtain ⟨ap, hap⟩ := fAP_total hr (partyMainStat stats se) (JobClassFns.isTank stats.version stats.jobClass)
    obtain ⟨wd, hwd⟩ := fWD_total hr stats.wd stats.processed.jobMod
    simp only [byClass, magicalDotDamage, hspec, hap, hwd, hdet, hspd, Py.ok_bind]
    obtain ⟨b, hb⟩ := (tankStep_total hr ht _).2
    rw [hb]
    exact ⟨_, rfl⟩
  | physicalDot =>
    obtain ⟨ap, hap⟩ := fAP_total hr (partyMainStat stats se) (JobClassFns.isTank stats.version stats.jobClass)
    obtain ⟨wd, hwd⟩ := fWD_total hr stats.wd stats.processed.jobMod
    simp only [byClass, physicalDotDamage, hspec, hap, hwd, hdet, hspd, Py.ok_bind]
    obtain ⟨b, hb⟩ := (tankStep_total hr ht _).2
    rw [hb]
    exact ⟨_, rfl⟩
  | pet =>
    obtain ⟨ap, hap⟩ := fAP_total hr (petMainStat stats d se r.main) false
    obtain ⟨wd, hwd⟩ := fWD_total hr stats.wd (petJobMod stats d)
    simp only [byClass, petDamage, hr.main, hspec, hap, hwd, hdet, Py.ok_bind]
    obtain ⟨b, hb⟩ := (tankStep_total hr ht _).1
    rw [hb]
    exact ⟨_, rfl⟩
  | auto =>
    have hm : ∃ x, autoMainStat stats se = .ok x := by
      unfold autoMainStat
      split_ifs with h
      · rw [Bool.or_eq_true] at h
        obtain ⟨x, hx⟩ := ha hc h
        rw [hx]
        exact ⟨_, rfl⟩
      · exact ⟨_, rfl⟩
    have hs : ∃ x, autoSpd stats = .ok x := by
      unfold autoSpd
      split_ifs
      · exact ⟨_, hspd⟩
      · exact ⟨_, rfl⟩
    obtain ⟨x, hm⟩ := hm
    obtain ⟨s, hs⟩ := hs
    obtain ⟨ap, hap⟩ := fAP_total hr x (JobClassFns.isTank stats.version stats.jobClass)
    obtain ⟨wd, hwd⟩ := fAuto_total hr stats.wd stats.weaponDelay stats.processed.jobMod
    simp only [byClass, autoDamage, hm, hs, hspec, hap, hwd, hdet, Py.ok_bind]
    obtain ⟨b, hb⟩ := (tankStep_total hr ht _).1
    rw [hb]
    exact ⟨_, rfl⟩

/-- If the stats are complete and nothing contradicts, the damage can be computed. -/
theorem computable {x : DamageInstance} (hs : Supported stats.version stats.level)
    (ht : JobClassFns.isTank stats.version stats.jobClass = true → ∃ x, stats.tenacity = some x)
    (hd : x.skill.getDamageSpec x.modifier = .ok (some d)) (hu : d.damageClass ≠ .unknown)
    (ha : d.damageClass = .auto → JobClassFns.isHealer stats.version stats.jobClass = true ∨
      JobClassFns.isCaster stats.version stats.jobClass = true →
        ∃ x, stats.healerOrCasterStrength = some x)
    (h1 : ¬ (dhFlag .forceYes d x.modifier (x.buffs, x.debuffs) = true ∧
      dhFlag .forceNo d x.modifier (x.buffs, x.debuffs) = true))
    (h2 : ¬ (critFlag .forceYes d x.modifier (x.buffs, x.debuffs) = true ∧
      critFlag .forceNo d x.modifier (x.buffs, x.debuffs) = true)) :
    Computable stats x := by
  obtain ⟨r, hr⟩ := exists_row hs
  constructor
  · unfold getBaseDamage
    rw [hd, Py.ok_bind]
    simp only
    split_ifs
    · exact ⟨_, rfl⟩
    · obtain ⟨z, hz⟩ := byClass_total (se := (x.buffs, x.debuffs)) hr ht hd hu ha
      rw [hz]
      exact ⟨_, rfl⟩
  · unfold critRatesAndBonuses
    rw [specOf_eq hd, Py.ok_bind, if_neg (by rwa [Bool.and_eq_true]), if_neg (by rwa [Bool.and_eq_true])]
    exact ⟨_, rfl⟩

end ComputeDamage

end Ama
