import Verif.Spec.Numbers
import Verif.Props.Stats

/-!
# Lemmas about the damage formulas
-/

namespace Ama

open Spec StatFns GameConsts ComputeDamage

/-- `x` is at most `y`, or nothing at all. -/
def Below (x y : ℚ) : Prop := x ≤ max y 0

namespace Below

theorem of_le {x y : ℚ} (h : x ≤ y) : Below x y := h.trans (le_max_left _ _)

theorem of_nonpos {x y : ℚ} (h : x ≤ 0) : Below x y := h.trans (le_max_right _ _)

theorem cases {x y : ℚ} (h : Below x y) : x ≤ 0 ∨ (0 < x ∧ x ≤ y) := by
  rcases le_max_iff.1 h with h | h
  · rcases le_or_gt x 0 with h0 | h0
    · exact .inl h0
    · exact .inr ⟨h0, h⟩
  · exact .inl h

theorem floor {x y : ℚ} (h : Below x y) : Below (npFloor x) (npFloor y) := by
  rcases h.cases with h | ⟨-, h⟩
  · exact of_nonpos (npFloor_nonpos h)
  · exact of_le (npFloor_mono h)

theorem mul {x y c c' : ℚ} (h : Below x y) (h0 : 0 ≤ c) (hc : c ≤ c') : Below (x * c) (y * c') := by
  rcases h.cases with h | ⟨hx, h⟩
  · exact of_nonpos (mul_nonpos_of_nonpos_of_nonneg h h0)
  · exact of_le (mul_le_mul h hc h0 (hx.le.trans h))

theorem mul_left {x y c c' : ℚ} (h : Below x y) (h0 : 0 ≤ c) (hc : c ≤ c') :
    Below (c * x) (c' * y) := by
  rw [mul_comm c, mul_comm c']
  exact h.mul h0 hc

theorem div {x y c : ℚ} (h : Below x y) (h0 : 0 < c) : Below (x / c) (y / c) := by
  rw [div_eq_mul_inv, div_eq_mul_inv]
  exact h.mul (inv_pos.2 h0).le (le_refl _)

end Below

theorem jobMods_range {version job : String} {x : ℚ}
    (h : Dict.get (JobClassFns.jobMods version) job = .ok x) : 0 ≤ x ∧ x ≤ 130 := by
  have h1 := Dict.mem_of_get? (Dict.get_ok.1 h)
  have key : (∀ kv ∈ JobClassFns.jobMods "test", (0 : ℚ) ≤ kv.2 ∧ kv.2 ≤ 130) ∧
      ∀ kv ∈ JobClassFns.jobMods "", (0 : ℚ) ≤ kv.2 ∧ kv.2 ≤ 130 := by decide +kernel
  by_cases hv : version = "test"
  · rw [hv] at h1
    exact key.1 _ h1
  · have : JobClassFns.jobMods version = JobClassFns.jobMods "" := by
      unfold JobClassFns.jobMods
      rw [if_neg hv, if_neg (by decide)]
    rw [this] at h1
    exact key.2 _ h1

theorem weaponDelays_nonneg {job : String} {x : ℚ} (h : Dict.get WEAPON_DELAYS job = .ok x) : 0 ≤ x := by
  have h1 := Dict.mem_of_get? (Dict.get_ok.1 h)
  have key : ∀ kv ∈ WEAPON_DELAYS, (0 : ℚ) ≤ kv.2 := by decide +kernel
  exact key _ h1

/-- The comparison of two characters after the constructors have run. -/
structure StatsLe (s s' : Stats) : Prop where
  supported : Supported s.version s.level
  jobClass : s'.jobClass = s.jobClass
  version : s'.version = s.version
  level : s'.level = s.level
  party : 0 ≤ s.numRolesInParty ∧ s.numRolesInParty ≤ s'.numRolesInParty
  jobMod : s'.processed.jobMod = s.processed.jobMod ∧ 0 ≤ s.processed.jobMod ∧ s.processed.jobMod ≤ 130
  mainStat : s.mainStat ≤ s'.mainStat
  wd : 0 ≤ s.wd ∧ s.wd ≤ s'.wd
  detStat : 0 ≤ s.detStat ∧ s.detStat ≤ s'.detStat
  dhStat : 0 ≤ s.dhStat ∧ s.dhStat ≤ s'.dhStat
  speedStat : 0 ≤ s.speedStat ∧ s.speedStat ≤ s'.speedStat
  weaponDelay : 0 ≤ s.weaponDelay ∧ s.weaponDelay ≤ s'.weaponDelay
  tenacity : OptLe s.tenacity s'.tenacity
  strength : OptLe s.healerOrCasterStrength s'.healerOrCasterStrength
  detBonus : 0 ≤ s.processed.detBonus ∧ s.processed.detBonus ≤ s'.processed.detBonus
  critBonus : 0 ≤ s.processed.critBonus ∧ s.processed.critBonus ≤ s'.processed.critBonus
  det : fDet s'.detStat s'.version s'.level = .ok s'.processed.detBonus

/-- Buffs and debuffs that are not weaker. -/
structure EffectsLe (s : Stats) (se se' : StatusEffects × StatusEffects) : Prop where
  mult : (0 ≤ se.1.mainStatMult ∧ se.1.mainStatMult ≤ se'.1.mainStatMult) ∧
    (0 ≤ se.2.mainStatMult ∧ se.2.mainStatMult ≤ se'.2.mainStatMult)
  grown : (se'.1.mainStatMult = se.1.mainStatMult ∧ se'.2.mainStatMult = se.2.mainStatMult) ∨ 600 ≤ s.mainStat
  add : se.1.mainStatAdd + se.2.mainStatAdd ≤ se'.1.mainStatAdd + se'.2.mainStatAdd
  crit : 0 ≤ se.1.critRateAdd + se.2.critRateAdd ∧
    se.1.critRateAdd + se.2.critRateAdd ≤ se'.1.critRateAdd + se'.2.critRateAdd
  dh : 0 ≤ se.1.dhRateAdd + se.2.dhRateAdd ∧ se.1.dhRateAdd + se.2.dhRateAdd ≤ se'.1.dhRateAdd + se'.2.dhRateAdd
  dhYes : ∀ d m, dhFlag .forceYes d m se = true → dhFlag .forceYes d m se' = true
  critYes : ∀ d m, critFlag .forceYes d m se = true → critFlag .forceYes d m se' = true
  forced : (∀ d m, dhFlag .forceYes d m se' = dhFlag .forceYes d m se) ∨ baseSub s.version s.level ≤ s.dhStat

theorem EffectsLe.refl (s : Stats) {se : StatusEffects × StatusEffects} (h1 : NonNegEffects se.1)
    (h2 : NonNegEffects se.2) : EffectsLe s se se :=
  ⟨⟨⟨h1.1, le_refl _⟩, h2.1, le_refl _⟩, .inl ⟨rfl, rfl⟩, le_refl _, ⟨add_nonneg h1.2.1 h2.2.1, le_refl _⟩,
    ⟨add_nonneg h1.2.2 h2.2.2, le_refl _⟩, fun _ _ h => h, fun _ _ h => h, .inl fun _ _ => rfl⟩

theorem det_nonneg (hs : Supported version level) {x a : ℚ} (hx : 0 ≤ x)
    (h : fDet x version level = .ok a) : 0 ≤ a := by
  obtain ⟨r, hr⟩ := exists_row hs
  obtain ⟨p1, p2, p3, p4, p5, p6, p7, p8, p9, p10⟩ := row_pos hr.mem
  rw [det_eq hr] at h
  cases h
  have := scale_ge p4.le p6 hx (row_bounds hr.mem).1
  linarith

theorem detDh_nonneg (hs : Supported version level) {x y a : ℚ} (hx : 0 ≤ x) (hy : 0 ≤ y)
    (h : fDetDH x y version level = .ok a) : 0 ≤ a := by
  obtain ⟨r, hr⟩ := exists_row hs
  obtain ⟨p1, p2, p3, p4, p5, p6, p7, p8, p9, p10⟩ := row_pos hr.mem
  rw [detDh_eq hr] at h
  cases h
  have := scale_ge p4.le p6 hx (row_bounds hr.mem).1
  have := scale_ge p4.le p6 hy (row_bounds hr.mem).2.1
  linarith

theorem baseSub_eq (hs : Supported version level) {r : Row} (hr : IsRow version level r) :
    r.sub = baseSub version level := by
  have h1 := hr.sub
  by_cases hv : version = "test"
  · subst hv
    exact (Except.ok.inj h1).symm
  · have e : getLevelSub version level = Dict.get [(90, 400), (100, 420)] level := if_neg hv
    rw [e] at h1
    unfold baseSub
    rw [if_neg hv]
    rcases hs with hs | rfl | rfl
    · exact absurd hs hv
    · exact (Except.ok.inj h1).symm
    · exact (Except.ok.inj h1).symm

/-- Direct hit adds to determination. -/
theorem det_le_detDh (hs : Supported version level) {x y a b : ℚ} (hy : baseSub version level ≤ y)
    (h : fDet x version level = .ok a) (h' : fDetDH x y version level = .ok b) : a ≤ b := by
  obtain ⟨r, hr⟩ := exists_row hs
  obtain ⟨p1, p2, p3, p4, p5, p6, p7, p8, p9, p10⟩ := row_pos hr.mem
  have hsub := baseSub_eq hs hr
  rw [det_eq hr] at h
  rw [detDh_eq hr] at h'
  cases h
  cases h'
  have : 0 ≤ npFloor (r.det * (y - r.sub) / r.div) :=
    npFloor_nonneg (div_nonneg (mul_nonneg p4.le (by linarith)) p6.le)
  linarith

theorem levelMain_range (hs : Supported version level) {x : ℚ} (h : getLevelMain version level = .ok x) :
    0 ≤ x ∧ x ≤ 440 := by
  obtain ⟨r, hr⟩ := exists_row hs
  rw [hr.main] at h
  cases h
  have := hr.mem
  simp only [rows, List.mem_cons, List.not_mem_nil, or_false] at this
  rcases this with rfl | rfl <;> norm_num

theorem tnc_nonneg (hs : Supported version level) {x a : ℚ} (hx : 0 ≤ x)
    (h : fTnc x version level = .ok a) : 0 ≤ a := by
  obtain ⟨r, hr⟩ := exists_row hs
  obtain ⟨p1, p2, p3, p4, p5, p6, p7, p8, p9, p10⟩ := row_pos hr.mem
  rw [tnc_eq hr] at h
  cases h
  have := scale_ge p5.le p6 hx (row_bounds hr.mem).2.2.1
  linarith

theorem spd_nonneg (hs : Supported version level) {x a : ℚ} (hx : 0 ≤ x)
    (h : fSpd x version level = .ok a) : 0 ≤ a := by
  obtain ⟨r, hr⟩ := exists_row hs
  obtain ⟨p1, p2, p3, p4, p5, p6, p7, p8, p9, p10⟩ := row_pos hr.mem
  rw [spd_eq hr] at h
  cases h
  apply npFloor_nonneg
  have := scale_ge p1.le p6 hx (row_bounds hr.mem).2.2.2.1
  have := npFloor_le (r.speed * (x - r.sub) / r.div)
  linarith

theorem critBonus_nonneg (hs : Supported version level) {x : ℚ} {p : ℚ × ℚ} (hx : 0 ≤ x)
    (h : getCritStats x version level = .ok p) : 0 ≤ p.2 := by
  obtain ⟨r, hr⟩ := exists_row hs
  obtain ⟨p1, p2, p3, p4, p5, p6, p7, p8, p9, p10⟩ := row_pos hr.mem
  obtain ⟨b1, b2, b3, b4, b5, b6⟩ := row_bounds hr.mem
  rw [crit_eq hr] at h
  cases h
  have := scale_ge p2.le p6 hx b5
  simp only [b6]
  linarith

theorem wd_nonneg (hs : Supported version level) {x y a : ℚ} (hx : 0 ≤ x) (hy : 0 ≤ y)
    (h : fWD x y version level = .ok a) : 0 ≤ a := by
  obtain ⟨r, hr⟩ := exists_row hs
  obtain ⟨p1, p2, p3, p4, p5, p6, p7, p8, p9, p10⟩ := row_pos hr.mem
  rw [wd_eq hr] at h
  cases h
  exact npFloor_nonneg (by positivity)

theorem auto_nonneg (hs : Supported version level) {x d y a : ℚ} (hx : 0 ≤ x) (hd : 0 ≤ d)
    (hy : 0 ≤ y) (h : fAuto x d y version level = .ok a) : 0 ≤ a := by
  obtain ⟨r, hr⟩ := exists_row hs
  obtain ⟨p1, p2, p3, p4, p5, p6, p7, p8, p9, p10⟩ := row_pos hr.mem
  rw [auto_eq hr] at h
  cases h
  have := npFloor_nonneg (x := r.main * y / 1000 + x) (by positivity)
  exact npFloor_nonneg (by positivity)

theorem statsLe_of {r r' : RawStats} {s s' : Stats} (h : NoStronger r r') (hs : mkStats r = .ok s)
    (hs' : mkStats r' = .ok s') : StatsLe s s' := by
  have p := mkStats_spec hs
  have p' := mkStats_spec hs'
  have hv : s'.version = s.version := by rw [p.version, p'.version, h.version]
  have hl : s'.level = s.level := by rw [p.level, p'.level, h.level]
  have hj : s'.jobClass = s.jobClass := by rw [p.jobClass, p'.jobClass, h.jobClass]
  have sup : Supported s.version s.level := supported_crit p.crit
  have hdet := p'.det
  have hcrit := p'.crit
  have hjob := p'.jobMod
  rw [hv, hl] at hdet hcrit
  rw [hv, hj, p.jobMod] at hjob
  have d1 : s.detStat ≤ s'.detStat := by rw [p.detStat, p'.detStat]; exact h.detStat.2
  have c1 : s.critStat ≤ s'.critStat := by rw [p.critStat, p'.critStat]; exact h.critStat.2
  refine ⟨sup, hj, hv, hl, ?_, ⟨(Except.ok.inj hjob).symm, jobMods_range p.jobMod⟩, ?_, ?_, ?_, ?_, ?_,
    ?_, ?_, ?_, ⟨?_, ?_⟩, ⟨?_, ?_⟩, p'.det⟩
  · rw [p.party, p'.party]; exact h.party
  · rw [p.mainStat, p'.mainStat]; exact h.mainStat
  · rw [p.wd, p'.wd]; exact h.wd
  · rw [p.detStat, p'.detStat]; exact h.detStat
  · rw [p.dhStat, p'.dhStat]; exact h.dhStat
  · rw [p.speedStat, p'.speedStat]; exact h.speedStat
  · rcases h.weaponDelay with ⟨h1, h2⟩ | ⟨a, b, h1, h2, h3, h4⟩
    · rcases p.weaponDelay with h5 | ⟨-, h5⟩
      · rw [h1] at h5; cases h5
      · rcases p'.weaponDelay with h6 | ⟨-, h6⟩
        · rw [h2] at h6; cases h6
        · rw [h.jobClass, h5] at h6
          exact ⟨weaponDelays_nonneg h5, le_of_eq (Except.ok.inj h6)⟩
    · rcases p.weaponDelay with h5 | ⟨h5, -⟩
      · rcases p'.weaponDelay with h6 | ⟨h6, -⟩
        · rw [h1] at h5; rw [h2] at h6
          cases h5; cases h6
          exact ⟨h3, h4⟩
        · rw [h2] at h6; cases h6
      · rw [h1] at h5; cases h5
  · rw [p.tenacity, p'.tenacity]; exact h.tenacity
  · rw [p.strength, p'.strength]; exact h.strength
  · exact det_nonneg sup (by rw [p.detStat]; exact h.detStat.1) p.det
  · exact (C45_monotone sup d1 d1).2.2.1 _ _ p.det hdet
  · exact critBonus_nonneg sup (by rw [p.critStat]; exact h.critStat.1) p.crit
  · exact ((C45_monotone sup c1 c1).1 _ _ p.crit hcrit).2

namespace ComputeDamage

theorem specOf_ok {skill : Skill} {m : SkillModifier} {d : DamageSpec}
    (h : skill.getDamageSpec m = .ok (some d)) : specOf skill m = .ok d := by
  unfold specOf
  rw [h]
  rfl

section

variable {s s' : Stats} {d : DamageSpec} {m : SkillModifier} {se se' : StatusEffects × StatusEffects}
  {p' : ℚ}

/-- The same damage specification with another potency. -/
def withPotency (d : DamageSpec) (p : ℚ) : DamageSpec := { d with potency := p }

/-- Growing a product whose first factor may be negative. -/
theorem scaled_le {x y a a' b b' : ℚ} (hxy : x ≤ y) (ha : 0 ≤ a ∧ a ≤ a') (hb : 0 ≤ b ∧ b ≤ b')
    (h : (a' = a ∧ b' = b) ∨ 0 ≤ x) : x * a * b ≤ y * a' * b' := by
  rcases h with ⟨rfl, rfl⟩ | h
  · exact mul_le_mul_of_nonneg_right (mul_le_mul_of_nonneg_right hxy ha.1) hb.1
  · have h1 := mul_le_mul hxy ha.2 ha.1 (h.trans hxy)
    exact mul_le_mul h1 hb.2 hb.1 (mul_nonneg (h.trans hxy) (ha.1.trans ha.2))

theorem partyMainStat_le (h : StatsLe s s') (he : EffectsLe s se se') :
    Below (partyMainStat s se) (partyMainStat s' se') := by
  unfold partyMainStat
  obtain ⟨p0, p1⟩ := h.party
  refine (Below.mul (Below.of_le ?_) (by linarith) (by linarith)).floor
  refine add_le_add (npFloor_mono (scaled_le h.mainStat he.mult.1 he.mult.2 ?_)) he.add
  exact he.grown.imp_right (fun h => by linarith)

/-- Attack power of a main stat that is not positive is not positive. -/
theorem ap_below (hs : Supported version level) {x y a b : ℚ} {tank : Bool} (h : Below x y)
    (ha : fAP x tank version level = .ok a) (hb : fAP y tank version level = .ok b) : Below a b := by
  rcases h.cases with h | ⟨-, h⟩
  · obtain ⟨r, hr⟩ := exists_row hs
    rw [ap_eq hr] at ha
    cases ha
    apply Below.of_nonpos
    have key : ((if tank = true then r.fapTank else r.fap) * (x - r.main) / r.main) ≤ -100 := by
      have := hr.mem
      simp only [rows, List.mem_cons, List.not_mem_nil, or_false] at this
      rcases this with rfl | rfl <;> cases tank <;> norm_num <;> linarith
    have := npFloor_le ((if tank = true then r.fapTank else r.fap) * (x - r.main) / r.main)
    linarith
  · exact Below.of_le ((C45_monotone hs h h).2.2.2.2.2.2.1 _ _ _ ha hb)

theorem petMainStat_le (h : StatsLe s s') (hd : NonNegDamage d) (he : EffectsLe s se se') {lm : ℚ}
    (hlm : getLevelMain s.version s.level = .ok lm) :
    petMainStat s d se lm ≤ petMainStat s' (withPotency d p') se' lm := by
  have hj : petJobMod s' (withPotency d p') = petJobMod s d := by
    unfold petJobMod withPotency
    rw [h.jobMod.1]
  have hj0 : 0 ≤ petJobMod s d := by
    unfold petJobMod
    cases ho : d.petJobModOverride with
    | none => exact h.jobMod.2.1
    | some x => exact hd.2.2 x ho
  have hl := levelMain_range h.supported hlm
  unfold petMainStat
  rw [hj, h.jobMod.1]
  apply mul_le_mul_of_nonneg_right _ hd.1
  refine add_le_add (npFloor_mono (scaled_le (sub_le_sub_right h.mainStat _) he.mult.1 he.mult.2 ?_)) he.add
  refine he.grown.imp_right (fun hg => ?_)
  have a1 : npFloor (lm * s.processed.jobMod / 100) ≤ 600 := by
    refine (npFloor_le _).trans ?_
    have := mul_le_mul hl.2 h.jobMod.2.2 h.jobMod.2.1 (by norm_num)
    linarith
  have a2 : 0 ≤ npFloor (lm * petJobMod s d / 100) :=
    npFloor_nonneg (div_nonneg (mul_nonneg hl.1 hj0) (by norm_num))
  linarith

theorem detDh_le (h : StatsLe s s') (he : EffectsLe s se se') {a b : ℚ} (ha : detDh s d m se = .ok a)
    (hb : detDh s' (withPotency d p') m se' = .ok b) : 0 ≤ a ∧ a ≤ b := by
  have hf : dhFlag .forceYes (withPotency d p') m se' = dhFlag .forceYes d m se' := rfl
  unfold detDh at ha hb
  rw [hf] at hb
  by_cases hc : dhFlag .forceYes d m se = true
  · rw [if_pos hc] at ha
    rw [if_pos (he.dhYes d m hc), h.version, h.level] at hb
    exact ⟨detDh_nonneg h.supported h.detStat.1 h.dhStat.1 ha,
      (C45_monotone h.supported h.detStat.2 h.dhStat.2).2.2.2.1 _ _ ha hb⟩
  · rw [if_neg hc] at ha
    cases ha
    split_ifs at hb with hc'
    · refine ⟨h.detBonus.1, h.detBonus.2.trans ?_⟩
      rcases he.forced with hk | hk
      · exact absurd (hk d m ▸ hc') hc
      · have hdet := h.det
        rw [h.version, h.level] at hb hdet
        exact det_le_detDh h.supported (hk.trans h.dhStat.2) hdet hb
    · cases hb
      exact h.detBonus

theorem tnc_le (h : StatsLe s s') {a b : ℚ} (ha : tnc s = .ok a) (hb : tnc s' = .ok b) :
    0 ≤ a ∧ a ≤ b := by
  unfold tnc at ha hb
  rcases h.tenacity with ⟨h1, h2⟩ | ⟨x, y, h1, h2, h3, h4⟩
  · rw [h1] at ha
    cases ha
  · rw [h1] at ha
    rw [h2, h.version, h.level] at hb
    exact ⟨tnc_nonneg h.supported h3 ha, (C45_monotone h.supported h4 h4).2.2.2.2.1 _ _ ha hb⟩

theorem isTank_eq (h : StatsLe s s') : JobClassFns.isTank s'.version s'.jobClass =
    JobClassFns.isTank s.version s.jobClass := by rw [h.version, h.jobClass]

theorem isMage_eq (h : StatsLe s s') :
    (JobClassFns.isHealer s'.version s'.jobClass || JobClassFns.isCaster s'.version s'.jobClass) =
    (JobClassFns.isHealer s.version s.jobClass || JobClassFns.isCaster s.version s.jobClass) := by
  rw [h.version, h.jobClass]

theorem tankStep_le (h : StatsLe s s') {x y a b : ℚ} (hx : Below x y) (ha : tankStep s x = .ok a)
    (hb : tankStep s' y = .ok b) : Below a b := by
  unfold tankStep at ha hb
  rw [isTank_eq h] at hb
  split_ifs at ha hb with hc
  · obtain ⟨t, ht, ha⟩ := Py.bind_eq_ok.1 ha
    obtain ⟨t', ht', hb⟩ := Py.bind_eq_ok.1 hb
    cases ha
    cases hb
    obtain ⟨h0, h1⟩ := tnc_le h ht ht'
    exact ((hx.mul h0 h1).div (by norm_num)).floor.div (by norm_num)
  · cases ha
    cases hb
    exact hx

theorem tankStepDot_le (h : StatsLe s s') {x y a b : ℚ} (hx : Below x y)
    (ha : tankStepDot s x = .ok a) (hb : tankStepDot s' y = .ok b) : Below a b := by
  unfold tankStepDot at ha hb
  rw [isTank_eq h] at hb
  split_ifs at ha hb with hc
  · obtain ⟨t, ht, ha⟩ := Py.bind_eq_ok.1 ha
    obtain ⟨t', ht', hb⟩ := Py.bind_eq_ok.1 hb
    cases ha
    cases hb
    obtain ⟨h0, h1⟩ := tnc_le h ht ht'
    exact ((hx.mul h0 h1).div (by norm_num)).floor
  · cases ha
    cases hb
    exact hx

theorem bonus_le (h : StatsLe s s') (he : EffectsLe s se se') :
    (0 ≤ (guaranteedBonus s d m se).1 ∧
      (guaranteedBonus s d m se).1 ≤ (guaranteedBonus s' (withPotency d p') m se').1) ∧
    (0 ≤ (guaranteedBonus s d m se).2 ∧
      (guaranteedBonus s d m se).2 ≤ (guaranteedBonus s' (withPotency d p') m se').2) := by
  have hf : dhFlag .forceYes (withPotency d p') m se' = dhFlag .forceYes d m se' := rfl
  have hf' : critFlag .forceYes (withPotency d p') m se' = critFlag .forceYes d m se' := rfl
  unfold guaranteedBonus dhBonusMult critBonusMult DH_DAMAGE_MULT_BONUS
  rw [hf, hf']
  have c0 := he.crit.1
  have c1 := he.crit.2
  have d0 := he.dh.1
  have d1 := he.dh.2
  have x0 := h.critBonus.1
  have x1 := h.critBonus.2
  have y0 := mul_nonneg x0 c0
  have y1 := mul_le_mul x1 c1 c0 (x0.trans x1)
  dsimp only
  refine ⟨?_, ?_⟩
  · by_cases hc : dhFlag .forceYes d m se = true
    · rw [if_pos hc, if_pos (he.dhYes d m hc)]
      constructor <;> linarith
    · rw [if_neg hc]
      refine ⟨le_refl _, ?_⟩
      split_ifs <;> linarith
  · by_cases hc : critFlag .forceYes d m se = true
    · rw [if_pos hc, if_pos (he.critYes d m hc)]
      exact ⟨y0, y1⟩
    · rw [if_neg hc]
      refine ⟨le_refl _, ?_⟩
      split_ifs
      · exact y0.trans y1
      · exact le_refl _

theorem finish_le (h : StatsLe s s') (hd : NonNegDamage d) (he : EffectsLe s se se') {x y : ℚ} (hx : Below x y) :
    Below (finish s d m se x) (finish s' (withPotency d p') m se' y) := by
  obtain ⟨⟨a0, a1⟩, b0, b1⟩ := bonus_le (d := d) (m := m) (p' := p') h he
  unfold finish
  refine Below.mul ?_ hd.2.1 (le_refl _)
  rcases hx.cases with hx | ⟨hx, hxy⟩
  · apply Below.of_nonpos
    have := npFloor_nonpos (mul_nonpos_of_nonpos_of_nonneg hx a0)
    have := npFloor_nonpos (mul_nonpos_of_nonpos_of_nonneg hx b0)
    linarith
  · apply Below.of_le
    have := npFloor_mono (mul_le_mul hxy a1 a0 (hx.le.trans hxy))
    have := npFloor_mono (mul_le_mul hxy b1 b0 (hx.le.trans hxy))
    linarith

variable {skill skill' : Skill}

theorem directBase_le (h : StatsLe s s') {p ap ap' wd wd' det det' a b : ℚ} (hp : 0 ≤ p)
    (hp' : p ≤ p') (hap : Below ap ap') (hw : 0 ≤ wd ∧ wd ≤ wd') (hdet : 0 ≤ det ∧ det ≤ det')
    (ha : directBase s p ap wd det = .ok a) (hb : directBase s' p' ap' wd' det' = .ok b) :
    Below a b := by
  unfold directBase at ha hb
  rw [isMage_eq h] at hb
  split_ifs at ha hb with hc
  · cases ha
    cases hb
    have h1 : wd * p ≤ wd' * p' := mul_le_mul hw.2 hp' hp (hw.1.trans hw.2)
    have h2 : wd * p / 100 ≤ wd' * p' / 100 := by linarith
    have h3 : 0 ≤ wd * p / 100 := div_nonneg (mul_nonneg hw.1 hp) (by norm_num)
    exact ((((hap.mul hdet.1 hdet.2).div (by norm_num)).floor.div (by norm_num)).mul
      (npFloor_nonneg h3) (npFloor_mono h2)).floor
  · obtain ⟨x, hx, ha⟩ := Py.bind_eq_ok.1 ha
    obtain ⟨y, hy, hb⟩ := Py.bind_eq_ok.1 hb
    cases ha
    cases hb
    refine ((tankStep_le h ?_ hx hy).mul hw.1 hw.2).floor.floor
    exact (((((hap.mul_left hp hp').div (by norm_num)).floor.div (by norm_num)).mul
      hdet.1 hdet.2).div (by norm_num)).floor.div (by norm_num)

theorem directDamage_le (h : StatsLe s s') (hs : skill.getDamageSpec m = .ok (some d))
    (hs' : skill'.getDamageSpec m = .ok (some (withPotency d p'))) (hp : 0 ≤ d.potency)
    (hp' : d.potency ≤ p') (hd : NonNegDamage d) (he : EffectsLe s se se')
    {a b : ℚ} (ha : directDamage skill m s se = .ok a) (hb : directDamage skill' m s' se' = .ok b) :
    Below a b := by
  unfold directDamage at ha hb
  simp only [specOf_ok hs, Py.ok_bind] at ha
  simp only [specOf_ok hs', Py.ok_bind] at hb
  rw [isTank_eq h, h.version, h.level, h.jobMod.1] at hb
  obtain ⟨ap, hap, ha⟩ := Py.bind_eq_ok.1 ha
  obtain ⟨ap', hap', hb⟩ := Py.bind_eq_ok.1 hb
  obtain ⟨wd, hwd, ha⟩ := Py.bind_eq_ok.1 ha
  obtain ⟨wd', hwd', hb⟩ := Py.bind_eq_ok.1 hb
  obtain ⟨det, hdet, ha⟩ := Py.bind_eq_ok.1 ha
  obtain ⟨det', hdet', hb⟩ := Py.bind_eq_ok.1 hb
  obtain ⟨x, hx, ha⟩ := Py.bind_eq_ok.1 ha
  obtain ⟨y, hy, hb⟩ := Py.bind_eq_ok.1 hb
  cases ha
  cases hb
  have main := partyMainStat_le h he
  refine finish_le h hd he (directBase_le h hp hp'
    (ap_below h.supported main hap hap') ⟨?_, ?_⟩ (detDh_le h he hdet hdet')
    hx hy)
  · exact wd_nonneg h.supported h.wd.1 h.jobMod.2.1 hwd
  · exact (C45_monotone h.supported h.wd.2 (le_refl _)).2.2.2.2.2.2.2.1 _ _ hwd hwd'

theorem magicalDotDamage_le (h : StatsLe s s') (hs : skill.getDamageSpec m = .ok (some d))
    (hs' : skill'.getDamageSpec m = .ok (some (withPotency d p'))) (hp : 0 ≤ d.potency)
    (hp' : d.potency ≤ p') (hd : NonNegDamage d) (he : EffectsLe s se se')
    {a b : ℚ} (ha : magicalDotDamage skill m s se = .ok a)
    (hb : magicalDotDamage skill' m s' se' = .ok b) : Below a b := by
  unfold magicalDotDamage at ha hb
  simp only [specOf_ok hs, Py.ok_bind] at ha
  simp only [specOf_ok hs', Py.ok_bind] at hb
  rw [isTank_eq h, h.version, h.level, h.jobMod.1] at hb
  obtain ⟨spd, hspd, ha⟩ := Py.bind_eq_ok.1 ha
  obtain ⟨spd', hspd', hb⟩ := Py.bind_eq_ok.1 hb
  obtain ⟨ap, hap, ha⟩ := Py.bind_eq_ok.1 ha
  obtain ⟨ap', hap', hb⟩ := Py.bind_eq_ok.1 hb
  obtain ⟨wd, hwd, ha⟩ := Py.bind_eq_ok.1 ha
  obtain ⟨wd', hwd', hb⟩ := Py.bind_eq_ok.1 hb
  obtain ⟨det, hdet, ha⟩ := Py.bind_eq_ok.1 ha
  obtain ⟨det', hdet', hb⟩ := Py.bind_eq_ok.1 hb
  obtain ⟨x, hx, ha⟩ := Py.bind_eq_ok.1 ha
  obtain ⟨y, hy, hb⟩ := Py.bind_eq_ok.1 hb
  cases ha
  cases hb
  have main := partyMainStat_le h he
  have a1 := ap_below h.supported main hap hap'
  have w0 := wd_nonneg h.supported h.wd.1 h.jobMod.2.1 hwd
  have w1 := (C45_monotone h.supported h.wd.2 (le_refl _)).2.2.2.2.2.2.2.1 _ _ hwd hwd'
  have s0 := spd_nonneg h.supported h.speedStat.1 hspd
  have s1 := (C45_monotone h.supported h.speedStat.2 h.speedStat.2).2.2.2.2.2.1 _ _ hspd hspd'
  obtain ⟨d0, d1⟩ := detDh_le h he hdet hdet'
  have b0 : 0 ≤ npFloor (npFloor (d.potency * wd) / 100) :=
    npFloor_nonneg (div_nonneg (npFloor_nonneg (mul_nonneg hp w0)) (by norm_num))
  have b1 : npFloor (npFloor (d.potency * wd) / 100) ≤ npFloor (npFloor (p' * wd') / 100) := by
    apply npFloor_mono
    have := npFloor_mono (mul_le_mul hp' w1 w0 (hp.trans hp'))
    linarith
  refine finish_le h hd he (((tankStepDot_le h ?_ hx hy).div (by norm_num)).floor.div
    (by norm_num)).floor
  exact ((((a1.mul_left b0 b1).floor.mul s0 s1).floor.floor.mul d0 d1).floor.div
    (by norm_num)).floor

theorem physicalDotDamage_le (h : StatsLe s s') (hs : skill.getDamageSpec m = .ok (some d))
    (hs' : skill'.getDamageSpec m = .ok (some (withPotency d p'))) (hp : 0 ≤ d.potency)
    (hp' : d.potency ≤ p') (hd : NonNegDamage d) (he : EffectsLe s se se')
    {a b : ℚ} (ha : physicalDotDamage skill m s se = .ok a)
    (hb : physicalDotDamage skill' m s' se' = .ok b) : Below a b := by
  unfold physicalDotDamage at ha hb
  simp only [specOf_ok hs, Py.ok_bind] at ha
  simp only [specOf_ok hs', Py.ok_bind] at hb
  rw [isTank_eq h, h.version, h.level, h.jobMod.1] at hb
  obtain ⟨spd, hspd, ha⟩ := Py.bind_eq_ok.1 ha
  obtain ⟨spd', hspd', hb⟩ := Py.bind_eq_ok.1 hb
  obtain ⟨ap, hap, ha⟩ := Py.bind_eq_ok.1 ha
  obtain ⟨ap', hap', hb⟩ := Py.bind_eq_ok.1 hb
  obtain ⟨wd, hwd, ha⟩ := Py.bind_eq_ok.1 ha
  obtain ⟨wd', hwd', hb⟩ := Py.bind_eq_ok.1 hb
  obtain ⟨det, hdet, ha⟩ := Py.bind_eq_ok.1 ha
  obtain ⟨det', hdet', hb⟩ := Py.bind_eq_ok.1 hb
  obtain ⟨x, hx, ha⟩ := Py.bind_eq_ok.1 ha
  obtain ⟨y, hy, hb⟩ := Py.bind_eq_ok.1 hb
  cases ha
  cases hb
  have main := partyMainStat_le h he
  have a1 := ap_below h.supported main hap hap'
  have w0 := wd_nonneg h.supported h.wd.1 h.jobMod.2.1 hwd
  have w1 := (C45_monotone h.supported h.wd.2 (le_refl _)).2.2.2.2.2.2.2.1 _ _ hwd hwd'
  have s0 := spd_nonneg h.supported h.speedStat.1 hspd
  have s1 := (C45_monotone h.supported h.speedStat.2 h.speedStat.2).2.2.2.2.2.1 _ _ hspd hspd'
  obtain ⟨d0, d1⟩ := detDh_le h he hdet hdet'
  refine finish_le h hd he ((((((tankStepDot_le h ?_ hx hy).mul s0 s1).floor.div
    (by norm_num)).floor.mul w0 w1).floor.div (by norm_num))).floor
  exact (((a1.mul_left hp hp').mul d0 d1).div (by norm_num)).floor.div (by norm_num)

theorem petDamage_le (h : StatsLe s s') (hs : skill.getDamageSpec m = .ok (some d))
    (hs' : skill'.getDamageSpec m = .ok (some (withPotency d p'))) (hp : 0 ≤ d.potency)
    (hp' : d.potency ≤ p') (hd : NonNegDamage d) (he : EffectsLe s se se')
    {a b : ℚ} (ha : petDamage skill m s se = .ok a) (hb : petDamage skill' m s' se' = .ok b) :
    Below a b := by
  have hj : petJobMod s' (withPotency d p') = petJobMod s d := by
    unfold petJobMod withPotency
    rw [h.jobMod.1]
  have hj0 : 0 ≤ petJobMod s d := by
    unfold petJobMod
    cases ho : d.petJobModOverride with
    | none => exact h.jobMod.2.1
    | some x => exact hd.2.2 x ho
  unfold petDamage at ha hb
  simp only [specOf_ok hs, Py.ok_bind] at ha
  simp only [specOf_ok hs', Py.ok_bind] at hb
  rw [h.version, h.level] at hb
  obtain ⟨lm, hlm, ha⟩ := Py.bind_eq_ok.1 ha
  obtain ⟨lm', hlm', hb⟩ := Py.bind_eq_ok.1 hb
  rw [hlm] at hlm'
  cases hlm'
  obtain ⟨ap, hap, ha⟩ := Py.bind_eq_ok.1 ha
  obtain ⟨ap', hap', hb⟩ := Py.bind_eq_ok.1 hb
  obtain ⟨wd, hwd, ha⟩ := Py.bind_eq_ok.1 ha
  obtain ⟨wd', hwd', hb⟩ := Py.bind_eq_ok.1 hb
  obtain ⟨det, hdet, ha⟩ := Py.bind_eq_ok.1 ha
  obtain ⟨det', hdet', hb⟩ := Py.bind_eq_ok.1 hb
  obtain ⟨x, hx, ha⟩ := Py.bind_eq_ok.1 ha
  obtain ⟨y, hy, hb⟩ := Py.bind_eq_ok.1 hb
  cases ha
  cases hb
  rw [hj] at hwd'
  have main := petMainStat_le (p' := p') h hd he hlm
  have a1 := (C45_monotone h.supported main main).2.2.2.2.2.2.1 _ _ _ hap hap'
  have w0 := wd_nonneg h.supported h.wd.1 hj0 hwd
  have w1 := (C45_monotone h.supported h.wd.2 (le_refl _)).2.2.2.2.2.2.2.1 _ _ hwd hwd'
  obtain ⟨d0, d1⟩ := detDh_le h he hdet hdet'
  refine finish_le h hd he ((tankStep_le h ?_ hx hy).mul w0 w1).floor.floor
  exact ((((((Below.of_le a1).mul_left hp hp').div (by norm_num)).floor.div (by norm_num)).mul
      d0 d1).div (by norm_num)).floor.div (by norm_num)

theorem autoMainStat_le (h : StatsLe s s') (he : EffectsLe s se se')
    {a b : ℚ} (ha : autoMainStat s se = .ok a) (hb : autoMainStat s' se' = .ok b) : Below a b := by
  unfold autoMainStat at ha hb
  rw [isMage_eq h] at hb
  split_ifs at ha hb with hc
  · rcases h.strength with ⟨e1, e2⟩ | ⟨x, y, e1, e2, e3, e4⟩
    · rw [e1] at ha
      cases ha
    · rw [e1] at ha
      rw [e2] at hb
      cases ha
      cases hb
      obtain ⟨p0, p1⟩ := h.party
      exact (Below.of_le e4).mul (by linarith) (by linarith)
  · cases ha
    cases hb
    exact partyMainStat_le h he

theorem autoSpd_le (h : StatsLe s s') {a b : ℚ} (ha : autoSpd s = .ok a) (hb : autoSpd s' = .ok b) :
    0 ≤ a ∧ a ≤ b := by
  unfold autoSpd at ha hb
  rw [h.version, h.jobClass, h.level] at hb
  split_ifs at ha hb with hc
  · exact ⟨spd_nonneg h.supported h.speedStat.1 ha,
      (C45_monotone h.supported h.speedStat.2 h.speedStat.2).2.2.2.2.2.1 _ _ ha hb⟩
  · cases ha
    cases hb
    norm_num

theorem autoDamage_le (h : StatsLe s s') (hs : skill.getDamageSpec m = .ok (some d))
    (hs' : skill'.getDamageSpec m = .ok (some (withPotency d p'))) (hp : 0 ≤ d.potency)
    (hp' : d.potency ≤ p') (hd : NonNegDamage d) (he : EffectsLe s se se')
    {a b : ℚ} (ha : autoDamage skill m s se = .ok a) (hb : autoDamage skill' m s' se' = .ok b) :
    Below a b := by
  unfold autoDamage at ha hb
  simp only [specOf_ok hs, Py.ok_bind] at ha
  simp only [specOf_ok hs', Py.ok_bind] at hb
  rw [isTank_eq h, h.version, h.level, h.jobMod.1] at hb
  obtain ⟨ms, hms, ha⟩ := Py.bind_eq_ok.1 ha
  obtain ⟨ms', hms', hb⟩ := Py.bind_eq_ok.1 hb
  obtain ⟨spd, hspd, ha⟩ := Py.bind_eq_ok.1 ha
  obtain ⟨spd', hspd', hb⟩ := Py.bind_eq_ok.1 hb
  obtain ⟨ap, hap, ha⟩ := Py.bind_eq_ok.1 ha
  obtain ⟨ap', hap', hb⟩ := Py.bind_eq_ok.1 hb
  obtain ⟨au, hau, ha⟩ := Py.bind_eq_ok.1 ha
  obtain ⟨au', hau', hb⟩ := Py.bind_eq_ok.1 hb
  obtain ⟨det, hdet, ha⟩ := Py.bind_eq_ok.1 ha
  obtain ⟨det', hdet', hb⟩ := Py.bind_eq_ok.1 hb
  obtain ⟨x, hx, ha⟩ := Py.bind_eq_ok.1 ha
  obtain ⟨y, hy, hb⟩ := Py.bind_eq_ok.1 hb
  cases ha
  cases hb
  have main := autoMainStat_le h he hms hms'
  have a1 := ap_below h.supported main hap hap'
  have w0 := auto_nonneg h.supported h.wd.1 h.weaponDelay.1 h.jobMod.2.1 hau
  have w1 := (C45_monotone h.supported h.wd.2 (le_refl _)).2.2.2.2.2.2.2.2 _ _ _ _ h.weaponDelay.1
    h.weaponDelay.2 h.wd.1 h.jobMod.2.1 hau hau'
  obtain ⟨s0, s1⟩ := autoSpd_le h hspd hspd'
  obtain ⟨d0, d1⟩ := detDh_le h he hdet hdet'
  refine finish_le h hd he (((((tankStep_le h ?_ hx hy).mul s0 s1).floor.div (by norm_num)).mul
    w0 w1).floor.div (by norm_num)).floor
  exact (((((a1.mul_left hp hp').div (by norm_num)).floor.div (by norm_num)).mul
      d0 d1).div (by norm_num)).floor.div (by norm_num)

theorem byClass_le (c : DamageClass) (h : StatsLe s s') (hs : skill.getDamageSpec m = .ok (some d))
    (hs' : skill'.getDamageSpec m = .ok (some (withPotency d p'))) (hp : 0 ≤ d.potency)
    (hp' : d.potency ≤ p') (hd : NonNegDamage d) (he : EffectsLe s se se')
    {a b : ℚ} (ha : byClass c skill m s se = .ok a) (hb : byClass c skill' m s' se' = .ok b) :
    Below a b := by
  unfold byClass at ha hb
  cases c with
  | direct => exact directDamage_le h hs hs' hp hp' hd he ha hb
  | magicalDot => exact magicalDotDamage_le h hs hs' hp hp' hd he ha hb
  | physicalDot => exact physicalDotDamage_le h hs hs' hp hp' hd he ha hb
  | auto => exact autoDamage_le h hs hs' hp hp' hd he ha hb
  | pet => exact petDamage_le h hs hs' hp hp' hd he ha hb
  | unknown => cases ha

end

end ComputeDamage

end Ama
