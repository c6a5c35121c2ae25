import Verif.Lemmas.Simulation
import Verif.Props.BaseDamage

/-!
# Lemmas about better gear and better buffs
-/

namespace Ama

open Spec ComputeDamage

theorem _root_.Ama.Spec.ForcedUp.yes {f f' : Forced} (h : ForcedUp f f') (hf : Forced.forceYes = f) :
    Forced.forceYes = f' := by
  rcases h with h | ⟨h, -⟩
  · rw [h, hf]
  · rw [← hf] at h
    cases h

theorem _root_.Ama.Spec.ForcedUp.no {f f' : Forced} (h : ForcedUp f f') :
    Forced.forceNo = f' ↔ Forced.forceNo = f := by
  rcases h with h | ⟨h, h'⟩
  · rw [h]
  · rw [h, h']
    constructor <;> intro h <;> cases h

section

variable {se se' : StatusEffects × StatusEffects} (h1 : NoWeaker se.1 se'.1) (h2 : NoWeaker se.2 se'.2)

include h1 h2

theorem dhYes_le (d : DamageSpec) (m : SkillModifier) (h : Forced.forceYes ∈ dhSources d m se) :
    Forced.forceYes ∈ dhSources d m se' := by
  unfold dhSources at h ⊢
  simp only [List.mem_cons, List.not_mem_nil, or_false] at h ⊢
  exact h.imp_right (Or.imp_right (Or.imp h1.guaranteedDh.yes h2.guaranteedDh.yes))

theorem critYes_le (d : DamageSpec) (m : SkillModifier) (h : Forced.forceYes ∈ critSources d m se) :
    Forced.forceYes ∈ critSources d m se' := by
  unfold critSources at h ⊢
  simp only [List.mem_cons, List.not_mem_nil, or_false] at h ⊢
  exact h.imp_right (Or.imp_right (Or.imp h1.guaranteedCrit.yes h2.guaranteedCrit.yes))

theorem dhNo_iff (d : DamageSpec) (m : SkillModifier) :
    Forced.forceNo ∈ dhSources d m se' ↔ Forced.forceNo ∈ dhSources d m se := by
  unfold dhSources
  simp only [List.mem_cons, List.not_mem_nil, or_false, h1.guaranteedDh.no, h2.guaranteedDh.no]

theorem critNo_iff (d : DamageSpec) (m : SkillModifier) :
    Forced.forceNo ∈ critSources d m se' ↔ Forced.forceNo ∈ critSources d m se := by
  unfold critSources
  simp only [List.mem_cons, List.not_mem_nil, or_false, h1.guaranteedCrit.no, h2.guaranteedCrit.no]

theorem effectsLe_of {raw : RawStats} {s : Stats} (hs : mkStats raw = .ok s) (hg : Grown raw) :
    EffectsLe s se se' := by
  have p := mkStats_spec hs
  refine ⟨⟨h1.mainStatMult, h2.mainStatMult⟩, .inr ?_, add_le_add h1.mainStatAdd h2.mainStatAdd,
    ⟨add_nonneg h1.critRateAdd.1 h2.critRateAdd.1, add_le_add h1.critRateAdd.2 h2.critRateAdd.2⟩,
    ⟨add_nonneg h1.dhRateAdd.1 h2.dhRateAdd.1, add_le_add h1.dhRateAdd.2 h2.dhRateAdd.2⟩, ?_, ?_, .inr ?_⟩
  · rw [p.mainStat]; exact hg.1
  · intro d m
    rw [dhFlag_iff, dhFlag_iff]
    exact dhYes_le h1 h2 d m
  · intro d m
    rw [critFlag_iff, critFlag_iff]
    exact critYes_le h1 h2 d m
  · rw [p.dhStat, p.version, p.level]; exact hg.2

end

theorem rate_le {l l' : List Forced} {a a' p p' : ℚ} (h : RateIs l a p) (h' : RateIs l' a' p') (ha : a ≤ a')
    (hy : Forced.forceYes ∈ l → Forced.forceYes ∈ l') (hn : Forced.forceNo ∈ l' ↔ Forced.forceNo ∈ l) :
    min p 1 ≤ p' := by
  by_cases y' : Forced.forceYes ∈ l'
  · rw [h'.1 y']
    exact min_le_right _ _
  · have y : Forced.forceYes ∉ l := fun y => y' (hy y)
    by_cases n : Forced.forceNo ∈ l
    · rw [h.2.1 n, h'.2.1 (hn.2 n)]
      exact min_le_left _ _
    · rw [h.2.2 y n, h'.2.2 y' (fun n' => n (hn.1 n'))]
      exact (min_le_left _ _).trans ha

/-- More base damage. -/
theorem base_le {raw raw' : RawStats} (hr : NoStronger raw raw') {stats stats' : Stats}
    (hs : mkStats raw = .ok stats) (hs' : mkStats raw' = .ok stats')
    {skill skill' : Skill} {m : SkillModifier} {d : DamageSpec} {potency' : ℚ}
    (hd : skill.getDamageSpec m = .ok (some d))
    (hd' : skill'.getDamageSpec m = .ok (some { d with potency := potency' }))
    (hp : 0 ≤ d.potency ∧ d.potency ≤ potency') (hn : NonNegDamage d)
    {se se' : StatusEffects × StatusEffects} (he : EffectsLe stats se se')
    {b b' : ℚ} (hb : getBaseDamage skill m stats se = .ok (some b))
    (hb' : getBaseDamage skill' m stats' se' = .ok (some b')) : b ≤ b' := by
  by_cases h0 : d.potency = 0
  · rw [(C41_base hd stats se).1 h0] at hb
    cases hb
    obtain ⟨_, hx, h⟩ := (C41_base hd' stats' se').2 _ hb'
    cases hx
    rcases h with ⟨-, h⟩ | ⟨-, h⟩
    · rw [h]
    · linarith
  · have h0' : potency' ≠ 0 := by
      intro h
      exact h0 (le_antisymm (h ▸ hp.2) hp.1)
    unfold getBaseDamage at hb hb'
    rw [hd] at hb
    rw [hd'] at hb'
    simp only [Py.ok_bind, h0, if_false] at hb
    simp only [Py.ok_bind, h0', if_false] at hb'
    obtain ⟨x, hx, hb⟩ := Py.bind_eq_ok.1 hb
    obtain ⟨y, hy, hb'⟩ := Py.bind_eq_ok.1 hb'
    cases hb
    cases hb'
    have key : x ≤ max y 0 :=
      byClass_le d.damageClass (statsLe_of hr hs hs') hd hd' hp.1 hp.2 hn he hx hy
    refine max_le (key.trans (max_le_max (le_refl _) (by norm_num))) (le_max_right _ _)

namespace DamageTracker

/-- A row that is not worse. -/
structure RowLe (r r' : DamageRow) : Prop where
  base : r.baseDamage ≤ r'.baseDamage
  bonus : r.critBonus ≤ r'.critBonus
  crit : min r.critRate 1 ≤ r'.critRate
  dh : min r.dhRate 1 ≤ r'.dhRate
  trait : r'.traitDamageMult = r.traitDamageMult
  mult : r.damageMult ≤ r'.damageMult

theorem afterSpread_le {bonus bonus' trait mult mult' x y : ℚ} {c d c' d' : Bool} (hb : 0 ≤ bonus)
    (hbb : bonus ≤ bonus') (ht : 0 ≤ trait) (hm : 0 ≤ mult) (hmm : mult ≤ mult') (hx : 0 ≤ x) (h : x ≤ y)
    (hc : c = true → c' = true) (hd : d = true → d' = true) :
    afterSpread bonus trait mult x c d ≤ afterSpread bonus' trait mult' y c' d' := by
  unfold afterSpread
  have c0 := mul_nonneg hb (boolNum_nonneg c)
  have c1 : bonus * boolNum c ≤ bonus' * boolNum c' :=
    mul_le_mul hbb (boolNum_mono hc) (boolNum_nonneg c) (hb.trans hbb)
  have d0 : (0 : ℚ) ≤ GameConsts.DH_DAMAGE_MULT_BONUS := by norm_num [GameConsts.DH_DAMAGE_MULT_BONUS]
  have d1 := mul_nonneg d0 (boolNum_nonneg d)
  have d2 := mul_le_mul_of_nonneg_left (boolNum_mono hd) d0
  have e1 := addShare_mono hx h c0 c1
  have e0 := addShare_nonneg hx c0
  have f1 := addShare_mono e0 e1 d1 d2
  have f0 := addShare_nonneg e0 d1
  have g1 := npFloor_mono (mul_le_mul_of_nonneg_right f1 ht)
  have g0 := npFloor_nonneg (mul_nonneg f0 ht)
  exact npFloor_mono (mul_le_mul g1 hmm hm (g0.trans g1))

theorem rate_hit {p p' w : ℚ} (h : min p 1 ≤ p') (hw : w < 1) (hp : w ≤ p) : w ≤ p' :=
  (le_min hp hw.le).trans h

theorem sample_le {r r' : DamageRow} (hs : Sane r) (h : RowLe r r') {w : Draw} (hw : Draw.Valid w) :
    (getDamage r.baseDamage r.critBonus r.critRate r.dhRate r.traitDamageMult r.damageMult (1 / 10) w).1 ≤
    (getDamage r'.baseDamage r'.critBonus r'.critRate r'.dhRate r'.traitDamageMult r'.damageMult (1 / 10) w).1 := by
  simp only [getDamage_eq, h.trait]
  have w0 : 0 ≤ 1 - (1 : ℚ) / 10 / 2 + 1 / 10 * w.spread := by linarith [hw.1.1]
  refine afterSpread_le hs.bonus h.bonus hs.trait hs.mult h.mult (npFloor_nonneg (mul_nonneg hs.base w0))
    (npFloor_mono (mul_le_mul_of_nonneg_right h.base w0)) ?_ ?_
  · simp only [decide_eq_true_eq]
    exact rate_hit h.crit hw.2.1.2
  · simp only [decide_eq_true_eq]
    exact rate_hit h.dh hw.2.2.2

/-- The mean of an outcome. -/
def mid (r : DamageRow) (c d : Bool) : ℚ := ((plain r c d).low + (plain r c d).high) / 2

theorem mid_le {r r' : DamageRow} (hs : Sane r) (h : RowLe r r') {c d c' d' : Bool}
    (hc : c = true → c' = true) (hd : d = true → d' = true) : mid r c d ≤ mid r' c' d' := by
  have hb := hs.base
  have l0 : 0 ≤ lowInit r := npFloor_nonneg (by positivity)
  have h0 : 0 ≤ highInit r := npFloor_nonneg (by positivity)
  have l1 : lowInit r ≤ lowInit r' := npFloor_mono (by linarith [h.base])
  have h1 : highInit r ≤ highInit r' := npFloor_mono (by linarith [h.base])
  have a := afterSpread_le hs.bonus h.bonus hs.trait hs.mult h.mult l0 l1 hc hd
  have b := afterSpread_le hs.bonus h.bonus hs.trait hs.mult h.mult h0 h1 hc hd
  unfold mid plain
  simp only [h.trait]
  linarith

theorem mid_nonneg {r : DamageRow} (hs : Sane r) (c d : Bool) : 0 ≤ mid r c d := by
  have hb := hs.base
  have l0 : 0 ≤ lowInit r := npFloor_nonneg (by positivity)
  have h0 : 0 ≤ highInit r := npFloor_nonneg (by positivity)
  have a := afterSpread_nonneg (c := c) (d := d) hs.bonus hs.trait hs.mult l0
  have b := afterSpread_nonneg (c := c) (d := d) hs.bonus hs.trait hs.mult h0
  unfold mid plain
  simp only
  linarith

end DamageTracker

namespace DamageSimulator

open DamageTracker

/-- The expected damage of a row when no draw for the hits is zero. -/
def expectedRow (r : DamageRow) : ℚ :=
  (1 - r.critRate) * (1 - r.dhRate) * mid r false false + r.critRate * (1 - r.dhRate) * mid r true false +
    (1 - r.critRate) * r.dhRate * mid r false true + r.critRate * r.dhRate * mid r true true

theorem expectedOf_eq {r : DamageRow} {w : ℕ → Draw} (hv : ∀ k, Draw.Valid (w k))
    (hp : ∀ k, Draw.Positive (w k)) : expectedOf (rowRanges r w) = expectedRow r := by
  rw [rowRanges_eq hv hp]
  unfold expectedOf expectedRow mid
  simp only [List.map_cons, List.map_nil, List.sum_cons, List.sum_nil, add_zero, plain, probOf,
    Bool.false_eq_true, if_false, if_true]
  ring

theorem expectedRow_le {r r' : DamageRow} (hs : Sane r) (h : RowLe r r') (hc : IsProb r.critRate)
    (hd : IsProb r.dhRate) (hc' : IsProb r'.critRate) (hd' : IsProb r'.dhRate) :
    expectedRow r ≤ expectedRow r' := by
  have c1 : r.critRate ≤ r'.critRate := (le_min le_rfl hc.2).trans h.crit
  have d1 : r.dhRate ≤ r'.dhRate := (le_min le_rfl hd.2).trans h.dh
  have m := fun c d => mid_le hs h (c := c) (d := d) (c' := c) (d' := d) id id
  have s' : RowLe r r := ⟨le_rfl, le_rfl, min_le_left _ _, min_le_left _ _, rfl, le_rfl⟩
  have u1 := mid_le hs s' (c := false) (d := false) (c' := true) (d' := false) (by simp) id
  have u2 := mid_le hs s' (c := false) (d := true) (c' := true) (d' := true) (by simp) id
  have u3 := mid_le hs s' (c := false) (d := false) (c' := false) (d' := true) id (by simp)
  have u4 := mid_le hs s' (c := true) (d := false) (c' := true) (d' := true) id (by simp)
  have m00 := m false false
  have m10 := m true false
  have m01 := m false true
  have m11 := m true true
  unfold expectedRow
  obtain ⟨c0, c2⟩ := hc
  obtain ⟨d0, d2⟩ := hd
  obtain ⟨c0', c2'⟩ := hc'
  obtain ⟨d0', d2'⟩ := hd'
  generalize r.critRate = c at *
  generalize r.dhRate = d at *
  generalize r'.critRate = c' at *
  generalize r'.dhRate = d' at *
  generalize mid r false false = a00 at *
  generalize mid r true false = a10 at *
  generalize mid r false true = a01 at *
  generalize mid r true true = a11 at *
  have s1 : (1 - c) * (1 - d) * a00 + c * (1 - d) * a10 + (1 - c) * d * a01 + c * d * a11 ≤
      (1 - c') * (1 - d) * a00 + c' * (1 - d) * a10 + (1 - c') * d * a01 + c' * d * a11 := by
    have e1 := mul_nonneg (mul_nonneg (sub_nonneg.2 c1) (sub_nonneg.2 d2)) (sub_nonneg.2 u1)
    have e2 := mul_nonneg (mul_nonneg (sub_nonneg.2 c1) d0) (sub_nonneg.2 u2)
    linarith
  have s2 : (1 - c') * (1 - d) * a00 + c' * (1 - d) * a10 + (1 - c') * d * a01 + c' * d * a11 ≤
      (1 - c') * (1 - d') * a00 + c' * (1 - d') * a10 + (1 - c') * d' * a01 + c' * d' * a11 := by
    have e1 := mul_nonneg (mul_nonneg (sub_nonneg.2 d1) (sub_nonneg.2 c2')) (sub_nonneg.2 u3)
    have e2 := mul_nonneg (mul_nonneg (sub_nonneg.2 d1) c0') (sub_nonneg.2 u4)
    linarith
  refine s1.trans (s2.trans ?_)
  have k0 := mul_le_mul_of_nonneg_left m00 (mul_nonneg (sub_nonneg.2 c2') (sub_nonneg.2 d2'))
  have k1 := mul_le_mul_of_nonneg_left m10 (mul_nonneg c0' (sub_nonneg.2 d2'))
  have k2 := mul_le_mul_of_nonneg_left m01 (mul_nonneg (sub_nonneg.2 c2') d0')
  have k3 := mul_le_mul_of_nonneg_left m11 (mul_nonneg c0' d0')
  linarith

theorem expectedRow_nonneg {r : DamageRow} (hs : Sane r) (hc : IsProb r.critRate) (hd : IsProb r.dhRate) :
    0 ≤ expectedRow r := by
  have m := mid_nonneg hs
  have c0 := hc.1
  have d0 := hd.1
  have c1 := sub_nonneg.2 hc.2
  have d1 := sub_nonneg.2 hd.2
  have := m false false
  have := m true false
  have := m false true
  have := m true true
  unfold expectedRow
  positivity

theorem rowLe_of {raw raw' : RawStats} (hr : NoStronger raw raw') (hg : Grown raw) {stats stats' : Stats}
    (hs : mkStats raw = .ok stats) (hs' : mkStats raw' = .ok stats') {x x' : DamageInstance}
    (hx : NoWeakerHit x x') {r r' : DamageRow} (h : rowOf stats x = .ok r) (h' : rowOf stats' x' = .ok r') :
    RowLe r r' := by
  obtain ⟨b, dh, cr, bo, d, h1, h2, h3, rfl⟩ := rowOf_ok h
  obtain ⟨b', dh', cr', bo', d', h1', h2', h3', rfl⟩ := rowOf_ok h'
  obtain ⟨e, p', he, he', hp, hn, ht⟩ := hx.spec
  have hde : e = d := by
    rw [h3] at he
    cases he
    rfl
  subst hde
  have hde' : d' = { e with potency := p' } := by
    rw [h3'] at he'
    cases he'
    rfl
  subst hde'
  have hm := hx.modifier
  have le := statsLe_of hr hs hs'
  have q := mkStats_spec hs
  have q' := mkStats_spec hs'
  have hcrit := q'.crit
  have hdh := q'.dh
  rw [le.version, le.level] at hcrit hdh
  have c1 : stats.critStat ≤ stats'.critStat := by rw [q.critStat, q'.critStat]; exact hr.critStat.2
  have cm := ((C45_monotone le.supported c1 c1).1 _ _ q.crit hcrit)
  have dm := (C45_monotone le.supported le.dhStat.2 le.dhStat.2).2.1 _ _ q.dh hdh
  have r1 := C43_rates h3 h2
  have r2 := C43_rates h3' h2'
  rw [hm] at r2 h1' h3'
  have hb1 : NoWeaker (x.buffs, x.debuffs).1 (x'.buffs, x'.debuffs).1 := hx.buffs
  have hb2 : NoWeaker (x.buffs, x.debuffs).2 (x'.buffs, x'.debuffs).2 := hx.debuffs
  constructor
  · exact base_le hr hs hs' h3 h3' hp hn (effectsLe_of hb1 hb2 hs hg) h1 h1'
  · simp only
    rw [r1.2.2, r2.2.2]
    exact cm.2
  · refine rate_le r1.2.1 r2.2.1 ?_ (critYes_le hb1 hb2 e x.modifier) (critNo_iff hb1 hb2 e x.modifier)
    have := hx.buffs.critRateAdd.2
    have := hx.debuffs.critRateAdd.2
    have := cm.1
    simp only at this ⊢
    linarith
  · refine rate_le r1.1 r2.1 ?_ (dhYes_le hb1 hb2 e x.modifier) (dhNo_iff hb1 hb2 e x.modifier)
    have := hx.buffs.dhRateAdd.2
    have := hx.debuffs.dhRateAdd.2
    linarith
  · simp only
    rw [q.trait, q'.trait, le.version, le.jobClass]
  · exact mul_le_mul hx.buffs.damageMult.2 hx.debuffs.damageMult.2 hx.debuffs.damageMult.1
      (hx.buffs.damageMult.1.trans hx.buffs.damageMult.2)

theorem _root_.Ama.Spec.NoWeakerHit.mults {x x' : DamageInstance} (h : NoWeakerHit x x') : NonNegMults x := by
  obtain ⟨d, p, h1, -, -, -, h2⟩ := h.spec
  refine ⟨h.buffs.damageMult.1, h.debuffs.damageMult.1, fun d' t hd ht => ?_⟩
  rw [h1] at hd
  cases hd
  exact h2 t ht

theorem _root_.Ama.Spec.NoWeakerHit.mults' {x x' : DamageInstance} (h : NoWeakerHit x x') : NonNegMults x' := by
  obtain ⟨d, p, -, h1, -, -, h2⟩ := h.spec
  refine ⟨h.buffs.damageMult.1.trans h.buffs.damageMult.2, h.debuffs.damageMult.1.trans h.debuffs.damageMult.2,
    fun d' t hd ht => ?_⟩
  rw [h1] at hd
  cases hd
  exact h2 t ht

/-- The expected damage of an instance, 0 if it cannot be computed. -/
def expectedInst (stats : Stats) (x : DamageInstance) : ℚ :=
  match rowOf stats x with
  | .ok r => expectedRow r
  | .error _ => 0

theorem expectedInst_eq {stats : Stats} {x : DamageInstance} {r : DamageRow} (h : rowOf stats x = .ok r) :
    expectedInst stats x = expectedRow r := by
  unfold expectedInst
  rw [h]

theorem mapM_mem {α β : Type} {f : α → Py β} : ∀ {l : List α} {r : List β}, l.mapM f = .ok r →
    ∀ a ∈ l, ∃ b ∈ r, f a = .ok b
  | a :: l, r, h, x, hx => by
    rw [List.mapM_cons] at h
    obtain ⟨b', h1, h⟩ := Py.bind_eq_ok.1 h
    obtain ⟨bs, h2, h⟩ := Py.bind_eq_ok.1 h
    cases h
    rcases List.mem_cons.1 hx with rfl | hx
    · exact ⟨b', by simp, h1⟩
    · obtain ⟨b, hb, h⟩ := mapM_mem h2 x hx
      exact ⟨b, by simp [hb], h⟩

variable {stats : Stats} {l : List DamageInstance} {n : ℕ} {wr ws : ℕ → ℕ → Draw} {s : DamageSimulator}

theorem expected_eq (h : init stats l n wr ws = .ok s) (hv : ∀ i k, Draw.Valid (wr i k))
    (hp : ∀ i k, Draw.Positive (wr i k)) : s.getExpectedDamage = (l.map (expectedInst stats)).sum := by
  have b := built h
  unfold getExpectedDamage getExpectedDamagePerInstance
  rw [← (b.perm.map (expectedInst stats)).sum_eq, b.mean]
  congr 1
  refine List.ext_getElem? fun i => ?_
  rw [List.getElem?_mapIdx, List.getElem?_map]
  cases hrow : s.tracker.rows[i]? with
  | none =>
    have : s.instances[i]? = none := by
      rw [List.getElem?_eq_none_iff] at hrow ⊢
      rw [← b.length]
      exact hrow
    rw [this]
    rfl
  | some r =>
    obtain ⟨x, hx, hr⟩ := b.row hrow
    rw [hx]
    simp [expectedOf_eq (hv i) (hp i), expectedInst_eq hr]

theorem row_of_mem (h : init stats l n wr ws = .ok s) {x : DamageInstance} (hx : x ∈ l) :
    ∃ r ∈ s.tracker.rows, rowOf stats x = .ok r := by
  have b := built h
  exact mapM_mem b.rows x (b.perm.mem_iff.2 hx)

theorem sum_le_of_forall₂ {α : Type} {f g : α → ℚ} {R : α → α → Prop} :
    ∀ {l l' : List α}, List.Forall₂ R l l' → (∀ a ∈ l, ∀ b ∈ l', R a b → f a ≤ g b) →
    (l.map f).sum ≤ (l'.map g).sum
  | [], [], .nil, _ => le_rfl
  | a :: l, b :: l', .cons h1 h2, h => by
    simp only [List.map_cons, List.sum_cons]
    exact add_le_add (h a (by simp) b (by simp) h1)
      (sum_le_of_forall₂ h2 fun a ha b hb => h a (by simp [ha]) b (by simp [hb]))

end DamageSimulator

theorem forall₂_insertBy {α K : Type} [LinearOrder K] {key : α → K} {R : α → α → Prop}
    (hk : ∀ a b, R a b → key b = key a) {a b : α} (hab : R a b) :
    ∀ {l l' : List α}, List.Forall₂ R l l' → List.Forall₂ R (insertBy key a l) (insertBy key b l')
  | [], [], .nil => .cons hab .nil
  | c :: l, d :: l', .cons h1 h2 => by
    simp only [insertBy]
    rw [hk a b hab, hk c d h1]
    split_ifs
    · exact .cons hab (.cons h1 h2)
    · exact .cons h1 (forall₂_insertBy hk hab h2)

theorem forall₂_sortBy {α K : Type} [LinearOrder K] {key : α → K} {R : α → α → Prop}
    (hk : ∀ a b, R a b → key b = key a) :
    ∀ {l l' : List α}, List.Forall₂ R l l' → List.Forall₂ R (sortBy key l) (sortBy key l')
  | [], [], .nil => .nil
  | _ :: _, _ :: _, .cons h1 h2 => forall₂_insertBy hk h1 (forall₂_sortBy hk h2)

namespace DamageSimulator

open DamageTracker

theorem rows_forall₂ {f g : DamageInstance → Py DamageRow} {R : DamageInstance → DamageInstance → Prop}
    {Q : DamageRow → DamageRow → Prop}
    (hq : ∀ x x' r r', R x x' → f x = .ok r → g x' = .ok r' → Q r r') {l l' : List DamageInstance}
    (hl : List.Forall₂ R l l') : ∀ {rs rs' : List DamageRow}, l.mapM f = .ok rs →
      l'.mapM g = .ok rs' → List.Forall₂ Q rs rs' := by
  induction hl with
  | nil =>
    intro rs rs' h h'
    cases h
    cases h'
    exact .nil
  | @cons a b l l' h1 _ ih =>
    intro rs rs' h h'
    rw [List.mapM_cons] at h h'
    obtain ⟨r, k1, h⟩ := Py.bind_eq_ok.1 h
    obtain ⟨q, k2, h⟩ := Py.bind_eq_ok.1 h
    obtain ⟨r', k1', h'⟩ := Py.bind_eq_ok.1 h'
    obtain ⟨q', k2', h'⟩ := Py.bind_eq_ok.1 h'
    cases h
    cases h'
    exact .cons (hq a b r r' h1 k1 k1') (ih k2 k2')

theorem sum_mapIdx_le {Q : DamageRow → DamageRow → Prop} {l l' : List DamageRow} (hl : List.Forall₂ Q l l') :
    ∀ {f g : ℕ → DamageRow → ℚ}, (∀ i a b, Q a b → f i a ≤ g i b) → (l.mapIdx f).sum ≤ (l'.mapIdx g).sum := by
  induction hl with
  | nil => intro f g _; exact le_rfl
  | @cons a b l l' h1 _ ih =>
    intro f g h
    rw [List.mapIdx_cons, List.mapIdx_cons, List.sum_cons, List.sum_cons]
    exact add_le_add (h 0 a b h1) (ih fun i a b => h (i + 1) a b)

theorem map_mapIdx' {α β γ : Type} (f : ℕ → α → β) (g : β → γ) (l : List α) :
    (l.mapIdx f).map g = l.mapIdx fun i a => g (f i a) :=
  List.ext_getElem? fun i => by simp [Function.comp_def]

theorem fightTime_congr {l l' : List DamageInstance} (h : List.Forall₂ (fun x x' => x'.time = x.time) l l') :
    fightTime l' = fightTime l := by
  have hm : l'.map (·.time) = l.map (·.time) := by
    induction h with
    | nil => rfl
    | cons h1 _ ih => simp [h1, ih]
  have e : ∀ q : List DamageInstance, fightTime q =
      match (q.map (·.time)).head?, (q.map (·.time)).getLast? with
      | some a, some b => (b - a) / 1000
      | _, _ => 0 := by
    intro q
    unfold fightTime
    rw [List.head?_map, List.getLast?_map]
    cases q.head? <;> cases q.getLast? <;> rfl
  rw [e, e, hm]

end DamageSimulator

end Ama
