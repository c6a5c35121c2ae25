import Verif.Spec.Simulation
import Verif.Lemmas.BaseDamage
import Mathlib.Tactic.LinearCombination

/-!
# Lemmas about the damage tracker and the simulator
-/

namespace Ama

open Spec

namespace DamageTracker

theorem boolNum_nonneg (b : Bool) : 0 ≤ boolNum b := by cases b <;> simp [boolNum]

theorem boolNum_mono {a b : Bool} (h : a = true → b = true) : boolNum a ≤ boolNum b := by
  cases a <;> cases b <;> simp_all [boolNum]

/-- A bonus of a share of a number, rounded down. -/
theorem addShare_mono {x y c d : ℚ} (hx : 0 ≤ x) (h : x ≤ y) (hc : 0 ≤ c) (hcd : c ≤ d) :
    x + npFloor (x * c) ≤ y + npFloor (y * d) := by
  have : x * c ≤ y * d := mul_le_mul h hcd hc (hx.trans h)
  linarith [npFloor_mono this]

theorem addShare_nonneg {x c : ℚ} (hx : 0 ≤ x) (hc : 0 ≤ c) : 0 ≤ x + npFloor (x * c) := by
  have := npFloor_nonneg (mul_nonneg hx hc)
  linarith

/-- What happens to the base damage after it was spread. -/
def afterSpread (critBonus traitDamageMult damageMult total : ℚ) (crit dh : Bool) : ℚ :=
  let total := total + npFloor (total * (critBonus * boolNum crit))
  let total := total + npFloor (total * (GameConsts.DH_DAMAGE_MULT_BONUS * boolNum dh))
  npFloor (npFloor (total * traitDamageMult) * damageMult)

theorem getDamage_eq (base bonus cr dr trait mult range : ℚ) (w : Draw) :
    getDamage base bonus cr dr trait mult range w =
      (afterSpread bonus trait mult (npFloor (base * ((1 - range / 2) + range * w.spread)))
        (decide (w.crit ≤ cr)) (decide (w.dh ≤ dr)), decide (w.crit ≤ cr), decide (w.dh ≤ dr)) := rfl

theorem afterSpread_mono {bonus trait mult x y : ℚ} {c d c' d' : Bool} (hb : 0 ≤ bonus)
    (ht : 0 ≤ trait) (hm : 0 ≤ mult) (hx : 0 ≤ x) (h : x ≤ y) (hc : c = true → c' = true)
    (hd : d = true → d' = true) :
    afterSpread bonus trait mult x c d ≤ afterSpread bonus trait mult y c' d' := by
  unfold afterSpread
  have c0 := mul_nonneg hb (boolNum_nonneg c)
  have c1 : bonus * boolNum c ≤ bonus * boolNum c' := mul_le_mul_of_nonneg_left (boolNum_mono hc) hb
  have d0 : (0 : ℚ) ≤ GameConsts.DH_DAMAGE_MULT_BONUS := by norm_num [GameConsts.DH_DAMAGE_MULT_BONUS]
  have d1 := mul_nonneg d0 (boolNum_nonneg d)
  have d2 := mul_le_mul_of_nonneg_left (boolNum_mono hd) d0
  have e1 := addShare_mono hx h c0 c1
  have e0 := addShare_nonneg hx c0
  have f1 := addShare_mono e0 e1 d1 d2
  exact npFloor_mono (mul_le_mul_of_nonneg_right (npFloor_mono (mul_le_mul_of_nonneg_right f1 ht)) hm)

theorem afterSpread_nonneg {bonus trait mult x : ℚ} {c d : Bool} (hb : 0 ≤ bonus)
    (ht : 0 ≤ trait) (hm : 0 ≤ mult) (hx : 0 ≤ x) : 0 ≤ afterSpread bonus trait mult x c d := by
  have := afterSpread_mono (x := 0) (c := false) (d := false) (c' := c) (d' := d) hb ht hm le_rfl hx
    (by simp) (by simp)
  refine le_trans ?_ this
  simp [afterSpread, npFloor]

/-- The initial damage for the low and the high bound. -/
def lowInit (r : DamageRow) : ℚ := npFloor (95 / 100 * r.baseDamage)
/-- The initial damage for the low and the high bound. -/
def highInit (r : DamageRow) : ℚ := npFloor (105 / 100 * r.baseDamage)

theorem npFloor_npFloor (x : ℚ) : npFloor (npFloor x) = npFloor x := npFloor_int _

theorem bound_eq (r : DamageRow) (x cr dr : ℚ) (w : Draw) :
    bound r (npFloor x) cr dr w = afterSpread r.critBonus r.traitDamageMult r.damageMult (npFloor x)
      (decide (w.crit ≤ cr)) (decide (w.dh ≤ dr)) := by
  unfold bound
  rw [getDamage_eq]
  simp [npFloor_npFloor]

/-- The outcome of a row when no draw for the hits is zero. -/
def plain (r : DamageRow) (c d : Bool) : OutcomeRange where
  low := afterSpread r.critBonus r.traitDamageMult r.damageMult (lowInit r) c d
  high := afterSpread r.critBonus r.traitDamageMult r.damageMult (highInit r) c d
  probability := probOf c r.critRate * probOf d r.dhRate

theorem rowRanges_eq {r : DamageRow} {w : ℕ → Draw} (hv : ∀ k, Draw.Valid (w k))
    (hp : ∀ k, Draw.Positive (w k)) :
    rowRanges r w = [plain r false false, plain r true false, plain r false true, plain r true true] := by
  have h1 : ∀ k, decide ((w k).crit ≤ 0) = false := fun k => by simpa using (hp k).1
  have h2 : ∀ k, decide ((w k).dh ≤ 0) = false := fun k => by simpa using (hp k).2
  have h3 : ∀ k, decide ((w k).crit ≤ 1) = true := fun k => by simpa using (hv k).2.1.2.le
  have h4 : ∀ k, decide ((w k).dh ≤ 1) = true := fun k => by simpa using (hv k).2.2.2.le
  unfold rowRanges
  simp only [bound_eq, h1, h2, h3, h4]
  rfl

theorem rowRanges_get {r : DamageRow} {w : ℕ → Draw} (hv : ∀ k, Draw.Valid (w k))
    (hp : ∀ k, Draw.Positive (w k)) (c d : Bool) :
    (rowRanges r w)[place c d]? = some (plain r c d) := by
  rw [rowRanges_eq hv hp]
  cases c <;> cases d <;> rfl

theorem rowRanges_probs (r : DamageRow) (w : ℕ → Draw) :
    (rowRanges r w).map (·.probability) =
      [probOf false r.critRate * probOf false r.dhRate, probOf true r.critRate * probOf false r.dhRate,
       probOf false r.critRate * probOf true r.dhRate, probOf true r.critRate * probOf true r.dhRate] :=
  rfl

/-- Rows whose damage is monotone in the draws. -/
structure Sane (r : DamageRow) : Prop where
  base : 0 ≤ r.baseDamage
  bonus : 0 ≤ r.critBonus
  trait : 0 ≤ r.traitDamageMult
  mult : 0 ≤ r.damageMult

theorem sample_between {r : DamageRow} (h : Sane r) {w : Draw} (hw : Draw.Valid w) :
    let x := getDamage r.baseDamage r.critBonus r.critRate r.dhRate r.traitDamageMult r.damageMult
      (1 / 10) w
    (plain r x.2.1 x.2.2).low ≤ x.1 ∧ x.1 ≤ (plain r x.2.1 x.2.2).high := by
  simp only [getDamage_eq]
  have hb := h.base
  have h1 : 95 / 100 * r.baseDamage ≤ r.baseDamage * (1 - 1 / 10 / 2 + 1 / 10 * w.spread) := by
    have := mul_nonneg hb hw.1.1
    linarith
  have h2 : r.baseDamage * (1 - 1 / 10 / 2 + 1 / 10 * w.spread) ≤ 105 / 100 * r.baseDamage := by
    have := mul_nonneg hb (sub_nonneg.2 hw.1.2.le)
    linarith
  have h0 : 0 ≤ lowInit r := npFloor_nonneg (by positivity)
  refine ⟨afterSpread_mono h.bonus h.trait h.mult h0 (npFloor_mono h1) id id, ?_⟩
  exact afterSpread_mono h.bonus h.trait h.mult (h0.trans (npFloor_mono h1)) (npFloor_mono h2) id id

theorem plain_le {r : DamageRow} (h : Sane r) (c d : Bool) : (plain r c d).low ≤ (plain r c d).high := by
  have h0 : 0 ≤ lowInit r := npFloor_nonneg (by have := h.base; positivity)
  refine afterSpread_mono h.bonus h.trait h.mult h0 (npFloor_mono ?_) id id
  have := h.base
  linarith

end DamageTracker

namespace DamageSimulator

open DamageTracker

theorem mapM_length {α β : Type} {f : α → Py β} : ∀ {l : List α} {r : List β}, l.mapM f = .ok r →
    r.length = l.length
  | [], r, h => by cases h; rfl
  | a :: l, r, h => by
    rw [List.mapM_cons] at h
    obtain ⟨b, -, h⟩ := Py.bind_eq_ok.1 h
    obtain ⟨bs, h2, h⟩ := Py.bind_eq_ok.1 h
    cases h
    simp [mapM_length h2]

theorem mapM_get {α β : Type} {f : α → Py β} : ∀ {l : List α} {r : List β}, l.mapM f = .ok r →
    ∀ {i : ℕ} {b : β}, r[i]? = some b → ∃ a, l[i]? = some a ∧ f a = .ok b
  | [], r, h, i, b, hb => by cases h; simp at hb
  | a :: l, r, h, i, b, hb => by
    rw [List.mapM_cons] at h
    obtain ⟨b', h1, h⟩ := Py.bind_eq_ok.1 h
    obtain ⟨bs, h2, h⟩ := Py.bind_eq_ok.1 h
    cases h
    cases i with
    | zero => simp at hb; exact ⟨a, rfl, hb ▸ h1⟩
    | succ i => exact mapM_get h2 (i := i) (by simpa using hb)

theorem mapM_ok {α β : Type} {f : α → Py β} : ∀ {l : List α}, (∀ a ∈ l, ∃ b, f a = .ok b) →
    ∃ r, l.mapM f = .ok r
  | [], _ => ⟨[], rfl⟩
  | a :: l, h => by
    obtain ⟨b, hb⟩ := h a (by simp)
    obtain ⟨r, hr⟩ := mapM_ok (f := f) (l := l) (fun x hx => h x (by simp [hx]))
    refine ⟨b :: r, ?_⟩
    rw [List.mapM_cons, hb, Py.ok_bind, hr]
    rfl

/-- One step of the loop. -/
def fillStep (stats : Stats) (dt : DamageTracker) (x : DamageInstance) : Py DamageTracker := do
  let r ← rowOf stats x
  dt.addDamage r

theorem fill_eq (stats : Stats) (l : List DamageInstance) :
    fill stats l = l.foldlM (fillStep stats) {} := rfl

theorem fill_ok {stats : Stats} : ∀ {l : List DamageInstance} {dt dt' : DamageTracker},
    dt.isFinalized = false → l.foldlM (fillStep stats) dt = .ok dt' →
    ∃ rows, l.mapM (rowOf stats) = .ok rows ∧ dt' = { dt with rows := dt.rows ++ rows } ∧
      (l ≠ [] → dt.rows.length + rows.length ≤ capacity)
  | [], dt, dt', _, h => by
    cases h
    exact ⟨[], rfl, by simp, by simp⟩
  | x :: l, dt, dt', hf, h => by
    rw [List.foldlM_cons] at h
    obtain ⟨d1, h1, h⟩ := Py.bind_eq_ok.1 h
    obtain ⟨r, hr, h1⟩ := Py.bind_eq_ok.1 h1
    unfold addDamage at h1
    rw [hf] at h1
    simp only [Bool.false_eq_true, if_false] at h1
    split_ifs at h1 with hc
    cases h1
    obtain ⟨rows, h2, h3, h4⟩ := fill_ok (by simp) h
    refine ⟨r :: rows, ?_, ?_, ?_⟩
    · rw [List.mapM_cons, hr, Py.ok_bind, h2]
      rfl
    · rw [h3]
      simp [hf]
    · intro _
      cases l with
      | nil =>
        cases h2
        simp at hc ⊢
        omega
      | cons y l =>
        have := h4 (by simp)
        simp at this ⊢
        omega

theorem fill_total {stats : Stats} : ∀ {l : List DamageInstance} {dt : DamageTracker}
    {rows : List DamageRow}, dt.isFinalized = false → l.mapM (rowOf stats) = .ok rows →
    dt.rows.length + rows.length ≤ capacity →
    l.foldlM (fillStep stats) dt = .ok { dt with rows := dt.rows ++ rows }
  | [], dt, rows, _, h, _ => by
    cases h
    simp
  | x :: l, dt, rows, hf, h, hc => by
    rw [List.mapM_cons] at h
    obtain ⟨r, h1, h⟩ := Py.bind_eq_ok.1 h
    obtain ⟨rs, h2, h⟩ := Py.bind_eq_ok.1 h
    cases h
    simp at hc
    have : fillStep stats dt x = .ok { dt with rows := dt.rows ++ [r] } := by
      unfold fillStep addDamage
      rw [h1, Py.ok_bind, hf, if_neg (by simp), if_neg (by omega)]
    rw [List.foldlM_cons, this, Py.ok_bind, fill_total (by simpa using hf) h2 (by simp; omega)]
    simp

theorem fill_overflow {stats : Stats} : ∀ {l : List DamageInstance} {dt : DamageTracker}
    {rows : List DamageRow}, dt.isFinalized = false → l.mapM (rowOf stats) = .ok rows →
    dt.rows.length ≤ capacity → capacity < dt.rows.length + rows.length →
    l.foldlM (fillStep stats) dt = .error .indexError
  | [], dt, rows, _, h, h0, hc => by
    cases h
    simp at hc
    omega
  | x :: l, dt, rows, hf, h, h0, hc => by
    rw [List.mapM_cons] at h
    obtain ⟨r, h1, h⟩ := Py.bind_eq_ok.1 h
    obtain ⟨rs, h2, h⟩ := Py.bind_eq_ok.1 h
    cases h
    simp at hc
    by_cases hd : capacity ≤ dt.rows.length
    · have : fillStep stats dt x = .error .indexError := by
        unfold fillStep addDamage
        rw [h1, Py.ok_bind, hf, if_neg (by simp), if_pos hd]
      rw [List.foldlM_cons, this]
      rfl
    · have : fillStep stats dt x = .ok { dt with rows := dt.rows ++ [r] } := by
        unfold fillStep addDamage
        rw [h1, Py.ok_bind, hf, if_neg (by simp), if_neg hd]
      rw [List.foldlM_cons, this, Py.ok_bind]
      exact fill_overflow (by simpa using hf) h2 (by simp; omega) (by simp; omega)

/-- The simulator made from sorted instances and their rows. -/
def made (instances : List DamageInstance) (rows : List DamageRow) (numSamples : ℕ)
    (wr ws : ℕ → ℕ → Draw) : DamageSimulator :=
  let rs := rows.mapIdx fun i r => rowRanges r (wr i)
  let m := rows.mapIdx fun i r => (List.range numSamples).map fun j =>
      getDamage r.baseDamage r.critBonus r.critRate r.dhRate r.traitDamageMult r.damageMult (1 / 10)
        (ws i j)
  { instances := instances
    tracker := { rows := rows, isFinalized := true }
    targets := instances.map (·.target)
    eventIds := instances.map (·.eventId)
    mean := rs.map expectedOf
    variance := (rs.map varianceOf).map sqrtSq
    matrix := m
    sampledDamage := sampleSums numSamples m
    sampledDps := dpsOf (sampleSums numSamples m) (fightTime instances) }

theorem init_ok {stats : Stats} {l : List DamageInstance} {n : ℕ} {wr ws : ℕ → ℕ → Draw}
    {s : DamageSimulator} (h : init stats l n wr ws = .ok s) :
    ∃ rows, (sortBy (·.time) l).mapM (rowOf stats) = .ok rows ∧ l ≠ [] ∧ rows.length ≤ capacity ∧
      s = made (sortBy (·.time) l) rows n wr ws := by
  unfold init at h
  obtain ⟨dt, h1, h⟩ := Py.bind_eq_ok.1 h
  rw [fill_eq] at h1
  obtain ⟨rows, h2, rfl, h3⟩ := fill_ok rfl h1
  simp only [List.nil_append, finalize, ranges, computeDamage, if_true, Py.ok_bind,
    expectedAndVariance] at h
  by_cases he : (rows.mapIdx fun i r => rowRanges r (wr i)).isEmpty
  · rw [if_pos he] at h
    cases h
  · rw [if_neg he] at h
    cases h
    have hne : l ≠ [] := by
      rintro rfl
      have := mapM_length h2
      simp [sortBy] at this
      simp [this] at he
    refine ⟨rows, h2, hne, ?_, rfl⟩
    have := h3 (by
      intro e
      have hp := sortBy_perm (key := DamageInstance.time) l
      rw [e] at hp
      exact hne (List.nil_perm.1 hp))
    simpa using this

theorem init_total {stats : Stats} {l : List DamageInstance} {rows : List DamageRow}
    (hr : (sortBy (·.time) l).mapM (rowOf stats) = .ok rows) (hl : l ≠ []) (hc : rows.length ≤ capacity)
    (n : ℕ) (wr ws : ℕ → ℕ → Draw) :
    init stats l n wr ws = .ok (made (sortBy (·.time) l) rows n wr ws) := by
  unfold init
  simp only []
  rw [fill_eq, fill_total rfl hr (by simpa using hc)]
  simp only [List.nil_append, finalize, ranges, computeDamage, if_true, Py.ok_bind,
    expectedAndVariance]
  have hn : rows ≠ [] := by
    rintro rfl
    have := mapM_length hr
    rw [(sortBy_perm _ l).length_eq] at this
    exact hl (List.length_eq_zero_iff.1 this.symm)
  rw [if_neg (by simpa using hn)]
  rfl

theorem rowOf_ok {stats : Stats} {x : DamageInstance} {r : DamageRow} (h : rowOf stats x = .ok r) :
    ∃ b dh crit bonus d,
      ComputeDamage.getBaseDamage x.skill x.modifier stats (x.buffs, x.debuffs) = .ok (some b) ∧
      ComputeDamage.critRatesAndBonuses stats x.skill x.modifier (x.buffs, x.debuffs) =
        .ok (dh, crit, bonus) ∧
      x.skill.getDamageSpec x.modifier = .ok (some d) ∧
      r = { baseDamage := b, critRate := crit, critBonus := bonus, dhRate := dh,
            traitDamageMult := d.traitDamageMultOverride.getD stats.processed.traitDamageMult,
            damageMult := ComputeDamage.computeDamageMult (x.buffs, x.debuffs),
            time := x.time, potency := d.potency, withCondition := x.modifier.withCondition,
            statusEffects := (x.buffs, x.debuffs), damageClass := d.damageClass } := by
  unfold rowOf at h
  obtain ⟨o, h1, h⟩ := Py.bind_eq_ok.1 h
  cases o with
  | none => cases h
  | some b =>
    obtain ⟨⟨dh, cr, bo⟩, h2, h⟩ := Py.bind_eq_ok.1 h
    obtain ⟨d, h3, h⟩ := Py.bind_eq_ok.1 h
    cases h
    unfold ComputeDamage.specOf at h3
    obtain ⟨o, h4, h3⟩ := Py.bind_eq_ok.1 h3
    cases o with
    | none => cases h3
    | some d' =>
      cases h3
      exact ⟨b, dh, cr, bo, d, h1, h2, h4, rfl⟩

theorem rowOf_total {stats : Stats} {x : DamageInstance} (h : Computable stats x) :
    ∃ r, rowOf stats x = .ok r := by
  obtain ⟨⟨b, hb⟩, ⟨⟨dh, cr, bo⟩, hr⟩⟩ := h
  have hd : ∃ d, ComputeDamage.specOf x.skill x.modifier = .ok d := by
    unfold ComputeDamage.critRatesAndBonuses at hr
    obtain ⟨d, h, -⟩ := Py.bind_eq_ok.1 hr
    exact ⟨d, h⟩
  obtain ⟨d, hd⟩ := hd
  unfold rowOf
  simp only [hb, Py.ok_bind, hr, hd]
  exact ⟨_, rfl⟩

theorem critBonus_of {stats : Stats} {skill : Skill} {m : SkillModifier}
    {se : StatusEffects × StatusEffects} {dh cr bo : ℚ}
    (h : ComputeDamage.critRatesAndBonuses stats skill m se = .ok (dh, cr, bo)) :
    bo = stats.processed.critBonus := by
  unfold ComputeDamage.critRatesAndBonuses at h
  obtain ⟨d, -, h⟩ := Py.bind_eq_ok.1 h
  split_ifs at h
  cases h
  rfl

end DamageSimulator

end Ama

namespace Ama.DamageSimulator

open Spec DamageTracker

section Made

variable {stats : Stats} {l : List DamageInstance} {n : ℕ} {wr ws : ℕ → ℕ → Draw} {s : DamageSimulator}

/-- A simulator that was made without exception, place by place. -/
structure Built (stats : Stats) (l : List DamageInstance) (n : ℕ) (wr ws : ℕ → ℕ → Draw)
    (s : DamageSimulator) : Prop where
  finalized : s.tracker.isFinalized = true
  instances : s.instances = sortBy (·.time) l
  rows : s.instances.mapM (rowOf stats) = .ok s.tracker.rows
  mean : s.mean = s.tracker.rows.mapIdx fun i r => expectedOf (rowRanges r (wr i))
  variance : s.variance = s.tracker.rows.mapIdx fun i r => sqrtSq (varianceOf (rowRanges r (wr i)))
  matrix : s.matrix = s.tracker.rows.mapIdx fun i r => (List.range n).map fun j =>
      getDamage r.baseDamage r.critBonus r.critRate r.dhRate r.traitDamageMult r.damageMult (1 / 10)
        (ws i j)
  sums : s.sampledDamage = sampleSums n s.matrix
  dps : s.sampledDps = dpsOf s.sampledDamage (fightTime s.instances)
  ids : s.eventIds = s.instances.map (·.eventId)

theorem built (h : init stats l n wr ws = .ok s) : Built stats l n wr ws s := by
  obtain ⟨rows, h1, h2, h3, rfl⟩ := init_ok h
  exact ⟨rfl, rfl, h1, by
      simp only [made]
      exact List.ext_getElem? fun i => by simp [Function.comp_def], by
      simp only [made]
      exact List.ext_getElem? fun i => by simp [Function.comp_def], rfl, rfl,
    rfl, rfl⟩

variable (b : Built stats l n wr ws s)

include b

theorem Built.length : s.tracker.rows.length = s.instances.length := mapM_length b.rows

theorem Built.perm : s.instances.Perm l := by
  rw [b.instances]
  exact sortBy_perm _ l

theorem Built.row {i : ℕ} {r : DamageRow} (h : s.tracker.rows[i]? = some r) :
    ∃ x, s.instances[i]? = some x ∧ rowOf stats x = .ok r := mapM_get b.rows h

theorem Built.ranges (w : ℕ → ℕ → Draw) :
    s.getDamageRanges w = .ok ((s.instances.map (·.skill.name)).zip
      (s.tracker.rows.mapIdx fun i r => rowRanges r (w i))) := by
  unfold getDamageRanges DamageTracker.ranges
  rw [b.finalized]
  rfl

theorem Built.ranges_get {w : ℕ → ℕ → Draw} {rs : List (String × List OutcomeRange)}
    (hr : s.getDamageRanges w = .ok rs) {i : ℕ} {name : String} {os : List OutcomeRange}
    (hi : rs[i]? = some (name, os)) :
    ∃ x r, s.instances[i]? = some x ∧ s.tracker.rows[i]? = some r ∧ rowOf stats x = .ok r ∧
      name = x.skill.name ∧ os = rowRanges r (w i) := by
  rw [b.ranges w] at hr
  cases hr
  rw [List.getElem?_zip_eq_some] at hi
  obtain ⟨h1, h2⟩ := hi
  rw [List.getElem?_mapIdx] at h2
  cases hrow : s.tracker.rows[i]? with
  | none => rw [hrow] at h2; cases h2
  | some r =>
    rw [hrow] at h2
    cases h2
    obtain ⟨x, hx, hrx⟩ := b.row hrow
    rw [List.getElem?_map, hx] at h1
    cases h1
    exact ⟨x, r, hx, rfl, hrx, rfl, rfl⟩

end Made

theorem traitDamageMult_pos (version jobClass : String) :
    0 < JobClassFns.traitDamageMult version jobClass := by
  unfold JobClassFns.traitDamageMult
  split_ifs <;> norm_num

theorem sane_of {raw : RawStats} {stats : Stats} (hs : mkStats raw = .ok stats) (hc : 0 ≤ raw.critStat)
    {x : DamageInstance} (hx : NonNegMults x) {r : DamageRow} (h : rowOf stats x = .ok r) : Sane r := by
  obtain ⟨b, dh, cr, bo, d, h1, h2, h3, rfl⟩ := rowOf_ok h
  have p := mkStats_spec hs
  constructor
  · simp only
    unfold ComputeDamage.getBaseDamage at h1
    rw [h3, Py.ok_bind] at h1
    simp only at h1
    split_ifs at h1
    · cases h1
      exact le_rfl
    · obtain ⟨y, -, h1⟩ := Py.bind_eq_ok.1 h1
      cases h1
      exact zero_le_one.trans (le_max_right _ _)
  · simp only
    rw [critBonus_of h2]
    have := critBonus_nonneg (StatFns.supported_crit p.crit) (p.critStat ▸ hc) p.crit
    exact this
  · simp only
    cases ho : d.traitDamageMultOverride with
    | none =>
      simp only [Option.getD_none]
      rw [p.trait]
      exact (traitDamageMult_pos _ _).le
    | some t => exact hx.2.2 d t h3 ho
  · exact mul_nonneg hx.1 hx.2.1

end Ama.DamageSimulator

namespace Ama.DamageSimulator

open Spec DamageTracker

theorem varianceOf_eq (os : List OutcomeRange) :
    varianceOf os = (os.map fun o => o.probability * secondMoment o.low o.high).sum - expectedOf os ^ 2 := by
  unfold varianceOf
  have : (os.map fun o => o.probability * secondMoment o.low o.high).sum =
      (os.map fun o => o.probability * (o.high - o.low) ^ 2).sum / 12 +
        (os.map fun o => o.probability * ((o.low + o.high) / 2) ^ 2).sum := by
    induction os with
    | nil => simp
    | cons o os ih =>
      simp only [List.map_cons, List.sum_cons]
      rw [ih, show secondMoment o.low o.high = (o.high - o.low) ^ 2 / 12 + ((o.low + o.high) / 2) ^ 2 by
        unfold secondMoment; ring]
      ring
  rw [this]
  ring

theorem probOf_nonneg {p : ℚ} (h : IsProb p) (b : Bool) : 0 ≤ probOf b p := by
  cases b
  · simpa [probOf] using h.2
  · exact h.1

/-- Jensen for four numbers. -/
theorem jensen4 {p q r t a b c d : ℚ} (hp : 0 ≤ p) (hq : 0 ≤ q) (hr : 0 ≤ r) (ht : 0 ≤ t)
    (h : p + q + r + t = 1) :
    (p * a + (q * b + (r * c + t * d))) ^ 2 ≤ p * a ^ 2 + (q * b ^ 2 + (r * c ^ 2 + t * d ^ 2)) := by
  set m := p * a + (q * b + (r * c + t * d)) with hm
  have k : 0 ≤ p * (a - m) ^ 2 + q * (b - m) ^ 2 + r * (c - m) ^ 2 + t * (d - m) ^ 2 := by positivity
  have e : p * (a - m) ^ 2 + q * (b - m) ^ 2 + r * (c - m) ^ 2 + t * (d - m) ^ 2 =
      p * a ^ 2 + q * b ^ 2 + r * c ^ 2 + t * d ^ 2 - 2 * m * m + (p + q + r + t) * m ^ 2 := by
    rw [hm]
    ring
  rw [e, h] at k
  nlinarith

theorem varianceOf_nonneg {r : DamageRow} {w : ℕ → Draw} (hc : IsProb r.critRate) (hd : IsProb r.dhRate) :
    0 ≤ varianceOf (rowRanges r w) := by
  have c0 := probOf_nonneg hc false
  have c1 := probOf_nonneg hc true
  have d0 := probOf_nonneg hd false
  have d1 := probOf_nonneg hd true
  simp only [probOf, Bool.false_eq_true, if_false, if_true] at c0 c1 d0 d1
  unfold varianceOf expectedOf rowRanges
  simp only [List.map_cons, List.map_nil, List.sum_cons, List.sum_nil, add_zero]
  have p0 := mul_nonneg c0 d0
  have p1 := mul_nonneg c1 d0
  have p2 := mul_nonneg c0 d1
  have p3 := mul_nonneg c1 d1
  refine add_nonneg (by positivity) ?_
  rw [sub_nonneg]
  exact jensen4 p0 p1 p2 p3 (by ring)

theorem bound_between {r : DamageRow} (h : Sane r) {x cr dr : ℚ} {w : Draw}
    (h0 : 95 / 100 * r.baseDamage ≤ x) (h1 : x ≤ 105 / 100 * r.baseDamage) :
    (plain r false false).low ≤ bound r (npFloor x) cr dr w ∧
      bound r (npFloor x) cr dr w ≤ (plain r true true).high := by
  rw [bound_eq]
  have hb := h.base
  have l0 : 0 ≤ lowInit r := npFloor_nonneg (by positivity)
  exact ⟨afterSpread_mono h.bonus h.trait h.mult l0 (npFloor_mono h0) (by simp) (by simp),
    afterSpread_mono h.bonus h.trait h.mult (l0.trans (npFloor_mono h0)) (npFloor_mono h1) (by simp) (by simp)⟩

theorem expectedOf_between {r : DamageRow} (h : Sane r) {w : ℕ → Draw}
    (hc : IsProb r.critRate) (hd : IsProb r.dhRate) :
    (plain r false false).low ≤ expectedOf (rowRanges r w) ∧
      expectedOf (rowRanges r w) ≤ (plain r true true).high := by
  have c0 := probOf_nonneg hc false
  have c1 := probOf_nonneg hc true
  have d0 := probOf_nonneg hd false
  have d1 := probOf_nonneg hd true
  simp only [probOf, Bool.false_eq_true, if_false, if_true] at c0 c1 d0 d1
  have hb := h.base
  have L := fun cr dr w => bound_between h (x := 95 / 100 * r.baseDamage) (cr := cr) (dr := dr) (w := w)
    le_rfl (by linarith)
  have H := fun cr dr w => bound_between h (x := 105 / 100 * r.baseDamage) (cr := cr) (dr := dr) (w := w)
    (by linarith) le_rfl
  generalize (plain r false false).low = lo at L H ⊢
  generalize (plain r true true).high = hi at L H ⊢
  unfold expectedOf rowRanges
  simp only [List.map_cons, List.map_nil, List.sum_cons, List.sum_nil, add_zero]
  have p0 := mul_nonneg c0 d0
  have p1 := mul_nonneg c1 d0
  have p2 := mul_nonneg c0 d1
  have p3 := mul_nonneg c1 d1
  have e : (1 - r.critRate) * (1 - r.dhRate) + r.critRate * (1 - r.dhRate) + (1 - r.critRate) * r.dhRate +
    r.critRate * r.dhRate = 1 := by ring
  have key : ∀ {p a b : ℚ}, 0 ≤ p → lo ≤ a ∧ a ≤ hi → lo ≤ b ∧ b ≤ hi →
      p * lo ≤ p * ((a + b) / 2) ∧ p * ((a + b) / 2) ≤ p * hi := fun hp ha hb =>
    ⟨mul_le_mul_of_nonneg_left (by linarith [ha.1, hb.1]) hp,
      mul_le_mul_of_nonneg_left (by linarith [ha.2, hb.2]) hp⟩
  have k0 := key p0 (L 0 0 (w 0)) (H 0 0 (w 1))
  have k1 := key p1 (L 1 0 (w 2)) (H 1 0 (w 3))
  have k2 := key p2 (L 0 1 (w 4)) (H 0 1 (w 5))
  have k3 := key p3 (L 1 1 (w 6)) (H 1 1 (w 7))
  generalize (1 - r.critRate) * (1 - r.dhRate) = P0 at *
  generalize r.critRate * (1 - r.dhRate) = P1 at *
  generalize (1 - r.critRate) * r.dhRate = P2 at *
  generalize r.critRate * r.dhRate = P3 at *
  have e1 : lo = P0 * lo + P1 * lo + P2 * lo + P3 * lo := by linear_combination (-lo) * e
  have e2 : hi = P0 * hi + P1 * hi + P2 * hi + P3 * hi := by linear_combination (-hi) * e
  constructor
  · linarith [k0.1, k1.1, k2.1, k3.1]
  · linarith [k0.2, k1.2, k2.2, k3.2]

end Ama.DamageSimulator

namespace Ama.DamageSimulator

open Spec DamageTracker

theorem fightTime_eq {l : List DamageInstance} {first last : DamageInstance} (hf : first ∈ l)
    (hl : last ∈ l) (hb : ∀ x ∈ l, first.time ≤ x.time ∧ x.time ≤ last.time) :
    fightTime (sortBy (·.time) l) = (last.time - first.time) / 1000 := by
  have hp := sortBy_perm (key := DamageInstance.time) l
  have hs := sortBy_sorted (key := DamageInstance.time) l
  generalize sortBy (fun x : DamageInstance => x.time) l = q at hp hs ⊢
  have hf' := hp.mem_iff.2 hf
  have hl' := hp.mem_iff.2 hl
  cases q with
  | nil => cases hf'
  | cons a q =>
    have h1 : a.time = first.time := by
      refine le_antisymm ?_ (hb a (hp.mem_iff.1 (by simp))).1
      rcases List.mem_cons.1 hf' with rfl | h
      · exact le_rfl
      · exact (List.pairwise_cons.1 hs).1 _ h
    have hne : a :: q ≠ [] := by simp
    have h2 : ((a :: q).getLast hne).time = last.time := by
      refine le_antisymm (hb _ (hp.mem_iff.1 (List.getLast_mem hne))).2 ?_
      have hd := List.dropLast_append_getLast hne
      rw [← hd] at hs hl'
      rcases List.mem_append.1 hl' with h | h
      · exact (List.pairwise_append.1 hs).2.2 _ h _ (by simp)
      · rw [List.mem_singleton.1 h]
    unfold fightTime
    rw [List.getLast?_eq_some_getLast hne]
    simp only [List.head?_cons]
    rw [h1, h2]

/-- The number of evenly spaced draws that are hits. -/
theorem hits_count {p : ℚ} (hp : IsProb p) {n : ℕ} (hn : 0 < n) (hit : Bool) :
    |(((List.range n).filter fun k : ℕ => decide (decide ((k : ℚ) / n ≤ p) = hit)).length : ℚ) - probOf hit p * n|
      ≤ 1 := by
  have hn' : (0 : ℚ) < n := by exact_mod_cast hn
  have h0 : 0 ≤ p * n := mul_nonneg hp.1 hn'.le
  have h1 : p * n ≤ n := by nlinarith [hp.2]
  have hfl : 0 ≤ ⌊p * n⌋ := Int.floor_nonneg.2 h0
  obtain ⟨m, hm⟩ := Int.eq_ofNat_of_zero_le hfl
  have hm1 : (m : ℚ) ≤ p * n := by
    have := Int.floor_le (p * n)
    rw [hm] at this
    exact_mod_cast this
  have hm2 : p * n < m + 1 := by
    have := Int.lt_floor_add_one (p * n)
    rw [hm] at this
    exact_mod_cast this
  have hmn : m ≤ n := by exact_mod_cast hm1.trans h1
  have hiff : ∀ k : ℕ, ((k : ℚ) / n ≤ p) ↔ k < m + 1 := by
    intro k
    rw [div_le_iff₀ hn']
    constructor
    · intro h
      have : (k : ℚ) < m + 1 := h.trans_lt hm2
      exact_mod_cast this
    · intro h
      have : k ≤ m := by omega
      exact le_trans (by exact_mod_cast this) hm1
  have hcount : ∀ t, ((List.range t).filter fun k : ℕ => decide (k < m + 1)).length = min t (m + 1) := by
    intro t
    induction t with
    | zero => simp
    | succ t ih =>
      rw [List.range_succ, List.filter_append, List.length_append, ih]
      by_cases h : t < m + 1
      · simp [h]; omega
      · simp [h]; omega
  have htrue : ((List.range n).filter fun k : ℕ => decide ((k : ℚ) / n ≤ p)).length = min n (m + 1) := by
    rw [← hcount n]
    congr 1
    exact List.filter_congr fun k _ => by simp only [hiff]
  have hbt : |((min n (m + 1) : ℕ) : ℚ) - p * n| ≤ 1 := by
    rw [abs_le]
    rcases le_total n (m + 1) with h | h
    · rw [min_eq_left h]
      have : (n : ℚ) ≤ m + 1 := by exact_mod_cast h
      constructor <;> linarith
    · rw [min_eq_right h]
      push_cast
      constructor <;> linarith
  cases hit with
  | true =>
    simp only [Bool.decide_eq_true, probOf, if_true]
    rw [htrue]
    exact hbt
  | false =>
    have hsum := List.length_eq_length_filter_add (l := List.range n) fun k : ℕ => decide ((k : ℚ) / n ≤ p)
    rw [htrue, List.length_range] at hsum
    have e : ((List.range n).filter fun k : ℕ => decide (decide ((k : ℚ) / n ≤ p) = false)).length =
        ((List.range n).filter fun k : ℕ => !decide ((k : ℚ) / n ≤ p)).length := by
      congr 1
      exact List.filter_congr fun k _ => by cases decide ((k : ℚ) / n ≤ p) <;> rfl
    rw [e]
    have hq : (n : ℚ) = ((min n (m + 1) : ℕ) : ℚ) +
        (((List.range n).filter fun k : ℕ => !decide ((k : ℚ) / n ≤ p)).length : ℚ) := by exact_mod_cast hsum
    simp only [probOf, Bool.false_eq_true, if_false]
    rw [abs_le] at hbt ⊢
    constructor <;> nlinarith [hbt.1, hbt.2]

theorem filter_product (f g : ℕ → Bool) (a b : List ℕ) :
    ((a ×ˢ b).filter fun p => f p.1 && g p.2).length = (a.filter f).length * (b.filter g).length := by
  induction a with
  | nil => simp
  | cons x a ih =>
    rw [List.product_cons, List.filter_append, List.length_append, ih, List.filter_map, List.length_map]
    by_cases hx : f x
    · simp [hx, Function.comp_def]; ring
    · simp [hx, Function.comp_def]

theorem grid_frequency {cr dr : ℚ} (hc : IsProb cr) (hd : IsProb dr) {n : ℕ} (hn : 0 < n) (crit dh : Bool) :
    |(((List.range n ×ˢ List.range n).filter fun p =>
        decide (decide ((p.1 : ℚ) / n ≤ cr) = crit ∧ decide ((p.2 : ℚ) / n ≤ dr) = dh)).length
          : ℚ) / (n * n) - probOf crit cr * probOf dh dr| ≤ 2 / n := by
  have hn' : (0 : ℚ) < n := by exact_mod_cast hn
  have e := filter_product (fun k => decide (decide ((k : ℚ) / n ≤ cr) = crit))
    (fun k => decide (decide ((k : ℚ) / n ≤ dr) = dh)) (List.range n) (List.range n)
  have hA := hits_count hc hn crit
  have hB := hits_count hd hn dh
  have lA : (((List.range n).filter fun k : ℕ => decide (decide ((k : ℚ) / n ≤ cr) = crit)).length : ℚ) ≤ n := by
    have := List.length_filter_le (fun k : ℕ => decide (decide ((k : ℚ) / n ≤ cr) = crit)) (List.range n)
    rw [List.length_range] at this
    exact_mod_cast this
  have e' : ((List.range n ×ˢ List.range n).filter fun p =>
        decide (decide ((p.1 : ℚ) / n ≤ cr) = crit ∧ decide ((p.2 : ℚ) / n ≤ dr) = dh)).length =
      ((List.range n).filter fun k : ℕ => decide (decide ((k : ℚ) / n ≤ cr) = crit)).length *
      ((List.range n).filter fun k : ℕ => decide (decide ((k : ℚ) / n ≤ dr) = dh)).length := by
    rw [← e]
    congr 1
    exact List.filter_congr fun p _ => by rw [Bool.decide_and]
  rw [e']
  have q1 := probOf_nonneg hd dh
  have q2 : probOf dh dr ≤ 1 := by
    cases dh
    · simpa [probOf] using hd.1
    · exact hd.2
  push_cast
  have a0 : (0 : ℚ) ≤ (((List.range n).filter fun k : ℕ => decide (decide ((k : ℚ) / n ≤ cr) = crit)).length : ℚ) :=
    Nat.cast_nonneg _
  generalize (((List.range n).filter fun k : ℕ => decide (decide ((k : ℚ) / n ≤ cr) = crit)).length : ℚ) = A at *
  have b0 : (0 : ℚ) ≤ (((List.range n).filter fun k : ℕ => decide (decide ((k : ℚ) / n ≤ dr) = dh)).length : ℚ) :=
    Nat.cast_nonneg _
  generalize (((List.range n).filter fun k : ℕ => decide (decide ((k : ℚ) / n ≤ dr) = dh)).length : ℚ) = B at *
  generalize probOf crit cr = P at *
  generalize probOf dh dr = Q at *
  have split : A * B / (n * n) - P * Q = (A * (B - Q * n) + (A - P * n) * (Q * n)) / (n * n) := by
    field_simp
    ring
  rw [split, abs_div, abs_of_pos (mul_pos hn' hn'), div_le_div_iff₀ (mul_pos hn' hn') hn']
  have t1 : |A * (B - Q * n)| ≤ n := by
    rw [abs_mul, abs_of_nonneg a0]
    nlinarith [abs_nonneg (B - Q * n)]
  have t2 : |(A - P * n) * (Q * n)| ≤ n := by
    have : 0 ≤ Q * n := mul_nonneg q1 hn'.le
    rw [abs_mul, abs_of_nonneg this]
    nlinarith [abs_nonneg (A - P * n)]
  have t3 := abs_add_le (A * (B - Q * n)) ((A - P * n) * (Q * n))
  nlinarith

theorem zip4_map {α β γ δ ε : Type} (f : (α × β) × (γ × δ) → ε) {a : List α} {b : List β} {c : List γ} {d : List δ}
    (i : ℕ) {x : ε} (h : (((a.zip b).zip (c.zip d)).map f)[i]? = some x) :
    ∃ p q r t, a[i]? = some p ∧ b[i]? = some q ∧ c[i]? = some r ∧ d[i]? = some t ∧ x = f ((p, q), (r, t)) := by
  rw [List.getElem?_map] at h
  cases hz : ((a.zip b).zip (c.zip d))[i]? with
  | none => rw [hz] at h; cases h
  | some z =>
    obtain ⟨⟨p, q⟩, ⟨r, t⟩⟩ := z
    rw [hz] at h
    cases h
    rw [List.getElem?_zip_eq_some, List.getElem?_zip_eq_some, List.getElem?_zip_eq_some] at hz
    exact ⟨p, q, r, t, hz.1.1, hz.1.2, hz.2.1, hz.2.2, rfl⟩

theorem report_length {stats : Stats} {l : List DamageInstance} {n : ℕ} {wr ws : ℕ → ℕ → Draw}
    {s : DamageSimulator} (b : Built stats l n wr ws s) : s.getPerSkillDamage.length = s.instances.length := by
  unfold getPerSkillDamage
  rw [List.length_map, List.length_zip, List.length_zip, List.length_zip, b.mean, b.variance, List.length_mapIdx,
    List.length_mapIdx, b.length]
  simp

theorem report_get {stats : Stats} {l : List DamageInstance} {n : ℕ} {wr ws : ℕ → ℕ → Draw}
    {s : DamageSimulator} (b : Built stats l n wr ws s) {i : ℕ} {p : PerInstanceDamage}
    (h : s.getPerSkillDamage[i]? = some p) :
    ∃ x r m v, s.instances[i]? = some x ∧ s.tracker.rows[i]? = some r ∧ s.mean[i]? = some m ∧
      s.variance[i]? = some v ∧ rowOf stats x = .ok r ∧ p = report x r m v := by
  unfold getPerSkillDamage at h
  obtain ⟨x, r, m, v, h1, h2, h3, h4, h5⟩ := zip4_map _ i h
  obtain ⟨y, hy, hr⟩ := b.row h2
  rw [h1] at hy
  cases hy
  exact ⟨x, r, m, v, h1, h2, h3, h4, hr, h5⟩

/-- Two lists of the same length that agree wherever both have an entry. -/
theorem map_eq_of_get {α β γ : Type} {a : List α} {b : List β} {f : α → γ} {g : β → γ} (hl : a.length = b.length)
    (h : ∀ (i : ℕ) x, a[i]? = some x → ∃ y, b[i]? = some y ∧ f x = g y) : a.map f = b.map g := by
  refine List.ext_getElem? fun i => ?_
  rw [List.getElem?_map, List.getElem?_map]
  cases hx : a[i]? with
  | none =>
    rw [List.getElem?_eq_none_iff, hl] at hx
    rw [List.getElem?_eq_none_iff.2 hx]
    rfl
  | some x =>
    obtain ⟨y, hy, e⟩ := h i x hx
    rw [hy]
    simp [e]

theorem report_spec {stats : Stats} {l : List DamageInstance} {n : ℕ} {wr ws : ℕ → ℕ → Draw}
    {s : DamageSimulator} (b : Built stats l n wr ws s) :
    s.getPerSkillDamage.Pairwise (fun p q => p.applicationTime ≤ q.applicationTime) ∧
    (s.getPerSkillDamage.map fun p =>
      (p.applicationTime, p.skillName, p.withCondition, p.statusEffects, p.eventId, p.target)).Perm
      (l.map fun x =>
        (x.time, x.skill.name, x.modifier.withCondition, (x.buffs, x.debuffs), x.eventId, x.target)) ∧
    s.getPerSkillDamage.map (·.eventId) = s.getEventIds ∧
    s.getPerSkillDamage.map (·.applicationTime) = s.getDamageTime ∧
    s.getPerSkillDamage.map (·.expectedDamage) = s.getExpectedDamagePerInstance ∧
    s.getPerSkillDamage.map (·.variance) = s.getVariancePerInstance ∧
    (∀ p ∈ s.getPerSkillDamage, p.snapshotTime = none ∧ ∃ x ∈ l, ∃ d, p.eventId = x.eventId ∧
      x.skill.getDamageSpec x.modifier = .ok (some d) ∧ p.potency = d.potency ∧
      p.damageClass = d.damageClass) := by
  have hlen := report_length b
  have hall : (s.getPerSkillDamage.map fun p =>
      (p.applicationTime, p.skillName, p.withCondition, p.statusEffects, p.eventId, p.target)) =
      s.instances.map fun x =>
        (x.time, x.skill.name, x.modifier.withCondition, (x.buffs, x.debuffs), x.eventId, x.target) := by
    refine map_eq_of_get hlen fun i p hp => ?_
    obtain ⟨x, r, m, v, h1, h2, h3, h4, h5, rfl⟩ := report_get b hp
    refine ⟨x, h1, ?_⟩
    obtain ⟨_, _, _, _, d, _, _, _, rfl⟩ := rowOf_ok h5
    rfl
  have htime : s.getPerSkillDamage.map (·.applicationTime) = s.instances.map (·.time) := by
    have := congrArg (List.map Prod.fst) hall
    simpa [List.map_map, Function.comp_def] using this
  refine ⟨?_, ?_, ?_, ?_, ?_, ?_, ?_⟩
  · have hs : (s.instances.map (·.time)).Pairwise (· ≤ ·) := by
      rw [b.instances]
      exact List.pairwise_map.2 (sortBy_sorted _ l)
    rw [← htime] at hs
    exact List.pairwise_map.1 hs
  · rw [hall]
    exact b.perm.map _
  · unfold getEventIds
    rw [b.ids]
    have := congrArg (List.map fun t => t.2.2.2.2.1) hall
    simpa [List.map_map, Function.comp_def] using this
  · unfold getDamageTime
    refine map_eq_of_get (hlen.trans b.length.symm) fun i p hp => ?_
    obtain ⟨x, r, m, v, h1, h2, h3, h4, h5, rfl⟩ := report_get b hp
    exact ⟨r, h2, rfl⟩
  · unfold getExpectedDamagePerInstance
    rw [← List.map_id s.mean]
    refine map_eq_of_get (by rw [hlen, b.mean, List.length_mapIdx, b.length]) fun i p hp => ?_
    obtain ⟨x, r, m, v, h1, h2, h3, h4, h5, rfl⟩ := report_get b hp
    exact ⟨m, h3, rfl⟩
  · unfold getVariancePerInstance
    rw [← List.map_id s.variance]
    refine map_eq_of_get (by rw [hlen, b.variance, List.length_mapIdx, b.length]) fun i p hp => ?_
    obtain ⟨x, r, m, v, h1, h2, h3, h4, h5, rfl⟩ := report_get b hp
    exact ⟨v, h4, rfl⟩
  · intro p hp
    obtain ⟨i, hi⟩ := List.mem_iff_getElem?.1 hp
    obtain ⟨x, r, m, v, h1, h2, h3, h4, h5, rfl⟩ := report_get b hi
    obtain ⟨_, _, _, _, d, _, _, hd, rfl⟩ := rowOf_ok h5
    exact ⟨rfl, x, b.perm.mem_iff.1 (List.mem_of_getElem? h1), d, rfl, hd, rfl, rfl⟩

end Ama.DamageSimulator
