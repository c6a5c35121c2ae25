import Verif.Model.DamageTracker
import Verif.Model.DamageBuilder
import Verif.Model.RotationBuilder

/-!
# Model of `simulator/damage_simulator.py`

Simplifications: floating point numbers are exact rationals; random numbers are inputs, see
`Verif/Model/DamageTracker.lean`; printing is dropped; a standard deviation is represented by its
square, where `none` stands for the NaN that `np.sqrt` returns for a negative number.
-/

namespace Ama

/-- damage_simulator.py:11-29 `PerInstanceDamage` -/
structure PerInstanceDamage where
  applicationTime : ℚ
  snapshotTime : Option ℚ
  skillName : String
  potency : ℚ
  withCondition : Conds
  statusEffects : StatusEffects × StatusEffects
  expectedDamage : ℚ
  variance : Option ℚ
  eventId : ℕ
  target : String
  damageClass : DamageClass
deriving DecidableEq

/-- damage_simulator.py:36-47: the attributes of a simulator. -/
structure DamageSimulator where
  instances : List DamageInstance
  tracker : DamageTracker
  targets : List String
  eventIds : List ℕ
  mean : List ℚ
  /-- the square of `per_skill_damage_std` -/
  variance : List (Option ℚ)
  /-- damage, crit status and direct hit status for every row and sample -/
  matrix : List (List (ℚ × Bool × Bool))
  sampledDamage : List ℚ
  sampledDps : List (WithTop ℚ)

namespace DamageSimulator

/-- damage_simulator.py:53-90: the row of one damage instance -/
def rowOf (stats : Stats) (x : DamageInstance) : Py DamageRow := do
  let se := (x.buffs, x.debuffs)
  match ← ComputeDamage.getBaseDamage x.skill x.modifier stats se with
  | none => .error .assertionError
  | some base => do
    let (dhRate, critRate, critBonus) ←
      ComputeDamage.critRatesAndBonuses stats x.skill x.modifier se
    let d ← ComputeDamage.specOf x.skill x.modifier
    return { baseDamage := base
             critRate := critRate
             critBonus := critBonus
             dhRate := dhRate
             traitDamageMult := d.traitDamageMultOverride.getD stats.processed.traitDamageMult
             damageMult := ComputeDamage.computeDamageMult se
             time := x.time
             potency := d.potency
             withCondition := x.modifier.withCondition
             statusEffects := se
             damageClass := d.damageClass }

/-- damage_simulator.py:51-95: the loop over the damage instances -/
def fill (stats : Stats) (instances : List DamageInstance) : Py DamageTracker :=
  instances.foldlM (fun dt x => do
    let r ← rowOf stats x
    dt.addDamage r) {}

/-- damage_simulator.py:207-217, expected damage of one instance -/
def expectedOf (l : List OutcomeRange) : ℚ := (l.map fun o => o.probability * ((o.low + o.high) / 2)).sum

/-- damage_simulator.py:219-222, variance of one instance -/
def varianceOf (l : List OutcomeRange) : ℚ :=
  (l.map fun o => o.probability * (o.high - o.low) ^ 2).sum / 12 +
    ((l.map fun o => o.probability * ((o.low + o.high) / 2) ^ 2).sum - expectedOf l ^ 2)

/-- damage_simulator.py:196-224.  For an empty list the arrays are one-dimensional and summing along
axis 1 raises `AxisError`, a subclass of `ValueError`. -/
def expectedAndVariance (rs : List (List OutcomeRange)) : Py (List ℚ × List ℚ) :=
  if rs.isEmpty then .error .valueError
  else .ok (rs.map expectedOf, rs.map varianceOf)

/-- `np.power(np.sqrt(v), 2)` for a finite number -/
def sqrtSq (v : ℚ) : Option ℚ := if 0 ≤ v then some v else none

/-- damage_simulator.py:99-104 -/
def fightTime (instances : List DamageInstance) : ℚ :=
  match instances.head?, instances.getLast? with
  | some a, some b => (b.time - a.time) / 1000
  | _, _ => 0

/-- damage_simulator.py:121: sum of the matrix over the rows -/
def sampleSums (numSamples : ℕ) (m : List (List (ℚ × Bool × Bool))) : List ℚ :=
  (List.range numSamples).map fun j => (m.map fun row => (row[j]?.map (·.1)).getD 0).sum

/-- damage_simulator.py:122-126 -/
def dpsOf (sampledDamage : List ℚ) (time : ℚ) : List (WithTop ℚ) :=
  sampledDamage.map fun x => if 0 < time then ((x / time : ℚ) : WithTop ℚ) else ⊤

/-- damage_simulator.py:33-126 `__init__` and `__compile_damage`; `wr` are the draws made while computing
the expected damage, `ws` those for the samples.
Simplification: the matrix is always saved (without `save_damage_matrix` the getters return `None`). -/
def init (stats : Stats) (dmgInstances : List DamageInstance) (numSamples : ℕ)
    (wr ws : ℕ → ℕ → Draw) : Py DamageSimulator := do
  let instances := sortBy (·.time) dmgInstances
  let dt ← fill stats instances
  let dt := dt.finalize
  let rs ← dt.ranges wr
  let (mean, variance) ← expectedAndVariance rs
  let m ← dt.computeDamage numSamples ws
  let sums := sampleSums numSamples m
  return { instances := instances
           tracker := dt
           targets := instances.map (·.target)
           eventIds := instances.map (·.eventId)
           mean := mean
           variance := variance.map sqrtSq
           matrix := m
           sampledDamage := sums
           sampledDps := dpsOf sums (fightTime instances) }

/-- damage_simulator.py:154-155 `get_event_ids` -/
def getEventIds (s : DamageSimulator) : List ℕ := s.eventIds

/-- damage_simulator.py:157-158 `get_crit_and_dh_rates`.
Simplification: `np.squeeze` is dropped. -/
def getCritAndDhRates (s : DamageSimulator) : List (ℚ × ℚ) :=
  s.tracker.rows.map fun r => (r.critRate, r.dhRate)

/-- damage_simulator.py:163-164 `get_raw_damage` -/
def getRawDamage (s : DamageSimulator) : List ℚ := s.sampledDamage

/-- damage_simulator.py:166-167 `get_dps` -/
def getDps (s : DamageSimulator) : List (WithTop ℚ) := s.sampledDps

/-- damage_simulator.py:169-170 `get_damage_time` -/
def getDamageTime (s : DamageSimulator) : List ℚ := s.tracker.rows.map (·.time)

/-- damage_simulator.py:172-179 `get_damage_matrix`, `get_crit_status` and `get_dh_status` in one -/
def getDamageMatrix (s : DamageSimulator) : List (List (ℚ × Bool × Bool)) := s.matrix

/-- damage_simulator.py:181-194 `get_damage_ranges`; `w` are the draws made by this call -/
def getDamageRanges (s : DamageSimulator) (w : ℕ → ℕ → Draw) :
    Py (List (String × List OutcomeRange)) := do
  let rs ← s.tracker.ranges w
  return (s.instances.map (·.skill.name)).zip rs

/-- damage_simulator.py:226-227 `get_expected_damage_per_damage_instance` -/
def getExpectedDamagePerInstance (s : DamageSimulator) : List ℚ := s.mean

/-- damage_simulator.py:229-230 `get_variance_per_damage_instance` -/
def getVariancePerInstance (s : DamageSimulator) : List (Option ℚ) := s.variance

/-- damage_simulator.py:232-233 `get_expected_damage` -/
def getExpectedDamage (s : DamageSimulator) : ℚ := s.getExpectedDamagePerInstance.sum

/-- Adding numbers that may be NaN. -/
def nanAdd : Option ℚ → Option ℚ → Option ℚ
  | some a, some b => some (a + b)
  | _, _ => none

/-- damage_simulator.py:235-236 `get_damage_variance` -/
def getDamageVariance (s : DamageSimulator) : Option ℚ := s.getVariancePerInstance.foldr nanAdd (some 0)

/-- damage_simulator.py:245-258: one entry of the report, without the snapshot time -/
def report (x : DamageInstance) (r : DamageRow) (mean : ℚ) (variance : Option ℚ) : PerInstanceDamage :=
  { applicationTime := r.time
    snapshotTime := none
    skillName := x.skill.name
    potency := r.potency
    withCondition := r.withCondition
    statusEffects := r.statusEffects
    expectedDamage := mean
    variance := variance
    eventId := x.eventId
    target := x.target
    damageClass := r.damageClass }

/-- damage_simulator.py:238-263 `get_per_skill_damage()` -/
def getPerSkillDamage (s : DamageSimulator) : List PerInstanceDamage :=
  (s.instances.zip s.tracker.rows).zip (s.mean.zip s.variance) |>.map
    fun ((x, r), (m, v)) => report x r m v

/-- damage_simulator.py:131-138: event id to snapshot time and skill name -/
def snapshotDict (q : List Event) : Dict ℕ (ℚ × String) :=
  q.foldl (fun d e => d.set e.eventId (e.primary, e.skill.name)) []

/-- damage_simulator.py:140-151: the snapshot time of one entry -/
def addSnapshot (d : Dict ℕ (ℚ × String)) (p : PerInstanceDamage) : Py PerInstanceDamage :=
  match d.get? p.eventId with
  | none => .error .assertionError
  | some (t, name) =>
    if p.skillName = name then .ok { p with snapshotTime := some t } else .error .assertionError

/-- damage_simulator.py:129-152 and 264-266 `get_per_skill_damage(rb)`, together with the state in which it
leaves `rb` -/
def getPerSkillDamageWith (fuel : ℕ) (s : DamageSimulator) (rb : RotationBuilder) :
    Py (List PerInstanceDamage × RotationBuilder) := do
  let rb ← rb.getSkillTiming fuel
  let res ← s.getPerSkillDamage.mapM (addSnapshot (snapshotDict rb.events.q))
  return (res, rb)

end DamageSimulator

end Ama
