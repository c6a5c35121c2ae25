import Verif.Spec.GameData
import Verif.Spec.Safe
import Verif.Lemmas.Tables

/-!
# Checking a class description

`check` computes, for the class description of one job, version and level, whether its skills have the
properties that the theorems about the shipped library state.  It looks at the arguments of the skill
constructors, where condition keys are still strings.  `Checked` is what it establishes.
-/

namespace Ama.GameData

open Spec

/-! ## Sanity -/

/-- Decides `SaneTiming`. -/
def saneTiming (t : TimingSpec) : Bool :=
  decide (0 ≤ t.baseCastTime) && (decide (0 ≤ t.gcdBaseRecastTime) && (decide (0 ≤ t.animationLock) &&
    decide (0 ≤ t.applicationDelay)))

/-- Decides `SaneDamage`. -/
def saneDamage (d : DamageSpec) : Bool :=
  decide (0 ≤ d.potency) && (decide (0 < d.petScalar) && (decide (0 < d.singleDamageMult) &&
    (d.traitDamageMultOverride.all (fun x => decide (0 < x)) &&
      (d.petJobModOverride.all (fun x => decide (0 < x)) &&
        d.useMinPotency.all (fun x => decide (0 ≤ x))))))

/-- Decides `SaneEffect`. -/
def saneEffect (e : StatusEffectSpec) : Bool :=
  (decide (0 ≤ e.critRateAdd) && decide (e.critRateAdd ≤ 1)) &&
  ((decide (0 ≤ e.dhRateAdd) && decide (e.dhRateAdd ≤ 1)) &&
  (decide (1 ≤ e.damageMult) && (decide (0 ≤ e.mainStatAdd) && (decide (0 < e.mainStatMult) &&
  ((decide (0 ≤ e.autoAttackDelayReduction) && decide (e.autoAttackDelayReduction < 1)) &&
  ((decide (0 ≤ e.hasteTimeReduction) && decide (e.hasteTimeReduction < 1)) &&
  (decide (0 ≤ e.flatCastTimeReduction) && (decide (0 ≤ e.flatGcdRecastTimeReduction) &&
  ((decide (0 ≤ e.duration) && decide (e.duration ≤ e.maxDuration)) &&
  (decide (1 ≤ e.numUses) && decide (e.numUses ≤ e.maxNumUses)))))))))))

theorem saneTiming_iff {t : TimingSpec} : saneTiming t = true ↔ SaneTiming t := by
  simp only [saneTiming, Bool.and_eq_true, decide_eq_true_eq]
  exact ⟨fun ⟨a, b, c, d⟩ => ⟨a, b, c, d⟩, fun ⟨a, b, c, d⟩ => ⟨a, b, c, d⟩⟩

theorem option_all {α : Type} {o : Option α} {p : α → Bool} :
    o.all p = true ↔ ∀ x, o = some x → p x = true := by
  cases o <;> simp

theorem saneDamage_iff {d : DamageSpec} : saneDamage d = true ↔ SaneDamage d := by
  simp only [saneDamage, Bool.and_eq_true, decide_eq_true_eq, option_all]
  exact ⟨fun ⟨a, b, c, d, e, f⟩ => ⟨a, b, c, d, e, f⟩, fun ⟨a, b, c, d, e, f⟩ => ⟨a, b, c, d, e, f⟩⟩

theorem saneEffect_iff {e : StatusEffectSpec} : saneEffect e = true ↔ SaneEffect e := by
  simp only [saneEffect, Bool.and_eq_true, decide_eq_true_eq]
  exact ⟨fun ⟨a, b, c, d, e, f, g, h, i, j, k⟩ => ⟨a, b, c, d, e, f, g, h, i, j, k⟩,
    fun ⟨a, b, c, d, e, f, g, h, i, j, k⟩ => ⟨a, b, c, d, e, f, g, h, i, j, k⟩⟩

/-! ## Whole times and forced hits -/

/-- Decides `Whole`. -/
def whole (x : ℚ) : Bool := decide (x.den = 1)

/-- Decides `WholeTiming`. -/
def wholeTiming (t : TimingSpec) : Bool :=
  whole t.baseCastTime && (whole t.gcdBaseRecastTime && (whole t.animationLock && whole t.applicationDelay))

/-- Decides `WholeEffect`. -/
def wholeEffect (e : StatusEffectSpec) : Bool :=
  whole (e.flatCastTimeReduction.untopD 0) && whole e.flatGcdRecastTimeReduction

/-- The effect does not decide about critical or direct hits. -/
def noForce (e : StatusEffectSpec) : Bool :=
  decide (e.guaranteedCrit = .default) && decide (e.guaranteedDh = .default)

/-- The skills whose hits Inner Release forces. -/
def innerRelease : List String := ["Fell Cleave", "Decimate"]

/-- The skills whose hits are never critical or direct. -/
def neverHits : List String := ["Wildfire (dot)", "Detonator"]

/-- The flag does not forbid hits. -/
def notNo : Forced → Bool
  | .forceNo => false
  | _ => true

/-- The flag does not force hits. -/
def notYes : Forced → Bool
  | .forceYes => false
  | _ => true

/-- What is checked of damage: its class is known, and just the listed skills forbid hits. -/
def checkDamage (name : String) (d : DamageSpec) : Bool :=
  (match d.damageClass with | .unknown => false | _ => true) &&
    if neverHits.contains name then notYes d.guaranteedCrit && notYes d.guaranteedDh
    else notNo d.guaranteedCrit && notNo d.guaranteedDh

/-- Only Inner Release and Life Surge force hits, and of different skills; none forbids hits or forces hits
of skills that are never critical or direct hits. -/
def fewForce (name : String) (e : StatusEffectSpec) : Bool :=
  noForce e || ((notNo e.guaranteedCrit && notNo e.guaranteedDh) && match e.skillAllowlist with
    | none => false
    | some l => l.all (fun a => !neverHits.contains a) && ((decide (name = "Inner Release") && l.all (fun a => innerRelease.contains a)) ||
      (decide (name = "Life Surge") && l.all (fun a => !innerRelease.contains a))))

/-- The effects that make auto-attacks faster, and by how much at most. -/
def fastEffects : List (String × ℚ) :=
  [("Presence of Mind", 1 / 5), ("Army's Paeon", 4 / 25), ("Army's Muse", 3 / 25), ("Ley Lines", 3 / 20),
   ("Riddle of Wind", 1 / 2), ("Huton (Armor Crush)", 3 / 20), ("Huton (Hakke)", 3 / 20),
   ("Huton (Huton)", 3 / 20), ("Fuka", 13 / 100), ("Swiftscaled", 3 / 20)]

/-- If the effect makes auto-attacks faster, then it is listed. -/
def fast (name : String) (e : StatusEffectSpec) : Bool :=
  decide (e.autoAttackDelayReduction = 0) ||
    fastEffects.any (fun nr => decide (nr.1 = name) && decide (e.autoAttackDelayReduction ≤ nr.2))

theorem whole_iff {x : ℚ} : whole x = true ↔ Whole x := by
  simp only [whole, decide_eq_true_eq]
  exact ⟨fun h => ⟨x.num, (Rat.den_eq_one_iff x).1 h |>.symm⟩, fun ⟨n, h⟩ => by rw [h]; rfl⟩

theorem wholeTiming_iff {t : TimingSpec} : wholeTiming t = true ↔ WholeTiming t := by
  simp only [wholeTiming, Bool.and_eq_true, whole_iff]
  exact ⟨fun ⟨a, b, c, d⟩ => ⟨a, b, c, d⟩, fun ⟨a, b, c, d⟩ => ⟨a, b, c, d⟩⟩

theorem wholeEffect_of {e : StatusEffectSpec} (h : wholeEffect e = true) : WholeEffect e := by
  simp only [wholeEffect, Bool.and_eq_true, whole_iff] at h
  refine ⟨?_, h.2⟩
  rcases hc : e.flatCastTimeReduction with _ | x
  · exact .inl rfl
  · rw [hc] at h
    exact .inr ⟨x, rfl, h.1⟩

theorem noForce_iff {e : StatusEffectSpec} : noForce e = true ↔ ¬ Forces e := by
  simp only [noForce, Forces, Bool.and_eq_true, decide_eq_true_eq, not_or, not_not, ne_eq]

theorem notNo_iff {f : Forced} : notNo f = true ↔ f ≠ .forceNo := by cases f <;> simp [notNo]

theorem notYes_iff {f : Forced} : notYes f = true ↔ f ≠ .forceYes := by cases f <;> simp [notYes]

/-- What the check of damage establishes. -/
def DamageOk (name : String) (d : DamageSpec) : Prop :=
  d.damageClass ≠ .unknown ∧ if name ∈ neverHits then d.guaranteedCrit ≠ .forceYes ∧ d.guaranteedDh ≠ .forceYes
    else d.guaranteedCrit ≠ .forceNo ∧ d.guaranteedDh ≠ .forceNo

theorem checkDamage_iff {name : String} {d : DamageSpec} : checkDamage name d = true ↔ DamageOk name d := by
  unfold checkDamage DamageOk
  rw [Bool.and_eq_true]
  refine and_congr ?_ ?_
  · cases d.damageClass <;> simp
  · by_cases h : name ∈ neverHits
    · simp [h, notYes_iff]
    · simp [h, notNo_iff]

/-! ## Names -/

/-- The names the skills and follow-ups of a job have, those of its gauges and buffs, which effects its skills
have variants for, its gauges, and whether the job is known. -/
structure Names where
  skills : List String
  followUps : List String
  resources : List String
  buffs : List String
  reacts : String → StatusEffectSpec → Bool
  settings : List (String × JobResourceSettings)
  known : Bool

/-- Where a job is known to fail: skills with a follow-up table without default, skills with a combo
action that is no skill, effects restricted to skills that do not exist, skills that lose their
drop-off, buffs that are ended but not given, effects that do nothing, and skills that are not told a gauge
for which they have variants. -/
structure Exempt where
  noDefault : List String := []
  badCombo : List String := []
  useless : List String := []
  lost : List String := []
  gone : List String := []
  unread : List String := []
  untold : List String := []

/-- The gauges the specs name are declared. -/
def knownGauges (n : Names) (l : List JobResourceSpec) : Bool :=
  l.all (fun r => r.clearAllResourcesOnly || n.resources.contains r.name)

/-- The combo actions are skills. -/
def knownCombos (n : Names) (l : List ComboSpec) : Bool :=
  l.all (fun c => c.comboActions.all (fun a => n.skills.contains a))

/-- One of the skills an effect is restricted to exists. -/
def useful (n : Names) (e : StatusEffectSpec) : Bool :=
  e.skillAllowlist.all (fun l => l.any (fun a => n.skills.contains a || n.followUps.contains a))

/-- The debuffs. -/
def debuffNames : List String :=
  ["Mug", "Trick Attack", "Dokumori", "Kunai's Bane", "Death's Design", "Chain Stratagem", "Noxious Gnash"]

/-- Decides `Idle`. -/
def idle (e : StatusEffectSpec) : Bool :=
  (decide (e.critRateAdd = 0) && (decide (e.dhRateAdd = 0) && (decide (e.damageMult = 1) &&
    (decide (e.mainStatAdd = 0) && decide (e.mainStatMult = 1))))) &&
  ((decide (e.autoAttackDelayReduction = 0) && (decide (e.hasteTimeReduction = 0) &&
    (decide (e.flatCastTimeReduction = 0) && decide (e.flatGcdRecastTimeReduction = 0)))) &&
  (decide (e.guaranteedCrit = .default) && (decide (e.guaranteedDh = .default) &&
    (decide (e.expiresStatusEffects = []) && decide (e.clearAllStatusEffects = false)))))

/-- The effect does something, or the job is known for its doing nothing. -/
def acts (x : Exempt) (n : Names) (name : String) (e : StatusEffectSpec) : Bool :=
  !idle e || (x.unread.contains name || (e.addToSkillModifierCondition && n.reacts name e))

/-- What is checked of a buff. -/
def checkBuff (x : Exempt) (n : Names) (name : String) (e : StatusEffectSpec) : Bool :=
  wholeEffect e && (fewForce name e && (fast name e && (acts x n name e &&
    e.expiresStatusEffects.all (fun a => !debuffNames.contains a && (x.gone.contains a || n.buffs.contains a)))))

/-- The presses of a rotation do not notice the debuff. -/
def quietDebuff (e : StatusEffectSpec) : Bool :=
  decide (e.addToSkillModifierCondition = false) && (decide (e.numUses = ⊤) && (decide (e.maxNumUses = ⊤) &&
    decide (e.hasteTimeReduction = 0)))

/-- What is checked of a debuff. -/
def checkDebuff (x : Exempt) (n : Names) (name : String) (e : StatusEffectSpec) : Bool :=
  wholeEffect e && (noForce e && (decide (e.autoAttackDelayReduction = 0) &&
    (acts x n name e && ((debuffNames.contains name && e.expiresStatusEffects.isEmpty) && quietDebuff e))))

/-! ## Skills -/

/-- What is checked of the skill of a follow-up. -/
def checkCore (x : Exempt) (n : Names) (s : SkillCore) : Bool :=
  (s.damageSpec.answers && (s.timingSpec.answers && (s.buffSpec.answers && (s.debuffSpec.answers &&
    (s.jobResourceSpec.answers && (s.comboSpec.answers &&
      (match s.channelingSpec with | .single _ => true | .dict _ => false))))))) &&
  ((s.damageSpec.values.all (fun o => o.all (fun d => saneDamage d && checkDamage s.name d)) &&
    (s.timingSpec.values.all (fun o => o.all saneTiming) &&
      (s.buffSpec.values.all (fun o => o.all saneEffect) &&
        s.debuffSpec.values.all (fun o => o.all saneEffect)))) &&
  ((s.timingSpec.values.all (fun o => o.all wholeTiming) &&
    (s.buffSpec.values.all (fun o => o.all (checkBuff x n s.name)) &&
      s.debuffSpec.values.all (fun o => o.all (checkDebuff x n s.name)))) &&
  (s.jobResourceSpec.values.all (knownGauges n) &&
  ((x.badCombo.contains s.name || s.comboSpec.values.all (knownCombos n)) &&
  (x.useless.contains s.name ||
    (s.buffSpec.values.all (fun o => o.all (useful n)) &&
      s.debuffSpec.values.all (fun o => o.all (useful n))))))))

/-- The conditions that a key names. -/
def condsOf (k : String) : List String :=
  if k.toList.length = 0 then [] else (splitComma k.toList).map (fun x => String.ofList (stripChars x))

/-- The keys of a table. -/
def rawKeys {α : Type} : RawCond α → List String
  | .single _ => []
  | .dict d => d.map (·.1)

/-- The conditions for which the tables of a skill have variants. -/
def allConds (r : RawSkill) : List String :=
  (rawKeys r.damageSpec ++ (rawKeys r.timingSpec ++ (rawKeys r.buffSpec ++ (rawKeys r.debuffSpec ++
    (rawKeys r.jobResourceSpec ++ (rawKeys r.comboSpec ++ rawKeys r.followUpSkills)))))).flatMap condsOf

/-- Decides `Keyed`. -/
def keyed {α : Type} (a : String) : Cond α → Bool
  | .single _ => false
  | .dict d => d.any (fun kv => decide (a ∈ kv.1))

/-- Decides `Minds`. -/
def minds (k : SkillCore) (a : String) : Bool :=
  keyed a k.damageSpec || (keyed a k.timingSpec || (keyed a k.buffSpec || (keyed a k.debuffSpec ||
    (keyed a k.jobResourceSpec || keyed a k.comboSpec))))

/-- Decides `TellsGauge`, but for the number. -/
def tellsGauge (p : String × JobResourceSettings) (c : String) : Bool :=
  if p.2.addNumberToConditional then (' ' :: p.1.toList).isSuffixOf c.toList else decide (c = p.1)

/-- The conditions that the drop-off adds. -/
def dropConds (r : RawSkill) : List String :=
  match r.aoeDropoff with
  | none => []
  | some _ => [2, 3, 4, 5, 6, 7, 8, 9].map targetCond

/-- The skill is told the gauges for which it has variants. -/
def toldOk (x : Exempt) (n : Names) (r : RawSkill) : Bool :=
  x.untold.contains r.name || if n.known then n.settings.all (fun p => p.2.skillAllowlist.contains r.name ||
    (allConds r ++ dropConds r).all (fun c => !tellsGauge p c)) else (allConds r ++ dropConds r).isEmpty

/-- The drop-off of a skill is lost just if the job is known to lose it; if not, the variants are declared
under different conditions that do not speak of targets. -/
def dropOk (x : Exempt) (r : RawSkill) : Bool :=
  match r.aoeDropoff with
  | none => true
  | some _ =>
    match r.damageSpec with
    | .single _ => x.lost.contains r.name
    | .dict d => !x.lost.contains r.name &&
      (decide (d.map (fun kv => Utils.canonicalizeCondition kv.1)).Nodup &&
      d.all (fun kv => decide (Utils.canonicalizeCondition kv.1 ≠ {""}) &&
        [2, 3, 4, 5, 6, 7, 8, 9].all (fun n => decide (targetCond n ∉ Utils.canonicalizeCondition kv.1))))

/-- The names of the generic skills. -/
def genericNames : List String :=
  ["Grade 1 Gemdraught", "Grade 2 Gemdraught", "Grade 8 Tincture", "Grade 7 Tincture", "Death", "Weakness",
   "Brink of Death", "LB 1", "LB 2", "LB 3"]

/-- What is checked of a skill. -/
def checkSkill (x : Exempt) (n : Names) (r : RawSkill) : Bool :=
  (r.damageSpec.answers && (r.timingSpec.answers && (r.buffSpec.answers &&
    (r.debuffSpec.answers && (r.jobResourceSpec.answers && (r.comboSpec.answers &&
      (match r.channelingSpec with | .single _ => true | .dict _ => false))))))) &&
  ((r.damageSpec.values.all (fun o => o.all (fun d => saneDamage d && checkDamage r.name d)) &&
    (r.timingSpec.values.all (fun o => o.any saneTiming) &&
      (r.buffSpec.values.all (fun o => o.all saneEffect) &&
        r.debuffSpec.values.all (fun o => o.all saneEffect)))) &&
  ((r.timingSpec.values.all (fun o => o.all wholeTiming) &&
    (r.buffSpec.values.all (fun o => o.all (checkBuff x n r.name)) &&
      r.debuffSpec.values.all (fun o => o.all (checkDebuff x n r.name)))) &&
  (r.jobResourceSpec.values.all (knownGauges n) &&
  ((x.badCombo.contains r.name || r.comboSpec.values.all (knownCombos n)) &&
  ((x.useless.contains r.name ||
    (r.buffSpec.values.all (fun o => o.all (useful n)) &&
      r.debuffSpec.values.all (fun o => o.all (useful n)))) &&
  (r.aoeDropoff.all (fun d => decide (0 ≤ d) && (decide (d ≤ 1) &&
    r.damageSpec.values.all Option.isSome)) &&
  ((x.noDefault.contains r.name || r.followUpSkills.answers) &&
  (r.followUpSkills.values.all (fun l => l.all (fun f => checkCore x n f.skill)) && (dropOk x r && toldOk x n r)))))))))

/-- The name is not that of a generic skill. -/
def ownName (a : String) : Bool := !genericNames.contains a && !(a.toList.take 5 == "Wait ".toList)

/-- The follow-ups that a skill has under all conditions. -/
def followUpsOf (r : RawSkill) : List FollowUp :=
  match r.followUpSkills with
  | .single l => l
  | .dict _ => []

/-- There is a buff without conditions. -/
def gives (c : Cond (Option StatusEffectSpec)) : Bool :=
  match c.lookup ({} : SkillModifier).withCondition with
  | .ok (some _) => true
  | _ => false

/-- The buffs that a skill and its follow-ups give without conditions. -/
def buffsOf (r : RawSkill) : List String :=
  (if gives r.buffSpec.canonicalize then [r.name] else []) ++
    match r.followUpSkills.canonicalize.lookupTuple ({} : SkillModifier).withCondition with
    | .ok fs => (fs.filter (fun f => gives f.skill.buffSpec)).map (·.skill.name)
    | .error _ => []

/-- The effect is for skills of this name. -/
def isFor (e : StatusEffectSpec) (name : String) : Bool := e.skillAllowlist.all (fun l => l.contains name)

/-- Skills the effect is for have a variant for the condition. -/
def reactsTo (a : String) (e : StatusEffectSpec) (r : RawSkill) : Bool :=
  (isFor e r.name && (allConds r).contains a) ||
    (followUpsOf r).any (fun f => isFor e f.skill.name && minds f.skill a)

/-- The names of auto-attacks. -/
def autoNames : List String := ["Auto", "Shot"]

/-- What is checked of an auto-attack. -/
def autoOk (r : RawSkill) : Bool :=
  (match r.isGCD with | some false => true | _ => false) &&
  ((match r.damageSpec with
    | .single (some d) => (match d.damageClass with | .auto => true | _ => false) && decide (0 < d.potency)
    | _ => false) &&
  (match r.timingSpec with
    | .single (some t) => decide (t.baseCastTime = 0)
    | _ => false))

/-- Everything that is checked of a class description. -/
def check (x : Exempt) (j : JobClass) : Bool :=
  match j.init, j.priority >>= readPriority, j.comboBreakers >>= readBreakers,
    getRawSkills j.skillMethods, getResources j.resourceMethods with
  | .ok _, .ok _, .ok _, .ok l, .ok res =>
    let names := l.map (·.name)
    let n : Names := ⟨names, (l.flatMap followUpsOf).map (·.skill.name), res.map (·.1), l.flatMap buffsOf,
      fun a e => l.any (reactsTo a e), res, true⟩
    decide names.Nodup && (names.all ownName && (l.all (checkSkill x n) &&
      match l.filter (fun r => autoNames.contains r.name) with
      | [r] => autoOk r
      | _ => false))
  | _, _, _, _, _ => false

/-- The known failures. -/
def exempt (job : String) (level : ℤ) : Exempt where
  noDefault := if job = "MCH" then ["Automaton Queen"] else []
  badCombo := if job = "RDM" then ["Enchanted Moulinet Trois"] else []
  useless := if job ∈ ["AST", "SCH", "SGE"] then ["Swiftcast"]
    else if job = "PCT" ∧ level = 90 then ["Rainbow Bright"]
    else if job = "VPR" ∧ level = 90 then ["Poised for Twinfang"]
    else []
  lost := dropoffLost job
  gone := if job = "BLM" then ["Enhanced"] else []
  unread := if job = "BLM" ∧ level = 90 then ["Firestarter"]
    else if job = "VPR" then "Fellhunter's Venom" :: "Fellskin's Venom" ::
      if level = 90 then ["Poised for Twinfang"] else []
    else []
  untold := if job = "BLM" then ["Freeze"]
    else if job = "BRD" then ["Army's Paeon", "Mage's Ballad", "The Wanderer's Minuet"]
    else []

/-- The listed versions from 7.0 on, at both levels. -/
def listed7 : List Env :=
  [⟨3, 90⟩, ⟨5, 90⟩, ⟨7, 90⟩, ⟨9, 90⟩, ⟨3, 100⟩, ⟨5, 100⟩, ⟨7, 100⟩, ⟨9, 100⟩]

/-- The listed versions that are supported. -/
def listed : List Env := ⟨1, 90⟩ :: listed7

end Ama.GameData
