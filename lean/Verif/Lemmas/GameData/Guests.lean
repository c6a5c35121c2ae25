import Verif.Lemmas.GameData.Playable
import Verif.Lemmas.GameData.Facts

/-!
# Presses of other jobs that change a gauge
-/

namespace Ama

open Spec

namespace RotationBuilder

variable {P : SkillCore → Prop} {gauges g : List String}

/-- Under all conditions the skill first changes a gauge that is not among the given ones. -/
def Foreign (gauges : List String) (m₀ : SkillModifier) (k : SkillCore) : Prop :=
  ∀ m, m₀.withCondition ⊆ m.withCondition → ∃ r rs, k.getJobResourceSpec m = .ok (r :: rs) ∧
    r.clearAllResourcesOnly = false ∧ r.name ∉ gauges

theorem addResource_foreign {tr : JobResourceTracker} (h : HasGauges tr gauges) {k : SkillCore}
    {m₀ m : SkillModifier} (hf : Foreign gauges m₀ k) (hm : m₀.withCondition ⊆ m.withCondition) (t : ℚ) :
    tr.addResource t k m = .error .keyError := by
  obtain ⟨r, rs, h1, h2, h3⟩ := hf m hm
  unfold JobResourceTracker.addResource
  rw [h1, Py.ok_bind, Py.foldlM_cons]
  have : JobResourceTracker.addSpec t tr r = .error .keyError := by
    unfold JobResourceTracker.addSpec
    rw [h2]
    simp only [Bool.false_eq_true, if_false]
    have h4 : Dict.get? tr.resources r.name = none := by
      rw [← Option.not_isSome_iff_eq_none, Dict.get?_isSome, h.1]
      exact h3
    unfold Dict.get
    rw [h4]
    rfl
  rw [this]
  rfl

theorem seqStepLog_foreign {stats : Stats} (hs : SpeedOk stats) (ha : Agree P) {p : SeqPress}
    (hw : WholeIn P) (hp : Playable g p.modifier p.skill) (hP : P p.skill.toSkillCore)
    (hb : p.modifier.bonusPercent = none) (ht : p.targets ≠ []) (hf : Foreign gauges p.modifier p.skill.toSkillCore)
    {st : SeqRest} (h : SafeSeq P gauges st) : seqStepLog stats st p = .error .keyError := by
  have htime : Whole (pressTime (p.skill.isGCD.getD false) st.currT st.nextGcd) := by
    unfold pressTime
    split_ifs
    · split
      · exact h.2.1
      · next x hx => exact h.2.1.max (h.2.2 x hx)
    · exact h.2.1
  obtain ⟨r, h1, h2, h3⟩ := resolve_total h.1 hw
    (pressTime (p.skill.isGCD.getD false) st.currT st.nextGcd) hp.harmless hb st.combo
  have hm := (resolve_fields h1).1
  obtain ⟨tg, h4⟩ := pyIdx_total ht
  obtain ⟨ts, h5, h6⟩ := hp.timing _ hm
  obtain ⟨c, h7, h8⟩ := getCastTime_total hs h6 r.modifier h3
  obtain ⟨a, h9, h10⟩ := applicationTimeOf_total htime h8 r.modifier h6
  obtain ⟨se, h11, h12⟩ := StatusEffectTracker.add_total h2.1 hP (hp.harmless.buff _ hm)
    (hp.harmless.debuff _ hm) a p.targets
  have h13 := addResource_foreign h2.2 hf hm
    (pressTime (p.skill.isGCD.getD false) st.currT st.nextGcd +
      max 0 (c - GameConsts.DAMAGE_SNAPSHOT_TIME_BEFORE_CAST_FINISHES))
  unfold seqStepLog
  simp only [h1, Py.ok_bind, h5, h4]
  unfold processSkillLog
  simp only [h5, Py.ok_bind, h7, h9, h11, h13, Py.error_bind]

/-- A rotation whose first press changes a gauge of another job. -/
theorem timing_foreign {rb : RotationBuilder} (hs : SpeedOk rb.stats) (ha : Agree P) (hw : WholeIn P)
    {settings : Dict String JobResourceSettings}
    (h1 : rb.lib.getAllResourceSettings rb.stats.jobClass = .ok settings)
    (h2 : ∃ b, rb.lib.getAllComboBreakers rb.stats.jobClass = .ok b)
    (h3 : ∀ x, rb.fightStart = some x → Whole x) {p : SeqPress} {ps : List SeqPress}
    (hq : rb.qSequence = p :: ps) (hp : Playable g p.modifier p.skill) (hP : P p.skill.toSkillCore)
    (hb : p.modifier.bonusPercent = none) (ht : p.targets ≠ [])
    (hf : Foreign (Dict.keys settings) p.modifier p.skill.toSkillCore) (fuel : ℕ) :
    rb.getSkillTiming fuel = .error .keyError := by
  obtain ⟨e1, e2, e3, e4, e5, e6, e7, e8, e9, e10, e11, e12, e13, e14, e15⟩ := start_fields rb
  have hsound : Sound P (Dict.keys settings) { rb.start with qTimed := [], qSequence := [] } := by
    refine ⟨?_, hw, ha, ⟨settings, ?_, rfl⟩, ?_, ?_, by simp, by simp⟩
    · exact (e1 ▸ hs : SpeedOk rb.start.stats)
    · exact (by rw [e1, e2]; exact h1 : rb.start.lib.getAllResourceSettings rb.start.stats.jobClass =
        .ok settings)
    · exact (by rw [e1, e2]; exact h2 : ∃ b, rb.start.lib.getAllComboBreakers rb.start.stats.jobClass = .ok b)
    · exact (by rw [e6]; exact h3 : ∀ x, rb.start.fightStart = some x → Whole x)
  obtain ⟨tc, h4, h5⟩ := initTrackers_total hsound
  have h4 : rb.start.initTrackers = .ok tc := h4
  have h6 : rb.start.seqLog = .error .keyError := by
    unfold seqLog
    rw [h4, Py.ok_bind, e11, hq]
    unfold foldLog
    rw [seqStepLog_foreign (gauges := Dict.keys settings) (e1 ▸ hs) ha hw hp hP hb ht hf ⟨h5, ?_, ?_⟩]
    · rfl
    · rw [e6]
      cases hx : rb.fightStart with
      | none => exact .zero
      | some x => exact h3 x hx
    · rintro x ⟨⟩
  rw [getSkillTiming_eq]
  unfold queueLog
  rw [h6]
  rfl

end RotationBuilder

namespace GameData

variable {version : String} {level : ℕ} {lib : SkillLibrary} {cs : List ClassSkills} {base ws : List Skill}

/-- The positions and levels that are supported, as a list. -/
def goods : List Env :=
  ⟨1, 90⟩ :: [90, 100].flatMap (fun l => [3, 4, 5, 6, 7, 8, 9, 10].map (fun p => ⟨p, l⟩))

theorem Good.mem {e : Env} (h : Good e) : e ∈ goods := by
  obtain ⟨p, l⟩ := e
  rcases h with ⟨h1, h2⟩ | ⟨h1, h2, h3⟩
  · simp only at h1 h2
    subst h1 h2
    decide
  · simp only at h1 h2 h3
    rcases h3 with rfl | rfl <;> interval_cases p <;> decide

/-- Only Machinists have a battery. -/
def noBattery (j : JobClass) : Bool :=
  decide (j.jobClass = "MCH") || match getResources j.resourceMethods with
    | .ok l => l.all (fun r => decide (r.1 ≠ "Battery"))
    | .error _ => true

theorem no_battery : ∀ e ∈ goods, (jobClasses e).all noBattery = true := by
  decide +kernel

/-- The skill first changes the battery. -/
def battery (r : RawSkill) : Bool :=
  match mkSkill r with
  | .ok s => match s.jobResourceSpec with
    | .single (x :: _) => decide (x.name = "Battery") && !x.clearAllResourcesOnly
    | _ => false
  | .error _ => false

theorem Mch.anchor_battery : ∀ e ∈ listed,
    (rawsOf (job e)).any (fun r => decide (r.name = "Air Anchor") && GameData.battery r) = true := by
  decide +kernel

theorem anchor (h : Library version level lib cs base ws) (hg : Good (Env.of version level)) :
    ∃ s, lib.getSkill "Air Anchor" "MCH" = .ok s ∧ ∃ x xs, s.jobResourceSpec = .single (x :: xs) ∧
      x.name = "Battery" ∧ x.clearAllResourcesOnly = false := by
  have hf := Mch.anchor_battery _ hg.floor
  rw [Mch.job_floor] at hf
  obtain ⟨r, s, hp, hm, hs⟩ := h.fact (Mch.mem _) hf
  simp only [Bool.and_eq_true, decide_eq_true_eq] at hp
  rw [hp.1] at hs
  refine ⟨s, hs, ?_⟩
  have h2 := hp.2
  unfold battery at h2
  rw [hm] at h2
  simp only at h2
  split at h2
  · rename_i x xs hx
    simp only [Bool.and_eq_true, decide_eq_true_eq, Bool.not_eq_true'] at h2
    exact ⟨x, xs, hx, h2.1, h2.2⟩
  · cases h2

theorem gauges_battery (h : Library version level lib cs base ws) (hg : Good (Env.of version level))
    {job : String} (hj : lib.hasJobClass job = true) (hne : job ≠ "MCH") :
    ∃ d, lib.getAllResourceSettings job = .ok d ∧ "Battery" ∉ Dict.keys d := by
  obtain ⟨c, hc, rfl⟩ := h.find hj
  obtain ⟨d, hd, _⟩ := h.made.resources c hc
  refine ⟨d, hd, fun hk => ?_⟩
  obtain ⟨c', hc', hj', r, hr, hrn⟩ := h.made.gauges c hc d hd _ hk
  obtain ⟨j, hjj, hb⟩ := forall₂_mem h.classes hc'
  have := List.all_eq_true.1 (no_battery _ hg.mem) j hjj
  unfold noBattery at this
  rw [hb.1.resources] at this
  simp only [Bool.or_eq_true, decide_eq_true_eq, List.all_eq_true] at this
  rcases this with h1 | h1
  · exact hne (hj'.symm.trans (hb.1.job.trans h1))
  · exact h1 r hr hrn.1

theorem guest_raises {rb : RotationBuilder} (h : Library version level rb.lib cs base ws)
    (hg : Good (Env.of version level)) (hb : Built rb)
    (hl : rb.stats.level = 90 ∨ rb.stats.level = 100) (hj : rb.lib.hasJobClass rb.stats.jobClass = true)
    (hne : rb.stats.jobClass ≠ "MCH") (h3 : ∀ x, rb.fightStart = some x → Whole x) {p : SeqPress}
    {ps : List SeqPress} (hq : rb.qSequence = p :: ps) (hm : p.jobClass = "MCH")
    (hn : p.skill.name = "Air Anchor") (hbonus : p.modifier.bonusPercent = none) (fuel : ℕ) :
    rb.getSkillTiming fuel = .error .keyError := by
  have hpm : p ∈ rb.qSequence := by simp [hq]
  obtain ⟨d, hd, hnb⟩ := gauges_battery h hg hj hne
  obtain ⟨s, hs, x, xs, hx, hxn, hxc⟩ := anchor h hg
  obtain ⟨ht, name, hsk⟩ := (RotationBuilder.built_inv hb).seq p hpm
  obtain ⟨hname, e, n, ho, he, _⟩ := h.skill hsk
  have hps : p.skill = s := by
    rw [hm, ← hname, hn, hs] at hsk
    exact (Except.ok.inj hsk).symm
  have hP : ∃ x n, CoreOk x n p.skill.toSkillCore := ⟨e, n, ho.toCoreOk⟩
  refine RotationBuilder.timing_foreign (P := fun k => ∃ x n, CoreOk x n k) (g := n.resources)
    (RotationBuilder.speedOk_of (speed_total _ _ hl))
    (agree_of fun _ h => h) (fun k hk => ?_) hd (h.made.breakers _ hj) h3 hq ?_ hP hbonus ht ?_ fuel
  · obtain ⟨x, n, hk⟩ := hk
    exact hk.effects
  · refine playable_of ho ?_ ?_ ?_
    · intro m' specs _ hsp r hrr
      cases hc : r.clearAllResourcesOnly with
      | true => exact .inl rfl
      | false => exact .inr (ho.gauges m' specs hsp r hrr hc)
    · intro m' fs hfs f hff m'' specs hsp r hrr
      cases hc : r.clearAllResourcesOnly with
      | true => exact .inl rfl
      | false => exact .inr ((ho.followUp m' fs hfs f hff).gauges m'' specs hsp r hrr hc)
    · intro m' _
      refine ho.followUps ?_ m'
      rcases he with rfl | ⟨rfl, _⟩
      · unfold exempt
        simp only
        split_ifs <;> simp [hn]
      · simp
  · intro m _
    refine ⟨x, xs, ?_, hxc, hxn ▸ hnb⟩
    unfold SkillCore.getJobResourceSpec
    rw [hps, hx]
    rfl

end GameData

end Ama
