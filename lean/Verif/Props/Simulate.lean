import Verif.Props.Pipeline
import Verif.Props.Simulation
import Verif.Lemmas.TimelineFlags
import Verif.Lemmas.DamageForced
import Verif.Lemmas.DamageTotal
import Verif.Spec.Simulate
import Verif.Lemmas.GameData.Simulable

/-!
# From a rotation to its simulation (C86)
-/

namespace Ama

open Spec

namespace RotationBuilder

theorem origin_simulable {rb : RotationBuilder} (h : SimulableRotation rb) {skill : Skill} {m : SkillModifier}
    (ho : Origin rb skill m) :
    ∃ m₀, Simulable rb m₀ skill.toSkillCore ∧ Widens m₀ m := by
  cases ho with
  | press m₀ job h1 h2 => exact ⟨m₀, h.presses _ _ _ h1, h2⟩
  | followUp f h1 h2 h3 =>
    obtain ⟨parent, m₀, job, m', fs, g1, g2, g3, g4⟩ := h1
    subst h2 h3
    exact ⟨{}, h.followUps _ _ _ _ _ g1 g2 g3 f g4, .refl _⟩
  | auto delay h1 h2 h3 =>
    subst h3
    exact ⟨{}, h.autos h1 _ _ h2, .refl _⟩

end RotationBuilder

/-- What is forced for an instance is decided by its damage, its modifier or an effect in play. -/
theorem instance_computable {rb : RotationBuilder} (h : SimulableRotation rb)
    (hs : Supported rb.stats.version rb.stats.level) {P : SkillCore → Prop} (hP : ∀ k, P k → InPlay rb k)
    {skill : Skill} {m₀ : SkillModifier} (hm : Simulable rb m₀ skill.toSkillCore) {x : DamageInstance}
    (hx : InstanceBy P skill m₀ x) : Computable rb.stats x := by
  obtain ⟨rfl, hw, ⟨d, hd⟩, hb, hdb⟩ := hx
  obtain ⟨h1, h2, h3⟩ := hm _ d hw.2 hd
  have hgC : x.modifier.guaranteedCrit = m₀.guaranteedCrit := by rw [hw.1]
  have hgD : x.modifier.guaranteedDh = m₀.guaranteedDh := by rw [hw.1]
  have eff : ∀ s, Gives P x.skill.toSkillCore s →
      Decides rb m₀ x.skill.toSkillCore d s.guaranteedCrit s.guaranteedDh := by
    rintro s ⟨a, m, ha, hg, hal⟩
    exact .effect a m s (hP a ha) hg hal
  have crit : ∀ f, f ≠ .default → ComputeDamage.critFlag f d x.modifier (x.buffs, x.debuffs) = true →
      ∃ h, Decides rb m₀ x.skill.toSkillCore d f h := by
    intro f hf hc
    unfold ComputeDamage.critFlag at hc
    simp only [Bool.or_eq_true, decide_eq_true_eq] at hc
    rcases hc with ((hc | hc) | hc) | hc
    · exact ⟨d.guaranteedDh, by rw [← hc]; exact .damage⟩
    · exact ⟨m₀.guaranteedDh, by rw [← hc, hgC]; exact .use⟩
    · rcases hb.1 with he | ⟨s, hs, he⟩
      · exact absurd (hc.symm.trans he) hf
      · exact ⟨_, (he.trans hc) ▸ eff s hs⟩
    · rcases hdb.1 with he | ⟨s, hs, he⟩
      · exact absurd (hc.symm.trans he) hf
      · exact ⟨_, (he.trans hc) ▸ eff s hs⟩
  have dh : ∀ f, f ≠ .default → ComputeDamage.dhFlag f d x.modifier (x.buffs, x.debuffs) = true →
      ∃ c, Decides rb m₀ x.skill.toSkillCore d c f := by
    intro f hf hc
    unfold ComputeDamage.dhFlag at hc
    simp only [Bool.or_eq_true, decide_eq_true_eq] at hc
    rcases hc with ((hc | hc) | hc) | hc
    · exact ⟨d.guaranteedCrit, by rw [← hc]; exact .damage⟩
    · exact ⟨m₀.guaranteedCrit, by rw [← hc, hgD]; exact .use⟩
    · rcases hb.2 with he | ⟨s, hs, he⟩
      · exact absurd (hc.symm.trans he) hf
      · exact ⟨_, (he.trans hc) ▸ eff s hs⟩
    · rcases hdb.2 with he | ⟨s, hs, he⟩
      · exact absurd (hc.symm.trans he) hf
      · exact ⟨_, (he.trans hc) ▸ eff s hs⟩
  refine ComputeDamage.computable hs h.tank hd h1 h2 ?_ ?_
  · rintro ⟨g1, g2⟩
    obtain ⟨c, k1⟩ := dh _ (by simp) g1
    obtain ⟨c', k2⟩ := dh _ (by simp) g2
    exact (h3 _ _ _ _ k1 k2).2 ⟨rfl, rfl⟩
  · rintro ⟨g1, g2⟩
    obtain ⟨c, k1⟩ := crit _ (by simp) g1
    obtain ⟨c', k2⟩ := crit _ (by simp) g2
    exact (h3 _ _ _ _ k1 k2).1 ⟨rfl, rfl⟩

open RotationBuilder in
/-- C86, in part: a rotation that can be played and simulated has a timeline, the timeline has damage
instances, and these can be simulated any number of times, all without an exception.  Missing: timelines in
which two damaging hits of the same skill name coincide (`C40_type_error_refuted`), and timelines that deal no damage
or have more than 5000 damage instances (`C49_refuted`). -/
theorem C86_simulated_partial {rb : RotationBuilder} (hb : Built rb) (h : PlayableRotation rb)
    (hs : SimulableRotation rb) :
    ∃ k rb' db, (∀ fuel, k ≤ fuel → rb.getSkillTiming fuel = .ok rb') ∧
      DamageBuilder.init rb.stats rb.lib = .ok db ∧
      (HitsApart rb'.events.q →
        ∃ xs db', db.getDamageInstances rb'.events = .ok (xs, db') ∧
          (xs ≠ [] → xs.length ≤ 5000 → ∀ n wr ws, ∃ sim,
            DamageSimulator.init rb.stats xs n wr ws = .ok sim ∧ sim.getDamageMatrix.length = xs.length ∧
              sim.getRawDamage.length = n)) := by
  obtain ⟨k, rb', db, settings, h1, hdb, hg, ht, h2, h3⟩ := pipeline hb h
  refine ⟨k, rb', db, h1, hdb, fun hnd => ?_⟩
  obtain ⟨xs, db', h4⟩ := C40_no_raise_partial hdb hg ht h2 h3 hnd
  refine ⟨xs, db', h4, fun h5 h6 n wr ws => C49_succeeds_partial ?_ h5 h6 n wr ws⟩
  intro x hx
  obtain ⟨tr, s, ⟨h7, -⟩, rfl, -⟩ := getDamageInstances_ok h4
  have ho := timing_origin hb (h1 k le_rfl)
  have hf := timing_flags (h1 k le_rfl)
  have hst := reaches_by (Q := fun skill m => Origin rb skill m) h7 (safe_start hdb hg ht h2 h3 hnd)
    ⟨fun e he => ⟨e.skill, e.modifier, ho e he, rfl, .refl _, ?_, ?_⟩, by simp⟩
  · obtain ⟨skill, a, g1, g2⟩ := hst.instances x ((sortBy_perm _ _).mem_iff.1 hx)
    obtain ⟨m₀, g3, g4⟩ := origin_simulable hs g1
    obtain ⟨z, hz⟩ := h.speed
    refine instance_computable hs (StatFns.supported_time hz) ?_ g3
      ⟨g2.same, g4.trans g2.modifier, g2.damage, g2.buffs, g2.debuffs⟩
    rintro k ⟨e, he, rfl⟩
    exact (ho e he).inPlay
  · have := (hf e he).1
    cases hst : e.snapshotBuffs with
    | flag f => exact trivial
    | done b => rw [hst] at this; exact this.elim
  · have := (hf e he).2
    cases hst : e.snapshotDebuffs with
    | flag f => exact trivial
    | done b => rw [hst] at this; exact this.elim

namespace Ex

/-- Damage is easy to compute if nothing is forced. -/
theorem simulable_plain {rb : RotationBuilder} {k : SkillCore} {d : DamageSpec}
    (hd : ∀ m, k.getDamageSpec m = .ok (some d)) (h1 : d.damageClass ≠ .unknown)
    (h2 : d.damageClass = .auto → JobClassFns.isHealer rb.stats.version rb.stats.jobClass = true ∨
      JobClassFns.isCaster rb.stats.version rb.stats.jobClass = true →
        ∃ x, rb.stats.healerOrCasterStrength = some x)
    (h3 : d.guaranteedCrit = .default ∧ d.guaranteedDh = .default)
    (h4 : ∀ a m s, InPlay rb a → a.getBuffSpec m = .ok (some s) ∨ a.getDebuffSpec m = .ok (some s) →
      s.guaranteedCrit = .default ∧ s.guaranteedDh = .default) : Simulable rb {} k := by
  intro m d' _ hd'
  rw [hd] at hd'
  cases hd'
  refine ⟨h1, h2, ?_⟩
  have key : ∀ c h, Decides rb {} k d c h → c = .default ∧ h = .default := by
    intro c h hc
    cases hc with
    | damage => exact h3
    | use => exact ⟨rfl, rfl⟩
    | effect a m s ha hs _ => exact h4 a m s ha hs
  intro c h c' h' k1 k2
  obtain ⟨rfl, rfl⟩ := key _ _ k1
  exact ⟨fun h => (by cases h.1), fun h => (by cases h.1)⟩

theorem mixed_simulable {rb : RotationBuilder} (hr : mixed = .ok rb) : SimulableRotation rb := by
  obtain ⟨rb, h1, h2, h3, h4, h5, h6, h7, hauto⟩ := mixed_fields
  cases hr.symm.trans h1
  have hin := mixed_inPlay h2 h3 hauto
  have hdef : ∀ a m s, InPlay rb a → a.getBuffSpec m = .ok (some s) ∨ a.getDebuffSpec m = .ok (some s) →
      s.guaranteedCrit = .default ∧ s.guaranteedDh = .default := by
    intro a m s ha h
    have := hin a ha
    simp only [List.mem_cons, List.not_mem_nil, or_false] at this
    rcases this with rfl | rfl | rfl | rfl | rfl <;> rcases h with h | h <;> cases h
    exact ⟨rfl, rfl⟩
  have hask : ∀ skill m job, Asked rb skill m job → m = {} ∧ (skill = Ex.haste ∨ skill = Ex.venom ∨ skill = Ex.hit) := by
    rintro skill m job (⟨p, hp, rfl, rfl, -⟩ | ⟨p, hp, rfl, rfl, -⟩)
    · rw [h3] at hp
      rw [List.mem_singleton.1 hp]
      exact ⟨rfl, .inr (.inr rfl)⟩
    · rw [h2] at hp
      simp only [List.mem_cons, List.not_mem_nil, or_false] at hp
      rcases hp with rfl | rfl | rfl
      · exact ⟨rfl, .inl rfl⟩
      · exact ⟨rfl, .inr (.inl rfl)⟩
      · exact ⟨rfl, .inr (.inr rfl)⟩
  refine ⟨?_, ?_, ?_, ?_⟩
  · rw [h6]
    intro h
    exact absurd h (by decide)
  · intro skill m job ha
    obtain ⟨rfl, rfl | rfl | rfl⟩ := hask _ _ _ ha
    · intro m d _ hd
      cases hd
    · exact simulable_plain (fun _ => rfl) (by decide) (by rintro ⟨⟩) ⟨rfl, rfl⟩ hdef
    · exact simulable_plain (fun _ => rfl) (by decide) (by rintro ⟨⟩) ⟨rfl, rfl⟩ hdef
  · intro skill m job m' fs ha _ hfs f hf
    obtain ⟨rfl, rfl | rfl | rfl⟩ := hask _ _ _ ha
    · cases hfs
      cases hf
    · cases hfs
      rw [List.mem_singleton.1 hf]
      exact simulable_plain (fun _ => rfl) (by decide) (by rintro ⟨⟩) ⟨rfl, rfl⟩ hdef
    · cases hfs
      cases hf
  · intro _ skill delay hs
    cases (RotationBuilder.autoSkill_of hs).1.symm.trans (RotationBuilder.autoSkill_of hauto).1
    refine simulable_plain (fun _ => rfl) (by decide) ?_ ⟨rfl, rfl⟩ hdef
    rw [h6]
    rintro - (h | h) <;> exact absurd h (by decide)

end Ex

/-- The hypotheses can be met. -/
example : ∃ rb, Built rb ∧ PlayableRotation rb ∧ SimulableRotation rb ∧ ∃ rb' db xs db',
    rb.getSkillTiming 9 = .ok rb' ∧ HitsApart rb'.events.q ∧
    DamageBuilder.init rb.stats rb.lib = .ok db ∧ db.getDamageInstances rb'.events = .ok (xs, db') ∧
    xs.length = 9 := by
  obtain ⟨rb, h0, h1, h2, -⟩ := Ex.mixed_playable
  have h : Ex.okAnd (do
      let rb ← Ex.mixed
      let rb' ← rb.getSkillTiming 9
      let db ← DamageBuilder.init rb.stats rb.lib
      let r ← db.getDamageInstances rb'.events
      return (rb', r.1.length)) (fun r : RotationBuilder × ℕ =>
      decide (((hitsOf r.1.events.q).map (fun h => (h.time, h.event.skill.name))).Nodup ∧ r.2 = 9)) = true := by
    decide +kernel
  rw [h0] at h
  obtain ⟨r, h3, h4⟩ := Ex.ok_of h
  rw [Py.ok_bind] at h3
  obtain ⟨rb', h5, h3⟩ := Py.bind_eq_ok.1 h3
  obtain ⟨db, h6, h3⟩ := Py.bind_eq_ok.1 h3
  obtain ⟨⟨xs, db'⟩, h7, h3⟩ := Py.bind_eq_ok.1 h3
  cases h3
  obtain ⟨h8, h9⟩ := of_decide_eq_true h4
  exact ⟨rb, h1, h2, Ex.mixed_simulable h0, rb', db, xs, db', h5, hitsApart_of_nodup h8, h6, h7, h9⟩

namespace Ex

/-- A weaponskill that can never be a critical hit. -/
def graze : Skill :=
  { hit with name := "Graze", damageSpec := .single (some { potency := 100, guaranteedCrit := .forceNo }) }

/-- A library for the given job. -/
def jobLib (job : String) : SkillLibrary :=
  { skills := [(job, [("Hit", hit), ("Auto", auto), ("Graze", graze)])]
    priority := [(job, [])]
    jobResources := [(job, [])]
    comboBreakers := [(job, [])]
    currentJobClass := some job }

/-- The damage of the instances of a rotation cannot be computed. -/
def unsimulable (raw : RawStats) (autos : Bool) (ops : List BuilderOp) (e : PyErr)
    (P : RotationBuilder → Bool) : Bool :=
  okAnd (do
    let stats ← mkStats raw
    let rb ← RotationBuilder.init stats (jobLib raw.jobClass) none autos false (some 0)
    let rb ← calls rb ops
    let rb' ← rb.getSkillTiming 9
    let db ← DamageBuilder.init rb.stats rb.lib
    let r ← db.getDamageInstances rb'.events
    return (rb, decide (rb.stats = stats) &&
      (decide (((hitsOf rb'.events.q).map (fun h => (h.time, h.event.skill.name))).Nodup) &&
      (!r.1.isEmpty && match DamageSimulator.fill rb.stats (sortBy (·.time) r.1) with
      | .error e' => decide (e' = e)
      | .ok _ => false))))
    (fun r => P r.1 && r.2)

end Ex

/-- The rotation has a timeline and damage instances, and simulating these raises the exception. -/
def Unsimulable (rb : RotationBuilder) (e : PyErr) : Prop :=
  ∃ rb' db xs db', rb.getSkillTiming 9 = .ok rb' ∧
    ((hitsOf rb'.events.q).map (fun h => (h.time, h.event.skill.name))).Nodup ∧
    DamageBuilder.init rb.stats rb.lib = .ok db ∧ db.getDamageInstances rb'.events = .ok (xs, db') ∧ xs ≠ [] ∧
    ∀ n wr ws, DamageSimulator.init rb.stats xs n wr ws = .error e

theorem Ex.unsimulable_of {raw : RawStats} {autos : Bool} {ops : List BuilderOp} {e : PyErr}
    {P : RotationBuilder → Bool} (h : Ex.unsimulable raw autos ops e P = true) :
    ∃ rb, Built rb ∧ mkStats raw = .ok rb.stats ∧ P rb = true ∧ Unsimulable rb e := by
  obtain ⟨r, h1, h2⟩ := Ex.ok_of h
  obtain ⟨stats, h3, h1⟩ := Py.bind_eq_ok.1 h1
  obtain ⟨rb₀, h4, h1⟩ := Py.bind_eq_ok.1 h1
  obtain ⟨rb, h5, h1⟩ := Py.bind_eq_ok.1 h1
  obtain ⟨rb', h6, h1⟩ := Py.bind_eq_ok.1 h1
  obtain ⟨db, h7, h1⟩ := Py.bind_eq_ok.1 h1
  obtain ⟨⟨xs, db'⟩, h8, h1⟩ := Py.bind_eq_ok.1 h1
  cases h1
  simp only [Bool.and_eq_true, decide_eq_true_eq, Bool.not_eq_true', List.isEmpty_eq_false_iff] at h2
  obtain ⟨h2, h12, h9, h10, h11⟩ := h2
  have hb : Built rb := ⟨_, _, _, _, _, _, _, _, _, ops, h4, h5⟩
  refine ⟨rb, hb, h12 ▸ h3, h2, rb', db, xs, db', h6, h9, h7, h8, h10, fun n wr ws => ?_⟩
  · unfold DamageSimulator.init
    cases hf : DamageSimulator.fill rb.stats (sortBy (·.time) xs) with
    | ok a => rw [hf] at h11; simp at h11
    | error e' =>
      rw [hf] at h11
      simp only [decide_eq_true_eq] at h11
      subst h11
      simp only [hf, Py.error_bind]

/-- The presses, in short. -/
def pressed (rb : RotationBuilder) : List (Skill × Forced × Forced) :=
  rb.qTimed.map (fun p => (p.skill, p.modifier.guaranteedCrit, p.modifier.guaranteedDh)) ++
    rb.qSequence.map (fun p => (p.skill, p.modifier.guaranteedCrit, p.modifier.guaranteedDh))

/-- A tank must have a tenacity: without one, simulating a single hit raises a TypeError. -/
theorem C86_tank_refuted : ∃ raw rb, raw.jobClass = "test_tank_job" ∧ raw.tenacity = none ∧
    mkStats raw = .ok rb.stats ∧ Built rb ∧ rb.enableAutos = false ∧
    pressed rb = [(Ex.hit, .default, .default)] ∧ Unsimulable rb .typeError := by
  obtain ⟨rb, h1, h2, h3, h4⟩ := Ex.unsimulable_of
    (raw := { Ex.rawStats with jobClass := "test_tank_job" }) (autos := false) (ops := [Ex.next "Hit"])
    (e := .typeError) (P := fun rb => decide (rb.enableAutos = false) &&
      decide (pressed rb = [(Ex.hit, .default, .default)])) (by decide +kernel)
  simp only [Bool.and_eq_true, decide_eq_true_eq] at h3
  exact ⟨_, rb, rfl, rfl, h2, h1, h3.1, h3.2, h4⟩

/-- A healer must have a strength: without one, simulating auto-attacks raises a RuntimeError. -/
theorem C86_healer_refuted : ∃ raw rb, raw.jobClass = "test_healer_job" ∧ raw.healerOrCasterStrength = none ∧
    mkStats raw = .ok rb.stats ∧ Built rb ∧ rb.enableAutos = true ∧
    pressed rb = [(Ex.hit, .default, .default), (Ex.hit, .default, .default)] ∧
    Unsimulable rb .runtimeError := by
  obtain ⟨rb, h1, h2, h3, h4⟩ := Ex.unsimulable_of
    (raw := { Ex.rawStats with jobClass := "test_healer_job" }) (autos := true)
    (ops := [Ex.next "Hit", Ex.at_ 5 "Hit"])
    (e := .runtimeError) (P := fun rb => decide (rb.enableAutos = true) &&
      decide (pressed rb = [(Ex.hit, .default, .default), (Ex.hit, .default, .default)])) (by decide +kernel)
  simp only [Bool.and_eq_true, decide_eq_true_eq] at h3
  exact ⟨_, rb, rfl, rfl, h2, h1, h3.1, h3.2, h4⟩

/-- Decisions must not contradict each other: forcing a critical hit of a skill that never hits critically
raises a RuntimeError when it is simulated. -/
theorem C86_opposed_refuted : ∃ raw rb skill, mkStats raw = .ok rb.stats ∧ Built rb ∧ rb.enableAutos = false ∧
    pressed rb = [(skill, .forceYes, .default)] ∧
    (∀ m, ∃ d, skill.getDamageSpec m = .ok (some d) ∧ d.guaranteedCrit = .forceNo) ∧
    Unsimulable rb .runtimeError := by
  obtain ⟨rb, h1, h2, h3, h4⟩ := Ex.unsimulable_of
    (raw := Ex.rawStats) (autos := false)
    (ops := [.addNext "Graze" (some { guaranteedCrit := .forceYes }) none 1 none])
    (e := .runtimeError) (P := fun rb => decide (rb.enableAutos = false) &&
      decide (pressed rb = [(Ex.graze, .forceYes, .default)])) (by decide +kernel)
  simp only [Bool.and_eq_true, decide_eq_true_eq] at h3
  exact ⟨_, rb, Ex.graze, h2, h1, h3.1, h3.2, fun m => ⟨_, rfl, rfl⟩, h4⟩

open RotationBuilder in
/-- C86 for shipped skills, in part: a rotation of shipped skills that keeps the rules of `Sensible` and of
`Complete` is simulated without an exception.  Missing: as in `C86_simulated_partial`. -/
theorem C86_shipped_partial {version : String} {level : ℕ} {lib : SkillLibrary} {rb : RotationBuilder}
    (h : GameData.createSkillLibrary version level = .ok lib) (hb : Built rb) (hl : rb.lib = lib)
    (hs : Sensible rb) (hc : Complete rb) (hv : rb.enableAutos = true →
      ¬ (rb.stats.jobClass = "VPR" ∧ "7.01" < version ∧ version < "7.05")) :
    ∃ k rb' db, (∀ fuel, k ≤ fuel → rb.getSkillTiming fuel = .ok rb') ∧
      DamageBuilder.init rb.stats lib = .ok db ∧
      (HitsApart rb'.events.q →
        ∃ xs db', db.getDamageInstances rb'.events = .ok (xs, db') ∧
          (xs ≠ [] → xs.length ≤ 5000 → ∀ n wr ws, ∃ sim,
            DamageSimulator.init rb.stats xs n wr ws = .ok sim ∧ sim.getDamageMatrix.length = xs.length ∧
              sim.getRawDamage.length = n)) := by
  subst hl
  obtain ⟨cs, base, ws, hlib⟩ := GameData.library_of h
  exact C86_simulated_partial hb (GameData.playableRotation hlib hb hs
    (fun he => shipped_auto h rfl hs.job (hv he))) (GameData.simulableRotation hlib hb hc)

/-- The hypotheses can be met: a Reaper uses Soul Slice, Arcane Circle and Gallows. -/
example : ∃ lib rb, GameData.createSkillLibrary "7.05" 100 = .ok lib ∧ Built rb ∧ rb.lib = lib ∧ Sensible rb ∧
    Complete rb ∧ rb.enableAutos = true ∧ rb.stats.jobClass ≠ "VPR" ∧
    rb.qSequence.map (·.skill.name) = ["Soul Slice", "Arcane Circle", "Gallows"] := by
  obtain ⟨lib, rb, h1, h2, h3, h4, h5, h6, h7, h8⟩ := Ex.reaper_sensible
  refine ⟨lib, rb, h1, h2, h3, h4, ⟨?_, ?_, ?_⟩, h5, by rw [h7]; decide, h6⟩
  · rw [h7]
    exact fun h => absurd h (by decide)
  · rw [h7]
    rintro (h | h) <;> exact absurd h (by decide)
  · intro skill m job ha f hf
    obtain ⟨-, e1, e2⟩ := h8 skill m job ha
    rw [e1, e2] at hf
    simp only [List.mem_cons, List.not_mem_nil, or_false, or_self] at hf
    subst hf
    exact ⟨by simp, fun _ => by simp⟩

end Ama
