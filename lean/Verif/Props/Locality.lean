import Verif.Lemmas.Locality
import Verif.Model.DamageBuilder
import Verif.Examples.Rotation

/-!
# C87: what a timeline and its damage depend on
-/

namespace Ama

open Spec

/-- C87: only the pace of the stats matters for the timeline of a rotation: two programs that make the same
calls, with stats that agree on the pace, see the same timeline and the same presses, or the same
exception. -/
theorem C87_stats {s s' : Stats} (h : SamePace s s') (lib : SkillLibrary) (snapDots : Option ℚ)
    (autos trailing : Bool) (fightStart : Option ℚ) (downtime : RawDowntime) (target : String)
    (ops : List BuilderOp) (fuel : ℕ) :
    observed (RotationBuilder.init s' lib snapDots autos trailing fightStart downtime target >>= fun rb =>
        ops.foldlM BuilderOp.run rb >>= fun rb => rb.getSkillTiming fuel) =
      observed (RotationBuilder.init s lib snapDots autos trailing fightStart downtime target >>= fun rb =>
        ops.foldlM BuilderOp.run rb >>= fun rb => rb.getSkillTiming fuel) := by
  rw [RotationBuilder.init_swap h]
  cases hi : RotationBuilder.init s lib snapDots autos trailing fightStart downtime target with
  | error e => rfl
  | ok rb =>
    have hi' : rb.stats = s ∧ rb.lib = lib := by
      unfold RotationBuilder.init at hi
      obtain ⟨p, _, hi⟩ := Py.bind_eq_ok.1 hi
      cases hi
      exact ⟨rfl, rfl⟩
    have h' : SamePace rb.stats s' := by rw [hi'.1]; exact h
    have e := RotationBuilder.ops_swap (ops ++ [.timing fuel]) rb h'
    rw [hi'.2, Py.foldlM_append, Py.foldlM_append] at e
    have f : ∀ r : Py RotationBuilder, (r >>= fun b => [BuilderOp.timing fuel].foldlM BuilderOp.run b) =
        r >>= fun b => b.getSkillTiming fuel := by
      intro r
      cases r with
      | error e => rfl
      | ok b =>
        simp only [Py.ok_bind, Py.foldlM_cons, Py.foldlM_nil]
        change (b.getSkillTiming fuel >>= _) = _
        cases b.getSkillTiming fuel <;> rfl
    rw [f, f] at e
    change observed (ops.foldlM BuilderOp.run (rb.swap s' lib) >>= _) = observed (ops.foldlM BuilderOp.run rb >>= _)
    rw [e]
    cases (ops.foldlM BuilderOp.run rb >>= fun b => b.getSkillTiming fuel) <;> rfl

/-- C87: the offensive stats are not part of the pace: weapon damage, main stat, determination, direct hit,
critical hit, tenacity, the roles in the party and strength do not influence a timeline. -/
theorem C87_offence {r r' : RawStats} {s s' : Stats} (h : mkStats r = .ok s) (h' : mkStats r' = .ok s')
    (hj : r'.jobClass = r.jobClass) (hv : r'.version = r.version) (hl : r'.level = r.level)
    (hsp : SameSpeed r.version r.level r.speedStat r'.speedStat) (hw : r'.weaponDelay = r.weaponDelay) : SamePace s s' := by
  obtain ⟨p, w, hp, hw1, rfl⟩ := mkStats_ok h
  obtain ⟨p', w', hp', hw1', rfl⟩ := mkStats_ok h'
  rw [hw, hj, hw1] at hw1'
  cases hw1'
  unfold mkProcessedStats at hp hp'
  obtain ⟨c, _, hp⟩ := Py.bind_eq_ok.1 hp
  obtain ⟨d, _, hp⟩ := Py.bind_eq_ok.1 hp
  obtain ⟨e, _, hp⟩ := Py.bind_eq_ok.1 hp
  obtain ⟨f, _, hp⟩ := Py.bind_eq_ok.1 hp
  obtain ⟨g, hg, hp⟩ := Py.bind_eq_ok.1 hp
  obtain ⟨i, hi, hp⟩ := Py.bind_eq_ok.1 hp
  obtain ⟨c', _, hp'⟩ := Py.bind_eq_ok.1 hp'
  obtain ⟨d', _, hp'⟩ := Py.bind_eq_ok.1 hp'
  obtain ⟨e', _, hp'⟩ := Py.bind_eq_ok.1 hp'
  obtain ⟨f', _, hp'⟩ := Py.bind_eq_ok.1 hp'
  obtain ⟨g', hg', hp'⟩ := Py.bind_eq_ok.1 hp'
  obtain ⟨i', hi', hp'⟩ := Py.bind_eq_ok.1 hp'
  cases hp
  cases hp'
  rw [hv, hj, hl, hg] at hg'
  rw [hv, hj, hl, hi] at hi'
  cases hg'
  cases hi'
  exact ⟨hj, hsp, hl, rfl, rfl, rfl, by rw [hv]⟩

/-- C87: of the library a timeline reads nothing but the gauges and the combo breakers of the job, and with
auto-attacks the auto-attack of the job: the skills themselves were read by the calls that pressed them. -/
theorem C87_library {rb : RotationBuilder} {lib : SkillLibrary} (fuel : ℕ)
    (hl : SameRules rb.lib lib rb.stats.jobClass)
    (ha : rb.enableAutos = true → SameAutos rb.lib lib rb.stats.jobClass) :
    observed (({ rb with lib := lib } : RotationBuilder).getSkillTiming fuel) = observed (rb.getSkillTiming fuel) := by
  have := RotationBuilder.getSkillTiming_swap (rb := rb) (s := rb.stats) (lib := lib) (fuel := fuel)
    ⟨rfl, .inl rfl, rfl, rfl, rfl, rfl, Iff.rfl⟩ hl ha
  change observed ((rb.swap rb.stats lib).getSkillTiming fuel) = _
  rw [this]
  cases rb.getSkillTiming fuel <;> rfl

/-- C87: the damage of given instances is the same under every game version but the test version: the version
chooses the skills, not the formulas. -/
theorem C87_version (s : Stats) (v : String) (h : v = "test" ↔ s.version = "test") (xs : List DamageInstance)
    (n : ℕ) (wr ws : ℕ → ℕ → Draw) :
    DamageSimulator.init { s with version := v } xs n wr ws = DamageSimulator.init s xs n wr ws :=
  DamageSimulator.init_version h xs n wr ws

/-- C87: the instances of damage of a timeline depend on the stats through the job class only, and on the
library through the priorities, the gauges and the combo breakers of that job only. -/
theorem C87_instances {s s' : Stats} {lib lib' : SkillLibrary} (h : s'.jobClass = s.jobClass)
    (hl : SameRules lib lib' s.jobClass)
    (hp : lib'.getStatusEffectPriority s.jobClass = lib.getStatusEffectPriority s.jobClass) (events : Events) :
    (DamageBuilder.init s' lib' >>= fun db => db.getDamageInstances events) =
      (DamageBuilder.init s lib >>= fun db => db.getDamageInstances events) := by
  unfold DamageBuilder.init
  rw [h, hp, hl.settings, hl.breakers]

namespace Ex

/-- The stats of the examples with other offensive stats. -/
def strongRaw : RawStats := { rawStats with wd := 140, mainStat := 4000, critStat := 2700, detStat := 500 }

def strong : Stats :=
  { stats with
    wd := 140, mainStat := 4000, critStat := 2700, detStat := 500
    processed := { processed with critRate := 292 / 1000, critBonus := 642 / 1000, detBonus := 1008 } }

example : mkStats strongRaw = .ok strong := by decide +kernel

example : SamePace stats strong := C87_offence (r := rawStats) (r' := strongRaw) (by decide +kernel)
  (by decide +kernel) rfl rfl rfl (.inl rfl) rfl

/-- Four presses and auto-attacks. -/
def paceOps : List BuilderOp := [next "Hit", next "Haste", next "Spell", next "Venom"]

/-- The number of entries of the timeline and the presses. -/
def summary (s : Stats) (lib : SkillLibrary) : Option (ℕ × List (ℚ × String)) :=
  match observed (RotationBuilder.init s lib none true >>= fun rb =>
    paceOps.foldlM BuilderOp.run rb >>= fun rb => rb.getSkillTiming 100) with
  | .ok (e, ps) => some (e.q.length, ps.map fun p => (p.t, p.name))
  | .error _ => none

-- the timeline exists, and is the same with the stronger stats
example : summary stats lib = some (11, [(-500, "Hit"), (150, "Haste"), (1940, "Spell"), (4050, "Venom")]) := by
  decide +kernel

example : summary strong lib = summary stats lib := by
  unfold summary
  rw [C87_stats (s := stats) (s' := strong)
    (C87_offence (r := rawStats) (r' := strongRaw) (by decide +kernel) (by decide +kernel) rfl rfl rfl (.inl rfl) rfl)]

-- speed is part of the pace
example : summary { stats with speedStat := 2000 } lib ≠ summary stats lib := by decide +kernel

/-- A library without the skill that was pressed. -/
def hitless : SkillLibrary := { lib with skills := [("test_job", [("Auto", auto)])] }

example : SameRules lib hitless "test_job" ∧ SameAutos lib hitless "test_job" :=
  ⟨⟨rfl, rfl⟩, ⟨by decide +kernel, by decide +kernel⟩⟩

-- the timeline of presses that are already made needs no skill of the library
example : ∃ rb, calls (start none true) paceOps = .ok rb ∧
    (∃ r, observed (rb.getSkillTiming 100) = .ok r ∧ r.2.length = 4) ∧
    observed (({ rb with lib := hitless } : RotationBuilder).getSkillTiming 100) =
      observed (rb.getSkillTiming 100) := by
  have h : okAnd (calls (start none true) paceOps) (fun rb =>
      decide (rb.lib = lib ∧ rb.stats.jobClass = "test_job") &&
        okAnd (observed (rb.getSkillTiming 100)) (fun r => decide (r.2.length = 4))) = true := by
    decide +kernel
  obtain ⟨rb, h1, h2⟩ := ok_of h
  rw [Bool.and_eq_true, decide_eq_true_eq] at h2
  obtain ⟨⟨h2, h3⟩, h4⟩ := h2
  obtain ⟨r, h5, h6⟩ := ok_of h4
  refine ⟨rb, h1, ⟨r, h5, of_decide_eq_true h6⟩, C87_library 100 ?_ (fun _ => ?_)⟩
  · rw [h2, h3]; exact ⟨rfl, rfl⟩
  · rw [h2, h3]; exact ⟨by decide +kernel, by decide +kernel⟩

-- damage under another version
example : DamageSimulator.init { strong with version := "7.1" } [] 3 =
    DamageSimulator.init { strong with version := "6.55" } [] 3 := by
  funext wr ws
  exact C87_version { strong with version := "6.55" } "7.1" (by decide) [] 3 wr ws

end Ex

end Ama
