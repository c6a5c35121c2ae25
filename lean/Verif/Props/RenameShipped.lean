import Verif.Props.Links
import Verif.Props.RenameRotation
import Verif.Props.ShippedSafe

/-!
# A rotation of shipped skills with other names for the targets (C109)
-/

namespace Ama

open Spec GameData SkillLibrary

variable {version : String} {level : ℕ} {lib : SkillLibrary}

/-- No press of a rotation notices a debuff of a shipped library, and no buff of it ends one. -/
theorem Shipped.quietDebuffs (h : createSkillLibrary version level = .ok lib) : QuietDebuffs lib := by
  obtain ⟨cs, base, ws, hl⟩ := library_of h
  intro name job s k hs hk
  obtain ⟨x, n, ho, -⟩ := hl.part hs hk
  constructor
  · intro m e he
    obtain ⟨q1, q2, q3, q4⟩ := ho.quiet m e he
    have hn := ho.noForces m e he
    unfold Forces at hn
    refine ⟨q1, q2, q3, ?_, ?_, ho.notFast m e he, q4⟩ <;> tauto
  · intro m e he name' job' s' k' hs' hk' hn m' e' he'
    obtain ⟨x', n', ho', -⟩ := hl.part hs' hk'
    exact (ho.ends m e he _ hn).1 (ho'.debuff m' e' he').1

/-- C109 for the shipped libraries, with any names for the targets; partial only in that, if one skill is
used twice at the same time on different targets, the other names must sort like the first ones
(`C109_timeline_refuted`).

Give all targets of a rotation of shipped skills other names, different ones for different targets, the target
called "Default Target" included.  Then the same calls succeed, and `get_skill_timing` gives the same timeline with
these other names, or raises the same exception; and from a timeline the same damage instances are made with these
other names. -/
theorem C109_shipped_partial {f : String → String} {stats : Stats} {snapDots start : Option ℚ}
    {autos trailing : Bool} {downtime : RawDowntime} {target : String} {rb₀ rb : RotationBuilder}
    {ops ops' : List BuilderOp} (hc : createSkillLibrary version level = .ok lib)
    (h₀ : RotationBuilder.init stats lib snapDots autos trailing start downtime target = .ok rb₀)
    (hf : Function.Injective f) (h1 : OneTarget target) (h2 : OneTarget (f target))
    (ho : List.Forall₂ (BuilderOp.Renamed f) ops ops') (h : ops.foldlM BuilderOp.run rb₀ = .ok rb) (hq : TiesKept f rb) :
    ∃ rb₀' rb', RotationBuilder.init stats lib snapDots autos trailing start (renameRawDowntime f downtime)
        (f target) = .ok rb₀' ∧
      ops'.foldlM BuilderOp.run rb₀' = .ok rb' ∧
      ∀ fuel, (rb'.getSkillTiming fuel).map (fun a => (a.getButtonPressTiming, a.events)) =
          (rb.getSkillTiming fuel).map (fun a => (a.getButtonPressTiming, renameTimeline f a.events)) ∧
        ∀ a a', rb.getSkillTiming fuel = .ok a → rb'.getSkillTiming fuel = .ok a' →
          ∀ stats' lib' db, DamageBuilder.init stats' lib' = .ok db →
            (db.getDamageInstances a'.events).map Prod.fst =
              (db.getDamageInstances a.events).map (fun r => r.1.map (renameInstance f)) := by
  obtain ⟨rb₀', rb', g1, g2, g3⟩ := C109_timeline_partial h₀ hf (.inr (Shipped.quietDebuffs hc)) h1 h2 ho h hq
  refine ⟨rb₀', rb', g1, g2, fun fuel => ⟨g3 fuel, fun a a' ha ha' stats' lib' db hi => ?_⟩⟩
  have g := g3 fuel
  rw [ha, ha'] at g
  have e : a'.events = renameTimeline f a.events := (Prod.mk.inj (Except.ok.inj g)).2
  rw [e]
  refine C105_shipped (version := version) (level := level) ⟨_, _, _, _, _, _, _, _, rb₀, ops, h₀, h⟩ ?_ ha hi hf
  rw [Rename.runs_lib h, Rename.init_lib h₀]
  exact hc

/-- A Reaper uses Shadow of Death, which gives a debuff, and Gallows on the default target, which is called "Boss"
instead. -/
example : ∃ lib rb₀ rb, createSkillLibrary "7.05" 100 = .ok lib ∧
    RotationBuilder.init Ex.reaper lib none true false none (.tuple []) SimConsts.DEFAULT_TARGET = .ok rb₀ ∧
    [BuilderOp.addNext "Shadow of Death" none none 1 none, BuilderOp.addNext "Gallows" none none 1 none].foldlM
      BuilderOp.run rb₀ = .ok rb ∧
    List.Forall₂ (BuilderOp.Renamed (Ex.swap SimConsts.DEFAULT_TARGET "Boss"))
      [BuilderOp.addNext "Shadow of Death" none none 1 none, BuilderOp.addNext "Gallows" none none 1 none]
      [BuilderOp.addNext "Shadow of Death" none none 1 none, BuilderOp.addNext "Gallows" none none 1 none] ∧
    TiesKept (Ex.swap SimConsts.DEFAULT_TARGET "Boss") rb ∧ OneTarget SimConsts.DEFAULT_TARGET ∧ Ex.swap SimConsts.DEFAULT_TARGET "Boss" SimConsts.DEFAULT_TARGET = "Boss" ∧
    OneTarget "Boss" ∧ Function.Injective (Ex.swap SimConsts.DEFAULT_TARGET "Boss") ∧
    rb.qSequence.map (·.skill.name) = ["Shadow of Death", "Gallows"] := by
  obtain ⟨lib, h⟩ := Ex.shipped705
  have hj : lib.hasJobClass Ex.reaper.jobClass = true := (C75_jobs h "RPR").2 (.inl (by simp))
  have hm := Rpr.mem (Env.of "7.05" 100)
  obtain ⟨s1, g1⟩ : ∃ s, lib.getSkill "Shadow of Death" "RPR" = .ok s := Ex.shipped_skill h hm (by decide +kernel)
  obtain ⟨s2, g2⟩ : ∃ s, lib.getSkill "Gallows" "RPR" = .ok s := Ex.shipped_skill h hm (by decide +kernel)
  obtain ⟨cs, base, ws, hl⟩ := library_of h
  obtain ⟨pr, hpr⟩ := hl.made.priority _ hj
  have n1 := (hl.skill g1).1
  have n2 := (hl.skill g2).1
  have h0 : ∃ rb0, RotationBuilder.init Ex.reaper lib none true false none (.tuple []) SimConsts.DEFAULT_TARGET = .ok rb0 ∧
      rb0.lib = lib ∧ rb0.stats = Ex.reaper ∧ rb0.qTimed = [] ∧ rb0.qSequence = [] := by
    unfold RotationBuilder.init
    rw [hpr]
    exact ⟨_, rfl, rfl, rfl, rfl, rfl⟩
  obtain ⟨rb0, h0, a1, a2, a3, a4⟩ := h0
  have step : ∀ (r : RotationBuilder) name s, r.lib = lib → r.stats = Ex.reaper → r.qTimed = [] →
      lib.getSkill name "RPR" = .ok s →
      ∃ r', BuilderOp.run r (.addNext name none none 1 none) = .ok r' ∧ r'.lib = lib ∧ r'.stats = Ex.reaper ∧
        r'.qTimed = [] ∧ r'.qSequence.map (·.skill.name) = r.qSequence.map (·.skill.name) ++ [s.name] := by
    intro r name s b1 b2 b3 hs
    rw [← b1, show "RPR" = r.stats.jobClass by rw [b2]; rfl] at hs
    unfold BuilderOp.run RotationBuilder.addNext RotationBuilder.processTargets
    simp only [Option.getD_none, hs, Py.ok_bind, Py.pure_eq]
    exact ⟨_, rfl, b1, b2, b3, by simp⟩
  obtain ⟨r1, k1, b1, b2, b3, b4⟩ := step rb0 _ _ a1 a2 a3 g1
  obtain ⟨r2, k2, c1, c2, c3, c4⟩ := step r1 _ _ b1 b2 b3 g2
  refine ⟨lib, rb0, r2, h, h0, ?_, ?_, ?_, by unfold OneTarget; decide +kernel, by decide, by unfold OneTarget; decide +kernel,
    Ex.swap_injective _ _, ?_⟩
  · rw [Py.foldlM_cons, k1, Py.ok_bind, Py.foldlM_cons, k2]
    rfl
  · exact .cons ⟨rfl, rfl, rfl, rfl, trivial⟩ (.cons ⟨rfl, rfl, rfl, rfl, trivial⟩ .nil)
  · intro p hp
    rw [c3] at hp
    cases hp
  · rw [c4, b4, a4, ← n1, ← n2]
    rfl

end Ama
