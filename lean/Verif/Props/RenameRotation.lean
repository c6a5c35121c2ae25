import Verif.Lemmas.RenameRotation
import Verif.Props.Rename
import Verif.Examples.Presses

/-!
# Properties of a rotation with other names for the targets (C109)
-/

namespace Ama

open Spec RotationBuilder

variable {f : String → String} {stats : Stats} {lib : SkillLibrary} {snapDots start : Option ℚ}
  {autos trailing : Bool} {downtime : RawDowntime} {target : String} {rb₀ rb : RotationBuilder}
  {ops ops' : List BuilderOp}

/-- C109, timeline; partial.  Missing, and refuted below: another name for the target called "Default Target" if
presses notice debuffs of the library, and rotations that use one skill twice at the same time on different targets, if the other names sort differently.

Give all targets of a rotation other names, different ones for different targets: in the arguments `targets` of
`add` and `add_next`, in the default target, and in the downtime windows.  Then the same calls succeed, and
`get_skill_timing` gives the same presses and the same timeline with these other names - same events in the
same order at the same times, same ticks, same auto-attacks - or raises the same exception. -/
theorem C109_timeline_partial
    (h₀ : RotationBuilder.init stats lib snapDots autos trailing start downtime target = .ok rb₀)
    (hf : Function.Injective f) (hd : f SimConsts.DEFAULT_TARGET = SimConsts.DEFAULT_TARGET ∨ QuietDebuffs lib)
    (h1 : OneTarget target) (h2 : OneTarget (f target))
    (ho : List.Forall₂ (BuilderOp.Renamed f) ops ops') (h : ops.foldlM BuilderOp.run rb₀ = .ok rb) (hq : TiesKept f rb) :
    ∃ rb₀' rb', RotationBuilder.init stats lib snapDots autos trailing start (renameRawDowntime f downtime)
        (f target) = .ok rb₀' ∧
      ops'.foldlM BuilderOp.run rb₀' = .ok rb' ∧
      ∀ fuel, (rb'.getSkillTiming fuel).map (fun a => (a.getButtonPressTiming, a.events)) =
        (rb.getSkillTiming fuel).map (fun a => (a.getButtonPressTiming, renameTimeline f a.events)) := by
  have hb₀ : Built rb₀ := ⟨_, _, _, _, _, _, _, _, rb₀, [], h₀, rfl⟩
  have hb : Built rb := ⟨_, _, _, _, _, _, _, _, rb₀, ops, h₀, h⟩
  obtain ⟨D, hk⟩ := Rename.partsOk_of hd
  rw [← Rename.init_lib h₀] at hk
  obtain ⟨g1, rfl⟩ := Rename.init_rename (f := f) h₀
  refine ⟨_, _, g1, Rename.runs_rename hf ho hb₀ hk h1 h2 h hq, fun fuel => ?_⟩
  rw [← Rename.runs_lib h] at hk
  have key := Rename.getSkillTiming_rename hf hb hk hq fuel
  match hx : rb.getSkillTiming fuel, hy : (Rename.builder f rb).getSkillTiming fuel with
  | .ok x, .ok y =>
    rw [hx, hy] at key
    obtain rfl : y = Rename.builder f x := key
    rfl
  | .error x, .error y =>
    rw [hx, hy] at key
    obtain rfl : x = y := key
    rfl
  | .ok x, .error y => rw [hx, hy] at key; exact key.elim
  | .error x, .ok y => rw [hx, hy] at key; exact key.elim

/-- Skills used at different times. -/
theorem Ex.tiesKept {rb : RotationBuilder} (h : (rb.qTimed.map (·.t)).Nodup) : TiesKept f rb := by
  intro p hp q hq ht _ _ _
  rw [List.inj_on_of_nodup_map h hp hq ht]
  simp

/-- Names that sort like the first ones. -/
theorem Ex.tiesKept_of_sorted {rb : RotationBuilder} (h : StrictMono f) : TiesKept f rb := by
  have key : ∀ l l' : List String, l.map f < l'.map f ↔ l < l' := by
    intro l
    induction l with
    | nil => intro l'; cases l' <;> simp
    | cons a l ih =>
      intro l'
      cases l' with
      | nil => simp
      | cons b l' =>
        simp only [List.map_cons, List.cons_lt_cons_iff, h.lt_iff_lt, h.injective.eq_iff, ih]
  exact fun p _ q _ _ _ _ _ => key _ _

/-- Skills in sequence and at given times on two targets, with auto-attacks and a downtime of one of them; "A" is
called "B" and the other way round. -/
example : ∃ rb, RotationBuilder.init Ex.stats Ex.lib none true false (some 0)
      (.dict [("A", [{ start := 4, stop := 6 }])]) SimConsts.DEFAULT_TARGET =
        .ok (Ex.start none true false (some 0) (.dict [("A", [{ start := 4, stop := 6 }])])) ∧
    [BuilderOp.add 0 "Venom" none none (some "A, B"), BuilderOp.add 2 "Hit" none none (some "B, A"),
      BuilderOp.addNext "Spell" none none 2 (some "B")].foldlM
      BuilderOp.run (Ex.start none true false (some 0) (.dict [("A", [{ start := 4, stop := 6 }])])) = .ok rb ∧
    List.Forall₂ (BuilderOp.Renamed (Ex.swap "A" "B"))
      [BuilderOp.add 0 "Venom" none none (some "A, B"), BuilderOp.add 2 "Hit" none none (some "B, A"),
        BuilderOp.addNext "Spell" none none 2 (some "B")]
      [BuilderOp.add 0 "Venom" none none (some "B, A"), BuilderOp.add 2 "Hit" none none (some "A, B"),
        BuilderOp.addNext "Spell" none none 2 (some "A")] ∧
    TiesKept (Ex.swap "A" "B") rb ∧ OneTarget SimConsts.DEFAULT_TARGET ∧ Function.Injective (Ex.swap "A" "B") ∧
    Ex.swap "A" "B" SimConsts.DEFAULT_TARGET = SimConsts.DEFAULT_TARGET ∧
    ∃ a, rb.getSkillTiming 20 = .ok a ∧ 8 ≤ a.events.q.length := by
  have h : Ex.okAnd ([BuilderOp.add 0 "Venom" none none (some "A, B"), BuilderOp.add 2 "Hit" none none (some "B, A"),
      BuilderOp.addNext "Spell" none none 2 (some "B")].foldlM
      BuilderOp.run (Ex.start none true false (some 0) (.dict [("A", [{ start := 4, stop := 6 }])]))) (fun rb =>
        decide ((rb.qTimed.map (·.t)).Nodup) &&
        Ex.okAnd (rb.getSkillTiming 20) (fun a => decide (8 ≤ a.events.q.length))) = true := by
    decide +kernel
  obtain ⟨rb, h1, h⟩ := Ex.ok_of h
  rw [Bool.and_eq_true] at h
  obtain ⟨a, h2, h3⟩ := Ex.ok_of h.2
  refine ⟨rb, by rfl, h1, ?_, Ex.tiesKept (of_decide_eq_true h.1), by unfold OneTarget; decide +kernel,
    Ex.swap_injective _ _, by decide, a, h2, of_decide_eq_true h3⟩
  refine .cons ⟨rfl, rfl, rfl, rfl, ?_⟩ (.cons ⟨rfl, rfl, rfl, rfl, ?_⟩ (.cons ⟨rfl, rfl, rfl, rfl, ?_⟩ .nil)) <;>
    unfold RenamedTargets <;> decide +kernel

/-- C109, damage; partial as above.  With other names for the targets, the damage instances are the same with these
other names, and the simulation gives the same numbers. -/
theorem C109_damage_partial
    (h₀ : RotationBuilder.init stats lib snapDots autos trailing start downtime target = .ok rb₀)
    (hf : Function.Injective f) (hd : f SimConsts.DEFAULT_TARGET = SimConsts.DEFAULT_TARGET ∨ QuietDebuffs lib)
    (h1 : OneTarget target) (h2 : OneTarget (f target))
    (ho : List.Forall₂ (BuilderOp.Renamed f) ops ops') (h : ops.foldlM BuilderOp.run rb₀ = .ok rb) (hq : TiesKept f rb)
    {fuel : ℕ} {a : RotationBuilder} (ha : rb.getSkillTiming fuel = .ok a) {db db' : DamageBuilder}
    (hi : DamageBuilder.init stats lib = .ok db) {l : List DamageInstance}
    (hl : db.getDamageInstances a.events = .ok (l, db')) :
    ∃ rb₀' rb' a' db'', RotationBuilder.init stats lib snapDots autos trailing start (renameRawDowntime f downtime)
        (f target) = .ok rb₀' ∧
      ops'.foldlM BuilderOp.run rb₀' = .ok rb' ∧ rb'.getSkillTiming fuel = .ok a' ∧
      db.getDamageInstances a'.events = .ok (l.map (renameInstance f), db'') ∧
      ∀ n wr ws, DamageSimulator.init stats (l.map (renameInstance f)) n wr ws =
        (DamageSimulator.init stats l n wr ws).map (renameSimulation f) := by
  obtain ⟨rb₀', rb', g1, g2, g3⟩ := C109_timeline_partial h₀ hf hd h1 h2 ho h hq
  have g := g3 fuel
  rw [ha] at g
  match hx : rb'.getSkillTiming fuel with
  | .error z => rw [hx] at g; cases g
  | .ok a' =>
    rw [hx] at g
    have e : a'.events = renameTimeline f a.events := (Prod.mk.inj (Except.ok.inj g)).2
    have k := C105_rotation_partial ha hi hf (hd.imp_right fun hd =>
      Rename.quiet_ends ⟨_, _, _, _, _, _, _, _, rb₀, ops, h₀, h⟩
        (by rw [Rename.runs_lib h, Rename.init_lib h₀]; exact hd) ha)
    rw [hl] at k
    match hy : db.getDamageInstances (renameTimeline f a.events) with
    | .error z => rw [hy] at k; cases k
    | .ok (l', d) =>
      rw [hy] at k
      obtain rfl : l' = l.map (renameInstance f) := Except.ok.inj k
      exact ⟨rb₀', rb', a', d, g1, g2, hx, by rw [e, hy], fun n wr ws => C105_simulated⟩

/-- The poison and the hits of the example above, on "A" and "B". -/
example : ∃ rb a l db', [BuilderOp.add 0 "Venom" none none (some "A, B"), BuilderOp.add 2 "Hit" none none (some "B, A")].foldlM
      BuilderOp.run (Ex.start none false false (some 0) (.tuple [])) = .ok rb ∧ TiesKept (Ex.swap "A" "B") rb ∧
    rb.getSkillTiming 20 = .ok a ∧ DamageBuilder.init Ex.stats Ex.lib = .ok Ex.fresh ∧
    Ex.fresh.getDamageInstances a.events = .ok (l, db') ∧
    (l.map (·.target)).take 4 = ["A", "B", "A", "B"] := by
  have h : Ex.okAnd ([BuilderOp.add 0 "Venom" none none (some "A, B"), BuilderOp.add 2 "Hit" none none (some "B, A")].foldlM
      BuilderOp.run (Ex.start none false false (some 0) (.tuple []))) (fun rb =>
        decide ((rb.qTimed.map (·.t)).Nodup) &&
        Ex.okAnd (rb.getSkillTiming 20) (fun a => Ex.okAnd (Ex.fresh.getDamageInstances a.events) (fun l =>
          decide ((l.1.map (·.target)).take 4 = ["A", "B", "A", "B"])))) = true := by
    decide +kernel
  obtain ⟨rb, h1, h⟩ := Ex.ok_of h
  rw [Bool.and_eq_true] at h
  obtain ⟨a, h2, h3⟩ := Ex.ok_of h.2
  obtain ⟨l, h4, h5⟩ := Ex.ok_of h3
  exact ⟨rb, a, l.1, l.2, h1, Ex.tiesKept (of_decide_eq_true h.1), h2, by decide +kernel, h4, of_decide_eq_true h5⟩

/-- C109 is false for skills used twice at the same time if the names sort differently: the queue of timed skills compares the names of the
targets last (`heappop`, rotation_builder.py:481-484).  After another hit, "Hit" on "A" and "Hit" on "B" at the same time:
with the names exchanged, the event on "A" still comes first. -/
theorem C109_timeline_refuted :
    ∃ (f : String → String) (rb₀ rb rb' a a' : RotationBuilder) (ops ops' : List BuilderOp) (fuel : ℕ),
      RotationBuilder.init Ex.stats Ex.lib none false false (some 0) (.tuple []) SimConsts.DEFAULT_TARGET = .ok rb₀ ∧
      Function.Injective f ∧ f SimConsts.DEFAULT_TARGET = SimConsts.DEFAULT_TARGET ∧
      OneTarget SimConsts.DEFAULT_TARGET ∧ List.Forall₂ (BuilderOp.Renamed f) ops ops' ∧
      ops.foldlM BuilderOp.run rb₀ = .ok rb ∧ ops'.foldlM BuilderOp.run rb₀ = .ok rb' ∧
      rb.getSkillTiming fuel = .ok a ∧ rb'.getSkillTiming fuel = .ok a' ∧
      a.events.q.map (·.targets) = [[SimConsts.DEFAULT_TARGET], ["A"], ["B"]] ∧ (renameTimeline f a.events).q.map (·.targets) = [[SimConsts.DEFAULT_TARGET], ["B"], ["A"]] ∧
      a'.events.q.map (·.targets) = [[SimConsts.DEFAULT_TARGET], ["A"], ["B"]] := by
  have h : Ex.okAnd ([BuilderOp.add 0 "Hit" none none none, BuilderOp.add 2 "Hit" none none (some "A"),
      BuilderOp.add 2 "Hit" none none (some "B")].foldlM
      BuilderOp.run (Ex.start none false false (some 0) (.tuple []))) (fun rb =>
      Ex.okAnd ([BuilderOp.add 0 "Hit" none none none, BuilderOp.add 2 "Hit" none none (some "B"),
        BuilderOp.add 2 "Hit" none none (some "A")].foldlM
        BuilderOp.run (Ex.start none false false (some 0) (.tuple []))) (fun rb' =>
        Ex.okAnd (rb.getSkillTiming 20) (fun a => Ex.okAnd (rb'.getSkillTiming 20) (fun a' =>
          decide (a.events.q.map (·.targets) = [[SimConsts.DEFAULT_TARGET], ["A"], ["B"]] ∧
            (renameTimeline (Ex.swap "A" "B") a.events).q.map (·.targets) = [[SimConsts.DEFAULT_TARGET], ["B"], ["A"]] ∧
            a'.events.q.map (·.targets) = [[SimConsts.DEFAULT_TARGET], ["A"], ["B"]]))))) = true := by
    decide +kernel
  obtain ⟨rb, h1, h⟩ := Ex.ok_of h
  obtain ⟨rb', h2, h⟩ := Ex.ok_of h
  obtain ⟨a, h3, h⟩ := Ex.ok_of h
  obtain ⟨a', h4, h⟩ := Ex.ok_of h
  refine ⟨Ex.swap "A" "B", _, rb, rb', a, a', _, _, 20, rfl, Ex.swap_injective _ _, by decide,
    by unfold OneTarget; decide +kernel, ?_, h1, h2, h3, h4, of_decide_eq_true h⟩
  refine .cons ⟨rfl, rfl, rfl, rfl, trivial⟩ (.cons ⟨rfl, rfl, rfl, rfl, ?_⟩ (.cons ⟨rfl, rfl, rfl, rfl, ?_⟩ .nil)) <;>
    unfold RenamedTargets <;> decide +kernel

/-- A debuff that turns up as a condition. -/
def Ex.brand : Skill :=
  { name := "Brand", isGCD := some false, timingSpec := Ex.instant, debuffSpec := .single (some Ex.surgeSpec) }

/-- The small library with this debuff. -/
def Ex.brandLib : SkillLibrary :=
  { Ex.lib with skills := [("test_job", (Ex.brand :: Ex.skills).map (fun s => (s.name, s)))] }

/-- C109 is false for another default target: conditions from debuffs are looked up on the target called
"Default Target" (`compile_debuffs` without a target, rotation_builder.py:496 and 566), whatever the rotation
is told its default target is.  After a debuff, the next skill has the condition if the default target has the usual name,
and has not if it is called "Boss" - the only target in both rotations. -/
theorem C109_default_refuted :
    ∃ (f : String → String) (rb₀ rb₀' rb rb' a a' : RotationBuilder) (ops : List BuilderOp) (fuel : ℕ),
      Function.Injective f ∧ f SimConsts.DEFAULT_TARGET = "Boss" ∧
      RotationBuilder.init Ex.stats Ex.brandLib none false false (some 0) (.tuple []) SimConsts.DEFAULT_TARGET = .ok rb₀ ∧
      RotationBuilder.init Ex.stats Ex.brandLib none false false (some 0) (.tuple []) "Boss" = .ok rb₀' ∧
      OneTarget SimConsts.DEFAULT_TARGET ∧ OneTarget "Boss" ∧ List.Forall₂ (BuilderOp.Renamed f) ops ops ∧
      ops.foldlM BuilderOp.run rb₀ = .ok rb ∧ ops.foldlM BuilderOp.run rb₀' = .ok rb' ∧ TiesKept f rb ∧
      rb.getSkillTiming fuel = .ok a ∧ rb'.getSkillTiming fuel = .ok a' ∧
      a.events.q.map (fun e => (e.skill.name, e.targets, decide ("Brand" ∈ e.modifier.withCondition))) =
        [("Brand", [SimConsts.DEFAULT_TARGET], false), ("Hit", [SimConsts.DEFAULT_TARGET], true)] ∧
      a'.events.q.map (fun e => (e.skill.name, e.targets, decide ("Brand" ∈ e.modifier.withCondition))) =
        [("Brand", ["Boss"], false), ("Hit", ["Boss"], false)] := by
  have h : Ex.okAnd (RotationBuilder.init Ex.stats Ex.brandLib none false false (some 0) (.tuple [])
      SimConsts.DEFAULT_TARGET) (fun r => Ex.okAnd (RotationBuilder.init Ex.stats Ex.brandLib none false false (some 0)
      (.tuple []) "Boss") (fun r' =>
      Ex.okAnd ([BuilderOp.add 0 "Brand" none none none, BuilderOp.add 2 "Hit" none none none].foldlM
        BuilderOp.run r) (fun rb =>
      Ex.okAnd ([BuilderOp.add 0 "Brand" none none none, BuilderOp.add 2 "Hit" none none none].foldlM
        BuilderOp.run r') (fun rb' =>
        Ex.okAnd (rb.getSkillTiming 20) (fun a => Ex.okAnd (rb'.getSkillTiming 20) (fun a' =>
          decide ((rb.qTimed.map (·.t)).Nodup ∧
            a.events.q.map (fun e => (e.skill.name, e.targets, decide ("Brand" ∈ e.modifier.withCondition))) =
              [("Brand", [SimConsts.DEFAULT_TARGET], false), ("Hit", [SimConsts.DEFAULT_TARGET], true)] ∧
            a'.events.q.map (fun e => (e.skill.name, e.targets, decide ("Brand" ∈ e.modifier.withCondition))) =
              [("Brand", ["Boss"], false), ("Hit", ["Boss"], false)]))))))) = true := by
    decide +kernel
  obtain ⟨r, g1, h⟩ := Ex.ok_of h
  obtain ⟨r', g2, h⟩ := Ex.ok_of h
  obtain ⟨rb, h1, h⟩ := Ex.ok_of h
  obtain ⟨rb', h2, h⟩ := Ex.ok_of h
  obtain ⟨a, h3, h⟩ := Ex.ok_of h
  obtain ⟨a', h4, h⟩ := Ex.ok_of h
  obtain ⟨h5, h6, h7⟩ := of_decide_eq_true h
  refine ⟨Ex.swap SimConsts.DEFAULT_TARGET "Boss", r, r', rb, rb', a, a', _, 20, Ex.swap_injective _ _, by decide, g1, g2,
    by unfold OneTarget; decide +kernel, by unfold OneTarget; decide +kernel, ?_, h1, h2, Ex.tiesKept h5, h3, h4, h6, h7⟩
  exact .cons ⟨rfl, rfl, rfl, rfl, trivial⟩ (.cons ⟨rfl, rfl, rfl, rfl, trivial⟩ .nil)

end Ama
