import Verif.Spec.Import
import Verif.Lemmas.BuilderAdd
import Verif.Examples.Rotation

/-!
# C56: importing a rotation from a table
-/

namespace Ama

open Spec

variable {rb rb' : RotationBuilder} {t : CsvTable}

theorem readRotationFromCsv_some (t : CsvTable) :
    CsvUtils.readRotationFromCsv (some t) = t.rows.map (CsvUtils.readRow t.hasTargets) := by
  have : ∀ (rows : List CsvCells) (acc : List RotationCSV),
      rows.foldl (fun res c => res ++ [CsvUtils.readRow t.hasTargets c]) acc =
        acc ++ rows.map (CsvUtils.readRow t.hasTargets) := by
    intro rows
    induction rows with
    | nil => simp
    | cons c rows ih => intro acc; simp [ih]
  simp [CsvUtils.readRotationFromCsv, this]

theorem addRow_readRow (rb : RotationBuilder) (t : CsvTable) (c : CsvCells) :
    CsvUtils.addRow rb (CsvUtils.readRow t.hasTargets c) = (rowCall t c).run rb := by
  unfold CsvUtils.addRow CsvUtils.readRow AddCall.run rowCall orDefault
  simp only []
  congr 1
  · split_ifs <;> rfl
  · cases t.hasTargets <;> simp

/-- C56: populating a builder from a table performs the calls of `add` its rows stand for, in order:
the same builder results, or the same exception. -/
theorem C56_import (rb : RotationBuilder) (t : CsvTable) :
    (CsvUtils.populateRotationFromCsv rb (some t)).map Prod.fst =
      (t.rows.map (rowCall t)).foldlM AddCall.run rb := by
  have : ∀ (rows : List CsvCells) (rb : RotationBuilder),
      (rows.map (CsvUtils.readRow t.hasTargets)).foldlM CsvUtils.addRow rb =
        (rows.map (rowCall t)).foldlM AddCall.run rb := by
    intro rows
    induction rows with
    | nil => intro rb; rfl
    | cons c rows ih =>
      intro rb
      simp only [List.map_cons, Py.foldlM_cons, addRow_readRow]
      congr 1
      funext rb
      exact ih rb
  unfold CsvUtils.populateRotationFromCsv
  simp only [readRotationFromCsv_some, this]
  cases (t.rows.map (rowCall t)).foldlM AddCall.run rb <;> rfl

/-- C56: one press is queued per row, in row order and at the row's time in whole milliseconds, and
nothing else of the builder's queues changes; the rows read are handed back as well. -/
theorem C56_presses {rows : List RotationCSV}
    (h : CsvUtils.populateRotationFromCsv rb (some t) = .ok (rb', rows)) :
    ∃ ps : List TimedPress, rb'.qTimed = rb.qTimed ++ ps ∧ rb'.qSequence = rb.qSequence ∧
      List.Forall₂ (fun (p : TimedPress) (c : CsvCells) => p.t = pyInt (1000 * c.time) ∧
        p.jobClass = (orDefault c.jobClass).getD rb.stats.jobClass ∧
        rb.lib.getSkill c.skillName p.jobClass = .ok p.skill ∧
        (c.skillConditional ≠ "" → p.modifier = SkillModifier.make c.skillConditional)) ps t.rows ∧
      List.Forall₂ (fun (r : RotationCSV) (c : CsvCells) => r.t = c.time ∧ r.skillName = c.skillName ∧
        r.jobClass = orDefault c.jobClass ∧ r.skillConditional = c.skillConditional ∧
        r.targets = if t.hasTargets then orDefault c.targets else none) rows t.rows := by
  have h1 := C56_import rb t
  rw [h] at h1
  simp only [Except.map] at h1
  have h2 : rows = t.rows.map (CsvUtils.readRow t.hasTargets) := by
    unfold CsvUtils.populateRotationFromCsv at h
    obtain ⟨rb1, _, h⟩ := Py.bind_eq_ok.1 h
    simp only [Py.pure_eq, Except.ok.injEq, Prod.mk.injEq] at h
    rw [← h.2, readRotationFromCsv_some]
  have h3 : ∀ (cs : List CsvCells) (rb rb' : RotationBuilder),
      (cs.map (rowCall t)).foldlM AddCall.run rb = .ok rb' →
      ∃ ps : List TimedPress, rb'.qTimed = rb.qTimed ++ ps ∧ rb'.qSequence = rb.qSequence ∧
      List.Forall₂ (fun (p : TimedPress) (c : CsvCells) => p.t = pyInt (1000 * c.time) ∧
        p.jobClass = (orDefault c.jobClass).getD rb.stats.jobClass ∧
        rb.lib.getSkill c.skillName p.jobClass = .ok p.skill ∧
        (c.skillConditional ≠ "" → p.modifier = SkillModifier.make c.skillConditional)) ps cs := by
    intro cs
    induction cs with
    | nil =>
      intro rb rb' hr
      cases hr
      exact ⟨[], by simp, rfl, .nil⟩
    | cons c cs ih =>
      intro rb rb' hr
      rw [List.map_cons, Py.foldlM_cons] at hr
      obtain ⟨rb1, hr1, hr2⟩ := Py.bind_eq_ok.1 hr
      unfold AddCall.run at hr1
      obtain ⟨skill, hs, rfl⟩ := RotationBuilder.add_ok hr1
      obtain ⟨ps, g1, g2, g3⟩ := ih _ _ hr2
      simp only [] at g1
      rw [List.append_assoc, List.singleton_append] at g1
      refine ⟨_, g1, g2, .cons ⟨rfl, rfl, hs, ?_⟩ g3⟩
      intro hne
      simp [rowCall, orDefault, hne]
  obtain ⟨ps, g1, g2, g3⟩ := h3 _ _ _ h1.symm
  refine ⟨ps, g1, g2, g3, ?_⟩
  rw [h2, List.forall₂_map_left_iff, List.forall₂_same]
  intro c _
  unfold CsvUtils.readRow orDefault
  refine ⟨rfl, rfl, rfl, rfl, ?_⟩
  cases t.hasTargets <;> simp

/-- C56: a missing file leaves the builder alone. -/
theorem C56_missing (rb : RotationBuilder) :
    CsvUtils.populateRotationFromCsv rb none = .ok (rb, []) := rfl

example : ∃ r, CsvUtils.populateRotationFromCsv Ex.start (some { hasTargets := true, rows :=
      [⟨3 / 2, "Hit", "", "", "Boss, Add 1"⟩, ⟨4, "Hit", "", "No Combo", ""⟩] }) = .ok r ∧
    decide (r.1.qTimed.map (fun p => (p.t, p.skill.name, p.modifier.withCondition, p.targets)) =
      [(1500, "Hit", ∅, ["Boss", "Add 1"]), (4000, "Hit", {"No Combo"}, [SimConsts.DEFAULT_TARGET])]) = true :=
  Ex.ok_of (by decide +kernel)

end Ama
