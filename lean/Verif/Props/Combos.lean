import Verif.Lemmas.Combos

/-!
# C21, C22: combos
-/

namespace Ama

open Spec

/-- A combo starter (group 0), its follow-up, and an action of another group. -/
def exampleStarter : SkillCore := { name := "First", comboSpec := .single [{}] }

/-- See `exampleStarter`. -/
def exampleFollower : SkillCore :=
  { name := "Second", comboSpec := .single [{ comboActions := ["First"] }] }

/-- See `exampleStarter`. -/
def exampleOtherGroup : SkillCore := { name := "Other", comboSpec := .single [{ comboGroup := 1 }] }

/-! ## C21 -/

/-- C21.  For every history of uses, a use is reported as a combo success (the empty
suffix) exactly when each of its
combo actions follows the combo rule `ComboOk` (break-all actions do not count); otherwise it is
reported as a failure ("No Combo").  In particular a failed action of the same group in between (which does not
"leave" the group) resets it. -/
theorem C21_combo_rule (breakers : Dict ℤ (List ℤ)) (us : List ComboUse) (outs : List String)
    (tr : ComboTracker) (h : runCombo { comboBreakers := breakers } us = .ok (outs, tr)) :
    outs.length = us.length ∧
    ∀ i out, outs[i]? = some out →
      (out = "" ∨ out = "No Combo") ∧
      (out = "" ↔ ∀ p a, (comboActions 0 us)[p]? = some a → a.use = i →
        a.spec.breakAllCombosOnly = true ∨ ComboOk breakers (comboActions 0 us) p) := by
  refine ⟨runCombo_length h, ?_⟩
  have h0 : ({ comboBreakers := breakers } : ComboTracker).Tracks breakers [] := by
    refine ⟨rfl, ?_⟩
    intro g t name
    simp [ComboTracker.look]
  have := (runCombo_results us 0 [] _ tr outs h0 (by simp) h).2
  simp only [List.nil_append, Nat.zero_add] at this
  exact this

/-- C21, totality: the tracker raises only if looking up a combo specification raises. -/
theorem C21_total (tr : ComboTracker) (us : List ComboUse)
    (h : ∀ u ∈ us, ∃ specs, u.skill.getComboSpec u.modifier = .ok specs) :
    ∃ outs tr', runCombo tr us = .ok (outs, tr') := by
  induction us generalizing tr with
  | nil => exact ⟨[], tr, rfl⟩
  | cons u us ih =>
    obtain ⟨specs, hs⟩ := h u (by simp)
    obtain ⟨r, tr1, h1, _⟩ := foldlM_combo_total u.time u.skill.name u.modifier specs true tr
    obtain ⟨outs, tr2, h2⟩ := ih tr1 (fun v hv => h v (by simp [hv]))
    refine ⟨(if r then SimConsts.COMBO_SUCCESS else SimConsts.COMBO_FAIL) :: outs, tr2, ?_⟩
    simp only [runCombo, ComboTracker.compileAndUpdate, hs, Py.ok_bind, h1, Py.pure_eq, h2]

/-- Success within 30 s across another group's action; failure when the group was broken, when too
late, and after a failed action of the group. -/
example :
    (runCombo {} [⟨0, exampleStarter, {}⟩, ⟨10000, exampleOtherGroup, {}⟩,
        ⟨30000, exampleFollower, {}⟩, ⟨31000, exampleFollower, {}⟩,
        ⟨32000, exampleStarter, {}⟩, ⟨62001, exampleFollower, {}⟩]).map Prod.fst =
      .ok ["", "", "", "No Combo", "",
        "No Combo"] ∧
    (runCombo { comboBreakers := [(0, [1])] } [⟨0, exampleStarter, {}⟩,
        ⟨10000, exampleOtherGroup, {}⟩, ⟨30000, exampleFollower, {}⟩]).map Prod.fst =
      .ok ["", "", "No Combo"] := by
  decide +kernel

/-! ## C22 -/

/-- C22.  A use changes the combo state only of its own groups, of groups broken by them, or of all
groups if it is a break-all action. -/
theorem C22_other_groups (tr tr' : ComboTracker) (u : ComboUse) (out : String) (g : ℤ)
    (h : tr.compileAndUpdate u.time u.skill u.modifier = .ok (out, tr'))
    (hg : LeavesGroup tr.comboBreakers g u) :
    Dict.get? tr'.lastComboSkillUsed g = Dict.get? tr.lastComboSkillUsed g ∧
      tr'.comboBreakers = tr.comboBreakers := by
  unfold ComboTracker.compileAndUpdate at h
  obtain ⟨specs, hs, h⟩ := Py.bind_eq_ok.1 h
  obtain ⟨⟨b, tr1⟩, h1, h⟩ := Py.bind_eq_ok.1 h
  simp only [Py.pure_eq, Except.ok.injEq, Prod.mk.injEq] at h
  obtain ⟨_, rfl⟩ := h
  obtain ⟨r, tr2, e1, e2, e3⟩ := foldlM_combo_leaves u.time u.skill.name u.modifier specs true tr g
    (hg specs hs)
  rw [h1] at e1
  simp only [Except.ok.injEq, Prod.mk.injEq] at e1
  obtain ⟨_, rfl⟩ := e1
  exact ⟨e2, e3⟩

/-- C22.  A skill without a combo specification leaves the state untouched and succeeds. -/
theorem C22_no_combo (tr : ComboTracker) (u : ComboUse)
    (hs : u.skill.getComboSpec u.modifier = .ok []) :
    tr.compileAndUpdate u.time u.skill u.modifier = .ok ("", tr) := by
  unfold ComboTracker.compileAndUpdate
  rw [hs]
  rfl

/-- C22.  What an action does to the groups: it records itself in its own group on success, clears
its own group on failure, and clears every group it breaks. -/
theorem C22_own_group (tr tr' : ComboTracker) (u : ComboUse) (spec : ComboSpec) (out : String)
    (hs : u.skill.getComboSpec u.modifier = .ok [spec]) (hb : spec.breakAllCombosOnly = false)
    (h : tr.compileAndUpdate u.time u.skill u.modifier = .ok (out, tr')) :
    (∀ g, Breaks tr.comboBreakers spec.comboGroup g →
      (Dict.get? tr'.lastComboSkillUsed g).join = none) ∧
    (¬ Breaks tr.comboBreakers spec.comboGroup spec.comboGroup →
      (Dict.get? tr'.lastComboSkillUsed spec.comboGroup).join =
        if out = "" then some (u.time, u.skill.name) else none) := by
  unfold ComboTracker.compileAndUpdate at h
  rw [hs, Py.ok_bind] at h
  obtain ⟨⟨b, tr1⟩, h1, h⟩ := Py.bind_eq_ok.1 h
  simp only [Py.pure_eq, Except.ok.injEq, Prod.mk.injEq] at h
  obtain ⟨ho, rfl⟩ := h
  obtain ⟨b', tr2, e1, _, _, e4⟩ := compileStep_combo u.time u.skill.name u.modifier true tr spec hb
  rw [Py.foldlM_cons, e1, Py.ok_bind, Py.foldlM_nil] at h1
  simp only [Bool.true_and, Except.ok.injEq, Prod.mk.injEq] at h1
  obtain ⟨rfl, rfl⟩ := h1
  refine ⟨fun g hg => (e4 g).1 hg, ?_⟩
  intro hn
  have := (e4 spec.comboGroup).2.1 hn rfl
  unfold ComboTracker.look at this
  rw [this, ← ho]
  cases b' <;> simp [SimConsts.COMBO_SUCCESS, SimConsts.COMBO_FAIL]

/-- C22.  A lone break-all action clears every group. -/
theorem C22_break_all (tr tr' : ComboTracker) (u : ComboUse) (spec : ComboSpec) (out : String)
    (hs : u.skill.getComboSpec u.modifier = .ok [spec]) (hb : spec.breakAllCombosOnly = true)
    (h : tr.compileAndUpdate u.time u.skill u.modifier = .ok (out, tr')) (g : ℤ) :
    (Dict.get? tr'.lastComboSkillUsed g).join = none := by
  unfold ComboTracker.compileAndUpdate ComboTracker.compileStep at h
  rw [hs] at h
  simp only [Py.ok_bind, Py.foldlM_cons, hb, if_true, Py.foldlM_nil, Py.pure_eq, Except.ok.injEq,
    Prod.mk.injEq] at h
  obtain ⟨_, rfl⟩ := h
  rfl

/-- An action of group 1 leaves the state of group 0. -/
example : LeavesGroup [] 0 ⟨5, exampleOtherGroup, {}⟩ := by
  intro specs hs spec hspec
  have h : exampleOtherGroup.getComboSpec {} = .ok [{ comboGroup := 1 }] := by decide +kernel
  have hs' : specs = [{ comboGroup := 1 }] := by
    have := h.symm.trans hs
    cases this
    rfl
  subst hs'
  simp only [List.mem_singleton] at hspec
  subst hspec
  refine ⟨rfl, by decide, ?_⟩
  rintro ⟨gs, hin, _⟩
  simp at hin

example : ({ name := "Hit" } : SkillCore).getComboSpec {} = .ok [] := by decide +kernel

end Ama
