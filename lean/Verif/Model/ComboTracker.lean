import Verif.Model.Skill

/-!
# Model of `simulator/trackers/combo_tracker.py`

The value `(-math.inf, None)` ("no combo action used") is `none`.
-/

namespace Ama

/-- combo_tracker.py:6-8 -/
structure ComboTracker where
  lastComboSkillUsed : Dict ℤ (Option (ℚ × String)) := []
  comboBreakers : Dict ℤ (List ℤ) := []
deriving DecidableEq

namespace ComboTracker

/-- combo_tracker.py:10-17 `__combo_succeded`.  `-math.inf + 30000 >= t` is false. -/
def comboSucceeded (tr : ComboTracker) (t : ℚ) (spec : ComboSpec) (m : SkillModifier) : Py Bool :=
  if spec.comboAutoSucceed then .ok true
  else if m.forceCombo then .ok true
  else if spec.comboActions.length = 0 then .ok true
  else do
    match ← Dict.get tr.lastComboSkillUsed spec.comboGroup with
    | none => return false
    | some (t0, name) =>
      return decide (t ≤ t0 + GameConsts.COMBO_EXPIRATION_TIME) && decide (name ∈ spec.comboActions)

/-- combo_tracker.py:19-27 `__update_combo` -/
def updateCombo (tr : ComboTracker) (t : ℚ) (spec : ComboSpec) (succeeded : Bool)
    (skillName : String) : ComboTracker :=
  let d := Dict.set tr.lastComboSkillUsed spec.comboGroup
    (if succeeded then some (t, skillName) else none)
  { tr with lastComboSkillUsed := tr.comboBreakers.foldl (fun d kv =>
      if spec.comboGroup ∈ kv.2 then Dict.set d kv.1 none else d) d }

/-- The body of the loop, combo_tracker.py:33-43 -/
def compileStep (t : ℚ) (skillName : String) (m : SkillModifier) (acc : Bool × ComboTracker)
    (spec : ComboSpec) : Py (Bool × ComboTracker) :=
  let (ok, tr) := acc
  if spec.breakAllCombosOnly then .ok (ok, { tr with lastComboSkillUsed := [] })
  else do
    let tr := if Dict.mem tr.lastComboSkillUsed spec.comboGroup then tr
      else { tr with lastComboSkillUsed := Dict.set tr.lastComboSkillUsed spec.comboGroup none }
    let cur ← tr.comboSucceeded t spec m
    return (ok && cur, tr.updateCombo t spec cur skillName)

/-- combo_tracker.py:29-45 `compile_and_update_combo` -/
def compileAndUpdate (tr : ComboTracker) (t : ℚ) (skill : SkillCore) (m : SkillModifier) :
    Py (String × ComboTracker) := do
  let (ok, tr) ← (← skill.getComboSpec m).foldlM (compileStep t skill.name m) (true, tr)
  return (if ok then SimConsts.COMBO_SUCCESS else SimConsts.COMBO_FAIL, tr)

end ComboTracker

end Ama
