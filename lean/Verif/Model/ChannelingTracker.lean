import Verif.Model.Skill
import Mathlib.Data.Prod.Lex

/-!
# Model of `simulator/trackers/channeling_tracker.py`
-/

namespace Ama

/-- The state while channeling: start time, spec and remaining uses (channeling_tracker.py:24-30);
the three attributes are always set and reset together, so they form one optional record. -/
structure Channel where
  start : ℚ
  spec : ChannelingSpec
  uses : WithTop ℤ
deriving DecidableEq

/-- channeling_tracker.py:6-14 -/
structure ChannelingTracker where
  windows : List (ℚ × WithTop ℚ) := []
  channel : Option Channel := none
  isFinalized : Bool := false
deriving DecidableEq

namespace ChannelingTracker

/-- `uses -= 1` -/
def decUses (u : WithTop ℤ) : WithTop ℤ := u.map (· - 1)

/-- channeling_tracker.py:24-30 `__start_channeling` -/
def startChanneling (tr : ChannelingTracker) (t : ℚ) (spec : ChannelingSpec) : Py ChannelingTracker := do
  pyAssert tr.channel.isNone
  return { tr with channel := some { start := t, spec := spec, uses := spec.numUses } }

/-- channeling_tracker.py:32-34 `__end_channeling`, with the end computed as at 48-51 / 62-65 -/
def endChannelingAt (tr : ChannelingTracker) (c : Channel) (t : ℚ) : ChannelingTracker :=
  { tr with
    windows := tr.windows ++ [(c.start, min ((c.start : WithTop ℚ) + c.spec.duration) (t : WithTop ℚ))],
    channel := none }

/-- channeling_tracker.py:36-66 `process_channeling` -/
def process (tr : ChannelingTracker) (t : ℚ) (skill : SkillCore) (m : SkillModifier) :
    Py ChannelingTracker := do
  pyAssert (!tr.isFinalized)
  if strContains SimConsts.WAIT_PREFIX skill.name then return tr
  else
    match ← skill.getChannelingSpec m with
    | some spec =>
      let tr := match tr.channel with
        | some c => tr.endChannelingAt c t
        | none => tr
      tr.startChanneling t spec
    | none =>
      match tr.channel with
      | none => return tr
      | some c =>
        if skill.name ∈ c.spec.skillAllowlist then
          if 0 < decUses c.uses then return { tr with channel := some { c with uses := decUses c.uses } }
          else return tr.endChannelingAt c t
        else return tr.endChannelingAt c t

/-- channeling_tracker.py:68-78 `finalize`: tuples are sorted lexicographically. -/
def finalize (tr : ChannelingTracker) : Py ChannelingTracker := do
  pyAssert (!tr.isFinalized)
  let ws := match tr.channel with
    | some c => tr.windows ++ [(c.start, (c.start : WithTop ℚ) + c.spec.duration)]
    | none => tr.windows
  return { windows := sortBy (fun w => toLex w) ws, channel := none, isFinalized := true }

/-- channeling_tracker.py:80-84 `get_channeling_windows` -/
def getWindows (tr : ChannelingTracker) : Py (List (ℚ × WithTop ℚ)) := do
  pyAssert tr.isFinalized
  return tr.windows

end ChannelingTracker

end Ama
