import Verif.Lemmas.Channeling

/-!
# C23: channeling windows
-/

namespace Ama

open Spec

/-- A skill that channels for 10 s, allowing two uses of "Tick". -/
def exampleChannel : SkillCore :=
  { name := "Flamethrower",
    channelingSpec := .single (some { duration := (10000 : ℚ), skillAllowlist := ["Tick"], numUses := (2 : ℤ) }) }

/-- C23, exact form.  For uses in time order with non-negative channel durations, the reported windows
are exactly the expected ones: each channeling use opens a window that closes after its duration or at
the first interrupting use, whichever comes first; the tracker never raises by itself. -/
theorem C23_windows (us : List ChannelUse) (hr : ∀ u ∈ us, u.Readable)
    (hs : us.Pairwise (fun a b => a.time ≤ b.time))
    (hd : ∀ u ∈ us, ∀ spec, u.channels = some spec → 0 ≤ spec.duration) :
    runChanneling us = .ok (expectedWindows us) := by
  rw [runChanneling_eq us hr, sortBy_expectedWindows hs hd]

/-- C23.  The reported windows are in order, do not overlap, start at a channeling use and last at
most its duration. -/
theorem C23_sane (us : List ChannelUse) (hr : ∀ u ∈ us, u.Readable)
    (hs : us.Pairwise (fun a b => a.time ≤ b.time))
    (hd : ∀ u ∈ us, ∀ spec, u.channels = some spec → 0 ≤ spec.duration) :
    ∃ ws, runChanneling us = .ok ws ∧
      ws.Pairwise (fun a b => a.2 ≤ (b.1 : WithTop ℚ)) ∧
      (∀ w ∈ ws, (w.1 : WithTop ℚ) ≤ w.2) ∧
      ∀ w ∈ ws, ∃ u ∈ us, ∃ spec, u.channels = some spec ∧ w.1 = u.time ∧
        w.2 ≤ (u.time : WithTop ℚ) + spec.duration :=
  ⟨_, C23_windows us hr hs hd, expectedWindows_pairwise hs,
    fun _ hw => expectedWindows_start_le hs hd hw, fun _ hw => expectedWindows_mem hw⟩

/-- C23.  In any order of times the tracker does not raise, and each reported window starts at a
channeling use and lasts at most its duration. -/
theorem C23_any_order (us : List ChannelUse) (hr : ∀ u ∈ us, u.Readable) :
    ∃ ws, runChanneling us = .ok ws ∧ ws.length = (us.filter (fun u => u.channels.isSome)).length ∧
      ∀ w ∈ ws, ∃ u ∈ us, ∃ spec, u.channels = some spec ∧ w.1 = u.time ∧
        w.2 ≤ (u.time : WithTop ℚ) + spec.duration := by
  refine ⟨_, runChanneling_eq us hr, ?_, fun w hw => expectedWindows_mem ((mem_sortBy _).1 hw)⟩
  rw [length_sortBy]
  clear hr
  induction us with
  | nil => rfl
  | cons u us ih =>
    simp only [expectedWindows, List.filter_cons]
    cases u.channels with
    | none => simpa using ih
    | some spec => simpa using ih

/-- One window ends by the second allowed use, one by its duration. -/
example : runChanneling [⟨0, exampleChannel, {}⟩, ⟨1000, { name := "Tick" }, {}⟩,
      ⟨2000, { name := "Wait 1.00" }, {}⟩, ⟨3000, { name := "Tick" }, {}⟩, ⟨5000, exampleChannel, {}⟩,
      ⟨20000, { name := "Hit" }, {}⟩] =
    .ok [(0, ((3000 : ℚ) : WithTop ℚ)), (5000, ((15000 : ℚ) : WithTop ℚ))] := by
  decide +kernel

end Ama
