import Verif.Lemmas.GameData.Create
import Verif.Lemmas.GameData.Floor

/-!
# The generic skills
-/

namespace Ama.GameData.Generic

open Spec

/-! ## Potions and deaths -/

theorem pot_floor (e : Env) (n : String) (a : ℤ) : pot e.floor n a = pot e n a := by
  simp only [pot, getSkillData_floor]

theorem skillMethods_floor (e : Env) : skillMethods e.floor = skillMethods e := by
  simp only [skillMethods, pot_floor, floor_ge]

/-- The names of the potions and deaths. -/
def baseNames : List String :=
  ["Grade 1 Gemdraught", "Grade 2 Gemdraught", "Grade 8 Tincture", "Grade 7 Tincture", "Death", "Weakness",
   "Brink of Death"]

/-- The names of the limit breaks. -/
def lbNames : List String := ["LB 1", "LB 2", "LB 3"]

/-- No names to refer to. -/
def noNames : Names := ⟨[], [], [], [], fun _ _ => false, [], false⟩

/-- What is checked of methods that each give one skill with one of the given names. -/
def checkEach (names : List String) (ms : List (Py PyVal)) : Bool :=
  match asRaws ms with
  | none => false
  | some rs => decide (rs.map (·.name)).Nodup && (rs.all (fun r => names.contains r.name) &&
    rs.all (checkSkill {} noNames))

theorem checkEach_sound {names : List String} {ms : List (Py PyVal)} (h : checkEach names ms = true) :
    ∃ rs : List RawSkill, ∃ ss, ms = rs.map (fun r => .ok (.skill r)) ∧ rs.mapM mkSkill = .ok ss ∧
      (ss.map (·.name)).Nodup ∧ (∀ s ∈ ss, s.name ∈ names) ∧ ∀ s ∈ ss, SkillOk {} noNames s := by
  unfold checkEach at h
  split at h
  · cases h
  · rename_i rs hrs
    simp only [Bool.and_eq_true, decide_eq_true_eq] at h
    obtain ⟨h1, h2, h3⟩ := h
    obtain ⟨ss, e1, e2, e3, _⟩ := mapM_skills (List.all_eq_true.1 h3)
    refine ⟨rs, ss, asRaws_some hrs, e1, e2 ▸ h1, fun s hs => ?_, e3⟩
    have : s.name ∈ rs.map (·.name) := e2 ▸ List.mem_map.2 ⟨s, hs, rfl⟩
    obtain ⟨r, hr, hn⟩ := List.mem_map.1 this
    have := List.all_eq_true.1 h2 r hr
    rw [← hn]
    simpa using this

theorem base_checked : ∀ e ∈ listed, checkEach baseNames (skillMethods e) = true := by
  decide +kernel

/-! ## Waits -/

/-- The name of a wait. -/
def waitName (i : ℕ) : String := SimConsts.WAIT_PREFIX ++ " " ++ seconds i ++ "s"

/-- The arguments of the constructor of a wait. -/
def waitRaw (i : ℕ) : RawSkill :=
  { name := waitName i
    isGCD := some false
    timingSpec := .single (some { baseCastTime := 0, animationLock := ((i : ℤ) : ℚ) }) }

theorem wait_eq (i : ℕ) : wait i = .ok (.skill (waitRaw i)) := rfl

theorem waitRaw_checked (i : ℕ) : checkSkill {} noNames (waitRaw i) = true := by
  have h : saneTiming { baseCastTime := 0, animationLock := (i : ℚ) } = true := by
    rw [saneTiming_iff]
    exact ⟨le_refl _, by norm_num [GameConsts.GCD_RECAST_TIME], by simp, by norm_num⟩
  have h' : wholeTiming { baseCastTime := 0, animationLock := (i : ℚ) } = true := by
    rw [wholeTiming_iff]
    exact ⟨⟨0, rfl⟩, ⟨2500, rfl⟩, ⟨i, by simp⟩, ⟨0, rfl⟩⟩
  simp [checkSkill, dropOk, waitRaw, RawCond.answers, RawCond.values, h, h', knownGauges, knownCombos, toldOk, noNames,
    allConds, dropConds, rawKeys]

/-- The number of centiseconds in the name of a wait. -/
def readWait (a : String) : ℕ :=
  match a.toList.drop 5 with
  | s :: _ :: d :: c :: _ => (s.toNat - 48) * 100 + (d.toNat - 48) * 10 + (c.toNat - 48)
  | _ => 0

theorem readWait_name : ∀ k ∈ List.range 1000, readWait (waitName (10 * k)) = k ∧
    (waitName (10 * k)).toList.take 5 = "Wait ".toList := by
  decide +kernel

theorem waits_nodup : (waits.map waitName).Nodup := by
  have h : ((waits.map waitName).map readWait) = List.range 1000 := by
    simp only [waits, List.map_map]
    conv_rhs => rw [← List.map_id (List.range 1000)]
    exact List.map_congr_left fun k hk => (readWait_name k hk).1
  have : ((waits.map waitName).map readWait).Nodup := h ▸ List.nodup_range
  exact this.of_map

theorem waits_name {i : ℕ} (hi : i ∈ waits) : (waitName i).toList.take 5 = "Wait ".toList := by
  obtain ⟨k, hk, rfl⟩ := List.mem_map.1 hi
  exact (readWait_name k hk).2

/-! ## Limit breaks -/

/-- The names of all job classes. -/
def allJobs : List String :=
  ["DRK", "GNB", "PLD", "WAR", "AST", "SCH", "SGE", "WHM", "BRD", "DNC", "MCH", "BLM", "RDM", "SMN", "PCT",
   "DRG", "MNK", "NIN", "RPR", "SAM", "VPR"]

/-- The limit breaks of a job class pass the check. -/
def checkLb (j : String) : Bool :=
  match limitBreaks j with
  | .ok ms => checkEach lbNames ms
  | .error _ => false

theorem lb_checked : ∀ j ∈ allJobs, checkLb j = true := by
  decide +kernel

theorem lb_sound {j : String} (hj : j ∈ allJobs) :
    ∃ rs : List RawSkill, ∃ ss, limitBreaks j = .ok (rs.map (fun r => .ok (.skill r))) ∧
      rs.mapM mkSkill = .ok ss ∧
      (ss.map (·.name)).Nodup ∧ (∀ s ∈ ss, s.name ∈ lbNames) ∧ ∀ s ∈ ss, SkillOk {} noNames s := by
  have h := lb_checked j hj
  unfold checkLb at h
  split at h
  · rename_i ms hms
    obtain ⟨rs, ss, h1, h2⟩ := checkEach_sound h
    exact ⟨rs, ss, by rw [hms, h1], h2⟩
  · cases h

/-! ## All together -/

/-- The generic skills of a listed version, and the waits. -/
theorem generics {e : Env} (he : e ∈ listed) :
    ∃ rs : List RawSkill, ∃ base ws, skillMethods e ++ waits.map wait = rs.map (fun r => .ok (.skill r)) ∧
      rs.mapM mkSkill = .ok (base ++ ws) ∧
      ((base ++ ws).map (·.name)).Nodup ∧ (∀ s ∈ base, s.name ∈ baseNames) ∧
      (ws.map (·.name) = waits.map waitName) ∧ (waits.map waitRaw).mapM mkSkill = .ok ws ∧
      (∀ s ∈ base ++ ws, SkillOk {} noNames s) ∧
      ∃ rb : List RawSkill, skillMethods e = rb.map (fun r => .ok (.skill r)) ∧ rb.mapM mkSkill = .ok base := by
  obtain ⟨rs, base, h1, h2, h3, h4, h5⟩ := checkEach_sound (base_checked e he)
  obtain ⟨ws, e1, e2, e3, _⟩ := mapM_skills (x := {}) (n := noNames) (l := waits.map waitRaw) (by
    intro r hr
    obtain ⟨i, _, rfl⟩ := List.mem_map.1 hr
    exact waitRaw_checked i)
  have hnames : ws.map (·.name) = waits.map waitName := by
    rw [e2, List.map_map]
    rfl
  refine ⟨rs ++ waits.map waitRaw, base, ws, ?_, ?_, ?_, h4, hnames, e1, ?_, rs, h1, h2⟩
  · rw [h1, List.map_append, List.map_map]
    congr 1
  · rw [List.mapM_append, h2, Py.ok_bind, e1]
    rfl
  · rw [List.map_append, List.nodup_append, hnames]
    refine ⟨h3, waits_nodup, ?_⟩
    rintro a ha b hb rfl
    obtain ⟨s, hs, rfl⟩ := List.mem_map.1 ha
    obtain ⟨i, hi, hb⟩ := List.mem_map.1 hb
    have hw := waits_name hi
    rw [hb] at hw
    have : ∀ a ∈ baseNames, a.toList.take 5 ≠ "Wait ".toList := by decide +kernel
    exact this _ (h4 s hs) hw
  · intro s hs
    rcases List.mem_append.1 hs with hs | hs
    · exact h5 s hs
    · exact e3 s hs

end Ama.GameData.Generic
