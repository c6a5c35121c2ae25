import Verif.Props.Simulate
import Verif.Lemmas.ExampleRotations.Sensible

/-!
# The example rotations (C88-C92)
-/

namespace Ama

open Spec GameData ExampleRotations

variable {version : String} {level : ℕ} {lib : SkillLibrary} {res : RotationLibrary}

/-! ## C88: they are those of the data -/

/-- C88: for every library that can be created, except that of version "test", the example rotations can be
built.  They are the listed ones, in that order and for those job classes; and each does what the data of that
name and level says, which covers the version. -/
theorem C88_examples (h : createSkillLibrary version level = .ok lib) (hv : version ≠ "test") :
    ∃ res, getExampleRotations lib = .ok res ∧
      List.Forall₂ (fun x n => x.1 = n.1 ∧ x.2.stats.jobClass = n.2 ∧
        ∃ d, ExampleData n.1 level d ∧ (∀ a, d.startVersion = some a → a ≤ version) ∧
          (∀ b, d.endVersion = some b → version ≤ b) ∧ ExampleOf lib version d x.2)
        res (exampleNames version level) := by
  obtain ⟨res, h1, h2⟩ := getExampleRotations_ok h hv
  refine ⟨res, h1, ?_⟩
  rw [← (rows_names (good_of h)).1, List.forall₂_map_right_iff]
  refine (List.forall₂_iff_get.2 ⟨h2.length_eq.symm, fun i hi hj => ?_⟩)
  have hr : (rows version level).get ⟨i, hj⟩ ∈ rows version level := List.get_mem _ _
  obtain ⟨a1, a2⟩ := (List.forall₂_iff_get.1 h2).2 i hj hi
  obtain ⟨rb, b1, b2, b3, b4, b5, b6⟩ := rowBuild_ok h hv hr
  rw [a2] at b1
  cases b1
  obtain ⟨c1, c2, c3⟩ := row_data hr
  exact ⟨a1, b4, _, c1, c2, c3, b2⟩

/-- There are such libraries, and the lists are not empty. -/
example : (∃ lib, createSkillLibrary "6.55" 90 = .ok lib) ∧ (exampleNames "6.55" 90).length = 19 ∧
    (∃ lib, createSkillLibrary "7.05" 100 = .ok lib) ∧ (exampleNames "7.05" 100).length = 23 :=
  ⟨(C75_created _ _).2 (by decide +kernel), by decide +kernel, (C75_created _ _).2 (by decide +kernel),
    by decide +kernel⟩

/-- C88 fails for version "test", for which a library can be created: the stats raise a KeyError. -/
theorem C88_test_refuted (h : createSkillLibrary "test" level = .ok lib) :
    getExampleRotations lib = .error .keyError := by
  have ht := created_tidy h
  rw [getExampleRotations_eq, ht.version, ht.level]
  have hl : level = 90 ∨ level = 100 := by
    rcases shipped_iff.2 (good_of h) with ⟨h', _⟩ | ⟨h', _⟩
    · exact Or.inl h'
    · exact h'
  have key : (match rows "test" level with
      | r :: _ => (match statsOf "test" r.2.2.stats with | .error .keyError => true | _ => false)
      | [] => false) = true := by
    rcases hl with rfl | rfl <;> decide +kernel
  split at key
  · rename_i r rs hrs
    split at key
    · rename_i he
      rw [hrs, Py.foldlM_cons]
      unfold addRow rowBuild
      rw [ht.version, he]
      rfl
    · cases key
  · cases key

example : ∃ lib, createSkillLibrary "test" 90 = .ok lib := (C75_created _ _).2 (by decide +kernel)

/-- A member of the result of `get_example_rotations`. -/
theorem example_of (h : createSkillLibrary version level = .ok lib) (hv : version ≠ "test")
    (hr : getExampleRotations lib = .ok res) {name : String} {rb : RotationBuilder} (hx : (name, rb) ∈ res) :
    ∃ r ∈ rows version level, r.2.1 = name ∧ ExampleOf lib version r.2.2 rb ∧ rb.stats.level = 90 ∧
      rb.stats.jobClass = r.2.2.stats.jobClass ∧ rb.stats.version = version ∧
      100 ≤ (pyInt (1000 * rb.stats.weaponDelay) : ℚ) *
        (1 - rb.stats.processed.traitAutoAttackDelayReduction) := by
  obtain ⟨res', h1, h2⟩ := getExampleRotations_ok h hv
  rw [hr] at h1
  cases h1
  obtain ⟨r, hrr, ha, hb⟩ := forall₂_left h2 hx
  obtain ⟨rb', b1, b2⟩ := rowBuild_ok h hv hrr
  rw [hb] at b1
  cases b1
  exact ⟨r, hrr, ha.symm, b2⟩

/-- No example is one for a Viper between 7.01 and 7.05. -/
theorem example_viper (h : createSkillLibrary version level = .ok lib) {r : Row} (hr : r ∈ rows version level) :
    ¬ (r.2.2.stats.jobClass = "VPR" ∧ "7.01" < version ∧ version < "7.05") := by
  rintro ⟨hj, h1, h2⟩
  have hm : (r.2.1, r.2.2.stats.jobClass) ∈ exampleNames version level := by
    rw [← (rows_names (good_of h)).1]
    exact List.mem_map.2 ⟨r, hr, rfl⟩
  rw [hj] at hm
  have hne : version ≠ "6.55" := fun he => absurd (he ▸ h1) (by decide +kernel)
  unfold exampleNames at hm
  rw [if_neg hne, if_pos h2, if_pos h2] at hm
  split_ifs at hm <;> simp at hm

/-! ## C89: they can be played and simulated -/

/-- C89, in part: every example rotation has a timeline, except possibly those for Machinists.  Missing: the
rotations for Machinists. -/
theorem C89_timeline_partial (h : createSkillLibrary version level = .ok lib) (hv : version ≠ "test")
    (hr : getExampleRotations lib = .ok res) {name : String} {rb : RotationBuilder} (hx : (name, rb) ∈ res)
    (hm : rb.stats.jobClass ≠ "MCH") :
    ∃ n rb', ∀ fuel, n ≤ fuel → rb.getSkillTiming fuel = .ok rb' := by
  obtain ⟨r, hrr, rfl, he, h1, h2, -, h4⟩ := example_of h hv hr hx
  refine C84_no_raise h he.built he.library (row_sensible h hrr he h1 h2 h4 (h2 ▸ hm)) (fun _ => ?_)
  rw [h2]
  exact example_viper h hrr

/-- C89 (simulation), in part: if no two damaging hits of the same name fall on the same time, the example rotation gives
damage instances and these can be simulated.  Missing: the rotations for Machinists, and whether damaging hits of the
same name fall on the same time. -/
theorem C89_simulated_partial (h : createSkillLibrary version level = .ok lib) (hv : version ≠ "test")
    (hr : getExampleRotations lib = .ok res) {name : String} {rb : RotationBuilder} (hx : (name, rb) ∈ res)
    (hm : rb.stats.jobClass ≠ "MCH") :
    ∃ k rb' db, (∀ fuel, k ≤ fuel → rb.getSkillTiming fuel = .ok rb') ∧
      DamageBuilder.init rb.stats lib = .ok db ∧
      (HitsApart rb'.events.q →
        ∃ xs db', db.getDamageInstances rb'.events = .ok (xs, db') ∧
          (xs ≠ [] → xs.length ≤ 5000 → ∀ n wr ws, ∃ sim,
            DamageSimulator.init rb.stats xs n wr ws = .ok sim ∧ sim.getDamageMatrix.length = xs.length ∧
              sim.getRawDamage.length = n)) := by
  obtain ⟨r, hrr, rfl, he, h1, h2, -, h4⟩ := example_of h hv hr hx
  refine C86_shipped_partial h he.built he.library (row_sensible h hrr he h1 h2 h4 (h2 ▸ hm))
    (row_complete hrr hv he) (fun _ => ?_)
  rw [h2]
  exact example_viper h hrr

/-- There is such a rotation. -/
example : ∃ lib res rb, createSkillLibrary "7.05" 100 = .ok lib ∧ getExampleRotations lib = .ok res ∧
    ("NIN", rb) ∈ res ∧ rb.stats.jobClass = "NIN" := by
  obtain ⟨lib, h⟩ := Ex.shipped705
  obtain ⟨res, h1, h2⟩ := C88_examples h (by decide)
  obtain ⟨x, hx, h3, h4, -⟩ := forall₂_left h2 (b := ("NIN", "NIN")) (by decide +kernel)
  obtain ⟨a, b⟩ := x
  cases h3
  exact ⟨lib, res, b, h, h1, hx, h4⟩

/-! ## C90: their stats -/

/-- C90, in part: for a library of level 90, the stats of every example rotation are of the version and the level
of the library.  Missing: level 100, where this is false. -/
theorem C90_level_partial (h : createSkillLibrary version 90 = .ok lib) (hv : version ≠ "test")
    (hr : getExampleRotations lib = .ok res) {name : String} {rb : RotationBuilder} (hx : (name, rb) ∈ res) :
    rb.stats.level = lib.level ∧ rb.stats.version = lib.version := by
  obtain ⟨r, hrr, rfl, he, h1, h2, h3, h4⟩ := example_of h hv hr hx
  have ht := created_tidy h
  exact ⟨by rw [h1, ht.level], by rw [h3, ht.version]⟩

example : ∃ lib, createSkillLibrary "7.1" 90 = .ok lib := (C75_created _ _).2 (by decide +kernel)

/-- C90 fails for libraries of level 100: the stats of all example rotations are those of a character of
level 90, although the skills are those of level 100; and from 7.05 on there are twenty-three. -/
theorem C90_level_refuted (h : createSkillLibrary version 100 = .ok lib) (hv : version ≠ "test")
    (hr : getExampleRotations lib = .ok res) :
    lib.level = 100 ∧ (∀ name rb, (name, rb) ∈ res → rb.stats.level = 90) ∧ ("7.05" ≤ version → res.length = 23) := by
  have ht := created_tidy h
  refine ⟨ht.level, fun name rb hx => ?_, fun h7 => ?_⟩
  · obtain ⟨r, hrr, rfl, he, h1, -⟩ := example_of h hv hr hx
    exact h1
  · obtain ⟨res', h1, h2⟩ := C88_examples h hv
    rw [hr] at h1
    cases h1
    rw [h2.length_eq]
    unfold exampleNames
    rw [if_neg (by decide), if_neg (not_lt.2 h7)]
    rfl

/-! ## C91: the skills of the party -/

/-- C91, in part: party skills without a modifier are pressed once each, at their times and for their jobs, in
this order after what was there before.  Missing: party skills with a modifier, where this is false. -/
theorem C91_party_partial {ps : List PartySkill} {rb rb' : RotationBuilder}
    (h : ps.foldlM addPartySkill rb = .ok rb') (hm : ∀ p ∈ ps, p.modifier = none) :
    ∃ qs, rb'.qTimed = rb.qTimed ++ qs ∧ rb'.qSequence = rb.qSequence ∧
      List.Forall₂ (fun p q => q.t = pyInt (1000 * p.t) ∧ q.jobClass = p.jobClass ∧
        rb.lib.getSkill p.skillName p.jobClass = .ok q.skill ∧ q.modifier =
          SkillModifier.make (if p.jobClass ≠ rb.stats.jobClass then q.skill.offClassDefaultCondition else ""))
        ps qs := by
  induction ps generalizing rb with
  | nil =>
    cases h
    exact ⟨[], by simp, rfl, .nil⟩
  | cons p ps ih =>
    rw [Py.foldlM_cons] at h
    obtain ⟨rb1, h1, h⟩ := Py.bind_eq_ok.1 h
    obtain ⟨qs, h2, h3, h4⟩ := ih h (fun q hq => hm q (by simp [hq]))
    unfold addPartySkill at h1
    rw [hm p (by simp)] at h1
    simp only [Py.pure_eq, Py.ok_bind] at h1
    unfold RotationBuilder.add RotationBuilder.processTargets at h1
    simp only [Option.getD_none, Option.getD_some] at h1
    obtain ⟨s, hs, h1⟩ := Py.bind_eq_ok.1 h1
    cases h1
    refine ⟨TimedPress.mk (pyInt (1000 * p.t)) s (rb.getDefaultSkillModifier s p.jobClass) p.jobClass
      (RotationBuilder.splitTargets rb.defaultTarget) :: qs, ?_, h3, .cons ⟨rfl, rfl, hs, ?_⟩ h4⟩
    · rw [h2, List.append_assoc]
      rfl
    · unfold RotationBuilder.getDefaultSkillModifier
      simp only
      split_ifs <;> rfl

/-- There are such skills. -/
example : Ex.okAnd (do
    let rb ← RotationBuilder.init Ex.stats Ex.lib
    [⟨63 / 10, "Hit", Ex.stats.jobClass, none⟩, ⟨1, "Haste", Ex.stats.jobClass, none⟩].foldlM addPartySkill rb)
      (fun rb => decide (rb.qTimed.map (fun p => (p.t, p.skill.name)) = [(6300, "Hit"), (1000, "Haste")])) = true := by
  decide +kernel

/-- C91 fails for a party skill with a modifier: it is pressed twice at its time, with the modifier and
without. -/
theorem C91_party_refuted {p : PartySkill} {m : SkillModifier} (hm : p.modifier = some m) {rb : RotationBuilder}
    {s : Skill} (hs : rb.lib.getSkill p.skillName p.jobClass = .ok s) :
    ∃ rb' q q', addPartySkill rb p = .ok rb' ∧ rb'.qTimed = rb.qTimed ++ [q, q'] ∧
      q.skill = s ∧ q'.skill = s ∧ q.t = pyInt (1000 * p.t) ∧ q'.t = pyInt (1000 * p.t) ∧ q.modifier = m ∧
      q'.modifier = SkillModifier.make (if p.jobClass ≠ rb.stats.jobClass then s.offClassDefaultCondition else "") := by
  unfold addPartySkill RotationBuilder.add RotationBuilder.processTargets
  simp only [hm, Option.getD_some, Option.getD_none, hs, Py.ok_bind, Py.pure_eq]
  refine ⟨_, _, _, rfl, by simp; exact ⟨rfl, rfl⟩, rfl, rfl, rfl, rfl, rfl, ?_⟩
  unfold RotationBuilder.getDefaultSkillModifier
  simp only
  split_ifs <;> rfl

/-! ## C92: every job has one -/

/-- C92, in part: for level 100 from version 7.05 on, every job class of the library has an example rotation.
Missing: all other versions and levels, where this is false. -/
theorem C92_covered_partial (h : createSkillLibrary version 100 = .ok lib) (hv : version ≠ "test")
    (h7 : "7.05" ≤ version) (hr : getExampleRotations lib = .ok res) {job : String}
    (hj : lib.hasJobClass job = true) : ∃ name rb, (name, rb) ∈ res ∧ rb.stats.jobClass = job := by
  obtain ⟨res', h1, h2⟩ := C88_examples h hv
  rw [hr] at h1
  cases h1
  have hm : ∃ n, (n, job) ∈ exampleNames version 100 := by
    have he : exampleNames version 100 = exampleNames "7.05" 100 := by
      unfold exampleNames
      rw [if_neg (by decide), if_neg (not_lt.2 h7), if_neg (by decide), if_neg (by decide +kernel)]
    have key : ∀ j ∈ ["DRK", "GNB", "PLD", "WAR", "AST", "SCH", "SGE", "WHM", "BRD", "DNC", "MCH", "BLM", "RDM",
        "SMN", "DRG", "MNK", "NIN", "RPR", "SAM"] ++ ["PCT", "VPR"], (j, j) ∈ exampleNames "7.05" 100 := by
      decide +kernel
    rw [he]
    exact ⟨job, key job (List.mem_append.2 (((C75_jobs h job).1 hj).imp id And.right))⟩
  obtain ⟨n, hn⟩ := hm
  obtain ⟨x, hx, -, h4, -⟩ := forall₂_left h2 hn
  exact ⟨x.1, x.2, hx, h4⟩

example : ∃ lib, createSkillLibrary "7.1" 100 = .ok lib := (C75_created _ _).2 (by decide +kernel)

/-- C92 fails for level 90: there are Astrologians, but there is no example for them. -/
theorem C92_astrologian_refuted (h : createSkillLibrary version 90 = .ok lib) (hv : version ≠ "test")
    (hr : getExampleRotations lib = .ok res) : lib.hasJobClass "AST" = true ∧
      ∀ name rb, (name, rb) ∈ res → rb.stats.jobClass ≠ "AST" := by
  refine ⟨(C75_jobs h "AST").2 (Or.inl (by simp)), fun name rb hx he => ?_⟩
  obtain ⟨res', h1, h2⟩ := C88_examples h hv
  rw [hr] at h1
  cases h1
  obtain ⟨x, hx, -, h4, -⟩ := forall₂_right h2 hx
  rw [he] at h4
  obtain ⟨a, b⟩ := x
  simp only at h4
  subst h4
  unfold exampleNames at hx
  rw [if_pos rfl] at hx
  split_ifs at hx <;> simp at hx

/-- C92 fails for level 100 before 7.05: there are no examples. -/
theorem C92_early_refuted (h : createSkillLibrary version 100 = .ok lib) (h7 : version < "7.05") :
    getExampleRotations lib = .ok [] ∧ lib.hasJobClass "WAR" = true := by
  have hv : version ≠ "test" := fun he => absurd (he ▸ h7) (by decide +kernel)
  refine ⟨?_, (C75_jobs h "WAR").2 (Or.inl (by simp))⟩
  obtain ⟨res', h1, h2⟩ := C88_examples h hv
  unfold exampleNames at h2
  rw [if_neg (by decide), if_pos h7] at h2
  cases h2
  exact h1

example : ∃ lib, createSkillLibrary "7.01" 100 = .ok lib := (C75_created _ _).2 (by decide +kernel)

end Ama
