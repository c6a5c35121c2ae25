import Verif.Lemmas.ExampleRotations.Check
import Verif.Props.GameData

/-!
# The example rotations can be built
-/

namespace Ama.ExampleRotations

open GameData Spec

variable {version : String} {level : ℕ} {lib : SkillLibrary}

/-! ## Versions -/

/-- The versions named in the data. -/
def datesOk (ds : Dict ℕ RotationData) : Bool :=
  ds.all (fun ld => decide (ld.2.startVersion = some "6.55" ∨ ld.2.startVersion = some "7.05") &&
    decide (ld.2.endVersion = none ∨ ld.2.endVersion = some "6.55"))

theorem all_dates : ∀ x ∈ allRotations, ∀ kv ∈ x.2, datesOk kv.2 = true := by decide +kernel

theorem validAt_congr {v v' : String} (h1 : v < "6.55" ↔ v' < "6.55") (h2 : v < "7.05" ↔ v' < "7.05")
    (h3 : "6.55" < v ↔ "6.55" < v') (l : ℕ) {ds : Dict ℕ RotationData} (hd : datesOk ds = true) :
    validAt v l ds = validAt v' l ds := by
  unfold validAt
  cases hx : Dict.get? ds l with
  | none => rfl
  | some d =>
    have := List.all_eq_true.1 hd _ (Dict.mem_of_get? hx)
    simp only [Bool.and_eq_true, decide_eq_true_eq] at this
    obtain ⟨a, b⟩ := this
    rcases a with a | a <;> rcases b with b | b <;> simp only [a, b, h1, h2, h3]

theorem rows_congr {v v' : String} (h1 : v < "6.55" ↔ v' < "6.55") (h2 : v < "7.05" ↔ v' < "7.05")
    (h3 : "6.55" < v ↔ "6.55" < v') (l : ℕ) : rows v l = rows v' l := by
  unfold rows
  refine List.flatMap_congr fun x hx => ?_
  unfold rowsOf
  refine List.filterMap_congr fun kv hkv => ?_
  rw [validAt_congr h1 h2 h3 l (all_dates x hx kv hkv)]

theorem text_cases : ∀ e ∈ listed, (decide (textOf e < "6.55") = false) ∧
    (decide (textOf e < "7.05") = e.lt .p705) ∧ (decide ("6.55" < textOf e) = decide (1 < e.pos)) := by
  decide +kernel

theorem rows_floor (hg : Good (Env.of version level)) :
    rows version level = rows (textOf (Env.of version level).floor) level := by
  obtain ⟨t1, t2, t3⟩ := text_cases _ hg.floor
  have p1 := pos_cases version level .p655
  have e2 := Env.of_lt version level .p705
  have hlow : ¬ version < "6.55" := by
    intro h
    have hs := shipped_iff.2 hg
    rcases hs with ⟨_, rfl⟩ | ⟨_, h7⟩
    · exact lt_irrefl _ h
    · exact absurd (lt_of_le_of_lt h7 h) (by decide +kernel)
  refine rows_congr ?_ ?_ ?_ level
  · exact iff_of_false hlow (of_decide_eq_false t1)
  · rw [← decide_eq_decide, t2, floor_lt, e2]
    rfl
  · have h1 : "6.55" < version ↔ 1 < (Env.of version level).pos := p1.1
    have h2 : 1 < (Env.of version level).floor.pos ↔ 1 < (Env.of version level).pos := by
      have := hg.ne2
      unfold Env.floor floorPos
      simp only
      split_ifs <;> omega
    rw [h1, ← h2]
    exact (decide_eq_decide.1 t3).symm

/-! ## Stats -/

theorem traitReduction_90 {v : String} (hv : v ≠ "test") (h : "6.55" ≤ v) (job : String) :
    JobClassFns.traitReduction v job 90 = JobClassFns.traitReduction "6.55" job 90 := by
  unfold JobClassFns.traitReduction JobClassFns.allData
  rw [if_neg hv, if_neg (by decide +kernel)]
  have : ∀ w : String, "6.55" ≤ w → Utils.getGreatestDictKeyVal [("6.55", [("MNK", (2 : ℚ) / 10)])] w =
      .ok (some [("MNK", (2 : ℚ) / 10)]) := by
    intro w hw
    unfold Utils.getGreatestDictKeyVal Utils.getGreatestVal Dict.keys
    simp only [List.map_cons, List.map_nil, List.filter_cons, hw, decide_true, if_true, List.filter_nil,
      List.foldl_nil]
    rfl
  have e : ∀ (x : ℕ) (a b : Dict String (Dict String ℚ)), Dict.get [(90, a), (x, b)] 90 = .ok a := fun _ _ _ => rfl
  rw [e, Py.ok_bind, Py.ok_bind, this v h, this "6.55" le_rfl]

theorem mkStats_version {r : RawStats} (hl : r.level = 90) (hr : r.version = "6.55") {v : String} (hv : v ≠ "test")
    (h : "6.55" ≤ v) : mkStats { r with version := v } = (mkStats r).map (fun s => { s with version := v }) := by
  have ht : v = "test" ↔ r.version = "test" := iff_of_false hv (by rw [hr]; decide +kernel)
  have g := GameConsts.lookup_congr ht
  have p : mkProcessedStats { r with version := v } = mkProcessedStats r := by
    unfold mkProcessedStats
    have a1 : StatFns.getCritStats r.critStat v r.level = StatFns.getCritStats r.critStat r.version r.level := by
      simp only [StatFns.getCritStats, GameConsts.getLevelSub, GameConsts.getLevelDiv, GameConsts.getCritConst0,
        GameConsts.getCritConst1, GameConsts.getCritConst2, g]
    have a2 : StatFns.fDet r.detStat v r.level = StatFns.fDet r.detStat r.version r.level := by
      simp only [StatFns.fDet, GameConsts.getLevelMain, GameConsts.getLevelDiv, GameConsts.getDetConst, g]
    have a3 : StatFns.getDhRate r.dhStat v r.level = StatFns.getDhRate r.dhStat r.version r.level := by
      simp only [StatFns.getDhRate, GameConsts.getLevelSub, GameConsts.getLevelDiv, GameConsts.getDhConst, g]
    have a4 : JobClassFns.jobMods v = JobClassFns.jobMods r.version := by
      unfold JobClassFns.jobMods; simp only [ht]
    have a5 : JobClassFns.traitReduction v r.jobClass r.level =
        JobClassFns.traitReduction r.version r.jobClass r.level := by
      rw [hl, hr]; exact traitReduction_90 hv h _
    have a6 : JobClassFns.traitDamageMult v r.jobClass = JobClassFns.traitDamageMult r.version r.jobClass := by
      unfold JobClassFns.traitDamageMult; simp only [ht]
    simp only [a1, a2, a3, a4, a5, a6]
  unfold mkStats
  rw [p]
  cases mkProcessedStats r with
  | error e => rfl
  | ok q =>
    simp only [Py.ok_bind]
    cases r.weaponDelay with
    | some d => rfl
    | none =>
      simp only
      cases Dict.get GameConsts.WEAPON_DELAYS r.jobClass <;> rfl

theorem statsOf_version {v : String} (hv : v ≠ "test") (h : "6.55" ≤ v) (s : RotationStats) :
    statsOf v s = (statsOf "6.55" s).map (fun x => { x with version := v }) := by
  unfold statsOf
  cases Dict.get GameConsts.WEAPON_DELAYS s.jobClass with
  | error e => rfl
  | ok delay =>
    rw [Py.ok_bind, Py.ok_bind]
    exact mkStats_version (r := {
      wd := s.wd
      weaponDelay := some (s.weaponDelay.getD delay)
      mainStat := s.mainStat
      detStat := s.detStat
      critStat := s.critStat
      dhStat := s.dhStat
      speedStat := s.speedStat
      tenacity := s.tenacity
      healerOrCasterStrength := match s.healerOrCasterStrength with
        | some x => some x
        | none => Dict.get? SpecificRotations.HEALER_CASTER_STRENGTH s.jobClass
      jobClass := s.jobClass
      version := "6.55" }) rfl rfl hv h

/-! ## Presses -/

theorem addNexts_ok {rb : RotationBuilder} (ht : rb.defaultTarget = SimConsts.DEFAULT_TARGET)
    {names : List String} (h : ∀ n ∈ names, ∃ s, rb.lib.getSkill n rb.stats.jobClass = .ok s) :
    ∃ qs tgs, names.foldlM (fun rb sk => rb.addNext sk) rb =
        .ok { rb with allTargets := tgs, qSequence := rb.qSequence ++ qs } ∧
      List.Forall₂ (PlainPress rb.lib rb.stats.jobClass) names qs := by
  induction names generalizing rb with
  | nil => exact ⟨[], rb.allTargets, by simp, .nil⟩
  | cons n names ih =>
    obtain ⟨s, hs⟩ := h n (by simp)
    have hstep : rb.addNext n = .ok { rb with
        allTargets := rb.allTargets ∪ (RotationBuilder.splitTargets rb.defaultTarget).toFinset
        qSequence := rb.qSequence ++ [SeqPress.mk s SkillModifier.make rb.stats.jobClass (RotationBuilder.splitTargets rb.defaultTarget)] } := by
      unfold RotationBuilder.addNext RotationBuilder.processTargets RotationBuilder.getDefaultSkillModifier
      simp only [Option.getD_none, hs, Py.ok_bind, Py.pure_eq, ne_eq, not_true_eq_false, if_false]
      rfl
    rw [Py.foldlM_cons, hstep, Py.ok_bind]
    obtain ⟨qs, tgs, h1, h2⟩ := ih (rb := { rb with
        allTargets := rb.allTargets ∪ (RotationBuilder.splitTargets rb.defaultTarget).toFinset
        qSequence := rb.qSequence ++ [SeqPress.mk s SkillModifier.make rb.stats.jobClass (RotationBuilder.splitTargets rb.defaultTarget)] }) ht (fun n' hn' => h n' (by simp [hn']))
    refine ⟨SeqPress.mk s SkillModifier.make rb.stats.jobClass (RotationBuilder.splitTargets rb.defaultTarget) :: qs,
      tgs, by rw [h1]; simp, .cons ⟨hs, rfl, ?_, ?_⟩ h2⟩
    · show SkillModifier.make = _
      decide +kernel
    · show RotationBuilder.splitTargets rb.defaultTarget = _
      rw [ht]
      decide +kernel

theorem addParty_ok {rb : RotationBuilder} (ht : rb.defaultTarget = SimConsts.DEFAULT_TARGET)
    {ps : List PartySkill} (h : ∀ p ∈ ps, (∃ s, rb.lib.getSkill p.skillName p.jobClass = .ok s) ∧
      p.jobClass ≠ rb.stats.jobClass ∧ p.modifier = none) :
    ∃ qs tgs, ps.foldlM addPartySkill rb = .ok { rb with allTargets := tgs, qTimed := rb.qTimed ++ qs } ∧
      List.Forall₂ (PartyPress rb.lib) ps qs := by
  induction ps generalizing rb with
  | nil => exact ⟨[], rb.allTargets, by simp, .nil⟩
  | cons p ps ih =>
    obtain ⟨⟨s, hs⟩, hj, hm⟩ := h p (by simp)
    have hstep : addPartySkill rb p = .ok { rb with
        allTargets := rb.allTargets ∪ (RotationBuilder.splitTargets rb.defaultTarget).toFinset
        qTimed := rb.qTimed ++ [TimedPress.mk (pyInt (1000 * p.t)) s (SkillModifier.make s.offClassDefaultCondition)
          p.jobClass (RotationBuilder.splitTargets rb.defaultTarget)] } := by
      unfold addPartySkill RotationBuilder.add RotationBuilder.processTargets
        RotationBuilder.getDefaultSkillModifier
      simp only [hm, Option.getD_none, Option.getD_some, hs, Py.ok_bind, Py.pure_eq, ne_eq, hj, not_false_eq_true,
        if_true]
    rw [Py.foldlM_cons, hstep, Py.ok_bind]
    obtain ⟨qs, tgs, h1, h2⟩ := ih (rb := { rb with
        allTargets := rb.allTargets ∪ (RotationBuilder.splitTargets rb.defaultTarget).toFinset
        qTimed := rb.qTimed ++ [TimedPress.mk (pyInt (1000 * p.t)) s (SkillModifier.make s.offClassDefaultCondition)
          p.jobClass (RotationBuilder.splitTargets rb.defaultTarget)] }) ht (fun p' hp' => h p' (by simp [hp']))
    refine ⟨TimedPress.mk (pyInt (1000 * p.t)) s (SkillModifier.make s.offClassDefaultCondition) p.jobClass
      (RotationBuilder.splitTargets rb.defaultTarget) :: qs, tgs, by rw [h1]; simp, .cons ⟨rfl, hs, rfl, rfl, ?_⟩ h2⟩
    show RotationBuilder.splitTargets rb.defaultTarget = _
    rw [ht]
    decide +kernel

/-! ## Rows -/

theorem row_ok (hg : Good (Env.of version level)) {r : Row} (hr : r ∈ rows version level) :
    rowOk (Env.of version level).floor r = true := by
  rw [rows_floor hg] at hr
  have := checked _ hg.floor
  unfold rowsOk at this
  exact List.all_eq_true.1 this r hr

/-- Between patches there are no rotations for Monks and Vipers. -/
def calm (e : Env) : Bool :=
  (rows (textOf e) e.level.toNat).all (fun r => decide (r.2.2.stats.jobClass ∉ ["MNK", "VPR"]))

theorem calm_ok : ∀ e ∈ listed, e.pos = 3 ∨ e.pos = 5 → calm e = true := by decide +kernel

theorem row_calm (hg : Good (Env.of version level)) {r : Row} (hr : r ∈ rows version level)
    (hp : (Env.of version level).pos = 4 ∨ (Env.of version level).pos = 6) :
    r.2.2.stats.jobClass ∉ ["MNK", "VPR"] := by
  rw [rows_floor hg] at hr
  have := calm_ok _ hg.floor (by
    rcases hp with hp | hp
    · exact Or.inl (show floorPos _ = 3 by rw [hp]; rfl)
    · exact Or.inr (show floorPos _ = 5 by rw [hp]; rfl))
  unfold calm at this
  exact of_decide_eq_true (List.all_eq_true.1 this r hr)

/-- What is known of a row. -/
structure RowFacts (version : String) (level : ℕ) (r : Row) : Prop where
  stats : statsOk r.2.2.stats = true
  autos : r.1 = true ↔ r.2.2.stats.jobClass ∉ ["WHM", "SGE", "AST"]
  guests : ∀ p ∈ r.2.2.partySkills.getD [], p.modifier = none ∧ p.jobClass ≠ r.2.2.stats.jobClass ∧
    p.jobClass ≠ "MCH" ∧ ∃ j ∈ jobClasses (Env.of version level), j.jobClass = p.jobClass ∧
      (rawsOf j).any (fun x => decide (x.name = p.skillName) && noGauge x) = true
  times : ((r.2.2.partySkills.getD []).map (fun p => (pyInt (1000 * p.t), p.skillName))).Nodup
  own : ∃ j ∈ jobClasses (Env.of version level), j.jobClass = r.2.2.stats.jobClass ∧
    (∀ n ∈ r.2.2.skills, genericName (Env.of version level) n = true ∨
      (rawsOf j).any (fun x => decide (x.name = n)) = true) ∧
    (r.2.2.stats.jobClass = "MCH" ∨ ∃ n ∈ r.2.2.skills,
      (rawsOf j).any (fun x => decide (x.name = n) && hurtsAlways x) = true)

theorem row_facts (hg : Good (Env.of version level)) {r : Row} (hr : r ∈ rows version level) :
    RowFacts version level r := by
  have h := row_ok hg hr
  unfold rowOk at h
  simp only [Bool.and_eq_true, decide_eq_true_eq, List.all_eq_true, List.any_eq_true, Bool.or_eq_true] at h
  obtain ⟨⟨⟨⟨h1, h2⟩, h3⟩, h4⟩, j, hj, hjj, h5, h6⟩ := h
  refine ⟨h1, h2, fun p hp => ?_, of_decide_eq_true h4, j, ?_, hjj, ?_, ?_⟩
  · have := h3 p hp
    unfold guestOk at this
    simp only [Bool.and_eq_true, decide_eq_true_eq, List.any_eq_true] at this
    obtain ⟨⟨⟨⟨a1, a2⟩, a3⟩, a4⟩, k, hk, hkk, x, hx, a5, a6⟩ := this
    refine ⟨a1, a2, a3, k, ?_, hkk, List.any_eq_true.2 ⟨x, hx, by simp [a5, a6]⟩⟩
    rw [← hkk] at a4
    simp only [List.mem_cons, List.not_mem_nil, or_false, not_or] at a4
    exact (floor_mem hg (fun h => a4.1 h.1) (fun h => a4.2 h.1)).1 hk
  · have hc := row_calm hg hr
    rw [← hjj] at hc
    refine (floor_mem hg (fun h => ?_) (fun h => ?_)).1 hj
    · exact hc (Or.inl h.2) (by simp [h.1])
    · exact hc (Or.inr h.2) (by simp [h.1])
  · intro n hn
    rcases h5 n hn with h | ⟨x, hx, h⟩
    · left
      unfold genericName at h ⊢
      rwa [floor_ge] at h
    · exact Or.inr (List.any_eq_true.2 ⟨x, hx, by simp [h]⟩)
  · rcases h6 with h | ⟨n, hn, x, hx, h, h'⟩
    · exact Or.inl h
    · exact Or.inr ⟨n, hn, List.any_eq_true.2 ⟨x, hx, by simp [h, h']⟩⟩

/-- The skills that a row names are in the library. -/
theorem RowFacts.skill {r : Row} (hf : RowFacts version level r) (h : createSkillLibrary version level = .ok lib)
    {n : String} (hn : n ∈ r.2.2.skills) : ∃ s, lib.getSkill n r.2.2.stats.jobClass = .ok s := by
  obtain ⟨cs, base, ws, hl⟩ := library_of h
  obtain ⟨j, hj, hjj, h5, -⟩ := hf.own
  have hjob : lib.hasJobClass r.2.2.stats.jobClass = true := by
    rw [hl.hasJob, ← hjj]
    exact List.mem_map_of_mem hj
  rcases h5 n hn with hgen | hr
  · have hG := C75_generic h hjob
    unfold genericName at hgen
    simp only [Bool.or_eq_true, decide_eq_true_eq, Bool.and_eq_true] at hgen
    rcases hgen with (rfl | ⟨rfl, hge⟩) | rfl
    · exact hG.1 _ (by simp)
    · rw [Env.of_ge] at hge
      exact hG.2.2.2 (of_decide_eq_true hge)
    · obtain ⟨s, hs, -⟩ := C75_waits h hjob (k := 90) (by omega)
      have : ("Wait " ++ toString (90 / 100) ++ "." ++ toString (90 / 10 % 10) ++ toString (90 % 10) ++ "s") =
          "Wait 0.90s" := by decide +kernel
      rw [this] at hs
      exact ⟨s, hs⟩
  · obtain ⟨x, s, h2, h3, h4⟩ := hl.fact hj hr
    rw [hjj] at h4
    exact ⟨s, of_decide_eq_true h2 ▸ h4⟩

theorem foldlM_map {α β γ : Type} (f : γ → β → Py γ) (g : α → β) (l : List α) (x : γ) :
    (l.map g).foldlM f x = l.foldlM (fun x a => f x (g a)) x := by
  induction l generalizing x with
  | nil => rfl
  | cons a l ih =>
    rw [List.map_cons, Py.foldlM_cons, Py.foldlM_cons]
    congr 1
    funext y
    exact ih y

theorem foldlM_congr {α γ : Type} {f g : γ → α → Py γ} {l : List α} (h : ∀ x, ∀ a ∈ l, f x a = g x a) (x : γ) :
    l.foldlM f x = l.foldlM g x := by
  induction l generalizing x with
  | nil => rfl
  | cons a l ih =>
    rw [Py.foldlM_cons, Py.foldlM_cons, h x a (by simp)]
    congr 1
    funext y
    exact ih (fun x b hb => h x b (by simp [hb])) y

/-- The stats of a row. -/
theorem RowFacts.madeStats {r : Row} (hf : RowFacts version level r) (hv : version ≠ "test") (hw : "6.55" ≤ version) :
    ∃ s, statsOf version r.2.2.stats = .ok s ∧ s.level = 90 ∧ s.jobClass = r.2.2.stats.jobClass ∧
      s.version = version ∧
      100 ≤ (pyInt (1000 * s.weaponDelay) : ℚ) * (1 - s.processed.traitAutoAttackDelayReduction) ∧
      ∃ delay, (r.2.2.stats.weaponDelay = some delay ∨
        (r.2.2.stats.weaponDelay = none ∧
          Dict.get? GameConsts.WEAPON_DELAYS r.2.2.stats.jobClass = some delay)) ∧
        mkStats {
          wd := r.2.2.stats.wd, weaponDelay := some delay, mainStat := r.2.2.stats.mainStat
          detStat := r.2.2.stats.detStat, critStat := r.2.2.stats.critStat, dhStat := r.2.2.stats.dhStat
          speedStat := r.2.2.stats.speedStat, tenacity := r.2.2.stats.tenacity
          jobClass := r.2.2.stats.jobClass, version := version, level := 90
          healerOrCasterStrength := Dict.get? [("SCH", 351), ("WHM", 214), ("SGE", 234), ("AST", 195),
            ("SMN", 351), ("RDM", 214), ("BLM", 175), ("PCT", 214)] r.2.2.stats.jobClass } = .ok s := by
  have h := hf.stats
  unfold statsOk at h
  cases hs : statsOf "6.55" r.2.2.stats with
  | error e => rw [hs] at h; cases h
  | ok x =>
    rw [hs] at h
    simp only [Bool.and_eq_true, decide_eq_true_eq] at h
    have hm : statsOf version r.2.2.stats = .ok { x with version := version } := by
      rw [statsOf_version hv hw, hs]; rfl
    refine ⟨_, hm, ?_, ?_, rfl, h.1, ?_⟩
    · unfold statsOf at hs
      obtain ⟨dl, _, hs⟩ := Py.bind_eq_ok.1 hs
      obtain ⟨p, d, _, _, rfl⟩ := mkStats_ok hs
      rfl
    · unfold statsOf at hs
      obtain ⟨dl, _, hs⟩ := Py.bind_eq_ok.1 hs
      obtain ⟨p, d, _, _, rfl⟩ := mkStats_ok hs
      rfl
    · unfold statsOf at hm
      obtain ⟨dl, hdl, hm⟩ := Py.bind_eq_ok.1 hm
      rw [h.2] at hm
      refine ⟨r.2.2.stats.weaponDelay.getD dl, ?_, hm⟩
      cases hwd : r.2.2.stats.weaponDelay with
      | some y => exact Or.inl rfl
      | none => exact Or.inr ⟨rfl, Dict.get_ok.1 hdl⟩

theorem rowBuild_ok (h : createSkillLibrary version level = .ok lib) (hv : version ≠ "test") {r : Row}
    (hr : r ∈ rows version level) :
    ∃ rb, rowBuild lib r = .ok rb ∧ ExampleOf lib version r.2.2 rb ∧ rb.stats.level = 90 ∧
      rb.stats.jobClass = r.2.2.stats.jobClass ∧ rb.stats.version = version ∧
      100 ≤ (pyInt (1000 * rb.stats.weaponDelay) : ℚ) * (1 - rb.stats.processed.traitAutoAttackDelayReduction) := by
  have hg := good_of h
  have hf := row_facts hg hr
  have hw : "6.55" ≤ version := by
    rcases shipped_iff.2 hg with ⟨_, rfl⟩ | ⟨_, h7⟩
    · exact le_rfl
    · exact le_trans (by decide +kernel) h7
  obtain ⟨s, hs, s1, s2, s2', s3, s4⟩ := hf.madeStats hv hw
  obtain ⟨cs, base, ws, hl⟩ := library_of h
  have hjob : lib.hasJobClass s.jobClass = true := by
    obtain ⟨j, hj, hjj, -⟩ := hf.own
    rw [hl.hasJob, s2, ← hjj]
    exact List.mem_map_of_mem hj
  obtain ⟨pr, hpr⟩ := hl.made.priority _ hjob
  have ht := created_tidy h
  have hver : lib.version = version := ht.version
  obtain ⟨rb0, h0, a1, a2, a3, a4, a5, a6, a7, a8, a9, a10⟩ : ∃ rb0, RotationBuilder.init s lib
      (ignoreTrailingDots := true) (enableAutos := r.1) (snapDots := some 0) = .ok rb0 ∧ rb0.lib = lib ∧
      rb0.stats = s ∧ rb0.qTimed = [] ∧ rb0.qSequence = [] ∧ rb0.fightStart = none ∧ rb0.enableAutos = r.1 ∧
      rb0.ignoreTrailingDots = true ∧ rb0.snapDots = some 0 ∧ rb0.downtime = .tuple [] ∧
      rb0.defaultTarget = SimConsts.DEFAULT_TARGET := by
    unfold RotationBuilder.init
    rw [hpr]
    exact ⟨_, rfl, rfl, rfl, rfl, rfl, rfl, rfl, rfl, rfl, rfl, rfl⟩
  obtain ⟨qs, tgs, h1, h2⟩ := addParty_ok (rb := rb0) (ps := r.2.2.partySkills.getD []) a10 (by
    intro p hp
    obtain ⟨b1, b2, -, j, hj, hjj, b3⟩ := hf.guests p hp
    obtain ⟨x, sk, c1, c2, c3⟩ := hl.fact hj b3
    simp only [Bool.and_eq_true, decide_eq_true_eq] at c1
    rw [a1, a2, s2]
    rw [hjj, c1.1] at c3
    exact ⟨⟨sk, c3⟩, b2, b1⟩)
  obtain ⟨qs', tgs', h3, h4⟩ := addNexts_ok (rb := { rb0 with allTargets := tgs, qTimed := rb0.qTimed ++ qs })
    (names := r.2.2.skills) a10 (by
      intro n hn
      show ∃ s, rb0.lib.getSkill n rb0.stats.jobClass = .ok s
      rw [a1, a2, s2]
      exact hf.skill h hn)
  have hbuild {x : RotationBuilder} (hx : r.2.2.skills.foldlM (fun rb sk => rb.addNext sk)
      { rb0 with allTargets := tgs, qTimed := rb0.qTimed ++ qs } = .ok x) : rowBuild lib r = .ok x := by
    unfold rowBuild buildWith
    rw [hver, hs, Py.ok_bind, h0, Py.ok_bind, h1, Py.ok_bind]
    exact hx
  refine ⟨_, hbuild h3, ⟨?_, a1, ?_, ?_, ?_, ?_, a7, a8, a5, a9, a10⟩, ?_, ?_, ?_, ?_⟩
  · refine ⟨s, lib, _, _, _, _, _, _, rb0, (r.2.2.partySkills.getD []).map (fun p =>
      BuilderOp.add p.t p.skillName none (some p.jobClass) none) ++
      r.2.2.skills.map (fun n => BuilderOp.addNext n none none 1 none), h0, ?_⟩
    rw [Py.foldlM_append, foldlM_map]
    have e1 : (r.2.2.partySkills.getD []).foldlM (fun x p => BuilderOp.run x
        (BuilderOp.add p.t p.skillName none (some p.jobClass) none)) rb0 =
        (r.2.2.partySkills.getD []).foldlM addPartySkill rb0 := by
      refine foldlM_congr (fun x p hp => ?_) rb0
      unfold addPartySkill
      rw [(hf.guests p hp).1]
      rfl
    rw [e1, h1, Py.ok_bind, foldlM_map]
    exact h3
  · simpa only [a2] using s4
  · simpa only [a1, a2, a4, s2, List.nil_append] using h4
  · simpa only [a1, a3, List.nil_append] using h2
  · show rb0.enableAutos = true ↔ _
    rw [a6]
    exact hf.autos
  · show rb0.stats.level = 90
    rw [a2, s1]
  · show rb0.stats.jobClass = _
    rw [a2, s2]
  · show rb0.stats.version = _
    rw [a2, s2']
  · simpa only [a2] using s3

end Ama.ExampleRotations
