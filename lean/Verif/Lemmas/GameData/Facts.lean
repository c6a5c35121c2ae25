import Verif.Lemmas.GameData.Shipped

/-!
# Single facts about the shipped library
-/

namespace Ama.GameData

open Spec SkillLibrary

variable {version : String} {level : ℕ} {lib : SkillLibrary} {cs : List ClassSkills} {base ws : List Skill}

theorem library_of (h : createSkillLibrary version level = .ok lib) :
    ∃ cs base ws, Library version level lib cs base ws := by
  by_cases hs : Shipped version level
  · obtain ⟨lib', cs, base, ws, h1, h2⟩ := library hs
    rw [h] at h1
    cases h1
    exact ⟨cs, base, ws, h2⟩
  · obtain ⟨e, he⟩ := not_shipped hs
    rw [h] at he
    cases he

theorem good_of (h : createSkillLibrary version level = .ok lib) : Good (Env.of version level) := by
  rw [← shipped_iff]
  by_contra hs
  obtain ⟨e, he⟩ := not_shipped hs
  rw [h] at he
  cases he

/-- Collecting skills succeeds just if the arguments of all constructors can be collected and all
constructors succeed. -/
theorem getSkills_of_raw {ms : List (Py PyVal)} {l : List RawSkill} (h : getRawSkills ms = .ok l) :
    getSkills ms = l.mapM mkSkill := by
  unfold getSkills
  rw [h]
  rfl

theorem mapM_mem' {α β : Type} {f : α → Py β} {l : List α} {l' : List β} (h : l.mapM f = .ok l') {a : α}
    (ha : a ∈ l) : ∃ b ∈ l', f a = .ok b := by
  induction l generalizing l' with
  | nil => cases ha
  | cons x l ih =>
    rw [List.mapM_cons] at h
    obtain ⟨b', h1, h⟩ := Py.bind_eq_ok.1 h
    obtain ⟨l'', h2, h⟩ := Py.bind_eq_ok.1 h
    cases h
    rcases List.mem_cons.1 ha with rfl | ha
    · exact ⟨b', by simp, h1⟩
    · obtain ⟨b, hb, h3⟩ := ih h2 ha
      exact ⟨b, by simp [hb], h3⟩

/-- A skill described by a class is in the library. -/
theorem Library.raw (h : Library version level lib cs base ws) {j : JobClass}
    (hj : j ∈ jobClasses (Env.of version level)) {l : List RawSkill}
    (hl : getRawSkills j.skillMethods = .ok l) {r : RawSkill} (hr : r ∈ l) :
    ∃ s, mkSkill r = .ok s ∧ lib.getSkill r.name j.jobClass = .ok s := by
  obtain ⟨c, hc, hb⟩ := forall₂_mem' h.classes hj
  rcases hb.1.skills with hs | ⟨hs, h0⟩
  · rw [getSkills_of_raw hl] at hs
    obtain ⟨s, hs', hm⟩ := mapM_mem' hs hr
    exact ⟨s, hm, (h.made.skills _ _ _).2 ⟨c, hc, hb.1.job, mkSkill_name hm, Or.inl hs'⟩⟩
  · rcases hb.2 with ⟨n, ho⟩ | ⟨_, _, _, hv⟩
    · rw [ho.skills] at hs
      cases hs
    · rw [hl] at hv
      cases hv

/-! ## Generic skills -/

theorem asRaws_map (rs : List RawSkill) : asRaws (rs.map (fun r => .ok (.skill r))) = some rs := by
  induction rs with
  | nil => rfl
  | cons r rs ih =>
    rw [List.map_cons, asRaws, ih]
    rfl

theorem mapM_names {rs : List RawSkill} {ss : List Skill} (h : rs.mapM mkSkill = .ok ss) :
    ss.map (·.name) = rs.map (·.name) := by
  induction rs generalizing ss with
  | nil =>
    cases h
    rfl
  | cons r rs ih =>
    rw [List.mapM_cons] at h
    obtain ⟨s, h1, h⟩ := Py.bind_eq_ok.1 h
    obtain ⟨ss', h2, h⟩ := Py.bind_eq_ok.1 h
    cases h
    rw [List.map_cons, List.map_cons, mkSkill_name h1, ih h2]

/-- The names of the generic skills of a version. -/
def genericsOf (e : Env) : List String :=
  (if e.ge .p70 then ["Grade 1 Gemdraught"] else []) ++ (if e.ge .p705 then ["Grade 2 Gemdraught"] else []) ++
  ["Grade 8 Tincture", "Grade 7 Tincture", "Death", "Weakness", "Brink of Death"]

/-- The names of the skills that methods give. -/
def methodNames (ms : List (Py PyVal)) : List String := ((asRaws ms).getD []).map (·.name)

theorem base_names : ∀ e ∈ listed, methodNames (Generic.skillMethods e) = genericsOf e := by
  decide +kernel

theorem lb_names : ∀ j ∈ Generic.allJobs,
    (match Generic.limitBreaks j with | .ok ms => methodNames ms | .error _ => []) = Generic.lbNames := by
  decide +kernel

theorem genericsOf_floor (e : Env) : genericsOf e.floor = genericsOf e := by
  unfold genericsOf
  rw [floor_ge, floor_ge]

theorem Library.base_names (hg : Good (Env.of version level)) (h : Library version level lib cs base ws) :
    base.map (·.name) = genericsOf (Env.of version level) := by
  obtain ⟨rs, h1, h2⟩ := h.methods
  have := GameData.base_names _ hg.floor
  rw [Generic.skillMethods_floor, genericsOf_floor, h1] at this
  rw [mapM_names h2, ← this, methodNames, asRaws_map]
  rfl

theorem lbs_names {j : String} (hj : j ∈ Generic.allJobs) : (lbsOf j).map (·.name) = Generic.lbNames := by
  obtain ⟨rs, h1, h2, _⟩ := lbsOf_spec hj
  have := lb_names j hj
  rw [h1] at this
  rw [mapM_names h2, ← this]
  show _ = methodNames _
  rw [methodNames, asRaws_map]
  rfl

theorem Library.hasJob (h : Library version level lib cs base ws) (job : String) :
    lib.hasJobClass job = true ↔ job ∈ (jobClasses (Env.of version level)).map (·.jobClass) := by
  rw [h.made.jobs, becomes_jobs h.classes]

theorem Library.find (h : Library version level lib cs base ws) {job : String}
    (hj : lib.hasJobClass job = true) : ∃ c ∈ cs, c.jobClass = job := by
  simpa using (h.made.jobs job).1 hj

theorem job_unique {e : Env} {j j' : JobClass} (h : j ∈ jobClasses e) (h' : j' ∈ jobClasses e)
    (hj : j.jobClass = j'.jobClass) : j = j' :=
  List.inj_on_of_nodup_map (jobs_nodup e) h h' hj

theorem Vpr.mem {e : Env} (h : e.ge .p70 = true) : Vpr.job e ∈ jobClasses e := by
  unfold jobClasses
  rw [h]
  simp

theorem Brd.mem (e : Env) : Brd.job e ∈ jobClasses e := by simp [jobClasses]
theorem Sam.mem (e : Env) : Sam.job e ∈ jobClasses e := by simp [jobClasses]
theorem Rpr.mem (e : Env) : Rpr.job e ∈ jobClasses e := by simp [jobClasses]
theorem Whm.mem (e : Env) : Whm.job e ∈ jobClasses e := by simp [jobClasses]
theorem Ast.mem (e : Env) : Ast.job e ∈ jobClasses e := by simp [jobClasses]
theorem Sch.mem (e : Env) : Sch.job e ∈ jobClasses e := by simp [jobClasses]
theorem Sge.mem (e : Env) : Sge.job e ∈ jobClasses e := by simp [jobClasses]
theorem Mch.mem (e : Env) : Mch.job e ∈ jobClasses e := by simp [jobClasses]
theorem Rdm.mem (e : Env) : Rdm.job e ∈ jobClasses e := by simp [jobClasses]
theorem Blm.mem (e : Env) : Blm.job e ∈ jobClasses e := by simp [jobClasses]

/-! ## Names -/

/-- The arguments of the constructors of the skills of a class. -/
def rawsOf (j : JobClass) : List RawSkill :=
  match getRawSkills j.skillMethods with
  | .ok l => l
  | .error _ => []

/-- All names of skills and follow-ups. -/
def allNames (l : List RawSkill) : List String :=
  l.flatMap (fun r => r.name :: r.followUpSkills.values.flatMap (fun fs => fs.map (fun f => f.skill.name)))

theorem base_follow : ∀ e ∈ listed, (allNames ((asRaws (Generic.skillMethods e)).getD [])).all
    (fun a => Generic.baseNames.contains a) = true := by
  decide +kernel

theorem lb_follow : ∀ j ∈ Generic.allJobs,
    (allNames ((asRaws (match Generic.limitBreaks j with | .ok ms => ms | .error _ => [])).getD [])).all
    (fun a => Generic.lbNames.contains a) = true := by
  decide +kernel

theorem wait_follow (i : ℕ) : allNames [Generic.waitRaw i] = [Generic.waitName i] := rfl

/-- A name that is performed is one of those named by the constructors. -/
theorem names_of_skill {rs : List RawSkill} {r : RawSkill} (hr : r ∈ rs) {s : Skill} (hs : mkSkill r = .ok s)
    {a : String} (ha : s.name = a ∨ ∃ m fs, s.getFollowUpSkills m = .ok fs ∧ ∃ f ∈ fs, f.skill.name = a) :
    a ∈ allNames rs := by
  refine List.mem_flatMap.2 ⟨r, hr, ?_⟩
  rcases ha with rfl | ⟨m, fs, hfs, f, hf, rfl⟩
  · rw [mkSkill_name hs]
    simp
  · unfold Skill.getFollowUpSkills at hfs
    rw [mkSkill_followUps hs] at hfs
    rcases Cond.lookupTuple_mem hfs with h | rfl
    · exact List.mem_cons_of_mem _ (List.mem_flatMap.2 ⟨fs, RawCond.values_canonicalize h,
        List.mem_map.2 ⟨f, hf, rfl⟩⟩)
    · cases hf

theorem Library.performs (hg : Good (Env.of version level)) (h : Library version level lib cs base ws)
    {job a : String} (hp : Performs lib job a) :
    (∃ j ∈ jobClasses (Env.of version level), j.jobClass = job ∧ a ∈ allNames (rawsOf j)) ∨
      a ∈ Generic.baseNames ∨ a ∈ Generic.lbNames ∨ a.toList.take 5 = "Wait ".toList := by
  have key : ∃ n s, lib.getSkill n job = .ok s ∧
      (s.name = a ∨ ∃ m fs, s.getFollowUpSkills m = .ok fs ∧ ∃ f ∈ fs, f.skill.name = a) := by
    rcases hp with ⟨s, hs⟩ | ⟨n, s, m, fs, f, hf, hs, hfs, hn⟩
    · exact ⟨a, s, hs, Or.inl (h.skill hs).1⟩
    · exact ⟨n, s, hs, Or.inr ⟨m, fs, hfs, f, hf, hn⟩⟩
  obtain ⟨n, s, hs, ha⟩ := key
  obtain ⟨c, hc, rfl, hn, hm⟩ := (h.made.skills n job s).1 hs
  obtain ⟨j, hj, hb⟩ := forall₂_mem h.classes hc
  have hall : c.jobClass ∈ Generic.allJobs := by
    rw [hb.1.job]
    exact (all_checked hg j hj).2
  rcases hm with hm | hm | hm
  · left
    refine ⟨j, hj, hb.1.job.symm, ?_⟩
    rcases hb.1.skills with hk | ⟨hk, h0⟩
    · unfold getSkills at hk
      obtain ⟨l, hl, hk⟩ := Py.bind_eq_ok.1 hk
      obtain ⟨r, hr, hmk⟩ := mapM_mem hk hm
      unfold rawsOf
      rw [hl]
      exact names_of_skill hr hmk ha
    · rw [h0] at hm
      cases hm
  · right
    rcases List.mem_append.1 hm with hm | hm
    · left
      obtain ⟨rs, h1, h2⟩ := h.methods
      obtain ⟨r, hr, hmk⟩ := mapM_mem h2 hm
      have := base_follow _ hg.floor
      rw [Generic.skillMethods_floor, h1, asRaws_map] at this
      simpa using List.all_eq_true.1 this a (names_of_skill hr hmk ha)
    · right; right
      obtain ⟨i, hi, hmk⟩ : ∃ i ∈ Generic.waits, mkSkill (Generic.waitRaw i) = .ok s := by
        obtain ⟨r, hr, hmk⟩ := mapM_mem h.waits hm
        obtain ⟨i, hi, rfl⟩ := List.mem_map.1 hr
        exact ⟨i, hi, hmk⟩
      have := names_of_skill (rs := [Generic.waitRaw i]) (by simp) hmk ha
      rw [wait_follow, List.mem_singleton] at this
      rw [this]
      exact Generic.waits_name hi
  · right; right; left
    obtain ⟨rs, h1, h2, _⟩ := lbsOf_spec hall
    obtain ⟨r, hr, hmk⟩ := mapM_mem h2 hm
    have := lb_follow _ hall
    rw [h1] at this
    simp only at this
    rw [asRaws_map] at this
    simpa using List.all_eq_true.1 this a (names_of_skill hr hmk ha)

/-- A described skill with a property is in the library. -/
theorem Library.fact (h : Library version level lib cs base ws) {j : JobClass}
    (hj : j ∈ jobClasses (Env.of version level)) {p : RawSkill → Bool} (hp : (rawsOf j).any p = true) :
    ∃ r s, p r = true ∧ mkSkill r = .ok s ∧ lib.getSkill r.name j.jobClass = .ok s := by
  obtain ⟨r, hr, hpr⟩ := List.any_eq_true.1 hp
  unfold rawsOf at hr
  split at hr
  · rename_i l hl
    obtain ⟨s, h1, h2⟩ := h.raw hj hl hr
    exact ⟨r, s, hpr, h1, h2⟩
  · cases hr

theorem Library.noSkill (hg : Good (Env.of version level)) (h : Library version level lib cs base ws)
    {job a : String} (hj : lib.hasJobClass job = true)
    (hn : ∀ j ∈ jobClasses (Env.of version level), j.jobClass = job → a ∉ allNames (rawsOf j))
    (h1 : a ∉ Generic.baseNames) (h2 : a ∉ Generic.lbNames) (h3 : a.toList.take 5 ≠ "Wait ".toList) :
    ¬ Performs lib job a ∧ lib.getSkill a job = .error .keyError ∧ lib.hasSkill a job = .ok false := by
  have hp : ¬ Performs lib job a := fun hp => by
    rcases h.performs hg hp with ⟨j, hj, hjj, ha⟩ | ha | ha | ha
    · exact hn j hj hjj ha
    · exact h1 ha
    · exact h2 ha
    · exact h3 ha
  have : ∃ d, Dict.get lib.skills job = .ok d := by
    unfold hasJobClass Dict.mem at hj
    obtain ⟨d, hd⟩ := Option.isSome_iff_exists.1 hj
    exact ⟨d, Dict.get_ok.2 hd⟩
  obtain ⟨d, hd⟩ := this
  have hg : Dict.get? d a = none := by
    cases hx : Dict.get? d a with
    | none => rfl
    | some s =>
      refine absurd (Or.inl ⟨s, ?_⟩) hp
      unfold getSkill
      rw [hd, Py.ok_bind]
      exact Dict.get_ok.2 hx
  refine ⟨hp, ?_, ?_⟩
  · unfold getSkill
    rw [hd, Py.ok_bind]
    unfold Dict.get
    rw [hg]
  · unfold hasSkill
    rw [hd, Py.ok_bind]
    unfold Dict.mem
    rw [hg]
    rfl

/-! ## Fields of a skill -/

theorem mkSkill_combo {r : RawSkill} {s : Skill} (h : mkSkill r = .ok s) :
    s.comboSpec = r.comboSpec.canonicalize := by
  unfold mkSkill at h
  obtain ⟨d, _, h⟩ := Py.bind_eq_ok.1 h
  cases h
  rfl

theorem mkSkill_buff {r : RawSkill} {s : Skill} (h : mkSkill r = .ok s) :
    s.buffSpec = r.buffSpec.canonicalize := by
  unfold mkSkill at h
  obtain ⟨d, _, h⟩ := Py.bind_eq_ok.1 h
  cases h
  rfl

/-! ## Known failures -/

/-- The follow-ups of the skill cannot be looked up without conditions. -/
def noAnswer (r : RawSkill) : Bool :=
  match mkSkill r with
  | .ok s => match s.getFollowUpSkills {} with | .error .keyError => true | _ => false
  | .error _ => false

theorem Mch.queen_raises : ∀ e ∈ listed,
    (rawsOf (job e)).any (fun r => decide (r.name = "Automaton Queen") && noAnswer r) = true := by
  decide +kernel

/-- The combo specs of the skill name "Enchanted Deux" under all conditions. -/
def afterDeux (r : RawSkill) : Bool :=
  match r.comboSpec with
  | .single l => l.any (fun c => c.comboActions.contains "Enchanted Deux")
  | .dict _ => false

theorem Rdm.no_deux : ∀ e ∈ listed, e.ge .p70 = true →
    (rawsOf (job e)).any (fun r => decide (r.name = "Enchanted Moulinet Trois") && afterDeux r) = true ∧
    (allNames (rawsOf (job e))).contains "Enchanted Deux" = false := by
  decide +kernel

/-- The skill gives a buff to none but "Glare III" and "Holy III". -/
def forWhm (r : RawSkill) : Bool :=
  match r.buffSpec with
  | .single (some e) => e.skillAllowlist.any (fun l => l.all (fun a => ["Glare III", "Holy III"].contains a))
  | _ => false

/-- Swiftcast is of no use. -/
def idleSwiftcast (j : JobClass) : Bool :=
  (rawsOf j).any (fun r => decide (r.name = "Swiftcast") && forWhm r) &&
  (!(allNames (rawsOf j)).contains "Glare III" && !(allNames (rawsOf j)).contains "Holy III")

theorem Ast.idle_swiftcast : ∀ e ∈ listed, idleSwiftcast (job e) = true := by decide +kernel
theorem Sch.idle_swiftcast : ∀ e ∈ listed, idleSwiftcast (job e) = true := by decide +kernel
theorem Sge.idle_swiftcast : ∀ e ∈ listed, idleSwiftcast (job e) = true := by decide +kernel

/-- The skill declares a drop-off and deals the same damage to every target. -/
def losesDropoff (r : RawSkill) : Bool :=
  match r.aoeDropoff, mkSkill r with
  | some d, .ok s => decide (s.aoeDropoff = some d) && decide (0 < d) && (match s.damageSpec with
    | .single (some spec) => decide (0 < spec.potency)
    | _ => false)
  | _, _ => false

theorem Blm.foul_loses : ∀ e ∈ listed,
    (rawsOf (job e)).any (fun r => decide (r.name = "Foul") && losesDropoff r) = true := by
  decide +kernel

theorem lost_own (job : String) : ∀ a ∈ dropoffLost job, ownName a = true := by
  unfold dropoffLost
  split_ifs <;> decide +kernel

/-! ## Versions between patches -/

theorem floor_mem {e : Env} (hg : Good e) {j : JobClass} (h4 : ¬ (j.jobClass = "MNK" ∧ e.pos = 4))
    (h6 : ¬ (j.jobClass = "VPR" ∧ e.pos = 6)) : j ∈ jobClasses e.floor ↔ j ∈ jobClasses e := by
  have h2 := hg.ne2
  have hM : j = Mnk.job e.floor ↔ j = Mnk.job e := by
    by_cases hp : e.pos = 4
    · have hne : j.jobClass ≠ "MNK" := fun h => h4 ⟨h, hp⟩
      exact ⟨fun h => absurd (h ▸ rfl) hne, fun h => absurd (h ▸ rfl) hne⟩
    · rw [Mnk.job_floor e h2 hp]
  have hV : j = Vpr.job e.floor ↔ j = Vpr.job e := by
    by_cases hp : e.pos = 6
    · have hne : j.jobClass ≠ "VPR" := fun h => h6 ⟨h, hp⟩
      exact ⟨fun h => absurd (h ▸ rfl) hne, fun h => absurd (h ▸ rfl) hne⟩
    · rw [Vpr.job_floor e hp]
  unfold jobClasses
  rw [floor_ge, Drk.job_floor, Gnb.job_floor, Pld.job_floor, War.job_floor, Ast.job_floor e h2, Sch.job_floor,
    Sge.job_floor, Whm.job_floor, Brd.job_floor, Dnc.job_floor, Mch.job_floor, Blm.job_floor, Rdm.job_floor,
    Smn.job_floor, Pct.job_floor, Drg.job_floor e h2, Nin.job_floor e h2, Rpr.job_floor, Sam.job_floor e h2]
  cases e.ge .p70 <;>
    simp only [List.mem_append, List.mem_cons, List.not_mem_nil, or_false, hM, hV, if_true, Bool.false_eq_true,
      if_false]

theorem same_floor {e e' : Env} (hg : Good e) (hg' : Good e') (hl : e.level = e'.level)
    (h : ∀ p ∈ [Patch.p70, Patch.p701, Patch.p705, Patch.p71], e.ge p = e'.ge p) : e.floor = e'.floor := by
  obtain ⟨p, l⟩ := e
  obtain ⟨p', l'⟩ := e'
  cases hl
  have a1 := h .p70 (by simp)
  have a2 := h .p701 (by simp)
  have a3 := h .p705 (by simp)
  have a4 := h .p71 (by simp)
  clear h
  have key : ∀ {a b : Prop} {_ : Decidable a} {_ : Decidable b}, decide a = decide b → (a ↔ b) :=
    fun h => by simpa using h
  replace a1 : 3 ≤ p ↔ 3 ≤ p' := key a1
  replace a2 : 5 ≤ p ↔ 5 ≤ p' := key a2
  replace a3 : 7 ≤ p ↔ 7 ≤ p' := key a3
  replace a4 : 9 ≤ p ↔ 9 ≤ p' := key a4
  unfold Good at hg hg'
  simp only at hg hg'
  have : floorPos p = floorPos p' := by
    unfold floorPos
    split_ifs <;> omega
  unfold Env.floor
  simp only [this]

theorem Describes.skills_eq {j : JobClass} {c c' : ClassSkills} (h : Describes j c) (h' : Describes j c') :
    c.skills = c'.skills := by
  rcases h.skills with h1 | ⟨h1, h2⟩ <;> rcases h'.skills with h3 | ⟨h3, h4⟩
  · rw [h1] at h3
    exact Except.ok.inj h3
  · rw [h1] at h3
    cases h3
  · rw [h1] at h3
    cases h3
  · rw [h2, h4]

theorem getSkill_error {lib : SkillLibrary} {name job : String} {e : PyErr}
    (h : lib.getSkill name job = .error e) : e = .keyError := by
  unfold getSkill at h
  rcases Py.bind_eq_error.1 h with h | ⟨d, _, h⟩
  · exact (Dict.get_error.1 h).1
  · exact (Dict.get_error.1 h).1

theorem same_skills {version version' : String} {level : ℕ} {lib lib' : SkillLibrary}
    {cs cs' : List ClassSkills} {base base' ws ws' : List Skill} (hg : Good (Env.of version level))
    (hg' : Good (Env.of version' level)) (h : Library version level lib cs base ws)
    (h' : Library version' level lib' cs' base' ws')
    (hf : (Env.of version level).floor = (Env.of version' level).floor) {job : String}
    (h4 : ¬ (job = "MNK" ∧ (Env.of version level).pos = 4)) (h4' : ¬ (job = "MNK" ∧ (Env.of version' level).pos = 4))
    (h6 : ¬ (job = "VPR" ∧ (Env.of version level).pos = 6)) (h6' : ¬ (job = "VPR" ∧ (Env.of version' level).pos = 6))
    {name : String} {s : Skill} (hs : lib.getSkill name job = .ok s) : lib'.getSkill name job = .ok s := by
  obtain ⟨c, hc, rfl, hn, hm⟩ := (h.made.skills name job s).1 hs
  obtain ⟨j, hj, hb⟩ := forall₂_mem h.classes hc
  have hjj := hb.1.job
  have hj' : j ∈ jobClasses (Env.of version' level) := by
    rw [← floor_mem hg' (by rw [← hjj]; exact h4') (by rw [← hjj]; exact h6'), ← hf,
      floor_mem hg (by rw [← hjj]; exact h4) (by rw [← hjj]; exact h6)]
    exact hj
  obtain ⟨c', hc', hb'⟩ := forall₂_mem' h'.classes hj'
  have hbase : base = base' := by
    obtain ⟨rs, e1, e2⟩ := h.methods
    obtain ⟨rs', e1', e2'⟩ := h'.methods
    rw [← Generic.skillMethods_floor, hf, Generic.skillMethods_floor, e1'] at e1
    have : rs' = rs := by
      have := congrArg asRaws e1
      rw [asRaws_map, asRaws_map] at this
      exact Option.some.inj this
    subst this
    rw [e2] at e2'
    cases e2'
    rfl
  have hws : ws = ws' := by
    have e1 := h.waits
    rw [h'.waits] at e1
    cases e1
    rfl
  refine (h'.made.skills name _ s).2 ⟨c', hc', hb'.1.job.trans hjj.symm, hn, ?_⟩
  rw [← Describes.skills_eq hb.1 hb'.1, ← hbase, ← hws]
  exact hm

/-- The follow-ups of the skill are the same, and some, under all conditions. -/
def followsAlways (r : RawSkill) : Bool :=
  match r.followUpSkills with
  | .single l => !l.isEmpty
  | .dict _ => false

/-- Without conditions, nothing follows. -/
def followsNot (r : RawSkill) : Bool :=
  match mkSkill r with
  | .ok s => match s.getFollowUpSkills {} with | .ok [] => true | _ => false
  | .error _ => false

theorem Mnk.fury : ∀ l ∈ [90, 100],
    (rawsOf (job ⟨3, l⟩)).any (fun r => decide (r.name = "Dragon Kick") && followsAlways r) = true ∧
    (rawsOf (job ⟨4, l⟩)).any (fun r => decide (r.name = "Dragon Kick") && followsNot r) = true := by
  decide +kernel

theorem Mnk.mem (e : Env) : Mnk.job e ∈ jobClasses e := by simp [jobClasses]

end Ama.GameData
