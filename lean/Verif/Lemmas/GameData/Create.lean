import Verif.Lemmas.GameData.Sound
import Verif.Lemmas.LibraryRuns
import Verif.Props.Library

/-!
# Creating the library
-/

namespace Ama.GameData

open Spec SkillLibrary

/-- What `add_all_skills_from` makes of a class description: all of it, or all but its skills if
collecting them raises `ValueError`. -/
structure Describes (j : JobClass) (c : ClassSkills) : Prop where
  job : c.jobClass = j.jobClass
  init : j.init = .ok ()
  priority : j.priority >>= readPriority = .ok c.priority
  breakers : j.comboBreakers >>= readBreakers = .ok c.comboBreakers
  skills : getSkills j.skillMethods = .ok c.skills ∨
    (getSkills j.skillMethods = .error .valueError ∧ c.skills = [])
  resources : getResources j.resourceMethods = .ok c.resources

theorem ClassOk.describes {x : Exempt} {j : JobClass} {c : ClassSkills} {n : Names} (h : ClassOk x j c n) :
    Describes j c := ⟨h.job, h.init, h.priority, h.breakers, Or.inl h.skills, h.resources⟩

/-- Adding a class description, with the continuations written once. -/
theorem addAll_form (lib : SkillLibrary) (j : JobClass) : addAllSkillsFrom lib j =
    j.init >>= fun _ =>
    (j.priority >>= readPriority) >>= fun p =>
    (j.comboBreakers >>= readBreakers) >>= fun b =>
    (b.getD []).foldlM (fun lib b => lib.addComboBreaker b.1 b.2)
      (lib.entered { jobClass := j.jobClass, priority := p }) >>= fun lib =>
    (match getSkills j.skillMethods with
      | .error .valueError => pure lib
      | .error e => .error e
      | .ok skills => skills.foldlM SkillLibrary.addSkill lib) >>= fun lib =>
    getResources j.resourceMethods >>= fun res =>
    res.foldlM (fun lib r => lib.addResource r.1 r.2) lib := by
  unfold addAllSkillsFrom
  cases j.init with
  | error e => rfl
  | ok u =>
    simp only [Py.ok_bind]
    cases j.priority with
    | error e => rfl
    | ok p =>
      simp only [Py.ok_bind]
      cases readPriority p with
      | error e => rfl
      | ok p =>
        simp only [Py.ok_bind]
        cases j.comboBreakers with
        | error e => rfl
        | ok b =>
          simp only [Py.ok_bind]
          cases readBreakers b with
          | error e => rfl
          | ok b =>
            simp only [Py.ok_bind]
            cases b <;> cases p <;> simp only [Option.getD_none, Option.getD_some, entered, List.foldlM_nil,
              Py.pure_eq, Py.ok_bind] <;> cases getSkills j.skillMethods with
              | ok l => rfl
              | error e => cases e <;> rfl

theorem Describes.addAll {j : JobClass} {c : ClassSkills} (h : Describes j c) (lib : SkillLibrary) :
    addAllSkillsFrom lib j = lib.addAllSkillsFrom c := by
  rw [addAll_form, addAll_eq, h.init, h.priority, h.breakers, h.resources, ← h.job]
  simp only [Py.ok_bind]
  have : lib.entered { jobClass := c.jobClass, priority := c.priority } = lib.entered c := rfl
  rw [this]
  rcases h.skills with hs | ⟨hs, hc⟩
  · rw [hs]
  · rw [hs, hc]
    rfl

/-- A list of methods each of which returns a skill. -/
def asRaws : List (Py PyVal) → Option (List RawSkill)
  | [] => some []
  | .ok (.skill r) :: l => (asRaws l).map (r :: ·)
  | _ :: _ => none

theorem asRaws_some {l : List (Py PyVal)} {rs : List RawSkill} (h : asRaws l = some rs) :
    l = rs.map (fun r => .ok (.skill r)) := by
  induction l generalizing rs with
  | nil =>
    cases h
    rfl
  | cons m l ih =>
    unfold asRaws at h
    split at h
    · rename_i heq
      cases heq
    · rename_i r l' heq
      cases heq
      obtain ⟨rs', h', rfl⟩ := Option.map_eq_some_iff.1 h
      rw [ih h']
      rfl
    · cases h

theorem addEach_eq {lib : SkillLibrary} {rs : List RawSkill} {ss : List Skill}
    (h : rs.mapM mkSkill = .ok ss) :
    addEach lib (rs.map (fun r => .ok (.skill r))) = ss.foldlM addSkill lib := by
  induction rs generalizing ss lib with
  | nil =>
    cases h
    rfl
  | cons r rs ih =>
    rw [List.mapM_cons] at h
    obtain ⟨s, h1, h⟩ := Py.bind_eq_ok.1 h
    obtain ⟨ss', h2, h⟩ := Py.bind_eq_ok.1 h
    cases h
    unfold addEach
    rw [List.map_cons, Py.foldlM_cons, Py.foldlM_cons]
    simp only [Py.ok_bind]
    rw [h1, Py.ok_bind]
    cases h3 : lib.addSkill s with
    | error e => rfl
    | ok lib' =>
      simp only [Py.ok_bind]
      exact ih h2

theorem runs_addSkills (lib : SkillLibrary) (ss : List Skill) :
    (ss.map LibOp.addSkill).foldlM LibOp.run lib = ss.foldlM addSkill lib := by
  induction ss generalizing lib with
  | nil => rfl
  | cons s ss ih =>
    rw [List.map_cons, Py.foldlM_cons, Py.foldlM_cons]
    cases h : lib.addSkill s with
    | error e =>
      have : LibOp.run lib (.addSkill s) = .error e := h
      rw [this]
      rfl
    | ok lib' =>
      have : LibOp.run lib (.addSkill s) = .ok lib' := h
      rw [this]
      exact ih lib'

/-- The calls that add skills to each of some job classes. -/
def jobOps (js : List String) (ss : String → List Skill) : List LibOp :=
  js.flatMap (fun j => LibOp.setJob j :: (ss j).map LibOp.addSkill)

theorem runs_jobOps (js : List String) (ss : String → List Skill) (lib : SkillLibrary) :
    js.foldlM (fun lib j => (ss j).foldlM addSkill (lib.setCurrentJobClass j)) lib =
      (jobOps js ss).foldlM LibOp.run lib := by
  induction js generalizing lib with
  | nil => rfl
  | cons j js ih =>
    unfold jobOps
    rw [List.flatMap_cons, Py.foldlM_append, List.foldlM_cons, List.foldlM_cons, ← runs_addSkills]
    have : LibOp.run lib (.setJob j) = .ok (lib.setCurrentJobClass j) := rfl
    rw [this, Py.ok_bind]
    congr 1
    funext lib'
    exact ih lib'

theorem jobAfter_append (j : Option String) (a b : List LibOp) :
    jobAfter j (a ++ b) = jobAfter (jobAfter j a) b := by simp [jobAfter]

theorem skillsAdded_append (j : Option String) (a b : List LibOp) :
    skillsAdded j (a ++ b) = skillsAdded j a ++ skillsAdded (jobAfter j a) b := by
  induction a generalizing j with
  | nil => simp [skillsAdded, jobAfter]
  | cons op a ih =>
    simp only [List.cons_append, skillsAdded, ih]
    simp [jobAfter]

theorem resourcesAdded_append (j : Option String) (a b : List LibOp) :
    resourcesAdded j (a ++ b) = resourcesAdded j a ++ resourcesAdded (jobAfter j a) b := by
  induction a generalizing j with
  | nil => simp [resourcesAdded, jobAfter]
  | cons op a ih =>
    simp only [List.cons_append, resourcesAdded, ih]
    simp [jobAfter]

theorem added_addSkills (j : String) (ss : List Skill) :
    skillsAdded (some j) (ss.map LibOp.addSkill) = ss.map (fun s => (j, s)) ∧
    resourcesAdded (some j) (ss.map LibOp.addSkill) = [] ∧
    jobAfter (some j) (ss.map LibOp.addSkill) = some j := by
  induction ss with
  | nil => simp [skillsAdded, resourcesAdded, jobAfter]
  | cons s ss ih =>
    obtain ⟨h1, h2, h3⟩ := ih
    refine ⟨?_, ?_, ?_⟩
    · simp [skillsAdded, LibOp.skills, LibOp.job, h1]
    · simp [resourcesAdded, LibOp.resources, LibOp.job, h2]
    · simpa [jobAfter, LibOp.job] using h3

theorem added_jobOps (o : Option String) (js : List String) (ss : String → List Skill) :
    skillsAdded o (jobOps js ss) = js.flatMap (fun j => (ss j).map (fun s => (j, s))) ∧
    resourcesAdded o (jobOps js ss) = [] := by
  induction js generalizing o with
  | nil => simp [skillsAdded, resourcesAdded, jobOps]
  | cons j js ih =>
    obtain ⟨h1, h2, h3⟩ := added_addSkills j (ss j)
    have : jobOps (j :: js) ss = (LibOp.setJob j :: (ss j).map LibOp.addSkill) ++ jobOps js ss := by
      simp [jobOps]
    rw [this, skillsAdded_append, resourcesAdded_append, (ih _).1, (ih _).2]
    simp [skillsAdded, resourcesAdded, LibOp.skills, LibOp.resources, LibOp.job, h1, h2]

theorem added_classes (o : Option String) (cs : List ClassSkills) :
    skillsAdded o (cs.map LibOp.addAll) = cs.flatMap (fun c => c.skills.map (fun s => (c.jobClass, s))) ∧
    resourcesAdded o (cs.map LibOp.addAll) =
      cs.flatMap (fun c => c.resources.map (fun r => (c.jobClass, r.1, r.2))) := by
  induction cs generalizing o with
  | nil => simp [skillsAdded, resourcesAdded]
  | cons c cs ih =>
    simp [skillsAdded, resourcesAdded, LibOp.skills, LibOp.resources, LibOp.job, ih]

theorem runs_classes {js : List JobClass} {cs : List ClassSkills} (h : List.Forall₂ Describes js cs)
    (lib : SkillLibrary) :
    js.foldlM addAllSkillsFrom lib = (cs.map LibOp.addAll).foldlM LibOp.run lib := by
  induction h generalizing lib with
  | nil => rfl
  | cons h _ ih =>
    rw [List.map_cons, Py.foldlM_cons, Py.foldlM_cons, h.addAll]
    have : ∀ c, LibOp.run lib (.addAll c) = lib.addAllSkillsFrom c := fun _ => rfl
    rw [this]
    congr 1
    funext lib'
    exact ih lib'

/-- The calls that make up the whole library. -/
def allOps (cs : List ClassSkills) (js js' : List String) (gen : List Skill) (lb : String → List Skill) :
    List LibOp := cs.map LibOp.addAll ++ jobOps js (fun _ => gen) ++ jobOps js' lb

theorem mem_jobs_classes (cs : List ClassSkills) (j : String) :
    (∃ op ∈ cs.map LibOp.addAll, op.job none = some j) ↔ j ∈ cs.map (·.jobClass) := by
  simp [LibOp.job]

theorem mem_jobs_jobOps {js : List String} {ss : String → List Skill} {j : String}
    (h : ∃ op ∈ jobOps js ss, op.job none = some j) : j ∈ js := by
  obtain ⟨op, h1, h2⟩ := h
  obtain ⟨j', h3, h4⟩ := List.mem_flatMap.1 h1
  rcases List.mem_cons.1 h4 with rfl | h4
  · cases h2
    exact h3
  · obtain ⟨s, _, rfl⟩ := List.mem_map.1 h4
    cases h2

theorem nodup_pairs {ι : Type} {l : List ι} {f : ι → String} {g : ι → List String}
    (hl : (l.map f).Nodup) (hg : ∀ i ∈ l, (g i).Nodup) :
    (l.flatMap (fun i => (g i).map (fun a => (f i, a)))).Nodup := by
  rw [List.nodup_flatMap]
  refine ⟨fun i hi => (hg i hi).map (fun _ _ h => (Prod.mk.inj h).2), ?_⟩
  rw [List.Nodup, List.pairwise_map] at hl
  refine hl.imp fun {a b} hab p hp hq => ?_
  obtain ⟨_, _, rfl⟩ := List.mem_map.1 hp
  obtain ⟨_, _, h⟩ := List.mem_map.1 hq
  exact hab (Prod.mk.inj h).1.symm

/-- What the library contains. -/
structure Made (cs : List ClassSkills) (gen : List Skill) (lb : String → List Skill) (lib : SkillLibrary) :
    Prop where
  skills : ∀ name job s, lib.getSkill name job = .ok s ↔
    ∃ c ∈ cs, c.jobClass = job ∧ s.name = name ∧ (s ∈ c.skills ∨ s ∈ gen ∨ s ∈ lb job)
  jobs : ∀ job, lib.hasJobClass job = true ↔ job ∈ cs.map (·.jobClass)
  resources : ∀ c ∈ cs, ∃ d, lib.getAllResourceSettings c.jobClass = .ok d ∧
    ∀ r ∈ c.resources, r.1 ∈ Dict.keys d
  gauges : ∀ c ∈ cs, ∀ d, lib.getAllResourceSettings c.jobClass = .ok d → ∀ k ∈ Dict.keys d,
    ∃ c' ∈ cs, c'.jobClass = c.jobClass ∧ ∃ r ∈ c'.resources, r.1 = k ∧ Dict.get? d k = some r.2
  breakers : ∀ job, lib.hasJobClass job = true → ∃ b, lib.getAllComboBreakers job = .ok b
  priority : ∀ job, lib.hasJobClass job = true → ∃ p, lib.getStatusEffectPriority job = .ok p

/-- The pieces of the library fit together. -/
structure Fits (cs : List ClassSkills) (gen : List Skill) (lb : String → List Skill) : Prop where
  jobs : (cs.map (·.jobClass)).Nodup
  classes : ∀ c ∈ cs, (c.skills.map (·.name)).Nodup
  gens : (gen.map (·.name)).Nodup
  lbs : ∀ c ∈ cs, ((lb c.jobClass).map (·.name)).Nodup
  classGen : ∀ c ∈ cs, ∀ s ∈ c.skills, ∀ g ∈ gen, s.name ≠ g.name
  classLb : ∀ c ∈ cs, ∀ s ∈ c.skills, ∀ g ∈ lb c.jobClass, s.name ≠ g.name
  genLb : ∀ c ∈ cs, ∀ s ∈ gen, ∀ g ∈ lb c.jobClass, s.name ≠ g.name

theorem namesOf_flatMap {ι : Type} (l : List ι) (f : ι → String) (g : ι → List Skill) :
    namesOf (l.flatMap (fun i => (g i).map (fun s => (f i, s)))) =
      l.flatMap (fun i => ((g i).map (·.name)).map (fun a => (f i, a))) := by
  simp only [namesOf, List.map_flatMap, List.map_map]
  rfl

theorem lastWith_isSome {α : Type} {p : α → Bool} {l : List α} {a : α} (ha : a ∈ l) (hp : p a = true) :
    ∃ b, lastWith p l = some b := by
  unfold lastWith
  have : l.filter p ≠ [] := fun h => by
    have := List.mem_filter.2 ⟨ha, hp⟩
    rw [h] at this
    cases this
  exact ⟨_, List.getLast?_eq_some_getLast this⟩

theorem allOps_names {cs : List ClassSkills} {gen : List Skill} {lb : String → List Skill}
    (hf : Fits cs gen lb) (hne : cs ≠ []) {js js' : List String} (hjs : js.Nodup)
    (hmem : ∀ j ∈ js, j ∈ cs.map (·.jobClass)) (hjs' : js'.Nodup)
    (hmem' : ∀ j ∈ js', j ∈ cs.map (·.jobClass)) (lib0 : SkillLibrary) {c0 : Contents} (h0 : Holds c0 lib0)
    (hc0 : c0.skills = []) :
    ∃ lib, (allOps cs js js' gen lb).foldlM LibOp.run lib0 = .ok lib := by
  refine runs_ok h0 (fun _ op hop => ?_) ?_
  · cases cs with
    | nil => exact absurd rfl hne
    | cons c cs =>
      simp only [allOps, List.map_cons, List.cons_append, List.head?_cons, Option.mem_some_iff] at hop
      subst hop
      simp [LibOp.job]
  · rw [hc0, List.nil_append]
    unfold allOps
    rw [skillsAdded_append, skillsAdded_append, (added_classes _ cs).1, (added_jobOps _ js _).1,
      (added_jobOps _ js' _).1]
    simp only [namesOf, List.map_append]
    have e1 := namesOf_flatMap cs (·.jobClass) (·.skills)
    have e2 := namesOf_flatMap js id (fun _ => gen)
    have e3 := namesOf_flatMap js' id lb
    simp only [namesOf, id] at e1 e2 e3
    rw [e1, e2, e3, List.nodup_append, List.nodup_append]
    have find : ∀ j, j ∈ cs.map (·.jobClass) → ∃ c ∈ cs, c.jobClass = j := fun j h => by
      simpa using h
    have same : ∀ c ∈ cs, ∀ c' ∈ cs, c.jobClass = c'.jobClass → c = c' := fun c hc c' hc' h =>
      List.inj_on_of_nodup_map hf.jobs hc hc' h
    refine ⟨⟨nodup_pairs hf.jobs hf.classes, nodup_pairs (f := id) (by simpa using hjs) (fun _ _ => hf.gens),
      ?_⟩, nodup_pairs (f := id) (by simpa using hjs') (fun j hj => ?_), ?_⟩
    · intro p hp q hq
      obtain ⟨c, hc, hp⟩ := List.mem_flatMap.1 hp
      obtain ⟨a, ha, rfl⟩ := List.mem_map.1 hp
      obtain ⟨s, hs, rfl⟩ := List.mem_map.1 ha
      obtain ⟨j, hj, hq⟩ := List.mem_flatMap.1 hq
      obtain ⟨b, hb, rfl⟩ := List.mem_map.1 hq
      obtain ⟨g, hg, rfl⟩ := List.mem_map.1 hb
      intro h
      exact hf.classGen c hc s hs g hg (Prod.mk.inj h).2
    · obtain ⟨c, hc, rfl⟩ := find j (hmem' j hj)
      exact hf.lbs c hc
    · intro p hp q hq
      obtain ⟨j, hj, hq⟩ := List.mem_flatMap.1 hq
      obtain ⟨b, hb, rfl⟩ := List.mem_map.1 hq
      obtain ⟨g, hg, rfl⟩ := List.mem_map.1 hb
      obtain ⟨c', hc', rfl⟩ := find j (hmem' j hj)
      rcases List.mem_append.1 hp with hp | hp
      · obtain ⟨c, hc, hp⟩ := List.mem_flatMap.1 hp
        obtain ⟨a, ha, rfl⟩ := List.mem_map.1 hp
        obtain ⟨s, hs, rfl⟩ := List.mem_map.1 ha
        intro h
        obtain ⟨h1, h2⟩ := Prod.mk.inj h
        cases same c hc c' hc' h1
        exact hf.classLb c' hc' s hs g hg h2
      · obtain ⟨j, _, hp⟩ := List.mem_flatMap.1 hp
        obtain ⟨a, ha, rfl⟩ := List.mem_map.1 hp
        obtain ⟨s, hs, rfl⟩ := List.mem_map.1 ha
        intro h
        exact hf.genLb c' hc' s hs g hg (Prod.mk.inj h).2

/-- A library made by these calls has these contents. -/
theorem made_of {cs : List ClassSkills} {gen : List Skill} {lb : String → List Skill} {js js' : List String}
    (hmem : ∀ j, j ∈ js ↔ j ∈ cs.map (·.jobClass)) (hmem' : ∀ j, j ∈ js' ↔ j ∈ cs.map (·.jobClass))
    {lib : SkillLibrary} (h : LibOf (allOps cs js js' gen lb) lib) : Made cs gen lb lib := by
  have hs : skillsAdded none (allOps cs js js' gen lb) =
      cs.flatMap (fun c => c.skills.map (fun s => (c.jobClass, s))) ++
      js.flatMap (fun j => gen.map (fun s => (j, s))) ++ js'.flatMap (fun j => (lb j).map (fun s => (j, s))) := by
    unfold allOps
    rw [skillsAdded_append, skillsAdded_append, (added_classes _ cs).1, (added_jobOps _ js _).1,
      (added_jobOps _ js' _).1]
  have hr : resourcesAdded none (allOps cs js js' gen lb) =
      cs.flatMap (fun c => c.resources.map (fun r => (c.jobClass, r.1, r.2))) := by
    unfold allOps
    rw [resourcesAdded_append, resourcesAdded_append, (added_classes _ cs).2, (added_jobOps _ js _).2,
      (added_jobOps _ js' _).2]
    simp
  have hjobs : ∀ job, lib.hasJobClass job = true ↔ job ∈ cs.map (·.jobClass) := by
    intro job
    rw [(C54_jobs (name := "") h).1]
    constructor
    · rintro ⟨op, hop, hj⟩
      rcases List.mem_append.1 hop with hop | hop
      · rcases List.mem_append.1 hop with hop | hop
        · exact (mem_jobs_classes cs job).1 ⟨op, hop, hj⟩
        · exact (hmem job).1 (mem_jobs_jobOps ⟨op, hop, hj⟩)
      · exact (hmem' job).1 (mem_jobs_jobOps ⟨op, hop, hj⟩)
    · intro hj
      obtain ⟨op, hop, hj⟩ := (mem_jobs_classes cs job).2 hj
      exact ⟨op, List.mem_append_left _ (List.mem_append_left _ hop), hj⟩
  refine ⟨fun name job s => ?_, hjobs, fun c hc => ?_, fun c hc d hd k hkk => ?_, fun job hj => ?_, fun job hj => ?_⟩
  · rw [C54_get_skill h, hs]
    constructor
    · rintro ⟨h1, h2⟩
      rcases List.mem_append.1 h1 with h1 | h1
      · rcases List.mem_append.1 h1 with h1 | h1
        · obtain ⟨c, hc, h1⟩ := List.mem_flatMap.1 h1
          obtain ⟨s', hs', h1⟩ := List.mem_map.1 h1
          cases h1
          exact ⟨c, hc, rfl, h2, Or.inl hs'⟩
        · obtain ⟨j, hj, h1⟩ := List.mem_flatMap.1 h1
          obtain ⟨s', hs', h1⟩ := List.mem_map.1 h1
          cases h1
          obtain ⟨c, hc, hcj⟩ := List.mem_map.1 ((hmem _).1 hj)
          exact ⟨c, hc, hcj, h2, Or.inr (Or.inl hs')⟩
      · obtain ⟨j, hj, h1⟩ := List.mem_flatMap.1 h1
        obtain ⟨s', hs', h1⟩ := List.mem_map.1 h1
        cases h1
        obtain ⟨c, hc, hcj⟩ := List.mem_map.1 ((hmem' _).1 hj)
        exact ⟨c, hc, hcj, h2, Or.inr (Or.inr hs')⟩
    · rintro ⟨c, hc, rfl, h2, h1⟩
      refine ⟨?_, h2⟩
      have hcj : c.jobClass ∈ cs.map (·.jobClass) := List.mem_map.2 ⟨c, hc, rfl⟩
      rcases h1 with h1 | h1 | h1
      · exact List.mem_append_left _ (List.mem_append_left _ (List.mem_flatMap.2 ⟨c, hc,
          List.mem_map.2 ⟨s, h1, rfl⟩⟩))
      · exact List.mem_append_left _ (List.mem_append_right _ (List.mem_flatMap.2
          ⟨c.jobClass, (hmem _).2 hcj, List.mem_map.2 ⟨s, h1, rfl⟩⟩))
      · exact List.mem_append_right _ (List.mem_flatMap.2
          ⟨c.jobClass, (hmem' _).2 hcj, List.mem_map.2 ⟨s, h1, rfl⟩⟩)
  · obtain ⟨⟨d, hd, hk⟩, _⟩ := C54_settings h ((hjobs c.jobClass).2 (List.mem_map.2 ⟨c, hc, rfl⟩))
    refine ⟨d, hd, fun r hr' => ?_⟩
    rw [← Dict.get?_isSome, hk r.1, hr]
    have hx : (c.jobClass, r.1, r.2) ∈
        cs.flatMap (fun c => c.resources.map (fun r => (c.jobClass, r.1, r.2))) :=
      List.mem_flatMap.2 ⟨c, hc, List.mem_map.2 ⟨r, hr', rfl⟩⟩
    obtain ⟨b, hb⟩ := lastWith_isSome
      (p := fun x : String × String × JobResourceSettings => decide (x.1 = c.jobClass ∧ x.2.1 = r.1))
      hx (by simp)
    rw [hb]
    rfl
  · obtain ⟨⟨d', hd', hk⟩, _⟩ := C54_settings h ((hjobs c.jobClass).2 (List.mem_map.2 ⟨c, hc, rfl⟩))
    rw [hd] at hd'
    cases hd'
    have hkk' := hk k
    rw [← Dict.get?_isSome, hk k, hr, Option.isSome_map] at hkk
    obtain ⟨x, hx⟩ := Option.isSome_iff_exists.1 hkk
    rw [hr, hx] at hkk'
    have hx := List.mem_of_getLast? hx
    obtain ⟨hx, hp⟩ := List.mem_filter.1 hx
    obtain ⟨c', hc', hx⟩ := List.mem_flatMap.1 hx
    obtain ⟨r, hr', rfl⟩ := List.mem_map.1 hx
    have hp := of_decide_eq_true hp
    exact ⟨c', hc', hp.1, r, hr', hp.2, hkk'⟩
  · obtain ⟨_, ⟨b, hb, _⟩, _⟩ := C54_settings h hj
    exact ⟨b, hb⟩
  · exact ⟨_, (C54_settings h hj).2.2⟩

/-- `create_skill_library` succeeds and makes a library of these contents, if all the pieces are there and
fit together. -/
theorem create_made {version : String} {level : ℕ} {cs : List ClassSkills} {gen : List Skill}
    {lb : String → List Skill}
    (hd : List.Forall₂ Describes (jobClasses (Env.of version level)) cs) (hne : cs ≠ [])
    (hg : ∃ rs : List RawSkill, Generic.skillMethods (Env.of version level) ++ Generic.waits.map Generic.wait =
      rs.map (fun r => .ok (.skill r)) ∧ rs.mapM mkSkill = .ok gen)
    (hl : ∀ c ∈ cs, ∃ rs : List RawSkill, Generic.limitBreaks c.jobClass = .ok (rs.map (fun r => .ok (.skill r))) ∧
      rs.mapM mkSkill = .ok (lb c.jobClass))
    (hf : Fits cs gen lb) :
    ∃ lib, createSkillLibrary version level = .ok lib ∧ Made cs gen lb lib := by
  set lib0 : SkillLibrary := { version, level } with hlib0
  have h0 : Holds ⟨none, [], [], [], [], []⟩ lib0 := holds_init version level
  have t0 : Tidy version level lib0 := Tidy.start version level
  -- the class descriptions
  obtain ⟨lib1, e1⟩ := allOps_names hf hne (js := []) (js' := []) (by simp) (by simp) (by simp) (by simp)
    lib0 h0 rfl
  have e1' : (cs.map LibOp.addAll).foldlM LibOp.run lib0 = .ok lib1 := by
    simpa [allOps, jobOps] using e1
  have t1 := t0.runs e1'
  have m1 : ∀ j, j ∈ lib1.getJobs ↔ j ∈ cs.map (·.jobClass) := fun j => by
    rw [(C54_jobs (name := "") (⟨version, level, e1'⟩ : LibOf _ lib1)).2.1]
    exact mem_jobs_classes cs j
  -- the generic skills
  obtain ⟨lib2, e2⟩ := allOps_names hf hne (js := lib1.getJobs) (js' := []) t1.nodup
    (fun j hj => (m1 j).1 hj) (by simp) (by simp) lib0 h0 rfl
  have e2' : (jobOps lib1.getJobs (fun _ => gen)).foldlM LibOp.run lib1 = .ok lib2 := by
    have : allOps cs lib1.getJobs [] gen lb = cs.map LibOp.addAll ++ jobOps lib1.getJobs (fun _ => gen) := by
      simp [allOps, jobOps]
    rw [this, Py.foldlM_append, e1', Py.ok_bind] at e2
    exact e2
  have t2 := t1.runs e2'
  have m2 : ∀ j, j ∈ lib2.getJobs ↔ j ∈ cs.map (·.jobClass) := fun j => by
    rw [(C54_jobs (name := "") (⟨version, level, e2⟩ : LibOf _ lib2)).2.1]
    constructor
    · rintro ⟨op, hop, hj⟩
      rcases List.mem_append.1 hop with hop | hop
      · rcases List.mem_append.1 hop with hop | hop
        · exact (mem_jobs_classes cs j).1 ⟨op, hop, hj⟩
        · exact (m1 j).1 (mem_jobs_jobOps ⟨op, hop, hj⟩)
      · simp [jobOps] at hop
    · intro hj
      obtain ⟨op, hop, hj⟩ := (mem_jobs_classes cs j).2 hj
      exact ⟨op, List.mem_append_left _ (List.mem_append_left _ hop), hj⟩
  -- the limit breaks
  obtain ⟨lib3, e3⟩ := allOps_names hf hne (js := lib1.getJobs) (js' := lib2.getJobs) t1.nodup
    (fun j hj => (m1 j).1 hj) t2.nodup (fun j hj => (m2 j).1 hj) lib0 h0 rfl
  have e3' : (jobOps lib2.getJobs lb).foldlM LibOp.run lib2 = .ok lib3 := by
    have : allOps cs lib1.getJobs lib2.getJobs gen lb =
        allOps cs lib1.getJobs [] gen lb ++ jobOps lib2.getJobs lb := by
      simp [allOps, jobOps]
    rw [this, Py.foldlM_append, e2, Py.ok_bind] at e3
    exact e3
  refine ⟨lib3, ?_, made_of m1 m2 ⟨version, level, e3⟩⟩
  unfold createSkillLibrary
  simp only
  rw [← hlib0, runs_classes hd, e1', Py.ok_bind]
  unfold addGenericSkills
  simp only
  rw [t1.version, t1.level]
  obtain ⟨rs, hrs, hss⟩ := hg
  rw [hrs]
  have : (fun (lib : SkillLibrary) (j : String) =>
      addEach (lib.setCurrentJobClass j) (rs.map (fun r => .ok (.skill r)))) =
      fun lib j => gen.foldlM addSkill (lib.setCurrentJobClass j) := by
    funext lib j
    exact addEach_eq hss
  rw [this, runs_jobOps, e2', Py.ok_bind]
  unfold addLimitBreaks
  rw [← e3', ← runs_jobOps]
  have key : ∀ (js : List String) (lib : SkillLibrary), (∀ j ∈ js, j ∈ cs.map (·.jobClass)) →
      js.foldlM (fun lib j => do addEach (lib.setCurrentJobClass j) (← Generic.limitBreaks j)) lib =
      js.foldlM (fun lib j => (lb j).foldlM addSkill (lib.setCurrentJobClass j)) lib := by
    intro js
    induction js with
    | nil => exact fun _ _ => rfl
    | cons j js ih =>
      intro lib hj
      rw [Py.foldlM_cons, Py.foldlM_cons]
      obtain ⟨c, hc, rfl⟩ := List.mem_map.1 (hj j (by simp))
      obtain ⟨rs, hrs, hss⟩ := hl c hc
      rw [hrs, Py.ok_bind, addEach_eq hss]
      congr 1
      funext lib'
      exact ih lib' (fun j' hj' => hj j' (by simp [hj']))
  exact key _ _ (fun j hj => (m2 j).1 hj)

end Ama.GameData
