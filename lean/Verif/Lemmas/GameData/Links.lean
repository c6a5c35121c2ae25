import Verif.Lemmas.GameData.Facts

/-!
# What the effects and variants of shipped skills refer to
-/

namespace Ama.GameData

open Spec SkillLibrary

variable {version : String} {level : ℕ} {lib : SkillLibrary} {cs : List ClassSkills} {base ws : List Skill}

theorem Library.jobs_nodup (h : Library version level lib cs base ws) : (cs.map (·.jobClass)).Nodup := by
  rw [becomes_jobs h.classes]
  exact GameData.jobs_nodup _

/-- The check of a skill of the library, and what the names it was checked against stand for. -/
theorem Library.links (h : Library version level lib cs base ws) {name job : String} {s : Skill}
    (hs : lib.getSkill name job = .ok s) :
    s.name = name ∧ ∃ x n, SkillOk x n s ∧ (x = exempt job level ∨ x = {}) ∧
      (∀ a ∈ n.buffs, HasBuff lib job a) ∧
      (∀ a e, n.reacts a e = true → ∃ name' s', lib.getSkill name' job = .ok s' ∧ ReactsTo s' a e) ∧
      (n.known = true → ∀ d, lib.getAllResourceSettings job = .ok d → ∀ g st, Dict.get? d g = some st →
        (g, st) ∈ n.settings) := by
  obtain ⟨c, hc, rfl, hn, hm⟩ := (h.made.skills name job s).1 hs
  refine ⟨hn, ?_⟩
  have none : SkillOk {} Generic.noNames s →
      ∃ x n, SkillOk x n s ∧ (x = exempt c.jobClass level ∨ x = {}) ∧
      (∀ a ∈ n.buffs, HasBuff lib c.jobClass a) ∧
      (∀ a e, n.reacts a e = true → ∃ name' s', lib.getSkill name' c.jobClass = .ok s' ∧ ReactsTo s' a e) ∧
      (n.known = true → ∀ d, lib.getAllResourceSettings c.jobClass = .ok d → ∀ g st, Dict.get? d g = some st →
        (g, st) ∈ n.settings) := fun hok =>
    ⟨{}, Generic.noNames, hok, Or.inr rfl, by simp [Generic.noNames], by simp [Generic.noNames],
      by simp [Generic.noNames]⟩
  rcases hm with hm | hm | hm
  · obtain ⟨j, hj, hb⟩ := forall₂_mem h.classes hc
    rcases hb.2 with ⟨n, ho⟩ | ⟨_, _, h0, _⟩
    · refine ⟨_, n, ho.ok s hm, Or.inl ?_, ?_, ?_, ?_⟩
      · rw [ho.job, Env.of_level]
      · intro a ha
        obtain ⟨s', hs', hg⟩ := ho.buffs a ha
        exact ⟨s'.name, s', (h.made.skills s'.name c.jobClass s').2 ⟨c, hc, rfl, rfl, Or.inl hs'⟩, hg⟩
      · intro a e ha
        obtain ⟨s', hs', hr⟩ := ho.reacts a e ha
        exact ⟨s'.name, s', (h.made.skills s'.name c.jobClass s').2 ⟨c, hc, rfl, rfl, Or.inl hs'⟩, hr⟩
      · intro _ d hd g st hg
        have hk : g ∈ Dict.keys d := by
          rw [← Dict.get?_isSome, hg]
          rfl
        obtain ⟨c', hc', hcc, r, hr, rfl, hr'⟩ := h.made.gauges c hc d hd g hk
        rw [hg] at hr'
        cases hr'
        rw [ho.settings]
        have : c' = c := List.inj_on_of_nodup_map h.jobs_nodup hc' hc hcc
        exact this ▸ hr
    · rw [h0] at hm
      cases hm
  · exact none (h.generic s hm)
  · exact none (h.lbs c hc s hm)

/-- The names of a generic skill and its follow-ups. -/
def GenericName (a : String) : Prop :=
  a ∈ Generic.baseNames ∨ a ∈ Generic.lbNames ∨ a.toList.take 5 = "Wait ".toList

/-- A skill of the library is described by the class, or generic. -/
theorem Library.described (hg : Good (Env.of version level)) (h : Library version level lib cs base ws)
    {name job : String} {s : Skill} (hs : lib.getSkill name job = .ok s) :
    (∃ j ∈ jobClasses (Env.of version level), j.jobClass = job ∧ ∃ r ∈ rawsOf j, mkSkill r = .ok s) ∨
      ∀ k, PartOf s k → GenericName k.name := by
  obtain ⟨c, hc, rfl, hn, hm⟩ := (h.made.skills name job s).1 hs
  obtain ⟨j, hj, hb⟩ := forall₂_mem h.classes hc
  have hall : c.jobClass ∈ Generic.allJobs := by
    rw [hb.1.job]
    exact (all_checked hg j hj).2
  have part : ∀ {rs : List RawSkill} {r : RawSkill}, r ∈ rs → mkSkill r = .ok s → ∀ k, PartOf s k →
      k.name ∈ allNames rs := by
    intro rs r hr hmk k hk
    refine names_of_skill hr hmk ?_
    rcases hk with rfl | ⟨m, fs, hfs, f, hf, rfl⟩
    · exact Or.inl rfl
    · exact Or.inr ⟨m, fs, hfs, f, hf, rfl⟩
  rcases hm with hm | hm | hm
  · left
    refine ⟨j, hj, hb.1.job.symm, ?_⟩
    rcases hb.1.skills with hk | ⟨hk, h0⟩
    · unfold getSkills at hk
      obtain ⟨l, hl, hk⟩ := Py.bind_eq_ok.1 hk
      obtain ⟨r, hr, hmk⟩ := mapM_mem hk hm
      unfold rawsOf
      rw [hl]
      exact ⟨r, hr, hmk⟩
    · rw [h0] at hm
      cases hm
  · right
    intro k hk
    rcases List.mem_append.1 hm with hm | hm
    · left
      obtain ⟨rs, h1, h2⟩ := h.methods
      obtain ⟨r, hr, hmk⟩ := mapM_mem h2 hm
      have := base_follow _ hg.floor
      rw [Generic.skillMethods_floor, h1, asRaws_map] at this
      simpa using List.all_eq_true.1 this _ (part hr hmk k hk)
    · right; right
      obtain ⟨i, hi, hmk⟩ : ∃ i ∈ Generic.waits, mkSkill (Generic.waitRaw i) = .ok s := by
        obtain ⟨r, hr, hmk⟩ := mapM_mem h.waits hm
        obtain ⟨i, hi, rfl⟩ := List.mem_map.1 hr
        exact ⟨i, hi, hmk⟩
      have := part (rs := [Generic.waitRaw i]) (by simp) hmk k hk
      rw [wait_follow, List.mem_singleton] at this
      rw [this]
      exact Generic.waits_name hi
  · right
    intro k hk
    right; left
    obtain ⟨rs, h1, h2, _⟩ := lbsOf_spec hall
    obtain ⟨r, hr, hmk⟩ := mapM_mem h2 hm
    have := lb_follow _ hall
    rw [h1] at this
    simp only at this
    rw [asRaws_map] at this
    simpa using List.all_eq_true.1 this _ (part hr hmk k hk)

theorem Library.part (h : Library version level lib cs base ws) {name job : String} {s : Skill}
    (hs : lib.getSkill name job = .ok s) {k : SkillCore} (hk : PartOf s k) :
    ∃ x n, CoreOk x n k ∧ (x = exempt job level ∨ x = {}) ∧ (∀ a ∈ n.buffs, HasBuff lib job a) ∧
      (∀ a e, n.reacts a e = true → ∃ name' s', lib.getSkill name' job = .ok s' ∧ ReactsTo s' a e) := by
  obtain ⟨_, x, n, ho, hx, hb, hr, _⟩ := h.links hs
  rcases hk with rfl | ⟨m, fs, hfs, f, hf, rfl⟩
  · exact ⟨x, n, ho.toCoreOk, hx, hb, hr⟩
  · exact ⟨x, n, ho.followUp m fs hfs f hf, hx, hb, hr⟩

/-! ## Effects that no skill reacts to -/

/-- The effect is for no skill or follow-up that has a variant for the condition. -/
def quiet (a : String) (e : StatusEffectSpec) (r : RawSkill) : Bool :=
  !(isFor e r.name && (allConds r ++ dropConds r).contains a) &&
    r.followUpSkills.values.all (fun l => l.all (fun f => !(isFor e f.skill.name && minds f.skill a)))

theorem minds_iff {k : SkillCore} {a : String} : minds k a = true ↔ Minds k a := by
  unfold minds Minds
  simp only [Bool.or_eq_true, keyed_iff]

theorem quiet_sound {a : String} {e : StatusEffectSpec} {r : RawSkill} (h : quiet a e r = true) {s : Skill}
    (hs : mkSkill r = .ok s) : ¬ ReactsTo s a e := by
  unfold quiet at h
  rw [Bool.and_eq_true, Bool.not_eq_true', Bool.and_eq_false_iff] at h
  rintro (⟨h1, h2⟩ | ⟨m, fs, hfs, f, hf, h1, h2⟩)
  · rcases h.1 with h3 | h3
    · rw [mkSkill_name hs, ← isFor_iff, h3] at h1
      cases h1
    · have := of_mindsAny hs h2
      rw [← List.contains_iff_mem, h3] at this
      cases this
  · unfold Skill.getFollowUpSkills at hfs
    rw [mkSkill_followUps hs] at hfs
    rcases Cond.lookupTuple_mem hfs with h3 | rfl
    · have := List.all_eq_true.1 (List.all_eq_true.1 h.2 _ (RawCond.values_canonicalize h3)) f hf
      rw [isFor_iff.2 h1, minds_iff.2 h2] at this
      cases this
    · cases hf

/-! ## Known failures -/

/-- The buff under all conditions ends "Enhanced". -/
def endsEnhanced (r : RawSkill) : Bool :=
  match r.buffSpec with
  | .single (some e) => e.expiresStatusEffects.contains "Enhanced"
  | _ => false

theorem Blm.no_enhanced : ∀ e ∈ listed, e.ge .p70 = true →
    (rawsOf (job e)).any (fun r => decide (r.name = "High Blizzard II") && endsEnhanced r) = true ∧
    (allNames (rawsOf (job e))).contains "Enhanced" = false := by
  decide +kernel

/-- One of the follow-ups under all conditions gives a buff of this name that does nothing, and that no skill
of the class reacts to. -/
def givesUnread (rs : List RawSkill) (a b : String) (r : RawSkill) : Bool :=
  match r.followUpSkills with
  | .single fs => fs.any (fun f => decide (f.skill.name = a) && match f.skill.buffSpec with
    | .single (some e) => decide (e.skillAllowlist = some [b]) && (idle e && rs.all (quiet a e))
    | _ => false)
  | .dict _ => false

theorem Vpr.venom_unread : ∀ e ∈ listed7, (rawsOf (job e)).any (fun r => decide (r.name = "Hunter's Den") &&
    givesUnread (rawsOf (job e)) "Fellhunter's Venom" "Twinfang Thresh" r) = true := by
  decide +kernel

/-- There is a gauge of this name, and all of this name are like this. -/
def gaugeIs (j : JobClass) (g : String) (p : JobResourceSettings → Bool) : Bool :=
  match getResources j.resourceMethods with
  | .ok l => (l.map (·.1)).contains g && l.all (fun q => decide (q.1 ≠ g) || p q.2)
  | .error _ => false

theorem Library.gauge (h : Library version level lib cs base ws) {j : JobClass}
    (hj : j ∈ jobClasses (Env.of version level)) {g : String} {p : JobResourceSettings → Bool}
    (hp : gaugeIs j g p = true) :
    ∃ d st, lib.getAllResourceSettings j.jobClass = .ok d ∧ Dict.get? d g = some st ∧ p st = true := by
  obtain ⟨c, hc, hb⟩ := forall₂_mem' h.classes hj
  unfold gaugeIs at hp
  rw [hb.1.resources] at hp
  simp only [Bool.and_eq_true, List.contains_iff_mem, List.all_eq_true, Bool.or_eq_true,
    decide_eq_true_eq] at hp
  obtain ⟨d, hd, hk⟩ := h.made.resources c hc
  obtain ⟨r0, hr0, hr0'⟩ := List.mem_map.1 hp.1
  have hkey : g ∈ Dict.keys d := hr0' ▸ hk r0 hr0
  obtain ⟨c', hc', hcc, q, hq, hqn, hget⟩ := h.made.gauges c hc d hd _ hkey
  have : c' = c := List.inj_on_of_nodup_map h.jobs_nodup hc' hc hcc
  subst this
  rcases hp.2 q hq with h3 | h3
  · exact absurd hqn h3
  · exact ⟨d, q.2, hb.1.job ▸ hd, hget, h3⟩

theorem Blm.freeze_untold : ∀ e ∈ listed,
    (rawsOf (job e)).any (fun r => decide (r.name = "Freeze") && (allConds r).contains "1 Astral Fire") = true ∧
    gaugeIs (job e) "Astral Fire" (fun st => st.addNumberToConditional && !st.skillAllowlist.contains "Freeze")
      = true := by
  decide +kernel

end Ama.GameData
