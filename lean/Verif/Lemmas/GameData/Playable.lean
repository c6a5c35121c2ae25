import Verif.Lemmas.GameData.Facts
import Verif.Lemmas.AutosSafe

/-!
# Rotations of shipped skills can be played
-/

namespace Ama.GameData

open Spec SkillLibrary

variable {version : String} {level : ℕ} {lib : SkillLibrary} {cs : List ClassSkills} {base ws : List Skill}

theorem harmless_of {x : Exempt} {n : Names} {k : SkillCore} (h : CoreOk x n k) {gauges : List String}
    {m₀ : SkillModifier} (hg : ∀ m specs, m₀.withCondition ⊆ m.withCondition →
      k.getJobResourceSpec m = .ok specs → ∀ r ∈ specs, r.clearAllResourcesOnly = true ∨ r.name ∈ gauges) :
    Harmless gauges m₀ k where
  damage := fun m _ => h.answers.damage m
  buff := fun m _ => h.answers.buff m
  debuff := fun m _ => h.answers.debuff m
  gauge := fun m hm => by
    obtain ⟨l, hl⟩ := h.answers.resource m
    exact ⟨l, hl, hg m l hm hl⟩
  combo := fun m _ => h.answers.combo m

theorem playable_of {x : Exempt} {n : Names} {s : Skill} (h : SkillOk x n s) {gauges : List String}
    {m₀ : SkillModifier} (hg : ∀ m specs, m₀.withCondition ⊆ m.withCondition →
      s.getJobResourceSpec m = .ok specs → ∀ r ∈ specs, r.clearAllResourcesOnly = true ∨ r.name ∈ gauges)
    (hf : ∀ m fs, s.getFollowUpSkills m = .ok fs → ∀ f ∈ fs, ∀ m' specs,
      f.skill.getJobResourceSpec m' = .ok specs → ∀ r ∈ specs, r.clearAllResourcesOnly = true ∨ r.name ∈ gauges)
    (hq : ∀ m, m₀.withCondition ⊆ m.withCondition → ∃ fs, s.getFollowUpSkills m = .ok fs) :
    Playable gauges m₀ s where
  harmless := harmless_of h.toCoreOk hg
  timing := fun m _ => by
    obtain ⟨ts, hts⟩ := h.timed m
    exact ⟨ts, hts, h.whole m ts hts⟩
  effects := h.effects
  followUps := fun m hm => by
    obtain ⟨fs, hfs⟩ := hq m hm
    exact ⟨fs, hfs, fun f hff => harmless_of (h.followUp m fs hfs f hff)
      (fun m' specs _ hs => hf m fs hfs f hff m' specs hs)⟩
  followUpEffects := fun m fs hfs f hff => (h.followUp m fs hfs f hff).effects

theorem agree_of {P : SkillCore → Prop} (h : ∀ k, P k → ∃ x n, CoreOk x n k) : Agree P where
  buffs := by
    intro a b m m' s s' k pa pb ha hb fa fb la lb
    obtain ⟨x, n, ca⟩ := h a pa
    obtain ⟨x', n', cb⟩ := h b pb
    obtain ⟨-, l, e1, -, e2⟩ := ca.forces m s ha fa
    obtain ⟨-, l', e3, -, e4⟩ := cb.forces m' s' hb fb
    have k1 := la.2 l e1
    have k2 := lb.2 l' e3
    rcases e2 with ⟨e2, g2⟩ | ⟨e2, g2⟩ <;> rcases e4 with ⟨e4, g4⟩ | ⟨e4, g4⟩
    · rw [e2, e4]
    · exact absurd (g2 _ k1) (g4 _ k2)
    · exact absurd (g4 _ k2) (g2 _ k1)
    · rw [e2, e4]
  debuffs := by
    intro a b m m' s s' k pa pb ha hb fa
    obtain ⟨x, n, ca⟩ := h a pa
    exact absurd fa (ca.noForces m s ha)

theorem speed_total (x : ℚ) (version : String) {level : ℕ} (h : level = 90 ∨ level = 100) :
    ∃ y, StatFns.getTimeUsingSpeedStat 0 x version level = .ok y := by
  have key : ∀ a b c, ∃ y, GameConsts.lookup a [(90, b), (100, c)] version level = .ok y := by
    intro a b c
    unfold GameConsts.lookup
    split_ifs
    · exact ⟨_, rfl⟩
    · rcases h with rfl | rfl <;> exact ⟨_, rfl⟩
  obtain ⟨a, ha⟩ := key 400 400 420
  obtain ⟨b, hb⟩ := key 1900 1900 2780
  obtain ⟨c, hc⟩ := key 130 130 130
  unfold StatFns.getTimeUsingSpeedStat GameConsts.getLevelSub GameConsts.getLevelDiv GameConsts.getSpeedConst
  rw [ha, Py.ok_bind, hb, Py.ok_bind, hc]
  exact ⟨_, rfl⟩

/-- The press comes from the library. -/
theorem asked_lib {rb : RotationBuilder} (hb : Built rb) {skill : Skill} {m : SkillModifier} {job : String}
    (h : Asked rb skill m job) : ∃ name, rb.lib.getSkill name job = .ok skill := by
  have hi := RotationBuilder.built_inv hb
  rcases h with ⟨p, hp, rfl, rfl, rfl⟩ | ⟨p, hp, rfl, rfl, rfl⟩
  · exact (hi.timed p hp).2
  · exact (hi.seq p hp).2

theorem playable_asked {rb : RotationBuilder} (h : Library version level rb.lib cs base ws) (hb : Built rb)
    (hs : Sensible rb) {settings : Dict String JobResourceSettings}
    (hg : rb.lib.getAllResourceSettings rb.stats.jobClass = .ok settings) {skill : Skill} {m : SkillModifier}
    {job : String} (ha : Asked rb skill m job) : Playable (Dict.keys settings) m skill := by
  obtain ⟨name, hl⟩ := asked_lib hb ha
  obtain ⟨hn, x, n, ho, hx, _, _, hr⟩ := h.skill hl
  have known : ∀ (r : JobResourceSpec), (r.clearAllResourcesOnly = false → r.name ∈ n.resources) →
      job = rb.stats.jobClass → r.clearAllResourcesOnly = true ∨ r.name ∈ Dict.keys settings := by
    rintro r h1 rfl
    cases hc : r.clearAllResourcesOnly with
    | true => exact .inl rfl
    | false =>
      obtain ⟨st, h2, h3⟩ := hr _ (h1 hc)
      rw [hg] at h2
      cases h2
      exact .inr h3
  refine playable_of ho ?_ ?_ ?_
  · intro m' specs hm hsp r hrr
    by_cases hj : job = rb.stats.jobClass
    · exact known r (fun hc => ho.gauges m' specs hsp r hrr hc) hj
    · exact .inl ((hs.guests skill m job ha hj).1 m' specs hm hsp r hrr)
  · intro m' fs hfs f hff m'' specs hsp r hrr
    by_cases hj : job = rb.stats.jobClass
    · exact known r (fun hc => (ho.followUp m' fs hfs f hff).gauges m'' specs hsp r hrr hc) hj
    · exact .inl ((hs.guests skill m job ha hj).2 m' fs hfs f hff m'' specs (by simp) hsp r hrr)
  · intro m' hm
    by_cases hq : job = "MCH" ∧ skill.name = "Automaton Queen"
    · obtain ⟨rfl, hq⟩ := hq
      exact hs.queen skill m ha hq m' hm
    · refine ho.followUps ?_ m'
      rcases hx with rfl | ⟨rfl, _⟩
      · unfold exempt
        simp only
        split_ifs with hj
        · simpa using fun h => hq ⟨hj, h⟩
        · simp
      · simp

/-- What makes auto-attacks faster, all together, leaves more than a tenth of their delay. -/
theorem leftOf_fast : (1 : ℚ) / 10 ≤ leftOf fastEffects := by
  decide +kernel

theorem inPlay_core {rb : RotationBuilder} (h : Library version level rb.lib cs base ws) (hb : Built rb)
    {k : SkillCore} (hk : InPlay rb k) : ∃ x n, CoreOk x n k := by
  rcases hk with ⟨skill, hsk, hk⟩ | ⟨-, skill, delay, hs, rfl⟩
  · have : ∃ m job, Asked rb skill m job := by
      rcases hsk with ⟨p, hp, rfl⟩ | ⟨p, hp, rfl⟩
      · exact ⟨_, _, .inl ⟨p, hp, rfl, rfl, rfl⟩⟩
      · exact ⟨_, _, .inr ⟨p, hp, rfl, rfl, rfl⟩⟩
    obtain ⟨m, job, ha⟩ := this
    obtain ⟨name, hl⟩ := asked_lib hb ha
    obtain ⟨hn, x, n, ho, _⟩ := h.skill hl
    rcases hk with rfl | ⟨m, fs, hfs, f, hff, rfl⟩
    · exact ⟨x, n, ho.toCoreOk⟩
    · exact ⟨x, n, ho.followUp m fs hfs f hff⟩
  · rcases hs.1 with ⟨-, hl⟩ | ⟨-, hl⟩
    · obtain ⟨hn, x, n, ho, _⟩ := h.skill hl
      exact ⟨x, n, ho.toCoreOk⟩
    · obtain ⟨hn, x, n, ho, _⟩ := h.skill hl
      exact ⟨x, n, ho.toCoreOk⟩

theorem faster_of {P : SkillCore → Prop} (h : ∀ k, P k → ∃ x n, CoreOk x n k) :
    Faster P SkillCore.getBuffSpec fastEffects ∧ Faster P SkillCore.getDebuffSpec [] := by
  refine ⟨⟨by decide +kernel, ?_⟩, ⟨by simp, ?_⟩⟩
  · intro k m s hk hs
    obtain ⟨x, n, ho⟩ := h k hk
    exact (ho.fast m s hs).imp (fun h => h.le) id
  · intro k m s hk hs
    obtain ⟨x, n, ho⟩ := h k hk
    exact .inl (ho.notFast m s hs).le

/-- The skills of the job of the stats only change gauges of the job. -/
theorem ownGauges {rb : RotationBuilder} (h : Library version level rb.lib cs base ws)
    {settings : Dict String JobResourceSettings}
    (hg : rb.lib.getAllResourceSettings rb.stats.jobClass = .ok settings) {name : String} {skill : Skill}
    (hs : rb.lib.getSkill name rb.stats.jobClass = .ok skill) {m₀ : SkillModifier} :
    Harmless (Dict.keys settings) m₀ skill.toSkillCore := by
  obtain ⟨hn, x, n, ho, hx, _, _, hr⟩ := h.skill hs
  refine harmless_of ho.toCoreOk ?_
  intro m specs _ hsp r hrr
  cases hc : r.clearAllResourcesOnly with
  | true => exact .inl rfl
  | false =>
    obtain ⟨st, h2, h3⟩ := hr _ (ho.gauges m specs hsp r hrr hc)
    rw [hg] at h2
    cases h2
    exact .inr h3

theorem playableAutos {rb : RotationBuilder} (h : Library version level rb.lib cs base ws) (hb : Built rb)
    (hs : Sensible rb) (ha : SensibleAutos rb) {skill : Skill} {delay : ℚ} (hau : AutoSkill rb skill delay)
    {settings : Dict String JobResourceSettings}
    (hg : rb.lib.getAllResourceSettings rb.stats.jobClass = .ok settings) :
    PlayableAutos (Dict.keys settings) rb := by
  have hlib : ∃ name, rb.lib.getSkill name rb.stats.jobClass = .ok skill := by
    rcases hau.1 with ⟨-, hl⟩ | ⟨-, hl⟩ <;> exact ⟨_, hl⟩
  obtain ⟨aname, hl⟩ := hlib
  have hown : Harmless (Dict.keys settings) {} skill.toSkillCore := ownGauges h hg hl
  refine ⟨⟨skill, delay, hau, hown, ?_⟩, ?_, ?_, ha.hurts, fastEffects, [], (faster_of fun k hk => inPlay_core h hb hk).1,
    (faster_of fun k hk => inPlay_core h hb hk).2, ?_⟩
  · obtain ⟨hn, x, n, ho, _⟩ := h.skill hl
    exact ho.effects
  · rintro k (⟨sk, hq, hk⟩ | ⟨-, sk, dl, hsk, rfl⟩) hH
    · have : ∃ m job, Asked rb sk m job := by
        rcases hq with ⟨p, hp, rfl⟩ | ⟨p, hp, rfl⟩
        · exact ⟨_, _, .inl ⟨p, hp, rfl, rfl, rfl⟩⟩
        · exact ⟨_, _, .inr ⟨p, hp, rfl, rfl, rfl⟩⟩
      obtain ⟨m, job, hask⟩ := this
      obtain ⟨name, hl⟩ := asked_lib hb hask
      by_cases hj : job = rb.stats.jobClass
      · subst hj
        rcases hk with rfl | ⟨m', fs, hfs, f, hff, rfl⟩
        · exact ownGauges h hg hl
        · obtain ⟨hn, x, n, ho, hx, _, _, hr⟩ := h.skill hl
          refine harmless_of (ho.followUp m' fs hfs f hff) ?_
          intro m'' specs _ hsp r hrr
          cases hc : r.clearAllResourcesOnly with
          | true => exact .inl rfl
          | false =>
            obtain ⟨st, h2, h3⟩ := hr _ ((ho.followUp m' fs hfs f hff).gauges m'' specs hsp r hrr hc)
            rw [hg] at h2
            cases h2
            exact .inr h3
      · obtain ⟨hn, x, n, ho, _⟩ := h.skill hl
        rcases hk with rfl | ⟨m', fs, hfs, f, hff, rfl⟩
        · exact harmless_of ho.toCoreOk
            (fun m'' specs hm hsp r hrr => .inl (ha.guests sk m job hask hj hH m'' specs hm hsp r hrr))
        · exact harmless_of (ho.followUp m' fs hfs f hff)
            (fun m'' specs hm hsp r hrr =>
              .inl ((hs.guests sk m job hask hj).2 m' fs hfs f hff m'' specs hm hsp r hrr))
    · cases (RotationBuilder.autoSkill_of hsk).1.symm.trans (RotationBuilder.autoSkill_of hau).1
      exact hown
  · intro p hp
    obtain ⟨name, hl⟩ := asked_lib hb (.inl ⟨p, hp, rfl, rfl, rfl⟩)
    obtain ⟨hn, x, n, ho, _⟩ := h.skill hl
    exact ho.answers.channeling _
  · have h1 := ha.pace
    have h2 := leftOf_fast
    have h3 : leftOf [] = 1 := by simp [leftOf]
    rw [h3]
    nlinarith

theorem playableRotation {rb : RotationBuilder} (h : Library version level rb.lib cs base ws) (hb : Built rb)
    (hs : Sensible rb) (hau : rb.enableAutos = true → ∃ skill delay, AutoSkill rb skill delay) :
    PlayableRotation rb := by
  obtain ⟨c, hc, hcj⟩ := h.find hs.job
  obtain ⟨settings, hg, _⟩ := h.made.resources c hc
  rw [hcj] at hg
  have ht : ∀ p ∈ rb.qTimed, Asked rb p.skill p.modifier p.jobClass := fun p hp => .inl ⟨p, hp, rfl, rfl, rfl⟩
  have hq : ∀ p ∈ rb.qSequence, Asked rb p.skill p.modifier p.jobClass := fun p hp => .inr ⟨p, hp, rfl, rfl, rfl⟩
  refine ⟨speed_total _ _ hs.level, h.made.breakers _ hs.job, ⟨settings, hg, fun p hp => ?_, fun p hp => ?_,
      fun he => ?_⟩,
    ⟨fun p hp => hs.bonus _ _ _ (ht p hp), fun p hp => hs.bonus _ _ _ (hq p hp)⟩,
    agree_of fun k hk => inPlay_core h hb hk, hs.start, ?_⟩
  · exact playable_asked h hb hs hg (ht p hp)
  · exact playable_asked h hb hs hg (hq p hp)
  · obtain ⟨skill, delay, hsk⟩ := hau he
    exact playableAutos h hb hs (hs.autos he) hsk hg
  · intro p hp q hq' h1 h2
    obtain ⟨a, ha⟩ := asked_lib hb (ht p hp)
    obtain ⟨b, hb'⟩ := asked_lib hb (ht q hq')
    rw [← (h.skill ha).1] at ha
    rw [← (h.skill hb').1, ← h2, ← hs.names p hp q hq' h1 h2, ha] at hb'
    exact Except.ok.inj hb'

end Ama.GameData
