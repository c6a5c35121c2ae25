import Verif.Lemmas.GameData.Links
import Verif.Lemmas.GameData.Playable
import Verif.Props.GameData
import Verif.Props.Pipeline
import Verif.Props.Rename

/-!
# What the effects and variants of shipped skills refer to (C106-C108), and C105 for shipped skills
-/

namespace Ama

open Spec GameData SkillLibrary

variable {version : String} {level : ℕ} {lib : SkillLibrary}

/-! ## C105: the names of the targets -/

/-- No buff of a shipped skill ends a debuff of a shipped skill. -/
theorem Shipped.buffsEndNoDebuff {rb rb' : RotationBuilder} (hb : Built rb)
    (h : createSkillLibrary version level = .ok rb.lib) {fuel : ℕ} (hr : rb.getSkillTiming fuel = .ok rb') :
    BuffsEndNoDebuff rb'.events := by
  obtain ⟨cs, base, ws, hl⟩ := library_of h
  intro e he m s hs e' he' hn m' s' hs'
  obtain ⟨x, n, ho⟩ := inPlay_core hl hb (RotationBuilder.timing_origin hb hr e he).inPlay
  obtain ⟨x', n', ho'⟩ := inPlay_core hl hb (RotationBuilder.timing_origin hb hr e' he').inPlay
  exact (ho.ends m s hs _ hn).1 (ho'.debuff m' s' hs').1

/-- C105 for shipped skills: whatever rotation of skills of a shipped library is played, giving the targets of
its timeline other names, different names to different targets, changes nothing but these names. -/
theorem C105_shipped {rb rb' : RotationBuilder} (hb : Built rb)
    (h : createSkillLibrary version level = .ok rb.lib) {fuel : ℕ} (hr : rb.getSkillTiming fuel = .ok rb')
    {stats : Stats} {lib : SkillLibrary} {db : DamageBuilder} (hi : DamageBuilder.init stats lib = .ok db)
    {f : String → String} (hf : Function.Injective f) :
    (db.getDamageInstances (renameTimeline f rb'.events)).map Prod.fst =
      (db.getDamageInstances rb'.events).map (fun r => r.1.map (renameInstance f)) :=
  C105_rotation_partial hr hi hf (.inr (Shipped.buffsEndNoDebuff hb h hr))

/-- A Reaper uses Soul Slice, Arcane Circle and Gallows on the default target, which gets another name. -/
example : ∃ rb rb' fuel db, Built rb ∧ createSkillLibrary "7.05" 100 = .ok rb.lib ∧
    rb.getSkillTiming fuel = .ok rb' ∧ DamageBuilder.init rb.stats rb.lib = .ok db ∧
    Function.Injective (Ex.swap SimConsts.DEFAULT_TARGET "Boss") ∧
    rb.qSequence.map (·.skill.name) = ["Soul Slice", "Arcane Circle", "Gallows"] := by
  obtain ⟨lib, rb, h1, h2, rfl, h4, h5, h6, h7, -⟩ := Ex.reaper_sensible
  obtain ⟨n, rb', db, h8, h9, -⟩ := C85_shipped_partial h1 h2 rfl h4 (fun _ hv => by
    have := hv.2.2
    revert this
    decide +kernel)
  exact ⟨rb, rb', n, db, h2, h1, h8 n le_rfl, h9, Ex.swap_injective _ _, h6⟩

/-! ## C106: effects that are ended -/

/-- C106: whatever effect a skill of a shipped library or a follow-up of it ends, a skill of the same job class
gives it.  Partial: not the Black Mage's "Enhanced", see `C106_enhanced_refuted`. -/
theorem C106_ends_partial (h : createSkillLibrary version level = .ok lib) {name job : String} {s : Skill}
    (hs : lib.getSkill name job = .ok s) {k : SkillCore} (hk : PartOf s k) {a : String} (ha : Ends k a)
    (hx : ¬ (job = "BLM" ∧ a = "Enhanced")) : HasBuff lib job a := by
  obtain ⟨cs, base, ws, hl⟩ := library_of h
  obtain ⟨x, n, ho, hxx, hb, _⟩ := hl.part hs hk
  obtain ⟨m, e, he, hae⟩ := ha
  rcases he with he | he
  · rcases (ho.ends m e he a hae).2 with hg | hg
    · exfalso
      rcases hxx with rfl | rfl
      · unfold exempt at hg
        simp only at hg
        split_ifs at hg with hj
        · exact hx ⟨hj, List.mem_singleton.1 hg⟩
        · cases hg
      · cases hg
    · exact hb a hg
  · rw [(ho.debuff m e he).2] at hae
    cases hae

/-- C106 fails for the Black Mage's "Enhanced" from 7.0 on: High Blizzard II ends it, and nothing gives it. -/
theorem C106_enhanced_refuted (h : createSkillLibrary version level = .ok lib) (h7 : "7.0" ≤ version) :
    ∃ s, lib.getSkill "High Blizzard II" "BLM" = .ok s ∧ Ends s.toSkillCore "Enhanced" ∧
      ¬ HasBuff lib "BLM" "Enhanced" := by
  obtain ⟨cs, base, ws, hl⟩ := library_of h
  have hg := good_of h
  have h70 : (Env.of version level).ge .p70 = true := (Env.of_ge version level .p70).trans (decide_eq_true h7)
  have hf := Blm.no_enhanced _ hg.floor ((floor_ge _ _).trans h70)
  rw [Blm.job_floor] at hf
  obtain ⟨r, s, hp, hm, hs⟩ := hl.fact (Blm.mem _) hf.1
  simp only [Bool.and_eq_true, decide_eq_true_eq] at hp
  rw [hp.1] at hs
  refine ⟨s, hs, ?_, ?_⟩
  · have h2 := hp.2
    unfold endsEnhanced at h2
    split at h2
    · rename_i e he
      refine ⟨{}, e, Or.inl ?_, by simpa using h2⟩
      unfold SkillCore.getBuffSpec
      rw [mkSkill_buff hm, he]
      rfl
    · cases h2
  · have hj : lib.hasJobClass "BLM" = true := (C75_jobs h "BLM").2 (Or.inl (by simp))
    have hno : "Enhanced" ∉ Generic.baseNames ∧ "Enhanced" ∉ Generic.lbNames ∧
      "Enhanced".toList.take 5 ≠ "Wait ".toList := by decide +kernel
    have := (hl.noSkill hg hj (a := "Enhanced") (fun j hj' hjj => by
      rw [job_unique hj' (Blm.mem _) hjj]
      have := hf.2
      simpa using this) hno.1 hno.2.1 hno.2.2).1
    rintro ⟨name, t, ht, k, e, hk, hka, -⟩
    refine this ?_
    rcases hk with rfl | ⟨fs, hfs, f, hff, rfl⟩
    · rw [(hl.skill ht).1] at hka
      exact Or.inl ⟨t, hka ▸ ht⟩
    · exact Or.inr ⟨name, t, {}, fs, f, hff, ht, hfs, hka⟩

/-- Effects that are ended: the songs of the Bard end each other. -/
example : ∃ lib s, createSkillLibrary "7.05" 100 = .ok lib ∧ lib.getSkill "Mage's Ballad" "BRD" = .ok s ∧
    Ends s.toSkillCore "Army's Paeon" := by
  obtain ⟨lib, s, h, hs, hp⟩ := Ex.shipped (version := "7.05") (level := 100) (name := "Mage's Ballad")
    (p := fun s => match s.getBuffSpec {} with
      | .ok (some e) => e.expiresStatusEffects.contains "Army's Paeon"
      | _ => false)
    (by decide +kernel) (Brd.mem _) (by decide +kernel)
  split at hp
  · rename_i e he
    exact ⟨lib, s, h, hs, {}, e, Or.inl he, by simpa using hp⟩
  · cases hp

/-! ## C107: effects do something -/

/-- C107: whatever buff or debuff a skill of a shipped library or a follow-up of it gives, it does something:
it changes damage, hits or times, or ends effects, or it is told to a skill of the same job class that has a
variant for it.  Partial: not the two effects of the Viper that are told to the wrong skills, see
`C107_venom_refuted`; and, at level 90, not Poised for Twinfang and Firestarter. -/
theorem C107_effects_partial (h : createSkillLibrary version level = .ok lib) {name job : String} {s : Skill}
    (hs : lib.getSkill name job = .ok s) {k : SkillCore} (hk : PartOf s k)
    (h1 : ¬ (job = "VPR" ∧ k.name ∈ ["Fellhunter's Venom", "Fellskin's Venom"]))
    (h2 : ¬ (level = 90 ∧ job = "VPR" ∧ k.name = "Poised for Twinfang"))
    (h3 : ¬ (level = 90 ∧ job = "BLM" ∧ k.name = "Firestarter")) : DoSomething lib job k := by
  obtain ⟨cs, base, ws, hl⟩ := library_of h
  obtain ⟨x, n, ho, hxx, _, hr⟩ := hl.part hs hk
  intro m e he hi
  rcases ho.acts m e he hi with hu | ⟨h4, h5⟩
  · exfalso
    rcases hxx with rfl | rfl
    · unfold exempt at hu
      simp only at hu
      split_ifs at hu with hj hj hl
      · exact h3 ⟨by exact_mod_cast hj.2, hj.1, List.mem_singleton.1 hu⟩
      · simp only [List.mem_cons, List.not_mem_nil, or_false] at hu
        rcases hu with hu | hu | hu
        · exact h1 ⟨hj, by rw [hu]; simp⟩
        · exact h1 ⟨hj, by rw [hu]; simp⟩
        · exact h2 ⟨by exact_mod_cast hl, hj, hu⟩
      · exact h1 ⟨hj, hu⟩
      · cases hu
    · cases hu
  · exact ⟨h4, hr _ e h5⟩

/-- An effect that does something just by being told to other skills: Meikyo Shisui of the Samurai. -/
example : ∃ lib s e, createSkillLibrary "7.05" 100 = .ok lib ∧ lib.getSkill "Meikyo Shisui" "SAM" = .ok s ∧
    s.getBuffSpec {} = .ok (some e) ∧ Idle e := by
  obtain ⟨lib, s, h, hs, hp⟩ := Ex.shipped (version := "7.05") (level := 100) (name := "Meikyo Shisui")
    (p := fun s => match s.getBuffSpec {} with | .ok (some e) => idle e | _ => false)
    (by decide +kernel) (Sam.mem _) (by decide +kernel)
  split at hp
  · rename_i e he
    exact ⟨lib, s, e, h, hs, he, idle_iff.1 hp⟩
  · cases hp

/-- C107 fails for Fellhunter's Venom, the effect of the Viper's Hunter's Den: it is for Twinfang Thresh alone,
and nothing of that name has a variant for it.  (Between 7.01 and 7.05 there are no skills of the Viper.) -/
theorem C107_venom_refuted (h : createSkillLibrary version level = .ok lib) (h7 : "7.0" ≤ version)
    (h6 : ¬ ("7.01" < version ∧ version < "7.05")) :
    ∃ s k e, lib.getSkill "Hunter's Den" "VPR" = .ok s ∧ PartOf s k ∧ k.name = "Fellhunter's Venom" ∧
      (∀ m, k.getBuffSpec m = .ok (some e)) ∧ Idle e ∧ e.skillAllowlist = some ["Twinfang Thresh"] ∧
      ∀ name t, lib.getSkill name "VPR" = .ok t → ¬ ReactsTo t "Fellhunter's Venom" e := by
  obtain ⟨cs, base, ws, hl⟩ := library_of h
  have hg := good_of h
  have h70 : (Env.of version level).ge .p70 = true := (Env.of_ge version level .p70).trans (decide_eq_true h7)
  have hp6 : (Env.of version level).pos ≠ 6 := by
    intro hp
    have a1 := (pos_cases version level .p701).1
    have a2 := pos_cases version level .p705
    rw [hp] at a1 a2
    simp only [Patch.text, Patch.rank] at a1 a2
    refine h6 ⟨a1.2 (by decide), ?_⟩
    by_contra hn
    rcases lt_or_eq_of_le (not_lt.1 hn) with h8 | h8
    · exact absurd (a2.1.1 h8) (by decide)
    · exact absurd (a2.2.1 h8.symm) (by decide)
  have hf := Vpr.venom_unread _ (hg.floor7 h70)
  rw [Vpr.job_floor _ hp6] at hf
  obtain ⟨r, s, hp, hm, hs⟩ := hl.fact (Vpr.mem h70) hf
  simp only [Bool.and_eq_true, decide_eq_true_eq] at hp
  rw [hp.1] at hs
  have h2 := hp.2
  unfold givesUnread at h2
  split at h2
  · rename_i fs hfs
    obtain ⟨f, hff, h3⟩ := List.any_eq_true.1 h2
    rw [Bool.and_eq_true, decide_eq_true_eq] at h3
    obtain ⟨hfn, h3⟩ := h3
    split at h3
    · rename_i e he
      simp only [Bool.and_eq_true, decide_eq_true_eq, List.all_eq_true] at h3
      refine ⟨s, f.skill, e, hs, .inr ⟨{}, fs, ?_, f, hff, rfl⟩, hfn, fun m => ?_, idle_iff.1 h3.2.1, h3.1,
        fun name t ht hr => ?_⟩
      · unfold Skill.getFollowUpSkills
        rw [mkSkill_followUps hm, hfs]
        rfl
      · unfold SkillCore.getBuffSpec
        rw [he]
        rfl
      · rcases hl.described hg ht with ⟨j, hj, hjj, r', hr', hm'⟩ | hgen
        · rw [job_unique hj (Vpr.mem h70) hjj] at hr'
          exact quiet_sound (h3.2.2 r' hr') hm' hr
        · have hno : ¬ GenericName "Twinfang Thresh" := by
            unfold GenericName
            decide +kernel
          rcases hr with ⟨h4, -⟩ | ⟨m, fs', hfs', f', hff', h4, -⟩
          · have := hgen t.toSkillCore (.inl rfl)
            rw [List.mem_singleton.1 (h4 _ h3.1)] at this
            exact hno this
          · have := hgen f'.skill (.inr ⟨m, fs', hfs', f', hff', rfl⟩)
            rw [List.mem_singleton.1 (h4 _ h3.1)] at this
            exact hno this
    · cases h3
  · cases h2

example : ∃ lib, createSkillLibrary "7.05" 100 = .ok lib ∧ ("7.0" : String) ≤ "7.05" ∧
    ¬ (("7.01" : String) < "7.05" ∧ ("7.05" : String) < "7.05") := by
  obtain ⟨lib, h⟩ := (C75_created "7.05" 100).2 (by decide +kernel)
  exact ⟨lib, h, by decide +kernel, by decide +kernel⟩

/-- C107 (what it means to have no variant): a skill without a variant for a condition does the same with the
condition as without it. -/
theorem C107_unheard {r : RawSkill} {s : Skill} (hs : mkSkill r = .ok s) {a : String} (ha : ¬ MindsAny s a)
    (m : SkillModifier) :
    let m' : SkillModifier := { m with withCondition := insert a m.withCondition }
    s.getDamageSpec m' = s.getDamageSpec m ∧ s.getTimingSpec m' = s.getTimingSpec m ∧
    s.getBuffSpec m' = s.getBuffSpec m ∧ s.getDebuffSpec m' = s.getDebuffSpec m ∧
    s.getJobResourceSpec m' = s.getJobResourceSpec m ∧ s.getComboSpec m' = s.getComboSpec m ∧
    s.getFollowUpSkills m' = s.getFollowUpSkills m := by
  have key : ∀ {α : Type} (c : RawCond α), ¬ Keyed c.canonicalize a →
      c.canonicalize.lookup (insert a m.withCondition) = c.canonicalize.lookup m.withCondition := by
    intro α c hc
    rw [keyed_canonicalize] at hc
    cases c with
    | single v => rfl
    | dict d =>
      refine C06_irrelevant_condition d a (fun kv hkv h => hc ⟨kv.1, List.mem_map.2 ⟨kv, hkv, rfl⟩, ?_⟩) _
      exact mem_condsOf.2 h
  have tuple : ∀ {α : Type} (c : RawCond (List α)), ¬ Keyed c.canonicalize a →
      c.canonicalize.lookupTuple (insert a m.withCondition) = c.canonicalize.lookupTuple m.withCondition := by
    intro α c hc
    have := key c hc
    cases hc : c.canonicalize with
    | single v => rfl
    | dict d =>
      rw [hc] at this
      cases d with
      | nil => rfl
      | cons kv d => exact this
  unfold mkSkill at hs
  obtain ⟨d, _, hs⟩ := Py.bind_eq_ok.1 hs
  cases hs
  unfold MindsAny Minds at ha
  simp only [not_or] at ha
  obtain ⟨⟨a1, a2, a3, a4, a5, a6⟩, a7⟩ := ha
  exact ⟨key _ a1, key _ a2, key _ a3, key _ a4, tuple _ a5, tuple _ a6, tuple _ a7⟩

/-- Twinfang Thresh has no variant for Fellhunter's Venom. -/
example : ∃ lib s, createSkillLibrary "7.05" 100 = .ok lib ∧ lib.getSkill "Twinfang Thresh" "VPR" = .ok s ∧
    (¬ Keyed s.followUpSkills "Fellhunter's Venom") ∧ Keyed s.followUpSkills "Fellskin's Venom" := by
  obtain ⟨lib, s, h, hs, hp⟩ := Ex.shipped (version := "7.05") (level := 100) (name := "Twinfang Thresh")
    (p := fun s => !keyed "Fellhunter's Venom" s.followUpSkills && keyed "Fellskin's Venom" s.followUpSkills)
    (by decide +kernel) (Vpr.mem (by decide +kernel)) (by decide +kernel)
  rw [Bool.and_eq_true, Bool.not_eq_true'] at hp
  refine ⟨lib, s, h, hs, fun hk => ?_, keyed_iff.1 hp.2⟩
  have := hp.1
  rw [keyed_iff.2 hk] at this
  cases this

/-! ## C108: gauges are told -/

/-- C108: a skill of a shipped library that has a variant for an amount in a gauge of the job class is among the
skills that are told the amount.  Partial: not the Black Mage's Freeze, see `C108_freeze_refuted`, and not the
songs of the Bard. -/
theorem C108_told_partial (h : createSkillLibrary version level = .ok lib) {name job : String} {s : Skill}
    (hs : lib.getSkill name job = .ok s) {d : Dict String JobResourceSettings}
    (hd : lib.getAllResourceSettings job = .ok d) {g c : String} {st : JobResourceSettings}
    (hg : Dict.get? d g = some st) (ht : TellsGauge g st c) (hc : MindsAny s c)
    (h1 : ¬ (job = "BLM" ∧ name = "Freeze"))
    (h2 : ¬ (job = "BRD" ∧ name ∈ ["Army's Paeon", "Mage's Ballad", "The Wanderer's Minuet"])) :
    name ∈ st.skillAllowlist := by
  obtain ⟨cs, base, ws, hl⟩ := library_of h
  obtain ⟨hn, x, n, ho, hxx, _, _, hk⟩ := hl.links hs
  obtain ⟨h3, h4⟩ := ho.told (by
    rw [hn]
    rcases hxx with rfl | rfl
    · unfold exempt
      simp only
      split_ifs with hj hj
      · exact fun hm => h1 ⟨hj, List.mem_singleton.1 hm⟩
      · exact fun hm => h2 ⟨hj, hm⟩
      · exact List.not_mem_nil
    · exact List.not_mem_nil) c hc
  exact hn ▸ h4 (g, st) (hk h3 d hd g st hg) ht

/-- A skill with a variant for an amount in a gauge: Fire III, for three of Astral Fire. -/
example : ∃ lib s d st, createSkillLibrary "7.05" 100 = .ok lib ∧ lib.getSkill "Fire III" "BLM" = .ok s ∧
    lib.getAllResourceSettings "BLM" = .ok d ∧ Dict.get? d "Astral Fire" = some st ∧
    TellsGauge "Astral Fire" st "3 Astral Fire" ∧ MindsAny s "3 Astral Fire" := by
  obtain ⟨lib, s, h, hs, hp⟩ := Ex.shipped (version := "7.05") (level := 100) (name := "Fire III")
    (p := fun s => keyed "3 Astral Fire" s.damageSpec)
    (by decide +kernel) (Blm.mem _) (by decide +kernel)
  obtain ⟨cs, base, ws, hl⟩ := library_of h
  obtain ⟨d, st, hd, hget, h3⟩ := hl.gauge (Blm.mem _) (g := "Astral Fire")
    (p := fun st => st.addNumberToConditional) (by decide +kernel)
  refine ⟨lib, s, d, st, h, hs, hd, hget, ?_, .inl (.inl (keyed_iff.1 hp))⟩
  unfold TellsGauge
  rw [if_pos h3]
  exact ⟨3, rfl⟩

/-- C108 fails for the Black Mage's Freeze: it has variants for amounts of Astral Fire, and is not told them. -/
theorem C108_freeze_refuted (h : createSkillLibrary version level = .ok lib) :
    ∃ s d st, lib.getSkill "Freeze" "BLM" = .ok s ∧ lib.getAllResourceSettings "BLM" = .ok d ∧
      Dict.get? d "Astral Fire" = some st ∧ TellsGauge "Astral Fire" st "1 Astral Fire" ∧
      MindsAny s "1 Astral Fire" ∧ "Freeze" ∉ st.skillAllowlist := by
  obtain ⟨cs, base, ws, hl⟩ := library_of h
  have hg := good_of h
  have hf := Blm.freeze_untold _ hg.floor
  rw [Blm.job_floor] at hf
  obtain ⟨r, s, hp, hm, hs⟩ := hl.fact (Blm.mem _) hf.1
  simp only [Bool.and_eq_true, decide_eq_true_eq, List.contains_iff_mem] at hp
  rw [hp.1] at hs
  obtain ⟨d, st, hd, hget, h3⟩ := hl.gauge (Blm.mem _) hf.2
  rw [Bool.and_eq_true, Bool.not_eq_true'] at h3
  refine ⟨s, d, st, hs, hd, hget, ?_, mindsAny_of hm hp.2, fun hh => ?_⟩
  · unfold TellsGauge
    rw [if_pos h3.1]
    exact ⟨1, rfl⟩
  · rw [← List.contains_iff_mem, h3.2] at hh
    cases hh

end Ama
