import Verif.Props.Damage
import Verif.Props.ShippedSafe

/-!
# From a rotation to its damage instances (C85)
-/

namespace Ama

open Spec

namespace RotationBuilder

theorem built_priority {rb : RotationBuilder} (hb : Built rb) :
    ∃ p, rb.lib.getStatusEffectPriority rb.stats.jobClass = .ok p := by
  obtain ⟨stats, lib, sd, a, t, fs, dt, tg, rb0, ops, h0, h1⟩ := hb
  induction ops using List.reverseRecOn generalizing rb with
  | nil =>
    cases h1
    unfold init at h0
    obtain ⟨p, hp, h0⟩ := Py.bind_eq_ok.1 h0
    cases h0
    exact ⟨p, hp⟩
  | append_singleton ops op ih =>
    rw [Py.foldlM_append] at h1
    obtain ⟨rb1, h1, h2⟩ := Py.bind_eq_ok.1 h1
    rw [Py.foldlM_cons] at h2
    obtain ⟨rb2, h3, h4⟩ := Py.bind_eq_ok.1 h2
    cases h4
    obtain ⟨f1, f2, -⟩ := op_frame h3
    rw [f1, f2]
    exact ih h1

theorem origin_bonus {rb : RotationBuilder} (h : PlayableRotation rb) {skill : Skill} {m : SkillModifier}
    (ho : Origin rb skill m) : m.bonusPercent = none := by
  cases ho with
  | press m₀ job h1 h2 =>
    rw [bonus_widens h2]
    rcases h1 with ⟨p, hp, -, rfl, -⟩ | ⟨p, hp, -, rfl, -⟩
    · exact h.bonus.1 p hp
    · exact h.bonus.2 p hp
  | followUp f h1 h2 h3 => rw [h3]
  | auto delay h1 h2 h3 => rw [h3]

end RotationBuilder

open RotationBuilder in
/-- A rotation that can be played has a timeline that the damage builder can process. -/
theorem pipeline {rb : RotationBuilder} (hb : Built rb) (h : PlayableRotation rb) :
    ∃ n rb' db settings, (∀ fuel, n ≤ fuel → rb.getSkillTiming fuel = .ok rb') ∧
      DamageBuilder.init rb.stats rb.lib = .ok db ∧
      rb.lib.getAllResourceSettings rb.stats.jobClass = .ok settings ∧ Timeline rb'.events ∧
      (∀ e ∈ rb'.events.q, Harmless settings.keys e.modifier e.skill.toSkillCore ∧
        e.modifier.bonusPercent = none) ∧
      Agree (fun k => ∃ e ∈ rb'.events.q, e.skill.toSkillCore = k) := by
  obtain ⟨n, rb', h1⟩ := C83_no_raise hb h
  obtain ⟨p, hp⟩ := built_priority hb
  obtain ⟨b, hbr⟩ := h.breakers
  obtain ⟨settings, hg, h2, h3, h4⟩ := h.presses
  obtain ⟨gauges, hs, hau⟩ := sound_of hb h
  have hgauges : gauges = Dict.keys settings := by
    obtain ⟨st, k1, k2⟩ := hs.settings
    rw [hg] at k1
    cases k1
    exact k2.symm
  subst hgauges
  have hinit : ∃ db, DamageBuilder.init rb.stats rb.lib = .ok db := by
    unfold DamageBuilder.init
    rw [hp, Py.ok_bind, hg, Py.ok_bind, hbr]
    exact ⟨_, rfl⟩
  obtain ⟨db, hdb⟩ := hinit
  have ho := timing_origin hb (h1 n le_rfl)
  refine ⟨n, rb', db, settings, h1, hdb, hg, .inl ⟨n, rb', rb, h1 n le_rfl, rfl⟩, ?_, ?_⟩
  · intro e he
    refine ⟨origin_harmless hs (fun hae => ?_) (ho e he), origin_bonus h (ho e he)⟩
    obtain ⟨skill, delay, k1, k2, -⟩ := (h4 hae).auto
    exact ⟨skill, delay, k1, k2⟩
  · have hin : ∀ k, (∃ e ∈ rb'.events.q, e.skill.toSkillCore = k) → InPlay rb k := by
      rintro k ⟨e, he, rfl⟩
      exact (ho e he).inPlay
    exact ⟨fun a b m m' s s' k pa pb => h.agree.buffs a b m m' s s' k (hin a pa) (hin b pb),
      fun a b m m' s s' k pa pb => h.agree.debuffs a b m m' s s' k (hin a pa) (hin b pb)⟩

/-- C85, in part: a rotation that can be played has a timeline, and a damage builder for the same stats and
library turns it into damage instances without an exception.  Missing: timelines in which two damaging
hits of the same skill name coincide, for which this can fail (`C40_type_error_refuted`). -/
theorem C85_damage_partial {rb : RotationBuilder} (hb : Built rb) (h : PlayableRotation rb) :
    ∃ n rb' db, (∀ fuel, n ≤ fuel → rb.getSkillTiming fuel = .ok rb') ∧
      DamageBuilder.init rb.stats rb.lib = .ok db ∧
      (HitsApart rb'.events.q →
        ∃ xs db', db.getDamageInstances rb'.events = .ok (xs, db')) := by
  obtain ⟨n, rb', db, settings, h1, hdb, hg, ht, h2, h3⟩ := pipeline hb h
  exact ⟨n, rb', db, h1, hdb, C40_no_raise_partial hdb hg ht h2 h3⟩

/-- The hypotheses can be met, with three auto-attacks and a dot among ten hits. -/
example : ∃ rb, Built rb ∧ PlayableRotation rb ∧ ∃ rb', rb.getSkillTiming 9 = .ok rb' ∧
    HitsApart rb'.events.q ∧
    ((hitsOf rb'.events.q).map (fun h => h.event.skill.name)).count "Auto" = 3 := by
  obtain ⟨rb, h0, h1, h2, -⟩ := Ex.mixed_playable
  have h : Ex.okAnd (do (← Ex.mixed).getSkillTiming 9) (fun rb' : RotationBuilder =>
      decide (((hitsOf rb'.events.q).map (fun h => (h.time, h.event.skill.name))).Nodup ∧
        ((hitsOf rb'.events.q).map (fun h => h.event.skill.name)).count "Auto" = 3)) = true := by
    decide +kernel
  rw [h0] at h
  obtain ⟨rb', h3, h4⟩ := Ex.ok_of h
  obtain ⟨h5, h6⟩ := of_decide_eq_true h4
  exact ⟨rb, h1, h2, rb', h3, hitsApart_of_nodup h5, h6⟩

/-- C85 for shipped skills, in part: rotations of shipped skills that keep the rules of `Sensible` have
damage instances.  Missing: as in `C85_damage_partial`. -/
theorem C85_shipped_partial {version : String} {level : ℕ} {lib : SkillLibrary} {rb : RotationBuilder}
    (h : GameData.createSkillLibrary version level = .ok lib) (hb : Built rb) (hl : rb.lib = lib)
    (hs : Sensible rb) (hv : rb.enableAutos = true →
      ¬ (rb.stats.jobClass = "VPR" ∧ "7.01" < version ∧ version < "7.05")) :
    ∃ n rb' db, (∀ fuel, n ≤ fuel → rb.getSkillTiming fuel = .ok rb') ∧
      DamageBuilder.init rb.stats lib = .ok db ∧
      (HitsApart rb'.events.q →
        ∃ xs db', db.getDamageInstances rb'.events = .ok (xs, db')) := by
  subst hl
  obtain ⟨cs, base, ws, hlib⟩ := GameData.library_of h
  exact C85_damage_partial hb (GameData.playableRotation hlib hb hs
    (fun he => shipped_auto h rfl hs.job (hv he)))

end Ama
