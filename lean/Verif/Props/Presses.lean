import Verif.Lemmas.PressEffects
import Verif.Lemmas.AutosTimeline
import Verif.Examples.Presses
import Verif.Props.Combos
import Verif.Props.Gauges

/-!
# Properties of presses: effects, combos and gauges in the rotation builder (C71 - C74)
-/

namespace Ama

open Spec RotationBuilder

variable {fuel : ℕ} {rb rb' : RotationBuilder}

/-! ## C71: what is asked of the trackers -/

/-- C71.  The sequence and the timed queue are processed one after the other, each from the beginning
and each with new trackers, the timed queue in the order of its times.  Every press is resolved once:
effects that are over are dropped at its time; then its buffs, its debuffs, its gauges, its combo and its
positional are determined, in this order, from everything that the presses before it did and nothing
else; its cast time, application and follow-ups follow from the conditions found; and then it changes the
effects and gauges itself.  The events of the timeline before dots and auto-attacks are exactly those of
these presses. -/
theorem C71_presses (h : rb.getSkillTiming fuel = .ok rb') :
    ∃ rb₀, afterPresses rb = .ok rb₀ ∧
    ∃ seq timed : List Pressed, ∃ slots, ∃ order : List TimedPress,
      order.Perm rb.qTimed ∧ order.Pairwise (fun a b => a.t ≤ b.t) ∧
      List.Forall₂ (fun (p : SeqPress) (u : Pressed) => u.skill = p.skill ∧
        u.asked = p.modifier ∧ u.targets = p.targets) rb.qSequence seq ∧
      List.Forall₂ (fun (p : TimedPress) (u : Pressed) => u.t = p.t ∧ u.skill = p.skill ∧
        u.asked = p.modifier ∧ u.targets = p.targets) order timed ∧
      (∀ u ∈ seq ++ timed, u.Proper rb.stats) ∧
      List.Forall₂ (Pressed.Occupies rb.stats) seq slots ∧
      Earliest (rb.fightStart.getD 0) none slots ∧
      Played rb seq ∧ Played rb timed ∧
      ∃ evss, List.Forall₂ Pressed.Makes (seq ++ timed) evss ∧ rb₀.events.q.Perm evss.flatten := by
  obtain ⟨r⟩ := run_of_ok h
  have hq : afterPresses rb = (rb.start.processQSequence >>= fun rb => rb.processQTimed) := rfl
  have h₀ : afterPresses rb = .ok (rb.start.apply r.log) := by
    rw [hq, processQueues_eq, r.queue]
    rfl
  exact ⟨_, h₀, presses_spec h₀⟩

/-- A buff, a gauge and a combo, in the sequence: each of them is seen by the presses after it. -/
example : ∃ rb rb', Built rb ∧ rb.getSkillTiming 0 = .ok rb' ∧
    rb'.events.q.map (fun e => (e.primary, e.skill.name, Ex.pressLabels e)) =
      [(0, "Gain", []), (650, "Surge", []), (1300, "First", []), (3740, "Second", ["Surge"]),
       (6180, "Spender", ["Surge", "2 Fists"])] :=
  Ex.presses_of [Ex.next "Gain", Ex.next "Surge", Ex.next "First", Ex.next "Second",
    Ex.next "Spender"]
    (fun rb' => rb'.events.q.map (fun e => (e.primary, e.skill.name, Ex.pressLabels e)) =
      [(0, "Gain", []), (650, "Surge", []), (1300, "First", []), (3740, "Second", ["Surge"]),
       (6180, "Spender", ["Surge", "2 Fists"])])
    (h := by decide +kernel)

/-! ## C72: status effects -/

section
variable {us l m r : List Pressed} {g u : Pressed} {slot : Slot} {name : String}
  {spec : StatusEffectSpec}

/-- C72.  A press is not affected by an effect that no press before it applies; in particular not by
its own. -/
theorem C72_never (h : Traced rb us slot name spec) (hus : us = l ++ u :: r)
    (hl : ∀ v ∈ l, v.gives slot name = []) : name ∉ (u.seen slot).statusEffects := by
  rw [played_entry h.played h.looked h.alone h.clear h.gives hus, foldl_pressEntry_none hl]
  rintro ⟨e, he, -⟩
  cases he

open Classical in
/-- C72.  An effect that was applied once, at time `a` by the press `g`, affects a later press exactly if
the skill may be affected, the press is not before `a` and not after the end of the effect, and the
presses from `a` on that used it are fewer than its uses. -/
theorem C72_once (h : Traced rb us slot name spec) {a : ℚ} (hus : us = l ++ g :: m ++ u :: r)
    (hl : ∀ v ∈ l, v.gives slot name = []) (hg : g.gives slot name = [a])
    (hm : ∀ v ∈ m, v.gives slot name = []) (heo : spec.extendOnly = false) (hn : 0 ≤ spec.numUses) :
    name ∈ (u.seen slot).statusEffects ↔
      Allowed u.skill.toSkillCore name spec ∧ a ≤ u.t ∧ (u.t : WithTop ℚ) ≤ a + spec.duration ∧
        ((((m.filter (fun v => decide (a ≤ v.t ∧ Allowed v.skill.toSkillCore name spec))).length : ℤ)) :
          WithTop ℤ) < spec.numUses := by
  rw [played_entry h.played h.looked h.alone h.clear h.gives hus, List.foldl_append, List.foldl_cons,
    foldl_pressEntry_none hl]
  have hge : pressEntry slot name spec none g = some
      { start := a, endT := (a : WithTop ℚ) + spec.duration, uses := spec.numUses, spec := spec } := by
    unfold pressEntry
    rw [hg, List.foldl_cons, List.foldl_nil]
    change grantEntry spec none a = _
    unfold grantEntry
    simp only [heo, Bool.false_eq_true, if_false]
  have hmt : ∀ v ∈ m, v.t ≤ u.t := by
    have := h.ordered
    rw [hus, List.pairwise_append] at this
    intro v hv
    exact this.2.2 v (by simp [hv]) u (by simp)
  rw [hge]
  exact foldl_pressEntry_some hm hmt _ _ rfl hn

/-- Swiftcast: of the two spells after it, the first one uses it up. -/
example : Traced Ex.pressStart Ex.swiftUses .buffs "Swift" Ex.swiftSpec ∧
    Ex.swiftUses.map (fun u => (u.t, u.skill.name, u.gives .buffs "Swift")) =
      [(0, "Hit", []), (650, "Swift", [650]), (1300, "Hit", []), (2440, "Spell", []),
       (5000, "Spell", [])] ∧
    Ex.swiftUses.map (fun u => decide ("Swift" ∈ (u.seen .buffs).statusEffects)) =
      [false, false, false, true, false] := by
  refine ⟨Ex.traced_of rfl rfl rfl (by decide +kernel) (by decide +kernel) 
    (by simp [Ex.swiftUses, Ex.pressed]) ?_, ?_, by decide +kernel⟩
  · intro u hu
    simp only [Ex.swiftUses, List.mem_cons, List.not_mem_nil, or_false] at hu
    rcases hu with rfl | rfl | rfl | rfl | rfl
    all_goals first
      | exact .inl ⟨rfl, rfl, rfl, by decide⟩
      | exact .inr ⟨rfl, rfl, rfl, rfl⟩
  · simp [Ex.swiftUses, Pressed.gives, Pressed.effectOps, Pressed.later, appliesEffect, Ex.pressed,
      Ex.swift, Ex.hit, Ex.spell]

/-- C72 (`_partial`: missing are presses between a press of the effect that comes before the end and its
application after the end, see `C72_gap_refuted`).  An effect that every application refreshes to its full
duration `d` affects a press exactly if the skill may be affected and some application by the presses
before it covers the time of the press. -/
theorem C72_refreshed_partial (h : Traced rb us slot name spec) {d : ℚ} (hd : 0 ≤ d)
    (hdur : spec.duration = ((d : ℚ) : WithTop ℚ)) (hmax : spec.maxDuration = ((d : ℚ) : WithTop ℚ))
    (hext : spec.extendsExistingDuration = true) (heo : spec.extendOnly = false)
    (hn : spec.numUses = ⊤) (hmn : spec.maxNumUses = ⊤)
    (hone : ∀ v ∈ us, (v.gives slot name).length ≤ 1)
    (hord : (givenBy slot name us).Pairwise (· ≤ ·))
    (hgap : ∀ l v r, us = l ++ v :: r → ∀ y ∈ v.gives slot name,
      (∃ x ∈ givenBy slot name l, y ≤ x + d) ∨ ∀ x ∈ givenBy slot name l, x + d < v.t)
    (hus : us = l ++ u :: r) :
    name ∈ (u.seen slot).statusEffects ↔
      Allowed u.skill.toSkillCore name spec ∧ ∃ a ∈ givenBy slot name l, a ≤ u.t ∧ u.t ≤ a + d := by
  rw [played_entry h.played h.looked h.alone h.clear h.gives hus]
  have hordered : (l.map (·.t) ++ [u.t]).Pairwise (· ≤ ·) := by
    have h1 := h.ordered
    rw [hus, List.pairwise_append] at h1
    rw [List.pairwise_append]
    refine ⟨List.pairwise_map.2 h1.1, by simp, ?_⟩
    intro x hx y hy
    obtain ⟨v, hv, rfl⟩ := List.mem_map.1 hx
    rw [List.mem_singleton.1 hy]
    exact h1.2.2 v hv u (by simp)
  obtain ⟨T, k1, k2, k3⟩ := foldl_refreshed (slot := slot) (name := name) hd hdur hmax hext heo hn hmn
    l u.t hordered (fun v hv => hone v (by rw [hus]; simp [hv]))
    (by
      unfold givenBy at hord
      rw [hus, List.flatMap_append] at hord
      exact (List.pairwise_append.1 hord).1)
    (fun l' v r' hl y hy => hgap l' v (r' ++ u :: r) (by rw [hus, hl]; simp) y hy)
  obtain ⟨k4, k5⟩ := k3.expire k1
  constructor
  · rintro ⟨e, he, h1, h2⟩
    obtain ⟨-, hs, last, -, h4, -, -, h7, -⟩ := k4.run e he
    have hle : u.t ≤ last + d := by
      have := k5 e he
      rw [h4] at this
      exact_mod_cast this
    obtain ⟨y, y1, y2, y3⟩ := h7 u.t h1 hle
    exact ⟨hs ▸ h2, y, y1, y2, y3⟩
  · rintro ⟨h1, a, ha, h2, h3⟩
    cases hx : expireEntry u.t (l.foldl (pressEntry slot name spec) none) with
    | none =>
      have := k4.over hx a ha
      linarith
    | some e =>
      obtain ⟨-, hs, last, -, -, -, -, -, h8⟩ := k4.run e hx
      refine ⟨e, rfl, ?_, hs ▸ h1⟩
      rcases h8 a ha with h8 | h8
      · exact le_trans h8 h2
      · linarith

/-- A buff that is refreshed in time, runs out, and is applied again: the presses that have it. -/
example : Traced Ex.pressStart Ex.surgeUses .buffs "Surge" Ex.surgeSpec ∧
    givenBy .buffs "Surge" Ex.surgeUses = [2000, 11000, 23500] ∧
    Ex.surgeUses.map (fun u => (u.t, decide ("Surge" ∈ (u.seen .buffs).statusEffects))) =
      [(0, false), (1000, false), (9000, true), (20000, true), (21500, false), (22000, false),
       (23500, true)] := by
  refine ⟨Ex.traced_of rfl rfl rfl (by decide +kernel) (by decide +kernel)
    (by simp [Ex.surgeUses, Ex.pressed]) ?_, ?_, by decide +kernel⟩
  · intro u hu
    simp only [Ex.surgeUses, List.mem_cons, List.not_mem_nil, or_false] at hu
    rcases hu with rfl | rfl | rfl | rfl | rfl | rfl | rfl
    all_goals first
      | exact .inl ⟨rfl, rfl, rfl, by decide⟩
      | exact .inr ⟨rfl, rfl, rfl, rfl⟩
  · simp [Ex.surgeUses, givenBy, Pressed.gives, Pressed.effectOps, Pressed.later, appliesEffect,
      Ex.pressed, Ex.surge, Ex.hit]

end

/-- The ten seconds of a buff end at 12 s.  It is pressed again at 11 s, with effect from 13 s on.  The
press at 12.5 s is treated as if it had the buff. -/
theorem C72_gap_refuted : ∃ rb rb', Built rb ∧ rb.getSkillTiming 0 = .ok rb' ∧
    Ex.surgeSpec.duration = ((10000 : ℚ) : WithTop ℚ) ∧
    (rb'.events.q.filter (fun e => decide (e.skill.name = "Surge"))).map appliedAt = [2000, 13000] ∧
    (rb'.events.q.filter (fun e => decide (e.skill.name = "Hit"))).map
      (fun e => (e.primary, decide ("Surge" ∈ e.modifier.withCondition))) = [(12500, true)] := by
  obtain ⟨rb, rb', h1, h2, h3⟩ := Ex.presses_of
    [Ex.at_ 0 "Surge", Ex.at_ 11 "Surge", Ex.at_ (125 / 10) "Hit"]
    (fun rb' =>
      (rb'.events.q.filter (fun e => decide (e.skill.name = "Surge"))).map appliedAt = [2000, 13000] ∧
      (rb'.events.q.filter (fun e => decide (e.skill.name = "Hit"))).map
        (fun e => (e.primary, decide ("Surge" ∈ e.modifier.withCondition))) = [(12500, true)])
    (h := by decide +kernel)
  exact ⟨rb, rb', h1, h2, rfl, h3⟩

/-- If it is pressed again after the end, the press in between does not have it. -/
example : ∃ rb rb', Built rb ∧ rb.getSkillTiming 0 = .ok rb' ∧
    (rb'.events.q.filter (fun e => decide (e.skill.name = "Hit"))).map
      (fun e => (e.primary, decide ("Surge" ∈ e.modifier.withCondition))) =
      [(12000, true), (13000, false), (14500, true)] :=
  Ex.presses_of [Ex.at_ 0 "Surge", Ex.at_ 12 "Hit", Ex.at_ (124 / 10) "Surge", Ex.at_ 13 "Hit",
      Ex.at_ (145 / 10) "Hit"]
    (fun rb' => (rb'.events.q.filter (fun e => decide (e.skill.name = "Hit"))).map
      (fun e => (e.primary, decide ("Surge" ∈ e.modifier.withCondition))) =
      [(12000, true), (13000, false), (14500, true)])
    (h := by decide +kernel)

/-! ## C73: combos -/

/-- C73.  A press has the condition "No Combo" from the combo check exactly if one of its combo actions
breaks the combo rule (see C21), where the actions are those of the presses of the same queue, in order,
at the times of the presses, each with the conditions from its effects and gauges.  A press with this
outcome carries the condition in its event. -/
theorem C73_combos {us : List Pressed} (h : Played rb us) :
    ∃ breakers, rb.lib.getAllComboBreakers rb.stats.jobClass = .ok breakers ∧
    ∀ i u, us[i]? = some u →
      (u.combo = "" ∨ u.combo = "No Combo") ∧
      (u.combo = "" ↔ ∀ p a,
        (comboActions 0 (us.map fun u => ⟨u.t, u.skill.toSkillCore, u.beforeCombo⟩))[p]? = some a →
        a.use = i → a.spec.breakAllCombosOnly = true ∨
          ComboOk breakers (comboActions 0
            (us.map fun u => ⟨u.t, u.skill.toSkillCore, u.beforeCombo⟩)) p) ∧
      ∀ evs, u.Makes evs → ∀ e ∈ evs.head?, u.combo = "No Combo" →
        "No Combo" ∈ e.modifier.withCondition := by
  obtain ⟨breakers, tr, h1, h2⟩ := h.combos
  obtain ⟨-, h3⟩ := C21_combo_rule breakers _ _ _ h2
  refine ⟨breakers, h1, ?_⟩
  intro i u hu
  obtain ⟨k1, k2⟩ := h3 i u.combo (by simp [hu])
  refine ⟨k1, k2, ?_⟩
  rintro evs ⟨main, new, rfl, hmain, -⟩ e he hc
  cases he
  rw [hmain.modifier]
  have : "No Combo" ∈ textConds u.combo := by
    rw [hc]
    decide +kernel
  unfold Pressed.modifier
  simp [this]

/-- A combo, and one that comes too late. -/
example : ∃ rb rb', Built rb ∧ rb.getSkillTiming 0 = .ok rb' ∧
    rb'.events.q.map (fun e => (e.primary, e.skill.name, Ex.pressLabels e)) =
      [(0, "First", []), (30000, "Second", []), (40000, "First", []), (70001, "Second", ["No Combo"])] :=
  Ex.presses_of [Ex.at_ 0 "First", Ex.at_ 30 "Second", Ex.at_ (70001 / 1000) "Second", Ex.at_ 40 "First"]
    (fun rb' => rb'.events.q.map (fun e => (e.primary, e.skill.name, Ex.pressLabels e)) =
      [(0, "First", []), (30000, "Second", []), (40000, "First", []), (70001, "Second", ["No Combo"])])
    (h := by decide +kernel)

/-! ## C74: gauges -/

/-- C74.  What a press is told about the gauges is what the gauge tracker (see C16 to C20) says at the
time of the press after the changes of all presses before it in the same queue, which count from their
snapshots (those of follow-ups: from their applications).  Its own changes do not matter, and for a gauge that does
not expire, neither do changes after the time of the press. -/
theorem C74_gauges {us l r : List Pressed} {u : Pressed} (h : Played rb us) (hus : us = l ++ u :: r)
    {settings : Dict String JobResourceSettings}
    (hs : rb.lib.getAllResourceSettings rb.stats.jobClass = .ok settings)
    (hd : (Dict.keys settings).Nodup) :
    ∃ tr past, runGauge (.init settings) (l.flatMap Pressed.gaugeOps) = .ok tr ∧
      runGauge (.init settings)
        ((l.flatMap Pressed.gaugeOps).filter (fun op => decide (op.time ≤ u.t))) = .ok past ∧
      (tr.compile u.t u.skill.name).map Prod.fst = .ok u.gauge ∧
      ∀ name n, (Reported tr u.t u.skill.name name n → Reported past u.t u.skill.name name n) ∧
        (∀ cfg, (name, cfg) ∈ settings → cfg.expiryFromLastGain = ⊤ →
          Reported past u.t u.skill.name name n → Reported tr u.t u.skill.name name n) := by
  obtain ⟨settings', h1, h2⟩ := h.gauges
  rw [hs] at h1
  cases h1
  obtain ⟨ops, x, x', k1, k2, k3⟩ := h2 l u r hus
  obtain ⟨tr, k4, k5⟩ := C17_queries_read_only settings hd ops x k2
  rw [k1] at k4
  obtain ⟨past, k6, k7⟩ := C20_future_partial settings hd _ tr k4 u.t
  refine ⟨tr, past, k4, k6, ?_, fun name n => k7 _ name n⟩
  rw [k5, k3]
  rfl

/-- A gauge is filled twice; "Both" does not see its own change. -/
example : ∃ rb rb', Built rb ∧ rb.getSkillTiming 0 = .ok rb' ∧
    rb'.events.q.map (fun e => (e.primary, e.skill.name, Ex.pressLabels e)) =
      [(0, "Gain", []), (1000, "Both", ["2 Fists"]), (5000, "Spender", ["3 Fists"])] :=
  Ex.presses_of [Ex.at_ 0 "Gain", Ex.at_ 1 "Both", Ex.at_ 5 "Spender"]
    (fun rb' => rb'.events.q.map (fun e => (e.primary, e.skill.name, Ex.pressLabels e)) =
      [(0, "Gain", []), (1000, "Both", ["2 Fists"]), (5000, "Spender", ["3 Fists"])])
    (h := by decide +kernel)

example : Played Ex.pressStart
    [Ex.pressed 0 Ex.gain 500, Ex.pressed 1000 Ex.both 1500 (gauge := "2 Fists"),
     Ex.pressed 5000 Ex.spender 5500 (gauge := "3 Fists")] ∧
    (Dict.keys Ex.pressGauges).Nodup ∧
    Ex.pressStart.lib.getAllResourceSettings Ex.pressStart.stats.jobClass = .ok Ex.pressGauges :=
  ⟨Ex.played_of (by decide +kernel), by decide, rfl⟩

example : Played Ex.pressStart
    [Ex.pressed 0 Ex.first 500, Ex.pressed 30000 Ex.second 30500, Ex.pressed 40000 Ex.first 40500,
     Ex.pressed 70001 Ex.second 70501 (combo := "No Combo")] :=
  Ex.played_of (by decide +kernel)

end Ama
