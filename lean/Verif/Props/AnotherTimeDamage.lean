import Verif.Props.AnotherTime
import Verif.Props.Shift

/-!
# The damage of a rotation played at another time (C104)
-/

namespace Ama

open Spec RotationBuilder

variable {k : ℤ} {stats : Stats} {lib : SkillLibrary} {start : Option ℚ} {target : String}
  {rb₀ rb₀' rb rb' a : RotationBuilder} {ops : List BuilderOp} {fuel n : ℕ} {db : DamageBuilder}

theorem laterInstance_zero (l : List DamageInstance) : l.map (laterInstance ((0 : ℤ) : ℚ)) = l := by
  conv_rhs => rw [← List.map_id l]
  refine List.map_congr_left fun x _ => ?_
  simp [laterInstance]

/-- C104, partial.  Missing: what is missing from `C103_exact_partial`.

Take the same rotation, `k` milliseconds later: fight start, timed skills, downtime and server ticks.  (If
there is no fight start, the downtime stays.)  Its timeline can be computed too, and the damage builder gives
the same damage instances - `k` later, given a fight start - or raises the same exception.  With the same
random numbers, the simulation gives the same samples of the damage and of the damage per second, the same
expected damage and the same variance. -/
theorem C104_damage_partial {snapDots : Option ℚ} {autos trailing : Bool} {downtime : RawDowntime}
    (h₀ : RotationBuilder.init stats lib snapDots autos trailing start downtime target = .ok rb₀)
    (h₀' : RotationBuilder.init stats lib (snapDots.map (· + (k : ℚ) / 1000)) autos trailing (start.map (· + (k : ℚ)))
      (if start = none then downtime else laterDowntime k downtime) target = .ok rb₀')
    (hm : ∀ op ∈ ops, op.Milli) (hs : start ≠ none ∨ ∀ op ∈ ops, op.isNext = false)
    (hn : ∀ op ∈ ops, op.isTiming = false) (hsnap : ∀ s, snapDots = some s → ∃ n : ℤ, 1000 * s = n)
    (h : ops.foldlM BuilderOp.run rb₀ = .ok rb)
    (h' : (ops.map (BuilderOp.later k)).foldlM BuilderOp.run rb₀' = .ok rb')
    (hl : Lasting lib stats.jobClass)
    (hautos : rb.enableAutos = true → start ≠ none ∨ downtime = .tuple [])
    (htrail : rb.ignoreTrailingDots = true → ∀ r, afterPresses rb = .ok r →
      ∀ t, r.events.getLastEventTime = some t → t ≠ 0 ∧ t + k ≠ 0)
    (hprio : ∀ r, beforeDowntime fuel rb = .ok r → ∀ e ∈ r.events.q,
      ∀ t, t = e.primary ∨ some t = e.secondary → Micro t ∨ 0 ≤ t ∧ 0 ≤ t + k)
    (ha : rb.getSkillTiming fuel = .ok a) (hd : start ≠ none ∨ ∃ e ∈ a.events.q, Damaging e)
    (hdb : DamageBuilder.init stats lib = .ok db) :
    ∃ b, rb'.getSkillTiming fuel = .ok b ∧
      (db.getDamageInstances b.events).map Prod.fst = (db.getDamageInstances a.events).map
        (fun r => r.1.map (laterInstance ((if start = none then 0 else k : ℤ) : ℚ))) ∧
      ∀ l dba wr ws s, db.getDamageInstances a.events = .ok (l, dba) →
        DamageSimulator.init stats l n wr ws = .ok s →
        ∃ l' dbb s', db.getDamageInstances b.events = .ok (l', dbb) ∧
          DamageSimulator.init stats l' n wr ws = .ok s' ∧
          s'.getRawDamage = s.getRawDamage ∧ s'.getDps = s.getDps ∧
          s'.getDamageMatrix = s.getDamageMatrix ∧
          s'.getExpectedDamagePerInstance = s.getExpectedDamagePerInstance ∧
          s'.getVariancePerInstance = s.getVariancePerInstance := by
  obtain ⟨b, g1, g2, g3⟩ := C103_exact_partial h₀ h₀' hm hs hn hsnap h h' hl hautos htrail hprio ha hd
  have key : (db.getDamageInstances b.events).map Prod.fst = (db.getDamageInstances a.events).map
      (fun r => r.1.map (laterInstance ((if start = none then 0 else k : ℤ) : ℚ))) := by
    by_cases hst : start = none
    · rw [(g3 hst).1, if_pos hst]
      cases db.getDamageInstances a.events with
      | error e => rfl
      | ok r => exact congrArg Except.ok (laterInstance_zero r.1).symm
    · rw [(g2 hst).1, if_neg hst]
      obtain ⟨r⟩ := run_of_ok ha
      obtain ⟨δ, r1, -, r3, -, -, -⟩ := r.spec
      obtain ⟨-, -, -, h4, -⟩ := built_later h₀ h₀' hm hs h h'
      obtain rfl := r1 (by rw [h4]; exact hst)
      refine C95_shift_partial hdb (.inl ⟨fuel, a, rb, ha, rfl⟩) ⟨1000 * k, by push_cast; ring⟩ ?_ (.inl hl)
      intro e' he' t ht
      obtain ⟨e, he, hder⟩ := r3 e' he'
      refine hprio _ (beforeDowntime_eq r) e he t ?_
      rw [hder.primary, hder.secondary] at ht
      rcases ht with ht | ht
      · exact .inl (by rw [ht, sub_zero])
      · right
        rw [ht]
        cases e.secondary <;> simp
  refine ⟨b, g1, key, ?_⟩
  intro l dba wr ws s h1 h2
  rw [h1] at key
  cases hx : db.getDamageInstances b.events with
  | error e => rw [hx] at key; cases key
  | ok r =>
    rw [hx] at key
    obtain ⟨l', dbb⟩ := r
    obtain rfl : l' = l.map (laterInstance ((if start = none then 0 else k : ℤ) : ℚ)) := Except.ok.inj key
    obtain ⟨s', k1, k2, k3, k4, k5, k6, -⟩ := C95_simulated (δ := ((if start = none then 0 else k : ℤ) : ℚ)) h2
    exact ⟨_, dbb, s', rfl, k1, k2, k3, k4, k5, k6⟩

/-- The hypothesis on the gauges holds for the shipped libraries and all job classes but Black Mage. -/
theorem C104_lasting {version : String} {level : ℕ} (hlib : GameData.createSkillLibrary version level = .ok lib)
    (hj : stats.jobClass ≠ "BLM") : Lasting lib stats.jobClass :=
  GameData.lasting_of hlib hj

/-- A Reaper's library. -/
example : ∃ lib, GameData.createSkillLibrary "7.05" 100 = .ok lib ∧ Ex.reaper.jobClass ≠ "BLM" :=
  ⟨_, Ex.shipped705.choose_spec, by decide⟩

/-- The theorem applies to the rotation with auto-attacks: its damage, and that of the rotation 2.5 seconds
later. -/
example : ∃ rb rb' a b l dba l' dbb,
    [Ex.next "Haste", Ex.next "Spell", Ex.at_ (1 / 2) "Venom", Ex.at_ 8 "Hit"].foldlM BuilderOp.run
      (Ex.start (some (1 / 2)) true true (some 0) (.tuple [⟨6, 7, none⟩])) = .ok rb ∧
    ([Ex.next "Haste", Ex.next "Spell", Ex.at_ (1 / 2) "Venom", Ex.at_ 8 "Hit"].map (BuilderOp.later 2500)).foldlM
      BuilderOp.run (Ex.start ((some (1 / 2 : ℚ)).map (· + ((2500 : ℤ) : ℚ) / 1000)) true true
        ((some (0 : ℚ)).map (· + ((2500 : ℤ) : ℚ))) (laterDowntime 2500 (.tuple [⟨6, 7, none⟩]))) = .ok rb' ∧
    rb.getSkillTiming 20 = .ok a ∧ rb'.getSkillTiming 20 = .ok b ∧
    Ex.fresh.getDamageInstances a.events = .ok (l, dba) ∧ Ex.fresh.getDamageInstances b.events = .ok (l', dbb) ∧
    l' = l.map (laterInstance (2500 : ℤ)) ∧
    l.map (fun x => (x.time, x.skill.name)) = [(1200, "Venom"), (1700, "Auto"), (2410, "Spell"), (3500, "Poison"),
      (4280, "Auto"), (7500, "Auto"), (8500, "Hit")] := by
  obtain ⟨rb, rb', a, h1, h2, h3, h4, h5, h6, h7, h8, -⟩ := Ex.withAutos
  have h : Ex.okAnd ([Ex.next "Haste", Ex.next "Spell", Ex.at_ (1 / 2) "Venom", Ex.at_ 8 "Hit"].foldlM BuilderOp.run
      (Ex.start (some (1 / 2)) true true (some 0) (.tuple [⟨6, 7, none⟩]))) (fun rb =>
      Ex.okAnd (rb.getSkillTiming 20) (fun a => Ex.okAnd (Ex.fresh.getDamageInstances a.events) (fun r =>
        decide (r.1.map (fun x => (x.time, x.skill.name)) = [(1200, "Venom"), (1700, "Auto"), (2410, "Spell"), (3500, "Poison"),
      (4280, "Auto"), (7500, "Auto"), (8500, "Hit")])))) = true := by
    decide +kernel
  obtain ⟨rb1, k1, h⟩ := Ex.ok_of h
  rw [h1] at k1
  cases k1
  obtain ⟨a1, k2, h⟩ := Ex.ok_of h
  rw [h8] at k2
  cases k2
  obtain ⟨⟨l, dba⟩, k3, h⟩ := Ex.ok_of h
  have hdb : DamageBuilder.init Ex.stats Ex.lib = .ok Ex.fresh := by decide +kernel
  obtain ⟨b, g1, g2, -⟩ := C104_damage_partial (n := 0) (k := 2500) (start := some 0) (snapDots := some (1 / 2))
    (downtime := .tuple [⟨6, 7, none⟩]) rfl rfl h3 (.inl (by simp)) h4
    (by rintro s hs; cases hs; exact h5) h1 h2 Ex.lasting (fun _ => .inl (by simp)) (fun _ => h6)
    (fun r hr e he t ht => .inl (h7 r hr e he t ht)) h8 (.inl (by simp)) hdb
  rw [k3] at g2
  cases hx : Ex.fresh.getDamageInstances b.events with
  | error e => rw [hx] at g2; cases g2
  | ok r =>
    rw [hx] at g2
    obtain ⟨l', dbb⟩ := r
    exact ⟨rb, rb', a, b, l, dba, l', dbb, h1, h2, h8, g1, k3, hx, Except.ok.inj g2, of_decide_eq_true h⟩

end Ama
