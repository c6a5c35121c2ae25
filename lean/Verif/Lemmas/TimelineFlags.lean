import Verif.Lemmas.TimelineSkills

/-!
# Events of a timeline have not taken their snapshots yet
-/

namespace Ama

open Spec

/-- No snapshot has been taken. -/
def SnapStatus.IsFlag : SnapStatus → Prop
  | .flag _ => True
  | .done _ => False

namespace RotationBuilder

theorem queue_flags {rb : RotationBuilder} {l : Log} (hl : rb.queueLog = .ok l) :
    ∀ a ∈ l.adds, a.snapshotBuffs.IsFlag ∧ a.snapshotDebuffs.IsFlag := by
  obtain ⟨su, tu, order, rfl, -⟩ := queueLog_spec hl
  intro a ha
  rw [logsOf_adds, List.mem_flatMap] at ha
  obtain ⟨u, hu, ha⟩ := ha
  rcases List.mem_cons.1 ha with rfl | ha
  · exact ⟨trivial, trivial⟩
  · obtain ⟨fi, hfi, rfl⟩ := List.mem_map.1 ha
    exact ⟨trivial, trivial⟩

theorem dotAdds_flags {snap last : Option ℚ} {d : Dots} {as : List NewEvent}
    (h : allDotAdds snap last d = .ok as) {a : NewEvent} (ha : a ∈ as) :
    a.snapshotBuffs.IsFlag ∧ a.snapshotDebuffs.IsFlag := by
  unfold allDotAdds at h
  obtain ⟨td, htd, l1, h1, ha⟩ := (mem_flatM h).1 ha
  obtain ⟨fa, hfa, l2, h2, ha⟩ := (mem_flatM h1).1 ha
  unfold dotAdds at h2
  cases hdur : fa.1.dotDuration with
  | none =>
    rw [hdur] at h2
    cases h2
  | some duration =>
    rw [hdur] at h2
    obtain ⟨r, hr, t, k, rfl, -⟩ := mem_rangeAdds h2 ha
    exact ⟨trivial, trivial⟩

theorem timing_flags {rb rb' : RotationBuilder} {fuel : ℕ} (h : rb.getSkillTiming fuel = .ok rb') :
    ∀ e ∈ rb'.events.q, e.snapshotBuffs.IsFlag ∧ e.snapshotDebuffs.IsFlag := by
  obtain ⟨r⟩ := run_of_ok h
  have hc : ∀ a ∈ r.adds, a.snapshotBuffs.IsFlag ∧ a.snapshotDebuffs.IsFlag := by
    intro a ha
    rcases List.mem_append.1 ha with ha | ha
    · rcases List.mem_append.1 ha with ha | ha
      · exact queue_flags r.queue a ha
      · exact dotAdds_flags r.dots ha
    · have hau := r.autos
      split_ifs at hau with he
      · obtain ⟨-, skill, delay, as, g1, g2, g3, -⟩ := hau
        rw [g3] at ha
        obtain ⟨x, hx, rfl⟩ := List.mem_map.1 ha
        exact ⟨trivial, trivial⟩
      · rw [hau] at ha
        simp at ha
  obtain ⟨δ, -, -, hk, -⟩ := finish_kept r.good r.finished
  intro e he
  obtain ⟨-, e0, he0, hs⟩ := hk e he
  have he0 : e0 ∈ r.collected.events.q := he0
  rw [r.collected_events] at he0
  obtain ⟨a, ha, hb⟩ := mem_pushes he0
  rw [hs.buffs, hs.debuffs]
  obtain ⟨-, -, -, -, -, -, -, -, hb⟩ := hb
  split_ifs at hb
  · rw [hb.2.1, hb.2.2]
    exact ⟨trivial, trivial⟩
  · rw [hb.2.1, hb.2.2]
    exact hc a ha

end RotationBuilder

end Ama
