import Verif.Spec.Trackers
import Verif.Lemmas.Gauges

/-!
# Lemmas about the channeling tracker
-/

namespace Ama

open Spec ChannelingTracker

/-- When a channel closes, given the later uses. -/
def closing (start : ℚ) (spec : ChannelingSpec) (uses : WithTop ℤ) (us : List ChannelUse) : WithTop ℚ :=
  match interruptTime spec uses us with
  | none => (start : WithTop ℚ) + spec.duration
  | some t => min ((start : WithTop ℚ) + spec.duration) (t : WithTop ℚ)

/-- The windows before sorting. -/
def ChannelingTracker.pending (tr : ChannelingTracker) (us : List ChannelUse) :
    List (ℚ × WithTop ℚ) :=
  tr.windows ++ match tr.channel with
    | some c => [(c.start, closing c.start c.spec c.uses us)]
    | none => []

theorem channels_ok {u : ChannelUse} {s : Option ChannelingSpec} (hw : u.isWait = false)
    (h : u.skill.getChannelingSpec u.modifier = .ok s) : u.channels = s := by
  unfold ChannelUse.channels
  rw [hw, h]
  rfl

theorem zero_lt_decUses (u : WithTop ℤ) : 0 < decUses u ↔ 1 < u := by
  cases u with
  | top =>
    have h0 : decUses ⊤ = ⊤ := rfl
    rw [h0]
    exact ⟨fun _ => WithTop.coe_lt_top 1, fun _ => WithTop.coe_lt_top 0⟩
  | coe n =>
    have h0 : decUses (n : WithTop ℤ) = ((n - 1 : ℤ) : WithTop ℤ) := rfl
    rw [h0]
    have h1 : (0 : WithTop ℤ) = ((0 : ℤ) : WithTop ℤ) := rfl
    have h2 : (1 : WithTop ℤ) = ((1 : ℤ) : WithTop ℤ) := rfl
    rw [h1, h2, WithTop.coe_lt_coe, WithTop.coe_lt_coe]
    omega

/-- One use: the tracker does not raise, and together with the windows of the later uses the pending
windows stay the same. -/
theorem process_step (tr : ChannelingTracker) (u : ChannelUse) (us : List ChannelUse)
    (hf : tr.isFinalized = false) (hr : u.Readable) :
    ∃ tr', tr.process u.time u.skill u.modifier = .ok tr' ∧ tr'.isFinalized = false ∧
      tr'.pending us ++ expectedWindows us = tr.pending (u :: us) ++ expectedWindows (u :: us) := by
  unfold process
  have hassert : pyAssert (!tr.isFinalized) = .ok () := by rw [hf]; rfl
  rw [hassert, Py.ok_bind]
  by_cases hw : u.isWait = true
  · have hw' : strContains SimConsts.WAIT_PREFIX u.skill.name = true := hw
    rw [if_pos hw']
    refine ⟨tr, rfl, hf, ?_⟩
    have hc : u.channels = none := by
      unfold ChannelUse.channels
      rw [if_pos hw]
    simp only [expectedWindows, hc, pending, closing, interruptTime, hw, if_true]
  · have hwf : u.isWait = false := by simpa using hw
    have hw' : ¬ strContains SimConsts.WAIT_PREFIX u.skill.name = true := hw
    rw [if_neg hw']
    obtain ⟨s, hs⟩ := hr.resolve_left hw
    have hc := channels_ok hwf hs
    rw [hs, Py.ok_bind]
    cases s with
    | some spec =>
      cases hch : tr.channel with
      | none =>
        refine ⟨{ tr with channel := some { start := u.time, spec := spec, uses := spec.numUses } }, ?_, hf, ?_⟩
        · simp only [startChanneling, hch]
          rfl
        · simp only [expectedWindows, hc, pending, hch, closing, List.append_assoc, List.nil_append,
            List.singleton_append]
          rfl
      | some c =>
        refine ⟨{ tr.endChannelingAt c u.time with
          channel := some { start := u.time, spec := spec, uses := spec.numUses } }, ?_, hf, ?_⟩
        · simp only [startChanneling, endChannelingAt]
          rfl
        · simp only [expectedWindows, hc, pending, hch, closing, List.append_assoc,
            List.singleton_append, endChannelingAt, interruptTime, hwf, Bool.false_eq_true, if_false,
            Option.isSome_some, if_true]
          rfl
    | none =>
      cases hch : tr.channel with
      | none =>
        refine ⟨tr, rfl, hf, ?_⟩
        simp only [expectedWindows, hc, pending, hch]
      | some c =>
        by_cases hal : u.skill.name ∈ c.spec.skillAllowlist
        · by_cases hu : 0 < decUses c.uses
          · refine ⟨{ tr with channel := some { c with uses := decUses c.uses } }, ?_, hf, ?_⟩
            · simp only [hal, hu, if_true]
              rfl
            · have hu' := (zero_lt_decUses _).1 hu
              have hi : interruptTime c.spec c.uses (u :: us) =
                  interruptTime c.spec (decUses c.uses) us := by
                simp only [interruptTime, hwf, hc, hal, hu', Bool.false_eq_true, if_false,
                  Option.isSome_none, and_self, if_true]
                rfl
              simp only [expectedWindows, hc, pending, hch, closing, hi]
          · refine ⟨tr.endChannelingAt c u.time, ?_, hf, ?_⟩
            · simp only [hal, hu, if_true, if_false]
              rfl
            · have hu' : ¬ 1 < c.uses := fun h => hu ((zero_lt_decUses _).2 h)
              have hi : interruptTime c.spec c.uses (u :: us) = some u.time := by
                simp only [interruptTime, hwf, hc, hal, hu', Bool.false_eq_true, if_false,
                  Option.isSome_none, and_false]
              simp only [expectedWindows, hc, pending, hch, closing, hi, endChannelingAt,
                List.append_nil]
        · refine ⟨tr.endChannelingAt c u.time, ?_, hf, ?_⟩
          · simp only [hal, if_false]
            rfl
          · have hi : interruptTime c.spec c.uses (u :: us) = some u.time := by
              simp only [interruptTime, hwf, hc, hal, Bool.false_eq_true, if_false,
                Option.isSome_none, false_and]
            simp only [expectedWindows, hc, pending, hch, closing, hi, endChannelingAt,
              List.append_nil]

theorem process_all (us : List ChannelUse) (tr : ChannelingTracker) (hf : tr.isFinalized = false)
    (hr : ∀ u ∈ us, u.Readable) :
    ∃ tr', us.foldlM (fun (tr : ChannelingTracker) u => tr.process u.time u.skill u.modifier) tr =
        .ok tr' ∧ tr'.isFinalized = false ∧
      tr'.pending [] = tr.pending us ++ expectedWindows us := by
  induction us generalizing tr with
  | nil => exact ⟨tr, rfl, hf, by simp [expectedWindows]⟩
  | cons u us ih =>
    obtain ⟨tr1, h1, h2, h3⟩ := process_step tr u us hf (hr u (by simp))
    obtain ⟨tr2, g1, g2, g3⟩ := ih tr1 h2 (fun v hv => hr v (by simp [hv]))
    exact ⟨tr2, by rw [Py.foldlM_cons, h1, Py.ok_bind, g1], g2, by rw [g3, h3]⟩

theorem runChanneling_eq (us : List ChannelUse) (hr : ∀ u ∈ us, u.Readable) :
    runChanneling us = .ok (sortBy (fun w => toLex w) (expectedWindows us)) := by
  obtain ⟨tr, h1, h2, h3⟩ := process_all us {} rfl hr
  unfold runChanneling
  rw [h1, Py.ok_bind]
  unfold finalize getWindows
  rw [h2]
  have h5 : tr.pending [] = expectedWindows us := by
    rw [h3]
    simp [pending]
  rw [← h5]
  simp only [pyAssert, Bool.not_false, if_true, Py.ok_bind, Py.pure_eq, pending]
  cases tr.channel with
  | none => simp
  | some c => simp [closing, interruptTime]

/-- Facts about the expected windows when times do not decrease. -/
theorem interruptTime_mem {spec : ChannelingSpec} {uses : WithTop ℤ} {us : List ChannelUse} {t : ℚ}
    (h : interruptTime spec uses us = some t) : ∃ u ∈ us, u.time = t := by
  induction us generalizing uses with
  | nil => simp [interruptTime] at h
  | cons u us ih =>
    simp only [interruptTime] at h
    split_ifs at h
    · obtain ⟨v, hv, e⟩ := ih h
      exact ⟨v, by simp [hv], e⟩
    · exact ⟨u, by simp, by simpa using h⟩
    · obtain ⟨v, hv, e⟩ := ih h
      exact ⟨v, by simp [hv], e⟩
    · exact ⟨u, by simp, by simpa using h⟩

/-- A later channeling use interrupts. -/
theorem interruptTime_le {spec : ChannelingSpec} {uses : WithTop ℤ} {us : List ChannelUse}
    (hs : us.Pairwise (fun a b => a.time ≤ b.time)) {v : ChannelUse} (hv : v ∈ us)
    (hc : v.channels.isSome) : ∃ t, interruptTime spec uses us = some t ∧ t ≤ v.time := by
  induction us generalizing uses with
  | nil => simp at hv
  | cons u us ih =>
    rw [List.pairwise_cons] at hs
    rcases List.mem_cons.1 hv with rfl | hv'
    · have hw : v.isWait = false := by
        by_contra hw
        unfold ChannelUse.channels at hc
        rw [if_pos (by simpa using hw)] at hc
        simp at hc
      refine ⟨v.time, ?_, le_rfl⟩
      simp only [interruptTime, hw, Bool.false_eq_true, if_false, hc, if_true]
    · simp only [interruptTime]
      split_ifs
      · exact ih hs.2 hv'
      · exact ⟨u.time, rfl, hs.1 v hv'⟩
      · exact ih hs.2 hv'
      · exact ⟨u.time, rfl, hs.1 v hv'⟩

theorem expectedWindows_mem {us : List ChannelUse} {w : ℚ × WithTop ℚ} (h : w ∈ expectedWindows us) :
    ∃ u ∈ us, ∃ spec, u.channels = some spec ∧ w.1 = u.time ∧
      w.2 ≤ (u.time : WithTop ℚ) + spec.duration := by
  induction us with
  | nil => simp [expectedWindows] at h
  | cons u us ih =>
    simp only [expectedWindows] at h
    cases hc : u.channels with
    | none =>
      rw [hc] at h
      obtain ⟨v, hv, rest⟩ := ih h
      exact ⟨v, by simp [hv], rest⟩
    | some spec =>
      rw [hc] at h
      rcases List.mem_cons.1 h with rfl | h
      · refine ⟨u, by simp, spec, hc, rfl, ?_⟩
        simp only
        cases interruptTime spec spec.numUses us with
        | none => exact le_rfl
        | some t => exact min_le_left _ _
      · obtain ⟨v, hv, rest⟩ := ih h
        exact ⟨v, by simp [hv], rest⟩

theorem expectedWindows_start_le {us : List ChannelUse}
    (hs : us.Pairwise (fun a b => a.time ≤ b.time))
    (hd : ∀ u ∈ us, ∀ spec, u.channels = some spec → 0 ≤ spec.duration) {w : ℚ × WithTop ℚ}
    (h : w ∈ expectedWindows us) : (w.1 : WithTop ℚ) ≤ w.2 := by
  induction us with
  | nil => simp [expectedWindows] at h
  | cons u us ih =>
    rw [List.pairwise_cons] at hs
    simp only [expectedWindows] at h
    cases hc : u.channels with
    | none =>
      rw [hc] at h
      exact ih hs.2 (fun v hv => hd v (by simp [hv])) h
    | some spec =>
      rw [hc] at h
      rcases List.mem_cons.1 h with rfl | h
      · have hdur : (u.time : WithTop ℚ) ≤ (u.time : WithTop ℚ) + spec.duration := by
          have := add_le_add (le_refl (u.time : WithTop ℚ)) (hd u (by simp) spec hc)
          simpa using this
        simp only
        cases hi : interruptTime spec spec.numUses us with
        | none => exact hdur
        | some t =>
          obtain ⟨v, hv, rfl⟩ := interruptTime_mem hi
          exact le_min hdur (WithTop.coe_le_coe.2 (hs.1 v hv))
      · exact ih hs.2 (fun v hv => hd v (by simp [hv])) h

theorem expectedWindows_pairwise {us : List ChannelUse}
    (hs : us.Pairwise (fun a b => a.time ≤ b.time)) :
    (expectedWindows us).Pairwise (fun a b => a.2 ≤ (b.1 : WithTop ℚ)) := by
  induction us with
  | nil => simp [expectedWindows]
  | cons u us ih =>
    rw [List.pairwise_cons] at hs
    simp only [expectedWindows]
    cases hc : u.channels with
    | none => exact ih hs.2
    | some spec =>
      rw [List.pairwise_cons]
      refine ⟨?_, ih hs.2⟩
      intro w hw
      obtain ⟨v, hv, spec', hc', e, _⟩ := expectedWindows_mem hw
      obtain ⟨t, ht, hle⟩ := interruptTime_le (spec := spec) (uses := spec.numUses) hs.2 hv (by simp [hc'])
      simp only [ht]
      rw [e]
      exact (min_le_right _ _).trans (WithTop.coe_le_coe.2 hle)

theorem sortBy_expectedWindows {us : List ChannelUse}
    (hs : us.Pairwise (fun a b => a.time ≤ b.time))
    (hd : ∀ u ∈ us, ∀ spec, u.channels = some spec → 0 ≤ spec.duration) :
    sortBy (fun w => toLex w) (expectedWindows us) = expectedWindows us := by
  apply sortBy_of_sorted
  refine List.Pairwise.imp_of_mem ?_ (expectedWindows_pairwise hs)
  intro a b ha hb hab
  have h1 := expectedWindows_start_le hs hd ha
  have h2 := expectedWindows_start_le hs hd hb
  have h3 : a.1 ≤ b.1 := WithTop.coe_le_coe.1 (h1.trans hab)
  rw [Prod.Lex.le_iff]
  rcases lt_or_eq_of_le h3 with h | h
  · exact Or.inl h
  · exact Or.inr ⟨h, hab.trans h2⟩

end Ama
