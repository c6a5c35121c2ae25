import Verif.Lemmas.BuilderInv

/-!
# Lemmas on the presses of a rotation
-/

namespace Ama

open Spec

namespace RotationBuilder

/-- The slot of a use in the sequence. -/
theorem seqTimed_slot {stats : Stats} {st st' : SeqRest} {p : SeqPress} {u : Use}
    (hu : UseOfSeq stats p u) (h : SeqTimed stats st u st') :
    ∃ s : SeqSlot, SlotOf stats p s ∧ s.t = u.t ∧ s.cast = u.cast ∧
      IsLeast {x | st.currT ≤ x ∧ (s.Gcd → ∀ r : ℚ, st.nextGcd = (r : WithBot ℚ) → r ≤ x)} s.t ∧
      st'.currT = s.t + s.busy ∧
      st'.nextGcd = if s.Gcd then ((s.t + s.recast : ℚ) : WithBot ℚ) else st.nextGcd := by
  obtain ⟨hv, h1, h2, h3, h4⟩ := hu
  obtain ⟨htime, ts, hts, hn⟩ := h
  have hle : ∀ g : Bool, u.t = pressTime g st.currT st.nextGcd →
      IsLeast {x | st.currT ≤ x ∧ (g = true → ∀ r : ℚ, st.nextGcd = (r : WithBot ℚ) → r ≤ x)} u.t := by
    intro g hg
    rw [hg]
    unfold pressTime
    cases g with
    | false => exact ⟨⟨le_rfl, by simp⟩, fun x hx => hx.1⟩
    | true =>
      cases hb : st.nextGcd with
      | bot => exact ⟨⟨le_rfl, by simp⟩, fun x hx => hx.1⟩
      | coe y =>
        refine ⟨⟨le_max_left _ _, fun _ r hr => ?_⟩, fun x hx => max_le hx.1 (hx.2 rfl y rfl)⟩
        rw [WithBot.coe_inj.1 hr]
        exact le_max_right _ _
  by_cases hg : u.skill.isGCD = some true
  · rw [if_pos hg] at hn
    obtain ⟨recast, k1, k2, k3⟩ := hn
    refine ⟨{ t := u.t, skill := u.skill, modifier := u.modifier, buffs := u.buffs,
              debuffs := u.debuffs, timing := ts, cast := u.cast, recast := recast },
      ⟨h1, ?_, ?_, ?_, fun _ => k1⟩, rfl, rfl, ?_, ?_, ?_⟩
    · rw [← h2]
      exact hv.conds
    · exact hts ▸ hv.timing
    · exact hts ▸ hv.cast
    · rw [hg] at htime
      have := hle true htime
      simpa [SeqSlot.Gcd, hg] using this
    · rw [k2]
      simp [SeqSlot.busy, SeqSlot.Gcd, hg]
    · rw [k3]
      simp [SeqSlot.Gcd, hg]
  · rw [if_neg hg] at hn
    obtain ⟨k2, k3⟩ := hn
    have hg' : u.skill.isGCD.getD false = false := by
      cases hx : u.skill.isGCD with
      | none => rfl
      | some b =>
        cases b
        · rfl
        · exact absurd hx hg
    refine ⟨{ t := u.t, skill := u.skill, modifier := u.modifier, buffs := u.buffs,
              debuffs := u.debuffs, timing := ts, cast := u.cast, recast := 0 },
      ⟨h1, ?_, ?_, ?_, fun hc => absurd hc hg⟩, rfl, rfl, ?_, ?_, ?_⟩
    · rw [← h2]
      exact hv.conds
    · exact hts ▸ hv.timing
    · exact hts ▸ hv.cast
    · rw [hg'] at htime
      have := hle false htime
      simpa [SeqSlot.Gcd, hg] using this
    · rw [k2]
      simp [SeqSlot.busy, SeqSlot.Gcd, hg]
    · rw [k3]
      simp [SeqSlot.Gcd, hg]

/-- `-inf` or a time. -/
def readyOf : WithBot ℚ → Option ℚ
  | ⊥ => none
  | (x : ℚ) => some x

theorem readyOf_eq {b : WithBot ℚ} {r : ℚ} : readyOf b = some r ↔ b = (r : WithBot ℚ) := by
  cases b with
  | bot => simp [readyOf]
  | coe x => simp [readyOf]

theorem seqRun_slots {stats : Stats} {st st' : SeqRest} {q : List SeqPress} {us : List Use}
    (hq : List.Forall₂ (UseOfSeq stats) q us) (h : SeqRun stats st us st') :
    ∃ slots, List.Forall₂ (SlotOf stats) q slots ∧ Earliest st.currT (readyOf st.nextGcd) slots ∧
      slots.map (·.t) = us.map (·.t) := by
  induction hq generalizing st with
  | nil => exact ⟨[], .nil, trivial, rfl⟩
  | cons hu hq ih =>
    cases h with
    | cons _ st1 _ u us h1 h2 =>
      obtain ⟨s, g1, g2, g3, g4, g5, g6⟩ := seqTimed_slot hu h1
      obtain ⟨slots, k1, k2, k3⟩ := ih h2
      refine ⟨s :: slots, .cons g1 k1, ⟨?_, ?_⟩, by simp [g2, k3]⟩
      · simpa only [readyOf_eq] using g4
      · rw [g5, g6] at k2
        by_cases hs : s.Gcd
        · rw [if_pos hs] at k2 ⊢
          exact k2
        · rw [if_neg hs] at k2 ⊢
          exact k2

theorem press_eq_reported (stats : Stats) (u : Use) :
    u.press stats = reported stats u.t u.skill u.asked u.jobClass := by
  unfold Use.press reported
  by_cases h : u.jobClass = stats.jobClass <;> simp [h]

/-- The reported presses. -/
theorem run_presses {fuel : ℕ} {rb rb' : RotationBuilder} (hi : rb.Inv) (r : Run fuel rb rb') :
    ∃ δ slots, ∃ order : List TimedPress, List.Forall₂ (SlotOf rb.stats) rb.qSequence slots ∧
      Earliest (rb.fightStart.getD 0) none slots ∧
      order.Perm rb.qTimed ∧ order.Pairwise (fun a b => a.t ≤ b.t) ∧
      rb'.presses = sortBy (·.t) (
        (List.zipWith (fun (p : SeqPress) (s : SeqSlot) =>
            reported rb.stats s.t p.skill p.modifier p.jobClass) rb.qSequence slots ++
          order.map (fun p => reported rb.stats p.t p.skill p.modifier p.jobClass)).map
            (earlier δ)) ∧
      (rb.fightStart ≠ none → δ = 0) := by
  obtain ⟨su, tu, order, h1, h2, h3, h4, h5, ⟨st, st', h6, h7, h8⟩, _⟩ := run_uses hi r
  obtain ⟨δ, d1, _, _, d4, _⟩ := r.spec
  obtain ⟨slots, g1, g2, g3⟩ := seqRun_slots h2 h6
  refine ⟨δ, slots, order, g1, ?_, h4, h5, ?_, d1⟩
  · rw [h7, h8] at g2
    exact g2
  · rw [d4, h1, logsOf_presses, List.map_append, List.map_append, List.map_append]
    have e1 : ∀ (q : List SeqPress) (us : List Use) (ss : List SeqSlot),
        List.Forall₂ (UseOfSeq rb.stats) q us → ss.map (·.t) = us.map (·.t) →
        us.map (Use.press rb.stats) = List.zipWith (fun (p : SeqPress) (s : SeqSlot) =>
            reported rb.stats s.t p.skill p.modifier p.jobClass) q ss := by
      intro q us ss hq
      induction hq generalizing ss with
      | nil => simp
      | cons hu hq ih =>
        intro hs
        cases ss with
        | nil => simp at hs
        | cons s ss =>
          simp only [List.map_cons, List.cons.injEq] at hs
          obtain ⟨_, a1, a2, a3, _⟩ := hu
          rw [List.map_cons, List.zipWith_cons_cons, ih ss hs.2, press_eq_reported, a1, a2, a3, hs.1]
    have e2 : ∀ (q : List TimedPress) (us : List Use),
        List.Forall₂ (UseOfTimed rb.stats) q us →
        us.map (Use.press rb.stats) =
          q.map (fun p => reported rb.stats p.t p.skill p.modifier p.jobClass) := by
      intro q us hq
      induction hq with
      | nil => rfl
      | cons hu hq ih =>
        obtain ⟨_, a0, a1, a2, a3, _⟩ := hu
        rw [List.map_cons, List.map_cons, ih, press_eq_reported, a0, a1, a2, a3]
    rw [e1 _ _ _ h2 g3, e2 _ _ h3]
    rfl

/-! ## Consequences of `Earliest` -/

theorem earliest_suffix {free : ℚ} {ready : Option ℚ} {l₁ l₂ : List SeqSlot}
    (h : Earliest free ready (l₁ ++ l₂)) : ∃ free' ready', Earliest free' ready' l₂ := by
  induction l₁ generalizing free ready with
  | nil => exact ⟨_, _, h⟩
  | cons s l₁ ih => exact ih h.2

theorem earliest_ready {free : ℚ} {r : ℚ} {l₁ l₂ : List SeqSlot} {b : SeqSlot}
    (h : Earliest free (some r) (l₁ ++ b :: l₂)) (hl : ∀ s ∈ l₁, ¬ s.Gcd) (hb : b.Gcd) : r ≤ b.t := by
  induction l₁ generalizing free with
  | nil => exact h.1.1.2 hb r rfl
  | cons s l₁ ih =>
    have h2 := h.2
    rw [if_neg (hl s (by simp))] at h2
    exact ih h2 (fun x hx => hl x (by simp [hx]))

theorem recast_ge {stats : Stats} {ts : TimingSpec} {b d : StatusEffects} {x : ℚ}
    (h : recastTime stats ts b d = .ok x) (hs : ts.gcdBaseRecastTime = 2500) : 1500 ≤ x := by
  have hx : ∀ z : ℚ, (if ts.gcdBaseRecastTime = GameConsts.GCD_RECAST_TIME then
      max z GameConsts.MIN_GCD_RECAST_TIME else z) = x → 1500 ≤ x := by
    intro z hz
    rw [if_pos (by rw [hs]; rfl)] at hz
    rw [← hz]
    exact le_max_right _ _
  unfold recastTime at h
  by_cases hsp : ts.affectedBySpeedStat = true
  · simp only [hsp, if_true] at h
    obtain ⟨y, _, h⟩ := Py.bind_eq_ok.1 h
    exact hx _ (Except.ok.inj h)
  · simp only [hsp, if_false, Bool.false_eq_true] at h
    exact hx _ (Except.ok.inj h)

theorem forall₂_split {A B : Type} {R : A → B → Prop} {l : List A} {l₁ l₂ : List B} {b : B}
    (h : List.Forall₂ R l (l₁ ++ b :: l₂)) : ∃ a, R a b := by
  obtain ⟨a, _, ha⟩ := forall₂_mem_right' h (b := b) (by simp)
  exact ⟨a, ha⟩

theorem busy_ge {stats : Stats} {p : SeqPress} {s : SeqSlot} (h : SlotOf stats p s) :
    s.timing.animationLock ≤ s.busy := by
  have := getCastTime_nonneg h.2.2.2.1
  unfold SeqSlot.busy
  split_ifs
  · linarith
  · exact le_rfl

/-! ## The loop over the timed queue -/

theorem timedLoop_spec (n : ℕ) (s s' : LoopState) (q : List TimedPress)
    (hq : Heapq.IsHeap TimedPress.t q) (h : timedLoop n s q = .ok s') :
    ∃ order : List TimedPress, order.Perm q ∧ order.Pairwise (fun a b => a.t ≤ b.t) ∧
      order.foldlM timedStep s = .ok s' := by
  induction n generalizing s q with
  | zero =>
    unfold timedLoop at h
    split_ifs at h with hl
    cases h
    have : q = [] := List.length_eq_zero_iff.1 (by omega)
    subst this
    exact ⟨[], .refl _, .nil, rfl⟩
  | succ n ih =>
    unfold timedLoop at h
    split_ifs at h with hl
    · obtain ⟨⟨p, q'⟩, h1, h⟩ := Py.bind_eq_ok.1 h
      obtain ⟨s1, h2, h⟩ := Py.bind_eq_ok.1 h
      obtain ⟨k1, k2, k3⟩ := Heapq.heappop_spec timedPress_ltSound hq h1
      obtain ⟨order, g1, g2, g3⟩ := ih _ _ k1 h
      refine ⟨p :: order, (g1.cons p).trans k2.symm, ?_, ?_⟩
      · refine List.Pairwise.cons (fun b hb => k3 b ?_) g2
        exact k2.mem_iff.2 (List.mem_cons_of_mem _ (g1.mem_iff.1 hb))
      · rw [Py.foldlM_cons, h2]
        exact g3
    · cases h
      have : q = [] := List.length_eq_zero_iff.1 (by omega)
      subst this
      exact ⟨[], .refl _, .nil, rfl⟩

end RotationBuilder

end Ama
