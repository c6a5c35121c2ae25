import Verif.Lemmas.BuilderDots
import Verif.Lemmas.BuilderTimes
import Verif.Spec.Dots

/-!
# The tick law
-/

namespace Ama

open Spec

namespace RotationBuilder

theorem pyInt_intCast (z : ℤ) : pyInt (z : ℚ) = z := by
  unfold pyInt
  split_ifs <;> simp

/-- With whole milliseconds the first tick is exact. -/
theorem dotStart_first {snap : Option ℚ} {start : ℚ}
    (hw : ∀ s, snap = some s → Whole (1000 * s) ∧ Whole start) :
    FirstTick snap start (dotStart snap start) := by
  cases snap with
  | none => rfl
  | some s =>
    obtain ⟨⟨w, hs⟩, z, rfl⟩ := hw s rfl
    unfold FirstTick dotStart
    simp only [pyMod, GameConsts.DOT_TICK_INTERVAL, Nat.cast_ofNat, hs]
    set k : ℤ := ⌊((z : ℚ) - w) / 3000⌋ with hk
    have h1 : (k : ℚ) ≤ ((z : ℚ) - w) / 3000 := Int.floor_le _
    have h2 : ((z : ℚ) - w) / 3000 < k + 1 := Int.lt_floor_add_one _
    rw [le_div_iff₀ (by norm_num)] at h1
    rw [div_lt_iff₀ (by norm_num)] at h2
    have i1 : k * 3000 ≤ z - w := by exact_mod_cast h1
    have i2 : z - w < (k + 1) * 3000 := by exact_mod_cast h2
    split_ifs with hsh
    · have h3 : (((z - w - 3000 * k : ℤ)) : ℚ) < 1 := by
        push_cast
        linarith
      have h4 : z - w - 3000 * k < 1 := by exact_mod_cast h3
      have h5 : z = w + 3000 * k := by omega
      refine ⟨⟨le_rfl, k, ?_⟩, fun x hx => hx.1⟩
      rw [h5]
      push_cast
      ring
    · have h3 : ((z : ℚ) - ((z : ℚ) - w - 3000 * (k : ℚ)) + 3000) = ((w + 3000 * (k + 1) : ℤ) : ℚ) := by
        push_cast
        ring
      rw [h3, pyInt_intCast]
      have hne : k * 3000 ≠ z - w := by
        intro he
        apply hsh
        have : (k : ℚ) * 3000 = z - w := by exact_mod_cast he
        linarith
      refine ⟨⟨?_, k + 1, by push_cast; ring⟩, ?_⟩
      · have : z ≤ w + 3000 * (k + 1) := by omega
        exact_mod_cast this
      · rintro x ⟨hx, j, rfl⟩
        have hj : z ≤ w + 3000 * j := by exact_mod_cast hx
        have : k + 1 ≤ j := by omega
        have : ((k + 1 : ℤ) : ℚ) ≤ j := by exact_mod_cast this
        push_cast at this ⊢
        linarith

theorem tickSkipped_iff {last : Option ℚ} {t : ℤ} : tickSkipped last t = false ↔ NotCut last t := by
  unfold tickSkipped NotCut
  cases last with
  | none => simp
  | some l =>
    simp only [Bool.and_eq_false_iff, decide_eq_false_iff_not, not_not, not_lt, Option.some.injEq,
      forall_eq']
    constructor
    · rintro (h | h)
      · exact fun h' => absurd h h'
      · exact fun _ => h
    · intro h
      by_cases hl : l = 0
      · exact .inl hl
      · exact .inr (h hl)

/-- The range of an application. -/
def rangeOf (duration : ℤ) (a : DotApp) : DotRange :=
  { start := a.application, stop := a.application + duration, snapshot := a.snapshot,
    prioMod := a.prioMod }

theorem baseDotTimings_eq (duration : ℤ) (apps : List DotApp) :
    baseDotTimings duration apps =
      (sortBy (fun a : DotApp => a.application) apps).map (rangeOf duration) := by
  unfold baseDotTimings
  rw [sortBy_map]
  rfl

/-- The tick times of one range. -/
theorem range_ticks {snap last : Option ℚ} {duration : ℤ} {a : DotApp} {next : Option DotApp}
    {stop : ℚ} {ticks : List ℤ}
    (hstop : ∀ t : ℚ, t < stop ↔ t < a.application + duration ∧ ∀ b, next = some b → t < b.application)
    (hw : ∀ s, snap = some s → Whole (1000 * s) ∧ Whole a.application)
    (h : pyRange (dotStart snap a.application) stop GameConsts.DOT_TICK_INTERVAL = .ok ticks) :
    (ticks.filter (fun t => !tickSkipped last t)).Pairwise (· < ·) ∧
      ∀ t, t ∈ ticks.filter (fun t => !tickSkipped last t) ↔ IsTick snap last duration a next t := by
  obtain ⟨x, y, h1, h2, rfl⟩ := pyRange_ok h
  have hf := dotStart_first hw
  rw [h1] at hf
  refine ⟨(intRange_sorted _ _ _).filter _, fun t => ?_⟩
  rw [List.mem_filter, mem_intRange (by norm_num [GameConsts.DOT_TICK_INTERVAL]), Bool.not_eq_true',
    tickSkipped_iff]
  have huniq : ∀ first, FirstTick snap a.application first → first = x := by
    intro first hfirst
    cases snap with
    | none =>
      unfold FirstTick at hf hfirst
      rw [hf, hfirst]
    | some s => exact IsLeast.unique hfirst hf
  have hlt : t < y ↔ (t : ℚ) < a.application + duration ∧
      ∀ b, next = some b → (t : ℚ) < b.application := by
    rw [← hstop, h2]
    exact_mod_cast Iff.rfl
  unfold IsTick
  constructor
  · rintro ⟨⟨j, rfl, hj⟩, ha⟩
    obtain ⟨k1, k2⟩ := hlt.1 hj
    refine ⟨⟨x, hf, j, ?_⟩, k1, k2, ha⟩
    push_cast [GameConsts.DOT_TICK_INTERVAL]
    ring
  · rintro ⟨⟨first, hfirst, j, hj⟩, k1, k2, ha⟩
    refine ⟨⟨j, ?_, hlt.2 ⟨k1, k2⟩⟩, ha⟩
    rw [huniq first hfirst] at hj
    have : (t : ℚ) = ((x + 3000 * j : ℤ) : ℚ) := by
      rw [hj]
      push_cast
      ring
    exact_mod_cast this

/-- The applications and times of the ticks, in order. -/
def tickPairs (sorted : List DotApp) (tss : List (List ℤ)) : List (DotApp × ℤ) :=
  (List.zipWith (fun a (ts : List ℤ) => ts.map (fun t => (a, t))) sorted tss).flatten

theorem rangeAdds_spec {snap last : Option ℚ} {f : FollowUp} {target : String} {duration : ℤ}
    {sorted : List DotApp} {n : ℕ} {as : List NewEvent}
    (hw : ∀ s, snap = some s → Whole (1000 * s) ∧ ∀ a ∈ sorted, Whole a.application)
    (h : rangeAdds snap f target last n (consolidate (sorted.map (rangeOf duration))) = .ok as) :
    ∃ tss, TickTimes snap last duration sorted tss ∧
      as = ((tickPairs sorted tss).zipIdx n).map
        (fun x => dotEvent f target (rangeOf duration x.1.1) x.2 x.1.2) := by
  induction sorted generalizing n as with
  | nil =>
    cases h
    exact ⟨[], trivial, rfl⟩
  | cons a sorted ih =>
    have hone : ∃ (stop : ℚ) (rs : List DotRange),
        consolidate ((a :: sorted).map (rangeOf duration)) =
          { rangeOf duration a with stop := stop } :: rs ∧
        rs = consolidate (sorted.map (rangeOf duration)) ∧
        ∀ t : ℚ, t < stop ↔ t < a.application + duration ∧
          ∀ b, sorted.head? = some b → t < b.application := by
      cases sorted with
      | nil => exact ⟨a.application + duration, [], rfl, rfl, by simp⟩
      | cons b sorted =>
        refine ⟨min (a.application + duration) b.application, _, rfl, rfl, ?_⟩
        intro t
        simp
    obtain ⟨stop, rs, e1, rfl, hstop⟩ := hone
    rw [e1] at h
    unfold rangeAdds at h
    obtain ⟨ticks, h1, h⟩ := Py.bind_eq_ok.1 h
    obtain ⟨rest, h2, h⟩ := Py.bind_eq_ok.1 h
    cases h
    obtain ⟨tss, g1, g2⟩ := ih (fun s hs => ⟨(hw s hs).1, fun b hb => (hw s hs).2 b (by simp [hb])⟩) h2
    obtain ⟨k1, k2⟩ := range_ticks (last := last) hstop
      (fun s hs => ⟨(hw s hs).1, (hw s hs).2 a (by simp)⟩) h1
    refine ⟨_ :: tss, ⟨k1, k2, g1⟩, ?_⟩
    rw [g2]
    unfold tickPairs
    simp only [List.zipWith_cons_cons, List.flatten_cons, List.zipIdx_append, List.map_append,
      List.length_map]
    congr 1
    rw [List.zipIdx_map, List.map_map]
    rfl

theorem dotEvent_tick {f : FollowUp} {target : String} {duration : ℤ} {a : DotApp} {t : ℤ} {k : ℕ}
    {e : Event} (h : NewEvent.Becomes (dotEvent f target (rangeOf duration a) k t) e) :
    TickEvent target f a t e := by
  have ha := becomes_appliedAt' h
  obtain ⟨_, h2, h3, h4, h5, _, _, _, h9⟩ := h
  refine ⟨h2, ha, h3, h4, h5, fun hne => ?_, fun hne => ?_⟩
  · rw [if_neg (by
      intro hc
      exact hne (Option.some.inj hc).symm)] at h9
    exact h9.2.1
  · rw [if_neg (by
      intro hc
      exact hne (Option.some.inj hc).symm)] at h9
    exact h9.2.2

theorem flatM_append {A B : Type} (g : A → Py (List B)) (l l' : List A) :
    flatM g (l ++ l') = (do
      let x ← flatM g l
      let y ← flatM g l'
      return x ++ y) := by
  induction l with
  | nil =>
    simp only [List.nil_append, flatM, Py.ok_bind]
    cases flatM g l' <;> rfl
  | cons a l ih =>
    rw [List.cons_append, flatM, flatM, ih]
    cases g a with
    | error e => rfl
    | ok x =>
      simp only [Py.ok_bind]
      cases flatM g l with
      | error e => rfl
      | ok y =>
        simp only [Py.ok_bind]
        cases flatM g l' with
        | error e => rfl
        | ok z =>
          simp only [Py.ok_bind, Py.pure_eq]
          rw [List.append_assoc]

theorem flatM_flatMap {A B C : Type} (g : A → Py (List B)) (k : C → List A) (l : List C) :
    flatM g (l.flatMap k) = flatM (fun c => flatM g (k c)) l := by
  induction l with
  | nil => rfl
  | cons c l ih =>
    rw [List.flatMap_cons, flatM_append, ih, flatM]

theorem flatM_map {A B C : Type} (g : A → Py (List B)) (k : C → A) (l : List C) :
    flatM g (l.map k) = flatM (fun c => g (k c)) l := by
  induction l with
  | nil => rfl
  | cons c l ih => rw [List.map_cons, flatM, flatM, ih]

theorem allDotAdds_eq (snap last : Option ℚ) (rb : RotationBuilder) :
    allDotAdds snap last rb.qDot = flatM (fun x => dotAdds snap x.1 last x.2) (recorded rb) := by
  unfold allDotAdds recorded
  rw [flatM_flatMap]
  congr 1
  funext td
  rw [flatM_map]

theorem forall₂_append_split {A B : Type} {R : A → B → Prop} {l l' : List A} {es : List B}
    (h : List.Forall₂ R (l ++ l') es) :
    ∃ es1 es2, List.Forall₂ R l es1 ∧ List.Forall₂ R l' es2 ∧ es = es1 ++ es2 := by
  induction l generalizing es with
  | nil => exact ⟨[], es, .nil, h, rfl⟩
  | cons a l ih =>
    cases h with
    | cons h1 h2 =>
      obtain ⟨es1, es2, g1, g2, rfl⟩ := ih h2
      exact ⟨_ :: es1, es2, .cons h1 g1, g2, rfl⟩

theorem forall₂_flatten {A B : Type} {R : A → B → Prop} {rs : List (List A)} {es : List B}
    (h : List.Forall₂ R rs.flatten es) :
    ∃ ess, es = ess.flatten ∧ List.Forall₂ (List.Forall₂ R) rs ess := by
  induction rs generalizing es with
  | nil =>
    cases h
    exact ⟨[], rfl, .nil⟩
  | cons r rs ih =>
    rw [List.flatten_cons] at h
    obtain ⟨es1, es2, h1, h2, rfl⟩ := forall₂_append_split h
    obtain ⟨ess, rfl, h3⟩ := ih h2
    exact ⟨es1 :: ess, rfl, .cons h1 h3⟩

theorem ticks_of_becomes {f : FollowUp} {target : String} {duration : ℤ} (ps : List (DotApp × ℤ))
    (n : ℕ) (evs : List Event)
    (h : List.Forall₂ (fun x e => NewEvent.Becomes
      (dotEvent f target (rangeOf duration x.1.1) x.2 x.1.2) e) (ps.zipIdx n) evs) :
    List.Forall₂ (fun (x : DotApp × ℤ) e => TickEvent target f x.1 x.2 e) ps evs := by
  induction ps generalizing n evs with
  | nil =>
    cases h
    exact .nil
  | cons p ps ih =>
    rw [List.zipIdx_cons] at h
    cases h with
    | cons h1 h2 => exact .cons (dotEvent_tick h1) (ih _ _ h2)

/-- The ticks of one dot on one target. -/
theorem dotAdds_events {snap last : Option ℚ} {target : String} {f : FollowUp} {apps : List DotApp}
    {as : List NewEvent} {evs : List Event}
    (hw : ∀ s, snap = some s → Whole (1000 * s) ∧ ∀ a ∈ apps, Whole a.application)
    (h : dotAdds snap target last (f, apps) = .ok as) (he : List.Forall₂ NewEvent.Becomes as evs) :
    DotEvents snap last target f apps evs := by
  unfold dotAdds at h
  simp only at h
  cases hd : f.dotDuration with
  | none =>
    rw [hd] at h
    cases h
  | some duration =>
    rw [hd] at h
    simp only [baseDotTimings_eq] at h
    obtain ⟨tss, g1, g2⟩ := rangeAdds_spec (fun s hs => ⟨(hw s hs).1, fun a ha => (hw s hs).2 a
      ((mem_sortBy (fun a : DotApp => a.application)).1 ha)⟩) h
    refine ⟨duration, _, tss, hd, sortBy_perm _ _, sortBy_sorted _ _, g1, ?_⟩
    rw [g2, List.forall₂_map_left_iff] at he
    exact ticks_of_becomes _ 0 evs he

/-- The ticks added by `processAllDots`. -/
theorem processAllDots_ticks {rb rb' : RotationBuilder} {last : Option ℚ} (hq : rb.events.Ok)
    (hw : WholeTicks rb) (h : rb.processAllDots last = .ok rb') :
    ∃ evss : List (List Event), rb'.events.q.Perm (evss.flatten ++ rb.events.q) ∧
      List.Forall₂ (fun (x : String × FollowUp × List DotApp) evs =>
        DotEvents rb.snapDots last x.1 x.2.1 x.2.2 evs) (recorded rb) evss := by
  rw [processAllDots_eq] at h
  obtain ⟨as, h1, h⟩ := Py.bind_eq_ok.1 h
  cases h
  rw [allDotAdds_eq] at h1
  obtain ⟨rs, h2, rfl⟩ := flatM_eq_ok h1
  obtain ⟨_, es, h4, h5⟩ := pushes_spec rs.flatten rb.events hq
  obtain ⟨ess, rfl, h6⟩ := forall₂_flatten (eventsOf_forall₂ h4)
  refine ⟨ess, h5, ?_⟩
  have hall : ∀ (l : List (String × FollowUp × List DotApp)) (rs : List (List NewEvent))
      (ess : List (List Event)),
      (∀ x ∈ l, ∀ s, rb.snapDots = some s → Whole (1000 * s) ∧ ∀ a ∈ x.2.2, Whole a.application) →
      List.Forall₂ (fun x r => dotAdds rb.snapDots x.1 last x.2 = .ok r) l rs →
      List.Forall₂ (List.Forall₂ NewEvent.Becomes) rs ess →
      List.Forall₂ (fun (x : String × FollowUp × List DotApp) evs =>
        DotEvents rb.snapDots last x.1 x.2.1 x.2.2 evs) l ess := by
    intro l rs ess hw h2
    induction h2 generalizing ess with
    | nil =>
      intro h
      cases h
      exact .nil
    | @cons x r l rs hx _ ih =>
      intro h
      cases h with
      | cons h6 h7 =>
        exact .cons (dotAdds_events (hw x (by simp)) hx h6) (ih _ (fun x hx => hw x (by simp [hx])) h7)
  exact hall _ rs ess (fun x hx s hs => ⟨(hw s hs).1, (hw s hs).2 x hx⟩) h2 h6

end RotationBuilder

end Ama
