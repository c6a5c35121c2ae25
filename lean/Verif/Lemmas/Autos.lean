import Verif.Spec.Autos
import Verif.Lemmas.BuilderShift
import Verif.Lemmas.StatFns
import Verif.Lemmas.EffectSpecs
import Mathlib.Data.List.TakeWhile

/-!
# Lemmas on auto-attacks
-/

namespace Ama

open Spec

namespace RotationBuilder

/-! ## The target -/

/-- The target of the last entry at or before `t`. -/
def lastTarget (curr : String) (ts : List (ℚ × String)) (t : ℚ) : String :=
  ((ts.takeWhile (fun x => decide (x.1 ≤ t))).getLast?.map (·.2)).getD curr

theorem lastTarget_cons (curr : String) (x : ℚ × String) (xs : List (ℚ × String)) (t : ℚ) :
    lastTarget curr (x :: xs) t = if x.1 ≤ t then lastTarget x.2 xs t else curr := by
  unfold lastTarget
  by_cases h : x.1 ≤ t
  · rw [List.takeWhile_cons_of_pos (by simpa using h), if_pos h]
    cases hl : xs.takeWhile (fun x => decide (x.1 ≤ t)) with
    | nil => simp
    | cons y ys => simp [List.getLast?_cons_cons, List.getLast?_eq_some_getLast]
  · rw [List.takeWhile_cons_of_neg (by simpa using h), if_neg h]
    simp

theorem lastTarget_late {curr : String} {ts : List (ℚ × String)} {t : ℚ}
    (h : ∀ x ∈ ts, t < x.1) : lastTarget curr ts t = curr := by
  cases ts with
  | nil => rfl
  | cons x xs =>
    rw [lastTarget_cons, if_neg (not_le.2 (h x List.mem_cons_self))]

theorem lastTarget_shorten {curr : String} {ts : List (ℚ × String)} {t : ℚ}
    (hs : ts.Pairwise (fun a b => a.1 ≤ b.1)) :
    lastTarget curr (shortenFrom curr ts) t = lastTarget curr ts t := by
  induction ts generalizing curr with
  | nil => rfl
  | cons x xs ih =>
    obtain ⟨h1, h2⟩ := List.pairwise_cons.1 hs
    unfold shortenFrom
    split_ifs with he
    · rw [ih h2, lastTarget_cons]
      split_ifs with hx
      · rw [he]
      · refine lastTarget_late (fun y hy => ?_)
        exact lt_of_lt_of_le (not_le.1 hx) (h1 y hy)
    · rw [lastTarget_cons, lastTarget_cons]
      split_ifs with hx
      · exact ih h2
      · rfl

theorem mem_shorten {curr : String} {ts : List (ℚ × String)} {x : ℚ × String}
    (h : x ∈ shortenFrom curr ts) : x ∈ ts := by
  induction ts generalizing curr with
  | nil => simp [shortenFrom] at h
  | cons y ys ih =>
    unfold shortenFrom at h
    split_ifs at h
    · exact List.mem_cons_of_mem _ (ih h)
    · rcases List.mem_cons.1 h with rfl | h
      · exact List.mem_cons_self
      · exact List.mem_cons_of_mem _ (ih h)

theorem shorten_sorted {curr : String} {ts : List (ℚ × String)}
    (hs : ts.Pairwise (fun a b => a.1 ≤ b.1)) :
    (shortenFrom curr ts).Pairwise (fun a b => a.1 ≤ b.1) := by
  induction ts generalizing curr with
  | nil => simp [shortenFrom]
  | cons y ys ih =>
    obtain ⟨h1, h2⟩ := List.pairwise_cons.1 hs
    unfold shortenFrom
    split_ifs
    · exact ih h2
    · exact List.pairwise_cons.2 ⟨fun z hz => h1 z (mem_shorten hz), ih h2⟩

theorem lastTarget_spec {x : ℚ × String} {xs : List (ℚ × String)} {t : ℚ}
    (hs : (x :: xs).Pairwise (fun a b => a.1 ≤ b.1)) :
    TargetAt (x :: xs) t (lastTarget x.2 xs t) := by
  obtain ⟨h1, h2⟩ := List.pairwise_cons.1 hs
  by_cases hx : x.1 ≤ t
  · left
    clear h1 h2
    induction xs generalizing x with
    | nil =>
      refine ⟨x, List.mem_cons_self, rfl, hx, ?_⟩
      simp
    | cons y ys ih =>
      obtain ⟨h1, h2⟩ := List.pairwise_cons.1 hs
      rw [lastTarget_cons]
      split_ifs with hy
      · obtain ⟨s, g1, g2, g3, g4⟩ := ih h2 hy
        refine ⟨s, List.mem_cons_of_mem _ g1, g2, g3, ?_⟩
        intro s' hs' ht
        rcases List.mem_cons.1 hs' with rfl | hs'
        · exact (h1 y List.mem_cons_self).trans (g4 y List.mem_cons_self hy)
        · exact g4 s' hs' ht
      · refine ⟨x, List.mem_cons_self, rfl, hx, ?_⟩
        intro s' hs' ht
        rcases List.mem_cons.1 hs' with rfl | hs'
        · exact le_rfl
        · rcases List.mem_cons.1 hs' with rfl | hs'
          · exact absurd ht hy
          · exact absurd ((List.pairwise_cons.1 h2).1 s' hs' |>.trans ht) hy
  · right
    have hall : ∀ s ∈ x :: xs, t < s.1 := by
      intro s hs'
      rcases List.mem_cons.1 hs' with rfl | hs'
      · exact not_le.1 hx
      · exact lt_of_lt_of_le (not_le.1 hx) (h1 s hs')
    refine ⟨hall, x, List.mem_cons_self, ?_, ?_⟩
    · rw [lastTarget_late (fun y hy => hall y (List.mem_cons_of_mem _ hy))]
    · intro s' hs'
      rcases List.mem_cons.1 hs' with rfl | hs'
      · exact le_rfl
      · exact h1 s' hs'

theorem TargetAt.perm {l l' : List (ℚ × String)} {t : ℚ} {target : String} (hp : l.Perm l')
    (h : TargetAt l t target) : TargetAt l' t target := by
  unfold TargetAt at h ⊢
  simpa only [hp.mem_iff] using h

/-- The entry found by index. -/
theorem entry_at {x : ℚ × String} {xs : List (ℚ × String)} {t : ℚ} {i : ℕ} {e : ℚ × String}
    (hs : (x :: xs).Pairwise (fun a b => a.1 ≤ b.1)) (hi : ∀ y ∈ (x :: xs).take i, y.1 ≤ t)
    (h : pyIdx (x :: xs) (advanceIndex (x :: xs) t i - 1) = .ok e) : e.2 = lastTarget x.2 xs t := by
  generalize hts : x :: xs = ts at *
  have htw : ts.takeWhile (fun x => decide (x.1 ≤ t)) =
      ts.take i ++ (ts.drop i).takeWhile (fun x => decide (x.1 ≤ t)) := by
    conv_lhs => rw [← List.take_append_drop i ts]
    rw [List.takeWhile_append_of_pos (by simpa using hi)]
  by_cases hlen : i ≤ ts.length
  · have hn : advanceIndex ts t i = (ts.takeWhile (fun x => decide (x.1 ≤ t))).length := by
      unfold advanceIndex
      rw [htw, List.length_append, List.length_take, min_eq_left hlen]
    rw [hn] at h
    · unfold pyIdx at h
      cases hg : ts[(ts.takeWhile (fun x => decide (x.1 ≤ t))).length - 1]? with
      | none => rw [hg] at h; cases h
      | some e' =>
        rw [hg] at h
        cases h
        subst hts
        by_cases hx : x.1 ≤ t
        · have hl : lastTarget x.2 xs t = lastTarget x.2 (x :: xs) t := by
            rw [lastTarget_cons, if_pos hx]
          rw [hl]
          unfold lastTarget
          have hpre : (x :: xs).takeWhile (fun x => decide (x.1 ≤ t)) <+: x :: xs :=
            List.takeWhile_prefix _
          have hne : (x :: xs).takeWhile (fun x => decide (x.1 ≤ t)) ≠ [] := by
            rw [List.takeWhile_cons_of_pos (by simpa using hx)]
            simp
          have hpos : 0 < ((x :: xs).takeWhile (fun x => decide (x.1 ≤ t))).length :=
            List.length_pos_iff.2 hne
          rw [List.getLast?_eq_getElem?]
          obtain ⟨s, hs⟩ := hpre
          have : ((x :: xs).takeWhile (fun x => decide (x.1 ≤ t)))[((x :: xs).takeWhile
              (fun x => decide (x.1 ≤ t))).length - 1]? = some e := by
            rw [← hg]
            conv_rhs => rw [← hs]
            rw [List.getElem?_append_left (by rw [hs]; omega), hs]
          rw [this]
          rfl
        · rw [List.takeWhile_cons_of_neg (by simpa using hx)] at hg
          simp only [List.length_nil, Nat.zero_sub, List.getElem?_cons_zero, Option.some.injEq] at hg
          subst hg
          rw [lastTarget_late]
          intro y hy
          exact lt_of_lt_of_le (not_le.1 hx) ((List.pairwise_cons.1 hs).1 y hy)
  · exfalso
    unfold advanceIndex pyIdx at h
    rw [List.drop_eq_nil_of_le (by omega)] at h
    rw [List.getElem?_eq_none (by simp; omega)] at h
    cases h

theorem mem_take_advance {ts : List (ℚ × String)} {t : ℚ} {i : ℕ} {y : ℚ × String}
    (h : y ∈ ts.take (advanceIndex ts t i - 1)) : y ∈ ts.take i ∨ y.1 ≤ t := by
  have h1 : y ∈ ts.take (advanceIndex ts t i) := List.take_subset_take_left _ (Nat.sub_le _ _) h
  unfold advanceIndex at h1
  rw [List.take_add] at h1
  rcases List.mem_append.1 h1 with h1 | h1
  · exact .inl h1
  · right
    have hp := List.prefix_iff_eq_take.1
      (List.takeWhile_prefix (l := ts.drop i) (fun x => decide (x.1 ≤ t)))
    rw [← hp] at h1
    simpa using List.mem_takeWhile_imp h1

/-! ## Speed -/

theorem hasSpeed_iff (spec : Option StatusEffectSpec) : hasSpeed spec = true ↔ Speeds spec := by
  unfold hasSpeed Speeds
  cases spec with
  | none => simp
  | some s => simp [or_assoc]

theorem speedStep_spec {res res' : List (ℚ × Skill)} {e : Event}
    (h : speedStep res e = .ok res') :
    (SpeedEvent e ∧ res' = res ++ [(appliedAt e, e.skill)]) ∨ (¬ SpeedEvent e ∧ res' = res) := by
  unfold speedStep at h
  obtain ⟨b, h1, h⟩ := Py.bind_eq_ok.1 h
  obtain ⟨d, h2, h⟩ := Py.bind_eq_ok.1 h
  have hiff : SpeedEvent e ↔ (hasSpeed b = true ∨ hasSpeed d = true) := by
    unfold SpeedEvent
    rw [h1, h2]
    simp only [Except.ok.injEq, hasSpeed_iff]
    constructor
    · rintro ⟨_, _, rfl, rfl, h⟩
      exact h
    · intro h
      exact ⟨b, d, rfl, rfl, h⟩
  rw [hiff]
  cases hb : hasSpeed b <;> cases hd : hasSpeed d <;> simp only [hb, hd] at h <;> cases h <;>
    simp [appliedAt_eq]

open Classical in
theorem speedFold_spec {l : List Event} {res res' : List (ℚ × Skill)}
    (h : l.foldlM speedStep res = .ok res') :
    res' = res ++ (l.filter (fun e => decide (SpeedEvent e))).map (fun e => (appliedAt e, e.skill)) := by
  induction l generalizing res with
  | nil =>
    cases h
    simp
  | cons e l ih =>
    rw [Py.foldlM_cons] at h
    obtain ⟨r, h1, h⟩ := Py.bind_eq_ok.1 h
    rw [ih h]
    rcases speedStep_spec h1 with ⟨g1, rfl⟩ | ⟨g1, rfl⟩
    · rw [List.filter_cons_of_pos (by simpa using g1)]
      simp
    · rw [List.filter_cons_of_neg (by simpa using g1)]

theorem applicable_fold {m : SkillModifier} {targets : List String} {l : List (ℚ × Skill)}
    {tr tr' : Trackers} (h : l.foldlM (applicableStep m targets) tr = .ok tr') :
    l.foldlM (fun (se : StatusEffectTracker) x =>
      (se.expire x.1).add x.1 x.2.toSkillCore m targets) tr.se = .ok tr'.se := by
  induction l generalizing tr with
  | nil =>
    cases h
    rfl
  | cons x l ih =>
    rw [Py.foldlM_cons] at h ⊢
    obtain ⟨r, h1, h⟩ := Py.bind_eq_ok.1 h
    unfold applicableStep at h1
    obtain ⟨se, h2, h1⟩ := Py.bind_eq_ok.1 h1
    obtain ⟨res, h3, h1⟩ := Py.bind_eq_ok.1 h1
    cases h1
    rw [h2]
    exact ih h

variable {rb rb' : RotationBuilder}

theorem speedAt_of {timeline : List (ℚ × Skill)} {t : ℚ} {skill : Skill} {b d : StatusEffects}
    (h1 : rb.speedTimeline = .ok timeline)
    (h2 : rb.applicableStatusEffects timeline t skill {} [rb.defaultTarget] = .ok (b, d)) :
    SpeedAt rb rb.events.q t skill b d := by
  classical
  unfold speedTimeline at h1
  obtain ⟨l, h3, h1⟩ := Py.bind_eq_ok.1 h1
  have hl := speedFold_spec h3
  simp only [List.nil_append] at hl
  cases h1
  have hperm : (sortBy (·.1) l).Perm ((rb.events.getQ.filter (fun e => decide (SpeedEvent e))).map
      (fun e => (appliedAt e, e.skill))) := by
    rw [← hl]
    exact sortBy_perm _ _
  have hq : rb.events.getQ.Perm rb.events.q := sortBy_perm _ _
  obtain ⟨order, ho1, ho2⟩ := forall₂_perm_left
    (R := fun (x : ℚ × Skill) (e : Event) => x = (appliedAt e, e.skill))
    (l := (rb.events.getQ.filter (fun e => decide (SpeedEvent e))).map (fun e => (appliedAt e, e.skill)))
    (l' := sortBy (·.1) l) (m := rb.events.getQ.filter (fun e => decide (SpeedEvent e)))
    hperm.symm (by
      rw [List.forall₂_map_left_iff]
      exact List.forall₂_same.2 (fun _ _ => rfl))
  have ho3 : sortBy (·.1) l = order.map (fun e => (appliedAt e, e.skill)) := by
    rw [← List.forall₂_eq_eq_eq, List.forall₂_map_right_iff]
    exact ho1
  have hsorted : order.Pairwise (fun a b => appliedAt a ≤ appliedAt b) := by
    have := sortBy_sorted (fun x : ℚ × Skill => x.1) l
    rw [ho3, List.pairwise_map] at this
    exact this
  rw [ho3] at h2
  unfold applicableStatusEffects at h2
  obtain ⟨⟨tr, combo⟩, h4, h2⟩ := Py.bind_eq_ok.1 h2
  obtain ⟨tr', h5, h2⟩ := Py.bind_eq_ok.1 h2
  obtain ⟨⟨⟨b', cb⟩, se1⟩, h6, h2⟩ := Py.bind_eq_ok.1 h2
  obtain ⟨⟨⟨d', cd⟩, se2⟩, h7, h2⟩ := Py.bind_eq_ok.1 h2
  obtain ⟨_, _, h2⟩ := Py.bind_eq_ok.1 h2
  cases h2
  have htr : tr.se = { priority := rb.priority } := by
    unfold initTrackers at h4
    obtain ⟨_, _, h4⟩ := Py.bind_eq_ok.1 h4
    obtain ⟨_, _, h4⟩ := Py.bind_eq_ok.1 h4
    cases h4
    rfl
  have hfil : (order.map (fun e => (appliedAt e, e.skill))).filter (fun x => decide (x.1 ≤ t)) =
      (order.filter (fun e => decide (appliedAt e ≤ t))).map (fun e => (appliedAt e, e.skill)) := by
    rw [List.filter_map]
    rfl
  rw [hfil] at h5 h6 h7
  have h8 := applicable_fold h5
  rw [htr, List.foldlM_map] at h8
  refine ⟨order.filter (fun e => decide (appliedAt e ≤ t)), ?_, hsorted.filter _, tr'.se, se1, se2, cb,
    cd, h8, ?_, ?_⟩
  · have := (ho2.symm.trans (hq.filter _)).filter (fun e => decide (appliedAt e ≤ t))
    rw [List.filter_filter] at this
    have hf : (fun e => decide (appliedAt e ≤ t) && decide (SpeedEvent e)) =
        fun e => decide (SpeedEvent e ∧ appliedAt e ≤ t) := by
      funext e
      rw [Bool.eq_iff_iff]
      simp only [Bool.and_eq_true, decide_eq_true_eq]
      exact and_comm
    rw [hf] at this
    exact this
  · simpa [List.map_map, Function.comp_def] using h6
  · simpa [List.map_map, Function.comp_def] using h7

/-! ## The next time -/

theorem forward_spec {t t' : ℚ} {target : String} (h : rb.forward t target = .ok t') :
    Forwarded rb target t t' := by
  unfold forward at h
  obtain ⟨ws, h1, h⟩ := Py.bind_eq_ok.1 h
  have hws : downtimeOf rb target = ws := by
    unfold windowsFor at h1
    unfold downtimeOf
    cases hd : rb.downtime with
    | tuple ws' => rw [hd] at h1; cases h1
    | dict d => rw [hd] at h1; cases h1; rfl
    | known ts ws' => rw [hd] at h1; cases h1; rfl
  unfold Forwarded Covered
  rw [hws]
  split at h
  · rename_i w hf
    cases h
    have hp := List.find?_some hf
    simp only [Bool.and_eq_true, decide_eq_true_eq, Bool.or_eq_true, Option.isNone_iff_eq_none] at hp
    exact .inr ⟨w, List.mem_of_find?_eq_some hf, hp.1.1, hp.1.2, hp.2, rfl⟩
  · rename_i hf
    cases h
    rw [List.find?_eq_none] at hf
    refine .inl ⟨?_, rfl⟩
    rintro ⟨w, hw, g1, g2, g3⟩
    refine hf w hw ?_
    simp only [Bool.and_eq_true, decide_eq_true_eq, Bool.or_eq_true, Option.isNone_iff_eq_none]
    exact ⟨⟨g1, g2⟩, g3⟩

theorem foldl_max (l : List (ℚ × WithTop ℚ)) (a : WithTop ℚ) :
    IsGreatest {x | x = a ∨ ∃ p ∈ l, x = p.2} (l.foldl (fun m y => max m y.2) a) := by
  induction l generalizing a with
  | nil => exact ⟨.inl rfl, by rintro x (rfl | ⟨p, hp, _⟩) <;> simp_all⟩
  | cons y l ih =>
    obtain ⟨g1, g2⟩ := ih (max a y.2)
    rw [List.foldl_cons]
    constructor
    · rcases g1 with g1 | ⟨p, hp, g1⟩
      · rcases le_total a y.2 with hm | hm
        · rw [max_eq_right hm] at g1
          right
          exact ⟨y, List.mem_cons_self, by rw [max_eq_right hm]; exact g1⟩
        · rw [max_eq_left hm] at g1
          left
          rw [max_eq_left hm]
          exact g1
      · exact .inr ⟨p, List.mem_cons_of_mem _ hp, g1⟩
    · rintro x (rfl | ⟨p, hp, rfl⟩)
      · exact le_trans (le_max_left _ _) (g2 (.inl rfl))
      · rcases List.mem_cons.1 hp with rfl | hp
        · exact le_trans (le_max_right _ _) (g2 (.inl rfl))
        · exact g2 (.inr ⟨p, hp, rfl⟩)

theorem next_spec {t : ℚ} {t' : WithTop ℚ} {periods : List (ℚ × WithTop ℚ)} {target : String}
    (h : rb.getNextAutoTime t periods target = .ok t') :
    ∃ t1, Forwarded rb target t t1 ∧ Skipped periods t1 t' := by
  unfold getNextAutoTime at h
  obtain ⟨t1, h1, h⟩ := Py.bind_eq_ok.1 h
  refine ⟨t1, forward_spec h1, ?_⟩
  unfold Skipped
  have hmem : ∀ p : ℚ × WithTop ℚ, p ∈ periods.filter
      (fun x => decide (x.1 ≤ t1) && decide (x.2 ≥ (t1 : WithTop ℚ))) ↔
      p ∈ periods ∧ p.1 ≤ t1 ∧ (t1 : WithTop ℚ) ≤ p.2 := by
    intro p
    simp [List.mem_filter]
  split at h
  · rename_i hf
    cases h
    refine .inl ⟨?_, rfl⟩
    rintro p hp ⟨g1, g2⟩
    have := (hmem p).2 ⟨hp, g1, g2⟩
    rw [hf] at this
    simp at this
  · rename_i x xs hf
    cases h
    right
    have hg := foldl_max xs x.2
    convert hg using 1
    ext y
    constructor
    · rintro ⟨p, hp, g1, g2, rfl⟩
      have := (hmem p).2 ⟨hp, g1, g2⟩
      rw [hf] at this
      rcases List.mem_cons.1 this with rfl | this
      · exact .inl rfl
      · exact .inr ⟨p, this, rfl⟩
    · rintro (rfl | ⟨p, hp, rfl⟩)
      · obtain ⟨g1, g2, g3⟩ := (hmem x).1 (by rw [hf]; exact List.mem_cons_self)
        exact ⟨x, g1, g2, g3, rfl⟩
      · obtain ⟨g1, g2, g3⟩ := (hmem p).1 (by rw [hf]; exact List.mem_cons_of_mem _ hp)
        exact ⟨p, g1, g2, g3, rfl⟩

/-! ## The loop -/

theorem noAutoLoop_addAll (as : List NewEvent) (n : ℕ) (s : NoAutoState) (q : List TimedPress) :
    (rb.addAll as).noAutoLoop n s q = rb.noAutoLoop n s q := by
  induction n generalizing s q with
  | zero => rfl
  | succ n ih =>
    unfold noAutoLoop
    simp only [ih]
    rfl

theorem periods_addAll (as : List NewEvent) : (rb.addAll as).getNoAutoPeriods = rb.getNoAutoPeriods := by
  unfold getNoAutoPeriods
  simp only [noAutoLoop_addAll]
  rfl

theorem autoEvent_becomes {skill : Skill} {t delay : ℚ} {target : String} {e : Event}
    (h : NewEvent.Becomes (autoEvent skill t delay target) e) : AutoEvent skill delay t target e := by
  have h0 := becomes_appliedAt' h
  obtain ⟨_, h2, h3, h4, h5, _, _, _, h9⟩ := h
  split_ifs at h9
  · exact ⟨h2, h0, h3, h4, h9.2.1, h9.2.2, h5⟩
  · exact ⟨h2, h0, h3, h4, h9.2.1, h9.2.2, h5⟩

theorem speedAt_congr {as : List NewEvent} {l l' : List Event} {t : ℚ} {skill : Skill}
    {b d : StatusEffects} (hp : l.Perm l') (h : SpeedAt (rb.addAll as) l t skill b d) :
    SpeedAt rb l' t skill b d := by
  obtain ⟨order, h1, h2, h3⟩ := h
  exact ⟨order, h1.trans (hp.filter _), h2, h3⟩

theorem autos_congr {skill : Skill} {delay last : ℚ} {periods : List (ℚ × WithTop ℚ)}
    {l l' : List Event} {t : WithTop ℚ} {autos : List (ℚ × String)} (hp : l.Perm l')
    (h : Autos rb skill delay last periods l t autos) :
    Autos rb skill delay last periods l' t autos := by
  induction h generalizing l' with
  | stop events t h => exact .stop _ _ h
  | auto events t target e b d t1 t2 rest h1 h2 h3 h4 h5 h6 ih =>
    exact .auto _ _ _ e b d t1 t2 _ h1 h2
      (speedAt_congr (rb := rb) (as := []) (hp.cons e) h3) h4 h5 (ih (hp.cons e))

theorem autos_addAll {as : List NewEvent} {skill : Skill} {delay last : ℚ}
    {periods : List (ℚ × WithTop ℚ)} {l : List Event} {t : WithTop ℚ} {autos : List (ℚ × String)}
    (h : Autos (rb.addAll as) skill delay last periods l t autos) :
    Autos rb skill delay last periods l t autos := by
  induction h with
  | stop events t h => exact .stop _ _ h
  | auto events t target e b d t1 t2 rest h1 h2 h3 h4 h5 h6 ih =>
    exact .auto _ _ _ e b d t1 t2 _ h1 h2 h3 h4 h5 ih

theorem autosLoop_spec {skill : Skill} {delay : ℚ} {x : ℚ × String} {xs : List (ℚ × String)}
    {last : ℚ} {periods : List (ℚ × WithTop ℚ)}
    (hs : (x :: xs).Pairwise (fun a b => a.1 ≤ b.1)) (n : ℕ) (rb rb' : RotationBuilder)
    (t : WithTop ℚ) (i : ℕ) (prev : List ℚ) (hok : rb.events.Ok)
    (hper : ∀ ps, rb.getNoAutoPeriods = .ok ps → ps = periods)
    (hi : ∀ y ∈ (x :: xs).take i, ∃ s ∈ prev, y.1 ≤ s)
    (h : autosLoop skill delay (x :: xs) last
      ((pyInt (1000 * rb.stats.weaponDelay) : ℚ) *
        (1 - rb.stats.processed.traitAutoAttackDelayReduction)) n rb t i = .ok rb') :
    ∃ autos : List (ℚ × String), Autos rb skill delay last periods rb.events.q t autos ∧
      (autos ≠ [] → rb.getNoAutoPeriods = .ok periods) ∧
      rb' = rb.addAll (autos.map (fun x => autoEvent skill x.1 delay x.2)) ∧
      ∀ l₁ a l₂, autos = l₁ ++ a :: l₂ → (∀ s ∈ prev, s ≤ a.1) → (∀ s ∈ l₁, s.1 ≤ a.1) →
        a.2 = lastTarget x.2 xs a.1 := by
  induction n generalizing rb t i prev with
  | zero => cases h
  | succ n ih =>
    unfold autosLoop at h
    cases t with
    | top =>
      cases h
      refine ⟨[], .stop _ _ ?_, by simp, rfl, by simp⟩
      intro x hx
      cases hx
    | coe t =>
      simp only at h
      split_ifs at h with hl
      · obtain ⟨⟨tx, target⟩, hix, h⟩ := Py.bind_eq_ok.1 h
        simp only [addEvent_eq_addAll, Py.ok_bind] at h
        obtain ⟨timeline, h1, h⟩ := Py.bind_eq_ok.1 h
        obtain ⟨⟨b, d⟩, h2, h⟩ := Py.bind_eq_ok.1 h
        obtain ⟨periods', h3, h⟩ := Py.bind_eq_ok.1 h
        obtain ⟨next, h4, h⟩ := Py.bind_eq_ok.1 h
        obtain ⟨hok', es, hes, hperm⟩ := pushes_spec [autoEvent skill t delay target] rb.events hok
        have hps : periods' = periods := by
          rw [periods_addAll] at h3
          exact hper _ h3
        subst hps
        obtain ⟨e, hb, rfl⟩ : ∃ e, NewEvent.Becomes (autoEvent skill t delay target) e ∧ es = [e] := by
          have := eventsOf_forall₂ hes
          rcases this with _ | ⟨hb, hr⟩
          cases hr
          exact ⟨_, hb, rfl⟩
        have hsp := speedAt_congr (as := [autoEvent skill t delay target]) hperm (speedAt_of h1 h2)
        obtain ⟨t1, h5, h6⟩ := next_spec h4
        obtain ⟨autos, g1, _, g2, g3⟩ := ih (rb.addAll [autoEvent skill t delay target]) next _
          (prev ++ [t]) hok' (by simpa only [periods_addAll] using hper) (by
            intro y hy
            rcases mem_take_advance hy with hy | hy
            · obtain ⟨s, hs1, hs2⟩ := hi y hy
              exact ⟨s, by simp [hs1], hs2⟩
            · exact ⟨t, by simp, hy⟩) h
        refine ⟨(t, target) :: autos, ?_, fun _ => by rw [← h3, periods_addAll], ?_, ?_⟩
        · refine .auto _ _ _ e b d t1 next _ hl (autoEvent_becomes hb) hsp ?_ h6
            (autos_congr hperm (autos_addAll g1))
          rw [truncate_eq] at h5
          push_cast at h5
          exact h5
        · rw [g2, List.map_cons, ← addAll_append]
          rfl
        · intro l₁ a l₂ heq hp hl₁
          cases l₁ with
          | nil =>
            simp only [List.nil_append, List.cons.injEq] at heq
            obtain ⟨rfl, _⟩ := heq
            exact entry_at (e := (tx, target)) (t := t) hs (fun y hy => by
              obtain ⟨s, hs1, hs2⟩ := hi y hy
              exact hs2.trans (hp s hs1)) hix
          | cons c l₁ =>
            simp only [List.cons_append, List.cons.injEq] at heq
            obtain ⟨rfl, heq⟩ := heq
            refine g3 l₁ a l₂ heq ?_ (fun s hs => hl₁ s (List.mem_cons_of_mem _ hs))
            intro s hs
            rcases List.mem_append.1 hs with hs | hs
            · exact hp s hs
            · rw [List.mem_singleton.1 hs]
              exact hl₁ _ List.mem_cons_self
      · cases h
        refine ⟨[], .stop _ _ ?_, by simp, rfl, by simp⟩
        intro x hx
        cases hx
        exact not_lt.1 hl

theorem lastEvent_spec (evs : Events) :
    (evs.getLastEventTime = none ∧ evs.q = []) ∨
    ∃ l, evs.getLastEventTime = some l ∧ IsGreatest {x | ∃ e ∈ evs.q, appliedAt e = x} l := by
  obtain ⟨g1, g2⟩ := lastEvent_fold evs.q none
  cases hx : evs.getLastEventTime with
  | none => exact .inl ⟨rfl, (g1.1 hx).2⟩
  | some x =>
    refine .inr ⟨x, rfl, ?_⟩
    have g3 := g2 x hx
    simp only [appliedAt_eq]
    simpa using g3

theorem addAutos_spec {fuel : ℕ} {last : Option ℚ} (hok : rb.events.Ok)
    (h : rb.addAutos fuel last = .ok rb') :
    ∃ skill delay first l periods, ∃ autos : List (ℚ × String), rb.autoSkill = .ok skill ∧
      autoDelay skill = .ok delay ∧ IsLeast (damageTimes rb.events) first ∧
      ((last = some l) ∨ (last = none ∧ IsGreatest {x | ∃ e ∈ rb.events.q, appliedAt e = x} l)) ∧
      (autos ≠ [] → rb.getNoAutoPeriods = .ok periods) ∧
      Autos rb skill delay l periods rb.events.q first autos ∧
      rb' = rb.addAll (autos.map (fun x => autoEvent skill x.1 delay x.2)) ∧
      ∀ l₁ a l₂, autos = l₁ ++ a :: l₂ → (∀ s ∈ l₁, s.1 ≤ a.1) → TargetAt rb.timestamps a.1 a.2 := by
  unfold addAutos at h
  obtain ⟨ts, hts, h⟩ := Py.bind_eq_ok.1 h
  obtain ⟨skill, hs, h⟩ := Py.bind_eq_ok.1 h
  obtain ⟨first, hf, h⟩ := Py.bind_eq_ok.1 h
  cases first with
  | none => cases h
  | some first =>
    simp only at h
    obtain ⟨delay, hd, h⟩ := Py.bind_eq_ok.1 h
    split at h
    · cases h
    · rename_i l hlast
      cases hsrt : sortBy (·.1) rb.timestamps with
      | nil => rw [hsrt] at hts; cases hts
      | cons x xs =>
        rw [hsrt] at hts
        cases hts
        have hsorted : (x :: xs).Pairwise (fun a b => a.1 ≤ b.1) := by
          rw [← hsrt]
          exact sortBy_sorted _ _
        have hss : (x :: shortenFrom x.2 xs).Pairwise (fun a b => a.1 ≤ b.1) := by
          obtain ⟨k1, k2⟩ := List.pairwise_cons.1 hsorted
          exact List.pairwise_cons.2 ⟨fun y hy => k1 y (mem_shorten hy), shorten_sorted k2⟩
        obtain ⟨autos, g1, g2, g3, g4⟩ := autosLoop_spec
          (periods := (match (generalizing := false) rb.getNoAutoPeriods with
            | .ok ps => ps
            | .error _ => [])) hss _ _ _ _ _ [] hok (by
              intro ps hps
              rw [hps]) (by simp) h
        refine ⟨skill, delay, first, l, _, autos, hs, hd, (firstDamage_spec hf).2 first rfl, ?_, g2, g1,
          g3, ?_⟩
        · cases last with
          | some l' =>
            simp only [Option.some.injEq] at hlast
            exact .inl (by rw [hlast])
          | none =>
            simp only at hlast
            refine .inr ⟨rfl, ?_⟩
            rcases lastEvent_spec rb.events with ⟨k1, _⟩ | ⟨l', k1, k2⟩
            · rw [k1] at hlast
              cases hlast
            · rw [k1] at hlast
              cases hlast
              exact k2
        · intro l₁ a l₂ heq hl₁
          rw [g4 l₁ a l₂ heq (by simp) hl₁, lastTarget_shorten (List.pairwise_cons.1 hsorted).2]
          refine TargetAt.perm ?_ (lastTarget_spec hsorted)
          rw [← hsrt]
          exact sortBy_perm _ _

/-! ## Steps are not negative -/

theorem speedAt_nonneg {evs : List Event} {t : ℚ} {skill : Skill} {b d : StatusEffects}
    (hsk : ∀ e ∈ evs, SkillSpecs (fun s => s.autoAttackDelayReduction ≤ 1) e.skill.toSkillCore)
    (h : SpeedAt rb evs t skill b d) : 0 ≤ b.autoAttackDelayMult ∧ 0 ≤ d.autoAttackDelayMult := by
  obtain ⟨order, h1, hpw, se, se1, se2, cb, cd, h3, h4, h5⟩ := h
  have hsk' : ∀ e ∈ order, SkillSpecs (fun s => s.autoAttackDelayReduction ≤ 1) e.skill.toSkillCore :=
    fun e he => hsk e (List.mem_of_mem_filter (h1.mem_iff.1 he))
  have hse : WellFormed se ∧ AllSpecs (fun s => s.autoAttackDelayReduction ≤ 1) se := by
    clear h1 h4 h5 hpw
    revert h3
    have hinit : WellFormed { priority := rb.priority } ∧
        AllSpecs (fun s => s.autoAttackDelayReduction ≤ 1) { priority := rb.priority } :=
      ⟨⟨by simp [Dict.keys], by simp [Dict.keys], by simp⟩, allSpecs_empty _⟩
    revert hinit
    generalize ({ priority := rb.priority } : StatusEffectTracker) = tr
    intro hinit h3
    induction order generalizing tr with
    | nil => cases h3; exact hinit
    | cons e order ih =>
      rw [Py.foldlM_cons] at h3
      obtain ⟨tr', h6, h3⟩ := Py.bind_eq_ok.1 h3
      exact ih (fun e he => hsk' e (List.mem_cons_of_mem _ he)) _
        ⟨add_wf (expire_wf hinit.1 _) h6,
          (hinit.2.expire _).add (hsk' e List.mem_cons_self) h6⟩ h3
  have hw1 := expire_wf hse.1 t
  have hs1 := hse.2.expire t
  refine ⟨autoMult_nonneg (slot := .buffs) hw1 hs1 h4, ?_⟩
  have hs2 := AllSpecs.compile (slot := .buffs) hs1 h4
  have hw2 : WellFormed se1 := (compile_spec (slot := .buffs) hw1 h4).2.2.2.1
  exact autoMult_nonneg (slot := .debuffs SimConsts.DEFAULT_TARGET) hw2 hs2 h5

theorem autoStep_nonneg {b d : StatusEffects} (hw : 0 ≤ rb.stats.weaponDelay)
    (ht : rb.stats.processed.traitAutoAttackDelayReduction ≤ 1)
    (hb : 0 ≤ b.autoAttackDelayMult) (hd : 0 ≤ d.autoAttackDelayMult) : 0 ≤ autoStep rb b d := by
  unfold autoStep
  have h1 : (0 : ℚ) ≤ pyInt (1000 * rb.stats.weaponDelay) := by
    unfold pyInt
    rw [if_pos (by positivity)]
    exact_mod_cast Int.floor_nonneg.2 (by positivity)
  have h2 : (0 : ℚ) ≤ 1 - rb.stats.processed.traitAutoAttackDelayReduction := by linarith
  have h3 : (0 : ℤ) ≤ ⌊(pyInt (1000 * rb.stats.weaponDelay) : ℚ) *
    (1 - rb.stats.processed.traitAutoAttackDelayReduction) * b.autoAttackDelayMult *
    d.autoAttackDelayMult / 10⌋ := Int.floor_nonneg.2 (by positivity)
  have h4 : (0 : ℚ) ≤ ⌊(pyInt (1000 * rb.stats.weaponDelay) : ℚ) *
    (1 - rb.stats.processed.traitAutoAttackDelayReduction) * b.autoAttackDelayMult *
    d.autoAttackDelayMult / 10⌋ := by exact_mod_cast h3
  positivity

theorem forwarded_le {target : String} {t t' : ℚ} (h : Forwarded rb target t t') : t ≤ t' := by
  rcases h with ⟨_, rfl⟩ | ⟨w, _, _, h, _, rfl⟩
  · exact le_rfl
  · exact h.le

theorem skipped_le {periods : List (ℚ × WithTop ℚ)} {t : ℚ} {t' : WithTop ℚ}
    (h : Skipped periods t t') : (t : WithTop ℚ) ≤ t' := by
  rcases h with ⟨_, rfl⟩ | ⟨⟨p, _, _, h, rfl⟩, _⟩
  · exact le_rfl
  · exact h

variable {skill : Skill} {delay last : ℚ} {periods : List (ℚ × WithTop ℚ)} {evs : List Event}
  {t : WithTop ℚ} {autos : List (ℚ × String)}

theorem autos_mono (hw : 0 ≤ rb.stats.weaponDelay)
    (ht : rb.stats.processed.traitAutoAttackDelayReduction ≤ 1)
    (hsk : ∀ e ∈ evs, SkillSpecs (fun s => s.autoAttackDelayReduction ≤ 1) e.skill.toSkillCore)
    (ha : SkillSpecs (fun s => s.autoAttackDelayReduction ≤ 1) skill.toSkillCore)
    (h : Autos rb skill delay last periods evs t autos) :
    (∀ a ∈ autos, t ≤ a.1) ∧ autos.Pairwise (fun a b => a.1 ≤ b.1) := by
  induction h with
  | stop events t h => simp
  | auto events t target e b d t1 t2 rest h1 h2 h3 h4 h5 h6 ih =>
    have hsk' : ∀ e' ∈ e :: events,
        SkillSpecs (fun s => s.autoAttackDelayReduction ≤ 1) e'.skill.toSkillCore := by
      intro e' he'
      rcases List.mem_cons.1 he' with rfl | he'
      · rw [h2.skill]
        exact ha
      · exact hsk e' he'
    obtain ⟨g1, g2⟩ := ih hsk'
    obtain ⟨k1, k2⟩ := speedAt_nonneg hsk' h3
    have hstep := autoStep_nonneg hw ht k1 k2
    have hle : (t : WithTop ℚ) ≤ t2 := by
      refine le_trans ?_ (skipped_le h5)
      have := forwarded_le h4
      exact_mod_cast (by linarith : t ≤ t1)
    have hall : ∀ a ∈ rest, t ≤ a.1 := by
      intro a ha
      exact_mod_cast hle.trans (g1 a ha)
    refine ⟨?_, List.pairwise_cons.2 ⟨hall, g2⟩⟩
    intro a ha
    rcases List.mem_cons.1 ha with rfl | ha
    · exact le_rfl
    · exact_mod_cast hall a ha

/-- Each auto-attack comes at the time the previous one determines. -/
theorem autos_chain (h : Autos rb skill delay last periods evs t autos) :
    autos.IsChain (fun a b => ∃ buffs debuffs t1, ∃ evs' : List Event,
      SpeedAt rb (evs' ++ evs) a.1 skill buffs debuffs ∧ (∀ e ∈ evs', e.skill = skill) ∧
      Forwarded rb a.2 (a.1 + autoStep rb buffs debuffs) t1 ∧ Skipped periods t1 b.1) := by
  induction h with
  | stop events t h => simp
  | auto events t target e b d t1 t2 rest h1 h2 h3 h4 h5 h6 ih =>
    have ih' : rest.IsChain (fun a b => ∃ buffs debuffs t1, ∃ evs' : List Event,
      SpeedAt rb (evs' ++ events) a.1 skill buffs debuffs ∧ (∀ e ∈ evs', e.skill = skill) ∧
      Forwarded rb a.2 (a.1 + autoStep rb buffs debuffs) t1 ∧ Skipped periods t1 b.1) := by
      refine ih.imp ?_
      rintro a b ⟨bf, df, t1, evs', k1, k2, k3, k4⟩
      refine ⟨bf, df, t1, evs' ++ [e], by simpa using k1, ?_, k3, k4⟩
      intro e' he'
      rcases List.mem_append.1 he' with he' | he'
      · exact k2 e' he'
      · rw [List.mem_singleton.1 he']
        exact h2.skill
    cases h6 with
    | stop _ _ h => simp
    | auto _ t' target' e' b' d' t1' t2' rest' =>
      refine List.isChain_cons_cons.2 ⟨⟨b, d, t1, [e], h3, by simp [h2.skill], h4, h5⟩, ih'⟩

theorem autos_head (h : Autos rb skill delay last periods evs t autos) {a : ℚ × String}
    (ha : autos.head? = some a) : t = a.1 := by
  cases h with
  | stop => cases ha
  | auto => cases ha; rfl

theorem autos_before (h : Autos rb skill delay last periods evs t autos) :
    ∀ a ∈ autos, a.1 + delay < last := by
  induction h with
  | stop => simp
  | auto events t target e b d t1 t2 rest h1 h2 h3 h4 h5 h6 ih =>
    intro a ha
    rcases List.mem_cons.1 ha with rfl | ha
    · exact h1
    · exact ih a ha

end RotationBuilder

end Ama
