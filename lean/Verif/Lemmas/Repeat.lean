import Verif.Spec.Repeat
import Verif.Lemmas.AutosTimeline
import Verif.Lemmas.BuilderTicks
import Verif.Lemmas.BuilderFrame
import Verif.Lemmas.BuilderProcess

/-!
# Lemmas on repeated calls of `get_skill_timing`
-/

namespace Ama

open Spec

/-! ## The last element of each group -/

section Lasts

variable {α K : Type} [LinearOrder K] (key : α → K)

/-- The elements not followed by one with the same key. -/
def lasts : List α → List α
  | [] => []
  | [a] => [a]
  | a :: b :: l => if key a = key b then lasts (b :: l) else a :: lasts (b :: l)

theorem lasts_sublist (l : List α) : (lasts key l).Sublist l := by
  induction l with
  | nil => exact .slnil
  | cons a l ih =>
    cases l with
    | nil => exact .refl _
    | cons b l =>
      unfold lasts
      split_ifs
      · exact ih.cons a
      · exact ih.cons_cons a

theorem mem_lasts {l : List α} (hs : l.Pairwise (fun x y => key x ≤ key y)) {a : α} :
    a ∈ lasts key l ↔ (l.filter (fun x => decide (key x = key a))).getLast? = some a := by
  induction l with
  | nil => simp [lasts]
  | cons b l ih =>
    cases l with
    | nil =>
      simp only [lasts, List.mem_singleton, List.filter_cons, List.filter_nil, decide_eq_true_eq]
      constructor
      · rintro rfl
        simp
      · intro h
        split_ifs at h
        · simpa using h.symm
        · simp at h
    | cons c l =>
      obtain ⟨h1, h2⟩ := List.pairwise_cons.1 hs
      have ih' := ih h2
      unfold lasts
      by_cases hbc : key b = key c
      · rw [if_pos hbc, ih', List.filter_cons (x := b)]
        by_cases hba : key b = key a
        · have hca : key c = key a := hbc ▸ hba
          rw [if_pos (by simpa using hba), List.filter_cons, if_pos (by simpa using hca),
            List.getLast?_cons_cons]
        · rw [if_neg (by simpa using hba)]
      · rw [if_neg hbc, List.mem_cons, ih', List.filter_cons (x := b)]
        have hlt : ∀ x ∈ c :: l, key b < key x := by
          intro x hx
          have hbc' : key b < key c := lt_of_le_of_ne (h1 c List.mem_cons_self) hbc
          rcases List.mem_cons.1 hx with rfl | hx
          · exact hbc'
          · exact hbc'.trans_le ((List.pairwise_cons.1 h2).1 x hx)
        by_cases hba : key b = key a
        · rw [if_pos (by simpa using hba)]
          have he : (c :: l).filter (fun x => decide (key x = key a)) = [] := by
            rw [List.filter_eq_nil_iff]
            intro x hx
            have := hlt x hx
            simp only [decide_eq_true_eq]
            intro h
            rw [h, hba] at this
            exact lt_irrefl _ this
          rw [he]
          simp [eq_comm]
        · rw [if_neg (by simpa using hba)]
          constructor
          · rintro (rfl | h)
            · exact absurd rfl hba
            · exact h
          · exact .inr

theorem lasts_strict {l : List α} (hs : l.Pairwise (fun x y => key x ≤ key y)) :
    (lasts key l).Pairwise (fun x y => key x < key y) := by
  induction l with
  | nil => exact .nil
  | cons b l ih =>
    cases l with
    | nil => simp [lasts]
    | cons c l =>
      obtain ⟨h1, h2⟩ := List.pairwise_cons.1 hs
      unfold lasts
      split_ifs with hbc
      · exact ih h2
      · refine List.pairwise_cons.2 ⟨fun x hx => ?_, ih h2⟩
        have hx' := (lasts_sublist key _).subset hx
        have hbc' : key b < key c := lt_of_le_of_ne (h1 c List.mem_cons_self) hbc
        rcases List.mem_cons.1 hx' with rfl | hx'
        · exact hbc'
        · exact hbc'.trans_le ((List.pairwise_cons.1 h2).1 x hx')

theorem lasts_eq {l l' : List α} (hs : l.Pairwise (fun x y => key x ≤ key y))
    (hs' : l'.Pairwise (fun x y => key x ≤ key y))
    (h : ∀ k, (l.filter (fun x => decide (key x = k))).getLast? =
      (l'.filter (fun x => decide (key x = k))).getLast?) : lasts key l = lasts key l' := by
  have n1 := lasts_strict key hs
  have n2 := lasts_strict key hs'
  refine List.Perm.eq_of_pairwise (le := fun x y => key x < key y)
    (fun a b _ _ hab hba => absurd (hab.trans hba) (lt_irrefl _)) n1 n2 ?_
  rw [List.perm_ext_iff_of_nodup (n1.imp (fun h e => by rw [e] at h; exact lt_irrefl _ h))
    (n2.imp (fun h e => by rw [e] at h; exact lt_irrefl _ h))]
  intro a
  rw [mem_lasts key hs, mem_lasts key hs', h]

/-- Appending the end of a list again does not change the last elements. -/
theorem lasts_again (d m : List α) :
    lasts key (sortBy key (d ++ m ++ m)) = lasts key (sortBy key (d ++ m)) := by
  refine lasts_eq key (sortBy_sorted key _) (sortBy_sorted key _) (fun k => ?_)
  rw [sortBy_stable, sortBy_stable]
  simp only [List.filter_append]
  cases m.filter (fun x => decide (key x = k)) with
  | nil => simp
  | cons x xs => rw [List.getLast?_append, List.getLast?_append]; simp [List.getLast?_cons]

/-- Appending the end of a list again does not change the first element. -/
theorem head_again (d m : List α) :
    (sortBy key (d ++ m ++ m)).head? = (sortBy key (d ++ m)).head? := by
  have hmem : ∀ x, x ∈ sortBy key (d ++ m ++ m) ↔ x ∈ sortBy key (d ++ m) := by
    intro x
    simp only [mem_sortBy, List.mem_append]
    tauto
  have s1 := sortBy_sorted key (d ++ m ++ m)
  have s2 := sortBy_sorted key (d ++ m)
  cases h1 : sortBy key (d ++ m ++ m) with
  | nil =>
    cases h2 : sortBy key (d ++ m) with
    | nil => rfl
    | cons y ys =>
      rw [h1, h2] at hmem
      exact absurd ((hmem y).2 List.mem_cons_self) (by simp)
  | cons x xs =>
    cases h2 : sortBy key (d ++ m) with
    | nil =>
      rw [h1, h2] at hmem
      exact absurd ((hmem x).1 List.mem_cons_self) (by simp)
    | cons y ys =>
      rw [h1, h2] at hmem
      rw [h1] at s1
      rw [h2] at s2
      have least : ∀ {a : α} {l : List α}, (a :: l).Pairwise (fun x y => key x ≤ key y) →
          ∀ b ∈ a :: l, key a ≤ key b := by
        intro a l hl b hb
        rcases List.mem_cons.1 hb with rfl | hb
        · exact le_rfl
        · exact (List.pairwise_cons.1 hl).1 b hb
      have hk : key x = key y :=
        le_antisymm (least s1 y ((hmem y).2 List.mem_cons_self))
          (least s2 x ((hmem x).1 List.mem_cons_self))
      have f1 := sortBy_stable key (d ++ m ++ m) (key x)
      have f2 := sortBy_stable key (d ++ m) (key x)
      rw [h1, List.filter_cons_of_pos (by simp)] at f1
      rw [h2, List.filter_cons_of_pos (by simpa using hk.symm)] at f2
      rw [List.filter_append, ← f2] at f1
      simp only [List.cons_append, List.cons.injEq] at f1
      rw [f1.1]
      rfl

/-- The last element satisfying a condition on the key that, once false, stays false. -/
theorem getLast?_lasts {l : List α} (t : K) :
    ((lasts key l).takeWhile (fun x => decide (key x ≤ t))).getLast? =
      (l.takeWhile (fun x => decide (key x ≤ t))).getLast? := by
  induction l with
  | nil => rfl
  | cons b l ih =>
    cases l with
    | nil => rfl
    | cons c l =>
      unfold lasts
      split_ifs with hbc
      · rw [ih]
        by_cases hc : key c ≤ t
        · rw [List.takeWhile_cons_of_pos (a := b) (by simpa [hbc] using hc),
            List.takeWhile_cons_of_pos (by simpa using hc), List.getLast?_cons_cons]
        · rw [List.takeWhile_cons_of_neg (a := b) (by simpa [hbc] using hc),
            List.takeWhile_cons_of_neg (by simpa using hc)]
      · by_cases hb : key b ≤ t
        · rw [List.takeWhile_cons_of_pos (by simpa using hb),
            List.takeWhile_cons_of_pos (by simpa using hb), List.getLast?_cons, List.getLast?_cons, ih]
        · rw [List.takeWhile_cons_of_neg (by simpa using hb),
            List.takeWhile_cons_of_neg (by simpa using hb)]

end Lasts

namespace RotationBuilder

/-! ## Dots applied again -/

theorem dotStart_whole {snap : Option ℚ} {x : ℚ} (h : Whole x) :
    ∃ s : ℤ, dotStart snap x = s ∧ x ≤ s := by
  obtain ⟨z, hz⟩ := h
  have : ∃ s : ℤ, dotStart snap x = s := by
    unfold dotStart
    cases snap with
    | none => exact ⟨z, hz⟩
    | some s =>
      simp only
      split_ifs
      · exact ⟨z, hz⟩
      · exact ⟨_, rfl⟩
  obtain ⟨s, hs⟩ := this
  exact ⟨s, hs, (dotStart_le hs).2.2 z hz⟩

theorem intRange_empty {a b : ℤ} {step : ℕ} (hs : 0 < step) (h : b ≤ a) : intRange a b step = [] := by
  rw [List.eq_nil_iff_forall_not_mem]
  intro t ht
  obtain ⟨j, h1, h2⟩ := (mem_intRange hs).1 ht
  have : (0 : ℤ) ≤ step * j := by positivity
  omega

theorem rangeAdds_lasts {snap last : Option ℚ} {f : FollowUp} {target : String} {duration : ℤ}
    {l : List DotApp} (hw : ∀ a ∈ l, Whole a.application) (n : ℕ) :
    rangeAdds snap f target last n (consolidate (l.map (rangeOf duration))) =
      rangeAdds snap f target last n
        (consolidate ((lasts (·.application) l).map (rangeOf duration))) := by
  induction l generalizing n with
  | nil => rfl
  | cons a l ih =>
    cases l with
    | nil => rfl
    | cons b l =>
      have ih' := ih (fun x hx => hw x (List.mem_cons_of_mem _ hx))
      unfold lasts
      simp only [List.map_cons]
      rw [consolidate]
      split_ifs with hab
      · simp only [List.map_cons] at ih'
        rw [← ih']
        obtain ⟨s, h1, h2⟩ := dotStart_whole (snap := snap) (hw a List.mem_cons_self)
        obtain ⟨z, hz⟩ := hw a List.mem_cons_self
        have hr : pyRange (dotStart snap a.application)
            (min (a.application + duration) b.application) GameConsts.DOT_TICK_INTERVAL =
              .ok [] := by
          have e : min (a.application + duration) b.application = ((min (z + duration) z : ℤ) : ℚ) := by
            rw [← hab, hz]
            push_cast
            rfl
          rw [h1, e, pyRange_int, intRange_empty (by norm_num [GameConsts.DOT_TICK_INTERVAL])]
          rw [hz] at h2
          have : z ≤ s := by exact_mod_cast h2
          exact (min_le_right _ _).trans this
        rw [rangeAdds]
        change ((pyRange (dotStart snap a.application)
            (min (a.application + duration) b.application) GameConsts.DOT_TICK_INTERVAL) >>= _) = _
        rw [hr]
        simp only [Py.ok_bind, List.filter_nil, List.length_nil, Nat.add_zero, List.zipIdx_nil,
          List.map_nil, List.nil_append, Py.pure_eq]
        cases rangeAdds snap f target last n (consolidate (rangeOf duration b :: l.map (rangeOf duration)))
          <;> rfl
      · -- the next application kept starts when the next one starts
        have hne : ∃ c l', lasts (·.application) (b :: l) = c :: l' ∧ c.application = b.application := by
          clear ih ih' hab hw
          induction l generalizing b with
          | nil => exact ⟨b, [], rfl, rfl⟩
          | cons d l ih =>
            unfold lasts
            split_ifs with h
            · obtain ⟨c, l', h1, h2⟩ := ih d
              exact ⟨c, l', h1, h2.trans h.symm⟩
            · exact ⟨b, _, rfl, rfl⟩
        obtain ⟨c, l', h1, h2⟩ := hne
        have ih'' := ih'
        rw [h1] at ih' ⊢
        simp only [List.map_cons] at ih' ⊢
        rw [consolidate, rangeAdds, rangeAdds]
        simp only [ih']
        have : (rangeOf duration b).start = (rangeOf duration c).start := h2.symm
        rw [this]

theorem rangeAdds_whole {f : FollowUp} {target : String} {last : Option ℚ} {rs : List DotRange}
    {n : ℕ} {as : List NewEvent} (h : rangeAdds none f target last n rs = .ok as) :
    ∀ r ∈ rs, Whole r.start := by
  induction rs generalizing n as with
  | nil => simp
  | cons r rs ih =>
    rw [rangeAdds] at h
    obtain ⟨ticks, h1, h⟩ := Py.bind_eq_ok.1 h
    obtain ⟨as', h2, h⟩ := Py.bind_eq_ok.1 h
    intro r' hr'
    rcases List.mem_cons.1 hr' with rfl | hr'
    · obtain ⟨a, b, h3, _⟩ := pyRange_ok h1
      exact ⟨a, h3⟩
    · exact ih h2 r' hr'

theorem consolidate_starts (rs : List DotRange) :
    (consolidate rs).map (·.start) = rs.map (·.start) := by
  induction rs with
  | nil => rfl
  | cons a rs ih =>
    cases rs with
    | nil => rfl
    | cons b rs =>
      rw [consolidate, List.map_cons, ih]
      rfl

theorem dotAdds_again {snap last : Option ℚ} {target : String} {f : FollowUp} {d m : List DotApp}
    {as : List NewEvent} (hw : snap = none ∨ ∀ a ∈ d ++ m, Whole a.application)
    (h : dotAdds snap target last (f, d ++ m) = .ok as) :
    dotAdds snap target last (f, d ++ m ++ m) = .ok as := by
  unfold dotAdds at h ⊢
  simp only at h ⊢
  cases hd : f.dotDuration with
  | none => rw [hd] at h; cases h
  | some duration =>
    rw [hd] at h
    simp only at h ⊢
    rw [baseDotTimings_eq] at h ⊢
    have hw' : ∀ a ∈ d ++ m, Whole a.application := by
      rcases hw with rfl | hw
      · intro a ha
        have hall := rangeAdds_whole h
        have hm : a.application ∈ (consolidate ((sortBy (fun a : DotApp => a.application)
            (d ++ m)).map (rangeOf duration))).map (·.start) := by
          rw [consolidate_starts, List.map_map]
          exact List.mem_map.2 ⟨a, by simpa using ha, rfl⟩
        obtain ⟨r, hr, he⟩ := List.mem_map.1 hm
        rw [← he]
        exact hall r hr
      · exact hw
    rw [rangeAdds_lasts (by simpa using hw')] at h
    rw [rangeAdds_lasts (by
      intro a ha
      rw [mem_sortBy, List.mem_append] at ha
      rcases ha with ha | ha
      · exact hw' a ha
      · exact hw' a (List.mem_append_right _ ha)), lasts_again]
    exact h

/-! ## The applications recorded again -/

/-- More applications of the dots already recorded. -/
def extend (d : Dots) (g : String → FollowUp → List DotApp) : Dots :=
  d.map (fun td => (td.1, td.2.map (fun fa => (fa.1, fa.2 ++ g td.1 fa.1))))

/-- No target and no dot of a target occurs twice. -/
def NodupDots (d : Dots) : Prop :=
  (Dict.keys d).Nodup ∧ ∀ td ∈ d, (Dict.keys td.2).Nodup

theorem set_present {κ ν : Type} [DecidableEq κ] {d : Dict κ ν} {k : κ} {v w : ν}
    (hn : (Dict.keys d).Nodup) (h : Dict.get? d k = some v) :
    Dict.set d k w = d.map (fun kv => if kv.1 = k then (kv.1, w) else kv) := by
  induction d with
  | nil => cases h
  | cons p d ih =>
    obtain ⟨k', v'⟩ := p
    have hn' : k' ∉ Dict.keys d ∧ (Dict.keys d).Nodup := by simpa [Dict.keys] using hn
    rw [Dict.get?_cons] at h
    rw [Dict.set]
    split_ifs at h ⊢ with he
    · subst he
      simp only [List.map_cons, if_true, List.cons.injEq, true_and]
      rw [List.map_congr_left (g := id)]
      · simp
      · intro kv hkv
        have : kv.1 ≠ k' := by
          intro e
          exact hn'.1 (List.mem_map.2 ⟨kv, hkv, e⟩)
        simp [this]
    · rw [ih hn'.2 h]
      simp [he]

theorem addDotApp_present {d : Dots} (hn : NodupDots d) {f : FollowUp} {target : String}
    (hp : ∃ per apps, Dict.get? d target = some per ∧ Dict.get? per f = some apps) (a : DotApp) :
    addDotApp d f a target =
      extend d (fun t f' => if t = target ∧ f' = f then [a] else []) := by
  obtain ⟨per, apps, h1, h2⟩ := hp
  unfold addDotApp
  simp only [h1, h2, Option.getD_some]
  have hper : (target, per) ∈ d := Dict.mem_of_get? h1
  rw [set_present hn.1 h1, set_present (hn.2 _ hper) h2]
  unfold extend
  refine List.map_congr_left (fun td htd => ?_)
  split_ifs with he
  · have e1 : Dict.get? d td.1 = some td.2 := Dict.get?_of_mem hn.1 htd
    rw [he, h1] at e1
    cases e1
    refine Prod.ext rfl ?_
    simp only
    refine List.map_congr_left (fun fa hfa => ?_)
    split_ifs with hf h' h'
    · have e2 : Dict.get? td.2 fa.1 = some fa.2 := Dict.get?_of_mem (hn.2 _ htd) hfa
      rw [hf, h2] at e2
      cases e2
      rfl
    · exact absurd ⟨he, hf⟩ h'
    · exact absurd h'.2 hf
    · simp
  · refine Prod.ext rfl ?_
    simp only [he, false_and, if_false, List.append_nil]
    simp

theorem keys_extend (d : Dots) (g : String → FollowUp → List DotApp) :
    Dict.keys (extend d g) = Dict.keys d := by
  simp [extend, Dict.keys]

theorem nodup_extend {d : Dots} (h : NodupDots d) (g : String → FollowUp → List DotApp) :
    NodupDots (extend d g) := by
  refine ⟨by rw [keys_extend]; exact h.1, ?_⟩
  intro td htd
  obtain ⟨td', h1, rfl⟩ := List.mem_map.1 htd
  have : Dict.keys (td'.2.map (fun fa => (fa.1, fa.2 ++ g td'.1 fa.1))) = Dict.keys td'.2 := by
    simp [Dict.keys]
  rw [this]
  exact h.2 td' h1

theorem extend_extend (d : Dots) (g g' : String → FollowUp → List DotApp) :
    extend (extend d g) g' = extend d (fun t f => g t f ++ g' t f) := by
  simp [extend]

theorem get?_mapped {κ ν μ : Type} [DecidableEq κ] (d : Dict κ ν) (g : κ → ν → μ) (k : κ) :
    Dict.get? (d.map (fun kv => (kv.1, g kv.1 kv.2))) k = (Dict.get? d k).map (g k) := by
  induction d with
  | nil => rfl
  | cons p d ih =>
    rw [List.map_cons, Dict.get?_cons, ih, Dict.get?_cons]
    split_ifs with h
    · subst h; rfl
    · rfl

/-- The dot has been recorded for the target. -/
def Present (d : Dots) (target : String) (f : FollowUp) : Prop :=
  ∃ per apps, Dict.get? d target = some per ∧ Dict.get? per f = some apps

theorem present_extend {d : Dots} (g : String → FollowUp → List DotApp) {target : String} {f : FollowUp}
    (h : Present d target f) : Present (extend d g) target f := by
  obtain ⟨per, apps, h1, h2⟩ := h
  refine ⟨per.map (fun fa => (fa.1, fa.2 ++ g target fa.1)), apps ++ g target f, ?_, ?_⟩
  · unfold extend
    rw [get?_mapped d (fun t per => per.map (fun fa => (fa.1, fa.2 ++ g t fa.1))), h1]
    rfl
  · rw [get?_mapped per (fun f apps => apps ++ g target f), h2]
    rfl

theorem addDots_present {l : List (String × FollowUp × DotApp)} {d : Dots} (hn : NodupDots d)
    (hp : ∀ x ∈ l, Present d x.1 x.2.1) :
    addDots d l = extend d (fun t f =>
      (l.filter (fun x => decide (x.1 = t ∧ x.2.1 = f))).map (·.2.2)) := by
  induction l generalizing d with
  | nil => simp [addDots, extend]
  | cons x l ih =>
    change addDots (addDotApp d x.2.1 x.2.2 x.1) l = _
    rw [addDotApp_present hn (hp x List.mem_cons_self)]
    rw [ih (nodup_extend hn _) (fun y hy => present_extend _ (hp y (List.mem_cons_of_mem _ hy))),
      extend_extend]
    congr 1
    funext t f
    rw [List.filter_cons]
    by_cases h : x.1 = t ∧ x.2.1 = f
    · rw [if_pos ⟨h.1.symm, h.2.symm⟩, if_pos (by simpa using h)]
      rfl
    · rw [if_neg (fun h' => h ⟨h'.1.symm, h'.2.symm⟩), if_neg (by simpa using h)]
      rfl

theorem nodup_addDotApp {d : Dots} (hn : NodupDots d) (f : FollowUp) (a : DotApp) (target : String) :
    NodupDots (addDotApp d f a target) := by
  unfold addDotApp
  refine ⟨Dict.nodup_set hn.1 _ _, ?_⟩
  intro td htd
  rcases Dict.mem_set htd with rfl | htd
  · refine Dict.nodup_set ?_ _ _
    cases h : Dict.get? d target with
    | none => simp [Dict.keys]
    | some per => exact hn.2 _ (Dict.mem_of_get? h)
  · exact hn.2 td htd

theorem nodup_addDots {d : Dots} (hn : NodupDots d) (l : List (String × FollowUp × DotApp)) :
    NodupDots (addDots d l) := by
  induction l generalizing d with
  | nil => exact hn
  | cons x l ih => exact ih (nodup_addDotApp hn _ _ _)

theorem present_addDotApp_self (d : Dots) (f : FollowUp) (a : DotApp) (target : String) :
    Present (addDotApp d f a target) target f :=
  ⟨_, _, Dict.get?_set_self _ _ _, Dict.get?_set_self _ _ _⟩

theorem present_addDotApp {d : Dots} {f f' : FollowUp} {a : DotApp} {target target' : String}
    (h : Present d target f) : Present (addDotApp d f' a target') target f := by
  obtain ⟨per, apps, h1, h2⟩ := h
  unfold addDotApp
  by_cases ht : target' = target
  · subst ht
    simp only [h1, Option.getD_some]
    by_cases hf : f' = f
    · subst hf
      exact ⟨_, _, Dict.get?_set_self _ _ _, Dict.get?_set_self _ _ _⟩
    · exact ⟨_, apps, Dict.get?_set_self _ _ _, by rw [Dict.get?_set_ne _ _ hf]; exact h2⟩
  · exact ⟨per, apps, by rw [Dict.get?_set_ne _ _ ht]; exact h1, h2⟩

theorem present_addDots_left {d : Dots} {l : List (String × FollowUp × DotApp)} {target : String}
    {f : FollowUp} (h : Present d target f) : Present (addDots d l) target f := by
  induction l generalizing d with
  | nil => exact h
  | cons x l ih => exact ih (present_addDotApp h)

theorem present_addDots {d : Dots} {l : List (String × FollowUp × DotApp)} :
    ∀ x ∈ l, Present (addDots d l) x.1 x.2.1 := by
  induction l generalizing d with
  | nil => simp
  | cons y l ih =>
    intro x hx
    rcases List.mem_cons.1 hx with rfl | hx
    · exact present_addDots_left (d := addDotApp d x.2.1 x.2.2 x.1) (present_addDotApp_self _ _ _ _)
    · exact ih (d := addDotApp d y.2.1 y.2.2 y.1) x hx

theorem appsOf_mem {d : Dots} (hn : NodupDots d) {td : String × Dict FollowUp (List DotApp)}
    (htd : td ∈ d) {fa : FollowUp × List DotApp} (hfa : fa ∈ td.2) : appsOf d td.1 fa.1 = fa.2 := by
  unfold appsOf
  rw [Dict.get?_of_mem hn.1 (k := td.1) (v := td.2) htd]
  simp only
  rw [Dict.get?_of_mem (hn.2 td htd) (k := fa.1) (v := fa.2) hfa]

theorem flatM_map_ok {A B : Type} {g g' : A → Py (List B)} {l : List A} {k : A → A} {r : List B}
    (hk : ∀ a ∈ l, ∀ x, g a = .ok x → g' (k a) = .ok x) (h : flatM g l = .ok r) :
    flatM g' (l.map k) = .ok r := by
  induction l generalizing r with
  | nil => exact h
  | cons a l ih =>
    rw [flatM] at h
    obtain ⟨x, h1, h⟩ := Py.bind_eq_ok.1 h
    obtain ⟨y, h2, h⟩ := Py.bind_eq_ok.1 h
    cases h
    rw [List.map_cons, flatM, hk a List.mem_cons_self x h1,
      ih (fun b hb => hk b (List.mem_cons_of_mem _ hb)) h2]
    rfl

/-- Recording the same applications again does not change the ticks. -/
theorem allDotAdds_again {snap last : Option ℚ} {d : Dots} (hn : NodupDots d)
    {l : List (String × FollowUp × DotApp)} {as : List NewEvent}
    (hw : snap = none ∨ ∀ target f, ∀ a ∈ appsOf (addDots d l) target f, Whole a.application)
    (h : allDotAdds snap last (addDots d l) = .ok as) :
    allDotAdds snap last (addDots (addDots d l) l) = .ok as := by
  have hn' := nodup_addDots hn l
  rw [addDots_present hn' present_addDots]
  unfold allDotAdds extend at *
  refine flatM_map_ok (fun td htd x hx => ?_) h
  refine flatM_map_ok (fun fa hfa y hy => ?_) hx
  have e1 := appsOf_mem hn' htd hfa
  have e2 := e1
  rw [appsOf_addDots] at e2
  obtain ⟨f, apps⟩ := fa
  simp only at e1 e2 hy ⊢
  rw [← e2] at hy ⊢
  refine dotAdds_again ?_ hy
  rcases hw with hw | hw
  · exact .inl hw
  · refine .inr ?_
    rw [e2, ← e1]
    exact hw _ _

/-! ## Auto-attacks -/

theorem lastTarget_eq (x : ℚ × String) (xs : List (ℚ × String)) (t : ℚ) :
    lastTarget x.2 xs t =
      ((((x :: xs).takeWhile (fun x => decide (x.1 ≤ t))).getLast?.map (·.2)).getD
        (if x.1 ≤ t then x.2 else lastTarget x.2 xs t)) := by
  by_cases h : x.1 ≤ t
  · rw [List.takeWhile_cons_of_pos (by simpa using h), List.getLast?_cons]
    unfold lastTarget
    cases (xs.takeWhile (fun x => decide (x.1 ≤ t))).getLast? <;> rfl
  · rw [List.takeWhile_cons_of_neg (by simpa using h), if_neg h]
    rfl

/-- The target at a time is the same with the end of the history appended again. -/
theorem lastTarget_again {d m : List (ℚ × String)} {x x' : ℚ × String} {xs xs' : List (ℚ × String)}
    (h : sortBy (·.1) (d ++ m) = x :: xs) (h' : sortBy (·.1) (d ++ m ++ m) = x' :: xs') (t : ℚ) :
    lastTarget x.2 xs t = lastTarget x'.2 xs' t := by
  have e1 := head_again (fun a : ℚ × String => a.1) d m
  rw [h, h'] at e1
  simp only [List.head?_cons, Option.some.injEq] at e1
  subst e1
  have e2 := lasts_again (fun a : ℚ × String => a.1) d m
  rw [h, h'] at e2
  have e3 : ((x' :: xs).takeWhile (fun x => decide (x.1 ≤ t))).getLast? =
      ((x' :: xs').takeWhile (fun x => decide (x.1 ≤ t))).getLast? := by
    have k1 := getLast?_lasts (fun a : ℚ × String => a.1) (l := x' :: xs) t
    have k2 := getLast?_lasts (fun a : ℚ × String => a.1) (l := x' :: xs') t
    rw [← k1, ← k2, e2]
  by_cases hx : x'.1 ≤ t
  · rw [lastTarget_eq, lastTarget_eq x' xs', e3, if_pos hx, if_pos hx]
  · have late : ∀ {d : List (ℚ × String)} {l : List (ℚ × String)}, sortBy (·.1) d = x' :: l →
        ∀ y ∈ l, t < y.1 := by
      intro d l hl y hy
      have := sortBy_sorted (fun a : ℚ × String => a.1) d
      rw [hl] at this
      exact (not_le.1 hx).trans_le ((List.pairwise_cons.1 this).1 y hy)
    rw [lastTarget_late (late h), lastTarget_late (late h')]

/-- Another hidden state: recorded dots and targets. -/
def withHidden (rb : RotationBuilder) (q : Dots) (ts : List (ℚ × String)) : RotationBuilder :=
  { rb with qDot := q, timestamps := ts }

variable {fuel : ℕ} {rb rb' : RotationBuilder} {q : Dots} {ts : List (ℚ × String)}

theorem noAutoLoop_hidden (n : ℕ) (s : NoAutoState) (l : List TimedPress) :
    (rb.withHidden q ts).noAutoLoop n s l = rb.noAutoLoop n s l := by
  induction n generalizing s l with
  | zero => rfl
  | succ n ih =>
    unfold noAutoLoop
    simp only [ih]
    rfl

theorem periods_hidden : (rb.withHidden q ts).getNoAutoPeriods = rb.getNoAutoPeriods := by
  unfold getNoAutoPeriods
  simp only [noAutoLoop_hidden]
  rfl

theorem advance_lt {l : List (ℚ × String)} {t : ℚ} {i : ℕ} (hi : i < l.length) :
    advanceIndex l t i - 1 < l.length := by
  unfold advanceIndex
  have h1 : ((l.drop i).takeWhile (fun x => decide (x.1 ≤ t))).length ≤ (l.drop i).length :=
    (List.takeWhile_prefix _).length_le
  rw [List.length_drop] at h1
  omega

theorem autosLoop_again {skill : Skill} {delay last : ℚ} {x x' : ℚ × String}
    {xs xs' : List (ℚ × String)} (hs : (x :: xs).Pairwise (fun a b => a.1 ≤ b.1))
    (hs' : (x' :: xs').Pairwise (fun a b => a.1 ≤ b.1))
    (htg : ∀ t, lastTarget x.2 xs t = lastTarget x'.2 xs' t)
    (ha : Moderate skill) (n : ℕ) (rb rb' : RotationBuilder)
    (hw : 0 ≤ rb.stats.weaponDelay) (htr : rb.stats.processed.traitAutoAttackDelayReduction ≤ 1)
    (t : WithTop ℚ) (i i' : ℕ) (hok : rb.events.Ok) (hev : ∀ e ∈ rb.events.q, Moderate e.skill)
    (hi : ∀ y ∈ (x :: xs).take i, (y.1 : WithTop ℚ) ≤ t)
    (hi' : ∀ y ∈ (x' :: xs').take i', (y.1 : WithTop ℚ) ≤ t) (hl' : i' < (x' :: xs').length)
    (h : autosLoop skill delay (x :: xs) last
      ((pyInt (1000 * rb.stats.weaponDelay) : ℚ) *
        (1 - rb.stats.processed.traitAutoAttackDelayReduction)) n rb t i = .ok rb') :
    autosLoop skill delay (x' :: xs') last
      ((pyInt (1000 * rb.stats.weaponDelay) : ℚ) *
        (1 - rb.stats.processed.traitAutoAttackDelayReduction)) n (rb.withHidden q ts) t i' =
      .ok (rb'.withHidden q ts) := by
  induction n generalizing rb t i i' with
  | zero => cases h
  | succ n ih =>
    unfold autosLoop at h ⊢
    cases t with
    | top =>
      cases h
      rfl
    | coe t =>
      simp only at h ⊢
      split_ifs at h ⊢ with hl
      · obtain ⟨⟨tx, target⟩, hix, h⟩ := Py.bind_eq_ok.1 h
        simp only [addEvent_eq_addAll, Py.ok_bind] at h
        obtain ⟨timeline, h1, h⟩ := Py.bind_eq_ok.1 h
        obtain ⟨⟨b, d⟩, h2, h⟩ := Py.bind_eq_ok.1 h
        obtain ⟨periods, h3, h⟩ := Py.bind_eq_ok.1 h
        obtain ⟨next, h4, h⟩ := Py.bind_eq_ok.1 h
        obtain ⟨hok', es, hes, hperm⟩ := pushes_spec [autoEvent skill t delay target] rb.events hok
        obtain ⟨e, hb, rfl⟩ : ∃ e, NewEvent.Becomes (autoEvent skill t delay target) e ∧ es = [e] := by
          have := eventsOf_forall₂ hes
          rcases this with _ | ⟨hb, hr⟩
          cases hr
          exact ⟨_, hb, rfl⟩
        have hev' : ∀ e' ∈ (rb.addAll [autoEvent skill t delay target]).events.q,
            Moderate e'.skill := by
          intro e' he'
          rcases List.mem_append.1 (hperm.mem_iff.1 he') with he' | he'
          · rw [List.mem_singleton.1 he', (autoEvent_becomes hb).skill]
            exact ha
          · exact hev e' he'
        -- the next time is not earlier
        obtain ⟨hn1, hn2⟩ := speedAt_nonneg hev' (speedAt_of h1 h2)
        obtain ⟨t1, h5, h6⟩ := next_spec h4
        have hstep := autoStep_nonneg hw htr hn1 hn2
        have hle : (t : WithTop ℚ) ≤ next := by
          refine le_trans ?_ (skipped_le h6)
          have := forwarded_le h5
          rw [truncate_eq] at this
          push_cast at this
          unfold autoStep at hstep
          exact_mod_cast (by linarith : t ≤ t1)
        -- the target is the same
        have he := entry_at (e := (tx, target)) (t := t) hs
          (fun y hy => by exact_mod_cast hi y hy) hix
        simp only at he
        obtain ⟨⟨tx', target'⟩, hix'⟩ : ∃ e', pyIdx (x' :: xs') (advanceIndex (x' :: xs') t i' - 1) =
            .ok e' := by
          unfold pyIdx
          rw [List.getElem?_eq_getElem (advance_lt hl')]
          exact ⟨_, rfl⟩
        have he' := entry_at (e := (tx', target')) (t := t) hs'
          (fun y hy => by exact_mod_cast hi' y hy) hix'
        simp only at he'
        have hsame : target' = target := by rw [he, he', htg]
        subst hsame
        have ih' := ih (rb.addAll [autoEvent skill t delay target']) hw htr next _
          (advanceIndex (x' :: xs') t i' - 1) hok' hev'
          (fun y hy => by
            rcases mem_take_advance hy with hy | hy
            · exact (hi y hy).trans hle
            · exact le_trans (by exact_mod_cast hy) hle)
          (fun y hy => by
            rcases mem_take_advance hy with hy | hy
            · exact (hi' y hy).trans hle
            · exact le_trans (by exact_mod_cast hy) hle)
          (advance_lt hl') h
        rw [hix']
        simp only [Py.ok_bind, addEvent_eq_addAll]
        refine Py.bind_eq_ok.2 ⟨timeline, h1, ?_⟩
        refine Py.bind_eq_ok.2 ⟨(b, d), h2, ?_⟩
        refine Py.bind_eq_ok.2 ⟨periods, ?_, ?_⟩
        · change ((rb.addAll [autoEvent skill t delay target']).withHidden q ts).getNoAutoPeriods = _
          rw [periods_hidden]
          exact h3
        · exact Py.bind_eq_ok.2 ⟨next, h4, ih'⟩
      · cases h
        rfl

theorem addAutos_again {d m : List (ℚ × String)} {last : Option ℚ} (hts : rb.timestamps = d ++ m)
    (hw : 0 ≤ rb.stats.weaponDelay) (htr : rb.stats.processed.traitAutoAttackDelayReduction ≤ 1)
    (hok : rb.events.Ok) (hev : ∀ e ∈ rb.events.q, Moderate e.skill)
    (ha : ∀ skill delay, AutoSkill rb skill delay → Moderate skill)
    (h : rb.addAutos fuel last = .ok rb') :
    (rb.withHidden q (d ++ m ++ m)).addAutos fuel last = .ok (rb'.withHidden q (d ++ m ++ m)) := by
  unfold addAutos at h ⊢
  obtain ⟨ts, ht, h⟩ := Py.bind_eq_ok.1 h
  obtain ⟨skill, hsk, h⟩ := Py.bind_eq_ok.1 h
  obtain ⟨first, hf, h⟩ := Py.bind_eq_ok.1 h
  rw [hts] at ht
  cases h1 : sortBy (·.1) (d ++ m) with
  | nil => rw [h1] at ht; cases ht
  | cons x xs =>
    rw [h1] at ht
    cases ht
    cases h2 : sortBy (·.1) (d ++ m ++ m) with
    | nil =>
      have e1 := head_again (fun a : ℚ × String => a.1) d m
      rw [h1, h2] at e1
      cases e1
    | cons x' xs' =>
      have s1 : (x :: xs).Pairwise (fun a b => a.1 ≤ b.1) := by
        rw [← h1]; exact sortBy_sorted _ _
      have s2 : (x' :: xs').Pairwise (fun a b => a.1 ≤ b.1) := by
        rw [← h2]; exact sortBy_sorted _ _
      have short : ∀ {x : ℚ × String} {xs : List (ℚ × String)},
          (x :: xs).Pairwise (fun a b => a.1 ≤ b.1) →
          (x :: shortenFrom x.2 xs).Pairwise (fun a b => a.1 ≤ b.1) := by
        intro x xs hs
        obtain ⟨k1, k2⟩ := List.pairwise_cons.1 hs
        exact List.pairwise_cons.2 ⟨fun y hy => k1 y (mem_shorten hy), shorten_sorted k2⟩
      refine Py.bind_eq_ok.2 ⟨x' :: shortenFrom x'.2 xs', ?_, ?_⟩
      · change shortenSequence (sortBy (·.1) (d ++ m ++ m)) = _
        rw [h2]
        rfl
      refine Py.bind_eq_ok.2 ⟨skill, hsk, ?_⟩
      refine Py.bind_eq_ok.2 ⟨first, hf, ?_⟩
      cases first with
      | none => cases h
      | some first =>
        simp only at h ⊢
        obtain ⟨delay, hd, h⟩ := Py.bind_eq_ok.1 h
        refine Py.bind_eq_ok.2 ⟨delay, hd, ?_⟩
        split at h
        · cases h
        · rename_i l hlast
          split
          · rename_i hl2
            exact absurd (hl2.symm.trans hlast) (by simp)
          · rename_i l2 hl2
            have hll := hl2.symm.trans hlast
            cases hll
            refine autosLoop_again (short s1) (short s2) (fun t => ?_)
              (ha skill delay (autoSkill_spec hsk hd)) _ _ _ hw htr _ _ _ hok hev (by simp) (by simp)
              (by simp) h
            rw [lastTarget_shorten (List.pairwise_cons.1 s1).2,
              lastTarget_shorten (List.pairwise_cons.1 s2).2]
            exact lastTarget_again h1 h2 t

/-! ## The whole call -/

theorem nodup_built (h : Built rb) : NodupDots rb.qDot := by
  obtain ⟨stats, lib, sd, a, t, fs, dt, tg, rb0, ops, h0, h1⟩ := h
  refine Py.foldlM_inv (P := fun rb => NodupDots rb.qDot) ?_ ?_ h1
  · unfold init at h0
    obtain ⟨p, _, h0⟩ := Py.bind_eq_ok.1 h0
    cases h0
    exact ⟨by simp [Dict.keys], by simp⟩
  · intro rb op rb' _ hn h
    cases op with
    | addNext name m job n targets =>
      change rb.addNext name m job n targets = .ok rb' at h
      unfold addNext at h
      obtain ⟨_, _, h⟩ := Py.bind_eq_ok.1 h
      cases h
      exact hn
    | add t name m job targets =>
      change rb.add t name m job targets = .ok rb' at h
      unfold add at h
      obtain ⟨_, _, h⟩ := Py.bind_eq_ok.1 h
      cases h
      exact hn
    | setTrailing b => cases h; exact hn
    | setAutos b => cases h; exact hn
    | timing fuel =>
      obtain ⟨r⟩ := run_of_ok h
      have hfin := r.finished
      rw [finish_eq] at hfin
      obtain ⟨out, _, hfin⟩ := Py.bind_eq_ok.1 hfin
      rw [← Except.ok.inj hfin]
      change NodupDots (addDots rb.start.qDot r.log.dots)
      rw [(start_fields rb).2.2.2.2.2.2.2.2.2.2.2.1]
      exact nodup_addDots hn _

/-- The state of a builder that has been asked: `s` at the start of the call, and what was computed. -/
structure Answered (fuel : ℕ) (s : RotationBuilder) (log : Log) (dots autos : List NewEvent)
    (evs : Events) (ps : List Press) (rb : RotationBuilder) where
  q : Dots
  ts : List (ℚ × String)
  nodup : NodupDots q
  eq : rb = (s.withHidden (addDots q log.dots) (ts ++ log.stamps)).withTimeline evs ps
  queue : s.queueLog = .ok log
  whole : s.snapDots = none ∨ WholeApplications rb
  dotAdds : allDotAdds s.snapDots (s.apply log).lastFor (addDots q log.dots) = .ok dots
  autoAdds : if s.enableAutos then
      (((s.withHidden q ts).apply log).addAll dots).addAutos fuel (s.apply log).lastFor =
        .ok ((((s.withHidden q ts).apply log).addAll dots).addAll autos)
    else autos = []
  out : (((s.apply log).addAll dots).addAll autos).finishOut = .ok (evs, ps)

/-- What holds of the start of every call. -/
structure Startable (s : RotationBuilder) : Prop where
  events : s.events = {}
  presses : s.presses = []
  downtime : ∀ ws, s.downtime ≠ .tuple ws

theorem startable (rb : RotationBuilder) : Startable rb.start := by
  obtain ⟨_, _, _, _, _, _, _, _, _, _, _, _, h1, h2, _⟩ := start_fields rb
  refine ⟨h2, h1, ?_⟩
  intro ws
  unfold start processDowntimeWindows
  cases h : rb.downtime <;> simp [h]

theorem start_answered {s : RotationBuilder} (hs : Startable s) (q : Dots) (ts : List (ℚ × String))
    (evs : Events) (ps : List Press) :
    ((s.withHidden q ts).withTimeline evs ps).start = s.withHidden q ts := by
  obtain ⟨h1, h2, h3⟩ := hs
  unfold start processDowntimeWindows
  cases s with
  | mk a b c d e f g h i j k l m n o p =>
    simp only at h1 h2
    subst h1 h2
    cases h with
    | tuple ws => exact absurd rfl (h3 ws)
    | dict _ => rfl
    | known _ _ => rfl

theorem whole_addDots {d : Dots} {l : List (String × FollowUp × DotApp)}
    (h : ∀ target f, ∀ a ∈ appsOf (addDots d l) target f, Whole a.application) :
    ∀ target f, ∀ a ∈ appsOf (addDots (addDots d l) l) target f, Whole a.application := by
  intro target f a ha
  rw [appsOf_addDots] at ha
  rcases List.mem_append.1 ha with ha | ha
  · exact h target f a ha
  · refine h target f a ?_
    rw [appsOf_addDots]
    exact List.mem_append_right _ ha

variable {s : RotationBuilder} {log : Log} {dots autos : List NewEvent} {evs : Events}
  {ps : List Press}

theorem answered_again (hs : Startable s)
    (hsteady : s.enableAutos = true → 0 ≤ s.stats.weaponDelay ∧
      s.stats.processed.traitAutoAttackDelayReduction ≤ 1 ∧
      (∀ e ∈ ((s.apply log).addAll dots).events.q, Moderate e.skill) ∧
      ∀ skill delay, AutoSkill s skill delay → Moderate skill)
    (h : Answered fuel s log dots autos evs ps rb) :
    ∃ rb', rb.getSkillTiming fuel = .ok rb' ∧ Nonempty (Answered fuel s log dots autos evs ps rb') := by
  obtain ⟨q, ts, hn, rfl, hq, hwh, hd, ha, ho⟩ := h
  refine ⟨(s.withHidden (addDots (addDots q log.dots) log.dots)
    (ts ++ log.stamps ++ log.stamps)).withTimeline evs ps, ?_, ?_⟩
  all_goals
    have hd' : allDotAdds s.snapDots (s.apply log).lastFor
        (addDots (addDots q log.dots) log.dots) = .ok dots :=
      allDotAdds_again hn hwh hd
    have ha' : if s.enableAutos then
        (((s.withHidden (addDots q log.dots) (ts ++ log.stamps)).apply log).addAll dots).addAutos fuel
            (s.apply log).lastFor =
          .ok ((((s.withHidden (addDots q log.dots) (ts ++ log.stamps)).apply log).addAll dots).addAll
            autos)
        else autos = [] := by
      split_ifs at ha ⊢ with hen
      · obtain ⟨k1, k2, k3, k4⟩ := hsteady hen
        have hok : ((s.apply log).addAll dots).events.Ok := by
          have : ((s.apply log).addAll dots).events = (log.adds ++ dots).foldl Events.push {} := by
            unfold addAll apply
            simp only [List.foldl_append]
            rw [hs.events]
          rw [this]
          exact (Events.good_push Events.good_empty _).1
        exact addAutos_again (rb := ((s.withHidden q ts).apply log).addAll dots)
          (q := addDots (addDots q log.dots) log.dots) (d := ts) (m := log.stamps) rfl k1 k2 hok k3 k4 ha
      · exact ha
  · rw [getSkillTiming_eq, start_answered hs]
    refine Py.bind_eq_ok.2 ⟨log, hq, ?_⟩
    refine Py.bind_eq_ok.2 ⟨dots, hd', ?_⟩
    have hfin : finish ((((s.withHidden (addDots q log.dots) (ts ++ log.stamps)).apply log).addAll
        dots).addAll autos) = .ok ((s.withHidden (addDots (addDots q log.dots) log.dots)
          (ts ++ log.stamps ++ log.stamps)).withTimeline evs ps) := by
      rw [finish_eq]
      refine Py.bind_eq_ok.2 ⟨(evs, ps), ?_, rfl⟩
      rw [← ho]
      exact finishOut_congr rfl rfl rfl rfl
    have hen' : ((s.withHidden (addDots q log.dots) (ts ++ log.stamps)).withTimeline evs ps).enableAutos =
        s.enableAutos := rfl
    simp only [hen']
    split_ifs at ha' ⊢ with hen
    · exact Py.bind_eq_ok.2 ⟨_, ha', hfin⟩
    · rw [ha'] at hfin
      exact hfin
  · refine ⟨⟨addDots q log.dots, ts ++ log.stamps, nodup_addDots hn _, rfl, hq, ?_, hd', ha', ho⟩⟩
    rcases hwh with hwh | hwh
    · exact .inl hwh
    · exact .inr (whole_addDots hwh)

theorem answered_of_run (hn : NodupDots rb.qDot) (r : Run fuel rb rb')
    (hw : rb.snapDots = none ∨ WholeApplications rb') :
    Nonempty (Answered fuel rb.start r.log r.dotAdds r.autoAdds rb'.events rb'.presses rb') := by
  obtain ⟨e1, e2, e3, e4, e5, e6, e7, e8, e9, e10, e11, e12, e13, e14, e15⟩ := start_fields rb
  have hfin := r.finished
  rw [finish_eq] at hfin
  obtain ⟨⟨evs, ps⟩, ho, hfin⟩ := Py.bind_eq_ok.1 hfin
  have hrb' := (Except.ok.inj hfin).symm
  have he : rb'.events = evs := congrArg RotationBuilder.events hrb'
  have hp : rb'.presses = ps := congrArg RotationBuilder.presses hrb'
  have hself : rb.start.withHidden rb.start.qDot rb.start.timestamps = rb.start := rfl
  refine ⟨⟨rb.start.qDot, rb.start.timestamps, by rw [e12]; exact hn, ?_, r.queue,
    by rw [e3]; exact hw, by rw [e3, e12]; exact r.dots, ?_, ?_⟩⟩
  · rw [he, hp]
    exact hrb'
  · rw [hself, e4]
    have := r.autos
    split_ifs at this ⊢
    · exact this.1
    · exact this
  · rw [he, hp]
    exact ho

theorem askAgain_answered (hs : Startable s)
    (hsteady : s.enableAutos = true → 0 ≤ s.stats.weaponDelay ∧
      s.stats.processed.traitAutoAttackDelayReduction ≤ 1 ∧
      (∀ e ∈ ((s.apply log).addAll dots).events.q, Moderate e.skill) ∧
      ∀ skill delay, AutoSkill s skill delay → Moderate skill)
    (h : Answered fuel s log dots autos evs ps rb) (k : ℕ) :
    ∃ rb', askAgain fuel k rb = .ok rb' ∧ rb'.events = evs ∧ rb'.presses = ps := by
  induction k generalizing rb with
  | zero => exact ⟨rb, rfl, by rw [h.eq]; rfl, by rw [h.eq]; rfl⟩
  | succ k ih =>
    obtain ⟨rb1, h1, ⟨h2⟩⟩ := answered_again hs hsteady h
    obtain ⟨rb', h3, h4⟩ := ih h2
    exact ⟨rb', Py.bind_eq_ok.2 ⟨rb1, h1, h3⟩, h4⟩

end RotationBuilder

end Ama
