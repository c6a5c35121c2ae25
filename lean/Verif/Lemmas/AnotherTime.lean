import Verif.Lemmas.AnotherTimePresses
import Verif.Lemmas.Autos

/-!
# Lemmas on the timeline of a rotation at another time
-/

namespace Ama

open Spec

namespace RotationBuilder

open Reuse (Rel)

variable {k : ℤ}

/-! ## Dots -/

def dotsLater (δ : ℚ) (d : Dots) : Dots := Shift.vals (Shift.vals (List.map (appLater δ))) d

theorem addDotApp_later (δ : ℚ) (d : Dots) (f : FollowUp) (a : DotApp) (target : String) :
    addDotApp (dotsLater δ d) f (appLater δ a) target = dotsLater δ (addDotApp d f a target) := by
  unfold addDotApp dotsLater
  simp only
  rw [← Shift.set_vals, ← Shift.set_vals, Shift.get?_vals]
  cases Dict.get? d target with
  | none =>
    simp only [Option.map_none, Option.getD_none]
    rfl
  | some p =>
    simp only [Option.map_some, Option.getD_some, Shift.get?_vals]
    cases Dict.get? p f with
    | none => rfl
    | some l => simp

theorem addDots_later (δ : ℚ) (l : List (String × FollowUp × DotApp)) (d : Dots) :
    addDots (dotsLater δ d) (l.map (fun x => (x.1, x.2.1, appLater δ x.2.2))) =
      dotsLater δ (addDots d l) := by
  induction l generalizing d with
  | nil => rfl
  | cons x l ih =>
    unfold addDots at ih ⊢
    simp only [List.map_cons, List.foldl_cons]
    rw [addDotApp_later]
    exact ih _

def rangeLater (δ : ℚ) (r : DotRange) : DotRange :=
  { r with start := r.start + δ, stop := r.stop + δ, snapshot := r.snapshot + δ }

theorem baseDotTimings_later (δ : ℚ) (duration : ℤ) (apps : List DotApp) :
    baseDotTimings duration (apps.map (appLater δ)) =
      (baseDotTimings duration apps).map (rangeLater δ) := by
  have hm : ((apps.map (appLater δ)).map fun a : DotApp => (DotRange.mk a.application
      (a.application + duration) a.snapshot a.prioMod)) =
      (apps.map fun a : DotApp => (DotRange.mk a.application
      (a.application + duration) a.snapshot a.prioMod)).map (rangeLater δ) := by
    simp only [List.map_map]
    refine List.map_congr_left fun a _ => ?_
    simp only [Function.comp, appLater, rangeLater, add_right_comm]
  unfold baseDotTimings
  rw [hm, sortBy_map]
  congr 1
  refine sortBy_congr _ _ fun a _ b _ => ?_
  exact add_le_add_iff_right δ

theorem consolidate_later (δ : ℚ) (rs : List DotRange) :
    consolidate (rs.map (rangeLater δ)) = (consolidate rs).map (rangeLater δ) := by
  induction rs with
  | nil => rfl
  | cons r rs ih =>
    cases rs with
    | nil => rfl
    | cons r' rs =>
      simp only [List.map_cons, consolidate] at ih ⊢
      rw [ih]
      simp only [rangeLater, min_add_add_right]

theorem pyRange_later (a b : ℚ) (n : ℕ) :
    pyRange (a + k) (b + k) n = (pyRange a b n).map (List.map (· + k)) := by
  have hd : ∀ x : ℚ, (x + k).den = 1 ↔ x.den = 1 := by
    intro x
    constructor
    · intro h
      have h1 : x = (((x + k).num - k : ℤ) : ℚ) := by
        push_cast
        rw [(Rat.den_eq_one_iff _).1 h]
        ring
      rw [h1]
      exact Rat.den_intCast _
    · intro h
      rw [← (Rat.den_eq_one_iff _).1 h, ← Int.cast_add]
      exact Rat.den_intCast _
  have hn : ∀ x : ℚ, x.den = 1 → (x + k).num = x.num + k := by
    intro x h
    conv_lhs => rw [← (Rat.den_eq_one_iff _).1 h, ← Int.cast_add]
    exact Rat.num_intCast _
  unfold pyRange
  simp only [hd]
  split
  · rename_i h
    rw [hn _ h.1, hn _ h.2]
    show Except.ok _ = Except.ok _
    congr 1
    unfold intRange
    split
    · rfl
    · rw [List.map_map, add_sub_add_right_eq_sub]
      refine List.map_congr_left fun i _ => ?_
      simp only [Function.comp]
      ring
  · rfl

theorem dotEvent_later (f : FollowUp) (target : String) (r : DotRange) (n : ℕ) (t : ℤ) :
    dotEvent f target (rangeLater k r) n (t + k) = newLater k (dotEvent f target r n t) := by
  unfold dotEvent newLater rangeLater
  simp only [Int.cast_add, Option.map_some, NewEvent.mk.injEq, and_true]
  omega

/-- The times up to which ticks happen are not treated specially. -/
def LastOk (k : ℤ) (last : Option ℚ) : Prop := ∀ t, last = some t → t ≠ 0 ∧ t + k ≠ 0

theorem tickSkipped_later {last : Option ℚ} (h : LastOk k last) (t : ℤ) :
    tickSkipped (last.map (· + (k : ℚ))) (t + k) = tickSkipped last t := by
  cases last with
  | none => rfl
  | some l =>
    obtain ⟨h1, h2⟩ := h l rfl
    simp only [tickSkipped, Option.map_some, gt_iff_lt, Int.cast_add, add_lt_add_iff_right, ne_eq, h1, h2]

/-- The first server tick, if given, is at a whole millisecond. -/
def SnapOk (snap : Option ℚ) : Prop := ∀ s, snap = some s → ∃ n : ℤ, 1000 * s = n

theorem dotStart_later {snap : Option ℚ} (h : SnapOk snap) (t : ℚ) :
    dotStart (snap.map (· + (k : ℚ) / 1000)) (t + k) = dotStart snap t + k := by
  cases snap with
  | none => rfl
  | some s =>
    obtain ⟨n, hn⟩ := h s rfl
    have h1 : t + k - 1000 * (s + (k : ℚ) / 1000) = t - 1000 * s := by ring
    simp only [dotStart, Option.map_some, h1]
    split
    · rfl
    · have h2 : ∃ m : ℤ, t - pyMod (t - 1000 * s) GameConsts.DOT_TICK_INTERVAL +
          GameConsts.DOT_TICK_INTERVAL = m := by
        unfold pyMod
        refine ⟨n + GameConsts.DOT_TICK_INTERVAL * ⌊(t - 1000 * s) / (GameConsts.DOT_TICK_INTERVAL : ℚ)⌋ +
          GameConsts.DOT_TICK_INTERVAL, ?_⟩
        push_cast
        rw [← hn]
        ring
      obtain ⟨m, hm⟩ := h2
      have h3 : t + k - pyMod (t - 1000 * s) GameConsts.DOT_TICK_INTERVAL +
          GameConsts.DOT_TICK_INTERVAL = ((m + k : ℤ) : ℚ) := by
        push_cast
        rw [← hm]
        ring
      rw [h3, hm, pyInt_intCast, pyInt_intCast, Int.cast_add]

theorem rangeAdds_later {last : Option ℚ} {snap : Option ℚ} (hsn : SnapOk snap) (hl : LastOk k last) (f : FollowUp) (target : String) (n : ℕ)
    (rs : List DotRange) :
    Rel (Shift.Img (List.map (newLater k))) (rangeAdds snap f target last n rs)
      (rangeAdds (snap.map (· + (k : ℚ) / 1000)) f target (last.map (· + (k : ℚ))) n (rs.map (rangeLater k))) := by
  induction rs generalizing n with
  | nil => rfl
  | cons r rs ih =>
    unfold rangeAdds
    simp only [List.map_cons]
    have h1 : pyRange (dotStart (snap.map (· + (k : ℚ) / 1000)) (rangeLater k r).start) (rangeLater k r).stop
        GameConsts.DOT_TICK_INTERVAL =
        (pyRange (dotStart snap r.start) r.stop GameConsts.DOT_TICK_INTERVAL).map (List.map (· + k)) := by
      rw [← pyRange_later, ← dotStart_later hsn]
      rfl
    rw [h1]
    cases pyRange (dotStart snap r.start) r.stop GameConsts.DOT_TICK_INTERVAL with
    | error e => rfl
    | ok ticks =>
      simp only [Except.map, Py.ok_bind]
      have hf : (ticks.map (· + k)).filter (fun t => !tickSkipped (last.map (· + (k : ℚ))) t) =
          (ticks.filter (fun t => !tickSkipped last t)).map (· + k) := by
        rw [List.filter_map]
        congr 1
        refine List.filter_congr fun t _ => ?_
        simp only [Function.comp, tickSkipped_later hl]
      rw [hf, List.length_map]
      refine (ih _).bind ?_
      rintro rest _ rfl
      show _ = List.map _ _
      rw [List.map_append, List.map_map]
      congr 1
      rw [List.zipIdx_map, List.map_map]
      refine List.map_congr_left fun x _ => ?_
      exact dotEvent_later f target r x.2 x.1

theorem flatM_later {A B : Type} {m : A → A} {w : B → B} {g : A → Py (List B)} {g' : A → Py (List B)}
    (h : ∀ a, Rel (Shift.Img (List.map w)) (g a) (g' (m a))) (as : List A) :
    Rel (Shift.Img (List.map w)) (flatM g as) (flatM g' (as.map m)) := by
  induction as with
  | nil => rfl
  | cons a as ih =>
    unfold flatM
    refine (h a).bind ?_
    rintro x _ rfl
    refine ih.bind ?_
    rintro y _ rfl
    exact (List.map_append ..).symm

theorem allDotAdds_later {last : Option ℚ} {snap : Option ℚ} (hsn : SnapOk snap) (hl : LastOk k last)
    (d : Dots) :
    Rel (Shift.Img (List.map (newLater k))) (allDotAdds snap last d)
      (allDotAdds (snap.map (· + (k : ℚ) / 1000)) (last.map (· + (k : ℚ))) (dotsLater k d)) := by
  unfold allDotAdds dotsLater Shift.vals
  refine flatM_later (fun td => ?_) d
  refine flatM_later (fun fa => ?_) td.2
  unfold dotAdds
  simp only
  cases fa.1.dotDuration with
  | none => rfl
  | some duration =>
    simp only
    rw [baseDotTimings_later, consolidate_later]
    exact rangeAdds_later hsn hl _ _ _ _

/-! ## Normalisation and downtime -/

theorem changed_square {α : Type} {R S S' T : α → α → Prop} {l l' m m' : List α}
    (h : Changed R l l') (hs : Changed S l m) (hs' : Changed S' l' m')
    (ht : ∀ e e' x x', R e e' → S e x → S' e' x' → T x x') : Changed T m m' := by
  obtain ⟨n, h1, h2⟩ := h
  obtain ⟨n', h3, h4⟩ := changed_perm h2.symm (.refl _) hs'
  obtain ⟨p, h5, h6⟩ := hs
  refine changed_perm h6 h4 ⟨n', ?_, .refl _⟩
  clear h2 hs' h4 h6
  induction h1 generalizing n' p with
  | nil => cases h3; cases h5; exact .nil
  | cons h _ ih =>
    cases h3 with
    | cons h3 h3' =>
      cases h5 with
      | cons h5 h5' => exact .cons (ht _ _ _ _ h h5 h3) (ih _ h3' _ h5')

theorem changed_filter {α : Type} {R : α → α → Prop} {l l' : List α} {p p' : α → Bool}
    (h : Changed R l l') (hp : ∀ e e', R e e' → p' e' = p e) :
    Changed R (l.filter p) (l'.filter p') := by
  obtain ⟨n, h1, h2⟩ := h
  refine ⟨n.filter p', ?_, h2.filter _⟩
  clear h2
  induction h1 with
  | nil => exact .nil
  | cons h _ ih =>
    rw [List.filter_cons, List.filter_cons, hp _ _ h]
    split
    · exact .cons h ih
    · exact ih

theorem changed_imp {α : Type} {R S : α → α → Prop} {l l' : List α} (h : Changed R l l')
    (hi : ∀ e e', R e e' → S e e') : Changed S l l' := by
  obtain ⟨n, h1, h2⟩ := h
  exact ⟨n, h1.imp fun _ _ => hi _ _, h2⟩

def windowLater (d : ℤ) (w : Window) : Window := { w with start := w.start + d, stop := w.stop + d }

def downtimeLater (d : ℤ) : Downtime → Downtime
  | .tuple ws => .tuple (ws.map (windowLater d))
  | .dict x => .dict (Shift.vals (List.map (windowLater d)) x)
  | .known ts ws => .known ts (ws.map (windowLater d))

theorem initWindows_later (d : ℤ) (ws : List RawWindow) :
    initWindows (ws.map (laterWindow d)) = (initWindows ws).map (windowLater d) := by
  unfold initWindows
  rw [List.map_map, List.map_map]
  refine List.map_congr_left fun w _ => ?_
  simp only [Function.comp, laterWindow, windowLater, Window.mk.injEq, and_true]
  constructor <;> ring

theorem initDowntime_later (d : ℤ) (x : RawDowntime) :
    initDowntime (laterDowntime d x) = downtimeLater d (initDowntime x) := by
  cases x with
  | tuple ws => exact congrArg Downtime.tuple (initWindows_later d ws)
  | dict x =>
    refine congrArg Downtime.dict ?_
    unfold Shift.vals
    rw [List.map_map, List.map_map]
    refine List.map_congr_left fun kv _ => ?_
    exact congrArg (Prod.mk kv.1) (initWindows_later d kv.2)

theorem downtimeOf_later {d : ℤ} {a b : RotationBuilder} (h : b.downtime = downtimeLater d a.downtime)
    (target : String) : downtimeOf b target = (downtimeOf a target).map (windowLater d) := by
  unfold downtimeOf
  rw [h]
  cases a.downtime with
  | tuple ws => rfl
  | dict x =>
    simp only [downtimeLater, Shift.get?_vals]
    cases Dict.get? x target <;> rfl
  | known ts ws =>
    simp only [downtimeLater]
    split <;> rfl

theorem covered_later (d : ℤ) (ws : List Window) (t : ℚ) (c : DamageClass) :
    Covered (ws.map (windowLater d)) (t + d) c ↔ Covered ws t c := by
  unfold Covered
  constructor
  · rintro ⟨w, hw, h1, h2, h3⟩
    obtain ⟨v, hv, rfl⟩ := List.mem_map.1 hw
    exact ⟨v, hv, le_of_add_le_add_right h1, lt_of_add_lt_add_right h2, h3⟩
  · rintro ⟨w, hw, h1, h2, h3⟩
    exact ⟨windowLater d w, List.mem_map.2 ⟨w, hw, rfl⟩, add_le_add_left h1 _, add_lt_add_left h2 _, h3⟩

theorem moved_later_applied {d : ℤ} {e e' : Event} (h : MovedLater d e e') :
    appliedAt e' = appliedAt e + d := by
  unfold appliedAt
  rw [h.secondary, h.primary]
  cases e.secondary <;> rfl

theorem moved_later_damaging {d : ℤ} {e e' : Event} (h : MovedLater d e e') :
    Damaging e' ↔ Damaging e := by
  unfold Damaging
  rw [h.skill, h.modifier]

theorem spared_later {d : ℤ} {a b : RotationBuilder} (h : b.downtime = downtimeLater d a.downtime)
    {e e' : Event} (he : MovedLater d e e') : spared b e' = spared a e := by
  unfold spared
  rw [he.targets]
  refine List.filter_congr fun target _ => ?_
  simp only [decide_eq_decide]
  unfold Unaffected
  rw [he.skill, he.modifier, moved_later_applied he, he.primary, downtimeOf_later h]
  simp only [covered_later]

/-- Being moved, with the priority if wanted. -/
def Moved (P : Prop) (d : ℤ) (e e' : Event) : Prop := MovedLater d e e' ∧ (P → RankedLater d e e')

theorem remove_later {P : Prop} {d : ℤ} {a b a' b' : RotationBuilder}
    (hd : b.downtime = downtimeLater d a.downtime) (h : Changed (Moved P d) a.events.q b.events.q)
    (ga : a.events.Good) (gb : b.events.Good) (ha : a.removeDamageDuringDowntime = .ok a')
    (hb : b.removeDamageDuringDowntime = .ok b') :
    Changed (Moved P d) a'.events.q b'.events.q := by
  obtain ⟨h1, -, -⟩ := remove_spec ga ha
  obtain ⟨h2, -, -⟩ := remove_spec gb hb
  refine changed_square (changed_filter h ?_) h1 h2 ?_
  · intro e e' he
    rw [spared_later hd he.1]
  · rintro e e' x x' ⟨he, hr⟩ hx hx'
    rw [spared_later hd he] at hx'
    refine ⟨⟨by rw [hx'.primary, hx.primary, he.primary], by rw [hx'.secondary, hx.secondary, he.secondary],
      by rw [hx'.skill, hx.skill, he.skill], by rw [hx'.modifier, hx.modifier, he.modifier],
      by rw [hx'.buffs, hx.buffs, he.buffs], by rw [hx'.debuffs, hx.debuffs, he.debuffs],
      by rw [hx'.targets, hx.targets]⟩, fun hp => ?_⟩
    have := hr hp
    unfold RankedLater at this ⊢
    rw [hx'.primary, hx.primary, hx'.priority, hx.priority]
    exact this

theorem damageTimes_later {P : Prop} {a b : Events} (h : Changed (Moved P k) a.q b.q) {t : ℚ}
    (ht : IsLeast (damageTimes a) t) : IsLeast (damageTimes b) (t + k) := by
  constructor
  · obtain ⟨e, he, hd, rfl⟩ := ht.1
    obtain ⟨e', he', hm⟩ := changed_mem_left h he
    exact ⟨e', he', (moved_later_damaging hm.1).2 hd, moved_later_applied hm.1⟩
  · rintro x ⟨e', he', hd, rfl⟩
    obtain ⟨e, he, hm⟩ := changed_mem_right h he'
    rw [moved_later_applied hm.1]
    have := ht.2 ⟨e, he, (moved_later_damaging hm.1).1 hd, rfl⟩
    linarith

theorem shift_later {P : Prop} {a b a' b' : RotationBuilder}
    (h : Changed (Moved P k) a.events.q b.events.q) (ga : a.events.Good) (gb : b.events.Good)
    (he : ∃ e ∈ a.events.q, Damaging e) (ha : a.shiftTimelines = .ok a')
    (hb : b.shiftTimelines = .ok b') (hp : b.presses = a.presses.map (laterPress k)) :
    Changed (Moved False 0) a'.events.q b'.events.q ∧ b'.presses = a'.presses ∧
      a'.downtime = a.downtime ∧ b'.downtime = b.downtime ∧ a'.events.Good ∧ b'.events.Good := by
  obtain ⟨e, he, hd⟩ := he
  obtain ⟨e', he', hm⟩ := changed_mem_left h he
  rcases shift_spec ga ha with ⟨h1, _⟩ | ⟨t, h1, h2, h3, h4, h5⟩
  · exact absurd hd (h1 e he)
  rcases shift_spec gb hb with ⟨h1', _⟩ | ⟨t', h1', h2', h3', h4', h5'⟩
  · exact absurd ((moved_later_damaging hm.1).2 hd) (h1' e' he')
  obtain rfl : t' = t + k := h1'.unique (damageTimes_later h h1)
  refine ⟨changed_square h h2 h2' ?_, ?_, by rw [h4], by rw [h4'], h5, h5'⟩
  · rintro e e' x x' ⟨he, _⟩ hx hx'
    refine ⟨⟨?_, ?_, by rw [hx'.skill, hx.skill, he.skill], by rw [hx'.modifier, hx.modifier, he.modifier],
      by rw [hx'.buffs, hx.buffs, he.buffs], by rw [hx'.debuffs, hx.debuffs, he.debuffs],
      by rw [hx'.targets, hx.targets, he.targets]⟩, False.elim⟩
    · rw [hx'.primary, hx.primary, he.primary, Int.cast_zero]
      ring
    · rw [hx'.secondary, hx.secondary, he.secondary]
      cases e.secondary with
      | none => rfl
      | some s =>
        simp only [Option.map_some, Int.cast_zero]
        congr 1
        ring
  · rw [h3, h3', hp, List.map_map]
    refine List.map_congr_left fun p _ => ?_
    simp only [Function.comp, earlier, laterPress]
    congr 1
    ring

theorem sortPresses_later (d : ℤ) (l : List Press) :
    sortBy (fun p : Press => p.t) (l.map (laterPress d)) =
      (sortBy (fun p : Press => p.t) l).map (laterPress d) := by
  rw [sortBy_map]
  congr 1
  refine sortBy_congr _ _ fun p _ q _ => ?_
  exact add_le_add_iff_right (d : ℚ)

/-- The timeline of a rotation whose presses happen later. -/
theorem finish_later {d : ℤ} {a b a' b' : RotationBuilder}
    (h : Changed (Moved True k) a.events.q b.events.q) (ga : a.events.Good) (gb : b.events.Good)
    (hp : b.presses = a.presses.map (laterPress k))
    (hs : (a.fightStart = none ∧ b.fightStart = none ∧ d = 0 ∧ ∃ e ∈ a.events.q, Damaging e) ∨
      (a.fightStart ≠ none ∧ b.fightStart ≠ none ∧ d = k))
    (hd : b.downtime = downtimeLater d a.downtime) (ha : finish a = .ok a') (hb : finish b = .ok b') :
    Changed (Moved (a.fightStart ≠ none) d) a'.events.q b'.events.q ∧
      b'.presses = a'.presses.map (laterPress d) := by
  unfold finish at ha hb
  obtain ⟨a1, ha1, ha⟩ := Py.bind_eq_ok.1 ha
  obtain ⟨b1, hb1, hb⟩ := Py.bind_eq_ok.1 hb
  obtain ⟨a2, ha2, ha⟩ := Py.bind_eq_ok.1 ha
  obtain ⟨b2, hb2, hb⟩ := Py.bind_eq_ok.1 hb
  cases ha
  cases hb
  have key : Changed (Moved (a.fightStart ≠ none) d) a1.events.q b1.events.q ∧
      b1.presses = a1.presses.map (laterPress d) ∧ a1.downtime = a.downtime ∧
      b1.downtime = b.downtime ∧ a1.events.Good ∧ b1.events.Good := by
    unfold shiftIfNeeded at ha1 hb1
    rcases hs with ⟨s1, s2, rfl, s3⟩ | ⟨s1, s2, rfl⟩
    · rw [s1] at ha1
      rw [s2] at hb1
      obtain ⟨g1, g2, g3, g4, g5, g6⟩ := shift_later h ga gb s3 ha1 hb1 hp
      refine ⟨changed_imp g1 fun e e' he => ⟨he.1, fun hn => absurd s1 hn⟩, ?_, g3, g4, g5, g6⟩
      rw [g2]
      conv_lhs => rw [← List.map_id a1.presses]
      refine List.map_congr_left fun p _ => ?_
      simp [laterPress]
    · rw [if_neg (by simpa using s1)] at ha1
      rw [if_neg (by simpa using s2)] at hb1
      cases ha1
      cases hb1
      exact ⟨changed_imp h fun e e' he => ⟨he.1, fun _ => he.2 trivial⟩, hp, rfl, rfl, ga, gb⟩
  obtain ⟨g1, g2, g3, g4, g5, g6⟩ := key
  have g7 := remove_later (by rw [g3, g4]; exact hd) g1 g5 g6 ha2 hb2
  refine ⟨g7, ?_⟩
  have e1 : a2.presses = a1.presses := by rw [(remove_spec g5 ha2).2.1]
  have e2 : b2.presses = b1.presses := by rw [(remove_spec g6 hb2).2.1]
  show sortBy _ b2.presses = List.map _ (sortBy _ a2.presses)
  rw [e1, e2, g2, sortPresses_later]

/-! ## Whole builders -/

theorem start_downtimes {d : ℤ} {a b : RotationBuilder} (h : b.downtime = downtimeLater d a.downtime)
    (ht : b.allTargets = a.allTargets) : b.start.downtime = downtimeLater d a.start.downtime := by
  unfold RotationBuilder.start processDowntimeWindows
  rw [h]
  cases a.downtime with
  | tuple ws => simp only [downtimeLater, ht]
  | dict x => simp only [downtimeLater, h]
  | known ts ws => simp only [downtimeLater, h]

/-- What a call leaves the same in two builders. -/
structure RestSame (k d : ℤ) (a b : RotationBuilder) : Prop where
  dots : a.qDot = [] ∧ b.qDot = []
  snap : SnapOk a.snapDots ∧ b.snapDots = a.snapDots.map (· + (k : ℚ) / 1000)
  autos : b.enableAutos = a.enableAutos
  trailing : b.ignoreTrailingDots = a.ignoreTrailingDots
  targets : b.allTargets = a.allTargets
  downtime : b.downtime = downtimeLater d a.downtime
  stamps : a.timestamps = [] ∧ b.timestamps = []

theorem op_rest {d : ℤ} {op : BuilderOp} {a b a' b' : RotationBuilder} (h : RestSame k d a b)
    (ht : b.defaultTarget = a.defaultTarget) (hn : op.isTiming = false)
    (ha : op.run a = .ok a') (hb : (op.later k).run b = .ok b') : RestSame k d a' b' := by
  obtain ⟨e1, e2, e3, e4, e5, e6, e7⟩ := h
  cases op with
  | addNext name m job n targets =>
    obtain ⟨s1, h1, rfl⟩ := addNext_ok ha
    obtain ⟨s2, h2, rfl⟩ := addNext_ok hb
    exact ⟨e1, e2, e3, e4, by simp only [e5, ht], e6, e7⟩
  | add t name m job targets =>
    obtain ⟨s1, h1, rfl⟩ := add_ok ha
    obtain ⟨s2, h2, rfl⟩ := add_ok hb
    exact ⟨e1, e2, e3, e4, by simp only [e5, ht], e6, e7⟩
  | setTrailing x =>
    cases ha
    cases hb
    exact ⟨e1, e2, e3, rfl, e5, e6, e7⟩
  | setAutos x =>
    cases ha
    cases hb
    exact ⟨e1, e2, rfl, e4, e5, e6, e7⟩
  | timing fuel => cases hn

theorem ops_rest {d : ℤ} {ops : List BuilderOp} {a b a' b' : RotationBuilder} (h : RestSame k d a b)
    (hq : QueuesLater k a b) (hm : ∀ op ∈ ops, op.Milli) (hn : ∀ op ∈ ops, op.isTiming = false)
    (ha : ops.foldlM BuilderOp.run a = .ok a')
    (hb : (ops.map (BuilderOp.later k)).foldlM BuilderOp.run b = .ok b') : RestSame k d a' b' := by
  induction ops generalizing a b with
  | nil =>
    cases ha
    cases hb
    exact h
  | cons op ops ih =>
    rw [List.map_cons, Py.foldlM_cons] at hb
    rw [Py.foldlM_cons] at ha
    obtain ⟨a1, h1, ha⟩ := Py.bind_eq_ok.1 ha
    obtain ⟨b1, h2, hb⟩ := Py.bind_eq_ok.1 hb
    exact ih (op_rest h hq.target (hn op (by simp)) h1 h2)
      (op_later hq (hm op (by simp)) h1 h2).1 (fun op hop => hm op (by simp [hop]))
      (fun op hop => hn op (by simp [hop])) ha hb

/-- A builder and the builder of the same rotation at another time, before any timeline was computed. -/
theorem rest_later {d : ℤ} {stats : Stats} {lib : SkillLibrary} {snap : Option ℚ} {autos trailing : Bool}
    {start start' : Option ℚ} {downtime : RawDowntime} {target : String}
    {rb₀ rb₀' rb rb' : RotationBuilder} {ops : List BuilderOp}
    (hsn : SnapOk snap)
    (h₀ : RotationBuilder.init stats lib snap autos trailing start downtime target = .ok rb₀)
    (h₀' : RotationBuilder.init stats lib (snap.map (· + (k : ℚ) / 1000)) autos trailing start'
      (laterDowntime d downtime) target = .ok rb₀')
    (hm : ∀ op ∈ ops, op.Milli) (hn : ∀ op ∈ ops, op.isTiming = false)
    (h : ops.foldlM BuilderOp.run rb₀ = .ok rb)
    (h' : (ops.map (BuilderOp.later k)).foldlM BuilderOp.run rb₀' = .ok rb') : RestSame k d rb rb' := by
  unfold RotationBuilder.init at h₀ h₀'
  obtain ⟨p, hp, h₀⟩ := Py.bind_eq_ok.1 h₀
  obtain ⟨p', hp', h₀'⟩ := Py.bind_eq_ok.1 h₀'
  rw [hp] at hp'
  cases hp'
  cases h₀
  cases h₀'
  refine ops_rest (k := k) ?_ ?_ hm hn h h'
  · exact ⟨⟨rfl, rfl⟩, ⟨hsn, rfl⟩, rfl, rfl, rfl, initDowntime_later d downtime, rfl, rfl⟩
  · constructor <;> rfl

theorem start_later {a b : RotationBuilder} (h : BuilderLater k a b) : BuilderLater k a.start b.start := by
  obtain ⟨e1, e2, e3, e4, e5, e6, e7, e8, e9, e10, e11, _⟩ := start_fields a
  obtain ⟨f1, f2, f3, f4, f5, f6, f7, f8, f9, f10, f11, _⟩ := start_fields b
  obtain ⟨h1, h2, h3, h4, h5, h6, h7⟩ := h
  exact ⟨by rw [e1, f1, h1], by rw [e2, f2, h2], by rw [e7, f7, h3], by rw [e8, f8, h4],
    by rw [e11, e6, f6]; exact h5, by rw [e11, f11, h6], by rw [e10, f10, h7]⟩

theorem logs_later {a b : RotationBuilder} (h : BuilderLater k a b)
    (hl : Lasting a.lib a.stats.jobClass) :
    Rel (Shift.Img (logLater k)) a.start.queueLog b.start.queueLog := by
  refine queueLog_later (start_later h) ?_
  rw [(start_fields a).1, (start_fields a).2.1]
  exact hl

theorem lastEvent_later {P : Prop} {a b : Events} (h : Changed (Moved P k) a.q b.q) :
    b.getLastEventTime = a.getLastEventTime.map (· + (k : ℚ)) := by
  obtain ⟨n, h1, h2⟩ := h
  have hlen : b.q.length = a.q.length := h2.length_eq.symm.trans h1.length_eq.symm
  rcases lastEvent_spec a with ⟨ha, ha'⟩ | ⟨l, ha, hl⟩ <;>
    rcases lastEvent_spec b with ⟨hb, hb'⟩ | ⟨l', hb, hl'⟩
  · rw [ha, hb]
    rfl
  · obtain ⟨e, he, _⟩ := hl'.1
    rw [ha', List.length_nil] at hlen
    rw [List.length_eq_zero_iff.1 hlen] at he
    simp at he
  · obtain ⟨e, he, _⟩ := hl.1
    rw [hb', List.length_nil] at hlen
    rw [List.length_eq_zero_iff.1 hlen.symm] at he
    simp at he
  · rw [ha, hb, Option.map_some]
    congr 1
    refine hl'.unique ⟨?_, ?_⟩
    · obtain ⟨e, he, rfl⟩ := hl.1
      obtain ⟨e', he', hm⟩ := changed_mem_left ⟨n, h1, h2⟩ he
      exact ⟨e', he', moved_later_applied hm.1⟩
    · rintro x ⟨e', he', rfl⟩
      obtain ⟨e, he, hm⟩ := changed_mem_right ⟨n, h1, h2⟩ he'
      rw [moved_later_applied hm.1]
      have := hl.2 ⟨e, he, rfl⟩
      linarith

/-- The whole timeline, without auto-attacks. -/
theorem timing_later {d : ℤ} {a b a' b' : RotationBuilder} {fuel fuel' : ℕ} (h : BuilderLater k a b)
    (hr : RestSame k d a b) (hl : Lasting a.lib a.stats.jobClass) (hautos : a.enableAutos = false)
    (htrail : a.ignoreTrailingDots = true → ∀ r, afterPresses a = .ok r →
      LastOk k r.events.getLastEventTime) (ha : a.getSkillTiming fuel = .ok a')
    (hb : b.getSkillTiming fuel' = .ok b')
    (hs : (a.fightStart = none ∧ b.fightStart = none ∧ d = 0 ∧ ∃ e ∈ a'.events.q, Damaging e) ∨
      (a.fightStart ≠ none ∧ b.fightStart ≠ none ∧ d = k)) :
    Changed (Moved (a.fightStart ≠ none) d) a'.events.q b'.events.q ∧
      b'.presses = a'.presses.map (laterPress d) := by
  obtain ⟨ra⟩ := run_of_ok ha
  obtain ⟨rB⟩ := run_of_ok hb
  have hlog := logs_later h hl
  rw [ra.queue, rB.queue] at hlog
  have hlog : rB.log = logLater k ra.log := hlog
  have na : ra.autoAdds = [] := by
    have := ra.autos
    rw [hautos] at this
    exact this
  have nb : rB.autoAdds = [] := by
    have := rB.autos
    rw [hr.autos, hautos] at this
    exact this
  have hq : Changed (Moved True k) (a.start.apply ra.log).events.q (b.start.apply rB.log).events.q := by
    show Changed _ (ra.log.adds.foldl Events.push a.start.events).q
      (rB.log.adds.foldl Events.push b.start.events).q
    rw [(start_fields a).2.2.2.2.2.2.2.2.2.2.2.2.2.1, (start_fields b).2.2.2.2.2.2.2.2.2.2.2.2.2.1, hlog]
    exact changed_imp (pushes_later k _) fun e e' he => ⟨he.1, fun _ => he.2⟩
  have la : LastOk k (a.start.apply ra.log).lastFor := by
    unfold lastFor
    rw [show (a.start.apply ra.log).ignoreTrailingDots = a.ignoreTrailingDots from
      (start_fields a).2.2.2.2.1]
    split
    · rename_i ht
      exact htrail ht _ (by rw [afterPresses_eq, ra.queue]; rfl)
    · intro t ht
      cases ht
  have lb : (b.start.apply rB.log).lastFor = (a.start.apply ra.log).lastFor.map (· + (k : ℚ)) := by
    unfold lastFor
    rw [show (a.start.apply ra.log).ignoreTrailingDots = a.ignoreTrailingDots from
      (start_fields a).2.2.2.2.1, show (b.start.apply rB.log).ignoreTrailingDots = a.ignoreTrailingDots from
      (start_fields b).2.2.2.2.1.trans hr.trailing]
    split
    · exact lastEvent_later hq
    · rfl
  have hdots : rB.dotAdds = ra.dotAdds.map (newLater k) := by
    have h1 := ra.dots
    have h2 := rB.dots
    rw [hr.dots.1] at h1
    rw [lb, hr.snap.2, hr.dots.2] at h2
    rw [hlog] at h2
    have h3 := allDotAdds_later hr.snap.1 la (addDots [] ra.log.dots)
    have h4 : addDots [] (logLater k ra.log).dots = dotsLater k (addDots [] ra.log.dots) :=
      addDots_later k ra.log.dots []
    rw [← h4, h1, h2] at h3
    exact h3
  have ca : ra.collected.events = (ra.log.adds ++ ra.dotAdds).foldl Events.push {} := by
    rw [ra.collected_events]
    unfold Run.adds
    rw [na, List.append_nil]
  have cb : rB.collected.events = ((ra.log.adds ++ ra.dotAdds).map (newLater k)).foldl Events.push {} := by
    rw [rB.collected_events]
    unfold Run.adds
    rw [nb, List.append_nil, hdots, hlog, List.map_append]
    rfl
  have hc : Changed (Moved True k) ra.collected.events.q rB.collected.events.q := by
    rw [ca, cb]
    exact changed_imp (pushes_later k _) fun e e' he => ⟨he.1, fun _ => he.2⟩
  have fa : ra.collected.fightStart = a.fightStart := (start_fields a).2.2.2.2.2.1
  have fb : rB.collected.fightStart = b.fightStart := (start_fields b).2.2.2.2.2.1
  have hp : rB.collected.presses = ra.collected.presses.map (laterPress k) := by
    show b.start.presses ++ rB.log.presses = (a.start.presses ++ ra.log.presses).map _
    rw [(start_fields a).2.2.2.2.2.2.2.2.2.2.2.2.1, (start_fields b).2.2.2.2.2.2.2.2.2.2.2.2.1, hlog]
    rfl
  have key := finish_later (d := d) hc ra.good rB.good hp ?_ (start_downtimes hr.downtime hr.targets)
    ra.finished rB.finished
  · rw [fa] at key
    exact key
  · rw [fa, fb]
    rcases hs with ⟨s1, s2, s3, e', he', hd⟩ | hs
    · obtain ⟨δ, _, _, g, _⟩ := ra.spec
      obtain ⟨e, he, hder⟩ := g e' he'
      refine .inl ⟨s1, s2, s3, e, he, ?_⟩
      obtain ⟨s, hs⟩ := hd
      exact ⟨s, by rw [← hder.skill, ← hder.modifier]; exact hs⟩
    · exact .inr hs

end RotationBuilder

end Ama
