import Verif.Lemmas.DamageSteps
import Verif.Lemmas.BuilderTicks

/-!
# Lemmas about executions of the damage builder
-/

namespace Ama

open Spec DamageBuilder

theorem timeline_ok {events : Events} (h : Timeline events) : events.Ok := by
  rcases h with ⟨rb, rb', fuel, h, rfl⟩ | ⟨ops, out, h⟩
  · obtain ⟨r⟩ := RotationBuilder.run_of_ok h
    have hfin := r.finished
    unfold RotationBuilder.finish at hfin
    obtain ⟨rb2, h1, hfin⟩ := Py.bind_eq_ok.1 hfin
    obtain ⟨rb3, h2, hfin⟩ := Py.bind_eq_ok.1 hfin
    cases hfin
    have hg2 : rb2.events.Good := by
      unfold RotationBuilder.shiftIfNeeded at h1
      split_ifs at h1
      · rcases RotationBuilder.shift_spec r.good h1 with ⟨_, rfl⟩ | ⟨_, _, _, _, _, h5⟩
        · exact r.good
        · exact h5
      · cases h1
        exact r.good
    exact (RotationBuilder.remove_spec hg2 h2).2.2.1
  · exact (good_of_runQueue h).1

/-- The tracker an iteration starts with. -/
abbrev startSe (s : DamageState) (e : Event) : StatusEffectTracker := s.db.se.expire e.primary

theorem map_fst_zipIdx {α : Type} (l : List α) : l.zipIdx.map Prod.fst = l := by
  simp

theorem applyEvent_spec {s s' : DamageState} {e : Event}
    (h : applyEvent s e = .ok s') :
    s'.events = s.events ∧ ∃ buffs xs,
      (match e.snapshotBuffs with
        | .done b => buffs = b
        | .flag _ => ∃ c se, s.db.se.compileBuffs e.primary e.skill.toSkillCore =
            .ok ((buffs, c), se)) ∧
      List.Forall₂ (Applied e buffs s.db.se e.targets.Nodup) e.targets.zipIdx xs ∧
      s'.q.Perm (s.q ++ xs.filter deals) := by
  unfold applyEvent at h
  simp only at h
  obtain ⟨⟨m1, db1⟩, h1, h⟩ := Py.bind_eq_ok.1 h
  obtain ⟨db2, h2, h⟩ := Py.bind_eq_ok.1 h
  obtain ⟨⟨m3, db3⟩, h3, h⟩ := Py.bind_eq_ok.1 h
  obtain ⟨⟨b, m4, db4⟩, h4, h⟩ := Py.bind_eq_ok.1 h
  obtain ⟨⟨s5, m5⟩, h5, h⟩ := Py.bind_eq_ok.1 h
  obtain ⟨se, h6, h⟩ := Py.bind_eq_ok.1 h
  cases h
  obtain ⟨w1, e1⟩ := gaugesIf_spec (Widens.refl _) h1
  have e2 := changeIf_spec h2
  obtain ⟨w3, e3⟩ := comboIf_spec w1 h3
  obtain ⟨w4, e4, t4⟩ := finalBuffs_spec w3 h4
  have eq3 : db3.se = s.db.se := e3.trans (e2.trans e1)
  rw [eq3] at e4 t4
  obtain ⟨a1, xs, a2, a3⟩ := applyTargets_spec (se0 := s.db.se) (N := e.targets.Nodup) w4
    (by rw [map_fst_zipIdx]; exact id) (fun _ target _ => e4 target) h5
  exact ⟨a1, b, xs, t4, a2, a3⟩

theorem snapshotEvent_spec {s s' : DamageState} {e : Event} {secondary : ℚ} (ho : s.events.Ok)
    (h : snapshotEvent s e secondary = .ok s') :
    s'.events.Ok ∧ s'.q = s.q ∧ ∃ buffs es,
      (match e.snapshotBuffs with
        | .done b => buffs = .done b
        | .flag true => ∃ b, buffs = .done b ∧
          ∃ c se, s.db.se.compileBuffs e.primary e.skill.toSkillCore = .ok ((b, c), se)
        | .flag false => buffs = .flag false) ∧
      List.Forall₂ (Snapped e secondary
        (Utils.transformTimeToPrio secondary + (Utils.transformTimeToPrio e.primary - e.priority))
        buffs s.db.se e.targets.Nodup) e.targets.zipIdx es ∧
      s'.events.q.Perm (s.events.q ++ es) := by
  unfold snapshotEvent at h
  simp only at h
  obtain ⟨⟨b, m1, db1⟩, h1, h⟩ := Py.bind_eq_ok.1 h
  obtain ⟨⟨m2, db2⟩, h2, h⟩ := Py.bind_eq_ok.1 h
  obtain ⟨⟨m3, db3⟩, h3, h⟩ := Py.bind_eq_ok.1 h
  obtain ⟨db4, h4, h⟩ := Py.bind_eq_ok.1 h
  obtain ⟨⟨s5, m5⟩, h5, h⟩ := Py.bind_eq_ok.1 h
  cases h
  obtain ⟨w1, e1, t1⟩ := snapBuffs_spec (Widens.refl _) h1
  obtain ⟨w2, e2⟩ := gaugesIf_spec w1 h2
  obtain ⟨w3, e3⟩ := comboIf_spec w2 h3
  have e4 := changeIf_spec h4
  have eq4 : db4.se = db1.se := e4.trans (e3.trans e2)
  rw [← eq4] at e1
  obtain ⟨a1, a2, es, a3, a4⟩ := snapshotTargets_spec (se0 := s.db.se) (N := e.targets.Nodup)
    (s := { s with db := db4 }) ho w3
    (by rw [map_fst_zipIdx]; exact id) (fun _ target _ => e1 target) h5
  exact ⟨a1, a2, b, es, t1, a3, a4⟩

theorem hitsOf_perm {q q' : List Event} (h : q.Perm q') : (hitsOf q).Perm (hitsOf q') :=
  h.flatMap_right _

theorem hitsOf_cons (e : Event) (q : List Event) :
    hitsOf (e :: q) =
      e.targets.zipIdx.map (fun ti => { event := e, target := ti.1, index := ti.2 }) ++ hitsOf q := rfl

theorem hitsOf_append (q q' : List Event) : hitsOf (q ++ q') = hitsOf q ++ hitsOf q' := by
  simp [hitsOf]

theorem forall₂_append_left {α β : Type} {R : α → β → Prop} {a b : List α} {m : List β}
    (h : List.Forall₂ R (a ++ b) m) :
    ∃ c d, List.Forall₂ R a c ∧ List.Forall₂ R b d ∧ m = c ++ d := by
  induction a generalizing m with
  | nil => exact ⟨[], m, .nil, h, rfl⟩
  | cons x a ih =>
    cases h with
    | cons h1 h2 =>
      obtain ⟨c, d, h3, h4, rfl⟩ := ih h2
      exact ⟨_ :: c, d, .cons h1 h3, h4, rfl⟩

theorem changed_append {α β : Type} {R : α → β → Prop} {a b : List α} {c d : List β}
    (h : Changed R a c) (h' : Changed R b d) : Changed R (a ++ b) (c ++ d) := by
  obtain ⟨m, h1, h2⟩ := h
  obtain ⟨m', h3, h4⟩ := h'
  exact ⟨m ++ m', List.rel_append h1 h3, h2.append h4⟩

theorem changed_mono {α β : Type} {R R' : α → β → Prop} {a : List α} {c : List β}
    (hr : ∀ x y, R x y → R' x y) (h : Changed R a c) : Changed R' a c := by
  obtain ⟨m, h1, h2⟩ := h
  exact ⟨m, h1.imp hr, h2⟩

theorem takenAt_mono {h : Hit} {tr tr' : List (DamageState × Event)} (hs : ∀ p ∈ tr, p ∈ tr')
    {st : SnapStatus} {At : DamageState → Event → StatusEffects → Prop} {x : StatusEffects}
    (ht : h.TakenAt tr st At x) : h.TakenAt tr' st At x := by
  unfold Hit.TakenAt at *
  split at ht
  · exact ht
  · obtain ⟨s, h1, h2⟩ := ht
    exact ⟨s, hs _ h1, h2⟩
  · by_cases hn : h.event.secondary = none
    · rw [if_pos hn] at ht ⊢
      obtain ⟨s, h1, h2⟩ := ht
      exact ⟨s, hs _ h1, h2⟩
    · rw [if_neg hn] at ht ⊢
      obtain ⟨s, e, h1, h2⟩ := ht
      exact ⟨s, e, hs _ h1, h2⟩

/-- Everything that is known about the instance of a hit. -/
def HitSpec (tr : List (DamageState × Event)) (h : Hit) (x : DamageInstance) : Prop :=
  h.Yields x ∧ (∃ sp, x.skill.getDamageSpec x.modifier = .ok sp) ∧ h.Buffs tr x ∧
  (h.event.targets.Nodup → h.Debuffs tr x)

theorem hitSpec_mono {tr tr' : List (DamageState × Event)} (hs : ∀ p ∈ tr, p ∈ tr') (h : Hit)
    (x : DamageInstance) (hx : HitSpec tr h x) : HitSpec tr' h x :=
  ⟨hx.1, hx.2.1, takenAt_mono hs hx.2.2.1, fun n => takenAt_mono hs (hx.2.2.2 n)⟩

theorem hitSpec_applied {tr : List (DamageState × Event)} {s : DamageState} {e : Event}
    {buffs : StatusEffects} (hn : e.secondary = none) (hmem : (s, e) ∈ tr)
    (hb : match e.snapshotBuffs with
        | .done b => buffs = b
        | .flag _ => BuffsAt s e buffs)
    {ti : String × ℕ} {x : DamageInstance}
    (ha : Applied e buffs (startSe s e) e.targets.Nodup ti x) :
    HitSpec tr { event := e, target := ti.1, index := ti.2 } x := by
  obtain ⟨a1, a2, a3, a4, a5, a6, a7, a8, a9⟩ := ha
  refine ⟨⟨?_, a2, a3, a4, a5, a6⟩, a7, ?_, ?_⟩
  · rw [a1]
    simp only [Hit.time, targetTime, appliedAt, hn, GameConsts.MULTI_TARGET_DELAY_PER_TARGET]
    split_ifs
    · ring
    · rfl
  · unfold Hit.Buffs Hit.TakenAt
    rcases hst : e.snapshotBuffs with (_ | _) | b
    · simp only [hst] at hb ⊢
      rw [if_pos hn]
      exact ⟨s, hmem, a8 ▸ hb⟩
    · simp only [hst] at hb ⊢
      exact ⟨s, hmem, a8 ▸ hb⟩
    · simp only [hst] at hb ⊢
      exact a8.trans hb
  · intro hnd
    unfold Hit.Debuffs Hit.TakenAt
    rcases hst : e.snapshotDebuffs with (_ | _) | b
    · simp only [hst] at a9 ⊢
      rw [if_pos hn]
      exact ⟨s, hmem, a9 hnd⟩
    · simp only [hst] at a9 ⊢
      exact ⟨s, hmem, a9 hnd⟩
    · simp only [hst] at a9 ⊢
      exact a9

theorem hitSpec_snapped {tr : List (DamageState × Event)} {s : DamageState} {e : Event}
    {secondary : ℚ} {prio : ℤ} {buffs : SnapStatus} (hn : e.secondary = some secondary)
    (hmem : (s, e) ∈ tr)
    (hb : match e.snapshotBuffs with
        | .done b => buffs = .done b
        | .flag true => ∃ b, buffs = .done b ∧ BuffsAt s e b
        | .flag false => buffs = .flag false)
    {ti : String × ℕ} {e' : Event}
    (ha : Snapped e secondary prio buffs (startSe s e) e.targets.Nodup ti e')
    {x : DamageInstance} (hx : HitSpec tr { event := e', target := ti.1, index := 0 } x) :
    HitSpec tr { event := e, target := ti.1, index := ti.2 } x := by
  obtain ⟨-, a1, a2, a3, a4, a5, a6, a7, a8, a9⟩ := ha
  obtain ⟨⟨b1, b2, b3, b4, b5, -⟩, b6, b7, b8⟩ := hx
  have hnd' : e'.targets.Nodup := by rw [a5]; simp
  have b8 := b8 hnd'
  have hone : ¬ e'.targets.length > 1 := by rw [a5]; simp
  simp only at b2 b3 b4 b5
  have ht : x.time = e'.primary := by
    rw [b1]
    simp only [Hit.time, if_neg hone, appliedAt, a2]
  have hte : e'.primary = ({ event := e, target := ti.1, index := ti.2 } : Hit).time := by
    rw [a1]
    simp only [Hit.time, targetTime, appliedAt, hn, GameConsts.MULTI_TARGET_DELAY_PER_TARGET]
    split_ifs
    · ring
    · rfl
  have happ : ({ event := e, target := ti.1, index := ti.2 } : Hit).AppliedAs e' :=
    ⟨hte, a2, a3, a4, a5, fun hst => by simp only at hst; rw [a8]; simpa only [hst] using hb,
      fun hst => by simp only at hst; simpa only [hst] using a9⟩
  have hne : ¬ e.secondary = none := by rw [hn]; simp
  refine ⟨⟨ht.trans hte, b2.trans a3, b3.trans a4, b4, a6.trans b5, fun h => b5.2 (a7 h)⟩, b6, ?_, ?_⟩
  · unfold Hit.Buffs Hit.TakenAt at b7 ⊢
    rcases hst : e.snapshotBuffs with (_ | _) | b
    · simp only [hst] at hb ⊢
      rw [if_neg hne]
      simp only [a8, hb, if_pos a2] at b7
      obtain ⟨s', h1, h2⟩ := b7
      exact ⟨s', e', h1, happ, h2⟩
    · simp only [hst] at hb ⊢
      obtain ⟨b, hb1, hb2⟩ := hb
      simp only [a8, hb1] at b7
      exact ⟨s, hmem, b7 ▸ hb2⟩
    · simp only [hst] at hb ⊢
      simp only [a8, hb] at b7
      exact b7
  · intro hnd
    unfold Hit.Debuffs Hit.TakenAt at b8 ⊢
    rcases hst : e.snapshotDebuffs with (_ | _) | b
    · simp only [hst] at a9 ⊢
      rw [if_neg hne]
      simp only [a9, if_pos a2] at b8
      obtain ⟨s', h1, h2⟩ := b8
      exact ⟨s', e', h1, happ, h2⟩
    · simp only [hst] at a9 ⊢
      obtain ⟨b, hb1, hb2⟩ := a9
      simp only [hb1] at b8
      exact ⟨s, hmem, b8 ▸ hb2 hnd⟩
    · simp only [hst] at a9 ⊢
      simp only [a9] at b8
      exact b8

theorem changed_of_forall₂_map {α β γ : Type} {R : β → γ → Prop} {f : α → β} {l : List α} {m : List γ}
    (h : List.Forall₂ (fun a c => R (f a) c) l m) : Changed R (l.map f) m :=
  ⟨m, by rw [List.forall₂_map_left_iff]; exact h, .refl _⟩

/-- Composition through the hits of the events an event is split into. -/
theorem changed_split {R S : Hit → DamageInstance → Prop} {e : Event} {P : String × ℕ → Event → Prop}
    {l : List (String × ℕ)} {es : List Event} (hP : List.Forall₂ P l es)
    (ht : ∀ ti e', P ti e' → e'.targets = [ti.1])
    (hRS : ∀ ti e' x, P ti e' → R { event := e', target := ti.1, index := 0 } x →
      S { event := e, target := ti.1, index := ti.2 } x)
    {xs : List DamageInstance} (h : List.Forall₂ R (hitsOf es) xs) :
    List.Forall₂ S (l.map (fun ti => { event := e, target := ti.1, index := ti.2 })) xs := by
  induction hP generalizing xs with
  | nil => cases h; exact .nil
  | @cons ti e' l es h1 _ ih =>
    rw [hitsOf_cons, ht ti e' h1] at h
    simp only [List.zipIdx_cons, List.zipIdx_nil, List.map_cons, List.map_nil, List.cons_append,
      List.nil_append] at h
    cases h with
    | cons h2 h3 => exact .cons (hRS ti e' _ h1 h2) (ih h3)

theorem reaches_spec {s s' : DamageState} {tr : List (DamageState × Event)} (h : Reaches s tr s')
    (ho : s.events.Ok) (hend : s'.events.q = []) :
    ∃ xs, Changed (HitSpec tr) (hitsOf s.events.q) xs ∧ s'.q.Perm (s.q ++ xs.filter deals) := by
  induction h with
  | refl s =>
    rw [hend]
    exact ⟨[], ⟨[], .nil, .refl _⟩, by simp⟩
  | step s s1 s2 e evs tr h1 h2 h3 ih =>
    obtain ⟨o1, o2, -, -⟩ := Events.getNext_spec ho h1
    unfold processEvent at h2
    simp only at h2
    cases hsec : e.secondary with
    | none =>
      rw [hsec] at h2
      obtain ⟨c1, buffs, ys, c2, c3, c4⟩ := applyEvent_spec h2
      simp only at c1 c2 c3 c4
      obtain ⟨xs, d1, d2⟩ := ih (by rw [c1]; exact o1) hend
      rw [c1] at d1
      have hmem : (({ s with events := evs } : DamageState), e) ∈
        ((({ s with events := evs } : DamageState), e) :: tr) := by simp
      have e1 := changed_mono (hitSpec_mono (fun p hp => List.mem_cons_of_mem
        (({ s with events := evs } : DamageState), e) hp)) d1
      have e2 : Changed (HitSpec ((({ s with events := evs } : DamageState), e) :: tr))
          (e.targets.zipIdx.map (fun ti => { event := e, target := ti.1, index := ti.2 })) ys :=
        changed_of_forall₂_map (c3.imp fun ti x hx => hitSpec_applied hsec hmem c2 hx)
      refine ⟨ys ++ xs, changed_perm ?_ (.refl _) (changed_append e2 e1), ?_⟩
      · exact (hitsOf_perm o2).symm
      · refine d2.trans ?_
        rw [List.filter_append, ← List.append_assoc]
        exact c4.append_right _
    | some secondary =>
      rw [hsec] at h2
      obtain ⟨c1, c2, buffs, es, c3, c4, c5⟩ := snapshotEvent_spec (by exact o1) h2
      simp only at c2 c3 c4 c5
      obtain ⟨xs, d1, d2⟩ := ih c1 hend
      have hmem : (({ s with events := evs } : DamageState), e) ∈
        ((({ s with events := evs } : DamageState), e) :: tr) := by simp
      have e1 := changed_mono (hitSpec_mono (fun p hp => List.mem_cons_of_mem
        (({ s with events := evs } : DamageState), e) hp)) d1
      have e2 := changed_perm (hitsOf_perm (c5.trans List.perm_append_comm)) (.refl _) e1
      rw [hitsOf_append] at e2
      obtain ⟨ys, f1, f2⟩ := e2
      obtain ⟨ya, yb, g1, g2, rfl⟩ := forall₂_append_left f1
      refine ⟨xs, changed_perm (hitsOf_perm o2).symm (.refl _) ⟨ya ++ yb, ?_, f2⟩, ?_⟩
      · rw [hitsOf_cons]
        refine List.rel_append ?_ g2
        exact changed_split c4 (fun ti e' hp => hp.2.2.2.2.2.1)
          (fun ti e' x hp hx => hitSpec_snapped hsec hmem c3 hp hx) g1
      · rw [← c2]
        exact d2

/-! ## The loop -/

/-- What an iteration does to the queue. -/
theorem processEvent_queue {s s' : DamageState} {e : Event} (ho : s.events.Ok)
    (h : processEvent s e = .ok s') :
    s'.events.Ok ∧
    ((e.secondary = none ∧ s'.events = s.events) ∨
      ∃ secondary es, e.secondary = some secondary ∧ es.length = e.targets.length ∧
        (∀ e' ∈ es, e'.secondary = none ∧ (∃ i < e.targets.length,
          e'.primary = targetTime e.targets.length i secondary) ∧ e'.targets.length = 1 ∧
          e'.priority = Utils.transformTimeToPrio secondary +
            (Utils.transformTimeToPrio e.primary - e.priority)) ∧
        s'.events.q.Perm (s.events.q ++ es)) := by
  unfold processEvent at h
  simp only at h
  cases hsec : e.secondary with
  | none =>
    rw [hsec] at h
    obtain ⟨c1, -⟩ := applyEvent_spec h
    exact ⟨by rw [c1]; exact ho, .inl ⟨rfl, c1⟩⟩
  | some secondary =>
    rw [hsec] at h
    obtain ⟨c1, c2, buffs, es, c3, c4, c5⟩ := snapshotEvent_spec (by exact ho) h
    refine ⟨c1, .inr ⟨secondary, es, rfl, ?_, ?_, c5⟩⟩
    · rw [← c4.length_eq]
      simp
    · intro e' he'
      obtain ⟨i, hi, rfl⟩ := List.getElem_of_mem he'
      have hl := c4.length_eq
      have := (List.forall₂_iff_get.1 c4).2 i (by omega) hi
      obtain ⟨a0, a1, a2, a3, a4, a5, -⟩ := this
      simp only [List.get_eq_getElem] at a0 a1 a2 a5
      refine ⟨a2, ⟨i, by rw [List.length_zipIdx] at hl; omega, ?_⟩, by rw [a5]; rfl, a0⟩
      rw [a1]
      simp

theorem work_eq (e : Event) : work e = rounds e := by
  unfold work rounds
  cases e.secondary <;> simp

theorem rounds_pos (e : Event) : 0 < rounds e := by
  unfold rounds
  split <;> omega

theorem sum_rounds_perm {q q' : List Event} (h : q.Perm q') :
    (q.map rounds).sum = (q'.map rounds).sum := (h.map _).sum_eq

theorem processEvent_rounds {s s' : DamageState} {e : Event} (ho : s.events.Ok)
    (h : processEvent s e = .ok s') :
    (s'.events.q.map rounds).sum + 1 = (s.events.q.map rounds).sum + rounds e := by
  obtain ⟨-, ⟨h1, h2⟩ | ⟨sec, es, h1, h2, h3, h4⟩⟩ := processEvent_queue ho h
  · rw [h2]
    simp [rounds, h1]
  · rw [sum_rounds_perm h4, List.map_append, List.sum_append]
    have : es.map rounds = List.replicate e.targets.length 1 := by
      rw [← h2, ← List.map_const']
      apply List.map_congr_left
      intro e' he'
      simp [rounds, (h3 e' he').1]
    rw [this]
    simp [rounds, h1]
    omega

theorem reaches_ok {s s' : DamageState} {tr : List (DamageState × Event)} (h : Reaches s tr s')
    (ho : s.events.Ok) : s'.events.Ok := by
  induction h with
  | refl s => exact ho
  | step s s1 s2 e evs tr h1 h2 h3 ih =>
    obtain ⟨o1, -⟩ := Events.getNext_spec ho h1
    exact ih (processEvent_queue (s := { s with events := evs }) o1 h2).1

theorem reaches_rounds {s s' : DamageState} {tr : List (DamageState × Event)} (h : Reaches s tr s')
    (ho : s.events.Ok) :
    tr.length + (s'.events.q.map rounds).sum = (s.events.q.map Spec.rounds).sum := by
  induction h with
  | refl s => simp
  | step s s1 s2 e evs tr h1 h2 h3 ih =>
    obtain ⟨o1, o2, -⟩ := Events.getNext_spec ho h1
    have hr := processEvent_rounds (s := { s with events := evs }) o1 h2
    have := ih (processEvent_queue (s := { s with events := evs }) o1 h2).1
    rw [sum_rounds_perm o2]
    simp only [List.map_cons, List.sum_cons, List.length_cons]
    simp only at hr
    omega

theorem isEmpty_iff {evs : Events} : evs.isEmpty = true ↔ evs.q = [] := by
  simp [Events.isEmpty]

theorem loop_ok {n : ℕ} {s s' : DamageState} (h : loop n s = .ok s') :
    ∃ tr, Reaches s tr s' ∧ s'.events.q = [] := by
  induction n generalizing s with
  | zero =>
    unfold loop at h
    split_ifs at h with he
    cases h
    exact ⟨[], .refl _, isEmpty_iff.1 he⟩
  | succ n ih =>
    unfold loop at h
    split_ifs at h with he
    · cases h
      exact ⟨[], .refl _, isEmpty_iff.1 he⟩
    · obtain ⟨⟨e, evs⟩, h1, h⟩ := Py.bind_eq_ok.1 h
      obtain ⟨s1, h2, h⟩ := Py.bind_eq_ok.1 h
      obtain ⟨tr, h3, h4⟩ := ih h
      exact ⟨_, .step _ _ _ _ _ _ h1 h2 h3, h4⟩

/-- With enough iterations, the loop only stops early if an iteration raises. -/
theorem loop_total {n : ℕ} {s : DamageState} (ho : s.events.Ok)
    (hn : (s.events.q.map rounds).sum ≤ n) :
    (∃ s', loop n s = .ok s') ∨
    ∃ tr s1 e evs x, Reaches s tr s1 ∧ s1.events.getNext = .ok (e, evs) ∧
      processEvent { s1 with events := evs } e = .error x ∧ loop n s = .error x := by
  induction n generalizing s with
  | zero =>
    left
    have : s.events.q = [] := by
      cases hq : s.events.q with
      | nil => rfl
      | cons e q =>
        rw [hq] at hn
        have := rounds_pos e
        simp at hn
        omega
    refine ⟨s, ?_⟩
    unfold loop
    rw [if_pos (isEmpty_iff.2 this)]
  | succ n ih =>
    by_cases he : s.events.q = []
    · left
      refine ⟨s, ?_⟩
      unfold loop
      rw [if_pos (isEmpty_iff.2 he)]
    · obtain ⟨e, evs, h1⟩ := Events.getNext_total he
      obtain ⟨o1, o2, -⟩ := Events.getNext_spec ho h1
      have hl : loop (n + 1) s = processEvent { s with events := evs } e >>= loop n := by
        rw [loop, if_neg (fun h => he (isEmpty_iff.1 h)), h1]
        rfl
      cases h2 : processEvent { s with events := evs } e with
      | error x =>
        right
        exact ⟨[], s, e, evs, x, .refl _, h1, h2, by rw [hl, h2]; rfl⟩
      | ok s1 =>
        have hr := processEvent_rounds (s := { s with events := evs }) o1 h2
        rw [sum_rounds_perm o2] at hn
        simp only [List.map_cons, List.sum_cons] at hn hr
        rcases ih (processEvent_queue (s := { s with events := evs }) o1 h2).1 (by omega) with
          ⟨s', h3⟩ | ⟨tr, s2, e2, evs2, x, h3, h4, h5, h6⟩
        · left
          exact ⟨s', by rw [hl, h2]; exact h3⟩
        · right
          exact ⟨_, s2, e2, evs2, x, .step _ _ _ _ _ _ h1 h2 h3, h4, h5, by rw [hl, h2]; exact h6⟩

theorem getDamageInstances_ok {db db' : DamageBuilder} {events : Events} {xs : List DamageInstance}
    (h : db.getDamageInstances events = .ok (xs, db')) :
    ∃ tr s, Processes db events tr s ∧ xs = sortBy (·.time) s.q ∧ s.db = db' := by
  unfold getDamageInstances at h
  obtain ⟨s, h1, h⟩ := Py.bind_eq_ok.1 h
  simp only [Py.pure_eq, Except.ok.injEq, Prod.mk.injEq] at h
  obtain ⟨tr, h2, h3⟩ := loop_ok h1
  exact ⟨tr, s, ⟨h2, h3⟩, h.1.symm, h.2⟩

/-! ## A trace that can be computed -/

/-- The loop, recording what it processes. -/
def traceLoop : ℕ → DamageState → Py (List (DamageState × Event) × DamageState)
  | 0, s => .ok ([], s)
  | n + 1, s => do
    let (e, events) ← s.events.getNext
    let s' ← processEvent { s with events := events } e
    let (tr, s'') ← traceLoop n s'
    return (({ s with events := events }, e) :: tr, s'')

theorem traceLoop_reaches {n : ℕ} {s s' : DamageState} {tr : List (DamageState × Event)}
    (h : traceLoop n s = .ok (tr, s')) : Reaches s tr s' := by
  induction n generalizing s tr with
  | zero =>
    cases h
    exact .refl _
  | succ n ih =>
    unfold traceLoop at h
    obtain ⟨⟨e, evs⟩, h1, h⟩ := Py.bind_eq_ok.1 h
    obtain ⟨s1, h2, h⟩ := Py.bind_eq_ok.1 h
    obtain ⟨⟨tr1, s2⟩, h3, h⟩ := Py.bind_eq_ok.1 h
    cases h
    exact .step _ _ _ _ _ _ h1 h2 (ih h3)

/-! ## Order -/

theorem prio_whole {t : ℚ} (h : Whole t) : ((Utils.transformTimeToPrio t : ℤ) : ℚ) = 1000 * t := by
  obtain ⟨z, rfl⟩ := h
  unfold Utils.transformTimeToPrio
  have : (1000 * (z : ℚ)) = ((1000 * z : ℤ) : ℚ) := by push_cast; rfl
  rw [this, RotationBuilder.pyInt_intCast]

/-- Regular events are ordered by time. -/
theorem regular_le {a b : Event} (ha : Regular a) (hb : Regular b) (h : Before a b) :
    a.primary ≤ b.primary := by
  have hp : (a.priority : ℚ) ≤ b.priority := by
    rcases h with h | ⟨h, -⟩
    · exact_mod_cast h.le
    · exact_mod_cast h.le
  obtain ⟨x, hx⟩ := ha.primary
  obtain ⟨y, hy⟩ := hb.primary
  have h1 := ha.priority
  have h2 := hb.priority
  rw [hx, abs_lt] at h1
  rw [hy, abs_lt] at h2
  rw [hx, hy]
  have : (x : ℚ) < y + 1 := by linarith [h1.1, h2.2]
  have : x < y + 1 := by exact_mod_cast this
  exact_mod_cast (by omega : x ≤ y)

theorem processEvent_regular {s s' : DamageState} {e : Event} (ho : s.events.Ok)
    (he : Regular e) (hr : ∀ b ∈ s.events.q, Regular b) (h : processEvent s e = .ok s') :
    ∀ b ∈ s'.events.q, Regular b ∧ (b ∈ s.events.q ∨ e.primary ≤ b.primary) := by
  obtain ⟨-, ⟨h1, h2⟩ | ⟨sec, es, h1, h2, h3, h4⟩⟩ := processEvent_queue ho h
  · intro b hb
    rw [h2] at hb
    exact ⟨hr b hb, .inl hb⟩
  · intro b hb
    rw [h4.mem_iff, List.mem_append] at hb
    rcases hb with hb | hb
    · exact ⟨hr b hb, .inl hb⟩
    · obtain ⟨k1, ⟨i, k2, k3⟩, k4, k5⟩ := h3 b hb
      obtain ⟨w1, w2⟩ := he.secondary sec h1
      have hone : ¬ e.targets.length > 1 := by
        have := he.targets (by rw [h1]; simp)
        omega
      have k3 : b.primary = sec := by rw [k3, targetTime, if_neg hone]
      refine ⟨⟨fun h => absurd k1 h, by rw [k3]; exact w1, by rw [k1]; simp, ?_⟩, .inr (by rw [k3]; exact w2)⟩
      rw [k5, k3]
      push_cast
      rw [prio_whole w1, prio_whole he.primary]
      have := he.priority
      rw [abs_sub_comm] at this
      convert this using 2
      ring

theorem reaches_sorted {s s' : DamageState} {tr : List (DamageState × Event)} (h : Reaches s tr s')
    (ho : s.events.Ok) (hr : ∀ b ∈ s.events.q, Regular b) :
    tr.Pairwise (fun p p' => p.2.primary ≤ p'.2.primary) ∧
    ∀ t, (∀ b ∈ s.events.q, t ≤ b.primary) → ∀ p ∈ tr, t ≤ p.2.primary := by
  induction h with
  | refl s => exact ⟨.nil, by simp⟩
  | step s s1 s2 e evs tr h1 h2 h3 ih =>
    obtain ⟨o1, o2, o3, -⟩ := Events.getNext_spec ho h1
    have hmem : ∀ b ∈ evs.q, b ∈ s.events.q := fun b hb => o2.mem_iff.2 (List.mem_cons_of_mem _ hb)
    have hee : e ∈ s.events.q := o2.mem_iff.2 (by simp)
    have hp := processEvent_regular (s := { s with events := evs }) o1 (hr e hee)
      (fun b hb => hr b (hmem b hb)) h2
    obtain ⟨i1, i2⟩ := ih (processEvent_queue (s := { s with events := evs }) o1 h2).1
      (fun b hb => (hp b hb).1)
    have low : ∀ b ∈ s1.events.q, e.primary ≤ b.primary := by
      intro b hb
      rcases (hp b hb).2 with h | h
      · exact regular_le (hr e hee) (hr b (hmem b h)) (o3 b (hmem b h))
      · exact h
    refine ⟨List.pairwise_cons.2 ⟨fun p hp => i2 _ low p hp, i1⟩, ?_⟩
    intro t ht p hp
    rcases List.mem_cons.1 hp with rfl | hp
    · exact ht e hee
    · exact i2 t (fun b hb => (ht e hee).trans (low b hb)) p hp

end Ama
