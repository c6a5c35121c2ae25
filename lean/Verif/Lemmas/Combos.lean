import Verif.Spec.Trackers
import Verif.Lemmas.Py

/-!
# Lemmas about the combo tracker
-/

namespace Ama

open Spec ComboTracker

/-- The combo action last used successfully in a group. -/
def ComboTracker.look (tr : ComboTracker) (g : ℤ) : Option (ℚ × String) :=
  (Dict.get? tr.lastComboSkillUsed g).join

/-- The condition for success, in terms of the state. -/
def ComboTracker.Succ (tr : ComboTracker) (t : ℚ) (m : SkillModifier) (spec : ComboSpec) : Prop :=
  spec.comboAutoSucceed = true ∨ m.forceCombo = true ∨ spec.comboActions = [] ∨
    ∃ t0 name, tr.look spec.comboGroup = some (t0, name) ∧ t ≤ t0 + 30000 ∧ name ∈ spec.comboActions

theorem get?_foldl_break (br : Dict ℤ (List ℤ)) (g g' : ℤ) (d : Dict ℤ (Option (ℚ × String))) :
    (¬ Breaks br g g' → Dict.get? (br.foldl (fun d kv =>
      if g ∈ kv.2 then Dict.set d kv.1 none else d) d) g' = Dict.get? d g') ∧
    (Breaks br g g' → Dict.get? (br.foldl (fun d kv =>
      if g ∈ kv.2 then Dict.set d kv.1 none else d) d) g' = some none) := by
  have hkeep : ∀ (br : Dict ℤ (List ℤ)) (d : Dict ℤ (Option (ℚ × String))),
      Dict.get? d g' = some none → Dict.get? (br.foldl (fun d kv =>
      if g ∈ kv.2 then Dict.set d kv.1 none else d) d) g' = some none := by
    intro br
    induction br with
    | nil => intro d h; exact h
    | cons kv br ih =>
      intro d h
      rw [List.foldl_cons]
      apply ih
      split_ifs
      · rw [Dict.get?_set]
        split_ifs
        · rfl
        · exact h
      · exact h
  induction br generalizing d with
  | nil =>
    refine ⟨fun _ => rfl, ?_⟩
    rintro ⟨gs, h, _⟩
    simp at h
  | cons kv br ih =>
    rw [List.foldl_cons]
    constructor
    · intro hnb
      have hnb' : ¬ Breaks br g g' := by
        rintro ⟨gs, h1, h2⟩
        exact hnb ⟨gs, by simp [h1], h2⟩
      rw [(ih _).1 hnb']
      split_ifs with hin
      · rw [Dict.get?_set_ne]
        rintro rfl
        exact hnb ⟨kv.2, by simp, hin⟩
      · rfl
    · rintro ⟨gs, h1, h2⟩
      rcases List.mem_cons.1 h1 with e | e
      · subst e
        simp only [h2, if_true]
        exact hkeep br _ (Dict.get?_set_self _ _ _)
      · exact (ih _).2 ⟨gs, e, h2⟩

theorem updateCombo_get? (tr : ComboTracker) (t : ℚ) (spec : ComboSpec) (b : Bool) (name : String)
    (g : ℤ) :
    (tr.updateCombo t spec b name).comboBreakers = tr.comboBreakers ∧
    (¬ Breaks tr.comboBreakers spec.comboGroup g →
      Dict.get? (tr.updateCombo t spec b name).lastComboSkillUsed g =
        if spec.comboGroup = g then some (if b then some (t, name) else none)
        else Dict.get? tr.lastComboSkillUsed g) ∧
    (Breaks tr.comboBreakers spec.comboGroup g →
      (tr.updateCombo t spec b name).look g = none) := by
  refine ⟨rfl, ?_, ?_⟩
  · intro h
    unfold updateCombo
    simp only
    rw [(get?_foldl_break _ _ _ _).1 h, Dict.get?_set]
  · intro h
    unfold updateCombo look
    simp only
    rw [(get?_foldl_break _ _ _ _).2 h]
    rfl

theorem comboSucceeded_eq (tr : ComboTracker) (t : ℚ) (spec : ComboSpec) (m : SkillModifier)
    (hin : spec.comboGroup ∈ Dict.keys tr.lastComboSkillUsed) :
    ∃ b, tr.comboSucceeded t spec m = .ok b ∧ (b = true ↔ tr.Succ t m spec) := by
  obtain ⟨x, hx⟩ := Option.isSome_iff_exists.1 (Dict.get?_isSome.2 hin)
  unfold comboSucceeded Succ
  by_cases h1 : spec.comboAutoSucceed = true
  · exact ⟨true, by simp [h1], by simp [h1]⟩
  by_cases h2 : m.forceCombo = true
  · exact ⟨true, by simp [h1, h2], by simp [h2]⟩
  by_cases h3 : spec.comboActions = []
  · exact ⟨true, by simp [h1, h2, h3], by simp [h3]⟩
  have h3' : ¬ spec.comboActions.length = 0 := by simpa using h3
  rw [if_neg h1, if_neg h2, if_neg h3', Dict.get_ok.2 hx, Py.ok_bind]
  unfold look
  rw [hx]
  cases x with
  | none => exact ⟨false, rfl, by simp [h1, h2, h3]⟩
  | some p =>
    obtain ⟨t0, name⟩ := p
    refine ⟨_, rfl, ?_⟩
    simp only [Option.join_some, Option.some.injEq, Prod.mk.injEq, GameConsts.COMBO_EXPIRATION_TIME,
      Bool.and_eq_true, decide_eq_true_eq, h1, h2, h3, false_or, Bool.false_eq_true]
    constructor
    · rintro ⟨a, b⟩
      have a := of_decide_eq_true a
      exact ⟨t0, name, ⟨rfl, rfl⟩, by linarith, b⟩
    · rintro ⟨t1, n1, ⟨rfl, rfl⟩, a, b⟩
      exact ⟨decide_eq_true (by linarith), b⟩

/-- The state with the group of `spec` present. -/
def ComboTracker.touch (tr : ComboTracker) (g : ℤ) : ComboTracker :=
  if Dict.mem tr.lastComboSkillUsed g then tr
  else { tr with lastComboSkillUsed := Dict.set tr.lastComboSkillUsed g none }

theorem touch_look (tr : ComboTracker) (g g' : ℤ) : (tr.touch g).look g' = tr.look g' := by
  unfold touch look
  split_ifs with h
  · rfl
  · simp only [Dict.get?_set]
    split_ifs with h'
    · subst h'
      have : Dict.get? tr.lastComboSkillUsed g = none := by
        rw [Dict.get?_eq_none]
        intro hin
        exact h (Dict.mem_iff.2 hin)
      rw [this]
      rfl
    · rfl

theorem touch_get?_ne (tr : ComboTracker) {g g' : ℤ} (h : g ≠ g') :
    Dict.get? (tr.touch g).lastComboSkillUsed g' = Dict.get? tr.lastComboSkillUsed g' := by
  unfold touch
  split_ifs
  · rfl
  · exact Dict.get?_set_ne _ _ h

theorem touch_breakers (tr : ComboTracker) (g : ℤ) : (tr.touch g).comboBreakers = tr.comboBreakers := by
  unfold touch
  split_ifs <;> rfl

theorem touch_mem (tr : ComboTracker) (g : ℤ) : g ∈ Dict.keys (tr.touch g).lastComboSkillUsed := by
  unfold touch
  split_ifs with h
  · exact Dict.mem_iff.1 h
  · simp [Dict.mem_keys_set]

theorem Succ_congr {tr tr' : ComboTracker} {t : ℚ} {m : SkillModifier} {spec : ComboSpec}
    (h : tr.look spec.comboGroup = tr'.look spec.comboGroup) : tr.Succ t m spec ↔ tr'.Succ t m spec := by
  unfold Succ
  rw [h]

/-- One combo specification. -/
theorem compileStep_combo (t : ℚ) (name : String) (m : SkillModifier) (ok : Bool) (tr : ComboTracker)
    (spec : ComboSpec) (hb : spec.breakAllCombosOnly = false) :
    ∃ b tr', ComboTracker.compileStep t name m (ok, tr) spec = .ok (ok && b, tr') ∧
      (b = true ↔ tr.Succ t m spec) ∧ tr'.comboBreakers = tr.comboBreakers ∧
      ∀ g, (Breaks tr.comboBreakers spec.comboGroup g → tr'.look g = none) ∧
        (¬ Breaks tr.comboBreakers spec.comboGroup g → spec.comboGroup = g →
          tr'.look g = if b then some (t, name) else none) ∧
        (¬ Breaks tr.comboBreakers spec.comboGroup g → spec.comboGroup ≠ g →
          Dict.get? tr'.lastComboSkillUsed g = Dict.get? tr.lastComboSkillUsed g) := by
  obtain ⟨b, hb1, hb2⟩ := comboSucceeded_eq (tr.touch spec.comboGroup) t spec m (touch_mem tr _)
  refine ⟨b, (tr.touch spec.comboGroup).updateCombo t spec b name, ?_, ?_, ?_, ?_⟩
  · unfold ComboTracker.compileStep
    simp only [hb, Bool.false_eq_true, if_false]
    have : (if Dict.mem tr.lastComboSkillUsed spec.comboGroup then tr
        else { tr with lastComboSkillUsed := Dict.set tr.lastComboSkillUsed spec.comboGroup none }) =
        tr.touch spec.comboGroup := rfl
    rw [this, hb1]
    rfl
  · rw [hb2]
    exact Succ_congr (touch_look _ _ _)
  · rw [(updateCombo_get? _ t spec b name 0).1, touch_breakers]
  · intro g
    obtain ⟨_, h1, h2⟩ := updateCombo_get? (tr.touch spec.comboGroup) t spec b name g
    rw [touch_breakers] at h1 h2
    refine ⟨h2, ?_, ?_⟩
    · intro hn hg
      unfold look
      rw [h1 hn, if_pos hg]
      rfl
    · intro hn hg
      rw [h1 hn, if_neg hg, touch_get?_ne _ hg]

/-- Any list of combo specifications leaves an unrelated group untouched. -/
theorem foldlM_combo_leaves (t : ℚ) (name : String) (m : SkillModifier) (specs : List ComboSpec)
    (ok : Bool) (tr : ComboTracker) (g : ℤ)
    (h : ∀ s ∈ specs, s.breakAllCombosOnly = false ∧ s.comboGroup ≠ g ∧
      ¬ Breaks tr.comboBreakers s.comboGroup g) :
    ∃ r tr', specs.foldlM (ComboTracker.compileStep t name m) (ok, tr) = .ok (r, tr') ∧
      Dict.get? tr'.lastComboSkillUsed g = Dict.get? tr.lastComboSkillUsed g ∧
      tr'.comboBreakers = tr.comboBreakers := by
  induction specs generalizing ok tr with
  | nil => exact ⟨ok, tr, rfl, rfl, rfl⟩
  | cons s specs ih =>
    obtain ⟨h1, h2, h3⟩ := h s (by simp)
    obtain ⟨b1, tr1, e1, _, hbk, hl⟩ := compileStep_combo t name m ok tr s h1
    obtain ⟨r, tr2, e2, e3, e4⟩ := ih (ok && b1) tr1 (by
      rw [hbk]
      exact fun a ha => h a (by simp [ha]))
    refine ⟨r, tr2, ?_, ?_, e4.trans hbk⟩
    · rw [Py.foldlM_cons, e1, Py.ok_bind, e2]
    · rw [e3, (hl g).2.2 h3 h2]

theorem step_total (t : ℚ) (name : String) (m : SkillModifier) (ok : Bool) (tr : ComboTracker)
    (s : ComboSpec) : ∃ r tr', ComboTracker.compileStep t name m (ok, tr) s = .ok (r, tr') ∧
      tr'.comboBreakers = tr.comboBreakers := by
  cases hb : s.breakAllCombosOnly with
  | true =>
    refine ⟨ok, { tr with lastComboSkillUsed := [] }, ?_, rfl⟩
    unfold ComboTracker.compileStep
    simp [hb]
  | false =>
    obtain ⟨b, tr', h, _, hbk, _⟩ := compileStep_combo t name m ok tr s hb
    exact ⟨_, tr', h, hbk⟩

/-- The tracker never raises on its own: only the lookup of the specifications can. -/
theorem foldlM_combo_total (t : ℚ) (name : String) (m : SkillModifier) (specs : List ComboSpec)
    (ok : Bool) (tr : ComboTracker) :
    ∃ r tr', specs.foldlM (ComboTracker.compileStep t name m) (ok, tr) = .ok (r, tr') ∧
      tr'.comboBreakers = tr.comboBreakers := by
  induction specs generalizing ok tr with
  | nil => exact ⟨ok, tr, rfl, rfl⟩
  | cons s specs ih =>
    obtain ⟨r1, tr1, h1, hb1⟩ := step_total t name m ok tr s
    obtain ⟨r2, tr2, h2, hb2⟩ := ih r1 tr1
    exact ⟨r2, tr2, by rw [Py.foldlM_cons, h1, Py.ok_bind, h2], hb2.trans hb1⟩

theorem runCombo_append (tr : ComboTracker) (us vs : List ComboUse) :
    runCombo tr (us ++ vs) = (do
      let (o1, tr) ← runCombo tr us
      let (o2, tr) ← runCombo tr vs
      return (o1 ++ o2, tr)) := by
  induction us generalizing tr with
  | nil =>
    simp only [List.nil_append, runCombo, Py.ok_bind]
    cases runCombo tr vs with
    | error e => rfl
    | ok p => rfl
  | cons u us ih =>
    simp only [List.cons_append, runCombo]
    cases tr.compileAndUpdate u.time u.skill u.modifier with
    | error e => rfl
    | ok p =>
      simp only [Py.ok_bind, ih]
      cases runCombo p.2 us with
      | error e => rfl
      | ok q =>
        simp only [Py.ok_bind, Py.pure_eq]
        cases runCombo q.2 vs with
        | error e => rfl
        | ok r => rfl

theorem runCombo_length {tr tr' : ComboTracker} {us : List ComboUse} {outs : List String}
    (h : runCombo tr us = .ok (outs, tr')) : outs.length = us.length := by
  induction us generalizing tr outs with
  | nil => cases h; rfl
  | cons u us ih =>
    simp only [runCombo] at h
    obtain ⟨⟨o, tr1⟩, h1, h⟩ := Py.bind_eq_ok.1 h
    obtain ⟨⟨os, tr2⟩, h2, h⟩ := Py.bind_eq_ok.1 h
    simp only [Py.pure_eq, Except.ok.injEq, Prod.mk.injEq] at h
    obtain ⟨rfl, rfl⟩ := h
    simp [ih h2]

/-- `ComboOk` at a position depends only on the actions up to it. -/
theorem ComboOk_prefix {br : Dict ℤ (List ℤ)} {as bs : List ComboAction} {i : ℕ}
    (hp : ∀ k, k ≤ i → as[k]? = bs[k]?) (h : ComboOk br as i) : ComboOk br bs i := by
  induction h with
  | auto p a h1 h2 => exact .auto p a (by rw [← hp p le_rfl]; exact h1) h2
  | forced p a h1 h2 => exact .forced p a (by rw [← hp p le_rfl]; exact h1) h2
  | first p a h1 h2 => exact .first p a (by rw [← hp p le_rfl]; exact h1) h2
  | follows p q a b ha hb hqp hnb hg hself _ hbet hname ht ih =>
    refine .follows p q a b (by rw [← hp p le_rfl]; exact ha)
      (by rw [← hp q hqp.le]; exact hb) hqp hnb hg hself (ih (fun k hk => hp k (hk.trans hqp.le))) ?_
      hname ht
    intro k w hjk hki hw
    exact hbet k w hjk hki (by rw [hp k hki.le]; exact hw)

/-- What the state says after the actions `as`. -/
def ComboTracker.Tracks (tr : ComboTracker) (br : Dict ℤ (List ℤ)) (as : List ComboAction) : Prop :=
  tr.comboBreakers = br ∧
    ∀ g t name, tr.look g = some (t, name) ↔ ∃ q b, as[q]? = some b ∧
      b.spec.breakAllCombosOnly = false ∧ b.spec.comboGroup = g ∧ ¬ Breaks br g g ∧ ComboOk br as q ∧
      t = b.time ∧ name = b.name ∧ ∀ k c, q < k → as[k]? = some c → c.Leaves br g

/-- One more action. -/
theorem tracks_step {br : Dict ℤ (List ℤ)} {as : List ComboAction} {tr : ComboTracker}
    (h : tr.Tracks br as) (a : ComboAction) (m : SkillModifier) (hm : m.forceCombo = a.forced)
    (ok : Bool) :
    ∃ b tr', ComboTracker.compileStep a.time a.name m (ok, tr) a.spec = .ok (ok && b, tr') ∧
      tr'.Tracks br (as ++ [a]) ∧
      (b = true ↔ a.spec.breakAllCombosOnly = true ∨ ComboOk br (as ++ [a]) as.length) := by
  obtain ⟨hbr, ihs⟩ := h
  have hpre : ∀ k, k < as.length → as[k]? = (as ++ [a])[k]? := by
    intro k hk
    rw [List.getElem?_append_left hk]
  have hlast : (as ++ [a])[as.length]? = some a := by simp
  have hidx : ∀ k v, (as ++ [a])[k]? = some v → k ≤ as.length := by
    intro k v hv
    by_contra hc
    rw [List.getElem?_eq_none (by simp; omega)] at hv
    cases hv
  have hidx' : ∀ k v, as[k]? = some v → k < as.length := by
    intro k v hv
    by_contra hc
    rw [List.getElem?_eq_none (not_lt.1 hc)] at hv
    cases hv
  have hcok : ∀ q, q < as.length → (ComboOk br as q ↔ ComboOk br (as ++ [a]) q) := by
    intro q hq
    constructor
    · exact ComboOk_prefix (fun k hk => hpre k (lt_of_le_of_lt hk hq))
    · exact ComboOk_prefix (fun k hk => (hpre k (lt_of_le_of_lt hk hq)).symm)
  have hsucc : tr.Succ a.time m a.spec ↔ ComboOk br (as ++ [a]) as.length := by
    constructor
    · rintro (h | h | h | ⟨t0, name, hlk, ht, hn⟩)
      · exact .auto _ a hlast h
      · exact .forced _ a hlast (hm ▸ h)
      · exact .first _ a hlast h
      · obtain ⟨q, b, hb, hnb, hg, hself, hok, rfl, rfl, hbet⟩ := (ihs _ _ _).1 hlk
        have hq := hidx' q b hb
        refine .follows _ q a b hlast (by rw [← hpre q hq]; exact hb) hq hnb hg (hg ▸ hself)
          ((hcok q hq).1 hok) ?_ hn ht
        intro k w hjk hk hw
        exact hbet k w hjk (by rw [hpre k hk]; exact hw)
    · intro h
      cases h with
      | auto _ a' ha' h =>
        rw [hlast] at ha'
        cases ha'
        exact Or.inl h
      | forced _ a' ha' h =>
        rw [hlast] at ha'
        cases ha'
        exact Or.inr (Or.inl (hm.trans h))
      | first _ a' ha' h =>
        rw [hlast] at ha'
        cases ha'
        exact Or.inr (Or.inr (Or.inl h))
      | follows _ q a' b ha' hb hq hnb hg hself hok hbet hn ht =>
        rw [hlast] at ha'
        cases ha'
        refine Or.inr (Or.inr (Or.inr ⟨b.time, b.name, ?_, ht, hn⟩))
        rw [ihs]
        refine ⟨q, b, by rw [hpre q hq]; exact hb, hnb, hg, hg ▸ hself, (hcok q hq).2 hok, rfl, rfl, ?_⟩
        intro k w hjk hw
        have hk := hidx' k w hw
        exact hbet k w hjk hk (by rw [← hpre k hk]; exact hw)
  -- the three ways a group can fare
  have hold : ∀ (tr' : ComboTracker) g t name, tr'.look g = tr.look g → a.Leaves br g →
      (tr'.look g = some (t, name) ↔ ∃ q b, (as ++ [a])[q]? = some b ∧
        b.spec.breakAllCombosOnly = false ∧ b.spec.comboGroup = g ∧ ¬ Breaks br g g ∧
        ComboOk br (as ++ [a]) q ∧ t = b.time ∧ name = b.name ∧
        ∀ k c, q < k → (as ++ [a])[k]? = some c → c.Leaves br g) := by
    intro tr' g t name hlk hlv
    rw [hlk, ihs]
    constructor
    · rintro ⟨q, b, hb, hnb, hg, hself, hok, e1, e2, hbet⟩
      have hq := hidx' q b hb
      refine ⟨q, b, by rw [← hpre q hq]; exact hb, hnb, hg, hself, (hcok q hq).1 hok, e1, e2, ?_⟩
      intro k w hjk hw
      rcases lt_or_eq_of_le (hidx k w hw) with hk | hk
      · exact hbet k w hjk (by rw [hpre k hk]; exact hw)
      · subst hk
        rw [hlast] at hw
        cases hw
        exact hlv
    · rintro ⟨q, b, hb, hnb, hg, hself, hok, e1, e2, hbet⟩
      rcases lt_or_eq_of_le (hidx q b hb) with hq | hq
      · refine ⟨q, b, by rw [hpre q hq]; exact hb, hnb, hg, hself, (hcok q hq).2 hok, e1, e2, ?_⟩
        intro k w hjk hw
        have hk := hidx' k w hw
        exact hbet k w hjk (by rw [← hpre k hk]; exact hw)
      · subst hq
        rw [hlast] at hb
        cases hb
        exact absurd hg hlv.2.1
  have hnone : ∀ (tr' : ComboTracker) g t name, tr'.look g = none →
      ¬ (a.spec.breakAllCombosOnly = false ∧ a.spec.comboGroup = g ∧ ¬ Breaks br g g ∧
        ComboOk br (as ++ [a]) as.length) → ¬ a.Leaves br g →
      (tr'.look g = some (t, name) ↔ ∃ q b, (as ++ [a])[q]? = some b ∧
        b.spec.breakAllCombosOnly = false ∧ b.spec.comboGroup = g ∧ ¬ Breaks br g g ∧
        ComboOk br (as ++ [a]) q ∧ t = b.time ∧ name = b.name ∧
        ∀ k c, q < k → (as ++ [a])[k]? = some c → c.Leaves br g) := by
    intro tr' g t name hlk hno hlv
    rw [hlk]
    refine ⟨fun h => (by cases h), ?_⟩
    rintro ⟨q, b, hb, hnb, hg, hself, hok, e1, e2, hbet⟩
    rcases lt_or_eq_of_le (hidx q b hb) with hq | hq
    · exact absurd (hbet as.length a hq hlast) hlv
    · subst hq
      rw [hlast] at hb
      cases hb
      exact absurd ⟨hnb, hg, hself, hok⟩ hno
  cases hb : a.spec.breakAllCombosOnly with
  | true =>
    refine ⟨true, { tr with lastComboSkillUsed := [] }, ?_, ⟨hbr, ?_⟩, by simp⟩
    · unfold ComboTracker.compileStep
      simp [hb]
    · intro g t name
      refine hnone _ g t name (by simp [look]) ?_ ?_
      · rintro ⟨h, _⟩
        rw [hb] at h
        cases h
      · intro h
        have := h.1
        rw [hb] at this
        cases this
  | false =>
    obtain ⟨b, tr', e1, e2, e3, e4⟩ := compileStep_combo a.time a.name m ok tr a.spec hb
    rw [hbr] at e4
    rw [hsucc] at e2
    refine ⟨b, tr', e1, ⟨e3.trans hbr, ?_⟩, by simp [e2]⟩
    intro g t name
    obtain ⟨f1, f2, f3⟩ := e4 g
    by_cases hbk : Breaks br a.spec.comboGroup g
    · refine hnone _ g t name (f1 hbk) ?_ (fun hl => hl.2.2 hbk)
      rintro ⟨_, hg, hself, _⟩
      subst hg
      exact hself hbk
    · by_cases hg : a.spec.comboGroup = g
      · by_cases hok : ComboOk br (as ++ [a]) as.length
        · rw [f2 hbk hg, if_pos (e2.2 hok)]
          constructor
          · intro h
            cases h
            refine ⟨as.length, a, hlast, hb, hg, hg ▸ hbk, hok, rfl, rfl, ?_⟩
            intro k w hk hw
            exact absurd (hidx k w hw) (not_le.2 hk)
          · rintro ⟨q, b', hb', hnb, hgr, hself, hok', e1', e2', hbet⟩
            rcases lt_or_eq_of_le (hidx q b' hb') with hq | hq
            · exact absurd hg (hbet as.length a hq hlast).2.1
            · subst hq
              rw [hlast] at hb'
              cases hb'
              rw [e1', e2']
        · refine hnone _ g t name ?_ (fun h => hok h.2.2.2) (fun hl => hl.2.1 hg)
          rw [f2 hbk hg, if_neg (fun h => hok (e2.1 h))]
      · refine hold tr' g t name ?_ ⟨hb, hg, hbk⟩
        unfold look
        rw [f3 hbk hg]

/-- The actions of one use. -/
theorem tracks_use {br : Dict ℤ (List ℤ)} (n : ℕ) (t : ℚ) (name : String) (m : SkillModifier)
    (specs : List ComboSpec) {as : List ComboAction} {tr : ComboTracker} (h : tr.Tracks br as)
    (ok : Bool) :
    ∃ b tr', specs.foldlM (ComboTracker.compileStep t name m) (ok, tr) = .ok (ok && b, tr') ∧
      tr'.Tracks br (as ++ specs.map (fun s => ⟨n, t, name, m.forceCombo, s⟩)) ∧
      (b = true ↔ ∀ k s, specs[k]? = some s → s.breakAllCombosOnly = true ∨
        ComboOk br (as ++ specs.map (fun s => ⟨n, t, name, m.forceCombo, s⟩)) (as.length + k)) := by
  induction specs generalizing as tr ok with
  | nil => exact ⟨true, tr, by simp, by simpa using h, by simp⟩
  | cons s specs ih =>
    obtain ⟨b1, tr1, e1, e2, e3⟩ := tracks_step h ⟨n, t, name, m.forceCombo, s⟩ m rfl ok
    obtain ⟨b2, tr2, f1, f2, f3⟩ := ih e2 (ok && b1)
    rw [List.append_assoc] at f2 f3
    refine ⟨b1 && b2, tr2, ?_, f2, ?_⟩
    · rw [Py.foldlM_cons, e1, Py.ok_bind, f1, Bool.and_assoc]
    · rw [Bool.and_eq_true, e3, f3]
      have hpre : ComboOk br (as ++ [⟨n, t, name, m.forceCombo, s⟩]) as.length ↔
          ComboOk br (as ++ List.map (fun s => ⟨n, t, name, m.forceCombo, s⟩) (s :: specs)) as.length := by
        have hk : ∀ k, k ≤ as.length → (as ++ [(⟨n, t, name, m.forceCombo, s⟩ : ComboAction)])[k]? =
            (as ++ List.map (fun s => (⟨n, t, name, m.forceCombo, s⟩ : ComboAction)) (s :: specs))[k]? := by
          intro k hk
          rcases lt_or_eq_of_le hk with hk | rfl
          · rw [List.getElem?_append_left hk, List.getElem?_append_left hk]
          · simp
        exact ⟨ComboOk_prefix hk, ComboOk_prefix (fun k h => (hk k h).symm)⟩
      rw [hpre]
      constructor
      · rintro ⟨h0, h1⟩ k s' hs'
        cases k with
        | zero =>
          simp only [List.getElem?_cons_zero, Option.some.injEq] at hs'
          subst hs'
          exact h0
        | succ k =>
          have := h1 k s' (by simpa using hs')
          rw [List.length_append, List.length_singleton, Nat.add_assoc, Nat.add_comm 1 k] at this
          exact this
      · intro hall
        refine ⟨by simpa using hall 0 s (by simp), ?_⟩
        intro k s' hs'
        have := hall (k + 1) s' (by simpa using hs')
        rw [List.length_append, List.length_singleton, Nat.add_assoc, Nat.add_comm 1 k]
        exact this

theorem comboActions_use {n : ℕ} {us : List ComboUse} {a : ComboAction} (h : a ∈ comboActions n us) :
    n ≤ a.use := by
  induction us generalizing n with
  | nil => simp [comboActions] at h
  | cons u us ih =>
    simp only [comboActions, List.mem_append] at h
    rcases h with h | h
    · cases hs : u.skill.getComboSpec u.modifier with
      | error e => simp [hs] at h
      | ok specs =>
        simp only [hs, List.mem_map] at h
        obtain ⟨s, _, rfl⟩ := h
        exact le_rfl
    · have := ih h
      omega

/-- The results of a history: the `i`-th use succeeds iff all its actions do. -/
theorem runCombo_results {br : Dict ℤ (List ℤ)} (us : List ComboUse) (n : ℕ) (pre : List ComboAction)
    (tr tr' : ComboTracker) (outs : List String) (h : tr.Tracks br pre)
    (hpre : ∀ a ∈ pre, a.use < n) (hrun : runCombo tr us = .ok (outs, tr')) :
    tr'.Tracks br (pre ++ comboActions n us) ∧
    ∀ i out, outs[i]? = some out → (out = SimConsts.COMBO_SUCCESS ∨ out = SimConsts.COMBO_FAIL) ∧
      (out = SimConsts.COMBO_SUCCESS ↔ ∀ p a, (pre ++ comboActions n us)[p]? = some a → a.use = n + i →
        a.spec.breakAllCombosOnly = true ∨ ComboOk br (pre ++ comboActions n us) p) := by
  induction us generalizing n pre tr outs with
  | nil =>
    cases hrun
    exact ⟨by simpa [comboActions] using h, by simp⟩
  | cons u us ih =>
    simp only [runCombo] at hrun
    obtain ⟨⟨o, tr1⟩, h1, hrun⟩ := Py.bind_eq_ok.1 hrun
    obtain ⟨⟨os, tr2⟩, h2, hrun⟩ := Py.bind_eq_ok.1 hrun
    simp only [Py.pure_eq, Except.ok.injEq, Prod.mk.injEq] at hrun
    obtain ⟨rfl, rfl⟩ := hrun
    unfold compileAndUpdate at h1
    obtain ⟨specs, hs, h1⟩ := Py.bind_eq_ok.1 h1
    obtain ⟨⟨okb, tr3⟩, h3, h1⟩ := Py.bind_eq_ok.1 h1
    simp only [Py.pure_eq, Except.ok.injEq, Prod.mk.injEq] at h1
    obtain ⟨ho, rfl⟩ := h1
    obtain ⟨b, tr4, e1, e2, e3⟩ := tracks_use n u.time u.skill.name u.modifier specs h true
    rw [h3] at e1
    simp only [Bool.true_and, Except.ok.injEq, Prod.mk.injEq] at e1
    obtain ⟨rfl, rfl⟩ := e1
    set mine : List ComboAction := specs.map (fun s => ⟨n, u.time, u.skill.name,
      u.modifier.forceCombo, s⟩) with hmine
    have hall : comboActions n (u :: us) = mine ++ comboActions (n + 1) us := by
      simp only [comboActions, hs, hmine]
    obtain ⟨g1, g2⟩ := ih (n + 1) (pre ++ mine) tr3 os e2 (by
      intro a ha
      rcases List.mem_append.1 ha with ha | ha
      · exact (hpre a ha).trans (Nat.lt_succ_self n)
      · obtain ⟨s, _, rfl⟩ := List.mem_map.1 ha
        exact Nat.lt_succ_self n) h2
    rw [List.append_assoc, ← hall] at g1 g2
    refine ⟨g1, ?_⟩
    intro i out hout
    cases i with
    | succ i =>
      have := g2 i out (by simpa using hout)
      simpa [Nat.add_assoc, Nat.add_comm 1] using this
    | zero =>
      simp only [List.getElem?_cons_zero, Option.some.injEq] at hout
      subst hout
      rw [← ho]
      refine ⟨by cases okb <;> simp, ?_⟩
      have hiff : (if okb = true then SimConsts.COMBO_SUCCESS else SimConsts.COMBO_FAIL) =
          SimConsts.COMBO_SUCCESS ↔ okb = true := by
        cases okb
        · simp [SimConsts.COMBO_SUCCESS, SimConsts.COMBO_FAIL]
        · simp
      rw [hiff, e3, hall]
      have htrans : ∀ k, k < mine.length → (ComboOk br (pre ++ mine) (pre.length + k) ↔
          ComboOk br (pre ++ (mine ++ comboActions (n + 1) us)) (pre.length + k)) := by
        intro k hk
        have hk' : ∀ j, j ≤ pre.length + k → (pre ++ mine)[j]? =
            (pre ++ (mine ++ comboActions (n + 1) us))[j]? := by
          intro j hj
          rw [← List.append_assoc]
          exact (List.getElem?_append_left (by rw [List.length_append]; omega)).symm
        exact ⟨ComboOk_prefix hk', ComboOk_prefix (fun j hj => (hk' j hj).symm)⟩
      constructor
      · intro hm p a hp hu
        by_cases hp1 : p < pre.length
        · rw [List.getElem?_append_left hp1] at hp
          have := hpre a (List.mem_of_getElem? hp)
          omega
        obtain ⟨k, rfl⟩ := Nat.exists_eq_add_of_le (not_lt.1 hp1)
        rw [List.getElem?_append_right (by omega), Nat.add_sub_cancel_left] at hp
        by_cases hk : k < mine.length
        · rw [List.getElem?_append_left hk, hmine, List.getElem?_map] at hp
          obtain ⟨s, hs', rfl⟩ := Option.map_eq_some_iff.1 hp
          rw [← htrans k hk]
          exact hm k s hs'
        · rw [List.getElem?_append_right (not_lt.1 hk)] at hp
          have := comboActions_use (List.mem_of_getElem? hp)
          omega
      · intro hm k s hs'
        have hk : k < mine.length := by
          rw [hmine, List.length_map]
          exact (List.getElem?_eq_some_iff.1 hs').1
        rw [htrans k hk]
        refine hm (pre.length + k) ⟨n, u.time, u.skill.name, u.modifier.forceCombo, s⟩ ?_ rfl
        rw [List.getElem?_append_right (by omega), Nat.add_sub_cancel_left,
          List.getElem?_append_left hk, hmine, List.getElem?_map, hs']
        rfl

end Ama
