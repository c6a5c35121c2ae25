import Verif.Spec.Trackers
import Verif.Lemmas.Py

/-!
# Lemmas about the gauge tracker
-/

namespace Ama

open Spec JobResourceTracker

section SortExt

variable {α K : Type} [LinearOrder K] (key : α → K)

theorem sorted_ext {l l' : List α} (h : l.Pairwise (fun x y => key x ≤ key y))
    (h' : l'.Pairwise (fun x y => key x ≤ key y))
    (hf : ∀ k, l.filter (fun a => decide (key a = k)) = l'.filter (fun a => decide (key a = k))) :
    l = l' := by
  induction l generalizing l' with
  | nil =>
    cases l' with
    | nil => rfl
    | cons b l' =>
      have := hf (key b)
      simp at this
  | cons a l ih =>
    cases l' with
    | nil =>
      have := hf (key a)
      simp at this
    | cons b l' =>
      rw [List.pairwise_cons] at h h'
      have hab : key a = key b := by
        apply le_antisymm
        · have hb : b ∈ (a :: l).filter (fun x => decide (key x = key b)) := by
            rw [hf]; simp
          rcases List.mem_cons.1 (List.mem_filter.1 hb).1 with e | e
          · rw [e]
          · exact h.1 b e
        · have ha : a ∈ (b :: l').filter (fun x => decide (key x = key a)) := by
            rw [← hf]; simp
          rcases List.mem_cons.1 (List.mem_filter.1 ha).1 with e | e
          · rw [e]
          · exact h'.1 a e
      have h0 := hf (key a)
      have e1 : a = b := by
        simp only [List.filter_cons, hab, decide_true, if_true, List.cons.injEq] at h0
        exact h0.1
      subst e1
      congr 1
      refine ih h.2 h'.2 ?_
      intro k
      have := hf k
      simp only [List.filter_cons] at this
      by_cases hk : key a = k
      · simpa [hk] using this
      · simpa [hk] using this

theorem sortBy_eq_iff {l l' : List α} : sortBy key l = sortBy key l' ↔
    ∀ k, l.filter (fun a => decide (key a = k)) = l'.filter (fun a => decide (key a = k)) := by
  constructor
  · intro h k
    rw [← sortBy_stable key l k, h, sortBy_stable key l' k]
  · intro h
    refine sorted_ext key (sortBy_sorted key l) (sortBy_sorted key l') ?_
    intro k
    rw [sortBy_stable, sortBy_stable, h]

theorem sortBy_idem (l : List α) : sortBy key (sortBy key l) = sortBy key l :=
  sortBy_of_sorted key (sortBy_sorted key l)

theorem sortBy_append_congr {l l' m : List α} (h : sortBy key l = sortBy key l') :
    sortBy key (l ++ m) = sortBy key (l' ++ m) := by
  rw [sortBy_eq_iff] at h ⊢
  intro k
  rw [List.filter_append, List.filter_append, h]

/-- Sorting a list whose first part is entirely before its second part. -/
theorem sortBy_append_of_le {l m : List α} (h : ∀ a ∈ l, ∀ b ∈ m, key a ≤ key b) :
    sortBy key (l ++ m) = sortBy key l ++ sortBy key m := by
  refine sorted_ext key (sortBy_sorted key _) ?_ ?_
  · rw [List.pairwise_append]
    refine ⟨sortBy_sorted key l, sortBy_sorted key m, ?_⟩
    intro a ha b hb
    exact h a ((mem_sortBy key).1 ha) b ((mem_sortBy key).1 hb)
  · intro k
    rw [sortBy_stable, List.filter_append, List.filter_append, sortBy_stable, sortBy_stable]

/-- Sorting, split at a threshold. -/
theorem sortBy_split (l : List α) (k : K) :
    sortBy key l = sortBy key (l.filter (fun a => decide (key a ≤ k))) ++
      sortBy key (l.filter (fun a => decide (k < key a))) := by
  rw [← sortBy_append_of_le]
  · rw [sortBy_eq_iff]
    intro q
    rw [List.filter_append, List.filter_filter, List.filter_filter]
    by_cases hq : q ≤ k
    · have h1 : l.filter (fun a => decide (key a = q) && decide (key a ≤ k)) =
          l.filter (fun a => decide (key a = q)) := by
        apply List.filter_congr
        intro a _
        by_cases h : key a = q
        · simp [h, hq]
        · simp [h]
      have h2 : l.filter (fun a => decide (key a = q) && decide (k < key a)) = [] := by
        rw [List.filter_eq_nil_iff]
        intro a _
        by_cases h : key a = q
        · simp [h, hq]
        · simp [h]
      rw [h1, h2, List.append_nil]
    · have h1 : l.filter (fun a => decide (key a = q) && decide (k < key a)) =
          l.filter (fun a => decide (key a = q)) := by
        apply List.filter_congr
        intro a _
        by_cases h : key a = q
        · simp [h, not_le.1 hq]
        · simp [h]
      have h2 : l.filter (fun a => decide (key a = q) && decide (key a ≤ k)) = [] := by
        rw [List.filter_eq_nil_iff]
        intro a _
        by_cases h : key a = q
        · simp [h, hq]
        · simp [h]
      rw [h1, h2, List.nil_append]
  · intro a ha b hb
    have h1 := (List.mem_filter.1 ha).2
    have h2 := (List.mem_filter.1 hb).2
    simp only [decide_eq_true_eq] at h1 h2
    exact h1.trans h2.le

end SortExt

namespace JobResourceTracker

/-- Every configured gauge has a list, and names are distinct. -/
def Wf (tr : JobResourceTracker) : Prop :=
  Dict.keys tr.resources = Dict.keys tr.configs ∧ (Dict.keys tr.resources).Nodup

/-- What a query reports about one gauge. -/
def report (tr : JobResourceTracker) (t : ℚ) (sk name : String) : Option (String × ℤ × String) :=
  match Dict.get? tr.configs name, Dict.get? tr.resources name with
  | some cfg, some l =>
    if sk ∈ cfg.skillAllowlist ∧ 0 < level cfg t (sortBy (·.start) l) then
      some (name, level cfg t (sortBy (·.start) l),
        reportStr cfg name (level cfg t (sortBy (·.start) l)))
    else none
  | _, _ => none

/-- Same configuration and, up to sorting, the same lists. -/
def Same (tr tr' : JobResourceTracker) : Prop :=
  tr.configs = tr'.configs ∧ Dict.keys tr.resources = Dict.keys tr'.resources ∧
  ∀ name, (Dict.get? tr.resources name).map (sortBy (·.start)) =
    (Dict.get? tr'.resources name).map (sortBy (·.start))

theorem Same.refl (tr : JobResourceTracker) : Same tr tr := ⟨rfl, rfl, fun _ => rfl⟩

theorem Same.symm {tr tr' : JobResourceTracker} (h : Same tr tr') : Same tr' tr :=
  ⟨h.1.symm, h.2.1.symm, fun n => (h.2.2 n).symm⟩

theorem Same.trans {a b c : JobResourceTracker} (h : Same a b) (h' : Same b c) : Same a c :=
  ⟨h.1.trans h'.1, h.2.1.trans h'.2.1, fun n => (h.2.2 n).trans (h'.2.2 n)⟩

theorem Same.wf {tr tr' : JobResourceTracker} (h : Same tr tr') (hw : Wf tr) : Wf tr' := by
  unfold Wf at *
  rw [← h.1, ← h.2.1]
  exact hw

theorem Same.report {tr tr' : JobResourceTracker} (h : Same tr tr') (t : ℚ) (sk name : String) :
    tr.report t sk name = tr'.report t sk name := by
  unfold JobResourceTracker.report
  rw [h.1]
  have := h.2.2 name
  cases h1 : Dict.get? tr.resources name with
  | none =>
    rw [h1] at this
    cases h2 : Dict.get? tr'.resources name with
    | none => rfl
    | some l => rw [h2] at this; cases this
  | some l =>
    rw [h1] at this
    cases h2 : Dict.get? tr'.resources name with
    | none => rw [h2] at this; cases this
    | some l' =>
      rw [h2] at this
      simp only [Option.map_some, Option.some.injEq] at this
      cases Dict.get? tr'.configs name with
      | none => rfl
      | some cfg => simp only [this]

/-- The result of a query. -/
theorem compile_fold (t : ℚ) (sk : String) (ks : List String) (tr : JobResourceTracker)
    (hw : Wf tr) (hks : ∀ k ∈ ks, k ∈ Dict.keys tr.resources) (res : List (String × ℤ × String)) :
    ∃ tr', ks.foldlM (compileStep t sk) (res, tr) =
      .ok (res ++ ks.filterMap (tr.report t sk), tr') ∧ Same tr tr' := by
  induction ks generalizing tr res with
  | nil => exact ⟨tr, by simp, Same.refl tr⟩
  | cons k ks ih =>
    have hk := hks k (by simp)
    obtain ⟨l, hl⟩ := Option.isSome_iff_exists.1 (Dict.get?_isSome.2 hk)
    obtain ⟨cfg, hcfg⟩ := Option.isSome_iff_exists.1 (Dict.get?_isSome.2 (by rw [← hw.1]; exact hk))
    have hstep : ∃ tr1, compileStep t sk (res, tr) k =
        .ok (res ++ (tr.report t sk k).toList, tr1) ∧ Same tr tr1 := by
      unfold compileStep report
      simp only [Dict.get_ok.2 hcfg, Dict.get_ok.2 hl, hcfg, hl, Py.ok_bind]
      by_cases hv : sk ∈ cfg.skillAllowlist
      · have hsame : Same tr { tr with
            resources := Dict.set tr.resources k (sortBy (·.start) l) } := by
          refine ⟨rfl, ?_, ?_⟩
          · simp only [Dict.keys_set, hk, if_true]
          · intro n
            simp only [Dict.get?_set]
            split_ifs with hn
            · subst hn
              rw [hl]
              simp only [Option.map_some, sortBy_idem]
            · rfl
        simp only [hv, not_true, if_false, true_and]
        split_ifs with h0
        · exact ⟨_, rfl, hsame⟩
        · exact ⟨_, by simp, hsame⟩
      · simp only [hv, not_false_iff, if_true, false_and, if_false]
        exact ⟨tr, by simp, Same.refl tr⟩
    obtain ⟨tr1, h1, hs1⟩ := hstep
    obtain ⟨tr2, h2, hs2⟩ := ih tr1 (hs1.wf hw) (by
      intro q hq
      rw [← hs1.2.1]
      exact hks q (by simp [hq])) (res ++ (tr.report t sk k).toList)
    refine ⟨tr2, ?_, hs1.trans hs2⟩
    rw [Py.foldlM_cons, h1, Py.ok_bind, h2]
    have hfun : tr1.report t sk = tr.report t sk := by
      funext n
      exact (hs1.report t sk n).symm
    rw [hfun]
    cases h : tr.report t sk k with
    | none => simp [h]
    | some r => simp [h]

theorem compileReports_eq {tr : JobResourceTracker} (hw : Wf tr) (t : ℚ) (sk : String) :
    ∃ tr', tr.compileReports t sk = .ok ((Dict.keys tr.resources).filterMap (tr.report t sk), tr') ∧
      Same tr tr' := by
  obtain ⟨tr', h, hs⟩ := compile_fold t sk (Dict.keys tr.resources) tr hw (fun k h => h) []
  exact ⟨tr', by simpa [compileReports] using h, hs⟩

theorem compile_eq {tr : JobResourceTracker} (hw : Wf tr) (t : ℚ) (sk : String) :
    ∃ tr', tr.compile t sk =
      .ok (strJoin ", " (((Dict.keys tr.resources).filterMap (tr.report t sk)).map (·.2.2)), tr') ∧
      Same tr tr' := by
  obtain ⟨tr', h, hs⟩ := compileReports_eq hw t sk
  refine ⟨tr', ?_, hs⟩
  unfold compile
  rw [h]
  rfl

theorem report_name {tr : JobResourceTracker} {t : ℚ} {sk name : String}
    {r : String × ℤ × String} (h : tr.report t sk name = some r) : r.1 = name := by
  unfold report at h
  split at h
  · split_ifs at h
    cases h
    rfl
  · cases h

/-- A query reports amount `n` for a gauge iff its level is `n > 0` and the skill may see it. -/
theorem reported_iff {tr : JobResourceTracker} (hw : Wf tr) {t : ℚ} {sk name : String} {n : ℤ} :
    Reported tr t sk name n ↔ ∃ cfg l, Dict.get? tr.configs name = some cfg ∧
      Dict.get? tr.resources name = some l ∧ sk ∈ cfg.skillAllowlist ∧ 0 < n ∧
      level cfg t (sortBy (·.start) l) = n := by
  obtain ⟨tr', hc, _⟩ := compileReports_eq hw t sk
  unfold Reported
  constructor
  · rintro ⟨rs, tr2, s, h, hin⟩
    rw [hc] at h
    cases h
    obtain ⟨q, hq, hr⟩ := List.mem_filterMap.1 hin
    have hname := report_name hr
    simp only at hname
    subst hname
    unfold report at hr
    split at hr
    · rename_i cfg l h1 h2
      split_ifs at hr with hv
      simp only [Option.some.injEq, Prod.mk.injEq, true_and] at hr
      exact ⟨cfg, l, h1, h2, hv.1, hr.1 ▸ hv.2, hr.1⟩
    · cases hr
  · rintro ⟨cfg, l, h1, h2, hv, hn, hl⟩
    refine ⟨_, _, reportStr cfg name n, hc, ?_⟩
    refine List.mem_filterMap.2 ⟨name, Dict.get?_isSome.1 (by rw [h2]; rfl), ?_⟩
    unfold report
    rw [h1, h2]
    simp only [hl, hv, hn, and_self, if_true]

/-! ### Adding -/

/-- The entries that one spec adds to the list of `name`. -/
def specEntries (t : ℚ) (name : String) (spec : JobResourceSpec) : List ResourceEntry :=
  if spec.clearAllResourcesOnly then [{ start := t, endT := ⊤, spec := { name := name, change := ⊥ } }]
  else if spec.name = name then
    [{ start := t, endT := (t : WithTop ℚ) + spec.duration, spec := spec }]
  else []

theorem get?_clear (d : Dict String (List ResourceEntry)) (f : String → List ResourceEntry)
    (name : String) :
    Dict.get? (d.map (fun kv => (kv.1, kv.2 ++ f kv.1))) name =
      (Dict.get? d name).map (· ++ f name) := by
  induction d with
  | nil => rfl
  | cons p d ih =>
    obtain ⟨k, v⟩ := p
    simp only [List.map_cons, Dict.get?_cons, ih]
    split_ifs with h
    · subst h; rfl
    · rfl

theorem addSpec_ok {t : ℚ} {tr tr' : JobResourceTracker} {spec : JobResourceSpec}
    (h : addSpec t tr spec = .ok tr') :
    tr'.configs = tr.configs ∧ Dict.keys tr'.resources = Dict.keys tr.resources ∧
    ∀ name, Dict.get? tr'.resources name =
      (Dict.get? tr.resources name).map (· ++ specEntries t name spec) := by
  unfold addSpec at h
  split_ifs at h with hc
  · cases h
    refine ⟨rfl, ?_, ?_⟩
    · simp [clearResources, Dict.keys]
    · intro name
      unfold clearResources
      simp only
      rw [get?_clear tr.resources (fun n => [{ start := t, endT := ⊤, spec := { name := n, change := ⊥ } }])]
      simp [specEntries, hc]
  · obtain ⟨l, hl, h⟩ := Py.bind_eq_ok.1 h
    simp only [Py.pure_eq, Except.ok.injEq] at h
    subst h
    have hl' := Dict.get_ok.1 hl
    refine ⟨rfl, ?_, ?_⟩
    · simp only [Dict.keys_set]
      rw [if_pos (Dict.get?_isSome.1 (by rw [hl']; rfl))]
    · intro name
      simp only [Dict.get?_set, specEntries, hc, Bool.false_eq_true, if_false]
      split_ifs with hn
      · subst hn
        rw [hl']
        rfl
      · cases Dict.get? tr.resources name <;> simp

theorem addSpec_ok_iff {t : ℚ} {tr : JobResourceTracker} {spec : JobResourceSpec} :
    (∃ tr', addSpec t tr spec = .ok tr') ↔
      spec.clearAllResourcesOnly = true ∨ spec.name ∈ Dict.keys tr.resources := by
  unfold addSpec
  split_ifs with hc
  · simp [hc]
  · simp only [hc, Bool.false_eq_true, false_or]
    constructor
    · rintro ⟨tr', h⟩
      obtain ⟨l, hl, h⟩ := Py.bind_eq_ok.1 h
      exact Dict.get?_isSome.1 (by rw [Dict.get_ok.1 hl]; rfl)
    · intro h
      obtain ⟨l, hl⟩ := Option.isSome_iff_exists.1 (Dict.get?_isSome.2 h)
      exact ⟨_, by rw [Dict.get_ok.2 hl]; rfl⟩

theorem addSpecs_ok {t : ℚ} {specs : List JobResourceSpec} {tr tr' : JobResourceTracker}
    (h : specs.foldlM (addSpec t) tr = .ok tr') :
    tr'.configs = tr.configs ∧ Dict.keys tr'.resources = Dict.keys tr.resources ∧
    ∀ name, Dict.get? tr'.resources name =
      (Dict.get? tr.resources name).map (· ++ specs.flatMap (specEntries t name)) := by
  induction specs generalizing tr with
  | nil =>
    cases h
    refine ⟨rfl, rfl, ?_⟩
    intro name
    cases Dict.get? tr'.resources name <;> simp
  | cons s specs ih =>
    rw [Py.foldlM_cons] at h
    obtain ⟨tr1, h1, h2⟩ := Py.bind_eq_ok.1 h
    obtain ⟨a1, a2, a3⟩ := addSpec_ok h1
    obtain ⟨b1, b2, b3⟩ := ih h2
    refine ⟨b1.trans a1, b2.trans a2, ?_⟩
    intro name
    rw [b3, a3]
    cases Dict.get? tr.resources name <;> simp

theorem addSpecs_ok_iff {t : ℚ} {specs : List JobResourceSpec} {tr : JobResourceTracker} :
    (∃ tr', specs.foldlM (addSpec t) tr = .ok tr') ↔
      ∀ spec ∈ specs, spec.clearAllResourcesOnly = true ∨ spec.name ∈ Dict.keys tr.resources := by
  induction specs generalizing tr with
  | nil => simp
  | cons s specs ih =>
    rw [Py.foldlM_cons]
    constructor
    · rintro ⟨tr', h⟩
      obtain ⟨tr1, h1, h2⟩ := Py.bind_eq_ok.1 h
      intro spec hs
      rcases List.mem_cons.1 hs with rfl | hs
      · exact addSpec_ok_iff.1 ⟨_, h1⟩
      · have := ih.1 ⟨_, h2⟩ spec hs
        rw [(addSpec_ok h1).2.1] at this
        exact this
    · intro h
      obtain ⟨tr1, h1⟩ := addSpec_ok_iff.2 (h s (by simp))
      rw [h1, Py.ok_bind]
      apply ih.2
      intro spec hs
      rw [(addSpec_ok h1).2.1]
      exact h spec (by simp [hs])

/-- The entries that a call adds to the list of `name`. -/
def opEntries (name : String) : GaugeOp → List ResourceEntry
  | .add t skill m =>
    match skill.getJobResourceSpec m with
    | .ok specs => specs.flatMap (specEntries t name)
    | .error _ => []
  | .query _ _ => []

/-- The call does not raise. -/
def opOk (names : List String) : GaugeOp → Prop
  | .add _ skill m => ∃ specs, skill.getJobResourceSpec m = .ok specs ∧
      ∀ spec ∈ specs, spec.clearAllResourcesOnly = true ∨ spec.name ∈ names
  | .query _ _ => True

theorem opEntries_start {name : String} {op : GaugeOp} {e : ResourceEntry}
    (h : e ∈ opEntries name op) : e.start = op.time := by
  cases op with
  | query t s => simp [opEntries] at h
  | add t skill m =>
    simp only [opEntries] at h
    cases hs : skill.getJobResourceSpec m with
    | error e' => rw [hs] at h; simp at h
    | ok specs =>
      rw [hs] at h
      simp only [List.mem_flatMap] at h
      obtain ⟨spec, _, h⟩ := h
      unfold specEntries at h
      split_ifs at h
      · simp only [List.mem_singleton] at h; rw [h]; rfl
      · simp only [List.mem_singleton] at h; rw [h]; rfl
      · simp at h

theorem addResource_ok {tr tr' : JobResourceTracker} {t : ℚ} {skill : SkillCore} {m : SkillModifier}
    (h : tr.addResource t skill m = .ok tr') :
    tr'.configs = tr.configs ∧ Dict.keys tr'.resources = Dict.keys tr.resources ∧
    ∀ name, Dict.get? tr'.resources name =
      (Dict.get? tr.resources name).map (· ++ opEntries name (.add t skill m)) := by
  unfold addResource at h
  obtain ⟨specs, h1, h2⟩ := Py.bind_eq_ok.1 h
  obtain ⟨a, b, c⟩ := addSpecs_ok h2
  refine ⟨a, b, ?_⟩
  intro name
  rw [c]
  simp only [opEntries, h1]

theorem addResource_ok_iff {tr : JobResourceTracker} {t : ℚ} {skill : SkillCore} {m : SkillModifier} :
    (∃ tr', tr.addResource t skill m = .ok tr') ↔
      opOk (Dict.keys tr.resources) (.add t skill m) := by
  unfold addResource opOk
  constructor
  · rintro ⟨tr', h⟩
    obtain ⟨specs, h1, h2⟩ := Py.bind_eq_ok.1 h
    exact ⟨specs, h1, addSpecs_ok_iff.1 ⟨_, h2⟩⟩
  · rintro ⟨specs, h1, h2⟩
    rw [h1, Py.ok_bind]
    exact addSpecs_ok_iff.2 h2

theorem wf_of_eq {tr tr' : JobResourceTracker} (hw : Wf tr) (h1 : tr'.configs = tr.configs)
    (h2 : Dict.keys tr'.resources = Dict.keys tr.resources) : Wf tr' := by
  unfold Wf
  rw [h1, h2]
  exact hw

/-- The state after a history, up to sorting. -/
theorem runGauge_ok {ops : List GaugeOp} {tr tr' : JobResourceTracker} (hw : Wf tr)
    (h : runGauge tr ops = .ok tr') :
    Wf tr' ∧ tr'.configs = tr.configs ∧ Dict.keys tr'.resources = Dict.keys tr.resources ∧
    ∀ name, (Dict.get? tr'.resources name).map (sortBy (·.start)) =
      (Dict.get? tr.resources name).map (fun l => sortBy (·.start) (l ++ ops.flatMap (opEntries name))) := by
  induction ops generalizing tr with
  | nil =>
    cases h
    refine ⟨hw, rfl, rfl, ?_⟩
    intro name
    simp
  | cons op ops ih =>
    cases op with
    | add t skill m =>
      simp only [runGauge] at h
      obtain ⟨tr1, h1, h2⟩ := Py.bind_eq_ok.1 h
      obtain ⟨a1, a2, a3⟩ := addResource_ok h1
      obtain ⟨b0, b1, b2, b3⟩ := ih (wf_of_eq hw a1 a2) h2
      refine ⟨b0, b1.trans a1, b2.trans a2, ?_⟩
      intro name
      rw [b3, a3]
      cases Dict.get? tr.resources name <;> simp
    | query t s =>
      simp only [runGauge] at h
      obtain ⟨⟨out, tr1⟩, h1, h2⟩ := Py.bind_eq_ok.1 h
      obtain ⟨tr2, h3, hs⟩ := compile_eq hw t s
      rw [h1] at h3
      cases h3
      obtain ⟨b0, b1, b2, b3⟩ := ih (hs.wf hw) h2
      refine ⟨b0, b1.trans hs.1.symm, b2.trans hs.2.1.symm, ?_⟩
      intro name
      rw [b3]
      have := hs.2.2 name
      cases h4 : Dict.get? tr.resources name with
      | none =>
        rw [h4] at this
        cases h5 : Dict.get? tr1.resources name with
        | none => rfl
        | some l => rw [h5] at this; cases this
      | some l =>
        rw [h4] at this
        cases h5 : Dict.get? tr1.resources name with
        | none => rw [h5] at this; cases this
        | some l' =>
          rw [h5] at this
          simp only [Option.map_some, Option.some.injEq] at this ⊢
          simp only [List.flatMap_cons, opEntries, List.nil_append]
          exact sortBy_append_congr _ this.symm

theorem runGauge_ok_iff {ops : List GaugeOp} {tr : JobResourceTracker} (hw : Wf tr) :
    (∃ tr', runGauge tr ops = .ok tr') ↔ ∀ op ∈ ops, opOk (Dict.keys tr.resources) op := by
  induction ops generalizing tr with
  | nil => simp [runGauge]
  | cons op ops ih =>
    cases op with
    | add t skill m =>
      simp only [runGauge]
      constructor
      · rintro ⟨tr', h⟩
        obtain ⟨tr1, h1, h2⟩ := Py.bind_eq_ok.1 h
        obtain ⟨a1, a2, _⟩ := addResource_ok h1
        have := (ih (wf_of_eq hw a1 a2)).1 ⟨_, h2⟩
        rw [a2] at this
        intro op hop
        rcases List.mem_cons.1 hop with rfl | hop
        · exact addResource_ok_iff.1 ⟨_, h1⟩
        · exact this op hop
      · intro h
        obtain ⟨tr1, h1⟩ := addResource_ok_iff.2 (h (.add t skill m) (by simp))
        obtain ⟨a1, a2, _⟩ := addResource_ok h1
        rw [h1, Py.ok_bind]
        apply (ih (wf_of_eq hw a1 a2)).2
        intro op hop
        rw [a2]
        exact h op (by simp [hop])
    | query t s =>
      simp only [runGauge]
      obtain ⟨tr2, h3, hs⟩ := compile_eq hw t s
      rw [h3, Py.ok_bind]
      rw [ih (hs.wf hw), ← hs.2.1]
      constructor
      · intro h op hop
        rcases List.mem_cons.1 hop with rfl | hop
        · trivial
        · exact h op hop
      · intro h op hop
        exact h op (by simp [hop])

theorem init_wf (configs : Dict String JobResourceSettings) (h : (Dict.keys configs).Nodup) :
    Wf (init configs) := by
  have : Dict.keys (init configs).resources = Dict.keys configs := by
    simp [init, Dict.keys]
  exact ⟨this, by rw [this]; exact h⟩

/-! ### Levels -/

theorem changeTotal_bounds (total : ℤ) (c : WithBot ℤ) (mx : ℤ) :
    0 ≤ changeTotal total c mx ∧ changeTotal total c mx ≤ max 0 mx := by
  cases c with
  | bot => simp [changeTotal]
  | coe c =>
    simp only [changeTotal]
    refine ⟨le_max_left _ _, max_le_max le_rfl (min_le_right _ _)⟩

theorem levelStep_bounds (cfg : JobResourceSettings) (t : ℚ) (acc : LevelAcc) (e : ResourceEntry)
    (h : 0 ≤ acc.total ∧ acc.total ≤ max 0 cfg.maxValue) :
    0 ≤ (levelStep cfg t acc e).total ∧ (levelStep cfg t acc e).total ≤ max 0 cfg.maxValue := by
  unfold levelStep
  simp only
  split_ifs
  all_goals first
    | exact changeTotal_bounds _ _ _
    | exact ⟨le_rfl, le_max_left _ _⟩
    | exact h

theorem level_bounds (cfg : JobResourceSettings) (t : ℚ) (l : List ResourceEntry) :
    0 ≤ level cfg t l ∧ level cfg t l ≤ max 0 cfg.maxValue := by
  have hfold : ∀ (l : List ResourceEntry) (acc : LevelAcc),
      (0 ≤ acc.total ∧ acc.total ≤ max 0 cfg.maxValue) →
      0 ≤ (l.foldl (levelStep cfg t) acc).total ∧
        (l.foldl (levelStep cfg t) acc).total ≤ max 0 cfg.maxValue := by
    intro l
    induction l with
    | nil => intro acc h; exact h
    | cons e l ih => intro acc h; exact ih _ (levelStep_bounds cfg t acc e h)
  have := hfold l {} ⟨le_rfl, le_max_left _ _⟩
  unfold level
  simp only
  split
  · exact this
  · split_ifs
    · exact ⟨le_rfl, le_max_left _ _⟩
    · exact this

theorem level_zero_of_fold {cfg : JobResourceSettings} {t : ℚ} {l : List ResourceEntry}
    (h : (l.foldl (levelStep cfg t) {}).total = 0) : level cfg t l = 0 := by
  unfold level
  simp only
  split
  · exact h
  · split_ifs
    · rfl
    · exact h

/-- Steps that gain nothing keep an empty gauge empty. -/
theorem fold_zero (cfg : JobResourceSettings) (t : ℚ) (l : List ResourceEntry) (acc : LevelAcc)
    (h0 : acc.total = 0) (hl : ∀ e ∈ l, e.spec.change ≤ 0 ∨ t < e.start) :
    (l.foldl (levelStep cfg t) acc).total = 0 := by
  induction l generalizing acc with
  | nil => exact h0
  | cons e l ih =>
    refine ih _ ?_ (fun e' he' => hl e' (by simp [he']))
    unfold levelStep
    simp only [h0, ite_self]
    by_cases h : t < e.start ∨ e.endT < (t : WithTop ℚ)
    · rw [if_pos h]
    · rw [if_neg h]
      rcases hl e (by simp) with hc | hc
      · revert hc
        cases e.spec.change with
        | bot => intro _; rfl
        | coe c =>
          intro hc
          have hc' : c ≤ 0 := by exact_mod_cast hc
          simp only [changeTotal]
          exact max_eq_left ((min_le_left _ _).trans (by omega))
      · exact absurd (Or.inl hc) h

/-- The refresh time after processing a sorted list with a refreshing entry at the latest time `R`. -/
theorem fold_lastRefresh (cfg : JobResourceSettings) (t R : ℚ) (l : List ResourceEntry)
    (hs : l.Pairwise (fun x y => x.start ≤ y.start))
    (hR : ∃ e ∈ l, e.spec.refreshesDurationOfLastGained = true ∧ e.start = R)
    (hmax : ∀ e ∈ l, e.spec.refreshesDurationOfLastGained = true → e.start ≤ R) (acc : LevelAcc) :
    (l.foldl (levelStep cfg t) acc).lastRefresh = some R := by
  have hlast : ∀ (acc : LevelAcc) (e : ResourceEntry), (levelStep cfg t acc e).lastRefresh =
      some (if e.spec.refreshesDurationOfLastGained then e.start else acc.lastRefresh.getD e.start) := by
    intro acc e
    unfold levelStep
    simp only
    split_ifs <;> rfl
  induction l using List.reverseRecOn with
  | nil => obtain ⟨e, he, _⟩ := hR; simp at he
  | append_singleton l e ih =>
    rw [List.foldl_append, List.foldl_cons, List.foldl_nil, hlast]
    rw [List.pairwise_append] at hs
    by_cases hr : e.spec.refreshesDurationOfLastGained = true
    · rw [if_pos hr]
      obtain ⟨e0, he0, hr0, hs0⟩ := hR
      have h1 := hmax e (by simp) hr
      have h2 : R ≤ e.start := by
        rcases List.mem_append.1 he0 with h | h
        · rw [← hs0]
          exact hs.2.2 e0 h e (by simp)
        · simp at h
          rw [← hs0, h]
      rw [le_antisymm h1 h2]
    · rw [if_neg hr]
      obtain ⟨e0, he0, hr0, hs0⟩ := hR
      have hin : e0 ∈ l := by
        rcases List.mem_append.1 he0 with h | h
        · exact h
        · simp at h
          rw [h] at hr0
          exact absurd hr0 hr
      rw [ih hs.1 ⟨e0, hin, hr0, hs0⟩ (fun e he => hmax e (by simp [he]))]
      rfl

/-- Future entries either leave the total alone or empty the gauge; the first of them empties it if
the gauge has expired before. -/
theorem fold_future (cfg : JobResourceSettings) (t : ℚ) (l : List ResourceEntry) (acc : LevelAcc)
    (hf : ∀ e ∈ l, t < e.start) :
    ((l.foldl (levelStep cfg t) acc).total = acc.total ∨ (l.foldl (levelStep cfg t) acc).total = 0) ∧
    (cfg.expiryFromLastGain = ⊤ → (l.foldl (levelStep cfg t) acc).total = acc.total) := by
  induction l generalizing acc with
  | nil => exact ⟨Or.inl rfl, fun _ => rfl⟩
  | cons e l ih =>
    obtain ⟨h1, h2⟩ := ih (levelStep cfg t acc e) (fun e' he' => hf e' (by simp [he']))
    have hst : (levelStep cfg t acc e).total = acc.total ∨ (levelStep cfg t acc e).total = 0 := by
      unfold levelStep
      simp only [hf e (by simp), true_or, if_true]
      split_ifs
      · exact Or.inr rfl
      · exact Or.inl rfl
    rw [List.foldl_cons]
    constructor
    · rcases h1 with h1 | h1
      · rcases hst with hst | hst
        · exact Or.inl (h1.trans hst)
        · exact Or.inr (h1.trans hst)
      · exact Or.inr h1
    · intro htop
      rw [h2 htop]
      unfold levelStep
      simp only [hf e (by simp), true_or, if_true, htop, WithTop.add_top, not_top_lt, if_false]

theorem fold_future_expired (cfg : JobResourceSettings) (t : ℚ) (l : List ResourceEntry)
    (acc : LevelAcc) (hne : l ≠ []) (hf : ∀ e ∈ l, t < e.start) (R : ℚ)
    (hR : acc.lastRefresh = some R)
    (hexp : (R : WithTop ℚ) + cfg.expiryFromLastGain < (t : WithTop ℚ)) :
    (l.foldl (levelStep cfg t) acc).total = 0 := by
  obtain ⟨e, l', rfl⟩ := List.exists_cons_of_ne_nil hne
  rw [List.foldl_cons]
  apply fold_zero
  · unfold levelStep
    have h1 := hf e (by simp)
    have : (R : WithTop ℚ) + cfg.expiryFromLastGain < (e.start : WithTop ℚ) :=
      hexp.trans (WithTop.coe_lt_coe.2 h1)
    simp only [hR, Option.getD_some, this, if_true, h1, true_or]
  · intro e' he'
    exact Or.inr (hf e' (by simp [he']))

end JobResourceTracker

end Ama
