import Verif.Lemmas.Gauges

/-!
# Properties C16 - C20: job gauges
-/

namespace Ama

open Spec JobResourceTracker

/-- A gauge with a maximum of 3, seen by `Spender`, expiring 5 s after the last refresh. -/
def exampleGauges : Dict String JobResourceSettings :=
  [("Fists", { maxValue := 3, skillAllowlist := ["Spender"], expiryFromLastGain := 5000 })]

/-- A skill that adds two units and refreshes the expiry. -/
def exampleGain : SkillCore :=
  { name := "Gain",
    jobResourceSpec := .single [{ name := "Fists", change := 2, refreshesDurationOfLastGained := true }] }

/-- A skill that clears all gauges. -/
def exampleClear : SkillCore :=
  { name := "Clear", jobResourceSpec := .single [{ clearAllResourcesOnly := true }] }

/-! ## C16: gauge bounds -/

/-- C16: after any history, a query returns the comma separated list of gauges the skill may see,
each with an amount between 1 and its maximum; gauges that are empty are not listed, and a query
never fails. -/
theorem C16_gauge_bounds (configs : Dict String JobResourceSettings)
    (hd : (Dict.keys configs).Nodup) (ops : List GaugeOp) (tr : JobResourceTracker)
    (h : runGauge (init configs) ops = .ok tr) (t : ℚ) (skillName : String) :
    ∃ (reports : List (String × JobResourceSettings × ℤ)) (tr' : JobResourceTracker),
      tr.compile t skillName =
        .ok (strJoin ", " (reports.map (fun r : String × JobResourceSettings × ℤ =>
          if r.2.1.addNumberToConditional then toString r.2.2 ++ " " ++ r.1 else r.1)), tr') ∧
      (reports.map (fun r => r.1)).Sublist (Dict.keys configs) ∧
      (∀ r ∈ reports, (r.1, r.2.1) ∈ configs ∧ skillName ∈ r.2.1.skillAllowlist ∧
        1 ≤ r.2.2 ∧ r.2.2 ≤ r.2.1.maxValue) ∧
      (∀ name n, Reported tr t skillName name n ↔ ∃ r ∈ reports, r.1 = name ∧ r.2.2 = n) := by
  have hw0 := init_wf configs hd
  obtain ⟨hw, hc, hk, _⟩ := runGauge_ok hw0 h
  have hc' : tr.configs = configs := hc
  have hk' : Dict.keys tr.resources = Dict.keys configs := by
    rw [hk]
    simp [init, Dict.keys]
  obtain ⟨tr', hcomp, _⟩ := compile_eq hw t skillName
  -- attach the configuration to each report
  let rep : String → Option (String × JobResourceSettings × ℤ) := fun name =>
    match tr.report t skillName name, Dict.get? configs name with
    | some r, some cfg => some (r.1, cfg, r.2.1)
    | _, _ => none
  have hrep : ∀ name r, rep name = some r → r.1 = name ∧
      Dict.get? configs name = some r.2.1 ∧ ∃ l, Dict.get? tr.resources name = some l ∧
      skillName ∈ r.2.1.skillAllowlist ∧ 0 < r.2.2 ∧
      level r.2.1 t (sortBy (·.start) l) = r.2.2 ∧
      tr.report t skillName name = some (name, r.2.2, reportStr r.2.1 name r.2.2) := by
    intro name r hr
    simp only [rep] at hr
    cases h1 : tr.report t skillName name with
    | none => rw [h1] at hr; cases hr
    | some x =>
      cases h2 : Dict.get? configs name with
      | none => rw [h1, h2] at hr; cases hr
      | some cfg =>
        rw [h1, h2] at hr
        cases hr
        have hx := h1
        unfold report at hx
        rw [hc', h2] at hx
        cases h3 : Dict.get? tr.resources name with
        | none => rw [h3] at hx; cases hx
        | some l =>
          rw [h3] at hx
          simp only at hx
          split_ifs at hx with hv
          cases hx
          exact ⟨rfl, rfl, l, rfl, hv.1, hv.2, rfl, rfl⟩
  have hrep2 : ∀ name, name ∈ Dict.keys configs →
      (rep name = none ↔ tr.report t skillName name = none) := by
    intro name hn
    obtain ⟨cfg, hcfg⟩ := Option.isSome_iff_exists.1 (Dict.get?_isSome.2 hn)
    simp only [rep, hcfg]
    cases tr.report t skillName name <;> simp
  refine ⟨(Dict.keys configs).filterMap rep, tr', ?_, ?_, ?_, ?_⟩
  · rw [hcomp, hk']
    have hl : ∀ ks : List String, (∀ k ∈ ks, k ∈ Dict.keys configs) →
        (ks.filterMap (tr.report t skillName)).map (·.2.2) =
        (ks.filterMap rep).map (fun r : String × JobResourceSettings × ℤ =>
          if r.2.1.addNumberToConditional then toString r.2.2 ++ " " ++ r.1 else r.1) := by
      intro ks hks
      induction ks with
      | nil => rfl
      | cons k ks ih =>
        have ih' := ih (fun q hq => hks q (by simp [hq]))
        cases hr : rep k with
        | none =>
          rw [List.filterMap_cons_none hr,
            List.filterMap_cons_none ((hrep2 k (hks k (by simp))).1 hr), ih']
        | some r =>
          obtain ⟨e1, _, _, _, _, _, _, e2⟩ := hrep k r hr
          rw [List.filterMap_cons_some hr, List.filterMap_cons_some e2, List.map_cons, List.map_cons,
            ih', e1]
          rfl
    rw [hl _ (fun k h => h)]
  · have : ((Dict.keys configs).filterMap rep).map (fun r => r.1) =
        (Dict.keys configs).filter (fun k => (rep k).isSome) := by
      induction Dict.keys configs with
      | nil => rfl
      | cons k ks ih =>
        cases hr : rep k with
        | none => simp [hr, ih]
        | some r => simp [hr, ih, (hrep k r hr).1]
    rw [this]
    exact List.filter_sublist
  · intro r hr
    obtain ⟨name, _, hn⟩ := List.mem_filterMap.1 hr
    obtain ⟨e1, e2, l, _, e3, e4, e5, _⟩ := hrep name r hn
    refine ⟨by rw [e1]; exact Dict.mem_of_get? e2, e3, e4, ?_⟩
    have hb := (level_bounds r.2.1 t (sortBy (·.start) l)).2
    rw [e5] at hb
    rcases le_max_iff.1 hb with h | h
    · omega
    · exact h
  · intro name n
    rw [reported_iff hw]
    constructor
    · rintro ⟨cfg, l, h1, h2, h3, h4, h5⟩
      rw [hc'] at h1
      refine ⟨(name, cfg, n), ?_, rfl, rfl⟩
      refine List.mem_filterMap.2 ⟨name, Dict.get?_isSome.1 (by rw [h1]; rfl), ?_⟩
      have : tr.report t skillName name = some (name, n, reportStr cfg name n) := by
        unfold report
        rw [hc', h1, h2]
        simp only [h3, h5, h4, and_self, if_true]
      simp only [rep, this, h1]
    · rintro ⟨r, hr, rfl, rfl⟩
      obtain ⟨name, _, hn⟩ := List.mem_filterMap.1 hr
      obtain ⟨e1, e2, l, e6, e3, e4, e5, _⟩ := hrep name r hn
      refine ⟨r.2.1, l, by rw [hc', e1]; exact e2, by rw [e1]; exact e6, e3, e4, e5⟩

example : (do
    let tr ← runGauge (init exampleGauges) [.add 100 exampleGain {}, .add 200 exampleGain {}]
    let r ← tr.compile 300 "Spender"
    return r.1) = (.ok "3 Fists" : Py String) := by
  decide +kernel

/-! ## C17: queries are read-only, insertion order is irrelevant -/

/-- C17: leaving out queries from a history does not change what any later query returns. -/
theorem C17_queries_read_only (configs : Dict String JobResourceSettings)
    (hd : (Dict.keys configs).Nodup) (ops : List GaugeOp) (tr : JobResourceTracker)
    (h : runGauge (init configs) ops = .ok tr) :
    ∃ tr', runGauge (init configs) (ops.filter (·.isAdd)) = .ok tr' ∧
      ∀ t skillName, (tr'.compile t skillName).map Prod.fst = (tr.compile t skillName).map Prod.fst := by
  have hw0 := init_wf configs hd
  have hok := (runGauge_ok_iff hw0).1 ⟨_, h⟩
  obtain ⟨tr', h'⟩ := (runGauge_ok_iff hw0 (ops := ops.filter (·.isAdd))).2
    (fun op hop => hok op (List.mem_filter.1 hop).1)
  refine ⟨tr', h', ?_⟩
  obtain ⟨hw, a1, a2, a3⟩ := runGauge_ok hw0 h
  obtain ⟨hw', b1, b2, b3⟩ := runGauge_ok hw0 h'
  have hsame : Same tr' tr := by
    refine ⟨b1.trans a1.symm, b2.trans a2.symm, ?_⟩
    intro name
    rw [a3, b3]
    congr 1
    funext l
    congr 2
    have : ∀ ops : List GaugeOp, (ops.filter (·.isAdd)).flatMap (opEntries name) =
        ops.flatMap (opEntries name) := by
      intro ops
      induction ops with
      | nil => rfl
      | cons op ops ih =>
        cases op with
        | add t s m =>
          rw [List.filter_cons_of_pos (by rfl), List.flatMap_cons, List.flatMap_cons, ih]
        | query t s =>
          rw [List.filter_cons_of_neg (by simp [GaugeOp.isAdd]), List.flatMap_cons, ih]
          rfl
    exact this _
  intro t sk
  obtain ⟨x, hx, _⟩ := compile_eq hw t sk
  obtain ⟨y, hy, _⟩ := compile_eq hw' t sk
  rw [hx, hy, hsame.2.1]
  have : tr'.report t sk = tr.report t sk := by
    funext n
    exact hsame.report t sk n
  rw [this]
  rfl

/-- C17: entering the same changes, at distinct times, in a different order gives the same answers. -/
theorem C17_insertion_order (configs : Dict String JobResourceSettings)
    (hd : (Dict.keys configs).Nodup) (ops ops' : List GaugeOp) (hp : ops.Perm ops')
    (hdist : (ops.map (·.time)).Nodup) (tr : JobResourceTracker)
    (h : runGauge (init configs) ops = .ok tr) :
    ∃ tr', runGauge (init configs) ops' = .ok tr' ∧
      ∀ t skillName, (tr'.compile t skillName).map Prod.fst = (tr.compile t skillName).map Prod.fst := by
  have hw0 := init_wf configs hd
  have hok := (runGauge_ok_iff hw0).1 ⟨_, h⟩
  obtain ⟨tr', h'⟩ := (runGauge_ok_iff hw0 (ops := ops')).2
    (fun op hop => hok op (hp.mem_iff.2 hop))
  refine ⟨tr', h', ?_⟩
  obtain ⟨hw, a1, a2, a3⟩ := runGauge_ok hw0 h
  obtain ⟨hw', b1, b2, b3⟩ := runGauge_ok hw0 h'
  have hfilter : ∀ (name : String) (k : ℚ) (ops : List GaugeOp),
      (ops.flatMap (opEntries name)).filter (fun e => decide (e.start = k)) =
        (ops.filter (fun op => decide (op.time = k))).flatMap (opEntries name) := by
    intro name k ops
    induction ops with
    | nil => rfl
    | cons op ops ih =>
      rw [List.flatMap_cons, List.filter_append, ih, List.filter_cons]
      by_cases hk : op.time = k
      · have : (opEntries name op).filter (fun e => decide (e.start = k)) = opEntries name op := by
          rw [List.filter_eq_self]
          intro e he
          rw [opEntries_start he]
          simpa using hk
        rw [this]
        simp [hk]
      · have : (opEntries name op).filter (fun e => decide (e.start = k)) = [] := by
          rw [List.filter_eq_nil_iff]
          intro e he
          rw [opEntries_start he]
          simpa using hk
        rw [this]
        simp [hk]
  have hsame : Same tr' tr := by
    refine ⟨b1.trans a1.symm, b2.trans a2.symm, ?_⟩
    intro name
    rw [a3, b3]
    congr 1
    funext l
    rw [sortBy_eq_iff]
    intro k
    rw [List.filter_append, List.filter_append, hfilter, hfilter]
    congr 2
    -- at most one call happens at time `k`
    have hperm : (ops'.filter (fun op => decide (op.time = k))).Perm
        (ops.filter (fun op => decide (op.time = k))) := (hp.filter _).symm
    have hle : (ops.filter (fun op => decide (op.time = k))).length ≤ 1 := by
      clear * - hdist
      induction ops with
      | nil => simp
      | cons op ops ih =>
        simp only [List.map_cons, List.nodup_cons] at hdist
        rw [List.filter_cons]
        split_ifs with hk
        · have : ops.filter (fun op => decide (op.time = k)) = [] := by
            rw [List.filter_eq_nil_iff]
            intro o ho
            simp only [decide_eq_true_eq] at hk ⊢
            intro hk'
            exact hdist.1 (List.mem_map.2 ⟨o, ho, hk'.trans hk.symm⟩)
          rw [this]
          simp
        · exact ih hdist.2
    revert hperm hle
    generalize ops.filter (fun op => decide (op.time = k)) = L
    generalize ops'.filter (fun op => decide (op.time = k)) = L'
    intro hperm hle
    match L, hle with
    | [], _ => exact List.perm_nil.1 hperm
    | [a], _ => exact List.perm_singleton.1 hperm
    | a :: b :: L, hle => simp at hle
  intro t sk
  obtain ⟨x, hx, _⟩ := compile_eq hw t sk
  obtain ⟨y, hy, _⟩ := compile_eq hw' t sk
  rw [hx, hy, hsame.2.1]
  have : tr'.report t sk = tr.report t sk := by
    funext n
    exact hsame.report t sk n
  rw [this]
  rfl

example : (do
    let tr ← runGauge (init exampleGauges) [.add 200 exampleClear {}, .add 100 exampleGain {}]
    let tr' ← runGauge (init exampleGauges) [.add 100 exampleGain {}, .query 7 "Spender",
      .add 200 exampleClear {}]
    return ((← tr.compile 150 "Spender").1, (← tr'.compile 150 "Spender").1,
      (← tr.compile 250 "Spender").1)) = (.ok ("2 Fists", "2 Fists", "") : Py _) := by
  decide +kernel

/-! ## C18: clear-all -/

/-- C18: after a clear-all at time `t` (with everything before it at times up to `t`), every gauge is
reported as empty at every time from `t` on, until something is gained. -/
theorem C18_clear_all (configs : Dict String JobResourceSettings)
    (hd : (Dict.keys configs).Nodup) (before after : List GaugeOp) (t : ℚ) (skill : SkillCore)
    (m : SkillModifier) (pre post : List JobResourceSpec) (clear : JobResourceSpec)
    (hspec : skill.getJobResourceSpec m = .ok (pre ++ clear :: post))
    (hclear : clear.clearAllResourcesOnly = true)
    (hpost : ∀ spec ∈ post, spec.clearAllResourcesOnly = true ∨ spec.change ≤ 0)
    (hbefore : ∀ op ∈ before, op.time ≤ t) (hafter : ∀ op ∈ after, t ≤ op.time)
    (hgain : ∀ op ∈ after, NoGain op) (tr : JobResourceTracker)
    (h : runGauge (init configs) (before ++ .add t skill m :: after) = .ok tr)
    (t' : ℚ) (ht : t ≤ t') (skillName name : String) (n : ℤ) :
    ¬ Reported tr t' skillName name n := by
  have hw0 := init_wf configs hd
  obtain ⟨hw, a1, a2, a3⟩ := runGauge_ok hw0 h
  rw [reported_iff hw]
  rintro ⟨cfg, l, h1, h2, h3, h4, h5⟩
  have hsort := a3 name
  rw [h2] at hsort
  cases h0 : Dict.get? (init configs).resources name with
  | none => rw [h0] at hsort; cases hsort
  | some l0 =>
    rw [h0] at hsort
    simp only [Option.map_some, Option.some.injEq] at hsort
    have hl0 : l0 = [] := by
      have := Dict.mem_of_get? h0
      simp only [init, List.mem_map, Prod.mk.injEq] at this
      obtain ⟨_, _, _, e⟩ := this
      exact e.symm
    subst hl0
    rw [hsort] at h5
    have hnoGain : ∀ spec : JobResourceSpec, (spec.clearAllResourcesOnly = true ∨ spec.change ≤ 0) →
        ∀ s, ∀ e ∈ specEntries s name spec, e.spec.change ≤ 0 := by
      intro spec hs s e he
      unfold specEntries at he
      split_ifs at he with c1 c2
      · simp only [List.mem_singleton] at he
        rw [he]
        exact bot_le
      · simp only [List.mem_singleton] at he
        rw [he]
        exact hs.resolve_left c1
      · simp at he
    -- split the history at the clear
    let A := before.flatMap (opEntries name) ++ pre.flatMap (specEntries t name)
    let B := post.flatMap (specEntries t name) ++ after.flatMap (opEntries name)
    let c : ResourceEntry := { start := t, endT := ⊤, spec := { name := name, change := ⊥ } }
    have hlist : [] ++ (before ++ GaugeOp.add t skill m :: after).flatMap (opEntries name) =
        A ++ ([c] ++ B) := by
      simp only [List.nil_append, List.flatMap_append, List.flatMap_cons, opEntries, hspec, A, B, c,
        List.append_assoc]
      congr 3
      simp [specEntries, hclear]
    have hstart : ∀ (s : ℚ) (spec : JobResourceSpec) (e : ResourceEntry),
        e ∈ specEntries s name spec → e.start = s := by
      intro s spec e he
      unfold specEntries at he
      split_ifs at he
      · simp only [List.mem_singleton] at he; rw [he]
      · simp only [List.mem_singleton] at he; rw [he]
      · simp at he
    have hA : ∀ e ∈ A, e.start ≤ t := by
      intro e he
      rcases List.mem_append.1 he with he | he
      · obtain ⟨op, hop, he⟩ := List.mem_flatMap.1 he
        rw [opEntries_start he]
        exact hbefore op hop
      · obtain ⟨s, _, he⟩ := List.mem_flatMap.1 he
        exact le_of_eq (hstart t s e he)
    have hB : ∀ e ∈ B, t ≤ e.start := by
      intro e he
      rcases List.mem_append.1 he with he | he
      · obtain ⟨s, _, he⟩ := List.mem_flatMap.1 he
        exact le_of_eq (hstart t s e he).symm
      · obtain ⟨op, hop, he⟩ := List.mem_flatMap.1 he
        rw [opEntries_start he]
        exact hafter op hop
    have hBg : ∀ e ∈ B, e.spec.change ≤ 0 := by
      intro e he
      rcases List.mem_append.1 he with he | he
      · obtain ⟨s, hs, he⟩ := List.mem_flatMap.1 he
        exact hnoGain s (hpost s hs) t e he
      · obtain ⟨op, hop, he⟩ := List.mem_flatMap.1 he
        have hg := hgain op hop
        cases op with
        | query t s => simp [opEntries] at he
        | add s sk mm =>
          simp only [opEntries] at he
          cases hs : sk.getJobResourceSpec mm with
          | error e' => rw [hs] at he; simp at he
          | ok specs =>
            rw [hs] at he
            simp only at he
            obtain ⟨spec, hspec', he⟩ := List.mem_flatMap.1 he
            exact hnoGain spec (hg specs hs spec hspec') s e he
    rw [hlist, sortBy_append_of_le (fun e : ResourceEntry => e.start) (l := A) (m := [c] ++ B),
      sortBy_append_of_le (fun e : ResourceEntry => e.start) (l := [c]) (m := B)] at h5
    · have hz : level cfg t' (sortBy (·.start) A ++ (sortBy (·.start) [c] ++ sortBy (·.start) B)) = 0 := by
        apply level_zero_of_fold
        have hcs : sortBy (fun e : ResourceEntry => e.start) [c] = [c] := rfl
        rw [hcs, List.foldl_append, List.foldl_append, List.foldl_cons, List.foldl_nil]
        apply fold_zero
        · unfold levelStep
          simp only [c, not_lt.2 ht, not_top_lt, or_self, if_false, changeTotal]
        · intro e he
          exact Or.inl (hBg e ((mem_sortBy _).1 he))
      rw [hz] at h5
      omega
    · intro a ha b hb
      simp only [List.mem_singleton] at ha
      rw [ha]
      exact hB b hb
    · intro a ha b hb
      rcases List.mem_append.1 hb with hb | hb
      · simp only [List.mem_singleton] at hb
        rw [hb]
        exact hA a ha
      · exact (hA a ha).trans (hB b hb)

example : exampleClear.getJobResourceSpec {} = .ok ([] ++ { clearAllResourcesOnly := true } :: []) := rfl

/-! ## C19: expiry -/

/-- C19: a gauge reports nothing once more than its expiry has passed since the last refreshing gain
(the timeline of the gauge is what `get_resource_timeline` returns).  Partial: a last refresh at time
exactly 0 is excluded, see `C19_zero_refuted`. -/
theorem C19_expiry_partial (configs : Dict String JobResourceSettings)
    (hd : (Dict.keys configs).Nodup) (ops : List GaugeOp) (tr : JobResourceTracker)
    (h : runGauge (init configs) ops = .ok tr) (name : String) (cfg : JobResourceSettings)
    (hcfg : (name, cfg) ∈ configs) (timeline : List ResourceEntry)
    (htl : Dict.get tr.resources name = .ok timeline) (t R : ℚ)
    (hR : ∃ e ∈ timeline, e.spec.refreshesDurationOfLastGained = true ∧ e.start = R)
    (hlast : ∀ e ∈ timeline, e.spec.refreshesDurationOfLastGained = true → e.start ≤ t → e.start ≤ R)
    (hexp : (R : WithTop ℚ) + cfg.expiryFromLastGain < (t : WithTop ℚ))
    (hpos : 0 ≤ cfg.expiryFromLastGain) (hR0 : R ≠ 0) (skillName : String) (n : ℤ) :
    ¬ Reported tr t skillName name n := by
  have hw0 := init_wf configs hd
  obtain ⟨hw, a1, a2, _⟩ := runGauge_ok hw0 h
  rw [reported_iff hw]
  rintro ⟨cfg', l, h1, h2, h3, h4, h5⟩
  have hcc : cfg' = cfg := by
    have e1 := Dict.get?_of_mem hd hcfg
    have : tr.configs = configs := a1
    rw [this, e1] at h1
    cases h1
    rfl
  subst hcc
  rw [Dict.get_ok.1 htl] at h2
  cases h2
  have hRt : R ≤ t := by
    have : (R : WithTop ℚ) ≤ (R : WithTop ℚ) + cfg'.expiryFromLastGain := le_add_of_nonneg_right hpos
    exact (WithTop.coe_lt_coe.1 (this.trans_lt hexp)).le
  rw [sortBy_split (fun e : ResourceEntry => e.start) timeline t] at h5
  have hfold := fold_lastRefresh cfg' t R
    (sortBy (·.start) (timeline.filter (fun e => decide (e.start ≤ t)))) (sortBy_sorted _ _)
    (by
      obtain ⟨e, he, hr, hs⟩ := hR
      refine ⟨e, (mem_sortBy _).2 (List.mem_filter.2 ⟨he, ?_⟩), hr, hs⟩
      rw [hs]
      simpa using hRt)
    (by
      intro e he hr
      have := List.mem_filter.1 ((mem_sortBy _).1 he)
      exact hlast e this.1 hr (by simpa using this.2)) {}
  have hz : level cfg' t (sortBy (·.start) (timeline.filter (fun e => decide (e.start ≤ t))) ++
      sortBy (·.start) (timeline.filter (fun e => decide (t < e.start)))) = 0 := by
    by_cases hF : sortBy (fun e : ResourceEntry => e.start)
        (timeline.filter (fun e => decide (t < e.start))) = []
    · rw [hF, List.append_nil]
      unfold level
      simp only [hfold]
      rw [if_pos ⟨hR0, hexp⟩]
    · apply level_zero_of_fold
      rw [List.foldl_append]
      refine fold_future_expired cfg' t _ _ hF ?_ R hfold hexp
      intro e he
      have := List.mem_filter.1 ((mem_sortBy _).1 he)
      simpa using this.2
  rw [hz] at h5
  omega

/-- C19 is false when the last refreshing gain happens at time 0: the gauge then never expires. -/
theorem C19_zero_refuted :
    ∃ tr, runGauge (init exampleGauges) [.add 0 exampleGain {}] = .ok tr ∧
      (tr.compile 1000000 "Spender").map Prod.fst = .ok "2 Fists" ∧
      (Dict.get? exampleGauges "Fists").map (·.expiryFromLastGain) = some 5000 := by
  exact ⟨_, rfl, by decide +kernel, rfl⟩

example : (do
    let tr ← runGauge (init exampleGauges) [.add 1 exampleGain {}]
    return ((← tr.compile 5001 "Spender").1, (← tr.compile 5002 "Spender").1)) =
    (.ok ("2 Fists", "") : Py _) := by
  decide +kernel

/-! ## C20: the future does not influence the present -/

/-- C20: what is reported at time `t` is also reported when all later changes are left out, and for
gauges without expiry nothing else is.  Partial: for gauges with an expiry later changes can make a
gauge appear empty, see `C20_future_refuted`. -/
theorem C20_future_partial (configs : Dict String JobResourceSettings)
    (hd : (Dict.keys configs).Nodup) (ops : List GaugeOp) (tr : JobResourceTracker)
    (h : runGauge (init configs) ops = .ok tr) (t : ℚ) :
    ∃ past, runGauge (init configs) (ops.filter (fun op => decide (op.time ≤ t))) = .ok past ∧
      ∀ skillName name n,
        (Reported tr t skillName name n → Reported past t skillName name n) ∧
        (∀ cfg, (name, cfg) ∈ configs → cfg.expiryFromLastGain = ⊤ →
          Reported past t skillName name n → Reported tr t skillName name n) := by
  have hw0 := init_wf configs hd
  have hok := (runGauge_ok_iff hw0).1 ⟨_, h⟩
  obtain ⟨past, h'⟩ := (runGauge_ok_iff hw0
    (ops := ops.filter (fun op => decide (op.time ≤ t)))).2
    (fun op hop => hok op (List.mem_filter.1 hop).1)
  refine ⟨past, h', ?_⟩
  obtain ⟨hw, a1, a2, a3⟩ := runGauge_ok hw0 h
  obtain ⟨hw', b1, b2, b3⟩ := runGauge_ok hw0 h'
  intro sk name n
  have hfilter : ∀ ops : List GaugeOp,
      (ops.flatMap (opEntries name)).filter (fun e => decide (e.start ≤ t)) =
        (ops.filter (fun op => decide (op.time ≤ t))).flatMap (opEntries name) := by
    intro ops
    induction ops with
    | nil => rfl
    | cons op ops ih =>
      rw [List.flatMap_cons, List.filter_append, ih, List.filter_cons]
      by_cases hk : op.time ≤ t
      · have : (opEntries name op).filter (fun e => decide (e.start ≤ t)) = opEntries name op := by
          rw [List.filter_eq_self]
          intro e he
          rw [opEntries_start he]
          simpa using hk
        rw [this]
        simp [hk]
      · have : (opEntries name op).filter (fun e => decide (e.start ≤ t)) = [] := by
          rw [List.filter_eq_nil_iff]
          intro e he
          rw [opEntries_start he]
          simpa using hk
        rw [this]
        simp [hk]
  have hlists : ∀ l, Dict.get? tr.resources name = some l → ∃ l', Dict.get? past.resources name = some l' ∧
      sortBy (·.start) l = sortBy (·.start) (ops.flatMap (opEntries name)) ∧
      sortBy (·.start) l' =
        sortBy (·.start) ((ops.flatMap (opEntries name)).filter (fun e => decide (e.start ≤ t))) := by
    intro l hl
    have e1 := a3 name
    have e2 := b3 name
    rw [hl] at e1
    cases h0 : Dict.get? (init configs).resources name with
    | none => rw [h0] at e1; cases e1
    | some l0 =>
      have hl0 : l0 = [] := by
        have := Dict.mem_of_get? h0
        simp only [init, List.mem_map, Prod.mk.injEq] at this
        obtain ⟨_, _, _, e⟩ := this
        exact e.symm
      subst hl0
      rw [h0] at e1 e2
      cases h2 : Dict.get? past.resources name with
      | none => rw [h2] at e2; cases e2
      | some l' =>
        rw [h2] at e2
        simp only [Option.map_some, Option.some.injEq, List.nil_append] at e1 e2
        exact ⟨l', rfl, e1, by rw [e2, hfilter]⟩
  have hlevel : ∀ (cfg : JobResourceSettings) (P F : List ResourceEntry),
      (∀ e ∈ F, t < e.start) →
      (level cfg t (P ++ F) = level cfg t P ∨ level cfg t (P ++ F) = 0) ∧
      (cfg.expiryFromLastGain = ⊤ → level cfg t (P ++ F) = level cfg t P) := by
    intro cfg P F hF
    obtain ⟨f1, f2⟩ := fold_future cfg t F (P.foldl (levelStep cfg t) {}) hF
    have htop : ∀ (l : List ResourceEntry), cfg.expiryFromLastGain = ⊤ →
        level cfg t l = (l.foldl (levelStep cfg t) {}).total := by
      intro l ht
      unfold level
      simp only [ht, WithTop.add_top, not_top_lt, and_false, if_false]
      split <;> rfl
    constructor
    · by_cases hF0 : F = []
      · subst hF0
        left
        simp
      · by_cases hex : ∃ R, (P.foldl (levelStep cfg t) {}).lastRefresh = some R ∧
            (R : WithTop ℚ) + cfg.expiryFromLastGain < (t : WithTop ℚ)
        · obtain ⟨R, hR, hex⟩ := hex
          right
          apply level_zero_of_fold
          rw [List.foldl_append]
          exact fold_future_expired cfg t F _ hF0 hF R hR hex
        · -- not expired before: the past level is the past total
          have hP : level cfg t P = (P.foldl (levelStep cfg t) {}).total := by
            unfold level
            simp only
            split
            · rfl
            · rename_i R hR
              rw [if_neg]
              rintro ⟨_, hlt⟩
              exact hex ⟨R, hR, hlt⟩
          rw [hP]
          have hPF : level cfg t (P ++ F) = ((P ++ F).foldl (levelStep cfg t) {}).total ∨
              level cfg t (P ++ F) = 0 := by
            unfold level
            simp only
            split
            · exact Or.inl rfl
            · split_ifs
              · exact Or.inr rfl
              · exact Or.inl rfl
          rw [List.foldl_append] at hPF
          rcases hPF with e | e
          · rcases f1 with f1 | f1
            · exact Or.inl (e.trans f1)
            · exact Or.inr (e.trans f1)
          · exact Or.inr e
    · intro ht
      rw [htop _ ht, htop _ ht, List.foldl_append, f2 ht]
  have hcfgs : past.configs = tr.configs := b1.trans a1.symm
  rw [reported_iff hw, reported_iff hw']
  have hfut : ∀ e ∈ sortBy (fun e : ResourceEntry => e.start)
      ((ops.flatMap (opEntries name)).filter (fun e => decide (t < e.start))), t < e.start := by
    intro e he
    have := List.mem_filter.1 ((mem_sortBy _).1 he)
    simpa using this.2
  constructor
  · rintro ⟨cfg, l, h1, h2, h3, h4, h5⟩
    obtain ⟨l', hl', e1, e2⟩ := hlists l h2
    refine ⟨cfg, l', by rw [hcfgs]; exact h1, hl', h3, h4, ?_⟩
    rw [e1, sortBy_split (fun e : ResourceEntry => e.start) _ t] at h5
    rw [e2]
    rcases (hlevel cfg _ _ hfut).1 with e | e
    · rw [← e]
      exact h5
    · rw [e] at h5
      omega
  · rintro cfg hcfg htop ⟨cfg', l', h1, h2, h3, h4, h5⟩
    have : cfg' = cfg := by
      have e1 := Dict.get?_of_mem hd hcfg
      have e2 : past.configs = configs := b1
      rw [e2, e1] at h1
      cases h1
      rfl
    subst this
    have hkey : name ∈ Dict.keys tr.resources := by
      rw [a2, ← b2]
      exact Dict.get?_isSome.1 (by rw [h2]; rfl)
    obtain ⟨l, hl⟩ := Option.isSome_iff_exists.1 (Dict.get?_isSome.2 hkey)
    obtain ⟨l2, hl2, e1, e2⟩ := hlists l hl
    rw [hl2] at h2
    cases h2
    refine ⟨cfg', l, by rw [← hcfgs]; exact h1, hl, h3, h4, ?_⟩
    rw [e1, sortBy_split (fun e : ResourceEntry => e.start) _ t, (hlevel cfg' _ _ hfut).2 htop, ← e2]
    exact h5

/-- C20 is false for a gauge with an expiry: a gain that happens later empties the gauge now. -/
theorem C20_future_refuted :
    ∃ tr tr', runGauge (init exampleGauges) [.add 1000 exampleGain {}] = .ok tr ∧
      runGauge (init exampleGauges) [.add 1000 exampleGain {}, .add 9000 exampleGain {}] = .ok tr' ∧
      (tr.compile 2000 "Spender").map Prod.fst = .ok "2 Fists" ∧
      (tr'.compile 2000 "Spender").map Prod.fst = .ok "" := by
  refine ⟨_, _, rfl, rfl, ?_, ?_⟩ <;> decide +kernel

end Ama
