import Verif.Props.Gauges
import Verif.Lemmas.GaugeValue

/-!
# Property C100: the amount in a gauge
-/

namespace Ama

open Spec JobResourceTracker

/-- The changes of a gauge always have an order of time, and only one. -/
theorem C100_order (name : String) (ops : List GaugeOp) :
    ∃! cs, InTimeOrder (ops.flatMap (changesOfCall name)) cs := by
  have he : ops.flatMap (changesOfCall name) = (ops.flatMap (opEntries name)).map changeOf := by
    rw [List.map_flatMap]
    congr 1
    funext op
    exact changesOfCall_eq name op
  rw [he]
  refine ⟨_, ⟨?_, ?_⟩, fun cs h => inTimeOrder_unique h⟩
  · rw [List.pairwise_map]
    exact sortBy_sorted (fun e : ResourceEntry => e.start) _
  · intro k
    rw [List.filter_map, List.filter_map]
    congr 1
    exact sortBy_stable (fun e : ResourceEntry => e.start) _ k

/-- Any list of changes has a last life. -/
theorem C100_life (limit : WithTop ℚ) (cs : List GaugeChange) : ∃ life, LastLife limit cs life :=
  lastLife_exists limit cs

/-- C100: after any history, in any order of calls, a skill that may see a gauge is told the running total of the changes
made so far, in order of time, since the time limit last ran out between two changes, kept between nothing and the
maximum after each change; and nothing if the time limit has run out by now, unless it runs from time 0. -/
theorem C100_amount (configs : Dict String JobResourceSettings) (hd : (Dict.keys configs).Nodup)
    (ops : List GaugeOp) (tr : JobResourceTracker) (h : runGauge (init configs) ops = .ok tr)
    (name : String) (cfg : JobResourceSettings) (hc : (name, cfg) ∈ configs) (cs life : List GaugeChange)
    (hcs : InTimeOrder (ops.flatMap (changesOfCall name)) cs) (hl : LastLife cfg.expiryFromLastGain cs life)
    (t : ℚ) (skillName : String) (n : ℤ) :
    Reported tr t skillName name n ↔
      skillName ∈ cfg.skillAllowlist ∧ 0 < n ∧ n = holds cfg.maxValue (counted t life) ∧
      (RanOut cfg.expiryFromLastGain cs t → limitFrom cs = some 0) := by
  obtain ⟨hw, hcfg, -, hres⟩ := runGauge_ok (init_wf configs hd) h
  have hget : Dict.get? tr.configs name = some cfg := by rw [hcfg]; exact Dict.get?_of_mem hd hc
  have he : ops.flatMap (changesOfCall name) = (ops.flatMap (opEntries name)).map changeOf := by
    rw [List.map_flatMap]
    congr 1
    funext op
    exact changesOfCall_eq name op
  rw [he] at hcs
  have hcs' := inTimeOrder_unique hcs
  have hinit : Dict.get? (init configs).resources name = some [] := by
    have : ∀ d : Dict String JobResourceSettings, name ∈ Dict.keys d →
        Dict.get? (d.map (fun kv => (kv.1, ([] : List ResourceEntry)))) name = some [] := by
      intro d
      induction d with
      | nil => intro h; cases h
      | cons p d ih =>
        intro h
        rw [List.map_cons, Dict.get?_cons]
        split_ifs with hp
        · rfl
        · apply ih
          rcases List.mem_cons.1 h with h | h
          · exact absurd h.symm hp
          · exact h
    exact this configs (List.mem_map.2 ⟨_, hc, rfl⟩)
  have hr := hres name
  rw [hinit, Option.map_some, List.nil_append] at hr
  obtain ⟨l, hl1, hl2⟩ := Option.map_eq_some_iff.1 hr
  rw [reported_iff hw]
  rw [hcs', ← hl2] at hl
  obtain ⟨hz, hv⟩ := level_eq cfg t (sortBy (·.start) l) life hl
  rw [hl2, ← hcs'] at hz hv
  rw [← hl2] at hz hv
  have hnot : (RanOut cfg.expiryFromLastGain cs t → limitFrom cs = some 0) ↔
      ¬ (RanOut cfg.expiryFromLastGain cs t ∧ limitFrom cs ≠ some 0) := by
    rw [not_and, not_not]
  constructor
  · rintro ⟨cfg', l', h1, h2, h3, h4, h5⟩
    rw [hget] at h1
    cases h1
    rw [hl1] at h2
    cases h2
    have hno : ¬ (RanOut cfg.expiryFromLastGain cs t ∧ limitFrom cs ≠ some 0) := by
      intro hx
      have := hz hx
      omega
    exact ⟨h3, h4, by rw [← h5, hv hno], hnot.2 hno⟩
  · rintro ⟨h3, h4, h5, h6⟩
    exact ⟨cfg, l, hget, hl1, h3, h4, by rw [h5, hv (hnot.1 h6)]⟩

/-- C100 for a gauge without time limit: the running total of all changes made so far. -/
theorem C100_no_limit (configs : Dict String JobResourceSettings) (hd : (Dict.keys configs).Nodup)
    (ops : List GaugeOp) (tr : JobResourceTracker) (h : runGauge (init configs) ops = .ok tr)
    (name : String) (cfg : JobResourceSettings) (hc : (name, cfg) ∈ configs) (htop : cfg.expiryFromLastGain = ⊤)
    (cs : List GaugeChange) (hcs : InTimeOrder (ops.flatMap (changesOfCall name)) cs)
    (t : ℚ) (skillName : String) (n : ℤ) :
    Reported tr t skillName name n ↔
      skillName ∈ cfg.skillAllowlist ∧ 0 < n ∧ n = holds cfg.maxValue (counted t cs) := by
  have hno : ∀ l t, ¬ RanOut cfg.expiryFromLastGain l t := by
    rintro l t ⟨r, -, hr⟩
    rw [htop] at hr
    simp at hr
  rw [C100_amount configs hd ops tr h name cfg hc cs cs hcs
    ⟨[], rfl, .inl rfl, fun c pre post _ _ => hno _ _⟩ t skillName n]
  constructor
  · rintro ⟨a, b, c, -⟩; exact ⟨a, b, c⟩
  · rintro ⟨a, b, c⟩; exact ⟨a, b, c, fun hr => absurd hr (hno _ _)⟩

/-- C100: as long as the changes would never take the gauge below nothing or above its maximum, it holds just their sum. -/
theorem C100_sum (most : ℤ) (amounts : List ℤ) (cs : List GaugeChange)
    (ha : cs.map (·.amount) = amounts.map (fun a : ℤ => (a : WithBot ℤ)))
    (hb : ∀ k ≤ amounts.length, 0 ≤ (amounts.take k).sum ∧ (amounts.take k).sum ≤ most) :
    holds most cs = amounts.sum := by
  induction cs using List.reverseRecOn generalizing amounts with
  | nil =>
    cases amounts with
    | nil => rfl
    | cons a l => cases ha
  | append_singleton cs c ih =>
    rcases List.eq_nil_or_concat amounts with rfl | ⟨l, a, rfl⟩
    · simp at ha
    · rw [List.concat_eq_append] at *
      rw [List.map_append, List.map_append] at ha
      obtain ⟨h1, h2⟩ := List.append_inj' ha rfl
      simp only [List.map_cons, List.map_nil, List.cons.injEq, and_true] at h2
      have hlast := hb (l ++ [a]).length le_rfl
      rw [List.take_length, List.sum_append, List.sum_singleton] at hlast
      rw [holds_append_single, h2, ih l h1]
      · simp only [changeTotal, List.sum_append, List.sum_singleton]
        omega
      · intro k hk
        have := hb k (by simp; omega)
        rwa [List.take_append_of_le_length hk] at this

/-- Two gains one second apart, a clearing of all gauges, then another gain; the gauge may hold three. -/
def exampleGaugeOps : List GaugeOp :=
  [.add 1000 exampleGain {}, .add 2000 exampleGain {}, .query 2500 "Spender", .add 3000 exampleClear {},
    .add 4000 exampleGain {}]

/-- Its changes, in order of time. -/
def exampleGaugeChanges : List GaugeChange :=
  [⟨1000, ⊤, 2, true⟩, ⟨2000, ⊤, 2, true⟩, ⟨3000, ⊤, ⊥, false⟩, ⟨4000, ⊤, 2, true⟩]

theorem exampleGauge_order : InTimeOrder (exampleGaugeOps.flatMap (changesOfCall "Fists")) exampleGaugeChanges := by
  have : exampleGaugeOps.flatMap (changesOfCall "Fists") = exampleGaugeChanges := by decide +kernel
  rw [this]
  exact ⟨by decide +kernel, fun _ => rfl⟩

/-- The time limit of five seconds never runs out between these changes. -/
theorem exampleGauge_life : LastLife 5000 exampleGaugeChanges exampleGaugeChanges := by
  refine ⟨[], rfl, .inl rfl, ?_⟩
  intro c pre post he _
  rintro ⟨r, hr, hlt⟩
  have hc : c ∈ exampleGaugeChanges := by rw [he]; simp
  have hub : ∀ d ∈ exampleGaugeChanges, 1000 ≤ d.time ∧ d.time ≤ 4000 := by decide +kernel
  have hr1 : 1000 ≤ r := by
    have hpre : ∀ d ∈ pre, d ∈ exampleGaugeChanges := fun d hd => by rw [he]; simp [hd]
    rw [List.nil_append] at hr
    unfold limitFrom at hr
    split at hr
    · next d hd =>
      cases hr
      exact (hub d (hpre d (List.mem_filter.1 (List.mem_of_getLast? hd)).1)).1
    · obtain ⟨d, hd, rfl⟩ := Option.map_eq_some_iff.1 hr
      exact (hub d (hpre d (List.mem_of_head? hd))).1
  have h1 : r + 5000 < c.time := WithTop.coe_lt_coe.1 (show ((r + 5000 : ℚ) : WithTop ℚ) < (c.time : WithTop ℚ) from hlt)
  have h2 := (hub c hc).2
  linarith

/-- Three after the two gains (not four), nothing after the clearing, two after the last gain, and nothing again when five
seconds have passed since. -/
example : ∃ tr, runGauge (init exampleGauges) exampleGaugeOps = .ok tr ∧
    Reported tr 2500 "Spender" "Fists" 3 ∧ (∀ n, ¬ Reported tr 3500 "Spender" "Fists" n) ∧
    Reported tr 4500 "Spender" "Fists" 2 ∧ (∀ n, ¬ Reported tr 9500 "Spender" "Fists" n) := by
  obtain ⟨tr, h⟩ : ∃ tr, runGauge (init exampleGauges) exampleGaugeOps = .ok tr := by
    rw [runGauge_ok_iff (init_wf _ (by decide))]
    intro op hop
    simp only [exampleGaugeOps, List.mem_cons, List.not_mem_nil, or_false] at hop
    rcases hop with rfl | rfl | rfl | rfl | rfl
    all_goals first
      | trivial
      | refine ⟨_, rfl, by decide +kernel⟩
  have key := fun t n => C100_amount exampleGauges (by decide) exampleGaugeOps tr h "Fists" _ (List.mem_singleton.2 rfl) _ _
    exampleGauge_order exampleGauge_life t "Spender" n
  have hlim : limitFrom exampleGaugeChanges = some 4000 := by decide +kernel
  have hran : ∀ t : ℚ, RanOut 5000 exampleGaugeChanges t ↔ 4000 + 5000 < t := by
    intro t
    unfold RanOut
    rw [hlim]
    constructor
    · rintro ⟨r, hr, hlt⟩
      cases hr
      exact WithTop.coe_lt_coe.1 (show ((4000 + 5000 : ℚ) : WithTop ℚ) < (t : WithTop ℚ) from hlt)
    · intro h
      exact ⟨4000, rfl, show ((4000 + 5000 : ℚ) : WithTop ℚ) < (t : WithTop ℚ) from WithTop.coe_lt_coe.2 h⟩
  refine ⟨tr, h, ?_, ?_, ?_, ?_⟩
  · exact (key 2500 3).2 ⟨by simp, by norm_num, by decide +kernel, fun hr => by rw [hran] at hr; norm_num at hr⟩
  · intro n hn
    obtain ⟨-, h1, h2, -⟩ := (key 3500 n).1 hn
    have : holds 3 (counted 3500 exampleGaugeChanges) = 0 := by decide +kernel
    rw [this] at h2
    omega
  · exact (key 4500 2).2 ⟨by simp, by norm_num, by decide +kernel, fun hr => by rw [hran] at hr; norm_num at hr⟩
  · intro n hn
    obtain ⟨-, -, -, h1⟩ := (key 9500 n).1 hn
    have := h1 ((hran _).2 (by norm_num))
    rw [hlim] at this
    simp at this

example : holds 100 [⟨0, ⊤, 30, false⟩, ⟨1, ⊤, 50, false⟩, ⟨2, ⊤, ((-20 : ℤ) : WithBot ℤ), false⟩] = 60 :=
  C100_sum 100 [30, 50, -20] _ rfl (by decide)

end Ama
