import Verif.Lemmas.Gauges
import Verif.Spec.GaugeValue

/-!
# Lemmas on the amount in a gauge
-/

namespace Ama.JobResourceTracker

open Spec

/-- The change that an entry of a gauge's list stands for. -/
def changeOf (e : ResourceEntry) : GaugeChange :=
  ⟨e.start, e.endT, e.spec.change, e.spec.refreshesDurationOfLastGained⟩

theorem changesOfCall_eq (name : String) (op : GaugeOp) :
    changesOfCall name op = (opEntries name op).map changeOf := by
  cases op with
  | query t s => rfl
  | add t skill m =>
    simp only [changesOfCall, opEntries]
    cases skill.getJobResourceSpec m with
    | error e => rfl
    | ok specs =>
      simp only [List.map_flatMap]
      congr 1
      funext spec
      unfold specEntries
      split_ifs <;> rfl

theorem inTimeOrder_unique {all : List ResourceEntry} {cs : List GaugeChange}
    (h : InTimeOrder (all.map changeOf) cs) : cs = (sortBy (·.start) all).map changeOf := by
  refine sorted_ext (fun c : GaugeChange => c.time) h.1 ?_ ?_
  · rw [List.pairwise_map]
    exact sortBy_sorted (·.start) all
  · intro k
    rw [h.2 k, List.filter_map, List.filter_map]
    congr 1
    exact (sortBy_stable (·.start) all k).symm

theorem limitFrom_append_single (l : List GaugeChange) (c : GaugeChange) :
    limitFrom (l ++ [c]) = some (if c.renews then c.time else (limitFrom l).getD c.time) := by
  unfold limitFrom
  cases hc : c.renews with
  | true => simp [hc]
  | false =>
    simp only [List.filter_append, List.filter_cons, hc, List.filter_nil, List.append_nil, Bool.false_eq_true, if_false]
    cases (l.filter (·.renews)).getLast? with
    | some d => simp
    | none => cases l <;> simp

theorem fold_limit (cfg : JobResourceSettings) (t : ℚ) (l : List ResourceEntry) :
    (l.foldl (levelStep cfg t) {}).lastRefresh = limitFrom (l.map changeOf) := by
  induction l using List.reverseRecOn with
  | nil => rfl
  | append_singleton l e ih =>
    rw [List.foldl_append, List.map_append, List.map_singleton, limitFrom_append_single, ← ih]
    simp only [List.foldl_cons, List.foldl_nil]
    generalize l.foldl (levelStep cfg t) {} = acc
    unfold levelStep
    simp only
    split_ifs <;> simp_all [changeOf]

theorem holds_append_single (mx : ℤ) (l : List GaugeChange) (c : GaugeChange) :
    holds mx (l ++ [c]) = changeTotal (holds mx l) c.amount mx := by
  unfold holds
  rw [List.reverse_append, List.reverse_singleton, List.singleton_append]
  rfl

theorem counted_append_single (t : ℚ) (l : List GaugeChange) (e : ResourceEntry) :
    counted t (l ++ [changeOf e]) =
      if t < e.start ∨ e.endT < (t : WithTop ℚ) then counted t l else counted t l ++ [changeOf e] := by
  unfold counted
  rw [List.filter_append]
  by_cases h : t < e.start ∨ e.endT < (t : WithTop ℚ)
  · rw [if_pos h]
    have : ¬ ((changeOf e).time ≤ t ∧ (t : WithTop ℚ) ≤ (changeOf e).lasts) := by
      rintro ⟨a, b⟩
      rcases h with h | h
      · exact absurd a (not_le.2 h)
      · exact absurd b (not_le.2 h)
    simp [this]
  · rw [if_neg h]
    push Not at h
    have : (changeOf e).time ≤ t ∧ (t : WithTop ℚ) ≤ (changeOf e).lasts := h
    simp [this]

/-- One more entry. -/
theorem step_total (cfg : JobResourceSettings) (t : ℚ) (pre : List ResourceEntry) (e : ResourceEntry)
    (life : List GaugeChange)
    (h : (RanOut cfg.expiryFromLastGain (pre.map changeOf) e.start ∧ life = []) ∨
      (¬ RanOut cfg.expiryFromLastGain (pre.map changeOf) e.start ∧
        (pre.foldl (levelStep cfg t) {}).total = holds cfg.maxValue (counted t life))) :
    ((pre ++ [e]).foldl (levelStep cfg t) {}).total =
      holds cfg.maxValue (counted t (life ++ [changeOf e])) := by
  have hl := fold_limit cfg t pre
  have h0 : limitFrom (pre.map changeOf) = none → (pre.foldl (levelStep cfg t) {}).total = 0 := by
    intro hn
    cases pre with
    | nil => rfl
    | cons a pre =>
      exfalso
      unfold limitFrom at hn
      split at hn <;> simp at hn
  rw [List.foldl_append]
  simp only [List.foldl_cons, List.foldl_nil]
  generalize pre.foldl (levelStep cfg t) {} = acc at hl h h0 ⊢
  rw [counted_append_single]
  have key : (if ((acc.lastRefresh.getD e.start : ℚ) : WithTop ℚ) + cfg.expiryFromLastGain < (e.start : WithTop ℚ) then 0
      else acc.total) = holds cfg.maxValue (counted t life) := by
    cases hr : acc.lastRefresh with
    | none =>
      rw [hr] at hl
      have hz := h0 hl.symm
      rcases h with ⟨⟨r, h1, -⟩, -⟩ | ⟨-, h2⟩
      · rw [← hl] at h1; cases h1
      · rw [← h2, hz, ite_self]
    | some r =>
      rw [hr] at hl
      have hiff : RanOut cfg.expiryFromLastGain (pre.map changeOf) e.start ↔
          (r : WithTop ℚ) + cfg.expiryFromLastGain < (e.start : WithTop ℚ) := by
        unfold RanOut
        rw [← hl]
        simp
      rw [hiff] at h
      simp only [Option.getD_some]
      rcases h with ⟨h1, rfl⟩ | ⟨h1, h2⟩
      · rw [if_pos h1]; rfl
      · rw [if_neg h1, h2]
  unfold levelStep
  simp only
  rw [key]
  split_ifs
  all_goals first | rfl | rw [holds_append_single]; rfl

theorem fold_total (cfg : JobResourceSettings) (t : ℚ) (gone life : List ResourceEntry)
    (h1 : gone = [] ∨ ∃ c rest, life = c :: rest ∧ RanOut cfg.expiryFromLastGain (gone.map changeOf) c.start)
    (h2 : ∀ c pre post, life = pre ++ c :: post → pre ≠ [] →
      ¬ RanOut cfg.expiryFromLastGain ((gone ++ pre).map changeOf) c.start) :
    ((gone ++ life).foldl (levelStep cfg t) {}).total =
      holds cfg.maxValue (counted t (life.map changeOf)) := by
  induction life using List.reverseRecOn with
  | nil =>
    rcases h1 with rfl | ⟨c, rest, h, -⟩
    · rfl
    · cases h
  | append_singleton life e ih =>
    rw [← List.append_assoc, List.map_append, List.map_singleton]
    apply step_total
    rcases List.eq_nil_or_concat life with rfl | ⟨l', x, rfl⟩
    · rcases h1 with rfl | ⟨c, rest, h, hr⟩
      · right
        refine ⟨?_, rfl⟩
        rintro ⟨r, hr, -⟩
        cases hr
      · left
        cases h
        simpa using hr
    · right
      refine ⟨h2 e _ [] rfl (by simp), ih ?_ ?_⟩
      · rcases h1 with h | ⟨c, rest, h, hr⟩
        · exact .inl h
        · right
          cases l' with
          | nil => cases h; exact ⟨_, [], rfl, hr⟩
          | cons y l' => cases h; exact ⟨_, _, rfl, hr⟩
      · intro c pre post he hp
        exact h2 c pre (post ++ [e]) (by rw [he]; simp) hp

/-- Every list of changes has a last life. -/
theorem lastLife_exists (limit : WithTop ℚ) (cs : List GaugeChange) : ∃ life, LastLife limit cs life := by
  induction cs using List.reverseRecOn with
  | nil => exact ⟨[], [], rfl, .inl rfl, by intro c pre post h; simp at h⟩
  | append_singleton cs e ih =>
    by_cases he : RanOut limit cs e.time
    · refine ⟨[e], cs, rfl, .inr ⟨e, [], rfl, he⟩, ?_⟩
      intro c pre post h hp
      cases pre with
      | nil => exact absurd rfl hp
      | cons a pre => simp at h
    · obtain ⟨life, gone, rfl, h1, h2⟩ := ih
      refine ⟨life ++ [e], gone, by simp, ?_, ?_⟩
      · rcases h1 with h | ⟨c, rest, rfl, hr⟩
        · exact .inl h
        · exact .inr ⟨c, rest ++ [e], rfl, hr⟩
      · intro c pre post h hp
        rcases List.eq_nil_or_concat post with rfl | ⟨post', x, rfl⟩
        · obtain ⟨rfl, hx⟩ := List.append_inj' h rfl
          cases hx
          exact he
        · rw [List.concat_eq_append, ← List.cons_append, ← List.append_assoc] at h
          exact h2 c pre post' (List.append_inj' h rfl).1 hp

/-- The amount in a gauge. -/
theorem level_eq (cfg : JobResourceSettings) (t : ℚ) (l : List ResourceEntry) (life : List GaugeChange)
    (h : LastLife cfg.expiryFromLastGain (l.map changeOf) life) :
    (RanOut cfg.expiryFromLastGain (l.map changeOf) t ∧ limitFrom (l.map changeOf) ≠ some 0 → level cfg t l = 0) ∧
    (¬ (RanOut cfg.expiryFromLastGain (l.map changeOf) t ∧ limitFrom (l.map changeOf) ≠ some 0) →
      level cfg t l = holds cfg.maxValue (counted t life)) := by
  obtain ⟨gone, he, h1, h2⟩ := h
  obtain ⟨g, f, rfl, rfl, rfl⟩ := List.map_eq_append_iff.1 he
  have ht := fold_total cfg t g f ?_ ?_
  · have hl := fold_limit cfg t (g ++ f)
    unfold level
    simp only
    rw [← ht]
    unfold RanOut
    rw [← hl]
    cases ((g ++ f).foldl (levelStep cfg t) {}).lastRefresh with
    | none => simp
    | some r =>
      have hiff : ((∃ r', some r = some r' ∧ (r' : WithTop ℚ) + cfg.expiryFromLastGain < (t : WithTop ℚ)) ∧
          some r ≠ some (0 : ℚ)) ↔ (r ≠ 0 ∧ (r : WithTop ℚ) + cfg.expiryFromLastGain < (t : WithTop ℚ)) := by
        simp [and_comm]
      rw [hiff]
      exact ⟨fun h => if_pos h, fun h => if_neg h⟩
  · rcases h1 with h | ⟨c, rest, h, hr⟩
    · left; simpa using h
    · right
      obtain ⟨a, l', rfl, rfl, rfl⟩ := List.map_eq_cons_iff.1 h
      exact ⟨a, l', rfl, hr⟩
  · rintro c pre post rfl hp
    rw [List.map_append]
    exact h2 (changeOf c) (pre.map changeOf) (post.map changeOf) (by simp) (by simpa using hp)

end Ama.JobResourceTracker
