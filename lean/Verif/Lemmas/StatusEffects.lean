import Verif.Spec.StatusEffects
import Verif.Lemmas.Py
import Mathlib.Algebra.BigOperators.Group.List.Basic
import Mathlib.Tactic.Ring
import Mathlib.Tactic.Linarith

namespace Ama

open Spec StatusEffectTracker

/-! ## Small dictionary facts -/

theorem keys_filter_sublist {ν : Type} (p : String × ν → Bool) (d : Dict String ν) :
    (Dict.keys (d.filter p)).Sublist (Dict.keys d) := by
  unfold Dict.keys
  exact List.filter_sublist.map _

theorem get?_filter {ν : Type} {p : String × ν → Bool} {d : Dict String ν}
    (hn : (Dict.keys d).Nodup) (k : String) :
    Dict.get? (d.filter p) k =
      match Dict.get? d k with
      | some v => if p (k, v) then some v else none
      | none => none := by
  have hn' : (Dict.keys (d.filter p)).Nodup := (keys_filter_sublist p d).nodup hn
  cases h : Dict.get? d k with
  | none =>
    rw [Dict.get?_eq_none] at h
    simp only
    rw [Dict.get?_eq_none]
    exact fun h' => h ((keys_filter_sublist p d).subset h')
  | some v =>
    simp only
    have hm := Dict.mem_of_get? h
    split_ifs with hp
    · exact Dict.get?_of_mem hn' (List.mem_filter.2 ⟨hm, hp⟩)
    · rw [Dict.get?_eq_none]
      intro h'
      obtain ⟨⟨k', v'⟩, hkv, rfl⟩ := List.mem_map.1 h'
      obtain ⟨h1, h2⟩ := List.mem_filter.1 hkv
      have := Dict.get?_of_mem hn h1
      simp only at h
      rw [this] at h
      cases h
      exact hp h2

theorem get?_map_val {ν μ : Type} (f : ν → μ) (d : Dict String ν) (k : String) :
    Dict.get? (d.map (fun kv => (kv.1, f kv.2))) k = (Dict.get? d k).map f := by
  induction d with
  | nil => rfl
  | cons a d ih =>
    obtain ⟨k', v⟩ := a
    simp only [List.map_cons, Dict.get?_cons]
    split_ifs
    · rfl
    · exact ih

theorem keys_map_val {ν μ : Type} (f : ν → μ) (d : Dict String ν) :
    Dict.keys (d.map (fun kv => (kv.1, f kv.2))) = Dict.keys d := by
  simp [Dict.keys, Function.comp_def]

theorem mem_iff_get? {ν : Type} {d : Dict String ν} (hn : (Dict.keys d).Nodup) {k : String} {v : ν} :
    (k, v) ∈ d ↔ Dict.get? d k = some v :=
  ⟨Dict.get?_of_mem hn, Dict.mem_of_get?⟩

/-! ## Well-formedness -/

theorem expireEffects_nodup {t : ℚ} {es : Effects} (h : (Dict.keys es).Nodup) :
    (Dict.keys (expireEffects t es)).Nodup := (keys_filter_sublist _ es).nodup h

theorem addEffect_nodup {t : ℚ} {es : Effects} {n : String} {s : StatusEffectSpec}
    (h : (Dict.keys es).Nodup) : (Dict.keys (addEffect es t n s)).Nodup := by
  unfold addEffect
  split
  · split_ifs
    · exact h
    · exact Dict.nodup_set h _ _
  · exact Dict.nodup_set h _ _

theorem endEffect_nodup {t : ℚ} {es : Effects} {n : String}
    (h : (Dict.keys es).Nodup) : (Dict.keys (endEffect es n t)).Nodup := by
  unfold endEffect
  split
  · exact h
  · exact Dict.nodup_set h _ _

theorem lookupDebuffs_nodup {tr : StatusEffectTracker} (h : WellFormed tr) (target : String) :
    (Dict.keys (tr.lookupDebuffs target)).Nodup := by
  unfold lookupDebuffs
  cases hg : Dict.get? tr.debuffs target with
  | none => simp [Dict.keys]
  | some e => exact h.2.2 _ (Dict.mem_of_get? hg)

theorem mem_set_imp {ν : Type} {d : Dict String ν} {k : String} {v : ν} {kv : String × ν}
    (h : kv ∈ Dict.set d k v) : kv ∈ d ∨ kv = (k, v) := by
  induction d with
  | nil => simp [Dict.set] at h; exact Or.inr h
  | cons a d ih =>
    simp only [Dict.set] at h
    split_ifs at h with hk
    · rcases List.mem_cons.1 h with rfl | h
      · subst hk; exact Or.inr rfl
      · exact Or.inl (List.mem_cons_of_mem _ h)
    · rcases List.mem_cons.1 h with rfl | h
      · exact Or.inl (by simp)
      · rcases ih h with h | h
        · exact Or.inl (List.mem_cons_of_mem _ h)
        · exact Or.inr h

theorem setDebuffs_wf {tr : StatusEffectTracker} (h : WellFormed tr) (target : String) (es : Effects)
    (hes : (Dict.keys es).Nodup) : WellFormed (tr.setDebuffs target es) := by
  refine ⟨h.1, Dict.nodup_set h.2.1 _ _, ?_⟩
  intro kv hkv
  rcases mem_set_imp hkv with h' | rfl
  · exact h.2.2 _ h'
  · exact hes

theorem expire_wf {tr : StatusEffectTracker} (h : WellFormed tr) (t : ℚ) : WellFormed (tr.expire t) := by
  refine ⟨expireEffects_nodup h.1, ?_, ?_⟩
  · simp only [expire, keys_map_val]
    exact h.2.1
  · intro kv hkv
    simp only [expire] at hkv
    obtain ⟨kv', h', rfl⟩ := List.mem_map.1 hkv
    exact expireEffects_nodup (h.2.2 _ h')

theorem expireNamed_wf {tr : StatusEffectTracker} (h : WellFormed tr) (n : String) (t : ℚ)
    (target : String) : WellFormed (tr.expireNamed n t target) := by
  unfold expireNamed
  have h' : WellFormed { tr with buffs := endEffect tr.buffs n t } := ⟨endEffect_nodup h.1, h.2⟩
  exact setDebuffs_wf h' _ _ (endEffect_nodup (lookupDebuffs_nodup h' _))

theorem foldl_expireNamed_wf {tr : StatusEffectTracker} (h : WellFormed tr) (l : List String) (t : ℚ)
    (target : String) : WellFormed (l.foldl (fun tr n => expireNamed tr n t target) tr) := by
  induction l generalizing tr with
  | nil => exact h
  | cons a l ih => exact ih (expireNamed_wf h _ _ _)

theorem addBuff_wf {tr : StatusEffectTracker} (h : WellFormed tr) (t : ℚ) (n : String)
    (s : StatusEffectSpec) : WellFormed (tr.addBuff t n s) := by
  unfold addBuff
  apply foldl_expireNamed_wf
  refine ⟨addEffect_nodup ?_, ?_⟩
  · split_ifs
    · simp [Dict.keys]
    · exact h.1
  · split_ifs
    · exact h.2
    · exact h.2

theorem addDebuff_wf {tr : StatusEffectTracker} (h : WellFormed tr) (t : ℚ) (n : String)
    (s : StatusEffectSpec) (target : String) : WellFormed (tr.addDebuff t n s target) := by
  unfold addDebuff
  apply foldl_expireNamed_wf
  exact setDebuffs_wf h _ _ (addEffect_nodup (lookupDebuffs_nodup h _))

theorem foldl_addDebuff_wf {tr : StatusEffectTracker} (h : WellFormed tr) (t : ℚ) (n : String)
    (s : StatusEffectSpec) (targets : List String) :
    WellFormed (targets.foldl (fun tr target => tr.addDebuff t n s target) tr) := by
  induction targets generalizing tr with
  | nil => exact h
  | cons a l ih => exact ih (addDebuff_wf h _ _ _ _)

/-- The buff part of `add`. -/
def applyBuff (tr : StatusEffectTracker) (t : ℚ) (n : String) : Option StatusEffectSpec →
    StatusEffectTracker
  | none => tr
  | some s => tr.addBuff t n s

/-- The debuff part of `add`. -/
def applyDebuff (tr : StatusEffectTracker) (t : ℚ) (n : String) (targets : List String) :
    Option StatusEffectSpec → StatusEffectTracker
  | none => tr
  | some s => targets.foldl (fun tr target => tr.addDebuff t n s target) tr

/-- `add` computes to the two loops when the specs can be looked up. -/
theorem add_ok {tr tr' : StatusEffectTracker} {t : ℚ} {skill : SkillCore} {m : SkillModifier}
    {targets : List String} (h : tr.add t skill m targets = .ok tr') :
    ∃ b d, skill.getBuffSpec m = .ok b ∧ skill.getDebuffSpec m = .ok d ∧
      tr' = applyDebuff (applyBuff tr t skill.name b) t skill.name targets d := by
  unfold add at h
  obtain ⟨b, hb, h⟩ := Py.bind_eq_ok.1 h
  obtain ⟨d, hd, h⟩ := Py.bind_eq_ok.1 h
  refine ⟨b, d, hb, hd, ?_⟩
  cases b <;> cases d <;> simp only [Py.pure_eq, Except.ok.injEq] at h <;> exact h.symm

theorem add_wf {tr tr' : StatusEffectTracker} (h : WellFormed tr) {t : ℚ} {skill : SkillCore}
    {m : SkillModifier} {targets : List String} (ha : tr.add t skill m targets = .ok tr') :
    WellFormed tr' := by
  obtain ⟨b, d, _, _, rfl⟩ := add_ok ha
  have hb : WellFormed (applyBuff tr t skill.name b) := by
    cases b with
    | none => exact h
    | some s => exact addBuff_wf h _ _ _
  cases d with
  | none => exact hb
  | some s => exact foldl_addDebuff_wf hb _ _ _ _

/-! ## Compiling effects -/

theorem mem_validNames {es : Effects} {t : ℚ} {skill : SkillCore} {n : String} :
    n ∈ validNames t es skill.statusEffectDenylist skill.name ↔ Valid es t skill n := by
  unfold validNames Valid Allowed
  simp only [List.mem_map, List.mem_filter, Prod.exists, exists_and_right, exists_eq_right]
  constructor
  · rintro ⟨e, he, hp⟩
    refine ⟨e, he, ?_⟩
    split_ifs at hp with h1 h2
    refine ⟨not_lt.1 h1, h2, ?_⟩
    intro al hal
    rw [hal] at hp
    simpa using hp
  · rintro ⟨e, he, h1, h2, h3⟩
    refine ⟨e, he, ?_⟩
    rw [if_neg (not_lt.2 h1), if_neg h2]
    cases hal : e.spec.skillAllowlist with
    | none => rfl
    | some al => simp [h3 al hal]

theorem validNames_sublist (t : ℚ) (es : Effects) (dl : List String) (sn : String) :
    (validNames t es dl sn).Sublist (Dict.keys es) := by
  unfold validNames Dict.keys
  exact List.filter_sublist.map _

theorem foldl_erase_sublist (ps l : List String) : (ps.foldl List.erase l).Sublist l := by
  induction ps generalizing l with
  | nil => exact List.Sublist.refl _
  | cons p ps ih => exact (ih _).trans List.erase_sublist

theorem mem_foldl_erase {ps l : List String} (h : l.Nodup) {n : String} :
    n ∈ ps.foldl List.erase l ↔ n ∈ l ∧ n ∉ ps := by
  induction ps generalizing l with
  | nil => simp
  | cons p ps ih =>
    simp only [List.foldl_cons]
    rw [ih (h.erase p), h.mem_erase_iff]
    simp only [List.mem_cons, not_or]
    tauto

theorem deleteLowerPriority_sublist (ps l : List String) : (deleteLowerPriority ps l).Sublist l := by
  induction ps with
  | nil => exact List.Sublist.refl _
  | cons p ps ih =>
    simp only [deleteLowerPriority]
    split_ifs
    · exact foldl_erase_sublist _ _
    · exact ih

theorem mem_deleteLowerPriority {ps l : List String} (h : l.Nodup) {n : String} :
    n ∈ deleteLowerPriority ps l ↔ n ∈ l ∧ ¬ Outranked ps (fun p => p ∈ l) n := by
  induction ps with
  | nil => simp [deleteLowerPriority, Outranked]
  | cons p ps ih =>
    simp only [deleteLowerPriority]
    split_ifs with hp
    · rw [mem_foldl_erase h]
      refine and_congr_right fun _ => not_congr ?_
      constructor
      · intro hn
        exact ⟨[], p, ps, rfl, hp, hn⟩
      · rintro ⟨a, q, r, he, hq, hn⟩
        cases a with
        | nil =>
          simp only [List.nil_append, List.cons.injEq] at he
          rw [he.2]; exact hn
        | cons b a =>
          simp only [List.cons_append, List.cons.injEq] at he
          rw [he.2]; simp [hn]
    · rw [ih]
      refine and_congr_right fun _ => not_congr ?_
      constructor
      · rintro ⟨a, q, r, he, hq, hn⟩
        exact ⟨p :: a, q, r, by rw [he]; rfl, hq, hn⟩
      · rintro ⟨a, q, r, he, hq, hn⟩
        cases a with
        | nil =>
          simp only [List.nil_append, List.cons.injEq] at he
          exact absurd (he.1 ▸ hq) hp
        | cons b a =>
          simp only [List.cons_append, List.cons.injEq] at he
          exact ⟨a, q, r, he.2, hq, hn⟩

theorem deleteLowerPriority_nil (l : List String) : deleteLowerPriority [] l = l := rfl

/-- The names that contribute. -/
def contribNames (priority : List String) (t : ℚ) (es : Effects) (dl : List String) (sn : String) :
    List String := deleteLowerPriority priority (validNames t es dl sn)

theorem contribNames_sublist (priority : List String) (t : ℚ) (es : Effects) (dl : List String)
    (sn : String) : (contribNames priority t es dl sn).Sublist (Dict.keys es) :=
  (deleteLowerPriority_sublist _ _).trans (validNames_sublist _ _ _ _)

/-- One use is taken from an effect. -/
def ActiveEffect.used (e : ActiveEffect) : ActiveEffect := { e with uses := decUses e.uses }

/-- The (name, spec) pairs of a list of names. -/
def specsOf (es : Effects) (names : List String) : List (String × StatusEffectSpec) :=
  names.filterMap (fun n => (Dict.get? es n).map (fun e => (n, e.spec)))

theorem specsOf_congr {es es' : Effects} {names : List String}
    (h : ∀ n ∈ names, (Dict.get? es n).map (·.spec) = (Dict.get? es' n).map (·.spec)) :
    specsOf es names = specsOf es' names := by
  unfold specsOf
  apply List.filterMap_congr
  intro n hn
  have := h n hn
  cases h1 : Dict.get? es n <;> cases h2 : Dict.get? es' n <;> simp_all

/-- The loop of `compileEffects`, separated into its effect on the dictionary and the accumulator. -/
theorem foldlM_compileStep {names : List String} {es es' : Effects} {acc acc' : CompileAcc}
    (hnames : names.Nodup)
    (h : names.foldlM compileStep (es, acc) = .ok (es', acc')) :
    Dict.keys es' = Dict.keys es ∧
    (∀ n, Dict.get? es' n = if n ∈ names then (Dict.get? es n).map ActiveEffect.used
      else Dict.get? es n) ∧
    (specsOf es names).foldlM (fun a p => accEffect a p.1 p.2) acc = .ok acc' := by
  induction names generalizing es acc with
  | nil =>
    simp only [Py.foldlM_nil, Except.ok.injEq, Prod.mk.injEq] at h
    obtain ⟨rfl, rfl⟩ := h
    exact ⟨rfl, by simp, rfl⟩
  | cons n names ih =>
    rw [List.nodup_cons] at hnames
    rw [Py.foldlM_cons] at h
    obtain ⟨⟨es1, acc1⟩, h1, h2⟩ := Py.bind_eq_ok.1 h
    unfold compileStep at h1
    obtain ⟨e, he, h1⟩ := Py.bind_eq_ok.1 h1
    obtain ⟨a, ha, h1⟩ := Py.bind_eq_ok.1 h1
    simp only [Py.pure_eq, Except.ok.injEq, Prod.mk.injEq] at h1
    obtain ⟨rfl, rfl⟩ := h1
    simp only at he ha h2
    rw [Dict.get_ok] at he
    obtain ⟨hk, hg, hacc⟩ := ih hnames.2 h2
    have hmem : n ∈ Dict.keys es := Dict.get?_isSome.1 (by rw [he]; rfl)
    refine ⟨?_, ?_, ?_⟩
    · rw [hk, Dict.keys_set, if_pos hmem]
    · intro q
      rw [hg q]
      by_cases hq : q = n
      · subst hq
        rw [if_neg hnames.1, Dict.get?_set_self, if_pos (by simp), he]
        rfl
      · rw [Dict.get?_set_ne _ _ (Ne.symm hq)]
        simp [hq]
    · have hs : specsOf es (n :: names) = (n, e.spec) :: specsOf es names := by
        simp [specsOf, he]
      rw [hs, Py.foldlM_cons, ha, Py.ok_bind]
      rw [← hacc]
      congr 1
      apply specsOf_congr
      intro q hq
      have hne : n ≠ q := by rintro rfl; exact hnames.1 hq
      rw [Dict.get?_set_ne _ _ hne]

/-- Conversely the loop succeeds when the accumulator loop does. -/
theorem foldlM_compileStep_ok {names : List String} {es : Effects} {acc acc' : CompileAcc}
    (hnames : names.Nodup) (hsub : ∀ n ∈ names, n ∈ Dict.keys es)
    (h : (specsOf es names).foldlM (fun a p => accEffect a p.1 p.2) acc = .ok acc') :
    ∃ es', names.foldlM compileStep (es, acc) = .ok (es', acc') := by
  induction names generalizing es acc with
  | nil =>
    simp only [specsOf, List.filterMap_nil, Py.foldlM_nil, Except.ok.injEq] at h
    subst h
    exact ⟨es, rfl⟩
  | cons n names ih =>
    rw [List.nodup_cons] at hnames
    obtain ⟨e, he⟩ := Option.isSome_iff_exists.1 (Dict.get?_isSome.2 (hsub n (by simp)))
    have hs : specsOf es (n :: names) = (n, e.spec) :: specsOf es names := by
      simp [specsOf, he]
    rw [hs, Py.foldlM_cons] at h
    obtain ⟨a, ha, h⟩ := Py.bind_eq_ok.1 h
    have hcongr : specsOf es names = specsOf (Dict.set es n e.used) names := by
      apply specsOf_congr
      intro q hq
      have hne : n ≠ q := by rintro rfl; exact hnames.1 hq
      rw [Dict.get?_set_ne _ _ hne]
    rw [hcongr] at h
    obtain ⟨es', hes'⟩ := ih hnames.2 (fun q hq => Dict.mem_keys_set.2
      (Or.inr (hsub q (List.mem_cons_of_mem _ hq)))) h
    refine ⟨es', ?_⟩
    rw [Py.foldlM_cons]
    have : compileStep (es, acc) n = .ok (Dict.set es n e.used, a) := by
      unfold compileStep
      simp only at ha ⊢
      rw [Dict.get_ok.2 he, Py.ok_bind, ha]
      rfl
    rw [this, Py.ok_bind, hes']

/-! ### Closed form of the accumulator -/

/-- The forced flag of a list of specs, starting from `g`: none if two are forced. -/
def forcedFrom (f : StatusEffectSpec → Forced) (g : Forced) (L : List StatusEffectSpec) :
    Option Forced :=
  match L.filter (fun s => decide (f s ≠ .default)) with
  | [] => some g
  | [s] => if g = .default then some (f s) else none
  | _ :: _ :: _ => none

theorem forcedFrom_cons_default {f : StatusEffectSpec → Forced} {g : Forced} {s : StatusEffectSpec}
    {L : List StatusEffectSpec} (h : f s = .default) : forcedFrom f g (s :: L) = forcedFrom f g L := by
  unfold forcedFrom
  rw [List.filter_cons_of_neg (by simp [h])]

theorem forcedFrom_cons_forced {f : StatusEffectSpec → Forced} {g : Forced} {s : StatusEffectSpec}
    {L : List StatusEffectSpec} (h : f s ≠ .default) :
    forcedFrom f g (s :: L) = if g = .default then forcedFrom f (f s) L else none := by
  unfold forcedFrom
  rw [List.filter_cons_of_pos (by simp [h])]
  cases hL : L.filter (fun s => decide (f s ≠ .default)) with
  | nil => rfl
  | cons a l =>
    cases l with
    | nil =>
      simp [h]
    | cons b l =>
      simp

/-- The aggregate the loop should produce from accumulator `acc` over `(name, spec)` pairs. -/
def aggFrom (acc : CompileAcc) (c d : Forced) (L : List (String × StatusEffectSpec)) : CompileAcc :=
  { agg :=
    { critRateAdd := acc.agg.critRateAdd + (L.map (·.2.critRateAdd)).sum
      dhRateAdd := acc.agg.dhRateAdd + (L.map (·.2.dhRateAdd)).sum
      damageMult := acc.agg.damageMult * (L.map (·.2.damageMult)).prod
      mainStatMult := acc.agg.mainStatMult * (L.map (·.2.mainStatMult)).prod
      mainStatAdd := acc.agg.mainStatAdd + (L.map (·.2.mainStatAdd)).sum
      autoAttackDelayMult :=
        acc.agg.autoAttackDelayMult * (L.map (fun p => 1 - p.2.autoAttackDelayReduction)).prod
      hasteTimeMult := acc.agg.hasteTimeMult * (L.map (fun p => 1 - p.2.hasteTimeReduction)).prod
      flatCastTimeReduction :=
        acc.agg.flatCastTimeReduction + (L.map (·.2.flatCastTimeReduction)).sum
      flatGcdRecastTimeReduction :=
        acc.agg.flatGcdRecastTimeReduction + (L.map (·.2.flatGcdRecastTimeReduction)).sum
      guaranteedCrit := c
      guaranteedDh := d
      statusEffects := acc.agg.statusEffects }
    conds := acc.conds ++
      (L.filter (fun p => p.2.addToSkillModifierCondition)).map Prod.fst }

/-- The accumulator after one effect. -/
def accNext (acc : CompileAcc) (n : String) (s : StatusEffectSpec) : CompileAcc :=
  { agg :=
      { critRateAdd := acc.agg.critRateAdd + s.critRateAdd
        dhRateAdd := acc.agg.dhRateAdd + s.dhRateAdd
        damageMult := acc.agg.damageMult * s.damageMult
        mainStatMult := acc.agg.mainStatMult * s.mainStatMult
        mainStatAdd := acc.agg.mainStatAdd + s.mainStatAdd
        autoAttackDelayMult := acc.agg.autoAttackDelayMult * (1 - s.autoAttackDelayReduction)
        hasteTimeMult := acc.agg.hasteTimeMult * (1 - s.hasteTimeReduction)
        flatCastTimeReduction := acc.agg.flatCastTimeReduction + s.flatCastTimeReduction
        flatGcdRecastTimeReduction :=
          acc.agg.flatGcdRecastTimeReduction + s.flatGcdRecastTimeReduction
        guaranteedCrit := if s.guaranteedCrit ≠ .default then s.guaranteedCrit
          else acc.agg.guaranteedCrit
        guaranteedDh := if s.guaranteedDh ≠ .default then s.guaranteedDh
          else acc.agg.guaranteedDh
        statusEffects := acc.agg.statusEffects }
    conds := if s.addToSkillModifierCondition then acc.conds ++ [n] else acc.conds }

theorem accEffect_eq (acc : CompileAcc) (n : String) (s : StatusEffectSpec) :
    accEffect acc n s =
      if (s.guaranteedCrit ≠ .default ∧ acc.agg.guaranteedCrit ≠ .default) ∨
        (s.guaranteedDh ≠ .default ∧ acc.agg.guaranteedDh ≠ .default) then .error .assertionError
      else .ok (accNext acc n s) := by
  unfold accEffect pyAssert
  by_cases h1 : s.guaranteedCrit = .default <;> by_cases h2 : s.guaranteedDh = .default <;>
    by_cases h3 : acc.agg.guaranteedCrit = .default <;>
    by_cases h4 : acc.agg.guaranteedDh = .default <;>
    simp [h1, h2, h3, h4, accNext]

theorem aggFrom_accNext (acc : CompileAcc) (n : String) (s : StatusEffectSpec) (c d : Forced)
    (L : List (String × StatusEffectSpec)) :
    aggFrom (accNext acc n s) c d L = aggFrom acc c d ((n, s) :: L) := by
  unfold aggFrom accNext
  simp only [List.map_cons, List.sum_cons, List.prod_cons, CompileAcc.mk.injEq,
    StatusEffects.mk.injEq, add_assoc, mul_assoc, true_and, and_self]
  cases hs : s.addToSkillModifierCondition
  · simp [hs]
  · simp [hs]

theorem foldlM_accEffect (L : List (String × StatusEffectSpec)) (acc : CompileAcc) :
    L.foldlM (fun a p => accEffect a p.1 p.2) acc =
      match forcedFrom (·.guaranteedCrit) acc.agg.guaranteedCrit (L.map Prod.snd),
        forcedFrom (·.guaranteedDh) acc.agg.guaranteedDh (L.map Prod.snd) with
      | some c, some d => .ok (aggFrom acc c d L)
      | _, _ => .error .assertionError := by
  induction L generalizing acc with
  | nil =>
    simp [forcedFrom, aggFrom]
  | cons p L ih =>
    obtain ⟨n, s⟩ := p
    rw [Py.foldlM_cons]
    simp only [List.map_cons]
    rw [accEffect_eq]
    have hC : forcedFrom (·.guaranteedCrit) acc.agg.guaranteedCrit (s :: L.map Prod.snd) =
        if s.guaranteedCrit ≠ .default ∧ acc.agg.guaranteedCrit ≠ .default then none
        else forcedFrom (·.guaranteedCrit) (accNext acc n s).agg.guaranteedCrit (L.map Prod.snd) := by
      by_cases hc : s.guaranteedCrit = .default
      · rw [forcedFrom_cons_default (f := (·.guaranteedCrit)) hc]
        simp [hc, accNext]
      · rw [forcedFrom_cons_forced (f := (·.guaranteedCrit)) hc]
        by_cases hg : acc.agg.guaranteedCrit = .default <;> simp [hc, hg, accNext]
    have hD : forcedFrom (·.guaranteedDh) acc.agg.guaranteedDh (s :: L.map Prod.snd) =
        if s.guaranteedDh ≠ .default ∧ acc.agg.guaranteedDh ≠ .default then none
        else forcedFrom (·.guaranteedDh) (accNext acc n s).agg.guaranteedDh (L.map Prod.snd) := by
      by_cases hc : s.guaranteedDh = .default
      · rw [forcedFrom_cons_default (f := (·.guaranteedDh)) hc]
        simp [hc, accNext]
      · rw [forcedFrom_cons_forced (f := (·.guaranteedDh)) hc]
        by_cases hg : acc.agg.guaranteedDh = .default <;> simp [hc, hg, accNext]
    rw [hC, hD]
    by_cases h1 : s.guaranteedCrit ≠ .default ∧ acc.agg.guaranteedCrit ≠ .default
    · rw [if_pos (Or.inl h1), if_pos h1]
      rfl
    · by_cases h2 : s.guaranteedDh ≠ .default ∧ acc.agg.guaranteedDh ≠ .default
      · rw [if_pos (Or.inr h2), if_pos h2, if_neg h1]
        split
        · next h => cases h
        · rfl
      · rw [if_neg (by tauto), if_neg h1, if_neg h2, Py.ok_bind, ih]
        simp only [aggFrom_accNext]

/-- Complete description of `compileEffects` on a well-formed dictionary. -/
theorem compileEffects_spec {priority : List String} {t : ℚ} {es : Effects} {dl : List String}
    {sn : String} (hn : (Dict.keys es).Nodup) {agg : StatusEffects} {cond : String} {es' : Effects}
    (h : compileEffects priority t es dl sn = .ok (agg, cond, es')) :
    ∃ c d, forcedFrom (·.guaranteedCrit) .default
        ((specsOf es (contribNames priority t es dl sn)).map Prod.snd) = some c ∧
      forcedFrom (·.guaranteedDh) .default
        ((specsOf es (contribNames priority t es dl sn)).map Prod.snd) = some d ∧
      agg = { (aggFrom {} c d (specsOf es (contribNames priority t es dl sn))).agg with
        statusEffects := contribNames priority t es dl sn } ∧
      cond = strJoin ", " (aggFrom {} c d (specsOf es (contribNames priority t es dl sn))).conds ∧
      Dict.keys es' = Dict.keys es ∧
      ∀ n, Dict.get? es' n = if n ∈ contribNames priority t es dl sn
        then (Dict.get? es n).map ActiveEffect.used else Dict.get? es n := by
  unfold compileEffects at h
  obtain ⟨⟨es1, acc⟩, h1, h2⟩ := Py.bind_eq_ok.1 h
  simp only [Py.pure_eq, Except.ok.injEq, Prod.mk.injEq] at h2
  obtain ⟨rfl, rfl, rfl⟩ := h2
  change (contribNames priority t es dl sn).foldlM compileStep (es, {}) = _ at h1
  obtain ⟨hk, hg, hacc⟩ := foldlM_compileStep ((contribNames_sublist _ _ _ _ _).nodup hn) h1
  rw [foldlM_accEffect] at hacc
  split at hacc
  · next c d hc hd =>
    simp only [Except.ok.injEq] at hacc
    subst hacc
    exact ⟨c, d, hc, hd, rfl, rfl, hk, hg⟩
  · cases hacc

/-- `compileEffects` succeeds exactly when no flag is forced twice. -/
theorem compileEffects_ok_of {priority : List String} {t : ℚ} {es : Effects} {dl : List String}
    {sn : String} (hn : (Dict.keys es).Nodup) {c d : Forced}
    (hc : forcedFrom (·.guaranteedCrit) .default
        ((specsOf es (contribNames priority t es dl sn)).map Prod.snd) = some c)
    (hd : forcedFrom (·.guaranteedDh) .default
        ((specsOf es (contribNames priority t es dl sn)).map Prod.snd) = some d) :
    ∃ r, compileEffects priority t es dl sn = .ok r := by
  have hacc := foldlM_accEffect (specsOf es (contribNames priority t es dl sn)) {}
  simp only [hc, hd] at hacc
  obtain ⟨es', h⟩ := foldlM_compileStep_ok ((contribNames_sublist _ _ _ _ _).nodup hn)
    (fun n hn => (contribNames_sublist _ _ _ _ _).subset hn) hacc
  refine ⟨({ (aggFrom {} c d (specsOf es (contribNames priority t es dl sn))).agg with
        statusEffects := contribNames priority t es dl sn },
      strJoin ", " (aggFrom {} c d (specsOf es (contribNames priority t es dl sn))).conds, es'), ?_⟩
  unfold compileEffects
  change ((contribNames priority t es dl sn).foldlM compileStep (es, {}) >>= _) = _
  rw [h]
  rfl

theorem mem_contribNames {priority : List String} {t : ℚ} {es : Effects} {skill : SkillCore}
    (hn : (Dict.keys es).Nodup) {n : String} :
    n ∈ contribNames priority t es skill.statusEffectDenylist skill.name ↔
      Valid es t skill n ∧ ¬ Outranked priority (Valid es t skill) n := by
  unfold contribNames
  rw [mem_deleteLowerPriority ((validNames_sublist _ _ _ _).nodup hn), mem_validNames]
  refine and_congr_right fun _ => not_congr ?_
  unfold Outranked
  simp only [mem_validNames]

end Ama
