import Verif.Lemmas.StatusEffectGrants

/-!
# Properties C08 - C15: status effects

`runOps tr ops` performs a history of tracker operations, expiring effects before each one as both
timeline builders do, and reports for every operation which effects contributed.
-/

namespace Ama

open Spec StatusEffectTracker Utils

/-- Every history keeps the tracker's dictionaries well formed; so do the initial trackers.  This
justifies the hypothesis `WellFormed` below. -/
theorem trackers_wellFormed (priority : List String) (ops : List TrackerOp)
    (outs : List (List String)) (tr : StatusEffectTracker)
    (h : runOps { priority := priority } ops = .ok (outs, tr)) : WellFormed tr := by
  have main : ∀ (ops : List TrackerOp) (tr0 : StatusEffectTracker) (outs : List (List String)),
      WellFormed tr0 → runOps tr0 ops = .ok (outs, tr) → WellFormed tr := by
    intro ops
    induction ops with
    | nil =>
      intro tr0 outs hwf h
      simp only [runOps, Except.ok.injEq, Prod.mk.injEq] at h
      rw [← h.2]
      exact hwf
    | cons op ops ih =>
      intro tr0 outs hwf h
      simp only [runOps] at h
      obtain ⟨⟨out, tr1⟩, h1, h⟩ := Py.bind_eq_ok.1 h
      obtain ⟨⟨outs1, tr2⟩, h2, h⟩ := Py.bind_eq_ok.1 h
      simp only [Py.pure_eq, Except.ok.injEq, Prod.mk.injEq] at h
      obtain ⟨rfl, rfl⟩ := h
      exact ih tr1 outs1 (exec_wf (expire_wf hwf _) h1).1 h2
  refine main ops _ outs ⟨?_, ?_, ?_⟩ h
  · simp [Dict.keys]
  · simp [Dict.keys]
  · simp

/-! ## C08: a buff is active exactly during its window -/

/-- C08: a freshly applied effect of unlimited uses affects a skill used at a later time exactly when
that time is at most start + duration (and the skill may be affected), whatever other operations
happen in between, as long as none of them re-applies, ends or clears it. -/
theorem C08_window (tr tr1 tr2 : StatusEffectTracker) (hwf : WellFormed tr) (s : ℚ)
    (skill : SkillCore) (m : SkillModifier) (targets : List String) (slot : Slot)
    (spec : StatusEffectSpec) (hg : Grants slot skill m targets spec)
    (hx : spec.extendOnly = false) (hinf : spec.numUses = ⊤)
    (hfresh : skill.name ∉ Dict.keys (slot.effects tr)) (hp : skill.name ∉ tr.priority)
    (hadd : tr.add s skill m targets = .ok tr1)
    (ops : List TrackerOp) (outs : List (List String))
    (hops : runOps tr1 ops = .ok (outs, tr2))
    (hlater : ∀ op ∈ ops, s ≤ op.time) (hmono : ops.Pairwise (fun a b => a.time ≤ b.time))
    (hleave : ∀ op ∈ ops, Leaves slot skill.name op)
    (i : ℕ) (op : TrackerOp) (out : List String) (hop : ops[i]? = some op)
    (hout : outs[i]? = some out) (q : SkillCore) (huse : UsesSlot slot q op) :
    skill.name ∈ out ↔
      (op.time : WithTop ℚ) ≤ (s : WithTop ℚ) + spec.duration ∧ Allowed q skill.name spec := by
  classical
  have hwf1 := add_wf hwf hadd
  have hget := get?_grant_fresh hg hx hfresh hadd
  have hlaw := (runOps_law hwf1 hops (slot := slot) (name := skill.name)
    (by rw [priority_add hadd]; exact hp) hleave hget (by rw [hinf]; exact le_top)
    hlater hmono).2 i op out hop hout q huse
  rw [hlaw]
  simp only [hinf, WithTop.coe_lt_top, and_true, Eligible]
  refine and_congr_right fun _ => ?_
  constructor
  · rintro ⟨sk, hsk, ha⟩
    have : sk = q := by
      cases op with
      | expire t => exact absurd huse (by simp [UsesSlot])
      | add t sk' m' tg => exact absurd huse (by simp [UsesSlot])
      | buffs t sk' => exact hsk.2.symm.trans huse.2
      | debuffs t sk' tg => exact hsk.2.symm.trans huse.2
    rw [this] at ha
    exact ha
  · exact fun ha => ⟨q, huse, ha⟩

/-- C08: the effect does not affect anything before its start. -/
theorem C08_not_before (tr tr1 : StatusEffectTracker) (hwf : WellFormed tr) (s : ℚ)
    (skill : SkillCore) (m : SkillModifier) (targets : List String) (slot : Slot)
    (spec : StatusEffectSpec) (hg : Grants slot skill m targets spec)
    (hx : spec.extendOnly = false) (hfresh : skill.name ∉ Dict.keys (slot.effects tr))
    (hadd : tr.add s skill m targets = .ok tr1) (t : ℚ) (ht : t < s) (q : SkillCore)
    (agg : StatusEffects) (cond : String) (tr2 : StatusEffectTracker)
    (hc : slot.compile (tr1.expire t) t q = .ok ((agg, cond), tr2)) :
    skill.name ∉ agg.statusEffects := by
  have hwf1 := add_wf hwf hadd
  have hget := get?_grant_fresh hg hx hfresh hadd
  intro hin
  obtain ⟨⟨e, he, hst, _⟩, _⟩ := ((compile_spec (expire_wf hwf1 t) hc).1 _).1 hin
  have he' := Dict.get?_of_mem (effects_nodup (expire_wf hwf1 t) slot) he
  rw [effects_expire, get?_expireEffects (effects_nodup hwf1 slot), hget] at he'
  simp only at he'
  split_ifs at he'
  cases he'
  exact absurd ht (not_lt.2 hst)

/-- A 10 s damage buff, used in the examples. -/
def exampleBuff : SkillCore :=
  { name := "Battle Litany",
    buffSpec := .single (some { duration := 10000, maxDuration := 10000, damageMult := 11/10 }) }

/-- A skill to be buffed. -/
def exampleHit : SkillCore := { name := "Hit", damageSpec := .single (some { potency := 100 }) }

example : Grants .buffs exampleBuff {} ["Boss"]
    { duration := 10000, maxDuration := 10000, damageMult := 11/10 } := by
  refine ⟨by simp, by simp, rfl, ?_⟩
  intro d hd
  cases hd

example : (do
    let tr ← ({} : StatusEffectTracker).add 500 exampleBuff {} ["Boss"]
    let r ← runOps tr [.buffs 500 exampleHit, .add 600 exampleHit {} ["Boss"], .buffs 10500 exampleHit,
      .buffs 10501 exampleHit]
    return r.1) =
    (.ok [["Battle Litany"], [], ["Battle Litany"], []] : Py (List (List String))) := by
  decide +kernel

/-! ## C09: limited-use effects -/

open Classical in
/-- C09: an effect freshly granted with `n` uses modifies exactly the first `n` eligible uses in its
window: a use is modified if and only if it is eligible and fewer than `n` eligible uses precede it.
In particular, uses by skills that it is not allowed on do not consume anything. -/
theorem C09_first_n_uses (tr tr1 tr2 : StatusEffectTracker) (hwf : WellFormed tr) (s : ℚ)
    (skill : SkillCore) (m : SkillModifier) (targets : List String) (slot : Slot)
    (spec : StatusEffectSpec) (hg : Grants slot skill m targets spec)
    (hx : spec.extendOnly = false) (n : ℕ) (hn : spec.numUses = ((n : ℤ) : WithTop ℤ))
    (hfresh : skill.name ∉ Dict.keys (slot.effects tr)) (hp : skill.name ∉ tr.priority)
    (hadd : tr.add s skill m targets = .ok tr1)
    (ops : List TrackerOp) (outs : List (List String))
    (hops : runOps tr1 ops = .ok (outs, tr2))
    (hlater : ∀ op ∈ ops, s ≤ op.time) (hmono : ops.Pairwise (fun a b => a.time ≤ b.time))
    (hleave : ∀ op ∈ ops, Leaves slot skill.name op)
    (i : ℕ) (op : TrackerOp) (out : List String) (hop : ops[i]? = some op)
    (hout : outs[i]? = some out) (q : SkillCore) (huse : UsesSlot slot q op) :
    skill.name ∈ out ↔
      Eligible slot skill.name spec ((s : WithTop ℚ) + spec.duration) op ∧
      (ops.take i).countP (fun o =>
        decide (Eligible slot skill.name spec ((s : WithTop ℚ) + spec.duration) o)) < n := by
  have hwf1 := add_wf hwf hadd
  have hget := get?_grant_fresh hg hx hfresh hadd
  have hlaw := (runOps_law hwf1 hops (slot := slot) (name := skill.name)
    (by rw [priority_add hadd]; exact hp) hleave hget
    (by simp only [hn]; exact WithTop.coe_le_coe.2 (Int.natCast_nonneg n)) hlater hmono).2 i op out hop hout q huse
  rw [hlaw]
  refine and_congr_right fun _ => ?_
  simp only [hn, WithTop.coe_lt_coe]
  exact_mod_cast Iff.rfl

theorem count_le_of_first_n {α : Type} (l : List α) (E P : α → Bool) (n k : ℕ)
    (h : ∀ i a, l[i]? = some a → P a = true → E a = true ∧ (l.take i).countP E + k < n) :
    l.countP P + k ≤ max n k := by
  induction l generalizing k with
  | nil => simp
  | cons a l ih =>
    rw [List.countP_cons]
    cases hE : E a with
    | true =>
      have := ih (k + 1) (by
        intro i b hb hPb
        have := h (i + 1) b (by simpa using hb) hPb
        simp only [List.take_succ_cons, List.countP_cons, hE, if_true] at this
        exact ⟨this.1, by omega⟩)
      cases hP : P a with
      | true =>
        have h0 := h 0 a (by simp) hP
        simp at h0
        simp only [if_true]
        omega
      | false =>
        simp only [Bool.false_eq_true, if_false]
        have := ih k (by
          intro i b hb hPb
          have := h (i + 1) b (by simpa using hb) hPb
          simp only [List.take_succ_cons, List.countP_cons, hE, if_true] at this
          exact ⟨this.1, by omega⟩)
        omega
    | false =>
      have hP : P a = false := by
        cases hP : P a with
        | false => rfl
        | true =>
          have h0 := h 0 a (by simp) hP
          rw [hE] at h0
          exact absurd h0.1 (by simp)
      rw [hP]
      simp only [Bool.false_eq_true, if_false]
      have := ih k (by
        intro i b hb hPb
        have := h (i + 1) b (by simpa using hb) hPb
        simp only [List.take_succ_cons, List.countP_cons, hE, Bool.false_eq_true, if_false] at this
        exact ⟨this.1, by omega⟩)
      omega

open Classical in
/-- C09: at most `n` uses are modified in total. -/
theorem C09_at_most_n (tr tr1 tr2 : StatusEffectTracker) (hwf : WellFormed tr) (s : ℚ)
    (skill : SkillCore) (m : SkillModifier) (targets : List String) (slot : Slot)
    (spec : StatusEffectSpec) (hg : Grants slot skill m targets spec)
    (hx : spec.extendOnly = false) (n : ℕ) (hn : spec.numUses = ((n : ℤ) : WithTop ℤ))
    (hfresh : skill.name ∉ Dict.keys (slot.effects tr)) (hp : skill.name ∉ tr.priority)
    (hadd : tr.add s skill m targets = .ok tr1)
    (ops : List TrackerOp) (outs : List (List String))
    (hops : runOps tr1 ops = .ok (outs, tr2))
    (hlater : ∀ op ∈ ops, s ≤ op.time) (hmono : ops.Pairwise (fun a b => a.time ≤ b.time))
    (hleave : ∀ op ∈ ops, Leaves slot skill.name op) :
    (ops.zip outs).countP (fun p =>
      decide ((∃ q, UsesSlot slot q p.1) ∧ skill.name ∈ p.2)) ≤ n := by
  have h := count_le_of_first_n (ops.zip outs)
    (fun p => decide (Eligible slot skill.name spec ((s : WithTop ℚ) + spec.duration) p.1))
    (fun p => decide ((∃ q, UsesSlot slot q p.1) ∧ skill.name ∈ p.2)) n 0 ?_
  · simpa using h
  · rintro i ⟨op, out⟩ hz hP
    simp only [decide_eq_true_eq] at hP ⊢
    obtain ⟨⟨q, hq⟩, hin⟩ := hP
    rw [List.getElem?_zip_eq_some] at hz
    have hlaw := C09_first_n_uses tr tr1 tr2 hwf s skill m targets slot spec hg hx n hn hfresh hp hadd
      ops outs hops hlater hmono hleave i op out hz.1 hz.2 q hq
    obtain ⟨he, hc⟩ := hlaw.1 hin
    refine ⟨he, ?_⟩
    rw [Nat.add_zero]
    refine lt_of_le_of_lt ?_ hc
    have hlen : outs.length = ops.length :=
      (runOps_law (add_wf hwf hadd) hops (slot := slot) (name := skill.name)
        (by rw [priority_add hadd]; exact hp) hleave (get?_grant_fresh hg hx hfresh hadd)
        (by simp only [hn]; exact WithTop.coe_le_coe.2 (Int.natCast_nonneg n)) hlater hmono).1
    have : (ops.zip outs).take i = (ops.take i).zip (outs.take i) := List.take_zipWith
    rw [this]
    have hmap : ((ops.take i).zip (outs.take i)).map Prod.fst = ops.take i := by
      rw [List.map_fst_zip]
      simp [hlen]
    conv_rhs => rw [← hmap, List.countP_map]
    exact le_of_eq rfl

/-- An effect for one use of `Hit` only, used in the examples. -/
def exampleOneUse : SkillCore :=
  { name := "Reassemble",
    buffSpec := .single (some { duration := 5000, maxDuration := 5000, numUses := 1, maxNumUses := 1,
                                skillAllowlist := some ["Hit"], guaranteedCrit := .forceYes }) }

example : (do
    let tr ← ({} : StatusEffectTracker).add 0 exampleOneUse {} ["Boss"]
    let r ← runOps tr [.buffs 100 exampleBuff, .buffs 200 exampleHit, .buffs 300 exampleHit]
    return r.1) = (.ok [[], ["Reassemble"], []] : Py (List (List String))) := by
  decide +kernel

/-! ## C10: re-application -/

/-- C10: re-applying an active effect.  The start is kept, the newest specification wins, the uses
are capped, and the remaining duration follows the extension rule and its cap. -/
theorem C10_reapplication (tr tr1 : StatusEffectTracker) (t : ℚ) (skill : SkillCore)
    (m : SkillModifier) (targets : List String) (slot : Slot) (spec : StatusEffectSpec)
    (hg : Grants slot skill m targets spec)
    (hclear : slot = .buffs → spec.clearAllStatusEffects = false)
    (prev : ActiveEffect) (hprev : Dict.get? (slot.effects tr) skill.name = some prev)
    (hadd : tr.add t skill m targets = .ok tr1) :
    ∃ e, Dict.get? (slot.effects tr1) skill.name = some e ∧
      e.start = prev.start ∧ e.spec = spec ∧
      e.uses = min (prev.uses + spec.numUses) spec.maxNumUses ∧
      (spec.extendsExistingDuration = true →
        e.endT = (t : WithTop ℚ) + min spec.maxDuration (remaining prev.endT t + spec.duration) ∧
        (0 ≤ spec.maxDuration → remaining e.endT t ≤ spec.maxDuration)) ∧
      (spec.extendsExistingDuration = false →
        e.endT = (t : WithTop ℚ) + remaining prev.endT t ∧
        remaining e.endT t = remaining prev.endT t) := by
  have hrem : ∀ x : WithTop ℚ, max (subTime x t) 0 = remaining x t := by
    intro x
    cases x with
    | top => simp [subTime, remaining]
    | coe x =>
      simp only [subTime, WithTop.map_coe, remaining]
      exact (WithTop.coe_max (x - t) 0).symm
  have hsub : ∀ d : WithTop ℚ, remaining ((t : WithTop ℚ) + d) t = max d 0 := by
    intro d
    cases d with
    | top => simp [remaining]
    | coe d =>
      have : ((t : WithTop ℚ) + (d : WithTop ℚ)) = ((t + d : ℚ) : WithTop ℚ) := rfl
      rw [this]
      simp only [remaining, add_sub_cancel_left]
      exact WithTop.coe_max d 0
  have hget := get?_grant hg hadd
  rw [if_neg (by rintro ⟨h1, h2⟩; rw [hclear h1] at h2; exact absurd h2 (by simp))] at hget
  unfold addEffect at hget
  rw [hprev] at hget
  simp only [Dict.get?_set_self] at hget
  refine ⟨_, hget, rfl, rfl, rfl, ?_, ?_⟩
  · intro hext
    simp only [hext, if_true, hrem]
    refine ⟨trivial, ?_⟩
    intro h0
    rw [hsub]
    exact max_le (min_le_left _ _) h0
  · intro hext
    simp only [hext, Bool.false_eq_true, if_false, hrem]
    refine ⟨trivial, ?_⟩
    rw [hsub]
    apply max_eq_left
    rw [← hrem]
    exact le_max_right _ _

/-- C10: an extend-only effect never creates an entry. -/
theorem C10_extend_only (tr tr1 : StatusEffectTracker) (t : ℚ) (skill : SkillCore)
    (m : SkillModifier) (targets : List String) (slot : Slot) (spec : StatusEffectSpec)
    (hg : Grants slot skill m targets spec) (hx : spec.extendOnly = true)
    (habs : skill.name ∉ Dict.keys (slot.effects tr))
    (hadd : tr.add t skill m targets = .ok tr1) :
    skill.name ∉ Dict.keys (slot.effects tr1) := by
  rw [← Dict.get?_eq_none, get?_grant hg hadd]
  have hn : Dict.get? (if slot = .buffs ∧ spec.clearAllStatusEffects = true then []
        else slot.effects tr) skill.name = none := by
    split_ifs
    · rfl
    · exact Dict.get?_eq_none.2 habs
  unfold addEffect
  rw [hn]
  simp only [hx, if_true]
  exact hn

example : (do
    let tr ← ({} : StatusEffectTracker).add 0 exampleBuff {} ["Boss"]
    let tr ← tr.add 4000 exampleBuff {} ["Boss"]
    return tr.buffs.map (fun kv => (kv.1, kv.2.start, kv.2.endT))) =
    (.ok [("Battle Litany", 0, 14000)] : Py (List (String × ℚ × WithTop ℚ))) := by
  decide +kernel

/-! ## C11: the aggregate is an order-independent product/sum -/

theorem compile_fields {tr : StatusEffectTracker} (hwf : WellFormed tr) {t : ℚ} {skill : SkillCore}
    {slot : Slot} {agg : StatusEffects} {cond : String} {tr' : StatusEffectTracker}
    (h : slot.compile tr t skill = .ok ((agg, cond), tr')) :
    ∃ c d es', compileEffects tr.priority t (slot.effects tr) skill.statusEffectDenylist skill.name =
        .ok (agg, cond, es') ∧
      forcedFrom (·.guaranteedCrit) .default ((specsOf (slot.effects tr)
        (contribNames tr.priority t (slot.effects tr) skill.statusEffectDenylist skill.name)).map
          Prod.snd) = some c ∧
      forcedFrom (·.guaranteedDh) .default ((specsOf (slot.effects tr)
        (contribNames tr.priority t (slot.effects tr) skill.statusEffectDenylist skill.name)).map
          Prod.snd) = some d ∧
      agg = { (aggFrom {} c d (specsOf (slot.effects tr) (contribNames tr.priority t (slot.effects tr)
          skill.statusEffectDenylist skill.name))).agg with
        statusEffects := contribNames tr.priority t (slot.effects tr) skill.statusEffectDenylist
          skill.name } ∧
      cond = strJoin ", " (aggFrom {} c d (specsOf (slot.effects tr) (contribNames tr.priority t
        (slot.effects tr) skill.statusEffectDenylist skill.name))).conds := by
  have hn := effects_nodup hwf slot
  cases slot with
  | buffs =>
    simp only [Slot.compile, compileBuffs] at h
    obtain ⟨⟨a, c, es⟩, hc, h⟩ := Py.bind_eq_ok.1 h
    simp only [Py.pure_eq, Except.ok.injEq, Prod.mk.injEq] at h
    obtain ⟨⟨rfl, rfl⟩, rfl⟩ := h
    obtain ⟨c, d, h1, h2, h3, h4, _⟩ := compileEffects_spec hn hc
    exact ⟨c, d, es, hc, h1, h2, h3, h4⟩
  | debuffs target =>
    simp only [Slot.compile, compileDebuffs] at h
    obtain ⟨⟨a, c, es⟩, hc, h⟩ := Py.bind_eq_ok.1 h
    simp only [Py.pure_eq, Except.ok.injEq, Prod.mk.injEq] at h
    obtain ⟨⟨rfl, rfl⟩, rfl⟩ := h
    obtain ⟨c, d, h1, h2, h3, h4, _⟩ := compileEffects_spec hn hc
    exact ⟨c, d, es, hc, h1, h2, h3, h4⟩

theorem compile_of_compileEffects {tr : StatusEffectTracker} {t : ℚ} {skill : SkillCore} {slot : Slot}
    {agg : StatusEffects} {cond : String} {es' : Effects}
    (h : compileEffects tr.priority t (slot.effects tr) skill.statusEffectDenylist skill.name =
      .ok (agg, cond, es')) :
    ∃ tr', slot.compile tr t skill = .ok ((agg, cond), tr') := by
  cases slot with
  | buffs =>
    refine ⟨{ tr with buffs := es' }, ?_⟩
    simp only [Slot.compile, compileBuffs]
    simp only [Slot.effects] at h
    rw [h]
    rfl
  | debuffs target =>
    refine ⟨tr.setDebuffs target es', ?_⟩
    simp only [Slot.compile, compileDebuffs]
    simp only [Slot.effects] at h
    rw [h]
    rfl

/-- C11: the aggregate is the product of the multipliers and the sum of the bonuses of exactly the
contributing effects; which effects contribute is characterised by C12 and C14. -/
theorem C11_product_and_sum (tr tr' : StatusEffectTracker) (hwf : WellFormed tr) (t : ℚ)
    (skill : SkillCore) (slot : Slot) (agg : StatusEffects) (cond : String)
    (h : slot.compile tr t skill = .ok ((agg, cond), tr')) :
    let S := ((slot.effects tr).filter (fun kv => decide (kv.1 ∈ agg.statusEffects))).map
      (fun kv => kv.2.spec)
    agg.damageMult = (S.map (·.damageMult)).prod ∧
    agg.mainStatMult = (S.map (·.mainStatMult)).prod ∧
    agg.hasteTimeMult = (S.map (fun s => 1 - s.hasteTimeReduction)).prod ∧
    agg.autoAttackDelayMult = (S.map (fun s => 1 - s.autoAttackDelayReduction)).prod ∧
    agg.critRateAdd = (S.map (·.critRateAdd)).sum ∧
    agg.dhRateAdd = (S.map (·.dhRateAdd)).sum ∧
    agg.mainStatAdd = (S.map (·.mainStatAdd)).sum ∧
    agg.flatCastTimeReduction = (S.map (·.flatCastTimeReduction)).sum ∧
    agg.flatGcdRecastTimeReduction = (S.map (·.flatGcdRecastTimeReduction)).sum := by
  obtain ⟨c, d, es', _, _, _, hagg, _⟩ := compile_fields hwf h
  have hs := specsOf_eq (effects_nodup hwf slot)
    (contribNames_sublist tr.priority t (slot.effects tr) skill.statusEffectDenylist skill.name)
  have hnames : agg.statusEffects = contribNames tr.priority t (slot.effects tr)
      skill.statusEffectDenylist skill.name := by rw [hagg]
  rw [← hnames] at hs
  rw [hagg]
  simp only
  rw [← hnames, hs]
  unfold aggFrom
  simp only [List.map_map, Function.comp_def, zero_add, one_mul]
  refine ⟨?_, ?_, ?_, ?_, ?_, ?_, ?_, ?_, ?_⟩ <;> first | rfl | simp

/-- C11: the aggregate does not depend on the order in which the effects are stored; the same flags
conflict, the same effects contribute, and the same conditions are added to the skill. -/
theorem C11_order_independent (tr1 tr2 tr1' : StatusEffectTracker) (h1 : WellFormed tr1)
    (h2 : WellFormed tr2) (hpr : tr2.priority = tr1.priority) (slot : Slot)
    (hp : (slot.effects tr1).Perm (slot.effects tr2)) (t : ℚ) (skill : SkillCore)
    (agg1 : StatusEffects) (cond1 : String)
    (h : slot.compile tr1 t skill = .ok ((agg1, cond1), tr1')) :
    ∃ agg2 cond2 tr2', slot.compile tr2 t skill = .ok ((agg2, cond2), tr2') ∧
      agg2.pyEq agg1 = true ∧ agg2.statusEffects.Perm agg1.statusEffects ∧
      ((∀ name ∈ Dict.keys (slot.effects tr1), CleanName name) →
        ∀ m : SkillModifier, m.addToCondition cond2 = m.addToCondition cond1) := by
  obtain ⟨c, d, es', hc, hcrit, hdh, hagg, hcond⟩ := compile_fields h1 h
  have hn1 := effects_nodup h1 slot
  have hn2 := effects_nodup h2 slot
  have hsp := specsOf_perm (priority := tr1.priority) (t := t) (dl := skill.statusEffectDenylist)
    (sn := skill.name) hn1 hp
  rw [forcedFrom_perm (hsp.map _)] at hcrit hdh
  rw [← hpr] at hcrit hdh hsp
  obtain ⟨⟨agg2, cond2, es2⟩, hc2⟩ := compileEffects_ok_of hn2 hcrit hdh
  obtain ⟨tr2', ht2⟩ := compile_of_compileEffects hc2
  obtain ⟨c', d', hcrit', hdh', hagg2, hcond2, _⟩ := compileEffects_spec hn2 hc2
  rw [hcrit] at hcrit'
  rw [hdh] at hdh'
  cases hcrit'
  cases hdh'
  refine ⟨agg2, cond2, tr2', ht2, ?_, ?_, ?_⟩
  · have := aggFrom_agg_perm (c := c) (d := d) hsp
    rw [hpr] at this
    rw [hagg, hagg2, hpr, this]
    simp [StatusEffects.pyEq]
  · rw [hagg, hagg2, hpr]
    exact (contribNames_perm hn1 hp).symm
  · intro hclean m
    rw [hcond, hcond2, ← hpr]
    have hl : ((aggFrom {} c d (specsOf (slot.effects tr2) (contribNames tr2.priority t
        (slot.effects tr2) skill.statusEffectDenylist skill.name))).conds).Perm
        ((aggFrom {} c d (specsOf (slot.effects tr1) (contribNames tr2.priority t
        (slot.effects tr1) skill.statusEffectDenylist skill.name))).conds) := by
      unfold aggFrom
      simp only [List.nil_append]
      exact ((hsp.filter _).map _).symm
    have hcl : ∀ x ∈ (aggFrom {} c d (specsOf (slot.effects tr1) (contribNames tr2.priority t
        (slot.effects tr1) skill.statusEffectDenylist skill.name))).conds, CleanName x := by
      intro x hx
      unfold aggFrom at hx
      simp only [List.nil_append, List.mem_map, List.mem_filter] at hx
      obtain ⟨p, ⟨hp', _⟩, rfl⟩ := hx
      unfold specsOf at hp'
      obtain ⟨n, hn, hnp⟩ := List.mem_filterMap.1 hp'
      cases hg : Dict.get? (slot.effects tr1) n with
      | none => rw [hg] at hnp; cases hnp
      | some e =>
        rw [hg] at hnp
        cases hnp
        exact hclean _ (Dict.get?_isSome.1 (by rw [hg]; rfl))
    generalize (aggFrom {} c d (specsOf (slot.effects tr1) (contribNames tr2.priority t
        (slot.effects tr1) skill.statusEffectDenylist skill.name))).conds = l1 at hl hcl
    generalize (aggFrom {} c d (specsOf (slot.effects tr2) (contribNames tr2.priority t
        (slot.effects tr2) skill.statusEffectDenylist skill.name))).conds = l2 at hl
    by_cases hb : l1 = [""]
    · subst hb
      rw [List.perm_singleton.1 hl]
    · have hb2 : l2 ≠ [""] := by
        rintro rfl
        exact hb (List.perm_singleton.1 hl.symm)
      have e1 := canonicalize_strJoin [' '] (by decide) l1 hcl hb
      have e2 := canonicalize_strJoin [' '] (by decide) l2 (fun x hx => hcl x (hl.subset hx)) hb2
      have e3 : l2.toFinset = l1.toFinset := List.toFinset_eq_of_perm _ _ hl
      have key : ∀ (a : String), m.addToCondition a =
          { m with withCondition := m.withCondition ∪ canonicalizeCondition a } := by
        intro a
        unfold SkillModifier.addToCondition
        split_ifs with h
        · simp [canonicalizeCondition, h]
        · rfl
      rw [key, key]
      have e1' : canonicalizeCondition (strJoin ", " l1) = l1.toFinset := e1
      have e2' : canonicalizeCondition (strJoin ", " l2) = l2.toFinset := e2
      rw [e1', e2', e3]

example : (do
    let tr ← ({} : StatusEffectTracker).add 0 exampleBuff {} ["Boss"]
    let tr ← tr.add 0 { exampleBuff with name := "Chain" } {} ["Boss"]
    let r ← tr.compileBuffs 5 exampleHit
    return (r.1.1.damageMult, r.1.1.statusEffects)) =
    (.ok (121/100, ["Battle Litany", "Chain"]) : Py (ℚ × List String)) := by
  decide +kernel

/-! ## C12: mutually exclusive effects -/

/-- C12: the effects that contribute are exactly the valid ones that are not outranked by a valid
effect earlier in the priority list; only contributing effects lose a use. -/
theorem C12_priority (tr tr' : StatusEffectTracker) (hwf : WellFormed tr) (t : ℚ)
    (skill : SkillCore) (slot : Slot) (agg : StatusEffects) (cond : String)
    (h : slot.compile tr t skill = .ok ((agg, cond), tr')) (name : String) :
    (name ∈ agg.statusEffects ↔ Valid (slot.effects tr) t skill name ∧
      ¬ Outranked tr.priority (Valid (slot.effects tr) t skill) name) ∧
    (name ∉ agg.statusEffects →
      Dict.get? (slot.effects tr') name = Dict.get? (slot.effects tr) name) := by
  obtain ⟨hm, hg, _⟩ := compile_spec hwf h
  refine ⟨hm name, ?_⟩
  intro hni
  rw [hg, if_neg hni]

/-- C12: at most one effect of the priority list contributes to a skill, whatever the list. -/
theorem C12_at_most_one (tr tr' : StatusEffectTracker) (hwf : WellFormed tr) (t : ℚ)
    (skill : SkillCore) (slot : Slot) (agg : StatusEffects) (cond : String)
    (h : slot.compile tr t skill = .ok ((agg, cond), tr')) (a b : String)
    (ha : a ∈ tr.priority) (hb : b ∈ tr.priority) (hca : a ∈ agg.statusEffects)
    (hcb : b ∈ agg.statusEffects) : a = b := by
  by_contra hne
  have h1 := (C12_priority tr tr' hwf t skill slot agg cond h a).1.1 hca
  have h2 := (C12_priority tr tr' hwf t skill slot agg cond h b).1.1 hcb
  obtain ⟨l, r, hlr⟩ := List.append_of_mem ha
  rw [hlr] at hb
  rcases List.mem_append.1 hb with hb | hb
  · obtain ⟨l', r', hl'⟩ := List.append_of_mem hb
    refine h1.2 ⟨l', b, r' ++ a :: r, ?_, h2.1, by simp⟩
    rw [hlr, hl']
    simp
  · rcases List.mem_cons.1 hb with hb | hb
    · exact hne hb.symm
    · exact h2.2 ⟨l, a, r, hlr, h1.1, hb⟩

/-- C12: the effect of the priority list that contributes is the first valid one of the list; effects
outside the list are unaffected by it.  Partial: the list must not mention an effect twice, see
`C12_duplicate_refuted`. -/
theorem C12_only_first_partial (tr tr' : StatusEffectTracker) (hwf : WellFormed tr) (t : ℚ)
    (skill : SkillCore) (slot : Slot) (agg : StatusEffects) (cond : String)
    (h : slot.compile tr t skill = .ok ((agg, cond), tr')) (hd : tr.priority.Nodup) :
    (∀ p l r, tr.priority = l ++ p :: r → Valid (slot.effects tr) t skill p →
      (∀ q ∈ l, ¬ Valid (slot.effects tr) t skill q) →
      ∀ name ∈ tr.priority, (name ∈ agg.statusEffects ↔ name = p)) ∧
    (∀ name, name ∉ tr.priority →
      (name ∈ agg.statusEffects ↔ Valid (slot.effects tr) t skill name)) := by
  constructor
  · intro p l r hpr hv hl name hn
    rw [(C12_priority tr tr' hwf t skill slot agg cond h name).1]
    constructor
    · rintro ⟨hvn, hno⟩
      rw [hpr] at hn
      rcases List.mem_append.1 hn with h1 | h1
      · exact absurd hvn (hl name h1)
      · rcases List.mem_cons.1 h1 with h1 | h1
        · exact h1
        · exact absurd ⟨l, p, r, hpr, hv, h1⟩ hno
    · rintro rfl
      refine ⟨hv, ?_⟩
      rintro ⟨l', q, r', hpr', hvq, hr'⟩
      -- `q` comes before `name`; by nodup it is in `l`
      rw [hpr] at hd hpr'
      have hql : q ∈ l := by
        rcases List.append_eq_append_iff.1 hpr' with ⟨a, ha, hb⟩ | ⟨a, ha, hb⟩
        · -- l' = l ++ a, name :: r = a ++ q :: r'
          exfalso
          have hnr : name ∉ r := by
            have := (List.nodup_append.1 hd).2.1
            exact (List.nodup_cons.1 this).1
          cases a with
          | nil =>
            simp only [List.nil_append, List.cons.injEq] at hb
            rw [hb.2] at hnr
            exact hnr hr'
          | cons x a =>
            simp only [List.cons_append, List.cons.injEq] at hb
            rw [hb.2] at hnr
            exact hnr (by simp [hr'])
        · -- l = l' ++ a, q :: r' = a ++ name :: r
          cases a with
          | nil =>
            exfalso
            simp only [List.nil_append, List.cons.injEq] at hb
            have hnr : name ∉ r := by
              have := (List.nodup_append.1 hd).2.1
              exact (List.nodup_cons.1 this).1
            rw [hb.2] at hr'
            exact hnr hr'
          | cons x a =>
            simp only [List.cons_append, List.cons.injEq] at hb
            rw [ha, hb.1]
            simp
      exact hl q hql hvq
  · intro name hn
    rw [(C12_priority tr tr' hwf t skill slot agg cond h name).1]
    exact ⟨fun h => h.1, fun h => ⟨h, not_outranked hn _⟩⟩

/-- C12 is false for a priority list that mentions an effect twice: the effect then suppresses
itself and no effect of the list contributes. -/
theorem C12_duplicate_refuted :
    ∃ tr : StatusEffectTracker,
      ({ priority := ["Battle Litany", "Battle Litany"] } : StatusEffectTracker).add 0 exampleBuff {}
        ["A"] = .ok tr ∧
      (tr.compileBuffs 5 exampleHit).map (fun r => r.1.1.statusEffects) = .ok [] ∧
      (∃ e, Dict.get? tr.buffs "Battle Litany" = some e ∧ e.start ≤ 5 ∧ 5 ≤ e.endT ∧
        Allowed exampleHit "Battle Litany" e.spec) := by
  refine ⟨_, rfl, by decide +kernel, _, rfl, by decide +kernel, by decide +kernel, ?_⟩
  exact ⟨by decide +kernel, fun al h => by cases h⟩

example : (do
    let tr ← ({ priority := ["Strong", "Weak"] } : StatusEffectTracker).add 0
      { exampleBuff with name := "Weak" } {} ["Boss"]
    let tr ← tr.add 0 { exampleBuff with name := "Other" } {} ["Boss"]
    let tr ← tr.add 0 { exampleBuff with name := "Strong" } {} ["Boss"]
    let r ← tr.compileBuffs 5 exampleHit
    return r.1.1.statusEffects) = (.ok ["Other", "Strong"] : Py (List String)) := by
  decide +kernel

/-! ## C13: debuffs are isolated per target -/

theorem compileDebuffs_congr {tr1 tr2 : StatusEffectTracker} (hp : tr1.priority = tr2.priority)
    {target : String} (hd : tr1.lookupDebuffs target = tr2.lookupDebuffs target) (t : ℚ)
    (skill : SkillCore) :
    (tr1.compileDebuffs t skill target).map Prod.fst =
      (tr2.compileDebuffs t skill target).map Prod.fst := by
  unfold compileDebuffs
  rw [hp, hd]
  cases compileEffects tr2.priority t (tr2.lookupDebuffs target) skill.statusEffectDenylist
    skill.name <;> rfl

/-- C13: applying a debuff to some targets, or asking for (and thereby consuming) the debuffs of a
target, does not change what any other target's debuffs contribute, to any skill at any time. -/
theorem C13_other_targets (tr tr' : StatusEffectTracker) (hwf : WellFormed tr) (target : String)
    (op : TrackerOp) (out : List String) (hex : op.exec tr = .ok (out, tr'))
    (hop : match op with
      | .expire _ => False
      | .add _ skill m targets => target ∉ targets ∧
          (target = SimConsts.DEFAULT_TARGET → ∀ b, skill.getBuffSpec m = .ok (some b) →
            b.expiresStatusEffects = [])
      | .buffs _ _ => True
      | .debuffs _ _ tg => tg ≠ target) (t : ℚ) (q : SkillCore) :
    (tr'.compileDebuffs t q target).map Prod.fst = (tr.compileDebuffs t q target).map Prod.fst := by
  have hpr := (exec_wf hwf hex).2
  apply compileDebuffs_congr hpr
  cases op with
  | expire t => exact hop.elim
  | add s skill m targets =>
    simp only [TrackerOp.exec] at hex
    obtain ⟨r, hr, h⟩ := Py.bind_eq_ok.1 hex
    simp only [Py.pure_eq, Except.ok.injEq, Prod.mk.injEq] at h
    obtain ⟨rfl, rfl⟩ := h
    obtain ⟨b, d, hb, hd, rfl⟩ := add_ok hr
    have h1 : (applyBuff tr s skill.name b).lookupDebuffs target = tr.lookupDebuffs target := by
      cases b with
      | none => rfl
      | some b =>
        simp only [applyBuff]
        by_cases ht : target = SimConsts.DEFAULT_TARGET
        · unfold addBuff
          rw [hop.2 ht b hb]
          simp only [List.foldl_nil]
          cases b.clearAllStatusEffects <;> rfl
        · exact addBuff_debuffs_other _ _ _ _ _ ht
    cases d with
    | none => exact h1
    | some d =>
      simp only [applyDebuff]
      rw [foldl_addDebuff_other _ _ _ _ _ _ hop.1, h1]
  | buffs s skill =>
    simp only [TrackerOp.exec] at hex
    obtain ⟨⟨⟨a, c⟩, r⟩, hr, h⟩ := Py.bind_eq_ok.1 hex
    simp only [Py.pure_eq, Except.ok.injEq, Prod.mk.injEq] at h
    obtain ⟨_, rfl⟩ := h
    exact (compile_spec hwf (slot := .buffs) hr).2.2.1 (.debuffs target) (by simp)
  | debuffs s skill tg =>
    simp only [TrackerOp.exec] at hex
    obtain ⟨⟨⟨a, c⟩, r⟩, hr, h⟩ := Py.bind_eq_ok.1 hex
    simp only [Py.pure_eq, Except.ok.injEq, Prod.mk.injEq] at h
    obtain ⟨_, rfl⟩ := h
    refine (compile_spec hwf (slot := .debuffs tg) hr).2.2.1 (.debuffs target) ?_
    simpa using fun h : target = tg => hop h.symm

/-- C13: expiry treats every target on its own: what remains on a target depends only on that
target's debuffs. -/
theorem C13_expiry_local (tr1 tr2 : StatusEffectTracker) (target : String)
    (h : tr1.lookupDebuffs target = tr2.lookupDebuffs target) (t : ℚ) :
    (tr1.expire t).lookupDebuffs target = (tr2.expire t).lookupDebuffs target := by
  have e1 := effects_expire tr1 t (.debuffs target)
  have e2 := effects_expire tr2 t (.debuffs target)
  simp only [Slot.effects] at e1 e2
  rw [e1, e2, h]

/-- C13: debuff operations do not change any buff.  Partial: a debuff that lists effects to expire
also ends buffs of those names, see `C13_buffs_refuted`. -/
theorem C13_buffs_partial (tr tr' : StatusEffectTracker) (hwf : WellFormed tr)
    (op : TrackerOp) (out : List String) (hex : op.exec tr = .ok (out, tr'))
    (hop : match op with
      | .expire _ => False
      | .add _ skill m _ => skill.getBuffSpec m = .ok none ∧
          ∀ d, skill.getDebuffSpec m = .ok (some d) → d.expiresStatusEffects = []
      | .buffs _ _ => False
      | .debuffs _ _ _ => True) (name : String) :
    Dict.get? tr'.buffs name = Dict.get? tr.buffs name := by
  cases op with
  | expire t => exact hop.elim
  | add s skill m targets =>
    simp only [TrackerOp.exec] at hex
    obtain ⟨r, hr, h⟩ := Py.bind_eq_ok.1 hex
    simp only [Py.pure_eq, Except.ok.injEq, Prod.mk.injEq] at h
    obtain ⟨rfl, rfl⟩ := h
    obtain ⟨b, d, hb, hd, rfl⟩ := add_ok hr
    rw [hop.1] at hb
    cases hb
    cases d with
    | none => rfl
    | some d =>
      simp only [applyDebuff, applyBuff]
      apply get?_foldl_addDebuff_buffs
      rw [hop.2 d hd]
      simp
  | buffs s skill => exact hop.elim
  | debuffs s skill tg =>
    simp only [TrackerOp.exec] at hex
    obtain ⟨⟨⟨a, c⟩, r⟩, hr, h⟩ := Py.bind_eq_ok.1 hex
    simp only [Py.pure_eq, Except.ok.injEq, Prod.mk.injEq] at h
    obtain ⟨_, rfl⟩ := h
    have := (compile_spec hwf (slot := .debuffs tg) hr).2.2.1 .buffs (by simp)
    simp only [Slot.effects] at this
    rw [this]

/-- A debuff that expires an effect called `Battle Litany`. -/
def exampleExpiringDebuff : SkillCore :=
  { name := "Debuff",
    debuffSpec := .single (some { duration := 1000, maxDuration := 1000,
                                  expiresStatusEffects := ["Battle Litany"] }) }

/-- C13 is false for buffs in general: applying a debuff that expires `Battle Litany` to a target
ends the *buff* of that name. -/
theorem C13_buffs_refuted :
    ∃ tr tr1 : StatusEffectTracker, ({} : StatusEffectTracker).add 0 exampleBuff {} ["A"] = .ok tr ∧
      tr.add 100 exampleExpiringDebuff {} ["A"] = .ok tr1 ∧
      ((tr.expire 200).compileBuffs 200 exampleHit).map (fun r => r.1.1.damageMult) = .ok (11/10) ∧
      ((tr1.expire 200).compileBuffs 200 exampleHit).map (fun r => r.1.1.damageMult) = .ok 1 := by
  refine ⟨_, _, rfl, rfl, ?_, ?_⟩ <;> decide +kernel

example : ∃ tr', TrackerOp.exec {} (.add 0 exampleExpiringDebuff {} ["A", "B"]) = .ok ([], tr') ∧
    "C" ∉ ["A", "B"] := by
  exact ⟨_, rfl, by simp⟩

/-! ## C14: allow-lists and deny-lists -/

/-- C14: a contributing effect is not on the skill's deny-list and the skill is on its allow-list if
it has one; and no other filter by name applies: every other active effect contributes (priority
lists aside). -/
theorem C14_lists_respected (tr tr' : StatusEffectTracker) (hwf : WellFormed tr) (t : ℚ)
    (skill : SkillCore) (slot : Slot) (agg : StatusEffects) (cond : String)
    (h : slot.compile tr t skill = .ok ((agg, cond), tr')) (name : String) (e : ActiveEffect)
    (he : (name, e) ∈ slot.effects tr) :
    (name ∈ agg.statusEffects → name ∉ skill.statusEffectDenylist ∧
      ∀ al, e.spec.skillAllowlist = some al → skill.name ∈ al) ∧
    (name ∉ tr.priority → e.start ≤ t → name ∉ skill.statusEffectDenylist →
      (∀ al, e.spec.skillAllowlist = some al → skill.name ∈ al) → name ∈ agg.statusEffects) := by
  obtain ⟨hm, _⟩ := compile_spec hwf h
  constructor
  · intro hin
    obtain ⟨⟨e', he', _, ha⟩, _⟩ := (hm name).1 hin
    have hn := effects_nodup hwf slot
    have h1 := Dict.get?_of_mem hn he
    have h2 := Dict.get?_of_mem hn he'
    rw [h1] at h2
    cases h2
    exact ha
  · intro hp hst h1 h2
    exact (hm name).2 ⟨⟨e, he, hst, h1, h2⟩, not_outranked hp _⟩

example : (do
    let tr ← ({} : StatusEffectTracker).add 0 exampleBuff {} ["Boss"]
    let tr ← tr.add 0 exampleOneUse {} ["Boss"]
    let a ← tr.compileBuffs 5 { exampleHit with statusEffectDenylist := ["Battle Litany"] }
    let b ← tr.compileBuffs 5 { exampleHit with name := "Other" }
    return (a.1.1.statusEffects, b.1.1.statusEffects)) =
    (.ok (["Reassemble"], ["Battle Litany"]) : Py (List String × List String)) := by
  decide +kernel

/-! ## C15: expire-other and clear-all -/

/-- C15: a buff listed by a buff skill (or by a debuff skill that hits at least one target) is
inactive at every later time, until it is applied again. -/
theorem C15_expires_listed (tr tr1 tr2 : StatusEffectTracker) (hwf : WellFormed tr) (t : ℚ)
    (skill : SkillCore) (m : SkillModifier) (targets : List String)
    (hadd : tr.add t skill m targets = .ok tr1) (name : String)
    (hlist : (∃ b, skill.getBuffSpec m = .ok (some b) ∧ name ∈ b.expiresStatusEffects) ∨
      (∃ d, skill.getDebuffSpec m = .ok (some d) ∧ name ∈ d.expiresStatusEffects ∧ targets ≠ []))
    (ops : List TrackerOp) (outs : List (List String))
    (hops : runOps tr1 ops = .ok (outs, tr2))
    (hlater : ∀ op ∈ ops, t ≤ op.time) (hna : ∀ op ∈ ops, DoesNotApply .buffs name op)
    (i : ℕ) (op : TrackerOp) (out : List String) (hop : ops[i]? = some op)
    (hout : outs[i]? = some out) (hlt : t < op.time) (q : SkillCore)
    (huse : UsesSlot .buffs q op) : name ∉ out := by
  refine runOps_ended (add_wf hwf hadd) hops (slot := .buffs) hna hlater ?_ i op out hop hout hlt q huse
  obtain ⟨b, d, hb, hd, rfl⟩ := add_ok hadd
  intro e he
  simp only [Slot.effects] at he
  rcases hlist with ⟨b', hb', hin⟩ | ⟨d', hd', hin, hne⟩
  · rw [hb] at hb'
    cases hb'
    -- ended by the buff part, and the debuff part only weakens
    have h1 : ∀ e, Dict.get? (applyBuff tr t skill.name (some b')).buffs name = some e →
        e.endT = (t : WithTop ℚ) := by
      intro e he
      simp only [applyBuff] at he
      rw [get?_addBuff_buffs, if_pos hin] at he
      cases h0 : Dict.get? (addEffect (if b'.clearAllStatusEffects then [] else tr.buffs) t
          skill.name b') name with
      | none => rw [h0] at he; cases he
      | some e0 => rw [h0] at he; cases he; rfl
    cases d with
    | none => exact le_of_eq (h1 e he)
    | some d =>
      have := foldl_addDebuff_weakened (applyBuff tr t skill.name (some b')) t skill.name d targets
        .buffs name (by simp)
      simp only [Slot.effects] at this
      simp only [applyDebuff] at he
      rcases this with h | h | h
      · rw [h] at he
        exact le_of_eq (h1 e he)
      · rw [h] at he
        cases h0 : Dict.get? (applyBuff tr t skill.name (some b')).buffs name with
        | none => rw [h0] at he; cases he
        | some e0 => rw [h0] at he; cases he; exact le_refl _
      · rw [h] at he
        cases he
  · rw [hd] at hd'
    cases hd'
    obtain ⟨a, l, rfl⟩ := List.exists_cons_of_ne_nil hne
    simp only [applyDebuff, List.foldl_cons] at he
    have h1 : ∀ e, Dict.get? ((applyBuff tr t skill.name b).addDebuff t skill.name d' a).buffs name =
        some e → e.endT = (t : WithTop ℚ) := by
      intro e he
      rw [get?_addDebuff_buffs, if_pos hin] at he
      cases h0 : Dict.get? (applyBuff tr t skill.name b).buffs name with
      | none => rw [h0] at he; cases he
      | some e0 => rw [h0] at he; cases he; rfl
    have := foldl_addDebuff_weakened ((applyBuff tr t skill.name b).addDebuff t skill.name d' a) t
      skill.name d' l .buffs name (by simp)
    simp only [Slot.effects] at this
    rcases this with h | h | h
    · rw [h] at he
      exact le_of_eq (h1 e he)
    · rw [h] at he
      cases h0 : Dict.get? ((applyBuff tr t skill.name b).addDebuff t skill.name d' a).buffs name with
      | none => rw [h0] at he; cases he
      | some e0 => rw [h0] at he; cases he; exact le_refl _
    · rw [h] at he
      cases he

/-- A buff that expires `Battle Litany`. -/
def exampleExpiringBuff : SkillCore :=
  { name := "Ender",
    buffSpec := .single (some { duration := 1000, maxDuration := 1000,
                                expiresStatusEffects := ["Battle Litany"] }) }

example : (do
    let tr ← ({} : StatusEffectTracker).add 0 exampleBuff {} ["Boss"]
    let tr ← tr.add 100 exampleExpiringBuff {} ["Boss"]
    let r ← runOps tr [.buffs 101 exampleHit]
    return r.1) = (.ok [["Ender"]] : Py (List (List String))) := by
  decide +kernel

/-- C15: a clear-all buff removes every other buff, and no debuff. -/
theorem C15_clear_all (tr tr1 : StatusEffectTracker) (t : ℚ) (skill : SkillCore) (m : SkillModifier)
    (targets : List String) (b : StatusEffectSpec) (hb : skill.getBuffSpec m = .ok (some b))
    (hd : skill.getDebuffSpec m = .ok none) (hc : b.clearAllStatusEffects = true)
    (hadd : tr.add t skill m targets = .ok tr1) :
    (∀ name, name ≠ skill.name → name ∉ Dict.keys tr1.buffs) ∧
    (∀ target name, name ∉ b.expiresStatusEffects →
      Dict.get? (tr1.lookupDebuffs target) name = Dict.get? (tr.lookupDebuffs target) name) := by
  obtain ⟨b', d', hb', hd', rfl⟩ := add_ok hadd
  rw [hb] at hb'
  cases hb'
  rw [hd] at hd'
  cases hd'
  simp only [applyDebuff, applyBuff]
  constructor
  · intro name hne
    rw [← Dict.get?_eq_none, get?_addBuff_buffs, get?_addEffect_ne (Ne.symm hne)]
    simp only [hc, if_true, Dict.get?_nil]
    split_ifs <;> rfl
  · intro target name hx
    rw [get?_addBuff_debuffs, if_neg (fun h => hx h.2)]

example : (do
    let tr ← ({} : StatusEffectTracker).add 0 exampleBuff {} ["Boss"]
    let tr ← tr.add 0 exampleExpiringDebuff {} ["Boss"]
    let tr ← tr.add 100 { exampleBuff with
      name := "Clear", buffSpec := .single (some { clearAllStatusEffects := true }) } {} ["Boss"]
    return (Dict.keys tr.buffs, Dict.keys (tr.lookupDebuffs "Boss"))) =
    (.ok (["Clear"], ["Debuff"]) : Py (List String × List String)) := by
  decide +kernel

end Ama
