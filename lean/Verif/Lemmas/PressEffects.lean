import Verif.Lemmas.Presses
import Verif.Lemmas.DamageEffects

/-!
# Lemmas: one status effect over the presses of a rotation
-/

namespace Ama

open Spec StatusEffectTracker

/-- What an application does to an entry. -/
def grantEntry (spec : StatusEffectSpec) (a : Option ActiveEffect) (t : ℚ) : Option ActiveEffect :=
  match a with
  | none =>
    if spec.extendOnly then none
    else some { start := t, endT := (t : WithTop ℚ) + spec.duration, uses := spec.numUses, spec := spec }
  | some prev => some
    { start := prev.start
      endT := (t : WithTop ℚ) + (if spec.extendsExistingDuration then
        min spec.maxDuration (remaining prev.endT t + spec.duration) else remaining prev.endT t)
      uses := min (prev.uses + spec.numUses) spec.maxNumUses
      spec := spec }

theorem get?_addEffect_self (es : Effects) (t : ℚ) (name : String) (spec : StatusEffectSpec) :
    Dict.get? (addEffect es t name spec) name = grantEntry spec (Dict.get? es name) t := by
  unfold addEffect grantEntry
  cases ha : Dict.get? es name with
  | none =>
    simp only
    split_ifs
    · exact ha
    · rw [Dict.get?_set_self]
  | some prev =>
    simp only [Dict.get?_set_self, max_subTime]

/-- The entry is dropped if it is over. -/
def expireEntry (t : ℚ) (a : Option ActiveEffect) : Option ActiveEffect :=
  a.filter (fun e => (t : WithTop ℚ) ≤ e.endT ∧ e.uses ≠ 0)

/-- What a use does to an entry. -/
noncomputable def pressEntry (slot : Slot) (name : String) (spec : StatusEffectSpec)
    (a : Option ActiveEffect) (u : Pressed) : Option ActiveEffect :=
  (u.gives slot name).foldl (grantEntry spec)
    (useEntry u.t u.skill.toSkillCore name (expireEntry u.t a))

section
variable {slot : Slot} {name : String} {spec : StatusEffectSpec}

theorem adds_entry (hclear : spec.clearAllStatusEffects = false) {ops : List TrackerOp}
    (hops : ∀ op ∈ ops, ∃ t skill m targets, op = .add t skill m targets ∧
      ((appliesEffect slot name op).isSome → Grants slot skill m targets spec) ∧
      (appliesEffect slot name op = none → Leaves slot name op))
    {tr tr' : StatusEffectTracker} (hwf : WellFormed tr) (h : runEffects tr ops = .ok tr') :
    WellFormed tr' ∧ tr'.priority = tr.priority ∧
      entry tr' slot name = (ops.filterMap (appliesEffect slot name)).foldl (grantEntry spec)
        (entry tr slot name) := by
  induction ops generalizing tr with
  | nil =>
    cases h
    exact ⟨hwf, rfl, rfl⟩
  | cons op ops ih =>
    obtain ⟨t, skill, m, targets, rfl, h1, h2⟩ := hops op (by simp)
    unfold runEffects TrackerOp.exec at h
    obtain ⟨⟨o, tr1⟩, g, h⟩ := Py.bind_eq_ok.1 h
    obtain ⟨tr2, g1, g2⟩ := Py.bind_eq_ok.1 g
    cases g2
    obtain ⟨k1, k2, k3⟩ := ih (fun op hop => hops op (List.mem_cons_of_mem _ hop)) (add_wf hwf g1) h
    refine ⟨k1, k2.trans (priority_add g1), ?_⟩
    rw [k3]
    cases hap : appliesEffect slot name (.add t skill m targets) with
    | none =>
      rw [List.filterMap_cons_none hap]
      congr 1
      exact get?_add_leaves g1 (h2 hap)
    | some x =>
      rw [List.filterMap_cons_some hap, List.foldl_cons]
      congr 1
      have hx : skill.name = name ∧ x = t := by
        unfold appliesEffect at hap
        simp only at hap
        split_ifs at hap with hc
        exact ⟨hc.1, (Option.some.inj hap).symm⟩
      have h3 := get?_grant (h1 (by rw [hap]; rfl)) g1
      rw [if_neg (by rintro ⟨-, h⟩; rw [hclear] at h; cases h), hx.1, get?_addEffect_self] at h3
      rw [hx.2]
      exact h3

theorem effectOps_ok {u : Pressed} (hg : u.GivesOrLeaves slot name spec) :
    ∀ op ∈ u.effectOps, ∃ t skill m targets, op = .add t skill m targets ∧
      ((appliesEffect slot name op).isSome → Grants slot skill m targets spec) ∧
      (appliesEffect slot name op = none → Leaves slot name op) := by
  intro op hop
  have hform : ∃ t skill m targets, op = .add t skill m targets := by
    unfold Pressed.effectOps at hop
    rcases List.mem_cons.1 hop with rfl | hop
    · exact ⟨_, _, _, _, rfl⟩
    · obtain ⟨y, -, rfl⟩ := List.mem_map.1 hop
      exact ⟨_, _, _, _, rfl⟩
  obtain ⟨t, skill, m, targets, rfl⟩ := hform
  exact ⟨t, skill, m, targets, rfl, hg t skill m targets hop⟩

/-- The two questions of a press: what they see, and what is left. -/
theorem asked_entry (hslot : LookedAt slot) {tr tr₁ tr₂ : StatusEffectTracker} (hwf : WellFormed tr)
    (hp : name ∉ tr.priority) {t : ℚ} {skill : SkillCore} {b d : StatusEffects} {cb cd : String}
    (h1 : (tr.expire t).compileBuffs t skill = .ok ((b, cb), tr₁))
    (h2 : tr₁.compileDebuffs t skill = .ok ((d, cd), tr₂)) :
    WellFormed tr₂ ∧ tr₂.priority = tr.priority ∧
    entry tr₂ slot name = useEntry t skill name (expireEntry t (entry tr slot name)) ∧
    (name ∈ (match slot with | .buffs => b | .debuffs _ => d).statusEffects ↔
      ∃ e, expireEntry t (entry tr slot name) = some e ∧ e.start ≤ t ∧ Allowed skill name e.spec) := by
  have hwf0 := expire_wf hwf t
  have hp0 : name ∉ (tr.expire t).priority := hp
  obtain ⟨a1, a2, a3, a4⟩ := compile_entry (slot' := .buffs) hwf0 hp0 h1
  have hp1 : name ∉ tr₁.priority := by rw [a2]; exact hp0
  obtain ⟨b1, b2, b3, b4⟩ := compile_entry (slot' := .debuffs SimConsts.DEFAULT_TARGET) a1 hp1 h2
  have he := entry_expire hwf t slot name
  refine ⟨b1, b2.trans a2, ?_, ?_⟩
  · rw [b3, a3]
    rcases hslot with rfl | rfl
    · rw [if_neg (by simp), if_pos rfl, he]
      rfl
    · rw [if_pos rfl, if_neg (by simp), he]
      rfl
  · rcases hslot with rfl | rfl
    · rw [a4, he]
      rfl
    · rw [b4, a3, if_neg (by simp), he]
      rfl

theorem played_entry {rb : RotationBuilder} {us : List Pressed} (h : Played rb us)
    (hslot : LookedAt slot) (hp : name ∉ rb.priority) (hclear : spec.clearAllStatusEffects = false)
    (hg : ∀ u ∈ us, u.GivesOrLeaves slot name spec) {l r : List Pressed} {u : Pressed}
    (hus : us = l ++ u :: r) :
    (name ∈ (u.seen slot).statusEffects ↔
      ∃ e, expireEntry u.t (l.foldl (pressEntry slot name spec) none) = some e ∧ e.start ≤ u.t ∧
        Allowed u.skill.toSkillCore name e.spec) := by
  obtain ⟨x, x₁, x₂, h1, h2, h3⟩ := h.effects l u r hus
  have key : ∀ (l : List Pressed) (tr tr' : StatusEffectTracker),
      (∀ u ∈ l, u.GivesOrLeaves slot name spec) → WellFormed tr → name ∉ tr.priority →
      runEffects tr (l.flatMap Pressed.history) = .ok tr' →
      WellFormed tr' ∧ tr'.priority = tr.priority ∧
        entry tr' slot name = l.foldl (pressEntry slot name spec) (entry tr slot name) := by
    intro l
    induction l with
    | nil =>
      intro tr tr' _ hwf _ h
      cases h
      exact ⟨hwf, rfl, rfl⟩
    | cons v l ih =>
      intro tr tr' hgl hwf hp h
      rw [List.flatMap_cons] at h
      unfold Pressed.history at h
      simp only [List.cons_append, List.nil_append, runEffects, TrackerOp.exec, Py.ok_bind,
        Py.pure_eq] at h
      obtain ⟨⟨o1, tr1⟩, j1, h⟩ := Py.bind_eq_ok.1 h
      obtain ⟨⟨⟨b, cb⟩, tr1'⟩, k1, k1'⟩ := Py.bind_eq_ok.1 j1
      clear j1
      cases k1'
      obtain ⟨⟨o2, tr2⟩, j2, h⟩ := Py.bind_eq_ok.1 h
      obtain ⟨⟨⟨d, cd⟩, tr2'⟩, k2, k2'⟩ := Py.bind_eq_ok.1 j2
      clear j2
      cases k2'
      obtain ⟨a1, a2, a3, -⟩ := asked_entry hslot hwf hp k1 k2
      obtain ⟨tr3, k3, h⟩ := runEffects_split h
      obtain ⟨b1, b2, b3⟩ := adds_entry hclear (effectOps_ok (hgl v (by simp))) a1 k3
      have hp3 : name ∉ tr3.priority := by rw [b2, a2]; exact hp
      obtain ⟨c1, c2, c3⟩ := ih tr3 tr' (fun u hu => hgl u (List.mem_cons_of_mem _ hu)) b1 hp3 h
      refine ⟨c1, by rw [c2, b2, a2], ?_⟩
      rw [c3, b3, a3]
      rfl
  have hwf0 : WellFormed ({ priority := rb.priority } : StatusEffectTracker) := by
    refine ⟨?_, ?_, ?_⟩ <;> simp [Dict.keys]
  obtain ⟨k1, k2, k3⟩ := key l _ x (fun v hv => hg v (by rw [hus]; simp [hv])) hwf0 hp h1
  obtain ⟨-, -, -, a4⟩ := asked_entry (slot := slot) (name := name) hslot k1 (by rw [k2]; exact hp) h2 h3
  have he : entry ({ priority := rb.priority } : StatusEffectTracker) slot name = none := by
    cases slot <;> rfl
  rw [k3, he] at a4
  rw [← a4]
  cases slot <;> rfl

theorem pressEntry_none {u : Pressed} (h : u.gives slot name = []) :
    pressEntry slot name spec none u = none := by
  unfold pressEntry
  rw [h]
  rfl

theorem foldl_pressEntry_none {us : List Pressed} (h : ∀ u ∈ us, u.gives slot name = []) :
    us.foldl (pressEntry slot name spec) none = none := by
  induction us with
  | nil => rfl
  | cons u us ih =>
    rw [List.foldl_cons, pressEntry_none (h u (by simp))]
    exact ih (fun v hv => h v (List.mem_cons_of_mem _ hv))

open Classical in
theorem foldl_pressEntry_some {us : List Pressed} (h : ∀ u ∈ us, u.gives slot name = [])
    {t : ℚ} (ht : ∀ u ∈ us, u.t ≤ t) (skill : SkillCore) (e₀ : ActiveEffect)
    (hspec : e₀.spec = spec) (hk : 0 ≤ e₀.uses) :
    (∃ e, expireEntry t (us.foldl (pressEntry slot name spec) (some e₀)) = some e ∧ e.start ≤ t ∧
        Allowed skill name e.spec) ↔
      Allowed skill name spec ∧ e₀.start ≤ t ∧ (t : WithTop ℚ) ≤ e₀.endT ∧
        ((((us.filter (fun v => decide (e₀.start ≤ v.t ∧ Allowed v.skill.toSkillCore name spec))).length :
          ℤ)) : WithTop ℤ) < e₀.uses := by
  induction us generalizing e₀ with
  | nil =>
    have hlt : (((([] : List Pressed).length : ℤ)) : WithTop ℤ) < e₀.uses ↔ e₀.uses ≠ 0 := by
      constructor
      · intro h1 h2
        rw [h2] at h1
        exact lt_irrefl _ h1
      · intro h1
        exact lt_of_le_of_ne hk (Ne.symm h1)
    simp only [List.foldl_nil, List.filter_nil]
    rw [hlt]
    unfold expireEntry
    constructor
    · rintro ⟨e, h1, h2, h3⟩
      rw [Option.filter_eq_some_iff] at h1
      obtain ⟨h1, h4⟩ := h1
      cases h1
      simp only [decide_eq_true_eq] at h4
      exact ⟨hspec ▸ h3, h2, h4.1, h4.2⟩
    · rintro ⟨h1, h2, h3, h4⟩
      refine ⟨e₀, ?_, h2, hspec ▸ h1⟩
      rw [Option.filter_eq_some_iff]
      exact ⟨rfl, by simpa using ⟨h3, h4⟩⟩
  | cons v us ih =>
    have hv := h v (by simp)
    have hvt := ht v (by simp)
    have ih := ih (fun w hw => h w (List.mem_cons_of_mem _ hw))
      (fun w hw => ht w (List.mem_cons_of_mem _ hw))
    have hus := foldl_pressEntry_none (spec := spec) (fun w hw => h w (List.mem_cons_of_mem v hw))
    have hpe : pressEntry slot name spec (some e₀) v =
        useEntry v.t v.skill.toSkillCore name (expireEntry v.t (some e₀)) := by
      unfold pressEntry
      rw [hv]
      rfl
    rw [List.foldl_cons, hpe]
    by_cases hal : (v.t : WithTop ℚ) ≤ e₀.endT ∧ e₀.uses ≠ 0
    · have he : expireEntry v.t (some e₀) = some e₀ := by
        unfold expireEntry
        rw [Option.filter_eq_some_iff]
        exact ⟨rfl, by simpa using hal⟩
      have hue : useEntry v.t v.skill.toSkillCore name (some e₀) = some
          (if e₀.start ≤ v.t ∧ Allowed v.skill.toSkillCore name e₀.spec then e₀.used else e₀) := rfl
      rw [he, hue, hspec]
      by_cases hu : e₀.start ≤ v.t ∧ Allowed v.skill.toSkillCore name spec
      · rw [if_pos hu, List.filter_cons_of_pos (by simpa using hu)]
        have hpos : 0 < e₀.uses := lt_of_le_of_ne hk (Ne.symm hal.2)
        have := ih e₀.used (by simpa [ActiveEffect.used] using hspec) (by
          unfold ActiveEffect.used decUses
          cases hq : e₀.uses with
          | top => simp
          | coe z =>
            rw [hq] at hpos
            have hz : 0 < z := by exact_mod_cast hpos
            simp only [WithTop.map_coe]
            have : (0 : ℤ) ≤ z - 1 := by omega
            exact_mod_cast this)
        rw [this]
        have hs : e₀.used.start = e₀.start := rfl
        have hen : e₀.used.endT = e₀.endT := rfl
        rw [hs, hen]
        refine and_congr_right fun _ => and_congr_right fun _ => and_congr_right fun _ => ?_
        unfold ActiveEffect.used decUses
        cases hq : e₀.uses with
        | top => simp
        | coe z =>
          simp only [WithTop.map_coe, WithTop.coe_lt_coe, List.length_cons]
          push_cast
          omega
      · rw [if_neg hu, List.filter_cons_of_neg (by simpa using hu)]
        exact ih e₀ hspec hk
    · have he : expireEntry v.t (some e₀) = none := by
        unfold expireEntry
        rw [Option.filter_eq_none_iff]
        intro e he
        cases he
        simpa using hal
      rw [he]
      have hn : useEntry v.t v.skill.toSkillCore name none = none := rfl
      rw [hn, hus]
      constructor
      · rintro ⟨e, h1, -⟩
        cases h1
      · rintro ⟨-, -, h3, h4⟩
        exfalso
        apply hal
        refine ⟨le_trans (by exact_mod_cast hvt) h3, ?_⟩
        intro h0
        rw [h0] at h4
        have : ((((List.filter (fun v => decide (e₀.start ≤ v.t ∧ Allowed v.skill.toSkillCore name spec))
          (v :: us)).length : ℤ))) < 0 := by exact_mod_cast h4
        omega

/-! ## Applications one after the other -/

/-- What is known about the entry of an effect that every application refreshes: `given` are the
applications so far, `T` is the time of the last press. -/
structure Refreshed (spec : StatusEffectSpec) (d : ℚ) (given : List ℚ) (T : ℚ)
    (a : Option ActiveEffect) : Prop where
  over : a = .none → ∀ x ∈ given, x + d < T
  run : ∀ e, a = .some e → e.uses = ⊤ ∧ e.spec = spec ∧
    ∃ last ∈ given, e.endT = ((last + d : ℚ) : WithTop ℚ) ∧ e.start ≤ last ∧ (∀ x ∈ given, x ≤ last) ∧
      (∀ x, e.start ≤ x → x ≤ last + d → ∃ y ∈ given, y ≤ x ∧ x ≤ y + d) ∧
      ∀ x ∈ given, e.start ≤ x ∨ x + d < T

theorem Refreshed.expire {d : ℚ} {given : List ℚ} {T t : ℚ} {a : Option ActiveEffect}
    (h : Refreshed spec d given T a) (ht : T ≤ t) :
    Refreshed spec d given t (expireEntry t a) ∧
      ∀ e, expireEntry t a = some e → (t : WithTop ℚ) ≤ e.endT := by
  have hf : ∀ e, expireEntry t a = Option.some e → a = Option.some e ∧ (t : WithTop ℚ) ≤ e.endT := by
    intro e he
    unfold expireEntry at he
    rw [Option.filter_eq_some_iff] at he
    simp only [decide_eq_true_eq] at he
    exact ⟨he.1, he.2.1⟩
  refine ⟨⟨?_, ?_⟩, fun e he => (hf e he).2⟩
  · intro hn x hx
    cases ha : a with
    | none => exact lt_of_lt_of_le (h.over ha x hx) ht
    | some e =>
      obtain ⟨h1, h2, last, h3, h4, h5, h6, h7⟩ := h.run e ha
      unfold expireEntry at hn
      rw [ha, Option.filter_eq_none_iff] at hn
      have := hn e rfl
      simp only [h1, ne_eq, decide_eq_true_eq, not_and, not_not] at this
      have hlt : ¬ (t : WithTop ℚ) ≤ e.endT := fun hc => by
        have := this hc
        cases this
      rw [h4, not_le] at hlt
      have hlt' : last + d < t := by exact_mod_cast hlt
      have := h6 x hx
      linarith
  · intro e he
    obtain ⟨h0, -⟩ := hf e he
    obtain ⟨h1, h2, last, h3, h4, h5, h6, h7, h8⟩ := h.run e h0
    exact ⟨h1, h2, last, h3, h4, h5, h6, h7, fun x hx => (h8 x hx).imp id (fun h => lt_of_lt_of_le h ht)⟩

theorem Refreshed.press {d : ℚ} (hd : 0 ≤ d) (hdur : spec.duration = ((d : ℚ) : WithTop ℚ))
    (hmax : spec.maxDuration = ((d : ℚ) : WithTop ℚ)) (hext : spec.extendsExistingDuration = true)
    (heo : spec.extendOnly = false) (hn : spec.numUses = ⊤) (hmn : spec.maxNumUses = ⊤)
    {given : List ℚ} {T : ℚ} {a : Option ActiveEffect} {u : Pressed}
    (h : Refreshed spec d given T a) (ht : T ≤ u.t) (hone : (u.gives slot name).length ≤ 1)
    (hord : ∀ x ∈ given, ∀ y ∈ u.gives slot name, x ≤ y)
    (hgap : ∀ y ∈ u.gives slot name,
      (∃ x ∈ given, y ≤ x + d) ∨ ∀ x ∈ given, x + d < u.t) :
    Refreshed spec d (given ++ u.gives slot name) u.t (pressEntry slot name spec a u) := by
  obtain ⟨h1, h2⟩ := h.expire ht
  obtain ⟨b, hb⟩ : ∃ b, b = expireEntry u.t a := ⟨_, rfl⟩
  rw [← hb] at h1 h2
  have huse : useEntry u.t u.skill.toSkillCore name b = b := by
    unfold useEntry
    cases b with
    | none => rfl
    | some e =>
      obtain ⟨k1, -⟩ := h1.run e rfl
      have : e.used = e := by
        unfold ActiveEffect.used
        rw [k1]
        cases e
        simp only at k1
        subst k1
        rfl
      rw [Option.map_some, this, ite_self]
  unfold pressEntry
  rw [← hb, huse]
  cases hg : u.gives slot name with
  | nil =>
    rw [List.append_nil]
    exact h1
  | cons y ys =>
    have hys : ys = [] := by
      rw [hg] at hone
      simpa using hone
    subst hys
    rw [List.foldl_cons, List.foldl_nil]
    rw [hg] at hord hgap
    have hord : ∀ x ∈ given, x ≤ y := fun x hx => hord x hx y (by simp)
    have hgap := hgap y (by simp)
    cases b with
    | none =>
      have hall := h1.over rfl
      unfold grantEntry
      simp only [heo, Bool.false_eq_true, if_false]
      refine ⟨by simp, ?_⟩
      intro e he
      cases he
      refine ⟨hn, rfl, y, by simp, ?_, le_refl _, ?_, ?_, ?_⟩
      · rw [hdur]
        rfl
      · intro x hx
        rcases List.mem_append.1 hx with hx | hx
        · exact hord x hx
        · rw [List.mem_singleton.1 hx]
      · intro x h1 h2
        exact ⟨y, by simp, h1, h2⟩
      · intro x hx
        rcases List.mem_append.1 hx with hx | hx
        · exact .inr (hall x hx)
        · exact .inl (by rw [List.mem_singleton.1 hx])
    | some e₀ =>
      obtain ⟨k1, k2, last, k3, k4, k5, k6, k7, k8⟩ := h1.run e₀ rfl
      have hrun : u.t ≤ last + d := by
        have := h2 e₀ rfl
        rw [k4] at this
        exact_mod_cast this
      have hy : y ≤ last + d := by
        rcases hgap with ⟨x, hx, hxy⟩ | hall
        · have := k6 x hx
          linarith
        · have := hall last k3
          linarith
      unfold grantEntry
      refine ⟨by simp, ?_⟩
      intro e he
      cases he
      refine ⟨by simp [k1, hmn], rfl, y, by simp, ?_, le_trans k5 (hord last k3), ?_, ?_, ?_⟩
      · simp only [hext, if_true]
        rw [k4, hdur, hmax]
        have hrem : remaining ((last + d : ℚ) : WithTop ℚ) y = ((max (last + d - y) 0 : ℚ) : WithTop ℚ) :=
          rfl
        rw [hrem]
        have : min ((d : ℚ) : WithTop ℚ) (((max (last + d - y) 0 : ℚ) : WithTop ℚ) + ((d : ℚ) : WithTop ℚ)) =
            ((d : ℚ) : WithTop ℚ) := by
          rw [← WithTop.coe_add, ← WithTop.coe_min, WithTop.coe_inj]
          apply min_eq_left
          have := le_max_right (last + d - y) 0
          linarith
        rw [this]
        rfl
      · intro x hx
        rcases List.mem_append.1 hx with hx | hx
        · exact hord x hx
        · rw [List.mem_singleton.1 hx]
      · intro x h1 h2
        by_cases hx : x ≤ last + d
        · obtain ⟨z, z1, z2, z3⟩ := k7 x h1 hx
          exact ⟨z, List.mem_append_left _ z1, z2, z3⟩
        · exact ⟨y, by simp, by linarith, h2⟩
      · intro x hx
        rcases List.mem_append.1 hx with hx | hx
        · exact k8 x hx
        · refine .inl ?_
          rw [List.mem_singleton.1 hx]
          exact le_trans k5 (hord last k3)

theorem foldl_refreshed {d : ℚ} (hd : 0 ≤ d) (hdur : spec.duration = ((d : ℚ) : WithTop ℚ))
    (hmax : spec.maxDuration = ((d : ℚ) : WithTop ℚ)) (hext : spec.extendsExistingDuration = true)
    (heo : spec.extendOnly = false) (hn : spec.numUses = ⊤) (hmn : spec.maxNumUses = ⊤)
    (us : List Pressed) (t : ℚ) (ht : (us.map (·.t) ++ [t]).Pairwise (· ≤ ·))
    (hone : ∀ u ∈ us, (u.gives slot name).length ≤ 1)
    (hord : (us.flatMap (Pressed.gives slot name)).Pairwise (· ≤ ·))
    (hgap : ∀ l u r, us = l ++ u :: r → ∀ y ∈ u.gives slot name,
      (∃ x ∈ l.flatMap (Pressed.gives slot name), y ≤ x + d) ∨
        ∀ x ∈ l.flatMap (Pressed.gives slot name), x + d < u.t) :
    ∃ T, T ≤ t ∧ (∀ u ∈ us, u.t ≤ T) ∧ Refreshed spec d (us.flatMap (Pressed.gives slot name)) T
      (us.foldl (pressEntry slot name spec) none) := by
  induction us using List.reverseRecOn generalizing t with
  | nil =>
    exact ⟨t, le_refl _, by simp, ⟨by simp, by simp⟩⟩
  | append_singleton us u ih =>
    simp only [List.map_append, List.map_cons, List.map_nil] at ht
    rw [List.flatMap_append] at hord
    have hord' := List.pairwise_append.1 hord
    have hsing : [u].flatMap (Pressed.gives slot name) = u.gives slot name := by simp
    rw [hsing] at hord'
    have ht' := List.pairwise_append.1 ht
    obtain ⟨T, h1, h2, h3⟩ := ih u.t ht'.1
      (fun v hv => hone v (List.mem_append_left _ hv)) hord'.1 (fun l v r hl y hy => by
        refine hgap l v (r ++ [u]) ?_ y hy
        rw [hl]
        simp)
    refine ⟨u.t, ht'.2.2 _ (by simp) _ (by simp), ?_, ?_⟩
    · intro v hv
      rcases List.mem_append.1 hv with hv | hv
      · exact le_trans (h2 v hv) h1
      · rw [List.mem_singleton.1 hv]
    · rw [List.foldl_append, List.foldl_cons, List.foldl_nil, List.flatMap_append, hsing]
      refine Refreshed.press hd hdur hmax hext heo hn hmn h3 h1 (hone u (by simp)) ?_ ?_
      · intro x hx y hy
        exact hord'.2.2 x hx y hy
      · intro y hy
        exact hgap us u [] (by simp) y hy

end

end Ama
