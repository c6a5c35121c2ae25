import Verif.Lemmas.Shift
import Verif.Lemmas.StatusEffectRuns
import Verif.Spec.Rename

/-!
# Other names for the targets

The damage builder never looks at the names of targets, other than to tell them apart.
-/

namespace Ama

open Spec DamageBuilder

namespace Rename

open Reuse (Rel)

open Shift (Img)

variable {f : String → String}

/-! ## Heaps -/

section Heaps

variable {α β : Type} {g : α → β} {lt : α → α → Py Bool} {lt' : β → β → Py Bool}

theorem siftdownLoop_map {x : α} {l : List α} (hlt : ∀ b ∈ l, lt' (g x) (g b) = lt x b) (pos : ℕ) :
    Heapq.siftdownLoop lt' (g x) (l.map g) pos = (Heapq.siftdownLoop lt x l pos).map (List.map g) := by
  induction pos using Nat.strong_induction_on generalizing l with
  | _ pos ih =>
    rw [Heapq.siftdownLoop, Heapq.siftdownLoop]
    by_cases h : 0 < pos
    · simp only [h, dif_pos]
      rw [Shift.pyIdx_map]
      cases hp : pyIdx l ((pos - 1) / 2) with
      | error e => rfl
      | ok parent =>
        have hm : parent ∈ l := by
          unfold pyIdx at hp
          cases hg : l[(pos - 1) / 2]? with
          | none => rw [hg] at hp; cases hp
          | some y =>
            rw [hg] at hp
            cases hp
            exact List.mem_of_getElem? hg
        show (lt' (g x) (g parent) >>= _) = (lt x parent >>= _).map _
        rw [hlt parent hm]
        cases lt x parent with
        | error e => rfl
        | ok b =>
          cases b with
          | true =>
            show Heapq.siftdownLoop lt' (g x) ((l.map g).set pos (g parent)) _ = _
            rw [← List.map_set]
            refine ih _ (by omega) fun b hb => ?_
            rcases List.mem_or_eq_of_mem_set hb with hb | rfl
            · exact hlt b hb
            · exact hlt _ hm
          | false =>
            show Except.ok ((l.map g).set pos (g x)) = Except.ok ((l.set pos x).map g)
            rw [List.map_set]
    · simp only [h, dif_neg, not_false_eq_true]
      show Except.ok ((l.map g).set pos (g x)) = Except.ok ((l.set pos x).map g)
      rw [List.map_set]

theorem heappush_map {l : List α} {x : α} (hlt : ∀ b ∈ l, lt' (g x) (g b) = lt x b)
    (hx : lt' (g x) (g x) = lt x x) :
    Heapq.heappush lt' (l.map g) (g x) = (Heapq.heappush lt l x).map (List.map g) := by
  unfold Heapq.heappush Heapq.siftdown
  rw [List.length_map, show l.map g ++ [g x] = (l ++ [x]).map g by simp, Shift.pyIdx_map]
  have : pyIdx (l ++ [x]) l.length = .ok x := by simp [pyIdx]
  rw [this]
  refine siftdownLoop_map (fun b hb => ?_) _
  rcases List.mem_append.1 hb with hb | hb
  · exact hlt b hb
  · rw [List.mem_singleton.1 hb]
    exact hx

end Heaps

/-! ## Effects -/

open StatusEffectTracker

variable {D : String → Prop}

/-- The same effects, with other names for the targets; debuffs have names among `D`. -/
structure SeRel (D : String → Prop) (f : String → String) (x y : StatusEffectTracker) : Prop where
  buffs : y.buffs = x.buffs
  priority : y.priority = x.priority
  debuffs : ∀ t, y.lookupDebuffs (f t) = x.lookupDebuffs t
  named : ∀ t, ∀ n ∈ Dict.keys (x.lookupDebuffs t), D n

theorem keys_endEffect (es : Effects) (name : String) (t : ℚ) : Dict.keys (endEffect es name t) = Dict.keys es := by
  unfold endEffect
  cases h : Dict.get? es name with
  | none => rfl
  | some e =>
    show Dict.keys (Dict.set es name _) = _
    rw [Dict.keys_set, if_pos (Dict.get?_isSome.1 (by rw [h]; rfl))]

theorem endEffect_absent {es : Effects} {name : String} (h : name ∉ Dict.keys es) (t : ℚ) :
    endEffect es name t = es := by
  unfold endEffect
  cases hg : Dict.get? es name with
  | none => rfl
  | some e => exact (h (Dict.get?_isSome.1 (by rw [hg]; rfl))).elim

theorem lookup_expire (tr : StatusEffectTracker) (t : ℚ) (target : String) :
    (tr.expire t).lookupDebuffs target = expireEffects t (tr.lookupDebuffs target) :=
  effects_expire tr t (.debuffs target)

theorem SeRel.set {x y : StatusEffectTracker} (h : SeRel D f x y) (hf : Function.Injective f) {t : String}
    {e : Effects} (he : ∀ n ∈ Dict.keys e, D n) : SeRel D f (x.setDebuffs t e) (y.setDebuffs (f t) e) := by
  refine ⟨h.buffs, h.priority, fun u => ?_, fun u => ?_⟩
  · rw [lookupDebuffs_setDebuffs, lookupDebuffs_setDebuffs, h.debuffs]
    simp only [hf.eq_iff]
  · rw [lookupDebuffs_setDebuffs]
    split
    · exact he
    · exact h.named u

theorem SeRel.expire {x y : StatusEffectTracker} (h : SeRel D f x y) (t : ℚ) :
    SeRel D f (x.expire t) (y.expire t) := by
  refine ⟨?_, h.priority, fun u => ?_, fun u n hn => ?_⟩
  · show expireEffects t y.buffs = expireEffects t x.buffs
    rw [h.buffs]
  · rw [lookup_expire, lookup_expire, h.debuffs]
  · rw [lookup_expire] at hn
    exact h.named u n ((keys_filter_sublist _ _).subset hn)

theorem SeRel.buffs_set {x y : StatusEffectTracker} (h : SeRel D f x y) (e : Effects) :
    SeRel D f { x with buffs := e } { y with buffs := e } :=
  ⟨rfl, h.priority, h.debuffs, h.named⟩

theorem SeRel.expireNamed {x y : StatusEffectTracker} (h : SeRel D f x y) (hf : Function.Injective f)
    (name : String) (t : ℚ) (target : String) :
    SeRel D f (x.expireNamed name t target) (y.expireNamed name t (f target)) := by
  unfold StatusEffectTracker.expireNamed
  simp only
  rw [show (StatusEffectTracker.lookupDebuffs { y with buffs := endEffect y.buffs name t } (f target)) =
    StatusEffectTracker.lookupDebuffs { x with buffs := endEffect x.buffs name t } target from h.debuffs target,
    h.buffs]
  refine SeRel.set (h.buffs_set _) hf ?_
  rw [keys_endEffect]
  exact h.named target

theorem SeRel.expireNameds {x y : StatusEffectTracker} (h : SeRel D f x y) (hf : Function.Injective f)
    (l : List String) (t : ℚ) (target : String) :
    SeRel D f (l.foldl (fun tr name => tr.expireNamed name t target) x)
      (l.foldl (fun tr name => tr.expireNamed name t (f target)) y) := by
  induction l generalizing x y with
  | nil => exact h
  | cons n l ih => exact ih (h.expireNamed hf n t target)

/-- Ending an effect that is no debuff. -/
theorem SeRel.expireOther {x y : StatusEffectTracker} (h : SeRel D f x y) {name : String} (hn : ¬ D name)
    (t : ℚ) (target target' : String) :
    SeRel D f (x.expireNamed name t target) (y.expireNamed name t target') := by
  have key : ∀ u, endEffect (x.lookupDebuffs u) name t = x.lookupDebuffs u :=
    fun u => endEffect_absent (fun hm => hn (h.named u name hm)) t
  have hx : ∀ u, (x.expireNamed name t target).lookupDebuffs u = x.lookupDebuffs u := by
    intro u
    unfold StatusEffectTracker.expireNamed
    simp only
    rw [lookupDebuffs_setDebuffs]
    split
    · next hu =>
      subst hu
      exact key target
    · rfl
  refine ⟨?_, h.priority, fun u => ?_, fun u => ?_⟩
  · show endEffect y.buffs name t = endEffect x.buffs name t
    rw [h.buffs]
  · rw [hx]
    unfold StatusEffectTracker.expireNamed
    simp only
    rw [lookupDebuffs_setDebuffs]
    split
    · next hu =>
      subst hu
      show endEffect (y.lookupDebuffs (f u)) name t = _
      rw [h.debuffs]
      exact key u
    · exact h.debuffs u
  · rw [hx]
    exact h.named u

theorem SeRel.expireOthers {x y : StatusEffectTracker} (h : SeRel D f x y) {l : List String}
    (hl : ∀ n ∈ l, ¬ D n) (t : ℚ) (target target' : String) :
    SeRel D f (l.foldl (fun tr name => tr.expireNamed name t target) x)
      (l.foldl (fun tr name => tr.expireNamed name t target') y) := by
  induction l generalizing x y with
  | nil => exact h
  | cons n l ih =>
    exact ih (h.expireOther (hl n List.mem_cons_self) t target target') fun m hm =>
      hl m (List.mem_cons_of_mem _ hm)

theorem keys_addEffect {es : Effects} {t : ℚ} {name : String} {spec : StatusEffectSpec} :
    ∀ n ∈ Dict.keys (addEffect es t name spec), n ∈ Dict.keys es ∨ n = name := by
  intro n hn
  have key : ∀ v : ActiveEffect, n ∈ Dict.keys (Dict.set es name v) → n ∈ Dict.keys es ∨ n = name := by
    intro v h
    rw [Dict.keys_set] at h
    split at h
    · exact .inl h
    · rcases List.mem_append.1 h with h | h
      · exact .inl h
      · exact .inr (List.mem_singleton.1 h)
  unfold addEffect at hn
  split at hn
  · split at hn
    · exact .inl hn
    · exact key _ hn
  · exact key _ hn

/-- The skill may be used: its debuffs are among `D`, and its buffs do not end effects among `D`, unless the
default target keeps its name. -/
structure SkillOk (D : String → Prop) (f : String → String) (skill : SkillCore) : Prop where
  debuff : ∀ m s, skill.getDebuffSpec m = .ok (some s) → D skill.name
  buff : f SimConsts.DEFAULT_TARGET = SimConsts.DEFAULT_TARGET ∨
    ∀ m s, skill.getBuffSpec m = .ok (some s) → ∀ n ∈ s.expiresStatusEffects, ¬ D n

theorem SeRel.addBuff {x y : StatusEffectTracker} (h : SeRel D f x y) (hf : Function.Injective f) (t : ℚ)
    (name : String) {spec : StatusEffectSpec} (hs : f SimConsts.DEFAULT_TARGET = SimConsts.DEFAULT_TARGET ∨
      ∀ n ∈ spec.expiresStatusEffects, ¬ D n) :
    SeRel D f (x.addBuff t name spec) (y.addBuff t name spec) := by
  unfold StatusEffectTracker.addBuff
  simp only
  have h1 : SeRel D f (if spec.clearAllStatusEffects then { x with buffs := [] } else x)
      (if spec.clearAllStatusEffects then { y with buffs := [] } else y) := by
    split
    · exact h.buffs_set _
    · exact h
  generalize (if spec.clearAllStatusEffects then { x with buffs := [] } else x) = x1 at h1 ⊢
  generalize (if spec.clearAllStatusEffects then { y with buffs := [] } else y) = y1 at h1 ⊢
  have h3 : SeRel D f { x1 with buffs := addEffect x1.buffs t name spec }
      { y1 with buffs := addEffect y1.buffs t name spec } := by
    rw [h1.buffs]
    exact h1.buffs_set _
  rcases hs with hs | hs
  · have := h3.expireNameds hf spec.expiresStatusEffects t SimConsts.DEFAULT_TARGET
    rw [hs] at this
    exact this
  · exact h3.expireOthers hs t _ _

theorem SeRel.addDebuff {x y : StatusEffectTracker} (h : SeRel D f x y) (hf : Function.Injective f) (t : ℚ)
    {name : String} (hn : D name) (spec : StatusEffectSpec) (target : String) :
    SeRel D f (x.addDebuff t name spec target) (y.addDebuff t name spec (f target)) := by
  unfold StatusEffectTracker.addDebuff
  simp only
  rw [h.debuffs]
  refine SeRel.expireNameds (h.set hf fun n hm => ?_) hf _ t target
  rcases keys_addEffect n hm with hm | rfl
  · exact h.named target n hm
  · exact hn

theorem SeRel.addDebuffs {x y : StatusEffectTracker} (h : SeRel D f x y) (hf : Function.Injective f) (t : ℚ)
    {name : String} (hn : D name) (spec : StatusEffectSpec) (l : List String) :
    SeRel D f (l.foldl (fun tr target => tr.addDebuff t name spec target) x)
      ((l.map f).foldl (fun tr target => tr.addDebuff t name spec target) y) := by
  induction l generalizing x y with
  | nil => exact h
  | cons n l ih => exact ih (h.addDebuff hf t hn spec n)

theorem SeRel.add {x y : StatusEffectTracker} (h : SeRel D f x y) (hf : Function.Injective f) (t : ℚ)
    {skill : SkillCore} (hs : SkillOk D f skill) (m : SkillModifier) (targets : List String) :
    Rel (SeRel D f) (x.add t skill m targets) (y.add t skill m (targets.map f)) := by
  unfold StatusEffectTracker.add
  cases hb : skill.getBuffSpec m with
  | error e => rfl
  | ok bs =>
    cases hd : skill.getDebuffSpec m with
    | error e => rfl
    | ok ds =>
      simp only [Py.ok_bind]
      have h1 : ∀ spec, bs = some spec → SeRel D f (x.addBuff t skill.name spec) (y.addBuff t skill.name spec) := by
        rintro spec rfl
        exact h.addBuff hf t skill.name (hs.buff.imp id fun h => h m spec hb)
      cases bs with
      | none =>
        cases ds with
        | none => exact h
        | some spec => exact h.addDebuffs hf t (hs.debuff m spec hd) spec targets
      | some bspec =>
        cases ds with
        | none => exact h1 bspec rfl
        | some spec => exact (h1 bspec rfl).addDebuffs hf t (hs.debuff m spec hd) spec targets

theorem keys_compile {priority : List String} {t : ℚ} {es es' : Effects} {dl : List String} {sn : String}
    {agg : StatusEffects} {cond : String} (h : compileEffects priority t es dl sn = .ok (agg, cond, es')) :
    Dict.keys es' = Dict.keys es := by
  unfold compileEffects at h
  obtain ⟨⟨es1, acc⟩, h1, h2⟩ := Py.bind_eq_ok.1 h
  simp only [Py.pure_eq, Except.ok.injEq, Prod.mk.injEq] at h2
  obtain ⟨-, -, rfl⟩ := h2
  refine Py.foldlM_inv (P := fun st : Effects × CompileAcc => Dict.keys st.1 = Dict.keys es) rfl ?_ h1
  intro st n st' _ hst hn
  unfold compileStep at hn
  obtain ⟨e, he, hn⟩ := Py.bind_eq_ok.1 hn
  obtain ⟨a, -, hn⟩ := Py.bind_eq_ok.1 hn
  rw [← Except.ok.inj hn]
  show Dict.keys (Dict.set st.1 n _) = _
  rw [Dict.get_ok] at he
  rw [Dict.keys_set, if_pos (Dict.get?_isSome.1 (by rw [he]; rfl)), hst]

theorem SeRel.compileBuffs {x y : StatusEffectTracker} (h : SeRel D f x y) (t : ℚ) (skill : SkillCore) :
    Rel (fun a b : (StatusEffects × String) × StatusEffectTracker => a.1 = b.1 ∧ SeRel D f a.2 b.2)
      (x.compileBuffs t skill) (y.compileBuffs t skill) := by
  unfold StatusEffectTracker.compileBuffs
  rw [h.buffs, h.priority]
  refine (Rel.refl (R := Eq) (fun _ => rfl) _).bind ?_
  rintro ⟨agg, cond, es⟩ _ rfl
  exact ⟨rfl, rfl, rfl, h.debuffs, h.named⟩

theorem SeRel.compileDebuffs {x y : StatusEffectTracker} (h : SeRel D f x y) (hf : Function.Injective f) (t : ℚ)
    (skill : SkillCore) (target : String) :
    Rel (fun a b : (StatusEffects × String) × StatusEffectTracker => a.1 = b.1 ∧ SeRel D f a.2 b.2)
      (x.compileDebuffs t skill target) (y.compileDebuffs t skill (f target)) := by
  unfold StatusEffectTracker.compileDebuffs
  rw [h.debuffs, h.priority]
  cases hc : compileEffects x.priority t (x.lookupDebuffs target) skill.statusEffectDenylist skill.name with
  | error e => rfl
  | ok r =>
    obtain ⟨agg, cond, es⟩ := r
    refine ⟨rfl, h.set hf ?_⟩
    rw [keys_compile hc]
    exact h.named target

/-! ## The damage builder -/

/-- The same damage builder, with other names for the targets. -/
structure DbRel (D : String → Prop) (f : String → String) (a b : DamageBuilder) : Prop where
  se : SeRel D f a.se b.se
  res : b.res = a.res
  combo : b.combo = a.combo

def With {α : Type} (D : String → Prop) (f : String → String) (x y : α × DamageBuilder) : Prop :=
  x.1 = y.1 ∧ DbRel D f x.2 y.2

def With2 {α β : Type} (D : String → Prop) (f : String → String) (x y : α × β × DamageBuilder) : Prop :=
  x.1 = y.1 ∧ x.2.1 = y.2.1 ∧ DbRel D f x.2.2 y.2.2

variable {a b : DamageBuilder}

theorem gaugesIf_rename (h : DbRel D f a b) (c : Bool) (t : ℚ) (skill : Skill) (m : SkillModifier) :
    Rel (With D f) (gaugesIf c a t skill m) (gaugesIf c b t skill m) := by
  unfold DamageBuilder.gaugesIf
  split
  · unfold addGauges
    rw [h.res]
    refine (Rel.refl (R := Eq) (fun _ => rfl) (a.res.compile t skill.name)).bind ?_
    rintro x _ rfl
    exact ⟨rfl, h.se, rfl, h.combo⟩
  · exact ⟨rfl, h⟩

theorem changeIf_rename (h : DbRel D f a b) (c : Bool) (t : ℚ) (skill : Skill) (m : SkillModifier) :
    Rel (DbRel D f) (changeIf c a t skill m) (changeIf c b t skill m) := by
  unfold DamageBuilder.changeIf
  split
  · unfold changeGauges
    rw [h.res]
    refine (Rel.refl (R := Eq) (fun _ => rfl) (a.res.addResource t skill.toSkillCore m)).bind ?_
    rintro x _ rfl
    exact ⟨h.se, rfl, h.combo⟩
  · exact h

theorem comboIf_rename (h : DbRel D f a b) (c : Bool) (t : ℚ) (skill : Skill) (m : SkillModifier) :
    Rel (With D f) (comboIf c a t skill m) (comboIf c b t skill m) := by
  unfold DamageBuilder.comboIf
  split
  · unfold addCombo
    rw [h.combo]
    refine (Rel.refl (R := Eq) (fun _ => rfl) (a.combo.compileAndUpdate t skill.toSkillCore m)).bind ?_
    rintro x _ rfl
    refine (Rel.refl (R := Eq) (fun _ => rfl) _).bind ?_
    rintro m _ rfl
    exact ⟨rfl, h.se, h.res, rfl⟩
  · exact ⟨rfl, h⟩

theorem takeBuffs_rename (h : DbRel D f a b) (t : ℚ) (skill : Skill) (m : SkillModifier) :
    Rel (With2 D f) (a.takeBuffs t skill m) (b.takeBuffs t skill m) := by
  unfold DamageBuilder.takeBuffs
  refine (h.se.compileBuffs t skill.toSkillCore).bind ?_
  rintro ⟨x, tr⟩ ⟨_, tr'⟩ ⟨rfl, h1⟩
  exact ⟨rfl, rfl, h1, h.res, h.combo⟩

theorem takeDebuffs_rename (h : DbRel D f a b) (hf : Function.Injective f) (t : ℚ) (skill : Skill)
    (m : SkillModifier) (target : String) :
    Rel (With2 D f) (a.takeDebuffs t skill m target) (b.takeDebuffs t skill m (f target)) := by
  unfold DamageBuilder.takeDebuffs
  refine (h.se.compileDebuffs hf t skill.toSkillCore target).bind ?_
  rintro ⟨x, tr⟩ ⟨_, tr'⟩ ⟨rfl, h1⟩
  exact ⟨rfl, rfl, h1, h.res, h.combo⟩

theorem finalBuffs_rename (h : DbRel D f a b) (st : SnapStatus) (t : ℚ) (skill : Skill) (m : SkillModifier) :
    Rel (With2 D f) (finalBuffs st a t skill m) (finalBuffs st b t skill m) := by
  cases st with
  | done x => exact ⟨rfl, rfl, h⟩
  | flag c => exact takeBuffs_rename h t skill m

theorem finalDebuffs_rename (h : DbRel D f a b) (hf : Function.Injective f) (st : SnapStatus) (t : ℚ)
    (skill : Skill) (m : SkillModifier) (target : String) :
    Rel (With2 D f) (finalDebuffs st a t skill m target) (finalDebuffs st b t skill m (f target)) := by
  cases st with
  | done x => exact ⟨rfl, rfl, h⟩
  | flag c => exact takeDebuffs_rename h hf t skill m target

theorem snapBuffs_rename (h : DbRel D f a b) (st : SnapStatus) (t : ℚ) (skill : Skill) (m : SkillModifier) :
    Rel (With2 D f) (snapBuffs st a t skill m) (snapBuffs st b t skill m) := by
  match st with
  | .done x => exact ⟨rfl, rfl, h⟩
  | .flag false => exact ⟨rfl, rfl, h⟩
  | .flag true =>
    refine (takeBuffs_rename h t skill m).bind ?_
    rintro ⟨x, m, d⟩ ⟨_, _, d'⟩ ⟨h1, h2, h3⟩
    exact ⟨congrArg SnapStatus.done h1, h2, h3⟩

theorem snapDebuffs_rename (h : DbRel D f a b) (hf : Function.Injective f) (st : SnapStatus) (t : ℚ)
    (skill : Skill) (m : SkillModifier) (target : String) :
    Rel (With2 D f) (snapDebuffs st a t skill m target) (snapDebuffs st b t skill m (f target)) := by
  match st with
  | .done x => exact ⟨rfl, rfl, h⟩
  | .flag false => exact ⟨rfl, rfl, h⟩
  | .flag true =>
    refine (takeDebuffs_rename h hf t skill m target).bind ?_
    rintro ⟨x, m, d⟩ ⟨_, _, d'⟩ ⟨h1, h2, h3⟩
    exact ⟨congrArg SnapStatus.done h1, h2, h3⟩

/-! ## Events and instances -/

theorem event_lt (x y : Event) : Event.pyLt (renameEvent f x) (renameEvent f y) = Event.pyLt x y := rfl

theorem getNext_rename (events : Events) :
    Rel (Img fun r : Event × Events => (renameEvent f r.1, renameTimeline f r.2))
      events.getNext (renameTimeline f events).getNext := by
  unfold Events.getNext
  show Rel _ _ (Heapq.heappop Event.pyLt (events.q.map (renameEvent f)) >>= _)
  rw [Shift.heappop_map event_lt]
  cases Heapq.heappop Event.pyLt events.q with
  | error e => rfl
  | ok r => rfl

def renameNew (f : String → String) (e : NewEvent) : NewEvent := { e with targets := e.targets.map f }

theorem mkEvent_rename (n : NewEvent) (i : ℕ) :
    Events.mkEvent (renameNew f n) i = renameEvent f (Events.mkEvent n i) := rfl

theorem add_rename (events : Events) (n : NewEvent) :
    Rel (Img (renameTimeline f)) (events.add n) ((renameTimeline f events).add (renameNew f n)) := by
  unfold Events.add
  simp only
  show Rel _ _ (Heapq.heappush Event.pyLt (events.q.map (renameEvent f))
    (Events.mkEvent (renameNew f n) (n.eventId.getD events.eventId)) >>= _)
  rw [mkEvent_rename, Shift.heappush_map event_lt]
  cases Heapq.heappush Event.pyLt events.q (Events.mkEvent n (n.eventId.getD events.eventId)) with
  | error e => rfl
  | ok q => rfl

/-- What tells instances apart. -/
def key (x : DamageInstance) : ℕ × ℚ := (x.eventId, x.time)

theorem instance_lt {x y : DamageInstance} (h : key x ≠ key y) :
    DamageInstance.pyLt (renameInstance f x) (renameInstance f y) = DamageInstance.pyLt x y := by
  unfold DamageInstance.pyLt renameInstance
  simp only
  by_cases h1 : x.time = y.time
  · have h2 : x.eventId ≠ y.eventId := fun h2 => h (Prod.ext h2 h1)
    simp only [h1, h2, ne_eq, not_true_eq_false, not_false_eq_true, if_true, if_false]
  · simp only [h1, ne_eq, not_false_eq_true, if_true]

theorem instance_lt_self (x : DamageInstance) :
    DamageInstance.pyLt (renameInstance f x) (renameInstance f x) = DamageInstance.pyLt x x := by
  unfold DamageInstance.pyLt renameInstance
  simp only [lt_irrefl]

theorem push_rename {q : List DamageInstance} {i : DamageInstance} (h : key i ∉ q.map key) :
    Rel (Img (List.map (renameInstance f))) (pushInstance q i)
      (pushInstance (q.map (renameInstance f)) (renameInstance f i)) := by
  unfold pushInstance
  show Rel _ _ (i.skill.getDamageSpec i.modifier >>= _)
  refine (Rel.refl (R := Eq) (fun _ => rfl) _).bind ?_
  rintro sp _ rfl
  cases sp with
  | none => rfl
  | some sp =>
    show Rel _ (Heapq.heappush _ _ _) (Heapq.heappush _ _ _)
    rw [heappush_map (fun b hb => instance_lt fun he => h (he ▸ List.mem_map_of_mem hb)) (instance_lt_self i)]
    cases Heapq.heappush DamageInstance.pyLt q i with
    | error e => rfl
    | ok q => rfl

/-! ## The loop -/

/-- The key of the instance that the event makes for one of its targets. -/
def targetKey (e : Event) (i : ℕ) : ℕ × ℚ :=
  (e.eventId, targetTime e.targets.length i (e.secondary.getD e.primary))

/-- The keys of the instances that the event makes. -/
def pend (e : Event) : List (ℕ × ℚ) := e.targets.zipIdx.map fun ti => targetKey e ti.2

/-- No two instances, made or yet to come, have the same key. -/
def Keys (s : DamageState) (l : List (ℕ × ℚ)) : Prop :=
  (s.q.map key ++ (s.events.q.flatMap pend ++ l)).Nodup

structure StRel (D : String → Prop) (f : String → String) (s s' : DamageState) : Prop where
  db : DbRel D f s.db s'.db
  events : s'.events = renameTimeline f s.events
  q : s'.q = s.q.map (renameInstance f)
  ok : s.events.Ok
  each : ∀ e ∈ s.events.q, SkillOk D f e.skill.toSkillCore

def AccRel (D : String → Prop) (f : String → String) (l : List (ℕ × ℚ)) (x y : DamageState × SkillModifier) : Prop :=
  StRel D f x.1 y.1 ∧ x.2 = y.2 ∧ Keys x.1 l

theorem applyTarget_rename (hf : Function.Injective f) {e : Event} (hs : e.secondary = none)
    (buffs : StatusEffects) {x y : DamageState × SkillModifier} {ti : String × ℕ} {l : List (ℕ × ℚ)}
    (h : AccRel D f (targetKey e ti.2 :: l) x y) :
    Rel (AccRel D f l) (applyTarget e buffs x ti) (applyTarget (renameEvent f e) buffs y (f ti.1, ti.2)) := by
  obtain ⟨s, m⟩ := x
  obtain ⟨s', m'⟩ := y
  obtain ⟨h, rfl, hk⟩ := (h : StRel D f s s' ∧ m = m' ∧ Keys s _)
  have hl : (renameEvent f e).targets.length = e.targets.length := List.length_map ..
  unfold applyTarget
  simp only [hl]
  show Rel _ _ (finalDebuffs e.snapshotDebuffs _ e.primary e.skill _ _ >>= _)
  refine (finalDebuffs_rename h.db hf e.snapshotDebuffs e.primary e.skill _ ti.1).bind ?_
  rintro ⟨d, m1, db1⟩ ⟨_, _, db2⟩ ⟨g1, g2, g3⟩
  obtain rfl : d = _ := g1
  obtain rfl : m1 = _ := g2
  simp only
  rw [h.q]
  set i : DamageInstance := { time := targetTime e.targets.length ti.2 e.primary, skill := e.skill, modifier := m1, buffs := buffs, debuffs := d, eventId := e.eventId, target := ti.1 } with hi
  have hki : key i = targetKey e ti.2 := by
    rw [hi]
    unfold key targetKey
    rw [hs]
    rfl
  have hnew : key i ∉ s.q.map key := by
    rw [hki]
    intro hm
    exact (List.disjoint_of_nodup_append hk) hm (by simp)
  have hp := push_rename (f := f) hnew
  cases hq : pushInstance s.q i with
  | error err =>
    rw [hq] at hp
    show Rel _ _ (pushInstance _ (renameInstance f i) >>= _)
    match hz : pushInstance (s.q.map (renameInstance f)) (renameInstance f i) with
    | .ok z => rw [hz] at hp; exact hp.elim
    | .error z => rw [hz] at hp; exact hp
  | ok q1 =>
    rw [hq] at hp
    show Rel _ _ (pushInstance _ (renameInstance f i) >>= _)
    match hz : pushInstance (s.q.map (renameInstance f)) (renameInstance f i) with
    | .error z => rw [hz] at hp; exact hp.elim
    | .ok z =>
      rw [hz] at hp
      obtain rfl : z = q1.map (renameInstance f) := hp
      refine ⟨⟨g3, h.events, rfl, h.ok, h.each⟩, rfl, ?_⟩
      obtain ⟨-, hperm⟩ := pushInstance_spec hq
      show (q1.map key ++ (s.events.q.flatMap pend ++ l)).Nodup
      have h1 : (s.q.map key ++ [key i] ++ (s.events.q.flatMap pend ++ l)).Nodup := by
        refine (List.Perm.nodup_iff ?_).1 hk
        rw [hki, List.append_assoc]
        refine List.Perm.append_left _ ?_
        exact List.perm_middle
      have h2 : (q1.map key ++ (s.events.q.flatMap pend ++ l)).Perm
          (s.q.map key ++ ([i].filter deals).map key ++ (s.events.q.flatMap pend ++ l)) := by
        rw [← List.map_append]
        exact (hperm.map key).append_right _
      refine h2.nodup_iff.2 (h1.sublist ?_)
      refine List.Sublist.append_right (List.Sublist.append_left ?_ _) _
      exact (List.filter_sublist (l := [i]) (p := deals)).map key

theorem foldlM_rename {g g' : DamageState × SkillModifier → String × ℕ → Py (DamageState × SkillModifier)}
    {k : ℕ → ℕ × ℚ}
    (hg : ∀ x y ti l, AccRel D f (k ti.2 :: l) x y → Rel (AccRel D f l) (g x ti) (g' y (f ti.1, ti.2)))
    (ts : List (String × ℕ)) {x y : DamageState × SkillModifier}
    (h : AccRel D f (ts.map fun ti => k ti.2) x y) :
    Rel (AccRel D f []) (ts.foldlM g x) ((ts.map fun ti => (f ti.1, ti.2)).foldlM g' y) := by
  induction ts generalizing x y with
  | nil => exact h
  | cons ti ts ih =>
    rw [List.map_cons, Py.foldlM_cons, Py.foldlM_cons]
    exact (hg x y ti _ h).bind fun x1 y1 h1 => ih h1

theorem zipIdx_rename (e : Event) :
    (renameEvent f e).targets.zipIdx = e.targets.zipIdx.map fun ti => (f ti.1, ti.2) := by
  unfold renameEvent
  rw [List.zipIdx_map]
  rfl

theorem snapshotTarget_rename (hf : Function.Injective f) {e : Event} (he : SkillOk D f e.skill.toSkillCore)
    {sec : ℚ} (hs : e.secondary = some sec)
    (p : ℤ) (buffs : SnapStatus) (j c : Bool) {x y : DamageState × SkillModifier} {ti : String × ℕ}
    {l : List (ℕ × ℚ)} (h : AccRel D f (targetKey e ti.2 :: l) x y) :
    Rel (AccRel D f l) (snapshotTarget e sec p buffs j c x ti)
      (snapshotTarget (renameEvent f e) sec p buffs j c y (f ti.1, ti.2)) := by
  obtain ⟨s, m⟩ := x
  obtain ⟨s', m'⟩ := y
  obtain ⟨h, rfl, hk⟩ := (h : StRel D f s s' ∧ m = m' ∧ Keys s _)
  have hl : (renameEvent f e).targets.length = e.targets.length := List.length_map ..
  unfold snapshotTarget
  simp only [hl]
  show Rel _ _ (snapDebuffs e.snapshotDebuffs _ e.primary e.skill _ _ >>= _)
  refine (snapDebuffs_rename h.db hf e.snapshotDebuffs e.primary e.skill _ ti.1).bind ?_
  rintro ⟨d, m1, db1⟩ ⟨_, _, db2⟩ ⟨g1, g2, g3⟩
  obtain rfl : d = _ := g1
  obtain rfl : m1 = _ := g2
  simp only
  rw [h.events]
  set n : NewEvent := { priority := p, primary := targetTime e.targets.length ti.2 sec, secondary := none, skill := e.skill, modifier := m1, snapshotBuffs := buffs, snapshotDebuffs := d, eventId := some e.eventId, jobResourcesAdded := true, jobConditionalProcessed := j, comboConditionalProcessed := c, targets := [ti.1] } with hn
  have hp := add_rename (f := f) s.events n
  obtain ⟨evs, e1, e2, e3, -⟩ := Events.add_spec s.events h.ok n
  rw [e1] at hp ⊢
  show Rel _ _ (Events.add _ (renameNew f n) >>= _)
  match hz : (renameTimeline f s.events).add (renameNew f n) with
  | .error z => rw [hz] at hp; exact hp.elim
  | .ok z =>
    rw [hz] at hp
    obtain rfl : z = renameTimeline f evs := hp
    refine ⟨⟨g3, rfl, h.q, e2, fun e' he' => ?_⟩, rfl, ?_⟩
    · rcases List.mem_cons.1 (e3.mem_iff.1 he') with h5 | h5
      · rw [h5]
        exact he
      · exact h.each e' h5
    · show (s.q.map key ++ (evs.q.flatMap pend ++ l)).Nodup
      have hpd : pend (Events.mkEvent n (NewEvent.idWith n s.events.eventId)) = [targetKey e ti.2] := by
        unfold pend targetKey
        rw [hs]
        simp [hn, Events.mkEvent, NewEvent.idWith, targetTime]
      refine (List.Perm.nodup_iff ?_).1 hk
      refine List.Perm.append_left _ ?_
      have h6 := e3.flatMap_right pend
      rw [List.flatMap_cons, hpd] at h6
      exact (List.perm_middle).trans (h6.symm.append_right l)

theorem applyEvent_rename (hf : Function.Injective f) {s s' : DamageState} (h : StRel D f s s') {e : Event}
    (hs : e.secondary = none) (he : SkillOk D f e.skill.toSkillCore) (hk : Keys s (pend e)) :
    Rel (fun x y => StRel D f x y ∧ Keys x []) (applyEvent s e) (applyEvent s' (renameEvent f e)) := by
  unfold applyEvent
  simp only
  rw [zipIdx_rename]
  show Rel _ _ (gaugesIf _ _ e.primary e.skill e.modifier >>= _)
  refine (gaugesIf_rename h.db _ e.primary e.skill e.modifier).bind ?_
  rintro ⟨m, d⟩ ⟨_, d'⟩ ⟨g1, g2⟩
  obtain rfl : m = _ := g1
  refine (changeIf_rename g2 _ e.primary e.skill m).bind ?_
  intro d d' g3
  refine (comboIf_rename g3 _ e.primary e.skill m).bind ?_
  rintro ⟨m, d⟩ ⟨_, d'⟩ ⟨g1, g2⟩
  obtain rfl : m = _ := g1
  refine (finalBuffs_rename g2 e.snapshotBuffs e.primary e.skill m).bind ?_
  rintro ⟨b, m, d⟩ ⟨_, _, d'⟩ ⟨g1, g2, g3⟩
  obtain rfl : b = _ := g1
  obtain rfl : m = _ := g2
  refine (foldlM_rename (k := targetKey e) (fun x y ti l h => applyTarget_rename hf hs b h) e.targets.zipIdx
    (x := ({ s with db := d }, m)) (y := ({ s' with db := d' }, m))
    ⟨⟨g3, h.events, h.q, h.ok, h.each⟩, rfl, hk⟩).bind ?_
  rintro ⟨s1, m⟩ ⟨s2, _⟩ ⟨h1, h2, h3⟩
  obtain rfl : m = _ := h2
  simp only
  refine Rel.bind (h1.db.se.add hf e.primary he m e.targets) ?_
  intro se1 se2 h4
  exact ⟨⟨⟨h4, h1.db.res, h1.db.combo⟩, h1.events, h1.q, h1.ok, h1.each⟩, h3⟩

theorem snapshotEvent_rename (hf : Function.Injective f) {s s' : DamageState} (h : StRel D f s s') {e : Event}
    {sec : ℚ} (hs : e.secondary = some sec) (he : SkillOk D f e.skill.toSkillCore) (hk : Keys s (pend e)) :
    Rel (fun x y => StRel D f x y ∧ Keys x []) (snapshotEvent s e sec)
      (snapshotEvent s' (renameEvent f e) sec) := by
  unfold snapshotEvent
  simp only
  rw [zipIdx_rename]
  show Rel _ _ (snapBuffs e.snapshotBuffs _ e.primary e.skill e.modifier >>= _)
  refine (snapBuffs_rename h.db e.snapshotBuffs e.primary e.skill e.modifier).bind ?_
  rintro ⟨b, m, d⟩ ⟨_, _, d'⟩ ⟨g1, g2, g3⟩
  obtain rfl : b = _ := g1
  obtain rfl : m = _ := g2
  refine (gaugesIf_rename g3 _ e.primary e.skill m).bind ?_
  rintro ⟨m, d⟩ ⟨_, d'⟩ ⟨g1, g2⟩
  obtain rfl : m = _ := g1
  refine (comboIf_rename g2 _ e.primary e.skill m).bind ?_
  rintro ⟨m, d⟩ ⟨_, d'⟩ ⟨g1, g2⟩
  obtain rfl : m = _ := g1
  refine (changeIf_rename g2 _ e.primary e.skill m).bind ?_
  intro d d' g3
  refine (foldlM_rename (k := targetKey e)
    (fun x y ti l h => snapshotTarget_rename hf he hs _ b _ _ h) e.targets.zipIdx
    (x := ({ s with db := d }, m)) (y := ({ s' with db := d' }, m))
    ⟨⟨g3, h.events, h.q, h.ok, h.each⟩, rfl, hk⟩).bind ?_
  rintro ⟨s1, m⟩ ⟨s2, _⟩ ⟨h1, h2, h3⟩
  exact ⟨h1, h3⟩

theorem processEvent_rename (hf : Function.Injective f) {s s' : DamageState} (h : StRel D f s s') {e : Event}
    (he : SkillOk D f e.skill.toSkillCore) (hk : Keys s (pend e)) :
    Rel (fun x y => StRel D f x y ∧ Keys x []) (processEvent s e) (processEvent s' (renameEvent f e)) := by
  unfold processEvent
  have h1 : StRel D f { s with db := { s.db with se := s.db.se.expire e.primary } }
      { s' with db := { s'.db with se := s'.db.se.expire (renameEvent f e).primary } } := by
    exact ⟨⟨h.db.se.expire e.primary, h.db.res, h.db.combo⟩, h.events, h.q, h.ok, h.each⟩
  simp only
  show Rel _ _ (match e.secondary with | none => _ | some sec => _)
  cases hs : e.secondary with
  | none => exact applyEvent_rename hf h1 hs he hk
  | some sec => exact snapshotEvent_rename hf h1 hs he hk

theorem loop_rename (hf : Function.Injective f) (n : ℕ) {s s' : DamageState} (h : StRel D f s s')
    (hk : Keys s []) :
    Rel (StRel D f) (loop n s) (loop n s') := by
  have hempty : s'.events.isEmpty = s.events.isEmpty := by
    rw [h.events]
    unfold Events.isEmpty renameTimeline
    simp only [List.length_map]
  induction n generalizing s s' with
  | zero =>
    unfold loop
    rw [hempty]
    split
    · exact h
    · rfl
  | succ n ih =>
    unfold loop
    rw [hempty]
    split
    · exact h
    · rw [h.events]
      have hg := getNext_rename (f := f) s.events
      cases hn : s.events.getNext with
      | error e =>
        rw [hn] at hg
        match hz : (renameTimeline f s.events).getNext with
        | .ok z => rw [hz] at hg; exact hg.elim
        | .error z => rw [hz] at hg; exact hg
      | ok r =>
        obtain ⟨e, evs⟩ := r
        rw [hn] at hg
        match hz : (renameTimeline f s.events).getNext with
        | .error z => rw [hz] at hg; exact hg.elim
        | .ok z =>
          rw [hz] at hg
          obtain rfl : z = (renameEvent f e, renameTimeline f evs) := hg
          simp only [Py.ok_bind]
          obtain ⟨o1, o2, -, -⟩ := Events.getNext_spec h.ok hn
          refine (processEvent_rename hf (s := { s with events := evs })
            (s' := { s' with events := renameTimeline f evs })
            ⟨h.db, rfl, h.q, o1, fun e' h' => h.each e' (o2.mem_iff.2 (List.mem_cons_of_mem _ h'))⟩
            (h.each e (o2.mem_iff.2 List.mem_cons_self)) ?_).bind ?_
          · refine (List.Perm.nodup_iff ?_).1 hk
            refine List.Perm.append_left _ ?_
            have h6 := o2.flatMap_right pend
            rw [List.flatMap_cons] at h6
            rw [List.append_nil]
            exact h6.trans List.perm_append_comm
          · rintro s1 s2 ⟨h1, h2⟩
            refine ih h1 h2 ?_
            rw [h1.events]
            unfold Events.isEmpty renameTimeline
            simp only [List.length_map]

theorem pend_nodup (e : Event) : (pend e).Nodup := by
  unfold pend
  by_cases h : 1 < e.targets.length
  · rw [show (fun ti : String × ℕ => targetKey e ti.2) = targetKey e ∘ Prod.snd from rfl, ← List.map_map]
    refine List.Nodup.map ?_ ?_
    · intro i j hij
      unfold targetKey targetTime at hij
      rw [if_pos h, if_pos h] at hij
      have h1 := (Prod.mk.inj hij).2
      have h2 : (i : ℚ) * GameConsts.MULTI_TARGET_DELAY_PER_TARGET = j * GameConsts.MULTI_TARGET_DELAY_PER_TARGET :=
        add_left_cancel h1
      have h3 : GameConsts.MULTI_TARGET_DELAY_PER_TARGET ≠ 0 := by decide +kernel
      exact_mod_cast mul_right_cancel₀ h3 h2
    · rw [List.zipIdx_map_snd]
      exact List.nodup_range'
  · match ht : e.targets with
    | [] => simp
    | [t] => simp
    | t :: u :: r => rw [ht] at h; simp at h

theorem keys_start {l : List Event} (h : (l.map (·.eventId)).Nodup) : (l.flatMap pend).Nodup := by
  induction l with
  | nil => exact List.nodup_nil
  | cons e l ih =>
    rw [List.map_cons, List.nodup_cons] at h
    rw [List.flatMap_cons, List.nodup_append]
    refine ⟨pend_nodup e, ih h.2, ?_⟩
    rintro x hx y hy rfl
    obtain ⟨e', he', hy⟩ := List.mem_flatMap.1 hy
    obtain ⟨ti, -, rfl⟩ := List.mem_map.1 hx
    obtain ⟨tj, -, h2⟩ := List.mem_map.1 hy
    refine h.1 (List.mem_map.2 ⟨e', he', ?_⟩)
    exact (Prod.mk.inj h2).1

theorem getDamageInstances_rename (hf : Function.Injective f) (h : DbRel D f a b) {events : Events}
    (ho : events.Ok) (he : ∀ e ∈ events.q, SkillOk D f e.skill.toSkillCore)
    (hi : (events.q.map (·.eventId)).Nodup) :
    Rel (fun x y : List DamageInstance × DamageBuilder => y.1 = x.1.map (renameInstance f))
      (a.getDamageInstances events) (b.getDamageInstances (renameTimeline f events)) := by
  unfold getDamageInstances
  have hw : ((renameTimeline f events).q.map work).sum = (events.q.map work).sum := by
    unfold renameTimeline
    simp only [List.map_map]
    congr 1
    refine List.map_congr_left fun e _ => ?_
    simp only [Function.comp, work, renameEvent, List.length_map]
  rw [hw]
  refine (loop_rename hf _ (s := { db := a, events := events })
    (s' := { db := b, events := renameTimeline f events }) ⟨h, rfl, rfl, ho, he⟩ ?_).bind ?_
  · show ([] ++ (events.q.flatMap pend ++ [])).Nodup
    rw [List.nil_append, List.append_nil]
    exact keys_start hi
  · intro s s' h1
    show sortBy _ s'.q = (sortBy _ s.q).map _
    rw [h1.q, sortBy_map]
    rfl

end Rename

end Ama
