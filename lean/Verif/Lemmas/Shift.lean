import Verif.Lemmas.Reuse
import Verif.Spec.Shift

/-!
# Moving a timeline in time

Everything the damage builder does with times is unchanged if all of them are moved.
-/

namespace Ama

open Spec DamageBuilder

namespace Shift

open Reuse (Rel lookup_set)

variable {δ : ℚ}

/-! ## Heaps -/

section Heaps

variable {α β : Type} {f : α → β} {lt : α → α → Py Bool} {lt' : β → β → Py Bool}

theorem pyIdx_map (l : List α) (i : ℕ) : pyIdx (l.map f) i = (pyIdx l i).map f := by
  unfold pyIdx
  rw [List.getElem?_map]
  cases l[i]? <;> rfl

theorem siftdownLoop_map (hlt : ∀ a b, lt' (f a) (f b) = lt a b) (x : α) (l : List α) (pos : ℕ) :
    Heapq.siftdownLoop lt' (f x) (l.map f) pos = (Heapq.siftdownLoop lt x l pos).map (List.map f) := by
  induction pos using Nat.strong_induction_on generalizing l with
  | _ pos ih =>
    rw [Heapq.siftdownLoop, Heapq.siftdownLoop]
    by_cases h : 0 < pos
    · simp only [h, dif_pos]
      rw [pyIdx_map]
      cases hp : pyIdx l ((pos - 1) / 2) with
      | error e => rfl
      | ok parent =>
        show (lt' (f x) (f parent) >>= _) = (lt x parent >>= _).map _
        rw [hlt]
        cases lt x parent with
        | error e => rfl
        | ok b =>
          cases b with
          | true =>
            show Heapq.siftdownLoop lt' (f x) ((l.map f).set pos (f parent)) _ = _
            rw [← List.map_set]
            exact ih _ (by omega) _
          | false =>
            show Except.ok ((l.map f).set pos (f x)) = Except.ok ((l.set pos x).map f)
            rw [List.map_set]
    · simp only [h, dif_neg, not_false_eq_true]
      show Except.ok ((l.map f).set pos (f x)) = Except.ok ((l.set pos x).map f)
      rw [List.map_set]

theorem siftupLoop_map (hlt : ∀ a b, lt' (f a) (f b) = lt a b) (n : ℕ) (l : List α) (pos : ℕ)
    (hn : l.length - pos = n) :
    Heapq.siftupLoop lt' (l.map f) pos =
      (Heapq.siftupLoop lt l pos).map (fun r => (r.1.map f, r.2)) := by
  induction n using Nat.strong_induction_on generalizing l pos with
  | _ n ih =>
    rw [Heapq.siftupLoop, Heapq.siftupLoop]
    simp only [List.length_map]
    by_cases h : 2 * pos + 1 < l.length
    · simp only [h, dif_pos]
      rw [pyIdx_map]
      have tail : ∀ c : ℕ,
          ((pyIdx (l.map f) c >>= fun child =>
            if _h2 : 2 * pos + 1 ≤ c ∧ pos < l.length then
              Heapq.siftupLoop lt' ((l.map f).set pos child) c
            else .error .indexError : Py (List β × ℕ))) =
          (pyIdx l c >>= fun child =>
            if _h2 : 2 * pos + 1 ≤ c ∧ pos < l.length then
              Heapq.siftupLoop lt (l.set pos child) c
            else .error .indexError : Py (List α × ℕ)).map (fun r => (r.1.map f, r.2)) := by
        intro c
        rw [pyIdx_map]
        cases pyIdx l c with
        | error e => rfl
        | ok child =>
          show (if _h2 : 2 * pos + 1 ≤ c ∧ pos < l.length then
              Heapq.siftupLoop lt' ((l.map f).set pos (f child)) c
            else .error .indexError) = Except.map _ (if _h2 : 2 * pos + 1 ≤ c ∧ pos < l.length then
              Heapq.siftupLoop lt (l.set pos child) c
            else .error .indexError)
          split
          · rename_i h2
            rw [← List.map_set]
            exact ih (l.length - c) (by omega) _ _ (by simp)
          · rfl
      cases hp : pyIdx l (2 * pos + 1) with
      | error e => rfl
      | ok left =>
        by_cases hr : 2 * pos + 1 + 1 < l.length
        · simp only [hr, if_true]
          rw [pyIdx_map]
          cases hq : pyIdx l (2 * pos + 1 + 1) with
          | error e => rfl
          | ok right =>
            have hl : lt' (f left) (f right) = lt left right := hlt _ _
            simp only [Except.map, Py.ok_bind]
            rw [hl]
            cases lt left right with
            | error e => rfl
            | ok b => cases b with
              | true => exact tail _
              | false => exact tail _
        · simp only [hr, if_false]
          exact tail _
    · simp only [h, dif_neg, not_false_eq_true]
      rfl

theorem heappush_map (hlt : ∀ a b, lt' (f a) (f b) = lt a b) (l : List α) (x : α) :
    Heapq.heappush lt' (l.map f) (f x) = (Heapq.heappush lt l x).map (List.map f) := by
  unfold Heapq.heappush Heapq.siftdown
  rw [List.length_map, show l.map f ++ [f x] = (l ++ [x]).map f by simp, pyIdx_map]
  cases pyIdx (l ++ [x]) l.length with
  | error e => rfl
  | ok y => exact siftdownLoop_map hlt y _ _

theorem heappop_map (hlt : ∀ a b, lt' (f a) (f b) = lt a b) (l : List α) :
    Heapq.heappop lt' (l.map f) = (Heapq.heappop lt l).map (fun r => (f r.1, r.2.map f)) := by
  unfold Heapq.heappop
  rw [List.getLast?_map]
  cases l.getLast? with
  | none => rfl
  | some last =>
    simp only [Option.map_some, ← List.map_dropLast]
    cases l.dropLast with
    | nil => rfl
    | cons r rest =>
      simp only [List.map_cons]
      unfold Heapq.siftup
      rw [show f last :: rest.map f = (last :: rest).map f by simp, pyIdx_map]
      cases pyIdx (last :: rest) 0 with
      | error e => rfl
      | ok y =>
        simp only [Except.map, Py.ok_bind]
        rw [siftupLoop_map hlt _ _ _ rfl]
        cases Heapq.siftupLoop lt (last :: rest) 0 with
        | error e => rfl
        | ok p =>
          simp only [Except.map, Py.ok_bind]
          rw [← List.map_set, siftdownLoop_map hlt]
          cases Heapq.siftdownLoop lt y (p.1.set p.2 y) p.2 <;> rfl

end Heaps

/-! ## Dictionaries -/

section Dicts

variable {κ ν μ : Type} [DecidableEq κ]

/-- A function applied to all values. -/
def vals (f : ν → μ) (d : Dict κ ν) : Dict κ μ := d.map (fun kv => (kv.1, f kv.2))

theorem get?_vals (f : ν → μ) (d : Dict κ ν) (k : κ) :
    Dict.get? (vals f d) k = (Dict.get? d k).map f := Reuse.get?_mapVal d f k

theorem get_vals (f : ν → μ) (d : Dict κ ν) (k : κ) : Dict.get (vals f d) k = (Dict.get d k).map f := by
  unfold Dict.get
  rw [get?_vals]
  cases Dict.get? d k <;> rfl

theorem set_vals (f : ν → μ) (d : Dict κ ν) (k : κ) (v : ν) :
    Dict.set (vals f d) k (f v) = vals f (Dict.set d k v) := by
  induction d with
  | nil => rfl
  | cons kv d ih =>
    unfold vals at ih ⊢
    simp only [List.map_cons, Dict.set]
    split
    · rfl
    · rw [ih]
      rfl

omit [DecidableEq κ] in
theorem keys_vals (f : ν → μ) (d : Dict κ ν) : Dict.keys (vals f d) = Dict.keys d := by
  unfold Dict.keys vals
  rw [List.map_map]
  rfl

end Dicts

/-! ## Effects -/

theorem top_lt (a : WithTop ℚ) (t δ : ℚ) :
    (a + (δ : WithTop ℚ) < ((t + δ : ℚ) : WithTop ℚ)) ↔ a < (t : WithTop ℚ) := by
  cases a with
  | top => simp
  | coe a =>
    rw [← WithTop.coe_add, WithTop.coe_lt_coe, WithTop.coe_lt_coe]
    constructor <;> intro h <;> linarith

def eff (δ : ℚ) (a : ActiveEffect) : ActiveEffect :=
  { a with start := a.start + δ, endT := a.endT + (δ : WithTop ℚ) }

def se (δ : ℚ) (tr : StatusEffectTracker) : StatusEffectTracker :=
  { tr with buffs := vals (eff δ) tr.buffs, debuffs := vals (vals (eff δ)) tr.debuffs }

theorem se_lookup (tr : StatusEffectTracker) (t : String) :
    (se δ tr).lookupDebuffs t = vals (eff δ) (tr.lookupDebuffs t) := by
  unfold StatusEffectTracker.lookupDebuffs se
  simp only [get?_vals]
  cases Dict.get? tr.debuffs t <;> rfl

theorem se_set (tr : StatusEffectTracker) (t : String) (e : Effects) :
    (se δ tr).setDebuffs t (vals (eff δ) e) = se δ (tr.setDebuffs t e) := by
  unfold StatusEffectTracker.setDebuffs se
  simp only [set_vals]

theorem expireEffects_vals (t : ℚ) (es : Effects) :
    StatusEffectTracker.expireEffects (t + δ) (vals (eff δ) es) =
      vals (eff δ) (StatusEffectTracker.expireEffects t es) := by
  unfold StatusEffectTracker.expireEffects vals
  rw [List.filter_map]
  congr 1
  refine List.filter_congr fun kv _ => ?_
  have h : decide ((((t + δ : ℚ) : WithTop ℚ)) > (eff δ kv.2).endT) =
      decide ((t : WithTop ℚ) > kv.2.endT) := decide_eq_decide.2 (top_lt _ _ _)
  simp only [Function.comp, h]
  rfl

theorem se_expire (tr : StatusEffectTracker) (t : ℚ) :
    (se δ tr).expire (t + δ) = se δ (tr.expire t) := by
  unfold StatusEffectTracker.expire se
  simp only [expireEffects_vals]
  congr 1
  unfold vals
  rw [List.map_map, List.map_map]
  refine List.map_congr_left fun kv _ => ?_
  exact congrArg _ (expireEffects_vals t kv.2)

theorem subTime_shift (a : WithTop ℚ) (t : ℚ) : subTime (a + (δ : WithTop ℚ)) (t + δ) = subTime a t := by
  cases a with
  | top => rfl
  | coe a =>
    rw [← WithTop.coe_add]
    show ((a + δ - (t + δ) : ℚ) : WithTop ℚ) = ((a - t : ℚ) : WithTop ℚ)
    congr 1
    ring

theorem coe_shift (t : ℚ) (d : WithTop ℚ) :
    ((t + δ : ℚ) : WithTop ℚ) + d = (t : WithTop ℚ) + d + (δ : WithTop ℚ) := by
  rw [WithTop.coe_add, add_right_comm]

theorem addEffect_vals (es : Effects) (t : ℚ) (name : String) (spec : StatusEffectSpec) :
    StatusEffectTracker.addEffect (vals (eff δ) es) (t + δ) name spec =
      vals (eff δ) (StatusEffectTracker.addEffect es t name spec) := by
  unfold StatusEffectTracker.addEffect
  rw [get?_vals]
  cases Dict.get? es name with
  | none =>
    simp only [Option.map_none]
    split
    · rfl
    · rw [← set_vals]
      congr 1
      unfold eff
      simp only [coe_shift]
  | some prev =>
    simp only [Option.map_some]
    rw [← set_vals]
    congr 1
    simp only [eff, coe_shift, subTime_shift]

theorem endEffect_vals (es : Effects) (t : ℚ) (name : String) :
    StatusEffectTracker.endEffect (vals (eff δ) es) name (t + δ) =
      vals (eff δ) (StatusEffectTracker.endEffect es name t) := by
  unfold StatusEffectTracker.endEffect
  rw [get?_vals]
  cases Dict.get? es name with
  | none => rfl
  | some e =>
    simp only [Option.map_some]
    rw [← set_vals]
    congr 1

theorem se_withBuffs (tr : StatusEffectTracker) (e : Effects) :
    { se δ tr with buffs := vals (eff δ) e } = se δ { tr with buffs := e } := rfl

theorem se_expireNamed (tr : StatusEffectTracker) (name : String) (t : ℚ) (target : String) :
    (se δ tr).expireNamed name (t + δ) target = se δ (tr.expireNamed name t target) := by
  unfold StatusEffectTracker.expireNamed
  simp only
  rw [show (se δ tr).buffs = vals (eff δ) tr.buffs from rfl, endEffect_vals, se_withBuffs, se_lookup,
    endEffect_vals, se_set]

theorem se_expireNameds (tr : StatusEffectTracker) (l : List String) (t : ℚ) (target : String) :
    l.foldl (fun tr name => tr.expireNamed name (t + δ) target) (se δ tr) =
      se δ (l.foldl (fun tr name => tr.expireNamed name t target) tr) := by
  induction l generalizing tr with
  | nil => rfl
  | cons n l ih =>
    simp only [List.foldl_cons]
    rw [se_expireNamed, ih]

theorem se_addBuff (tr : StatusEffectTracker) (t : ℚ) (name : String) (spec : StatusEffectSpec) :
    (se δ tr).addBuff (t + δ) name spec = se δ (tr.addBuff t name spec) := by
  unfold StatusEffectTracker.addBuff
  simp only
  rw [← se_expireNameds]
  congr 1
  split
  · exact congrArg (fun b => ({ se δ tr with buffs := b } : StatusEffectTracker))
      (addEffect_vals [] t name spec)
  · exact congrArg (fun b => ({ se δ tr with buffs := b } : StatusEffectTracker))
      (addEffect_vals tr.buffs t name spec)

theorem se_addDebuff (tr : StatusEffectTracker) (t : ℚ) (name : String) (spec : StatusEffectSpec)
    (target : String) :
    (se δ tr).addDebuff (t + δ) name spec target = se δ (tr.addDebuff t name spec target) := by
  unfold StatusEffectTracker.addDebuff
  simp only
  rw [se_lookup, addEffect_vals, se_set, se_expireNameds]

theorem se_addDebuffs (tr : StatusEffectTracker) (t : ℚ) (name : String) (spec : StatusEffectSpec)
    (l : List String) :
    l.foldl (fun tr target => tr.addDebuff (t + δ) name spec target) (se δ tr) =
      se δ (l.foldl (fun tr target => tr.addDebuff t name spec target) tr) := by
  induction l generalizing tr with
  | nil => rfl
  | cons n l ih =>
    simp only [List.foldl_cons]
    rw [se_addDebuff, ih]

/-- The second value is the first one, moved. -/
def Img {α β : Type} (f : α → β) (a : α) (b : β) : Prop := b = f a

theorem se_add (tr : StatusEffectTracker) (t : ℚ) (skill : SkillCore) (m : SkillModifier)
    (targets : List String) :
    Rel (Img (se δ)) (tr.add t skill m targets) ((se δ tr).add (t + δ) skill m targets) := by
  unfold StatusEffectTracker.add
  refine (Rel.refl (R := Eq) (fun _ => rfl) _).bind ?_
  rintro bs _ rfl
  refine (Rel.refl (R := Eq) (fun _ => rfl) _).bind ?_
  rintro ds _ rfl
  have h1 : (match bs with | none => se δ tr | some spec => (se δ tr).addBuff (t + δ) skill.name spec) =
      se δ (match bs with | none => tr | some spec => tr.addBuff t skill.name spec) := by
    cases bs with
    | none => rfl
    | some spec => exact se_addBuff _ _ _ _
  cases ds with
  | none => exact h1
  | some spec =>
    show List.foldl _ _ _ = se δ (List.foldl _ _ _)
    rw [← se_addDebuffs]
    exact congrArg (fun x => List.foldl _ x targets) h1

theorem validNames_vals (t : ℚ) (es : Effects) (deny : List String) (name : String) :
    StatusEffectTracker.validNames (t + δ) (vals (eff δ) es) deny name =
      StatusEffectTracker.validNames t es deny name := by
  unfold StatusEffectTracker.validNames vals
  rw [List.filter_map, List.map_map]
  show List.map Prod.fst _ = _
  congr 1
  refine List.filter_congr fun kv _ => ?_
  simp only [Function.comp, eff, add_lt_add_iff_right]

theorem compileEffects_vals (p : List String) (t : ℚ) (es : Effects) (deny : List String)
    (name : String) :
    Rel (Img fun r : StatusEffects × String × Effects => (r.1, r.2.1, vals (eff δ) r.2.2))
      (StatusEffectTracker.compileEffects p t es deny name)
      (StatusEffectTracker.compileEffects p (t + δ) (vals (eff δ) es) deny name) := by
  unfold StatusEffectTracker.compileEffects
  simp only [validNames_vals]
  have hf : ∀ (x y : Effects × StatusEffectTracker.CompileAcc) (n : String),
      y = (vals (eff δ) x.1, x.2) → Rel (fun x y : Effects × StatusEffectTracker.CompileAcc =>
        y = (vals (eff δ) x.1, x.2)) (StatusEffectTracker.compileStep x n)
        (StatusEffectTracker.compileStep y n) := by
    rintro x _ n rfl
    unfold StatusEffectTracker.compileStep
    simp only [get_vals]
    cases Dict.get x.1 n with
    | error e => rfl
    | ok e =>
      simp only [Except.map, Py.ok_bind]
      refine (Rel.refl (R := Eq) (fun _ => rfl) _).bind ?_
      rintro acc _ rfl
      show (_, _) = (_, _)
      rw [← set_vals]
      rfl
  refine (Rel.foldlM hf _ (s := (es, {})) (t := (vals (eff δ) es, {})) rfl).bind ?_
  rintro x _ rfl
  rfl

theorem se_compileBuffs (tr : StatusEffectTracker) (t : ℚ) (skill : SkillCore) :
    Rel (Img fun r : (StatusEffects × String) × StatusEffectTracker => (r.1, se δ r.2))
      (tr.compileBuffs t skill) ((se δ tr).compileBuffs (t + δ) skill) := by
  unfold StatusEffectTracker.compileBuffs
  refine (compileEffects_vals tr.priority t tr.buffs _ _).bind ?_
  rintro x _ rfl
  rfl

theorem se_compileDebuffs (tr : StatusEffectTracker) (t : ℚ) (skill : SkillCore) (target : String) :
    Rel (Img fun r : (StatusEffects × String) × StatusEffectTracker => (r.1, se δ r.2))
      (tr.compileDebuffs t skill target) ((se δ tr).compileDebuffs (t + δ) skill target) := by
  unfold StatusEffectTracker.compileDebuffs
  rw [se_lookup]
  refine (compileEffects_vals tr.priority t (tr.lookupDebuffs target) _ _).bind ?_
  rintro x _ rfl
  show (_, _) = (_, _)
  rw [se_set]

/-! ## Gauges -/

/-- A change of a gauge at this time does not make it special. -/
def TimeOk (δ t : ℚ) : Prop := t ≠ 0 ∧ t + δ ≠ 0

def entry (δ : ℚ) (e : ResourceEntry) : ResourceEntry :=
  { e with start := e.start + δ, endT := e.endT + (δ : WithTop ℚ) }

def res (δ : ℚ) (tr : JobResourceTracker) : JobResourceTracker :=
  { tr with resources := vals (List.map (entry δ)) tr.resources }

/-- No gauge expires, or none was changed at a special time. -/
def ResOk (δ : ℚ) (tr : JobResourceTracker) : Prop :=
  (∀ kv ∈ tr.configs, kv.2.expiryFromLastGain = ⊤) ∨ ∀ kv ∈ tr.resources, ∀ e ∈ kv.2, TimeOk δ e.start

/-- The second tracker is the first one, moved. -/
def ResRel (δ : ℚ) (C : Dict String JobResourceSettings) (a b : JobResourceTracker) : Prop :=
  b = res δ a ∧ ResOk δ a ∧ a.configs = C

theorem mem_set {κ ν : Type} [DecidableEq κ] {d : Dict κ ν} {k : κ} {v : ν} {kv : κ × ν}
    (h : kv ∈ Dict.set d k v) : kv ∈ d ∨ kv = (k, v) := by
  induction d with
  | nil => exact .inr (by simpa [Dict.set] using h)
  | cons x d ih =>
    unfold Dict.set at h
    split at h
    · rename_i hk
      rcases List.mem_cons.1 h with h | h
      · exact .inr (by rw [h, hk])
      · exact .inl (List.mem_cons_of_mem _ h)
    · rcases List.mem_cons.1 h with h | h
      · exact .inl (by rw [h]; exact List.mem_cons_self)
      · rcases ih h with h | h
        · exact .inl (List.mem_cons_of_mem _ h)
        · exact .inr h

theorem addSpec_shift {C : Dict String JobResourceSettings} {t : ℚ}
    (ht : (∀ kv ∈ C, kv.2.expiryFromLastGain = ⊤) ∨ TimeOk δ t) (a b : JobResourceTracker)
    (spec : JobResourceSpec) (h : ResRel δ C a b) :
    Rel (ResRel δ C) (JobResourceTracker.addSpec t a spec) (JobResourceTracker.addSpec (t + δ) b spec) := by
  obtain ⟨rfl, h2, rfl⟩ := h
  have ht' : (∀ kv ∈ a.configs, kv.2.expiryFromLastGain = ⊤) ∨
      (TimeOk δ t ∧ ∀ kv ∈ a.resources, ∀ e ∈ kv.2, TimeOk δ e.start) := by
    rcases h2 with h2 | h2
    · exact .inl h2
    · rcases ht with ht | ht
      · exact .inl ht
      · exact .inr ⟨ht, h2⟩
  unfold JobResourceTracker.addSpec
  split
  · refine ⟨?_, ?_, rfl⟩
    · unfold JobResourceTracker.clearResources res vals
      simp only [List.map_map]
      congr 1
      refine List.map_congr_left fun kv _ => ?_
      simp only [Function.comp, List.map_append, List.map_cons, List.map_nil, entry]
      rfl
    · rcases ht' with h | ⟨h, h'⟩
      · exact .inl h
      · refine .inr fun kv hkv e he => ?_
        obtain ⟨kv0, hkv0, rfl⟩ := List.mem_map.1 hkv
        rcases List.mem_append.1 he with he | he
        · exact h' _ hkv0 _ he
        · rw [List.mem_singleton.1 he]
          exact h
  · show Rel _ (Dict.get a.resources spec.name >>= _) (Dict.get (vals _ a.resources) spec.name >>= _)
    rw [get_vals]
    cases hg : Dict.get a.resources spec.name with
    | error e => rfl
    | ok l =>
      simp only [Except.map, Py.ok_bind]
      refine ⟨?_, ?_, rfl⟩
      · unfold res
        simp only
        congr 1
        rw [← set_vals]
        congr 1
        simp only [List.map_append, List.map_cons, List.map_nil, entry, coe_shift]
      · rcases ht' with h | ⟨h, h'⟩
        · exact .inl h
        · refine .inr fun kv hkv e he => ?_
          rcases mem_set hkv with hkv | rfl
          · exact h' _ hkv _ he
          · rcases List.mem_append.1 he with he | he
            · exact h' _ (Dict.mem_of_get? (Dict.get_ok.1 hg)) _ he
            · rw [List.mem_singleton.1 he]
              exact h

theorem addResource_shift {C : Dict String JobResourceSettings} {t : ℚ}
    (ht : (∀ kv ∈ C, kv.2.expiryFromLastGain = ⊤) ∨ TimeOk δ t) {a b : JobResourceTracker}
    (h : ResRel δ C a b) (skill : SkillCore) (m : SkillModifier) :
    Rel (ResRel δ C) (a.addResource t skill m) (b.addResource (t + δ) skill m) := by
  unfold JobResourceTracker.addResource
  refine (Rel.refl (R := Eq) (fun _ => rfl) _).bind ?_
  rintro l _ rfl
  exact Rel.foldlM (fun s t' x hx => addSpec_shift ht s t' x hx) l h

/-- The loop variables, moved. -/
def acc (δ : ℚ) (a : JobResourceTracker.LevelAcc) : JobResourceTracker.LevelAcc :=
  { a with lastRefresh := a.lastRefresh.map (· + δ) }

theorem levelStep_shift (cfg : JobResourceSettings) (t : ℚ) (a : JobResourceTracker.LevelAcc)
    (e : ResourceEntry) :
    JobResourceTracker.levelStep cfg (t + δ) (acc δ a) (entry δ e) =
      acc δ (JobResourceTracker.levelStep cfg t a e) := by
  unfold JobResourceTracker.levelStep
  have h1 : (acc δ a).lastRefresh.getD (entry δ e).start = a.lastRefresh.getD e.start + δ := by
    unfold acc entry
    cases a.lastRefresh <;> rfl
  simp only [h1]
  have h2 : (((a.lastRefresh.getD e.start + δ : ℚ) : WithTop ℚ) + cfg.expiryFromLastGain <
      (((entry δ e).start : ℚ) : WithTop ℚ)) ↔
      ((a.lastRefresh.getD e.start : ℚ) : WithTop ℚ) + cfg.expiryFromLastGain < (e.start : WithTop ℚ) := by
    rw [coe_shift]
    exact top_lt _ _ _
  have h3 : (t + δ < (entry δ e).start ∨ (entry δ e).endT < ((t + δ : ℚ) : WithTop ℚ)) ↔
      (t < e.start ∨ e.endT < (t : WithTop ℚ)) := by
    unfold entry
    simp only [add_lt_add_iff_right, top_lt]
  simp only [h2, h3]
  have h4 : (entry δ e).spec = e.spec := rfl
  have h5 : (acc δ a).total = a.total := rfl
  simp only [h4, h5]
  unfold acc entry
  split <;> split <;> simp only [Option.map_some] <;> split <;> rfl

theorem levels_shift (cfg : JobResourceSettings) (t : ℚ) (l : List ResourceEntry)
    (a : JobResourceTracker.LevelAcc) :
    (l.map (entry δ)).foldl (JobResourceTracker.levelStep cfg (t + δ)) (acc δ a) =
      acc δ (l.foldl (JobResourceTracker.levelStep cfg t) a) := by
  induction l generalizing a with
  | nil => rfl
  | cons e l ih =>
    simp only [List.map_cons, List.foldl_cons]
    rw [levelStep_shift, ih]

/-- The time of the last refill is the time of a change. -/
theorem lastRefresh_ok (cfg : JobResourceSettings) (t : ℚ) (l : List ResourceEntry)
    (hl : ∀ e ∈ l, TimeOk δ e.start) (a : JobResourceTracker.LevelAcc)
    (ha : ∀ r ∈ a.lastRefresh, TimeOk δ r) :
    ∀ r ∈ (l.foldl (JobResourceTracker.levelStep cfg t) a).lastRefresh, TimeOk δ r := by
  induction l generalizing a with
  | nil => exact ha
  | cons e l ih =>
    simp only [List.foldl_cons]
    refine ih (fun x hx => hl x (List.mem_cons_of_mem _ hx)) _ ?_
    have he := hl e List.mem_cons_self
    have h1 : TimeOk δ (a.lastRefresh.getD e.start) := by
      cases h : a.lastRefresh with
      | none => exact he
      | some r => exact ha r (by rw [h]; rfl)
    have h2 : TimeOk δ (if e.spec.refreshesDurationOfLastGained then e.start
        else a.lastRefresh.getD e.start) := by
      split
      · exact he
      · exact h1
    intro r hr
    unfold JobResourceTracker.levelStep at hr
    simp only at hr
    split at hr
    · rw [← Option.some.inj hr]
      exact h2
    · rw [← Option.some.inj hr]
      exact h2

theorem level_shift (cfg : JobResourceSettings) (t : ℚ) (l : List ResourceEntry)
    (h : cfg.expiryFromLastGain = ⊤ ∨ ∀ e ∈ l, TimeOk δ e.start) :
    JobResourceTracker.level cfg (t + δ) (l.map (entry δ)) = JobResourceTracker.level cfg t l := by
  unfold JobResourceTracker.level
  simp only
  rw [show ({} : JobResourceTracker.LevelAcc) = acc δ {} from rfl, levels_shift]
  rw [show acc δ ({} : JobResourceTracker.LevelAcc) = {} from rfl]
  have h0 := lastRefresh_ok (δ := δ) cfg t l
  cases hr : (l.foldl (JobResourceTracker.levelStep cfg t) {}).lastRefresh with
  | none => simp only [acc, hr, Option.map_none]
  | some last =>
    simp only [acc, hr, Option.map_some]
    have key : (last + δ ≠ 0 ∧ ((last + δ : ℚ) : WithTop ℚ) + cfg.expiryFromLastGain <
        ((t + δ : ℚ) : WithTop ℚ)) ↔
        (last ≠ 0 ∧ (last : WithTop ℚ) + cfg.expiryFromLastGain < (t : WithTop ℚ)) := by
      rw [coe_shift, top_lt]
      rcases h with h | h
      · rw [h]
        simp
      · have := h0 h {} (by intro r hr; cases hr) last hr
        exact ⟨fun x => ⟨this.1, x.2⟩, fun x => ⟨this.2, x.2⟩⟩
    simp only [key]

theorem sort_entries (l : List ResourceEntry) :
    sortBy (fun x : ResourceEntry => x.start) (l.map (entry δ)) =
      (sortBy (fun x : ResourceEntry => x.start) l).map (entry δ) := by
  rw [sortBy_map]
  congr 1
  refine sortBy_congr _ _ fun a _ b _ => ?_
  show a.start + δ ≤ b.start + δ ↔ _
  exact add_le_add_iff_right δ

theorem compile_shift {C : Dict String JobResourceSettings} {a b : JobResourceTracker}
    (h : ResRel δ C a b) (t : ℚ) (name : String) :
    Rel (fun x y : String × JobResourceTracker => x.1 = y.1 ∧ ResRel δ C x.2 y.2)
      (a.compile t name) (b.compile (t + δ) name) := by
  unfold JobResourceTracker.compile JobResourceTracker.compileReports
  have hk : Dict.keys b.resources = Dict.keys a.resources := by
    rw [h.1]
    exact keys_vals _ _
  rw [hk]
  have hf : ∀ (x y : List (String × ℤ × String) × JobResourceTracker) (n : String),
      (x.1 = y.1 ∧ ResRel δ C x.2 y.2) →
      Rel (fun x y : List (String × ℤ × String) × JobResourceTracker => x.1 = y.1 ∧ ResRel δ C x.2 y.2)
        (JobResourceTracker.compileStep t name x n) (JobResourceTracker.compileStep (t + δ) name y n) := by
    rintro ⟨rs, tr⟩ ⟨_, tr'⟩ n ⟨h1, h2, h3, h4⟩
    obtain rfl : rs = _ := h1
    simp only at h2 h3 h4
    subst h2
    unfold JobResourceTracker.compileStep
    simp only
    show Rel _ (Dict.get tr.configs n >>= _) (Dict.get tr.configs n >>= _)
    cases hc : Dict.get tr.configs n with
    | error e => rfl
    | ok cfg =>
      simp only [Py.ok_bind]
      split
      · exact ⟨rfl, rfl, h3, h4⟩
      · show Rel _ (Dict.get tr.resources n >>= _) (Dict.get (vals _ tr.resources) n >>= _)
        rw [get_vals]
        cases hg : Dict.get tr.resources n with
        | error e => rfl
        | ok l =>
          simp only [Except.map, Py.ok_bind, sort_entries]
          have hl : cfg.expiryFromLastGain = ⊤ ∨
              ∀ e ∈ sortBy (fun x : ResourceEntry => x.start) l, TimeOk δ e.start := by
            rcases h3 with h3 | h3
            · exact .inl (h3 _ (Dict.mem_of_get? (Dict.get_ok.1 hc)))
            · exact .inr fun e he => h3 _ (Dict.mem_of_get? (Dict.get_ok.1 hg)) e
                ((mem_sortBy _).1 he)
          rw [level_shift cfg t _ hl]
          have hn : ResRel δ C
              (JobResourceTracker.mk
                (Dict.set tr.resources n (sortBy (fun x : ResourceEntry => x.start) l)) tr.configs)
              (JobResourceTracker.mk (Dict.set (res δ tr).resources n
                (List.map (entry δ) (sortBy (fun x : ResourceEntry => x.start) l))) tr.configs) := by
            refine ⟨?_, ?_, h4⟩
            · unfold res
              simp only [set_vals]
            · rcases h3 with h3 | h3
              · exact .inl h3
              · refine .inr fun kv hkv e he => ?_
                rcases mem_set hkv with hkv | rfl
                · exact h3 _ hkv _ he
                · exact h3 _ (Dict.mem_of_get? (Dict.get_ok.1 hg)) e ((mem_sortBy _).1 he)
          split
          · exact ⟨rfl, hn⟩
          · exact ⟨rfl, hn⟩
  refine (Rel.foldlM hf _ (s := ([], a)) (t := ([], b)) ⟨rfl, h⟩).bind ?_
  rintro ⟨x, xr⟩ ⟨y, yr⟩ ⟨h1, h2⟩
  obtain rfl : x = y := h1
  exact ⟨rfl, h2⟩

/-! ## Combos -/

def comboEntry (δ : ℚ) : Option (ℚ × String) → Option (ℚ × String) := Option.map fun p => (p.1 + δ, p.2)

def combo (δ : ℚ) (tr : ComboTracker) : ComboTracker :=
  { tr with lastComboSkillUsed := vals (comboEntry δ) tr.lastComboSkillUsed }

theorem comboSucceeded_shift (tr : ComboTracker) (t : ℚ) (spec : ComboSpec) (m : SkillModifier) :
    (combo δ tr).comboSucceeded (t + δ) spec m = tr.comboSucceeded t spec m := by
  unfold ComboTracker.comboSucceeded
  split
  · rfl
  split
  · rfl
  split
  · rfl
  show (Dict.get (vals _ tr.lastComboSkillUsed) spec.comboGroup >>= _) = _
  rw [get_vals]
  cases Dict.get tr.lastComboSkillUsed spec.comboGroup with
  | error e => rfl
  | ok v =>
    cases v with
    | none => rfl
    | some p =>
      show Except.ok _ = Except.ok _
      simp only [add_right_comm p.1 δ, add_le_add_iff_right]

theorem updateCombo_shift (tr : ComboTracker) (t : ℚ) (spec : ComboSpec) (ok : Bool) (name : String) :
    (combo δ tr).updateCombo (t + δ) spec ok name = combo δ (tr.updateCombo t spec ok name) := by
  unfold ComboTracker.updateCombo
  simp only
  have h1 : Dict.set (combo δ tr).lastComboSkillUsed spec.comboGroup
      (if ok then some (t + δ, name) else none) =
      vals (comboEntry δ) (Dict.set tr.lastComboSkillUsed spec.comboGroup
        (if ok then some (t, name) else none)) := by
    rw [← set_vals]
    congr 1
    split <;> rfl
  rw [h1]
  unfold combo
  simp only
  congr 1
  generalize Dict.set tr.lastComboSkillUsed spec.comboGroup (if ok then some (t, name) else none) = d
  generalize tr.comboBreakers = l
  induction l generalizing d with
  | nil => rfl
  | cons kv l ih =>
    simp only [List.foldl_cons]
    rw [← ih]
    congr 1
    split
    · exact set_vals (comboEntry δ) d kv.1 none
    · rfl

theorem combo_shift (tr : ComboTracker) (t : ℚ) (skill : SkillCore) (m : SkillModifier) :
    Rel (Img fun r : String × ComboTracker => (r.1, combo δ r.2))
      (tr.compileAndUpdate t skill m) ((combo δ tr).compileAndUpdate (t + δ) skill m) := by
  unfold ComboTracker.compileAndUpdate
  refine (Rel.refl (R := Eq) (fun _ => rfl) _).bind ?_
  rintro l _ rfl
  have hf : ∀ (x y : Bool × ComboTracker) (spec : ComboSpec), y = (x.1, combo δ x.2) →
      Rel (fun x y : Bool × ComboTracker => y = (x.1, combo δ x.2))
        (ComboTracker.compileStep t skill.name m x spec)
        (ComboTracker.compileStep (t + δ) skill.name m y spec) := by
    rintro ⟨ok, tr⟩ _ spec rfl
    unfold ComboTracker.compileStep
    simp only
    split
    · rfl
    · have h1 : (if Dict.mem (combo δ tr).lastComboSkillUsed spec.comboGroup then combo δ tr
          else ComboTracker.mk (Dict.set (combo δ tr).lastComboSkillUsed spec.comboGroup none)
            (combo δ tr).comboBreakers) =
          combo δ (if Dict.mem tr.lastComboSkillUsed spec.comboGroup then tr
            else ComboTracker.mk (Dict.set tr.lastComboSkillUsed spec.comboGroup none)
              tr.comboBreakers) := by
        have hm : Dict.mem (combo δ tr).lastComboSkillUsed spec.comboGroup =
            Dict.mem tr.lastComboSkillUsed spec.comboGroup := by
          unfold Dict.mem combo
          simp only [get?_vals, Option.isSome_map]
        rw [hm]
        split
        · rfl
        · unfold combo
          simp only
          congr 1
          exact set_vals (comboEntry δ) _ _ none
      rw [h1, comboSucceeded_shift]
      refine (Rel.refl (R := Eq) (fun _ => rfl) _).bind ?_
      rintro cur _ rfl
      show (_, _) = (_, _)
      rw [updateCombo_shift]
  refine (Rel.foldlM hf _ (s := (true, tr)) (t := (true, combo δ tr)) rfl).bind ?_
  rintro ⟨ok, tr'⟩ _ rfl
  rfl

/-! ## The damage builder -/

/-- The second builder is the first one, moved. -/
structure DbRel (δ : ℚ) (C : Dict String JobResourceSettings) (a b : DamageBuilder) : Prop where
  se : b.se = Shift.se δ a.se
  res : ResRel δ C a.res b.res
  combo : b.combo = Shift.combo δ a.combo

variable {C : Dict String JobResourceSettings} {a b : DamageBuilder}

/-- Values next to moved builders. -/
def With (δ : ℚ) (C : Dict String JobResourceSettings) {α : Type} (x y : α × DamageBuilder) : Prop :=
  x.1 = y.1 ∧ DbRel δ C x.2 y.2

def With2 (δ : ℚ) (C : Dict String JobResourceSettings) {α β : Type}
    (x y : α × β × DamageBuilder) : Prop :=
  x.1 = y.1 ∧ x.2.1 = y.2.1 ∧ DbRel δ C x.2.2 y.2.2

theorem gaugesIf_shift (h : DbRel δ C a b) (c : Bool) (t : ℚ) (skill : Skill) (m : SkillModifier) :
    Rel (With δ C) (gaugesIf c a t skill m) (gaugesIf c b (t + δ) skill m) := by
  unfold DamageBuilder.gaugesIf
  split
  · unfold addGauges
    refine (compile_shift h.res t skill.name).bind ?_
    rintro ⟨x, xr⟩ ⟨_, yr⟩ ⟨h1, h2⟩
    obtain rfl : x = _ := h1
    exact ⟨rfl, h.se, h2, h.combo⟩
  · exact ⟨rfl, h⟩

theorem changeIf_shift (h : DbRel δ C a b) {c : Bool} {t : ℚ}
    (ht : c = true → (∀ kv ∈ C, kv.2.expiryFromLastGain = ⊤) ∨ TimeOk δ t) (skill : Skill)
    (m : SkillModifier) :
    Rel (DbRel δ C) (changeIf c a t skill m) (changeIf c b (t + δ) skill m) := by
  unfold DamageBuilder.changeIf
  split
  · rename_i hc
    unfold changeGauges
    refine (addResource_shift (ht hc) h.res skill.toSkillCore m).bind ?_
    intro x y h1
    exact ⟨h.se, h1, h.combo⟩
  · exact h

theorem comboIf_shift (h : DbRel δ C a b) (c : Bool) (t : ℚ) (skill : Skill) (m : SkillModifier) :
    Rel (With δ C) (comboIf c a t skill m) (comboIf c b (t + δ) skill m) := by
  unfold DamageBuilder.comboIf
  split
  · unfold addCombo
    rw [h.combo]
    refine (combo_shift a.combo t skill.toSkillCore m).bind ?_
    rintro ⟨x, xr⟩ _ rfl
    refine (Rel.refl (R := Eq) (fun _ => rfl) _).bind ?_
    rintro m _ rfl
    exact ⟨rfl, h.se, h.res, rfl⟩
  · exact ⟨rfl, h⟩

theorem takeBuffs_shift (h : DbRel δ C a b) (t : ℚ) (skill : Skill) (m : SkillModifier) :
    Rel (With2 δ C) (a.takeBuffs t skill m) (b.takeBuffs (t + δ) skill m) := by
  unfold DamageBuilder.takeBuffs
  rw [h.se]
  refine (se_compileBuffs a.se t skill.toSkillCore).bind ?_
  rintro x _ rfl
  exact ⟨rfl, rfl, rfl, h.res, h.combo⟩

theorem takeDebuffs_shift (h : DbRel δ C a b) (t : ℚ) (skill : Skill) (m : SkillModifier)
    (target : String) :
    Rel (With2 δ C) (a.takeDebuffs t skill m target) (b.takeDebuffs (t + δ) skill m target) := by
  unfold DamageBuilder.takeDebuffs
  rw [h.se]
  refine (se_compileDebuffs a.se t skill.toSkillCore target).bind ?_
  rintro x _ rfl
  exact ⟨rfl, rfl, rfl, h.res, h.combo⟩

theorem finalBuffs_shift (h : DbRel δ C a b) (st : SnapStatus) (t : ℚ) (skill : Skill)
    (m : SkillModifier) :
    Rel (With2 δ C) (finalBuffs st a t skill m) (finalBuffs st b (t + δ) skill m) := by
  cases st with
  | done x => exact ⟨rfl, rfl, h⟩
  | flag c => exact takeBuffs_shift h t skill m

theorem finalDebuffs_shift (h : DbRel δ C a b) (st : SnapStatus) (t : ℚ) (skill : Skill)
    (m : SkillModifier) (target : String) :
    Rel (With2 δ C) (finalDebuffs st a t skill m target) (finalDebuffs st b (t + δ) skill m target) := by
  cases st with
  | done x => exact ⟨rfl, rfl, h⟩
  | flag c => exact takeDebuffs_shift h t skill m target

theorem snapBuffs_shift (h : DbRel δ C a b) (st : SnapStatus) (t : ℚ) (skill : Skill)
    (m : SkillModifier) :
    Rel (With2 δ C) (snapBuffs st a t skill m) (snapBuffs st b (t + δ) skill m) := by
  match st with
  | .done x => exact ⟨rfl, rfl, h⟩
  | .flag false => exact ⟨rfl, rfl, h⟩
  | .flag true =>
    refine (takeBuffs_shift h t skill m).bind ?_
    rintro ⟨x, m, d⟩ ⟨y, m', d'⟩ ⟨h1, h2, h3⟩
    exact ⟨congrArg SnapStatus.done h1, h2, h3⟩

theorem snapDebuffs_shift (h : DbRel δ C a b) (st : SnapStatus) (t : ℚ) (skill : Skill)
    (m : SkillModifier) (target : String) :
    Rel (With2 δ C) (snapDebuffs st a t skill m target) (snapDebuffs st b (t + δ) skill m target) := by
  match st with
  | .done x => exact ⟨rfl, rfl, h⟩
  | .flag false => exact ⟨rfl, rfl, h⟩
  | .flag true =>
    refine (takeDebuffs_shift h t skill m target).bind ?_
    rintro ⟨x, m, d⟩ ⟨y, m', d'⟩ ⟨h1, h2, h3⟩
    exact ⟨congrArg SnapStatus.done h1, h2, h3⟩

/-! ## Events and instances -/

theorem event_lt (x y : Event) : Event.pyLt (laterEvent δ x) (laterEvent δ y) = Event.pyLt x y := by
  unfold Event.pyLt laterEvent
  simp only [add_lt_add_iff_right, add_left_inj]

theorem instance_lt (x y : DamageInstance) :
    DamageInstance.pyLt (laterInstance δ x) (laterInstance δ y) = DamageInstance.pyLt x y := by
  unfold DamageInstance.pyLt laterInstance
  simp only [ne_eq, add_left_inj, add_lt_add_iff_right]

theorem getNext_shift (events : Events) :
    Rel (Img fun r : Event × Events => (laterEvent δ r.1, laterTimeline δ r.2))
      events.getNext (laterTimeline δ events).getNext := by
  unfold Events.getNext
  show Rel _ _ (Heapq.heappop Event.pyLt (events.q.map (laterEvent δ)) >>= _)
  rw [heappop_map event_lt]
  cases Heapq.heappop Event.pyLt events.q with
  | error e => rfl
  | ok r => rfl

def laterNew (δ : ℚ) (e : NewEvent) : NewEvent :=
  { e with
    priority := e.priority + Utils.transformTimeToPrio δ
    primary := e.primary + δ
    secondary := e.secondary.map (· + δ) }

theorem mkEvent_shift (n : NewEvent) (i : ℕ) :
    Events.mkEvent (laterNew δ n) i = laterEvent δ (Events.mkEvent n i) := by
  have h : (some (n.primary + δ) = n.secondary.map (· + δ)) ↔ some n.primary = n.secondary := by
    cases n.secondary with
    | none => simp
    | some s => simp
  unfold Events.mkEvent laterNew laterEvent
  simp only [h]
  congr 1
  split <;> rfl

theorem add_shift (events : Events) (n : NewEvent) :
    Rel (Img (laterTimeline δ)) (events.add n) ((laterTimeline δ events).add (laterNew δ n)) := by
  unfold Events.add
  simp only
  show Rel _ _ (Heapq.heappush Event.pyLt (events.q.map (laterEvent δ))
    (Events.mkEvent (laterNew δ n) (n.eventId.getD events.eventId)) >>= _)
  rw [mkEvent_shift, heappush_map event_lt]
  cases Heapq.heappush Event.pyLt events.q (Events.mkEvent n (n.eventId.getD events.eventId)) with
  | error e => rfl
  | ok q => rfl

theorem push_shift (q : List DamageInstance) (i : DamageInstance) :
    Rel (Img (List.map (laterInstance δ))) (pushInstance q i)
      (pushInstance (q.map (laterInstance δ)) (laterInstance δ i)) := by
  unfold pushInstance
  show Rel _ _ (i.skill.getDamageSpec i.modifier >>= _)
  refine (Rel.refl (R := Eq) (fun _ => rfl) _).bind ?_
  rintro sp _ rfl
  cases sp with
  | none => rfl
  | some sp =>
    show Rel _ (Heapq.heappush _ _ _) (Heapq.heappush _ _ _)
    rw [heappush_map instance_lt]
    cases Heapq.heappush DamageInstance.pyLt q i with
    | error e => rfl
    | ok q => rfl

/-! ## The loop -/

/-- Moving the time moves its priority. -/
def PrioOk (δ t : ℚ) : Prop :=
  Utils.transformTimeToPrio (t + δ) = Utils.transformTimeToPrio t + Utils.transformTimeToPrio δ

/-- The event can be moved. -/
structure EvOk (δ : ℚ) (C : Dict String JobResourceSettings) (e : Event) : Prop where
  prio : ∀ s, e.secondary = some s → PrioOk δ e.primary ∧ PrioOk δ s
  time : e.jobResourcesAdded = false → (∀ kv ∈ C, kv.2.expiryFromLastGain = ⊤) ∨ TimeOk δ e.primary

/-- The second state is the first one, moved. -/
structure StRel (δ : ℚ) (C : Dict String JobResourceSettings) (s s' : DamageState) : Prop where
  db : DbRel δ C s.db s'.db
  events : s'.events = laterTimeline δ s.events
  q : s'.q = s.q.map (laterInstance δ)
  ok : s.events.Ok
  each : ∀ e ∈ s.events.q, EvOk δ C e

def AccRel (δ : ℚ) (C : Dict String JobResourceSettings) (x y : DamageState × SkillModifier) : Prop :=
  StRel δ C x.1 y.1 ∧ x.2 = y.2

theorem targetTime_shift (n i : ℕ) (t : ℚ) : targetTime n i (t + δ) = targetTime n i t + δ := by
  unfold targetTime
  split
  · ring
  · rfl

theorem applyTarget_shift (e : Event) (buffs : StatusEffects) (x y : DamageState × SkillModifier)
    (ti : String × ℕ) (h : AccRel δ C x y) :
    Rel (AccRel δ C) (applyTarget e buffs x ti) (applyTarget (laterEvent δ e) buffs y ti) := by
  obtain ⟨s, m⟩ := x
  obtain ⟨s', m'⟩ := y
  obtain ⟨h, rfl⟩ := (h : StRel δ C s s' ∧ m = m')
  unfold applyTarget
  simp only
  refine (finalDebuffs_shift h.db e.snapshotDebuffs e.primary e.skill _ ti.1).bind ?_
  rintro ⟨d, m1, db⟩ ⟨_, _, db'⟩ ⟨h1, h2, h3⟩
  obtain rfl : d = _ := h1
  obtain rfl : m1 = _ := h2
  simp only
  rw [h.q]
  have hp := push_shift (δ := δ) s.q
    { time := targetTime e.targets.length ti.2 e.primary, skill := e.skill, modifier := m1,
      buffs := buffs, debuffs := d, eventId := e.eventId, target := ti.1 }
  unfold laterInstance at hp
  simp only [← targetTime_shift] at hp
  refine Rel.bind hp ?_
  rintro q _ rfl
  exact ⟨⟨h3, h.events, rfl, h.ok, h.each⟩, rfl⟩

theorem snapshotTarget_shift (e : Event) (sec : ℚ) (p : ℤ) (buffs : SnapStatus) (j c : Bool)
    (x y : DamageState × SkillModifier) (ti : String × ℕ) (h : AccRel δ C x y) :
    Rel (AccRel δ C) (snapshotTarget e sec p buffs j c x ti)
      (snapshotTarget (laterEvent δ e) (sec + δ) (p + Utils.transformTimeToPrio δ) buffs j c y ti) := by
  obtain ⟨s, m⟩ := x
  obtain ⟨s', m'⟩ := y
  obtain ⟨h, rfl⟩ := (h : StRel δ C s s' ∧ m = m')
  unfold snapshotTarget
  simp only
  refine (snapDebuffs_shift h.db e.snapshotDebuffs e.primary e.skill _ ti.1).bind ?_
  rintro ⟨d, m1, db⟩ ⟨_, _, db'⟩ ⟨h1, h2, h3⟩
  obtain rfl : d = _ := h1
  obtain rfl : m1 = _ := h2
  simp only
  rw [h.events]
  set n : NewEvent :=
    { priority := p, primary := targetTime e.targets.length ti.2 sec, secondary := none,
      skill := e.skill, modifier := m1, snapshotBuffs := buffs, snapshotDebuffs := d,
      eventId := some e.eventId, jobResourcesAdded := true, jobConditionalProcessed := j,
      comboConditionalProcessed := c, targets := [ti.1] } with hn
  have hp := add_shift (δ := δ) s.events n
  obtain ⟨evs, e1, e2, e3, -⟩ := Events.add_spec s.events h.ok n
  rw [e1] at hp ⊢
  have hy : ((laterTimeline δ s.events).add (laterNew δ n)) = .ok (laterTimeline δ evs) := by
    match hz : (laterTimeline δ s.events).add (laterNew δ n) with
    | .ok z => rw [hz] at hp; rw [show z = laterTimeline δ evs from hp]
    | .error z => rw [hz] at hp; exact hp.elim
  have hl : laterNew δ n = { priority := p + Utils.transformTimeToPrio δ, primary := targetTime e.targets.length ti.2 (sec + δ), secondary := none, skill := e.skill, modifier := m1, snapshotBuffs := buffs, snapshotDebuffs := d, eventId := some e.eventId, jobResourcesAdded := true, jobConditionalProcessed := j, comboConditionalProcessed := c, targets := [ti.1] } := by
    rw [hn, targetTime_shift]
    rfl
  rw [hl] at hy
  show Rel _ _ (Events.add (laterTimeline δ s.events) _ >>= _)
  erw [hy]
  refine ⟨⟨h3, rfl, h.q, e2, fun e' he' => ?_⟩, rfl⟩
  rcases List.mem_cons.1 (e3.mem_iff.1 he') with h5 | h5
  · rw [h5]
    refine ⟨?_, ?_⟩
    · intro s hs
      simp [Events.mkEvent, hn] at hs
    · intro hj
      simp [Events.mkEvent, hn] at hj
  · exact h.each e' h5

theorem applyEvent_shift {s s' : DamageState} (h : StRel δ C s s') {e : Event} (he : EvOk δ C e) :
    Rel (StRel δ C) (applyEvent s e) (applyEvent s' (laterEvent δ e)) := by
  unfold applyEvent
  simp only
  refine (gaugesIf_shift h.db _ e.primary e.skill e.modifier).bind ?_
  rintro ⟨m, d⟩ ⟨_, d'⟩ ⟨h1, h2⟩
  obtain rfl : m = _ := h1
  refine (changeIf_shift h2 (c := !e.jobResourcesAdded) (t := e.primary)
    (fun hc => he.time (by simpa using hc)) e.skill m).bind ?_
  intro d d' h3
  refine (comboIf_shift h3 _ e.primary e.skill m).bind ?_
  rintro ⟨m, d⟩ ⟨_, d'⟩ ⟨h1, h2⟩
  obtain rfl : m = _ := h1
  refine (finalBuffs_shift h2 e.snapshotBuffs e.primary e.skill m).bind ?_
  rintro ⟨b, m, d⟩ ⟨_, _, d'⟩ ⟨h1, h2, h3⟩
  obtain rfl : b = _ := h1
  obtain rfl : m = _ := h2
  refine (Rel.foldlM (applyTarget_shift e b) e.targets.zipIdx (s := ({ s with db := d }, m))
    (t := ({ s' with db := d' }, m)) ⟨⟨h3, h.events, h.q, h.ok, h.each⟩, rfl⟩).bind ?_
  rintro ⟨s1, m⟩ ⟨s2, _⟩ ⟨h1, h2⟩
  obtain rfl : m = _ := h2
  have hse := se_add (δ := δ) s1.db.se e.primary e.skill.toSkillCore m e.targets
  rw [← h1.db.se] at hse
  refine Rel.bind hse ?_
  intro se se' h4
  exact ⟨⟨h4, h1.db.res, h1.db.combo⟩, h1.events, h1.q, h1.ok, h1.each⟩

theorem snapshotEvent_shift {s s' : DamageState} (h : StRel δ C s s') {e : Event} (he : EvOk δ C e)
    {sec : ℚ} (hs : e.secondary = some sec) :
    Rel (StRel δ C) (snapshotEvent s e sec) (snapshotEvent s' (laterEvent δ e) (sec + δ)) := by
  unfold snapshotEvent
  simp only
  refine (snapBuffs_shift h.db e.snapshotBuffs e.primary e.skill e.modifier).bind ?_
  rintro ⟨b, m, d⟩ ⟨_, _, d'⟩ ⟨h1, h2, h3⟩
  obtain rfl : b = _ := h1
  obtain rfl : m = _ := h2
  refine (gaugesIf_shift h3 _ e.primary e.skill m).bind ?_
  rintro ⟨m, d⟩ ⟨_, d'⟩ ⟨h1, h2⟩
  obtain rfl : m = _ := h1
  refine (comboIf_shift h2 _ e.primary e.skill m).bind ?_
  rintro ⟨m, d⟩ ⟨_, d'⟩ ⟨h1, h2⟩
  obtain rfl : m = _ := h1
  refine (changeIf_shift h2 (c := !e.jobResourcesAdded) (t := e.primary)
    (fun hc => he.time (by simpa using hc)) e.skill m).bind ?_
  intro d d' h3
  obtain ⟨p1, p2⟩ := he.prio sec hs
  have hp : Utils.transformTimeToPrio (sec + δ) +
      (Utils.transformTimeToPrio (laterEvent δ e).primary - (laterEvent δ e).priority) =
      Utils.transformTimeToPrio sec + (Utils.transformTimeToPrio e.primary - e.priority) +
        Utils.transformTimeToPrio δ := by
    unfold PrioOk at p1 p2
    rw [p2, show (laterEvent δ e).primary = e.primary + δ from rfl, p1,
      show (laterEvent δ e).priority = e.priority + Utils.transformTimeToPrio δ from rfl]
    ring
  rw [hp]
  refine (Rel.foldlM (snapshotTarget_shift e sec _ b _ _) e.targets.zipIdx
    (s := ({ s with db := d }, m)) (t := ({ s' with db := d' }, m))
    ⟨⟨h3, h.events, h.q, h.ok, h.each⟩, rfl⟩).bind ?_
  rintro ⟨s1, m⟩ ⟨s2, _⟩ ⟨h1, h2⟩
  exact h1

theorem processEvent_shift {s s' : DamageState} (h : StRel δ C s s') {e : Event} (he : EvOk δ C e) :
    Rel (StRel δ C) (processEvent s e) (processEvent s' (laterEvent δ e)) := by
  unfold processEvent
  have h1 : StRel δ C { s with db := { s.db with se := s.db.se.expire e.primary } }
      { s' with db := { s'.db with se := s'.db.se.expire (laterEvent δ e).primary } } := by
    refine ⟨⟨?_, h.db.res, h.db.combo⟩, h.events, h.q, h.ok, h.each⟩
    show s'.db.se.expire (e.primary + δ) = _
    rw [h.db.se, se_expire]
  simp only
  cases hs : e.secondary with
  | none =>
    rw [show (laterEvent δ e).secondary = none by simp [laterEvent, hs]]
    exact applyEvent_shift h1 he
  | some sec =>
    rw [show (laterEvent δ e).secondary = some (sec + δ) by simp [laterEvent, hs]]
    exact snapshotEvent_shift h1 he hs

theorem loop_shift (n : ℕ) {s s' : DamageState} (h : StRel δ C s s') :
    Rel (StRel δ C) (loop n s) (loop n s') := by
  have hempty : s'.events.isEmpty = s.events.isEmpty := by
    rw [h.events]
    unfold Events.isEmpty laterTimeline
    simp only [List.length_map]
  induction n generalizing s s' with
  | zero =>
    unfold loop
    rw [hempty]
    split
    · exact h
    · rfl
  | succ n ih =>
    unfold loop
    rw [hempty]
    split
    · exact h
    · rw [h.events]
      cases hn : s.events.getNext with
      | error e =>
        have := getNext_shift (δ := δ) s.events
        rw [hn] at this
        match hz : (laterTimeline δ s.events).getNext with
        | .ok z => rw [hz] at this; exact this.elim
        | .error z => rw [hz] at this; exact this
      | ok r =>
        obtain ⟨e, evs⟩ := r
        have := getNext_shift (δ := δ) s.events
        rw [hn] at this
        match hz : (laterTimeline δ s.events).getNext with
        | .error z => rw [hz] at this; exact this.elim
        | .ok z =>
          rw [hz] at this
          obtain rfl : z = (laterEvent δ e, laterTimeline δ evs) := this
          simp only [Py.ok_bind]
          obtain ⟨o1, o2, -, -⟩ := Events.getNext_spec h.ok hn
          refine (processEvent_shift (s := { s with events := evs })
            (s' := { s' with events := laterTimeline δ evs })
            ⟨h.db, rfl, h.q, o1, fun e' h' => h.each e' (o2.mem_iff.2 (List.mem_cons_of_mem _ h'))⟩
            (h.each e (o2.mem_iff.2 List.mem_cons_self))).bind ?_
          intro s1 s2 h1
          refine ih h1 ?_
          rw [h1.events]
          unfold Events.isEmpty laterTimeline
          simp only [List.length_map]

theorem getDamageInstances_shift (h : DbRel δ C a b) {events : Events} (ho : events.Ok)
    (he : ∀ e ∈ events.q, EvOk δ C e) :
    Rel (fun x y : List DamageInstance × DamageBuilder => y.1 = x.1.map (laterInstance δ))
      (a.getDamageInstances events) (b.getDamageInstances (laterTimeline δ events)) := by
  unfold getDamageInstances
  have hw : ((laterTimeline δ events).q.map work).sum = (events.q.map work).sum := by
    unfold laterTimeline
    simp only [List.map_map]
    congr 1
    refine List.map_congr_left fun e _ => ?_
    simp only [Function.comp, work, laterEvent, Option.isSome_map]
  rw [hw]
  refine (loop_shift _ (s := { db := a, events := events })
    (s' := { db := b, events := laterTimeline δ events }) ⟨h, rfl, rfl, ho, he⟩).bind ?_
  intro s s' h1
  show sortBy _ s'.q = (sortBy _ s.q).map _
  rw [h1.q, sortBy_map]
  congr 1
  refine sortBy_congr _ _ fun x _ y _ => ?_
  show x.time + δ ≤ y.time + δ ↔ _
  exact add_le_add_iff_right δ

end Shift

end Ama
