import Verif.Lemmas.DamageRuns
import Verif.Spec.Reuse

/-!
# Using a damage builder again

Two builders that differ only in empty dictionaries of debuffs do the same on every timeline.
-/

namespace Ama

open Spec DamageBuilder

namespace Reuse

/-- Both computations raise the same exception, or both return related values. -/
def Rel {α β : Type} (R : α → β → Prop) : Py α → Py β → Prop
  | .ok a, .ok b => R a b
  | .error e, .error e' => e = e'
  | _, _ => False

theorem Rel.bind {α β γ δ : Type} {R : α → β → Prop} {S : γ → δ → Prop} {x : Py α} {y : Py β}
    {f : α → Py γ} {g : β → Py δ} (h : Rel R x y) (hf : ∀ a b, R a b → Rel S (f a) (g b)) :
    Rel S (x >>= f) (y >>= g) := by
  match x, y, h with
  | .ok a, .ok b, h => exact hf a b h
  | .error e, .error e', h => exact h

theorem Rel.refl {α : Type} {R : α → α → Prop} (h : ∀ a, R a a) (x : Py α) : Rel R x x := by
  cases x with
  | ok a => exact h a
  | error e => rfl

theorem Rel.eq {α : Type} {x y : Py α} (h : Rel Eq x y) : x = y := by
  match x, y, h with
  | .ok a, .ok b, h => exact congrArg _ h
  | .error e, .error e', h => exact congrArg _ h

theorem Rel.foldlM {α σ τ : Type} {R : σ → τ → Prop} {f : σ → α → Py σ} {g : τ → α → Py τ}
    (hf : ∀ s t a, R s t → Rel R (f s a) (g t a)) (l : List α) {s : σ} {t : τ} (h : R s t) :
    Rel R (l.foldlM f s) (l.foldlM g t) := by
  induction l generalizing s t with
  | nil => exact h
  | cons a l ih =>
    rw [Py.foldlM_cons, Py.foldlM_cons]
    exact (hf s t a h).bind fun s' t' h' => ih h'

/-- The trackers of effects differ at most in empty dictionaries of debuffs. -/
structure SameSe (a b : StatusEffectTracker) : Prop where
  buffs : a.buffs = b.buffs
  priority : a.priority = b.priority
  debuffs : ∀ t, a.lookupDebuffs t = b.lookupDebuffs t

theorem SameSe.refl (a : StatusEffectTracker) : SameSe a a := ⟨rfl, rfl, fun _ => rfl⟩

theorem SameSe.trans {a b c : StatusEffectTracker} (h : SameSe a b) (h' : SameSe b c) : SameSe a c :=
  ⟨h.buffs.trans h'.buffs, h.priority.trans h'.priority, fun t => (h.debuffs t).trans (h'.debuffs t)⟩

theorem lookup_set (a : StatusEffectTracker) (t t' : String) (e : Effects) :
    (a.setDebuffs t e).lookupDebuffs t' = if t = t' then e else a.lookupDebuffs t' := by
  unfold StatusEffectTracker.setDebuffs StatusEffectTracker.lookupDebuffs
  simp only [Dict.get?_set]
  by_cases h : t = t' <;> simp [h]

theorem get?_mapVal {κ ν μ : Type} [DecidableEq κ] (d : Dict κ ν) (f : ν → μ) (k : κ) :
    Dict.get? (d.map (fun kv => (kv.1, f kv.2))) k = (Dict.get? d k).map f := by
  induction d with
  | nil => rfl
  | cons kv d ih =>
    rw [List.map_cons, Dict.get?_cons, Dict.get?_cons, ih]
    split <;> rfl

theorem lookup_expire (a : StatusEffectTracker) (t : ℚ) (target : String) :
    (a.expire t).lookupDebuffs target =
      StatusEffectTracker.expireEffects t (a.lookupDebuffs target) := by
  unfold StatusEffectTracker.expire StatusEffectTracker.lookupDebuffs
  simp only [get?_mapVal]
  cases Dict.get? a.debuffs target <;> rfl

theorem SameSe.set {a b : StatusEffectTracker} (h : SameSe a b) (t : String) (e : Effects) :
    SameSe (a.setDebuffs t e) (b.setDebuffs t e) := by
  refine ⟨h.buffs, h.priority, fun t' => ?_⟩
  rw [lookup_set, lookup_set, h.debuffs]

theorem SameSe.withBuffs {a b : StatusEffectTracker} (h : SameSe a b) (e : Effects) :
    SameSe { a with buffs := e } { b with buffs := e } := ⟨rfl, h.priority, h.debuffs⟩

theorem SameSe.expire {a b : StatusEffectTracker} (h : SameSe a b) (t : ℚ) :
    SameSe (a.expire t) (b.expire t) := by
  refine ⟨?_, h.priority, fun t' => ?_⟩
  · unfold StatusEffectTracker.expire
    rw [h.buffs]
  · rw [lookup_expire, lookup_expire, h.debuffs]

theorem SameSe.expireNamed {a b : StatusEffectTracker} (h : SameSe a b) (name : String) (t : ℚ)
    (target : String) : SameSe (a.expireNamed name t target) (b.expireNamed name t target) := by
  unfold StatusEffectTracker.expireNamed
  simp only
  have h1 : SameSe { a with buffs := StatusEffectTracker.endEffect a.buffs name t }
      { b with buffs := StatusEffectTracker.endEffect b.buffs name t } := by
    rw [h.buffs]; exact h.withBuffs _
  rw [h1.debuffs]
  exact h1.set _ _

theorem SameSe.expireNameds {a b : StatusEffectTracker} (h : SameSe a b) (l : List String) (t : ℚ)
    (target : String) :
    SameSe (l.foldl (fun tr name => tr.expireNamed name t target) a)
      (l.foldl (fun tr name => tr.expireNamed name t target) b) := by
  induction l generalizing a b with
  | nil => exact h
  | cons n l ih => exact ih (h.expireNamed n t target)

theorem SameSe.addBuff {a b : StatusEffectTracker} (h : SameSe a b) (t : ℚ) (name : String)
    (spec : StatusEffectSpec) : SameSe (a.addBuff t name spec) (b.addBuff t name spec) := by
  unfold StatusEffectTracker.addBuff
  simp only
  refine SameSe.expireNameds ?_ _ _ _
  split
  · exact h.withBuffs _
  · rw [h.buffs]
    exact h.withBuffs _

theorem SameSe.addDebuff {a b : StatusEffectTracker} (h : SameSe a b) (t : ℚ) (name : String)
    (spec : StatusEffectSpec) (target : String) :
    SameSe (a.addDebuff t name spec target) (b.addDebuff t name spec target) := by
  unfold StatusEffectTracker.addDebuff
  simp only
  refine SameSe.expireNameds ?_ _ _ _
  rw [h.debuffs]
  exact h.set _ _

theorem SameSe.addDebuffs {a b : StatusEffectTracker} (h : SameSe a b) (t : ℚ) (name : String)
    (spec : StatusEffectSpec) (l : List String) :
    SameSe (l.foldl (fun tr target => tr.addDebuff t name spec target) a)
      (l.foldl (fun tr target => tr.addDebuff t name spec target) b) := by
  induction l generalizing a b with
  | nil => exact h
  | cons n l ih => exact ih (h.addDebuff t name spec n)

theorem SameSe.add {a b : StatusEffectTracker} (h : SameSe a b) (t : ℚ) (skill : SkillCore)
    (m : SkillModifier) (targets : List String) :
    Rel SameSe (a.add t skill m targets) (b.add t skill m targets) := by
  unfold StatusEffectTracker.add
  refine (Rel.refl (R := Eq) (fun _ => rfl) _).bind ?_
  rintro bs _ rfl
  refine (Rel.refl (R := Eq) (fun _ => rfl) _).bind ?_
  rintro ds _ rfl
  have h1 : SameSe (match bs with | none => a | some spec => a.addBuff t skill.name spec)
      (match bs with | none => b | some spec => b.addBuff t skill.name spec) := by
    cases bs with
    | none => exact h
    | some spec => exact h.addBuff _ _ _
  cases ds with
  | none => exact h1
  | some spec => exact h1.addDebuffs _ _ _ _

/-- The results of looking effects up agree, and so do the trackers. -/
def SameTaken {α : Type} (x y : α × StatusEffectTracker) : Prop := x.1 = y.1 ∧ SameSe x.2 y.2

theorem SameSe.compileBuffs {a b : StatusEffectTracker} (h : SameSe a b) (t : ℚ) (skill : SkillCore) :
    Rel SameTaken (a.compileBuffs t skill) (b.compileBuffs t skill) := by
  unfold StatusEffectTracker.compileBuffs
  rw [h.buffs, h.priority]
  refine (Rel.refl (R := Eq) (fun _ => rfl) _).bind ?_
  rintro x _ rfl
  exact ⟨rfl, rfl, rfl, h.debuffs⟩

theorem SameSe.compileDebuffs {a b : StatusEffectTracker} (h : SameSe a b) (t : ℚ)
    (skill : SkillCore) (target : String) :
    Rel SameTaken (a.compileDebuffs t skill target) (b.compileDebuffs t skill target) := by
  unfold StatusEffectTracker.compileDebuffs
  rw [h.debuffs, h.priority]
  refine (Rel.refl (R := Eq) (fun _ => rfl) _).bind ?_
  rintro x _ rfl
  exact ⟨rfl, h.set _ _⟩

/-- The builders differ at most in empty dictionaries of debuffs. -/
structure SameDb (a b : DamageBuilder) : Prop where
  se : SameSe a.se b.se
  res : a.res = b.res
  combo : a.combo = b.combo

theorem SameDb.refl (a : DamageBuilder) : SameDb a a := ⟨SameSe.refl _, rfl, rfl⟩

theorem SameDb.trans {a b c : DamageBuilder} (h : SameDb a b) (h' : SameDb b c) : SameDb a c :=
  ⟨h.se.trans h'.se, h.res.trans h'.res, h.combo.trans h'.combo⟩

/-- Values next to builders that agree. -/
def With {α : Type} (x y : α × DamageBuilder) : Prop := x.1 = y.1 ∧ SameDb x.2 y.2

def With2 {α β : Type} (x y : α × β × DamageBuilder) : Prop :=
  x.1 = y.1 ∧ x.2.1 = y.2.1 ∧ SameDb x.2.2 y.2.2

variable {a b : DamageBuilder}

theorem SameDb.gaugesIf (h : SameDb a b) (c : Bool) (t : ℚ) (skill : Skill) (m : SkillModifier) :
    Rel With (gaugesIf c a t skill m) (gaugesIf c b t skill m) := by
  unfold DamageBuilder.gaugesIf
  split
  · unfold addGauges
    rw [h.res]
    refine (Rel.refl (R := Eq) (fun _ => rfl) _).bind ?_
    rintro x _ rfl
    exact ⟨rfl, h.se, rfl, h.combo⟩
  · exact ⟨rfl, h⟩

theorem SameDb.changeIf (h : SameDb a b) (c : Bool) (t : ℚ) (skill : Skill) (m : SkillModifier) :
    Rel SameDb (changeIf c a t skill m) (changeIf c b t skill m) := by
  unfold DamageBuilder.changeIf
  split
  · unfold changeGauges
    rw [h.res]
    refine (Rel.refl (R := Eq) (fun _ => rfl) _).bind ?_
    rintro x _ rfl
    exact ⟨h.se, rfl, h.combo⟩
  · exact h

theorem SameDb.comboIf (h : SameDb a b) (c : Bool) (t : ℚ) (skill : Skill) (m : SkillModifier) :
    Rel With (comboIf c a t skill m) (comboIf c b t skill m) := by
  unfold DamageBuilder.comboIf
  split
  · unfold addCombo
    rw [h.combo]
    refine (Rel.refl (R := Eq) (fun _ => rfl) _).bind ?_
    rintro x _ rfl
    refine (Rel.refl (R := Eq) (fun _ => rfl) _).bind ?_
    rintro m _ rfl
    exact ⟨rfl, h.se, h.res, rfl⟩
  · exact ⟨rfl, h⟩

theorem SameDb.takeBuffs (h : SameDb a b) (t : ℚ) (skill : Skill) (m : SkillModifier) :
    Rel With2 (a.takeBuffs t skill m) (b.takeBuffs t skill m) := by
  unfold DamageBuilder.takeBuffs
  refine (h.se.compileBuffs t skill.toSkillCore).bind ?_
  rintro ⟨x, se⟩ ⟨y, se'⟩ ⟨h1, h2⟩
  obtain rfl : x = y := h1
  exact ⟨rfl, rfl, h2, h.res, h.combo⟩

theorem SameDb.takeDebuffs (h : SameDb a b) (t : ℚ) (skill : Skill) (m : SkillModifier)
    (target : String) :
    Rel With2 (a.takeDebuffs t skill m target) (b.takeDebuffs t skill m target) := by
  unfold DamageBuilder.takeDebuffs
  refine (h.se.compileDebuffs t skill.toSkillCore target).bind ?_
  rintro ⟨x, se⟩ ⟨y, se'⟩ ⟨h1, h2⟩
  obtain rfl : x = y := h1
  exact ⟨rfl, rfl, h2, h.res, h.combo⟩

theorem SameDb.finalBuffs (h : SameDb a b) (st : SnapStatus) (t : ℚ) (skill : Skill)
    (m : SkillModifier) : Rel With2 (finalBuffs st a t skill m) (finalBuffs st b t skill m) := by
  cases st with
  | done x => exact ⟨rfl, rfl, h⟩
  | flag c => exact h.takeBuffs t skill m

theorem SameDb.finalDebuffs (h : SameDb a b) (st : SnapStatus) (t : ℚ) (skill : Skill)
    (m : SkillModifier) (target : String) :
    Rel With2 (finalDebuffs st a t skill m target) (finalDebuffs st b t skill m target) := by
  cases st with
  | done x => exact ⟨rfl, rfl, h⟩
  | flag c => exact h.takeDebuffs t skill m target

theorem SameDb.snapBuffs (h : SameDb a b) (st : SnapStatus) (t : ℚ) (skill : Skill)
    (m : SkillModifier) : Rel With2 (snapBuffs st a t skill m) (snapBuffs st b t skill m) := by
  match st with
  | .done x => exact ⟨rfl, rfl, h⟩
  | .flag false => exact ⟨rfl, rfl, h⟩
  | .flag true =>
    refine (h.takeBuffs t skill m).bind ?_
    rintro ⟨x, m, d⟩ ⟨y, m', d'⟩ ⟨h1, h2, h3⟩
    exact ⟨congrArg SnapStatus.done h1, h2, h3⟩

theorem SameDb.snapDebuffs (h : SameDb a b) (st : SnapStatus) (t : ℚ) (skill : Skill)
    (m : SkillModifier) (target : String) :
    Rel With2 (snapDebuffs st a t skill m target) (snapDebuffs st b t skill m target) := by
  match st with
  | .done x => exact ⟨rfl, rfl, h⟩
  | .flag false => exact ⟨rfl, rfl, h⟩
  | .flag true =>
    refine (h.takeDebuffs t skill m target).bind ?_
    rintro ⟨x, m, d⟩ ⟨y, m', d'⟩ ⟨h1, h2, h3⟩
    exact ⟨congrArg SnapStatus.done h1, h2, h3⟩

/-- States of the loop that agree but for empty dictionaries of debuffs. -/
structure SameState (s s' : DamageState) : Prop where
  db : SameDb s.db s'.db
  events : s.events = s'.events
  q : s.q = s'.q

def SameAcc (x y : DamageState × SkillModifier) : Prop := SameState x.1 y.1 ∧ x.2 = y.2

theorem applyTarget_same (e : Event) (buffs : StatusEffects) (x y : DamageState × SkillModifier)
    (ti : String × ℕ) (h : SameAcc x y) : Rel SameAcc (applyTarget e buffs x ti) (applyTarget e buffs y ti) := by
  obtain ⟨s, m⟩ := x
  obtain ⟨s', m'⟩ := y
  obtain ⟨h, rfl⟩ := (h : SameState s s' ∧ m = m')
  unfold applyTarget
  simp only
  refine (h.db.finalDebuffs _ _ _ _ _).bind ?_
  rintro ⟨d, m1, db⟩ ⟨_, _, db'⟩ ⟨h1, h2, h3⟩
  obtain rfl : d = _ := h1
  obtain rfl : m1 = _ := h2
  simp only
  rw [h.q]
  refine (Rel.refl (R := Eq) (fun _ => rfl) _).bind ?_
  rintro q _ rfl
  exact ⟨⟨h3, h.events, rfl⟩, rfl⟩

theorem snapshotTarget_same (e : Event) (sec : ℚ) (p : ℤ) (buffs : SnapStatus) (j c : Bool)
    (x y : DamageState × SkillModifier) (ti : String × ℕ) (h : SameAcc x y) :
    Rel SameAcc (snapshotTarget e sec p buffs j c x ti) (snapshotTarget e sec p buffs j c y ti) := by
  obtain ⟨s, m⟩ := x
  obtain ⟨s', m'⟩ := y
  obtain ⟨h, rfl⟩ := (h : SameState s s' ∧ m = m')
  unfold snapshotTarget
  simp only
  refine (h.db.snapDebuffs _ _ _ _ _).bind ?_
  rintro ⟨d, m1, db⟩ ⟨_, _, db'⟩ ⟨h1, h2, h3⟩
  obtain rfl : d = _ := h1
  obtain rfl : m1 = _ := h2
  simp only
  rw [h.events]
  refine (Rel.refl (R := Eq) (fun _ => rfl) _).bind ?_
  rintro q _ rfl
  exact ⟨⟨h3, rfl, h.q⟩, rfl⟩

theorem applyEvent_same {s s' : DamageState} (h : SameState s s') (e : Event) :
    Rel SameState (applyEvent s e) (applyEvent s' e) := by
  unfold applyEvent
  simp only
  refine (h.db.gaugesIf _ _ _ _).bind ?_
  rintro ⟨m, d⟩ ⟨_, d'⟩ ⟨h1, h2⟩
  obtain rfl : m = _ := h1
  refine (SameDb.changeIf h2 _ _ _ _).bind ?_
  intro d d' h3
  refine (h3.comboIf _ _ _ _).bind ?_
  rintro ⟨m, d⟩ ⟨_, d'⟩ ⟨h1, h2⟩
  obtain rfl : m = _ := h1
  refine (SameDb.finalBuffs h2 _ _ _ _).bind ?_
  rintro ⟨b, m, d⟩ ⟨_, _, d'⟩ ⟨h1, h2, h3⟩
  obtain rfl : b = _ := h1
  obtain rfl : m = _ := h2
  refine (Rel.foldlM (applyTarget_same e b) _ (s := ({ s with db := d }, m)) (t := ({ s' with db := d' }, m))
    ⟨⟨h3, h.events, h.q⟩, rfl⟩).bind ?_
  rintro ⟨s1, m⟩ ⟨s2, _⟩ ⟨h1, h2⟩
  obtain rfl : m = _ := h2
  refine (SameSe.add h1.db.se _ _ _ _).bind ?_
  intro se se' h4
  exact ⟨⟨h4, h1.db.res, h1.db.combo⟩, h1.events, h1.q⟩

theorem snapshotEvent_same {s s' : DamageState} (h : SameState s s') (e : Event) (sec : ℚ) :
    Rel SameState (snapshotEvent s e sec) (snapshotEvent s' e sec) := by
  unfold snapshotEvent
  simp only
  refine (h.db.snapBuffs _ _ _ _).bind ?_
  rintro ⟨b, m, d⟩ ⟨_, _, d'⟩ ⟨h1, h2, h3⟩
  obtain rfl : b = _ := h1
  obtain rfl : m = _ := h2
  refine (SameDb.gaugesIf h3 _ _ _ _).bind ?_
  rintro ⟨m, d⟩ ⟨_, d'⟩ ⟨h1, h2⟩
  obtain rfl : m = _ := h1
  refine (SameDb.comboIf h2 _ _ _ _).bind ?_
  rintro ⟨m, d⟩ ⟨_, d'⟩ ⟨h1, h2⟩
  obtain rfl : m = _ := h1
  refine (SameDb.changeIf h2 _ _ _ _).bind ?_
  intro d d' h3
  refine (Rel.foldlM (snapshotTarget_same e sec _ b _ _) _ (s := ({ s with db := d }, m)) (t := ({ s' with db := d' }, m))
    ⟨⟨h3, h.events, h.q⟩, rfl⟩).bind ?_
  rintro ⟨s1, m⟩ ⟨s2, _⟩ ⟨h1, h2⟩
  exact h1

theorem processEvent_same {s s' : DamageState} (h : SameState s s') (e : Event) :
    Rel SameState (processEvent s e) (processEvent s' e) := by
  unfold processEvent
  have h1 : SameState { s with db := { s.db with se := s.db.se.expire e.primary } }
      { s' with db := { s'.db with se := s'.db.se.expire e.primary } } :=
    ⟨⟨h.db.se.expire _, h.db.res, h.db.combo⟩, h.events, h.q⟩
  simp only
  split
  · exact applyEvent_same h1 e
  · exact snapshotEvent_same h1 e _

theorem loop_same (n : ℕ) {s s' : DamageState} (h : SameState s s') :
    Rel SameState (loop n s) (loop n s') := by
  induction n generalizing s s' with
  | zero =>
    unfold loop
    rw [h.events]
    split
    · exact h
    · rfl
  | succ n ih =>
    unfold loop
    rw [h.events]
    split
    · exact h
    · refine (Rel.refl (R := Eq) (fun _ => rfl) _).bind ?_
      rintro ⟨e, evs⟩ _ rfl
      refine (processEvent_same (s := { s with events := evs }) (s' := { s' with events := evs })
        ⟨h.db, rfl, h.q⟩ e).bind ?_
      intro s1 s2 h1
      exact ih h1

/-- Builders that agree compute the same instances. -/
theorem getDamageInstances_same (h : SameDb a b) (events : Events) :
    Rel With (a.getDamageInstances events) (b.getDamageInstances events) := by
  unfold getDamageInstances
  refine (loop_same _ (s := { db := a, events := events }) (s' := { db := b, events := events })
    ⟨h, rfl, rfl⟩).bind ?_
  intro s s' h1
  exact ⟨congrArg (sortBy (·.time)) h1.q, h1.db⟩

/-! ## A timeline that leaves nothing behind -/

/-- Nothing is in effect, and no gauge has changed. -/
structure Clean (db : DamageBuilder) : Prop where
  buffs : db.se.buffs = []
  debuffs : ∀ t, db.se.lookupDebuffs t = []
  res : ∀ kv ∈ db.res.resources, kv.2 = []

theorem Clean.of_same (h : Clean a) (h' : SameDb a b) : Clean b :=
  ⟨h'.se.buffs ▸ h.buffs, fun t => (h'.se.debuffs t) ▸ h.debuffs t, h'.res ▸ h.res⟩

theorem set_self {κ ν : Type} [DecidableEq κ] {d : Dict κ ν} {k : κ} {v : ν}
    (h : Dict.get? d k = some v) : Dict.set d k v = d := by
  induction d with
  | nil => simp at h
  | cons kv d ih =>
    obtain ⟨k', v'⟩ := kv
    rw [Dict.get?_cons] at h
    unfold Dict.set
    split at h
    · rename_i hk
      have : k' = k := by simpa using hk
      simp only [Option.some.injEq] at h
      simp [this, h]
    · rename_i hk
      have : ¬ k' = k := by simpa using hk
      simp [this, ih h]

theorem gauges_clean (h : Clean a) {c : Bool} {t : ℚ} {skill : Skill} {m : SkillModifier}
    {r : SkillModifier × DamageBuilder} (hr : gaugesIf c a t skill m = .ok r) : r.2 = a := by
  unfold DamageBuilder.gaugesIf at hr
  split at hr
  · unfold addGauges at hr
    obtain ⟨⟨cond, res⟩, h1, h2⟩ := Py.bind_eq_ok.1 hr
    have h2 := Except.ok.inj h2
    subst h2
    unfold JobResourceTracker.compile at h1
    obtain ⟨⟨rep, res'⟩, h3, h4⟩ := Py.bind_eq_ok.1 h1
    have h4 := (Prod.mk.inj (Except.ok.inj h4)).2
    subst h4
    have h5 : res' = a.res := by
      unfold JobResourceTracker.compileReports at h3
      refine Py.foldlM_inv (P := fun x => x.2 = a.res) rfl ?_ h3
      rintro ⟨rs, tr⟩ name ⟨rs', tr'⟩ - h6 h7
      obtain rfl : tr = a.res := h6
      unfold JobResourceTracker.compileStep at h7
      simp only at h7
      obtain ⟨cfg, -, h7⟩ := Py.bind_eq_ok.1 h7
      split at h7
      · exact (Prod.mk.inj (Except.ok.inj h7)).2.symm
      · obtain ⟨l, h8, h7⟩ := Py.bind_eq_ok.1 h7
        have h9 : l = [] := h.res _ (Dict.mem_of_get? (Dict.get_ok.1 h8))
        subst h9
        have h10 : Dict.set a.res.resources name (sortBy (fun x : ResourceEntry => x.start) []) =
            a.res.resources := set_self (Dict.get_ok.1 h8)
        simp only [h10] at h7
        split at h7
        · exact (Prod.mk.inj (Except.ok.inj h7)).2.symm
        · exact (Prod.mk.inj (Except.ok.inj h7)).2.symm
    rw [h5]
  · rw [← Except.ok.inj hr]

theorem change_clean {skill : Skill} (hp : LeavesNothing skill) {c : Bool} {t : ℚ}
    {m : SkillModifier} (hr : changeIf c a t skill m = .ok b) : b = a := by
  unfold DamageBuilder.changeIf at hr
  split at hr
  · unfold changeGauges JobResourceTracker.addResource at hr
    obtain ⟨res, h1, h2⟩ := Py.bind_eq_ok.1 hr
    obtain ⟨l, h3, h4⟩ := Py.bind_eq_ok.1 h1
    rw [hp.gauges m l h3] at h4
    rw [← Except.ok.inj h2, ← Except.ok.inj h4]
  · rw [← Except.ok.inj hr]

theorem combo_clean {skill : Skill} (hp : LeavesNothing skill) {c : Bool} {t : ℚ}
    {m : SkillModifier} {r : SkillModifier × DamageBuilder} (hr : comboIf c a t skill m = .ok r) :
    r.2 = a := by
  unfold DamageBuilder.comboIf at hr
  split at hr
  · unfold addCombo ComboTracker.compileAndUpdate at hr
    obtain ⟨⟨cond, combo⟩, h1, h2⟩ := Py.bind_eq_ok.1 hr
    obtain ⟨l, h3, h4⟩ := Py.bind_eq_ok.1 h1
    rw [hp.combos m l h3] at h4
    obtain ⟨x, h5, h6⟩ := Py.bind_eq_ok.1 h4
    obtain ⟨m', -, h2⟩ := Py.bind_eq_ok.1 h2
    have h5 := Except.ok.inj h5
    subst h5
    have h6 := (Prod.mk.inj (Except.ok.inj h6)).2
    subst h6
    rw [← Except.ok.inj h2]
  · rw [← Except.ok.inj hr]

theorem compile_nil {p : List String} {t : ℚ} {deny : List String} {name : String} {agg : StatusEffects}
    {cond : String} {es : Effects}
    (h : StatusEffectTracker.compileEffects p t [] deny name = .ok (agg, cond, es)) : es = [] := by
  unfold StatusEffectTracker.compileEffects at h
  have : StatusEffectTracker.deleteLowerPriority p
      (StatusEffectTracker.validNames t [] deny name) = [] := by
    show StatusEffectTracker.deleteLowerPriority p [] = []
    clear h
    induction p with
    | nil => rfl
    | cons x p ih => simpa [StatusEffectTracker.deleteLowerPriority] using ih
  simp only [this] at h
  exact (Prod.mk.inj (Prod.mk.inj (Except.ok.inj h)).2).2.symm

theorem takeBuffs_clean (h : Clean a) {t : ℚ} {skill : Skill} {m : SkillModifier}
    {r : StatusEffects × SkillModifier × DamageBuilder} (hr : a.takeBuffs t skill m = .ok r) :
    r.2.2 = a := by
  unfold DamageBuilder.takeBuffs StatusEffectTracker.compileBuffs at hr
  obtain ⟨⟨x, se⟩, h1, h2⟩ := Py.bind_eq_ok.1 hr
  obtain ⟨⟨agg, cond, es⟩, h3, h4⟩ := Py.bind_eq_ok.1 h1
  rw [h.buffs] at h3
  have h5 := compile_nil h3
  subst h5
  have h4 := (Prod.mk.inj (Except.ok.inj h4)).2
  subst h4
  rw [← Except.ok.inj h2]
  show ({ a with se := { a.se with buffs := [] } } : DamageBuilder) = a
  rw [← h.buffs]

theorem takeDebuffs_clean (h : Clean a) {t : ℚ} {skill : Skill} {m : SkillModifier} {target : String}
    {r : StatusEffects × SkillModifier × DamageBuilder}
    (hr : a.takeDebuffs t skill m target = .ok r) : SameDb a r.2.2 := by
  unfold DamageBuilder.takeDebuffs StatusEffectTracker.compileDebuffs at hr
  obtain ⟨⟨x, se⟩, h1, h2⟩ := Py.bind_eq_ok.1 hr
  obtain ⟨⟨agg, cond, es⟩, h3, h4⟩ := Py.bind_eq_ok.1 h1
  rw [h.debuffs] at h3
  have h5 := compile_nil h3
  subst h5
  have h4 := (Prod.mk.inj (Except.ok.inj h4)).2
  subst h4
  rw [← Except.ok.inj h2]
  refine ⟨⟨rfl, rfl, fun t' => ?_⟩, rfl, rfl⟩
  show _ = (a.se.setDebuffs target []).lookupDebuffs t'
  rw [lookup_set, h.debuffs]
  split <;> rfl

theorem finalBuffs_clean (h : Clean a) {st : SnapStatus} {t : ℚ} {skill : Skill} {m : SkillModifier}
    {r : StatusEffects × SkillModifier × DamageBuilder} (hr : finalBuffs st a t skill m = .ok r) :
    r.2.2 = a := by
  cases st with
  | done x => rw [← Except.ok.inj hr]
  | flag c => exact takeBuffs_clean h hr

theorem finalDebuffs_clean (h : Clean a) {st : SnapStatus} {t : ℚ} {skill : Skill}
    {m : SkillModifier} {target : String} {r : StatusEffects × SkillModifier × DamageBuilder}
    (hr : finalDebuffs st a t skill m target = .ok r) : SameDb a r.2.2 := by
  cases st with
  | done x => rw [← Except.ok.inj hr]; exact SameDb.refl _
  | flag c => exact takeDebuffs_clean h hr

theorem snapBuffs_clean (h : Clean a) {st : SnapStatus} {t : ℚ} {skill : Skill} {m : SkillModifier}
    {r : SnapStatus × SkillModifier × DamageBuilder} (hr : snapBuffs st a t skill m = .ok r) :
    r.2.2 = a := by
  match st with
  | .done x => rw [← Except.ok.inj hr]
  | .flag false => rw [← Except.ok.inj hr]
  | .flag true =>
    obtain ⟨x, h1, h2⟩ := Py.bind_eq_ok.1 hr
    rw [← Except.ok.inj h2]
    exact takeBuffs_clean h h1

theorem snapDebuffs_clean (h : Clean a) {st : SnapStatus} {t : ℚ} {skill : Skill}
    {m : SkillModifier} {target : String} {r : SnapStatus × SkillModifier × DamageBuilder}
    (hr : snapDebuffs st a t skill m target = .ok r) : SameDb a r.2.2 := by
  match st with
  | .done x => rw [← Except.ok.inj hr]; exact SameDb.refl _
  | .flag false => rw [← Except.ok.inj hr]; exact SameDb.refl _
  | .flag true =>
    obtain ⟨x, h1, h2⟩ := Py.bind_eq_ok.1 hr
    rw [← Except.ok.inj h2]
    exact takeDebuffs_clean h h1

theorem applyTargets_clean (h : Clean a) {e : Event} {buffs : StatusEffects} {l : List (String × ℕ)}
    {x y : DamageState × SkillModifier} (hx : SameDb a x.1.db)
    (hr : l.foldlM (applyTarget e buffs) x = .ok y) : SameDb a y.1.db := by
  refine Py.foldlM_inv (P := fun x => SameDb a x.1.db) hx ?_ hr
  rintro ⟨s, m⟩ ti ⟨s', m'⟩ - h1 h2
  unfold applyTarget at h2
  simp only at h2
  obtain ⟨r, h3, h4⟩ := Py.bind_eq_ok.1 h2
  obtain ⟨q, -, h5⟩ := Py.bind_eq_ok.1 h4
  rw [← (Prod.mk.inj (Except.ok.inj h5)).1]
  exact SameDb.trans h1 (finalDebuffs_clean (h.of_same h1) h3)

theorem snapshotTargets_clean (h : Clean a) {e : Event} {sec : ℚ} {p : ℤ} {buffs : SnapStatus}
    {j c : Bool} {l : List (String × ℕ)} {x y : DamageState × SkillModifier} (hx : SameDb a x.1.db)
    (hr : l.foldlM (snapshotTarget e sec p buffs j c) x = .ok y) : SameDb a y.1.db := by
  refine Py.foldlM_inv (P := fun x => SameDb a x.1.db) hx ?_ hr
  rintro ⟨s, m⟩ ti ⟨s', m'⟩ - h1 h2
  unfold snapshotTarget at h2
  simp only at h2
  obtain ⟨r, h3, h4⟩ := Py.bind_eq_ok.1 h2
  obtain ⟨q, -, h5⟩ := Py.bind_eq_ok.1 h4
  rw [← (Prod.mk.inj (Except.ok.inj h5)).1]
  exact SameDb.trans h1 (snapDebuffs_clean (h.of_same h1) h3)

theorem expire_clean (h : Clean a) (t : ℚ) : SameDb a { a with se := a.se.expire t } := by
  refine ⟨⟨?_, rfl, fun t' => ?_⟩, rfl, rfl⟩
  · show a.se.buffs = StatusEffectTracker.expireEffects t a.se.buffs
    rw [h.buffs]
    rfl
  · show _ = (a.se.expire t).lookupDebuffs t'
    rw [lookup_expire, h.debuffs]
    rfl

theorem processEvent_clean {s s' : DamageState} {e : Event} (h : Clean s.db)
    (hp : LeavesNothing e.skill) (hr : processEvent s e = .ok s') : SameDb s.db s'.db := by
  have h0 := expire_clean h e.primary
  have hc := h.of_same h0
  unfold processEvent at hr
  simp only at hr
  refine h0.trans ?_
  split at hr
  · unfold applyEvent at hr
    simp only at hr
    obtain ⟨⟨m1, d1⟩, h1, hr⟩ := Py.bind_eq_ok.1 hr
    obtain rfl : d1 = _ := gauges_clean hc h1
    obtain ⟨d2, h2, hr⟩ := Py.bind_eq_ok.1 hr
    obtain rfl : d2 = _ := change_clean hp h2
    obtain ⟨⟨m3, d3⟩, h3, hr⟩ := Py.bind_eq_ok.1 hr
    obtain rfl : d3 = _ := combo_clean hp h3
    obtain ⟨⟨bs, m4, d4⟩, h4, hr⟩ := Py.bind_eq_ok.1 hr
    obtain rfl : d4 = _ := finalBuffs_clean hc h4
    obtain ⟨⟨s5, m5⟩, h5, hr⟩ := Py.bind_eq_ok.1 hr
    have h6 := applyTargets_clean hc (SameDb.refl _) h5
    obtain ⟨se, h7, hr⟩ := Py.bind_eq_ok.1 hr
    rw [← Except.ok.inj hr]
    unfold StatusEffectTracker.add at h7
    obtain ⟨bs, h8, h7⟩ := Py.bind_eq_ok.1 h7
    obtain ⟨ds, h9, h7⟩ := Py.bind_eq_ok.1 h7
    rw [hp.buffs _ _ h8, hp.debuffs _ _ h9] at h7
    rw [← Except.ok.inj h7]
    exact h6
  · unfold snapshotEvent at hr
    simp only at hr
    obtain ⟨⟨bs, m4, d4⟩, h4, hr⟩ := Py.bind_eq_ok.1 hr
    obtain rfl : d4 = _ := snapBuffs_clean hc h4
    obtain ⟨⟨m1, d1⟩, h1, hr⟩ := Py.bind_eq_ok.1 hr
    obtain rfl : d1 = _ := gauges_clean hc h1
    obtain ⟨⟨m3, d3⟩, h3, hr⟩ := Py.bind_eq_ok.1 hr
    obtain rfl : d3 = _ := combo_clean hp h3
    obtain ⟨d2, h2, hr⟩ := Py.bind_eq_ok.1 hr
    obtain rfl : d2 = _ := change_clean hp h2
    obtain ⟨⟨s5, m5⟩, h5, hr⟩ := Py.bind_eq_ok.1 hr
    have h6 := snapshotTargets_clean hc (SameDb.refl _) h5
    rw [← Except.ok.inj hr]
    exact h6

/-- The events put back into the timeline have the skill of the event. -/
theorem processEvent_skills {P : Skill → Prop} {s s' : DamageState} {e : Event} (ho : s.events.Ok)
    (hq : ∀ e ∈ s.events.q, P e.skill) (he : P e.skill) (h : processEvent s e = .ok s') :
    s'.events.Ok ∧ ∀ e ∈ s'.events.q, P e.skill := by
  unfold processEvent at h
  simp only at h
  cases hsec : e.secondary with
  | none =>
    rw [hsec] at h
    obtain ⟨c1, -⟩ := applyEvent_spec h
    rw [c1]
    exact ⟨ho, hq⟩
  | some secondary =>
    rw [hsec] at h
    obtain ⟨c1, c2, buffs, es, c3, c4, c5⟩ := snapshotEvent_spec (by exact ho) h
    refine ⟨c1, fun e' he' => ?_⟩
    rcases List.mem_append.1 (c5.mem_iff.1 he') with h1 | h1
    · exact hq e' h1
    · obtain ⟨i, hi, rfl⟩ := List.getElem_of_mem h1
      have hl := c4.length_eq
      have := (List.forall₂_iff_get.1 c4).2 i (by omega) hi
      obtain ⟨a0, a1, a2, a3, -⟩ := this
      simp only [List.get_eq_getElem] at a3
      rw [a3]
      exact he

theorem loop_clean (n : ℕ) {s s' : DamageState} (ho : s.events.Ok) (h : Clean s.db)
    (hq : ∀ e ∈ s.events.q, LeavesNothing e.skill) (hr : loop n s = .ok s') : SameDb s.db s'.db := by
  induction n generalizing s with
  | zero =>
    unfold loop at hr
    split at hr
    · rw [← Except.ok.inj hr]
      exact SameDb.refl _
    · cases hr
  | succ n ih =>
    unfold loop at hr
    split at hr
    · rw [← Except.ok.inj hr]
      exact SameDb.refl _
    · obtain ⟨⟨e, evs⟩, h1, hr⟩ := Py.bind_eq_ok.1 hr
      obtain ⟨s1, h2, hr⟩ := Py.bind_eq_ok.1 hr
      obtain ⟨o1, o2, -, -⟩ := Events.getNext_spec ho h1
      have he : LeavesNothing e.skill := hq e (o2.mem_iff.2 List.mem_cons_self)
      have h3 : SameDb s.db s1.db :=
        processEvent_clean (s := { s with events := evs }) h he h2
      obtain ⟨o3, o4⟩ := processEvent_skills (s := { s with events := evs }) o1
        (fun e' h' => hq e' (o2.mem_iff.2 (List.mem_cons_of_mem _ h'))) he h2
      exact h3.trans (ih o3 (h.of_same h3) o4 hr)

end Reuse

end Ama
