import Verif.Lemmas.BuilderFrame
import Verif.Lemmas.Strings

/-!
# Lemmas on `add` and `add_next`
-/

namespace Ama

open Spec

namespace RotationBuilder

/-- The same builder, up to the order of the timed queue. -/
def SameUpToOrder (rb₁ rb₂ : RotationBuilder) : Prop :=
  ∃ q : List TimedPress, q.Perm rb₁.qTimed ∧ rb₂ = rb₁.withTimed q

theorem SameUpToOrder.refl (rb : RotationBuilder) : SameUpToOrder rb rb := ⟨_, .refl _, rfl⟩

theorem SameUpToOrder.trans {a b c : RotationBuilder} (h1 : SameUpToOrder a b)
    (h2 : SameUpToOrder b c) : SameUpToOrder a c := by
  obtain ⟨q, hq, rfl⟩ := h1
  obtain ⟨q', hq', rfl⟩ := h2
  exact ⟨q', hq'.trans hq, rfl⟩

/-- The builder after a call of `add` that finds the skill. -/
def added (rb : RotationBuilder) (c : AddCall) (skill : Skill) : RotationBuilder :=
  { rb with
    allTargets := rb.allTargets ∪ (splitTargets (c.targets.getD rb.defaultTarget)).toFinset
    qTimed := rb.qTimed ++ [
      { t := pyInt (1000 * c.t)
        skill := skill
        modifier := c.modifier.getD
          (rb.getDefaultSkillModifier skill (c.jobClass.getD rb.stats.jobClass))
        jobClass := c.jobClass.getD rb.stats.jobClass
        targets := splitTargets (c.targets.getD rb.defaultTarget) }] }

theorem run_add_ok (rb : RotationBuilder) (c : AddCall) (rb' : RotationBuilder) :
    c.run rb = .ok rb' ↔
    ∃ skill, rb.lib.getSkill c.skillName (c.jobClass.getD rb.stats.jobClass) = .ok skill ∧
      rb' = rb.added c skill := by
  constructor
  · intro h
    obtain ⟨skill, h1, h2⟩ := add_ok h
    exact ⟨skill, h1, h2⟩
  · rintro ⟨skill, h1, rfl⟩
    unfold AddCall.run add
    simp only [processTargets]
    rw [h1]
    rfl

theorem run_add_same {rb₁ rb₂ rb₁' : RotationBuilder} (h : SameUpToOrder rb₁ rb₂) (c : AddCall)
    (h1 : c.run rb₁ = .ok rb₁') : ∃ rb₂', c.run rb₂ = .ok rb₂' ∧ SameUpToOrder rb₁' rb₂' := by
  obtain ⟨q, hq, rfl⟩ := h
  obtain ⟨skill, g1, rfl⟩ := (run_add_ok _ _ _).1 h1
  exact ⟨_, (run_add_ok _ _ _).2 ⟨skill, g1, rfl⟩, _, hq.append_right _, rfl⟩

theorem runs_add_same {rb₁ rb₂ rb₁' : RotationBuilder} (h : SameUpToOrder rb₁ rb₂)
    (cs : List AddCall) (h1 : cs.foldlM AddCall.run rb₁ = .ok rb₁') :
    ∃ rb₂', cs.foldlM AddCall.run rb₂ = .ok rb₂' ∧ SameUpToOrder rb₁' rb₂' := by
  induction cs generalizing rb₁ rb₂ with
  | nil =>
    cases h1
    exact ⟨_, rfl, h⟩
  | cons c cs ih =>
    rw [Py.foldlM_cons] at h1
    obtain ⟨r, g1, g2⟩ := Py.bind_eq_ok.1 h1
    obtain ⟨r', k1, k2⟩ := run_add_same h c g1
    obtain ⟨r'', k3, k4⟩ := ih k2 g2
    exact ⟨r'', by rw [Py.foldlM_cons, k1]; exact k3, k4⟩

theorem adds_perm {cs cs' : List AddCall} (hp : cs.Perm cs') (rb rb₁ : RotationBuilder)
    (h : cs.foldlM AddCall.run rb = .ok rb₁) :
    ∃ rb₂, cs'.foldlM AddCall.run rb = .ok rb₂ ∧ SameUpToOrder rb₁ rb₂ := by
  induction hp generalizing rb rb₁ with
  | nil => exact ⟨_, h, .refl _⟩
  | cons c _ ih =>
    rw [Py.foldlM_cons] at h
    obtain ⟨r, g1, g2⟩ := Py.bind_eq_ok.1 h
    obtain ⟨r', k1, k2⟩ := ih r rb₁ g2
    exact ⟨r', by rw [Py.foldlM_cons, g1]; exact k1, k2⟩
  | swap x y l =>
    rw [Py.foldlM_cons] at h
    obtain ⟨r1, g1, g2⟩ := Py.bind_eq_ok.1 h
    rw [Py.foldlM_cons] at g2
    obtain ⟨r2, g3, g4⟩ := Py.bind_eq_ok.1 g2
    obtain ⟨s1, a1, rfl⟩ := (run_add_ok _ _ _).1 g1
    obtain ⟨s2, a2, rfl⟩ := (run_add_ok _ _ _).1 g3
    have hsame : SameUpToOrder ((rb.added y s1).added x s2) ((rb.added x s2).added y s1) := by
      refine ⟨((rb.added x s2).added y s1).qTimed, ?_, ?_⟩
      · unfold added
        simp only [List.append_assoc]
        exact List.Perm.append_left _ (List.Perm.swap _ _ _)
      · unfold added withTimed
        simp only [RotationBuilder.mk.injEq, true_and, and_true]
        exact Finset.union_right_comm _ _ _
    obtain ⟨r', k1, k2⟩ := runs_add_same hsame l g4
    refine ⟨r', ?_, k2⟩
    rw [Py.foldlM_cons, (run_add_ok rb x _).2 ⟨s2, a2, rfl⟩, Py.ok_bind, Py.foldlM_cons,
      (run_add_ok (rb.added x s2) y _).2 ⟨s1, a1, rfl⟩, Py.ok_bind]
    exact k1
  | trans _ _ ih1 ih2 =>
    obtain ⟨r1, k1, k2⟩ := ih1 rb rb₁ h
    obtain ⟨r2, k3, k4⟩ := ih2 rb r1 k1
    exact ⟨r2, k3, k2.trans k4⟩

/-- `rb'` has the same settings and queues as `rb`. -/
def SameSettings (rb rb' : RotationBuilder) : Prop :=
  rb'.stats = rb.stats ∧ rb'.lib = rb.lib ∧ rb'.allTargets = rb.allTargets ∧
    rb'.qTimed = rb.qTimed ∧ rb'.qSequence = rb.qSequence ∧ rb'.downtime = rb.downtime ∧
    rb'.defaultTarget = rb.defaultTarget ∧ rb'.snapDots = rb.snapDots ∧
    rb'.enableAutos = rb.enableAutos ∧ rb'.ignoreTrailingDots = rb.ignoreTrailingDots ∧
    rb'.fightStart = rb.fightStart ∧ rb'.priority = rb.priority

theorem withTimeline_same (rb : RotationBuilder) (evs : Events) (ps : List Press) :
    SameSettings rb (rb.withTimeline evs ps) :=
  ⟨rfl, rfl, rfl, rfl, rfl, rfl, rfl, rfl, rfl, rfl, rfl, rfl⟩

theorem collected_same {fuel : ℕ} {rb rb' : RotationBuilder} (r : Run fuel rb rb') :
    SameSettings rb.start r.collected := by
  refine ⟨?_, ?_, ?_, ?_, ?_, ?_, ?_, ?_, ?_, ?_, ?_, ?_⟩ <;> rfl

theorem SameSettings.trans {a b c : RotationBuilder} (h : SameSettings a b)
    (h' : SameSettings b c) : SameSettings a c := by
  obtain ⟨a1, a2, a3, a4, a5, a6, a7, a8, a9, a10, a11, a12⟩ := h
  obtain ⟨b1, b2, b3, b4, b5, b6, b7, b8, b9, b10, b11, b12⟩ := h'
  exact ⟨b1.trans a1, b2.trans a2, b3.trans a3, b4.trans a4, b5.trans a5, b6.trans a6, b7.trans a7,
    b8.trans a8, b9.trans a9, b10.trans a10, b11.trans a11, b12.trans a12⟩

/-- A run keeps the settings, queues and known targets, and resolves the downtime windows. -/
theorem timing_same {fuel : ℕ} {rb rb' : RotationBuilder} (h : rb.getSkillTiming fuel = .ok rb') :
    SameSettings rb.start rb' := by
  obtain ⟨r⟩ := run_of_ok h
  obtain ⟨_, _, _, _, _, _, h6⟩ := r.spec
  rw [h6]
  exact (collected_same r).trans (withTimeline_same _ _ _)

theorem timing_fields {fuel : ℕ} {rb rb' : RotationBuilder} (h : rb.getSkillTiming fuel = .ok rb') :
    rb'.stats = rb.stats ∧ rb'.lib = rb.lib ∧ rb'.allTargets = rb.allTargets ∧
      rb'.qTimed = rb.qTimed ∧ rb'.qSequence = rb.qSequence ∧ rb'.downtime = rb.start.downtime ∧
      rb'.defaultTarget = rb.defaultTarget ∧ rb'.snapDots = rb.snapDots ∧
      rb'.enableAutos = rb.enableAutos ∧ rb'.ignoreTrailingDots = rb.ignoreTrailingDots ∧
      rb'.fightStart = rb.fightStart ∧ rb'.priority = rb.priority := by
  obtain ⟨b1, b2, b3, b4, b5, b6, b7, b8, b9, b10, b11, b12⟩ := timing_same h
  obtain ⟨e1, e2, e3, e4, e5, e6, e7, e8, e9, e10, e11, _⟩ := start_fields rb
  rw [b1, b2, b3, b4, b5, b6, b7, b8, b9, b10, b11, b12]
  exact ⟨e1, e2, e9, e10, e11, rfl, e8, e3, e4, e5, e6, e7⟩

/-- The targets of all queued skills are known. -/
def Known (rb : RotationBuilder) : Prop :=
  (∀ p ∈ rb.qSequence, ∀ t ∈ p.targets, t ∈ rb.allTargets) ∧
  ∀ p ∈ rb.qTimed, ∀ t ∈ p.targets, t ∈ rb.allTargets

theorem known_op {rb rb' : RotationBuilder} (hi : rb.Known) (op : BuilderOp)
    (h : op.run rb = .ok rb') : rb'.Known := by
  cases op with
  | addNext name m job n targets =>
    obtain ⟨skill, h1, rfl⟩ := addNext_ok h
    refine ⟨?_, fun p hp t ht => Finset.mem_union_left _ (hi.2 p hp t ht)⟩
    intro p hp t ht
    rcases List.mem_append.1 hp with hp | hp
    · exact Finset.mem_union_left _ (hi.1 p hp t ht)
    · rw [List.eq_of_mem_replicate hp] at ht
      exact Finset.mem_union_right _ (List.mem_toFinset.2 ht)
  | add t name m job targets =>
    obtain ⟨skill, h1, rfl⟩ := add_ok h
    refine ⟨fun p hp t ht => Finset.mem_union_left _ (hi.1 p hp t ht), ?_⟩
    intro p hp t ht
    rcases List.mem_append.1 hp with hp | hp
    · exact Finset.mem_union_left _ (hi.2 p hp t ht)
    · rw [List.mem_singleton.1 hp] at ht
      exact Finset.mem_union_right _ (List.mem_toFinset.2 ht)
  | setTrailing b =>
    cases h
    exact hi
  | setAutos b =>
    cases h
    exact hi
  | timing fuel =>
    obtain ⟨_, _, h3, h4, h5, _⟩ := timing_fields h
    unfold Known
    rw [h3, h4, h5]
    exact hi

theorem built_known {rb : RotationBuilder} (h : Built rb) : rb.Known := by
  obtain ⟨stats, lib, sd, a, t, fs, dt, tg, rb0, ops, h0, h1⟩ := h
  refine Py.foldlM_inv (P := Known) ?_ (fun s op s' _ hs h => known_op hs op h) h1
  unfold init at h0
  obtain ⟨p, _, h0⟩ := Py.bind_eq_ok.1 h0
  cases h0
  exact ⟨by simp, by simp⟩

/-- Reading back a list of names. -/
theorem splitTargets_join (l : List String) (hne : l ≠ []) (hl : ∀ c ∈ l, CleanName c) :
    splitTargets (strJoin ", " l) = l := by
  cases l with
  | nil => exact absurd rfl hne
  | cons a l =>
    have hws : ∀ c ∈ [' '], isPySpace c = true := by decide
    unfold splitTargets strJoin
    simp only [String.toList_ofList]
    have hsep : (", " : String).toList = ',' :: [' '] := by decide
    rw [hsep, List.map_cons, splitComma_join (by decide) (hl a (by simp)).1 (by
      intro q hq
      obtain ⟨c, hc, rfl⟩ := List.mem_map.1 hq
      exact (hl c (by simp [hc])).1)]
    have hstrip : ∀ c ∈ a :: l, String.ofList (stripChars c.toList) = c := by
      intro c hc
      rw [stripChars_of_clean (hl c hc).2.1 (hl c hc).2.2, String.ofList_toList]
    simp only [List.map_cons, List.map_map, List.cons.injEq]
    refine ⟨hstrip a (by simp), ?_⟩
    conv_rhs => rw [← List.map_id l]
    apply List.map_congr_left
    intro c hc
    simp only [Function.comp, stripChars_append hws, id]
    exact hstrip c (by simp [hc])

end RotationBuilder

end Ama
