import Verif.Lemmas.Rename
import Verif.Lemmas.BuilderAdd
import Verif.Lemmas.TimelineSkills
import Verif.Lemmas.TrackerSafe
import Verif.Spec.RenameRotation

/-!
# A rotation with other names for the targets
-/

namespace Ama

open Spec RotationBuilder StatusEffectTracker

namespace Rename

open Reuse (Rel)

open Shift (Img)

variable {f : String → String} {D : String → Prop} {rb : RotationBuilder}

/-- Other names for the keys of a dictionary. -/
def names {α : Type} (f : String → String) (d : Dict String α) : Dict String α :=
  d.map (fun kv => (f kv.1, kv.2))

theorem get?_names {α : Type} (hf : Function.Injective f) (d : Dict String α) (t : String) :
    Dict.get? (names f d) (f t) = Dict.get? d t := by
  induction d with
  | nil => rfl
  | cons kv d ih =>
    show (if f kv.1 = f t then _ else Dict.get? (names f d) (f t)) = (if kv.1 = t then _ else _)
    rw [ih]
    simp only [hf.eq_iff]

theorem set_names {α : Type} (hf : Function.Injective f) (d : Dict String α) (t : String) (v : α) :
    Dict.set (names f d) (f t) v = names f (Dict.set d t v) := by
  induction d with
  | nil => rfl
  | cons kv d ih =>
    show (if f kv.1 = f t then _ else (f kv.1, kv.2) :: Dict.set (names f d) (f t) v) =
      names f (if kv.1 = t then _ else _)
    rw [ih]
    simp only [hf.eq_iff]
    split <;> rfl

def downtimeNames (f : String → String) : Downtime → Downtime
  | .tuple ws => .tuple ws
  | .dict d => .dict (names f d)
  | .known ts ws => .known (ts.image f) ws

def timed (f : String → String) (p : TimedPress) : TimedPress := { p with targets := p.targets.map f }

def seq (f : String → String) (p : SeqPress) : SeqPress := { p with targets := p.targets.map f }

def stamp (f : String → String) (x : ℚ × String) : ℚ × String := (x.1, f x.2)

/-- The builder, with other names for the targets. -/
def builder (f : String → String) (rb : RotationBuilder) : RotationBuilder :=
  { rb with
    downtime := downtimeNames f rb.downtime
    defaultTarget := f rb.defaultTarget
    allTargets := rb.allTargets.image f
    qTimed := rb.qTimed.map (timed f)
    qSequence := rb.qSequence.map (seq f)
    qDot := names f rb.qDot
    events := renameTimeline f rb.events
    timestamps := rb.timestamps.map (stamp f) }

/-! ## Debuffs that no one sees -/

/-- The debuffs on all targets are silent. -/
def SilentTr (x : StatusEffectTracker) : Prop :=
  ∀ t, ∀ kv ∈ x.lookupDebuffs t, SilentDebuff kv.2.spec ∧ kv.2.uses = ⊤

/-- The skill may be used: either the default target keeps its name, or its debuffs are silent and its buffs end none. -/
structure CoreOk (D : String → Prop) (f : String → String) (k : SkillCore) : Prop where
  ok : SkillOk D f k
  silent : f SimConsts.DEFAULT_TARGET = SimConsts.DEFAULT_TARGET ∨
    ∀ m e, k.getDebuffSpec m = .ok (some e) → SilentDebuff e

/-- The same effects, with other names for the targets. -/
structure QRel (D : String → Prop) (f : String → String) (x y : StatusEffectTracker) : Prop where
  rel : SeRel D f x y
  silent : f SimConsts.DEFAULT_TARGET = SimConsts.DEFAULT_TARGET ∨ SilentTr x ∧ SilentTr y

theorem SilentTr.set {x : StatusEffectTracker} (h : SilentTr x) {t : String} {es : Effects}
    (he : ∀ kv ∈ es, SilentDebuff kv.2.spec ∧ kv.2.uses = ⊤) : SilentTr (x.setDebuffs t es) := by
  intro u
  rw [lookupDebuffs_setDebuffs]
  split
  · exact he
  · exact h u

theorem SilentTr.expire {x : StatusEffectTracker} (h : SilentTr x) (t : ℚ) : SilentTr (x.expire t) := by
  intro u kv hkv
  rw [lookup_expire] at hkv
  exact h u kv (List.mem_filter.1 hkv).1

theorem silent_end {es : Effects} (h : ∀ kv ∈ es, SilentDebuff kv.2.spec ∧ kv.2.uses = ⊤) (name : String) (t : ℚ) :
    ∀ kv ∈ endEffect es name t, SilentDebuff kv.2.spec ∧ kv.2.uses = ⊤ := by
  unfold endEffect
  cases hg : Dict.get? es name with
  | none => exact h
  | some e =>
    intro kv hkv
    rcases Dict.mem_set_imp hkv with hkv | rfl
    · exact h kv hkv
    · exact h (name, e) (Dict.mem_of_get? hg)

theorem SilentTr.expireNamed {x : StatusEffectTracker} (h : SilentTr x) (name : String) (t : ℚ) (target : String) :
    SilentTr (x.expireNamed name t target) := by
  unfold StatusEffectTracker.expireNamed
  exact SilentTr.set (x := { x with buffs := endEffect x.buffs name t }) h (silent_end (h target) name t)

theorem SilentTr.expireNameds {x : StatusEffectTracker} (h : SilentTr x) (l : List String) (t : ℚ) (target : String) :
    SilentTr (l.foldl (fun tr name => tr.expireNamed name t target) x) := by
  induction l generalizing x with
  | nil => exact h
  | cons n l ih => exact ih (h.expireNamed n t target)

theorem silent_add {es : Effects} (h : ∀ kv ∈ es, SilentDebuff kv.2.spec ∧ kv.2.uses = ⊤) (t : ℚ) (name : String)
    {spec : StatusEffectSpec} (hs : SilentDebuff spec) :
    ∀ kv ∈ addEffect es t name spec, SilentDebuff kv.2.spec ∧ kv.2.uses = ⊤ := by
  unfold addEffect
  cases hg : Dict.get? es name with
  | none =>
    simp only
    split
    · exact h
    · intro kv hkv
      rcases Dict.mem_set_imp hkv with hkv | rfl
      · exact h kv hkv
      · exact ⟨hs, hs.uses⟩
  | some e =>
    intro kv hkv
    rcases Dict.mem_set_imp hkv with hkv | rfl
    · exact h kv hkv
    · refine ⟨hs, ?_⟩
      show min (e.uses + spec.numUses) spec.maxNumUses = ⊤
      rw [hs.uses, hs.maxUses]
      simp

theorem SilentTr.debuffs {z : StatusEffectTracker} (hz : SilentTr z) {spec : StatusEffectSpec} (hs : SilentDebuff spec)
    (t : ℚ) (name : String) (targets : List String) :
    SilentTr (targets.foldl (fun tr target => tr.addDebuff t name spec target) z) := by
  induction targets generalizing z with
  | nil => exact hz
  | cons u l ih =>
    rw [List.foldl_cons]
    refine ih ?_
    unfold StatusEffectTracker.addDebuff
    exact SilentTr.expireNameds (SilentTr.set hz (silent_add (hz u) t name hs)) _ _ _

theorem SilentTr.add {x x' : StatusEffectTracker} (h : SilentTr x) {t : ℚ} {k : SkillCore} {m : SkillModifier}
    {targets : List String} (hk : ∀ m e, k.getDebuffSpec m = .ok (some e) → SilentDebuff e)
    (ha : x.add t k m targets = .ok x') : SilentTr x' := by
  unfold StatusEffectTracker.add at ha
  obtain ⟨bs, hb, ha⟩ := Py.bind_eq_ok.1 ha
  obtain ⟨ds, hds, ha⟩ := Py.bind_eq_ok.1 ha
  have hbuff : ∀ (spec : StatusEffectSpec), SilentTr (x.addBuff t k.name spec) := by
    intro spec
    unfold StatusEffectTracker.addBuff
    refine SilentTr.expireNameds ?_ _ _ _
    split
    · exact h
    · exact h
  have hdebuff : ∀ z : StatusEffectTracker, SilentTr z → ∀ spec, ds = some spec →
      SilentTr (targets.foldl (fun tr target => tr.addDebuff t k.name spec target) z) := by
    rintro z hz spec rfl
    exact hz.debuffs (hk m spec hds) t k.name targets
  rw [← Except.ok.inj ha]
  cases bs with
  | none =>
    cases ds with
    | none => exact h
    | some spec => exact hdebuff x h spec rfl
  | some b =>
    cases ds with
    | none => exact hbuff b
    | some spec => exact hdebuff _ (hbuff b) spec rfl

/-- The effects of debuffs on the times of a rotation are the same. -/
def SameSpeed (a b : StatusEffects) : Prop :=
  a.autoAttackDelayMult = b.autoAttackDelayMult ∧ a.hasteTimeMult = b.hasteTimeMult

/-- Looking up silent debuffs changes nothing and tells no condition. -/
theorem silent_compile {priority : List String} {t : ℚ} {es : Effects} {dl : List String} {sn : String}
    (h : ∀ kv ∈ es, SilentDebuff kv.2.spec ∧ kv.2.uses = ⊤) :
    ∃ agg, compileEffects priority t es dl sn = .ok (agg, "", es) ∧ SameSpeed agg {} := by
  unfold compileEffects
  have hv : ∀ n ∈ deleteLowerPriority priority (validNames t es dl sn), n ∈ Dict.keys es := by
    intro n hn
    have := (deleteLowerPriority_sublist priority (validNames t es dl sn)).subset hn
    unfold validNames at this
    obtain ⟨kv, hkv, rfl⟩ := List.mem_map.1 this
    exact List.mem_map_of_mem (List.mem_filter.1 hkv).1
  have key : ∀ (l : List String) (acc : CompileAcc), (∀ n ∈ l, n ∈ Dict.keys es) → acc.conds = [] →
      SameSpeed acc.agg {} → acc.agg.guaranteedCrit = .default → acc.agg.guaranteedDh = .default →
      ∃ acc', l.foldlM compileStep (es, acc) = .ok (es, acc') ∧ acc'.conds = [] ∧ SameSpeed acc'.agg {} := by
    intro l
    induction l with
    | nil => exact fun acc _ h1 h2 _ _ => ⟨acc, rfl, h1, h2⟩
    | cons n l ih =>
      intro acc hl h1 h2 h3 h4
      obtain ⟨e, he⟩ := Option.isSome_iff_exists.1 (Dict.get?_isSome.2 (hl n List.mem_cons_self))
      obtain ⟨hs, hu⟩ := h (n, e) (Dict.mem_of_get? he)
      simp only at hs hu
      have hset : Dict.set es n { e with uses := decUses e.uses } = es := by
        rw [hu, show decUses ⊤ = (⊤ : WithTop ℤ) from rfl, ← hu]
        exact Reuse.set_self he
      rw [Py.foldlM_cons]
      have hstep : ∃ acc', compileStep (es, acc) n = .ok (es, acc') ∧ acc'.conds = [] ∧
          SameSpeed acc'.agg {} ∧ acc'.agg.guaranteedCrit = .default ∧ acc'.agg.guaranteedDh = .default := by
        unfold compileStep
        rw [Dict.get_ok.2 he]
        simp only [Py.ok_bind, hset]
        unfold accEffect
        simp only [hs.crit, hs.dh, hs.condition, hs.delay, hs.haste, ne_eq, not_true_eq_false, if_false, Py.pure_eq, Py.ok_bind]
        exact ⟨_, rfl, by simpa using h1, ⟨by simp [h2.1], by simp [h2.2]⟩, h3, h4⟩
      obtain ⟨acc', g1, g2, g3, g4, g5⟩ := hstep
      rw [g1]
      exact ih acc' (fun n hn => hl n (List.mem_cons_of_mem _ hn)) g2 g3 g4 g5
  obtain ⟨acc, g1, g2, g3⟩ := key _ {} hv rfl ⟨rfl, rfl⟩ rfl rfl
  simp only [g1]
  refine ⟨{ acc.agg with statusEffects := deleteLowerPriority priority (validNames t es dl sn) }, ?_, g3⟩
  simp only [Py.ok_bind, g2]
  rfl

theorem QRel.expire {x y : StatusEffectTracker} (h : QRel D f x y) (t : ℚ) : QRel D f (x.expire t) (y.expire t) :=
  ⟨h.rel.expire t, h.silent.imp id fun h => ⟨h.1.expire t, h.2.expire t⟩⟩

theorem QRel.add {x y : StatusEffectTracker} (h : QRel D f x y) (hf : Function.Injective f) (t : ℚ)
    {k : SkillCore} (hk : CoreOk D f k) (m : SkillModifier) (targets : List String) :
    Rel (QRel D f) (x.add t k m targets) (y.add t k m (targets.map f)) := by
  have h1 := h.rel.add hf t hk.ok m targets
  match hx : x.add t k m targets, hy : y.add t k m (targets.map f) with
  | .ok x', .ok y' =>
    rw [hx, hy] at h1
    refine ⟨h1, ?_⟩
    rcases hk.silent with hd | hs
    · exact .inl hd
    · exact h.silent.imp id fun h => ⟨h.1.add hs hx, h.2.add hs hy⟩
  | .error e, .error e' => rw [hx, hy] at h1; exact h1
  | .ok x', .error e => rw [hx, hy] at h1; exact h1.elim
  | .error e, .ok y' => rw [hx, hy] at h1; exact h1.elim

theorem QRel.compileBuffs {x y : StatusEffectTracker} (h : QRel D f x y) (t : ℚ) (skill : SkillCore) :
    Rel (fun a b : (StatusEffects × String) × StatusEffectTracker => a.1 = b.1 ∧ QRel D f a.2 b.2)
      (x.compileBuffs t skill) (y.compileBuffs t skill) := by
  unfold StatusEffectTracker.compileBuffs
  rw [h.rel.buffs, h.rel.priority]
  refine (Rel.refl (R := Eq) (fun _ => rfl) _).bind ?_
  rintro ⟨agg, cond, es⟩ _ rfl
  exact ⟨rfl, ⟨rfl, rfl, h.rel.debuffs, h.rel.named⟩, h.silent⟩

theorem QRel.compileDefault {x y : StatusEffectTracker} (h : QRel D f x y) (hf : Function.Injective f) (t : ℚ)
    (skill : SkillCore) :
    Rel (fun a b : (StatusEffects × String) × StatusEffectTracker =>
        SameSpeed a.1.1 b.1.1 ∧ a.1.2 = b.1.2 ∧ QRel D f a.2 b.2)
      (x.compileDebuffs t skill) (y.compileDebuffs t skill) := by
  rcases h.silent with hd | hs
  · have := h.rel.compileDebuffs hf t skill SimConsts.DEFAULT_TARGET
    rw [hd] at this
    match hx : x.compileDebuffs t skill, hy : y.compileDebuffs t skill with
    | .ok ⟨⟨a, c⟩, x'⟩, .ok ⟨⟨a', c'⟩, y'⟩ =>
      rw [hx, hy] at this
      obtain ⟨g1, g⟩ := this
      cases g1
      exact ⟨⟨rfl, rfl⟩, rfl, g, .inl hd⟩
    | .error e, .error e' => rw [hx, hy] at this; exact this
    | .ok x', .error e => rw [hx, hy] at this; exact this.elim
    | .error e, .ok y' => rw [hx, hy] at this; exact this.elim
  · obtain ⟨hs, hsy⟩ := hs
    have hl : ∀ (z : StatusEffectTracker) (t u : String), (z.setDebuffs t (z.lookupDebuffs t)).lookupDebuffs u =
        z.lookupDebuffs u := by
      intro z t u
      rw [lookupDebuffs_setDebuffs]
      split
      · next h => rw [h]
      · rfl
    obtain ⟨a, h1, h2⟩ := silent_compile (priority := x.priority) (t := t) (dl := skill.statusEffectDenylist)
      (sn := skill.name) (hs SimConsts.DEFAULT_TARGET)
    obtain ⟨b, h3, h4⟩ := silent_compile (priority := y.priority) (t := t) (dl := skill.statusEffectDenylist)
      (sn := skill.name) (hsy SimConsts.DEFAULT_TARGET)
    unfold StatusEffectTracker.compileDebuffs
    rw [h1, h3]
    refine ⟨⟨h2.1.trans h4.1.symm, h2.2.trans h4.2.symm⟩, rfl, ⟨h.rel.buffs, h.rel.priority, fun u => ?_, fun u => ?_⟩,
      .inr ⟨hs.set (hs _), hsy.set (hsy _)⟩⟩
    · rw [hl, hl]
      exact h.rel.debuffs u
    · rw [hl]
      exact h.rel.named u

/-- The same trackers, with other names for the targets. -/
structure TrRel (D : String → Prop) (f : String → String) (a b : Trackers) : Prop where
  se : QRel D f a.se b.se
  res : b.res = a.res

/-- The same builder and trackers, with other names for the targets. -/
def BtRel (D : String → Prop) (f : String → String) (a b : RotationBuilder × Trackers) : Prop :=
  b.1 = builder f a.1 ∧ TrRel D f a.2 b.2

theorem relEq {α : Type} (x : Py α) : Rel Eq x x := Rel.refl (fun _ => rfl) x

theorem relFoldlM {α σ τ : Type} {R : σ → τ → Prop} {g : σ → α → Py σ} {g' : τ → α → Py τ} {l : List α}
    (hg : ∀ s t, ∀ a ∈ l, R s t → Rel R (g s a) (g' t a)) {s : σ} {t : τ} (h : R s t) :
    Rel R (l.foldlM g s) (l.foldlM g' t) := by
  induction l generalizing s t with
  | nil => exact h
  | cons a l ih =>
    rw [Py.foldlM_cons, Py.foldlM_cons]
    exact (hg s t a List.mem_cons_self h).bind fun s t h => ih (fun s t a ha => hg s t a (List.mem_cons_of_mem _ ha)) h

theorem addEvent_rename (rb : RotationBuilder) (a : NewEvent) :
    Rel (Img (builder f)) (rb.addEvent a) ((builder f rb).addEvent (renameNew f a)) := by
  unfold addEvent
  refine (add_rename rb.events a).bind ?_
  rintro evs _ rfl
  rfl

theorem addDotApp_rename (hf : Function.Injective f) (dots : Dots) (g : FollowUp) (app : DotApp) (t : String) :
    addDotApp (names f dots) g app (f t) = names f (addDotApp dots g app t) := by
  unfold addDotApp
  simp only
  rw [get?_names hf, set_names hf]

theorem processDot_rename (hf : Function.Injective f) (rb : RotationBuilder) (g : FollowUp) (n : ℤ) (s a : ℚ)
    (targets : List String) :
    (builder f rb).processDotFollowUp g n s a (targets.map f) = builder f (rb.processDotFollowUp g n s a targets) := by
  unfold processDotFollowUp
  simp only
  have : ∀ d : Dots, (targets.map f).foldl (fun dots t => addDotApp dots g { snapshot := s, application := a, prioMod := n } t)
      (names f d) = names f (targets.foldl (fun dots t => addDotApp dots g { snapshot := s, application := a, prioMod := n } t) d) := by
    intro d
    induction targets generalizing d with
    | nil => rfl
    | cons t l ih =>
      rw [List.map_cons, List.foldl_cons, List.foldl_cons, addDotApp_rename hf]
      exact ih _
  show ({ builder f rb with qDot := _ } : RotationBuilder) = _
  rw [show (builder f rb).qDot = names f rb.qDot from rfl, this]
  rfl

/-- The skill and its follow-ups may be used. -/
def PartsOk (D : String → Prop) (f : String → String) (skill : Skill) : Prop :=
  CoreOk D f skill.toSkillCore ∧ ∀ m fs, skill.getFollowUpSkills m = .ok fs → ∀ g ∈ fs, CoreOk D f g.skill

theorem bindEq {α γ δ : Type} {S : γ → δ → Prop} {x : Py α} {k : α → Py γ} {k' : α → Py δ}
    (h : ∀ a, x = .ok a → Rel S (k a) (k' a)) : Rel S (x >>= k) (x >>= k') := by
  cases x with
  | error e => rfl
  | ok a => exact h a rfl

theorem processNonDot_rename (hf : Function.Injective f)
    (rb : RotationBuilder) {g : FollowUp} (hk : CoreOk D f g.skill) (n : ℤ)
    (s a : ℚ) {tr tr' : Trackers} (h : TrRel D f tr tr') (targets : List String) :
    Rel (BtRel D f) (rb.processNonDotFollowUp g n s a tr targets)
      ((builder f rb).processNonDotFollowUp g n s a tr' (targets.map f)) := by
  unfold processNonDotFollowUp
  have key : ∀ targets : List String, Rel (BtRel D f)
      (rb.addEvent (followUpEvent g n s a targets) >>= fun rb =>
        tr.se.add (a + g.delayAfterParentApplication) g.skill {} targets >>= fun se =>
        tr.res.addResource (a + g.delayAfterParentApplication) g.skill {} >>= fun res =>
        pure (rb, { se := se, res := res }))
      ((builder f rb).addEvent (followUpEvent g n s a (targets.map f)) >>= fun rb =>
        tr'.se.add (a + g.delayAfterParentApplication) g.skill {} (targets.map f) >>= fun se =>
        tr'.res.addResource (a + g.delayAfterParentApplication) g.skill {} >>= fun res =>
        pure (rb, { se := se, res := res })) := by
    intro targets
    refine (addEvent_rename rb _).bind ?_
    rintro rb _ rfl
    refine (h.se.add hf _ hk _ targets).bind ?_
    intro se se' hse
    rw [h.res]
    refine (relEq _).bind ?_
    rintro res _ rfl
    exact ⟨rfl, hse, rfl⟩
  simp only
  split
  · rw [Shift.pyIdx_map]
    cases pyIdx targets 0 with
    | error e => rfl
    | ok x => exact key [x]
  · exact key targets

theorem processFollowUps_rename (hf : Function.Injective f)
    (rb : RotationBuilder) {fs : List FollowUp}
    (hk : ∀ g ∈ fs, CoreOk D f g.skill)
    (s a : ℚ) {tr tr' : Trackers} (h : TrRel D f tr tr') (targets : List String) :
    Rel (BtRel D f) (rb.processFollowUps fs s a tr targets)
      ((builder f rb).processFollowUps fs s a tr' (targets.map f)) := by
  unfold processFollowUps
  refine relFoldlM (R := BtRel D f) ?_ ⟨rfl, h⟩
  rintro ⟨rb, tr⟩ ⟨_, tr'⟩ fi hfi ⟨rfl, h⟩
  unfold followUpStep
  simp only
  split
  · exact ⟨processDot_rename hf .., h⟩
  · exact processNonDot_rename hf _ (hk _ (List.fst_mem_of_mem_zipIdx hfi)) _ _ _ h _

theorem processSkill_rename (hf : Function.Injective f)
    (rb : RotationBuilder) (t : ℚ) {skill : Skill}
    (hk : PartsOk D f skill)
    (m : SkillModifier) {tr tr' : Trackers} (h : TrRel D f tr tr') (buffs : StatusEffects) (targets : List String) :
    Rel (BtRel D f) (rb.processSkill t skill m tr buffs targets)
      ((builder f rb).processSkill t skill m tr' buffs (targets.map f)) := by
  unfold processSkill
  refine (relEq _).bind ?_
  rintro ts _ rfl
  refine (relEq _).bind ?_
  rintro ct _ rfl
  refine (relEq _).bind ?_
  rintro at' _ rfl
  refine (addEvent_rename rb _).bind ?_
  rintro rb _ rfl
  refine (h.se.add hf _ hk.1 _ targets).bind ?_
  intro se se' hse
  rw [h.res]
  refine (relEq _).bind ?_
  rintro res _ rfl
  refine bindEq fun fs hfs => ?_
  exact processFollowUps_rename hf rb (hk.2 _ fs hfs) _ _ (tr := ⟨se, res⟩) (tr' := ⟨se', res⟩) ⟨hse, rfl⟩ targets

theorem resolveConditions_rename (hf : Function.Injective f)
    (t : ℚ) (skill : Skill) (m : SkillModifier)
    {tr tr' : Trackers} (h : TrRel D f tr tr') :
    Rel (fun a b : StatusEffects × StatusEffects × SkillModifier × Trackers =>
        a.1 = b.1 ∧ SameSpeed a.2.1 b.2.1 ∧ a.2.2.1 = b.2.2.1 ∧ TrRel D f a.2.2.2 b.2.2.2)
      (resolveConditions t skill m tr) (resolveConditions t skill m tr') := by
  unfold resolveConditions
  refine ((h.se.expire t).compileBuffs t skill.toSkillCore).bind ?_
  rintro ⟨⟨b, cb⟩, se⟩ ⟨_, se'⟩ ⟨rfl, h1⟩
  refine (h1.compileDefault hf t skill.toSkillCore).bind ?_
  rintro ⟨⟨d, cd⟩, se⟩ ⟨⟨d', cd'⟩, se'⟩ ⟨hsp, h0, h1⟩
  simp only at hsp h0 h1
  subst h0
  rw [h.res]
  refine (relEq _).bind ?_
  rintro ⟨c, res⟩ _ rfl
  exact ⟨rfl, hsp, rfl, h1, rfl⟩

/-- The same, with other names for the targets. -/
structure ResRel (D : String → Prop) (f : String → String) (a b : Resolved) : Prop where
  buffs : b.buffs = a.buffs
  debuffs : SameSpeed a.debuffs b.debuffs
  modifier : b.modifier = a.modifier
  tr : TrRel D f a.tr b.tr
  combo : b.combo = a.combo

theorem resolve_rename (hf : Function.Injective f)
    (t : ℚ) (skill : Skill) (m : SkillModifier)
    {tr tr' : Trackers} (h : TrRel D f tr tr') (combo : ComboTracker) :
    Rel (ResRel D f) (resolve t skill m tr combo) (resolve t skill m tr' combo) := by
  unfold resolve
  refine (resolveConditions_rename hf t skill m h).bind ?_
  rintro ⟨b, d, m, tr⟩ ⟨_, d', _, tr'⟩ ⟨g1, g2, g3, g4⟩
  simp only at g1 g2 g3 g4
  subst g1 g3
  simp only
  refine (relEq _).bind ?_
  rintro ⟨c, combo⟩ _ rfl
  refine (relEq _).bind ?_
  rintro m _ rfl
  exact ⟨rfl, g2, rfl, g4, rfl⟩

/-! ## The queues -/

/-- The same state, with other names for the targets. -/
structure LsRel (D : String → Prop) (f : String → String) (a b : LoopState) : Prop where
  rb : b.rb = builder f a.rb
  tr : TrRel D f a.tr b.tr
  combo : b.combo = a.combo

theorem recordTarget_rename (rb : RotationBuilder) (t : ℚ) (targets : List String) :
    Rel (Img (builder f)) (rb.recordTarget t targets) ((builder f rb).recordTarget t (targets.map f)) := by
  unfold recordTarget
  rw [Shift.pyIdx_map]
  cases pyIdx targets 0 with
  | error e => rfl
  | ok x =>
    show _ = _
    unfold builder
    simp [stamp]

theorem timedStep_rename (hf : Function.Injective f)
    {s s' : LoopState} (h : LsRel D f s s')
    {p : TimedPress} (hk : PartsOk D f p.skill) : Rel (LsRel D f) (timedStep s p) (timedStep s' (timed f p)) := by
  obtain ⟨rb, tr, combo⟩ := s
  obtain ⟨rb', tr', combo'⟩ := s'
  obtain ⟨e1, ht, e2⟩ := h
  simp only at e1 ht e2
  subst e1 e2
  unfold timedStep
  refine (resolve_rename hf _ _ _ ht _).bind ?_
  rintro ⟨b, d, m, tr, c⟩ ⟨b', d', m', tr', c'⟩ ⟨e1, hsp, e3, h1, e4⟩
  simp only at e1 hsp e3 h1 e4
  subst e1 e3 e4
  refine (recordTarget_rename _ _ _).bind ?_
  rintro rb _ rfl
  refine (processSkill_rename hf _ _ hk _ h1 _ _).bind ?_
  rintro ⟨rb, tr⟩ ⟨_, tr'⟩ ⟨rfl, h2⟩
  exact ⟨rfl, h2, rfl⟩

theorem strTupleLt_eq (l l' : List String) : strTupleLt l l' = decide (l < l') := by
  induction l generalizing l' with
  | nil => cases l' <;> simp [strTupleLt]
  | cons a l ih =>
    cases l' with
    | nil => simp [strTupleLt]
    | cons b l' =>
      unfold strTupleLt
      split_ifs with h
      · subst h
        rw [ih]
        simp
      · simp [List.cons_lt_cons_iff, h]

/-- The order of the timed presses does not depend on the names of the targets. -/
theorem timed_lt {p q : TimedPress} (h : p.t = q.t → p.skill = q.skill → p.modifier.pyEq q.modifier = true →
    p.jobClass = q.jobClass → (p.targets.map f < q.targets.map f ↔ p.targets < q.targets)) :
    TimedPress.pyLt (timed f p) (timed f q) = TimedPress.pyLt p q := by
  unfold TimedPress.pyLt timed
  simp only
  split_ifs with h1 h2 h3 h4
  · rfl
  · rfl
  · rfl
  · rfl
  · rw [strTupleLt_eq, strTupleLt_eq]
    exact congrArg _ (decide_eq_decide.2 (h (not_not.1 h1) (not_not.1 h2) (by simpa using h3) (not_not.1 h4)))

/-- Popping the same press. -/
theorem heappop_timed {Q : List TimedPress}
    (hQ : ∀ p ∈ Q, ∀ q ∈ Q, p.t = q.t → p.skill = q.skill → p.modifier.pyEq q.modifier = true →
      p.jobClass = q.jobClass → (p.targets.map f < q.targets.map f ↔ p.targets < q.targets)) (l : List { p // p ∈ Q }) :
    Rel (fun a b : TimedPress × List TimedPress => ∃ (p : { p // p ∈ Q }) (l' : List { p // p ∈ Q }),
        a = (p.1, l'.map (·.1)) ∧ b = (timed f p.1, l'.map (fun p => timed f p.1)))
      (Heapq.heappop TimedPress.pyLt (l.map (·.1)))
      (Heapq.heappop TimedPress.pyLt (l.map (fun p => timed f p.1))) := by
  rw [Shift.heappop_map (lt := fun a b : { p // p ∈ Q } => TimedPress.pyLt a.1 b.1) (fun _ _ => rfl),
    Shift.heappop_map (f := fun p : { p // p ∈ Q } => timed f p.1)
      (lt := fun a b : { p // p ∈ Q } => TimedPress.pyLt a.1 b.1)
      (fun a b => timed_lt (hQ a.1 a.2 b.1 b.2))]
  cases Heapq.heappop (fun a b : { p // p ∈ Q } => TimedPress.pyLt a.1 b.1) l with
  | error e => rfl
  | ok r => exact ⟨r.1, r.2, rfl, rfl⟩

theorem timedLoop_rename (hf : Function.Injective f)
    {Q : List TimedPress}
    (hQ : ∀ p ∈ Q, ∀ q ∈ Q, p.t = q.t → p.skill = q.skill → p.modifier.pyEq q.modifier = true →
      p.jobClass = q.jobClass → (p.targets.map f < q.targets.map f ↔ p.targets < q.targets)) (hk : ∀ p ∈ Q, PartsOk D f p.skill)
    (n : ℕ) {s s' : LoopState} (h : LsRel D f s s')
    (l : List { p // p ∈ Q }) :
    Rel (LsRel D f) (timedLoop n s (l.map (·.1))) (timedLoop n s' (l.map (fun p => timed f p.1))) := by
  induction n generalizing s s' l with
  | zero =>
    unfold timedLoop
    simp only [List.length_map]
    split
    · rfl
    · exact h
  | succ n ih =>
    unfold timedLoop
    simp only [List.length_map]
    split
    · refine (heappop_timed hQ l).bind ?_
      rintro _ _ ⟨p, l', rfl, rfl⟩
      exact (timedStep_rename hf h (hk p.1 p.2)).bind fun s s' h => ih h l'
    · exact h

theorem initTrackers_rename (rb : RotationBuilder) :
    Rel (fun a b : Trackers × ComboTracker => TrRel D f a.1 b.1 ∧ b.2 = a.2) rb.initTrackers
      (builder f rb).initTrackers := by
  unfold initTrackers
  refine (relEq _).bind ?_
  rintro st _ rfl
  refine (relEq _).bind ?_
  rintro br _ rfl
  exact ⟨⟨⟨⟨rfl, rfl, fun _ => rfl, fun _ n hn => by simp [StatusEffectTracker.lookupDebuffs, Dict.keys] at hn⟩, .inr ⟨
    fun _ kv hkv => by simp [StatusEffectTracker.lookupDebuffs] at hkv,
    fun _ kv hkv => by simp [StatusEffectTracker.lookupDebuffs] at hkv⟩⟩, rfl⟩, rfl⟩

theorem processQTimed_rename (hf : Function.Injective f)
    (hk : ∀ p ∈ rb.qTimed, PartsOk D f p.skill) (hq : TiesKept f rb) :
    Rel (Img (builder f)) rb.processQTimed (builder f rb).processQTimed := by
  unfold processQTimed
  refine (initTrackers_rename (D := D) rb).bind ?_
  rintro ⟨tr, c'⟩ ⟨tr', c⟩ ⟨h1, h2⟩
  simp only at h1 h2
  subst h2
  simp only
  have hs : sortBy (fun p : TimedPress => p.t) (builder f rb).qTimed =
      (sortBy (fun p : TimedPress => p.t) rb.qTimed).map (timed f) := sortBy_map ..
  rw [hs, List.length_map]
  have hQ : ∀ p ∈ sortBy (fun p : TimedPress => p.t) rb.qTimed, ∀ q ∈ sortBy (fun p : TimedPress => p.t) rb.qTimed,
      p.t = q.t → p.skill = q.skill → p.modifier.pyEq q.modifier = true →
      p.jobClass = q.jobClass → (p.targets.map f < q.targets.map f ↔ p.targets < q.targets) := fun p hp q hq' =>
    hq p ((sortBy_perm _ _).mem_iff.1 hp) q ((sortBy_perm _ _).mem_iff.1 hq')
  have key := timedLoop_rename (f := f) hf hQ
    (fun p hp => hk p ((sortBy_perm _ _).mem_iff.1 hp)) (sortBy (fun p : TimedPress => p.t) rb.qTimed).length
    (s := ⟨rb, tr, c⟩) (s' := ⟨builder f rb, tr', c⟩) ⟨rfl, h1, rfl⟩ (List.attach _)
  rw [List.attach_map_subtype_val] at key
  rw [show (List.attach (sortBy (fun p : TimedPress => p.t) rb.qTimed)).map (fun p => timed f p.1) =
    (sortBy (fun p : TimedPress => p.t) rb.qTimed).map (timed f) by
      exact (List.map_map (g := timed f) (f := Subtype.val)).symm.trans (by rw [List.attach_map_subtype_val])] at key
  refine key.bind ?_
  intro s s' h
  exact h.rb

/-- The same state, with other names for the targets. -/
structure SqRel (D : String → Prop) (f : String → String) (a b : SeqState) : Prop where
  s : LsRel D f a.s b.s
  currT : b.currT = a.currT
  nextGcd : b.nextGcd = a.nextGcd

theorem seqStep_rename (hf : Function.Injective f)
    {s s' : SeqState} (h : SqRel D f s s')
    {p : SeqPress} (hk : PartsOk D f p.skill) : Rel (SqRel D f) (seqStep s p) (seqStep s' (seq f p)) := by
  obtain ⟨⟨rb, tr, combo⟩, ct, ng⟩ := s
  obtain ⟨⟨rb', tr', combo'⟩, ct', ng'⟩ := s'
  obtain ⟨⟨e1, ht, e2⟩, e3, e4⟩ := h
  simp only at e1 ht e2 e3 e4
  subst e1 e2 e3 e4
  unfold seqStep
  refine (resolve_rename hf _ _ _ ht _).bind ?_
  rintro ⟨b, d, m, tr, c⟩ ⟨b', d', m', tr', c'⟩ ⟨e1, hsp, e3, h1, e4⟩
  simp only at e1 hsp e3 h1 e4
  subst e1 e3 e4
  refine (relEq _).bind ?_
  rintro ts _ rfl
  refine (recordTarget_rename _ _ _).bind ?_
  rintro rb _ rfl
  refine (processSkill_rename hf _ _ hk _ h1 _ _).bind ?_
  rintro ⟨rb, tr⟩ ⟨_, tr'⟩ ⟨rfl, h2⟩
  refine (relEq _).bind ?_
  rintro ts _ rfl
  show Rel _ (if p.skill.isGCD.getD false = true then _ else _) (if p.skill.isGCD.getD false = true then _ else _)
  split
  · show Rel _ _ (recastTime rb.stats ts b' d' >>= _)
    rw [show recastTime rb.stats ts b' d' = recastTime rb.stats ts b' d by unfold recastTime; rw [hsp.2]]
    refine (relEq _).bind ?_
    rintro rc _ rfl
    refine (relEq _).bind ?_
    rintro ct _ rfl
    exact ⟨⟨rfl, h2, rfl⟩, rfl, rfl⟩
  · exact ⟨⟨rfl, h2, rfl⟩, rfl, rfl⟩

theorem processQSequence_rename (hf : Function.Injective f)
    {rb : RotationBuilder}
    (hk : ∀ p ∈ rb.qSequence, PartsOk D f p.skill) :
    Rel (Img (builder f)) rb.processQSequence (builder f rb).processQSequence := by
  unfold processQSequence
  refine (initTrackers_rename (D := D) rb).bind ?_
  rintro ⟨tr, c'⟩ ⟨tr', c⟩ ⟨h1, h2⟩
  simp only at h1 h2
  subst h2
  simp only
  rw [show (builder f rb).qSequence = rb.qSequence.map (seq f) from rfl, List.foldlM_map]
  have hstep : ∀ s s' : SeqState, ∀ p ∈ rb.qSequence, SqRel D f s s' →
      Rel (SqRel D f) (seqStep s p) (seqStep s' (seq f p)) :=
    fun s s' p hp h => seqStep_rename hf h (hk p hp)
  have h0 : SqRel D f
      { s := { rb := rb, tr := tr, combo := c }, currT := rb.fightStart.getD 0, nextGcd := ⊥ }
      { s := { rb := builder f rb, tr := tr', combo := c }, currT := rb.fightStart.getD 0, nextGcd := ⊥ } :=
    ⟨⟨rfl, h1, rfl⟩, rfl, rfl⟩
  have key := relFoldlM (g := seqStep) (g' := fun s p => seqStep s (seq f p)) hstep h0
  refine Rel.bind key ?_
  intro s s' h
  exact h.s.rb

/-! ## Dots -/

theorem processAllDots_rename (rb : RotationBuilder) (last : Option ℚ) :
    Rel (Img (builder f)) (rb.processAllDots last) ((builder f rb).processAllDots last) := by
  unfold processAllDots
  rw [show (builder f rb).qDot = rb.qDot.map (fun kv => (f kv.1, kv.2)) from rfl, List.foldlM_map]
  refine Rel.foldlM ?_ _ (show Img (builder f) rb (builder f rb) from rfl)
  rintro rb _ ⟨t, d⟩ rfl
  refine Rel.foldlM ?_ _ (show Img (builder f) rb (builder f rb) from rfl)
  rintro rb _ ⟨g, apps⟩ rfl
  unfold dotStep
  cases g.dotDuration with
  | none => rfl
  | some dur =>
    simp only
    refine Rel.bind (R := fun a b : RotationBuilder × ℕ => b = (builder f a.1, a.2)) ?_ ?_
    · refine Rel.foldlM ?_ _ rfl
      rintro ⟨rb, n⟩ _ r rfl
      unfold rangeStep
      refine (relEq _).bind ?_
      rintro ticks _ rfl
      refine Rel.foldlM ?_ _ rfl
      rintro ⟨rb, n⟩ _ tick rfl
      unfold tickStep
      split
      · rfl
      · refine (addEvent_rename rb _).bind ?_
        rintro rb _ rfl
        rfl
    · rintro ⟨rb, n⟩ _ rfl
      rfl

/-! ## Events -/

theorem isEmpty_rename (events : Events) : (renameTimeline f events).isEmpty = events.isEmpty := by
  unfold Events.isEmpty renameTimeline
  simp only [List.length_map]

theorem firstDamage_rename (events : Events) :
    (renameTimeline f events).getFirstDamageTime = events.getFirstDamageTime := by
  unfold Events.getFirstDamageTime renameTimeline
  rw [List.foldlM_map]
  rfl

theorem lastEvent_rename (events : Events) :
    (renameTimeline f events).getLastEventTime = events.getLastEventTime := by
  unfold Events.getLastEventTime renameTimeline
  rw [List.foldl_map]
  rfl

theorem shiftLoop_rename (first : ℚ) (n : ℕ) (evs res : Events) :
    Rel (Img (renameTimeline f)) (shiftLoop first n evs res)
      (shiftLoop first n (renameTimeline f evs) (renameTimeline f res)) := by
  induction n generalizing evs res with
  | zero =>
    unfold shiftLoop
    rw [isEmpty_rename]
    split <;> rfl
  | succ n ih =>
    unfold shiftLoop
    rw [isEmpty_rename]
    split
    · rfl
    · refine (getNext_rename evs).bind ?_
      rintro ⟨e, evs⟩ _ rfl
      refine (add_rename res (shiftedEvent first e)).bind ?_
      rintro res _ rfl
      exact ih evs res

theorem shiftTimelines_rename (rb : RotationBuilder) :
    Rel (Img (builder f)) rb.shiftTimelines (builder f rb).shiftTimelines := by
  unfold shiftTimelines
  rw [show (builder f rb).events = renameTimeline f rb.events from rfl, firstDamage_rename]
  refine (relEq _).bind ?_
  rintro first _ rfl
  cases first with
  | none => rfl
  | some first =>
    have := shiftLoop_rename (f := f) first rb.events.q.length rb.events {}
    rw [show (renameTimeline f rb.events).q.length = rb.events.q.length from List.length_map ..]
    refine Rel.bind this ?_
    rintro evs _ rfl
    rfl

/-! ## Downtime -/

theorem windowsFor_rename (hf : Function.Injective f) (rb : RotationBuilder) (t : String) :
    (builder f rb).windowsFor (f t) = rb.windowsFor t := by
  unfold windowsFor
  show (match downtimeNames f rb.downtime with | .tuple _ => _ | .dict d => _ | .known ts ws => _) = _
  cases rb.downtime with
  | tuple ws => rfl
  | dict d =>
    show Except.ok _ = Except.ok _
    rw [get?_names hf]
  | known ts ws =>
    show Except.ok _ = Except.ok _
    simp only [Finset.mem_image, hf.eq_iff, exists_eq_right]

theorem targetKept_rename (hf : Function.Injective f) (rb : RotationBuilder) (e : Event) (t : String) :
    (builder f rb).targetKept (renameEvent f e) (f t) = rb.targetKept e t := by
  unfold targetKept inDowntime
  rw [windowsFor_rename hf]
  rfl

theorem validTargets_rename (hf : Function.Injective f) (rb : RotationBuilder) (e : Event) (l : List String) :
    Rel (Img (List.map f)) (rb.validTargets e l) ((builder f rb).validTargets (renameEvent f e) (l.map f)) := by
  induction l with
  | nil => rfl
  | cons t l ih =>
    unfold validTargets
    rw [List.map_cons]
    simp only
    rw [targetKept_rename hf]
    refine (relEq _).bind ?_
    rintro keep _ rfl
    refine ih.bind ?_
    rintro rest _ rfl
    show _ = _
    cases keep <;> rfl

theorem removeLoop_rename (hf : Function.Injective f) (rb : RotationBuilder) (n : ℕ) (evs res : Events) :
    Rel (Img (renameTimeline f)) (rb.removeLoop n evs res)
      ((builder f rb).removeLoop n (renameTimeline f evs) (renameTimeline f res)) := by
  induction n generalizing evs res with
  | zero =>
    unfold removeLoop
    rw [isEmpty_rename]
    split <;> rfl
  | succ n ih =>
    unfold removeLoop
    rw [isEmpty_rename]
    split
    · rfl
    · refine (getNext_rename evs).bind ?_
      rintro ⟨e, evs⟩ _ rfl
      refine (validTargets_rename hf rb e e.targets).bind ?_
      rintro ts _ rfl
      simp only [List.length_map]
      split
      · refine (add_rename res (keptEvent e ts)).bind ?_
        rintro res _ rfl
        exact ih evs res
      · exact ih evs res

theorem removeDamage_rename (hf : Function.Injective f) (rb : RotationBuilder) :
    Rel (Img (builder f)) rb.removeDamageDuringDowntime (builder f rb).removeDamageDuringDowntime := by
  unfold removeDamageDuringDowntime
  have := removeLoop_rename hf rb rb.events.q.length rb.events {}
  rw [show (builder f rb).events.q.length = rb.events.q.length from List.length_map ..]
  refine Rel.bind this ?_
  rintro evs _ rfl
  rfl

/-! ## Auto-attacks -/

theorem speedTimeline_rename (rb : RotationBuilder) : (builder f rb).speedTimeline = rb.speedTimeline := by
  unfold speedTimeline Events.getQ
  have : sortBy Event.key (builder f rb).events.q = (sortBy Event.key rb.events.q).map (renameEvent f) :=
    sortBy_map ..
  rw [this, List.foldlM_map]
  rfl

theorem applicable_rename (hf : Function.Injective f)
    (rb : RotationBuilder)
    {timeline : List (ℚ × Skill)}
    (hk : ∀ x ∈ timeline, CoreOk D f x.2.toSkillCore) (t : ℚ) (skill : Skill) (m : SkillModifier) (targets : List String) :
    Rel (fun a b : StatusEffects × StatusEffects => a.1 = b.1 ∧ SameSpeed a.2 b.2)
      (rb.applicableStatusEffects timeline t skill m targets)
      ((builder f rb).applicableStatusEffects timeline t skill m (targets.map f)) := by
  unfold applicableStatusEffects
  refine (initTrackers_rename (D := D) rb).bind ?_
  rintro ⟨tr, c'⟩ ⟨tr', c⟩ ⟨h1, h2⟩
  simp only at h1 h2
  subst h2
  simp only
  refine Rel.bind (R := TrRel D f) (relFoldlM ?_ h1) ?_
  · intro tr tr' ts hts h
    unfold applicableStep
    refine ((h.se.expire ts.1).add hf ts.1 (hk _ (List.mem_filter.1 hts).1) m targets).bind ?_
    intro se se' h2
    rw [h.res]
    refine (relEq _).bind ?_
    rintro res _ rfl
    exact ⟨h2, rfl⟩
  · intro tr tr' h
    refine ((h.se.expire t).compileBuffs t _).bind ?_
    rintro ⟨⟨b, cb⟩, se⟩ ⟨_, se'⟩ ⟨rfl, h3⟩
    refine (h3.compileDefault hf t _).bind ?_
    rintro ⟨⟨d, cd⟩, se⟩ ⟨⟨d', cd'⟩, se'⟩ ⟨h0, -, h4⟩
    rw [h.res]
    refine (relEq _).bind ?_
    rintro r _ rfl
    exact ⟨rfl, h0⟩

/-- The same state, with other names for the targets. -/
structure NaRel (D : String → Prop) (f : String → String) (a b : NoAutoState) : Prop where
  tr : TrRel D f a.tr b.tr
  combo : b.combo = a.combo
  channel : b.channel = a.channel
  casts : b.casts = a.casts

theorem noAutoStep_rename (hf : Function.Injective f)
    (rb : RotationBuilder) {s s' : NoAutoState}
    (h : NaRel D f s s') {p : TimedPress} (hk : PartsOk D f p.skill) :
    Rel (NaRel D f) (rb.noAutoStep s p) ((builder f rb).noAutoStep s' (timed f p)) := by
  obtain ⟨tr, co, ch, ca⟩ := s
  obtain ⟨tr', co', ch', ca'⟩ := s'
  obtain ⟨ht, e1, e2, e3⟩ := h
  simp only at ht e1 e2 e3
  subst e1 e2 e3
  unfold noAutoStep
  refine (relEq _).bind ?_
  rintro ch _ rfl
  refine (resolveConditions_rename hf _ _ _ ht).bind ?_
  rintro ⟨b, d, m, tr⟩ ⟨_, d', _, tr'⟩ ⟨g1, g2, g3, g4⟩
  simp only at g1 g2 g3 g4
  subst g1 g3
  simp only
  refine (relEq _).bind ?_
  rintro ⟨c, combo⟩ _ rfl
  simp only
  refine (relEq _).bind ?_
  rintro ts _ rfl
  refine (relEq _).bind ?_
  rintro ct _ rfl
  refine (g4.se.add hf _ hk.1 _ [rb.defaultTarget]).bind ?_
  intro se se' h2
  rw [g4.res]
  refine (relEq _).bind ?_
  rintro res _ rfl
  exact ⟨⟨h2, rfl⟩, rfl, rfl, rfl⟩

theorem noAutoLoop_rename (hf : Function.Injective f)
    {Q : List TimedPress}
    (hQ : ∀ p ∈ Q, ∀ q ∈ Q, p.t = q.t → p.skill = q.skill → p.modifier.pyEq q.modifier = true →
      p.jobClass = q.jobClass → (p.targets.map f < q.targets.map f ↔ p.targets < q.targets)) (hk : ∀ p ∈ Q, PartsOk D f p.skill) (rb : RotationBuilder) (n : ℕ) {s s' : NoAutoState}
    (h : NaRel D f s s') (l : List { p // p ∈ Q }) :
    Rel (NaRel D f) (rb.noAutoLoop n s (l.map (·.1))) ((builder f rb).noAutoLoop n s' (l.map (fun p => timed f p.1))) := by
  induction n generalizing s s' l with
  | zero =>
    unfold noAutoLoop
    simp only [List.length_map]
    split
    · rfl
    · exact h
  | succ n ih =>
    unfold noAutoLoop
    simp only [List.length_map]
    split
    · refine (heappop_timed hQ l).bind ?_
      rintro _ _ ⟨p, l', rfl, rfl⟩
      exact (noAutoStep_rename hf rb h (hk p.1 p.2)).bind fun s s' h => ih h l'
    · exact h

theorem getNoAutoPeriods_rename (hf : Function.Injective f)
    (hk : ∀ p ∈ rb.qTimed, PartsOk D f p.skill) (hq : TiesKept f rb) :
    (builder f rb).getNoAutoPeriods = rb.getNoAutoPeriods := by
  refine (Rel.eq ?_).symm
  unfold getNoAutoPeriods
  refine (initTrackers_rename (D := D) rb).bind ?_
  rintro ⟨tr, c'⟩ ⟨tr', c⟩ ⟨h1, h2⟩
  simp only at h1 h2
  subst h2
  simp only
  have key := noAutoLoop_rename (f := f) hf hq hk rb rb.qTimed.length
    (s := ⟨tr, c, {}, []⟩) (s' := ⟨tr', c, {}, []⟩) ⟨h1, rfl, rfl, rfl⟩ (List.attach _)
  rw [List.attach_map_subtype_val] at key
  rw [show (List.attach rb.qTimed).map (fun p => timed f p.1) = rb.qTimed.map (timed f) by
      exact (List.map_map (g := timed f) (f := Subtype.val)).symm.trans (by rw [List.attach_map_subtype_val])] at key
  rw [show (builder f rb).qTimed = rb.qTimed.map (timed f) from rfl, List.length_map]
  refine key.bind ?_
  rintro ⟨tr, co, ch, ca⟩ ⟨tr', co', ch', ca'⟩ ⟨ht, e1, e2, e3⟩
  simp only at ht e1 e2 e3
  subst e1 e2 e3
  exact relEq _

theorem shortenFrom_rename (hf : Function.Injective f) (c : String) (l : List (ℚ × String)) :
    shortenFrom (f c) (l.map (stamp f)) = (shortenFrom c l).map (stamp f) := by
  induction l generalizing c with
  | nil => rfl
  | cons x l ih =>
    rw [List.map_cons]
    unfold shortenFrom
    show (if f x.2 = f c then _ else _) = _
    simp only [hf.eq_iff]
    split
    · exact ih c
    · rw [List.map_cons]
      exact congrArg _ (ih x.2)

theorem shorten_rename (hf : Function.Injective f) (l : List (ℚ × String)) :
    Rel (Img (List.map (stamp f))) (shortenSequence l) (shortenSequence (l.map (stamp f))) := by
  cases l with
  | nil => rfl
  | cons x l =>
    show _ = _
    rw [List.map_cons, ← shortenFrom_rename hf]
    rfl

theorem advanceIndex_rename (ts : List (ℚ × String)) (t : ℚ) (i : ℕ) :
    advanceIndex (ts.map (stamp f)) t i = advanceIndex ts t i := by
  unfold advanceIndex
  rw [← List.map_drop, List.takeWhile_map, List.length_map]
  rfl

theorem nextAuto_rename (hf : Function.Injective f) (rb : RotationBuilder) (t : ℚ)
    (periods : List (ℚ × WithTop ℚ)) (target : String) :
    (builder f rb).getNextAutoTime t periods (f target) = rb.getNextAutoTime t periods target := by
  unfold getNextAutoTime forward
  rw [windowsFor_rename hf]

theorem speed_events {rb : RotationBuilder} {tl : List (ℚ × Skill)} (h : rb.speedTimeline = .ok tl) :
    ∀ x ∈ tl, ∃ e ∈ rb.events.q, e.skill = x.2 := by
  unfold speedTimeline at h
  obtain ⟨l, h1, h2⟩ := Py.bind_eq_ok.1 h
  rw [← Except.ok.inj h2]
  intro x hx
  have hx := (sortBy_perm _ _).mem_iff.1 hx
  have key : ∀ x ∈ l, ∃ e ∈ rb.events.getQ, e.skill = x.2 := by
    refine Py.foldlM_inv (P := fun l : List (ℚ × Skill) => ∀ x ∈ l, ∃ e ∈ rb.events.getQ, e.skill = x.2)
      (by simp) ?_ h1
    intro st e st' he hst hn
    unfold speedStep at hn
    obtain ⟨b, -, hn⟩ := Py.bind_eq_ok.1 hn
    obtain ⟨d, -, hn⟩ := Py.bind_eq_ok.1 hn
    split at hn
    · rw [← Except.ok.inj hn]
      exact hst
    · rw [← Except.ok.inj hn]
      intro x hx
      rcases List.mem_append.1 hx with hx | hx
      · exact hst x hx
      · rw [List.mem_singleton.1 hx]
        exact ⟨e, he, rfl⟩
  obtain ⟨e, he, hee⟩ := key x hx
  exact ⟨e, (sortBy_perm _ _).mem_iff.1 he, hee⟩

theorem added_mem {evs evs' : Events} {n : NewEvent} (h : evs.Ok) (hn : evs.add n = .ok evs') :
    evs'.Ok ∧ ∀ e ∈ evs'.q, e ∈ evs.q ∨ e.skill = n.skill := by
  obtain ⟨r, h1, h2, h3, -⟩ := Events.add_spec evs h n
  rw [hn] at h1
  obtain rfl : evs' = r := Except.ok.inj h1
  refine ⟨h2, fun e he => ?_⟩
  rcases List.mem_cons.1 (h3.mem_iff.1 he) with rfl | he
  · exact .inr rfl
  · exact .inl he

/-- What auto-attacks need to know about the builder. -/
structure AutosOk (D : String → Prop) (f : String → String) (rb : RotationBuilder) : Prop where
  heap : rb.events.Ok
  ties : TiesKept f rb
  timed : ∀ p ∈ rb.qTimed, PartsOk D f p.skill
  events : ∀ e ∈ rb.events.q, CoreOk D f e.skill.toSkillCore

theorem autosLoop_rename (hf : Function.Injective f)
    {skill : Skill} (hk : CoreOk D f skill.toSkillCore) (delay : ℚ)
    (ts : List (ℚ × String)) (last wd : ℚ) (n : ℕ) (hq : AutosOk D f rb) (t : WithTop ℚ) (i : ℕ) :
    Rel (Img (builder f)) (autosLoop skill delay ts last wd n rb t i)
      (autosLoop skill delay (ts.map (stamp f)) last wd n (builder f rb) t i) := by
  induction n generalizing rb t i with
  | zero => rfl
  | succ n ih =>
    unfold autosLoop
    cases t with
    | top => rfl
    | coe t =>
      simp only
      split
      · rw [advanceIndex_rename, Shift.pyIdx_map]
        cases pyIdx ts (advanceIndex ts t i - 1) with
        | error e => rfl
        | ok x =>
          obtain ⟨u, target⟩ := x
          simp only [Except.map, Py.ok_bind]
          show Rel _ _ ((builder f rb).addEvent (renameNew f (autoEvent skill t delay target)) >>= _)
          have hqa : ∀ r, rb.addEvent (autoEvent skill t delay target) = .ok r → AutosOk D f r := by
            intro r hr
            unfold addEvent at hr
            obtain ⟨evs, hev, hr⟩ := Py.bind_eq_ok.1 hr
            rw [← Except.ok.inj hr]
            obtain ⟨g1, g2⟩ := added_mem hq.heap hev
            refine ⟨g1, hq.ties, hq.timed, fun e he => ?_⟩
            rcases g2 e he with he | he
            · exact hq.events e he
            · rw [he]
              exact hk
          have hadd := addEvent_rename (f := f) rb (autoEvent skill t delay target)
          cases hr : rb.addEvent (autoEvent skill t delay target) with
          | error e =>
            rw [hr] at hadd
            match hz : (builder f rb).addEvent (renameNew f (autoEvent skill t delay target)) with
            | .ok z => rw [hz] at hadd; exact hadd.elim
            | .error z => rw [hz] at hadd; exact hadd
          | ok r =>
            rw [hr] at hadd
            match hz : (builder f rb).addEvent (renameNew f (autoEvent skill t delay target)) with
            | .error z => rw [hz] at hadd; exact hadd.elim
            | .ok z =>
              rw [hz] at hadd
              obtain rfl : z = builder f r := hadd
              simp only [Py.ok_bind]
              rw [speedTimeline_rename]
              refine bindEq fun tl htl => ?_
              rw [show [(builder f r).defaultTarget] = [r.defaultTarget].map f from rfl]
              refine (applicable_rename hf r (timeline := tl) (fun x hx => by
                obtain ⟨e, he, hee⟩ := speed_events htl x hx
                rw [← hee]
                exact (hqa r hr).events e he) t skill {} _).bind ?_
              rintro ⟨b, d⟩ ⟨_, d'⟩ ⟨g1, g2⟩
              simp only at g1 g2
              subst g1
              simp only
              rw [getNoAutoPeriods_rename hf (hqa r hr).timed (hqa r hr).ties, ← g2.1]
              refine (relEq _).bind ?_
              rintro ps _ rfl
              show Rel _ _ ((builder f r).getNextAutoTime _ ps (f target) >>= _)
              rw [nextAuto_rename hf]
              refine (relEq _).bind ?_
              rintro nx _ rfl
              exact ih (hqa r hr) nx _
      · rfl

theorem addAutos_rename (hf : Function.Injective f)
    (hq : AutosOk D f rb)
    (hk : ∀ skill, rb.autoSkill = .ok skill → CoreOk D f skill.toSkillCore) (fuel : ℕ) (last : Option ℚ) :
    Rel (Img (builder f)) (rb.addAutos fuel last) ((builder f rb).addAutos fuel last) := by
  unfold addAutos
  have hs : sortBy (fun x : ℚ × String => x.1) (builder f rb).timestamps =
      (sortBy (fun x : ℚ × String => x.1) rb.timestamps).map (stamp f) := sortBy_map ..
  rw [hs]
  refine (shorten_rename hf _).bind ?_
  rintro ts _ rfl
  refine bindEq (x := rb.autoSkill) fun skill hs => ?_
  show Rel _ (_ >>= _) ((renameTimeline f rb.events).getFirstDamageTime >>= _)
  rw [firstDamage_rename]
  refine (relEq _).bind ?_
  rintro first _ rfl
  rw [show (builder f rb).events.getLastEventTime = rb.events.getLastEventTime from lastEvent_rename _]
  cases first with
  | none => rfl
  | some first =>
    simp only
    refine (relEq _).bind ?_
    rintro delay _ rfl
    cases last with
    | none =>
      cases rb.events.getLastEventTime with
      | none => rfl
      | some l => exact autosLoop_rename hf (hk skill hs) delay ts l _ fuel hq _ 0
    | some l => exact autosLoop_rename hf (hk skill hs) delay ts l _ fuel hq _ 0

/-! ## The timeline -/

theorem processDowntime_rename (rb : RotationBuilder) :
    (builder f rb).processDowntimeWindows = builder f rb.processDowntimeWindows := by
  obtain ⟨⟩ := rb
  rename_i downtime _ _ _ _ _ _ _ _
  unfold processDowntimeWindows
  cases downtime <;> rfl

theorem relBind {α β γ δ : Type} {g : α → β} {S : γ → δ → Prop} {x : Py α} {y : Py β} {k : α → Py γ}
    {k' : β → Py δ} (h : Rel (Img g) x y) (hk : ∀ a, x = .ok a → Rel S (k a) (k' (g a))) :
    Rel S (x >>= k) (y >>= k') := by
  match x, y, h with
  | .ok a, .ok _, rfl => exact hk a rfl
  | .error e, .error _, rfl => rfl

theorem finish_rename (hf : Function.Injective f) (rb : RotationBuilder) :
    Rel (Img (builder f)) (finish rb) (finish (builder f rb)) := by
  unfold finish shiftIfNeeded
  have h1 : Rel (Img (builder f)) (if rb.fightStart.isNone = true then rb.shiftTimelines else pure rb)
      (if (builder f rb).fightStart.isNone = true then (builder f rb).shiftTimelines else pure (builder f rb)) := by
    show Rel _ _ (if rb.fightStart.isNone = true then _ else _)
    split
    · exact shiftTimelines_rename rb
    · rfl
  refine h1.bind ?_
  rintro rb _ rfl
  refine (removeDamage_rename hf rb).bind ?_
  rintro rb _ rfl
  rfl

theorem inPlay_lib {rb : RotationBuilder} (hb : Built rb)
    (hk : ∀ name job s, rb.lib.getSkill name job = .ok s → PartsOk D f s) {k : SkillCore} (h : InPlay rb k) :
    CoreOk D f k := by
  have hi := built_inv hb
  rcases h with ⟨skill, hs, h⟩ | ⟨-, skill, delay, ⟨hs, -⟩, rfl⟩
  · have hp : PartsOk D f skill := by
      rcases hs with ⟨p, hp, rfl⟩ | ⟨p, hp, rfl⟩
      · obtain ⟨name, g⟩ := (hi.timed p hp).2
        exact hk _ _ _ g
      · obtain ⟨name, g⟩ := (hi.seq p hp).2
        exact hk _ _ _ g
    rcases h with rfl | ⟨m, fs, hfs, g, hg, rfl⟩
    · exact hp.1
    · exact hp.2 m fs hfs g hg
  · rcases hs with ⟨-, hs⟩ | ⟨-, hs⟩
    · exact (hk _ _ _ hs).1
    · exact (hk _ _ _ hs).1

theorem autoSkill_lib {rb : RotationBuilder}
    (hk : ∀ name job s, rb.lib.getSkill name job = .ok s → PartsOk D f s) {skill : Skill}
    (h : rb.autoSkill = .ok skill) : CoreOk D f skill.toSkillCore := by
  unfold autoSkill at h
  obtain ⟨b, -, h⟩ := Py.bind_eq_ok.1 h
  cases b with
  | true => exact (hk _ _ _ h).1
  | false => exact (hk _ _ _ h).1

/-- The timeline of a rotation with other names for the targets. -/
theorem getSkillTiming_rename (hf : Function.Injective f) (hb : Built rb)
    (hk : ∀ name job s, rb.lib.getSkill name job = .ok s → PartsOk D f s) (hq : TiesKept f rb) (fuel : ℕ) :
    Rel (Img (builder f)) (rb.getSkillTiming fuel) ((builder f rb).getSkillTiming fuel) := by
  have hall : ∀ rb : RotationBuilder, rb.getSkillTiming fuel =
      (rb.start.processQSequence >>= fun r1 => r1.processQTimed >>= fun r2 =>
        r2.processAllDots (if r2.ignoreTrailingDots then r2.events.getLastEventTime else none) >>= fun r3 =>
        (if r3.enableAutos then r3.addAutos fuel (if r2.ignoreTrailingDots then r2.events.getLastEventTime else none)
          else pure r3) >>= finish) := by
    intro rb
    have h4 : ∀ r : RotationBuilder, finish r = (do
        let rb ← if r.fightStart.isNone then r.shiftTimelines else pure r
        let rb ← rb.removeDamageDuringDowntime
        return { rb with presses := sortBy (·.t) rb.presses }) := by
      intro r
      unfold finish shiftIfNeeded
      split <;> rfl
    unfold getSkillTiming
    change (rb.start.processQSequence >>= _) = _
    refine congrArg _ (funext fun r1 => ?_)
    refine congrArg _ (funext fun r2 => ?_)
    refine congrArg _ (funext fun r3 => ?_)
    generalize (if r2.ignoreTrailingDots then r2.events.getLastEventTime else none) = last
    simp only
    by_cases ha : r3.enableAutos = true
    · rw [if_pos ha, if_pos ha]
      exact congrArg _ (funext fun r => (h4 r).symm)
    · rw [if_neg ha, if_neg ha]
      exact (h4 r3).symm
  rw [hall, hall]
  have hs : (builder f rb).start = builder f rb.start := by
    unfold start
    rw [processDowntime_rename]
    rfl
  have hq1 : TiesKept f rb.start := by
    unfold TiesKept
    rw [show rb.start.qTimed = rb.qTimed from (start_fields rb).2.2.2.2.2.2.2.2.2.1]
    exact hq
  rw [hs]
  have hi := built_inv hb
  obtain ⟨e1, e2, e3, e4, -, -, -, -, -, e10, e11, e12, -, e14, -⟩ := start_fields rb
  have hseq : ∀ p ∈ rb.start.qSequence, PartsOk D f p.skill := by
    rw [e11]
    intro p hp
    obtain ⟨name, g⟩ := (hi.seq p hp).2
    exact hk _ _ _ g
  have htimed : ∀ p ∈ rb.start.qTimed, PartsOk D f p.skill := by
    rw [e10]
    intro p hp
    obtain ⟨name, g⟩ := (hi.timed p hp).2
    exact hk _ _ _ g
  refine relBind (processQSequence_rename hf hseq) fun r1 h1 => ?_
  have k2 : TiesKept f r1 ∧ ∀ p ∈ r1.qTimed, PartsOk D f p.skill := by
    have h1' := h1
    rw [processQSequence_eq] at h1'
    obtain ⟨l, -, h1'⟩ := Py.bind_eq_ok.1 h1'
    rw [← Except.ok.inj h1']
    exact ⟨hq1, htimed⟩
  refine relBind (processQTimed_rename hf k2.2 k2.1) fun r2 h2 => ?_
  have hr2 : (rb.start.processQSequence >>= fun rb => rb.processQTimed) = .ok r2 := by
    rw [h1]
    exact h2
  rw [processQueues_eq] at hr2
  obtain ⟨l, hl, hr2⟩ := Py.bind_eq_ok.1 hr2
  have hl2 : (if (builder f r2).ignoreTrailingDots then (builder f r2).events.getLastEventTime else none) =
      (if r2.ignoreTrailingDots then r2.events.getLastEventTime else none) := by
    rw [show (builder f r2).events.getLastEventTime = r2.events.getLastEventTime from lastEvent_rename _]
    rfl
  rw [hl2]
  generalize (if r2.ignoreTrailingDots then r2.events.getLastEventTime else none) = last
  refine relBind (processAllDots_rename r2 last) fun r3 h3 => ?_
  rw [processAllDots_eq] at h3
  obtain ⟨as, has, h3⟩ := Py.bind_eq_ok.1 h3
  have hr2 : r2 = rb.start.apply l := (Except.ok.inj hr2).symm
  have hr3 : r3 = r2.addAll as := (Except.ok.inj h3).symm
  have hevs : r3.events = (l.adds ++ as).foldl Events.push {} := by
    rw [hr3, hr2]
    unfold addAll apply
    simp only [e14, List.foldl_append]
  have hq4 : AutosOk D f r3 := by
    refine ⟨?_, ?_, ?_, ?_⟩
    · rw [hevs]
      exact (pushes_empty _).1
    · rw [hr3, hr2]
      exact hq1
    · rw [hr3, hr2]
      exact htimed
    · rw [hevs]
      intro e he
      obtain ⟨a, ha, hbe⟩ := mem_pushes he
      rw [hbe.2.2.1]
      have hqd : r2.qDot = addDots rb.qDot l.dots := by
        rw [hr2]
        unfold apply
        simp only [e12]
      rw [hqd] at has
      exact inPlay_lib hb hk (collected_origin hb hl has a ha).inPlay
  have h4 : Rel (Img (builder f)) (if r3.enableAutos then r3.addAutos fuel last else pure r3)
      (if (builder f r3).enableAutos then (builder f r3).addAutos fuel last else pure (builder f r3)) := by
    show Rel _ _ (if r3.enableAutos = true then _ else _)
    split
    · refine addAutos_rename hf hq4 (fun skill hs => autoSkill_lib (fun name job s g => hk name job s ?_) hs) fuel last
      rw [← e2, show rb.start.lib = r3.lib by rw [hr3, hr2]; rfl]
      exact g
    · rfl
  refine h4.bind ?_
  rintro r4 _ rfl
  exact finish_rename hf r4

/-! ## The public calls -/

theorem processTargets_rename {targets targets' : Option String} (h1 : OneTarget rb.defaultTarget)
    (h2 : OneTarget (f rb.defaultTarget)) (h : RenamedTargets f targets targets') :
    (builder f rb).processTargets targets' =
      ((rb.processTargets targets).1.map f, builder f (rb.processTargets targets).2) := by
  have hs : splitTargets (targets'.getD (builder f rb).defaultTarget) =
      (splitTargets (targets.getD rb.defaultTarget)).map f := by
    match targets, targets', h with
    | none, none, _ =>
      show splitTargets (f rb.defaultTarget) = (splitTargets rb.defaultTarget).map f
      rw [h1, h2]
      rfl
    | some s, some s', h => exact h
  unfold processTargets
  simp only
  rw [hs]
  refine congrArg _ ?_
  show ({ builder f rb with allTargets := _ } : RotationBuilder) = builder f _
  unfold builder
  simp only
  congr 1
  ext x
  simp only [Finset.mem_union, Finset.mem_image, List.mem_toFinset, List.mem_map]
  constructor
  · rintro (⟨a, h, rfl⟩ | ⟨a, h, rfl⟩)
    · exact ⟨a, .inl h, rfl⟩
    · exact ⟨a, .inr h, rfl⟩
  · rintro ⟨a, h | h, rfl⟩
    · exact .inl ⟨a, h, rfl⟩
    · exact .inr ⟨a, h, rfl⟩

theorem run_rename (hf : Function.Injective f) (hb : Built rb)
    (hk : ∀ name job s, rb.lib.getSkill name job = .ok s → PartsOk D f s)
    {op op' : BuilderOp} (h1 : OneTarget rb.defaultTarget) (h2 : OneTarget (f rb.defaultTarget))
    (h : op.Renamed f op') (hq : TiesKept f rb) :
    Rel (Img (builder f)) (op.run rb) (op'.run (builder f rb)) := by
  cases op with
  | addNext name m job n targets =>
    cases op' with
    | addNext name' m' job' n' targets' =>
      obtain ⟨rfl, rfl, rfl, rfl, ht⟩ := h
      show Rel _ (rb.addNext name' m' job' n' targets) ((builder f rb).addNext name' m' job' n' targets')
      unfold addNext
      rw [processTargets_rename h1 h2 ht]
      simp only
      refine (relEq _).bind ?_
      rintro s _ rfl
      show _ = _
      unfold builder
      simp [seq, List.map_replicate, getDefaultSkillModifier]
    | _ => exact h.elim
  | add t name m job targets =>
    cases op' with
    | add t' name' m' job' targets' =>
      obtain ⟨rfl, rfl, rfl, rfl, ht⟩ := h
      show Rel _ (rb.add t' name' m' job' targets) ((builder f rb).add t' name' m' job' targets')
      unfold RotationBuilder.add
      rw [processTargets_rename h1 h2 ht]
      simp only
      refine (relEq _).bind ?_
      rintro s _ rfl
      show _ = _
      unfold builder
      simp [timed, getDefaultSkillModifier]
    | _ => exact h.elim
  | setTrailing x =>
    cases op' with
    | setTrailing x' =>
      obtain rfl : x' = x := h
      rfl
    | _ => exact h.elim
  | setAutos x =>
    cases op' with
    | setAutos x' =>
      obtain rfl : x' = x := h
      rfl
    | _ => exact h.elim
  | timing fuel =>
    cases op' with
    | timing fuel' =>
      obtain rfl : fuel' = fuel := h
      exact getSkillTiming_rename hf hb hk hq fuel'
    | _ => exact h.elim

/-- Later calls keep the presses of earlier ones. -/
theorem run_keeps {op : BuilderOp} {rb rb' : RotationBuilder} (h : op.run rb = .ok rb') :
    rb'.defaultTarget = rb.defaultTarget ∧ ∀ p ∈ rb.qTimed, p ∈ rb'.qTimed := by
  cases op with
  | addNext name m job n targets =>
    obtain ⟨s1, h1, rfl⟩ := addNext_ok h
    exact ⟨rfl, fun p hp => hp⟩
  | add t name m job targets =>
    obtain ⟨s1, h1, rfl⟩ := RotationBuilder.add_ok h
    exact ⟨rfl, fun p hp => List.mem_append_left _ hp⟩
  | setTrailing x =>
    cases h
    exact ⟨rfl, fun p hp => hp⟩
  | setAutos x =>
    cases h
    exact ⟨rfl, fun p hp => hp⟩
  | timing fuel =>
    obtain ⟨a1, a2, a3, a4, a5, a6, a7, -⟩ := timing_fields h
    exact ⟨a7, fun p hp => by rw [a4]; exact hp⟩

theorem runs_keep {ops : List BuilderOp} {rb rb' : RotationBuilder} (h : ops.foldlM BuilderOp.run rb = .ok rb') :
    ∀ p ∈ rb.qTimed, p ∈ rb'.qTimed := by
  induction ops generalizing rb with
  | nil =>
    cases h
    exact fun p hp => hp
  | cons op ops ih =>
    rw [Py.foldlM_cons] at h
    obtain ⟨r, h1, h2⟩ := Py.bind_eq_ok.1 h
    exact fun p hp => ih h2 p ((run_keeps h1).2 p hp)

theorem built_run {op : BuilderOp} {rb rb' : RotationBuilder} (hb : Built rb) (h : op.run rb = .ok rb') :
    Built rb' := by
  obtain ⟨stats, lib, snap, autos, trailing, start, downtime, target, rb₀, ops, h1, h2⟩ := hb
  refine ⟨stats, lib, snap, autos, trailing, start, downtime, target, rb₀, ops ++ [op], h1, ?_⟩
  rw [Py.foldlM_append, h2, Py.ok_bind, Py.foldlM_cons, h]
  rfl

theorem runs_rename (hf : Function.Injective f)
    {ops ops' : List BuilderOp} (h : List.Forall₂ (BuilderOp.Renamed f) ops ops') {rb rb' : RotationBuilder}
    (hb : Built rb) (hk : ∀ name job s, rb.lib.getSkill name job = .ok s → PartsOk D f s)
    (h1 : OneTarget rb.defaultTarget) (h2 : OneTarget (f rb.defaultTarget))
    (hr : ops.foldlM BuilderOp.run rb = .ok rb') (hq : TiesKept f rb') :
    ops'.foldlM BuilderOp.run (builder f rb) = .ok (builder f rb') := by
  induction h generalizing rb with
  | nil =>
    cases hr
    rfl
  | cons ho hos ih =>
    have hq0 : TiesKept f rb := fun p hp q hq' => hq p (runs_keep hr p hp) q (runs_keep hr q hq')
    rw [Py.foldlM_cons] at hr ⊢
    obtain ⟨r, hr1, hr2⟩ := Py.bind_eq_ok.1 hr
    have key := run_rename hf hb hk h1 h2 ho hq0
    rw [hr1] at key
    match hz : BuilderOp.run (builder f rb) _ with
    | .error z => rw [hz] at key; exact key.elim
    | .ok z =>
      rw [hz] at key
      obtain rfl : z = builder f r := key
      have hkeep := (run_keeps hr1).1
      exact ih (built_run hb hr1) (by rw [(op_frame hr1).2.1]; exact hk) (by rw [hkeep]; exact h1)
        (by rw [hkeep]; exact h2) hr2

/-- Skills of a library with quiet debuffs, or any with the same name of the default target. -/
theorem partsOk_of {lib : SkillLibrary}
    (hd : f SimConsts.DEFAULT_TARGET = SimConsts.DEFAULT_TARGET ∨ QuietDebuffs lib) :
    ∃ D, ∀ name job s, lib.getSkill name job = .ok s → PartsOk D f s := by
  rcases hd with hd | hd
  · exact ⟨fun _ => True, fun name job s hs => ⟨⟨⟨fun _ _ _ => trivial, .inl hd⟩, .inl hd⟩,
      fun _ _ _ _ _ => ⟨⟨fun _ _ _ => trivial, .inl hd⟩, .inl hd⟩⟩⟩
  · refine ⟨fun n => ∃ name job s k, lib.getSkill name job = .ok s ∧ PartOf s k ∧ k.name = n ∧
      ∃ m e, k.getDebuffSpec m = .ok (some e), ?_⟩
    intro name job s hs
    have key : ∀ k, PartOf s k → CoreOk (fun n => ∃ name job s k, lib.getSkill name job = .ok s ∧ PartOf s k ∧
        k.name = n ∧ ∃ m e, k.getDebuffSpec m = .ok (some e)) f k := by
      intro k hk
      refine ⟨⟨fun m e he => ⟨name, job, s, k, hs, hk, rfl, m, e, he⟩, .inr ?_⟩, .inr (hd name job s k hs hk).1⟩
      rintro m e he n hn ⟨name', job', s', k', g1, g2, rfl, m', e', g3⟩
      exact (hd name job s k hs hk).2 m e he name' job' s' k' g1 g2 hn m' e' g3
    exact ⟨key _ (.inl rfl), fun m fs hfs g hg => key _ (.inr ⟨m, fs, hfs, g, hg, rfl⟩)⟩

theorem init_rename {stats : Stats} {lib : SkillLibrary} {snap : Option ℚ} {autos trailing : Bool}
    {start : Option ℚ} {downtime : RawDowntime} {target : String} {rb : RotationBuilder}
    (h : RotationBuilder.init stats lib snap autos trailing start downtime target = .ok rb) :
    RotationBuilder.init stats lib snap autos trailing start (renameRawDowntime f downtime) (f target) =
      .ok (builder f rb) ∧ rb.defaultTarget = target := by
  unfold RotationBuilder.init at h ⊢
  obtain ⟨p, h1, h⟩ := Py.bind_eq_ok.1 h
  rw [h1, ← Except.ok.inj h]
  refine ⟨?_, rfl⟩
  cases downtime with
  | tuple ws => rfl
  | dict d =>
    show Except.ok _ = Except.ok _
    unfold builder
    simp [initDowntime, renameRawDowntime, downtimeNames, names, renameTimeline]

theorem init_lib {stats : Stats} {lib : SkillLibrary} {snap : Option ℚ} {autos trailing : Bool}
    {start : Option ℚ} {downtime : RawDowntime} {target : String} {rb : RotationBuilder}
    (h : RotationBuilder.init stats lib snap autos trailing start downtime target = .ok rb) : rb.lib = lib := by
  unfold RotationBuilder.init at h
  obtain ⟨p, h1, h⟩ := Py.bind_eq_ok.1 h
  rw [← Except.ok.inj h]

theorem runs_lib {ops : List BuilderOp} {rb rb' : RotationBuilder} (h : ops.foldlM BuilderOp.run rb = .ok rb') :
    rb'.lib = rb.lib := by
  induction ops generalizing rb with
  | nil =>
    cases h
    rfl
  | cons op ops ih =>
    rw [Py.foldlM_cons] at h
    obtain ⟨r, h1, h2⟩ := Py.bind_eq_ok.1 h
    rw [ih h2, (op_frame h1).2.1]

/-- Whatever is in play is a part of a skill of the library. -/
theorem inPlay_part {rb : RotationBuilder} (hb : Built rb) {k : SkillCore} (h : InPlay rb k) :
    ∃ name job s, rb.lib.getSkill name job = .ok s ∧ PartOf s k := by
  have hi := built_inv hb
  rcases h with ⟨skill, hs, h⟩ | ⟨-, skill, delay, ⟨hs, -⟩, rfl⟩
  · rcases hs with ⟨p, hp, rfl⟩ | ⟨p, hp, rfl⟩
    · obtain ⟨name, g⟩ := (hi.timed p hp).2
      exact ⟨_, _, _, g, h⟩
    · obtain ⟨name, g⟩ := (hi.seq p hp).2
      exact ⟨_, _, _, g, h⟩
  · rcases hs with ⟨-, hs⟩ | ⟨-, hs⟩
    · exact ⟨_, _, _, hs, .inl rfl⟩
    · exact ⟨_, _, _, hs, .inl rfl⟩

theorem quiet_ends {rb rb' : RotationBuilder} (hb : Built rb) (hd : QuietDebuffs rb.lib) {fuel : ℕ}
    (hr : rb.getSkillTiming fuel = .ok rb') : BuffsEndNoDebuff rb'.events := by
  intro e he m s hs e' he' hn
  obtain ⟨name, job, k, g1, g2⟩ := inPlay_part hb (timing_origin hb hr e he).inPlay
  obtain ⟨name', job', k', g1', g2'⟩ := inPlay_part hb (timing_origin hb hr e' he').inPlay
  exact (hd name job k _ g1 g2).2 m s hs name' job' k' _ g1' g2' hn

end Rename

end Ama
