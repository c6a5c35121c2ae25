import Verif.Spec.Potency
import Verif.Lemmas.GameData.Links
import Verif.Lemmas.GameData.Sharpcast

/-!
# Missing a combo or a positional
-/

namespace Ama.GameData

open Spec SkillLibrary

variable {version : String} {level : ℕ} {lib : SkillLibrary} {cs : List ClassSkills} {base ws : List Skill}

/-! ## Lookups only see the conditions of the table -/

/-- The same variants match. -/
def sameFor {α : Type} (W W' : Conds) : Cond α → Prop
  | .single _ => True
  | .dict d => (Dict.keys d).Nodup ∧ ∀ kv ∈ d, kv.1 ⊆ W ↔ kv.1 ⊆ W'

theorem sameFor_best {α : Type} {d : Dict Conds α} {W W' : Conds} (h : sameFor W W' (.dict d)) :
    Utils.getBestKey (Dict.keys d) W = Utils.getBestKey (Dict.keys d) W' := by
  rw [getBestKey_eq _ _ h.1, getBestKey_eq _ _ h.1, lastBest_congr (W := W) (W' := W')]
  intro k hk
  obtain ⟨kv, hkv, rfl⟩ := List.mem_map.1 hk
  exact h.2 kv hkv

theorem lookup_sameFor {α : Type} {t : Cond α} {W W' : Conds} (h : sameFor W W' t) :
    t.lookup W = t.lookup W' := by
  cases t with
  | single a => rfl
  | dict d =>
    unfold Cond.lookup
    simp only [sameFor_best h]

theorem lookupTuple_sameFor {α : Type} {t : Cond (List α)} {W W' : Conds} (h : sameFor W W' t) :
    t.lookupTuple W = t.lookupTuple W' := by
  cases t with
  | single a => rfl
  | dict d =>
    unfold Cond.lookupTuple
    cases d with
    | nil => rfl
    | cons x d => simp only [sameFor_best h]

/-- The follow-ups of all variants. -/
def tableFollowUps (s : Skill) : List FollowUp :=
  match s.followUpSkills with
  | .single fs => fs
  | .dict d => d.flatMap (·.2)

theorem followUps_mem {s : Skill} {m : SkillModifier} {fs : List FollowUp} (h : s.getFollowUpSkills m = .ok fs)
    {f : FollowUp} (hf : f ∈ fs) : f ∈ tableFollowUps s := by
  unfold Skill.getFollowUpSkills Cond.lookupTuple at h
  unfold tableFollowUps
  split at h
  · rename_i a ha
    rw [ha]
    cases h
    exact hf
  · cases h
    cases hf
  · rename_i d _ ha
    rw [ha]
    obtain ⟨k, _, h⟩ := Py.bind_eq_ok.1 h
    exact List.mem_flatMap.2 ⟨_, Dict.mem_of_get? (Dict.get_ok.1 h), hf⟩

theorem mapM_congr' {α β : Type} {f g : α → Py β} {l : List α} (h : ∀ a ∈ l, f a = g a) :
    l.mapM f = l.mapM g := by
  induction l with
  | nil => rfl
  | cons a l ih =>
    rw [List.mapM_cons, List.mapM_cons, h a List.mem_cons_self,
      ih (fun b hb => h b (List.mem_cons_of_mem _ hb))]

theorem announced_congr {s : Skill} {m m' : SkillModifier}
    (h1 : sameFor m.withCondition m'.withCondition s.damageSpec)
    (h2 : sameFor m.withCondition m'.withCondition s.followUpSkills)
    (h3 : ∀ f ∈ tableFollowUps s, sameFor m.withCondition m'.withCondition f.skill.damageSpec) :
    announced s m = announced s m' := by
  unfold announced
  have e1 : s.getDamageSpec m = s.getDamageSpec m' := lookup_sameFor h1
  have e2 : s.getFollowUpSkills m = s.getFollowUpSkills m' := lookupTuple_sameFor h2
  rw [e1]
  cases s.getDamageSpec m' with
  | error e => rfl
  | ok d =>
    simp only [Py.ok_bind]
    cases hfs : s.getFollowUpSkills m with
    | error e =>
      rw [← e2, hfs]
      rfl
    | ok fs =>
      rw [← e2, hfs]
      simp only [Py.ok_bind]
      have : fs.mapM (fun f => f.skill.getDamageSpec m) = fs.mapM (fun f => f.skill.getDamageSpec m') :=
        mapM_congr' (fun f hf => lookup_sameFor (h3 f (followUps_mem hfs hf)))
      rw [this]

/-! ## The check -/

/-- No variant is for the condition. -/
def silent {α : Type} (c : String) : Cond α → Bool
  | .single _ => true
  | .dict d => decide (Dict.keys d).Nodup && d.all (fun kv => decide (c ∉ kv.1))

/-- All variants are for these conditions only. -/
def within {α : Type} (S : Conds) : Cond α → Bool
  | .single _ => true
  | .dict d => decide (Dict.keys d).Nodup && d.all (fun kv => decide (kv.1 ⊆ S))

theorem silent_same {α : Type} {c : String} {t : Cond α} (h : silent c t = true) (W : Conds) :
    sameFor (insert c W) W t := by
  cases t with
  | single a => trivial
  | dict d =>
    obtain ⟨hn, h⟩ := Bool.and_eq_true_iff.1 h
    refine ⟨of_decide_eq_true hn, fun kv hkv => ?_⟩
    have := of_decide_eq_true (List.all_eq_true.1 h kv hkv)
    refine ⟨fun hs x hx => ?_, fun hs => hs.trans (Finset.subset_insert _ _)⟩
    rcases Finset.mem_insert.1 (hs hx) with rfl | hm
    · exact absurd hx this
    · exact hm

theorem within_same {α : Type} {S W W' : Conds} {t : Cond α} (h : within S t = true)
    (hw : ∀ x ∈ S, x ∈ W ↔ x ∈ W') : sameFor W W' t := by
  cases t with
  | single a => trivial
  | dict d =>
    obtain ⟨hn, h⟩ := Bool.and_eq_true_iff.1 h
    refine ⟨of_decide_eq_true hn, fun kv hkv => ?_⟩
    have := of_decide_eq_true (List.all_eq_true.1 h kv hkv)
    exact ⟨fun hs x hx => (hw x (this hx)).1 (hs hx), fun hs x hx => (hw x (this hx)).2 (hs hx)⟩

/-- All selections from a list. -/
def selections : List String → List (List String)
  | [] => [[]]
  | a :: l => selections l ++ (selections l).map (a :: ·)

theorem filter_selections (p : String → Bool) (l : List String) : l.filter p ∈ selections l := by
  induction l with
  | nil => simp [selections]
  | cons a l ih =>
    unfold selections
    rw [List.mem_append, List.filter_cons]
    split_ifs
    · exact .inr (List.mem_map.2 ⟨_, ih, rfl⟩)
    · exact .inl ih

/-- The conditions that name targets. -/
def targetConds : List String := dropTargets.map targetCond

/-- The conditions for missing the combo and the positional. -/
def missed : List String := ["No Combo", "No Positional"]

/-- No variant of the damage, of the follow-ups or of their damage is for one of these conditions. -/
def unaware (cs : List String) (r : RawSkill) : Bool :=
  (rawKeys r.damageSpec ++ rawKeys r.followUpSkills).all (fun k => (condsOf k).all (fun a => !cs.contains a)) &&
    r.followUpSkills.values.all (fun l => l.all (fun f => cs.all (fun c => silent c f.skill.damageSpec)))

theorem unmentioned_same {α : Type} {c : String} {t : RawCond α} (h : unmentioned c t = true) (W : Conds) :
    sameFor (insert c W) W t.canonicalize := by
  cases t with
  | single a => trivial
  | dict d =>
    refine ⟨canonicalizeDict_nodup d, fun kv hkv => ?_⟩
    have hk : kv.1 ∈ Dict.keys (canonicalizeDict d) := List.mem_map.2 ⟨kv, hkv, rfl⟩
    rw [mem_keys_canonicalizeDict] at hk
    obtain ⟨k, hk, hkk⟩ := hk
    obtain ⟨kv', hkv', rfl⟩ := List.mem_map.1 hk
    have := of_decide_eq_true (List.all_eq_true.1 h kv' hkv')
    rw [hkk] at this
    refine ⟨fun hs x hx => ?_, fun hs => hs.trans (Finset.subset_insert _ _)⟩
    rcases Finset.mem_insert.1 (hs hx) with rfl | hm
    · exact absurd hx this
    · exact hm

theorem unmentioned_of {α : Type} {c : String} {t : RawCond α}
    (h : ∀ k ∈ rawKeys t, c ∉ condsOf k) : unmentioned c t = true := by
  cases t with
  | single a => rfl
  | dict d =>
    refine List.all_eq_true.2 (fun kv hkv => decide_eq_true ?_)
    have := h kv.1 (List.mem_map.2 ⟨kv, hkv, rfl⟩)
    unfold condsOf at this
    unfold Utils.canonicalizeCondition
    split_ifs at this ⊢
    · simp
    · rw [List.mem_toFinset]
      exact this

theorem missed_targets : ∀ c ∈ missed, ∀ n ∈ dropTargets, c ≠ targetCond n := by decide +kernel

theorem unaware_sound {c : String} (hc : c ∈ missed) {cs : List String} (hcs : c ∈ cs) {r : RawSkill} {s : Skill}
    (h : unaware cs r = true) (hs : mkSkill r = .ok s) {m m' : SkillModifier}
    (hm : m'.withCondition = insert c m.withCondition) : announced s m' = announced s m := by
  obtain ⟨h1, h2⟩ := Bool.and_eq_true_iff.1 h
  have hk : ∀ k ∈ rawKeys r.damageSpec ++ rawKeys r.followUpSkills, c ∉ condsOf k := by
    intro k hk hck
    have := List.all_eq_true.1 (List.all_eq_true.1 h1 k hk) c hck
    simp [hcs] at this
  replace hc := missed_targets c hc
  have h3 := unmentioned_of (t := r.damageSpec) (fun k h => hk k (List.mem_append_left _ h))
  have h4 := unmentioned_of (t := r.followUpSkills) (fun k h => hk k (List.mem_append_right _ h))
  have hf := mkSkill_followUps hs
  have e1 : s.getDamageSpec m' = s.getDamageSpec m := by
    unfold mkSkill at hs
    obtain ⟨d, hd, hs⟩ := Py.bind_eq_ok.1 hs
    cases hs
    have := lookup_sameFor (unmentioned_same (unmentioned_dropoff hc h3 hd) m.withCondition)
    rw [← hm] at this
    exact this
  have e2 : s.getFollowUpSkills m' = s.getFollowUpSkills m := by
    unfold Skill.getFollowUpSkills
    rw [hf, hm]
    exact lookupTuple_sameFor (unmentioned_same h4 _)
  unfold announced
  rw [e1, e2]
  cases s.getDamageSpec m with
  | error e => rfl
  | ok d =>
    simp only [Py.ok_bind]
    cases hfs : s.getFollowUpSkills m with
    | error e => rfl
    | ok fs =>
      simp only [Py.ok_bind]
      have : fs.mapM (fun f => f.skill.getDamageSpec m') = fs.mapM (fun f => f.skill.getDamageSpec m) := by
        refine mapM_congr' (fun f hff => ?_)
        unfold SkillCore.getDamageSpec
        rw [hm]
        refine lookup_sameFor (silent_same ?_ _)
        unfold Skill.getFollowUpSkills at hfs
        rw [hf] at hfs
        rcases Cond.lookupTuple_mem hfs with h5 | rfl
        · exact List.all_eq_true.1
            (List.all_eq_true.1 (List.all_eq_true.1 h2 _ (RawCond.values_canonicalize h5)) f hff) c hcs
        · cases hff
      rw [this]

/-- The condition does not raise the announced potency, unless one of the conditions `x` holds. -/
def noGain (c : String) (x : List String) (r : RawSkill) : Bool :=
  match mkSkill r with
  | .error _ => true
  | .ok s =>
    let l := ((rawKeys r.damageSpec ++ rawKeys r.followUpSkills).flatMap condsOf).dedup.filter
        (fun a => decide (a ≠ c) && !x.contains a)
    let S := insert c (l ++ x).toFinset
    (within S s.damageSpec && (within S s.followUpSkills &&
      (tableFollowUps s).all (fun f => within S f.skill.damageSpec))) &&
    (selections l).all (fun w =>
       match announced s { withCondition := w.toFinset }, announced s { withCondition := insert c w.toFinset } with
       | .ok a, .ok b => decide (b ≤ a)
       | _, _ => false)

theorem noGain_sound {c : String} {x : List String} {r : RawSkill} {s : Skill} (h : noGain c x r = true)
    (hs : mkSkill r = .ok s) {m m' : SkillModifier} (hm : m'.withCondition = insert c m.withCondition)
    (hx : ∀ a ∈ x, a ∉ m.withCondition) {p p' : ℚ} (hp : announced s m = .ok p)
    (hp' : announced s m' = .ok p') : p' ≤ p := by
  unfold noGain at h
  rw [hs] at h
  simp only [Bool.and_eq_true] at h
  by_cases hcm : c ∈ m.withCondition
  · have e : announced s m' = announced s m := by
      have hw : m'.withCondition = m.withCondition := by rw [hm, Finset.insert_eq_self.2 hcm]
      unfold announced Skill.getFollowUpSkills SkillCore.getDamageSpec
      rw [hw]
    rw [e, hp] at hp'
    cases hp'
    exact le_rfl
  obtain ⟨⟨h1, h2, h3⟩, h4⟩ := h
  set l := ((rawKeys r.damageSpec ++ rawKeys r.followUpSkills).flatMap condsOf).dedup.filter
      (fun a => decide (a ≠ c) && !x.contains a) with hl
  set w := l.filter (fun a => decide (a ∈ m.withCondition)) with hw
  have hlc : ∀ a ∈ l, a ≠ c := by
    intro a ha
    have := (List.mem_filter.1 ha).2
    rw [Bool.and_eq_true] at this
    exact of_decide_eq_true this.1
  have hmem : ∀ a ∈ (insert c (l ++ x).toFinset : Conds), a ≠ c → (a ∈ m.withCondition ↔ a ∈ w.toFinset) := by
    intro a ha hac
    rw [Finset.mem_insert, List.mem_toFinset, List.mem_append] at ha
    rw [List.mem_toFinset, hw, List.mem_filter, decide_eq_true_eq]
    rcases ha with ha | ha | ha
    · exact absurd ha hac
    · exact ⟨fun h => ⟨ha, h⟩, fun h => h.2⟩
    · exact ⟨fun h => absurd h (hx a ha), fun h => h.2⟩
  have hcw : c ∉ w.toFinset := by
    rw [List.mem_toFinset]
    exact fun h => hlc c (List.mem_filter.1 h).1 rfl
  have e1 : announced s m = announced s { withCondition := w.toFinset } := by
    have key : ∀ a ∈ (insert c (l ++ x).toFinset : Conds), a ∈ m.withCondition ↔ a ∈ w.toFinset := by
      intro a ha
      by_cases hac : a = c
      · subst hac
        exact ⟨fun h => absurd h hcm, fun h => absurd h hcw⟩
      · exact hmem a ha hac
    exact announced_congr (within_same h1 key) (within_same h2 key)
      (fun f hf => within_same (List.all_eq_true.1 h3 f hf) key)
  have e2 : announced s m' = announced s { withCondition := insert c w.toFinset } := by
    have key : ∀ a ∈ (insert c (l ++ x).toFinset : Conds), a ∈ m'.withCondition ↔ a ∈ insert c w.toFinset := by
      intro a ha
      rw [hm, Finset.mem_insert, Finset.mem_insert]
      by_cases hac : a = c
      · simp [hac]
      · rw [hmem a ha hac]
    exact announced_congr (within_same h1 key) (within_same h2 key)
      (fun f hf => within_same (List.all_eq_true.1 h3 f hf) key)
  have := List.all_eq_true.1 h4 w (filter_selections _ _)
  rw [← e1, ← e2, hp, hp'] at this
  exact of_decide_eq_true this

/-- The conditions that name targets, and those under which Snap Punch gains from missing the positional. -/
def exceptions (name : String) : List String :=
  if name = "Snap Punch" then "Coeurl's Fury" :: targetConds else targetConds

/-- Neither missing the combo nor missing the positional raises the announced potency. -/
def fair (r : RawSkill) : Bool :=
  unaware missed r || missed.all (fun c => unaware [c] r || noGain c (exceptions r.name) r)

theorem fair_sound {c : String} (hc : c ∈ missed) {r : RawSkill} {s : Skill} (h : fair r = true)
    (hs : mkSkill r = .ok s) {m m' : SkillModifier} (hm : m'.withCondition = insert c m.withCondition)
    (hx : ∀ a ∈ exceptions r.name, a ∉ m.withCondition) {p p' : ℚ} (hp : announced s m = .ok p)
    (hp' : announced s m' = .ok p') : p' ≤ p := by
  rcases Bool.or_eq_true_iff.1 h with h | h
  · rw [unaware_sound hc hc h hs hm, hp] at hp'
    cases hp'
    exact le_rfl
  · rcases Bool.or_eq_true_iff.1 (List.all_eq_true.1 h c hc) with h | h
    · rw [unaware_sound hc List.mem_cons_self h hs hm, hp] at hp'
      cases hp'
      exact le_rfl
    · exact noGain_sound h hs hm hx hp hp'

end Ama.GameData
