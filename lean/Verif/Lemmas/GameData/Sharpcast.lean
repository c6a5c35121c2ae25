import Verif.Lemmas.GameData.Facts

/-!
# Sharpcast and the skills of the Black Mage
-/

namespace Ama.GameData

open Spec SkillLibrary

variable {version : String} {level : ℕ} {lib : SkillLibrary} {cs : List ClassSkills} {base ws : List Skill}

/-! ## Conditions that are not mentioned -/

/-- No variant is for the condition. -/
def unmentioned {α : Type} (c : String) : RawCond α → Bool
  | .single _ => true
  | .dict d => d.all (fun kv => decide (c ∉ Utils.canonicalizeCondition kv.1))

theorem unmentioned_lookup {α : Type} {c : String} {t : RawCond α} (h : unmentioned c t = true) (W : Conds) :
    t.canonicalize.lookup (insert c W) = t.canonicalize.lookup W := by
  cases t with
  | single a => rfl
  | dict d =>
    refine C06_irrelevant_condition d c (fun kv hkv => ?_) W
    exact of_decide_eq_true (List.all_eq_true.1 h kv hkv)

/-- Drop-off only adds conditions that name targets. -/
theorem unmentioned_dropoff {c : String} {x : Option ℚ} {t t' : RawCond (Option DamageSpec)}
    (hc : ∀ n ∈ dropTargets, c ≠ targetCond n) (h : unmentioned c t = true)
    (hp : processAoeDropoff x t = .ok t') : unmentioned c t' = true := by
  unfold processAoeDropoff at hp
  cases x with
  | none => cases hp; exact h
  | some x =>
    cases t with
    | single o =>
      cases o with
      | none => cases hp
      | some s => cases hp; rfl
    | dict d =>
      obtain ⟨d', hd, hp⟩ := Py.bind_eq_ok.1 hp
      cases hp
      have h0 : ∀ k ∈ Dict.keys d, c ∉ Utils.canonicalizeCondition k := by
        intro k hk
        obtain ⟨kv, hkv, rfl⟩ := List.mem_map.1 hk
        exact of_decide_eq_true (List.all_eq_true.1 h kv hkv)
      have inv : (∀ k ∈ Dict.keys d, k ∈ Dict.keys d') ∧ ∀ k ∈ Dict.keys d', c ∉ Utils.canonicalizeCondition k := by
        unfold processAoeDropoffDict at hd
        refine Py.foldlM_inv (P := fun q : Dict String (Option DamageSpec) =>
          (∀ k ∈ Dict.keys d, k ∈ Dict.keys q) ∧ ∀ k ∈ Dict.keys q, c ∉ Utils.canonicalizeCondition k)
          ⟨fun _ hk => hk, h0⟩ (fun q key q' hkey hq hqq => ?_) hd
        refine Py.foldlM_inv (P := fun q : Dict String (Option DamageSpec) =>
          (∀ k ∈ Dict.keys d, k ∈ Dict.keys q) ∧ ∀ k ∈ Dict.keys q, c ∉ Utils.canonicalizeCondition k)
          hq (fun q n q' hn hq hqq => ?_) hqq
        unfold dropoffStep at hqq
        obtain ⟨v, _, hqq⟩ := Py.bind_eq_ok.1 hqq
        cases v with
        | none => cases hqq
        | some v =>
          cases hqq
          refine ⟨fun k hk => Dict.mem_keys_set.2 (Or.inr (hq.1 k hk)), fun k hk => ?_⟩
          rcases Dict.mem_keys_set.1 hk with rfl | hk
          · rw [canonicalize_dropoffKey _ hn, Finset.mem_insert, not_or]
            exact ⟨hc n hn, h0 _ hkey⟩
          · exact hq.2 k hk
      refine List.all_eq_true.2 (fun kv hkv => decide_eq_true (inv.2 _ (List.mem_map.2 ⟨kv, hkv, rfl⟩)))

/-- Damage and times do not depend on the condition. -/
def indifferent (c : String) (r : RawSkill) : Bool :=
  unmentioned c r.damageSpec && unmentioned c r.timingSpec

theorem indifferent_of {c : String} (hc : ∀ n ∈ dropTargets, c ≠ targetCond n) {r : RawSkill} {s : Skill} (h : indifferent c r = true)
    (hm : mkSkill r = .ok s) {m m' : SkillModifier} (hmm : m'.withCondition = insert c m.withCondition) :
    s.getDamageSpec m' = s.getDamageSpec m ∧ s.getTimingSpec m' = s.getTimingSpec m := by
  unfold indifferent at h
  obtain ⟨h1, h2⟩ := Bool.and_eq_true_iff.1 h
  unfold mkSkill at hm
  obtain ⟨d, hd, hm⟩ := Py.bind_eq_ok.1 hm
  cases hm
  replace h1 := unmentioned_dropoff hc h1 hd
  unfold SkillCore.getDamageSpec SkillCore.getTimingSpec
  rw [hmm]
  exact ⟨unmentioned_lookup h1 _, unmentioned_lookup h2 _⟩

theorem sharpcast_target : ∀ n ∈ dropTargets, "Sharpcast" ≠ targetCond n := by decide +kernel

theorem Blm.sharpcast_free : ∀ e ∈ listed, (rawsOf (job e)).all
    (fun r => decide (r.name ∈ ["Fire", "Scathe"]) || indifferent "Sharpcast" r) = true := by
  decide +kernel

theorem Generic.sharpcast_free : ∀ e ∈ listed, ((asRaws (skillMethods e)).getD []).all
    (indifferent "Sharpcast") = true := by
  decide +kernel

theorem lb_sharpcast_free : ∀ j ∈ Generic.allJobs,
    ((asRaws (match Generic.limitBreaks j with | .ok ms => ms | .error _ => [])).getD []).all
    (indifferent "Sharpcast") = true := by
  decide +kernel

theorem wait_sharpcast_free (i : ℕ) : indifferent "Sharpcast" (Generic.waitRaw i) = true := rfl

theorem Library.sharpcast (hg : Good (Env.of version level)) (h : Library version level lib cs base ws)
    {name : String} {s : Skill} (hs : lib.getSkill name "BLM" = .ok s) (h1 : name ≠ "Fire") (h2 : name ≠ "Scathe")
    {m m' : SkillModifier} (hmm : m'.withCondition = insert "Sharpcast" m.withCondition) :
    s.getDamageSpec m' = s.getDamageSpec m ∧ s.getTimingSpec m' = s.getTimingSpec m := by
  obtain ⟨c, hc, hcj, hn, hm⟩ := (h.made.skills _ _ s).1 hs
  obtain ⟨j, hj, hb⟩ := forall₂_mem h.classes hc
  have hall : c.jobClass ∈ Generic.allJobs := by
    rw [hb.1.job]
    exact (all_checked hg j hj).2
  rcases hm with hm | hm | hm
  · have hjb : j = Blm.job (Env.of version level) := job_unique hj (Blm.mem _) (hb.1.job.symm.trans hcj)
    subst hjb
    rcases hb.1.skills with hk | ⟨hk, h0⟩
    · unfold getSkills at hk
      obtain ⟨l, hl, hk⟩ := Py.bind_eq_ok.1 hk
      obtain ⟨r, hr, hmk⟩ := mapM_mem hk hm
      have hf := Blm.sharpcast_free _ hg.floor
      rw [Blm.job_floor] at hf
      unfold rawsOf at hf
      rw [hl] at hf
      have := List.all_eq_true.1 hf r hr
      rw [Bool.or_eq_true, decide_eq_true_eq, ← mkSkill_name hmk, hn] at this
      rcases this with this | this
      · simp only [List.mem_cons, List.not_mem_nil, or_false] at this
        rcases this with this | this
        · exact absurd this h1
        · exact absurd this h2
      · exact indifferent_of sharpcast_target this hmk hmm
    · rw [h0] at hm
      cases hm
  · rcases List.mem_append.1 hm with hm | hm
    · obtain ⟨rs, e1, e2⟩ := h.methods
      obtain ⟨r, hr, hmk⟩ := mapM_mem e2 hm
      have hf := Generic.sharpcast_free _ hg.floor
      rw [Generic.skillMethods_floor, e1, asRaws_map] at hf
      exact indifferent_of sharpcast_target (List.all_eq_true.1 hf r hr) hmk hmm
    · obtain ⟨r, hr, hmk⟩ := mapM_mem h.waits hm
      obtain ⟨i, hi, rfl⟩ := List.mem_map.1 hr
      exact indifferent_of sharpcast_target (wait_sharpcast_free i) hmk hmm
  · rw [← hcj] at hm
    obtain ⟨rs, e1, e2, _⟩ := lbsOf_spec hall
    obtain ⟨r, hr, hmk⟩ := mapM_mem e2 hm
    have hf := lb_sharpcast_free _ hall
    rw [e1] at hf
    simp only at hf
    rw [asRaws_map] at hf
    exact indifferent_of sharpcast_target (List.all_eq_true.1 hf r hr) hmk hmm

/-- With three Astral Fire, Sharpcast takes the bonus of Fire away. -/
def sharpLoss (r : RawSkill) : Bool :=
  match mkSkill r with
  | .ok s =>
    (match s.getDamageSpec { withCondition := {"3 Astral Fire"} } with
      | .ok (some d) => decide (d.singleDamageMult = 9 / 5) | _ => false) &&
    (match s.getDamageSpec { withCondition := {"3 Astral Fire", "Sharpcast"} } with
      | .ok (some d) => decide (d.singleDamageMult = 1) | _ => false) &&
    (match s.getTimingSpec { withCondition := {"3 Umbral Ice"} } with
      | .ok (some t) => decide (t.baseCastTime = 1250) | _ => false) &&
    (match s.getTimingSpec { withCondition := {"3 Umbral Ice", "Sharpcast"} } with
      | .ok (some t) => decide (t.baseCastTime = 2500) | _ => false)
  | .error _ => false

theorem Blm.fire_sharpcast :
    (rawsOf (job (Env.of "6.55" 90))).any (fun r => decide (r.name = "Fire") && sharpLoss r) = true := by
  decide +kernel

end Ama.GameData
