import Verif.Props.Conditions

/-!
# Properties C03 and C05 for damage tables with AoE drop-off
-/

namespace Ama

open Spec Utils

/-- C03 for damage tables with drop-off, as long as the hit is not on a further target: the variant used is a most
specific matching variant of the table given by the user.  For further targets C07 reduces the lookup to this one. -/
theorem C03_dropoff (r : RawSkill) (s : Skill) (hs : mkSkill r = .ok s) (x : ℚ)
    (hx : r.aoeDropoff = some x) (l : List (String × DamageSpec))
    (hr : r.damageSpec = .dict (l.map (fun ks => (ks.1, some ks.2))))
    (hd : DistinctVariants l) (hb : NoBlankKey l)
    (ht : ∀ ks ∈ l, ∀ n, 2 ≤ n → n ≤ 9 → targetCond n ∉ canonicalizeCondition ks.1)
    (m : SkillModifier) (hm : ∀ n, 2 ≤ n → n ≤ 9 → targetCond n ∉ m.withCondition)
    (v : Option DamageSpec) (hv : s.getDamageSpec m = .ok v) :
    ∃ spec, v = some spec ∧ MostSpecific l m.withCondition spec := by
  have hdt : ∀ n, n ∈ dropTargets ↔ 2 ≤ n ∧ n ≤ 9 := by
    intro n
    simp only [dropTargets, List.mem_cons, List.not_mem_nil, or_false]
    omega
  set Ks := l.map (fun ks => canonicalizeCondition ks.1) with hKs
  have hNT : NoTargets Ks := by
    intro K hK k hk
    obtain ⟨ks, hks, rfl⟩ := List.mem_map.1 hK
    exact ht ks hks k ((hdt k).1 hk).1 ((hdt k).1 hk).2
  have hW : ∀ k ∈ dropTargets, targetCond k ∉ m.withCondition := fun k hk =>
    hm k ((hdt k).1 hk).1 ((hdt k).1 hk).2
  have htab := mkSkill_dropoff hs hx hr hd hNT
  set rows := (allDropRows x l).map (fun kv => (canonicalizeCondition kv.1, kv.2)) with hrows
  set base : Dict Conds (Option DamageSpec) :=
    l.map (fun ks => (canonicalizeCondition ks.1, some ks.2)) with hbase
  have hkeys : Dict.keys (base ++ rows) = Ks ++ dropConds Ks := by
    rw [keys_append]
    congr 1
    · simp [hbase, hKs, Dict.keys, Function.comp_def]
    · rw [hKs, ← allDropRows_conds x l]
      simp [hrows, Dict.keys, Function.comp_def]
  have hkn : (Dict.keys (base ++ rows)).Nodup := by
    rw [hkeys]
    exact nodup_dropConds hd hNT
  simp only [SkillCore.getDamageSpec, htab] at hv
  cases hl : lastBest m.withCondition Ks with
  | none =>
    exfalso
    have h1 : lastBest m.withCondition (Dict.keys (base ++ rows)) = none := by
      rw [hkeys, lastBest_nodrop hW, hl]
    rw [Cond.lookup_dict_none hkn h1, Dict.get_ok] at hv
    have hmem : ({""} : Conds) ∈ Dict.keys (base ++ rows) :=
      Dict.get?_isSome.1 (by rw [hv]; rfl)
    rw [hkeys] at hmem
    rcases List.mem_append.1 hmem with h | h
    · obtain ⟨ks, hks, he⟩ := List.mem_map.1 h
      exact hb ks hks he
    · unfold dropConds at h
      obtain ⟨K', hK', hJ⟩ := List.mem_flatMap.1 h
      obtain ⟨k, hk, he⟩ := List.mem_map.1 hJ
      have : targetCond k ∈ ({""} : Conds) := by rw [← he]; simp
      have hne : ∀ k ∈ dropTargets, targetCond k ∉ ({""} : Conds) := by decide +kernel
      exact hne k hk this
  | some K =>
    have h1 : lastBest m.withCondition (Dict.keys (base ++ rows)) = some K := by
      rw [hkeys, lastBest_nodrop hW, hl]
    obtain ⟨v1, hv1, hlook1⟩ := Cond.lookup_dict_some hkn h1
    rw [hlook1] at hv
    cases hv
    obtain ⟨hKmem, hsub, hmax⟩ := lastBest_some (by rw [hKs]; exact hd) hl
    obtain ⟨ks, hks, hKe⟩ := List.mem_map.1 hKmem
    have hbmem : (K, some ks.2) ∈ base ++ rows := by
      rw [List.mem_append]
      left
      rw [hbase]
      exact List.mem_map.2 ⟨ks, hks, by rw [← hKe]⟩
    have e1 := Dict.get?_of_mem hkn hbmem
    rw [hv1] at e1
    refine ⟨ks.2, Option.some.inj e1, ks.1, hks, by rw [hKe]; exact hsub, fun kv hkv hkvW => ?_⟩
    rw [hKe]
    exact hmax _ (List.mem_map.2 ⟨kv, hkv, rfl⟩) hkvW

example : ∃ s, mkSkill dropoffExample = .ok s ∧
    s.getDamageSpec { withCondition := {"No Combo", "Target 1"} } = .ok (some { potency := 200 }) ∧
    s.getDamageSpec { withCondition := {"Target 1"} } = .ok (some { potency := 400 }) := by
  refine ⟨_, rfl, ?_, ?_⟩ <;> decide +kernel

theorem processAoeDropoffDict_default {x : ℚ} {d d' : Dict String (Option DamageSpec)}
    (h : processAoeDropoffDict x d = .ok d') {k : String} (hk : k ∈ Dict.keys d) : k ∈ Dict.keys d' := by
  refine Py.foldlM_inv (P := fun d => k ∈ Dict.keys d) hk (fun s key s' _ hP hstep => ?_) h
  refine Py.foldlM_inv (P := fun d => k ∈ Dict.keys d) hP (fun e n e' _ hP hstep => ?_) hstep
  unfold dropoffStep at hstep
  obtain ⟨v, -, hstep⟩ := Py.bind_eq_ok.1 hstep
  cases v with
  | none => cases hstep
  | some spec =>
    cases hstep
    exact Dict.mem_keys_set.2 (.inr hP)

/-- C05 for damage tables with drop-off: a default variant makes the lookup total, for all targets. -/
theorem C05_dropoff (r : RawSkill) (s : Skill) (hs : mkSkill r = .ok s) (raw : Dict String (Option DamageSpec))
    (hr : r.damageSpec = .dict raw) (v : Option DamageSpec) (hd : ("", v) ∈ raw) (m : SkillModifier) :
    ∃ w, s.getDamageSpec m = .ok w := by
  unfold mkSkill at hs
  obtain ⟨ds, hds, hs⟩ := Py.bind_eq_ok.1 hs
  simp only [Py.pure_eq, Except.ok.injEq] at hs
  subst hs
  rw [hr] at hds
  have key : ∀ d : Dict String (Option DamageSpec), "" ∈ Dict.keys d →
      ∃ w, (RawCond.dict d).canonicalize.lookup m.withCondition = .ok w := by
    intro d hk
    obtain ⟨kv, hkv, e⟩ := List.mem_map.1 hk
    exact lookup_total d kv.2 (by rw [← e]; exact hkv) _
  have h0 : "" ∈ Dict.keys raw := List.mem_map.2 ⟨_, hd, rfl⟩
  cases hx : r.aoeDropoff with
  | none =>
    rw [hx] at hds
    cases hds
    exact key raw h0
  | some x =>
    rw [hx] at hds
    obtain ⟨d', hd', e⟩ := Py.bind_eq_ok.1 hds
    cases e
    exact key d' (processAoeDropoffDict_default hd' h0)

example : ∃ s, mkSkill dropoffExample = .ok s ∧
    s.getDamageSpec { withCondition := {"Target 3", "Unknown"} } = .ok (some { potency := 200 }) := by
  refine ⟨_, rfl, ?_⟩
  decide +kernel

end Ama
