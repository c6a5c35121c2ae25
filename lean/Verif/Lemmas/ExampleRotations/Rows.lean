import Verif.Lemmas.Locality
import Verif.Lemmas.GameData.Create
import Verif.Spec.ExampleRotations

/-!
# The example rotations, row by row
-/

namespace Ama

/-! ## The version and the level of a library -/

namespace GameData

open SkillLibrary

theorem Tidy.addEach {v : String} {n : ℕ} {lib lib' : SkillLibrary} (h : Tidy v n lib) {ms : List (Py PyVal)}
    (hr : addEach lib ms = .ok lib') : Tidy v n lib' := by
  unfold GameData.addEach at hr
  refine Py.foldlM_inv h (fun l m l' _ ht hb => ?_) hr
  obtain ⟨x, _, hb⟩ := Py.bind_eq_ok.1 hb
  split at hb
  · obtain ⟨s, _, hb⟩ := Py.bind_eq_ok.1 hb
    exact ht.addSkill hb
  · cases hb

theorem created_tidy {version : String} {level : ℕ} {lib : SkillLibrary}
    (h : createSkillLibrary version level = .ok lib) : Tidy version level lib := by
  unfold createSkillLibrary at h
  obtain ⟨l1, h1, h⟩ := Py.bind_eq_ok.1 h
  have t1 : Tidy version level l1 := by
    refine Py.foldlM_inv (Tidy.start version level) (fun l j l' _ ht hb => ?_) h1
    rw [addAll_form] at hb
    obtain ⟨_, _, hb⟩ := Py.bind_eq_ok.1 hb
    obtain ⟨p, _, hb⟩ := Py.bind_eq_ok.1 hb
    obtain ⟨b, _, hb⟩ := Py.bind_eq_ok.1 hb
    obtain ⟨l2, h2, hb⟩ := Py.bind_eq_ok.1 hb
    obtain ⟨l3, h3, hb⟩ := Py.bind_eq_ok.1 hb
    obtain ⟨res, _, hb⟩ := Py.bind_eq_ok.1 hb
    have t0 : Tidy version level (l.entered { jobClass := j.jobClass, priority := p }) := by
      unfold entered
      simp only
      cases p with
      | none => exact ht.setJob _
      | some p => exact (ht.setJob _).setPriority _
    have t2 : Tidy version level l2 := Py.foldlM_inv t0 (fun _ _ _ _ ht hb => Tidy.addComboBreaker ht hb) h2
    have t3 : Tidy version level l3 := by
      split at h3
      · cases h3; exact t2
      · cases h3
      · exact Py.foldlM_inv t2 (fun _ _ _ _ ht hb => Tidy.addSkill ht hb) h3
    exact Py.foldlM_inv t3 (fun _ _ _ _ ht hb => Tidy.addResource ht hb) hb
  unfold addGenericSkills at h
  obtain ⟨l4, h4, h⟩ := Py.bind_eq_ok.1 h
  have t4 : Tidy version level l4 :=
    Py.foldlM_inv t1 (fun _ _ _ _ ht hb => Tidy.addEach (ht.setJob _) hb) h4
  unfold addLimitBreaks at h
  refine Py.foldlM_inv t4 (fun _ _ _ _ ht hb => ?_) h
  obtain ⟨ms, _, hb⟩ := Py.bind_eq_ok.1 hb
  exact Tidy.addEach (ht.setJob _) hb

end GameData

namespace ExampleRotations

open Spec

/-! ## The rows -/

/-- The data of a rotation that is valid for the version and level. -/
def validAt (v : String) (l : ℕ) (ds : Dict ℕ RotationData) : Option RotationData :=
  match Dict.get? ds l with
  | none => none
  | some d => match d.startVersion with
    | none => none
    | some start => if v < start then none else match d.endVersion with
      | none => some d
      | some stop => if stop < v then none else some d

/-- A rotation that is offered: whether it has auto-attacks, its name and its data. -/
abbrev Row := Bool × String × RotationData

/-- The rotations of a job that are offered. -/
def rowsOf (v : String) (l : ℕ) (x : Bool × List (String × Dict ℕ RotationData)) : List Row :=
  x.2.filterMap (fun kv => (validAt v l kv.2).map (fun d => (x.1, kv.1, d)))

/-- All rotations that are offered. -/
def rows (v : String) (l : ℕ) : List Row := allRotations.flatMap (rowsOf v l)

/-- The stats of a rotation. -/
def statsOf (version : String) (s : RotationStats) : Py Stats := do
  let defaultDelay ← Dict.get GameConsts.WEAPON_DELAYS s.jobClass
  mkStats {
    wd := s.wd
    weaponDelay := some (s.weaponDelay.getD defaultDelay)
    mainStat := s.mainStat
    detStat := s.detStat
    critStat := s.critStat
    dhStat := s.dhStat
    speedStat := s.speedStat
    tenacity := s.tenacity
    healerOrCasterStrength := match s.healerOrCasterStrength with
      | some x => some x
      | none => Dict.get? SpecificRotations.HEALER_CASTER_STRENGTH s.jobClass
    jobClass := s.jobClass
    version := version }

/-- The builder of a rotation. -/
def buildWith (lib : SkillLibrary) (stats : Stats) (autos : Bool) (d : RotationData) : Py RotationBuilder := do
  let rb ← RotationBuilder.init stats lib (ignoreTrailingDots := true) (enableAutos := autos) (snapDots := some 0)
  let rb ← (d.partySkills.getD []).foldlM addPartySkill rb
  d.skills.foldlM (fun rb sk => rb.addNext sk) rb

/-- The builder of a row. -/
def rowBuild (lib : SkillLibrary) (r : Row) : Py RotationBuilder := do
  buildWith lib (← statsOf lib.version r.2.2.stats) r.1 r.2.2

/-- The data is as the code needs it: every rotation has one name, and a first version. -/
def Proper (data : List (String × Dict ℕ RotationData)) : Bool :=
  decide (Dict.keys data).Nodup && data.all (fun kv => kv.2.all (fun ld => ld.2.startVersion.isSome))

theorem all_proper : ∀ x ∈ allRotations, Proper x.2 = true := by decide +kernel

theorem set_fresh {α β : Type} [DecidableEq α] (d : Dict α β) (k : α) (v : β) (h : k ∉ Dict.keys d) :
    Dict.set d k v = d ++ [(k, v)] := by
  induction d with
  | nil => rfl
  | cons x d ih =>
    obtain ⟨a, b⟩ := x
    simp only [Dict.keys, List.map_cons, List.mem_cons, not_or] at h
    unfold Dict.set
    rw [if_neg (fun he => h.1 he.symm), ih h.2]
    rfl

theorem collect_eq (data : List (String × Dict ℕ RotationData)) (h : (Dict.keys data).Nodup) :
    collect data = .ok data := by
  suffices H : ∀ (b a : List (String × Dict ℕ RotationData)), (Dict.keys (a ++ b)).Nodup →
      b.foldlM (fun d kv => addRotationData d kv.1 kv.2) a = .ok (a ++ b) by
    exact H data [] h
  intro b
  induction b with
  | nil => intro a _; simp
  | cons x b ih =>
    intro a ha
    have hx : x.1 ∉ Dict.keys a := by
      intro hm
      simp only [Dict.keys, List.map_append, List.map_cons, List.nodup_append] at ha
      exact ha.2.2 x.1 hm x.1 (by simp) rfl
    have hstep : addRotationData a x.1 x.2 = .ok (a ++ [x]) := by
      unfold addRotationData
      rw [if_neg, set_fresh a x.1 x.2 hx]
      rw [Dict.mem_iff]
      exact hx
    rw [Py.foldlM_cons, hstep, Py.ok_bind, ih (a ++ [x]) (by simpa using ha)]
    simp

theorem get?_of_nodup {α β : Type} [DecidableEq α] {d : Dict α β} (h : (Dict.keys d).Nodup) {x : α × β}
    (hx : x ∈ d) : Dict.get? d x.1 = some x.2 := by
  induction d with
  | nil => cases hx
  | cons y d ih =>
    obtain ⟨a, b⟩ := y
    simp only [Dict.keys, List.map_cons, List.nodup_cons] at h
    unfold Dict.get?
    rcases List.mem_cons.1 hx with rfl | hx
    · simp
    · rw [if_neg, ih h.2 hx]
      intro he
      exact h.1 (he ▸ List.mem_map_of_mem (f := Prod.fst) hx)

theorem isValid_eq {info : SpecificRotations} {key : String} {ds : Dict ℕ RotationData}
    (h : Dict.get? info.rotations key = some ds) (hs : ∀ ld ∈ ds, ld.2.startVersion.isSome) :
    info.rotationIsValid key = .ok (validAt info.version info.level ds).isSome := by
  unfold SpecificRotations.rotationIsValid SpecificRotations.getRotationData
  rw [h, Dict.get_ok.2 h]
  unfold validAt
  cases hd : Dict.get? ds info.level with
  | none =>
    have hm : Dict.mem ds info.level = false := by unfold Dict.mem; rw [hd]; rfl
    simp only [Py.ok_bind, hm, hd]
    rfl
  | some d =>
    have hm : Dict.mem ds info.level = true := by unfold Dict.mem; rw [hd]; rfl
    obtain ⟨s, hs⟩ := Option.isSome_iff_exists.1 (hs _ (Dict.mem_of_get? hd))
    simp only at hs
    simp only [Py.ok_bind, hm, hd, hs]
    by_cases h1 : info.version < s
    · simp [h1]
    · cases he : d.endVersion with
      | none => simp [h1]
      | some stop => by_cases h2 : stop < info.version <;> simp [h1, h2]

theorem withRb_eq {info : SpecificRotations} {key : String} {ds : Dict ℕ RotationData} {d : RotationData}
    (h : Dict.get? info.rotations key = some ds) (hs : ∀ ld ∈ ds, ld.2.startVersion.isSome)
    (hv : validAt info.version info.level ds = some d) (rb : RotationBuilder) :
    getExampleRotationWithRb key rb info =
      ((d.partySkills.getD []).foldlM addPartySkill rb >>= fun rb =>
        d.skills.foldlM (fun rb sk => rb.addNext sk) rb) >>= fun rb => .ok (some (key, rb)) := by
  have hd : Dict.get? ds info.level = some d := by
    unfold validAt at hv
    split at hv
    · cases hv
    · rename_i d' hd
      rw [hd]
      split at hv
      · cases hv
      · split_ifs at hv
        split at hv
        · exact hv
        · split_ifs at hv
          exact hv
  unfold getExampleRotationWithRb
  rw [isValid_eq h hs, hv]
  unfold SpecificRotations.getSkills SpecificRotations.getPartySkills SpecificRotations.getRotationData
  simp only [h, hd, Py.ok_bind, Option.isSome_some, not_true_eq_false, if_false, Py.pure_eq]
  cases (d.partySkills.getD []).foldlM addPartySkill rb with
  | error e => rfl
  | ok rb => rfl

theorem example_eq {lib : SkillLibrary} {info : SpecificRotations} {key : String} {ds : Dict ℕ RotationData}
    {d : RotationData} (hl : info.version = lib.version)
    (h : Dict.get? info.rotations key = some ds) (hs : ∀ ld ∈ ds, ld.2.startVersion.isSome)
    (hv : validAt info.version info.level ds = some d) (a : Bool) :
    (if a then getExampleRotation lib key info else getExampleRotationNoAutos lib key info) =
      rowBuild lib (a, key, d) >>= fun rb => .ok (some (key, rb)) := by
  have hd : Dict.get? ds info.level = some d := by
    unfold validAt at hv
    split at hv
    · cases hv
    · rename_i d' hd
      rw [hd]
      split at hv
      · cases hv
      · split_ifs at hv
        split at hv
        · exact hv
        · split_ifs at hv
          exact hv
  have hst : info.getStats key = statsOf lib.version d.stats := by
    unfold SpecificRotations.getStats SpecificRotations.getRotationData statsOf
    simp only [h, hd, Py.ok_bind, hl]
    rfl
  unfold rowBuild buildWith
  simp only
  cases a
  · simp only [Bool.false_eq_true, if_false]
    unfold getExampleRotationNoAutos
    rw [hst]
    cases statsOf lib.version d.stats with
    | error e => rfl
    | ok s =>
      simp only [Py.ok_bind]
      cases RotationBuilder.init s lib (ignoreTrailingDots := true) (snapDots := some 0) with
      | error e => rfl
      | ok rb => simp only [Py.ok_bind]; exact withRb_eq h hs hv rb
  · simp only [if_true]
    unfold getExampleRotation
    rw [hst]
    cases statsOf lib.version d.stats with
    | error e => rfl
    | ok s =>
      simp only [Py.ok_bind]
      cases RotationBuilder.init s lib (ignoreTrailingDots := true) (enableAutos := true) (snapDots := some 0) with
      | error e => rfl
      | ok rb => simp only [Py.ok_bind]; exact withRb_eq h hs hv rb

/-- Add the rotation of a row. -/
def addRow (lib : SkillLibrary) (res : RotationLibrary) (r : Row) : Py RotationLibrary :=
  rowBuild lib r >>= fun rb => .ok (Dict.set res r.2.1 rb)

theorem addRotations_eq {data : List (String × Dict ℕ RotationData)} (hp : Proper data = true) (a : Bool)
    (lib : SkillLibrary) (res : RotationLibrary) :
    addRotations a data lib res = (rowsOf lib.version lib.level (a, data)).foldlM (addRow lib) res := by
  unfold Proper at hp
  simp only [Bool.and_eq_true, decide_eq_true_eq, List.all_eq_true] at hp
  obtain ⟨hn, hs⟩ := hp
  unfold addRotations
  rw [collect_eq data hn, Py.ok_bind]
  simp only
  suffices H : ∀ (b : List (String × Dict ℕ RotationData)), (∀ x ∈ b, x ∈ data) → ∀ res,
      (Dict.keys b).foldlM (fun res key => do
        if ¬ (← (⟨data, lib.version, lib.level⟩ : SpecificRotations).rotationIsValid key) then return res
        let r ← if a then getExampleRotation lib key ⟨data, lib.version, lib.level⟩
          else getExampleRotationNoAutos lib key ⟨data, lib.version, lib.level⟩
        return addToRotationLibrary r res) res =
      (rowsOf lib.version lib.level (a, b)).foldlM (addRow lib) res by
    exact H data (fun _ h => h) res
  intro b
  induction b with
  | nil => intro _ res; rfl
  | cons x b ih =>
    intro hb res
    obtain ⟨key, ds⟩ := x
    have hx := hb (key, ds) (by simp)
    have hget : Dict.get? data key = some ds := get?_of_nodup hn hx
    have hst : ∀ ld ∈ ds, ld.2.startVersion.isSome := hs _ hx
    have hval := isValid_eq (info := ⟨data, lib.version, lib.level⟩) hget hst
    have ih := ih (fun x hx => hb x (by simp [hx]))
    rw [show Dict.keys ((key, ds) :: b) = key :: Dict.keys b from rfl, Py.foldlM_cons, hval]
    unfold rowsOf at ih ⊢
    cases hv : validAt lib.version lib.level ds with
    | none =>
      simp only [Py.ok_bind, Option.isSome_none, Bool.false_eq_true, not_false_eq_true, if_true, Py.pure_eq,
        List.filterMap_cons, hv, Option.map_none]
      exact ih res
    | some d =>
      have hex := example_eq (lib := lib) (info := ⟨data, lib.version, lib.level⟩) rfl hget hst hv a
      simp only [Py.ok_bind, Option.isSome_some, not_true_eq_false, if_false, Py.pure_eq, List.filterMap_cons, hv,
        Option.map_some, Py.foldlM_cons]
      cases a
      · simp only [Bool.false_eq_true, if_false] at hex ⊢
        rw [hex]
        unfold addRow
        cases rowBuild lib (false, key, d) with
        | error e => rfl
        | ok rb =>
          simp only [Py.ok_bind]
          exact ih _
      · simp only [if_true] at hex ⊢
        rw [hex]
        unfold addRow
        cases rowBuild lib (true, key, d) with
        | error e => rfl
        | ok rb =>
          simp only [Py.ok_bind]
          exact ih _

theorem getExampleRotations_eq (lib : SkillLibrary) :
    getExampleRotations lib = (rows lib.version lib.level).foldlM (addRow lib) [] := by
  unfold getExampleRotations rows
  have H : ∀ (xs : List (Bool × List (String × Dict ℕ RotationData))), (∀ x ∈ xs, Proper x.2 = true) → ∀ res,
      xs.foldlM (fun res x => addRotations x.1 x.2 lib res) res =
        (xs.flatMap (rowsOf lib.version lib.level)).foldlM (addRow lib) res := by
    intro xs
    induction xs with
    | nil => intro _ _; rfl
    | cons x xs ih =>
      intro h res
      rw [Py.foldlM_cons, addRotations_eq (h x (by simp)), List.flatMap_cons, Py.foldlM_append]
      cases (rowsOf lib.version lib.level (x.1, x.2)).foldlM (addRow lib) res with
      | error e => rfl
      | ok r =>
        simp only [Py.ok_bind]
        exact ih (fun y hy => h y (by simp [hy])) r
  exact H allRotations all_proper []

theorem addRows_ok {lib : SkillLibrary} {rs : List Row} (hn : (rs.map (fun r => r.2.1)).Nodup)
    (hb : ∀ r ∈ rs, ∃ rb, rowBuild lib r = .ok rb) :
    ∃ res, rs.foldlM (addRow lib) [] = .ok res ∧
      List.Forall₂ (fun r x => x.1 = r.2.1 ∧ rowBuild lib r = .ok x.2) rs res := by
  suffices H : ∀ (rs : List Row) (res : RotationLibrary), (Dict.keys res ++ rs.map (fun r => r.2.1)).Nodup →
      (∀ r ∈ rs, ∃ rb, rowBuild lib r = .ok rb) → ∃ out, rs.foldlM (addRow lib) res = .ok (res ++ out) ∧
        List.Forall₂ (fun r x => x.1 = r.2.1 ∧ rowBuild lib r = .ok x.2) rs out by
    obtain ⟨out, h1, h2⟩ := H rs [] (by simpa [Dict.keys] using hn) hb
    exact ⟨out, h1, h2⟩
  intro rs
  induction rs with
  | nil => intro res _ _; exact ⟨[], by simp, .nil⟩
  | cons r rs ih =>
    intro res hn hb
    obtain ⟨rb, hrb⟩ := hb r (by simp)
    have hfresh : r.2.1 ∉ Dict.keys res := by
      intro hm
      rw [List.nodup_append] at hn
      exact hn.2.2 _ hm _ (by simp) rfl
    obtain ⟨out, h1, h2⟩ := ih (res ++ [(r.2.1, rb)]) (by simpa [Dict.keys] using hn)
      (fun r' hr' => hb r' (by simp [hr']))
    refine ⟨(r.2.1, rb) :: out, ?_, .cons ⟨rfl, hrb⟩ h2⟩
    rw [Py.foldlM_cons]
    have : addRow lib res r = .ok (res ++ [(r.2.1, rb)]) := by
      unfold addRow
      rw [hrb, Py.ok_bind, set_fresh _ _ _ hfresh]
    rw [this, Py.ok_bind, h1]
    simp

end ExampleRotations

end Ama
