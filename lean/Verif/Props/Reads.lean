import Verif.Spec.Reads
import Verif.Lemmas.Formulas
import Verif.Lemmas.Locality
import Verif.Props.Simulation

/-!
# C116: which stats count for which hits
-/

namespace Ama

open Spec

namespace Reads

open ComputeDamage

variable {c : DamageClass} {raw raw' : RawStats} {stats stats' : Stats}

theorem processed_eq (h : SameFor c raw raw') (hs : mkStats raw = .ok stats) (hs' : mkStats raw' = .ok stats') :
    stats'.processed = stats.processed := by
  obtain ⟨p, w, h1, -, rfl⟩ := mkStats_ok hs
  obtain ⟨p', w', h1', -, rfl⟩ := mkStats_ok hs'
  have e : mkProcessedStats raw' = mkProcessedStats raw := by
    unfold mkProcessedStats
    rw [h.job, h.version, h.level, h.det, h.dh, h.crit]
  rw [e, h1] at h1'
  cases h1'
  rfl

theorem byClass_eq (h : SameFor c raw raw') (hs : mkStats raw = .ok stats) (hs' : mkStats raw' = .ok stats')
    (skill : Skill) (m : SkillModifier) (se : StatusEffects × StatusEffects) :
    byClass c skill m stats' se = byClass c skill m stats se := by
  have ep := processed_eq h hs hs'
  have q := mkStats_spec hs
  have q' := mkStats_spec hs'
  have f := Formulas.statFacts hs
  have ev : stats'.version = stats.version := by rw [q'.version, q.version, h.version]
  have el : stats'.level = stats.level := by rw [q'.level, q.level, h.level]
  have ej : stats'.jobClass = stats.jobClass := by rw [q'.jobClass, q.jobClass, h.job]
  have ew : stats'.wd = stats.wd := by rw [q'.wd, q.wd, h.wd]
  have ed : stats'.detStat = stats.detStat := by rw [q'.detStat, q.detStat, h.det]
  have eh : stats'.dhStat = stats.dhStat := by rw [q'.dhStat, q.dhStat, h.dh]
  have c2 : ∀ d, detDh stats' d m se = detDh stats d m se := by
    intro d; unfold detDh; rw [ed, eh, ev, el, ep]
  have ct : JobClassFns.isTank stats.version stats.jobClass = true → tnc stats' = tnc stats := by
    intro ht
    rw [f.tank, decide_eq_true_iff] at ht
    unfold tnc
    rw [q'.tenacity, q.tenacity, h.tenacity ht, ev, el]
  have c3 : tankStep stats' = tankStep stats := by
    funext x; unfold tankStep; rw [ev, ej]
    split_ifs with ht
    · rw [ct ht]
    · rfl
  have c4 : tankStepDot stats' = tankStepDot stats := by
    funext x; unfold tankStepDot; rw [ev, ej]
    split_ifs with ht
    · rw [ct ht]
    · rfl
  have c5 : directBase stats' = directBase stats := by
    funext a b x d; unfold directBase; rw [c3, ev, ej]
  have c6 : ∀ d, finish stats' d m se = finish stats d m se := by
    intro d; funext x; unfold finish guaranteedBonus critBonusMult; rw [ep]
  have c7 : ¬ (c = .auto ∧ Mage raw.jobClass) → c ≠ .pet → partyMainStat stats' se = partyMainStat stats se := by
    intro h1 h2
    unfold partyMainStat
    rw [q'.mainStat, q.mainStat, h.main h1, q'.party, q.party, h.roles h2]
  cases c with
  | direct =>
    simp only [byClass, directDamage, c2, c5, c6, c7 (by simp) (by simp), ev, el, ej, ew, ep]
  | magicalDot =>
    have es : stats'.speedStat = stats.speedStat := by rw [q'.speedStat, q.speedStat, h.speed (by simp)]
    simp only [byClass, magicalDotDamage, c2, c4, c6, c7 (by simp) (by simp), ev, el, ej, ew, ep, es]
  | physicalDot =>
    have es : stats'.speedStat = stats.speedStat := by rw [q'.speedStat, q.speedStat, h.speed (by simp)]
    simp only [byClass, physicalDotDamage, c2, c4, c6, c7 (by simp) (by simp), ev, el, ej, ew, ep, es]
  | pet =>
    have em : stats'.mainStat = stats.mainStat := by rw [q'.mainStat, q.mainStat, h.main (by simp)]
    have e1 : petJobMod stats' = petJobMod stats := by funext d; unfold petJobMod; rw [ep]
    have e2 : petMainStat stats' = petMainStat stats := by funext d s l; unfold petMainStat; rw [em, ep, e1]
    simp only [byClass, petDamage, c2, c3, c6, e1, e2, ev, el, ew]
  | auto =>
    have e1 : autoMainStat stats' se = autoMainStat stats se := by
      unfold autoMainStat
      rw [ev, ej, f.mage, q'.strength, q.strength, q'.party, q.party, h.roles (by simp)]
      by_cases hm : Mage raw.jobClass
      · rw [h.strength rfl hm, if_pos (decide_eq_true hm), if_pos (decide_eq_true hm)]
      · rw [if_neg (by simpa using hm), if_neg (by simpa using hm), c7 (fun x => hm x.2) (by simp)]
    have e2 : autoSpd stats' = autoSpd stats := by
      unfold autoSpd
      rw [ev, ej, el, f.speed]
      split_ifs with hk
      · rw [q'.speedStat, q.speedStat, h.speed (.inr (.inr ⟨rfl, of_decide_eq_true hk⟩))]
      · rfl
    have e3 : stats'.weaponDelay = stats.weaponDelay := by
      obtain ⟨p, w, -, h2, rfl⟩ := mkStats_ok hs
      obtain ⟨p', w', -, h2', rfl⟩ := mkStats_ok hs'
      rw [h.delay rfl, h.job, h2] at h2'
      cases h2'
      rfl
    simp only [byClass, autoDamage, c2, c3, c6, e1, e2, e3, ev, el, ej, ew, ep]
  | unknown => rfl

theorem rowOf_eq (hs : mkStats raw = .ok stats) (hs' : mkStats raw' = .ok stats') (x : DamageInstance)
    (h : ∀ d, x.skill.getDamageSpec x.modifier = .ok (some d) → SameFor d.damageClass raw raw') :
    DamageSimulator.rowOf stats' x = DamageSimulator.rowOf stats x := by
  unfold DamageSimulator.rowOf getBaseDamage critRatesAndBonuses specOf
  cases hd : x.skill.getDamageSpec x.modifier with
  | error e => simp only [Py.error_bind]
  | ok o =>
    cases o with
    | none => simp only [Py.ok_bind, Py.pure_eq]
    | some d =>
      have h := h d hd
      simp only [Py.ok_bind, byClass_eq h hs hs', dhRate, critRate, processed_eq h hs hs']

theorem foldlM_congr {α β : Type} {f g : β → α → Py β} {l : List α} (h : ∀ x ∈ l, ∀ b, f b x = g b x) (b : β) :
    l.foldlM f b = l.foldlM g b := by
  induction l generalizing b with
  | nil => rfl
  | cons x l ih =>
    rw [Py.foldlM_cons, Py.foldlM_cons, h x (by simp)]
    congr 1
    funext y
    exact ih (fun x hx => h x (List.mem_cons_of_mem _ hx)) y

end Reads

section

variable {raw raw' : RawStats} {stats stats' : Stats}

/-- C116.  Two characters that agree, for each hit of a list, in the stats that count for its kind get the same
simulation from the same random numbers, or the same exception. -/
theorem C116_hits (hs : mkStats raw = .ok stats) (hs' : mkStats raw' = .ok stats') (xs : List DamageInstance)
    (h : ∀ x ∈ xs, ∀ d, x.skill.getDamageSpec x.modifier = .ok (some d) → SameFor d.damageClass raw raw')
    (n : ℕ) (wr ws : ℕ → ℕ → Draw) :
    DamageSimulator.init stats' xs n wr ws = DamageSimulator.init stats xs n wr ws := by
  have e : DamageSimulator.fill stats' (sortBy (·.time) xs) = DamageSimulator.fill stats (sortBy (·.time) xs) := by
    unfold DamageSimulator.fill
    refine Reads.foldlM_congr (fun x hx b => ?_) _
    rw [Reads.rowOf_eq hs hs' x (h x ((sortBy_perm _ _).mem_iff.1 hx))]
  unfold DamageSimulator.init
  simp only [e]

end

namespace Ex

/-- The character of the examples with a faster weapon, more speed and strength. -/
def quicker : RawStats :=
  { rawStats with speedStat := 2000, weaponDelay := some 2, healerOrCasterStrength := some 300, tenacity := some 700 }

-- they agree in all that counts for direct hits, not in what counts for autos
example : SameFor .direct rawStats quicker ∧ mkStats rawStats = .ok stats ∧
    (mkStats quicker).toOption.isSome = true ∧ ¬ SameFor .auto rawStats quicker := by
  refine ⟨⟨rfl, rfl, rfl, rfl, rfl, rfl, rfl, fun _ => rfl, by simp, fun _ => rfl, by simp, by simp, ?_⟩, by decide +kernel,
    by decide +kernel, fun h => absurd (h.delay rfl) (by decide +kernel)⟩
  intro h
  exact absurd h (by unfold Tank rawStats; decide)

end Ex

end Ama
