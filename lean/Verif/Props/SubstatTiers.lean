import Verif.Spec.Tiers
import Verif.Lemmas.Formulas
import Verif.Props.SpeedTier

/-!
# C115: substats only count in tiers
-/

namespace Ama

open Spec

namespace SubstatTiers

open GameConsts StatFns ComputeDamage

variable {raw raw' : RawStats} {stats : Stats}

/-- The stats with the substats of another character. -/
def swap (s : Stats) (r : RawStats) : Stats :=
  { s with critStat := r.critStat, dhStat := r.dhStat, detStat := r.detStat, speedStat := r.speedStat,
           tenacity := r.tenacity }

theorem supported (hs : mkStats raw = .ok stats) : Supported raw.version raw.level := by
  have p := mkStats_spec hs
  have := supported_crit p.crit
  rwa [p.version, p.level] at this

theorem spd (h : SameTiers raw raw') (r : IsRow raw.version raw.level (Formulas.row raw)) :
    fSpd raw'.speedStat raw.version raw.level = fSpd raw.speedStat raw.version raw.level := by
  unfold fSpd npFloor
  simp only [r.sub, r.div, r.speed, Py.ok_bind]
  have := h.speed
  simp only [Formulas.row, Int.floor_add_ofNat, this]

theorem det (h : SameTiers raw raw') (r : IsRow raw.version raw.level (Formulas.row raw)) :
    fDet raw'.detStat raw.version raw.level = fDet raw.detStat raw.version raw.level := by
  unfold fDet npFloor
  simp only [r.main, r.div, r.det, Py.ok_bind]
  simp only [Formulas.row, h.det]

theorem detDH (h : SameTiers raw raw') (r : IsRow raw.version raw.level (Formulas.row raw)) :
    fDetDH raw'.detStat raw'.dhStat raw.version raw.level = fDetDH raw.detStat raw.dhStat raw.version raw.level := by
  unfold fDetDH npFloor
  rw [det h r]
  simp only [r.sub, r.div, r.det, Py.ok_bind]
  simp only [Formulas.row, h.forcedDh]

theorem crit (h : SameTiers raw raw') (r : IsRow raw.version raw.level (Formulas.row raw)) :
    getCritStats raw'.critStat raw.version raw.level = getCritStats raw.critStat raw.version raw.level := by
  unfold getCritStats npFloor
  simp only [r.sub, r.div, r.crit0, r.crit1, r.crit2, Py.ok_bind]
  simp only [Formulas.row, h.crit]

theorem dh (h : SameTiers raw raw') (r : IsRow raw.version raw.level (Formulas.row raw)) :
    getDhRate raw'.dhStat raw.version raw.level = getDhRate raw.dhStat raw.version raw.level := by
  unfold getDhRate npFloor
  simp only [r.sub, r.div, r.dh, Py.ok_bind]
  simp only [Formulas.row, h.dh]

theorem mkStats_swap (h : SameTiers raw raw') (hs : mkStats raw = .ok stats) :
    mkStats raw' = .ok (swap stats raw') := by
  have r := Formulas.isRow (supported hs)
  have hp : mkProcessedStats raw' = mkProcessedStats raw := by
    rw [h.rest]
    unfold mkProcessedStats
    simp only [crit h r, det h r, dh h r]
  obtain ⟨p, w, h1, h2, rfl⟩ := mkStats_ok hs
  unfold mkStats
  rw [hp, h1, Py.ok_bind]
  rw [h.rest]
  dsimp only
  cases hd : raw.weaponDelay with
  | some d => rw [hd] at h2; cases h2; rfl
  | none => rw [hd] at h2; simp only at h2; simp only [h2]; rfl

theorem getBaseDamage_swap (h : SameTiers raw raw') (hs : mkStats raw = .ok stats) (skill : Skill)
    (m : SkillModifier) (se : StatusEffects × StatusEffects) :
    getBaseDamage skill m (swap stats raw') se = getBaseDamage skill m stats se := by
  have r := Formulas.isRow (supported hs)
  obtain ⟨p, w, -, -, rfl⟩ := mkStats_ok hs
  generalize hS : (⟨_, _, _, _, _, _, _, _, _, _, _, _, _, _⟩ : Stats) = S
  have hv : S.version = raw.version := by rw [← hS]
  have hl : S.level = raw.level := by rw [← hS]
  have b3 : fSpd (swap S raw').speedStat S.version S.level = fSpd S.speedStat S.version S.level := by
    rw [hv, hl, ← hS]; exact spd h r
  have b5 : fDetDH (swap S raw').detStat (swap S raw').dhStat S.version S.level =
      fDetDH S.detStat S.dhStat S.version S.level := by
    rw [hv, hl, ← hS]; exact detDH h r
  have c1 : tnc (swap S raw') = tnc S := by
    have e1 : (swap S raw').tenacity = raw'.tenacity := rfl
    have e2 : S.tenacity = raw.tenacity := by rw [← hS]
    have e3 : (swap S raw').version = raw.version := hv
    have e4 : (swap S raw').level = raw.level := hl
    unfold tnc
    rw [e1, e2, e3, e4, hv, hl]
    rcases h.tenacity with e | ⟨a, b, ha, hb, e⟩
    · rw [e]
    · rw [ha, hb]
      unfold fTnc npFloor
      simp only [r.sub, r.div, r.ten, Py.ok_bind]
      simp only [Formulas.row, e]
  have c2 : ∀ d, detDh (swap S raw') d m se = detDh S d m se := by
    intro d
    unfold detDh
    change (if _ then fDetDH (swap S raw').detStat (swap S raw').dhStat S.version S.level else _) = _
    rw [b5]
    rfl
  have c3 : tankStep (swap S raw') = tankStep S := by
    funext x; unfold tankStep; rw [c1]; rfl
  have c4 : tankStepDot (swap S raw') = tankStepDot S := by
    funext x; unfold tankStepDot; rw [c1]; rfl
  have c5 : directBase (swap S raw') = directBase S := by
    funext a b c d; unfold directBase; rw [c3]; rfl
  have c6 : autoSpd (swap S raw') = autoSpd S := by
    unfold autoSpd
    change (if _ then fSpd (swap S raw').speedStat S.version S.level else _) = _
    rw [b3]
    rfl
  have b3' : fSpd (swap S raw').speedStat (swap S raw').version (swap S raw').level =
    fSpd S.speedStat S.version S.level := b3
  have d1 : directDamage skill m (swap S raw') se = directDamage skill m S se := by
    unfold directDamage
    simp only [c2, c5]
    rfl
  have d2 : magicalDotDamage skill m (swap S raw') se = magicalDotDamage skill m S se := by
    unfold magicalDotDamage
    simp only [b3', c2, c4]
    rfl
  have d3 : physicalDotDamage skill m (swap S raw') se = physicalDotDamage skill m S se := by
    unfold physicalDotDamage
    simp only [b3', c2, c4]
    rfl
  have d4 : petDamage skill m (swap S raw') se = petDamage skill m S se := by
    unfold petDamage
    simp only [c2, c3]
    rfl
  have d5 : autoDamage skill m (swap S raw') se = autoDamage skill m S se := by
    unfold autoDamage
    simp only [c6, c2, c3]
    rfl
  have e : ∀ c, byClass c skill m (swap S raw') se = byClass c skill m S se := by
    intro c; unfold byClass; simp only [d1, d2, d3, d4, d5]
  unfold getBaseDamage
  simp only [e]

theorem init_swap (h : SameTiers raw raw') (hs : mkStats raw = .ok stats) (xs : List DamageInstance) (n : ℕ)
    (wr ws : ℕ → ℕ → Draw) :
    DamageSimulator.init (swap stats raw') xs n wr ws = DamageSimulator.init stats xs n wr ws := by
  have e : ∀ x, DamageSimulator.rowOf (swap stats raw') x = DamageSimulator.rowOf stats x := by
    intro x
    unfold DamageSimulator.rowOf
    simp only [getBaseDamage_swap h hs]
    rfl
  unfold DamageSimulator.init DamageSimulator.fill
  simp only [e]

theorem sameSpeed (h : SameTiers raw raw') {a b : ℕ} (ha : raw.speedStat = a) (hb : raw'.speedStat = b)
    (ha' : a ≤ 15000) (hb' : b ≤ 15000) :
    SameSpeed raw.version raw.level raw.speedStat raw'.speedStat := by
  refine .inr ⟨a, b, ha, hb, ha', hb', ?_⟩
  have e := h.speed
  rw [ha, hb] at e
  have key : ∀ s d : ℚ, ⌊130 * ((b : ℚ) - s) / d⌋ = ⌊130 * ((a : ℚ) - s) / d⌋ →
      ⌈(130 : ℚ) * (s - b) / d⌉ = ⌈(130 : ℚ) * (s - a) / d⌉ := by
    intro s d hh
    rw [show (130 : ℚ) * (s - b) / d = -(130 * (b - s) / d) by ring,
      show (130 : ℚ) * (s - a) / d = -(130 * (a - s) / d) by ring, Int.ceil_neg, Int.ceil_neg, hh]
  unfold speedTier
  unfold levelNumbers at e
  split_ifs at e ⊢ with hc
  · exact key _ _ e
  · exact key _ _ e

end SubstatTiers

section

variable {raw raw' : RawStats} {stats : Stats}

/-- C115.  The simulation of the same hits is the same for two characters whose substats differ within tiers: if the
one exists the other does, and all that the simulator holds, with the same random numbers, is equal, or the same
exception is raised. -/
theorem C115_simulation (h : SameTiers raw raw') (hs : mkStats raw = .ok stats) :
    ∃ stats', mkStats raw' = .ok stats' ∧ ∀ (xs : List DamageInstance) (n : ℕ) (wr ws : ℕ → ℕ → Draw),
      DamageSimulator.init stats' xs n wr ws = DamageSimulator.init stats xs n wr ws :=
  ⟨_, SubstatTiers.mkStats_swap h hs, SubstatTiers.init_swap h hs⟩

/-- C115.  So is the whole run of a rotation, from the presses to the simulation, if the speeds are whole numbers
up to three times of what the game allows. -/
theorem C115_rotation (h : SameTiers raw raw') (hs : mkStats raw = .ok stats) {a b : ℕ}
    (ha : raw.speedStat = a) (hb : raw'.speedStat = b) (ha' : a ≤ 15000) (hb' : b ≤ 15000) :
    ∃ stats', mkStats raw' = .ok stats' ∧
      ∀ (lib : SkillLibrary) (snapDots : Option ℚ) (autos trailing : Bool) (fightStart : Option ℚ)
        (downtime : RawDowntime) (target : String) (ops : List BuilderOp) (fuel n : ℕ) (wr ws : ℕ → ℕ → Draw),
        (playedHits stats' lib snapDots autos trailing fightStart downtime target ops fuel >>= fun xs =>
            DamageSimulator.init stats' xs n wr ws) =
          (playedHits stats lib snapDots autos trailing fightStart downtime target ops fuel >>= fun xs =>
            DamageSimulator.init stats xs n wr ws) := by
  refine ⟨_, SubstatTiers.mkStats_swap h hs, ?_⟩
  intro lib snapDots autos trailing fightStart downtime target ops fuel n wr ws
  have hr := h.rest
  rw [C114_hits hs (SubstatTiers.mkStats_swap h hs) (by rw [hr]) (by rw [hr]) (by rw [hr])
    (SubstatTiers.sameSpeed h ha hb ha' hb') (by rw [hr])]
  simp only [SubstatTiers.init_swap h hs]

end

namespace Ex

/-- The character of the examples with more of each substat, within the tiers. -/
def topOfTiers : RawStats :=
  { rawStats with critStat := 2385, dhStat := 1277, detStat := 1624, speedStat := 721 }

example : SameTiers rawStats topOfTiers ∧ mkStats rawStats = .ok stats := by
  refine ⟨⟨rfl, ?_, ?_, ?_, ?_, ?_, .inl rfl⟩, ?_⟩ <;> decide +kernel

/-- A tank of level 100. -/
def tankStats : RawStats :=
  { wd := 146, mainStat := 4842, detStat := 2310, dhStat := 1470, critStat := 3174, speedStat := 420,
    jobClass := "DRK", version := "7.1", tenacity := some 868, level := 100 }

/-- The same with more tenacity in the same tier. -/
def tougherTank : RawStats := { tankStats with tenacity := some 891 }

example : SameTiers tankStats tougherTank ∧ (∃ st, mkStats tankStats = .ok st) := by
  refine ⟨⟨rfl, rfl, rfl, rfl, rfl, rfl, .inr ⟨868, 891, rfl, rfl, ?_⟩⟩, ?_⟩
  · decide +kernel
  · cases h : mkStats tankStats with
    | ok st => exact ⟨st, rfl⟩
    | error e =>
      exact absurd h (by
        have : (mkStats tankStats).toOption.isSome = true := by decide +kernel
        intro h
        rw [h] at this
        cases this)

-- one more point of critical hit is another tier, and another critical hit rate
example : ¬ SameTiers rawStats { rawStats with critStat := 2386 } ∧
    (mkStats { rawStats with critStat := 2386 }).toOption.map (·.processed.critRate) = some (259 / 1000) ∧
    (mkStats topOfTiers).toOption.map (·.processed.critRate) = some (258 / 1000) := by
  refine ⟨fun h => absurd h.crit (by decide +kernel), by decide +kernel, by decide +kernel⟩

end Ex

end Ama
