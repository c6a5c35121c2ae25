import Verif.Spec.Gear
import Verif.Props.SpeedTier
import Verif.Props.Stronger

/-!
# C112: better gear never lowers the damage of a rotation
-/

namespace Ama

open Spec DamageSimulator

section

variable {raw raw' : RawStats} {stats stats' : Stats} {l : List DamageInstance} {n : ℕ}
  {wr wr' ws ws' : ℕ → ℕ → Draw} {s s' : DamageSimulator} {lib : SkillLibrary} {snapDots : Option ℚ}
  {autos trailing : Bool} {fightStart : Option ℚ} {downtime : RawDowntime} {target : String}
  {ops : List BuilderOp} {fuel : ℕ}

/-- C112.  The better geared character gets the same hits, with the same buffs and debuffs, or the same
exception. -/
theorem C112_hits (hr : BetterGear raw raw') (hs : mkStats raw = .ok stats) (hs' : mkStats raw' = .ok stats') :
    playedHits stats' lib snapDots autos trailing fightStart downtime target ops fuel =
      playedHits stats lib snapDots autos trailing fightStart downtime target ops fuel :=
  C114_hits hs hs' hr.stats.jobClass hr.stats.version hr.stats.level hr.speed hr.weaponDelay lib snapDots autos
    trailing fightStart downtime target ops fuel

/-- C112.  With the same random numbers, no sample of the damage and no sample of the damage per second of a
rotation is lower for the better geared character. -/
theorem C112_samples (hr : BetterGear raw raw') (hg : Grown raw) (hs : mkStats raw = .ok stats)
    (hs' : mkStats raw' = .ok stats') {l' : List DamageInstance}
    (hl : playedHits stats lib snapDots autos trailing fightStart downtime target ops fuel = .ok l)
    (hl' : playedHits stats' lib snapDots autos trailing fightStart downtime target ops fuel = .ok l')
    (hx : ∀ x ∈ l, SaneHit x)
    (h : init stats l n wr ws = .ok s) (h' : init stats' l' n wr' ws = .ok s')
    (hw : ∀ i j, Draw.Valid (ws i j)) {j : ℕ} :
    (∀ a a', s.getRawDamage[j]? = some a → s'.getRawDamage[j]? = some a' → a ≤ a') ∧
    (∀ a a', s.getDps[j]? = some a → s'.getDps[j]? = some a' → a ≤ a') := by
  rw [C112_hits hr hs hs', hl] at hl'
  cases hl'
  exact C93_samples hr.stats hg hs hs' (List.forall₂_same.2 fun x m => ⟨hx x m, rfl⟩) h h' hw

/-- C112.  The expected damage of a rotation is not lower for the better geared character, if the hit rates
are at most 1 (see C60) and no draw made while computing the expected damage is zero (see C47). -/
theorem C112_expected (hr : BetterGear raw raw') (hg : Grown raw) (hs : mkStats raw = .ok stats)
    (hs' : mkStats raw' = .ok stats') {l' : List DamageInstance}
    (hl : playedHits stats lib snapDots autos trailing fightStart downtime target ops fuel = .ok l)
    (hl' : playedHits stats' lib snapDots autos trailing fightStart downtime target ops fuel = .ok l')
    (hx : ∀ x ∈ l, SaneHit x) {n' : ℕ}
    (h : init stats l n wr ws = .ok s) (h' : init stats' l' n' wr' ws' = .ok s')
    (hw : ∀ i k, Draw.Valid (wr i k) ∧ Draw.Positive (wr i k))
    (hw' : ∀ i k, Draw.Valid (wr' i k) ∧ Draw.Positive (wr' i k))
    (hc : ∀ p ∈ s.getCritAndDhRates, IsProb p.1 ∧ IsProb p.2)
    (hc' : ∀ p ∈ s'.getCritAndDhRates, IsProb p.1 ∧ IsProb p.2) :
    s.getExpectedDamage ≤ s'.getExpectedDamage := by
  rw [C112_hits hr hs hs', hl] at hl'
  cases hl'
  exact C93_expected (l₁ := l) (l₂ := []) hr.stats hg hs hs' (List.forall₂_same.2 fun x m => hx x m)
    (by rw [List.append_nil]) (fun x m => by cases m) h h' hw hw' hc hc'

end

namespace Ex

/-- A check for `SaneHit`. -/
def sane (x : DamageInstance) : Bool :=
  decide (0 ≤ x.buffs.critRateAdd ∧ 0 ≤ x.buffs.dhRateAdd ∧ 0 ≤ x.buffs.damageMult ∧ 0 ≤ x.buffs.mainStatMult ∧
    0 ≤ x.debuffs.critRateAdd ∧ 0 ≤ x.debuffs.dhRateAdd ∧ 0 ≤ x.debuffs.damageMult ∧ 0 ≤ x.debuffs.mainStatMult) &&
  match x.skill.getDamageSpec x.modifier with
  | .ok (some d) => decide (0 ≤ d.potency ∧ 0 ≤ d.petScalar ∧ 0 ≤ d.singleDamageMult ∧ d.petJobModOverride = none ∧
      d.traitDamageMultOverride = none)
  | _ => false

theorem sane_spec {x : DamageInstance} (h : sane x = true) : SaneHit x := by
  unfold sane at h
  rw [Bool.and_eq_true, decide_eq_true_eq] at h
  obtain ⟨⟨a1, a2, a3, a4, b1, b2, b3, b4⟩, h⟩ := h
  split at h
  · rename_i d hd
    obtain ⟨c1, c2, c3, c4, c5⟩ := of_decide_eq_true h
    refine ⟨rfl, ⟨⟨a1, le_rfl⟩, ⟨a2, le_rfl⟩, ⟨a3, le_rfl⟩, le_rfl, ⟨a4, le_rfl⟩, .inl rfl, .inl rfl⟩,
      ⟨⟨b1, le_rfl⟩, ⟨b2, le_rfl⟩, ⟨b3, le_rfl⟩, le_rfl, ⟨b4, le_rfl⟩, .inl rfl, .inl rfl⟩,
      d, d.potency, hd, hd, ⟨c1, le_rfl⟩, ⟨c2, c3, fun x e => ?_⟩, fun x e => ?_⟩
    · rw [c4] at e; cases e
    · rw [c5] at e; cases e
  · cases h

/-- The stats of the examples with better gear and in a larger party. -/
def smallParty : RawStats := { rawStats with numRolesInParty := 3 }

def geared : RawStats := { rawStats with wd := 140, mainStat := 4000, critStat := 2700, speedStat := 715 }

example : BetterGear smallParty geared ∧ Grown smallParty := by
  refine ⟨⟨⟨rfl, rfl, rfl, by decide +kernel, by decide +kernel, by decide +kernel, by decide +kernel,
    by decide +kernel, by decide +kernel, by decide +kernel, .inr ⟨_, _, rfl, rfl, by decide +kernel⟩,
    .inl ⟨rfl, rfl⟩, .inl ⟨rfl, rfl⟩⟩,
      .inr ⟨708, 715, rfl, rfl, by norm_num, by norm_num, by decide +kernel⟩, rfl⟩, by norm_num [smallParty, rawStats], by
      norm_num [baseSub, smallParty, rawStats]⟩

/-- The hits of a rotation, for one of the characters. -/
def hitsFor (stats : Stats) : Py (List DamageInstance) :=
  playedHits stats lib none true false none (.tuple []) SimConsts.DEFAULT_TARGET paceOps 100

/-- The names of the hits of the rotation, and its damage, for one of the characters. -/
def playedBy (r : RawStats) : Option (List String × ℚ × List ℚ) :=
  match mkStats r >>= fun st => hitsFor st >>= fun l =>
    (init st l 1 (fun _ _ => half) (fun _ _ => half)).map fun s => (l, s) with
  | .ok (l, s) => some (l.map (·.skill.name), s.getExpectedDamage, s.getRawDamage)
  | .error _ => none

example : okAnd (mkStats smallParty) (fun st => okAnd (hitsFor st) (fun l => l.all sane)) = true := by
  decide +kernel

example : playedBy smallParty = some (["Hit", "Auto", "Spell", "Auto", "Poison", "Venom", "Auto", "Poison", "Auto",
    "Poison"], 44426608849 / 1000000, [36125]) := by
  decide +kernel

example : playedBy geared = some (["Hit", "Auto", "Spell", "Auto", "Poison", "Venom", "Auto", "Poison", "Auto",
    "Poison"], 8707380669 / 125000, [55179]) := by
  decide +kernel

end Ex

end Ama
