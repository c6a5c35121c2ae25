import Verif.Lemmas.DamageSane
import Verif.Lemmas.RenameRotation
import Verif.Props.Gear
import Verif.Props.Links

/-!
# C112 for rotations of shipped skills
-/

namespace Ama

open Spec GameData DamageSimulator

section

variable {version : String} {level : ℕ} {raw raw' : RawStats} {stats stats' : Stats} {l : List DamageInstance}
  {n : ℕ} {wr wr' ws ws' : ℕ → ℕ → Draw} {s s' : DamageSimulator} {lib : SkillLibrary} {snapDots : Option ℚ}
  {autos trailing : Bool} {fightStart : Option ℚ} {downtime : RawDowntime} {target : String}
  {ops : List BuilderOp} {fuel : ℕ}

/-- No hit of a rotation of shipped skills has a negative number in it, and none has its damage lowered by
effects. -/
theorem Shipped.saneHits (hc : createSkillLibrary version level = .ok lib)
    (hl : playedHits stats lib snapDots autos trailing fightStart downtime target ops fuel = .ok l) :
    ∀ x ∈ l, SaneHit x ∧ 1 ≤ x.buffs.damageMult * x.debuffs.damageMult := by
  unfold playedHits at hl
  obtain ⟨rb0, h0, hl⟩ := Py.bind_eq_ok.1 hl
  obtain ⟨rb, h1, hl⟩ := Py.bind_eq_ok.1 hl
  obtain ⟨rb', h2, hl⟩ := Py.bind_eq_ok.1 hl
  obtain ⟨db, h3, hl⟩ := Py.bind_eq_ok.1 hl
  have hlib : rb.lib = lib := (Rename.runs_lib h1).trans (Rename.init_lib h0)
  have hb : Built rb := ⟨_, _, _, _, _, _, _, _, _, _, h0, h1⟩
  rw [← hlib] at hc
  obtain ⟨cs, base, ws, hL⟩ := library_of hc
  cases hx : db.getDamageInstances rb'.events with
  | error e => rw [hx] at hl; cases hl
  | ok p =>
    rw [hx] at hl
    cases hl
    refine instances_sane h2 (fun e he => ?_) h3 (db' := p.2) hx
    obtain ⟨x, n, ho⟩ := inPlay_core hL hb (RotationBuilder.timing_origin hb h2 e he).inPlay
    refine ⟨fun m t ht => ?_, fun m d hd => ?_⟩
    · have := ht.elim (ho.sane.buff m t) (ho.sane.debuff m t)
      exact ⟨this.crit.1, this.dh.1, this.damage, this.statMult.le⟩
    · have := ho.sane.damage m d hd
      exact ⟨this.potency, ⟨this.pet.le, this.mult.le, fun x h => (this.job x h).le⟩,
        fun x h => (this.trait x h).le⟩

/-- C112 for shipped skills: no hit of a rotation has a negative number in it. -/
theorem C112_shipped_sane (hc : createSkillLibrary version level = .ok lib)
    (hl : playedHits stats lib snapDots autos trailing fightStart downtime target ops fuel = .ok l) :
    ∀ x ∈ l, SaneHit x :=
  fun x hx => (Shipped.saneHits hc hl x hx).1

/-- C112 for shipped skills: with the same random numbers, no sample of the damage and no sample of the damage
per second of a rotation is lower for the better geared character. -/
theorem C112_shipped_samples (hc : createSkillLibrary version level = .ok lib) (hr : BetterGear raw raw')
    (hg : Grown raw) (hs : mkStats raw = .ok stats) (hs' : mkStats raw' = .ok stats') {l' : List DamageInstance}
    (hl : playedHits stats lib snapDots autos trailing fightStart downtime target ops fuel = .ok l)
    (hl' : playedHits stats' lib snapDots autos trailing fightStart downtime target ops fuel = .ok l')
    (h : init stats l n wr ws = .ok s) (h' : init stats' l' n wr' ws = .ok s')
    (hw : ∀ i j, Draw.Valid (ws i j)) {j : ℕ} :
    (∀ a a', s.getRawDamage[j]? = some a → s'.getRawDamage[j]? = some a' → a ≤ a') ∧
    (∀ a a', s.getDps[j]? = some a → s'.getDps[j]? = some a' → a ≤ a') :=
  C112_samples hr hg hs hs' hl hl' (C112_shipped_sane hc hl) h h' hw

/-- C112 for shipped skills: the expected damage of a rotation is not lower for the better geared character,
if the hit rates are at most 1 (see C60) and no draw made while computing the expected damage is zero (see
C47). -/
theorem C112_shipped_expected (hc : createSkillLibrary version level = .ok lib) (hr : BetterGear raw raw')
    (hg : Grown raw) (hs : mkStats raw = .ok stats) (hs' : mkStats raw' = .ok stats') {l' : List DamageInstance}
    (hl : playedHits stats lib snapDots autos trailing fightStart downtime target ops fuel = .ok l)
    (hl' : playedHits stats' lib snapDots autos trailing fightStart downtime target ops fuel = .ok l')
    {n' : ℕ} (h : init stats l n wr ws = .ok s) (h' : init stats' l' n' wr' ws' = .ok s')
    (hw : ∀ i k, Draw.Valid (wr i k) ∧ Draw.Positive (wr i k))
    (hw' : ∀ i k, Draw.Valid (wr' i k) ∧ Draw.Positive (wr' i k))
    (hp : ∀ p ∈ s.getCritAndDhRates, IsProb p.1 ∧ IsProb p.2)
    (hp' : ∀ p ∈ s'.getCritAndDhRates, IsProb p.1 ∧ IsProb p.2) :
    s.getExpectedDamage ≤ s'.getExpectedDamage :=
  C112_expected hr hg hs hs' hl hl' (C112_shipped_sane hc hl) h h' hw hw' hp hp'

end

namespace Ex

/-- A Reaper of level 100, and one with a better weapon, more critical hits and a little more speed. -/
def rawReaper : RawStats :=
  { rawStats with jobClass := "RPR", version := "7.05", level := 100, weaponDelay := none, numRolesInParty := 4 }

def rawReaper' : RawStats :=
  { rawReaper with wd := 140, critStat := 2800, speedStat := 714, numRolesInParty := 5 }

example : BetterGear rawReaper rawReaper' ∧ Grown rawReaper := by
  refine ⟨⟨⟨rfl, rfl, rfl, by decide +kernel, by decide +kernel, by decide +kernel, by decide +kernel,
    by decide +kernel, by decide +kernel, by decide +kernel, .inl ⟨rfl, rfl⟩,
    .inl ⟨rfl, rfl⟩, .inl ⟨rfl, rfl⟩⟩,
      .inr ⟨708, 714, rfl, rfl, by norm_num, by norm_num, by decide +kernel⟩, rfl⟩, by norm_num [rawReaper, rawStats], by
      decide +kernel⟩

example : okAnd (mkStats rawReaper) (fun _ => okAnd (mkStats rawReaper') (fun _ => true)) = true := by
  decide +kernel

end Ex

/-- A Reaper uses Soul Slice, Arcane Circle and Gallows; as long as no two hits have the same time and tag, there
are hits. -/
example : ∃ rb rb' fuel db, Built rb ∧ createSkillLibrary "7.05" 100 = .ok rb.lib ∧
    rb.qSequence.map (·.skill.name) = ["Soul Slice", "Arcane Circle", "Gallows"] ∧
    rb.getSkillTiming fuel = .ok rb' ∧ DamageBuilder.init rb.stats rb.lib = .ok db ∧
    (HitsApart rb'.events.q → ∃ xs db', db.getDamageInstances rb'.events = .ok (xs, db')) := by
  obtain ⟨lib, rb, h1, h2, rfl, h4, h5, h6, h7, -⟩ := Ex.reaper_sensible
  obtain ⟨n, rb', db, h8, h9, h10⟩ := C85_shipped_partial h1 h2 rfl h4 (fun _ hv => by
    have := hv.2.2
    revert this
    decide +kernel)
  exact ⟨rb, rb', n, db, h2, h1, h6, h8 n le_rfl, h9, h10⟩

end Ama
