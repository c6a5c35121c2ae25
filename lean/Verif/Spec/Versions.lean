import Verif.Model.SpecificSkills

/-!
# Specification vocabulary for patch lookups
-/

namespace Ama.Spec

variable {ν : Type}

/-- The data lists `table` (a value per version) for this parameter of the skill at the level in
force. -/
def Listed (s : SpecificSkills ν) (name param : String) (table : Dict String ν) : Prop :=
  ∃ levels params, Dict.get? s.skills name = some levels ∧ Dict.get? levels s.level = some params ∧
    Dict.get? params param = some table

/-- `v` is what `table` gives for the newest of its versions not above `q`, in the order `le`. -/
def NewestIn (le : String → String → Prop) (table : Dict String ν) (q : String) (v : ν) : Prop :=
  ∃ k, Dict.get? table k = some v ∧ le k q ∧ ∀ k' ∈ Dict.keys table, le k' q → le k' k

/-- The decimal fraction written by some digits after the point. -/
def fraction : List Char → ℚ
  | [] => 0
  | c :: cs => (((c.toNat : ℚ) - 48) + fraction cs) / 10

/-- The number written by a version such as `7.05`. -/
def versionNumber (s : String) : ℚ :=
  match s.toList with
  | a :: '.' :: ds => ((a.toNat : ℚ) - 48) + fraction ds
  | a :: b :: '.' :: ds => 10 * ((a.toNat : ℚ) - 48) + ((b.toNat : ℚ) - 48) + fraction ds
  | _ => 0

/-- One digit, a point, further digits. -/
def OneDigitVersion (s : String) : Prop :=
  ∃ a ds, s.toList = a :: '.' :: ds ∧ a.isDigit = true ∧ ∀ c ∈ ds, c.isDigit = true

end Ama.Spec
