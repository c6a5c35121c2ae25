import Verif.Model.Consts

/-!
# Model of `simulator/utils.py` (generic part)

`get_positional_condition` (utils.py:71-156) needs skills and lives in `Verif.Model.Positional`.
-/

namespace Ama

/-- A set of active conditions, as kept in `SkillModifier.with_condition`. -/
abbrev Conds := Finset String

namespace Utils

/-- simulator/utils.py:11-18 `get_greatest_val_less_than_query`; `lt` is the order of the values
(versions are compared as strings). `max` keeps the first of equal maxima. -/
def getGreatestVal (vals : List String) (query : String) : Py String :=
  match vals.filter (fun k => decide (k ≤ query)) with
  | [] => .error .valueError
  | k :: ks => .ok (ks.foldl (fun m x => if m < x then x else m) k)

/-- simulator/utils.py:21-28 `get_greatest_dict_key_val_less_than_query` (`None` if no key is small
enough). -/
def getGreatestDictKeyVal {ν : Type} (d : Dict String ν) (query : String) : Py (Option ν) :=
  match getGreatestVal (Dict.keys d) query with
  | .error _ => .ok none
  | .ok k => do return some (← Dict.get d k)

/-- simulator/utils.py:31-32 `transform_time_to_prio` -/
def transformTimeToPrio (t : ℚ) : ℤ := pyInt (1000 * t)

/-- simulator/utils.py:35-37 `truncate_to_digit`.  Simplification: only for `digit ≥ 1` (the code
only ever passes 2). -/
def truncateToDigit (x : ℚ) (digit : ℕ) : ℤ :=
  let modifier : ℚ := 10 ^ (digit - 1)
  pyInt (modifier * npFloor (x / modifier))

/-- simulator/utils.py:40-44 `canonicalize_condition` -/
def canonicalizeCondition (condition : String) : Conds :=
  if condition.toList.length = 0 then ∅
  else ((splitComma condition.toList).map (fun x => String.ofList (stripChars x))).toFinset

/-- State of the loop in `get_best_key` (utils.py:48-60): `max_match` and `best_keys`. -/
structure BestKeyState where
  maxMatch : ℤ
  bestKeys : List Conds
deriving DecidableEq

/-- One iteration of the loop, simulator/utils.py:50-60 -/
def bestKeyStep (withCondition : Conds) (s : BestKeyState) (key : Conds) : BestKeyState :=
  if (key.card : ℤ) < s.maxMatch then s
  else if key ⊆ withCondition then
    if s.maxMatch < (withCondition.card : ℤ) then
      { maxMatch := key.card, bestKeys := [key] }
    else { s with bestKeys := s.bestKeys ++ [key] }
  else s

/-- simulator/utils.py:47-69 `get_best_key` -/
def getBestKey (keys : List Conds) (withCondition : Conds) : Py Conds :=
  let s := keys.foldl (bestKeyStep withCondition) { maxMatch := -1, bestKeys := [] }
  match s.bestKeys with
  | [] => .ok {SimConsts.DEFAULT_CONDITION}
  | [k] => .ok k
  | _ :: _ :: _ => .error .assertionError

end Utils

end Ama
