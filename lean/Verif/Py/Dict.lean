import Verif.Py.Basic

/-!
# Python dictionaries as insertion-ordered association lists

A `Dict` value produced by these operations never contains a key twice.
-/

namespace Ama

/-- A Python `dict` (insertion ordered since 3.7). -/
abbrev Dict (κ ν : Type) := List (κ × ν)

namespace Dict

variable {κ ν : Type} [DecidableEq κ]

/-- `d.get(k)` (`None` when absent). -/
def get? : Dict κ ν → κ → Option ν
  | [], _ => none
  | (k, v) :: d, q => if k = q then some v else get? d q

/-- `d[k]`, raising `KeyError`. -/
def get (d : Dict κ ν) (k : κ) : Py ν :=
  match get? d k with
  | some v => .ok v
  | none => .error .keyError

/-- `k in d` -/
def mem (d : Dict κ ν) (k : κ) : Bool := (get? d k).isSome

/-- `d[k] = v`: replaces in place, or appends a new key at the end. -/
def set : Dict κ ν → κ → ν → Dict κ ν
  | [], q, w => [(q, w)]
  | (k, v) :: d, q, w => if k = q then (k, w) :: d else (k, v) :: set d q w

/-- `del d[k]` for a present key (no-op otherwise; the code only deletes present keys). -/
def del : Dict κ ν → κ → Dict κ ν
  | [], _ => []
  | (k, v) :: d, q => if k = q then d else (k, v) :: del d q

/-- `d.keys()` -/
def keys (d : Dict κ ν) : List κ := d.map Prod.fst

end Dict

end Ama
