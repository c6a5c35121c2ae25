import Mathlib.Data.Rat.Floor
import Mathlib.Data.Finset.Card
import Mathlib.Order.WithBot
import Mathlib.Algebra.Order.Monoid.Unbundled.WithTop

/-!
# The fragment of the Python runtime used by the modelled code

Exceptions are values, numbers are exact rationals, `math.inf` is `⊤` of `WithTop`.
-/

namespace Ama

/-- The exception classes the modelled code can raise.
Simplification: messages are dropped, only the class is kept. -/
inductive PyErr
  | assertionError
  | keyError
  | valueError
  | typeError
  | runtimeError
  | indexError
  | attributeError
  | zeroDivisionError
  /-- Not a Python exception: the bound on the number of iterations given to the model of a `while`
  loop was too small. -/
  | outOfFuel
deriving DecidableEq, Repr

/-- A Python computation that may raise. -/
abbrev Py (α : Type) := Except PyErr α

/-- Results can be compared (used only to evaluate concrete examples). -/
instance {α : Type} [DecidableEq α] : DecidableEq (Py α)
  | .ok x, .ok y => if h : x = y then isTrue (by rw [h]) else isFalse (by intro h'; injection h' with h'; exact h h')
  | .error x, .error y => if h : x = y then isTrue (by rw [h]) else isFalse (by intro h'; injection h' with h'; exact h h')
  | .ok _, .error _ => isFalse (by intro h; injection h)
  | .error _, .ok _ => isFalse (by intro h; injection h)

/-- `assert b` -/
def pyAssert (b : Bool) : Py Unit := if b then .ok () else .error .assertionError

/-- `np.floor(x)` as a number. -/
def npFloor (x : ℚ) : ℚ := ((⌊x⌋ : ℤ) : ℚ)

/-- `np.ceil(x)` as a number. -/
def npCeil (x : ℚ) : ℚ := ((⌈x⌉ : ℤ) : ℚ)

/-- `int(x)` of a finite number: truncation toward zero. -/
def pyInt (x : ℚ) : ℤ := if 0 ≤ x then ⌊x⌋ else ⌈x⌉

/-- `x % m` for a positive number `m` (Python: the result has the sign of `m`). -/
def pyMod (x m : ℚ) : ℚ := x - m * ((⌊x / m⌋ : ℤ) : ℚ)

/-- `xs[i]` for a non-negative index. -/
def pyIdx {α : Type} (xs : List α) (i : ℕ) : Py α :=
  match xs[i]? with
  | some x => .ok x
  | none => .error .indexError

/-! ## Strings (as lists of characters) -/

/-- `str.isspace` for one character (the code points Python treats as whitespace). -/
def isPySpace (c : Char) : Bool :=
  let n := c.toNat
  (9 ≤ n && n ≤ 13) || (28 ≤ n && n ≤ 32) || n == 0x85 || n == 0xA0 || n == 0x1680 ||
  (0x2000 ≤ n && n ≤ 0x200A) || n == 0x2028 || n == 0x2029 || n == 0x202F || n == 0x205F ||
  n == 0x3000

/-- `s.split(",")`; always returns at least one piece. -/
def splitComma : List Char → List (List Char)
  | [] => [[]]
  | c :: cs =>
    if c = ',' then [] :: splitComma cs
    else match splitComma cs with
      | [] => [[c]]
      | p :: ps => (c :: p) :: ps

/-- `s.strip()` -/
def stripChars (s : List Char) : List Char :=
  ((s.dropWhile isPySpace).reverse.dropWhile isPySpace).reverse

/-- `sep.join(parts)` -/
def joinWith (sep : List Char) : List (List Char) → List Char
  | [] => []
  | [p] => p
  | p :: q :: ps => p ++ sep ++ joinWith sep (q :: ps)

/-- `sep.join(parts)` on strings. -/
def strJoin (sep : String) (parts : List String) : String :=
  String.ofList (joinWith sep.toList (parts.map String.toList))

/-- `needle in haystack` for strings (substring test). -/
def strContains (needle haystack : String) : Bool :=
  haystack.toList.tails.any (fun t => needle.toList.isPrefixOf t)

/-! ## Stable sorting -/

/-- `sorted(xs, key=key)` / `xs.sort(key=key)`: Python's sort is stable, and so is this insertion
sort.  Simplification: algorithm replaced by a structurally recursive stable sort; the result of a
stable sort by a total order is unique. -/
def insertBy {α K : Type} [LE K] [DecidableLE K] (key : α → K) (a : α) : List α → List α
  | [] => [a]
  | b :: l => if key a ≤ key b then a :: b :: l else b :: insertBy key a l

/-- See `insertBy`. -/
def sortBy {α K : Type} [LE K] [DecidableLE K] (key : α → K) : List α → List α
  | [] => []
  | a :: l => insertBy key a (sortBy key l)

/-! ## `range` -/

/-- Elements of `range(start, stop, step)` for integers with `step > 0`. -/
def intRange (start stop : ℤ) (step : ℕ) : List ℤ :=
  if step = 0 then []
  else (List.range ((stop - start + (step : ℤ) - 1) / (step : ℤ)).toNat).map
    (fun i : ℕ => start + (step : ℤ) * (i : ℤ))

/-- `range(start, stop, step)` where the bounds are numbers: raises `TypeError` unless both are
integers.  Simplification: a float with an integral value (e.g. `5.0`), which Python also rejects,
is accepted. -/
def pyRange (start stop : ℚ) (step : ℕ) : Py (List ℤ) :=
  if start.den = 1 ∧ stop.den = 1 then .ok (intRange start.num stop.num step)
  else .error .typeError

end Ama
