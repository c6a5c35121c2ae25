import Verif.Py.Basic

/-!
# Binary floating point numbers

Rounding of exact results to the nearest number with 53 significant binary digits, ties to even, as the
arithmetic of Python and numpy does.  Simplification: exponents are unbounded, so there is no overflow, no
subnormal number and no infinity.
-/

namespace Ama

/-- The nearest integer; the even one if two are equally near. -/
def roundEven (x : ℚ) : ℤ :=
  let f := x.floor
  if x - f < 1 / 2 then f
  else if 1 / 2 < x - f then f + 1
  else if f % 2 = 0 then f
  else f + 1

/-- A power of two. -/
def pow2 : ℤ → ℚ
  | .ofNat n => ((2 ^ n : ℕ) : ℚ)
  | .negSucc n => 1 / ((2 ^ (n + 1) : ℕ) : ℚ)

/-- The exponent of a number that is not zero: the greatest power of two that is not above its absolute
value. -/
def exponent (x : ℚ) : ℤ :=
  let e : ℤ := (Nat.log2 x.num.natAbs : ℤ) - (Nat.log2 x.den : ℤ)
  if pow2 e ≤ |x| then e else e - 1

/-- Rounding to a binary floating point number of double precision. -/
def float64 (x : ℚ) : ℚ :=
  if x = 0 then 0
  else
    let ulp := pow2 (exponent x - 52)
    ulp * roundEven (x / ulp)

/-- Python's `round(x, 2)` for a float: correctly rounded to two decimals, ties to even, and then to the
nearest float. -/
def pyRound2 (x : ℚ) : ℚ := float64 (roundEven (100 * x) / 100)

end Ama
