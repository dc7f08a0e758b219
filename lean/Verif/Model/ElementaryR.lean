import Mathlib.Analysis.SpecialFunctions.Pow.Real
import Mathlib.Data.Int.Log
import Verif.Model.Elementary
/-!
# The elementary functions with exact real operations

The same transcription of the functions (`Model/Elementary`), filled with exact operations on real numbers and exact
constants.  Simplifications: no rounding, no exponent limits; NaN, infinity and the exponent limit of `exp` are
parameters, so a theorem for all of them does not depend on these values; `isone` is false, because the code only accepts
`0.99…9` (see `C26_isone_refuted`); `to_int64` has no range.
-/

namespace EFX
open Classical

/-- Not modelled parts of the real version: special values and double precision estimates. -/
structure RealEnv where
  nan : ℝ
  inf : ℝ
  maxExp : ℝ
  asin0 : ℝ → ℝ
  atan0 : ℝ → ℝ
  log0 : ℝ → Option ℝ
  rootn0 : ℝ → Int → ℝ
  /-- `ef::tolerance()` -/
  tol : Int

/-- The decimal order; the order of zero is zero (efx.cpp 1726-1740). -/
noncomputable def ordR (x : ℝ) : Int := if x = 0 then 0 else Int.log 10 |x|

/-- The integer part (efx.cpp `integer_part`), cut toward zero. -/
noncomputable def truncR (x : ℝ) : Int := if 0 ≤ x then ⌊x⌋ else ⌈x⌉

/-- Exact operations. -/
noncomputable def realArith (E : RealEnv) : Arith ℝ where
  add := fun x y => x + y
  sub := fun x y => x - y
  mul := fun x y => x * y
  div := fun x y => x / y
  neg := fun x => -x
  mulI := fun x n => x * (n : ℝ)
  divI := fun x n => x / (n : ℝ)
  lt := fun x y => decide (x < y)
  le := fun x y => decide (x ≤ y)
  isneg := fun x => decide (x < 0)
  iszero := fun x => decide (x = 0)
  isone := fun _ => false
  isint := fun x => decide ((truncR x : ℝ) = x)
  isnan := fun _ => false
  isinf := fun _ => false
  order := ordR
  intPart := fun x => (truncR x : ℝ)
  decPart := fun x => x - (truncR x : ℝ)
  inv := fun x => x⁻¹
  sqrt := fun x => Real.sqrt x
  incr := fun x => x + 1
  toI := truncR
  setPrec := fun x _ => x
  ofI := fun n => (n : ℝ)
  ten := fun n => (10 : ℝ) ^ n
  half := 1 / 2
  pi := Real.pi
  ln2 := Real.log 2
  ln10 := Real.log 10
  e := Real.exp 1
  sqrt2 := Real.sqrt 2
  nan := E.nan
  inf := E.inf
  maxExp := E.maxExp
  asin0 := E.asin0
  atan0 := E.atan0
  log0 := E.log0
  rootn0 := E.rootn0
  tol := E.tol

end EFX
