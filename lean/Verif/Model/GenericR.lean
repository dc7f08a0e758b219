import Mathlib.Analysis.SpecialFunctions.Pow.Real
import Verif.Model.Generic
/-!
# The generic functions with exact real operations

The templates of `Model/Generic` for a number type with exact operations.  The parts that pass through `double` and
through streams are parameters.
-/

namespace EFX
open Classical

/-- The parameters: limits of the number type, conversions through text, operations of `double`. -/
structure GenEnv where
  minv : ℝ
  eps : ℝ
  nan : ℝ
  digits10 : Int
  frexp : ℝ → Rat × Int
  ofText : Rat → Int → ℝ
  dsqrt : Rat → Rat
  ddiv : Rat → Rat → Rat
  dpow : Rat → Rat → Rat

/-- Exact operations. -/
noncomputable def realGen (E : GenEnv) : Gen ℝ where
  add := fun x y => x + y
  sub := fun x y => x - y
  mul := fun x y => x * y
  div := fun x y => x / y
  neg := fun x => -x
  mulI := fun x n => x * (n : ℝ)
  divI := fun x n => x / (n : ℝ)
  ofI := fun n => (n : ℝ)
  lt := fun x y => decide (x < y)
  minv := E.minv
  eps := E.eps
  nan := E.nan
  digits10 := E.digits10
  frexp := E.frexp
  ofText := E.ofText
  dsqrt := E.dsqrt
  ddiv := E.ddiv
  dpow := E.dpow

/-- A range in which positive numbers of type `double` are normal. -/
def InDouble (q : ℝ) : Prop := 1 / 10 ^ 305 ≤ q ∧ q ≤ 10 ^ 305

/-- What is assumed about the parameters: in the range of `double`, quotients are rounded to nearest, `sqrt` and `pow` of
the C library are good to `2 * 10^-16`, a text with 16 digits is off by at most `5 * 10^-16`, and one with 17 digits read
as `double` by at most `2 * 10^-16`. -/
structure GenEnv.Good (E : GenEnv) : Prop where
  min_pos : 0 < E.minv
  min_le : E.minv ≤ (10 : ℝ) ^ (-E.digits10 - 2)
  dig0 : 0 ≤ E.digits10
  dig1 : E.digits10 ≤ 2 ^ 30
  frexp_range : ∀ x, x ≠ 0 → 1 ≤ |((E.frexp x).1 : ℝ)| ∧ |((E.frexp x).1 : ℝ)| ≤ 10
  frexp_val : ∀ x, x ≠ 0 → |((E.frexp x).1 : ℝ) * 10 ^ (E.frexp x).2 - x| ≤ 2 / 10 ^ 16 * |x|
  text_val : ∀ (m : ℚ) e, InDouble m → |E.ofText m e - m * 10 ^ e| ≤ 5 / 10 ^ 16 * (m * 10 ^ e)
  dsqrt_val : ∀ q : ℚ, InDouble q → |(E.dsqrt q : ℝ) - Real.sqrt q| ≤ 2 / 10 ^ 16 * Real.sqrt q
  ddiv_val : ∀ a b : ℚ, InDouble |(a / b : ℝ)| → |(E.ddiv a b : ℝ) - a / b| ≤ 12 / 10 ^ 17 * |(a / b : ℝ)|
  dpow_val : ∀ a b : ℚ, InDouble a → InDouble ((a : ℝ) ^ (b : ℝ)) →
    |(E.dpow a b : ℝ) - (a : ℝ) ^ (b : ℝ)| ≤ 2 / 10 ^ 16 * (a : ℝ) ^ (b : ℝ)

end EFX
