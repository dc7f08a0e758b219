import Verif.Model.ElementaryR
/-! The operations of the exact version, as rewrite rules. -/

namespace EFX
variable (E : RealEnv)

theorem ra_add (x y : ℝ) : (realArith E).add x y = x + y := by simp only [realArith]
theorem ra_sub (x y : ℝ) : (realArith E).sub x y = x - y := by simp only [realArith]
theorem ra_mul (x y : ℝ) : (realArith E).mul x y = x * y := by simp only [realArith]
theorem ra_div (x y : ℝ) : (realArith E).div x y = x / y := by simp only [realArith]
theorem ra_neg (x : ℝ) : (realArith E).neg x = -x := by simp only [realArith]
theorem ra_mulI (x : ℝ) (n : ℤ) : (realArith E).mulI x n = x * (n : ℝ) := by simp only [realArith]
theorem ra_divI (x : ℝ) (n : ℤ) : (realArith E).divI x n = x / (n : ℝ) := by simp only [realArith]
theorem ra_isone (x : ℝ) : (realArith E).isone x = false := by simp only [realArith]
theorem ra_isnan (x : ℝ) : (realArith E).isnan x = false := by simp only [realArith]
theorem ra_isinf (x : ℝ) : (realArith E).isinf x = false := by simp only [realArith]
theorem ra_order (x : ℝ) : (realArith E).order x = ordR x := by simp only [realArith]
theorem ra_intPart (x : ℝ) : (realArith E).intPart x = (truncR x : ℝ) := by simp only [realArith]
theorem ra_decPart (x : ℝ) : (realArith E).decPart x = x - (truncR x : ℝ) := by simp only [realArith]
theorem ra_inv (x : ℝ) : (realArith E).inv x = x⁻¹ := by simp only [realArith]
theorem ra_sqrt (x : ℝ) : (realArith E).sqrt x = Real.sqrt x := by simp only [realArith]
theorem ra_incr (x : ℝ) : (realArith E).incr x = x + 1 := by simp only [realArith]
theorem ra_toI (x : ℝ) : (realArith E).toI x = truncR x := by simp only [realArith]
theorem ra_setPrec (x : ℝ) (n : ℤ) : (realArith E).setPrec x n = x := by simp only [realArith]
theorem ra_ofI (n : ℤ) : (realArith E).ofI n = (n : ℝ) := by simp only [realArith]
theorem ra_ten (n : ℤ) : (realArith E).ten n = (10 : ℝ) ^ n := by simp only [realArith]
theorem ra_half : (realArith E).half = 1 / 2 := by simp only [realArith]
theorem ra_pi : (realArith E).pi = Real.pi := by simp only [realArith]
theorem ra_ln2 : (realArith E).ln2 = Real.log 2 := by simp only [realArith]
theorem ra_ln10 : (realArith E).ln10 = Real.log 10 := by simp only [realArith]
theorem ra_e : (realArith E).e = Real.exp 1 := by simp only [realArith]
theorem ra_sqrt2 : (realArith E).sqrt2 = Real.sqrt 2 := by simp only [realArith]
theorem ra_nan : (realArith E).nan = E.nan := by simp only [realArith]
theorem ra_inf : (realArith E).inf = E.inf := by simp only [realArith]
theorem ra_maxExp : (realArith E).maxExp = E.maxExp := by simp only [realArith]
theorem ra_asin0 (x : ℝ) : (realArith E).asin0 x = E.asin0 x := by simp only [realArith]
theorem ra_atan0 (x : ℝ) : (realArith E).atan0 x = E.atan0 x := by simp only [realArith]
theorem ra_log0 (x : ℝ) : (realArith E).log0 x = E.log0 x := by simp only [realArith]
theorem ra_rootn0 (x : ℝ) (n : ℤ) : (realArith E).rootn0 x n = E.rootn0 x n := by simp only [realArith]
theorem ra_tol : (realArith E).tol = E.tol := by simp only [realArith]
theorem ra_lt (x y : ℝ) : ((realArith E).lt x y = true) = (x < y) := by simp [realArith]
theorem ra_lt' (x y : ℝ) : ((realArith E).lt x y = false) = ¬(x < y) := by simp [realArith]
theorem ra_le (x y : ℝ) : ((realArith E).le x y = true) = (x ≤ y) := by simp [realArith]
theorem ra_le' (x y : ℝ) : ((realArith E).le x y = false) = ¬(x ≤ y) := by simp [realArith]
theorem ra_isneg (x : ℝ) : ((realArith E).isneg x = true) = (x < 0) := by simp [realArith]
theorem ra_isneg' (x : ℝ) : ((realArith E).isneg x = false) = ¬(x < 0) := by simp [realArith]
theorem ra_iszero (x : ℝ) : ((realArith E).iszero x = true) = (x = 0) := by simp [realArith]
theorem ra_iszero' (x : ℝ) : ((realArith E).iszero x = false) = ¬(x = 0) := by simp [realArith]
theorem ra_isint (x : ℝ) : ((realArith E).isint x = true) = ((truncR x : ℝ) = x) := by simp [realArith]
theorem ra_isint' (x : ℝ) : ((realArith E).isint x = false) = ¬((truncR x : ℝ) = x) := by simp [realArith]
theorem ra_piHalf : Fn.piHalf (realArith E) = Real.pi / 2 := by simp [Fn.piHalf, realArith]
theorem ra_threeHalf : Fn.threeHalf (realArith E) = 3 / 2 := by simp [Fn.threeHalf, Fn.one, realArith]; norm_num
theorem ra_zero : Fn.zero (realArith E) = 0 := by simp [Fn.zero, realArith]
theorem ra_one : Fn.one (realArith E) = 1 := by simp [Fn.one, realArith]
theorem ra_two : Fn.two (realArith E) = 2 := by simp [Fn.two, realArith]
theorem ra_oneMinus : Fn.oneMinus (realArith E) = -1 := by simp [Fn.oneMinus, realArith]
theorem ra_tenth : Fn.tenth (realArith E) = 1 / 10 := by simp [Fn.tenth, Fn.one, realArith]
theorem ra_isfinite (x : ℝ) : Fn.isfinite (realArith E) x = true := by simp [Fn.isfinite, realArith]
theorem ra_fabs (x : ℝ) : Fn.fabs (realArith E) x = |x| := by
  unfold Fn.fabs
  by_cases h : x < 0
  · rw [if_pos (by rw [ra_isneg]; exact h), abs_of_neg h]; rfl
  · rw [if_neg (by rw [ra_isneg]; exact h), abs_of_nonneg (not_lt.1 h)]
theorem ra_smallArg (x : ℝ) : (Fn.smallArg (realArith E) x = true) = (ordR x < -max (E.tol / 10) 6) := by
  simp [Fn.smallArg, Fn.argLim, realArith]
theorem ra_largeArg (x : ℝ) : (Fn.largeArg (realArith E) x = true) = (max (E.tol / 10) 6 < ordR x) := by
  simp [Fn.largeArg, Fn.argLim, realArith]
theorem ra_nearOne (x : ℝ) : (Fn.nearOne (realArith E) x = true) = (ordR |1 - x| < -max (E.tol / 10) 6) := by
  unfold Fn.nearOne
  rw [ra_smallArg, ra_fabs, ra_sub, ra_one]

/-- Rewrites the operations of `realArith`. -/
macro "ra_simp" : tactic => `(tactic| simp only [ra_add, ra_sub, ra_mul, ra_div, ra_neg, ra_mulI, ra_divI, ra_isone, ra_isnan, ra_isinf, ra_order, ra_intPart,
  ra_decPart, ra_inv, ra_sqrt, ra_incr, ra_toI, ra_setPrec, ra_ofI, ra_ten, ra_half, ra_pi, ra_ln2, ra_ln10,
  ra_e, ra_sqrt2, ra_nan, ra_inf, ra_maxExp, ra_asin0, ra_atan0, ra_log0, ra_rootn0, ra_tol, ra_lt, ra_lt',
  ra_le, ra_le', ra_isneg, ra_isneg', ra_iszero, ra_iszero', ra_isint, ra_isint', ra_piHalf, ra_threeHalf,
  ra_zero, ra_one, ra_two, ra_oneMinus, ra_tenth, ra_isfinite, ra_fabs, ra_smallArg, ra_largeArg, ra_nearOne])

end EFX
