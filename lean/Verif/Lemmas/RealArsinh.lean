import Mathlib.Analysis.SpecialFunctions.Arsinh
import Verif.Lemmas.RealBinom
/-! The series of the inverse hyperbolic sine. -/

namespace EFX

/-- The series of the inverse hyperbolic sine. -/
theorem hasSum_arsinh {x : ℝ} (hx : |x| < 1) : HasSum (fun n : ℕ => (-1) ^ n * cHalf n * x ^ (2 * n + 1) / (2 * n + 1)) (Real.arsinh x) := by
  obtain ⟨r, r1, r2⟩ := exists_between hx
  have r0 : 0 < r := lt_of_le_of_lt (abs_nonneg x) r1
  set g : ℕ → ℝ → ℝ := fun n z => (-1) ^ n * cHalf n * z ^ (2 * n + 1) / (2 * n + 1) with hg
  set g' : ℕ → ℝ → ℝ := fun n z => (-1) ^ n * cHalf n * z ^ (2 * n) with hg'
  have su : Summable (fun n : ℕ => (r * r) ^ n) := summable_geometric_of_lt_one (by positivity) (by nlinarith)
  have bound : ∀ (n : ℕ) (z : ℝ), |z| < r → |(-1) ^ n * cHalf n * z ^ (2 * n)| ≤ (r * r) ^ n := by
    intro n z hz
    rw [abs_mul, abs_mul, abs_of_pos (cHalf_bound n).1, abs_pow, abs_pow, abs_neg, abs_one, one_pow, one_mul, pow_mul]
    have h1 : (|z| ^ 2) ^ n ≤ (r * r) ^ n := by
      apply pow_le_pow_left₀ (by positivity)
      nlinarith [abs_nonneg z]
    have h2 := (cHalf_bound n).2
    have h3 := (cHalf_bound n).1
    have h4 : 0 ≤ (|z| ^ 2) ^ n := by positivity
    nlinarith
  have der : ∀ (n : ℕ) (z : ℝ), z ∈ Metric.ball (0 : ℝ) r → HasDerivAt (g n) (g' n z) z := by
    intro n z _
    have h := ((hasDerivAt_pow (2 * n + 1) z).const_mul ((-1) ^ n * cHalf n)).div_const (2 * n + 1 : ℝ)
    have hn : (2 * (n : ℝ) + 1) ≠ 0 := by positivity
    refine h.congr_deriv ?_
    show _ = (-1) ^ n * cHalf n * z ^ (2 * n)
    rw [Nat.add_sub_cancel]
    push_cast
    field_simp
  have z0 : (0 : ℝ) ∈ Metric.ball (0 : ℝ) r := by simpa using r0
  have g0 : Summable fun n => g n 0 := by
    have : (fun n => g n 0) = fun _ => 0 := by
      funext n; simp [hg]
    rw [this]; exact summable_zero
  have dT : ∀ z, z ∈ Metric.ball (0 : ℝ) r → HasDerivAt (fun z => ∑' n, g n z) (∑' n, g' n z) z := fun z hz =>
    hasDerivAt_tsum_of_isPreconnected su Metric.isOpen_ball (convex_ball 0 r).isPreconnected der
      (fun n y hy => by
        rw [Real.norm_eq_abs]
        exact bound n y (by simpa using hy)) z0 g0 hz
  have dA : ∀ z, z ∈ Metric.ball (0 : ℝ) r → HasDerivAt Real.arsinh (∑' n, g' n z) z := by
    intro z hz
    have zr : |z| < r := by simpa using hz
    have h := Real.hasDerivAt_arsinh z
    have y1 : |-(z ^ 2)| < 1 := by
      rw [abs_neg, abs_of_nonneg (sq_nonneg z), ← sq_abs]; nlinarith [abs_nonneg z]
    have hs := hasSum_half y1
    have e : (fun n => cHalf n * (-(z ^ 2)) ^ n) = fun n => g' n z := by
      funext n
      show _ = (-1) ^ n * cHalf n * z ^ (2 * n)
      rw [neg_pow, pow_mul]; ring
    rw [e] at hs
    rw [hs.tsum_eq]
    convert h using 1
    rw [sub_neg_eq_add, Real.rpow_neg (by positivity), ← Real.sqrt_eq_rpow]
  have eq := Metric.isOpen_ball.eqOn_of_deriv_eq (convex_ball (0 : ℝ) r).isPreconnected
    (fun z hz => (dT z hz).differentiableAt.differentiableWithinAt)
    (fun z hz => (dA z hz).differentiableAt.differentiableWithinAt)
    (fun z hz => by rw [(dT z hz).deriv, (dA z hz).deriv]) z0 (by simp [hg])
  have xm : x ∈ Metric.ball (0 : ℝ) r := by simpa using r1
  have := eq xm
  rw [← this]
  apply Summable.hasSum
  apply Summable.of_norm_bounded su
  intro n
  rw [Real.norm_eq_abs]
  have h1 := bound n x r1
  show |(-1) ^ n * cHalf n * x ^ (2 * n + 1) / (2 * n + 1)| ≤ _
  rw [pow_succ, ← mul_assoc, abs_div, abs_mul, abs_of_pos (by positivity : (0 : ℝ) < 2 * (n : ℝ) + 1)]
  refine le_trans (div_le_self (by positivity) (by linarith [(Nat.cast_nonneg n : (0 : ℝ) ≤ n)])) ?_
  have h3 := abs_nonneg ((-1) ^ n * cHalf n * x ^ (2 * n))
  nlinarith

end EFX
