import Mathlib.Analysis.Analytic.Binomial
import Mathlib.Analysis.Calculus.SmoothSeries
import Mathlib.Analysis.SpecialFunctions.Trigonometric.InverseDeriv
import Verif.Lemmas.RealHyp
/-! The binomial series and the series of the arc sine. -/

namespace EFX
open Finset

theorem poch_eq_eval (a : ℝ) (n : ℕ) : poch a n = (ascPochhammer ℝ n).eval a := by
  induction n with
  | zero => simp [poch_zero]
  | succ n ih => rw [poch_succ, ih, ascPochhammer_succ_eval]

theorem choose_eq_poch (a : ℝ) (n : ℕ) : Ring.choose (a + n - 1) n = poch a n / n.factorial := by
  rw [← Ring.multichoose_eq]
  have h := Ring.factorial_nsmul_multichoose_eq_ascPochhammer a n
  rw [Polynomial.ascPochhammer_smeval_eq_eval, ← poch_eq_eval, nsmul_eq_mul] at h
  have h1 : (n.factorial : ℝ) ≠ 0 := by exact_mod_cast n.factorial_ne_zero
  rw [← h]; field_simp

/-- The binomial series `1F0(a; x) = (1 - x)^-a`. -/
theorem hasSum_binom (a : ℝ) {x : ℝ} (hx : |x| < 1) : HasSum (t1f0 a x) ((1 - x) ^ (-a)) := by
  have h := Complex.one_div_one_sub_cpow_hasFPowerSeriesOnBall_zero (a : ℂ)
  have hs := h.hasSum (y := (x : ℂ)) (by simpa [enorm_eq_nnnorm] using! (by
    rw [← NNReal.coe_lt_coe]; simpa using hx))
  have ep : 0 < 1 - x := by linarith [(abs_lt.1 hx).2]
  rw [← Complex.hasSum_ofReal]
  have e1 : ((((1 - x) ^ (-a) : ℝ)) : ℂ) = 1 / (1 - (0 + (x : ℂ))) ^ (a : ℂ) := by
    rw [Complex.ofReal_cpow ep.le, zero_add, one_div, Complex.ofReal_neg, Complex.cpow_neg]
    push_cast
    rfl
  rw [e1]
  refine hs.congr_fun ?_
  intro n
  rw [FormalMultilinearSeries.ofScalars_apply_eq]
  have : Ring.choose ((a : ℂ) + n - 1) n = ((poch a n / n.factorial : ℝ) : ℂ) := by
    rw [← choose_eq_poch, Complex.ofReal_choose]
    push_cast
    rfl
  rw [this]
  unfold t1f0 xn
  push_cast
  rw [smul_eq_mul]
  ring

/-- The coefficients of `(1 - y)^(-1/2)`. -/
noncomputable def cHalf (n : ℕ) : ℝ := poch (1 / 2) n / n.factorial

theorem cHalf_bound (n : ℕ) : 0 < cHalf n ∧ cHalf n ≤ 1 := by
  unfold cHalf
  have h1 : (0 : ℝ) < n.factorial := by exact_mod_cast n.factorial_pos
  have h2 : 0 < poch (1 / 2) n := by
    unfold poch
    exact Finset.prod_pos (fun i _ => by positivity)
  refine ⟨by positivity, ?_⟩
  rw [div_le_one h1]
  clear h1 h2
  induction n with
  | zero => simp [poch_zero]
  | succ n ih =>
    rw [poch_succ, Nat.factorial_succ]
    push_cast
    have h3 : (0 : ℝ) ≤ n.factorial := by positivity
    have h4 : (0 : ℝ) ≤ n := by positivity
    nlinarith

theorem hasSum_half {y : ℝ} (hy : |y| < 1) : HasSum (fun n => cHalf n * y ^ n) ((1 - y) ^ (-(1 / 2 : ℝ))) := by
  refine (hasSum_binom (1 / 2) hy).congr_fun ?_
  intro n
  unfold t1f0 xn cHalf
  ring

/-- The series of the arc sine. -/
theorem hasSum_asin {x : ℝ} (hx : |x| < 1) : HasSum (fun n : ℕ => cHalf n * x ^ (2 * n + 1) / (2 * n + 1)) (Real.arcsin x) := by
  obtain ⟨r, r1, r2⟩ := exists_between hx
  have r0 : 0 < r := lt_of_le_of_lt (abs_nonneg x) r1
  set g : ℕ → ℝ → ℝ := fun n z => cHalf n * z ^ (2 * n + 1) / (2 * n + 1) with hg
  set g' : ℕ → ℝ → ℝ := fun n z => cHalf n * z ^ (2 * n) with hg'
  have su : Summable (fun n : ℕ => (r * r) ^ n) := summable_geometric_of_lt_one (by positivity) (by nlinarith)
  have bound : ∀ (n : ℕ) (z : ℝ), |z| < r → |cHalf n * z ^ (2 * n)| ≤ (r * r) ^ n := by
    intro n z hz
    rw [abs_mul, abs_of_pos (cHalf_bound n).1, abs_pow, pow_mul]
    have h1 : (|z| ^ 2) ^ n ≤ (r * r) ^ n := by
      apply pow_le_pow_left₀ (by positivity)
      nlinarith [abs_nonneg z]
    have h2 := (cHalf_bound n).2
    have h3 := (cHalf_bound n).1
    have h4 : 0 ≤ (|z| ^ 2) ^ n := by positivity
    nlinarith
  have der : ∀ (n : ℕ) (z : ℝ), z ∈ Metric.ball (0 : ℝ) r → HasDerivAt (g n) (g' n z) z := by
    intro n z _
    have h := ((hasDerivAt_pow (2 * n + 1) z).const_mul (cHalf n)).div_const (2 * n + 1 : ℝ)
    have hn : (2 * (n : ℝ) + 1) ≠ 0 := by positivity
    refine h.congr_deriv ?_
    show _ = cHalf n * z ^ (2 * n)
    rw [Nat.add_sub_cancel]
    push_cast
    field_simp
  have z0 : (0 : ℝ) ∈ Metric.ball (0 : ℝ) r := by simpa using r0
  have g0 : Summable fun n => g n 0 := by
    have : (fun n => g n 0) = fun _ => 0 := by
      funext n; simp [hg]
    rw [this]; exact summable_zero
  have dT : ∀ z, z ∈ Metric.ball (0 : ℝ) r → HasDerivAt (fun z => ∑' n, g n z) (∑' n, g' n z) z := fun z hz =>
    hasDerivAt_tsum_of_isPreconnected su Metric.isOpen_ball (convex_ball 0 r).isPreconnected der
      (fun n y hy => by
        rw [Real.norm_eq_abs]
        exact bound n y (by simpa using hy)) z0 g0 hz
  have dA : ∀ z, z ∈ Metric.ball (0 : ℝ) r → HasDerivAt Real.arcsin (∑' n, g' n z) z := by
    intro z hz
    have zr : |z| < r := by simpa using hz
    have zz := abs_lt.1 (lt_trans zr r2)
    have h := Real.hasDerivAt_arcsin (x := z) (by linarith) (by linarith)
    have y1 : |z ^ 2| < 1 := by
      rw [abs_of_nonneg (sq_nonneg z)]; nlinarith
    have hs := hasSum_half y1
    have e : (fun n => cHalf n * (z ^ 2) ^ n) = fun n => g' n z := by
      funext n; simp only [hg']; rw [pow_mul]
    rw [e] at hs
    rw [hs.tsum_eq]
    convert h using 1
    rw [Real.rpow_neg (by nlinarith), ← Real.sqrt_eq_rpow, one_div]
  have eq := Metric.isOpen_ball.eqOn_of_deriv_eq (convex_ball (0 : ℝ) r).isPreconnected
    (fun z hz => (dT z hz).differentiableAt.differentiableWithinAt)
    (fun z hz => (dA z hz).differentiableAt.differentiableWithinAt)
    (fun z hz => by rw [(dT z hz).deriv, (dA z hz).deriv]) z0 (by simp [hg])
  have xm : x ∈ Metric.ball (0 : ℝ) r := by simpa using r1
  have := eq xm
  rw [← this]
  apply Summable.hasSum
  apply Summable.of_norm_bounded su
  intro n
  rw [Real.norm_eq_abs]
  have h1 := bound n x r1
  show |cHalf n * x ^ (2 * n + 1) / (2 * n + 1)| ≤ _
  rw [pow_succ, ← mul_assoc, abs_div, abs_mul, abs_of_pos (by positivity : (0 : ℝ) < 2 * (n : ℝ) + 1)]
  refine le_trans (div_le_self (by positivity) (by linarith [(Nat.cast_nonneg n : (0 : ℝ) ≤ n)])) ?_
  have h3 := abs_nonneg (cHalf n * x ^ (2 * n))
  nlinarith

end EFX
