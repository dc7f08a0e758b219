import Mathlib.NumberTheory.Bernoulli
import Mathlib.RingTheory.PowerSeries.Derivative
import Mathlib.Tactic.LinearCombination
import Mathlib.Tactic.FieldSimp
/-!
Tangent numbers and Bernoulli numbers.  `tanCoef n i` is the coefficient of `t^i` in the polynomial `P_n` with
`P_n(tan x)` the `n`-th derivative of the tangent.
-/

namespace EFX
open PowerSeries

/-- Coefficients of the derivative polynomials of the tangent. -/
def tanCoef : ℕ → ℕ → ℕ
  | 0, i => if i = 1 then 1 else 0
  | n + 1, i => (i - 1) * tanCoef n (i - 1) + (i + 1) * tanCoef n (i + 1)

theorem tanCoef_top (n : ℕ) : (∀ i, n + 1 < i → tanCoef n i = 0) ∧ tanCoef n (n + 1) = n.factorial := by
  induction n with
  | zero => exact ⟨fun i hi => by rw [tanCoef, if_neg (by omega)], by simp [tanCoef]⟩
  | succ n ih =>
    refine ⟨fun i hi => ?_, ?_⟩
    · rw [tanCoef, ih.1 (i - 1) (by omega), ih.1 (i + 1) (by omega)]; simp
    · rw [tanCoef, ih.1 (n + 1 + 1 + 1) (by omega), show n + 1 + 1 - 1 = n + 1 by omega, ih.2, Nat.factorial_succ]
      ring

/-- The derivative polynomials of the hyperbolic tangent. -/
noncomputable def tanhPoly : ℕ → Polynomial ℚ
  | 0 => Polynomial.X
  | n + 1 => Polynomial.derivative (tanhPoly n) * (1 - Polynomial.X ^ 2)

theorem tanhPoly_coeff (n : ℕ) : ∀ i r, n + i = 2 * r + 1 → (tanhPoly n).coeff i = (-1) ^ r * tanCoef n i := by
  induction n with
  | zero =>
    intro i r h
    rw [tanhPoly, Polynomial.coeff_X, tanCoef]
    by_cases h1 : i = 1
    · have : r = 0 := by omega
      simp [h1, this]
    · rw [if_neg (by omega), if_neg h1]; simp
  | succ n ih =>
    intro i r h
    rw [tanhPoly, mul_sub, mul_one, Polynomial.coeff_sub, Polynomial.coeff_derivative, ih (i + 1) r (by omega), tanCoef]
    rw [Polynomial.coeff_mul_X_pow']
    by_cases h2 : 2 ≤ i
    · obtain ⟨j, rfl⟩ : ∃ j, i = j + 2 := ⟨i - 2, by omega⟩
      obtain ⟨s, rfl⟩ : ∃ s, r = s + 1 := ⟨r - 1, by omega⟩
      rw [if_pos h2, show j + 2 - 2 = j by omega, Polynomial.coeff_derivative, ih (j + 1) s (by omega),
        show j + 2 - 1 = j + 1 by omega, pow_succ]
      push_cast
      ring
    · rw [if_neg h2]
      rcases (by omega : i = 0 ∨ i = 1) with rfl | rfl
      · simp
      · simp; ring

/-- A power series with `H' = 1 - H^2` has the derivatives `tanhPoly n (H)`. -/
theorem tanh_derivs {H : PowerSeries ℚ} (h : d⁄dX ℚ H = 1 - H ^ 2) (n : ℕ) :
    (d⁄dX ℚ)^[n] H = Polynomial.aeval H (tanhPoly n) := by
  induction n with
  | zero => simp [tanhPoly]
  | succ n ih =>
    rw [Function.iterate_succ_apply', ih, Derivation.map_aeval, h, tanhPoly, map_mul, smul_eq_mul]
    simp

/-- The Bernoulli numbers by tangent numbers. -/
theorem bernoulli_tangent (k : ℕ) (hk : 1 ≤ k) :
    bernoulli (2 * k) * ((4 : ℚ) ^ k * 4 ^ k - 4 ^ k) = (-1) ^ (k - 1) * tanCoef (2 * k - 2) 1 * (2 * k) := by
  set E : PowerSeries ℚ := rescale 2 (exp ℚ) with hE
  set b2 : PowerSeries ℚ := rescale 2 (bernoulliPowerSeries ℚ) with hb2
  set b4 : PowerSeries ℚ := rescale 4 (bernoulliPowerSeries ℚ) with hb4
  have X2 : (rescale (2 : ℚ) X : PowerSeries ℚ) = 2 * X := by
    rw [rescale_X]; rfl
  have X4 : (rescale (4 : ℚ) X : PowerSeries ℚ) = 4 * X := by
    rw [rescale_X]; rfl
  have e4 : rescale (4 : ℚ) (exp ℚ) = E * E := by
    have := exp_mul_exp_eq_exp_add (A := ℚ) 2 2
    rw [hE, this]; norm_num
  have r2 : b2 * (E - 1) = 2 * X := by
    have := congrArg (rescale (2 : ℚ)) (bernoulliPowerSeries_mul_exp_sub_one ℚ)
    rwa [map_mul, map_sub, map_one, X2] at this
  have r4 : b4 * (E * E - 1) = 4 * X := by
    have := congrArg (rescale (4 : ℚ)) (bernoulliPowerSeries_mul_exp_sub_one ℚ)
    rwa [map_mul, map_sub, map_one, X4, e4] at this
  have E0 : constantCoeff E = 1 := by
    rw [hE, ← coeff_zero_eq_constantCoeff_apply, coeff_rescale]; simp
  have E1 : E - 1 ≠ 0 := by
    intro h
    have := congrArg (coeff 1) h
    rw [map_sub, hE, coeff_rescale, coeff_exp, coeff_one] at this
    norm_num at this
  have Ep : E + 1 ≠ 0 := by
    intro h
    have := congrArg constantCoeff h
    rw [map_add, E0] at this
    norm_num at this
  have dE : d⁄dX ℚ E = 2 * E := by
    ext n
    rw [coeff_derivative, hE, coeff_rescale, coeff_exp, show (2 : PowerSeries ℚ) = C (2 : ℚ) from rfl, coeff_C_mul, coeff_rescale, coeff_exp]
    simp only [Algebra.algebraMap_self, RingHom.id_apply]
    rw [Nat.factorial_succ]
    push_cast
    have : (n.factorial : ℚ) ≠ 0 := by exact_mod_cast Nat.factorial_ne_zero n
    field_simp
    ring
  -- the hyperbolic tangent
  obtain ⟨H, hH⟩ : ∃ H, X - b2 + b4 = X * H := by
    have : X ∣ X - b2 + b4 := by
      rw [X_dvd_iff, map_add, map_sub, hb2, hb4, ← coeff_zero_eq_constantCoeff_apply, ← coeff_zero_eq_constantCoeff_apply,
        ← coeff_zero_eq_constantCoeff_apply, coeff_rescale, coeff_rescale]
      simp
    exact this
  have hEq : H * (E + 1) = E - 1 := by
    apply mul_left_cancel₀ (X_ne_zero (R := ℚ))
    apply mul_right_cancel₀ E1
    have : X * (H * (E + 1)) * (E - 1) = (X * H) * (E + 1) * (E - 1) := by ring
    rw [this, ← hH]
    linear_combination (-E - 1) * r2 + r4
  have H0 : constantCoeff H = 0 := by
    have := congrArg constantCoeff hEq
    rw [map_mul, map_add, map_sub, E0] at this
    norm_num at this
    exact this
  have dH : d⁄dX ℚ H = 1 - H ^ 2 := by
    have h1 := congrArg (d⁄dX ℚ) hEq
    rw [Derivation.leibniz, map_add, map_sub, dE, smul_eq_mul, smul_eq_mul] at h1
    simp only [derivative_one, add_zero, sub_zero] at h1
    apply mul_right_cancel₀ Ep
    apply mul_right_cancel₀ Ep
    linear_combination (E + 1) * h1 - (2 * E - (E - 1) - H * (E + 1)) * hEq
  -- coefficients
  have c1 : (2 * k - 1).factorial * coeff (2 * k - 1) H = (-1) ^ (k - 1) * tanCoef (2 * k - 2) 1 := by
    have h1 := constantCoeff_iterate_derivative (R := ℚ) H (2 * k - 1)
    rw [tanh_derivs dH] at h1
    have h2 : constantCoeff (Polynomial.aeval H (tanhPoly (2 * k - 1))) = (tanhPoly (2 * k - 1)).coeff 0 := by
      have h3 := Polynomial.hom_eval₂ (tanhPoly (2 * k - 1)) (algebraMap ℚ (PowerSeries ℚ)) (constantCoeff (R := ℚ)) H
      rw [H0, Polynomial.eval₂_at_zero] at h3
      rw [Polynomial.aeval_def, h3]
      simp
    rw [h2, tanhPoly_coeff _ 0 (k - 1) (by omega), show 2 * k - 1 = (2 * k - 2) + 1 by omega, tanCoef] at h1
    rw [show 2 * k - 1 = (2 * k - 2) + 1 by omega]
    rw [← h1]
    simp
  have c2 : coeff (2 * k - 1) H = (4 ^ (2 * k) - 2 ^ (2 * k)) * bernoulli (2 * k) / (2 * k).factorial := by
    have h1 := congrArg (coeff ((2 * k - 1) + 1)) hH
    rw [mul_comm X H, coeff_succ_mul_X, map_add, map_sub, hb2, hb4, coeff_rescale, coeff_rescale, bernoulliPowerSeries, coeff_mk,
      coeff_X, if_neg (by omega), show 2 * k - 1 + 1 = 2 * k by omega] at h1
    rw [← h1]
    simp
    ring
  rw [c2] at c1
  have f1 : ((2 * k).factorial : ℚ) = (2 * k) * (2 * k - 1).factorial := by
    obtain ⟨j, rfl⟩ : ∃ j, k = j + 1 := ⟨k - 1, by omega⟩
    rw [show 2 * (j + 1) - 1 = 2 * j + 1 by omega, show 2 * (j + 1) = (2 * j + 1) + 1 by ring, Nat.factorial_succ]
    push_cast
    ring
  have f0 : ((2 * k - 1).factorial : ℚ) ≠ 0 := by exact_mod_cast Nat.factorial_ne_zero _
  have k0 : (k : ℚ) ≠ 0 := by exact_mod_cast (by omega : k ≠ 0)
  rw [f1] at c1
  rw [← c1, pow_mul, pow_mul, ← mul_pow]
  norm_num
  field_simp

end EFX
