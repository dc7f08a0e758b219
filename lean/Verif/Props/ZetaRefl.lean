import Verif.Props.ZetaInt
import Verif.Props.Trig
/-! C88: the zeta function at negative arguments. -/

namespace EFX.Props
open EFX EFX.Stir EFX.Borw

/-- The functional equation for real negative arguments. -/
theorem zetaR_reflect {s : ℝ} (hs : s < 0) :
    zetaR s = (2 * Real.pi) ^ s / Real.pi * Real.sin (Real.pi / 2 * s) * Real.Gamma (1 - s) * zetaR (1 - s) := by
  have pp := Real.pi_pos
  have h := riemannZeta_one_sub (s := ((1 - s : ℝ) : ℂ)) (fun n h => by
    have : (1 - s : ℝ) = -(n : ℝ) := by exact_mod_cast h
    have : (0 : ℝ) ≤ n := by positivity
    linarith) (fun h => by
    have : (1 - s : ℝ) = 1 := by exact_mod_cast h
    linarith)
  have r := (zeta_hasSum (s := 1 - s) (by linarith)).2
  rw [r] at h
  have e : (1 : ℂ) - ((1 - s : ℝ) : ℂ) = (s : ℂ) := by push_cast; ring
  rw [e] at h
  have e2 : (2 : ℂ) * (2 * (Real.pi : ℂ)) ^ (-((1 - s : ℝ) : ℂ)) * Complex.Gamma ((1 - s : ℝ) : ℂ) * Complex.cos (Real.pi * ((1 - s : ℝ) : ℂ) / 2) *
      (((riemannZeta ((1 - s : ℝ) : ℂ)).re : ℝ) : ℂ) =
      ((2 * (2 * Real.pi) ^ (-(1 - s)) * Real.Gamma (1 - s) * Real.cos (Real.pi * (1 - s) / 2) * (riemannZeta ((1 - s : ℝ) : ℂ)).re : ℝ) : ℂ) := by
    rw [Complex.Gamma_ofReal]
    have : ((2 : ℂ) * (Real.pi : ℂ)) ^ (-((1 - s : ℝ) : ℂ)) = (((2 * Real.pi) ^ (-(1 - s)) : ℝ) : ℂ) := by
      rw [Complex.ofReal_cpow (by positivity)]
      push_cast
      rfl
    rw [this]
    push_cast
    rfl
  rw [e2] at h
  unfold zetaR
  rw [h, Complex.ofReal_re, show Real.pi * (1 - s) / 2 = Real.pi / 2 - Real.pi / 2 * s by ring, Real.cos_pi_div_two_sub,
    show -(1 - s) = s - 1 by ring, Real.rpow_sub (by positivity), Real.rpow_one]
  field_simp

/-- Relative errors of products. -/
theorem rel_mul {a b A B α β : ℝ} (h1 : |a - A| ≤ (α - 1) * |A|) (h2 : |b - B| ≤ (β - 1) * |B|) : |a * b - A * B| ≤ (α * β - 1) * |A * B| := by
  rw [show a * b - A * B = (a - A) * (b - B) + (a - A) * B + A * (b - B) by ring, abs_mul A B]
  have t1 : |(a - A) * (b - B)| ≤ ((α - 1) * |A|) * ((β - 1) * |B|) := by
    rw [abs_mul]; exact mul_le_mul h1 h2 (abs_nonneg _) ((abs_nonneg _).trans h1)
  have t2 : |(a - A) * B| ≤ ((α - 1) * |A|) * |B| := by rw [abs_mul]; gcongr
  have t3 : |A * (b - B)| ≤ |A| * ((β - 1) * |B|) := by rw [abs_mul]; gcongr
  have := abs_add_le ((a - A) * (b - B) + (a - A) * B) (A * (b - B))
  have := abs_add_le ((a - A) * (b - B)) ((a - A) * B)
  nlinarith

/-- C88: negative arguments; the relative errors of the power, of the gamma function and of the zeta function of the reflected
argument carry over. -/
theorem C88_reflection_partial {E : RealEnv} (t0 : 10 ≤ E.tol) (ht : E.tol ≤ 59990) {Z : ZEnv ℝ} {s : ℝ} (hs : s < 0) (hn : ∀ n : ℤ, s ≠ n)
    {g z : ℝ} (hg : Fn.gamma (realArith E) Z.tab (1 - s) = some g) (hz : Fn.zeta (realArith E) Z (1 - s) = some z) :
    ∃ r, Fn.zeta (realArith E) Z s = some r ∧ ∀ ε, 4 * (10 : ℝ) ^ (-E.tol) ≤ ε → ε ≤ 1 / 10 →
      |Fn.pow (realArith E) (2 * Real.pi) s - (2 * Real.pi) ^ s| ≤ ε * (2 * Real.pi) ^ s →
      |g - Real.Gamma (1 - s)| ≤ ε * |Real.Gamma (1 - s)| → |z - zetaR (1 - s)| ≤ ε * |zetaR (1 - s)| →
      |r - zetaR s| ≤ 5 * ε * |zetaR s| := by
  have pp := Real.pi_pos
  have n1 : NotSimple Z (1 - s) := Or.inl fun n h => hn (1 - n) (by push_cast; linarith)
  have e1 : Fn.zetaF (realArith E) Z 1 (1 - s) = some z := by
    rw [← hz]
    unfold Fn.zeta
    rw [zetaF_pos E (by linarith) n1 0, zetaF_pos E (by linarith) n1 1]
  have tpi : Fn.twoPi (realArith E) = 2 * Real.pi := by unfold Fn.twoPi; ra_simp; push_cast; ring
  unfold Fn.zeta Fn.zetaF
  simp only [Bool.and_eq_true, Option.bind_eq_bind]
  have hb : ¬((realArith E).isint s = true ∧ Fn.hasSimple Z (Fn.toI32 (realArith E) s) = true) := by
    rintro ⟨a, -⟩
    have : (truncR s : ℝ) = s := by revert a; ra_simp; exact id
    exact hn _ this.symm
  rw [if_neg hb]
  ra_simp
  rw [if_pos hs, hg]
  simp only [Option.bind_some]
  rw [e1]
  simp only [Option.bind_some]
  refine ⟨_, rfl, fun ε e0 e1 h1 h2 h3 => ?_⟩
  rw [tpi, zetaR_reflect hs]
  push_cast
  have h4 := C64_sin_partial t0 ht (Real.pi / 2 * s)
  have P0 : 0 < (2 * Real.pi) ^ s := by positivity
  generalize Fn.pow (realArith E) (2 * Real.pi) s = a1 at *
  generalize (2 * Real.pi) ^ s = A1 at *
  generalize Fn.sin (realArith E) (Real.pi / 2 * s) = a2 at *
  generalize Real.sin (Real.pi / 2 * s) = A2 at *
  generalize Real.Gamma (1 - s) = A3 at *
  generalize zetaR (1 - s) = A4 at *
  have tp : (0 : ℝ) < (10 : ℝ) ^ (-E.tol) := by positivity
  generalize (10 : ℝ) ^ (-E.tol) = t at *
  have k1 : |a1 / Real.pi - A1 / Real.pi| ≤ (1 + ε - 1) * |A1 / Real.pi| := by
    rw [← sub_div, abs_div, abs_div, abs_of_pos pp, abs_of_pos P0, add_sub_cancel_left, mul_div_assoc']
    exact div_le_div_of_nonneg_right h1 pp.le
  have k2 : |a2 - A2| ≤ (1 + ε - 1) * |A2| := by
    rw [abs_sub_comm, add_sub_cancel_left]
    exact h4.trans (mul_le_mul_of_nonneg_right e0 (abs_nonneg _))
  have k3 : |g - A3| ≤ (1 + ε - 1) * |A3| := by rw [add_sub_cancel_left]; exact h2
  have k4 : |z - A4| ≤ (1 + ε - 1) * |A4| := by rw [add_sub_cancel_left]; exact h3
  refine (rel_mul (rel_mul (rel_mul k1 k2) k3) k4).trans (mul_le_mul_of_nonneg_right ?_ (abs_nonneg _))
  have e2 : 0 ≤ ε := by linarith
  have q2 : ε * ε ≤ 1 / 10 * ε := mul_le_mul_of_nonneg_right e1 e2
  have q3 : ε * ε * ε ≤ 1 / 100 * ε := by
    have := mul_le_mul_of_nonneg_right q2 e2
    linarith
  have q4 : ε * ε * ε * ε ≤ 1 / 1000 * ε := by
    have := mul_le_mul_of_nonneg_right q3 e2
    linarith
  rw [show (1 + ε) * (1 + ε) * (1 + ε) * (1 + ε) - 1 = 4 * ε + 6 * (ε * ε) + 4 * (ε * ε * ε) + ε * ε * ε * ε by ring]
  linarith

/-- The argument -1/2 with 101 digits. -/
example {E : RealEnv} (t0 : E.tol = 112) {Z : ZEnv ℝ} {g z : ℝ} (hg : Fn.gamma (realArith E) Z.tab (1 - (-1 / 2)) = some g)
    (hz : Fn.zeta (realArith E) Z (1 - (-1 / 2)) = some z) : ∃ r, Fn.zeta (realArith E) Z (-1 / 2) = some r :=
  have h : ∀ n : ℤ, (-1 / 2 : ℝ) ≠ n := fun n h => by
    have : (-1 : ℝ) = 2 * n := by linarith
    have : (-1 : ℤ) = 2 * n := by exact_mod_cast this
    omega
  (C88_reflection_partial (by omega) (by omega) (by norm_num) h hg hz).imp fun _ h => h.1

end EFX.Props
