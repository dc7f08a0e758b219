import Verif.Lemmas.GammaC
import Verif.Props.Hyperbolic
import Verif.Props.Roots
/-! C101: the complex exponential, logarithm and sine with the library's own real functions. -/

namespace EFX.Props
open EFX

theorem norm_le_parts (z : ℂ) : ‖z‖ ≤ |z.re| + |z.im| := Complex.norm_le_abs_re_add_abs_im z

theorem tol_split (t : ℤ) : (10 : ℝ) ^ (9 - t) = 1000000000 * (10 : ℝ) ^ (-t) := by
  rw [show 9 - t = 9 + -t by ring, zpow_add₀ (by norm_num)]; norm_num

/-- C101, exponential: relative error at most `2*10^(9-tolerance)`, for a real part within the exponent limit that is no
multiple of `ln 2` except zero (`C65_ln2_refuted`).  The rounding is left out. -/
theorem C101_cexp_partial {E : RealEnv} (t0 : 12 ≤ E.tol) (ht : E.tol ≤ 29990) (hm : E.maxExp ≤ 2 ^ 62) {z : Cx ℝ}
    (h1 : |z.re| ≤ E.maxExp) (hx : ∀ n : ℤ, z.re ≠ 0 → z.re ≠ n * Real.log 2) :
    ‖Complex.exp (toC z) - toC (FnC.exp (realArith E) z)‖ ≤ 2 * (10 : ℝ) ^ (9 - E.tol) * ‖Complex.exp (toC z)‖ := by
  have he := C65_exp_partial (by omega) ht hm h1 hx
  have hc := (C64_cos_partial t0 (by omega) z.im).1
  have hs := C64_sin_partial (by omega : 10 ≤ E.tol) (by omega) z.im
  have tp : (0 : ℝ) < (10 : ℝ) ^ (-E.tol) := by positivity
  have tl : (10 : ℝ) ^ (-E.tol) ≤ (10 : ℝ) ^ (-12 : ℤ) := zpow_le_zpow_right₀ (by norm_num) (by omega)
  rw [tol_split] at *
  have s1 := Real.abs_sin_le_one z.im
  have c1 := Real.abs_cos_le_one z.im
  have ep := Real.exp_pos z.re
  rw [Complex.norm_exp]
  refine (norm_le_parts _).trans ?_
  have er : (Complex.exp (toC z) - toC (FnC.exp (realArith E) z)).re = Real.exp z.re * Real.cos z.im - Fn.cos (realArith E) z.im * Fn.exp (realArith E) z.re := by
    rw [Complex.sub_re, Complex.exp_re]; simp [toC, FnC.exp, FnC.mulR, ra_mul]
  have ei : (Complex.exp (toC z) - toC (FnC.exp (realArith E) z)).im = Real.exp z.re * Real.sin z.im - Fn.sin (realArith E) z.im * Fn.exp (realArith E) z.re := by
    rw [Complex.sub_im, Complex.exp_im]; simp [toC, FnC.exp, FnC.mulR, ra_mul]
  rw [er, ei]
  change _ ≤ _ * Real.exp z.re
  generalize Fn.exp (realArith E) z.re = e' at *
  generalize Fn.cos (realArith E) z.im = c' at *
  generalize Fn.sin (realArith E) z.im = s' at *
  generalize Real.exp z.re = e at *
  generalize Real.cos z.im = c at *
  generalize Real.sin z.im = s at *
  generalize (10 : ℝ) ^ (-E.tol) = δ at *
  norm_num at tl
  have e1 : |e'| ≤ 101 / 100 * e := by
    have := abs_sub_abs_le_abs_sub e' e
    rw [abs_sub_comm e', abs_of_pos ep] at this
    nlinarith
  have a1 : |e * c - c' * e'| ≤ 4700 * δ * e + 1000000000 * δ * (101 / 100 * e) := by
    rw [show e * c - c' * e' = (e - e') * c + (c - c') * e' by ring]
    refine (abs_add_le _ _).trans (add_le_add ?_ ?_)
    · rw [abs_mul]; exact (mul_le_mul he c1 (abs_nonneg _) (by positivity)).trans (by linarith)
    · rw [abs_mul]; exact mul_le_mul hc e1 (abs_nonneg _) (by positivity)
  have a2 : |e * s - s' * e'| ≤ 4700 * δ * e + 4 * δ * (101 / 100 * e) := by
    rw [show e * s - s' * e' = (e - e') * s + (s - s') * e' by ring]
    refine (abs_add_le _ _).trans (add_le_add ?_ ?_)
    · rw [abs_mul]; exact (mul_le_mul he s1 (abs_nonneg _) (by positivity)).trans (by linarith)
    · rw [abs_mul]
      refine mul_le_mul (hs.trans ?_) e1 (abs_nonneg _) (by positivity)
      nlinarith
  have : 0 < δ * e := by positivity
  nlinarith

/-- C101, logarithm: absolute error at most `5*10^(9-tolerance)`, for points whose squared modulus is close to one or has a
good start for the Newton iteration, and outside of the range of the quotient where `atan` is wrong (`C73_steep_refuted`). -/
theorem C101_clog_partial {E : RealEnv} (t0 : 30 ≤ E.tol) (ht : E.tol ≤ 29990) (hm : E.maxExp ≤ 2 ^ 62) (hm' : 10000 ≤ E.maxExp)
    (ha : ∀ y, 0 < y → y < 100 → |E.atan0 y - Real.arctan y| ≤ (10 : ℝ) ^ (-15 : ℤ)) {z : Cx ℝ} (z0 : toC z ≠ 0)
    (hl : LogFine E (‖toC z‖ ^ 2))
    (hq : ¬(z.im / z.re < 0 ∧ max (E.tol / 10) 6 < ordR (z.im / z.re) ∧ ordR (z.im / z.re) ≤ E.tol)) :
    ‖Complex.log (toC z) - toC (FnC.log (realArith E) z)‖ ≤ 5 * (10 : ℝ) ^ (9 - E.tol) := by
  have np : 0 < ‖toC z‖ := norm_pos_iff.2 z0
  have h1 := log_fine (by omega) ht hm hm' (show 0 < ‖toC z‖ ^ 2 by positivity) hl
  have h2 := C73_atan2_partial t0 ht ha hq
  have tp : (0 : ℝ) < (10 : ℝ) ^ (-E.tol) := by positivity
  rw [tol_split] at *
  refine (norm_le_parts _).trans ?_
  have er : (Complex.log (toC z) - toC (FnC.log (realArith E) z)).re = (Real.log (‖toC z‖ ^ 2) - Fn.log (realArith E) (‖toC z‖ ^ 2)) / 2 := by
    rw [Complex.sub_re, Complex.log_re, Real.log_pow]
    have : (toC (FnC.log (realArith E) z)).re = Fn.log (realArith E) (‖toC z‖ ^ 2) / 2 := by
      simp only [toC, FnC.log]; rw [FnC.tc_norm, ra_divI]; rfl
    rw [this]; push_cast; ring
  have ei : (Complex.log (toC z) - toC (FnC.log (realArith E) z)).im = Complex.arg ⟨z.re, z.im⟩ - Fn.atan2 (realArith E) z.im z.re := by
    rw [Complex.sub_im, Complex.log_im]; simp [toC, FnC.log]
  rw [er, ei, abs_div, abs_two]
  linarith

/-- C101, sine: the error is at most `2*10^(9-tolerance)` times the hyperbolic cosine of the imaginary part. -/
theorem C101_csin_partial {E : RealEnv} (t0 : 12 ≤ E.tol) (ht : E.tol ≤ 29990) (hm : E.maxExp ≤ 2 ^ 62) {z : Cx ℝ}
    (h1 : |z.im| ≤ E.maxExp) (hx : ∀ n : ℤ, z.im ≠ 0 → z.im ≠ n * Real.log 2) :
    ‖Complex.sin (toC z) - toC (FnC.sin (realArith E) z)‖ ≤ 2 * (10 : ℝ) ^ (9 - E.tol) * Real.cosh z.im := by
  obtain ⟨hch, hsh, -⟩ := C69_hyperbolic_partial (by omega) ht hm h1 hx
  have hc := (C64_cos_partial t0 (by omega) z.re).1
  have hs := C64_sin_partial (by omega : 10 ≤ E.tol) (by omega) z.re
  have tp : (0 : ℝ) < (10 : ℝ) ^ (-E.tol) := by positivity
  have tl : (10 : ℝ) ^ (-E.tol) ≤ (10 : ℝ) ^ (-12 : ℤ) := zpow_le_zpow_right₀ (by norm_num) (by omega)
  rw [tol_split] at *
  have s1 := Real.abs_sin_le_one z.re
  have c1 := Real.abs_cos_le_one z.re
  have cp := Real.cosh_pos z.im
  have sc : |Real.sinh z.im| ≤ Real.cosh z.im := by
    have := Real.cosh_sq z.im
    exact abs_le_of_sq_le_sq (by linarith) cp.le
  refine (norm_le_parts _).trans ?_
  have e0 := toC_sin z
  rw [← e0]
  have er : (toC (Cx.sin z) - toC (FnC.sin (realArith E) z)).re =
      Real.sin z.re * Real.cosh z.im - Fn.sin (realArith E) z.re * Fn.cosh (realArith E) z.im := by
    rw [Complex.sub_re]; simp [toC, Cx.sin, FnC.sin, ra_mul]
  have ei : (toC (Cx.sin z) - toC (FnC.sin (realArith E) z)).im =
      Real.cos z.re * Real.sinh z.im - Fn.cos (realArith E) z.re * Fn.sinh (realArith E) z.im := by
    rw [Complex.sub_im]; simp [toC, Cx.sin, FnC.sin, ra_mul]
  rw [er, ei]
  generalize Fn.cosh (realArith E) z.im = C' at *
  generalize Fn.sinh (realArith E) z.im = S' at *
  generalize Fn.cos (realArith E) z.re = c' at *
  generalize Fn.sin (realArith E) z.re = s' at *
  generalize Real.cosh z.im = C at *
  generalize Real.sinh z.im = S at *
  generalize Real.cos z.re = c at *
  generalize Real.sin z.re = s at *
  generalize (10 : ℝ) ^ (-E.tol) = δ at *
  norm_num at tl
  have C1 : |C'| ≤ 101 / 100 * C := by
    have := abs_sub_abs_le_abs_sub C' C
    rw [abs_sub_comm C', abs_of_pos cp] at this
    nlinarith
  have S1 : |S'| ≤ 101 / 100 * C := by
    have := abs_sub_abs_le_abs_sub S' S
    rw [abs_sub_comm S'] at this
    nlinarith
  have a1 : |s * C - s' * C'| ≤ 4800 * δ * C + 4 * δ * (101 / 100 * C) := by
    rw [show s * C - s' * C' = s * (C - C') + (s - s') * C' by ring]
    refine (abs_add_le _ _).trans (add_le_add ?_ ?_)
    · rw [abs_mul]; exact (mul_le_mul s1 hch (abs_nonneg _) (by positivity)).trans (by linarith)
    · rw [abs_mul]
      refine mul_le_mul (hs.trans ?_) C1 (abs_nonneg _) (by positivity)
      nlinarith
  have a2 : |c * S - c' * S'| ≤ 4800 * δ * C + 1000000000 * δ * (101 / 100 * C) := by
    rw [show c * S - c' * S' = c * (S - S') + (c - c') * S' by ring]
    refine (abs_add_le _ _).trans (add_le_add ?_ ?_)
    · rw [abs_mul]; exact (mul_le_mul c1 hsh (abs_nonneg _) (by positivity)).trans (by linarith)
    · rw [abs_mul]; exact mul_le_mul hc S1 (abs_nonneg _) (by positivity)
  have : 0 < δ * C := by positivity
  nlinarith

/-- The hypotheses of the exponential and the sine hold for `1 + i` at 101 digits. -/
theorem one_ne_log_two (n : ℤ) : (1 : ℝ) ≠ n * Real.log 2 := by
  have l1 := Real.log_two_gt_d9
  have l2 := Real.log_two_lt_d9
  intro h
  have h1 : (1 : ℤ) < n := by
    by_contra hc
    have : (n : ℝ) ≤ 1 := by exact_mod_cast (not_lt.1 hc)
    nlinarith
  have h2 : (2 : ℝ) ≤ n := by exact_mod_cast h1
  nlinarith

example (E : RealEnv) (h : E.tol = 112) (hm : E.maxExp = 4944763836) :
    ‖Complex.exp (1 + Complex.I) - toC (FnC.exp (realArith E) ⟨1, 1⟩)‖ ≤ 2 * (10 : ℝ) ^ (9 - E.tol) * ‖Complex.exp (1 + Complex.I)‖ ∧
    ‖Complex.sin (1 + Complex.I) - toC (FnC.sin (realArith E) ⟨1, 1⟩)‖ ≤ 2 * (10 : ℝ) ^ (9 - E.tol) * Real.cosh 1 := by
  have e : (1 + Complex.I : ℂ) = toC ⟨1, 1⟩ := by apply Complex.ext <;> simp [toC]
  rw [e]
  exact ⟨C101_cexp_partial (by omega) (by omega) (by rw [hm]; norm_num) (by rw [hm]; norm_num) fun n _ => one_ne_log_two n,
    C101_csin_partial (by omega) (by omega) (by rw [hm]; norm_num) (by rw [hm]; norm_num) fun n _ => one_ne_log_two n⟩

/-- The hypotheses of the logarithm hold for `1 + i` with estimates of 14 and 15 digits. -/
example (E : RealEnv) (h : E.tol = 112) (hm : E.maxExp = 4944763836)
    (ha : ∀ y, 0 < y → y < 100 → |E.atan0 y - Real.arctan y| ≤ (10 : ℝ) ^ (-15 : ℤ))
    (h0 : ∀ y, ∃ v, E.log0 y = some v ∧ |v - Real.log y| ≤ (10 : ℝ) ^ (-(14 : ℤ))) :
    ‖Complex.log (-1 + 2 * Complex.I) - toC (FnC.log (realArith E) ⟨-1, 2⟩)‖ ≤ 5 * (10 : ℝ) ^ (9 - E.tol) := by
  have e : (-1 + 2 * Complex.I : ℂ) = toC ⟨-1, 2⟩ := by apply Complex.ext <;> simp [toC]
  have n5 : ‖toC ⟨-1, 2⟩‖ ^ 2 = 5 := by rw [← norm_eq]; norm_num [Cx.norm]
  have o5 : ordR 5 = 0 := ordR_eq (by norm_num) (by norm_num) (by norm_num)
  have n0 : newtonArg 5 = 5 := by unfold newtonArg; rw [o5]; norm_num
  have l1 := Real.log_two_gt_d9
  have l2 := Real.log_two_lt_d9
  have b1 : 16 * Real.log 2 ≤ 7 * Real.log 5 := by
    rw [show 16 * Real.log 2 = Real.log (2 ^ 16) by rw [Real.log_pow]; norm_num, show 7 * Real.log 5 = Real.log (5 ^ 7) by rw [Real.log_pow]; norm_num]
    exact Real.log_le_log (by norm_num) (by norm_num)
  have b2 : 5 * Real.log 5 ≤ 12 * Real.log 2 := by
    rw [show 12 * Real.log 2 = Real.log (2 ^ 12) by rw [Real.log_pow]; norm_num, show 5 * Real.log 5 = Real.log (5 ^ 5) by rw [Real.log_pow]; norm_num]
    exact Real.log_le_log (by norm_num) (by norm_num)
  rw [e]
  refine C101_clog_partial (by omega) (by omega) (by rw [hm]; norm_num) (by rw [hm]; norm_num) ha ?_ ?_ ?_
  · intro h
    have := congrArg Complex.re h
    norm_num [toC] at this
  · rw [n5]
    right
    refine ⟨Or.inr (by rw [h]; norm_num), ?_⟩
    rw [n0]
    refine ⟨h0 5, fun n _ => ?_⟩
    rw [lt_abs]
    rcases le_or_gt n 2 with hn | hn
    · left
      have : (n : ℝ) ≤ 2 := by exact_mod_cast hn
      nlinarith
    · right
      have : (3 : ℝ) ≤ n := by exact_mod_cast hn
      nlinarith
  · rintro ⟨-, h2, -⟩
    have : ordR (2 / -1) < 1 := (ordR_lt (by norm_num)).2 (by norm_num)
    have h3 := le_max_right (E.tol / 10) 6
    simp only at h2
    omega

end EFX.Props
