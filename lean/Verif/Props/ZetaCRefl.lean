import Verif.Props.ZetaC
import Mathlib.NumberTheory.LSeries.Nonvanishing
/-! C106: the zeta function of complex arguments, limits and reflection. -/

namespace EFX.Props
open EFX EFX.Stir

/-! ## Large imaginary parts -/

/-- C106 refuted: from 23172 terms on an `INT32` product overflows, for every arithmetic. -/
theorem C106_terms_refuted {α : Type} (A : Arith α) (Z : ZEnv α) (s : Cx α) {N : ℕ} (hN : 23172 ≤ N) : FnC.zetaAlt A Z N s = none := by
  unfold FnC.zetaAlt
  simp only [Option.bind_eq_bind]
  rcases Fn.factorial A Z.tab (2 * N - 1) with - | f
  · rfl
  simp only [Option.bind_some]
  rcases FnC.jPowX A Z N s [] with - | r
  · rfl
  simp only [Option.bind_some]
  obtain ⟨M, rfl⟩ : ∃ M, N = M + 1 := ⟨N - 1, by omega⟩
  have : FnC.zetaLoop A Z (M + 1) s (M + 1) = fun _ _ _ _ _ _ _ _ => none := by
    funext a b c d e f g h
    unfold FnC.zetaLoop
    simp only
    rw [if_pos (by
      rw [if_pos (by omega)]
      have : (46343 : ℤ) * 46342 ≤ (2 * (M : ℤ) + 1) * (2 * M) := by apply mul_le_mul <;> omega
      omega)]
  rw [this]
  rfl

theorem zetaN_large {α : Type} (Z : ZEnv α) (s : Cx α) (h : 21066 ≤ |Z.toD s.im|) : 23172 ≤ FnC.zetaN Z s := by
  unfold FnC.zetaN
  have a : rnd (11 / 10) = 2476979795053773 / 2251799813685248 := by decide +kernel
  have b : rnd 23172 = 23172 := by decide +kernel
  have c : (23172 : ℚ) ≤ rnd (rnd (11 / 10) * |Z.toD s.im|) := by
    rw [← b]
    refine rnd_mono (by norm_num) ?_
    rw [a]
    linarith
  have d : (0 : ℚ) ≤ rnd (rnd (Z.digits : Nat) * rnd (29 / 20)) := rnd_nonneg (mul_nonneg (rnd_nonneg (by positivity)) (rnd_nonneg (by norm_num)))
  have e : (23172 : ℚ) ≤ rnd (rnd (rnd (Z.digits : Nat) * rnd (29 / 20)) + rnd (rnd (11 / 10) * |Z.toD s.im|)) := by
    conv_lhs => rw [← b]
    exact rnd_mono (by norm_num) (by linarith)
  have f : (23172 : ℤ) ≤ (rnd (rnd (rnd (Z.digits : Nat) * rnd (29 / 20)) + rnd (rnd (11 / 10) * |Z.toD s.im|))).floor := Rat.le_floor_iff.2 (by exact_mod_cast e)
  omega

/-- C106 refuted: the function lets imaginary parts up to 1000100 in, but from 21066 on the number of terms makes an `INT32` product
overflow, whatever the number of digits.  Every arithmetic. -/
theorem C106_large_refuted {α : Type} (A : Arith α) (Z : ZEnv α) {s : Cx α} (h0 : A.iszero s.im = false) (h1 : A.isneg s.re = false)
    (h2 : A.lt (A.ofI 1000100) (Fn.fabs A s.im) = false) (h3 : 21066 ≤ |Z.toD s.im|) : FnC.zeta A Z s = none := by
  unfold FnC.zeta FnC.zetaT
  simp only [h0, h1, h2, Bool.false_eq_true, if_false]
  exact C106_terms_refuted A Z s (zetaN_large Z s h3)

/-- A case: `1/2 + 30000 i` on the real numbers. -/
example (E : RealEnv) (Z : ZEnv ℝ) (h : Z.toD 30000 = 30000) : FnC.zeta (realArith E) Z ⟨1 / 2, 30000⟩ = none := by
  refine C106_large_refuted _ _ ?_ ?_ ?_ ?_
  · show decide ((30000 : ℝ) = 0) = false; norm_num
  · show decide ((1 / 2 : ℝ) < 0) = false; norm_num
  · show decide (((1000100 : ℤ) : ℝ) < (if decide ((30000 : ℝ) < 0) then -30000 else 30000)) = false; norm_num
  · rw [h]; norm_num

/-- C106: beyond 1000100 the value is NaN, for a real part that is not negative. -/
theorem C106_limit (E : RealEnv) (Z : ZEnv ℝ) {s : Cx ℝ} (h1 : 0 ≤ s.re) (h2 : 1000100 < |s.im|) : FnC.zeta (realArith E) Z s = some ⟨E.nan, 0⟩ := by
  have h0 : s.im ≠ 0 := by rintro h; rw [h] at h2; norm_num at h2
  unfold FnC.zeta FnC.zetaT FnC.ofR
  ra_simp
  rw [if_neg h0, if_neg (by linarith), if_pos (by simpa using h2)]

example (E : RealEnv) (Z : ZEnv ℝ) : FnC.zeta (realArith E) Z ⟨1 / 2, 2000000⟩ = some ⟨E.nan, 0⟩ := C106_limit E Z (by norm_num) (by norm_num)

/-! ## Reflection -/

/-- Functional equation in the form of the code. -/
theorem zeta_refl {s : ℂ} (hs : s.re < 0) :
    riemannZeta s = (2 * Real.pi : ℂ) ^ s / Real.pi * Complex.sin (Real.pi / 2 * s) * Complex.Gamma (1 - s) * riemannZeta (1 - s) := by
  have h := riemannZeta_one_sub (s := 1 - s) (fun n h => by
    have := congrArg Complex.re h
    simp at this
    have : (0 : ℝ) ≤ n := Nat.cast_nonneg n
    linarith) (fun h => by
    have := congrArg Complex.re h
    simp at this
    linarith)
  rw [show 1 - (1 - s) = s by ring] at h
  rw [h, show -(1 - s) = s - 1 by ring, Complex.cpow_sub _ _ (by norm_num), Complex.cpow_one,
    show (Real.pi : ℂ) * (1 - s) / 2 = Real.pi / 2 - Real.pi / 2 * s by ring, Complex.cos_pi_div_two_sub]
  have : (Real.pi : ℂ) ≠ 0 := by exact_mod_cast Real.pi_ne_zero
  field_simp

/-- The value on the left is the product of the code. -/
theorem zeta_left (E : RealEnv) (Z : ZEnv ℝ) {s : Cx ℝ} (hs : s.re < 0) (hi : s.im ≠ 0) {g z : Cx ℝ}
    (hg : FnC.gamma (realArith E) Z.tab ⟨1 - s.re, -s.im⟩ = some g) (hz : FnC.zeta (realArith E) Z ⟨1 - s.re, -s.im⟩ = some z) :
    ∃ r, FnC.zeta (realArith E) Z s = some r ∧ toC r = toC (FnC.rPow (realArith E) (2 * Real.pi) s) / Real.pi *
      toC (FnC.sin (realArith E) ⟨Real.pi / 2 * s.re, Real.pi / 2 * s.im⟩) * toC g * toC z := by
  have e1 : FnC.rSub (realArith E) (1 : ℝ) s = ⟨1 - s.re, -s.im⟩ := by
    unfold FnC.rSub
    ra_simp
  have e2 : FnC.rMul (realArith E) (Real.pi / ((2 : ℤ) : ℝ)) s = ⟨Real.pi / 2 * s.re, Real.pi / 2 * s.im⟩ := by
    unfold FnC.rMul
    ra_simp
    norm_num [mul_comm]
  have e3 : Fn.twoPi (realArith E) = 2 * Real.pi := by
    unfold Fn.twoPi
    ra_simp
    ring
  have hz1 : FnC.zetaT (realArith E) Z 1 ⟨1 - s.re, -s.im⟩ = some z := by
    rw [← hz]
    unfold FnC.zeta FnC.zetaT
    ra_simp
    have a : ¬ (-s.im = 0) := by simpa using hi
    have b : ¬ (1 - s.re < 0) := by linarith
    simp only [a, b, if_false]
  unfold FnC.zeta FnC.zetaT
  ra_simp
  rw [if_neg hi, if_pos hs, e1, hg, hz1, e2, e3]
  refine ⟨_, rfl, ?_⟩
  rw [FnC.tc_mul, FnC.tc_mul, FnC.tc_mul, FnC.tc_divR]

theorem refl_prod {P S G Z p q g z : ℂ} {ε : ℝ} (e0 : 0 ≤ ε) (e1 : ε ≤ 1 / 1000) (hp : ‖p - P‖ ≤ ε * ‖P‖) (hq : ‖q - S‖ ≤ ε * ‖S‖) (hg : ‖g - G‖ ≤ ε * ‖G‖)
    (hz : ‖z - Z‖ ≤ ε * ‖Z‖) : ‖p * q * g * z - P * S * G * Z‖ ≤ 5 * ε * ‖P * S * G * Z‖ := by
  have two : ∀ {a b A B : ℂ} {d e : ℝ}, 0 ≤ d → 0 ≤ e → ‖a - A‖ ≤ d * ‖A‖ → ‖b - B‖ ≤ e * ‖B‖ → ‖a * b - A * B‖ ≤ (d + e + d * e) * ‖A * B‖ := by
    intro a b A B d e d0 e0 h1 h2
    have := norm_add_le ((a - A) * (b - B) + (a - A) * B) (A * (b - B))
    have := norm_add_le ((a - A) * (b - B)) ((a - A) * B)
    rw [show a * b - A * B = (a - A) * (b - B) + (a - A) * B + A * (b - B) by ring]
    simp only [norm_mul] at *
    have := mul_le_mul h1 h2 (norm_nonneg _) (by positivity)
    have := mul_le_mul_of_nonneg_right h1 (norm_nonneg B)
    have := mul_le_mul_of_nonneg_left h2 (norm_nonneg A)
    nlinarith
  have h2 := two e0 e0 hp hq
  have h3 := two (by positivity) e0 h2 hg
  have h4 := two (by positivity) e0 h3 hz
  refine h4.trans (mul_le_mul_of_nonneg_right ?_ (norm_nonneg _))
  have : ε * ε ≤ ε * (1 / 1000) := mul_le_mul_of_nonneg_left e1 e0
  have a : ε + ε + ε * ε ≤ (2001 / 1000) * ε := by linarith
  have b : (ε + ε + ε * ε) * ε ≤ ε / 100 := by nlinarith
  have c : (ε + ε + ε * ε + ε + (ε + ε + ε * ε) * ε) * ε ≤ ε / 100 := by nlinarith
  linarith

/-- C106: to the left of the imaginary axis relative errors of the power, the sine, the gamma function and the zeta function of `1 - s`
carry over through the functional equation.  What is missing: the errors of these parts put together (C101, C103, C105), and the
rounding. -/
theorem C106_reflection_partial (E : RealEnv) (Z : ZEnv ℝ) {s : Cx ℝ} (hs : s.re < 0) (hi : s.im ≠ 0) {g z : Cx ℝ} {ε : ℝ} (e0 : 0 ≤ ε) (e1 : ε ≤ 1 / 1000)
    (hg : FnC.gamma (realArith E) Z.tab ⟨1 - s.re, -s.im⟩ = some g) (hz : FnC.zeta (realArith E) Z ⟨1 - s.re, -s.im⟩ = some z)
    (hp' : ‖toC (FnC.rPow (realArith E) (2 * Real.pi) s) - (2 * Real.pi : ℂ) ^ toC s‖ ≤ ε * ‖(2 * Real.pi : ℂ) ^ toC s‖)
    (hs' : ‖toC (FnC.sin (realArith E) ⟨Real.pi / 2 * s.re, Real.pi / 2 * s.im⟩) - Complex.sin (Real.pi / 2 * toC s)‖ ≤ ε * ‖Complex.sin (Real.pi / 2 * toC s)‖)
    (hg' : ‖toC g - Complex.Gamma (1 - toC s)‖ ≤ ε * ‖Complex.Gamma (1 - toC s)‖) (hz' : ‖toC z - riemannZeta (1 - toC s)‖ ≤ ε * ‖riemannZeta (1 - toC s)‖) :
    ∃ r, FnC.zeta (realArith E) Z s = some r ∧ ‖toC r - riemannZeta (toC s)‖ ≤ 5 * ε * ‖riemannZeta (toC s)‖ := by
  obtain ⟨r, r1, r2⟩ := zeta_left E Z hs hi hg hz
  refine ⟨r, r1, ?_⟩
  rw [r2, zeta_refl (s := toC s) hs]
  refine refl_prod e0 e1 ?_ hs' hg' hz'
  rw [← sub_div, norm_div, norm_div, ← mul_div_assoc]
  gcongr

/-- C106 refuted: a negative integer real part, within the table of the factorials, has the gamma function of the real axis in the product
(`C102_integer_refuted`).  With an imaginary part at least as large, and with all other parts accurate to one in a thousand, the value
is wrong by more than a quarter. -/
theorem C106_integer_refuted (E : RealEnv) (Z : ZEnv ℝ) {n : ℕ} (n0 : 1 ≤ n) (h1 : n + 1 < Z.tab.a142.length) (h2 : n < 4294967296) {y : ℝ} (hy : n + 1 ≤ |y|)
    {f : ℝ} (hf : Z.tab.a142[n]? = some f) (hf' : |f - n.factorial| ≤ 1 / 1000 * n.factorial) {z : Cx ℝ}
    (hz : FnC.zeta (realArith E) Z ⟨n + 1, -y⟩ = some z)
    (hp' : ‖toC (FnC.rPow (realArith E) (2 * Real.pi) ⟨-n, y⟩) - (2 * Real.pi : ℂ) ^ toC ⟨-n, y⟩‖ ≤ 1 / 1000 * ‖(2 * Real.pi : ℂ) ^ toC ⟨-n, y⟩‖)
    (hs' : ‖toC (FnC.sin (realArith E) ⟨Real.pi / 2 * -n, Real.pi / 2 * y⟩) - Complex.sin (Real.pi / 2 * toC ⟨-n, y⟩)‖ ≤ 1 / 1000 * ‖Complex.sin (Real.pi / 2 * toC ⟨-n, y⟩)‖)
    (hz' : ‖toC z - riemannZeta (1 - toC ⟨-n, y⟩)‖ ≤ 1 / 1000 * ‖riemannZeta (1 - toC ⟨-n, y⟩)‖) :
    ∃ r, FnC.zeta (realArith E) Z ⟨-n, y⟩ = some r ∧ riemannZeta (toC ⟨-n, y⟩) ≠ 0 ∧
      1 / 4 * ‖riemannZeta (toC ⟨-n, y⟩)‖ < ‖toC r - riemannZeta (toC ⟨-n, y⟩)‖ := by
  have np : (1 : ℝ) ≤ n := by exact_mod_cast n0
  have y0 : y ≠ 0 := by rintro rfl; rw [abs_zero] at hy; linarith
  obtain ⟨⟨f', f1, hg, -⟩, hG, -⟩ := C102_integer_refuted E Z.tab n h1 h2 (y := -y) (neg_ne_zero.2 y0)
  obtain rfl : f = f' := by rw [hf] at f1; exact Option.some.inj f1
  have hre : (toC ⟨-n, y⟩).re < 0 := by show -(n : ℝ) < 0; linarith
  have one : (1 : ℂ) - toC ⟨-n, y⟩ = toC ⟨((n + 1 : ℕ) : ℝ), -y⟩ := by
    apply Complex.ext <;> simp [toC]; ring
  obtain ⟨r, r1, r2⟩ := zeta_left E Z (s := ⟨-n, y⟩) (by show -(n : ℝ) < 0; linarith) y0 (g := ⟨f, 0⟩) (z := z)
    (by rw [← hg]; congr 2; push_cast; ring) (by rw [← hz]; congr 2; ring)
  have F0 : (0 : ℝ) < n.factorial := by exact_mod_cast n.factorial_pos
  have G0 : Complex.Gamma (1 - toC ⟨-n, y⟩) ≠ 0 := by
    refine Complex.Gamma_ne_zero fun m h => ?_
    have := congrArg Complex.re h
    have hm : (0 : ℝ) ≤ m := Nat.cast_nonneg m
    simp [toC] at this
    linarith
  have Z0 : riemannZeta (1 - toC ⟨-n, y⟩) ≠ 0 := riemannZeta_ne_zero_of_one_le_re (by simp [toC])
  have S0 : Complex.sin (Real.pi / 2 * toC ⟨-n, y⟩) ≠ 0 := by
    rw [Complex.sin_ne_zero_iff]
    intro k h
    have := congrArg Complex.im h
    simp [toC] at this
    exact y0 this
  have P0 : (2 * Real.pi : ℂ) ^ toC ⟨-n, y⟩ / Real.pi ≠ 0 := by
    have pc : (Real.pi : ℂ) ≠ 0 := by exact_mod_cast Real.pi_ne_zero
    refine div_ne_zero ?_ pc
    rw [Complex.cpow_def_of_ne_zero (by simp)]
    exact Complex.exp_ne_zero _
  have hZ := zeta_refl hre
  refine ⟨r, r1, ?_, ?_⟩
  · rw [hZ]
    exact mul_ne_zero (mul_ne_zero (mul_ne_zero P0 S0) G0) Z0
  rw [hZ, r2]
  have hp2 : ‖toC (FnC.rPow (realArith E) (2 * Real.pi) ⟨-n, y⟩) / Real.pi - (2 * Real.pi : ℂ) ^ toC ⟨-n, y⟩ / Real.pi‖ ≤ 1 / 1000 * ‖(2 * Real.pi : ℂ) ^ toC ⟨-n, y⟩ / Real.pi‖ := by
    rw [← sub_div, norm_div, norm_div, ← mul_div_assoc]
    gcongr
  have hf2 : ‖toC ⟨f, 0⟩ - (n.factorial : ℂ)‖ ≤ 1 / 1000 * ‖(n.factorial : ℂ)‖ := by
    have : toC ⟨f, 0⟩ - (n.factorial : ℂ) = ((f - n.factorial : ℝ) : ℂ) := by apply Complex.ext <;> simp [toC]
    rw [this, Complex.norm_real, Complex.norm_natCast]
    exact hf'
  have near := refl_prod (by norm_num) le_rfl hp2 hs' hf2 hz'
  rw [← one] at hG
  generalize toC (FnC.rPow (realArith E) (2 * Real.pi) ⟨-n, y⟩) / Real.pi = p at *
  generalize toC (FnC.sin (realArith E) ⟨Real.pi / 2 * -n, Real.pi / 2 * y⟩) = q at *
  generalize (2 * Real.pi : ℂ) ^ toC ⟨-n, y⟩ / Real.pi = P at *
  generalize Complex.sin (Real.pi / 2 * toC ⟨-n, y⟩) = S at *
  generalize riemannZeta (1 - toC ⟨-n, y⟩) = W at *
  generalize Complex.Gamma (1 - toC ⟨-n, y⟩) = G at *
  generalize p * q * toC ⟨f, 0⟩ * toC z = v at *
  have hG2 : ‖G‖ ≤ 5 / 7 * n.factorial := by
    refine hG.trans (mul_le_mul_of_nonneg_right ?_ F0.le)
    have y2 : ((n : ℝ) + 1) ^ 2 ≤ (-y) ^ 2 := by
      rw [neg_sq, ← sq_abs y]; gcongr
    have : 7 / 5 * ((n : ℝ) + 1) ≤ Real.sqrt ((n + 1) ^ 2 + (-y) ^ 2) := by
      apply Real.le_sqrt_of_sq_le
      nlinarith
    rw [div_le_iff₀ (by linarith)]
    linarith
  have up : ‖P * S * G * W‖ ≤ 5 / 7 * ‖P * S * (n.factorial : ℂ) * W‖ := by
    simp only [norm_mul, Complex.norm_natCast]
    have : 0 ≤ ‖P‖ * ‖S‖ * ‖W‖ := by positivity
    nlinarith
  have pos : 0 < ‖P * S * (n.factorial : ℂ) * W‖ := by
    refine norm_pos_iff.2 (mul_ne_zero (mul_ne_zero (mul_ne_zero P0 S0) ?_) Z0)
    exact_mod_cast n.factorial_ne_zero
  have t1 := norm_sub_norm_le (P * S * (n.factorial : ℂ) * W) v
  rw [norm_sub_rev] at t1
  have t2 := norm_sub_norm_le v (P * S * G * W)
  linarith

/-- C106: powers of a real number from one on with a complex exponent. -/
theorem C106_power_partial {E : RealEnv} (t0 : 12 ≤ E.tol) (ht : E.tol ≤ 29990) (hm : E.maxExp ≤ 2 ^ 62) (hm' : 10000 ≤ E.maxExp)
    {x : ℝ} (n0 : 1 ≤ x) {s : Cx ℝ} (hl : LogFine E x) (hδ : 6001 * (10 : ℝ) ^ (-E.tol) * ‖toC s‖ ≤ 1) (hy : |s.re| * Real.log x + 1 ≤ E.maxExp)
    (hx : ∀ k : ℤ, s.re * Fn.log (realArith E) x ≠ 0 → s.re * Fn.log (realArith E) x ≠ k * Real.log 2) :
    ‖toC (FnC.rPow (realArith E) x s) - (x : ℂ) ^ toC s‖ ≤ (12002 * ‖toC s‖ + 6000000000) * (10 : ℝ) ^ (-E.tol) * ‖(x : ℂ) ^ toC s‖ := by
  have log := log_fine (by omega) ht hm hm' (y := x) (by linarith) hl
  have e : FnC.rPow (realArith E) x s = FnC.exp (realArith E) ⟨s.re * Fn.log (realArith E) x, s.im * Fn.log (realArith E) x⟩ := by
    unfold FnC.rPow FnC.mulR
    simp only [ra_mul]
  rw [e]
  generalize Fn.log (realArith E) x = l at *
  have cl : (x : ℂ) ^ toC s = Complex.exp (toC s * Real.log x) := by
    rw [Complex.cpow_def_of_ne_zero (by exact_mod_cast (show x ≠ 0 by linarith)), mul_comm, Complex.ofReal_log (by linarith)]
  have ty : toC ⟨s.re * l, s.im * l⟩ = toC s * l := by
    apply Complex.ext <;> simp [toC]
  have d : ‖toC s * l - toC s * Real.log x‖ ≤ 6001 * (10 : ℝ) ^ (-E.tol) * ‖toC s‖ := by
    rw [← mul_sub, norm_mul, ← Complex.ofReal_sub, Complex.norm_real, Real.norm_eq_abs, abs_sub_comm, mul_comm]
    exact mul_le_mul_of_nonneg_right log (norm_nonneg _)
  have near := cexp_near d hδ
  have re : |s.re| ≤ ‖toC s‖ := Complex.abs_re_le_norm (toC s)
  have ex := C101_cexp_partial t0 ht hm (z := ⟨s.re * l, s.im * l⟩) (by
    have h1 : |s.re * l - s.re * Real.log x| ≤ 6001 * (10 : ℝ) ^ (-E.tol) * ‖toC s‖ := by
      rw [← mul_sub, abs_mul, abs_sub_comm l, mul_comm]
      exact mul_le_mul log re (abs_nonneg _) (by positivity)
    have h2 := abs_sub_abs_le_abs_sub (s.re * l) (s.re * Real.log x)
    rw [abs_mul s.re (Real.log x), abs_of_nonneg (Real.log_nonneg n0)] at h2
    show |s.re * l| ≤ _
    linarith) hx
  rw [ty] at ex
  rw [cl]
  rw [tol_split] at ex
  have tp : (0 : ℝ) < (10 : ℝ) ^ (-E.tol) := by positivity
  have V0 : 0 ≤ ‖Complex.exp (toC s * Real.log x)‖ := norm_nonneg _
  have x3 : ‖Complex.exp (toC s * l)‖ ≤ 3 * ‖Complex.exp (toC s * Real.log x)‖ := by
    have := norm_sub_norm_le (Complex.exp (toC s * l)) (Complex.exp (toC s * Real.log x))
    have := mul_le_mul_of_nonneg_right hδ V0
    linarith
  rw [norm_sub_rev] at ex
  have tri := norm_sub_le_norm_sub_add_norm_sub (toC (FnC.exp (realArith E) ⟨s.re * l, s.im * l⟩)) (Complex.exp (toC s * l)) (Complex.exp (toC s * Real.log x))
  have := mul_le_mul_of_nonneg_left x3 (show (0 : ℝ) ≤ 2 * (1000000000 * (10 : ℝ) ^ (-E.tol)) by positivity)
  linarith

/-- C106: the reflection with the library's own power and sine, given the gamma and zeta functions of `1 - s` to a relative error. -/
theorem C106_left_partial {E : RealEnv} (t0 : 12 ≤ E.tol) (ht : E.tol ≤ 29990) (hm : E.maxExp ≤ 2 ^ 62) (hm' : 10000 ≤ E.maxExp)
    (Z : ZEnv ℝ) {s : Cx ℝ} (hs : s.re < 0) (hi : s.im ≠ 0) {g z : Cx ℝ} {ε κ : ℝ} (e1 : ε ≤ 1 / 1000)
    (hl : LogFine E (2 * Real.pi)) (hy : 2 * |s.re| + 1 ≤ E.maxExp)
    (hx : ∀ k : ℤ, s.re * Fn.log (realArith E) (2 * Real.pi) ≠ 0 → s.re * Fn.log (realArith E) (2 * Real.pi) ≠ k * Real.log 2)
    (hy2 : Real.pi / 2 * |s.im| ≤ E.maxExp) (hx2 : ∀ k : ℤ, Real.pi / 2 * s.im ≠ k * Real.log 2)
    (hκ : Real.cosh (Real.pi / 2 * s.im) ≤ κ * ‖Complex.sin (Real.pi / 2 * toC s)‖)
    (he1 : (12002 * ‖toC s‖ + 6000000000) * (10 : ℝ) ^ (-E.tol) ≤ ε) (he2 : 2 * κ * (10 : ℝ) ^ (9 - E.tol) ≤ ε)
    (hg : FnC.gamma (realArith E) Z.tab ⟨1 - s.re, -s.im⟩ = some g) (hz : FnC.zeta (realArith E) Z ⟨1 - s.re, -s.im⟩ = some z)
    (hg' : ‖toC g - Complex.Gamma (1 - toC s)‖ ≤ ε * ‖Complex.Gamma (1 - toC s)‖) (hz' : ‖toC z - riemannZeta (1 - toC s)‖ ≤ ε * ‖riemannZeta (1 - toC s)‖) :
    ∃ r, FnC.zeta (realArith E) Z s = some r ∧ ‖toC r - riemannZeta (toC s)‖ ≤ 5 * ε * ‖riemannZeta (toC s)‖ := by
  have tp : (0 : ℝ) < (10 : ℝ) ^ (-E.tol) := by positivity
  have sn := norm_nonneg (toC s)
  have pg := Real.pi_gt_three
  have p4 := Real.pi_lt_d2
  have l2 : Real.log (2 * Real.pi) ≤ 2 := by
    rw [Real.log_le_iff_le_exp (by positivity)]
    have e2 : Real.exp 2 = Real.exp 1 ^ 2 := by rw [← Real.exp_nat_mul]; norm_num
    have := Real.exp_one_gt_d9
    rw [e2]; nlinarith
  have pw := C106_power_partial t0 ht hm hm' (x := 2 * Real.pi) (by linarith) (s := s) hl (by
    have : 0 ≤ ‖toC s‖ * (10 : ℝ) ^ (-E.tol) := by positivity
    nlinarith) (by
    have := mul_le_mul_of_nonneg_left l2 (abs_nonneg s.re)
    linarith) hx
  have sine := C101_csin_partial t0 ht hm (z := ⟨Real.pi / 2 * s.re, Real.pi / 2 * s.im⟩) (by
    show |Real.pi / 2 * s.im| ≤ _
    rw [abs_mul, abs_of_pos (by positivity)]; exact hy2) (fun n _ => hx2 n)
  have tz : toC ⟨Real.pi / 2 * s.re, Real.pi / 2 * s.im⟩ = Real.pi / 2 * toC s := by
    apply Complex.ext <;> simp [toC]
  rw [tz, norm_sub_rev] at sine
  refine C106_reflection_partial E Z hs hi (le_trans (by positivity) he1) e1 hg hz ?_ ?_ hg' hz'
  · push_cast at pw
    exact pw.trans (mul_le_mul_of_nonneg_right he1 (norm_nonneg _))
  · refine sine.trans ?_
    have a := mul_le_mul_of_nonneg_left hκ (show (0 : ℝ) ≤ 2 * (10 : ℝ) ^ (9 - E.tol) by positivity)
    have b := mul_le_mul_of_nonneg_right he2 (norm_nonneg (Complex.sin (Real.pi / 2 * toC s)))
    linarith

/-- A case: `-1/2 + i` with the tolerance of 101 digits. -/
example {E : RealEnv} (ht : E.tol = 112) (hm : E.maxExp = 3000000000) (Z : ZEnv ℝ) (hl : LogFine E (2 * Real.pi)) {g z : Cx ℝ}
    (hg : FnC.gamma (realArith E) Z.tab ⟨1 - -(1 / 2), -1⟩ = some g) (hz : FnC.zeta (realArith E) Z ⟨1 - -(1 / 2), -1⟩ = some z)
    (hg' : ‖toC g - Complex.Gamma (1 - toC ⟨-(1 / 2), 1⟩)‖ ≤ (10 : ℝ) ^ (-100 : ℤ) * ‖Complex.Gamma (1 - toC ⟨-(1 / 2), 1⟩)‖)
    (hz' : ‖toC z - riemannZeta (1 - toC ⟨-(1 / 2), 1⟩)‖ ≤ (10 : ℝ) ^ (-100 : ℤ) * ‖riemannZeta (1 - toC ⟨-(1 / 2), 1⟩)‖) :
    ∃ r, FnC.zeta (realArith E) Z ⟨-(1 / 2), 1⟩ = some r ∧ ‖toC r - riemannZeta (toC ⟨-(1 / 2), 1⟩)‖ ≤ 5 * (10 : ℝ) ^ (-100 : ℤ) * ‖riemannZeta (toC ⟨-(1 / 2), 1⟩)‖ := by
  have pg := Real.pi_gt_d2
  have p4 := Real.pi_lt_d2
  have a1 := Real.log_two_gt_d9
  have a2 := Real.log_two_lt_d9
  have e9 := Real.exp_one_lt_d9
  have g9 := Real.exp_one_gt_d9
  have up : Real.log (2 * Real.pi) ≤ 19 / 10 + 1 / 20 := by
    rw [Real.log_le_iff_le_exp (by positivity)]
    have := Real.add_one_le_exp (-(1 / 20 : ℝ))
    have e2 : Real.exp (19 / 10 + 1 / 20) = Real.exp 1 ^ 2 * Real.exp (-(1 / 20)) := by rw [← Real.exp_nat_mul, ← Real.exp_add]; norm_num
    rw [e2]
    have : (27 / 10 : ℝ) ^ 2 ≤ Real.exp 1 ^ 2 := by gcongr; linarith
    nlinarith
  have lo : 3 / 2 ≤ Real.log (2 * Real.pi) := by
    rw [Real.le_log_iff_exp_le (by positivity)]
    have e2 : Real.exp (3 / 2) ^ 2 = Real.exp 1 ^ 3 := by rw [← Real.exp_nat_mul, ← Real.exp_nat_mul]; norm_num
    have : Real.exp 1 ^ 3 ≤ (272 / 100 : ℝ) ^ 3 := by gcongr; linarith
    have h0 := Real.exp_pos (3 / 2)
    by_contra hc
    nlinarith
  have log := log_fine (by omega) (by omega) (by rw [hm]; norm_num) (by rw [hm]; norm_num) (y := 2 * Real.pi) (by linarith) hl
  have sm : 6001 * (10 : ℝ) ^ (-E.tol) ≤ 1 / 1000 := by rw [ht]; norm_num
  have ns : ‖toC ⟨-(1 / 2), 1⟩‖ ≤ 3 / 2 := (norm_le_parts _).trans (by simp [toC]; norm_num)
  have multi : ∀ {x : ℝ} (j k : ℤ), j * Real.log 2 < x → x < (j + 1) * Real.log 2 → x ≠ k * Real.log 2 := by
    intro x j k h1 h2 h
    rw [h] at h1 h2
    have h1 := lt_of_mul_lt_mul_right h1 (by linarith)
    have h2 := lt_of_mul_lt_mul_right h2 (by linarith)
    norm_cast at h1 h2
    omega
  have d := abs_le.1 log
  refine C106_left_partial (κ := 3 / 2) (by omega) (by omega) (by rw [hm]; norm_num) (by rw [hm]; norm_num) Z (by norm_num) (by norm_num) (by norm_num) hl
    (by rw [hm]; norm_num) ?_ ?_ ?_ ?_ ?_ ?_ hg hz hg' hz'
  · intro k _
    refine multi (-2) k ?_ ?_
    · push_cast
      show -2 * Real.log 2 < -(1 / 2) * _
      linarith
    · push_cast
      show -(1 / 2) * _ < (-2 + 1) * Real.log 2
      linarith
  · rw [hm]; norm_num; linarith
  · intro k
    refine multi 2 k ?_ ?_
    · push_cast; simp only [mul_one]; linarith
    · push_cast; simp only [mul_one]; linarith
  · have re : |(Complex.sin (Real.pi / 2 * toC ⟨-(1 / 2), 1⟩)).re| ≤ _ := Complex.abs_re_le_norm _
    have e : (Real.pi / 2 * toC ⟨-(1 / 2), 1⟩ : ℂ) = ((-(Real.pi / 4) : ℝ) : ℂ) + ((Real.pi / 2 : ℝ) : ℂ) * Complex.I := by
      apply Complex.ext <;> simp [toC]; ring
    have v : (Complex.sin (Real.pi / 2 * toC ⟨-(1 / 2), 1⟩)).re = -(Real.sqrt 2 / 2) * Real.cosh (Real.pi / 2) := by
      rw [e, Complex.sin_add_mul_I, ← Complex.ofReal_sin, ← Complex.ofReal_cos, ← Complex.ofReal_cosh, ← Complex.ofReal_sinh, Real.sin_neg, Real.sin_pi_div_four]
      generalize Real.cosh (Real.pi / 2) = u
      generalize Real.sinh (Real.pi / 2) = v
      simp
    rw [v, abs_mul, abs_neg, abs_of_pos (by positivity), abs_of_pos (Real.cosh_pos _)] at re
    have s2 : 7 / 5 ≤ Real.sqrt 2 := by apply Real.le_sqrt_of_sq_le; norm_num
    have cp := Real.cosh_pos (Real.pi / 2)
    simp only [mul_one]
    nlinarith
  · rw [ht]
    have t : (10 : ℝ) ^ (-100 : ℤ) = 1000000000000 * (10 : ℝ) ^ (-112 : ℤ) := by norm_num
    rw [t]
    gcongr
    linarith
  · rw [ht]; norm_num

end EFX.Props
