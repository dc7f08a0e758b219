import Verif.Props.ComplexFn
import Verif.Props.Gamma
import Verif.Props.Combi
/-! C102, C103: the gamma function of complex arguments. -/

namespace EFX.Props
open EFX EFX.Stir

/-! ## C102: integer real parts -/

theorem norm_gamma_le {z : ℂ} (hz : 0 < z.re) : ‖Complex.Gamma z‖ ≤ Real.Gamma z.re := by
  rw [Complex.Gamma_eq_integral hz, Real.Gamma_eq_integral hz, Complex.GammaIntegral]
  refine (MeasureTheory.norm_integral_le_integral_norm _).trans (le_of_eq ?_)
  refine MeasureTheory.setIntegral_congr_fun measurableSet_Ioi fun x hx => ?_
  rw [norm_mul, Complex.norm_cpow_eq_rpow_re_of_pos hx, Complex.norm_real, Real.norm_of_nonneg (Real.exp_pos _).le, Complex.sub_re, Complex.one_re]

/-- Off the real axis the modulus is smaller than the value on it, at least by the cosine of the angle. -/
theorem norm_gamma_angle {z : ℂ} (hz : 0 < z.re) : ‖Complex.Gamma z‖ ≤ z.re / ‖z‖ * Real.Gamma z.re := by
  have z0 : z ≠ 0 := by rintro rfl; simp at hz
  have np : 0 < ‖z‖ := norm_pos_iff.2 z0
  have h := norm_gamma_le (z := z + 1) (by rw [Complex.add_re, Complex.one_re]; linarith)
  rw [Complex.Gamma_add_one z z0, norm_mul, Complex.add_re, Complex.one_re, Real.Gamma_add_one hz.ne'] at h
  rw [div_mul_eq_mul_div, le_div_iff₀ np]
  linarith

/-- The complex function off the real axis is the template. -/
theorem gamma_off {E : RealEnv} {T : Tab ℝ} {z : Cx ℝ} (h : z.im ≠ 0) : FnC.gamma (realArith E) T z = FnC.gammaT (realArith E) T z := by
  unfold FnC.gamma
  ra_simp
  rw [if_neg h]

/-- C102, the real axis: the complex function is the real one. -/
theorem C102_gamma_real (E : RealEnv) (T : Tab ℝ) (x : ℝ) :
    FnC.gamma (realArith E) T ⟨x, 0⟩ = (Fn.gamma (realArith E) T x).map fun g => (⟨g, 0⟩ : Cx ℝ) := by
  unfold FnC.gamma FnC.ofR
  simp only [ra_zero]
  ra_simp
  rw [if_pos trivial]
  cases Fn.gamma (realArith E) T x <;> rfl

/-- C102 refuted: a positive integer real part, within the table of the factorials, gives the value of the real axis whatever the
imaginary part.  The modulus of the gamma function is smaller, by the cosine of the angle at least. -/
theorem C102_integer_refuted (E : RealEnv) (T : Tab ℝ) (n : ℕ) (h1 : n + 1 < T.a142.length) (h2 : n < 4294967296) {y : ℝ} (hy : y ≠ 0) :
    (∃ f, T.a142[n]? = some f ∧ FnC.gamma (realArith E) T ⟨((n + 1 : ℕ) : ℝ), y⟩ = some ⟨f, 0⟩ ∧
      FnC.gamma (realArith E) T ⟨((n + 1 : ℕ) : ℝ), 0⟩ = some ⟨f, 0⟩) ∧
    ‖Complex.Gamma (toC ⟨((n + 1 : ℕ) : ℝ), y⟩)‖ ≤ (n + 1) / Real.sqrt ((n + 1) ^ 2 + y ^ 2) * n.factorial ∧
    ‖Complex.Gamma (toC ⟨((n + 1 : ℕ) : ℝ), y⟩)‖ < n.factorial := by
  have np : (0 : ℝ) < n + 1 := by positivity
  have y2 : 0 < y ^ 2 := by positivity
  have fp : (0 : ℝ) < n.factorial := by exact_mod_cast n.factorial_pos
  have hn : ‖toC ⟨((n + 1 : ℕ) : ℝ), y⟩‖ = Real.sqrt ((n + 1) ^ 2 + y ^ 2) := by
    rw [eq_comm, Real.sqrt_eq_iff_mul_self_eq (by positivity) (norm_nonneg _), ← pow_two, ← norm_eq]
    simp [Cx.norm]; ring
  have hG := norm_gamma_angle (z := toC ⟨((n + 1 : ℕ) : ℝ), y⟩) (by simp [toC]; linarith)
  rw [hn] at hG
  have hre : (toC ⟨((n + 1 : ℕ) : ℝ), y⟩).re = (n : ℝ) + 1 := by simp [toC]
  rw [hre, Real.Gamma_nat_eq_factorial] at hG
  refine ⟨?_, hG, lt_of_le_of_lt hG ?_⟩
  · have hf : T.a142[n]? = some T.a142[n] := List.getElem?_eq_getElem (by omega)
    refine ⟨T.a142[n], hf, ?_, by rw [C102_gamma_real, C77_gamma_table E T n h1 h2, hf]; rfl⟩
    rw [gamma_off hy]
    unfold FnC.gammaT
    have hi : truncR ((n + 1 : ℕ) : ℝ) = (n : ℤ) + 1 := by
      have := truncR_int ((n + 1 : ℕ) : ℤ)
      push_cast at this ⊢
      exact this
    have hp : (0 : ℝ) < ((n + 1 : ℕ) : ℝ) := by positivity
    simp only [Bool.not_eq_true', Bool.and_eq_true, Bool.or_eq_true, decide_eq_true_eq]
    ra_simp
    rw [if_neg (by simp), hi, if_neg (by rintro ⟨-, h | h⟩ <;> linarith), if_pos ⟨by push_cast; ring, by omega⟩]
    rw [show (((n : ℤ) + 1 - 1) % 4294967296).toNat = n by omega]
    unfold Fn.factorial
    rw [if_pos (by omega), hf]
    simp [FnC.ofR, ra_zero]
  · have hs : (n : ℝ) + 1 < Real.sqrt ((n + 1) ^ 2 + y ^ 2) := by
      rw [Real.lt_sqrt np.le]; linarith
    have : ((n : ℝ) + 1) / Real.sqrt ((n + 1) ^ 2 + y ^ 2) < 1 := by rw [div_lt_one (by linarith)]; exact hs
    nlinarith

/-- C102 refuted: a real part that is zero or a negative integer gives NaN, although the gamma function has no pole there. -/
theorem C102_left_refuted (E : RealEnv) (T : Tab ℝ) (n : ℕ) {y : ℝ} (hy : y ≠ 0) :
    FnC.gamma (realArith E) T ⟨-(n : ℝ), y⟩ = some ⟨E.nan, 0⟩ ∧ DifferentiableAt ℂ Complex.Gamma (toC ⟨-(n : ℝ), y⟩) ∧
    Complex.Gamma (toC ⟨-(n : ℝ), y⟩) ≠ 0 := by
  have hne : ∀ m : ℕ, toC ⟨-(n : ℝ), y⟩ ≠ -m := by
    intro m h
    have := congrArg Complex.im h
    simp [toC] at this
    exact hy this
  refine ⟨?_, Complex.differentiableAt_Gamma _ hne, Complex.Gamma_ne_zero hne⟩
  rw [gamma_off hy]
  unfold FnC.gammaT FnC.ofR
  have hi : (truncR (-(n : ℝ)) : ℝ) = -(n : ℝ) := by
    have := truncR_int (-(n : ℤ))
    push_cast at this
    rw [this]; push_cast; ring
  simp only [Bool.not_eq_true', Bool.and_eq_true, Bool.or_eq_true, decide_eq_true_eq]
  ra_simp
  have h0 : -(n : ℝ) < 0 ∨ -(n : ℝ) = 0 := by
    rcases Nat.eq_zero_or_pos n with h | h
    · right; simp [h]
    · left; have : (0 : ℝ) < n := by exact_mod_cast h
      linarith
  rw [if_neg (by simp), if_pos ⟨hi, h0⟩]

/-- A case: with the tables of the source `gamma(3 + 4i)` is two, the gamma function is at most 6/5 there; `gamma(4i)` is NaN. -/
example (E : RealEnv) (m : ℤ) (rg : List ℝ) :
    (∃ f, FnC.gamma (realArith E) (tabR m rg) ⟨3, 4⟩ = some ⟨f, 0⟩ ∧ |f - 2| ≤ (10 : ℝ) ^ (-419 : ℤ) * 2) ∧
    ‖Complex.Gamma (3 + 4 * Complex.I)‖ ≤ 6 / 5 ∧ FnC.gamma (realArith E) (tabR m rg) ⟨0, 4⟩ = some ⟨E.nan, 0⟩ := by
  have l := (tabR_len m rg).1
  obtain ⟨⟨f, f1, a, -⟩, b, -⟩ := C102_integer_refuted E (tabR m rg) 2 (by rw [l]; norm_num) (by norm_num) (y := 4) (by norm_num)
  obtain ⟨f', h, hf, -⟩ := C79_factorial_table E m rg (n := 2) (by norm_num)
  unfold Fn.factorial at h
  rw [if_pos (by rw [l]; norm_num), f1] at h
  have c := (C102_left_refuted E (tabR m rg) 0 (y := 4) (by norm_num)).1
  have e : (3 + 4 * Complex.I : ℂ) = toC ⟨((2 + 1 : ℕ) : ℝ), 4⟩ := by apply Complex.ext <;> simp [toC]
  have s : Real.sqrt (((2 : ℕ) + 1) ^ 2 + 4 ^ 2) = 5 := by
    rw [Real.sqrt_eq_iff_mul_self_eq] <;> norm_num
  rw [s] at b
  obtain rfl : f = f' := by simpa using h
  refine ⟨⟨f, ?_, ?_⟩, ?_, ?_⟩
  · norm_num at a; exact a
  · simpa [Nat.factorial] using hf
  · rw [e]; refine b.trans (by norm_num [Nat.factorial])
  · simpa using c

/-! ## C103: other arguments -/

theorem gamma_downC (E : RealEnv) {z : Cx ℝ} (hz : 0 < z.re) (n : ℕ) :
    ∃ P : ℂ, P ≠ 0 ∧ Complex.Gamma (toC z + n) = P * Complex.Gamma (toC z) ∧
      ∀ (w : Cx ℝ) (g : Cx ℝ), toC w = toC z + n → toC (FnC.gammaDown (realArith E) n w g).1 = toC z ∧
        toC (FnC.gammaDown (realArith E) n w g).2 = toC g / P := by
  induction n with
  | zero => exact ⟨1, one_ne_zero, by simp, fun w g h => by simpa [FnC.gammaDown] using h⟩
  | succ n ih =>
    obtain ⟨P, hP, hG, hd⟩ := ih
    have hne : toC z + n ≠ 0 := by
      intro h
      have := congrArg Complex.re h
      simp [toC] at this
      have : (0 : ℝ) ≤ n := by positivity
      linarith
    refine ⟨(toC z + n) * P, mul_ne_zero hne hP, ?_, fun w g h => ?_⟩
    · rw [show toC z + ((n + 1 : ℕ) : ℂ) = toC z + n + 1 by push_cast; ring, Complex.Gamma_add_one _ hne, hG]; ring
    · rw [FnC.gammaDown]
      have hw : toC (FnC.subR (realArith E) w ((realArith E).ofI 1)) = toC z + n := by
        rw [FnC.tc_subR, h, ra_ofI]; push_cast; ring
      obtain ⟨d1, d2⟩ := hd _ (FnC.div (realArith E) g (FnC.subR (realArith E) w ((realArith E).ofI 1))) hw
      refine ⟨d1, d2.trans ?_⟩
      rw [FnC.tc_div _ _ _ (by rw [hw]; exact hne), hw, div_div]

theorem cexp_near {y L : ℂ} {η : ℝ} (h : ‖y - L‖ ≤ η) (h1 : η ≤ 1) : ‖Complex.exp y - Complex.exp L‖ ≤ 2 * η * ‖Complex.exp L‖ := by
  have e : Complex.exp y - Complex.exp L = (Complex.exp (y - L) - 1) * Complex.exp L := by
    rw [sub_mul, ← Complex.exp_add]; ring_nf
  rw [e, norm_mul]
  apply mul_le_mul_of_nonneg_right _ (norm_nonneg _)
  have := Complex.norm_exp_sub_one_le (h.trans h1)
  linarith

/-- The error of the exponent of the complex expansion. -/
noncomputable def stirErrC (E : RealEnv) (ε : ℝ) (z : ℂ) : ℝ := 6 * (10 : ℝ) ^ (9 - E.tol) * ‖z‖ + 2 * ε / ‖z‖

/-- The conditions on the raised argument: estimates of the logarithm and of the angle (C101), the range of the exponent. -/
structure StirFine (E : RealEnv) (z : Cx ℝ) : Prop where
  log : LogStart E 14 (newtonArg (‖toC z‖ ^ 2))
  twoPi : LogStart E 14 (2 * Real.pi)
  angle : ¬(z.im / z.re < 0 ∧ max (E.tol / 10) 6 < ordR (z.im / z.re) ∧ ordR (z.im / z.re) ≤ E.tol)
  range : |Real.log ‖Complex.Gamma (toC z)‖| + 1 ≤ E.maxExp

theorem stir_nearC {E : RealEnv} (t0 : 30 ≤ E.tol) (ht : E.tol ≤ 29990) (hm : E.maxExp ≤ 2 ^ 62) (hm' : 10000 ≤ E.maxExp)
    (ha : ∀ y, 0 < y → y < 100 → |E.atan0 y - Real.arctan y| ≤ (10 : ℝ) ^ (-15 : ℤ))
    {T : Tab ℝ} {ε : ℝ} {M m : ℕ} (hT : TabBern T M ε) (e0 : 0 ≤ ε) (e1 : ε ≤ 1 / 100) (m0 : 10 ≤ m) (mM : 3 * m < M) (m5 : 3 * m ≤ 4998)
    (hR : Range m E.tol.toNat) {z : Cx ℝ} (hx : m ≤ z.re) (hf : StirFine E z) (hη : stirErrC E ε (toC z) ≤ 1) :
    ∃ y L, Complex.Gamma (toC z) = Complex.exp L ∧ ‖toC y - L‖ ≤ stirErrC E ε (toC z) ∧
      FnC.gammaStir (realArith E) T z = some (FnC.exp (realArith E) y) ∧
      ((∀ n : ℤ, y.re ≠ n * Real.log 2) → ‖Complex.Gamma (toC z) - toC (FnC.exp (realArith E) y)‖ ≤
        (2 * stirErrC E ε (toC z) + 6 * (10 : ℝ) ^ (9 - E.tol)) * ‖Complex.Gamma (toC z)‖) := by
  have tp : (0 : ℝ) < (10 : ℝ) ^ (-E.tol) := by positivity
  have m0' : (10 : ℝ) ≤ m := by exact_mod_cast m0
  have hre : (toC z).re = z.re := rfl
  have rx : z.re ≤ ‖toC z‖ := by
    have := Complex.abs_re_le_norm (toC z)
    rw [hre] at this
    exact (le_abs_self _).trans this
  have x10 : 10 ≤ ‖toC z‖ := by linarith
  have np : 0 < ‖toC z‖ := by linarith
  have z0 : toC z ≠ 0 := norm_pos_iff.1 np
  have hub := range_ub m0 hR (hx.trans rx)
  rw [show ((E.tol.toNat : ℕ) : ℤ) = E.tol by omega] at hub
  obtain ⟨s, L, hs, hL, hse⟩ := gammaStirC (x := z) (by linarith) hT x10 e0 e1 (K := 3 * m) (by omega) mM m5 (by push_cast; linarith) hub
  have pl : (10 : ℝ) ^ (-max (E.tol / 10) 6) ≤ 1 := by
    have : (10 : ℝ) ^ (-max (E.tol / 10) 6) ≤ (10 : ℝ) ^ (0 : ℤ) := zpow_le_zpow_right₀ (by norm_num) (by omega)
    rwa [zpow_zero] at this
  have lz := C101_clog_partial t0 ht hm hm' ha z0 (Or.inr ⟨Or.inr (by
    have : (100 : ℝ) ≤ ‖toC z‖ ^ 2 := by nlinarith
    rw [abs_of_neg (by linarith)]; linarith), hf.log⟩) hf.angle
  have pi3 := Real.pi_gt_three
  have pi4 := Real.pi_lt_four
  have o2 : ordR (2 * Real.pi) = 0 := ordR_eq (by linarith) (by norm_num; linarith) (by
    have := Real.pi_lt_d2; norm_num; linarith)
  have l2' : LogStart E 14 (newtonArg (2 * Real.pi)) := by
    unfold newtonArg; rw [o2, if_neg (by norm_num), if_neg (by norm_num)]; exact hf.twoPi
  have lp := C66_log14_partial (by omega) ht hm hm' (show 0 < 2 * Real.pi by linarith) (Or.inr (by
    rw [abs_of_neg (by linarith)]; linarith)) l2'
  have hy : ‖toC (FnC.stirArg (realArith E) z s) - L‖ ≤ stirErrC E ε (toC z) := by
    unfold FnC.stirArg Fn.halfLnTwoPi Fn.twoPi stirErrC
    rw [FnC.tc_add, FnC.tc_addR, FnC.tc_sub, FnC.tc_mul, FnC.tc_subR]
    ra_simp
    rw [show Real.pi * ((2 : ℤ) : ℝ) = 2 * Real.pi by push_cast; ring]
    unfold f0C at hse
    have h12 : ‖toC z - ((1 / 2 : ℝ) : ℂ)‖ ≤ ‖toC z‖ := by
      rw [← abs_of_nonneg (norm_nonneg (toC z)), ← abs_of_nonneg (norm_nonneg (toC z - _)), ← sq_le_sq, ← Complex.normSq_eq_norm_sq, ← Complex.normSq_eq_norm_sq, Complex.normSq_apply, Complex.normSq_apply]
      simp only [Complex.sub_re, Complex.sub_im, Complex.ofReal_re, Complex.ofReal_im, hre]
      nlinarith
    rw [tol_split] at *
    have e : (toC z - ((1 / 2 : ℝ) : ℂ)) * toC (FnC.log (realArith E) z) - toC z + ((Fn.log (realArith E) (2 * Real.pi) / ((2 : ℤ) : ℝ) : ℝ) : ℂ) + toC s - L =
        -((toC z - ((1 / 2 : ℝ) : ℂ)) * (Complex.log (toC z) - toC (FnC.log (realArith E) z))) - (((Real.log (2 * Real.pi) - Fn.log (realArith E) (2 * Real.pi)) / 2 : ℝ) : ℂ) +
        (toC s - (L - ((toC z - 1 / 2) * Complex.log (toC z) - toC z + ((Real.log (2 * Real.pi) : ℝ) : ℂ) / 2))) := by push_cast; ring
    rw [e]
    have a1 : ‖-((toC z - ((1 / 2 : ℝ) : ℂ)) * (Complex.log (toC z) - toC (FnC.log (realArith E) z)))‖ ≤ ‖toC z‖ * (5 * (1000000000 * (10 : ℝ) ^ (-E.tol))) := by
      rw [norm_neg, norm_mul]; exact mul_le_mul h12 lz (norm_nonneg _) (norm_nonneg _)
    have a2 : ‖(((Real.log (2 * Real.pi) - Fn.log (realArith E) (2 * Real.pi)) / 2 : ℝ) : ℂ)‖ ≤ 3001 * (10 : ℝ) ^ (-E.tol) := by
      rw [Complex.norm_real, Real.norm_eq_abs, abs_div, abs_two]; linarith
    refine (norm_add_le _ _).trans ((add_le_add_left (norm_sub_le _ _) _).trans ?_)
    refine (add_le_add (add_le_add a1 a2) hse).trans ?_
    generalize (10 : ℝ) ^ (-E.tol) = δ at *
    have : δ * 10 ≤ δ * ‖toC z‖ := mul_le_mul_of_nonneg_left x10 tp.le
    nlinarith
  refine ⟨_, L, hL, hy, hs, fun hn => ?_⟩
  have he := cexp_near hy hη
  have Gn : ‖Complex.exp L‖ = Real.exp L.re := Complex.norm_exp L
  have hr := hf.range
  rw [hL, Gn, Real.log_exp] at hr
  have hd : |(toC (FnC.stirArg (realArith E) z s)).re - L.re| ≤ 1 := by
    have := Complex.abs_re_le_norm (toC (FnC.stirArg (realArith E) z s) - L)
    rw [Complex.sub_re] at this
    linarith
  have hr' : |(FnC.stirArg (realArith E) z s).re| ≤ E.maxExp := by
    have := abs_sub_abs_le_abs_sub (toC (FnC.stirArg (realArith E) z s)).re L.re
    have e : (toC (FnC.stirArg (realArith E) z s)).re = (FnC.stirArg (realArith E) z s).re := rfl
    rw [e] at this hd
    linarith
  have hex := C101_cexp_partial (by omega) ht hm hr' (fun n _ => hn n)
  rw [hL]
  generalize toC (FnC.exp (realArith E) (FnC.stirArg (realArith E) z s)) = v at *
  generalize Complex.exp (toC (FnC.stirArg (realArith E) z s)) = w at *
  generalize Complex.exp L = G at *
  have mp : (0 : ℝ) < (10 : ℝ) ^ (9 - E.tol) := by positivity
  generalize (10 : ℝ) ^ (9 - E.tol) = μ at *
  have w3 : ‖w‖ ≤ 3 * ‖G‖ := by
    have := norm_sub_norm_le w G
    have := norm_nonneg G
    nlinarith
  have a1 := norm_add_le (G - w) (w - v)
  rw [show G - w + (w - v) = G - v by ring, norm_sub_rev G w] at a1
  nlinarith

/-- The argument of the expansion. -/
noncomputable def raisedC (m : ℤ) (z : Cx ℝ) : Cx ℝ := ⟨raised m z.re, z.im⟩

theorem gammaPos_nearC {E : RealEnv} (t0 : 30 ≤ E.tol) (ht : E.tol ≤ 29990) (hm : E.maxExp ≤ 2 ^ 62) (hm' : 10000 ≤ E.maxExp)
    (ha : ∀ y, 0 < y → y < 100 → |E.atan0 y - Real.arctan y| ≤ (10 : ℝ) ^ (-15 : ℤ))
    {T : Tab ℝ} {ε : ℝ} {M m : ℕ} (hT : TabBern T M ε) (e0 : 0 ≤ ε) (e1 : ε ≤ 1 / 100) (m0 : 10 ≤ m) (mM : 3 * m < M) (m5 : 3 * m ≤ 4998)
    (hmin : T.minArg = m) (hR : Range m E.tol.toNat) {z : Cx ℝ} (hx : 0 < z.re) (hs : (10 : ℝ) ^ (-max (E.tol / 10) 6) ≤ ‖toC z‖)
    (hf : StirFine E (raisedC m z)) (hη : stirErrC E ε (toC (raisedC m z)) ≤ 1) :
    ∃ y L g P, Complex.Gamma (toC (raisedC m z)) = Complex.exp L ∧ ‖toC y - L‖ ≤ stirErrC E ε (toC (raisedC m z)) ∧
      FnC.gammaPos (realArith E) T z = some (P, g) ∧ toC P = toC z ∧
      ((∀ n : ℤ, y.re ≠ n * Real.log 2) → ‖Complex.Gamma (toC z) - toC g‖ ≤
        (2 * stirErrC E ε (toC (raisedC m z)) + 6 * (10 : ℝ) ^ (9 - E.tol)) * ‖Complex.Gamma (toC z)‖) := by
  have key := raised_ge (m := (m : ℤ)) (x := z.re)
  obtain ⟨y, L, hL, hy, hsy, hacc⟩ := stir_nearC t0 ht hm hm' ha hT e0 e1 m0 mM m5 hR (z := raisedC m z) (by exact_mod_cast key) hf hη
  have hnat : ∃ n : ℕ, Fn.nRecur (realArith E) T z.re = n ∧ raised m z.re = z.re + n := by
    unfold Fn.nRecur raised
    ra_simp
    rw [hmin, truncR_nonneg hx.le]
    by_cases h : z.re < ((m : ℤ) : ℝ)
    · rw [if_pos h, if_pos h]
      have hf : ⌊z.re⌋ < m := by rw [Int.floor_lt]; exact h
      refine ⟨((m : ℤ) - ⌊z.re⌋ + 1).toNat, by omega, ?_⟩
      have : ((((m : ℤ) - ⌊z.re⌋ + 1).toNat : ℕ) : ℤ) = (m : ℤ) - ⌊z.re⌋ + 1 := by omega
      have h2 : ((((m : ℤ) - ⌊z.re⌋ + 1).toNat : ℕ) : ℝ) = ((((m : ℤ) - ⌊z.re⌋ + 1 : ℤ)) : ℝ) := by exact_mod_cast this
      rw [h2]; push_cast; ring
    · rw [if_neg h, if_neg h]; exact ⟨0, by simp, by simp⟩
  obtain ⟨n, hn, hr⟩ := hnat
  have hrz : raisedC m z = FnC.addR (realArith E) z ((realArith E).ofI n) := by
    unfold raisedC FnC.addR; rw [hr]; ra_simp; norm_cast
  have hrc : toC (raisedC m z) = toC z + n := by rw [hrz, FnC.tc_addR, ra_ofI]; norm_cast
  obtain ⟨P, P0, hG, hd⟩ := gamma_downC E hx n
  obtain ⟨d1, d2⟩ := hd (raisedC m z) (FnC.exp (realArith E) y) hrc
  refine ⟨y, L, (FnC.gammaDown (realArith E) n (raisedC m z) (FnC.exp (realArith E) y)).2, (FnC.gammaDown (realArith E) n (raisedC m z) (FnC.exp (realArith E) y)).1, hL, hy, ?_, d1, ?_⟩
  · unfold FnC.gammaPos
    have np : 0 < ‖toC z‖ := lt_of_lt_of_le (by positivity) hs
    have hsm : ¬ordR ‖toC z‖ < -max (E.tol / 10) 6 := by
      rw [ordR_lt np.ne', abs_of_pos np]; exact not_lt.2 hs
    rw [FnC.tc_abs]
    rw [if_neg (by ra_simp; exact hsm), hn]
    dsimp only
    rw [← hrz, hsy]
    simp only [Option.bind_eq_bind, Option.bind_some, Int.toNat_natCast]
  · intro hne
    have := hacc hne
    rw [d2]
    rw [hrc, hG] at this
    rw [hrc]
    generalize toC (FnC.exp (realArith E) y) = v at *
    have e : Complex.Gamma (toC z) - v / P = (P * Complex.Gamma (toC z) - v) / P := by field_simp
    rw [e, norm_div, div_le_iff₀ (norm_pos_iff.2 P0)]
    rw [norm_mul] at this
    linarith

theorem inv_nearC {U u : ℂ} {τ : ℝ} (h : ‖U - u‖ ≤ τ * ‖U‖) (h1 : τ ≤ 1 / 2) (hU : U ≠ 0) : ‖1 / U - 1 / u‖ ≤ 2 * τ * ‖1 / U‖ := by
  have U0 := norm_pos_iff.2 hU
  have h2 : ‖U‖ / 2 ≤ ‖u‖ := by
    have := norm_sub_norm_le U u
    nlinarith
  have hu : u ≠ 0 := norm_pos_iff.1 (by linarith)
  have u0 := norm_pos_iff.2 hu
  rw [div_sub_div _ _ hU hu, norm_div, norm_mul, one_mul, mul_one, norm_sub_rev, norm_div, norm_one]
  rw [div_le_iff₀ (by positivity), show 2 * τ * (1 / ‖U‖) * (‖U‖ * ‖u‖) = 2 * τ * ‖u‖ by field_simp]
  have t0 : 0 ≤ τ := by
    by_contra hc
    have := norm_nonneg (U - u)
    nlinarith
  nlinarith

theorem gammaT_unf {E : RealEnv} {T : Tab ℝ} {z : Cx ℝ} (hz : z.im ≠ 0) (hx : (∀ n : ℤ, z.re ≠ n) ∨ (T.a142.length : ℝ) ≤ z.re)
    (h142 : 0 < T.a142.length) :
    FnC.gamma (realArith E) T z = if 0 < z.re then (FnC.gammaPos (realArith E) T z).map (·.2)
      else (FnC.gammaPos (realArith E) T (FnC.neg (realArith E) z)).map fun r => FnC.gammaRefl (realArith E) r.1 r.2 := by
  have l0 : (0 : ℝ) < T.a142.length := by exact_mod_cast h142
  have hfirst : ¬((truncR z.re : ℝ) = z.re ∧ (z.re < 0 ∨ z.re = 0)) := by
    rintro ⟨h1, h2⟩
    rcases hx with hx | hx
    · exact hx _ h1.symm
    · rcases h2 with h2 | h2 <;> linarith
  have hsec : ¬((truncR z.re : ℝ) = z.re ∧ (truncR z.re).toNat < T.a142.length) := by
    rintro ⟨h1, h2⟩
    rcases hx with hx | hx
    · exact hx _ h1.symm
    · rw [← h1] at hx
      have h3 : (T.a142.length : ℤ) ≤ truncR z.re := by exact_mod_cast hx
      omega
  have x0 : z.re ≠ 0 := by
    intro h
    rcases hx with hx | hx
    · exact hx 0 (by simpa using h)
    · linarith
  rw [gamma_off hz]
  unfold FnC.gammaT
  simp only [Bool.not_eq_true', Bool.and_eq_true, Bool.or_eq_true, decide_eq_true_eq]
  ra_simp
  rw [if_neg (by simp), if_neg hfirst, if_neg hsec]
  rcases lt_or_gt_of_ne x0 with h | h
  · have h' : ¬¬z.re < 0 := not_not.2 h
    rw [if_neg h', if_neg (not_lt.2 h.le)]
    cases FnC.gammaPos (realArith E) T (FnC.neg (realArith E) z) with
    | none => rfl
    | some r => simp only [Option.bind_eq_bind, Option.bind_some, Option.map_some]; rw [if_neg h']
  · have h' : ¬z.re < 0 := not_lt.2 h.le
    rw [if_pos h', if_pos h]
    cases FnC.gammaPos (realArith E) T z with
    | none => rfl
    | some r => simp only [Option.bind_eq_bind, Option.bind_some, Option.map_some]; rw [if_pos h']

/-- C103 in exact arithmetic, right half plane, real part no integer or beyond the table of the factorials: the value belongs to an
exponent near a logarithm of the gamma function of the raised argument, and has a small relative error unless the real part of the
exponent is a multiple of `ln 2` (`C65_ln2_refuted`).  The rounding is left out. -/
theorem C103_gamma_right_partial {E : RealEnv} (t0 : 30 ≤ E.tol) (ht : E.tol ≤ 29990) (hm : E.maxExp ≤ 2 ^ 62) (hm' : 10000 ≤ E.maxExp)
    (ha : ∀ y, 0 < y → y < 100 → |E.atan0 y - Real.arctan y| ≤ (10 : ℝ) ^ (-15 : ℤ))
    {T : Tab ℝ} {ε : ℝ} {M m : ℕ} (hT : TabBern T M ε) (e0 : 0 ≤ ε) (e1 : ε ≤ 1 / 100) (m0 : 10 ≤ m) (mM : 3 * m < M) (m5 : 3 * m ≤ 4998)
    (hmin : T.minArg = m) (hR : Range m E.tol.toNat) {z : Cx ℝ} (hz : z.im ≠ 0)
    (hx : (∀ n : ℤ, z.re ≠ n) ∨ (T.a142.length : ℝ) ≤ z.re) (h142 : 0 < T.a142.length)
    (hre : 0 < z.re) (hs : (10 : ℝ) ^ (-max (E.tol / 10) 6) ≤ ‖toC z‖)
    (hf : StirFine E (raisedC m z)) (hη : stirErrC E ε (toC (raisedC m z)) ≤ 1) :
    ∃ y L g, Complex.Gamma (toC (raisedC m z)) = Complex.exp L ∧ ‖toC y - L‖ ≤ stirErrC E ε (toC (raisedC m z)) ∧
      FnC.gamma (realArith E) T z = some g ∧
      ((∀ n : ℤ, y.re ≠ n * Real.log 2) → ‖Complex.Gamma (toC z) - toC g‖ ≤
        (2 * stirErrC E ε (toC (raisedC m z)) + 6 * (10 : ℝ) ^ (9 - E.tol)) * ‖Complex.Gamma (toC z)‖) := by
  obtain ⟨y, L, g, P, hL, hy, hg, -, hacc⟩ := gammaPos_nearC t0 ht hm hm' ha hT e0 e1 m0 mM m5 hmin hR hre hs hf hη
  exact ⟨y, L, g, hL, hy, by rw [gammaT_unf hz hx h142, if_pos hre, hg]; rfl, hacc⟩

/-- C103 in exact arithmetic, left half plane: the reflection costs the quotient of the hyperbolic cosine and the modulus of the
sine, which is large near the poles only. -/
theorem C103_gamma_left_partial {E : RealEnv} (t0 : 30 ≤ E.tol) (ht : E.tol ≤ 29990) (hm : E.maxExp ≤ 2 ^ 62) (hm' : 10000 ≤ E.maxExp)
    (ha : ∀ y, 0 < y → y < 100 → |E.atan0 y - Real.arctan y| ≤ (10 : ℝ) ^ (-15 : ℤ))
    {T : Tab ℝ} {ε : ℝ} {M m : ℕ} (hT : TabBern T M ε) (e0 : 0 ≤ ε) (e1 : ε ≤ 1 / 100) (m0 : 10 ≤ m) (mM : 3 * m < M) (m5 : 3 * m ≤ 4998)
    (hmin : T.minArg = m) (hR : Range m E.tol.toNat) {z : Cx ℝ} (hz : z.im ≠ 0)
    (hx : ∀ n : ℤ, z.re ≠ n) (h142 : 0 < T.a142.length) (hre : z.re < 0) (hs : (10 : ℝ) ^ (-max (E.tol / 10) 6) ≤ ‖toC z‖)
    (hf : StirFine E (raisedC m ⟨-z.re, -z.im⟩)) (hη : stirErrC E ε (toC (raisedC m ⟨-z.re, -z.im⟩)) ≤ 1 / 10)
    (hp1 : Real.pi * |z.im| ≤ E.maxExp) (hp2 : ∀ n : ℤ, Real.pi * z.im ≠ n * Real.log 2)
    {κ : ℝ} (hκ : Real.cosh (Real.pi * z.im) ≤ κ * ‖Complex.sin (Real.pi * toC z)‖) (hκ1 : κ * (10 : ℝ) ^ (9 - E.tol) ≤ 1 / 100) :
    ∃ y L g, Complex.Gamma (toC (raisedC m ⟨-z.re, -z.im⟩)) = Complex.exp L ∧ ‖toC y - L‖ ≤ stirErrC E ε (toC (raisedC m ⟨-z.re, -z.im⟩)) ∧
      FnC.gamma (realArith E) T z = some g ∧
      ((∀ n : ℤ, y.re ≠ n * Real.log 2) → ‖Complex.Gamma (toC z) - toC g‖ ≤
        (5 * stirErrC E ε (toC (raisedC m ⟨-z.re, -z.im⟩)) + 20 * κ * (10 : ℝ) ^ (9 - E.tol)) * ‖Complex.Gamma (toC z)‖) := by
  have hw : FnC.neg (realArith E) z = ⟨-z.re, -z.im⟩ := by simp [FnC.neg, ra_neg]
  obtain ⟨w, hw0⟩ : ∃ w : Cx ℝ, w = ⟨-z.re, -z.im⟩ := ⟨_, rfl⟩
  rw [← hw0] at hf hη hw ⊢
  have wz : toC w = -toC z := by rw [← hw, FnC.tc_neg]
  have wre : 0 < w.re := by rw [hw0]; simpa using hre
  obtain ⟨y, L, g, P, hL, hy, hg, hP, hacc⟩ := gammaPos_nearC t0 ht hm hm' ha hT e0 e1 m0 mM m5 hmin hR (z := w) wre
    (by rw [wz, norm_neg]; exact hs) hf (by linarith)
  refine ⟨y, L, _, hL, hy, by rw [gammaT_unf hz (Or.inl hx) h142, if_neg (not_lt.2 hre.le), hw, hg]; rfl, fun hn => ?_⟩
  have h1 := hacc hn
  have mp : (0 : ℝ) < (10 : ℝ) ^ (9 - E.tol) := by positivity
  have w0 : toC w ≠ 0 := by
    intro h
    have := congrArg Complex.re h
    simp [toC] at this
    linarith
  have Gw : Complex.Gamma (toC w) ≠ 0 := by
    apply Complex.Gamma_ne_zero
    intro k h
    have := congrArg Complex.re h
    simp [toC] at this
    have hk : (0 : ℝ) ≤ k := by positivity
    linarith
  have hsz : Complex.sin (Real.pi * toC z) = -Complex.sin (Real.pi * toC w) := by rw [wz, mul_neg, Complex.sin_neg, neg_neg]
  rw [hsz, norm_neg] at hκ
  have hpw : toC (FnC.rMul (realArith E) (realArith E).pi P) = Real.pi * toC w := by rw [FnC.tc_rMul, hP, ra_pi]
  have him : (FnC.rMul (realArith E) (realArith E).pi P).im = -(Real.pi * z.im) := by
    have := congrArg Complex.im hpw
    rw [wz] at this
    simpa [toC] using this
  have hsin := C101_csin_partial (E := E) (by omega) ht hm (z := FnC.rMul (realArith E) (realArith E).pi P)
    (by rw [him, abs_neg, abs_mul, abs_of_pos Real.pi_pos]; exact hp1)
    (by
      rw [him]
      intro n _ h
      exact hp2 (-n) (by push_cast; linarith))
  rw [him, Real.cosh_neg, hpw] at hsin
  have cp := Real.cosh_pos (Real.pi * z.im)
  have Sne : Complex.sin (Real.pi * toC w) ≠ 0 := by
    intro h
    rw [h, norm_zero, mul_zero] at hκ
    linarith
  have S0 := norm_pos_iff.2 Sne
  have k0 : 0 < κ := by
    by_contra hc
    have := mul_nonneg (neg_nonneg.2 (not_lt.1 hc)) S0.le
    linarith
  have k1 : 1 ≤ κ := by
    have : ‖Complex.sin (Real.pi * toC w)‖ ≤ Real.cosh (Real.pi * z.im) := by
      rw [← abs_of_nonneg (norm_nonneg (Complex.sin _)), ← abs_of_pos cp, ← sq_le_sq]
      rw [← Complex.normSq_eq_norm_sq, Complex.normSq_apply]
      have e := toC_sin ⟨Real.pi * w.re, Real.pi * w.im⟩
      have e2 : toC ⟨Real.pi * w.re, Real.pi * w.im⟩ = Real.pi * toC w := by apply Complex.ext <;> simp [toC]
      rw [e2] at e
      rw [← e]
      have wi : w.im = -z.im := by rw [hw0]
      simp only [toC, Cx.sin, wi, mul_neg, Real.cosh_neg, Real.sinh_neg]
      have a1 := Real.sin_sq_add_cos_sq (Real.pi * w.re)
      have a2 := Real.cosh_sq (Real.pi * z.im)
      have a3 := sq_nonneg (Real.cos (Real.pi * w.re))
      nlinarith
    by_contra hc
    have : κ * ‖Complex.sin (Real.pi * toC w)‖ < 1 * ‖Complex.sin (Real.pi * toC w)‖ := mul_lt_mul_of_pos_right (not_le.1 hc) S0
    linarith
  have hG : Complex.Gamma (toC z) = -Real.pi / toC w * (1 / (Complex.Gamma (toC w) * Complex.sin (Real.pi * toC w))) := by
    have r := Complex.Gamma_mul_Gamma_one_sub (toC z)
    have e1 : Complex.Gamma (1 - toC z) = toC w * Complex.Gamma (toC w) := by
      rw [show 1 - toC z = toC w + 1 by rw [wz]; ring, Complex.Gamma_add_one _ w0]
    rw [e1, hsz] at r
    have : Complex.Gamma (toC z) = Real.pi / -Complex.sin (Real.pi * toC w) / (toC w * Complex.Gamma (toC w)) := by
      rw [← r]; field_simp
    rw [this, div_neg]
    simp only [div_eq_mul_inv, mul_inv, neg_mul, one_mul]
    ring
  have sne : toC (FnC.sin (realArith E) (FnC.rMul (realArith E) (realArith E).pi P)) ≠ 0 ∧ ‖Complex.sin (Real.pi * toC w) - toC (FnC.sin (realArith E) (FnC.rMul (realArith E) (realArith E).pi P))‖ ≤ 2 * (10 : ℝ) ^ (9 - E.tol) * κ * ‖Complex.sin (Real.pi * toC w)‖ := by
    have hb : ‖Complex.sin (Real.pi * toC w) - toC (FnC.sin (realArith E) (FnC.rMul (realArith E) (realArith E).pi P))‖ ≤ 2 * (10 : ℝ) ^ (9 - E.tol) * κ * ‖Complex.sin (Real.pi * toC w)‖ := by
      refine hsin.trans ?_
      have := mul_le_mul_of_nonneg_left hκ (show 0 ≤ 2 * (10 : ℝ) ^ (9 - E.tol) by positivity)
      linarith
    refine ⟨fun h => ?_, hb⟩
    rw [h, sub_zero] at hb
    nlinarith
  obtain ⟨sne, h2⟩ := sne
  have s1 : 0 ≤ stirErrC E ε (toC (raisedC m w)) := by unfold stirErrC; positivity
  have m1 : (10 : ℝ) ^ (9 - E.tol) ≤ 1 / 1000000 := by
    refine le_trans (zpow_le_zpow_right₀ (by norm_num) (show 9 - E.tol ≤ (-6 : ℤ) by omega)) (by norm_num)
  have gne : toC g ≠ 0 := by
    intro h
    rw [h, sub_zero] at h1
    have := norm_pos_iff.2 Gw
    nlinarith
  have hg' : toC (FnC.gammaRefl (realArith E) P g) = -Real.pi / toC w * (1 / (toC g * toC (FnC.sin (realArith E) (FnC.rMul (realArith E) (realArith E).pi P)))) := by
    unfold FnC.gammaRefl
    have hne : toC (FnC.mul (realArith E) (FnC.mul (realArith E) P g) (FnC.sin (realArith E) (FnC.rMul (realArith E) (realArith E).pi P))) ≠ 0 := by
      rw [FnC.tc_mul, FnC.tc_mul, hP]
      exact mul_ne_zero (mul_ne_zero w0 gne) sne
    rw [FnC.tc_rDiv _ _ _ hne, FnC.tc_mul, FnC.tc_mul, hP, ra_neg, ra_pi]
    push_cast
    simp only [div_eq_mul_inv, mul_inv, one_mul]
    ring
  rw [hG, hg']
  generalize Complex.Gamma (toC w) = G at *
  generalize Complex.sin (Real.pi * toC w) = S at *
  generalize toC (FnC.sin (realArith E) (FnC.rMul (realArith E) (realArith E).pi P)) = S' at *
  generalize (10 : ℝ) ^ (9 - E.tol) = μ at *
  generalize stirErrC E ε (toC (raisedC m w)) = η at *
  generalize toC g = g' at *
  have mk : 0 < μ * κ := by positivity
  have hU : ‖G * S - g' * S'‖ ≤ (5 / 2 * η + 10 * κ * μ) * ‖G * S‖ := by
    have e : G * S - g' * S' = (G - g') * S' + G * (S - S') := by ring
    have S1 : ‖S'‖ ≤ 102 / 100 * ‖S‖ := by
      have := norm_sub_norm_le S' S
      rw [norm_sub_rev] at this
      have h3 : 2 * μ * κ * ‖S‖ ≤ 2 / 100 * ‖S‖ := mul_le_mul_of_nonneg_right (by linarith) S0.le
      linarith
    have a1 : ‖(G - g') * S'‖ ≤ (2 * η + 6 * μ) * ‖G‖ * (102 / 100 * ‖S‖) := by
      rw [norm_mul]; exact mul_le_mul h1 S1 (norm_nonneg _) (by positivity)
    have a2 : ‖G * (S - S')‖ ≤ ‖G‖ * (2 * μ * κ * ‖S‖) := by
      rw [norm_mul]; exact mul_le_mul_of_nonneg_left h2 (norm_nonneg _)
    rw [e, norm_mul]
    have a3 := norm_add_le ((G - g') * S') (G * (S - S'))
    have GS : 0 ≤ ‖G‖ * ‖S‖ := by positivity
    have c : (2 * η + 6 * μ) * (102 / 100) + 2 * μ * κ ≤ 5 / 2 * η + 10 * κ * μ := by nlinarith
    calc ‖(G - g') * S' + G * (S - S')‖ ≤ ((2 * η + 6 * μ) * (102 / 100) + 2 * μ * κ) * (‖G‖ * ‖S‖) := by linarith
      _ ≤ _ := mul_le_mul_of_nonneg_right c GS
  have := inv_nearC hU (by linarith) (mul_ne_zero Gw Sne)
  rw [← mul_sub, norm_mul, norm_mul]
  calc ‖-(Real.pi : ℂ) / toC w‖ * ‖1 / (G * S) - 1 / (g' * S')‖ ≤ ‖-(Real.pi : ℂ) / toC w‖ * (2 * (5 / 2 * η + 10 * κ * μ) * ‖1 / (G * S)‖) :=
        mul_le_mul_of_nonneg_left this (norm_nonneg _)
    _ = _ := by ring

/-! A case: `1/2 + i` and `-1/2 + i` at 50 digits. -/

theorem norm_gamma_up {z : ℂ} (h : 1 ≤ |z.im|) (n : ℕ) : ‖Complex.Gamma z‖ ≤ ‖Complex.Gamma (z + n)‖ := by
  induction n with
  | zero => simp
  | succ n ih =>
    have h1 : 1 ≤ ‖z + n‖ := by
      have := Complex.abs_im_le_norm (z + n)
      simp at this
      linarith
    have hne : z + n ≠ 0 := norm_pos_iff.1 (by linarith)
    rw [show z + ((n + 1 : ℕ) : ℂ) = z + n + 1 by push_cast; ring, Complex.Gamma_add_one _ hne, norm_mul]
    nlinarith [norm_nonneg (Complex.Gamma (z + n))]

theorem fine_half {E : RealEnv} (hm : E.maxExp = 4944763836)
    (h0 : ∀ y, ∃ v, E.log0 y = some v ∧ |v - Real.log y| ≤ (10 : ℝ) ^ (-(14 : ℤ))) {y : ℝ} (hy : |y| = 1) : StirFine E ⟨83 / 2, y⟩ := by
  have y2 : y ^ 2 = 1 := by rw [← sq_abs, hy]; norm_num
  have ap : ∀ (a : ℝ) (k : ℤ), ((k : ℝ) + 1 / 10) * Real.log 2 ≤ a → a ≤ ((k : ℝ) + 1 - 1 / 10) * Real.log 2 →
      ∀ n : ℤ, n ≠ 0 → 1 / 50 < |a - n * Real.log 2| := by
    intro a k h1 h2 n _
    have l2 := Real.log_two_gt_d9
    rw [lt_abs]
    rcases le_or_gt n k with hn | hn
    · left
      have : (n : ℝ) ≤ k := by exact_mod_cast hn
      nlinarith
    · right
      have : (k : ℝ) + 1 ≤ n := by exact_mod_cast hn
      nlinarith
  have nz : ‖toC ⟨83 / 2, y⟩‖ ^ 2 = 6893 / 4 := by rw [← norm_eq]; simp [Cx.norm]; linarith
  have o1 : ordR (6893 / 4) = 3 := ordR_eq (by norm_num) (by norm_num) (by norm_num)
  have na : newtonArg (6893 / 4) = 6893 / 4 := by unfold newtonArg; rw [o1]; norm_num
  have la : (10 + 1 / 10) * Real.log 2 ≤ Real.log (6893 / 4) ∧ Real.log (6893 / 4) ≤ (11 - 1 / 10) * Real.log 2 := by
    constructor
    · have h4 : 101 * Real.log 2 ≤ 10 * Real.log (6893 / 4) := by
        rw [show 101 * Real.log 2 = Real.log (2 ^ 101) by rw [Real.log_pow]; norm_num,
          show 10 * Real.log (6893 / 4) = Real.log ((6893 / 4) ^ 10) by rw [Real.log_pow]; norm_num]
        exact Real.log_le_log (by norm_num) (by norm_num)
      linarith
    · have h4 : 10 * Real.log (6893 / 4) ≤ 109 * Real.log 2 := by
        rw [show 109 * Real.log 2 = Real.log (2 ^ 109) by rw [Real.log_pow]; norm_num,
          show 10 * Real.log (6893 / 4) = Real.log ((6893 / 4) ^ 10) by rw [Real.log_pow]; norm_num]
        exact Real.log_le_log (by norm_num) (by norm_num)
      linarith
  have p1 := Real.pi_gt_d2
  have p2 := Real.pi_lt_d2
  have lb : (2 + 1 / 10) * Real.log 2 ≤ Real.log (2 * Real.pi) ∧ Real.log (2 * Real.pi) ≤ (3 - 1 / 10) * Real.log 2 := by
    constructor
    · have h4 : 21 * Real.log 2 ≤ 10 * Real.log (2 * Real.pi) := by
        rw [show 21 * Real.log 2 = Real.log (2 ^ 21) by rw [Real.log_pow]; norm_num,
          show 10 * Real.log (2 * Real.pi) = Real.log ((2 * Real.pi) ^ 10) by rw [Real.log_pow]; norm_num]
        refine Real.log_le_log (by norm_num) (le_trans ?_ (pow_le_pow_left₀ (show (0 : ℝ) ≤ 6 by norm_num) (show 6 ≤ 2 * Real.pi by linarith) 10))
        norm_num
      linarith
    · have h4 : 10 * Real.log (2 * Real.pi) ≤ 29 * Real.log 2 := by
        rw [show 29 * Real.log 2 = Real.log (2 ^ 29) by rw [Real.log_pow]; norm_num,
          show 10 * Real.log (2 * Real.pi) = Real.log ((2 * Real.pi) ^ 10) by rw [Real.log_pow]; norm_num]
        refine Real.log_le_log (by positivity) (le_trans (pow_le_pow_left₀ (by positivity) (show 2 * Real.pi ≤ 63 / 10 by linarith) 10) ?_)
        norm_num
      linarith
  refine ⟨?_, ⟨h0 _, ap _ 2 (by exact_mod_cast lb.1) (by push_cast; linarith [lb.2])⟩, ?_, ?_⟩
  · rw [nz, na]; exact ⟨h0 _, ap _ 10 (by exact_mod_cast la.1) (by push_cast; linarith [la.2])⟩
  · rintro ⟨-, h2, -⟩
    simp only at h2
    have h3 := le_max_right (E.tol / 10) 6
    have y0 : y ≠ 0 := by rintro rfl; norm_num at hy
    have : ordR (y / (83 / 2)) < 1 := (ordR_lt (div_ne_zero y0 (by norm_num))).2 (by
      rw [abs_div, hy]; norm_num [abs_of_pos])
    omega
  · have u1 := norm_gamma_le (z := toC ⟨83 / 2, y⟩) (by norm_num [toC])
    have g1 : Real.Gamma (83 / 2) ≤ Real.Gamma (41 + 1) :=
      Real.Gamma_strictMonoOn_Ici.monotoneOn (show (83 / 2 : ℝ) ∈ Set.Ici 2 by simp; norm_num) (show (41 + 1 : ℝ) ∈ Set.Ici 2 by simp; norm_num) (by norm_num)
    have g2 : Real.Gamma (41 + 1) = (Nat.factorial 41 : ℝ) := by
      have := Real.Gamma_nat_eq_factorial 41
      exact_mod_cast this
    have g3 : (Nat.factorial 41 : ℝ) ≤ 2 ^ 200 := by exact_mod_cast (by decide +kernel : Nat.factorial 41 ≤ 2 ^ 200)
    have u2 : ‖Complex.Gamma (toC ⟨83 / 2, y⟩)‖ ≤ 2 ^ 200 := (u1.trans g1).trans (g2.le.trans g3)
    have l1 := norm_gamma_up (z := toC ⟨1 / 2, y⟩) (by simp [toC, hy]) 41
    have e1 : toC ⟨1 / 2, y⟩ + (41 : ℕ) = toC ⟨83 / 2, y⟩ := by apply Complex.ext <;> simp [toC]; norm_num
    rw [e1] at l1
    have r := Complex.Gamma_mul_Gamma_one_sub (toC ⟨1 / 2, y⟩)
    have e2 : 1 - toC ⟨1 / 2, y⟩ = (starRingEnd ℂ) (toC ⟨1 / 2, y⟩) := by apply Complex.ext <;> simp [toC]; norm_num
    rw [e2, Complex.Gamma_conj] at r
    have r2 := congrArg norm r
    rw [norm_mul, Complex.norm_conj, norm_div, Complex.norm_real, Real.norm_of_nonneg Real.pi_pos.le] at r2
    have sb : ‖Complex.sin (Real.pi * toC ⟨1 / 2, y⟩)‖ ≤ 2 * Real.exp 4 := by
      have : toC ⟨1 / 2, y⟩ = 1 / 2 + y * Complex.I := by apply Complex.ext <;> simp [toC]
      rw [this, show (Real.pi : ℂ) * (1 / 2 + y * Complex.I) = ((Real.pi * y : ℝ) : ℂ) * Complex.I + Real.pi / 2 by push_cast; ring, Complex.sin_add_pi_div_two,
        Complex.cos_mul_I, ← Complex.ofReal_cosh, Complex.norm_real, Real.norm_of_nonneg (Real.cosh_pos _).le, Real.cosh_eq]
      have hy' := abs_le.1 hy.le
      have a1 := Real.exp_le_exp.2 (show Real.pi * y ≤ 4 by nlinarith)
      have a2 := Real.exp_le_exp.2 (show -(Real.pi * y) ≤ 4 by nlinarith)
      linarith [Real.exp_pos 4]
    have e4 : Real.exp 4 ≤ 81 := by
      have := Real.exp_one_lt_d9
      rw [show (4 : ℝ) = (4 : ℕ) * 1 by norm_num, Real.exp_nat_mul]
      refine (pow_le_pow_left₀ (Real.exp_pos 1).le (show Real.exp 1 ≤ 3 by linarith) 4).trans (by norm_num)
    have sne : Complex.sin (Real.pi * toC ⟨1 / 2, y⟩) ≠ 0 := by
      intro hs
      rw [hs, norm_zero, div_zero] at r2
      have : Complex.Gamma (toC ⟨1 / 2, y⟩) ≠ 0 := by
        apply Complex.Gamma_ne_zero
        intro k hk
        have := congrArg Complex.re hk
        simp [toC] at this
        have hk : (0 : ℝ) ≤ k := by positivity
        linarith
      exact this (norm_eq_zero.1 (mul_self_eq_zero.1 r2))
    have sp := norm_pos_iff.2 sne
    have l2 : 1 / 64 ≤ ‖Complex.Gamma (toC ⟨1 / 2, y⟩)‖ * ‖Complex.Gamma (toC ⟨1 / 2, y⟩)‖ := by
      rw [r2, div_le_div_iff₀ (by norm_num) sp]; linarith
    have l3 : 1 / 8 ≤ ‖Complex.Gamma (toC ⟨1 / 2, y⟩)‖ := by
      by_contra hc
      nlinarith [norm_nonneg (Complex.Gamma (toC ⟨1 / 2, y⟩))]
    have l4 : ((2 : ℝ) ^ 3)⁻¹ ≤ ‖Complex.Gamma (toC ⟨83 / 2, y⟩)‖ := by
      refine le_trans ?_ (l3.trans l1); norm_num
    have b1 := Real.log_le_log (by positivity) l4
    have b2 := Real.log_le_log (lt_of_lt_of_le (by positivity) l4) u2
    rw [Real.log_inv, Real.log_pow] at b1
    rw [Real.log_pow] at b2
    have l2 := Real.log_two_gt_d9
    have l2' := Real.log_two_lt_d9
    push_cast at b1 b2
    rw [hm]
    have : |Real.log ‖Complex.Gamma (toC ⟨83 / 2, y⟩)‖| ≤ 200 := abs_le.2 ⟨by linarith, by linarith⟩
    linarith

theorem half_err {E : RealEnv} (h : E.tol = 55) {y : ℝ} (hy : |y| = 1) : stirErrC E 0 (toC ⟨83 / 2, y⟩) ≤ 300 * (10 : ℝ) ^ (-46 : ℤ) := by
  have y2 : y ^ 2 = 1 := by rw [← sq_abs, hy]; norm_num
  have nz : ‖toC ⟨83 / 2, y⟩‖ ^ 2 = 6893 / 4 := by rw [← norm_eq]; simp [Cx.norm]; linarith
  have : ‖toC ⟨83 / 2, y⟩‖ ≤ 42 := by
    by_contra hc
    nlinarith
  unfold stirErrC
  rw [h, mul_zero, zero_div, add_zero]
  norm_num at this ⊢
  linarith

example (E : RealEnv) (h : E.tol = 55) (hm : E.maxExp = 4944763836) (T : Tab ℝ) (hT : TabBern T 1001 0) (hmin : T.minArg = 40) (hl : T.a142.length = 1001)
    (ha : ∀ y, 0 < y → y < 100 → |E.atan0 y - Real.arctan y| ≤ (10 : ℝ) ^ (-15 : ℤ))
    (h0 : ∀ y, ∃ v, E.log0 y = some v ∧ |v - Real.log y| ≤ (10 : ℝ) ^ (-(14 : ℤ))) :
    (∃ (y : Cx ℝ) (g : Cx ℝ), FnC.gamma (realArith E) T ⟨1 / 2, 1⟩ = some g ∧ ((∀ n : ℤ, y.re ≠ n * Real.log 2) →
      ‖Complex.Gamma (1 / 2 + Complex.I) - toC g‖ ≤ (10 : ℝ) ^ (-43 : ℤ) * ‖Complex.Gamma (1 / 2 + Complex.I)‖)) ∧
    (∃ (y : Cx ℝ) (g : Cx ℝ), FnC.gamma (realArith E) T ⟨-(1 / 2), 1⟩ = some g ∧ ((∀ n : ℤ, y.re ≠ n * Real.log 2) →
      ‖Complex.Gamma (-(1 / 2) + Complex.I) - toC g‖ ≤ (10 : ℝ) ^ (-42 : ℤ) * ‖Complex.Gamma (-(1 / 2) + Complex.I)‖)) := by
  have hr : raised (40 : ℕ) (1 / 2) = 83 / 2 := by
    have : ⌊(1 / 2 : ℝ)⌋ = 0 := by norm_num
    unfold raised
    rw [this, if_pos (by norm_num)]
    norm_num
  have r1 : raisedC (40 : ℕ) ⟨1 / 2, 1⟩ = ⟨83 / 2, 1⟩ := by unfold raisedC; rw [hr]
  have r2 : raisedC (40 : ℕ) ⟨-(-(1 / 2)), -1⟩ = ⟨83 / 2, -1⟩ := by unfold raisedC; rw [neg_neg, hr]
  have e1 : toC ⟨1 / 2, 1⟩ = 1 / 2 + Complex.I := by apply Complex.ext <;> simp [toC]
  have e2 : toC ⟨-(1 / 2), 1⟩ = -(1 / 2) + Complex.I := by apply Complex.ext <;> simp [toC]
  have ni : ∀ n : ℤ, (1 / 2 : ℝ) ≠ n := by
    intro n hn
    have h1 : ((2 * n : ℤ) : ℝ) = ((1 : ℤ) : ℝ) := by push_cast; linarith
    have h2 : 2 * n = 1 := by exact_mod_cast h1
    omega
  have tl : (10 : ℝ) ^ (-max (E.tol / 10) 6) ≤ 1 := by rw [h]; norm_num
  have n1 : (1 : ℝ) ≤ ‖toC ⟨1 / 2, 1⟩‖ := by
    have := Complex.abs_im_le_norm (toC ⟨1 / 2, 1⟩)
    simpa [toC] using this
  have n2 : (1 : ℝ) ≤ ‖toC ⟨-(1 / 2), 1⟩‖ := by
    have := Complex.abs_im_le_norm (toC ⟨-(1 / 2), 1⟩)
    simpa [toC] using this
  have b1 := half_err h (y := 1) (by norm_num)
  have b2 := half_err h (y := -1) (by norm_num)
  constructor
  · obtain ⟨y, L, g, -, -, hg, hacc⟩ := C103_gamma_right_partial (E := E) (T := T) (ε := 0) (M := 1001) (m := 40) (z := ⟨1 / 2, 1⟩) (by omega) (by omega)
      (by rw [hm]; norm_num) (by rw [hm]; norm_num) ha hT le_rfl (by norm_num) (by norm_num) (by norm_num) (by norm_num) (by rw [hmin]; rfl)
      (by rw [h]; exact range_configs.1) (by norm_num) (Or.inl ni) (by omega) (by norm_num) (tl.trans n1)
      (by rw [r1]; exact fine_half hm h0 (by norm_num)) (by rw [r1]; refine b1.trans (by norm_num))
    refine ⟨y, g, hg, fun hn => ?_⟩
    have := hacc hn
    rw [r1, e1] at this
    refine this.trans (mul_le_mul_of_nonneg_right ?_ (norm_nonneg _))
    rw [h]
    norm_num at b1 ⊢
    linarith
  · obtain ⟨y, L, g, -, -, hg, hacc⟩ := C103_gamma_left_partial (E := E) (T := T) (ε := 0) (M := 1001) (m := 40) (z := ⟨-(1 / 2), 1⟩) (κ := 1) (by omega) (by omega)
      (by rw [hm]; norm_num) (by rw [hm]; norm_num) ha hT le_rfl (by norm_num) (by norm_num) (by norm_num) (by norm_num) (by rw [hmin]; rfl)
      (by rw [h]; exact range_configs.1) (by norm_num) (by
        intro n hn
        exact ni (-n) (by push_cast; rw [← hn]; norm_num)) (by omega) (by norm_num) (tl.trans n2)
      (by rw [r2]; exact fine_half hm h0 (by norm_num)) (by rw [r2]; refine b2.trans (by norm_num))
      (by rw [hm]; have := Real.pi_lt_four; norm_num; linarith)
      (by
        intro n hn
        have p1 := Real.pi_gt_d2
        have p2 := Real.pi_lt_d2
        have l1 := Real.log_two_gt_d9
        have l2 := Real.log_two_lt_d9
        simp only [mul_one] at hn
        have h1 : (4 : ℤ) < n := by
          by_contra hc
          have : (n : ℝ) ≤ 4 := by exact_mod_cast (not_lt.1 hc)
          nlinarith
        have h2 : (5 : ℝ) ≤ n := by exact_mod_cast h1
        nlinarith)
      (by
        rw [e2, show (Real.pi : ℂ) * (-(1 / 2) + Complex.I) = ((Real.pi : ℝ) : ℂ) * Complex.I - Real.pi / 2 by ring, Complex.sin_sub_pi_div_two, norm_neg,
          Complex.cos_mul_I, ← Complex.ofReal_cosh, Complex.norm_real, Real.norm_of_nonneg (Real.cosh_pos _).le]
        simp)
      (by rw [h]; norm_num)
    refine ⟨y, g, hg, fun hn => ?_⟩
    have := hacc hn
    simp only at this
    rw [r2, e2] at this
    refine this.trans (mul_le_mul_of_nonneg_right ?_ (norm_nonneg _))
    rw [h]
    norm_num at b2 ⊢
    linarith

end EFX.Props
