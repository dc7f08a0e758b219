import Verif.Props.CxRnd
/-!
# C115: complex tangent, hyperbolic tangent and polar form with rounding
-/

namespace EFX.Props
open Spec

/-- A quotient of two complex numbers that are known up to `K eu H`. -/
theorem cquot_err {c : Cfg} (hc : c.elems < 625) {s k : Cx EFloat} (hs : CFull c s) (hk : CFull c k) {S C : ℂ} {H K : ℝ} (H1 : 1 ≤ H)
    (H2 : H ≤ pw 100000000) (K1 : 1000 ≤ K) (nS : ‖S‖ ≤ H) (nC : ‖C‖ ≤ H) (es : ‖cval s - S‖ ≤ K * eu c * H) (ek : ‖cval k - C‖ ≤ K * eu c * H)
    (hC : 4 * (K * eu c * H) ≤ ‖C‖) :
    CFull c (CxE.div c s k) ∧ ‖cval (CxE.div c s k) - S / C‖ ≤ 3 * K * eu c * (H / ‖C‖) ^ 2 := by
  have e0 : 0 < eu c := pw_pos _
  obtain ⟨ε, hε⟩ : ∃ ε, ε = K * eu c * H := ⟨_, rfl⟩
  rw [← hε] at es ek hC
  have K0 : 0 < K := by linarith
  have ε0 : 0 < ε := by rw [hε]; positivity
  have hεe : 1000 * eu c ≤ ε := by
    rw [hε, mul_assoc]
    have := mul_le_mul_of_nonneg_left H1 e0.le
    rw [mul_one] at this
    exact mul_le_mul K1 this e0.le K0.le
  obtain ⟨N, hN⟩ : ∃ N, N = ‖C‖ := ⟨_, rfl⟩
  rw [← hN] at hC nC ⊢
  have N0 : 0 < N := by linarith
  have k1 : 3 / 4 * N ≤ ‖cval k‖ := by
    have := norm_sub_norm_le C (cval k)
    rw [norm_sub_rev, ← hN] at this
    linarith
  have k2 : ‖cval k‖ ≤ 5 / 4 * H := by
    have := norm_sub_norm_le (cval k) C
    rw [← hN] at this
    linarith
  have s2 : ‖cval s‖ ≤ 5 / 4 * H := by
    have := norm_sub_norm_le (cval s) S
    linarith
  have big : 5 / 4 * H ≤ pw 400000000 := by
    have g1 : pw 400000000 = pw 300000000 * pw 100000000 := by rw [← pw_add]; rfl
    have g0 : (10 : ℝ) ≤ pw 300000000 := by rw [← pw_one]; exact pw_mono (by omega)
    rw [g1]
    have g2 := mul_le_mul_of_nonneg_right g0 (pw_pos 100000000).le
    have := pw_pos 100000000
    linarith
  have low : pw (-400000000) ≤ ‖cval k‖ := by
    have g1 : pw (-400000000) ≤ pw (-6000) := pw_mono (by omega)
    have g2 := eu_ge hc
    linarith
  have w0 : 0 < ‖cval k‖ := by linarith
  obtain ⟨f1, f2⟩ := cx_div hc hs hk (le_trans s2 big) (by unfold Sz; rw [abs_of_pos w0]; exact ⟨low, le_trans k2 big⟩)
  refine ⟨f1, ?_⟩
  have hkn : cval k ≠ 0 := norm_pos_iff.1 w0
  have hCn : C ≠ 0 := norm_pos_iff.1 (by rw [← hN]; exact N0)
  have HN : 1 ≤ H / N := by rw [le_div_iff₀ N0]; linarith
  have HN2 : H / N ≤ (H / N) ^ 2 := by nlinarith
  have q1 : ‖cval s / cval k - S / C‖ ≤ 8 / 3 * ε / H * (H / N) ^ 2 := by
    rw [div_sub_div _ _ hkn hCn, norm_div, norm_mul, ← hN]
    have num : ‖cval s * C - cval k * S‖ ≤ 2 * ε * H := by
      have : cval s * C - cval k * S = (cval s - S) * C - (cval k - C) * S := by ring
      rw [this]
      refine le_trans (norm_sub_le _ _) ?_
      rw [norm_mul, norm_mul, ← hN]
      have a1 := mul_le_mul es nC N0.le ε0.le
      have a2 := mul_le_mul ek nS (norm_nonneg _) ε0.le
      linarith
    have den : 3 / 4 * N * N ≤ ‖cval k‖ * N := mul_le_mul_of_nonneg_right k1 N0.le
    refine le_trans (div_le_div₀ (by positivity) num (by positivity) den) (le_of_eq ?_)
    field_simp
    ring
  have q2 : ‖cval s‖ / ‖cval k‖ ≤ 2 * (H / N) ^ 2 := by
    refine le_trans (div_le_div₀ (by positivity) s2 (by positivity) k1) ?_
    have : 5 / 4 * H / (3 / 4 * N) = 5 / 3 * (H / N) := by field_simp
    rw [this]; linarith
  have q3 : pw (-1000000000) ≤ eu c * (H / N) ^ 2 := by
    have g1 : pw (-1000000000) ≤ pw (-6000) := pw_mono (by omega)
    have g2 := eu_ge hc
    have g3 : 1 ≤ (H / N) ^ 2 := by nlinarith
    have := mul_le_mul_of_nonneg_left g3 e0.le
    linarith
  have q4 : 2 * eu c * (‖cval s‖ / ‖cval k‖) ≤ 2 * eu c * (2 * (H / N) ^ 2) := mul_le_mul_of_nonneg_left q2 (by positivity)
  have q5 : 8 / 3 * ε / H * (H / N) ^ 2 = 8 / 3 * (K * (eu c * (H / N) ^ 2)) := by rw [hε]; field_simp
  have q6 : 1000 * (eu c * (H / N) ^ 2) ≤ K * (eu c * (H / N) ^ 2) := mul_le_mul_of_nonneg_right K1 (by positivity)
  have tri := norm_sub_le_norm_sub_add_norm_sub (cval (CxE.div c s k)) (cval s / cval k) (S / C)
  rw [q5] at q1
  have q7 : 2 * eu c * (2 * (H / N) ^ 2) = 4 * (eu c * (H / N) ^ 2) := by ring
  have q8 : 3 * K * eu c * (H / N) ^ 2 = 3 * (K * (eu c * (H / N) ^ 2)) := by ring
  rw [q7] at q4
  rw [q8]
  have q9 : 0 < eu c * (H / N) ^ 2 := by positivity
  generalize K * (eu c * (H / N) ^ 2) = X at *
  generalize eu c * (H / N) ^ 2 = Y at *
  linarith

theorem norm_sin_le (z : ℂ) : ‖Complex.sin z‖ ≤ Real.cosh z.im := by
  have e1 : ‖Complex.exp (-z * Complex.I)‖ = Real.exp z.im := by rw [Complex.norm_exp]; simp
  have e2 : ‖Complex.exp (z * Complex.I)‖ = Real.exp (-z.im) := by rw [Complex.norm_exp]; simp
  rw [Complex.sin, norm_div, norm_mul, Complex.norm_I, mul_one, Real.cosh_eq]
  have := norm_sub_le (Complex.exp (-z * Complex.I)) (Complex.exp (z * Complex.I))
  rw [e1, e2] at this
  rw [Complex.norm_ofNat]
  linarith

theorem norm_cos_le (z : ℂ) : ‖Complex.cos z‖ ≤ Real.cosh z.im := by
  have e1 : ‖Complex.exp (-z * Complex.I)‖ = Real.exp z.im := by rw [Complex.norm_exp]; simp
  have e2 : ‖Complex.exp (z * Complex.I)‖ = Real.exp (-z.im) := by rw [Complex.norm_exp]; simp
  rw [Complex.cos, norm_div, Real.cosh_eq]
  have := norm_add_le (Complex.exp (z * Complex.I)) (Complex.exp (-z * Complex.I))
  rw [e1, e2] at this
  rw [Complex.norm_ofNat]
  linarith

theorem norm_sinh_le (z : ℂ) : ‖Complex.sinh z‖ ≤ Real.cosh z.re := by
  rw [Complex.sinh, norm_div, Real.cosh_eq, Complex.norm_ofNat]
  have := norm_sub_le (Complex.exp z) (Complex.exp (-z))
  rw [Complex.norm_exp, Complex.norm_exp, Complex.neg_re] at this
  linarith

theorem norm_cosh_le (z : ℂ) : ‖Complex.cosh z‖ ≤ Real.cosh z.re := by
  rw [Complex.cosh, norm_div, Real.cosh_eq, Complex.norm_ofNat]
  have := norm_add_le (Complex.exp z) (Complex.exp (-z))
  rw [Complex.norm_exp, Complex.norm_exp, Complex.neg_re] at this
  linarith

theorem tan_quot {α : Type} (A : Arith α) (z : Cx α) : FnC.tan A z = FnC.div A (FnC.sin A z) (FnC.cos A z) := rfl

theorem tanh_quot {α : Type} (A : Arith α) (z : Cx α) : FnC.tanh A z = FnC.div A (FnC.sinh A z) (FnC.cosh A z) := rfl

theorem efArith_cdiv (c : Cfg) (T : Tables) (u v : Cx EFloat) : FnC.div (efArith c T) u v = CxE.div c u v := by
  dsimp only [FnC.div, FnC.norm, CxE.div, CxE.norm, efArith]

/-- C115.  The complex tangent and hyperbolic tangent with every rounding of every operation of their e_float code, as long as the
argument is not too near to a pole; the error grows with the square of the distance from it.

Missing: more than 1000 digits, larger or tinier components, reduced working precision, arguments nearer to a pole. -/
theorem C115_complex_tangent_partial {c : Cfg} (hc : c.digits10 ≤ 1000) {T : Tables} (hT : StdTables c T) (hP : Const.pi c = some T.pi)
    (hb : RecipBelow c T.ln2) {z : Cx EFloat} (hz : CValid c z) (h1 : |val z.re| ≤ 10 ^ 8) (h2 : |val z.im| ≤ 10 ^ 8)
    (s1 : val z.re = 0 ∨ (10 : ℝ) ^ (-19000000 : ℤ) ≤ |((val z.re : ℚ) : ℝ)|)
    (s2 : val z.im = 0 ∨ (10 : ℝ) ^ (-19000000 : ℤ) ≤ |((val z.im : ℚ) : ℝ)|) :
    (Real.cosh (cnum z).im / 10 ^ (c.digits10 - 9) ≤ ‖Complex.cos (cnum z)‖ →
      CValid c (FnC.tan (efArith c T) z) ∧ ‖cnum (FnC.tan (efArith c T) z) - Complex.tan (cnum z)‖ ≤
        3 * (16000000 + |(cnum z).re| + 3 * |(cnum z).im|) / 10 ^ (c.digits10 + 1) * (Real.cosh (cnum z).im / ‖Complex.cos (cnum z)‖) ^ 2) ∧
    (Real.cosh (cnum z).re / 10 ^ (c.digits10 - 9) ≤ ‖Complex.cosh (cnum z)‖ →
      CValid c (FnC.tanh (efArith c T) z) ∧ ‖cnum (FnC.tanh (efArith c T) z) - Complex.tanh (cnum z)‖ ≤
        3 * (16000000 + 3 * |(cnum z).re| + |(cnum z).im|) / 10 ^ (c.digits10 + 1) * (Real.cosh (cnum z).re / ‖Complex.cosh (cnum z)‖) ^ 2) := by
  have he := elems_small hc
  have hE : eu c = 1 / 10 ^ (c.digits10 + 1) := eu_inv c
  have e0 : 0 < eu c := pw_pos _
  obtain ⟨-, ⟨a1, a2⟩, ⟨b1, b2⟩, ⟨p1, p2⟩, q1, q2⟩ := C113_complex_functions_partial hc hT hP hb hz h1 h2 s1 s2
  clear s1 s2
  have x8 : |(cnum z).re| ≤ 10 ^ 8 := by show |((val z.re : ℚ) : ℝ)| ≤ _; rw [← Rat.cast_abs]; exact_mod_cast h1
  have y8 : |(cnum z).im| ≤ 10 ^ 8 := by show |((val z.im : ℚ) : ℝ)| ≤ _; rw [← Rat.cast_abs]; exact_mod_cast h2
  have X0 := abs_nonneg (cnum z).re
  have Y0 := abs_nonneg (cnum z).im
  have hd : ∀ t : ℝ, t / 10 ^ (c.digits10 + 1) = t * eu c := by intro t; rw [hE]; ring
  have h10 : (10 : ℝ) ^ 10 * eu c ≤ 1 / 10 ^ (c.digits10 - 9) := by
    rw [hE, mul_one_div, div_le_div_iff₀ (by positivity) (by positivity), one_mul, ← pow_add]
    have := (digits10_bounds c).1
    exact pow_le_pow_right₀ (by norm_num) (by omega)
  have hlow : ∀ {K H N : ℝ}, K ≤ 10 ^ 9 → 0 < H → H / 10 ^ (c.digits10 - 9) ≤ N → 4 * (K * eu c * H) ≤ N := by
    intro K H N hK hH hN
    refine le_trans ?_ hN
    rw [div_eq_mul_one_div]
    have g1 : 4 * K * eu c ≤ 10 ^ 10 * eu c := mul_le_mul_of_nonneg_right (by linarith) e0.le
    have := mul_le_mul_of_nonneg_left (le_trans g1 h10) hH.le
    linarith
  simp only [hd] at a2 b2 p2 q2 ⊢
  have one_cosh : ∀ t : ℝ, 1 ≤ Real.cosh t := by
    intro t
    rw [Real.cosh_eq]
    have := Real.add_one_le_exp t
    have := Real.add_one_le_exp (-t)
    linarith
  rw [tan_quot, tanh_quot, efArith_cdiv, efArith_cdiv]
  generalize FnC.sin (efArith c T) z = S at *
  generalize FnC.cos (efArith c T) z = C at *
  generalize FnC.sinh (efArith c T) z = S' at *
  generalize FnC.cosh (efArith c T) z = C' at *
  refine ⟨fun hp => ?_, fun hp => ?_⟩
  · have := cquot_err he (s := S) (k := C) a1 b1 (one_cosh _) (cosh_size y8).2 (by linarith) (norm_sin_le (cnum z))
      (norm_cos_le (cnum z)) a2 b2 (hlow (by linarith) (Real.cosh_pos _) hp)
    refine ⟨this.1, ?_⟩
    rw [Complex.tan]
    exact this.2
  · have := cquot_err he (s := S') (k := C') p1 q1 (one_cosh _) (cosh_size x8).2 (by linarith) (norm_sinh_le (cnum z))
      (norm_cosh_le (cnum z)) p2 q2 (hlow (by linarith) (Real.cosh_pos _) hp)
    refine ⟨this.1, ?_⟩
    rw [Complex.tanh]
    exact this.2

/-- The tangent of a complex number with imaginary part beyond one, at 101 digits. -/
example : ‖cnum (FnC.tan (efArith cfg101 (stdTables cfg101)) ⟨exC, exA⟩) - Complex.tan (cnum ⟨exC, exA⟩)‖ ≤
    3 * (16000000 + |(cnum ⟨exC, exA⟩).re| + 3 * |(cnum ⟨exC, exA⟩).im|) / 10 ^ (cfg101.digits10 + 1) *
      (Real.cosh (cnum ⟨exC, exA⟩).im / ‖Complex.cos (cnum ⟨exC, exA⟩)‖) ^ 2 := by
  have tiny : ∀ x : EFloat, (1 : ℚ) / 1000 ≤ |val x| → (10 : ℝ) ^ (-19000000 : ℤ) ≤ |((val x : ℚ) : ℝ)| := by
    intro x h
    have h1 : (1 : ℝ) / 1000 ≤ |((val x : ℚ) : ℝ)| := by
      have := (Rat.cast_le (K := ℝ)).2 h
      push_cast at this; exact this
    refine le_trans ?_ h1
    refine le_trans (pw_mono (by norm_num : (-19000000 : ℤ) ≤ -((3 : ℕ) : ℤ))) ?_
    rw [pw_neg, pw_nat]; norm_num
  refine ((C115_complex_tangent_partial (by decide) (stdTables_std _) (stdTables_pi (by decide)) below101 (z := ⟨exC, exA⟩)
    ⟨⟨exC_fin, rfl⟩, exA_fin, rfl⟩ (by decide +kernel) (by decide +kernel) (Or.inr (tiny _ (by decide +kernel)))
    (Or.inr (tiny _ (by decide +kernel)))).1 ?_).2
  have hy : 1 ≤ (cnum ⟨exC, exA⟩).im := by
    have h : (1 : ℚ) ≤ val exA := by decide +kernel
    show (1 : ℝ) ≤ ((val exA : ℚ) : ℝ)
    exact_mod_cast h
  generalize cnum ⟨exC, exA⟩ = w at hy ⊢
  have e1 : ‖Complex.exp (-w * Complex.I)‖ = Real.exp w.im := by rw [Complex.norm_exp]; simp
  have e2 : ‖Complex.exp (w * Complex.I)‖ = Real.exp (-w.im) := by rw [Complex.norm_exp]; simp
  have low : (Real.exp w.im - Real.exp (-w.im)) / 2 ≤ ‖Complex.cos w‖ := by
    rw [Complex.cos, norm_div, Complex.norm_ofNat]
    have := norm_sub_le_norm_add (Complex.exp (-w * Complex.I)) (Complex.exp (w * Complex.I))
    rw [e1, e2, add_comm] at this
    linarith
  have a1 : 2 ≤ Real.exp w.im := by
    have := Real.add_one_le_exp w.im
    linarith
  have a2 : Real.exp (-w.im) ≤ 1 := Real.exp_le_one_iff.2 (by linarith)
  have a3 := Real.exp_pos (-w.im)
  have a4 : (4 : ℝ) ≤ 10 ^ (cfg101.digits10 - 9) := by
    refine le_trans (by norm_num) (pow_le_pow_right₀ (by norm_num : (1 : ℝ) ≤ 10) (by decide : 1 ≤ cfg101.digits10 - 9))
  refine le_trans (div_le_div_of_nonneg_left (Real.cosh_pos _).le (by norm_num) a4) (le_trans ?_ low)
  rw [Real.cosh_eq]
  linarith

/-- C115, `polar`: modulus and angle give the right complex number, with every rounding.

Missing: as for the tangent; a modulus outside `10^±100000000` other than zero is not covered. -/
theorem C115_polar_partial {c : Cfg} (hc : c.digits10 ≤ 1000) {T : Tables} (hP : Const.pi c = some T.pi) {rho theta : EFloat}
    (hr : FinWF c rho) (pr : rho.prec = c.elems) (ht : FinWF c theta) (pt : theta.prec = c.elems) (h1 : |val theta| ≤ 10 ^ 8)
    (s1 : val theta = 0 ∨ (10 : ℝ) ^ (-19000000 : ℤ) ≤ |((val theta : ℚ) : ℝ)|)
    (r0 : (10 : ℝ) ^ (-100000000 : ℤ) ≤ |((val rho : ℚ) : ℝ)|) (r1 : |((val rho : ℚ) : ℝ)| ≤ (10 : ℝ) ^ (100000000 : ℤ)) :
    CValid c (FnC.polar (efArith c T) rho theta) ∧
    ‖cnum (FnC.polar (efArith c T) rho theta) - ((val rho : ℚ) : ℝ) * Complex.exp (((val theta : ℚ) : ℝ) * Complex.I)‖ ≤
      (16000000 + |((val theta : ℚ) : ℝ)|) / 10 ^ (c.digits10 + 1) * |((val rho : ℚ) : ℝ)| := by
  have he := elems_small hc
  have hE : eu c = 1 / 10 ^ (c.digits10 + 1) := eu_inv c
  have e0 : 0 < eu c := pw_pos _
  obtain ⟨⟨b1, b2, b3, -⟩, b4, b5, b6⟩ := C90_sin_cos_partial hc hP ht pt h1 s1
  clear s1
  have x8 : |((val theta : ℚ) : ℝ)| ≤ 10 ^ 8 := by rw [← Rat.cast_abs]; exact_mod_cast h1
  have hd : ∀ t : ℝ, t / 10 ^ (c.digits10 + 1) = t * eu c := by intro t; rw [hE]; ring
  simp only [hd] at b3 b6 ⊢
  generalize hY : ((val theta : ℚ) : ℝ) = Y at *
  have Y0 := abs_nonneg Y
  have hR : rv rho = ((val rho : ℚ) : ℝ) := rfl
  have g0 : pw (-100000000) ≤ |rv rho| := r0
  have g1 : |rv rho| ≤ pw 100000000 := r1
  rw [← hR]
  clear r0 r1
  have b3' : |rv (Fn.sin (efArith c T) theta) - Real.sin Y| ≤ (10000001 + |Y| / 1000) * eu c :=
    le_trans b3 (mul_le_mul_of_nonneg_right (by linarith) e0.le)
  have k1 := (prod_err he (β := 0) ⟨b4, b5⟩ ⟨hr, pr⟩ (Real.abs_cos_le_one Y) (le_refl |rv rho|) g0 g1 (by linarith) (by linarith) (by norm_num) b6
    (by simp)).2
  have k2 := (prod_err he (β := 0) ⟨b1, b2⟩ ⟨hr, pr⟩ (Real.abs_sin_le_one Y) (le_refl |rv rho|) g0 g1 (by linarith) (by linarith) (by norm_num) b3'
    (by simp)).2
  refine ⟨⟨k1.1, k2.1⟩, ?_⟩
  have hx : (rv rho : ℂ) * Complex.exp (Y * Complex.I) = ⟨Real.cos Y * rv rho, Real.sin Y * rv rho⟩ := by
    apply Complex.ext
    · rw [Complex.re_ofReal_mul, Complex.exp_ofReal_mul_I_re, mul_comm]
    · rw [Complex.im_ofReal_mul, Complex.exp_ofReal_mul_I_im, mul_comm]
  rw [hx]
  refine le_trans (cx_norm_sub (a := rv (FnC.polar (efArith c T) rho theta).re) (b := rv (FnC.polar (efArith c T) rho theta).im) k1.2 k2.2) ?_
  have r00 := abs_nonneg (rv rho)
  have := mul_le_mul_of_nonneg_right (show 3 / 2 * (10000001 + |Y| / 1000 + 0 + 1) ≤ 16000000 + |Y| by linarith) (mul_nonneg e0.le r00)
  linarith

end EFX.Props
