import Verif.Model.ComplexExpon
import Verif.Props.CxLog
/-!
# C120: powers of complex numbers with all rounding
-/

namespace EFX.Props
open EFX EFX.Spec

theorem exp_diff {M d : ℂ} {ε : ℝ} (h : ‖d - M‖ ≤ ε) (e1 : ε ≤ 1 / 2) :
    ‖Complex.exp d - Complex.exp M‖ ≤ 2 * ε * Real.exp M.re ∧ Real.exp d.re ≤ 2 * Real.exp M.re := by
  have e : Complex.exp d - Complex.exp M = Complex.exp M * (Complex.exp (d - M) - 1) := by
    rw [mul_sub, mul_one, ← Complex.exp_add]; congr 2; ring
  have p := Real.exp_pos M.re
  constructor
  · rw [e, norm_mul, Complex.norm_exp]
    have h1 := Complex.norm_exp_sub_one_le (x := d - M) (by linarith)
    have := mul_le_mul_of_nonneg_left (le_trans h1 (show 2 * ‖d - M‖ ≤ 2 * ε by linarith)) p.le
    linarith
  · have h2 : d.re ≤ M.re + 1 / 2 := by
      have := le_trans (le_abs_self _) (Complex.abs_re_le_norm (d - M))
      rw [Complex.sub_re] at this
      linarith
    have h3 := Real.exp_le_exp.2 h2
    rw [Real.exp_add] at h3
    have h4 : Real.exp (1 / 2) ≤ 2 := by
      have h5 : Real.exp (1 / 2) * Real.exp (1 / 2) < 3 := by
        rw [← Real.exp_add]; norm_num; exact Real.exp_one_lt_three
      nlinarith [Real.exp_pos (1 / 2)]
    have := mul_le_mul_of_nonneg_left h4 p.le
    linarith

/-- The computed exponential function of a computed product with an approximate logarithm. -/
theorem exp_prod {c : Cfg} (hc : c.digits10 ≤ 1000) {T : Tables} (hT : StdTables c T) (hP : Const.pi c = some T.pi)
    (hb : RecipBelow c T.ln2) {m : Cx EFloat} (hm : CValid c m)
    (s1 : val m.re = 0 ∨ (10 : ℝ) ^ (-19000000 : ℤ) ≤ |((val m.re : ℚ) : ℝ)|)
    (s2 : val m.im = 0 ∨ (10 : ℝ) ^ (-19000000 : ℤ) ≤ |((val m.im : ℚ) : ℝ)|)
    {B W L : ℂ} {η : ℝ} (hW : ‖W - L‖ ≤ η) (h1 : ‖B‖ * η ≤ 1 / 4) (h2 : ‖B * L‖ ≤ 10 ^ 7)
    (he : ‖cnum m - B * W‖ ≤ eu c * (1 / 2 + ‖B * W‖ / 2)) :
    CValid c (FnC.exp (efArith c T) m) ∧ ‖cnum (FnC.exp (efArith c T) m) - Complex.exp (B * L)‖ ≤
      (2 * ‖B‖ * η + (34000000 + 8 * ‖B * L‖) / 10 ^ (c.digits10 + 1)) * Real.exp (B * L).re := by
  have R := rnd_efloat (elems_small hc) T
  have u0 : 0 < eu c := R.u0
  have u1 : eu c ≤ 1 / 10 ^ 30 := R.u1
  norm_num at u1
  have d1 : ‖B * W - B * L‖ ≤ ‖B‖ * η := by
    rw [← mul_sub, norm_mul]; exact mul_le_mul_of_nonneg_left hW (norm_nonneg _)
  have d2 : ‖B * W‖ ≤ ‖B * L‖ + 1 / 4 := by
    have := norm_sub_norm_le (B * W) (B * L)
    linarith
  have d3 : ‖cnum m - B * W‖ ≤ eu c * (1 + ‖B * L‖) :=
    le_trans he (mul_le_mul_of_nonneg_left (by linarith [norm_nonneg (B * L)]) u0.le)
  have d4 : ‖cnum m - B * L‖ ≤ ‖B‖ * η + eu c * (1 + ‖B * L‖) := by
    have := norm_sub_le_norm_sub_add_norm_sub (cnum m) (B * W) (B * L)
    linarith
  have d5 : eu c * (1 + ‖B * L‖) ≤ 1 / 4 := by
    have h3 : eu c * (1 + ‖B * L‖) ≤ eu c * (1 + 10 ^ 7) := mul_le_mul_of_nonneg_left (by linarith) u0.le
    have h4 : eu c * (1 + 10 ^ 7) ≤ 1 / 4 := by norm_num; linarith
    linarith
  have d6 : ‖B‖ * η + eu c * (1 + ‖B * L‖) ≤ 1 / 2 := by linarith
  obtain ⟨x1, x2⟩ := exp_diff d4 d6
  have n1 : ‖cnum m‖ ≤ ‖B * L‖ + 1 / 2 := by
    have := norm_sub_norm_le (cnum m) (B * L)
    linarith
  have r1 : |(cnum m).re| ≤ ‖B * L‖ + 1 / 2 := le_trans (Complex.abs_re_le_norm _) n1
  have i1 : |(cnum m).im| ≤ ‖B * L‖ + 1 / 2 := le_trans (Complex.abs_im_le_norm _) n1
  have r2 : |val m.re| ≤ 10 ^ 8 := by
    have : |((val m.re : ℚ) : ℝ)| ≤ 10 ^ 8 := by
      refine le_trans r1 ?_
      norm_num at h2 ⊢; linarith
    exact_mod_cast this
  have i2 : |val m.im| ≤ 10 ^ 8 := by
    have : |((val m.im : ℚ) : ℝ)| ≤ 10 ^ 8 := by
      refine le_trans i1 ?_
      norm_num at h2 ⊢; linarith
    exact_mod_cast this
  obtain ⟨v, e⟩ := (C113_complex_functions_partial hc hT hP hb hm r2 i2 s1 s2).1
  clear s1 s2 r2 i2
  refine ⟨v, ?_⟩
  have t := norm_sub_le_norm_sub_add_norm_sub (cnum (FnC.exp (efArith c T) m)) (Complex.exp (cnum m)) (Complex.exp (B * L))
  rw [← eu_mul] at e ⊢
  have p := Real.exp_pos (B * L).re
  have e2 : eu c * (16000000 + 2 * |(cnum m).re| + |(cnum m).im|) * Real.exp (cnum m).re ≤
      eu c * (16000002 + 3 * ‖B * L‖) * (2 * Real.exp (B * L).re) := by
    refine mul_le_mul (mul_le_mul_of_nonneg_left (by linarith) u0.le) x2 (Real.exp_pos _).le ?_
    have := norm_nonneg (B * L)
    positivity
  have e3 : eu c * (32000004 + 6 * ‖B * L‖) * Real.exp (B * L).re + 2 * (eu c * (1 + ‖B * L‖)) * Real.exp (B * L).re ≤
      eu c * (34000000 + 8 * ‖B * L‖) * Real.exp (B * L).re := by
    rw [← add_mul]
    refine mul_le_mul_of_nonneg_right ?_ p.le
    nlinarith [norm_nonneg (B * L)]
  nlinarith

/-- C120 for real exponents: if the parts of the computed logarithm `w` of `z` are valid numbers of full working precision and together
within `η` of `L`, then the computed power has a relative error of at most `2 |a| η + (34000000 + 8 |a L|) 10^-(D+1)` against `exp (a L)`. -/
theorem powR_acc {c : Cfg} (hc : c.digits10 ≤ 1000) {T : Tables} (hT : StdTables c T) (hP : Const.pi c = some T.pi)
    (hb : RecipBelow c T.ln2) {z w : Cx EFloat} {a : EFloat} (ha : FinWF c a) (hp : a.prec = c.elems)
    (hw : w = FnC.log (efArith c T) z) (hv : CValid c w) {A : ℝ} (hA : A = ((val a : ℚ) : ℝ))
    (s1 : val (mul c w.re a) = 0 ∨ (10 : ℝ) ^ (-19000000 : ℤ) ≤ |((val (mul c w.re a) : ℚ) : ℝ)|)
    (s2 : val (mul c w.im a) = 0 ∨ (10 : ℝ) ^ (-19000000 : ℤ) ≤ |((val (mul c w.im a) : ℚ) : ℝ)|)
    {L : ℂ} {η : ℝ} (hW : ‖cnum w - L‖ ≤ η) (h1 : |A| * η ≤ 1 / 4) (h2 : |A| * ‖L‖ ≤ 10 ^ 7) :
    CValid c (FnC.powR (efArith c T) z a) ∧ ‖cnum (FnC.powR (efArith c T) z a) - Complex.exp (A * L)‖ ≤
      (2 * |A| * η + (34000000 + 8 * (|A| * ‖L‖)) / 10 ^ (c.digits10 + 1)) * Real.exp (A * L.re) := by
  have nA : ‖(A : ℂ)‖ = |A| := Complex.norm_real A
  have hce := elems_small hc
  have u0 : 0 < eu c := pw_pos _
  have vA : rv a = A := hA.symm
  have d1 : ‖(A : ℂ) * cnum w - A * L‖ ≤ |A| * η := by
    rw [← mul_sub, norm_mul, nA]; exact mul_le_mul_of_nonneg_left hW (abs_nonneg _)
  have d2 : ‖(A : ℂ) * cnum w‖ ≤ 10 ^ 8 := by
    have := norm_sub_norm_le ((A : ℂ) * cnum w) (A * L)
    have h3 : ‖(A : ℂ) * L‖ = |A| * ‖L‖ := by rw [norm_mul, nA]
    have h4 : (10 : ℝ) ^ 7 + 1 / 4 ≤ 10 ^ 8 := by norm_num
    linarith
  have big : (10 : ℝ) ^ 8 ≤ pw 2000000000 := by
    rw [← pw_nat]; exact pw_mono (by norm_num)
  have wr : |rv w.re * rv a| ≤ ‖(A : ℂ) * cnum w‖ := by
    have := Complex.abs_re_le_norm ((A : ℂ) * cnum w)
    rw [Complex.re_ofReal_mul] at this
    rw [vA, mul_comm]; exact this
  have wi : |rv w.im * rv a| ≤ ‖(A : ℂ) * cnum w‖ := by
    have := Complex.abs_im_le_norm ((A : ℂ) * cnum w)
    rw [Complex.im_ofReal_mul] at this
    rw [vA, mul_comm]; exact this
  obtain ⟨f1, e1, -⟩ := mul_any hce (x := w.re) (y := a) hv.1 ⟨ha, hp⟩ (le_trans wr (le_trans d2 big))
  obtain ⟨f2, e2, -⟩ := mul_any hce (x := w.im) (y := a) hv.2 ⟨ha, hp⟩ (le_trans wi (le_trans d2 big))
  clear big
  have tt : 16 * tau ≤ eu c := by
    have h3 : pw 2 * tau ≤ pw (-6000) := by
      unfold tau; rw [← pw_add]; exact pw_mono (by norm_num)
    have h4 : pw 2 = 100 := by rw [show (2 : ℤ) = ((2 : ℕ) : ℤ) by rfl, pw_nat]; norm_num
    have := eu_ge hce
    rw [h4] at h3
    linarith [tau_pos]
  have key := exp_prod hc hT hP hb (m := ⟨mul c w.re a, mul c w.im a⟩) ⟨f1, f2⟩ s1 s2 (B := (A : ℂ)) (W := cnum w) (L := L) (η := η) hW
    (by rw [nA]; exact h1) (by rw [norm_mul, nA]; exact h2) (by
      refine le_trans (Complex.norm_le_abs_re_add_abs_im _) ?_
      rw [Complex.sub_re, Complex.sub_im, Complex.re_ofReal_mul, Complex.im_ofReal_mul]
      change |rv (mul c w.re a) - A * rv w.re| + |rv (mul c w.im a) - A * rv w.im| ≤ _
      rw [mul_comm A, mul_comm A, ← vA]
      have g1 := mul_le_mul_of_nonneg_left wr (show 0 ≤ eu c / 10 ^ 4 by positivity)
      have g2 := mul_le_mul_of_nonneg_left wi (show 0 ≤ eu c / 10 ^ 4 by positivity)
      rw [vA] at *
      have q : 0 ≤ eu c * ‖(A : ℂ) * cnum w‖ := by positivity
      have q1 : eu c / 10 ^ 4 * ‖(A : ℂ) * cnum w‖ = 1 / 10 ^ 4 * (eu c * ‖(A : ℂ) * cnum w‖) := by ring
      have q2 : eu c * (1 / 2 + ‖(A : ℂ) * cnum w‖ / 2) = eu c / 2 + 1 / 2 * (eu c * ‖(A : ℂ) * cnum w‖) := by ring
      rw [q1] at g1 g2
      rw [q2]
      linarith)
  have hm : FnC.powR (efArith c T) z a = FnC.exp (efArith c T) ⟨mul c w.re a, mul c w.im a⟩ := by rw [hw]; rfl
  rw [hm]
  rw [nA, norm_mul, nA, Complex.re_ofReal_mul] at key
  exact key

/-- C120.  With up to 1000 digits and the library's constants, let the computed complex logarithm `w` of a number `z` other than zero be
valid and within `η` of the principal value (C119 bounds `η`), and let the parts of its product with the exponent be zero or at least
`10^-19000000` in size.  Then `pow(z, a)` with a real exponent `a` is within
`2 |a| η + (34000000 + 8 |a log z|) 10^-(D+1)` of the principal value of `z^a`, relative to the absolute value of that power; the same
holds for a complex exponent, relative to `exp (re (a log z))`, the absolute value of the power.

Missing: the accuracy of the logarithm (C119), powers beyond `exp (10^7)`. -/
theorem C120_pow_partial {c : Cfg} (hc : c.digits10 ≤ 1000) {T : Tables} (hT : StdTables c T) (hP : Const.pi c = some T.pi)
    (hb : RecipBelow c T.ln2) {z w : Cx EFloat} (z0 : cnum z ≠ 0) (hw : w = FnC.log (efArith c T) z) (hv : CValid c w) {η : ℝ}
    (hW : ‖cnum w - Complex.log (cnum z)‖ ≤ η) (η1 : η ≤ 1) (hl : ‖Complex.log (cnum z)‖ ≤ 10 ^ 8) :
    (∀ a : EFloat, FinWF c a → a.prec = c.elems → ∀ A : ℝ, A = ((val a : ℚ) : ℝ) →
      (val (mul c w.re a) = 0 ∨ (10 : ℝ) ^ (-19000000 : ℤ) ≤ |((val (mul c w.re a) : ℚ) : ℝ)|) →
      (val (mul c w.im a) = 0 ∨ (10 : ℝ) ^ (-19000000 : ℤ) ≤ |((val (mul c w.im a) : ℚ) : ℝ)|) →
      |A| * η ≤ 1 / 4 → |A| * ‖Complex.log (cnum z)‖ ≤ 10 ^ 7 →
      CValid c (FnC.powR (efArith c T) z a) ∧ ‖cnum (FnC.powR (efArith c T) z a) - cnum z ^ (A : ℂ)‖ ≤
        (2 * |A| * η + (34000000 + 8 * (|A| * ‖Complex.log (cnum z)‖)) / 10 ^ (c.digits10 + 1)) * ‖cnum z ^ (A : ℂ)‖) ∧
    (∀ a : Cx EFloat, CValid c a → ‖cnum a‖ ≤ 10 ^ 8 →
      (val (CxE.mul c a w).re = 0 ∨ (10 : ℝ) ^ (-19000000 : ℤ) ≤ |((val (CxE.mul c a w).re : ℚ) : ℝ)|) →
      (val (CxE.mul c a w).im = 0 ∨ (10 : ℝ) ^ (-19000000 : ℤ) ≤ |((val (CxE.mul c a w).im : ℚ) : ℝ)|) →
      ‖cnum a‖ * η ≤ 1 / 4 → ‖cnum a * Complex.log (cnum z)‖ ≤ 10 ^ 7 →
      CValid c (FnC.pow (efArith c T) z a) ∧ ‖cnum (FnC.pow (efArith c T) z a) - cnum z ^ cnum a‖ ≤
        (2 * ‖cnum a‖ * η + (34000000 + 8 * ‖cnum a * Complex.log (cnum z)‖) / 10 ^ (c.digits10 + 1)) * ‖cnum z ^ cnum a‖) := by
  have cp : ∀ b : ℂ, cnum z ^ b = Complex.exp (b * Complex.log (cnum z)) := fun b => by
    rw [Complex.cpow_def_of_ne_zero z0, mul_comm]
  constructor
  · intro a ha hp A hA s1 s2 h1 h2
    have := powR_acc hc hT hP hb ha hp hw hv hA s1 s2 hW h1 h2
    rw [cp, Complex.norm_exp, Complex.re_ofReal_mul]
    exact this
  · intro a ha a8 s1 s2 h1 h2
    rw [cp, Complex.norm_exp]
    have u0 : 0 < eu c := pw_pos _
    have hce := elems_small hc
    have nw : ‖cnum w‖ ≤ 10 ^ 9 := by
      have := norm_sub_norm_le (cnum w) (Complex.log (cnum z))
      norm_num at hl ⊢
      linarith
    obtain ⟨-, -, ⟨m1, m2⟩, -⟩ := C112_complex_arithmetic_partial hc (u := a) (v := w) ha hv (pw_big (le_trans a8 (by norm_num)) (by norm_num))
      (pw_big nw (by norm_num))
    have hm : FnC.pow (efArith c T) z a = FnC.exp (efArith c T) (CxE.mul c a w) := by rw [hw]; rfl
    rw [hm]
    refine exp_prod hc hT hP hb m1 s1 s2 hW h1 h2 (le_trans m2 ?_)
    have t1 : (10 : ℝ) ^ (-1900000000 : ℤ) ≤ eu c / 2 := by
      have h3 : pw 1 * pw (-1900000000) ≤ pw (-6000) := by rw [← pw_add]; exact pw_mono (by norm_num)
      have := eu_ge hce
      rw [pw_one] at h3
      have h4 : 0 < pw (-1900000000) := pw_pos _
      change pw (-1900000000) ≤ _
      linarith
    have t2 : ‖cnum a * cnum w‖ / 10 ^ (c.digits10 + 4) ≤ eu c * (‖cnum a * cnum w‖ / 2) := by
      rw [eu_mul, show c.digits10 + 4 = (c.digits10 + 1) + 3 by ring, pow_add, ← div_div]
      rw [div_right_comm]
      refine div_le_div_of_nonneg_right ?_ (by positivity)
      have := norm_nonneg (cnum a * cnum w)
      generalize ‖cnum a * cnum w‖ = q at *
      norm_num
      linarith
    have : eu c * (1 / 2 + ‖cnum a * cnum w‖ / 2) = eu c / 2 + eu c * (‖cnum a * cnum w‖ / 2) := by ring
    linarith

/-- `atan2` on the diagonal below the positive real axis is the arc tangent of plus one. -/
theorem atan2_diag {c : Cfg} (hc : c.digits10 ≤ 1000) {T : Tables} (hT : Const.pi c = some T.pi) {x y : EFloat} (hx : Full c x) (hy : Full c y)
    (h0 : GoodStart c (T.atan0 (one c)) (Real.pi / 4)) (px : 0 < val x) (e : val y = -val x) : Full c (Fn.atan2 (efArith c T) y x) := by
  have R := rnd_efloat (elems_small hc) T
  have xn : x.neg = false := by
    by_contra hcn
    have := truncZ_neg hx.1 (by simpa using hcn)
    linarith [this.2.1, this.2.2]
  have yn : val y < 0 := by rw [e]; linarith
  have hdiv := div_same hx.1 hy.1 yn.ne (by rw [e, abs_neg])
  rw [xn] at hdiv
  simp only [Bool.false_eq_true, if_false] at hdiv
  have lo : (10 : ℝ) ^ (-10000000 : ℤ) ≤ 1 := zpow_le_one_of_nonpos₀ (by norm_num) (by norm_num)
  have a1 : absE (one c) = one c := rfl
  obtain ⟨t1, t2, -⟩ := C95_atan_partial hc hT (x := one c) (FinWF_one c) rfl (X := 1) (by rw [val_one]; norm_num)
    (Or.inr (by rw [abs_one]; exact lo)) (Or.inl (by norm_num)) (fun _ _ => by rw [a1, abs_one, Real.arctan_one]; exact h0)
  have sy : y.isneg = true := (R.isneg y hy).2 (by unfold rv; exact_mod_cast yn)
  have sx : x.isneg = false := by
    by_contra hcn
    have := (R.isneg x hx).1 (Bool.not_eq_false _ ▸ hcn : x.isneg = true)
    unfold rv at this
    have h3 : val x < 0 := by exact_mod_cast this
    linarith
  have : Fn.atan2 (efArith c T) y x = Fn.atan (efArith c T) (one c) := by
    have h : Fn.atan2 (efArith c T) y x = if y.isneg = x.isneg then
          (if x.isneg then sub c (Fn.atan (efArith c T) (div c y x)) T.pi else Fn.atan (efArith c T) (div c y x))
        else (if x.isneg then add c (Fn.atan (efArith c T) (div c y x)) T.pi else Fn.atan (efArith c T) (div c y x)) := by
      unfold Fn.atan2
      rw [R.isfinite_ok (x := x) hx, R.isfinite_ok (x := y) hy]
      simp only [Bool.not_true, Bool.or_self, Bool.false_eq_true, if_false]
      rw [if_neg (fun h => yn.ne (by have := (R.iszero y hy).1 h; unfold rv at this; exact_mod_cast this)),
        if_neg (fun h => px.ne' (by have := (R.iszero x hx).1 h; unfold rv at this; exact_mod_cast this))]
      rfl
    rw [h, sy, sx, hdiv]
    simp
  rw [this]
  exact ⟨t1, t2⟩

/-- C120 refuted on the diagonal below the real axis: for every `z` with `im z = -re z < 0` and every real exponent `a` the computed
`pow(z, a)` is the power of the conjugate number up to small errors, if the computed real part of the logarithm is within `δ`. -/
theorem C120_pow_refuted {c : Cfg} (hc : c.digits10 ≤ 1000) {T : Tables} (hT : StdTables c T) (hP : Const.pi c = some T.pi)
    (hb : RecipBelow c T.ln2) {z w : Cx EFloat} (hz : CValid c z) (h0 : GoodStart c (T.atan0 (one c)) (Real.pi / 4)) (hr : 0 < val z.re)
    (hi : val z.im = -val z.re) (hw : w = FnC.log (efArith c T) z) (hv : FinWF c w.re) (hvp : w.re.prec = c.elems) {δ : ℝ}
    (hW : |((val w.re : ℚ) : ℝ) - Real.log ‖cnum z‖| ≤ δ)
    {a : EFloat} (ha : FinWF c a) (hp : a.prec = c.elems) {A : ℝ} (hA : A = ((val a : ℚ) : ℝ))
    (s1 : val (mul c w.re a) = 0 ∨ (10 : ℝ) ^ (-19000000 : ℤ) ≤ |((val (mul c w.re a) : ℚ) : ℝ)|)
    (s2 : val (mul c w.im a) = 0 ∨ (10 : ℝ) ^ (-19000000 : ℤ) ≤ |((val (mul c w.im a) : ℚ) : ℝ)|)
    (h1 : |A| * (δ + 80000000 / 10 ^ (c.digits10 + 1)) ≤ 1 / 4) (h2 : |A| * ‖Complex.log (cnum z)‖ ≤ 10 ^ 7) :
    ‖cnum (FnC.powR (efArith c T) z a) - (starRingEnd ℂ) (cnum z) ^ (A : ℂ)‖ ≤
      (2 * |A| * (δ + 80000000 / 10 ^ (c.digits10 + 1)) + (34000000 + 8 * (|A| * ‖Complex.log (cnum z)‖)) / 10 ^ (c.digits10 + 1)) *
        ‖cnum z ^ (A : ℂ)‖ := by
  obtain ⟨g1, g2⟩ := C119_log_refuted hc hP hz h0 hr hi
  have z0 : cnum z ≠ 0 := fun h => by
    have h3 : ((val z.re : ℚ) : ℝ) = 0 := congrArg Complex.re h
    have h4 : val z.re = 0 := by exact_mod_cast h3
    linarith
  have hg : (cnum z).arg ≠ Real.pi := by
    rw [← Complex.log_im, g1]
    linarith [Real.pi_pos]
  have lc := Complex.log_conj (cnum z) hg
  have c0 : (starRingEnd ℂ) (cnum z) ≠ 0 := by simpa using z0
  have fi : Full c w.im := by rw [hw]; exact atan2_diag hc hP hz.1 hz.2 h0 hr hi
  have hn : ‖cnum w - (starRingEnd ℂ) (Complex.log (cnum z))‖ ≤ δ + 80000000 / 10 ^ (c.digits10 + 1) := by
    refine le_trans (Complex.norm_le_abs_re_add_abs_im _) (add_le_add ?_ ?_)
    · rw [Complex.sub_re, Complex.conj_re, Complex.log_re]; exact hW
    · rw [Complex.sub_im, Complex.conj_im, g1, neg_neg, hw]; exact g2
  have := (powR_acc hc hT hP hb (z := z) (L := (starRingEnd ℂ) (Complex.log (cnum z))) ha hp hw ⟨⟨hv, hvp⟩, fi⟩ hA s1 s2 hn h1
    (by rw [Complex.norm_conj]; exact h2)).2
  rw [Complex.norm_conj, Complex.conj_re] at this
  rw [Complex.cpow_def_of_ne_zero c0, lc, mul_comm, Complex.cpow_def_of_ne_zero z0, Complex.norm_exp, mul_comm (Complex.log (cnum z)),
    Complex.re_ofReal_mul]
  exact this

theorem mul_one_size {x : EFloat} (hx : Full cfg101 x) (h1 : 1 / 4 ≤ rv x) (h2 : rv x ≤ 1) :
    (10 : ℝ) ^ (-19000000 : ℤ) ≤ |((val (mul cfg101 x (one cfg101)) : ℚ) : ℝ)| := by
  have r1 : rv (one cfg101) = 1 := by unfold rv; rw [val_one]; norm_num
  have hce : cfg101.elems < 625 := elems_small (by decide)
  obtain ⟨-, e, -⟩ := mul_any hce hx (y := one cfg101) ⟨one_fin, rfl⟩ (by
    rw [r1, mul_one, abs_of_nonneg (by linarith)]
    exact le_trans h2 (by rw [← pw_zero]; exact pw_mono (by norm_num)))
  rw [r1, mul_one, abs_of_nonneg (show 0 ≤ rv x by linarith)] at e
  have u0 : 0 < eu cfg101 := pw_pos _
  have u1 : eu cfg101 ≤ 1 / 100 := by
    have : eu cfg101 = 1 / 10 ^ 102 := eu_inv cfg101
    rw [this]; norm_num
  have t : tau ≤ 1 / 100 := by
    have : pw 2 * tau ≤ 1 := by unfold tau; rw [← pw_add]; exact pw_le1 (by norm_num)
    have h4 : pw 2 = 100 := by rw [show (2 : ℤ) = ((2 : ℕ) : ℤ) by rfl, pw_nat]; norm_num
    rw [h4] at this
    linarith
  have e3 : eu cfg101 / 10 ^ 4 * rv x ≤ 1 / 100 * 1 := mul_le_mul (by norm_num at *; linarith) h2 (by linarith) (by norm_num)
  have e4 := (abs_le.1 e).1
  have g : 1 / 10 ≤ |rv (mul cfg101 x (one cfg101))| := le_trans (by linarith) (le_abs_self _)
  have k : pw (-19000000) ≤ pw (-1) := pw_mono (by norm_num)
  have k1 : pw (-1) = 1 / 10 := by rw [show (-1 : ℤ) = -((1 : ℕ) : ℤ) by norm_num, pw_neg, pw_nat]; norm_num
  rw [k1] at k
  exact le_trans k g

theorem norm_ef (c : Cfg) (T : Tables) (z : Cx EFloat) : FnC.norm (efArith c T) z = CxE.norm c z := rfl

theorem log_re_ef (c : Cfg) (T : Tables) (z : Cx EFloat) :
    (FnC.log (efArith c T) z).re = (efArith c T).divI (Fn.log (efArith c T) (FnC.norm (efArith c T) z)) 2 := rfl

theorem log_im_ef (c : Cfg) (T : Tables) (z : Cx EFloat) : (FnC.log (efArith c T) z).im = Fn.atan2 (efArith c T) z.im z.re := rfl

/-- The number `1 - i`. -/
def oneMinusI : Cx EFloat := ⟨one cfg101, negate (one cfg101)⟩

theorem oneMinusI_num : cnum oneMinusI = ⟨1, -1⟩ ∧ ‖cnum oneMinusI‖ = Real.sqrt 2 := by
  have h : cnum oneMinusI = ⟨1, -1⟩ := by
    unfold cnum oneMinusI
    rw [negate_val one_fin, val_one]; norm_num
  refine ⟨h, ?_⟩
  rw [h, Complex.norm_def, Complex.normSq_mk]; norm_num

/-- `pow(1 - i, 1.0)` at 101 digits is `1 + i` up to errors below `10^-80`. -/
example : ‖cnum (FnC.powR (efArith cfg101 logAngleTables) oneMinusI (one cfg101)) - ⟨1, 1⟩‖ ≤ 1 / 10 ^ 80 := by
  have hb : RecipBelow cfg101 logAngleTables.ln2 := by rw [logAngle_ln2]; exact below101
  have hP : Const.pi cfg101 = some logAngleTables.pi := by
    have h : logAngleTables.pi = startTables.pi := withLog_pi _ _
    rw [h]; exact startTables_pi
  have hz : CValid cfg101 oneMinusI := ⟨⟨one_fin, rfl⟩, FinWF_negate one_fin, rfl⟩
  obtain ⟨zn, nn⟩ := oneMinusI_num
  have hr : 0 < val oneMinusI.re := by decide +kernel
  have hi : val oneMinusI.im = -val oneMinusI.re := by decide +kernel
  have R := rnd_efloat (c := cfg101) (elems_small (by decide)) logAngleTables
  have hN : FnC.norm (efArith cfg101 logAngleTables) oneMinusI = ofUnsigned cfg101 2 := by
    rw [norm_ef]
    decide +kernel
  obtain ⟨l1, l2, l3⟩ := log2_num
  obtain ⟨od, ed⟩ := R.divI _ 2 ⟨l1, l2⟩ (by norm_num) (by norm_num)
  obtain ⟨w, hw⟩ : ∃ w, w = FnC.log (efArith cfg101 logAngleTables) oneMinusI := ⟨_, rfl⟩
  have wre : w.re = (efArith cfg101 logAngleTables).divI (Fn.log (efArith cfg101 logAngleTables) (ofUnsigned cfg101 2)) 2 := by
    rw [hw, log_re_ef, hN]
  have ln : Real.log ‖cnum oneMinusI‖ = Real.log 2 / 2 := by rw [nn, Real.log_sqrt (by norm_num)]
  have b1 := Real.log_two_gt_d9
  have b2 := Real.log_two_lt_d9
  have hE : eu cfg101 = 1 / 10 ^ 102 := eu_inv cfg101
  have hd : cfg101.digits10 = 101 := rfl
  have hW : |((val w.re : ℚ) : ℝ) - Real.log ‖cnum oneMinusI‖| ≤ 1 / 10 ^ 97 := by
    rw [ln, wre]
    rw [hE] at ed
    push_cast at ed
    change |rv _ - _| ≤ _
    have l3' : |rv (Fn.log (efArith cfg101 logAngleTables) (ofUnsigned cfg101 2)) - Real.log 2| ≤ 1 / 10 ^ 98 := l3
    generalize rv ((efArith cfg101 logAngleTables).divI (Fn.log (efArith cfg101 logAngleTables) (ofUnsigned cfg101 2)) 2) = D at *
    generalize rv (Fn.log (efArith cfg101 logAngleTables) (ofUnsigned cfg101 2)) = l at *
    have q := abs_le.1 l3'
    have q1 : |l / 2| ≤ 1 := by
      norm_num at q
      exact abs_le.2 ⟨by linarith, by linarith⟩
    have q2 := abs_le.1 (le_trans ed (mul_le_mul_of_nonneg_left q1 (by norm_num)))
    norm_num at q q2 ⊢
    exact abs_le.2 ⟨by linarith, by linarith⟩
  obtain ⟨g1, g2⟩ := C119_log_refuted (c := cfg101) (by decide) hP hz piFourth_good hr hi
  have fi : Full cfg101 w.im := by rw [hw, log_im_ef]; exact atan2_diag (by decide) hP hz.1 hz.2 piFourth_good hr hi
  have fr : Full cfg101 w.re := by rw [wre]; exact od
  rw [← hw, hd] at g2
  have g3 := abs_le.1 g2
  have p3 := Real.pi_gt_three
  have p4 := Real.pi_lt_d2
  have wi : (cnum w).im = rv w.im := rfl
  have c1 : ((val (one cfg101) : ℚ) : ℝ) = 1 := by rw [val_one]; norm_num
  have s1 := mul_one_size fr (by
    have := (abs_le.1 hW).1
    rw [ln] at this
    unfold rv
    norm_num at this ⊢; linarith) (by
    have := (abs_le.1 hW).2
    rw [ln] at this
    unfold rv
    norm_num at this ⊢; linarith)
  have s2 := mul_one_size fi (by rw [← wi]; norm_num at g3 ⊢; linarith) (by rw [← wi]; norm_num at g3 ⊢; linarith)
  have nl : ‖Complex.log (cnum oneMinusI)‖ ≤ 10 := by
    refine le_trans (Complex.norm_le_abs_re_add_abs_im _) ?_
    rw [g1, Complex.log_re, ln, abs_of_nonneg (show 0 ≤ Real.log 2 / 2 by linarith), abs_neg, abs_of_nonneg (show 0 ≤ Real.pi / 4 by linarith)]
    linarith
  have key := C120_pow_refuted (c := cfg101) (by decide) logAngle_std hP hb hz piFourth_good hr hi hw fr.1 fr.2 hW one_fin rfl (A := 1) c1.symm
    (Or.inr s1) (Or.inr s2) (by rw [hd]; norm_num) (by rw [abs_one, one_mul]; exact le_trans nl (by norm_num))
  clear s1 s2
  have cj : (starRingEnd ℂ) (cnum oneMinusI) = ⟨1, 1⟩ := by
    rw [zn]; apply Complex.ext <;> simp
  rw [Complex.ofReal_one, Complex.cpow_one, Complex.cpow_one, cj, nn, abs_one, hd] at key
  refine le_trans key ?_
  have sq : Real.sqrt 2 ≤ 2 := by rw [Real.sqrt_le_left (by norm_num)]; norm_num
  have sq0 := Real.sqrt_nonneg 2
  refine le_trans (mul_le_mul (show _ ≤ (1 : ℝ) / 10 ^ 82 from ?_) sq sq0 (by norm_num)) (by norm_num)
  norm_num
  linarith

theorem size_of {x : ℝ} (h : 1 / 10 ≤ |x|) : (10 : ℝ) ^ (-19000000 : ℤ) ≤ |x| := by
  have k : pw (-19000000) ≤ pw (-1) := pw_mono (by norm_num)
  have k1 : pw (-1) = 1 / 10 := by rw [show (-1 : ℤ) = -((1 : ℕ) : ℤ) by norm_num, pw_neg, pw_nat]; norm_num
  rw [k1] at k
  exact le_trans k h

/-- C120 applies to `1 + i` with the exponents `1` and `1 + i`. -/
example : ‖cnum (FnC.powR (efArith cfg101 logAngleTables) ⟨one cfg101, one cfg101⟩ (one cfg101)) - ⟨1, 1⟩‖ ≤ 1 / 10 ^ 80 ∧
    ‖cnum (FnC.pow (efArith cfg101 logAngleTables) ⟨one cfg101, one cfg101⟩ ⟨one cfg101, one cfg101⟩) - (⟨1, 1⟩ : ℂ) ^ (⟨1, 1⟩ : ℂ)‖ ≤
      1 / 10 ^ 80 * ‖(⟨1, 1⟩ : ℂ) ^ (⟨1, 1⟩ : ℂ)‖ := by
  have hb : RecipBelow cfg101 logAngleTables.ln2 := by rw [logAngle_ln2]; exact below101
  have hP : Const.pi cfg101 = some logAngleTables.pi := by
    have h : logAngleTables.pi = startTables.pi := withLog_pi _ _
    rw [h]; exact startTables_pi
  obtain ⟨z, hz⟩ : ∃ z : Cx EFloat, z = ⟨one cfg101, one cfg101⟩ := ⟨_, rfl⟩
  have vz : CValid cfg101 z := by rw [hz]; exact ⟨⟨one_fin, rfl⟩, one_fin, rfl⟩
  obtain ⟨lv, e1, e2⟩ := log_onePlusI
  have hd : cfg101.digits10 = 101 := rfl
  have c1 : ((val (one cfg101) : ℚ) : ℝ) = 1 := by rw [val_one]; norm_num
  have cz : cnum z = ⟨1, 1⟩ := by rw [hz]; unfold cnum; rw [c1]
  rw [← hz] at *
  obtain ⟨w, hw⟩ : ∃ w, w = FnC.log (efArith cfg101 logAngleTables) z := ⟨_, rfl⟩
  rw [← hw, hd, cz] at e1 e2
  rw [← hw] at lv
  have nn : ‖(⟨1, 1⟩ : ℂ)‖ = Real.sqrt 2 := by rw [Complex.norm_def, Complex.normSq_mk]; norm_num
  have ln : Real.log ‖(⟨1, 1⟩ : ℂ)‖ = Real.log 2 / 2 := by rw [nn, Real.log_sqrt (by norm_num)]
  have lr : (Complex.log ⟨1, 1⟩).re = Real.log 2 / 2 := by rw [Complex.log_re, ln]
  have li : (Complex.log ⟨1, 1⟩).im = Real.pi / 4 := by
    rw [Complex.log_im, arg_eq_arctan (by norm_num), if_pos (by norm_num), div_one, Real.arctan_one]
  have b1 := Real.log_two_gt_d9
  have b2 := Real.log_two_lt_d9
  have p3 := Real.pi_gt_d2
  have p4 := Real.pi_lt_d2
  rw [lr, ln, abs_of_nonneg (show 0 ≤ Real.log 2 / 2 by linarith)] at e1
  rw [li] at e2
  have f1 : |(cnum w).re - Real.log 2 / 2| ≤ 1 / 10 ^ 93 := le_trans e1 (by norm_num at *; linarith)
  have f2 : |(cnum w).im - Real.pi / 4| ≤ 1 / 10 ^ 93 := le_trans e2 (by norm_num)
  clear e1 e2
  have hW : ‖cnum w - Complex.log (cnum z)‖ ≤ 2 / 10 ^ 93 := by
    refine le_trans (Complex.norm_le_abs_re_add_abs_im _) ?_
    rw [Complex.sub_re, Complex.sub_im, cz, lr, li]
    linarith
  have nl : ‖Complex.log (cnum z)‖ ≤ 10 := by
    refine le_trans (Complex.norm_le_abs_re_add_abs_im _) ?_
    rw [cz, lr, li, abs_of_nonneg (show 0 ≤ Real.log 2 / 2 by linarith), abs_of_nonneg (show 0 ≤ Real.pi / 4 by linarith)]
    linarith
  have z0 : cnum z ≠ 0 := by
    rw [cz]; intro h
    exact one_ne_zero (congrArg Complex.re h)
  have sq : Real.sqrt 2 ≤ 2 := by rw [Real.sqrt_le_left (by norm_num)]; norm_num
  have sq0 := Real.sqrt_nonneg 2
  have nz : ‖cnum z‖ ≤ 2 := by rw [cz, nn]; exact sq
  have q1 := abs_le.1 f1
  have q2 := abs_le.1 f2
  have wr : (cnum w).re = rv w.re := rfl
  have wi : (cnum w).im = rv w.im := rfl
  obtain ⟨k1, k2⟩ := C120_pow_partial (c := cfg101) (by decide) logAngle_std hP hb z0 hw lv hW (by norm_num) (le_trans nl (by norm_num))
  constructor
  · have key := (k1 (one cfg101) one_fin rfl 1 c1.symm
      (Or.inr (mul_one_size lv.1 (by rw [← wr]; norm_num at q1 ⊢; linarith) (by rw [← wr]; norm_num at q1 ⊢; linarith)))
      (Or.inr (mul_one_size lv.2 (by rw [← wi]; norm_num at q2 ⊢; linarith) (by rw [← wi]; norm_num at q2 ⊢; linarith)))
      (by norm_num) (by rw [abs_one, one_mul]; exact le_trans nl (by norm_num))).2
    rw [Complex.ofReal_one, Complex.cpow_one, cz, nn, abs_one, hd, ← cz] at key
    rw [← cz]
    refine le_trans key ?_
    refine le_trans (mul_le_mul (show _ ≤ (1 : ℝ) / 10 ^ 82 from ?_) sq sq0 (by norm_num)) (by norm_num)
    norm_num
    linarith
  · have nw : ‖cnum w‖ ≤ 20 := by
      have := norm_sub_norm_le (cnum w) (Complex.log (cnum z))
      norm_num at hW
      linarith
    obtain ⟨-, -, ⟨-, m2⟩, -⟩ := C112_complex_arithmetic_partial (c := cfg101) (by decide) (u := z) (v := w) vz lv
      (pw_big (le_trans nz (by norm_num)) (by norm_num)) (pw_big (le_trans nw (by norm_num)) (by norm_num))
    have m3 : ‖cnum (CxE.mul cfg101 z w) - cnum z * cnum w‖ ≤ 1 / 100 := by
      refine le_trans m2 ?_
      have h1 : ‖cnum z * cnum w‖ ≤ 2 * 20 := by
        rw [norm_mul]; exact mul_le_mul nz nw (norm_nonneg _) (by norm_num)
      have h2 : (10 : ℝ) ^ (-1900000000 : ℤ) ≤ 1 / 1000 := by
        have k : pw (-1900000000) ≤ pw (-3) := pw_mono (by norm_num)
        have k1 : pw (-3) = 1 / 1000 := by rw [show (-3 : ℤ) = -((3 : ℕ) : ℤ) by norm_num, pw_neg, pw_nat]; norm_num
        rw [k1] at k
        exact k
      have h3 : ‖cnum z * cnum w‖ / 10 ^ (cfg101.digits10 + 4) ≤ 2 * 20 / 10 ^ (cfg101.digits10 + 4) :=
        div_le_div_of_nonneg_right h1 (by positivity)
      have h4 : (2 * 20 : ℝ) / 10 ^ (cfg101.digits10 + 4) ≤ 1 / 1000 := by rw [hd]; norm_num
      linarith
    clear m2
    have mr := abs_le.1 (le_trans (Complex.abs_re_le_norm _) m3)
    have mi := abs_le.1 (le_trans (Complex.abs_im_le_norm _) m3)
    rw [Complex.sub_re, Complex.mul_re, cz] at mr
    rw [Complex.sub_im, Complex.mul_im, cz] at mi
    norm_num at q1 q2 mr mi
    have key := (k2 z vz (le_trans nz (by norm_num))
      (Or.inr (size_of (le_trans (show (1 : ℝ) / 10 ≤ -((val (CxE.mul cfg101 z w).re : ℚ) : ℝ) from by
        change _ ≤ -(cnum (CxE.mul cfg101 z w)).re
        linarith) (neg_le_abs _))))
      (Or.inr (size_of (le_trans (show (1 : ℝ) / 10 ≤ ((val (CxE.mul cfg101 z w).im : ℚ) : ℝ) from by
        change _ ≤ (cnum (CxE.mul cfg101 z w)).im
        linarith) (le_abs_self _))))
      (by
        have := mul_le_mul_of_nonneg_right nz (show (0 : ℝ) ≤ 2 / 10 ^ 93 by norm_num)
        norm_num at this ⊢; linarith) (by
        rw [norm_mul]
        exact le_trans (mul_le_mul nz nl (norm_nonneg _) (by norm_num)) (by norm_num))).2
    rw [cz] at key nz nl
    refine le_trans key (mul_le_mul_of_nonneg_right ?_ (norm_nonneg _))
    have h1 : ‖(⟨1, 1⟩ : ℂ) * Complex.log ⟨1, 1⟩‖ ≤ 2 * 10 := by
      rw [norm_mul]; exact mul_le_mul nz nl (norm_nonneg _) (by norm_num)
    rw [hd]
    generalize ‖(⟨1, 1⟩ : ℂ) * Complex.log ⟨1, 1⟩‖ = q at *
    generalize ‖(⟨1, 1⟩ : ℂ)‖ = r at *
    norm_num
    linarith

end EFX.Props
