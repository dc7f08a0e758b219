import Verif.Lemmas.RndCx
import Verif.Model.ComplexFnE
import Verif.Props.Complex
import Verif.Props.TrigRnd
import Verif.Props.FnRnd
/-!
# C112, C113: complex arithmetic and complex functions with rounding
-/

namespace EFX.Props
open Spec

/-- The parts of a complex number are finite, valid and of full working precision. -/
def CValid (c : Cfg) (z : Cx EFloat) : Prop :=
  (FinWF c z.re ∧ z.re.prec = c.elems) ∧ FinWF c z.im ∧ z.im.prec = c.elems

/-- The complex number of two e_float numbers. -/
noncomputable def cnum (z : Cx EFloat) : ℂ := ⟨((val z.re : ℚ) : ℝ), ((val z.im : ℚ) : ℝ)⟩

/-- C112.  Sums, differences, products, squared moduli and quotients of complex numbers, with every rounding of the component
operations: the error is small against the absolute values of the operands (not against each component of the result), apart from
underflow far below `10^-1000000000`.

Missing: more than 1000 digits, reduced working precision, operands beyond the stated sizes. -/
theorem C112_complex_arithmetic_partial {c : Cfg} (hc : c.digits10 ≤ 1000) {u v : Cx EFloat} (hu : CValid c u) (hv : CValid c v)
    (h1 : ‖cnum u‖ ≤ (10 : ℝ) ^ (400000000 : ℤ)) (h2 : ‖cnum v‖ ≤ (10 : ℝ) ^ (400000000 : ℤ)) :
    (CValid c (CxE.add c u v) ∧ ‖cnum (CxE.add c u v) - (cnum u + cnum v)‖ ≤ (‖cnum u‖ + ‖cnum v‖) / 10 ^ (c.digits10 + 12)) ∧
    (CValid c (CxE.sub c u v) ∧ ‖cnum (CxE.sub c u v) - (cnum u - cnum v)‖ ≤ (‖cnum u‖ + ‖cnum v‖) / 10 ^ (c.digits10 + 12)) ∧
    (CValid c (CxE.mul c u v) ∧
      ‖cnum (CxE.mul c u v) - cnum u * cnum v‖ ≤ ‖cnum u * cnum v‖ / 10 ^ (c.digits10 + 4) + (10 : ℝ) ^ (-1900000000 : ℤ)) ∧
    (FinWF c (CxE.norm c v) ∧ (CxE.norm c v).prec = c.elems ∧
      |((val (CxE.norm c v) : ℚ) : ℝ) - ‖cnum v‖ ^ 2| ≤ ‖cnum v‖ ^ 2 / 10 ^ (c.digits10 + 4) + (10 : ℝ) ^ (-1900000000 : ℤ)) ∧
    ((10 : ℝ) ^ (-400000000 : ℤ) ≤ ‖cnum v‖ → CValid c (CxE.div c u v) ∧
      ‖cnum (CxE.div c u v) - cnum u / cnum v‖ ≤ 2 * ‖cnum u / cnum v‖ / 10 ^ (c.digits10 + 1) + (10 : ℝ) ^ (-1000000000 : ℤ)) := by
  have he := elems_small hc
  have k1 : ‖cval u‖ ≤ pw 400000000 := h1
  have k2 : ‖cval v‖ ≤ pw 400000000 := h2
  clear h1 h2
  have w1 : pw 400000000 ≤ pw 2000000000 := pw_mono (by omega)
  have w2 : pw 400000000 * pw 400000000 ≤ pw 2000000000 := by rw [← pw_add]; exact pw_mono (by omega)
  have n1 := norm_nonneg (cval u)
  have n2 := norm_nonneg (cval v)
  have m1 : ‖cval u‖ * ‖cval v‖ ≤ pw 2000000000 := le_trans (mul_le_mul k1 k2 n2 (pw_pos _).le) w2
  have m2 : ‖cval v‖ ^ 2 ≤ pw 2000000000 := by rw [sq]; exact le_trans (mul_le_mul k2 k2 n2 (pw_pos _).le) w2
  obtain ⟨⟨a1, a2⟩, b1, b2⟩ := cx_add he (u := u) (v := v) hu hv (le_trans k1 w1) (le_trans k2 w1)
  obtain ⟨c1, c2⟩ := cx_mul he (u := u) (v := v) hu hv m1
  obtain ⟨d1, d2⟩ := cx_norm he (v := v) hv m2
  have hE : eu c = 1 / 10 ^ (c.digits10 + 1) := eu_inv c
  have e0 : 0 < eu c := pw_pos _
  have s1 : ∀ t : ℝ, eu c / 10 ^ 11 * t = t / 10 ^ (c.digits10 + 12) := by
    intro t; rw [hE, show c.digits10 + 12 = c.digits10 + 1 + 11 by ring, pow_add _ (c.digits10 + 1)]; ring
  have s2 : ∀ t : ℝ, eu c / 10 ^ 3 * t = t / 10 ^ (c.digits10 + 4) := by
    intro t; rw [hE, show c.digits10 + 4 = c.digits10 + 1 + 3 by ring, pow_add _ (c.digits10 + 1)]; ring
  have tt : 10 * tau ≤ pw (-1900000000) := by
    have : pw (-1900000000) = pw 100000000 * tau := by unfold tau; rw [← pw_add]; rfl
    rw [this]
    refine mul_le_mul_of_nonneg_right ?_ tau_pos.le
    rw [← pw_one]; exact pw_mono (by omega)
  have tp := tau_pos
  refine ⟨⟨a1, by rw [← s1]; exact a2⟩, ⟨b1, by rw [← s1]; exact b2⟩, ⟨c1, ?_⟩, ⟨d1.1, d1.2, ?_⟩, fun h3 => ?_⟩
  · rw [norm_mul, ← s2]
    refine le_trans c2 ?_
    have : 0 ≤ eu c * (‖cval u‖ * ‖cval v‖) := by positivity
    have h5 : eu c / 5000 * (‖cval u‖ * ‖cval v‖) ≤ eu c / 10 ^ 3 * (‖cval u‖ * ‖cval v‖) := by linarith
    exact add_le_add h5 (le_trans (by linarith) tt)
  · rw [← s2]
    refine le_trans d2 ?_
    have : 0 ≤ eu c * ‖cval v‖ ^ 2 := by positivity
    have h5 : eu c / 10 ^ 4 * (102 / 100) * ‖cval v‖ ^ 2 ≤ eu c / 10 ^ 3 * ‖cval v‖ ^ 2 := by linarith
    exact add_le_add h5 (le_trans (by linarith) tt)
  · have k3 : Sz 400000000 ‖cval v‖ := by
      unfold Sz; rw [abs_of_nonneg n2]; exact ⟨h3, k2⟩
    obtain ⟨g1, g2⟩ := cx_div he (u := u) (v := v) hu hv k1 k3
    refine ⟨g1, ?_⟩
    rw [norm_div]
    refine le_trans g2 (le_of_eq ?_)
    rw [hE, show 2 * (1 / 10 ^ (c.digits10 + 1)) * (‖cval u‖ / ‖cval v‖) = 2 * (‖cval u‖ / ‖cval v‖) / 10 ^ (c.digits10 + 1) by ring]
    rfl

/-- `12345678.25 - 12345679.25 i` and the like meet the conditions. -/
theorem exU_ok : CValid cfg101 ⟨exA, exC⟩ ∧ CValid cfg101 ⟨exB, exA⟩ ∧ cnum ⟨exB, exA⟩ ≠ 0 := by
  refine ⟨⟨⟨exA_fin, rfl⟩, exC_fin, rfl⟩, ⟨⟨exB_fin, rfl⟩, exA_fin, rfl⟩, fun h => ?_⟩
  have h1 : ((val exA : ℚ) : ℝ) = 0 := congrArg Complex.im h
  have h2 : val exA ≠ 0 := by decide +kernel
  exact h2 (by exact_mod_cast h1)

theorem pw_big {x : ℝ} {k : ℤ} (h : x ≤ 10 ^ 9) (hk : 9 ≤ k) : x ≤ (10 : ℝ) ^ k := by
  refine le_trans h (le_trans (le_of_eq ?_) (pw_mono hk))
  rw [show (9 : ℤ) = ((9 : ℕ) : ℤ) by rfl, pw_nat]

/-- C112 applies to these numbers; the divisor is no unit and neither operand is real. -/
example : ‖cnum (CxE.div cfg101 ⟨exA, exC⟩ ⟨exB, exA⟩) - cnum ⟨exA, exC⟩ / cnum ⟨exB, exA⟩‖ ≤
    2 * ‖cnum ⟨exA, exC⟩ / cnum ⟨exB, exA⟩‖ / 10 ^ (cfg101.digits10 + 1) + (10 : ℝ) ^ (-1000000000 : ℤ) := by
  have bd : ∀ z : Cx EFloat, |val z.re| ≤ 10 ^ 8 → |val z.im| ≤ 10 ^ 8 → ‖cnum z‖ ≤ 10 ^ 9 := by
    intro z h1 h2
    have g1 : |(cnum z).re| ≤ 10 ^ 8 := by
      show |((val z.re : ℚ) : ℝ)| ≤ _
      rw [← Rat.cast_abs]; exact_mod_cast h1
    have g2 : |(cnum z).im| ≤ 10 ^ 8 := by
      show |((val z.im : ℚ) : ℝ)| ≤ _
      rw [← Rat.cast_abs]; exact_mod_cast h2
    refine le_trans (cx_norm_le g1 g2) (by norm_num)
  refine ((C112_complex_arithmetic_partial (by decide) exU_ok.1 exU_ok.2.1 (pw_big (bd _ ?_ ?_) (by norm_num)) (pw_big (bd _ ?_ ?_) (by norm_num))).2.2.2.2
    ?_).2
  any_goals decide +kernel
  have h : (1 : ℚ) / 1000 ≤ |val exA| := by decide +kernel
  have h1 : (1 : ℝ) / 1000 ≤ |(cnum ⟨exB, exA⟩).im| := by
    have := (Rat.cast_le (K := ℝ)).2 h
    push_cast at this; exact this
  refine le_trans ?_ (le_trans h1 (Complex.abs_im_le_norm _))
  refine le_trans (pw_mono (by norm_num : (-400000000 : ℤ) ≤ -((3 : ℕ) : ℤ))) ?_
  rw [pw_neg, pw_nat]; norm_num

/-- A product of a sine or cosine with an exponential or hyperbolic function. -/
theorem prod_err {c : Cfg} (hc : c.elems < 625) {x y : EFloat} (hx : Full c x) (hy : Full c y) {s t H α β : ℝ} (hs : |s| ≤ 1) (ht : |t| ≤ H)
    (h0 : pw (-100000000) ≤ H) (h1 : H ≤ pw 100000000) (α0 : 0 ≤ α) (α1 : α ≤ 10 ^ 9) (β1 : β ≤ 10 ^ 9)
    (ex : |rv x - s| ≤ α * eu c) (ey : |rv y - t| ≤ β * eu c * H) :
    (Full c (mul c x y) ∧ |rv (mul c x y) - s * t| ≤ (α + β + 1) * eu c * H) ∧
    Full c (mul c y x) ∧ |rv (mul c y x) - s * t| ≤ (α + β + 1) * eu c * H := by
  have e0 : 0 < eu c := pw_pos _
  have e1 := eu_small c
  have H0 : 0 < H := lt_of_lt_of_le (pw_pos _) h0
  have tH : 2 * tau ≤ 1 / 10 * (eu c * H) := by
    have t1 : pw (-6000) * pw (-100000000) ≤ eu c * H := mul_le_mul (eu_ge hc) h0 (pw_pos _).le e0.le
    have t2 : tau = pw (-1899994000) * (pw (-6000) * pw (-100000000)) := by unfold tau; rw [← pw_add, ← pw_add]; rfl
    have t3 : pw (-1899994000) ≤ 1 / 100 := by
      refine le_trans (pw_mono (by omega : (-1899994000 : ℤ) ≤ -((2 : ℕ) : ℤ))) ?_
      rw [pw_neg, pw_nat]; norm_num
    have t4 : tau ≤ 1 / 100 * (eu c * H) := by
      rw [t2]; exact mul_le_mul t3 t1 (mul_pos (pw_pos _) (pw_pos _)).le (by norm_num)
    have := mul_pos e0 H0
    linarith
  have big : (102 / 100) * ((102 / 100) * H) ≤ pw 2000000000 := by
    have : pw 2000000000 = pw 1900000000 * pw 100000000 := by rw [← pw_add]; rfl
    rw [this]
    have h2 : 10 ≤ pw 1900000000 := by rw [← pw_one]; exact pw_mono (by omega)
    have h3 := mul_le_mul_of_nonneg_right h2 (pw_pos 100000000).le
    linarith
  have aE : α * eu c ≤ 1 / 10 ^ 20 := by
    have := mul_le_mul α1 e1 e0.le (by norm_num)
    refine le_trans this (by norm_num)
  have bE : β * eu c ≤ 1 / 10 ^ 20 := by
    have := mul_le_mul β1 e1 e0.le (by norm_num)
    refine le_trans this (by norm_num)
  have bEH : β * eu c * H ≤ 1 / 10 ^ 20 * H := mul_le_mul_of_nonneg_right bE H0.le
  have rx : |rv x| ≤ 102 / 100 := by
    have := abs_sub_abs_le_abs_sub (rv x) s
    linarith
  have ry : |rv y| ≤ 102 / 100 * H := by
    have := abs_sub_abs_le_abs_sub (rv y) t
    linarith
  have pxy : |rv x * rv y| ≤ (102 / 100) * ((102 / 100) * H) := by
    rw [abs_mul]; exact mul_le_mul rx ry (abs_nonneg _) (by norm_num)
  have eH : 0 < eu c * H := mul_pos e0 H0
  have base : |rv x * rv y - s * t| ≤ (α + β + 1 / 10) * (eu c * H) := by
    have : rv x * rv y - s * t = (rv x - s) * t + rv x * (rv y - t) := by ring
    rw [this]
    refine le_trans (abs_add_le _ _) ?_
    rw [abs_mul, abs_mul]
    have rx' : |rv x| ≤ 1 + 1 / 10 ^ 20 := by
      have := abs_sub_abs_le_abs_sub (rv x) s
      linarith
    have a1 : |rv x - s| * |t| ≤ α * eu c * H := mul_le_mul ex ht (abs_nonneg _) (by positivity)
    have a2 : |rv x| * |rv y - t| ≤ (1 + 1 / 10 ^ 20) * (β * eu c * H) := mul_le_mul rx' ey (abs_nonneg _) (by norm_num)
    have a3 : β * (eu c * H) ≤ 10 ^ 9 * (eu c * H) := mul_le_mul_of_nonneg_right β1 eH.le
    have a4 : α * eu c * H + (1 + 1 / 10 ^ 20) * (β * eu c * H) = α * (eu c * H) + β * (eu c * H) + 1 / 10 ^ 20 * (β * (eu c * H)) := by ring
    rw [add_mul, add_mul]
    generalize α * (eu c * H) = X at *
    generalize β * (eu c * H) = Y at *
    generalize eu c * H = Z at *
    linarith
  have fin : ∀ m : ℝ, |m - rv x * rv y| ≤ eu c / 10 ^ 4 * |rv x * rv y| + 2 * tau → |m - s * t| ≤ (α + β + 1) * eu c * H := by
    intro m hm
    have b1 := abs_sub_le m (rv x * rv y) (s * t)
    have b2 : eu c / 10 ^ 4 * |rv x * rv y| ≤ eu c / 10 ^ 4 * ((102 / 100) * ((102 / 100) * H)) := mul_le_mul_of_nonneg_left pxy (by positivity)
    have b3 : (α + β + 1) * eu c * H = (α + β + 1 / 10) * (eu c * H) + 9 / 10 * (eu c * H) := by ring
    rw [b3]
    generalize (α + β + 1 / 10) * (eu c * H) = X at *
    linarith
  obtain ⟨f1, g1, -⟩ := mul_any hc hx hy (le_trans pxy big)
  obtain ⟨f2, g2, -⟩ := mul_any hc hy hx (by rw [mul_comm]; exact le_trans pxy big)
  rw [mul_comm (rv y)] at g2
  exact ⟨⟨f1, fin _ g1⟩, f2, fin _ g2⟩

theorem exp_size {x : ℝ} (h : |x| ≤ 10 ^ 8) : pw (-100000000) ≤ Real.exp x ∧ Real.exp x ≤ pw 100000000 := by
  have e10 : Real.exp 1 ≤ 10 := by linarith [Real.exp_one_lt_three]
  have key : ∀ y : ℝ, y ≤ 10 ^ 8 → Real.exp y ≤ pw 100000000 := by
    intro y hy
    obtain ⟨n, hn⟩ : ∃ n : ℕ, n = 100000000 := ⟨_, rfl⟩
    have h1 : Real.exp y ≤ Real.exp ((n : ℝ) * 1) := Real.exp_le_exp.2 (by rw [hn]; push_cast; linarith)
    rw [Real.exp_nat_mul] at h1
    have h2 : pw 100000000 = 10 ^ n := by rw [← pw_nat, hn]; rfl
    rw [h2]
    exact le_trans h1 (pow_le_pow_left₀ (Real.exp_pos _).le e10 n)
  have h1 := abs_le.1 h
  refine ⟨?_, key _ h1.2⟩
  have := key (-x) (by linarith)
  rw [Real.exp_neg] at this
  rw [pw_neg]
  have h3 := inv_anti₀ (inv_pos.2 (Real.exp_pos x)) this
  rwa [inv_inv] at h3

theorem cosh_size {x : ℝ} (h : |x| ≤ 10 ^ 8) : pw (-100000000) ≤ Real.cosh x ∧ Real.cosh x ≤ pw 100000000 := by
  refine ⟨le_trans (pw_le1 (by omega)) ?_, ?_⟩
  · rw [Real.cosh_eq]
    have := Real.add_one_le_exp x
    have := Real.add_one_le_exp (-x)
    linarith
  have h1 := (exp_size h).2
  have h2 := (exp_size (x := -x) (by rwa [abs_neg])).2
  rw [Real.cosh_eq]; linarith

theorem abs_sinh_le (x : ℝ) : |Real.sinh x| ≤ Real.cosh x := by
  rw [abs_le, Real.sinh_eq, Real.cosh_eq]
  have := Real.exp_pos x
  have := Real.exp_pos (-x)
  constructor <;> linarith

/-- C113.  The complex exponential function, sine, cosine, hyperbolic sine and hyperbolic cosine with every rounding of every operation of
their e_float code: the error is small against `exp (re z)`, `cosh (im z)` or `cosh (re z)`.

Missing: more than 1000 digits, larger or tinier components, reduced working precision, the functions built on the logarithm. -/
theorem C113_complex_functions_partial {c : Cfg} (hc : c.digits10 ≤ 1000) {T : Tables} (hT : StdTables c T) (hP : Const.pi c = some T.pi)
    (hb : RecipBelow c T.ln2) {z : Cx EFloat} (hz : CValid c z) (h1 : |val z.re| ≤ 10 ^ 8) (h2 : |val z.im| ≤ 10 ^ 8)
    (s1 : val z.re = 0 ∨ (10 : ℝ) ^ (-19000000 : ℤ) ≤ |((val z.re : ℚ) : ℝ)|)
    (s2 : val z.im = 0 ∨ (10 : ℝ) ^ (-19000000 : ℤ) ≤ |((val z.im : ℚ) : ℝ)|) :
    (CValid c (FnC.exp (efArith c T) z) ∧ ‖cnum (FnC.exp (efArith c T) z) - Complex.exp (cnum z)‖ ≤
      (16000000 + 2 * |(cnum z).re| + |(cnum z).im|) / 10 ^ (c.digits10 + 1) * Real.exp (cnum z).re) ∧
    (CValid c (FnC.sin (efArith c T) z) ∧ ‖cnum (FnC.sin (efArith c T) z) - Complex.sin (cnum z)‖ ≤
      (16000000 + |(cnum z).re| + 3 * |(cnum z).im|) / 10 ^ (c.digits10 + 1) * Real.cosh (cnum z).im) ∧
    (CValid c (FnC.cos (efArith c T) z) ∧ ‖cnum (FnC.cos (efArith c T) z) - Complex.cos (cnum z)‖ ≤
      (16000000 + |(cnum z).re| + 3 * |(cnum z).im|) / 10 ^ (c.digits10 + 1) * Real.cosh (cnum z).im) ∧
    (CValid c (FnC.sinh (efArith c T) z) ∧ ‖cnum (FnC.sinh (efArith c T) z) - Complex.sinh (cnum z)‖ ≤
      (16000000 + 3 * |(cnum z).re| + |(cnum z).im|) / 10 ^ (c.digits10 + 1) * Real.cosh (cnum z).re) ∧
    (CValid c (FnC.cosh (efArith c T) z) ∧ ‖cnum (FnC.cosh (efArith c T) z) - Complex.cosh (cnum z)‖ ≤
      (16000000 + 3 * |(cnum z).re| + |(cnum z).im|) / 10 ^ (c.digits10 + 1) * Real.cosh (cnum z).re) := by
  have he := elems_small hc
  have hE : eu c = 1 / 10 ^ (c.digits10 + 1) := eu_inv c
  obtain ⟨⟨a1, a2, a3, -⟩, a4, a5, a6⟩ := C90_sin_cos_partial hc hP hz.1.1 hz.1.2 h1 s1
  obtain ⟨⟨b1, b2, b3, -⟩, b4, b5, b6⟩ := C90_sin_cos_partial hc hP hz.2.1 hz.2.2 h2 s2
  obtain ⟨e1, e2, e3⟩ := C89_exp_partial hc hT hb hz.1.1 hz.1.2 h1
  obtain ⟨⟨p1, p2, p3⟩, ⟨p4, p5, p6⟩, -⟩ := C92_hyperbolic_partial hc hT hb hz.1.1 hz.1.2 h1
  obtain ⟨⟨q1, q2, q3⟩, ⟨q4, q5, q6⟩, -⟩ := C92_hyperbolic_partial hc hT hb hz.2.1 hz.2.2 h2
  clear s1 s2
  have x8 : |((val z.re : ℚ) : ℝ)| ≤ 10 ^ 8 := by rw [← Rat.cast_abs]; exact_mod_cast h1
  have y8 : |((val z.im : ℚ) : ℝ)| ≤ 10 ^ 8 := by rw [← Rat.cast_abs]; exact_mod_cast h2
  have hcn : cnum z = toC ⟨((val z.re : ℚ) : ℝ), ((val z.im : ℚ) : ℝ)⟩ := rfl
  have hre : (cnum z).re = ((val z.re : ℚ) : ℝ) := rfl
  have him : (cnum z).im = ((val z.im : ℚ) : ℝ) := rfl
  rw [hre, him, hcn, ← toC_exp, ← toC_sin, ← toC_cos, ← toC_sinh, ← toC_cosh]
  simp only [Cx.exp, Cx.sin, Cx.cos, Cx.sinh, Cx.cosh, Cx.mulR, toC]
  have hd : ∀ t : ℝ, t / 10 ^ (c.digits10 + 1) = t * eu c := by intro t; rw [hE]; ring
  simp only [hd] at a3 a6 b3 b6 e3 p3 p6 q3 q6 ⊢
  generalize hX : ((val z.re : ℚ) : ℝ) = X at *
  generalize hY : ((val z.im : ℚ) : ℝ) = Y at *
  have X0 := abs_nonneg X
  have Y0 := abs_nonneg Y
  have e0 : 0 < eu c := pw_pos _
  have sx : ∀ {t : ℝ}, |t - Real.sin X| ≤ (4 + |X| / 1000) * eu c → |t - Real.sin X| ≤ (10000001 + |X| / 1000) * eu c := fun h =>
    le_trans h (mul_le_mul_of_nonneg_right (by linarith) e0.le)
  have sy : ∀ {t : ℝ}, |t - Real.sin Y| ≤ (4 + |Y| / 1000) * eu c → |t - Real.sin Y| ≤ (10000001 + |Y| / 1000) * eu c := fun h =>
    le_trans h (mul_le_mul_of_nonneg_right (by linarith) e0.le)
  have comp : ∀ (f g : EFloat) (s t H α β : ℝ), Full c f → Full c g → |s| ≤ 1 → |t| ≤ H → pw (-100000000) ≤ H → H ≤ pw 100000000 → 0 ≤ α →
      α ≤ 10 ^ 9 → β ≤ 10 ^ 9 → |rv f - s| ≤ α * eu c → |rv g - t| ≤ β * eu c * H → _ :=
    fun f g s t H α β k1 k2 k3 k4 k5 k6 k7 k8 k9 k10 k11 => prod_err he k1 k2 k3 k4 k5 k6 k7 k8 k9 k10 k11
  have fin : ∀ {a b x y H K L : ℝ}, 0 < H → |a - x| ≤ K * eu c * H → |b - y| ≤ K * eu c * H → 3 / 2 * K ≤ L →
      ‖(⟨a, b⟩ : ℂ) - ⟨x, y⟩‖ ≤ L * eu c * H := by
    intro a b x y H K L h0 ha hb' hK
    refine le_trans (cx_norm_sub ha hb') ?_
    have := mul_le_mul_of_nonneg_right hK (mul_pos e0 h0).le
    linarith
  have ex := exp_size x8
  have cx := cosh_size x8
  have cy := cosh_size y8
  have ex0 := Real.exp_pos X
  have cx0 := Real.cosh_pos X
  have cy0 := Real.cosh_pos Y
  have hm : ∀ u v : EFloat, (efArith c T).mul u v = mul c u v := fun _ _ => rfl
  have hn : ∀ u : EFloat, (efArith c T).neg u = negate u := fun _ => rfl
  -- exp
  have r1 := (comp _ _ _ _ _ _ _ ⟨b4, b5⟩ ⟨e1, e2⟩ (Real.abs_cos_le_one Y) (le_of_eq (abs_of_pos ex0)) ex.1 ex.2 (by linarith) (by linarith)
    (by linarith) b6 e3).1
  have r2 := (comp _ _ _ _ _ _ _ ⟨b1, b2⟩ ⟨e1, e2⟩ (Real.abs_sin_le_one Y) (le_of_eq (abs_of_pos ex0)) ex.1 ex.2 (by linarith) (by linarith)
    (by linarith) (sy b3) e3).1
  -- sin
  have r3 := (comp _ _ _ _ _ _ _ ⟨a1, a2⟩ ⟨q4, q5⟩ (Real.abs_sin_le_one X) (le_of_eq (abs_of_pos cy0)) cy.1 cy.2 (by linarith) (by linarith)
    (by linarith) (sx a3) q6).1
  have r4 := (comp _ _ _ _ _ _ _ ⟨a4, a5⟩ ⟨q1, q2⟩ (Real.abs_cos_le_one X) (abs_sinh_le Y) cy.1 cy.2 (by linarith) (by linarith)
    (by linarith) a6 q3).1
  -- cos
  have r5 := (comp _ _ _ _ _ _ _ ⟨a4, a5⟩ ⟨q4, q5⟩ (Real.abs_cos_le_one X) (le_of_eq (abs_of_pos cy0)) cy.1 cy.2 (by linarith) (by linarith)
    (by linarith) a6 q6).1
  have r6 := (comp _ _ _ _ _ _ _ ⟨a1, a2⟩ ⟨q1, q2⟩ (Real.abs_sin_le_one X) (abs_sinh_le Y) cy.1 cy.2 (by linarith) (by linarith)
    (by linarith) (sx a3) q3).1
  -- sinh
  have r7 := (comp _ _ _ _ _ _ _ ⟨b4, b5⟩ ⟨p1, p2⟩ (Real.abs_cos_le_one Y) (abs_sinh_le X) cx.1 cx.2 (by linarith) (by linarith)
    (by linarith) b6 p3).1
  have r8 := (comp _ _ _ _ _ _ _ ⟨b1, b2⟩ ⟨p4, p5⟩ (Real.abs_sin_le_one Y) (le_of_eq (abs_of_pos cx0)) cx.1 cx.2 (by linarith) (by linarith)
    (by linarith) (sy b3) p6).2
  -- cosh
  have r9 := (comp _ _ _ _ _ _ _ ⟨b4, b5⟩ ⟨p4, p5⟩ (Real.abs_cos_le_one Y) (le_of_eq (abs_of_pos cx0)) cx.1 cx.2 (by linarith) (by linarith)
    (by linarith) b6 p6).1
  have r10 := (comp _ _ _ _ _ _ _ ⟨b1, b2⟩ ⟨p1, p2⟩ (Real.abs_sin_le_one Y) (abs_sinh_le X) cx.1 cx.2 (by linarith) (by linarith)
    (by linarith) (sy b3) p3).1
  clear comp
  refine ⟨⟨⟨r1.1, r2.1⟩, ?_⟩, ⟨⟨r3.1, r4.1⟩, ?_⟩, ⟨⟨r5.1, r6.1.neg.1⟩, ?_⟩, ⟨⟨r7.1, r8.1⟩, ?_⟩, ⟨r9.1, r10.1⟩, ?_⟩
  · exact fin (a := rv (FnC.exp (efArith c T) z).re) (b := rv (FnC.exp (efArith c T) z).im) ex0 r1.2 r2.2 (by linarith)
  · exact fin (a := rv (FnC.sin (efArith c T) z).re) (b := rv (FnC.sin (efArith c T) z).im) cy0 r3.2 r4.2 (by linarith)
  · have r6' : |rv (negate (mul c (Fn.sin (efArith c T) z.re) (Fn.sinh (efArith c T) z.im))) - -(Real.sin X * Real.sinh Y)| ≤
        (10000001 + |X| / 1000 + (1010 + 2 * |Y|) + 1) * eu c * Real.cosh Y := by
      rw [r6.1.neg.2, neg_sub_neg, abs_sub_comm]; exact r6.2
    exact fin (a := rv (FnC.cos (efArith c T) z).re) (b := rv (FnC.cos (efArith c T) z).im) cy0 r5.2 r6' (by linarith)
  · rw [mul_comm (Real.cosh X)]
    exact fin (a := rv (FnC.sinh (efArith c T) z).re) (b := rv (FnC.sinh (efArith c T) z).im) cx0 r7.2 r8.2 (by linarith)
  · exact fin (a := rv (FnC.cosh (efArith c T) z).re) (b := rv (FnC.cosh (efArith c T) z).im) cx0 r9.2 r10.2 (by linarith)

/-- `sin` of a complex number at 101 digits. -/
example : ‖cnum (FnC.sin (efArith cfg101 (stdTables cfg101)) ⟨exC, exA⟩) - Complex.sin (cnum ⟨exC, exA⟩)‖ ≤
    (16000000 + |(cnum ⟨exC, exA⟩).re| + 3 * |(cnum ⟨exC, exA⟩).im|) / 10 ^ (cfg101.digits10 + 1) * Real.cosh (cnum ⟨exC, exA⟩).im := by
  have tiny : ∀ x : EFloat, (1 : ℚ) / 1000 ≤ |val x| → (10 : ℝ) ^ (-19000000 : ℤ) ≤ |((val x : ℚ) : ℝ)| := by
    intro x h
    have h1 : (1 : ℝ) / 1000 ≤ |((val x : ℚ) : ℝ)| := by
      have := (Rat.cast_le (K := ℝ)).2 h
      push_cast at this; exact this
    refine le_trans ?_ h1
    refine le_trans (pw_mono (by norm_num : (-19000000 : ℤ) ≤ -((3 : ℕ) : ℤ))) ?_
    rw [pw_neg, pw_nat]; norm_num
  exact (C113_complex_functions_partial (by decide) (stdTables_std _) (stdTables_pi (by decide)) below101 (z := ⟨exC, exA⟩)
    ⟨⟨exC_fin, rfl⟩, exA_fin, rfl⟩ (by decide +kernel) (by decide +kernel) (Or.inr (tiny _ (by decide +kernel)))
    (Or.inr (tiny _ (by decide +kernel)))).2.1.2

end EFX.Props
