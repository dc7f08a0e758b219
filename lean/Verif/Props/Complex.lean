import Verif.Model.Complex
import Verif.Props.Util
import Mathlib.Analysis.SpecialFunctions.Pow.Complex
import Mathlib.Analysis.SpecialFunctions.Complex.Log
import Mathlib.Tactic.LinearCombination
import Mathlib.Tactic.Positivity
/-!
# C42, C55, C56: complex arithmetic, elementary functions and inverse functions
-/

namespace EFX.Props
open EFX

/-! ## C42 over any ordered field -/

section Arith
set_option linter.unusedSectionVars false
variable {K : Type*} [Field K] [LinearOrder K] [IsStrictOrderedRing K]

theorem cx_ext {u v : Cx K} (h1 : u.re = v.re) (h2 : u.im = v.im) : u = v := by cases u; cases v; simp_all

theorem normSq_pos {v : Cx K} (hv : v ≠ ⟨0, 0⟩) : 0 < v.re * v.re + v.im * v.im := by
  by_contra hc
  have h1 := mul_self_nonneg v.re
  have h2 := mul_self_nonneg v.im
  have h3 : v.re * v.re = 0 := by linarith
  have h4 : v.im * v.im = 0 := by linarith
  exact hv (cx_ext (mul_self_eq_zero.1 h3) (mul_self_eq_zero.1 h4))

/-- The two formulas of the template agree with the quotient by the squared modulus. -/
theorem div_eq_divE {u v : Cx K} (hv : v ≠ ⟨0, 0⟩) : Cx.div u v = Cx.divE u v := by
  have hn := normSq_pos hv
  unfold Cx.div Cx.divE Cx.norm
  by_cases h : |v.re| < |v.im|
  · have him : v.im ≠ 0 := by
      intro h0; rw [h0, abs_zero] at h; exact absurd (abs_nonneg v.re) (not_le.2 h)
    rw [if_pos h]
    have hd : v.re * (v.re / v.im) + v.im = (v.re * v.re + v.im * v.im) / v.im := by field_simp
    apply cx_ext <;> simp only [hd] <;> field_simp
  · have hre : v.re ≠ 0 := by
      intro h0
      rw [h0, abs_zero, abs_pos, not_not] at h
      exact hv (cx_ext h0 h)
    rw [if_neg h]
    have hd : v.im * (v.im / v.re) + v.re = (v.re * v.re + v.im * v.im) / v.re := by field_simp; ring
    apply cx_ext <;> simp only [hd] <;> field_simp <;> ring

/-- C42 over any ordered field: the quotient (both formulas) multiplied by the divisor is the dividend, a number times
itself is the square, the two norms agree and a real number divided by a complex one is the quotient of the embedded
number. -/
theorem C42_field (u v : Cx K) (x : K) (hv : v ≠ ⟨0, 0⟩) :
    Cx.mul (Cx.div u v) v = u ∧ Cx.mul (Cx.divE u v) v = u ∧
    Cx.rDiv x v = Cx.div ⟨x, 0⟩ v ∧ Cx.rDivE x v = Cx.divE ⟨x, 0⟩ v ∧
    Cx.mulSelf v = Cx.mul v v ∧ Cx.normT v = Cx.norm v ∧ 0 < Cx.norm v := by
  have hn := normSq_pos hv
  have h1 : Cx.mul (Cx.divE u v) v = u := by
    have hn' : v.re ^ 2 + v.im ^ 2 ≠ 0 := by rw [pow_two, pow_two]; exact hn.ne'
    unfold Cx.divE Cx.mul Cx.norm
    apply cx_ext
    · simp only; field_simp; ring
    · simp only; field_simp; ring
  refine ⟨by rw [div_eq_divE hv]; exact h1, h1, ?_, ?_, ?_, ?_, hn⟩
  · unfold Cx.rDiv Cx.div
    by_cases h : |v.re| < |v.im|
    · rw [if_pos h, if_pos h]; simp
    · rw [if_neg h, if_neg h]; simp
  · unfold Cx.rDivE Cx.divE Cx.norm
    apply cx_ext
    · simp [div_eq_mul_inv]
    · simp [div_eq_mul_inv]
  · unfold Cx.mulSelf Cx.mul
    apply cx_ext
    · rfl
    · simp only; ring
  · unfold Cx.normT Cx.norm
    by_cases h : |v.re| < |v.im|
    · have him : v.im ≠ 0 := by
        intro h0; rw [h0, abs_zero] at h; exact absurd (abs_nonneg v.re) (not_le.2 h)
      rw [if_pos h]; field_simp; ring
    · have hre : v.re ≠ 0 := by
        intro h0
        rw [h0, abs_zero, abs_pos, not_not] at h
        exact hv (cx_ext h0 h)
      rw [if_neg h]; field_simp

example : Cx.div (⟨1, 2⟩ : Cx ℚ) ⟨3, -4⟩ = ⟨-1 / 5, 2 / 5⟩ ∧ Cx.divE (⟨1, 2⟩ : Cx ℚ) ⟨3, -4⟩ = ⟨-1 / 5, 2 / 5⟩ := by
  constructor
  · unfold Cx.div; norm_num [abs_of_neg, abs_of_pos]
  · unfold Cx.divE Cx.norm; norm_num

/-- C42 refuted for `conj`: the function multiplies by the imaginary unit; neither the imaginary part is negated nor is
`z * conj(z)` the norm.  (`proj` differs from the function of the C++ standard too, which returns finite arguments.) -/
theorem C42_conj_refuted : (∀ z : Cx K, Cx.conj z = Cx.mul ⟨0, 1⟩ z) ∧
    ∃ z : Cx K, Cx.conj z ≠ ⟨z.re, -z.im⟩ ∧ Cx.mul z (Cx.conj z) ≠ ⟨Cx.norm z, 0⟩ ∧ Cx.proj z ≠ z := by
  refine ⟨fun z => ?_, ⟨2, 0⟩, ?_, ?_, ?_⟩
  · unfold Cx.conj Cx.mul; simp
  · unfold Cx.conj; simp
  · unfold Cx.conj Cx.mul Cx.norm; simp
  · unfold Cx.proj Cx.normT; norm_num

end Arith

/-! ## Against the complex numbers of Mathlib -/

noncomputable section

/-- The complex number represented. -/
def toC (z : Cx ℝ) : ℂ := ⟨z.re, z.im⟩

theorem toC_inj {u v : Cx ℝ} (h : toC u = toC v) : u = v := by
  unfold toC at h
  rw [Complex.mk.injEq] at h
  exact cx_ext h.1 h.2

theorem toC_ne {v : Cx ℝ} (h : toC v ≠ 0) : v ≠ ⟨0, 0⟩ := by
  rintro rfl
  exact h rfl

theorem toC_add (u v : Cx ℝ) : toC (Cx.add u v) = toC u + toC v := rfl
theorem toC_sub (u v : Cx ℝ) : toC (Cx.sub u v) = toC u - toC v := rfl
theorem toC_neg (u : Cx ℝ) : toC (Cx.neg u) = -toC u := rfl
theorem toC_mul (u v : Cx ℝ) : toC (Cx.mul u v) = toC u * toC v := by
  apply Complex.ext
  · simp [toC, Cx.mul]
  · simp [toC, Cx.mul]
theorem toC_div (u v : Cx ℝ) (h : toC v ≠ 0) : toC (Cx.div u v) = toC u / toC v := by
  rw [eq_div_iff h, ← toC_mul, (C42_field u v 0 (toC_ne h)).1]
theorem toC_divE (u v : Cx ℝ) (h : toC v ≠ 0) : toC (Cx.divE u v) = toC u / toC v := by
  rw [← div_eq_divE (toC_ne h), toC_div u v h]
theorem toC_addR (u : Cx ℝ) (x : ℝ) : toC (Cx.addR u x) = toC u + x := by apply Complex.ext <;> simp [toC, Cx.addR]
theorem toC_subR (u : Cx ℝ) (x : ℝ) : toC (Cx.subR u x) = toC u - x := by apply Complex.ext <;> simp [toC, Cx.subR]
theorem toC_mulR (u : Cx ℝ) (x : ℝ) : toC (Cx.mulR u x) = toC u * x := by apply Complex.ext <;> simp [toC, Cx.mulR]
theorem toC_divR (u : Cx ℝ) (x : ℝ) : toC (Cx.divR u x) = toC u / x := by apply Complex.ext <;> simp [toC, Cx.divR]
theorem toC_rAdd (u : Cx ℝ) (x : ℝ) : toC (Cx.rAdd x u) = x + toC u := by apply Complex.ext <;> simp [toC, Cx.rAdd]
theorem toC_rSub (u : Cx ℝ) (x : ℝ) : toC (Cx.rSub x u) = x - toC u := by apply Complex.ext <;> simp [toC, Cx.rSub]
theorem toC_rMul (u : Cx ℝ) (x : ℝ) : toC (Cx.rMul x u) = x * toC u := by apply Complex.ext <;> simp [toC, Cx.rMul]
theorem toC_conj (u : Cx ℝ) : toC (Cx.conj u) = Complex.I * toC u := by apply Complex.ext <;> simp [toC, Cx.conj]

theorem norm_eq (z : Cx ℝ) : Cx.norm z = ‖toC z‖ ^ 2 := by
  rw [← Complex.normSq_eq_norm_sq, Complex.normSq_apply]; rfl

/-- C42.  With exact real components all operators of the class are the operations of the field of complex numbers;
`norm` is the squared modulus. -/
theorem C42_complex (u v : Cx ℝ) (x : ℝ) :
    toC (Cx.add u v) = toC u + toC v ∧ toC (Cx.sub u v) = toC u - toC v ∧ toC (Cx.neg u) = -toC u ∧
    toC (Cx.mul u v) = toC u * toC v ∧ toC (Cx.mulSelf u) = toC u ^ 2 ∧
    (toC v ≠ 0 → toC (Cx.div u v) = toC u / toC v ∧ toC (Cx.divE u v) = toC u / toC v ∧
      toC (Cx.rDiv x v) = x / toC v ∧ toC (Cx.rDivE x v) = x / toC v ∧ Cx.normT v = ‖toC v‖ ^ 2) ∧
    toC (Cx.addR u x) = toC u + x ∧ toC (Cx.subR u x) = toC u - x ∧ toC (Cx.mulR u x) = toC u * x ∧
    toC (Cx.divR u x) = toC u / x ∧ toC (Cx.rAdd x u) = x + toC u ∧ toC (Cx.rSub x u) = x - toC u ∧
    toC (Cx.rMul x u) = x * toC u ∧ Cx.norm u = ‖toC u‖ ^ 2 ∧ Cx.abs u = ‖toC u‖ ∧ Cx.arg u = (toC u).arg := by
  have hx : toC ⟨x, 0⟩ = x := rfl
  refine ⟨toC_add u v, toC_sub u v, toC_neg u, toC_mul u v, ?_, ?_, toC_addR u x, toC_subR u x, toC_mulR u x, toC_divR u x,
    toC_rAdd u x, toC_rSub u x, toC_rMul u x, norm_eq u, ?_, rfl⟩
  · rw [show Cx.mulSelf u = Cx.mul u u from cx_ext rfl (by unfold Cx.mulSelf Cx.mul; ring), toC_mul, pow_two]
  · intro h
    obtain ⟨h1, h2, h3, h4, h5, h6, h7⟩ := C42_field u v x (toC_ne h)
    exact ⟨toC_div u v h, toC_divE u v h, by rw [h3, toC_div _ v h, hx], by rw [h4, toC_divE _ v h, hx], by rw [h6, norm_eq]⟩
  · unfold Cx.abs; rw [norm_eq, Real.sqrt_sq (norm_nonneg _)]

/-! ## C55 elementary functions -/

theorem toC_exp (z : Cx ℝ) : toC (Cx.exp z) = Complex.exp (toC z) := by
  apply Complex.ext
  · rw [Complex.exp_re]; simp [toC, Cx.exp, Cx.mulR, mul_comm]
  · rw [Complex.exp_im]; simp [toC, Cx.exp, Cx.mulR, mul_comm]

theorem toC_eq (z : Cx ℝ) : toC z = z.re + z.im * Complex.I := by apply Complex.ext <;> simp [toC]

theorem toC_cos (z : Cx ℝ) : toC (Cx.cos z) = Complex.cos (toC z) := by
  rw [Complex.cos_eq (toC z), toC_eq (Cx.cos z)]
  unfold Cx.cos toC
  push_cast
  ring

theorem toC_sin (z : Cx ℝ) : toC (Cx.sin z) = Complex.sin (toC z) := by
  rw [Complex.sin_eq (toC z), toC_eq (Cx.sin z)]
  unfold Cx.sin toC
  push_cast
  ring

theorem toC_cosh (z : Cx ℝ) : toC (Cx.cosh z) = Complex.cosh (toC z) := by
  rw [toC_eq z, Complex.cosh_add, Complex.cosh_mul_I, Complex.sinh_mul_I, toC_eq (Cx.cosh z)]
  unfold Cx.cosh
  push_cast
  ring

theorem toC_sinh (z : Cx ℝ) : toC (Cx.sinh z) = Complex.sinh (toC z) := by
  rw [toC_eq z, Complex.sinh_add, Complex.cosh_mul_I, Complex.sinh_mul_I, toC_eq (Cx.sinh z)]
  unfold Cx.sinh
  push_cast
  ring

theorem toC_log (z : Cx ℝ) : toC (Cx.log z) = Complex.log (toC z) := by
  apply Complex.ext
  · rw [Complex.log_re]
    show Real.log (Cx.norm z) / 2 = _
    rw [norm_eq, Real.log_pow]; push_cast; ring
  · rw [Complex.log_im]; rfl

/-- The square root: its square is the argument and it lies in the right half plane. -/
theorem toC_sqrt (z : Cx ℝ) (hz : toC z ≠ 0) : toC (Cx.sqrt z) ^ 2 = toC z ∧
    (0 < (toC (Cx.sqrt z)).re ∨ (toC (Cx.sqrt z)).re = 0 ∧ 0 < (toC (Cx.sqrt z)).im) := by
  obtain ⟨r, hr⟩ : ∃ r, r = ‖toC z‖ := ⟨_, rfl⟩
  have hr0 : 0 < r := by rw [hr]; exact norm_pos_iff.2 hz
  have habs : Cx.abs z = r := by unfold Cx.abs; rw [norm_eq, Real.sqrt_sq (norm_nonneg _), hr]
  have hr2 : r ^ 2 = z.re * z.re + z.im * z.im := by rw [hr, ← norm_eq]; rfl
  unfold Cx.sqrt
  simp only [habs]
  by_cases h : z.re < 0
  · simp only [h, not_true_eq_false, if_false]
    obtain ⟨s, hs⟩ : ∃ s, s = Real.sqrt ((-z.re + r) / 2) := ⟨_, rfl⟩
    have hpos : 0 < (-z.re + r) / 2 := by linarith
    have hs0 : 0 < s := by rw [hs]; exact Real.sqrt_pos.2 hpos
    have hs2 : s * s = (-z.re + r) / 2 := by rw [hs]; exact Real.mul_self_sqrt hpos.le
    rw [← hs]
    have key : z.im * z.im = (s * 2) * (s * 2) * (s * s + z.re) := by
      have e : (s * 2) * (s * 2) * (s * s + z.re) = 4 * (s * s) * (s * s + z.re) := by ring
      rw [e, hs2]; nlinarith
    have hs22 : s * 2 ≠ 0 := by positivity
    by_cases hi : z.im < 0
    · simp only [hi, not_true_eq_false, if_false]
      constructor
      · apply Complex.ext
        · simp only [toC, pow_two, Complex.mul_re]
          field_simp
          nlinarith
        · simp only [toC, pow_two, Complex.mul_im]
          field_simp
          ring
      · left; simp only [toC]; apply div_pos <;> linarith
    · simp only [hi, not_false_eq_true, if_true]
      constructor
      · apply Complex.ext
        · simp only [toC, pow_two, Complex.mul_re]
          field_simp
          nlinarith
        · simp only [toC, pow_two, Complex.mul_im]
          field_simp
          ring
      · simp only [toC]
        rcases lt_or_eq_of_le (not_lt.1 hi) with h0 | h0
        · left; positivity
        · right; exact ⟨by rw [← h0, zero_div], hs0⟩
  · simp only [h, not_false_eq_true, if_true]
    obtain ⟨s, hs⟩ : ∃ s, s = Real.sqrt ((z.re + r) / 2) := ⟨_, rfl⟩
    have hpos : 0 < (z.re + r) / 2 := by have := not_lt.1 h; linarith
    have hs0 : 0 < s := by rw [hs]; exact Real.sqrt_pos.2 hpos
    have hs2 : s * s = (z.re + r) / 2 := by rw [hs]; exact Real.mul_self_sqrt hpos.le
    rw [← hs]
    have key : z.im * z.im = (s * 2) * (s * 2) * (s * s - z.re) := by
      have e : (s * 2) * (s * 2) * (s * s - z.re) = 4 * (s * s) * (s * s - z.re) := by ring
      rw [e, hs2]; nlinarith
    have hs22 : s * 2 ≠ 0 := by positivity
    constructor
    · apply Complex.ext
      · simp only [toC, pow_two, Complex.mul_re]
        field_simp
        nlinarith
      · simp only [toC, pow_two, Complex.mul_im]
        field_simp
        ring
    · left; exact hs0

theorem toC_pow_nat (z : Cx ℝ) (p : ℕ) : toC (pownNat ⟨1, 0⟩ Cx.mul z p) = toC z ^ p := by
  have loop : ∀ p2 (tn r : Cx ℝ), toC (pownLoop Cx.mul p2 tn r) = pownLoop (· * ·) p2 (toC tn) (toC r) := by
    intro p2
    induction p2 using Nat.strong_induction_on with
    | _ p2 ih =>
      intro tn r
      conv_lhs => rw [pownLoop]
      conv_rhs => rw [pownLoop]
      by_cases h : p2 / 2 = 0
      · rw [dif_pos h, dif_pos h]
      · rw [dif_neg h, dif_neg h]
        simp only
        rw [ih (p2 / 2) (by omega), toC_mul]
        congr 1
        by_cases h2 : p2 / 2 % 2 ≠ 0
        · rw [if_pos h2, if_pos h2, toC_mul, toC_mul]
        · rw [if_neg h2, if_neg h2]
  rw [← pownNat_spec]
  have one : toC ⟨1, 0⟩ = 1 := rfl
  unfold pownNat
  simp only [apply_ite toC, toC_mul, loop, one]

/-- C55.  With exact real component functions the elementary functions of the class are the complex functions: `exp`,
`log` (principal value), `log10`, `sin`, `cos`, `sinh`, `cosh`, `tan`, `tanh`, `polar`, the powers, and `sqrt` is the
square root in the right half plane. -/
theorem C55_functions (z a : Cx ℝ) (x t : ℝ) (p : ℤ) :
    toC (Cx.exp z) = Complex.exp (toC z) ∧ toC (Cx.log z) = Complex.log (toC z) ∧
    toC (Cx.log10 z) = Complex.log (toC z) / Complex.log 10 ∧
    toC (Cx.sin z) = Complex.sin (toC z) ∧ toC (Cx.cos z) = Complex.cos (toC z) ∧
    toC (Cx.sinh z) = Complex.sinh (toC z) ∧ toC (Cx.cosh z) = Complex.cosh (toC z) ∧
    (Complex.cos (toC z) ≠ 0 → toC (Cx.tan z) = Complex.tan (toC z)) ∧
    (Complex.cosh (toC z) ≠ 0 → toC (Cx.tanh z) = Complex.tanh (toC z)) ∧
    toC (Cx.polar x t) = x * Complex.exp (t * Complex.I) ∧
    (toC z ≠ 0 → toC (Cx.pow z a) = toC z ^ toC a ∧ toC (Cx.powR z x) = toC z ^ (x : ℂ) ∧
      toC (Cx.powInt (Cx.rDiv 1) z p) = toC z ^ p ∧ toC (Cx.powInt (Cx.rDivE 1) z p) = toC z ^ p ∧
      toC (Cx.sqrt z) = toC z ^ (1 / 2 : ℂ)) ∧
    (0 < x → toC (Cx.rPow x a) = (x : ℂ) ^ toC a) := by
  refine ⟨toC_exp z, toC_log z, ?_, toC_sin z, toC_cos z, toC_sinh z, toC_cosh z, ?_, ?_, ?_, ?_, ?_⟩
  · unfold Cx.log10
    rw [toC_divR, toC_log, Complex.ofReal_log (by norm_num)]
    norm_num
  · intro h
    unfold Cx.tan
    rw [toC_div _ _ (by rw [toC_cos]; exact h), toC_sin, toC_cos, Complex.tan_eq_sin_div_cos]
  · intro h
    unfold Cx.tanh
    rw [toC_div _ _ (by rw [toC_cosh]; exact h), toC_sinh, toC_cosh, Complex.tanh_eq_sinh_div_cosh]
  · rw [Complex.exp_mul_I]
    apply Complex.ext <;> simp [toC, Cx.polar, ← Complex.ofReal_cos, ← Complex.ofReal_sin]
  · intro hz
    refine ⟨?_, ?_, ?_, ?_, ?_⟩
    · unfold Cx.pow
      rw [toC_exp, toC_mul, toC_log, Complex.cpow_def_of_ne_zero hz, mul_comm]
    · unfold Cx.powR
      rw [toC_exp, toC_rMul, toC_log, Complex.cpow_def_of_ne_zero hz, mul_comm]
    · unfold Cx.powInt
      by_cases hp : p < 0
      · rw [if_pos hp]
        have hne : toC (pownNat ⟨1, 0⟩ Cx.mul z p.natAbs) ≠ 0 := by rw [toC_pow_nat]; exact pow_ne_zero _ hz
        rw [((C42_complex z _ 1).2.2.2.2.2.1 hne).2.2.1, toC_pow_nat]
        conv_rhs => rw [show p = -(p.natAbs : ℤ) by omega]
        rw [zpow_neg, zpow_natCast, Complex.ofReal_one, one_div]
      · rw [if_neg hp, toC_pow_nat]
        conv_rhs => rw [show p = (p.natAbs : ℤ) by omega]
        rw [zpow_natCast]
    · unfold Cx.powInt
      by_cases hp : p < 0
      · rw [if_pos hp]
        have hne : toC (pownNat ⟨1, 0⟩ Cx.mul z p.natAbs) ≠ 0 := by rw [toC_pow_nat]; exact pow_ne_zero _ hz
        rw [((C42_complex z _ 1).2.2.2.2.2.1 hne).2.2.2.1, toC_pow_nat]
        conv_rhs => rw [show p = -(p.natAbs : ℤ) by omega]
        rw [zpow_neg, zpow_natCast, Complex.ofReal_one, one_div]
      · rw [if_neg hp, toC_pow_nat]
        conv_rhs => rw [show p = (p.natAbs : ℤ) by omega]
        rw [zpow_natCast]
    · obtain ⟨h1, h2⟩ := toC_sqrt z hz
      rw [one_div]
      conv_rhs => rw [← h1]
      rcases h2 with h2 | ⟨h2, h3⟩
      · exact (Complex.sq_cpow_two_inv h2).symm
      · have harg : (toC (Cx.sqrt z)).arg = Real.pi / 2 := Complex.arg_eq_pi_div_two_iff.2 ⟨h2, h3⟩
        have hpi := Real.pi_pos
        exact (Complex.pow_cpow_ofNat_inv (n := 2) (by rw [harg]; linarith) (by rw [harg])).symm
  · intro hx
    unfold Cx.rPow
    rw [toC_exp, toC_mulR, Complex.cpow_def_of_ne_zero (by exact_mod_cast hx.ne'), Complex.ofReal_log hx.le, mul_comm]

/-! ## C56 inverse functions -/

theorem toC_asin (z : Cx ℝ) (h : toC z ^ 2 ≠ 1) : ∃ s : ℂ, s ^ 2 = 1 - toC z ^ 2 ∧
    toC (Cx.asin z) = -(Complex.I * Complex.log (Complex.I * toC z + s)) := by
  have e : toC (Cx.rSub 1 (Cx.mul z z)) = 1 - toC z ^ 2 := by rw [toC_rSub, toC_mul, Complex.ofReal_one, pow_two]
  refine ⟨toC (Cx.sqrt (Cx.rSub 1 (Cx.mul z z))), ?_, ?_⟩
  · rw [(toC_sqrt _ (by rw [e]; exact sub_ne_zero.2 (Ne.symm h))).1, e]
  · unfold Cx.asin
    rw [toC_neg, toC_conj, toC_log, toC_add, toC_conj]

/-- C56.  With exact real component functions the inverse functions of the class are right inverses of the complex
functions.  The excluded arguments are those at which the code takes the square root of zero, a logarithm of zero or
divides by zero. -/
theorem C56_inverse (z : Cx ℝ) :
    (toC z ^ 2 ≠ 1 → Complex.sin (toC (Cx.asin z)) = toC z ∧ Complex.cos (toC (Cx.acos z)) = toC z ∧
      Complex.cosh (toC (Cx.acosh z)) = toC z ∧ Complex.tanh (toC (Cx.atanh z)) = toC z) ∧
    (toC z ^ 2 ≠ -1 → Complex.sinh (toC (Cx.asinh z)) = toC z ∧ Complex.tan (toC (Cx.atan z)) = toC z) := by
  obtain ⟨w, hw⟩ : ∃ w, w = toC z := ⟨_, rfl⟩
  have hI := Complex.I_mul_I
  constructor
  · intro h
    have hsin : Complex.sin (toC (Cx.asin z)) = toC z := by
      obtain ⟨s, hs, e⟩ := toC_asin z h
      rw [e, ← hw]
      rw [← hw] at hs
      obtain ⟨a, ha⟩ : ∃ a, a = Complex.I * w + s := ⟨_, rfl⟩
      have hprod : a * (s - Complex.I * w) = 1 := by rw [ha]; linear_combination hs - w ^ 2 * hI
      have ha0 : a ≠ 0 := left_ne_zero_of_mul_eq_one hprod
      have hinv : a⁻¹ = s - Complex.I * w := by rw [inv_eq_iff_eq_inv]; exact eq_inv_of_mul_eq_one_left hprod
      rw [← ha]
      unfold Complex.sin
      have e1 : -(-(Complex.I * Complex.log a)) * Complex.I = -Complex.log a := by linear_combination Complex.log a * hI
      have e2 : -(Complex.I * Complex.log a) * Complex.I = Complex.log a := by linear_combination -Complex.log a * hI
      rw [e1, e2, Complex.exp_neg, Complex.exp_log ha0, hinv, ha]
      linear_combination -w * hI
    refine ⟨hsin, ?_, ?_, ?_⟩
    · unfold Cx.acos
      rw [toC_rSub]
      push_cast
      rw [Complex.cos_pi_div_two_sub, hsin]
    · have hp : toC (Cx.addR z 1) = w + 1 := by rw [toC_addR, hw]; push_cast; rfl
      have hm : toC (Cx.subR z 1) = w - 1 := by rw [toC_subR, hw]; push_cast; rfl
      rw [← hw] at h
      have h1 : w + 1 ≠ 0 := by intro h0; apply h; rw [eq_neg_of_add_eq_zero_left h0]; ring
      have h2 : w - 1 ≠ 0 := by intro h0; apply h; rw [sub_eq_zero.1 h0]; ring
      have hq : toC (Cx.div (Cx.subR z 1) (Cx.addR z 1)) = (w - 1) / (w + 1) := by
        rw [toC_div _ _ (by rw [hp]; exact h1), hp, hm]
      have hs := (toC_sqrt (Cx.div (Cx.subR z 1) (Cx.addR z 1)) (by rw [hq]; exact div_ne_zero h2 h1)).1
      rw [hq] at hs
      unfold Cx.acosh
      simp only
      rw [toC_log, toC_add, toC_mul, hp, ← hw]
      obtain ⟨s, hsd⟩ : ∃ s, s = toC (Cx.sqrt (Cx.div (Cx.subR z 1) (Cx.addR z 1))) := ⟨_, rfl⟩
      rw [← hsd] at hs ⊢
      have hr2 : ((w + 1) * s) ^ 2 = w ^ 2 - 1 := by
        rw [mul_pow, hs]; field_simp; ring
      obtain ⟨r, hr⟩ : ∃ r, r = (w + 1) * s := ⟨_, rfl⟩
      rw [← hr] at hr2 ⊢
      have hprod : (w + r) * (w - r) = 1 := by linear_combination -hr2
      have ha0 : w + r ≠ 0 := left_ne_zero_of_mul_eq_one hprod
      have hinv : (w + r)⁻¹ = w - r := by rw [inv_eq_iff_eq_inv]; exact eq_inv_of_mul_eq_one_left hprod
      unfold Complex.cosh
      rw [Complex.exp_neg, Complex.exp_log ha0, hinv]
      ring
    · have hp : toC (Cx.rAdd 1 z) = 1 + w := by rw [toC_rAdd, hw]; push_cast; rfl
      have hm : toC (Cx.rSub 1 z) = 1 - w := by rw [toC_rSub, hw]; push_cast; rfl
      rw [← hw] at h ⊢
      have h1 : 1 + w ≠ 0 := by intro h0; apply h; rw [eq_neg_of_add_eq_zero_right h0]; ring
      have h2 : 1 - w ≠ 0 := by intro h0; apply h; rw [← sub_eq_zero.1 h0]; ring
      unfold Cx.atanh
      rw [toC_divR, toC_sub, toC_log, toC_log, hp, hm]
      obtain ⟨a, ha⟩ : ∃ a, a = (Complex.log (1 + w) - Complex.log (1 - w)) / ((2 : ℝ) : ℂ) := ⟨_, rfl⟩
      rw [← ha]
      have h2a : Complex.exp a * Complex.exp a * (1 - w) = 1 + w := by
        have e : a + a = Complex.log (1 + w) - Complex.log (1 - w) := by rw [ha]; push_cast; ring
        rw [← Complex.exp_add, e, Complex.exp_sub, Complex.exp_log h1, Complex.exp_log h2]
        field_simp
      have he := Complex.exp_ne_zero a
      obtain ⟨E, hE⟩ : ∃ E, E = Complex.exp a := ⟨_, rfl⟩
      rw [Complex.tanh_eq_sinh_div_cosh]
      unfold Complex.sinh Complex.cosh
      rw [Complex.exp_neg, ← hE]
      rw [← hE] at he h2a
      have hsum : (E + E⁻¹) * (E * (1 - w)) = 2 := by
        have : (E + E⁻¹) * (E * (1 - w)) = E * E * (1 - w) + E⁻¹ * E * (1 - w) := by ring
        rw [this, h2a, inv_mul_cancel₀ he]; ring
      have hsum0 : (E + E⁻¹) ≠ 0 := by intro h0; rw [h0, zero_mul] at hsum; norm_num at hsum
      have hdif : (E - E⁻¹) * (E * (1 - w)) = 2 * w := by
        have : (E - E⁻¹) * (E * (1 - w)) = E * E * (1 - w) - E⁻¹ * E * (1 - w) := by ring
        rw [this, h2a, inv_mul_cancel₀ he]; ring
      rw [div_div_div_cancel_right₀ (by norm_num), div_eq_iff hsum0]
      have hne : E * (1 - w) ≠ 0 := mul_ne_zero he h2
      apply mul_right_cancel₀ hne
      rw [hdif, mul_assoc, hsum]; ring
  · intro h
    rw [← hw] at h ⊢
    constructor
    · have e : toC (Cx.rAdd 1 (Cx.mul z z)) = 1 + w ^ 2 := by rw [toC_rAdd, toC_mul, ← hw, Complex.ofReal_one, pow_two]
      have hne : 1 + w ^ 2 ≠ 0 := by intro h0; exact h (eq_neg_of_add_eq_zero_right h0)
      have hs := (toC_sqrt _ (by rw [e]; exact hne)).1
      rw [e] at hs
      unfold Cx.asinh
      rw [toC_log, toC_add, ← hw]
      obtain ⟨s, hsd⟩ : ∃ s, s = toC (Cx.sqrt (Cx.rAdd 1 (Cx.mul z z))) := ⟨_, rfl⟩
      rw [← hsd] at hs ⊢
      have hprod : (w + s) * (s - w) = 1 := by linear_combination hs
      have ha0 : w + s ≠ 0 := left_ne_zero_of_mul_eq_one hprod
      have hinv : (w + s)⁻¹ = s - w := by rw [inv_eq_iff_eq_inv]; exact eq_inv_of_mul_eq_one_left hprod
      unfold Complex.sinh
      rw [Complex.exp_neg, Complex.exp_log ha0, hinv]
      ring
    · have hp : toC (Cx.rAdd 1 (Cx.conj z)) = 1 + Complex.I * w := by rw [toC_rAdd, toC_conj, hw]; push_cast; rfl
      have hm : toC (Cx.rSub 1 (Cx.conj z)) = 1 - Complex.I * w := by rw [toC_rSub, toC_conj, hw]; push_cast; rfl
      have hprod0 : (1 + Complex.I * w) * (1 - Complex.I * w) ≠ 0 := by
        have : (1 + Complex.I * w) * (1 - Complex.I * w) = 1 + w ^ 2 := by linear_combination -w ^ 2 * hI
        rw [this]; intro h0; exact h (eq_neg_of_add_eq_zero_right h0)
      have h1 := left_ne_zero_of_mul hprod0
      have h2 := right_ne_zero_of_mul hprod0
      unfold Cx.atan
      simp only
      rw [toC_divR, toC_conj, toC_sub, toC_log, toC_log, hp, hm]
      obtain ⟨a, ha⟩ : ∃ a, a = Complex.I * (Complex.log (1 - Complex.I * w) - Complex.log (1 + Complex.I * w)) / ((2 : ℝ) : ℂ) := ⟨_, rfl⟩
      rw [← ha]
      have h2a : Complex.exp (a * Complex.I) * Complex.exp (a * Complex.I) * (1 - Complex.I * w) = 1 + Complex.I * w := by
        have e : a * Complex.I + a * Complex.I = Complex.log (1 + Complex.I * w) - Complex.log (1 - Complex.I * w) := by
          rw [ha]; push_cast
          linear_combination (Complex.log (1 - Complex.I * w) - Complex.log (1 + Complex.I * w)) * hI
        rw [← Complex.exp_add, e, Complex.exp_sub, Complex.exp_log h1, Complex.exp_log h2]
        field_simp
      have he := Complex.exp_ne_zero (a * Complex.I)
      obtain ⟨E, hE⟩ : ∃ E, E = Complex.exp (a * Complex.I) := ⟨_, rfl⟩
      rw [Complex.tan_eq_sin_div_cos]
      unfold Complex.sin Complex.cos
      rw [neg_mul, Complex.exp_neg, ← hE]
      rw [← hE] at he h2a
      have hsum : (E + E⁻¹) * (E * (1 - Complex.I * w)) = 2 := by
        have : (E + E⁻¹) * (E * (1 - Complex.I * w)) = E * E * (1 - Complex.I * w) + E⁻¹ * E * (1 - Complex.I * w) := by ring
        rw [this, h2a, inv_mul_cancel₀ he]; ring
      have hsum0 : (E + E⁻¹) ≠ 0 := by intro h0; rw [h0, zero_mul] at hsum; norm_num at hsum
      have hdif : (E⁻¹ - E) * (E * (1 - Complex.I * w)) = -(2 * Complex.I * w) := by
        have : (E⁻¹ - E) * (E * (1 - Complex.I * w)) = E⁻¹ * E * (1 - Complex.I * w) - E * E * (1 - Complex.I * w) := by ring
        rw [this, h2a, inv_mul_cancel₀ he]; ring
      rw [div_div_div_cancel_right₀ (by norm_num), div_eq_iff hsum0]
      have hne : E * (1 - Complex.I * w) ≠ 0 := mul_ne_zero he h2
      apply mul_right_cancel₀ hne
      rw [mul_assoc w, hsum]
      linear_combination Complex.I * hdif - 2 * w * hI

/-- Arguments on and off the axes are covered. -/
example : Complex.sin (toC (Cx.asin ⟨3, 0⟩)) = 3 ∧ Complex.tan (toC (Cx.atan ⟨0, 5⟩)) = 5 * Complex.I := by
  have e3 : toC ⟨3, 0⟩ = 3 := rfl
  have e5 : toC ⟨0, 5⟩ = 5 * Complex.I := by apply Complex.ext <;> simp [toC]
  constructor
  · rw [((C56_inverse ⟨3, 0⟩).1 (by rw [e3]; norm_num)).1, e3]
  · rw [((C56_inverse ⟨0, 5⟩).2 (by rw [e5, mul_pow, Complex.I_sq]; norm_num)).2, e5]

end

end EFX.Props
