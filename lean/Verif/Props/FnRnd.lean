import Verif.Lemmas.RndFn
import Verif.Props.TrigRnd
/-!
# C91 - C93: integer powers, hyperbolic functions and the quotients of sine and cosine, with all rounding
-/

namespace EFX.Props
open EFX EFX.Spec

theorem eu_mul (c : Cfg) (t : ℝ) : eu c * t = t / 10 ^ (c.digits10 + 1) := by
  rw [eu_inv, div_mul_eq_mul_div, one_mul]

/-- C91.  With up to 1000 digits, both integer power functions (`pown`, and `pow` with an integer exponent) of every
number `x` of full working precision with `10^-K ≤ |x| ≤ 10^K` and every exponent `p` with `|p| K ≤ 8 10^8` and
`|p| ≤ 10^9` return a valid number of full working precision within `(2 + |p|/1000) 10^-(D+1)` of `x^p`, relatively.

Missing: results beyond `10^(±8 10^8)`, more digits, reduced precision. -/
theorem C91_integer_powers_partial {c : Cfg} (hc : c.digits10 ≤ 1000) (T : Tables) {x : EFloat} (hx : FinWF c x)
    (hp : x.prec = c.elems) {K : ℕ} (h1 : (10 : ℝ) ^ (-(K : ℤ)) ≤ |((val x : ℚ) : ℝ)|)
    (h2 : |((val x : ℚ) : ℝ)| ≤ (10 : ℝ) ^ (K : ℤ)) {p : ℤ} (hK : |p| * K ≤ 800000000) (hq : |p| ≤ 10 ^ 9) {r : EFloat}
    (hr : r = Fn.pown (efArith c T) x p ∨ r = Fn.powI (efArith c T) x p) :
    FinWF c r ∧ r.prec = c.elems ∧
    |((val r : ℚ) : ℝ) - ((val x : ℚ) : ℝ) ^ p| ≤
      (2 + |(p : ℝ)| / 1000) / 10 ^ (c.digits10 + 1) * |((val x : ℚ) : ℝ) ^ p| := by
  have R := rnd_efloat (elems_small hc) T
  have s : Sz K (rv x) := ⟨h1, h2⟩
  have key : Full c r ∧ NearR (eu c * (2 + |(p : ℝ)| / 1000)) (rv r) (rv x ^ p) := by
    rcases hr with rfl | rfl
    · exact R.pown_acc (x := x) ⟨hx, hp⟩ (by positivity) s hK hq
    · exact R.powI_acc (x := x) ⟨hx, hp⟩ (by positivity) s hK hq
  obtain ⟨f, e⟩ := key
  rw [eu_mul] at e
  exact ⟨f.1, f.2, e⟩

/-- `(-12345679.25)^-1000001` at 101 digits. -/
example : |((val (Fn.powI (efArith cfg101 (stdTables cfg101)) exC (-1000001)) : ℚ) : ℝ) - ((val exC : ℚ) : ℝ) ^ (-1000001 : ℤ)| ≤
    (2 + |((-1000001 : ℤ) : ℝ)| / 1000) / 10 ^ (cfg101.digits10 + 1) * |((val exC : ℚ) : ℝ) ^ (-1000001 : ℤ)| := by
  refine (C91_integer_powers_partial (K := 8) (by decide) (stdTables cfg101) exC_fin rfl ?_ ?_ (by norm_num) (by norm_num)
    (Or.inr rfl)).2.2
  · have h : (1 : ℚ) ≤ |val exC| := by decide +kernel
    have h1 : (1 : ℝ) ≤ |((val exC : ℚ) : ℝ)| := by exact_mod_cast h
    refine le_trans ?_ h1
    exact zpow_le_one_of_nonpos₀ (by norm_num) (by norm_num)
  · have h : |val exC| ≤ 10 ^ 8 := by decide +kernel
    exact_mod_cast h

/-- C92.  With up to 1000 digits, the library's constants, and `1/ln 2` not rounded upwards (as in C89), the computed
hyperbolic sine, cosine and tangent of every number `x` of full working precision with `|x| ≤ 10^8` are valid numbers of
full working precision; sine and cosine are within `(1010 + 2|x|) 10^-(D+1) cosh x`, the tangent within
`(3200 + 7|x|) 10^-(D+1)` of the exact values.

Missing: larger arguments, more digits, reduced precision. -/
theorem C92_hyperbolic_partial {c : Cfg} (hc : c.digits10 ≤ 1000) {T : Tables} (hT : StdTables c T) (hb : RecipBelow c T.ln2)
    {x : EFloat} (hx : FinWF c x) (hp : x.prec = c.elems) (h : |val x| ≤ 10 ^ 8) :
    (FinWF c (Fn.sinh (efArith c T) x) ∧ (Fn.sinh (efArith c T) x).prec = c.elems ∧
      |((val (Fn.sinh (efArith c T) x) : ℚ) : ℝ) - Real.sinh ((val x : ℚ) : ℝ)| ≤
        (1010 + 2 * |((val x : ℚ) : ℝ)|) / 10 ^ (c.digits10 + 1) * Real.cosh ((val x : ℚ) : ℝ)) ∧
    (FinWF c (Fn.cosh (efArith c T) x) ∧ (Fn.cosh (efArith c T) x).prec = c.elems ∧
      |((val (Fn.cosh (efArith c T) x) : ℚ) : ℝ) - Real.cosh ((val x : ℚ) : ℝ)| ≤
        (1010 + 2 * |((val x : ℚ) : ℝ)|) / 10 ^ (c.digits10 + 1) * Real.cosh ((val x : ℚ) : ℝ)) ∧
    (FinWF c (Fn.tanh (efArith c T) x) ∧ (Fn.tanh (efArith c T) x).prec = c.elems ∧
      |((val (Fn.tanh (efArith c T) x) : ℚ) : ℝ) - Real.tanh ((val x : ℚ) : ℝ)| ≤
        (3200 + 7 * |((val x : ℚ) : ℝ)|) / 10 ^ (c.digits10 + 1)) := by
  have hr : |rv x| ≤ 10 ^ 8 := by
    rw [rv_abs]; exact_mod_cast h
  have R := rnd_efloat (elems_small hc) T
  obtain ⟨a, b, d, e⟩ := R.sinh_acc (expEnv hc hT hb) (x := x) ⟨hx, hp⟩ hr
  obtain ⟨f, g⟩ := R.tanh_acc (expEnv hc hT hb) (x := x) ⟨hx, hp⟩ hr
  rw [eu_mul] at b e g
  exact ⟨⟨a.1, a.2, b⟩, ⟨d.1, d.2, e⟩, f.1, f.2, g⟩

/-- `tanh (-12345679.25)` at 101 digits. -/
example : |((val (Fn.tanh (efArith cfg101 (stdTables cfg101)) exC) : ℚ) : ℝ) - Real.tanh ((val exC : ℚ) : ℝ)| ≤
    (3200 + 7 * |((val exC : ℚ) : ℝ)|) / 10 ^ (cfg101.digits10 + 1) :=
  (C92_hyperbolic_partial (by decide) (stdTables_std _) below101 exC_fin rfl (by decide +kernel)).2.2.2.2

/-- The quotient `a / b` as required: a valid number of full precision within
`3 (10000001 + |x|/1000) 10^-(D+1) / b^2`. -/
def QuotOk (c : Cfg) (x : EFloat) (r : EFloat) (a b : ℝ) : Prop :=
  FinWF c r ∧ r.prec = c.elems ∧
    |((val r : ℚ) : ℝ) - a / b| ≤ 3 * ((10000001 + |((val x : ℚ) : ℝ)| / 1000) / 10 ^ (c.digits10 + 1)) / b ^ 2

/-- C93.  With up to 1000 digits and the stored `pi`, for every number `x` of full working precision with `|x| ≤ 10^8`
which is zero or at least `10^-19000000` in magnitude: secant and cosecant are accurate where the denominator is at
least `10^-10`; tangent and cotangent are accurate where numerator and denominator are at least `10^-10`, and the
numerator is positive or differs from the denominator in magnitude by `10^-10`.  (The last condition is there because the
division of a negative number by its own negation gives the wrong sign, C20.)

Missing: arguments nearer to the zeros and poles, and, for a negative numerator, to where the tangent is `±1`. -/
theorem C93_tan_partial {c : Cfg} (hc : c.digits10 ≤ 1000) {T : Tables} (hT : Const.pi c = some T.pi) {x : EFloat}
    (hx : FinWF c x) (hp : x.prec = c.elems) (h : |val x| ≤ 10 ^ 8)
    (hs : val x = 0 ∨ (10 : ℝ) ^ (-19000000 : ℤ) ≤ |((val x : ℚ) : ℝ)|) {S C : ℝ} (hS : S = Real.sin ((val x : ℚ) : ℝ))
    (hC : C = Real.cos ((val x : ℚ) : ℝ)) :
    (1 / 10 ^ 10 ≤ |C| → QuotOk c x (Fn.sec (efArith c T) x) 1 C) ∧
    (1 / 10 ^ 10 ≤ |S| → QuotOk c x (Fn.csc (efArith c T) x) 1 S) ∧
    (1 / 10 ^ 10 ≤ |C| → 1 / 10 ^ 10 ≤ |S| → 0 < S ∨ 1 / 10 ^ 10 ≤ |(|S| - |C|)| →
      QuotOk c x (Fn.tan (efArith c T) x) S C) ∧
    (1 / 10 ^ 10 ≤ |C| → 1 / 10 ^ 10 ≤ |S| → 0 < C ∨ 1 / 10 ^ 10 ≤ |(|C| - |S|)| →
      QuotOk c x (Fn.cot (efArith c T) x) C S) := by
  subst hS hC
  have hr : |rv x| ≤ 10 ^ 8 := by
    rw [rv_abs]; exact_mod_cast h
  have hz : rv x = 0 ∨ Sz 19000000 (rv x) := by
    rcases hs with h0 | h0
    · left; unfold rv; rw [h0]; simp
    · right
      refine ⟨h0, le_trans hr ?_⟩
      rw [← pw_nat]; exact pw_mono (by norm_num)
  have R := rnd_efloat (elems_small hc) T
  have P := piEnv hc hT
  unfold QuotOk
  refine ⟨fun h1 => ?_, fun h1 => ?_, fun h1 h2 h3 => ?_, fun h1 h2 h3 => ?_⟩
  · obtain ⟨f, e⟩ := (R.sec_acc P (x := x) ⟨hx, hp⟩ hr hz).1 h1
    rw [eu_mul] at e; exact ⟨f.1, f.2, e⟩
  · obtain ⟨f, e⟩ := (R.sec_acc P (x := x) ⟨hx, hp⟩ hr hz).2 h1
    rw [eu_mul] at e; exact ⟨f.1, f.2, e⟩
  · obtain ⟨f, e⟩ := (R.tan_acc P (x := x) ⟨hx, hp⟩ hr hz h1 h2).1 h3
    rw [eu_mul, Real.tan_eq_sin_div_cos] at e; exact ⟨f.1, f.2, e⟩
  · obtain ⟨f, e⟩ := (R.tan_acc P (x := x) ⟨hx, hp⟩ hr hz h1 h2).2 h3
    rw [eu_mul] at e; exact ⟨f.1, f.2, e⟩

/-- The tangent of one at 101 digits. -/
example : QuotOk cfg101 (one cfg101) (Fn.tan (efArith cfg101 (stdTables cfg101)) (one cfg101)) (Real.sin 1) (Real.cos 1) := by
  have h1 : val (one cfg101) = 1 := by decide +kernel
  have c0 := Real.cos_one_pos
  have c1 : (1 : ℝ) / 10 ^ 10 ≤ Real.cos 1 := by
    have := Real.one_sub_sq_div_two_le_cos (x := 1)
    norm_num at this ⊢; linarith
  have s1 : (1 : ℝ) / 2 < Real.sin 1 := by
    have := Real.sin_gt_sub_cube (x := 1) one_pos
    norm_num at this; linarith
  refine (C93_tan_partial (c := cfg101) (by decide) (stdTables_pi (by decide)) (x := one cfg101) (by unfold one; exact
    (ofSigned_spec cfg101 (n := 1) (by decide) (by decide)).1) rfl
    (by rw [h1]; norm_num) (Or.inr ?_) (by rw [h1]; simp) (by rw [h1]; simp)).2.2.1 ?_ ?_ (Or.inl (by linarith))
  · rw [h1]; simp only [Rat.cast_one, abs_one]
    exact zpow_le_one_of_nonpos₀ (by norm_num) (by norm_num)
  · rwa [abs_of_pos c0]
  · rw [abs_of_pos (by linarith)]
    have : (1 : ℝ) / 10 ^ 10 ≤ 1 / 2 := by norm_num
    linarith

end EFX.Props
