import Verif.Model.ComplexFn
import Verif.Props.AngleSign
import Verif.Props.LogRnd
import Verif.Props.CxRnd
/-!
# C119: the complex logarithm with all rounding
-/

namespace EFX.Props
open EFX EFX.Spec

theorem log_ratio {n S ε : ℝ} (S0 : 0 < S) (e1 : ε ≤ 1 / 2) (h : |n - S| ≤ ε * S) : 0 < n ∧ |Real.log n - Real.log S| ≤ 2 * ε := by
  obtain ⟨h1, h2⟩ := abs_le.1 h
  have e0 : 0 ≤ ε := by
    by_contra hc
    have := mul_neg_of_neg_of_pos (not_le.1 hc) S0
    linarith [abs_nonneg (n - S)]
  have n0 : 1 / 2 * S ≤ n := by
    have := mul_le_mul_of_nonneg_right e1 S0.le
    linarith
  have np : 0 < n := by linarith
  refine ⟨np, ?_⟩
  rw [← Real.log_div np.ne' S0.ne']
  have r0 : 0 < n / S := by positivity
  have a1 := Real.log_le_sub_one_of_pos r0
  have a2 := Real.one_sub_inv_le_log_of_pos r0
  have b1 : n / S ≤ 1 + ε := by rw [div_le_iff₀ S0]; linarith
  have b2 : (n / S)⁻¹ ≤ 1 + 2 * ε := by
    rw [inv_div, div_le_iff₀ np]
    nlinarith [mul_le_mul_of_nonneg_left n0 e0]
  exact abs_le.2 ⟨by linarith, by linarith⟩

/-- C119.  With up to 1000 digits and the library's constant pi, let both parts of `z` be numbers of full working precision between
`10^-1000000` and `10^1000000` in size, under the conditions of C95 for their angle, and let the computed logarithm of the computed
square `n` of the absolute value be off by at most `δ` from the logarithm of `n`.  Then both parts of the computed `log z` are valid
numbers of full working precision; the real part is within `δ + (1 + |log |z||) 10^-(D+1)` and the imaginary part within
`8 10^7 10^-(D+1)` of the principal value.

Missing: the accuracy of the real logarithm (C110), the angles excluded in C95, larger and smaller numbers. -/
theorem C119_log_partial {c : Cfg} (hc : c.digits10 ≤ 1000) {T : Tables} (hT : Const.pi c = some T.pi) {z : Cx EFloat} (hz : CValid c z)
    {X Y : ℝ} (hX : X = ((val z.re : ℚ) : ℝ)) (hY : Y = ((val z.im : ℚ) : ℝ))
    (xs : (10 : ℝ) ^ (-1000000 : ℤ) ≤ |X| ∧ |X| ≤ (10 : ℝ) ^ (1000000 : ℤ))
    (ys : (10 : ℝ) ^ (-1000000 : ℤ) ≤ |Y| ∧ |Y| ≤ (10 : ℝ) ^ (1000000 : ℤ)) (hd : 0 < Y ∨ |Y| ≠ |X|)
    (hn : 0 ≤ X * Y ∨ |Y| ≤ (10 : ℝ) ^ (limE c : ℤ) * |X| ∨ (10 : ℝ) ^ ((c.tolerance : ℤ) + 2) * |X| ≤ |Y|)
    (h0 : GoodStart c (T.atan0 (absE (div c z.im z.re))) (Real.arctan |((val (div c z.im z.re) : ℚ) : ℝ)|))
    {n : EFloat} (hN : n = CxE.norm c z) {δ : ℝ} (hL : FinWF c (Fn.log (efArith c T) n)) (hLp : (Fn.log (efArith c T) n).prec = c.elems)
    (Ll : |((val (Fn.log (efArith c T) n) : ℚ) : ℝ) - Real.log ((val n : ℚ) : ℝ)| ≤ δ) :
    CValid c (FnC.log (efArith c T) z) ∧
    |(cnum (FnC.log (efArith c T) z)).re - (Complex.log (cnum z)).re| ≤ δ + (1 + |Real.log ‖cnum z‖|) / 10 ^ (c.digits10 + 1) ∧
    |(cnum (FnC.log (efArith c T) z)).im - (Complex.log (cnum z)).im| ≤ 80000000 / 10 ^ (c.digits10 + 1) := by
  have R := rnd_efloat (elems_small hc) T
  have u0 : 0 < eu c := R.u0
  have u1 : eu c ≤ 1 / 10 ^ 30 := R.u1
  norm_num at u1
  obtain ⟨⟨r1, r2⟩, i1, i2⟩ := hz
  obtain ⟨a1, a2, a3⟩ := C95_atan2_partial hc hT r1 r2 i1 i2 hX hY xs ys hd hn h0
  have hLn : Fn.log (efArith c T) (FnC.norm (efArith c T) z) = Fn.log (efArith c T) n := by rw [hN]; rfl
  have fL : Full c (Fn.log (efArith c T) n) := ⟨hL, hLp⟩
  obtain ⟨od, ed⟩ := R.divI _ 2 fL (by norm_num) (by norm_num)
  have hcn : cnum z = ⟨X, Y⟩ := by unfold cnum; rw [hX, hY]
  -- the size of the number
  have xx : pw (-1000000) ≤ |X| := xs.1
  have S1 : pw (-2000000) ≤ ‖cnum z‖ ^ 2 := by
    rw [Complex.sq_norm, Complex.normSq_apply, hcn]
    change _ ≤ X * X + Y * Y
    have h1 : pw (-1000000) * pw (-1000000) ≤ |X| * |X| := mul_le_mul xx xx (pw_pos _).le (abs_nonneg _)
    rw [← pw_add, abs_mul_abs_self] at h1
    have := mul_self_nonneg Y
    refine le_trans ?_ (show X * X ≤ _ by linarith)
    exact h1
  have S2 : ‖cnum z‖ ^ 2 ≤ pw 2000000000 := by
    rw [Complex.sq_norm, Complex.normSq_apply, hcn]
    change X * X + Y * Y ≤ _
    have h1 : |X| * |X| ≤ pw 1000000 * pw 1000000 := mul_le_mul xs.2 xs.2 (abs_nonneg _) (pw_pos _).le
    have h2 : |Y| * |Y| ≤ pw 1000000 * pw 1000000 := mul_le_mul ys.2 ys.2 (abs_nonneg _) (pw_pos _).le
    rw [← pw_add, abs_mul_abs_self] at h1 h2
    have h3 : 2 * pw (1000000 + 1000000) ≤ pw 2000000000 := by
      have h4 : pw (1 + (1000000 + 1000000)) ≤ pw 2000000000 := pw_mono (by norm_num)
      rw [pw_add 1, pw_one] at h4
      have := pw_pos (1000000 + 1000000)
      linarith
    exact le_trans (by linarith) h3
  obtain ⟨-, e2⟩ := cx_norm (elems_small hc) (v := z) ⟨⟨r1, r2⟩, i1, i2⟩ S2
  have e2' : |rv n - ‖cnum z‖ ^ 2| ≤ eu c / 10 ^ 4 * (102 / 100) * ‖cnum z‖ ^ 2 + 4 * tau := by rw [hN]; exact e2
  have tt : 4 * tau ≤ eu c / 10 ^ 4 * ‖cnum z‖ ^ 2 := by
    have h1 : pw 1 * tau ≤ pw (-4) * eu c * pw (-2000000) := by
      unfold tau eu
      rw [← pw_add, ← pw_add, ← pw_add]
      exact pw_mono (by have : (c.digits10 : ℤ) ≤ 1000 := by exact_mod_cast hc
                        omega)
    have h2 : pw (-4) * eu c * pw (-2000000) ≤ pw (-4) * eu c * ‖cnum z‖ ^ 2 :=
      mul_le_mul_of_nonneg_left S1 (mul_nonneg (pw_pos _).le u0.le)
    have h3 : pw (-4) = 1 / 10 ^ 4 := by rw [show (-4 : ℤ) = -((4 : ℕ) : ℤ) by norm_num, pw_neg, pw_nat]; norm_num
    rw [pw_one] at h1
    rw [h3] at h1 h2
    have h4 := tau_pos
    generalize pw (-2000000) = P at *
    have : 1 / 10 ^ 4 * eu c * ‖cnum z‖ ^ 2 = eu c / 10 ^ 4 * ‖cnum z‖ ^ 2 := by ring
    linarith
  have Sp : 0 < ‖cnum z‖ ^ 2 := lt_of_lt_of_le (pw_pos _) S1
  clear e2 S1 S2 xx
  obtain ⟨n0, nl⟩ := log_ratio (n := rv n) (ε := eu c / 4) Sp (by linarith) (by
    have : eu c / 10 ^ 4 * (102 / 100) * ‖cnum z‖ ^ 2 + eu c / 10 ^ 4 * ‖cnum z‖ ^ 2 = 202 / 10 ^ 6 * (eu c * ‖cnum z‖ ^ 2) := by ring
    have p : 0 ≤ eu c * ‖cnum z‖ ^ 2 := by positivity
    have : eu c / 4 * ‖cnum z‖ ^ 2 = 1 / 4 * (eu c * ‖cnum z‖ ^ 2) := by ring
    norm_num at *
    linarith)
  rw [Real.log_pow] at nl
  push_cast at nl
  refine ⟨⟨⟨?_, ?_⟩, a1, a2⟩, ?_, ?_⟩
  · change FinWF c ((efArith c T).divI (Fn.log (efArith c T) (FnC.norm (efArith c T) z)) 2)
    rw [hLn]; exact od.1
  · change ((efArith c T).divI (Fn.log (efArith c T) (FnC.norm (efArith c T) z)) 2).prec = _
    rw [hLn]; exact od.2
  · rw [Complex.log_re]
    change |rv ((efArith c T).divI (Fn.log (efArith c T) (FnC.norm (efArith c T) z)) 2) - Real.log ‖cnum z‖| ≤ _
    rw [hLn, ← eu_mul]
    have Ll' : |rv (Fn.log (efArith c T) n) - Real.log (rv n)| ≤ δ := Ll
    have δ0 : 0 ≤ δ := le_trans (abs_nonneg _) Ll'
    generalize rv ((efArith c T).divI (Fn.log (efArith c T) n) 2) = D at *
    generalize rv (Fn.log (efArith c T) n) = L at *
    generalize Real.log ‖cnum z‖ = l at *
    generalize Real.log (rv n) = m at *
    push_cast at ed
    have t1 : |L - 2 * l| ≤ δ + eu c / 2 := by
      have := abs_sub_le L m (2 * l)
      linarith
    have t2 : |L / 2| ≤ |l| + δ / 2 + eu c := by
      rw [abs_div, abs_of_pos (show (0 : ℝ) < 2 by norm_num)]
      have h1 := abs_sub_abs_le_abs_sub L (2 * l)
      rw [abs_mul, abs_of_pos (show (0 : ℝ) < 2 by norm_num)] at h1
      linarith
    have t3 : |D - l| ≤ |D - L / 2| + |L / 2 - l| := abs_sub_le _ _ _
    have t4 : |L / 2 - l| ≤ δ / 2 + eu c / 4 := by
      rw [show L / 2 - l = (L - 2 * l) / 2 by ring, abs_div, abs_of_pos (show (0 : ℝ) < 2 by norm_num)]
      linarith
    have t5 := le_trans ed (mul_le_mul_of_nonneg_left t2 u0.le)
    have t6 : eu c * (δ / 2) ≤ 1 / 2 * (δ / 2) := mul_le_mul_of_nonneg_right (by linarith) (by linarith)
    have t7 : eu c * eu c ≤ 1 / 2 * eu c := mul_le_mul_of_nonneg_right (by linarith) u0.le
    linarith
  · rw [Complex.log_im, hcn]
    exact a3

/-- C119 refuted on the diagonal below the real axis: for every `z` with `im z = -re z < 0` the computed logarithm has an imaginary
part of about `pi/4`, the principal value has `-pi/4`. -/
theorem C119_log_refuted {c : Cfg} (hc : c.digits10 ≤ 1000) {T : Tables} (hT : Const.pi c = some T.pi) {z : Cx EFloat} (hz : CValid c z)
    (h0 : GoodStart c (T.atan0 (one c)) (Real.pi / 4)) (h1 : 0 < val z.re) (h2 : val z.im = -val z.re) :
    (Complex.log (cnum z)).im = -(Real.pi / 4) ∧
    |(cnum (FnC.log (efArith c T) z)).im - Real.pi / 4| ≤ 80000000 / 10 ^ (c.digits10 + 1) := by
  have h := (C95_atan2_refuted hc hT hz.1.1 hz.1.2 hz.2.1 hz.2.2 h0).1 h1 h2
  exact ⟨by rw [Complex.log_im]; exact h.2, h.1⟩

/-- C119 refuted in the third quadrant: for every `z` with `im z = re z < 0` the computed logarithm has an imaginary part of about
`-5 pi/4`, below `-pi`; the principal value has `-3 pi/4`.  No logarithm on the principal branch is returned. -/
theorem C119_branch_refuted {c : Cfg} (hc : c.digits10 ≤ 1000) {T : Tables} (hT : Const.pi c = some T.pi) {z : Cx EFloat}
    (hz : CValid c z) (h0 : GoodStart c (T.atan0 (one c)) (Real.pi / 4)) (h1 : val z.re < 0) (h2 : val z.im = val z.re) :
    (Complex.log (cnum z)).im = -(3 * Real.pi / 4) ∧
    |(cnum (FnC.log (efArith c T) z)).im - -(5 * Real.pi / 4)| ≤ 80000000 / 10 ^ (c.digits10 + 1) ∧
    (cnum (FnC.log (efArith c T) z)).im < -Real.pi := by
  have h := (C95_atan2_refuted hc hT hz.1.1 hz.1.2 hz.2.1 hz.2.2 h0).2 h1 h2
  refine ⟨by rw [Complex.log_im]; exact h.2, h.1, ?_⟩
  have hd : 30 ≤ c.digits10 := by
    unfold Cfg.digits10
    split_ifs <;> omega
  have h3 : |(cnum (FnC.log (efArith c T) z)).im - -(5 * Real.pi / 4)| ≤ 80000000 / 10 ^ (c.digits10 + 1) := h.1
  have h4 : (80000000 : ℝ) / 10 ^ (c.digits10 + 1) ≤ 80000000 / 10 ^ 13 :=
    div_le_div_of_nonneg_left (by norm_num) (by norm_num) (pow_le_pow_right₀ (by norm_num) (by omega))
  have h5 := (abs_le.1 (le_trans h3 h4)).2
  have := Real.pi_gt_three
  norm_num at h5
  linarith

/-- `log (-1 - i)` at 101 digits is below the principal branch. -/
example : (cnum (FnC.log (efArith cfg101 startTables) ⟨negate (one cfg101), negate (one cfg101)⟩)).im < -Real.pi :=
  (C119_branch_refuted (c := cfg101) (by decide) startTables_pi (z := ⟨negate (one cfg101), negate (one cfg101)⟩)
    ⟨⟨FinWF_negate one_fin, rfl⟩, FinWF_negate one_fin, rfl⟩ piFourth_good (by decide +kernel) (by decide +kernel)).2.2

/-- `log (1 - i)` at 101 digits. -/
example : |(cnum (FnC.log (efArith cfg101 startTables) ⟨one cfg101, negate (one cfg101)⟩)).im - Real.pi / 4| ≤ 80000000 / 10 ^ (cfg101.digits10 + 1) :=
  (C119_log_refuted (c := cfg101) (by decide) startTables_pi (z := ⟨one cfg101, negate (one cfg101)⟩) ⟨⟨one_fin, rfl⟩, FinWF_negate one_fin, rfl⟩
    piFourth_good (by decide +kernel) (by decide +kernel)).2

/-- The double nearest to `log 2`. -/
def dlog2 : ℚ := 6243314768165359 / 9007199254740992

/-- Tables with start values for `log 2` and `atan 1` at 101 digits. -/
def logAngleTables : Tables := withLog startTables (ofMantExp cfg101 dlog2 0)

theorem withStarts_std {c : Cfg} {T : Tables} (h : StdTables c T) (a b : EFloat) : StdTables c (withStarts T a b) := ⟨h.ln2, h.e, h.max⟩

theorem withLog_pi (T : Tables) (e : EFloat) : (withLog T e).pi = T.pi := rfl

theorem efArith_ln2 (c : Cfg) (T : Tables) : (efArith c T).ln2 = T.ln2 := rfl

theorem withStarts_ln2 (T : Tables) (a b : EFloat) : (withStarts T a b).ln2 = T.ln2 := rfl

theorem logAngle_std : StdTables cfg101 logAngleTables := withLog_std (withStarts_std (stdTables_std cfg101) _ _) _

theorem logAngle_ln2 : logAngleTables.ln2 = (stdTables cfg101).ln2 := by
  unfold logAngleTables startTables
  rw [withLog_ln2, withStarts_ln2]

theorem iterate2 : |val (logIterate cfg101 logAngleTables (ofUnsigned cfg101 2) 3) - val logAngleTables.ln2| ≤ 1 / 10 ^ 85 ∧
    FinWF cfg101 (logIterate cfg101 logAngleTables (ofUnsigned cfg101 2) 3) := by decide +kernel

theorem log2_num : FinWF cfg101 (Fn.log (efArith cfg101 logAngleTables) (ofUnsigned cfg101 2)) ∧
    (Fn.log (efArith cfg101 logAngleTables) (ofUnsigned cfg101 2)).prec = cfg101.elems ∧
    |((val (Fn.log (efArith cfg101 logAngleTables) (ofUnsigned cfg101 2)) : ℚ) : ℝ) - Real.log 2| ≤ 1 / 10 ^ 98 := by
  have hb : RecipBelow cfg101 logAngleTables.ln2 := by rw [logAngle_ln2]; exact below101
  have hv : val (ofUnsigned cfg101 2) = 2 := by decide +kernel
  have hl2 := (expEnv (c := cfg101) (by decide) logAngle_std hb).ln2.2
  rw [efArith_ln2] at hl2
  unfold rv at hl2
  have hln : |((val logAngleTables.ln2 : ℚ) : ℝ) - Real.log 2| ≤ 1 / 10 ^ 100 := by
    refine le_trans hl2 ?_
    have : eu cfg101 = 1 / 10 ^ 102 := eu_inv cfg101
    rw [this]; norm_num
  have l2 : |Real.log 2| ≤ 1 := by
    rw [abs_of_nonneg (Real.log_nonneg (by norm_num))]
    have := Real.log_two_lt_d9
    linarith
  have hl := C110_last_step_partial (c := cfg101) (T := logAngleTables) (x := ofUnsigned cfg101 2) (X := 2) (k := 3) (δ := 2 / 10 ^ 85) (by decide)
    logAngle_std hb (by decide +kernel) (by decide +kernel) (by rw [hv]; norm_num) (by
      have : limE cfg101 = 11 := by decide
      rw [this]; norm_num) (le_trans (zpow_le_one_of_nonpos₀ (by norm_num) (by norm_num)) (by norm_num))
    (calc (2 : ℝ) < 10 ^ (1 : ℤ) := by norm_num
      _ < 10 ^ (1001 : ℤ) := zpow_lt_zpow_right₀ (by norm_num) (by norm_num)) (by decide) (by decide) (by decide)
    iterate2.2 (near_of (cast_near iterate2.1) hln (by norm_num)) (by norm_num)
  have hl3 : |((val (Fn.log (efArith cfg101 logAngleTables) (ofUnsigned cfg101 2)) : ℚ) : ℝ) - Real.log 2| ≤ 1 / 10 ^ 98 := by
    refine le_trans hl.2.2 ?_
    have hd : cfg101.digits10 = 101 := rfl
    rw [hd]
    norm_num
    linarith
  exact ⟨hl.1, hl.2.1, hl3⟩

/-- `log (1 + i)` at 101 digits: both parts are accurate. -/
theorem log_onePlusI : CValid cfg101 (FnC.log (efArith cfg101 logAngleTables) ⟨one cfg101, one cfg101⟩) ∧
    |(cnum (FnC.log (efArith cfg101 logAngleTables) ⟨one cfg101, one cfg101⟩)).re - (Complex.log (cnum ⟨one cfg101, one cfg101⟩)).re| ≤
      1 / 10 ^ 98 + (1 + |Real.log ‖cnum ⟨one cfg101, one cfg101⟩‖|) / 10 ^ (cfg101.digits10 + 1) ∧
    |(cnum (FnC.log (efArith cfg101 logAngleTables) ⟨one cfg101, one cfg101⟩)).im - (Complex.log (cnum ⟨one cfg101, one cfg101⟩)).im| ≤
      80000000 / 10 ^ (cfg101.digits10 + 1) := by
  have hv : val (ofUnsigned cfg101 2) = 2 := by decide +kernel
  have hl := log2_num
  have hN : ofUnsigned cfg101 2 = CxE.norm cfg101 ⟨one cfg101, one cfg101⟩ := by decide +kernel
  have one1 : ((val (one cfg101) : ℚ) : ℝ) = 1 := by rw [val_one]; norm_num
  have d1 : div cfg101 (one cfg101) (one cfg101) = one cfg101 := by decide +kernel
  have sz : (10 : ℝ) ^ (-1000000 : ℤ) ≤ |1| ∧ |1| ≤ (10 : ℝ) ^ (1000000 : ℤ) := by
    rw [abs_one]
    exact ⟨zpow_le_one_of_nonpos₀ (by norm_num) (by norm_num), one_le_zpow₀ (by norm_num) (by norm_num)⟩
  refine (C119_log_partial (c := cfg101) (T := logAngleTables) (X := 1) (Y := 1) (z := ⟨one cfg101, one cfg101⟩) (δ := 1 / 10 ^ 98) (by decide) (by
      have h : logAngleTables.pi = startTables.pi := withLog_pi _ _
      rw [h]; exact startTables_pi)
    ⟨⟨one_fin, rfl⟩, one_fin, rfl⟩ one1.symm one1.symm sz sz (Or.inl (by norm_num)) (Or.inl (by norm_num)) ?_ hN hl.1 hl.2.1
    (by rw [hv]; push_cast; exact hl.2.2))
  change GoodStart cfg101 (startTables.atan0 (absE (div cfg101 (one cfg101) (one cfg101)))) (Real.arctan |((val (div cfg101 (one cfg101) (one cfg101)) : ℚ) : ℝ)|)
  rw [d1, one1, abs_one, Real.arctan_one]
  exact piFourth_good

end EFX.Props
