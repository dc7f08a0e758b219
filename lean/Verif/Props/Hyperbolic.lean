import Mathlib.Analysis.SpecialFunctions.Arcosh
import Mathlib.Analysis.SpecialFunctions.Artanh
import Mathlib.Analysis.SpecialFunctions.Arsinh
import Verif.Lemmas.RealArsinh
import Verif.Props.Asin
/-! C69, C70: hyperbolic functions and their inverses. -/

namespace EFX

theorem recip_near {P p ε : ℝ} (hP : 0 < P) (h0 : 0 ≤ ε) (h1 : ε ≤ 1 / 100) (h : |P - p| ≤ ε * P) :
    0 < p ∧ |1 / P - 1 / p| ≤ (102 / 100) * ε * (1 / P) := by
  have hh := abs_le.1 h
  have pp : (99 / 100) * P ≤ p := by nlinarith
  have p0 : 0 < p := by linarith
  refine ⟨p0, ?_⟩
  have e : 1 / P - 1 / p = (p - P) / (P * p) := by field_simp
  rw [e, abs_div, abs_of_pos (by positivity : 0 < P * p), abs_sub_comm, div_le_iff₀ (by positivity)]
  have e2 : 102 / 100 * ε * (1 / P) * (P * p) = 102 / 100 * ε * p := by field_simp
  rw [e2]
  nlinarith

theorem hasSum_arsinh2 {y : ℝ} (h0 : y ≠ 0) (h1 : |y| < 1) :
    HasSum (t2f1 (1 / 2) (1 / 2) (3 / 2) (-(y * y))) (Real.arsinh y / y) := by
  have h := (hasSum_arsinh h1).div_const y
  refine h.congr_fun ?_
  intro n
  rw [t2f1_asin, show 2 * n + 1 = n + n + 1 by ring, pow_succ, pow_add, neg_pow, mul_pow]
  field_simp

/-- The series of the inverse hyperbolic sine, divided by the argument. -/
theorem arsinh_series {E : RealEnv} (ht : E.tol ≤ 29990) {y r : ℝ} (h0 : 0 < y) (h1 : y ≤ 2 / 100)
    (hr : SeriesOf E (t2f1 (1 / 2) (1 / 2) (3 / 2) (-(y * y))) r) :
    |Real.arsinh y - y * r| ≤ (22 / 10) * (10 : ℝ) ^ (-E.tol) * y ∧ 99 / 100 * y ≤ Real.arsinh y := by
  have y2 : y * y ≤ 4 / 10000 := by nlinarith
  have ny : 0 < y * y := by positivity
  have term : ∀ i, |t2f1 (1 / 2) (1 / 2) (3 / 2) (-(y * y)) i| = cHalf i * (y * y) ^ i / (2 * i + 1) := by
    intro i
    rw [t2f1_asin, abs_div, abs_mul, abs_pow, abs_neg, abs_of_pos ny, abs_of_pos (cHalf_bound i).1,
      abs_of_pos (by positivity : (0 : ℝ) < 2 * (i : ℝ) + 1)]
  have near := series_near1 ht hr (hasSum_arsinh2 h0.ne' (by rw [abs_of_pos h0]; linarith)) (by rw [t2f1_asin]; simp [cHalf, poch_zero]) (by
      rw [← abs_pos, term]
      exact div_pos (mul_pos (cHalf_bound 9999).1 (pow_pos ny _)) (by positivity)) (by
      rw [term, pow_one]
      have := (cHalf_bound 1).2
      have := (cHalf_bound 1).1
      norm_num at y2 ⊢
      nlinarith) (by
      intro i hi
      have c1 := (cHalf_bound (i + 1)).1
      have c2 := (cHalf_bound i).1
      rw [term, term]
      push_cast
      rw [div_div, div_le_div_iff₀ (by positivity) (by positivity), pow_succ]
      have hp : 0 ≤ (y * y) ^ i := by positivity
      have hi0 : (0 : ℝ) ≤ i := by positivity
      have e1 : cHalf (i + 1) * ((y * y) ^ i * (y * y)) * ((2 * (i : ℝ) + 1) * 1000) =
          (y * y) ^ i * (cHalf (i + 1) * ((y * y * 1000) * (2 * (i : ℝ) + 1))) := by ring
      have e2 : cHalf i * (y * y) ^ i * (2 * ((i : ℝ) + 1) + 1) = (y * y) ^ i * (cHalf i * (2 * ((i : ℝ) + 1) + 1)) := by ring
      rw [e1, e2]
      apply mul_le_mul_of_nonneg_left _ hp
      exact mul_le_mul (cHalf_succ i) (by nlinarith) (by positivity) c2.le)
  have hq := abs_le.1 near.2.2
  constructor
  · have e : Real.arsinh y - y * r = (Real.arsinh y / y - r) * y := by field_simp
    rw [e, abs_mul, abs_of_pos h0]
    exact mul_le_mul_of_nonneg_right near.1 h0.le
  · have e : Real.arsinh y = Real.arsinh y / y * y := by field_simp
    rw [e]
    nlinarith

/-- Terms of the series of `log1p1m2`. -/
noncomputable def tAtanh (x : ℝ) (k : ℕ) : ℝ := x ^ (2 * k + 1) / (2 * k + 1)

theorem hasSum_artanh {x : ℝ} (h : |x| < 1) : HasSum (tAtanh x) (Real.artanh x) := by
  have h1 := abs_lt.1 h
  have hs := (Real.hasSum_log_sub_log_of_abs_lt_one h).mul_left (1 / 2)
  rw [← Real.log_div (by linarith) (by linarith), ← Real.artanh_eq_half_log ⟨by linarith, by linarith⟩] at hs
  refine hs.congr_fun ?_
  intro k
  unfold tAtanh
  ring

theorem atanhLoop_spec (E : RealEnv) (x : ℝ) : ∀ (k j : ℕ),
    ∃ J, j + 1 ≤ J ∧ Fn.log1p1m2Loop (realArith E) (x * x) k (2 * j + 3 : ℤ) (x ^ (2 * j + 1)) (psum (tAtanh x) (j + 1)) = psum (tAtanh x) J ∧
      (J = j + 1 + k ∨ ordR (tAtanh x J) - ordR (psum (tAtanh x) J) < -E.tol)
  | 0, j => ⟨j + 1, le_refl _, rfl, Or.inl rfl⟩
  | k + 1, j => by
    rw [Fn.log1p1m2Loop]
    ra_simp
    have e : x ^ (2 * j + 1) * (x * x) = x ^ (2 * (j + 1) + 1) := by ring
    have e2 : x ^ (2 * j + 1) * (x * x) / ((2 * (j : ℤ) + 3 : ℤ) : ℝ) = tAtanh x (j + 1) := by
      rw [e]; unfold tAtanh; push_cast; ring
    rw [e2]
    by_cases hc : (2 * (j : ℤ) + 3) > 20 ∧ ordR (tAtanh x (j + 1)) - ordR (psum (tAtanh x) (j + 1)) < -E.tol
    · rw [if_pos hc]
      exact ⟨j + 1, le_refl _, rfl, Or.inr hc.2⟩
    · rw [if_neg hc, e, ← psum_succ, show (2 * (j : ℤ) + 3 + 2) = 2 * ((j + 1 : ℕ) : ℤ) + 3 by push_cast; ring]
      obtain ⟨J, j1, j2, j3⟩ := atanhLoop_spec E x k (j + 1)
      exact ⟨J, by omega, j2, by rcases j3 with j3 | j3; · left; omega
                                 · right; exact j3⟩

theorem log1p1m2_near {E : RealEnv} (t0 : 0 ≤ E.tol) (ht : E.tol ≤ 29990) {x : ℝ} (h0 : x ≠ 0) (h1 : |x| ≤ 1 / 1000) :
    |Real.artanh x - Fn.log1p1m2 (realArith E) x| ≤ 3 * (10 : ℝ) ^ (-E.tol) * |Real.artanh x| := by
  have xp : 0 < |x| := abs_pos.2 h0
  have hx := abs_le.1 h1
  have tp : (0 : ℝ) < (10 : ℝ) ^ (-E.tol) := by positivity
  have t1 : (10 : ℝ) ^ (-E.tol) ≤ 1 := zpow_le_one_of_nonpos₀ (by norm_num) (by omega)
  have un : Fn.log1p1m2 (realArith E) x = Fn.log1p1m2Loop (realArith E) (x * x) 4999 3 x x := by
    unfold Fn.log1p1m2
    simp only [Bool.not_eq_true', Bool.or_eq_true]
    ra_simp
    rw [if_neg (by simp), if_neg (by rintro (h | h) <;> linarith)]
  obtain ⟨J, j1, j2, j3⟩ := atanhLoop_spec E x 4999 0
  have p1 : psum (tAtanh x) (0 + 1) = x := by
    rw [psum_succ]; simp [psum, tAtanh]
  rw [p1] at j2
  simp only [Nat.cast_zero, mul_zero, zero_add, pow_one] at j2
  rw [un, j2]
  have term : ∀ i, |tAtanh x i| = |x| ^ (2 * i + 1) / (2 * i + 1) := by
    intro i
    unfold tAtanh
    rw [abs_div, abs_pow, abs_of_pos (by positivity : (0 : ℝ) < 2 * (i : ℝ) + 1)]
  have dec : ∀ i, |tAtanh x (i + 1)| ≤ |tAtanh x i| / 1000 := by
    intro i
    rw [term, term, div_div, div_le_div_iff₀ (by positivity) (by positivity)]
    rw [show 2 * (i + 1) + 1 = (2 * i + 1) + 2 by ring, pow_add]
    push_cast
    have hp : 0 ≤ |x| ^ (2 * i + 1) := by positivity
    have hi0 : (0 : ℝ) ≤ i := by positivity
    have e1 : |x| ^ (2 * i + 1) * |x| ^ 2 * ((2 * (i : ℝ) + 1) * 1000) = |x| ^ (2 * i + 1) * ((|x| ^ 2 * 1000) * (2 * (i : ℝ) + 1)) := by ring
    rw [e1]
    apply mul_le_mul_of_nonneg_left _ hp
    have : |x| ^ 2 * 1000 ≤ 1 := by nlinarith
    nlinarith
  have half : ∀ i, |tAtanh x (i + 1)| ≤ |tAtanh x i| / 2 := fun i => by
    have := dec i
    have := abs_nonneg (tAtanh x i)
    linarith
  have hL := hasSum_artanh (x := x) (by linarith)
  have tail := fun m => tail_le hL (m := m) (fun i _ => half i)
  have small : ∀ J, 0 + 1 ≤ J → |tAtanh x J| ≤ |x| / 1000 := by
    intro J hJ
    induction J, hJ using Nat.le_induction with
    | base =>
      have h2 := dec 0
      have h3 : |tAtanh x 0| = |x| := by rw [term]; simp
      rw [h3] at h2; exact h2
    | succ K _ ih =>
      have := dec K
      have := abs_nonneg (tAtanh x K)
      linarith
  have L1 : (99 / 100) * |x| ≤ |Real.artanh x| := by
    have h := tail (0 + 1)
    rw [p1] at h
    have h2 := small (0 + 1) (le_refl _)
    have := abs_sub_abs_le_abs_sub x (Real.artanh x)
    rw [abs_sub_comm] at this
    linarith
  rcases j3 with j3 | j3
  · -- all rounds
    have h := tail J
    have h2 : |tAtanh x J| ≤ |x| * (10 : ℝ) ^ (-E.tol) := by
      rw [term, j3]
      have a1 : |x| ^ (2 * (0 + 1 + 4999) + 1) = |x| * |x| ^ 10000 := by ring
      have a2 : |x| ^ 10000 ≤ (10 : ℝ) ^ (-E.tol) := by
        have b1 : |x| ≤ (10 : ℝ) ^ (-3 : ℤ) := by norm_num; linarith
        have b2 : |x| ^ 10000 ≤ ((10 : ℝ) ^ (-3 : ℤ)) ^ 10000 := pow_le_pow_left₀ xp.le b1 _
        rw [← zpow_natCast ((10 : ℝ) ^ (-3 : ℤ)), ← zpow_mul] at b2
        exact le_trans b2 (zpow_le_zpow_right₀ (by norm_num) (by push_cast; omega))
      rw [a1]
      refine le_trans (div_le_self (by positivity) ?_) (mul_le_mul_of_nonneg_left a2 xp.le)
      have : (0 : ℝ) ≤ ((0 + 1 + 4999 : ℕ) : ℝ) := by positivity
      linarith
    nlinarith
  · -- the test ended the loop
    have h := tail J
    have tn : tAtanh x J ≠ 0 := by rw [← abs_pos, term]; positivity
    have pn : psum (tAtanh x) J ≠ 0 := by
      intro hz
      have h3 := small J j1
      rw [hz, sub_zero] at h
      linarith
    have o1 := lt_ordR tn
    have o2 := ordR_le pn
    have o3 : (10 : ℝ) ^ (ordR (tAtanh x J) + 1) ≤ (10 : ℝ) ^ (ordR (psum (tAtanh x) J) + -E.tol) :=
      zpow_le_zpow_right₀ (by norm_num) (by omega)
    rw [zpow_add₀ (by norm_num : (10 : ℝ) ≠ 0) (ordR (psum (tAtanh x) J))] at o3
    have o4 : |tAtanh x J| ≤ |psum (tAtanh x) J| * (10 : ℝ) ^ (-E.tol) :=
      le_trans o1.le (le_trans o3 (mul_le_mul_of_nonneg_right o2 tp.le))
    -- the next term is also small against the argument
    have h5 := small J j1
    have h6 : |psum (tAtanh x) J| ≤ (103 / 100) * |Real.artanh x| := by
      have := abs_sub_abs_le_abs_sub (psum (tAtanh x) J) (Real.artanh x)
      rw [abs_sub_comm] at this
      linarith
    have h7 := mul_le_mul_of_nonneg_right h6 tp.le
    have h8 : 0 ≤ (10 : ℝ) ^ (-E.tol) * |Real.artanh x| := by positivity
    linarith

end EFX

namespace EFX.Props
open EFX

theorem sinhcosh_unfold (E : RealEnv) (x : ℝ) : Fn.sinhcosh (realArith E) x (0, 0) =
    if x = 0 then (0, 1) else ((Fn.exp (realArith E) x - 1 / Fn.exp (realArith E) x) / 2, (Fn.exp (realArith E) x + 1 / Fn.exp (realArith E) x) / 2) := by
  unfold Fn.sinhcosh
  simp only [Bool.not_eq_true']
  ra_simp
  rw [if_neg (by simp)]
  norm_num

theorem sinh_unfold (E : RealEnv) (x : ℝ) : Fn.sinh (realArith E) x = (Fn.sinhcosh (realArith E) x (0, 0)).1 := by
  unfold Fn.sinh
  simp only [Bool.not_eq_true']
  ra_simp
  rw [if_neg (by simp)]

theorem cosh_unfold (E : RealEnv) (x : ℝ) : Fn.cosh (realArith E) x = (Fn.sinhcosh (realArith E) x (0, 0)).2 := by
  unfold Fn.cosh
  simp only [Bool.not_eq_true']
  ra_simp
  rw [if_neg (by simp)]

theorem tanh_unfold (E : RealEnv) (x : ℝ) : Fn.tanh (realArith E) x = Fn.sinh (realArith E) x * (Fn.cosh (realArith E) x)⁻¹ := by
  rw [sinh_unfold, cosh_unfold]
  unfold Fn.tanh
  simp only
  ra_simp

/-- C69 in exact arithmetic.  For arguments within the exponent limit that are no multiple of `ln 2` (see
`C65_ln2_refuted`), `cosh` has a relative error of at most `4800 * 10^-tolerance`; the error of `sinh` is at most
`4800 * 10^-tolerance * cosh x`, that of `tanh` at most `9800 * 10^-tolerance`. -/
theorem C69_hyperbolic_partial {E : RealEnv} (t0 : 10 ≤ E.tol) (ht : E.tol ≤ 29990) (hm : E.maxExp ≤ 2 ^ 62) {x : ℝ}
    (h1 : |x| ≤ E.maxExp) (hx : ∀ n : ℤ, x ≠ 0 → x ≠ n * Real.log 2) :
    |Real.cosh x - Fn.cosh (realArith E) x| ≤ 4800 * (10 : ℝ) ^ (-E.tol) * Real.cosh x ∧
    |Real.sinh x - Fn.sinh (realArith E) x| ≤ 4800 * (10 : ℝ) ^ (-E.tol) * Real.cosh x ∧
    |Real.tanh x - Fn.tanh (realArith E) x| ≤ 9800 * (10 : ℝ) ^ (-E.tol) := by
  have tp : (0 : ℝ) < (10 : ℝ) ^ (-E.tol) := by positivity
  have tl : (10 : ℝ) ^ (-E.tol) ≤ (10 : ℝ) ^ (-10 : ℤ) := zpow_le_zpow_right₀ (by norm_num) (by omega)
  have h := C65_exp_partial t0 ht hm h1 hx
  have ep := Real.exp_pos x
  have cp := Real.cosh_pos x
  have both : |Real.cosh x - Fn.cosh (realArith E) x| ≤ 4800 * (10 : ℝ) ^ (-E.tol) * Real.cosh x ∧
      |Real.sinh x - Fn.sinh (realArith E) x| ≤ 4800 * (10 : ℝ) ^ (-E.tol) * Real.cosh x := by
    rw [cosh_unfold, sinh_unfold, sinhcosh_unfold]
    by_cases h0 : x = 0
    · rw [if_pos h0, h0]
      simp only [Real.cosh_zero, Real.sinh_zero, sub_self, abs_zero]
      constructor <;> positivity
    rw [if_neg h0]
    simp only
    have hr := recip_near (ε := 4700 * (10 : ℝ) ^ (-E.tol)) ep (by positivity) (by norm_num at tl ⊢; linarith) h
    generalize Fn.exp (realArith E) x = p at *
    generalize (10 : ℝ) ^ (-E.tol) = w at *
    rw [Real.cosh_eq, Real.sinh_eq, Real.exp_neg]
    have hr2 : |1 / Real.exp x - 1 / p| ≤ (102 / 100) * (4700 * w) * (1 / Real.exp x) := hr.2
    rw [one_div (Real.exp x)] at hr2
    have ip : 0 < (Real.exp x)⁻¹ := by positivity
    generalize (Real.exp x)⁻¹ = m at *
    generalize Real.exp x = P at *
    have w1 : 0 < w * m := by positivity
    have w2 : 0 < w * P := by positivity
    constructor
    · rw [show (P + m) / 2 - (p + 1 / p) / 2 = ((P - p) + (m - 1 / p)) / 2 by ring, abs_div, abs_two]
      have := abs_add_le (P - p) (m - 1 / p)
      linarith
    · rw [show (P - m) / 2 - (p - 1 / p) / 2 = ((P - p) - (m - 1 / p)) / 2 by ring, abs_div, abs_two]
      have := abs_sub (P - p) (m - 1 / p)
      linarith
  refine ⟨both.1, both.2, ?_⟩
  rw [tanh_unfold, Real.tanh_eq_sinh_div_cosh]
  have sc : |Real.sinh x| ≤ Real.cosh x := by
    have := Real.cosh_sq x
    exact abs_le_of_sq_le_sq (by linarith) cp.le
  obtain ⟨b1, b2⟩ := both
  generalize Fn.sinh (realArith E) x = s at *
  generalize Fn.cosh (realArith E) x = c at *
  generalize Real.sinh x = S at *
  generalize Real.cosh x = C at *
  generalize (10 : ℝ) ^ (-E.tol) = w at *
  norm_num at tl
  have hh := abs_le.1 b1
  have cl : (99 / 100) * C ≤ c := by nlinarith
  have c0 : 0 < c := by linarith
  have e : S / C - s * c⁻¹ = ((S - s) + (S / C) * (c - C)) / c := by field_simp; ring
  rw [e, abs_div, abs_of_pos c0, div_le_iff₀ c0]
  have q : |S / C| ≤ 1 := by rw [abs_div, abs_of_pos cp, div_le_one cp]; exact sc
  have t1 := abs_add_le (S - s) ((S / C) * (c - C))
  rw [abs_mul, abs_sub_comm c C] at t1
  have : |S / C| * |C - c| ≤ 1 * (4800 * w * C) := mul_le_mul q b1 (abs_nonneg _) (by norm_num)
  nlinarith

/-- C69 refuted for small arguments: below `10^-tolerance` the results of `sinh` and `tanh` are zero. -/
theorem C69_small_refuted (E : RealEnv) {x : ℝ} (h0 : x ≠ 0) (h1 : |x| < (10 : ℝ) ^ (-E.tol)) :
    Fn.sinh (realArith E) x = 0 ∧ Fn.tanh (realArith E) x = 0 ∧ Real.sinh x ≠ 0 ∧ Real.tanh x ≠ 0 := by
  have o : ordR x < -E.tol := (ordR_lt h0).2 h1
  have e : Fn.exp (realArith E) x = 1 := by
    unfold Fn.exp
    simp only [Bool.or_eq_true, decide_eq_true_eq]
    ra_simp
    rw [if_neg (by simp), if_neg (by simp), if_pos (Or.inr o)]
  have s : Fn.sinh (realArith E) x = 0 := by
    rw [sinh_unfold, sinhcosh_unfold, if_neg h0, e]; norm_num
  have sn : Real.sinh x ≠ 0 := by
    intro h; exact h0 (Real.sinh_eq_zero.1 h)
  refine ⟨s, ?_, sn, ?_⟩
  · rw [tanh_unfold, s, zero_mul]
  · rw [Real.tanh_eq_sinh_div_cosh]
    exact div_ne_zero sn (Real.cosh_pos x).ne'

/-! ## Inverse functions -/

/-- The conditions under which the logarithm of `y` is accurate: close to one, or a good double precision start. -/
def LogFine (E : RealEnv) (y : ℝ) : Prop :=
  (y ≠ 1 ∧ |1 - y| < (10 : ℝ) ^ (-max (E.tol / 10) 6)) ∨
  ((y = 1 ∨ (10 : ℝ) ^ (-max (E.tol / 10) 6) ≤ |1 - y|) ∧ LogStart E 14 (newtonArg y))

theorem log_fine {E : RealEnv} (t0 : 10 ≤ E.tol) (ht : E.tol ≤ 29990) (hm : E.maxExp ≤ 2 ^ 62) (hm' : 10000 ≤ E.maxExp)
    {y : ℝ} (hy : 0 < y) (h : LogFine E y) : |Real.log y - Fn.log (realArith E) y| ≤ 6001 * (10 : ℝ) ^ (-E.tol) := by
  have tp : (0 : ℝ) < (10 : ℝ) ^ (-E.tol) := by positivity
  rcases h with ⟨h1, h2⟩ | ⟨h1, h2⟩
  · have h3 := (C66_log_partial t0 ht hm hm' hy).1 h1 h2
    have hl := le_max_right (E.tol / 10) 6
    have h4 : |1 - y| ≤ 1 / 100 :=
      le_trans h2.le (le_trans (zpow_le_zpow_right₀ (by norm_num) (show _ ≤ (-2 : ℤ) by omega)) (by norm_num))
    have h5 := abs_le.1 h4
    have h6 : |Real.log y| ≤ 1 := by
      rw [abs_le]
      constructor
      · have := Real.one_sub_inv_le_log_of_pos hy
        have : y⁻¹ ≤ 2 := by
          rw [inv_le_comm₀ hy (by norm_num)]; linarith
        linarith
      · have := Real.log_le_sub_one_of_pos hy
        linarith
    nlinarith
  · exact C66_log14_partial t0 ht hm hm' hy h1 h2

theorem asinh_unfold (E : RealEnv) (x : ℝ) : Fn.asinh (realArith E) x =
    if x = 0 then 0 else if ¬x < 0 then Fn.log (realArith E) (|x| + Real.sqrt (x * x + 1))
      else -Fn.log (realArith E) (|x| + Real.sqrt (x * x + 1)) := by
  unfold Fn.asinh
  simp only [Bool.not_eq_true']
  ra_simp
  rw [if_neg (by simp)]

theorem acosh_unfold (E : RealEnv) {x : ℝ} (hx : 1 ≤ x) : Fn.acosh (realArith E) x =
    if ordR (x - 1) < -max (E.tol / 10) 6 then
      Real.sqrt 2 * Real.sqrt (x - 1) * Fn.hyp2f1 (realArith E) (1 / 2) (1 / 2) (3 / 2) (-(x - 1) / 2)
    else Fn.log (realArith E) (x + Real.sqrt (x * x - 1)) := by
  unfold Fn.acosh
  simp only [Bool.not_eq_true', Bool.or_eq_true]
  ra_simp
  rw [if_neg (by simp), if_neg (by rintro (h | h) <;> linarith), if_neg (by simp)]
  norm_num

theorem atanh_unfold (E : RealEnv) {x : ℝ} (hx : |x| < 1) : Fn.atanh (realArith E) x =
    if ordR x < -max (E.tol / 10) 6 then Fn.log1p1m2 (realArith E) x
    else Fn.log (realArith E) ((1 + x) / (1 - x)) / 2 := by
  unfold Fn.atanh
  simp only [Bool.not_eq_true']
  ra_simp
  rw [if_neg (by simp), if_neg (by linarith), if_pos (by have := abs_nonneg x; linarith)]
  norm_num

/-- C70 in exact arithmetic, inverse hyperbolic sine: absolute error at most `6001 * 10^-tolerance`, provided the logarithm
of `|x| + sqrt(x^2 + 1)` is accurate (see C66). -/
theorem C70_asinh_partial {E : RealEnv} (t0 : 10 ≤ E.tol) (ht : E.tol ≤ 29990) (hm : E.maxExp ≤ 2 ^ 62) (hm' : 10000 ≤ E.maxExp)
    {x : ℝ} (hl : x ≠ 0 → LogFine E (|x| + Real.sqrt (x ^ 2 + 1))) :
    |Real.arsinh x - Fn.asinh (realArith E) x| ≤ 6001 * (10 : ℝ) ^ (-E.tol) := by
  rw [asinh_unfold]
  by_cases h0 : x = 0
  · rw [if_pos h0, h0, Real.arsinh_zero, sub_self, abs_zero]; positivity
  rw [if_neg h0, show x * x = x ^ 2 by ring]
  have yp : 0 < |x| + Real.sqrt (x ^ 2 + 1) := by positivity
  have h := log_fine t0 ht hm hm' yp (hl h0)
  have e : Real.log (|x| + Real.sqrt (x ^ 2 + 1)) = Real.arsinh |x| := by
    unfold Real.arsinh; rw [sq_abs, add_comm (1 : ℝ)]
  rw [e] at h
  by_cases hn : x < 0
  · rw [if_neg (by simpa using hn)]
    rw [show Real.arsinh |x| = -Real.arsinh x by rw [abs_of_neg hn, Real.arsinh_neg]] at h
    rw [sub_neg_eq_add, ← abs_neg, neg_add, ← sub_eq_add_neg]
    exact h
  · rw [if_pos hn]
    rw [show Real.arsinh |x| = Real.arsinh x by rw [abs_of_nonneg (not_lt.1 hn)]] at h
    exact h

theorem arcosh_half {x : ℝ} (h : 1 ≤ x) : Real.arcosh x = 2 * Real.arsinh (Real.sqrt ((x - 1) / 2)) := by
  have sq := Real.sq_sqrt (show 0 ≤ (x - 1) / 2 by linarith)
  have c : Real.cosh (2 * Real.arsinh (Real.sqrt ((x - 1) / 2))) = x := by
    rw [Real.cosh_two_mul, Real.cosh_sq, Real.sinh_arsinh, sq]; ring
  have h2 : 0 ≤ Real.arsinh (Real.sqrt ((x - 1) / 2)) := Real.arsinh_nonneg_iff.2 (Real.sqrt_nonneg _)
  have := Real.arcosh_cosh (x := 2 * Real.arsinh (Real.sqrt ((x - 1) / 2))) (by linarith)
  rwa [c] at this

/-- C70 in exact arithmetic, inverse hyperbolic cosine: relative error at most `3 * 10^-tolerance` close to one, otherwise
absolute error at most `6001 * 10^-tolerance` if the logarithm is accurate. -/
theorem C70_acosh_partial {E : RealEnv} (t0 : 10 ≤ E.tol) (ht : E.tol ≤ 29990) (hm : E.maxExp ≤ 2 ^ 62) (hm' : 10000 ≤ E.maxExp)
    {x : ℝ} (hx : 1 ≤ x) :
    (x ≠ 1 → x - 1 < (10 : ℝ) ^ (-max (E.tol / 10) 6) →
      |Real.arcosh x - Fn.acosh (realArith E) x| ≤ 3 * (10 : ℝ) ^ (-E.tol) * Real.arcosh x) ∧
    (x = 1 ∨ (10 : ℝ) ^ (-max (E.tol / 10) 6) ≤ x - 1 → LogFine E (x + Real.sqrt (x ^ 2 - 1)) →
      |Real.arcosh x - Fn.acosh (realArith E) x| ≤ 6001 * (10 : ℝ) ^ (-E.tol)) := by
  have tp : (0 : ℝ) < (10 : ℝ) ^ (-E.tol) := by positivity
  have hl := le_max_right (E.tol / 10) 6
  rw [acosh_unfold E hx]
  constructor
  · intro h1 h2
    have d0 : 0 < x - 1 := by
      have := lt_of_le_of_ne hx (Ne.symm h1)
      linarith
    rw [if_pos ((ordR_lt d0.ne').2 (by rwa [abs_of_pos d0]))]
    set y := Real.sqrt ((x - 1) / 2) with hy
    have sq : y * y = (x - 1) / 2 := Real.mul_self_sqrt (by linarith)
    have y0 : 0 < y := Real.sqrt_pos.2 (by linarith)
    have ds : x - 1 ≤ 1 / 10000 :=
      le_trans h2.le (le_trans (zpow_le_zpow_right₀ (by norm_num) (show _ ≤ (-6 : ℤ) by omega)) (by norm_num))
    have ys : y ≤ 2 / 100 := by nlinarith
    have r := hyp2f1_real E (1 / 2) (1 / 2) (3 / 2) (-(x - 1) / 2)
    have ez : -(x - 1) / 2 = -(y * y) := by rw [sq]; ring
    rw [ez] at r ⊢
    have h := arsinh_series ht y0 ys r
    have e : Real.sqrt 2 * Real.sqrt (x - 1) = 2 * y := by
      rw [← Real.sqrt_mul (by norm_num), show 2 * (x - 1) = (2 * y) ^ 2 by nlinarith]
      exact Real.sqrt_sq (by linarith)
    rw [e, arcosh_half hx, ← hy]
    rw [show ∀ b c : ℝ, 2 * b - 2 * y * c = 2 * (b - y * c) by intros; ring, abs_mul, abs_two]
    have h7 := mul_le_mul_of_nonneg_left h.2 tp.le
    have h8 : 0 < (10 : ℝ) ^ (-E.tol) * y := by positivity
    linarith [h.1]
  · intro h1 h2
    have no : ¬ordR (x - 1) < -max (E.tol / 10) 6 := by
      rcases h1 with h1 | h1
      · rw [h1, sub_self, ordR_zero]; omega
      · intro ho
        have d0 : 0 < x - 1 := lt_of_lt_of_le (by positivity) h1
        have := (ordR_lt d0.ne').1 ho
        rw [abs_of_pos d0] at this
        linarith
    rw [if_neg no, show x * x = x ^ 2 by ring]
    exact log_fine t0 ht hm hm' (by positivity) h2

/-- C70 in exact arithmetic, inverse hyperbolic tangent: relative error at most `3 * 10^-tolerance` for small arguments,
otherwise absolute error at most `3001 * 10^-tolerance` if the logarithm is accurate. -/
theorem C70_atanh_partial {E : RealEnv} (t0 : 10 ≤ E.tol) (ht : E.tol ≤ 29990) (hm : E.maxExp ≤ 2 ^ 62) (hm' : 10000 ≤ E.maxExp)
    {x : ℝ} (hx : |x| < 1) :
    (x ≠ 0 → |x| < (10 : ℝ) ^ (-max (E.tol / 10) 6) →
      |Real.artanh x - Fn.atanh (realArith E) x| ≤ 3 * (10 : ℝ) ^ (-E.tol) * |Real.artanh x|) ∧
    (x = 0 ∨ (10 : ℝ) ^ (-max (E.tol / 10) 6) ≤ |x| → LogFine E ((1 + x) / (1 - x)) →
      |Real.artanh x - Fn.atanh (realArith E) x| ≤ 3001 * (10 : ℝ) ^ (-E.tol)) := by
  have hl := le_max_right (E.tol / 10) 6
  have tp : (0 : ℝ) < (10 : ℝ) ^ (-E.tol) := by positivity
  have hh := abs_lt.1 hx
  rw [atanh_unfold E hx]
  constructor
  · intro h0 h1
    rw [if_pos ((ordR_lt h0).2 h1)]
    exact log1p1m2_near (by omega) ht h0
      (le_trans h1.le (le_trans (zpow_le_zpow_right₀ (by norm_num) (show _ ≤ (-3 : ℤ) by omega)) (by norm_num)))
  · intro h1 h2
    have no : ¬ordR x < -max (E.tol / 10) 6 := by
      rcases h1 with h1 | h1
      · rw [h1, ordR_zero]; omega
      · intro ho
        have x0 : x ≠ 0 := abs_pos.1 (lt_of_lt_of_le (by positivity) h1)
        have := (ordR_lt x0).1 ho
        linarith
    rw [if_neg no, Real.artanh_eq_half_log ⟨by linarith, by linarith⟩]
    have h := log_fine t0 ht hm hm' (div_pos (by linarith) (by linarith)) h2
    rw [show ∀ a b : ℝ, 1 / 2 * a - b / 2 = (a - b) / 2 by intros; ring, abs_div, abs_two]
    linarith

/-- The hypotheses hold for the argument 1 at 101 digits. -/
example (E : RealEnv) (h : E.tol = 112) (hm : E.maxExp = 4944763834) :
    |Real.cosh 1 - Fn.cosh (realArith E) 1| ≤ 4800 * (10 : ℝ) ^ (-112 : ℤ) * Real.cosh 1 := by
  have := (C69_hyperbolic_partial (E := E) (x := 1) (by omega) (by omega) (by rw [hm]; norm_num) (by rw [hm]; norm_num) (by
    intro n _ hn
    have l1 := Real.log_two_gt_d9
    have l2 := Real.log_two_lt_d9
    rcases lt_trichotomy n 1 with h | h | h
    · have : (n : ℝ) ≤ 0 := by exact_mod_cast (by omega : n ≤ 0)
      nlinarith
    · rw [h] at hn; norm_num at hn; linarith
    · have : (2 : ℝ) ≤ n := by exact_mod_cast h
      nlinarith)).1
  rwa [h] at this

end EFX.Props
