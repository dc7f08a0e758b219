import Mathlib.Analysis.SpecialFunctions.Complex.Arctan
import Verif.Props.Trig
import Verif.Props.Log
/-! C67: the arc tangent. -/

namespace EFX
open Finset

/-- As `series_near`, for a series that begins with one. -/
theorem series_near1 {E : RealEnv} (ht : E.tol ≤ 29990) {t : ℕ → ℝ} {r L : ℝ} (hs : SeriesOf E t r) (hL : HasSum t L)
    (z : t 0 = 1) (ne : t 9999 ≠ 0) (h1 : |t 1| ≤ 2 / 1000) (hr : ∀ i, 1 ≤ i → |t (i + 1)| ≤ |t i| / 1000) :
    |L - r| ≤ (22 / 10) * (10 : ℝ) ^ (-E.tol) ∧ |L - r| ≤ 4 / 1000 ∧ |L - 1| ≤ 4 / 1000 := by
  have hl : |L - 1| ≤ 4 / 1000 := by
    have := tail_le hL (m := 1) (fun i hi => by
      have := hr i (by omega)
      have := abs_nonneg (t i)
      linarith)
    rw [psum_succ, z] at this
    simp only [psum, Finset.range_zero, Finset.sum_empty, zero_add] at this
    linarith
  have hl2 := abs_le.1 hl
  have lp : 0 < L := by linarith
  have h := series_near ht hs hL ne h1 hr (by rw [abs_of_pos lp]; linarith) (by rw [abs_of_pos lp]; linarith)
  exact ⟨h.1, h.2, hl⟩

theorem poch_half_three (n : ℕ) : poch (1 / 2) n * (2 * n + 1) = poch (3 / 2) n := by
  induction n with
  | zero => simp [poch_zero]
  | succ n ih =>
    rw [poch_succ, poch_succ, ← ih]
    push_cast
    ring

theorem poch_pos {b : ℝ} (hb : 0 < b) (n : ℕ) : 0 < poch b n := by
  unfold poch
  exact Finset.prod_pos (fun i _ => by positivity)

theorem t2f1_atan (y : ℝ) (n : ℕ) : t2f1 1 (1 / 2) (3 / 2) y n = y ^ n / (2 * n + 1) := by
  unfold t2f1 xn
  rw [poch_one_fact, ← poch_half_three]
  have h1 : (n.factorial : ℝ) ≠ 0 := by exact_mod_cast n.factorial_ne_zero
  have h2 := (poch_pos (b := 1 / 2) (by norm_num) n).ne'
  have h3 : 2 * (n : ℝ) + 1 ≠ 0 := by positivity
  field_simp

theorem t2f1_comm (a b c y : ℝ) (n : ℕ) : t2f1 a b c y n = t2f1 b a c y n := by
  unfold t2f1; ring

theorem hasSum_atan {y : ℝ} (h0 : y ≠ 0) (h1 : |y| < 1) : HasSum (t2f1 1 (1 / 2) (3 / 2) (-(y * y))) (Real.arctan y / y) := by
  have h := (Real.hasSum_arctan (x := y) h1).div_const y
  refine h.congr_fun ?_
  intro n
  rw [t2f1_atan, neg_eq_neg_one_mul, mul_pow, show 2 * n + 1 = n + n + 1 by ring, pow_succ, pow_add, mul_pow]
  push_cast
  field_simp
  ring

/-- The series of the arc tangent, divided by the argument. -/
theorem atan_series {E : RealEnv} (ht : E.tol ≤ 29990) {y r : ℝ} (h0 : y ≠ 0) (h1 : |y| ≤ 2 / 100)
    (hr : SeriesOf E (t2f1 1 (1 / 2) (3 / 2) (-(y * y))) r) :
    |Real.arctan y - y * r| ≤ (22 / 10) * (10 : ℝ) ^ (-E.tol) * |y| ∧ 99 / 100 * |y| ≤ |Real.arctan y| := by
  have yp : 0 < |y| := abs_pos.2 h0
  have y2 : |-(y * y)| ≤ 4 / 10000 := by
    rw [abs_neg, abs_mul]; nlinarith
  have ny : -(y * y) ≠ 0 := neg_ne_zero.2 (mul_ne_zero h0 h0)
  have near := series_near1 ht hr (hasSum_atan h0 (by linarith)) (by rw [t2f1_atan]; simp) (by
      rw [t2f1_atan]
      exact div_ne_zero (pow_ne_zero _ ny) (by positivity)) (by
      rw [t2f1_atan, pow_one, abs_div]
      norm_num at y2 ⊢
      linarith) (by
      intro i hi
      rw [t2f1_atan, t2f1_atan, abs_div, abs_div, abs_pow, abs_pow, pow_succ]
      rw [abs_of_pos (by positivity : (0 : ℝ) < 2 * (i : ℝ) + 1), abs_of_pos (by positivity : (0 : ℝ) < 2 * ((i + 1 : ℕ) : ℝ) + 1)]
      push_cast
      rw [div_div, div_le_div_iff₀ (by positivity) (by positivity)]
      have hp : 0 ≤ |-(y * y)| ^ i := by positivity
      have hi0 : (0 : ℝ) ≤ i := by positivity
      have e1 : |-(y * y)| ^ i * |-(y * y)| * ((2 * (i : ℝ) + 1) * 1000) = |-(y * y)| ^ i * ((|-(y * y)| * 1000) * (2 * (i : ℝ) + 1)) := by ring
      rw [e1]
      apply mul_le_mul_of_nonneg_left _ hp
      nlinarith)
  have hq := abs_le.1 near.2.2
  constructor
  · have e : Real.arctan y - y * r = (Real.arctan y / y - r) * y := by field_simp
    rw [e, abs_mul]
    exact mul_le_mul_of_nonneg_right near.1 yp.le
  · have e : |Real.arctan y| = |Real.arctan y / y| * |y| := by
      rw [← abs_mul]; congr 1; field_simp
    rw [e, abs_of_pos (by linarith : 0 < Real.arctan y / y)]
    nlinarith

theorem atanZero_near {E : RealEnv} (ht : E.tol ≤ 29990) {x : ℝ} (h0 : x ≠ 0) (h1 : |x| ≤ 2 / 100) :
    |Real.arctan x - Fn.atanZero (realArith E) x| ≤ (22 / 10) * (10 : ℝ) ^ (-E.tol) * |x| ∧ 99 / 100 * |x| ≤ |Real.arctan x| := by
  unfold Fn.atanZero
  ra_simp
  exact atan_series ht h0 h1 (hyp2f1_real E _ _ _ _)

/-- The series at infinity yields `pi/2 - atan(1/x)`. -/
theorem atanInf_near {E : RealEnv} (ht : E.tol ≤ 29990) {x : ℝ} (h1 : 100 ≤ |x|) :
    |Real.pi / 2 - Real.arctan x⁻¹ - Fn.atanInf (realArith E) x| ≤ (22 / 10) * (10 : ℝ) ^ (-E.tol) * |x|⁻¹ := by
  have xp : 0 < |x| := by linarith
  have x0 : x ≠ 0 := abs_pos.1 xp
  have hy : |x⁻¹| ≤ 2 / 100 := by
    rw [abs_inv, inv_le_comm₀ xp (by norm_num)]
    norm_num; linarith
  unfold Fn.atanInf
  ra_simp
  have h := hyp2f1_real E (1 / 2) 1 (3 / 2) (-1 / (x * x))
  have e : (-1 / (x * x)) = -(x⁻¹ * x⁻¹) := by field_simp
  rw [e] at h ⊢
  have hc : t2f1 (1 / 2) 1 (3 / 2) (-(x⁻¹ * x⁻¹)) = t2f1 1 (1 / 2) (3 / 2) (-(x⁻¹ * x⁻¹)) := by
    funext n; exact t2f1_comm _ _ _ _ _
  rw [hc] at h
  have := (atan_series ht (inv_ne_zero x0) hy h).1
  rw [abs_inv] at this
  rw [show ∀ a b c : ℝ, a - b - (a - c / x) = -(b - x⁻¹ * c) by intros; field_simp; ring, abs_neg]
  exact this

/-! ## Newton's iteration -/

theorem sin_sub_bound {ε : ℝ} (h : |ε| ≤ 1) : |ε - Real.sin ε * Real.cos ε| ≤ ε ^ 2 := by
  have key : ∀ e : ℝ, 0 < e → e ≤ 1 → |e - Real.sin e * Real.cos e| ≤ e ^ 2 := by
    intro e h0 h1
    have e2 : Real.sin e * Real.cos e = Real.sin (2 * e) / 2 := by rw [Real.sin_two_mul]; ring
    have l := Real.sin_gt_sub_cube (x := 2 * e) (by linarith)
    have u := Real.sin_lt (x := 2 * e) (by linarith)
    rw [e2, abs_le]
    constructor
    · nlinarith
    · have : e ^ 3 ≤ e ^ 2 := by nlinarith [sq_nonneg e]
      nlinarith
  rcases lt_trichotomy ε 0 with h0 | h0 | h0
  · rw [abs_of_neg h0] at h
    have := key (-ε) (by linarith) h
    rw [Real.sin_neg, Real.cos_neg, neg_sq] at this
    rw [show ε - Real.sin ε * Real.cos ε = -(-ε - -Real.sin ε * Real.cos ε) by ring, abs_neg]
    exact this
  · rw [h0]; simp
  · rw [abs_of_pos h0] at h
    exact key ε h0 h

/-- One step of the iteration with approximations `C` and `S` of cosine and sine, for an error `p + 3A` that is small against
`1 / (1 + x)`. -/
theorem atan_newton {x w p A C S : ℝ} (hx : 0 < x) (p0 : 0 ≤ p) (Ap : 0 < A)
    (hp : (1 + x) * p ≤ 1 / 100) (hA : (1 + x) * A ≤ 1 / 100) (hv : |w - Real.arctan x| ≤ p + 3 * A)
    (ha : |Real.cos w - C| ≤ A) (hb2 : |Real.sin w - S| ≤ A) :
    |w + C * (x * C - S) - Real.arctan x| ≤ (1 + x) * p ^ 2 + 23 / 10 * A ∧ |x * C - S| ≤ 1 / 10 ∧ 9 / 10 ≤ (1 + x) * C := by
  -- exact quantities
  have c0 : 0 < Real.cos (Real.arctan x) := Real.cos_arctan_pos x
  have st : Real.sin (Real.arctan x) = x * Real.cos (Real.arctan x) := by
    have := Real.tan_arctan x
    rw [Real.tan_eq_sin_div_cos, div_eq_iff c0.ne'] at this
    exact this
  have pyth := Real.sin_sq_add_cos_sq (Real.arctan x)
  have cx : 1 ≤ (1 + x) * Real.cos (Real.arctan x) := by
    rw [st] at pyth
    nlinarith [mul_pos hx c0, mul_pos (mul_pos hx c0) c0]
  have s1 := Real.sin_le_one (Real.arctan x)
  generalize Real.arctan x = θ at *
  obtain ⟨ε, rfl⟩ : ∃ ε, w = θ + ε := ⟨w - θ, by ring⟩
  rw [add_sub_cancel_left] at hv
  have e0 := abs_nonneg ε
  have eb : (1 + x) * |ε| ≤ 1 / 20 := by
    have := mul_le_mul_of_nonneg_left hv (by linarith : 0 ≤ 1 + x)
    nlinarith
  have e1 : |ε| ≤ 1 / 20 := by nlinarith
  have cc := Real.cos_add θ ε
  have ss := Real.sin_add θ ε
  have dc := Real.abs_cos_sub_cos_le (θ + ε) θ
  rw [add_sub_cancel_left] at dc
  have sle := Real.abs_sin_le_abs (x := ε)
  have scb := sin_sub_bound (ε := ε) (by linarith)
  -- `w = x cos v - sin v`
  have hw : (x * Real.cos (θ + ε) - Real.sin (θ + ε)) * Real.cos θ = -Real.sin ε := by
    have p2 := Real.sin_sq_add_cos_sq θ
    rw [cc, ss]
    rw [st] at p2 ⊢
    linear_combination (-Real.sin ε) * p2
  have main : Real.cos (θ + ε) * (x * Real.cos (θ + ε) - Real.sin (θ + ε)) = -Real.sin ε * Real.cos ε + x * Real.sin ε ^ 2 := by
    have : Real.cos (θ + ε) = Real.cos θ * (Real.cos ε - x * Real.sin ε) := by rw [cc, st]; ring
    rw [this] at hw ⊢
    linear_combination (Real.cos ε - x * Real.sin ε) * hw
  have wb : |x * Real.cos (θ + ε) - Real.sin (θ + ε)| ≤ (1 + x) * |ε| := by
    have h1 : |x * Real.cos (θ + ε) - Real.sin (θ + ε)| * Real.cos θ = |Real.sin ε| := by
      rw [← abs_of_pos c0, ← abs_mul, hw, abs_neg]
    have h2 := abs_nonneg (x * Real.cos (θ + ε) - Real.sin (θ + ε))
    calc |x * Real.cos (θ + ε) - Real.sin (θ + ε)| ≤ |x * Real.cos (θ + ε) - Real.sin (θ + ε)| * ((1 + x) * Real.cos θ) := le_mul_of_one_le_right h2 cx
      _ = (1 + x) * |Real.sin ε| := by rw [← h1]; ring
      _ ≤ (1 + x) * |ε| := mul_le_mul_of_nonneg_left sle (by linarith)
  have xc : x * |Real.cos (θ + ε)| ≤ 1 + x * |ε| := by
    have h1 : |Real.cos (θ + ε)| ≤ Real.cos θ + |ε| := by
      have := abs_sub_abs_le_abs_sub (Real.cos (θ + ε)) (Real.cos θ)
      rw [abs_of_pos c0] at this
      linarith
    nlinarith
  have c1 := Real.abs_cos_le_one (θ + ε)
  generalize Real.cos (θ + ε) = c at *
  generalize Real.sin (θ + ε) = s at *
  generalize Real.sin ε = σ at *
  generalize Real.cos ε = κ at *
  have split : θ + ε + C * (x * C - S) - θ = (ε - σ * κ) + x * σ ^ 2 +
      ((C - c) * (x * c - s) + c * (x * (C - c) - (S - s)) + (C - c) * (x * (C - c) - (S - s))) := by
    linear_combination main
  rw [abs_sub_comm] at ha hb2
  have b1 : |(C - c) * (x * c - s)| ≤ A * (1 / 20) := by
    rw [abs_mul]
    exact mul_le_mul ha (by linarith) (abs_nonneg _) Ap.le
  have b2 : |c * (x * (C - c) - (S - s))| ≤ (21 / 20) * A + A := by
    rw [show c * (x * (C - c) - (S - s)) = x * c * (C - c) - c * (S - s) by ring]
    refine le_trans (abs_sub _ _) ?_
    rw [abs_mul, abs_mul, abs_mul, abs_of_pos hx]
    have h1 : x * |c| * |C - c| ≤ (21 / 20) * A := mul_le_mul (by linarith) ha (abs_nonneg _) (by norm_num)
    have h2 : |c| * |S - s| ≤ 1 * A := mul_le_mul c1 hb2 (abs_nonneg _) (by norm_num)
    linarith
  have b3 : |(C - c) * (x * (C - c) - (S - s))| ≤ A * (1 / 100) := by
    rw [abs_mul]
    apply mul_le_mul ha _ (abs_nonneg _) Ap.le
    refine le_trans (abs_sub _ _) ?_
    rw [abs_mul, abs_of_pos hx]
    have := mul_le_mul_of_nonneg_left ha hx.le
    linarith
  have b4 : x * σ ^ 2 ≤ x * ε ^ 2 := by
    apply mul_le_mul_of_nonneg_left _ hx.le
    rw [← sq_abs σ, ← sq_abs ε]
    exact pow_le_pow_left₀ (abs_nonneg _) sle 2
  have b5 : (1 + x) * ε ^ 2 ≤ (1 + x) * p ^ 2 + (15 / 100) * A := by
    have h1 : ε ^ 2 ≤ (p + 3 * A) ^ 2 := by
      rw [← sq_abs]; exact pow_le_pow_left₀ e0 hv 2
    have h2 := mul_le_mul_of_nonneg_left h1 (by linarith : 0 ≤ 1 + x)
    have h3 : (1 + x) * (p + 3 * A) ^ 2 = (1 + x) * p ^ 2 + 6 * A * ((1 + x) * p) + 9 * A * ((1 + x) * A) := by ring
    have h4 : 6 * A * ((1 + x) * p) ≤ 6 * A * (1 / 100) := mul_le_mul_of_nonneg_left hp (by linarith)
    have h5 : 9 * A * ((1 + x) * A) ≤ 9 * A * (1 / 100) := mul_le_mul_of_nonneg_left hA (by linarith)
    linarith
  have t1 := abs_add_le ((ε - σ * κ) + x * σ ^ 2)
    ((C - c) * (x * c - s) + c * (x * (C - c) - (S - s)) + (C - c) * (x * (C - c) - (S - s)))
  have t2 := abs_add_le (ε - σ * κ) (x * σ ^ 2)
  have t3 := abs_add_le ((C - c) * (x * c - s) + c * (x * (C - c) - (S - s))) ((C - c) * (x * (C - c) - (S - s)))
  have t4 := abs_add_le ((C - c) * (x * c - s)) (c * (x * (C - c) - (S - s)))
  rw [abs_of_nonneg (by positivity : 0 ≤ x * σ ^ 2)] at t2
  refine ⟨by rw [split]; linarith, ?_, ?_⟩
  · rw [show x * C - S = (x * c - s) + (x * (C - c) - (S - s)) by ring]
    have h1 := abs_add_le (x * c - s) (x * (C - c) - (S - s))
    have h2 := abs_sub (x * (C - c)) (S - s)
    rw [abs_mul, abs_of_pos hx] at h2
    have h3 := mul_le_mul_of_nonneg_left ha hx.le
    linarith
  · have h1 := (abs_le.1 ha).1
    have h2 := (abs_le.1 dc).1
    have h3 : (1 + x) * (Real.cos θ - |ε| - A) ≤ (1 + x) * C := mul_le_mul_of_nonneg_left (by linarith) (by linarith)
    have h4 : (1 + x) * (Real.cos θ - |ε| - A) = (1 + x) * Real.cos θ - (1 + x) * |ε| - (1 + x) * A := by ring
    linarith

/-- One step of the iteration, for an error `p + 3A` that is small against `1 / (1 + x)`. -/
theorem atanStep_near {E : RealEnv} (t0 : 30 ≤ E.tol) (ht : E.tol ≤ 29990) {x v p : ℝ} (hx : 0 < x) (p0 : 0 ≤ p)
    (hp : (1 + x) * p ≤ 1 / 100) (hA : (1 + x) * (10 : ℝ) ^ (9 - E.tol) ≤ 1 / 100)
    (hv : |v - Real.arctan x| ≤ p + 3 * (10 : ℝ) ^ (9 - E.tol)) :
    |Fn.atanStep (realArith E) x v - Real.arctan x| ≤ (1 + x) * p ^ 2 + 3 * (10 : ℝ) ^ (9 - E.tol) := by
  have ha := (Props.C64_cos_partial (E := E) (by omega) (by omega) v).1
  have hb := Props.C64_sin_partial (E := E) (by omega) (by omega) v
  have Ap : (0 : ℝ) < (10 : ℝ) ^ (9 - E.tol) := by positivity
  have hb2 : |Real.sin v - Fn.sin (realArith E) v| ≤ (10 : ℝ) ^ (9 - E.tol) := by
    refine le_trans hb ?_
    have e9 : (10 : ℝ) ^ (9 - E.tol) = 1000000000 * (10 : ℝ) ^ (-E.tol) := by
      rw [sub_eq_add_neg, zpow_add₀ (by norm_num)]; norm_num
    have tp : (0 : ℝ) < (10 : ℝ) ^ (-E.tol) := by positivity
    have := Real.abs_sin_le_one v
    rw [e9]
    nlinarith
  unfold Fn.atanStep
  ra_simp
  generalize Fn.cos (realArith E) v = C at *
  generalize Fn.sin (realArith E) v = S at *
  have := (atan_newton hx p0 Ap hp hA hv ha hb2).1
  linarith

end EFX

namespace EFX.Props
open EFX

theorem lim_room {t : ℤ} (h : 30 ≤ t) : max (t / 10) 6 + 13 ≤ t := by omega

/-- The iteration for a positive argument of middle size. -/
theorem atanNewton_near {E : RealEnv} (t0 : 30 ≤ E.tol) (ht : E.tol ≤ 29990) {x v0 : ℝ} (hx : 0 < x)
    (hu : ordR x ≤ max (E.tol / 10) 6)
    (h0 : (ordR x < 2 ∧ |v0 - Real.arctan x| ≤ (10 : ℝ) ^ (-15 : ℤ)) ∨ |v0 - Real.arctan x| ≤ 3 * (10 : ℝ) ^ (9 - E.tol)) :
    |Fn.digitLoop (realArith E) (fun _ v => Fn.atanStep (realArith E) x v) 32 12 v0 - Real.arctan x| ≤ 4 * (10 : ℝ) ^ (9 - E.tol) := by
  have Ap : (0 : ℝ) < (10 : ℝ) ^ (9 - E.tol) := by positivity
  have hA : (1 + x) * (10 : ℝ) ^ (9 - E.tol) ≤ 1 / 100 := by
    have h1 := lt_ordR hx.ne'
    rw [abs_of_pos hx] at h1
    have h2 : (10 : ℝ) ^ (ordR x + 1) ≤ (10 : ℝ) ^ (max (E.tol / 10) 6 + 1) := zpow_le_zpow_right₀ (by norm_num) (by omega)
    have h3 : (1 : ℝ) ≤ (10 : ℝ) ^ (max (E.tol / 10) 6 + 1) := one_le_zpow₀ (by norm_num) (by omega)
    have h4 : (10 : ℝ) ^ (max (E.tol / 10) 6 + 1) * (10 : ℝ) ^ (9 - E.tol) ≤ (10 : ℝ) ^ (-3 : ℤ) := by
      rw [← zpow_add₀ (by norm_num)]
      exact zpow_le_zpow_right₀ (by norm_num) (by have := lim_room t0; omega)
    have h5 : (1 + x) * (10 : ℝ) ^ (9 - E.tol) ≤ (2 * (10 : ℝ) ^ (max (E.tol / 10) 6 + 1)) * (10 : ℝ) ^ (9 - E.tol) :=
      mul_le_mul_of_nonneg_right (by linarith) Ap.le
    norm_num at h4
    linarith
  rcases h0 with ⟨h2, h0⟩ | h0
  · have x100 : x < 100 := by
      have := ordR_lt_small hx h2
      norm_num at this
      exact this
    have aq : ∀ k : ℕ, (10 : ℝ) ^ (-((12 * 2 ^ k : ℕ) : ℤ)) ≤ 1 / 100 := by
      intro k
      have : 1 ≤ 2 ^ k := Nat.one_le_two_pow
      refine le_trans (zpow_le_zpow_right₀ (by norm_num) (show _ ≤ (-2 : ℤ) by omega)) (by norm_num)
    have hst : ∀ (k : ℕ) (d : ℤ) (v : ℝ), |v - Real.arctan x| ≤ (10 : ℝ) ^ (-((12 * 2 ^ k : ℕ) : ℤ)) / 101 + 3 * (10 : ℝ) ^ (9 - E.tol) →
        |(fun (_ : ℤ) v => Fn.atanStep (realArith E) x v) d v - Real.arctan x| ≤
          (10 : ℝ) ^ (-((12 * 2 ^ (k + 1) : ℕ) : ℤ)) / 101 + 3 * (10 : ℝ) ^ (9 - E.tol) := by
      intro k d v hv
      have qp : (0 : ℝ) < (10 : ℝ) ^ (-((12 * 2 ^ k : ℕ) : ℤ)) := by positivity
      have q1 := aq k
      have a2 : (10 : ℝ) ^ (-((12 * 2 ^ (k + 1) : ℕ) : ℤ)) = (10 : ℝ) ^ (-((12 * 2 ^ k : ℕ) : ℤ)) * (10 : ℝ) ^ (-((12 * 2 ^ k : ℕ) : ℤ)) := by
        rw [← zpow_add₀ (by norm_num)]
        congr 1
        push_cast
        ring
      rw [a2]
      generalize (10 : ℝ) ^ (-((12 * 2 ^ k : ℕ) : ℤ)) = q at *
      have := atanStep_near t0 ht hx (by positivity : 0 ≤ q / 101) (by nlinarith) hA hv
      refine le_trans this ?_
      have : (1 + x) * (q / 101) ^ 2 ≤ 101 * (q / 101) ^ 2 := mul_le_mul_of_nonneg_right (by linarith) (by positivity)
      nlinarith
    have h00 : |v0 - Real.arctan x| ≤ (10 : ℝ) ^ (-((12 * 2 ^ 0 : ℕ) : ℤ)) / 101 + 3 * (10 : ℝ) ^ (9 - E.tol) := by
      rw [pow_zero, mul_one]
      have : (10 : ℝ) ^ (-15 : ℤ) ≤ (10 : ℝ) ^ (-((12 : ℕ) : ℤ)) / 101 := by norm_num
      refine le_trans h0 (le_trans this ?_)
      exact le_add_of_nonneg_right (by positivity)
    obtain ⟨K, _, k2, k3⟩ := digitLoop_inv E (fun _ v => Fn.atanStep (realArith E) x v)
      (fun k v => |v - Real.arctan x| ≤ (10 : ℝ) ^ (-((12 * 2 ^ k : ℕ) : ℤ)) / 101 + 3 * (10 : ℝ) ^ (9 - E.tol)) hst 32 0 12 v0
      (by norm_num) (by omega) h00
    refine le_trans k3 ?_
    have : (10 : ℝ) ^ (-((12 * 2 ^ K : ℕ) : ℤ)) ≤ (10 : ℝ) ^ (9 - E.tol) := by
      apply zpow_le_zpow_right₀ (by norm_num)
      push_cast
      rw [Nat.sub_zero] at k2
      omega
    linarith
  · have hst : ∀ (k : ℕ) (d : ℤ) (v : ℝ), |v - Real.arctan x| ≤ 3 * (10 : ℝ) ^ (9 - E.tol) →
        |(fun (_ : ℤ) v => Fn.atanStep (realArith E) x v) d v - Real.arctan x| ≤ 3 * (10 : ℝ) ^ (9 - E.tol) := by
      intro k d v hv
      have := atanStep_near t0 ht hx (le_refl (0 : ℝ)) (by norm_num) hA (by rw [zero_add]; exact hv)
      simpa using this
    obtain ⟨K, _, k2, k3⟩ := digitLoop_inv E (fun _ v => Fn.atanStep (realArith E) x v)
      (fun k v => |v - Real.arctan x| ≤ 3 * (10 : ℝ) ^ (9 - E.tol)) hst 32 0 12 v0 (by norm_num) (by omega) h0
    linarith

theorem atan_unfold (E : RealEnv) (x : ℝ) : Fn.atan (realArith E) x =
    if ordR x > E.tol then (if ¬x < 0 then Real.pi / 2 else -(Real.pi / 2))
    else if x = 0 then 0
    else if ordR x < -max (E.tol / 10) 6 then Fn.atanZero (realArith E) x
    else if max (E.tol / 10) 6 < ordR x then Fn.atanInf (realArith E) x
    else if ¬x < 0 then Fn.digitLoop (realArith E) (fun _ v => Fn.atanStep (realArith E) |x| v) 32 12
        (if ordR x < 2 then E.atan0 |x| else Fn.atanInf (realArith E) |x|)
      else -Fn.digitLoop (realArith E) (fun _ v => Fn.atanStep (realArith E) |x| v) 32 12
        (if ordR x < 2 then E.atan0 |x| else Fn.atanInf (realArith E) |x|) := by
  unfold Fn.atan
  simp only [Bool.not_eq_true']
  ra_simp
  rw [if_neg (by simp)]
  by_cases hx : x < 0
  · simp [hx, abs_of_neg hx]
  · simp [hx, abs_of_nonneg (not_lt.1 hx)]

theorem arctan_big {x : ℝ} (hx : 0 < x) : |Real.arctan x - Real.pi / 2| ≤ x⁻¹ := by
  have h := Real.arctan_inv_of_pos hx
  have h2 : Real.arctan x⁻¹ ≤ x⁻¹ := by
    have ip : 0 < x⁻¹ := by positivity
    have a0 : 0 < Real.arctan x⁻¹ := by simpa using ip
    have h3 := Real.le_tan a0.le (Real.arctan_lt_pi_div_two _)
    rwa [Real.tan_arctan] at h3
  have h4 : 0 < Real.arctan x⁻¹ := by simpa using hx
  rw [abs_le]
  constructor <;> linarith

/-- C67 in exact arithmetic.  If the double precision arc tangent of numbers below 100 is good to `10^-15`, the error of
`atan` is at most `4 * 10^(9 - tolerance)`, except for negative arguments of an order above `max(tolerance/10, 6)` and up
to `tolerance`. Below `10^-max(tolerance/10, 6)` the relative error is at most `3 * 10^-tolerance`. -/
theorem C67_atan_partial {E : RealEnv} (t0 : 30 ≤ E.tol) (ht : E.tol ≤ 29990)
    (hs : ∀ y, 0 < y → y < 100 → |E.atan0 y - Real.arctan y| ≤ (10 : ℝ) ^ (-15 : ℤ)) {x : ℝ}
    (hx : ¬(x < 0 ∧ max (E.tol / 10) 6 < ordR x ∧ ordR x ≤ E.tol)) :
    |Real.arctan x - Fn.atan (realArith E) x| ≤ 4 * (10 : ℝ) ^ (9 - E.tol) ∧
    (|x| < (10 : ℝ) ^ (-max (E.tol / 10) 6) → |Real.arctan x - Fn.atan (realArith E) x| ≤ 3 * (10 : ℝ) ^ (-E.tol) * |Real.arctan x|) := by
  have Ap : (0 : ℝ) < (10 : ℝ) ^ (9 - E.tol) := by positivity
  have tp : (0 : ℝ) < (10 : ℝ) ^ (-E.tol) := by positivity
  have e9 : (10 : ℝ) ^ (9 - E.tol) = 1000000000 * (10 : ℝ) ^ (-E.tol) := by
    rw [sub_eq_add_neg, zpow_add₀ (by norm_num)]; norm_num
  have hl := le_max_right (E.tol / 10) 6
  rw [atan_unfold]
  by_cases h0 : x = 0
  · rw [h0, ordR_zero, if_neg (by omega), if_pos rfl, Real.arctan_zero, sub_self, abs_zero]
    exact ⟨by positivity, fun _ => by positivity⟩
  have xp : 0 < |x| := abs_pos.2 h0
  -- sizes
  have sz : |x| < (10 : ℝ) ^ (-max (E.tol / 10) 6) ↔ ordR x < -max (E.tol / 10) 6 := (ordR_lt h0).symm
  by_cases h1 : ordR x > E.tol
  · rw [if_pos h1]
    refine ⟨?_, fun h => by have := sz.1 h; have := lim_room t0; omega⟩
    have big : (10 : ℝ) ^ (E.tol) ≤ |x| := le_trans (zpow_le_zpow_right₀ (by norm_num) (by omega)) (ordR_le h0)
    have inv : |x|⁻¹ ≤ (10 : ℝ) ^ (-E.tol) := by
      rw [zpow_neg]; exact inv_anti₀ (by positivity) big
    have := arctan_big xp
    by_cases hn : x < 0
    · rw [if_neg (by simpa using hn)]
      rw [abs_of_neg hn, Real.arctan_neg] at this
      rw [show Real.arctan x - -(Real.pi / 2) = -(-Real.arctan x - Real.pi / 2) by ring, abs_neg]
      rw [abs_of_neg hn] at inv
      linarith
    · rw [if_pos hn]
      rw [abs_of_nonneg (not_lt.1 hn)] at this inv
      linarith
  rw [if_neg h1, if_neg h0]
  by_cases h2 : ordR x < -max (E.tol / 10) 6
  · rw [if_pos h2]
    have small : |x| ≤ 2 / 100 := by
      refine le_trans ((ordR_lt h0).1 h2).le (le_trans (zpow_le_zpow_right₀ (by norm_num) (show _ ≤ (-2 : ℤ) by omega)) (by norm_num))
    have h := atanZero_near ht h0 small
    constructor
    · refine le_trans h.1 ?_
      nlinarith
    · intro _
      refine le_trans h.1 ?_
      have h5 : |x| ≤ 100 / 99 * |Real.arctan x| := by linarith [h.2]
      have h6 := mul_le_mul_of_nonneg_left h5 (by positivity : 0 ≤ 22 / 10 * (10 : ℝ) ^ (-E.tol))
      have h7 : 0 ≤ (10 : ℝ) ^ (-E.tol) * |Real.arctan x| := by positivity
      linarith
  rw [if_neg h2]
  refine ⟨?_, fun h => absurd (sz.1 h) h2⟩
  by_cases h3 : max (E.tol / 10) 6 < ordR x
  · rw [if_pos h3]
    have xpos : 0 < x := by
      by_contra hn
      exact hx ⟨lt_of_le_of_ne (not_lt.1 hn) h0, h3, by omega⟩
    have big : 100 ≤ |x| := by
      refine le_trans ?_ (ordR_le h0)
      refine le_trans (by norm_num : (100 : ℝ) ≤ (10 : ℝ) ^ (2 : ℤ)) (zpow_le_zpow_right₀ (by norm_num) (by omega))
    have h := atanInf_near ht big
    rw [Real.arctan_inv_of_pos xpos, sub_sub_cancel] at h
    refine le_trans h ?_
    have inv : |x|⁻¹ ≤ 1 := inv_le_one_of_one_le₀ (by linarith)
    nlinarith
  rw [if_neg h3]
  have o : ordR |x| = ordR x := by
    unfold ordR
    by_cases hz : x = 0
    · exact absurd hz h0
    · rw [if_neg hz, if_neg xp.ne', abs_abs]
  have key : abs (Fn.digitLoop (realArith E) (fun _ v => Fn.atanStep (realArith E) |x| v) 32 12
        (if ordR x < 2 then E.atan0 |x| else Fn.atanInf (realArith E) |x|) - Real.arctan |x|) ≤ 4 * (10 : ℝ) ^ (9 - E.tol) := by
    apply atanNewton_near t0 ht xp (by rw [o]; omega)
    by_cases h4 : ordR x < 2
    · rw [if_pos h4]
      left
      refine ⟨by rw [o]; exact h4, hs _ xp ?_⟩
      have := (ordR_lt h0).1 h4
      norm_num at this
      exact this
    · rw [if_neg h4]
      right
      have big : 100 ≤ |(|x|)| := by
        rw [abs_abs]
        refine le_trans ?_ (ordR_le h0)
        refine le_trans (by norm_num : (100 : ℝ) ≤ (10 : ℝ) ^ (2 : ℤ)) (zpow_le_zpow_right₀ (by norm_num) (by omega))
      have h := atanInf_near ht big
      rw [Real.arctan_inv_of_pos xp, sub_sub_cancel, abs_abs, abs_sub_comm] at h
      refine le_trans h ?_
      rw [abs_abs] at big
      have inv : |x|⁻¹ ≤ 1 := inv_le_one_of_one_le₀ (by linarith)
      nlinarith
  by_cases hn : x < 0
  · rw [if_neg (by simpa using hn)]
    rw [show Real.arctan x = -Real.arctan |x| by rw [abs_of_neg hn, Real.arctan_neg, neg_neg]]
    rw [neg_sub_neg]
    exact key
  · rw [if_pos hn]
    rw [show Real.arctan x = Real.arctan |x| by rw [abs_of_nonneg (not_lt.1 hn)], abs_sub_comm]
    exact key

/-- C67 refuted: for negative arguments of an order above `max(tolerance/10, 6)` and up to `tolerance` the result is
larger by pi than the arc tangent. -/
theorem C67_negative_refuted {E : RealEnv} (t0 : 30 ≤ E.tol) (ht : E.tol ≤ 29990) {x : ℝ} (hx : x < 0)
    (h1 : max (E.tol / 10) 6 < ordR x) (h2 : ordR x ≤ E.tol) :
    |Real.arctan x + Real.pi - Fn.atan (realArith E) x| ≤ 3 * (10 : ℝ) ^ (-E.tol) := by
  have tp : (0 : ℝ) < (10 : ℝ) ^ (-E.tol) := by positivity
  have hl := le_max_right (E.tol / 10) 6
  rw [atan_unfold, if_neg (by omega), if_neg hx.ne, if_neg (by omega), if_pos h1]
  have big : 100 ≤ |x| := by
    refine le_trans ?_ (ordR_le hx.ne)
    refine le_trans (by norm_num : (100 : ℝ) ≤ (10 : ℝ) ^ (2 : ℤ)) (zpow_le_zpow_right₀ (by norm_num) (by omega))
  have h := atanInf_near ht big
  rw [Real.arctan_inv_of_neg hx] at h
  rw [show Real.pi / 2 - (-(Real.pi / 2) - Real.arctan x) = Real.arctan x + Real.pi by ring] at h
  refine le_trans h ?_
  have inv : |x|⁻¹ ≤ 1 := inv_le_one_of_one_le₀ (by linarith)
  nlinarith

/-- The hypotheses hold at 101 digits (tolerance 112) for the argument 5. -/
example (E : RealEnv) (h : E.tol = 112) (hs : ∀ y, 0 < y → y < 100 → |E.atan0 y - Real.arctan y| ≤ (10 : ℝ) ^ (-15 : ℤ)) :
    |Real.arctan 5 - Fn.atan (realArith E) 5| ≤ 4 * (10 : ℝ) ^ (-103 : ℤ) := by
  have := (C67_atan_partial (E := E) (x := 5) (by omega) (by omega) hs (by norm_num)).1
  rwa [h] at this

end EFX.Props
