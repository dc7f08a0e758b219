import Verif.Props.Hyperbolic
/-! C72: roots; C73: the angle of a point. -/

namespace EFX

/-- Newton for the reciprocal root, in terms of the relative error `e`. -/
theorem rootStep_near {e : ℝ} {p : ℕ} (hp : 2 ≤ p) (he : p * |e| ≤ 1 / 10) :
    |(1 + e) * ((-(1 + e) ^ p + 1) / p + 1) - 1| ≤ 2 * p * e ^ 2 := by
  have p2 : (2 : ℝ) ≤ p := by exact_mod_cast hp
  have e1 : |e| ≤ 1 / 20 := by nlinarith [abs_nonneg e]
  have e2 := abs_le.1 e1
  have b1 : 1 + p * e ≤ (1 + e) ^ p := one_add_mul_le_pow (by linarith) p
  have b2 : (1 + e) ^ p ≤ 1 + p * e + (p * e) ^ 2 := by
    have h1 : (1 + e) ^ p ≤ Real.exp (p * e) := by
      have := pow_le_pow_left₀ (by linarith) (Real.add_one_le_exp e) p
      rw [← Real.exp_nat_mul, add_comm] at this
      exact this
    have h2 := Real.abs_exp_sub_one_sub_id_le (x := p * e) (by
      rw [abs_mul, abs_of_nonneg (by linarith : (0 : ℝ) ≤ p)]; linarith)
    have := (abs_le.1 h2).2
    linarith
  generalize (1 + e) ^ p = W at *
  have q : 0 ≤ e ^ 2 := sq_nonneg e
  have c1 : (-W + 1) / p + 1 ≤ 1 - e := by
    have : (-W + 1) / p ≤ -e := by rw [div_le_iff₀ (by linarith)]; linarith
    linarith
  have c2 : 1 - e - p * e ^ 2 ≤ (-W + 1) / p + 1 := by
    have : -e - p * e ^ 2 ≤ (-W + 1) / p := by rw [le_div_iff₀ (by linarith)]; nlinarith
    linarith
  generalize (-W + 1) / p + 1 = T at *
  rw [abs_le]
  constructor
  · have := mul_le_mul_of_nonneg_left c2 (by linarith : 0 ≤ 1 + e)
    nlinarith [mul_nonneg q (by linarith : (0 : ℝ) ≤ p)]
  · have := mul_le_mul_of_nonneg_left c1 (by linarith : 0 ≤ 1 + e)
    nlinarith [mul_nonneg q (by linarith : (0 : ℝ) ≤ p)]

end EFX

namespace EFX.Props
open EFX

/-- The starting estimate of the reciprocal root has a relative error of at most `10^-12 / (2 p)`. -/
def RootStart (E : RealEnv) (x : ℝ) (p : ℕ) : Prop :=
  2 * p * |E.rootn0 x p * x ^ ((1 : ℝ) / p) - 1| ≤ (10 : ℝ) ^ (-12 : ℤ)

theorem rootnInv_near {E : RealEnv} (ht : E.tol ≤ 2 ^ 30) {x : ℝ} (hx : 0 < x) {p : ℕ} (hp : 3 ≤ p) (hp2 : p < 2 ^ 31)
    (hs : RootStart E x p) :
    2 * p * |Fn.rootnInv (realArith E) x p * x ^ ((1 : ℝ) / p) - 1| ≤ (10 : ℝ) ^ (-E.tol) := by
  have p3 : (3 : ℝ) ≤ p := by exact_mod_cast hp
  have Rp : 0 < x ^ ((1 : ℝ) / p) := Real.rpow_pos_of_pos hx _
  have RR : (x ^ ((1 : ℝ) / p)) ^ p = x := by
    rw [← Real.rpow_natCast, ← Real.rpow_mul hx.le, one_div_mul_cancel (by positivity), Real.rpow_one]
  unfold RootStart at hs
  unfold Fn.rootnInv
  ra_simp
  generalize x ^ ((1 : ℝ) / p) = R at *
  suffices hst : ∀ (k : ℕ) (d : ℤ) (v : ℝ), 2 * p * |v * R - 1| ≤ (10 : ℝ) ^ (-((12 * 2 ^ k : ℕ) : ℤ)) →
      2 * p * |v * ((-Fn.pown (realArith E) v p * x + 1) / ((p : ℤ) : ℝ) + 1) * R - 1| ≤ (10 : ℝ) ^ (-((12 * 2 ^ (k + 1) : ℕ) : ℤ)) by
    obtain ⟨K, _, k2, k3⟩ := digitLoop_inv E
      (fun d r => r * ((-Fn.pown (realArith E) r p * x + 1) / ((p : ℤ) : ℝ) + 1))
      (fun k v => 2 * p * |v * R - 1| ≤ (10 : ℝ) ^ (-((12 * 2 ^ k : ℕ) : ℤ))) hst 32 0 12 (E.rootn0 x p) (by norm_num)
      (by omega) (by simpa using hs)
    refine le_trans k3 (zpow_le_zpow_right₀ (by norm_num) ?_)
    simp only [Nat.sub_zero] at k2
    push_cast
    omega
  intro k d v hv
  have a2 : (10 : ℝ) ^ (-((12 * 2 ^ (k + 1) : ℕ) : ℤ)) = (10 : ℝ) ^ (-((12 * 2 ^ k : ℕ) : ℤ)) * (10 : ℝ) ^ (-((12 * 2 ^ k : ℕ) : ℤ)) := by
    rw [← zpow_add₀ (by norm_num)]
    congr 1
    push_cast
    ring
  have a1 : (10 : ℝ) ^ (-((12 * 2 ^ k : ℕ) : ℤ)) ≤ 1 / 10 := by
    refine le_trans (zpow_le_zpow_right₀ (by norm_num) (?_ : _ ≤ (-1 : ℤ))) (by norm_num)
    have := Nat.one_le_two_pow (n := k)
    omega
  rw [ra_pown E v (by omega), zpow_natCast, a2]
  generalize (10 : ℝ) ^ (-((12 * 2 ^ k : ℕ) : ℤ)) = u at *
  obtain ⟨e, rfl⟩ : ∃ e, v = (1 + e) / R := ⟨v * R - 1, by field_simp; ring⟩
  have e1 : (1 + e) / R * R - 1 = e := by field_simp; ring
  rw [e1] at hv
  have e2 : ((1 + e) / R) ^ p * x = (1 + e) ^ p := by
    rw [div_pow, RR]; field_simp
  have h := rootStep_near (e := e) (p := p) (by omega) (by nlinarith [abs_nonneg e])
  have e3 : (1 + e) / R * ((-((1 + e) / R) ^ p * x + 1) / (((p : ℕ) : ℤ) : ℝ) + 1) * R - 1 =
      (1 + e) * ((-(1 + e) ^ p + 1) / p + 1) - 1 := by
    rw [neg_mul, e2]
    push_cast
    field_simp
  rw [e3]
  have h2 : (2 * p * |e|) * (2 * p * |e|) ≤ u * u := mul_le_mul hv hv (by positivity) (by
    refine le_trans ?_ hv; positivity)
  have h3 := mul_le_mul_of_nonneg_left h (by positivity : (0 : ℝ) ≤ 2 * p)
  rw [← sq_abs e] at h3
  nlinarith

/-- From the relative error of the reciprocal to that of the root. -/
theorem root_of_inv {R v ε : ℝ} (hR : 0 < R) (h : |v * R - 1| ≤ ε) (h1 : ε ≤ 1 / 100) :
    |1 / R - v| ≤ ε * (1 / R) ∧ |R - v⁻¹| ≤ (102 / 100) * ε * R := by
  have h0 := abs_nonneg (v * R - 1)
  have e1 : 1 / R - v = -(v * R - 1) * (1 / R) := by field_simp; ring
  refine ⟨?_, ?_⟩
  · rw [e1, abs_mul, abs_neg, abs_of_pos (by positivity : 0 < 1 / R)]
    exact mul_le_mul_of_nonneg_right h (by positivity)
  · have hv := abs_le.1 h
    have vp : 0 < v := by
      by_contra hc
      have : v * R ≤ 0 := mul_nonpos_of_nonpos_of_nonneg (not_lt.1 hc) hR.le
      linarith
    have e2 : R - v⁻¹ = (v * R - 1) / (v * R) * R := by field_simp
    rw [e2, abs_mul, abs_of_pos hR, abs_div, abs_of_pos (mul_pos vp hR)]
    apply mul_le_mul_of_nonneg_right _ hR.le
    rw [div_le_iff₀ (mul_pos vp hR)]
    nlinarith

/-- C72 in exact arithmetic: for positive arguments the roots and their reciprocals have relative errors of at most
`2 * 10^-tolerance` for every index, also negative ones, given the starting estimate. -/
theorem C72_rootn_partial {E : RealEnv} (t0 : 2 ≤ E.tol) (ht : E.tol ≤ 2 ^ 30) {x : ℝ} (hx : 0 < x) {p : ℕ} (hp : 0 < p) (hp2 : p < 2 ^ 31) :
    (RootStart E x p ∨ p ≤ 2 → |x ^ ((1 : ℝ) / p) - Fn.rootn (realArith E) x p| ≤ 2 * (10 : ℝ) ^ (-E.tol) * x ^ ((1 : ℝ) / p)) ∧
    (RootStart E (1 / x) p ∨ p ≤ 2 →
      |x ^ (-(1 : ℝ) / p) - Fn.rootn (realArith E) x (-p)| ≤ 2 * (10 : ℝ) ^ (-E.tol) * x ^ (-(1 : ℝ) / p)) ∧
    (2 ≤ p → RootStart E x p ∨ p = 2 →
      |x ^ (-(1 : ℝ) / p) - Fn.rootnInverse (realArith E) x p| ≤ 2 * (10 : ℝ) ^ (-E.tol) * x ^ (-(1 : ℝ) / p)) ∧
    Fn.rootnInverse (realArith E) x (-p) = x ^ p := by
  have tp : (0 : ℝ) < (10 : ℝ) ^ (-E.tol) := by positivity
  have tl : (10 : ℝ) ^ (-E.tol) ≤ 1 / 10 ^ 2 :=
    le_trans (zpow_le_zpow_right₀ (by norm_num) (show _ ≤ (-2 : ℤ) by omega)) (by norm_num)
  have np : ∀ y : ℝ, 0 < y → y ^ (-(1 : ℝ) / p) = 1 / y ^ ((1 : ℝ) / p) := by
    intro y hy
    rw [neg_div, Real.rpow_neg hy.le, one_div (y ^ _)]
  have npos : ∀ y : ℝ, 0 < y → RootStart E y p ∨ p ≤ 2 →
      |y ^ ((1 : ℝ) / p) - Fn.rootnPos (realArith E) y p| ≤ 2 * (10 : ℝ) ^ (-E.tol) * y ^ ((1 : ℝ) / p) := by
    intro y hy hs
    have Yp : 0 < y ^ ((1 : ℝ) / p) := Real.rpow_pos_of_pos hy _
    have pos : 0 ≤ 2 * (10 : ℝ) ^ (-E.tol) * y ^ ((1 : ℝ) / p) := by positivity
    unfold Fn.rootnPos
    simp only [Bool.not_eq_true']
    ra_simp
    rw [if_neg (by simp), if_neg (by push Not; exact ⟨by exact_mod_cast hp.ne', hy.le⟩)]
    by_cases h1 : p = 1
    · rw [if_pos (by exact_mod_cast h1), h1]
      rw [h1] at pos
      simpa using pos
    rw [if_neg (by exact_mod_cast h1)]
    by_cases h2 : p = 2
    · rw [if_pos (by exact_mod_cast h2), h2, Real.sqrt_eq_rpow]
      rw [h2] at pos
      simpa using pos
    rw [if_neg (by exact_mod_cast h2)]
    have h := rootnInv_near ht hy (by omega) hp2 (hs.resolve_right (by omega))
    have p3 : (3 : ℝ) ≤ p := by exact_mod_cast (by omega : 3 ≤ p)
    refine le_trans (root_of_inv Yp (ε := (10 : ℝ) ^ (-E.tol)) (by nlinarith [abs_nonneg (Fn.rootnInv (realArith E) y p * y ^ ((1 : ℝ) / p) - 1)]) (by linarith)).2 ?_
    have := mul_pos tp Yp
    linarith
  have Yp : 0 < x ^ ((1 : ℝ) / p) := Real.rpow_pos_of_pos hx _
  refine ⟨fun hs => ?_, fun hs => ?_, fun h2 hs => ?_, ?_⟩
  · unfold Fn.rootn
    simp only [Bool.not_eq_true']
    ra_simp
    rw [if_neg (by simp), if_neg (by omega)]
    exact npos x hx hs
  · unfold Fn.rootn
    simp only [Bool.not_eq_true']
    ra_simp
    rw [if_neg (by simp), if_pos (by omega), neg_neg]
    have := npos (1 / x) (by positivity) hs
    rw [Real.div_rpow (by norm_num) hx.le, Real.one_rpow] at this
    rw [np x hx]
    exact this
  · rw [np x hx]
    have pos : 0 < (10 : ℝ) ^ (-E.tol) * (1 / x ^ ((1 : ℝ) / p)) := by positivity
    unfold Fn.rootnInverse
    simp only [Bool.not_eq_true']
    ra_simp
    rw [if_neg (by simp), if_neg (by omega), if_neg (by push Not; exact ⟨by exact_mod_cast hp.ne', hx.le⟩),
      if_neg (by omega)]
    by_cases h3 : p = 2
    · rw [if_pos (by exact_mod_cast h3), Real.sqrt_eq_rpow, h3]
      rw [h3] at pos
      push_cast at pos ⊢
      rw [sub_self, abs_zero]
      linarith
    rw [if_neg (by exact_mod_cast h3)]
    have h := rootnInv_near ht hx (by omega) hp2 (hs.resolve_right h3)
    have p3 : (3 : ℝ) ≤ p := by exact_mod_cast (by omega : 3 ≤ p)
    refine le_trans (root_of_inv Yp (ε := (10 : ℝ) ^ (-E.tol)) (by nlinarith [abs_nonneg (Fn.rootnInv (realArith E) x p * x ^ ((1 : ℝ) / p) - 1)]) (by linarith)).1 ?_
    linarith
  · unfold Fn.rootnInverse
    simp only [Bool.not_eq_true']
    ra_simp
    rw [if_neg (by simp), if_pos (by omega), neg_neg, ra_pown E x (by omega), zpow_natCast]

/-- A case: the cube root of eight from the estimate one half. -/
example {E : RealEnv} (t0 : E.tol = 112) (h : E.rootn0 8 3 = 1 / 2) : |2 - Fn.cbrt (realArith E) 8| ≤ 4 * (10 : ℝ) ^ (-112 : ℤ) := by
  have e : (8 : ℝ) ^ ((1 : ℝ) / 3) = 2 := by
    rw [show (8 : ℝ) = 2 ^ (3 : ℝ) by norm_num, ← Real.rpow_mul (by norm_num)]; norm_num
  have := (C72_rootn_partial (E := E) (x := 8) (p := 3) (by omega) (by omega) (by norm_num) (by norm_num) (by norm_num)).1 (Or.inl (by
    unfold RootStart
    push_cast
    rw [e, h]
    norm_num))
  push_cast at this
  rw [e, t0] at this
  unfold Fn.cbrt
  linarith

/-- C72 refuted: `rootn_inverse(x, 1)` is `x`, not `1 / x`; odd roots of negative numbers are NaN. -/
theorem C72_rootn_refuted (E : RealEnv) {x : ℝ} (hx : 0 < x) :
    Fn.rootnInverse (realArith E) x 1 = x ∧ Fn.cbrt (realArith E) (-x) = E.nan := by
  constructor
  · unfold Fn.rootnInverse
    simp only [Bool.not_eq_true']
    ra_simp
    rw [if_neg (by simp), if_neg (by norm_num), if_neg (by push Not; exact ⟨by norm_num, hx.le⟩), if_pos (by norm_num)]
  · unfold Fn.cbrt Fn.rootn Fn.rootnPos
    simp only [Bool.not_eq_true']
    ra_simp
    rw [if_neg (by simp), if_neg (by norm_num), if_neg (by simp), if_pos (Or.inr (by linarith))]

/-! ## The angle of a point -/

theorem arg_eq_arctan {x y : ℝ} (hx : x ≠ 0) : Complex.arg (⟨x, y⟩ : ℂ) =
    if 0 < x then Real.arctan (y / x) else if 0 ≤ y then Real.arctan (y / x) + Real.pi else Real.arctan (y / x) - Real.pi := by
  have hn : ‖(⟨x, y⟩ : ℂ)‖ = |x| * Real.sqrt (1 + (y / x) ^ 2) := by
    rw [← Real.sqrt_sq_eq_abs, ← Real.sqrt_mul (sq_nonneg x), Complex.norm_def, Complex.normSq_mk]
    congr 1
    field_simp
  have sp : 0 < Real.sqrt (1 + (y / x) ^ 2) := Real.sqrt_pos.2 (by positivity)
  rw [Real.arctan_eq_arcsin]
  unfold Complex.arg
  rw [hn]
  simp only [Complex.neg_im]
  rcases lt_or_gt_of_ne hx with h | h
  · rw [if_neg (show ¬0 ≤ x by linarith), if_neg (show ¬0 < x by linarith), abs_of_neg h]
    have e : -y / (-x * Real.sqrt (1 + (y / x) ^ 2)) = y / x / Real.sqrt (1 + (y / x) ^ 2) := by
      rw [neg_mul, neg_div_neg_eq, div_div]
    rw [e]
  · rw [if_pos h.le, if_pos h, abs_of_pos h, div_div]

/-- C73 in exact arithmetic: `atan2(y, x)` is the angle of the point `(x, y)`, in `(-pi, pi]`, with the error of `atan`;
the origin gives zero.  The quotient must not lie in the range where `atan` is wrong (`C67_negative_refuted`). -/
theorem C73_atan2_partial {E : RealEnv} (t0 : 30 ≤ E.tol) (ht : E.tol ≤ 29990)
    (hs : ∀ y, 0 < y → y < 100 → |E.atan0 y - Real.arctan y| ≤ (10 : ℝ) ^ (-15 : ℤ)) {x y : ℝ}
    (hq : ¬(y / x < 0 ∧ max (E.tol / 10) 6 < ordR (y / x) ∧ ordR (y / x) ≤ E.tol)) :
    |Complex.arg (⟨x, y⟩ : ℂ) - Fn.atan2 (realArith E) y x| ≤ 4 * (10 : ℝ) ^ (9 - E.tol) := by
  have pos : (0 : ℝ) ≤ 4 * (10 : ℝ) ^ (9 - E.tol) := by positivity
  have h := (C67_atan_partial t0 ht hs hq).1
  unfold Fn.atan2
  simp only [Bool.not_eq_true', Bool.or_eq_true]
  ra_simp
  rw [if_neg (by simp)]
  by_cases y0 : y = 0
  · rw [if_pos y0, y0]
    rcases lt_or_ge x 0 with h1 | h1
    · rw [if_pos h1]
      have : (⟨x, 0⟩ : ℂ) = (x : ℂ) := rfl
      rw [this, Complex.arg_ofReal_of_neg h1, sub_self, abs_zero]
      exact pos
    · rw [if_neg (by linarith)]
      have : (⟨x, 0⟩ : ℂ) = (x : ℂ) := rfl
      rw [this, Complex.arg_ofReal_of_nonneg h1, sub_self, abs_zero]
      exact pos
  rw [if_neg y0]
  by_cases x0 : x = 0
  · rw [if_pos x0, x0]
    unfold Fn.sgn
    ra_simp
    rw [if_neg y0]
    rcases lt_or_gt_of_ne y0 with h1 | h1
    · rw [if_pos h1, Complex.arg_eq_neg_pi_div_two_iff.2 ⟨rfl, h1⟩]
      push_cast
      rw [show -(Real.pi / 2) - Real.pi / 2 * -1 = 0 by ring, abs_zero]
      exact pos
    · rw [if_neg (by linarith), Complex.arg_eq_pi_div_two_iff.2 ⟨rfl, h1⟩]
      push_cast
      rw [mul_one, sub_self, abs_zero]
      exact pos
  rw [if_neg x0, arg_eq_arctan x0]
  have sg : ∀ z : ℝ, ((realArith E).isneg z = true) = (z < 0) := ra_isneg E
  have key : ((realArith E).isneg y = (realArith E).isneg x) ↔ (y < 0 ↔ x < 0) := by
    rw [Bool.eq_iff_iff, sg, sg]
  simp only [key]
  rcases lt_or_gt_of_ne x0 with h1 | h1 <;> rcases lt_or_gt_of_ne y0 with h2 | h2
  · rw [if_neg (by linarith), if_neg (by linarith), if_pos (by simp [h1, h2]), if_pos h1, sub_sub_sub_cancel_right]
    exact h
  · rw [if_neg (by linarith), if_pos h2.le, if_neg (by simp [h1, h2.le]), if_pos h1, add_sub_add_right_eq_sub]
    exact h
  · rw [if_pos h1, if_neg (by simp [h1.le, h2]), if_neg (by linarith)]
    exact h
  · rw [if_pos h1, if_pos (by constructor <;> intro <;> linarith), if_neg (by linarith)]
    exact h

/-- C73 refuted: for a point far up on the left or far down on the right the result is wrong by pi. -/
theorem C73_steep_refuted {E : RealEnv} (t0 : 30 ≤ E.tol) (ht : E.tol ≤ 29990) {x y : ℝ} (hx : 0 < x) (hy : y < 0)
    (h1 : max (E.tol / 10) 6 < ordR (y / x)) (h2 : ordR (y / x) ≤ E.tol) :
    |Complex.arg (⟨x, y⟩ : ℂ) + Real.pi - Fn.atan2 (realArith E) y x| ≤ 3 * (10 : ℝ) ^ (-E.tol) := by
  have h := C67_negative_refuted t0 ht (div_neg_of_neg_of_pos hy hx) h1 h2
  unfold Fn.atan2
  simp only [Bool.not_eq_true', Bool.or_eq_true]
  ra_simp
  rw [if_neg (by simp), if_neg hy.ne, if_neg hx.ne', arg_eq_arctan hx.ne', if_pos hx]
  have sg : ∀ z : ℝ, ((realArith E).isneg z = true) = (z < 0) := ra_isneg E
  have key : ((realArith E).isneg y = (realArith E).isneg x) ↔ (y < 0 ↔ x < 0) := by
    rw [Bool.eq_iff_iff, sg, sg]
  simp only [key]
  rw [if_neg (by simp [hx.le, hy]), if_neg (by linarith)]
  exact h

/-- A case: the point (1, -10^20), with 30 digits. -/
example {E : RealEnv} (t0 : E.tol = 34) :
    |Complex.arg (⟨1, -10 ^ 20⟩ : ℂ) + Real.pi - Fn.atan2 (realArith E) (-10 ^ 20) 1| ≤ 3 * (10 : ℝ) ^ (-E.tol) := by
  have e : ordR (-10 ^ 20 / 1) = 20 := by
    have : (-10 ^ 20 / 1 : ℝ) ≠ 0 := by norm_num
    have a : (20 : ℤ) ≤ ordR (-10 ^ 20 / 1) := by
      by_contra hc
      have := (ordR_lt this).1 (not_le.1 hc)
      norm_num at this
    have b : ordR (-10 ^ 20 / 1) < 21 := (ordR_lt this).2 (by norm_num)
    omega
  exact C73_steep_refuted (by omega) (by omega) (by norm_num) (by norm_num) (by rw [e, t0]; norm_num) (by rw [e, t0]; norm_num)

end EFX.Props
