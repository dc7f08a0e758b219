import Verif.Props.Hyperbolic
/-! C71: powers with a real exponent. -/

namespace EFX
open Finset

/-- If the terms fall at least by the factor `z` from `m` on, the sum differs from the partial sum by at most
`|a m| / (1 - z)`. -/
theorem tail_geo {a : ℕ → ℝ} {L z : ℝ} (z0 : 0 ≤ z) (z1 : z < 1) (h : HasSum a L) {m : ℕ}
    (hr : ∀ i, m ≤ i → |a (i + 1)| ≤ z * |a i|) : |L - psum a m| ≤ |a m| / (1 - z) := by
  have ht := h.tendsto_sum_nat
  have ht2 : Filter.Tendsto (fun j => psum a (m + j)) Filter.atTop (nhds L) := by
    have := ht.comp (Filter.tendsto_add_atTop_nat m)
    refine this.congr fun j => ?_
    simp only [Function.comp, psum]
    rw [add_comm]
  have hd : ∀ j, |a (m + j)| ≤ |a m| * z ^ j := by
    intro j
    induction j with
    | zero => simp
    | succ j ih =>
      have := hr (m + j) (by omega)
      rw [pow_succ, ← add_assoc]
      nlinarith
  have := dist_le_of_le_geometric_of_tendsto z |a m| z1 (f := fun j => psum a (m + j)) (fun j => by
    rw [Real.dist_eq, ← add_assoc, psum_succ]
    rw [show psum a (m + j) - (psum a (m + j) + a (m + j)) = -a (m + j) by ring, abs_neg]
    exact hd j) ht2 0
  rw [Real.dist_eq, abs_sub_comm] at this
  simpa using this

theorem t1f0_succ (b z : ℝ) (n : ℕ) : t1f0 b z (n + 1) = t1f0 b z n * ((b + n) / (n + 1) * z) := by
  unfold t1f0
  rw [poch_succ, ← xn_step]
  push_cast
  ring

theorem t1f0_ratio {b z : ℝ} (hb : |b| < 1) (z0 : 0 ≤ z) (n : ℕ) : |t1f0 b z (n + 1)| ≤ z * |t1f0 b z n| := by
  have hb := abs_lt.1 hb
  rw [t1f0_succ, abs_mul, abs_mul, abs_of_nonneg z0, abs_div]
  have n0 : (0 : ℝ) ≤ n := by positivity
  have h1 : |b + n| / |(n : ℝ) + 1| ≤ 1 := by
    rw [div_le_one (abs_pos.2 (by positivity)), abs_of_pos (by positivity : (0 : ℝ) < (n : ℝ) + 1), abs_le]
    constructor <;> linarith
  have h2 := mul_le_mul_of_nonneg_right h1 z0
  have h3 := mul_le_mul_of_nonneg_left h2 (abs_nonneg (t1f0 b z n))
  linarith

/-- The terms after the first have the sign of `b`. -/
theorem t1f0_sign {b z : ℝ} (hb : -1 < b) (z0 : 0 ≤ z) (n : ℕ) : 0 ≤ b * t1f0 b z (n + 1) := by
  induction n with
  | zero =>
    unfold t1f0
    rw [poch_one, xn_one]
    have := mul_self_nonneg b
    nlinarith [mul_nonneg this z0]
  | succ n ih =>
    rw [t1f0_succ, ← mul_assoc]
    have n0 : (0 : ℝ) ≤ n := by positivity
    push_cast
    have : 0 ≤ (b + ((n : ℝ) + 1)) / ((n : ℝ) + 1 + 1) * z := mul_nonneg (div_nonneg (by linarith) (by positivity)) z0
    exact mul_nonneg ih this

/-- The partial sums lie between one and the value. -/
theorem psum_between {b z L : ℝ} (hb : |b| < 1) (z0 : 0 ≤ z) (hL : HasSum (t1f0 b z) L) (m : ℕ) (hm : 1 ≤ m) :
    (0 ≤ b → 1 ≤ psum (t1f0 b z) m ∧ psum (t1f0 b z) m ≤ L) ∧ (b < 0 → L ≤ psum (t1f0 b z) m ∧ psum (t1f0 b z) m ≤ 1) := by
  have hb' := abs_lt.1 hb
  have zero : psum (t1f0 b z) 1 = 1 := by
    rw [psum_succ]; simp [psum, t1f0, poch_zero, xn_zero]
  have lim : Filter.Tendsto (fun n => psum (t1f0 b z) n) Filter.atTop (nhds L) := hL.tendsto_sum_nat
  constructor
  · intro h
    have pos : ∀ n, 0 ≤ t1f0 b z (n + 1) := by
      intro n
      rcases h.eq_or_lt with h | h
      · have : ∀ n, t1f0 b z (n + 1) = 0 := by
          intro n
          induction n with
          | zero => unfold t1f0; rw [poch_one, ← h, zero_mul]
          | succ n ih => rw [t1f0_succ, ih, zero_mul]
        exact (this n).ge
      · exact nonneg_of_mul_nonneg_right (t1f0_sign hb'.1 z0 n) h
    have mono : ∀ n, 1 ≤ n → ∀ k, n ≤ k → psum (t1f0 b z) n ≤ psum (t1f0 b z) k := by
      intro n hn k hk
      induction k, hk using Nat.le_induction with
      | base => exact le_refl _
      | succ k hk ih =>
        rw [psum_succ]
        obtain ⟨j, rfl⟩ : ∃ j, k = j + 1 := ⟨k - 1, by omega⟩
        have := pos j
        linarith
    refine ⟨by rw [← zero]; exact mono 1 (le_refl _) m hm, ?_⟩
    exact ge_of_tendsto lim (Filter.eventually_atTop.2 ⟨m, fun k hk => mono m hm k hk⟩)
  · intro h
    have neg : ∀ n, t1f0 b z (n + 1) ≤ 0 := by
      intro n
      have := t1f0_sign hb'.1 z0 n
      by_contra hc
      have := mul_neg_of_neg_of_pos h (not_le.1 hc)
      linarith
    have mono : ∀ n, 1 ≤ n → ∀ k, n ≤ k → psum (t1f0 b z) k ≤ psum (t1f0 b z) n := by
      intro n hn k hk
      induction k, hk using Nat.le_induction with
      | base => exact le_refl _
      | succ k hk ih =>
        rw [psum_succ]
        obtain ⟨j, rfl⟩ : ∃ j, k = j + 1 := ⟨k - 1, by omega⟩
        have := neg j
        linarith
    refine ⟨?_, by rw [← zero]; exact mono 1 (le_refl _) m hm⟩
    exact le_of_tendsto lim (Filter.eventually_atTop.2 ⟨m, fun k hk => mono m hm k hk⟩)

/-- The binomial series for `x^d`, between one tenth and nine tenths. -/
theorem hyp1f0_near {E : RealEnv} {x d : ℝ} (h1 : 1 / 10 < x) (h2 : x < 9 / 10) (hd : |d| < 1) (d0 : d ≠ 0)
    (hc : (1 - x) ^ 9999 < (10 : ℝ) ^ (-(E.tol + 1))) :
    |x ^ d - Fn.hyp1f0 (realArith E) (-d) (1 - x)| ≤ 100 * (10 : ℝ) ^ (-E.tol) * x ^ d := by
  obtain ⟨N, hN, N1⟩ : ∃ N : ℕ, N = 9999 ∧ 1 ≤ N := ⟨9999, rfl, by norm_num⟩
  rw [← hN] at hc
  have tp : (0 : ℝ) < (10 : ℝ) ^ (-E.tol) := by positivity
  have hb : |-d| < 1 := by rwa [abs_neg]
  have hd' := abs_lt.1 hd
  have z0 : 0 ≤ 1 - x := by linarith
  have hL : HasSum (t1f0 (-d) (1 - x)) (x ^ d) := by
    have := hasSum_binom (-d) (x := 1 - x) (by rw [abs_of_nonneg z0]; linarith)
    rwa [neg_neg, sub_sub_cancel] at this
  have Lp : 0 < x ^ d := Real.rpow_pos_of_pos (by linarith) d
  have Lx : (0 ≤ -d → 1 ≤ x ^ d) ∧ (-d < 0 → x ≤ x ^ d) := by
    constructor
    · intro h; exact Real.one_le_rpow_of_pos_of_le_one_of_nonpos (by linarith) (by linarith) (by linarith)
    · intro h
      have := Real.rpow_le_rpow_of_exponent_ge (x := x) (by linarith) (by linarith) hd'.2.le
      rwa [Real.rpow_one] at this
  have bet := psum_between hb z0 hL
  have sizes : ∀ m, 1 ≤ m → 1 / 10 ≤ psum (t1f0 (-d) (1 - x)) m ∧ psum (t1f0 (-d) (1 - x)) m ≤ 10 * x ^ d := by
    intro m hm
    rcases le_or_gt 0 (-d) with h | h
    · have := (bet m hm).1 h
      exact ⟨by linarith, by linarith⟩
    · have h3 := (bet m hm).2 h
      have h4 := Lx.2 h
      exact ⟨by linarith, by linarith⟩
  have tb : ∀ n, |t1f0 (-d) (1 - x) n| ≤ (1 - x) ^ n := by
    intro n
    induction n with
    | zero => simp [t1f0, poch_zero, xn_zero]
    | succ n ih =>
      refine le_trans (t1f0_ratio hb z0 n) ?_
      rw [pow_succ, mul_comm]
      exact mul_le_mul_of_nonneg_right ih z0
  have tn : ∀ n, t1f0 (-d) (1 - x) n ≠ 0 := by
    intro n
    induction n with
    | zero => simp [t1f0, poch_zero, xn_zero]
    | succ n ih =>
      rw [t1f0_succ]
      apply mul_ne_zero ih
      apply mul_ne_zero _ (by linarith)
      apply div_ne_zero _ (by positivity)
      rcases Nat.eq_zero_or_pos n with h | h
      · rw [h]; simpa using d0
      · have : (1 : ℝ) ≤ n := by exact_mod_cast h
        intro hz; linarith
  obtain ⟨m, m1, m2, m3⟩ := (hyp1f0_real E (-d) (1 - x)).conv ⟨N, by omega, by omega,
    stops_of (tn _) (lt_of_le_of_lt (tb _) hc) (by
      have := (sizes N N1).1
      rwa [abs_of_pos (by linarith)])⟩
  rw [m3]
  have s := sizes m (by omega)
  have h3 := stops_le (by linarith [s.1] : psum (t1f0 (-d) (1 - x)) m ≠ 0) m2
  rw [abs_of_pos (by linarith : 0 < psum (t1f0 (-d) (1 - x)) m)] at h3
  refine le_trans (tail_geo z0 (by linarith) hL (m := m) (fun i _ => t1f0_ratio hb z0 i)) ?_
  rw [div_le_iff₀ (by linarith)]
  have h5 := mul_le_mul_of_nonneg_left s.2 tp.le
  have h6 : 0 < (10 : ℝ) ^ (-E.tol) * x ^ d := by positivity
  nlinarith

/-- `0F0` of a small number of any sign. -/
theorem hyp0f0_near' {E : RealEnv} (ht : E.tol ≤ 29990) {z : ℝ} (h0 : z ≠ 0) (h1 : |z| ≤ 1 / 1000) :
    |Real.exp z - Fn.hyp0f0 (realArith E) z| ≤ (22 / 10) * (10 : ℝ) ^ (-E.tol) := by
  have hz := abs_le.1 h1
  have hp := abs_pos.2 h0
  refine (series_near ht (hyp0f0_real E z) (hasSum_exp z) ?_ ?_ ?_ ?_ ?_).1
  · unfold t0f0 xn
    have : ((Nat.factorial 9999 : ℕ) : ℝ) ≠ 0 := by exact_mod_cast Nat.factorial_ne_zero _
    exact div_ne_zero (pow_ne_zero _ h0) this
  · unfold t0f0; rw [xn_one]; linarith
  · intro i hi
    unfold t0f0
    rw [← xn_step, abs_div, abs_mul]
    have hp : (1 : ℝ) ≤ |(((i + 1 : ℕ) : ℤ) : ℝ)| := by
      rw [abs_of_nonneg (by positivity)]
      push_cast
      have : (0 : ℝ) ≤ i := by positivity
      linarith
    refine le_trans (div_le_self (by positivity) hp) ?_
    nlinarith [abs_nonneg (xn z i)]
  · rw [abs_of_pos (Real.exp_pos z)]
    have := Real.add_one_le_exp z
    linarith
  · rw [abs_of_pos (Real.exp_pos z)]
    have := Real.abs_exp_sub_one_le (x := z) (by linarith)
    have := (abs_le.1 this).2
    linarith

/-- An error of the exponent is a relative error of the power. -/
theorem exp_near {u v η : ℝ} (h : |u - v| ≤ η) (h1 : η ≤ 1 / 100) : |Real.exp u - Real.exp v| ≤ (102 / 100) * η * Real.exp u := by
  have e : Real.exp u - Real.exp v = -(Real.exp (v - u) - 1) * Real.exp u := by
    rw [Real.exp_sub]; field_simp; ring
  rw [e, abs_mul, abs_neg, abs_of_pos (Real.exp_pos u)]
  apply mul_le_mul_of_nonneg_right _ (Real.exp_pos u).le
  rw [abs_sub_comm] at h
  have h2 := Real.abs_exp_sub_one_sub_id_le (x := v - u) (by linarith)
  have h3 : |Real.exp (v - u) - 1| ≤ |v - u| + (v - u) ^ 2 := by
    have := abs_add_le (Real.exp (v - u) - 1 - (v - u)) (v - u)
    rw [sub_add_cancel] at this
    linarith
  rw [← sq_abs] at h3
  have := abs_nonneg (v - u)
  nlinarith

end EFX

namespace EFX.Props
open EFX

theorem powF_unfold (E : RealEnv) (k : ℕ) {x a : ℝ} (hx : x ≠ 0) (ha : a ≠ 0) : Fn.powF (realArith E) (k + 1) x a =
    if x < 0 ∧ ¬((truncR a : ℝ) = a) then E.nan
    else if a ≤ -1 then 1 / Fn.powF (realArith E) k x (-a)
    else if (truncR a : ℝ) = a then Fn.pown (realArith E) x (truncR a)
    else if ¬x < 0 ∧ 1 / 10 < x ∧ x < 9 / 10 then
      if ordR a < -max (E.tol / 10) 6 then Fn.hyp0f0 (realArith E) (a * Fn.log (realArith E) x)
      else if truncR a ≠ 0 then Fn.hyp1f0 (realArith E) (-(a - truncR a)) (1 - x) * Fn.pown (realArith E) x (truncR a)
      else Fn.hyp1f0 (realArith E) (-a) (1 - x)
    else if truncR a ≠ 0 then Fn.exp (realArith E) ((a - truncR a) * Fn.log (realArith E) x) * Fn.pown (realArith E) x (truncR a)
    else Fn.exp (realArith E) (a * Fn.log (realArith E) x) := by
  rw [Fn.powF]
  simp only [Bool.not_eq_true', Bool.or_eq_true, Bool.and_eq_true]
  ra_simp
  rw [truncR_int]
  rw [if_neg (by simp), if_neg hx, if_neg ha]
  norm_num [and_assoc]

/-- What `pow` needs for a positive base and an exponent above minus one that is no integer. -/
structure PowCond (E : RealEnv) (x a : ℝ) : Prop where
  /-- the logarithm is accurate, where it is used -/
  log : (x ≤ 1 / 10 ∨ 9 / 10 ≤ x ∨ |a| < (10 : ℝ) ^ (-max (E.tol / 10) 6)) → LogFine E x
  /-- the binomial series ends in 10000 terms -/
  ser : 1 / 10 < x → x < 9 / 10 → (1 - x) ^ 9999 < (10 : ℝ) ^ (-(E.tol + 1))
  /-- the exponential function is accurate, where it is used -/
  exp : x ≤ 1 / 10 ∨ 9 / 10 ≤ x → |(a - truncR a) * Fn.log (realArith E) x| ≤ E.maxExp ∧
    ∀ n : ℤ, (a - truncR a) * Fn.log (realArith E) x ≠ 0 → (a - truncR a) * Fn.log (realArith E) x ≠ n * Real.log 2

theorem truncR_frac (a : ℝ) : |a - truncR a| < 1 := by
  unfold truncR
  split
  · rw [abs_of_nonneg (by linarith [Int.floor_le a])]
    linarith [Int.lt_floor_add_one a]
  · rw [abs_of_nonpos (by linarith [Int.le_ceil a])]
    linarith [Int.ceil_lt_add_one a]

/-- The main part: exponents above minus one. -/
theorem powF_near {E : RealEnv} (t0 : 20 ≤ E.tol) (ht : E.tol ≤ 29990) (hm : E.maxExp ≤ 2 ^ 62) (hm' : 10000 ≤ E.maxExp)
    {x a : ℝ} (hx : 0 < x) (ha : -1 < a) (hi : (truncR a : ℝ) ≠ a) (hb : -2 ^ 63 < truncR a) (hc : PowCond E x a) (k : ℕ) :
    |x ^ a - Fn.powF (realArith E) (k + 1) x a| ≤ 10900 * (10 : ℝ) ^ (-E.tol) * x ^ a := by
  have tp : (0 : ℝ) < (10 : ℝ) ^ (-E.tol) := by positivity
  have tl : (10 : ℝ) ^ (-E.tol) ≤ 1 / 10 ^ 20 :=
    le_trans (zpow_le_zpow_right₀ (by norm_num) (show _ ≤ (-20 : ℤ) by omega)) (by norm_num)
  have a0 : a ≠ 0 := by
    intro h; apply hi; rw [h]; simp [truncR]
  have hl := le_max_right (E.tol / 10) 6
  have d1 := truncR_frac a
  have d0 : a - truncR a ≠ 0 := by
    intro h; exact hi (by linarith)
  -- splitting of the power
  have split : x ^ a = x ^ (a - truncR a) * x ^ (truncR a) := by
    rw [← Real.rpow_intCast, ← Real.rpow_add hx, sub_add_cancel]
  have zp : 0 < x ^ (truncR a) := zpow_pos hx _
  have fin : ∀ {v B : ℝ}, |x ^ (a - truncR a) - v| ≤ B * x ^ (a - truncR a) →
      |x ^ a - v * x ^ (truncR a)| ≤ B * x ^ a := by
    intro v B h
    rw [split, ← sub_mul, abs_mul, abs_of_pos zp, ← mul_assoc]
    exact mul_le_mul_of_nonneg_right h zp.le
  have le : ∀ {B : ℝ}, B ≤ 10900 → B * (10 : ℝ) ^ (-E.tol) * x ^ a ≤ 10900 * (10 : ℝ) ^ (-E.tol) * x ^ a := by
    intro B h
    have : 0 < (10 : ℝ) ^ (-E.tol) * x ^ a := mul_pos tp (Real.rpow_pos_of_pos hx a)
    nlinarith
  rw [powF_unfold E k hx.ne' a0, if_neg (by rintro ⟨h, _⟩; linarith), if_neg (by linarith), if_neg hi]
  rw [ra_pown E x hb]
  by_cases hr : ¬x < 0 ∧ 1 / 10 < x ∧ x < 9 / 10
  · rw [if_pos hr]
    obtain ⟨_, r1, r2⟩ := hr
    by_cases hs : ordR a < -max (E.tol / 10) 6
    · rw [if_pos hs]
      have as := (ordR_lt a0).1 hs
      have lf := log_fine (by omega) ht hm hm' hx (hc.log (Or.inr (Or.inr as)))
      have as6 : |a| ≤ 1 / 1000000 :=
        le_trans as.le (le_trans (zpow_le_zpow_right₀ (by norm_num) (show _ ≤ (-6 : ℤ) by omega)) (by norm_num))
      have lx : Real.log x ≤ -1 / 10 := by
        have := Real.log_le_sub_one_of_pos hx
        linarith
      have lx2 : -9 ≤ Real.log x := by
        have := Real.one_sub_inv_le_log_of_pos hx
        have : x⁻¹ ≤ 10 := by rw [inv_le_comm₀ hx (by norm_num)]; norm_num; norm_num at r1; linarith
        linarith
      have ll := abs_le.1 lf
      generalize Fn.log (realArith E) x = l at *
      have l1 : l ≤ -1 / 20 := by linarith
      have l2 : -10 ≤ l := by linarith
      have z0 : a * l ≠ 0 := mul_ne_zero a0 (by linarith)
      have al : |a * l| ≤ 1 / 1000 := by
        rw [abs_mul, abs_of_neg (by linarith : l < 0)]
        nlinarith [abs_nonneg a]
      have n1 := hyp0f0_near' ht z0 al
      have n2 := exp_near (u := a * Real.log x) (v := a * l) (η := (1 / 100) * (10 : ℝ) ^ (-E.tol)) (by
        rw [← mul_sub, abs_mul]
        have := abs_nonneg a
        nlinarith) (by linarith)
      rw [mul_comm a (Real.log x), ← Real.rpow_def_of_pos hx] at n2
      have lo : (9 / 10 : ℝ) ≤ x ^ a := by
        rw [Real.rpow_def_of_pos hx]
        have h1 := Real.add_one_le_exp (Real.log x * a)
        have h2 : |Real.log x * a| ≤ 1 / 10 := by
          rw [abs_mul, abs_of_neg (by linarith : Real.log x < 0)]
          nlinarith [abs_nonneg a]
        have := abs_le.1 h2
        linarith
      refine le_trans ?_ (le (show (10 : ℝ) ≤ 10900 by norm_num))
      have := abs_add_le (x ^ a - Real.exp (a * l)) (Real.exp (a * l) - Fn.hyp0f0 (realArith E) (a * l))
      rw [sub_add_sub_cancel] at this
      have h5 := mul_le_mul_of_nonneg_left lo tp.le
      linarith
    · rw [if_neg hs]
      have hn := hyp1f0_near r1 r2 d1 d0 (hc.ser r1 r2)
      by_cases hz : truncR a ≠ 0
      · rw [if_pos hz]
        refine le_trans (fin hn) (le (by norm_num))
      · rw [if_neg hz]
        have hz := not_not.1 hz
        rw [hz, Int.cast_zero, sub_zero] at hn
        refine le_trans hn (le (by norm_num))
  · rw [if_neg hr]
    have hr' : x ≤ 1 / 10 ∨ 9 / 10 ≤ x := by
      by_contra h
      push Not at h
      exact hr ⟨by linarith, h.1, h.2⟩
    have lf := log_fine (by omega) ht hm hm' hx (hc.log (by rcases hr' with h | h; · exact Or.inl h
                                                            · exact Or.inr (Or.inl h)))
    obtain ⟨c1, c2⟩ := hc.exp hr'
    have main : |x ^ (a - truncR a) - Fn.exp (realArith E) ((a - truncR a) * Fn.log (realArith E) x)| ≤
        10900 * (10 : ℝ) ^ (-E.tol) * x ^ (a - truncR a) := by
      generalize a - (truncR a : ℝ) = d at *
      have n1 := C65_exp_partial (by omega) ht hm c1 c2
      generalize Fn.log (realArith E) x = l at *
      have n2 := exp_near (u := d * Real.log x) (v := d * l) (η := 6001 * (10 : ℝ) ^ (-E.tol)) (by
        rw [← mul_sub, abs_mul]
        have := abs_nonneg d
        nlinarith) (by linarith)
      rw [mul_comm d (Real.log x), ← Real.rpow_def_of_pos hx] at n2
      have Lp := Real.rpow_pos_of_pos hx d
      generalize x ^ d = L at *
      generalize Real.exp (d * l) = M at *
      generalize Fn.exp (realArith E) (d * l) = v at *
      generalize (10 : ℝ) ^ (-E.tol) = w at *
      have := abs_add_le (L - M) (M - v)
      rw [sub_add_sub_cancel] at this
      have m1 := abs_le.1 n2
      have m2 : M ≤ (101 / 100) * L := by
        have : 102 / 100 * (6001 * w) ≤ 1 / 100 := by linarith
        nlinarith
      have m3 := mul_le_mul_of_nonneg_left m2 tp.le
      have m4 : 0 < w * L := mul_pos tp Lp
      nlinarith
    by_cases hz : truncR a ≠ 0
    · rw [if_pos hz]
      exact fin main
    · rw [if_neg hz]
      have hz := not_not.1 hz
      rw [hz, Int.cast_zero, sub_zero] at main
      exact main

theorem truncR_neg (a : ℝ) : truncR (-a) = -truncR a := by
  unfold truncR
  rcases lt_trichotomy a 0 with h | h | h
  · rw [if_pos (by linarith), if_neg (by linarith), Int.floor_neg]
  · rw [h]; simp
  · rw [if_neg (by linarith), if_pos h.le, Int.ceil_neg]

/-- C71 in exact arithmetic: relative error at most `11200 * 10^-tolerance` for positive bases; the conditions of the
logarithm (C66), the exponential function (C65) and the length of the binomial series are collected in `PowCond`.  For an
integer exponent the result is exact, also for negative bases. -/
theorem C71_pow_partial {E : RealEnv} (t0 : 20 ≤ E.tol) (ht : E.tol ≤ 29990) (hm : E.maxExp ≤ 2 ^ 62) (hm' : 10000 ≤ E.maxExp)
    {x : ℝ} (hx : x ≠ 0) :
    (∀ n : ℤ, |n| < 2 ^ 63 → Fn.pow (realArith E) x n = x ^ n) ∧
    (∀ a : ℝ, 0 < x → (∀ n : ℤ, a ≠ n) → |a| < 2 ^ 63 → PowCond E x (if a ≤ -1 then -a else a) →
      |x ^ a - Fn.pow (realArith E) x a| ≤ 11200 * (10 : ℝ) ^ (-E.tol) * x ^ a) := by
  have tp : (0 : ℝ) < (10 : ℝ) ^ (-E.tol) := by positivity
  have tl : (10 : ℝ) ^ (-E.tol) ≤ 1 / 10 ^ 20 :=
    le_trans (zpow_le_zpow_right₀ (by norm_num) (show _ ≤ (-20 : ℤ) by omega)) (by norm_num)
  constructor
  · intro n hn
    have hn := abs_lt.1 hn
    unfold Fn.pow
    by_cases n0 : n = 0
    · rw [n0, Fn.powF]
      simp only [Bool.not_eq_true', Bool.or_eq_true, Bool.and_eq_true]
      ra_simp
      rw [if_neg (by simp), if_neg hx, if_pos (by simp)]
      simp
    rw [powF_unfold E 1 hx (by exact_mod_cast n0), truncR_int, if_neg (by simp)]
    by_cases h1 : (n : ℝ) ≤ -1
    · rw [if_pos h1, show (-(n : ℝ)) = ((-n : ℤ) : ℝ) by push_cast; ring,
        powF_unfold E 0 hx (by exact_mod_cast neg_ne_zero.2 n0), truncR_int, if_neg (by simp), if_neg (by push_cast; linarith), if_pos rfl,
        ra_pown E x (by omega), zpow_neg, one_div, inv_inv]
    · rw [if_neg h1, if_pos rfl, ra_pown E x (by omega)]
  · intro a xp hi ha hc
    have ha' := abs_lt.1 ha
    have Lp := Real.rpow_pos_of_pos xp a
    unfold Fn.pow
    have i1 : (truncR a : ℝ) ≠ a := fun h => hi _ h.symm
    have tb : ∀ b : ℝ, -(2 : ℝ) ^ 63 < b → -2 ^ 63 < truncR b := by
      intro b hb
      unfold truncR
      split
      · rename_i h
        have := Int.floor_nonneg.2 h
        omega
      · rw [Int.lt_ceil]; push_cast; linarith
    by_cases h1 : a ≤ -1
    · rw [if_pos h1] at hc
      have a0 : a ≠ 0 := by linarith
      rw [powF_unfold E 1 hx a0, if_neg (by rintro ⟨h, _⟩; linarith), if_pos h1]
      have h := powF_near t0 ht hm hm' xp (a := -a) (by linarith) (by
        rw [truncR_neg]; push_cast; intro h; exact i1 (by linarith)) (tb _ (by linarith)) hc 0
      have hr := recip_near (ε := 10900 * (10 : ℝ) ^ (-E.tol)) (Real.rpow_pos_of_pos xp (-a)) (by positivity) (by linarith) h
      rw [Real.rpow_neg xp.le, one_div, inv_inv] at hr
      refine le_trans hr.2 ?_
      have : 0 < (10 : ℝ) ^ (-E.tol) * x ^ a := mul_pos tp Lp
      linarith
    · rw [if_neg h1] at hc
      refine le_trans (powF_near t0 ht hm hm' xp (by linarith) i1 (tb _ (by linarith)) hc 1) ?_
      have : 0 < (10 : ℝ) ^ (-E.tol) * x ^ a := mul_pos tp Lp
      linarith

/-- A case: the square root of one half as a power, with 100 digits. -/
example {E : RealEnv} (h : E.tol = 112) : PowCond E (1 / 2) (1 / 2) where
  log := by
    rintro (h1 | h1 | h1)
    · norm_num at h1
    · norm_num at h1
    · rw [h] at h1; norm_num at h1
  ser := by
    intro _ _
    rw [h]
    have : ((1 - 1 / 2 : ℝ)) ^ 9999 ≤ (1 - 1 / 2 : ℝ) ^ 400 := pow_le_pow_of_le_one (by norm_num) (by norm_num) (by norm_num)
    refine lt_of_le_of_lt this ?_
    rw [show (1 - 1 / 2 : ℝ) ^ 400 = ((1 - 1 / 2 : ℝ) ^ 200) ^ 2 by rw [← pow_mul]]
    norm_num
  exp := by
    rintro (h1 | h1) <;> norm_num at h1

/-- C71 refuted at zero: the power of zero is one, whatever the exponent. -/
theorem C71_zero_refuted (E : RealEnv) (a : ℝ) : Fn.pow (realArith E) 0 a = 1 := by
  unfold Fn.pow
  rw [Fn.powF]
  simp only [Bool.not_eq_true', Bool.or_eq_true, Bool.and_eq_true]
  ra_simp
  rw [if_neg (by simp), if_pos trivial]

/-- C71 refuted for many digits: between one tenth and one ninth the binomial series needs more than 10000 terms when the
tolerance is 570 or more, and the result is NaN. -/
theorem C71_slow_refuted {E : RealEnv} (ht : 570 ≤ E.tol) (hl : E.tol ≤ 29990) {x a : ℝ} (h1 : 1 / 10 < x) (h2 : x ≤ 1 / 9)
    (a1 : 1 / 100 ≤ a) (a2 : a ≤ 99 / 100) (hs : ¬a < (10 : ℝ) ^ (-max (E.tol / 10) 6)) : Fn.pow (realArith E) x a = E.nan := by
  have a0 : a ≠ 0 := by linarith
  have tr : truncR a = 0 := by
    rw [truncR_nonneg (by linarith), Int.floor_eq_zero_iff]
    exact ⟨by linarith, by linarith⟩
  unfold Fn.pow
  rw [powF_unfold E 1 (by linarith) a0, tr, if_neg (by rintro ⟨h, _⟩; linarith), if_neg (by linarith),
    if_neg (by rw [Int.cast_zero]; exact fun h => a0 h.symm), if_pos ⟨by linarith, h1, by linarith⟩,
    if_neg (by rw [ordR_lt a0, abs_of_pos (by linarith)]; exact hs), if_neg (by simp)]
  apply (hyp1f0_real E _ _).fail
  intro m m1 m2 hst
  have z0 : (8 / 9 : ℝ) ≤ 1 - x := by linarith
  have z1 : 1 - x ≤ 1 := by linarith
  -- lower bound of the terms
  have low : ∀ n : ℕ, 1 / 10000 / ((n + 1) * (n + 2)) * (1 - x) ^ (n + 2) ≤ |t1f0 (-a) (1 - x) (n + 2)| := by
    intro n
    induction n with
    | zero =>
      have e : t1f0 (-a) (1 - x) (0 + 2) = -a * ((-a + 1) / 2 * (1 - x)) * (1 - x) := by
        rw [show 0 + 2 = (0 + 1) + 1 from rfl, t1f0_succ, t1f0_succ]
        simp [t1f0, poch_zero, xn_zero]
        ring
      have e2 : t1f0 (-a) (1 - x) (0 + 2) = -(a * (1 - a) / 2 * (1 - x) ^ 2) := by rw [e]; ring
      rw [e2, abs_neg, abs_of_nonneg (by
        have : 0 ≤ a * (1 - a) := mul_nonneg (by linarith) (by linarith)
        positivity)]
      apply mul_le_mul_of_nonneg_right _ (by positivity)
      norm_num
      nlinarith
    | succ n ih =>
      rw [show n + 1 + 2 = (n + 2) + 1 by ring, t1f0_succ, abs_mul]
      have n0 : (0 : ℝ) ≤ n := by positivity
      have e : |(-a + ((n + 2 : ℕ) : ℝ)) / (((n + 2 : ℕ) : ℝ) + 1) * (1 - x)| = (n + 2 - a) / (n + 3) * (1 - x) := by
        rw [abs_of_nonneg]
        · push_cast; ring
        · push_cast
          exact mul_nonneg (div_nonneg (by linarith) (by positivity)) (by linarith)
      rw [e]
      have h3 : ((n : ℝ) + 1) / (n + 3) * (1 - x) ≤ (n + 2 - a) / (n + 3) * (1 - x) := by
        apply mul_le_mul_of_nonneg_right _ (by linarith)
        apply div_le_div_of_nonneg_right _ (by positivity)
        linarith
      refine le_trans ?_ (mul_le_mul ih h3 (mul_nonneg (by positivity) (by linarith)) (abs_nonneg _))
      apply le_of_eq
      push_cast
      field_simp
      ring
  have sup : |psum (t1f0 (-a) (1 - x)) m| < (10 : ℝ) ^ (5 : ℤ) := by
    unfold psum
    refine lt_of_le_of_lt (Finset.abs_sum_le_sum_abs _ _) ?_
    refine lt_of_le_of_lt (Finset.sum_le_card_nsmul _ _ 1 (fun i _ => ?_)) ?_
    · induction i with
      | zero => simp [t1f0, poch_zero, xn_zero]
      | succ n ih =>
        have ih : |t1f0 (-a) (1 - x) n| ≤ 1 := by
          clear ih
          induction n with
          | zero => simp [t1f0, poch_zero, xn_zero]
          | succ n ih =>
            have := t1f0_ratio (b := -a) (z := 1 - x) (by rw [abs_neg, abs_of_pos] <;> linarith) (by linarith) n
            have := abs_nonneg (t1f0 (-a) (1 - x) n)
            have ih := ih (by simp at *; omega)
            nlinarith
        have := t1f0_ratio (b := -a) (z := 1 - x) (by rw [abs_neg, abs_of_pos] <;> linarith) (by linarith) n
        have := abs_nonneg (t1f0 (-a) (1 - x) n)
        nlinarith
    · rw [Finset.card_range, nsmul_eq_mul]
      have : (m : ℝ) ≤ 10000 := by exact_mod_cast m2.le
      norm_num
      linarith
  have os : ordR (psum (t1f0 (-a) (1 - x)) m) < 5 := by
    by_cases hz : psum (t1f0 (-a) (1 - x)) m = 0
    · rw [hz, ordR_zero]; norm_num
    · exact (ordR_lt hz).2 sup
  obtain ⟨n, rfl⟩ : ∃ n, m = n + 2 := ⟨m - 2, by omega⟩
  have hlow : (10 : ℝ) ^ (-563 : ℤ) ≤ |t1f0 (-a) (1 - x) (n + 2)| := by
    refine le_trans ?_ (low n)
    have nb : (n : ℝ) ≤ 9998 := by exact_mod_cast (by omega : n ≤ 9998)
    have n0 : (0 : ℝ) ≤ n := by positivity
    have c1 : (10 : ℝ) ^ (-13 : ℤ) ≤ 1 / 10000 / ((n + 1) * (n + 2)) := by
      rw [le_div_iff₀ (by positivity)]
      norm_num
      nlinarith
    have c2 : (10 : ℝ) ^ (-550 : ℤ) ≤ (1 - x) ^ (n + 2) := by
      have p1 : (8 / 9 : ℝ) ^ (n + 2) ≤ (1 - x) ^ (n + 2) := pow_le_pow_left₀ (by norm_num) z0 _
      have p2 : (8 / 9 : ℝ) ^ 10000 ≤ (8 / 9 : ℝ) ^ (n + 2) := pow_le_pow_of_le_one (by norm_num) (by norm_num) (by omega)
      have p3 : (10 : ℝ) ^ (-11 : ℤ) ≤ (8 / 9 : ℝ) ^ 200 := by norm_num
      have p4 := pow_le_pow_left₀ (by positivity) p3 50
      rw [← pow_mul, ← zpow_natCast, ← zpow_mul] at p4
      norm_num only at p4
      linarith
    calc (10 : ℝ) ^ (-563 : ℤ) = (10 : ℝ) ^ (-13 : ℤ) * (10 : ℝ) ^ (-550 : ℤ) := by rw [← zpow_add₀ (by norm_num)]; norm_num
      _ ≤ _ := mul_le_mul c1 c2 (by positivity) (by positivity)
  have ha : t1f0 (-a) (1 - x) (n + 2) ≠ 0 := by
    intro h
    rw [h, abs_zero] at hlow
    have : (0 : ℝ) < (10 : ℝ) ^ (-563 : ℤ) := by positivity
    linarith
  have oa : ¬ordR (t1f0 (-a) (1 - x) (n + 2)) < -563 := by
    rw [ordR_lt ha, not_lt]; exact hlow
  unfold Stops at hst
  omega

end EFX.Props
