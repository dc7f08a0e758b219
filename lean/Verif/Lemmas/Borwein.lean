import Mathlib.Analysis.SpecialFunctions.Trigonometric.Basic
import Mathlib.Analysis.SpecialFunctions.Gamma.Basic
import Mathlib.Analysis.SpecialFunctions.Gaussian.GaussianIntegral
import Mathlib.Analysis.SpecialFunctions.Trigonometric.Inverse
/-!
# The polynomials behind the alternating series of the zeta function

`V n x` is the Chebyshev polynomial of the second kind of index `n` at `1 - 2x`.
-/

namespace EFX.Borw
open Finset

/-- The polynomial by its coefficients. -/
noncomputable def V (n : ℕ) (x : ℝ) : ℝ := ∑ k ∈ range (n + 1), (-4 * x) ^ k * ((n + 1 + k).choose (2 * k + 1) : ℝ)

theorem V_ext {n M : ℕ} (h : n + 1 ≤ M) (x : ℝ) : V n x = ∑ k ∈ range M, (-4 * x) ^ k * ((n + 1 + k).choose (2 * k + 1) : ℝ) := by
  unfold V
  refine sum_subset (range_subset_range.2 h) fun k _ hk => ?_
  rw [Nat.choose_eq_zero_of_lt (by simp at hk; omega)]
  simp

theorem choose_rec (n k : ℕ) : (n + 3 + (k + 1)).choose (2 * (k + 1) + 1) + (n + 1 + (k + 1)).choose (2 * (k + 1) + 1) =
    2 * (n + 2 + (k + 1)).choose (2 * (k + 1) + 1) + (n + 2 + k).choose (2 * k + 1) := by
  have e1 : (n + 3 + k + 1).choose (2 * k + 2 + 1) = (n + 3 + k).choose (2 * k + 2) + (n + 3 + k).choose (2 * k + 2 + 1) := Nat.choose_succ_succ _ _
  have e2 : (n + 2 + k + 1).choose (2 * k + 2 + 1) = (n + 2 + k).choose (2 * k + 2) + (n + 2 + k).choose (2 * k + 2 + 1) := Nat.choose_succ_succ _ _
  have e3 : (n + 2 + k + 1).choose (2 * k + 1 + 1) = (n + 2 + k).choose (2 * k + 1) + (n + 2 + k).choose (2 * k + 1 + 1) := Nat.choose_succ_succ _ _
  rw [show n + 2 + k + 1 = n + 3 + k by omega] at e2 e3
  rw [show 2 * k + 1 + 1 = 2 * k + 2 by omega] at e3
  rw [show n + 3 + (k + 1) = n + 3 + k + 1 by omega, show 2 * (k + 1) + 1 = 2 * k + 2 + 1 by omega, e1,
    show n + 2 + (k + 1) = n + 3 + k by omega, show n + 1 + (k + 1) = n + 2 + k by omega]
  omega

theorem V_rec (n : ℕ) (x : ℝ) : V (n + 2) x = 2 * (1 - 2 * x) * V (n + 1) x - V n x := by
  have h : V (n + 2) x + V n x = 2 * V (n + 1) x + (-4 * x) * V (n + 1) x := by
    rw [V_ext (n := n + 2) (M := n + 3 + 1) (by omega), V_ext (n := n) (M := n + 3 + 1) (by omega)]
    nth_rw 1 [V_ext (n := n + 1) (M := n + 3 + 1) (by omega)]
    rw [V_ext (n := n + 1) (M := n + 3) (by omega)]
    rw [sum_range_succ', sum_range_succ' _ (n + 3), sum_range_succ' _ (n + 3)]
    rw [mul_add, mul_sum, mul_sum]
    have hk : ∀ k ∈ range (n + 3), (-4 * x) ^ (k + 1) * ((n + 2 + 1 + (k + 1)).choose (2 * (k + 1) + 1) : ℝ) +
        (-4 * x) ^ (k + 1) * ((n + 1 + (k + 1)).choose (2 * (k + 1) + 1) : ℝ) =
        2 * ((-4 * x) ^ (k + 1) * ((n + 1 + 1 + (k + 1)).choose (2 * (k + 1) + 1) : ℝ)) +
          -4 * x * ((-4 * x) ^ k * ((n + 1 + 1 + k).choose (2 * k + 1) : ℝ)) := by
      intro k _
      have := choose_rec n k
      have e : ((n + 3 + (k + 1)).choose (2 * (k + 1) + 1) : ℝ) + ((n + 1 + (k + 1)).choose (2 * (k + 1) + 1) : ℝ) =
        2 * ((n + 2 + (k + 1)).choose (2 * (k + 1) + 1) : ℝ) + ((n + 2 + k).choose (2 * k + 1) : ℝ) := by exact_mod_cast this
      rw [pow_succ]
      linear_combination (-4 * x) ^ k * (-4 * x) * e
    have := sum_congr rfl hk
    simp only [sum_add_distrib] at this
    simp only [mul_zero, zero_add, Nat.choose_one_right, pow_zero, add_zero]
    push_cast
    linarith
  linarith

theorem V_zero (x : ℝ) : V 0 x = 1 := by simp [V]
theorem V_one (x : ℝ) : V 1 x = 2 * (1 - 2 * x) := by simp [V, sum_range_succ]; ring

theorem V_sin (n : ℕ) (θ : ℝ) : V n ((1 - Real.cos θ) / 2) * Real.sin θ = Real.sin ((n + 1) * θ) := by
  induction n using Nat.twoStepInduction with
  | zero => simp [V_zero]
  | one => rw [V_one]; push_cast; rw [show (1 + 1) * θ = 2 * θ by ring, Real.sin_two_mul]; ring
  | more n h1 h2 =>
    rw [V_rec, sub_mul, mul_assoc, h2, h1]
    have e1 := Real.sin_add (((n + 1 : ℕ) + 1 : ℝ) * θ) θ
    have e2 := Real.sin_sub (((n + 1 : ℕ) + 1 : ℝ) * θ) θ
    push_cast at *
    rw [show ((n : ℝ) + 1 + 1) * θ + θ = (n + 2 + 1) * θ by ring] at e1
    rw [show ((n : ℝ) + 1 + 1) * θ - θ = (n + 1) * θ by ring] at e2
    rw [e1, e2]; ring

theorem sin_nat (n : ℕ) (θ : ℝ) : |Real.sin (n * θ)| ≤ n * |Real.sin θ| := by
  induction n with
  | zero => simp
  | succ n ih =>
    push_cast
    rw [show ((n : ℝ) + 1) * θ = n * θ + θ by ring, Real.sin_add]
    calc |Real.sin (n * θ) * Real.cos θ + Real.cos (n * θ) * Real.sin θ|
        ≤ |Real.sin (n * θ)| * |Real.cos θ| + |Real.cos (n * θ)| * |Real.sin θ| := by
          rw [← abs_mul, ← abs_mul]; exact abs_add_le _ _
      _ ≤ |Real.sin (n * θ)| * 1 + 1 * |Real.sin θ| := by
          gcongr
          · exact Real.abs_cos_le_one _
          · exact Real.abs_cos_le_one _
      _ ≤ _ := by linarith

theorem V_at_zero (n : ℕ) : V n 0 = n + 1 := by
  induction n using Nat.twoStepInduction with
  | zero => simp [V_zero]
  | one => rw [V_one]; norm_num
  | more n h1 h2 => rw [V_rec, h1, h2]; push_cast; ring

theorem V_at_one (n : ℕ) : V n 1 = (-1) ^ n * (n + 1) := by
  induction n using Nat.twoStepInduction with
  | zero => simp [V_zero]
  | one => rw [V_one]; norm_num
  | more n h1 h2 => rw [V_rec, h1, h2]; push_cast; ring

/-- On the unit interval the polynomial is at most `n + 1`. -/
theorem V_le (n : ℕ) {x : ℝ} (h0 : 0 ≤ x) (h1 : x ≤ 1) : |V n x| ≤ n + 1 := by
  rcases h0.eq_or_lt with rfl | h0
  · rw [V_at_zero, abs_of_pos (by positivity)]
  rcases h1.eq_or_lt with rfl | h1
  · rw [V_at_one, abs_mul, abs_pow, abs_neg, abs_one, one_pow, one_mul, abs_of_pos (by positivity)]
  · have hc : Real.cos (Real.arccos (1 - 2 * x)) = 1 - 2 * x := Real.cos_arccos (by linarith) (by linarith)
    have hs := V_sin n (Real.arccos (1 - 2 * x))
    rw [hc, show (1 - (1 - 2 * x)) / 2 = x by ring] at hs
    have hp : 0 < Real.sin (Real.arccos (1 - 2 * x)) := by
      rw [Real.sin_arccos]; apply Real.sqrt_pos.2; nlinarith
    have hn := sin_nat (n + 1) (Real.arccos (1 - 2 * x))
    push_cast at hn
    rw [← hs, abs_mul] at hn
    exact le_of_mul_le_mul_right hn (abs_pos.2 hp.ne')

/-- At `-1` it grows by more than 5.82 with each index. -/
theorem V_neg_one (n : ℕ) : (291 / 50 : ℝ) ^ n ≤ V n (-1) ∧ 291 / 50 * V n (-1) ≤ V (n + 1) (-1) := by
  induction n with
  | zero => rw [V_zero, V_one]; norm_num
  | succ n ih =>
    have p : 0 < V n (-1) := lt_of_lt_of_le (by positivity) ih.1
    refine ⟨?_, ?_⟩
    · rw [pow_succ]; linarith [ih.1, ih.2]
    · rw [V_rec]; linarith [ih.2]


/-- The numbers `1 / (j+1)^s` are moments: a polynomial that is not negative on the unit interval gives a sum that is not negative. -/
theorem moment_nonneg {s : ℝ} (hs : 0 < s) (n : ℕ) (p : ℕ → ℝ) (h : ∀ x : ℝ, 0 ≤ x → x ≤ 1 → 0 ≤ ∑ j ∈ range n, p j * x ^ j) :
    0 ≤ ∑ j ∈ range n, p j * (1 / ((j : ℝ) + 1) ^ s) := by
  have G := Real.Gamma_pos_of_pos hs
  have int : ∀ j : ℕ, MeasureTheory.IntegrableOn (fun t : ℝ => t ^ (s - 1) * Real.exp (-(((j : ℝ) + 1) * t))) (Set.Ioi 0) := by
    intro j
    have := integrableOn_rpow_mul_exp_neg_mul_rpow (s := s - 1) (p := 1) (b := (j : ℝ) + 1) (by linarith) (by norm_num) (by positivity)
    exact this.congr_fun (fun t _ => by simp only [Real.rpow_one]; ring_nf) measurableSet_Ioi
  have val : ∀ j : ℕ, ∫ t in Set.Ioi (0 : ℝ), t ^ (s - 1) * Real.exp (-(((j : ℝ) + 1) * t)) = 1 / ((j : ℝ) + 1) ^ s * Real.Gamma s := by
    intro j
    rw [Real.integral_rpow_mul_exp_neg_mul_Ioi hs (by positivity), Real.div_rpow (by norm_num) (by positivity), Real.one_rpow]
  have e : (∑ j ∈ range n, p j * (1 / ((j : ℝ) + 1) ^ s)) * Real.Gamma s =
      ∫ t in Set.Ioi (0 : ℝ), ∑ j ∈ range n, p j * (t ^ (s - 1) * Real.exp (-(((j : ℝ) + 1) * t))) := by
    rw [MeasureTheory.integral_finsetSum _ fun j _ => (int j).const_mul _, sum_mul]
    refine sum_congr rfl fun j _ => ?_
    rw [MeasureTheory.integral_const_mul, val, mul_assoc]
  have i0 : 0 ≤ ∫ t in Set.Ioi (0 : ℝ), ∑ j ∈ range n, p j * (t ^ (s - 1) * Real.exp (-(((j : ℝ) + 1) * t))) := by
    refine MeasureTheory.setIntegral_nonneg measurableSet_Ioi fun t ht => ?_
    have t0 : 0 < t := ht
    have e : ∑ j ∈ range n, p j * (t ^ (s - 1) * Real.exp (-(((j : ℝ) + 1) * t))) =
        (t ^ (s - 1) * Real.exp (-t)) * ∑ j ∈ range n, p j * Real.exp (-t) ^ j := by
      rw [mul_sum]
      refine sum_congr rfl fun j _ => ?_
      rw [← Real.exp_nat_mul, show -(((j : ℝ) + 1) * t) = -t + j * -t by ring, Real.exp_add]
      ring
    rw [e]
    exact mul_nonneg (mul_nonneg (Real.rpow_nonneg t0.le _) (Real.exp_pos _).le) (h _ (Real.exp_pos _).le (Real.exp_le_one_iff.2 (by linarith)))
  rw [← e] at i0
  exact nonneg_of_mul_nonneg_left i0 G

/-- Tails of the coefficients. -/
noncomputable def tail (c : ℕ → ℝ) (N j : ℕ) : ℝ := ∑ k ∈ Ico j (N + 1), c k

theorem tail_sum (c : ℕ → ℝ) (y : ℝ) (N : ℕ) :
    (1 - y) * ∑ j ∈ range N, tail c N (j + 1) * y ^ j = tail c N 0 - ∑ k ∈ range (N + 1), c k * y ^ k := by
  induction N with
  | zero => simp [tail]
  | succ N ih =>
    have t : ∀ j ∈ range (N + 1), tail c (N + 1) (j + 1) * y ^ j = tail c N (j + 1) * y ^ j + c (N + 1) * y ^ j := by
      intro j hj
      have := mem_range.1 hj
      unfold tail
      rw [sum_Ico_succ_top (by omega)]; ring
    have t0 : tail c (N + 1) 0 = tail c N 0 + c (N + 1) := by unfold tail; rw [sum_Ico_succ_top (by omega)]
    have tN : tail c N (N + 1) = 0 := by simp [tail]
    rw [sum_congr rfl t, sum_add_distrib, mul_add, sum_range_succ, tN, zero_mul, add_zero, ih, ← mul_sum, t0, sum_range_succ _ (N + 1)]
    have g := mul_neg_geom_sum y (N + 1)
    linear_combination c (N + 1) * g

/-- Acceleration of the alternating series by a polynomial with the values `b` on the unit interval and `tail c N 0` at `-1`. -/
theorem alt_bound {s : ℝ} (hs : 0 < s) (c : ℕ → ℝ) {N M : ℕ} (hM : N ≤ M) {b : ℝ} (b0 : 0 ≤ b) (w0 : 0 ≤ tail c N 0)
    (hq : ∀ x : ℝ, 0 ≤ x → x ≤ 1 → |∑ k ∈ range (N + 1), c k * (-x) ^ k| ≤ b) :
    |tail c N 0 * ∑ j ∈ range M, (-1) ^ j * (1 / ((j : ℝ) + 1) ^ s) - ∑ j ∈ range N, (-1) ^ j * tail c N (j + 1) * (1 / ((j : ℝ) + 1) ^ s)| ≤
      b * (∑ j ∈ range M, (-1) ^ j * (1 / ((j : ℝ) + 1) ^ s)) + (b + tail c N 0) * (1 / ((M : ℝ) + 1) ^ s) := by
  obtain ⟨D, hD⟩ : ∃ D : ℕ → ℝ, D = fun j => (if j < M then tail c N 0 * (-1) ^ j else 0) - (if j < N then (-1) ^ j * tail c N (j + 1) else 0) := ⟨_, rfl⟩
  obtain ⟨F, hF⟩ : ∃ F : ℕ → ℝ, F = fun j => (if j < M then b * (-1) ^ j else 0) + (if j = M then b + tail c N 0 else 0) := ⟨_, rfl⟩
  have sel : ∀ (K : ℕ) (f g : ℕ → ℝ), K ≤ M + 1 → ∑ j ∈ range (M + 1), (if j < K then f j else 0) * g j = ∑ j ∈ range K, f j * g j := by
    intro K f g hK
    rw [← sum_subset (range_subset_range.2 hK) (fun j _ hj => by rw [if_neg (by simpa using hj), zero_mul])]
    exact sum_congr rfl fun j hj => by rw [if_pos (mem_range.1 hj)]
  have sD : ∀ g : ℕ → ℝ, ∑ j ∈ range (M + 1), D j * g j = tail c N 0 * ∑ j ∈ range M, (-1) ^ j * g j - ∑ j ∈ range N, (-1) ^ j * tail c N (j + 1) * g j := by
    intro g
    simp only [hD, sub_mul, sum_sub_distrib]
    rw [sel M _ g (by omega), sel N _ g (by omega), mul_sum]
    congr 1
    exact sum_congr rfl fun j _ => by ring
  have sF : ∀ g : ℕ → ℝ, ∑ j ∈ range (M + 1), F j * g j = b * ∑ j ∈ range M, (-1) ^ j * g j + (b + tail c N 0) * g M := by
    intro g
    simp only [hF, add_mul, sum_add_distrib]
    rw [sel M _ g (by omega), mul_sum]
    congr 1
    · exact sum_congr rfl fun j _ => by ring
    · rw [sum_range_succ, if_pos rfl, sum_eq_zero fun j hj => by rw [if_neg (by have := mem_range.1 hj; omega), zero_mul], zero_add]; ring
  have pt : ∀ x : ℝ, 0 ≤ x → x ≤ 1 → |∑ j ∈ range (M + 1), D j * x ^ j| ≤ ∑ j ∈ range (M + 1), F j * x ^ j := by
    intro x h0 h1
    rw [sD, sF]
    have g1 : ∑ j ∈ range M, (-1) ^ j * x ^ j = ∑ j ∈ range M, (-x) ^ j := sum_congr rfl fun j _ => by rw [← mul_pow]; ring
    have g2 : ∑ j ∈ range N, (-1) ^ j * tail c N (j + 1) * x ^ j = ∑ j ∈ range N, tail c N (j + 1) * (-x) ^ j :=
      sum_congr rfl fun j _ => by rw [neg_pow x]; ring
    rw [g1, g2]
    have e1 := tail_sum c (-x) N
    have e2 := mul_neg_geom_sum (-x) M
    have q := hq x h0 h1
    have xm : |(-x) ^ M| = x ^ M := by rw [abs_pow, abs_neg, abs_of_nonneg h0]
    have xM : 0 ≤ x ^ M := by positivity
    generalize (∑ j ∈ range M, (-x) ^ j) = E at *
    generalize (∑ j ∈ range N, tail c N (j + 1) * (-x) ^ j) = T at *
    generalize (∑ k ∈ range (N + 1), c k * (-x) ^ k) = Q at *
    generalize tail c N 0 = w at *
    generalize (-x) ^ M = y at *
    generalize x ^ M = z at *
    have p1 : 0 < 1 - -x := by linarith
    have l : (1 - -x) * |w * E - T| ≤ (1 - -x) * (b * E + (b + w) * z) := by
      rw [← abs_of_pos p1, ← abs_mul, abs_of_pos p1]
      rw [show (1 - -x) * (w * E - T) = Q - w * y by linear_combination w * e2 - e1]
      have a1 := abs_sub Q (w * y)
      rw [abs_mul, abs_of_nonneg w0, xm] at a1
      have yz := (abs_le.1 xm.le)
      have : (1 - -x) * (b * E + (b + w) * z) = b * (1 - y) + (1 + x) * (b + w) * z := by linear_combination b * e2
      rw [this]
      have : b * y ≤ b * z := mul_le_mul_of_nonneg_left yz.2 b0
      have : 0 ≤ x * ((b + w) * z) := by positivity
      nlinarith
    exact le_of_mul_le_mul_left l p1
  have m1 := moment_nonneg hs (M + 1) (fun j => F j - D j) (fun x h0 h1 => by
    simp only [sub_mul, sum_sub_distrib]
    linarith [(abs_le.1 (pt x h0 h1)).2])
  have m2 := moment_nonneg hs (M + 1) (fun j => F j + D j) (fun x h0 h1 => by
    simp only [add_mul, sum_add_distrib]
    linarith [(abs_le.1 (pt x h0 h1)).1])
  simp only [sub_mul, add_mul, sum_sub_distrib, sum_add_distrib] at m1 m2
  rw [sD (fun j => 1 / ((j : ℝ) + 1) ^ s), sF (fun j => 1 / ((j : ℝ) + 1) ^ s)] at m1 m2
  exact abs_le.2 ⟨by linarith, by linarith⟩


/-- The coefficients of the code. -/
noncomputable def coef (N k : ℕ) : ℝ := if k = 0 then 1 / (N : ℝ) ^ 2 else 4 ^ k * ((N + k - 1).choose (2 * k - 1) : ℝ) / (2 * N)

theorem coef_poly (n : ℕ) (x : ℝ) :
    ∑ k ∈ range (n + 1 + 1), coef (n + 1) k * (-x) ^ k = 1 / ((n + 1 : ℕ) : ℝ) ^ 2 - 2 * x / ((n + 1 : ℕ) : ℝ) * V n x := by
  have h : ((n + 1 : ℕ) : ℝ) ≠ 0 := by positivity
  rw [sum_range_succ', V, mul_sum, sub_eq_add_neg, add_comm, ← sum_neg_distrib]
  congr 1
  · simp [coef]
  · refine sum_congr rfl fun k _ => ?_
    rw [coef, if_neg (by omega), show n + 1 + (k + 1) - 1 = n + 1 + k by omega, show 2 * (k + 1) - 1 = 2 * k + 1 by omega]
    rw [show (-4 * x) ^ k = 4 ^ k * (-x) ^ k by rw [← mul_pow]; ring]
    field_simp
    ring

theorem tail_coef (n : ℕ) : tail (coef (n + 1)) (n + 1) 0 = 1 / ((n + 1 : ℕ) : ℝ) ^ 2 + 2 / ((n + 1 : ℕ) : ℝ) * V n (-1) := by
  have := coef_poly n (-1)
  unfold tail
  rw [Nat.Ico_zero_eq_range]
  simp only [neg_neg, one_pow, mul_one] at this
  rw [this]; ring

/-- The alternating series: relative error of the accelerated sum. -/
theorem alt_error {s η : ℝ} (hs : 0 < s) (hη : Filter.Tendsto (fun M => ∑ j ∈ range M, (-1) ^ j * (1 / ((j : ℝ) + 1) ^ s)) Filter.atTop (nhds η))
    {N : ℕ} (hN : 1 ≤ N) :
    0 < tail (coef N) N 0 ∧
    |(∑ j ∈ range N, (-1) ^ j * tail (coef N) N (j + 1) * (1 / ((j : ℝ) + 1) ^ s)) / tail (coef N) N 0 - η| ≤ (N + 1) / (291 / 50) ^ (N - 1) * η := by
  obtain ⟨n, rfl⟩ : ∃ n, N = n + 1 := ⟨N - 1, by omega⟩
  obtain ⟨v1, -⟩ := V_neg_one n
  have N0 : (1 : ℝ) ≤ ((n + 1 : ℕ) : ℝ) := by exact_mod_cast hN
  have p5 : (0 : ℝ) < (291 / 50) ^ n := by positivity
  have vp : 0 < V n (-1) := lt_of_lt_of_le p5 v1
  have w0 : 0 < tail (coef (n + 1)) (n + 1) 0 := by rw [tail_coef]; positivity
  refine ⟨w0, ?_⟩
  have iN : 1 / ((n + 1 : ℕ) : ℝ) ^ 2 ≤ 1 := by
    rw [div_le_one (by positivity)]
    nlinarith
  have hq : ∀ x : ℝ, 0 ≤ x → x ≤ 1 → |∑ k ∈ range (n + 1 + 1), coef (n + 1) k * (-x) ^ k| ≤ 1 / ((n + 1 : ℕ) : ℝ) ^ 2 + 2 := by
    intro x h0 h1
    rw [coef_poly]
    have a := abs_sub (1 / ((n + 1 : ℕ) : ℝ) ^ 2) (2 * x / ((n + 1 : ℕ) : ℝ) * V n x)
    rw [abs_mul, abs_of_pos (show 0 < 1 / ((n + 1 : ℕ) : ℝ) ^ 2 by positivity), abs_of_nonneg (show 0 ≤ 2 * x / ((n + 1 : ℕ) : ℝ) by positivity)] at a
    have b := V_le n h0 h1
    have : 2 * x / ((n + 1 : ℕ) : ℝ) * |V n x| ≤ 2 * x / ((n + 1 : ℕ) : ℝ) * ((n + 1 : ℕ) : ℝ) := by
      apply mul_le_mul_of_nonneg_left _ (by positivity)
      push_cast; exact b
    rw [div_mul_cancel₀ _ (by positivity)] at this
    linarith
  obtain ⟨S, hS⟩ : ∃ S, S = ∑ j ∈ range (n + 1), (-1) ^ j * tail (coef (n + 1)) (n + 1) (j + 1) * (1 / ((j : ℝ) + 1) ^ s) := ⟨_, rfl⟩
  have lim : |tail (coef (n + 1)) (n + 1) 0 * η - S| ≤ (1 / ((n + 1 : ℕ) : ℝ) ^ 2 + 2) * η := by
    have z : Filter.Tendsto (fun M : ℕ => (1 : ℝ) / ((M : ℝ) + 1) ^ s) Filter.atTop (nhds 0) := by
      have h1 : Filter.Tendsto (fun M : ℕ => ((M : ℝ) + 1) ^ s) Filter.atTop Filter.atTop :=
        (tendsto_rpow_atTop hs).comp (Filter.tendsto_atTop_add_const_right _ _ tendsto_natCast_atTop_atTop)
      simp only [one_div]; exact h1.inv_tendsto_atTop
    have l1 : Filter.Tendsto (fun M : ℕ => |tail (coef (n + 1)) (n + 1) 0 * (∑ j ∈ range M, (-1) ^ j * (1 / ((j : ℝ) + 1) ^ s)) - S|) Filter.atTop
        (nhds |tail (coef (n + 1)) (n + 1) 0 * η - S|) := ((hη.const_mul _).sub_const _).abs
    have l2 : Filter.Tendsto (fun M : ℕ => (1 / ((n + 1 : ℕ) : ℝ) ^ 2 + 2) * (∑ j ∈ range M, (-1) ^ j * (1 / ((j : ℝ) + 1) ^ s)) +
        ((1 / ((n + 1 : ℕ) : ℝ) ^ 2 + 2) + tail (coef (n + 1)) (n + 1) 0) * (1 / ((M : ℝ) + 1) ^ s)) Filter.atTop
        (nhds ((1 / ((n + 1 : ℕ) : ℝ) ^ 2 + 2) * η + ((1 / ((n + 1 : ℕ) : ℝ) ^ 2 + 2) + tail (coef (n + 1)) (n + 1) 0) * 0)) :=
      (hη.const_mul _).add (z.const_mul _)
    rw [mul_zero, add_zero] at l2
    refine le_of_tendsto_of_tendsto l1 l2 (Filter.eventually_atTop.2 ⟨n + 1, fun M hM => ?_⟩)
    rw [hS]
    exact alt_bound hs (coef (n + 1)) hM (by positivity) w0.le hq
  rw [← hS]
  have η0 : 0 ≤ η := nonneg_of_mul_nonneg_right ((abs_nonneg _).trans lim) (by positivity)
  rw [show S / tail (coef (n + 1)) (n + 1) 0 - η = -(tail (coef (n + 1)) (n + 1) 0 * η - S) / tail (coef (n + 1)) (n + 1) 0 by field_simp; ring,
    abs_div, abs_neg, abs_of_pos w0, div_le_iff₀ w0]
  refine lim.trans ?_
  have h2 : 1 / ((n + 1 : ℕ) : ℝ) ^ 2 + 2 ≤ (((n + 1 : ℕ) : ℝ) + 1) / (291 / 50) ^ n * tail (coef (n + 1)) (n + 1) 0 := by
    rw [div_mul_eq_mul_div, le_div_iff₀ p5, tail_coef]
    generalize ((n + 1 : ℕ) : ℝ) = y at *
    generalize (291 / 50 : ℝ) ^ n = P at *
    have y0 : 0 < y := by linarith
    have e : (y + 1) * (1 / y ^ 2 + 2 / y * V n (-1)) = (y + 1) / y ^ 2 + (2 + 2 / y) * V n (-1) := by field_simp
    rw [e]
    have a : (2 + 2 / y) * P ≤ (2 + 2 / y) * V n (-1) := by gcongr
    have b : 1 / y ^ 2 ≤ 2 / y := by
      rw [div_le_div_iff₀ (by positivity) y0]; nlinarith
    have c : 1 / y ^ 2 * P ≤ 2 / y * P := by gcongr
    have d : 0 ≤ (y + 1) / y ^ 2 := by positivity
    linarith
  rw [show n + 1 - 1 = n by omega]
  calc (1 / ((n + 1 : ℕ) : ℝ) ^ 2 + 2) * η ≤ (((n + 1 : ℕ) : ℝ) + 1) / (291 / 50) ^ n * tail (coef (n + 1)) (n + 1) 0 * η := by gcongr
    _ = _ := by ring

end EFX.Borw
