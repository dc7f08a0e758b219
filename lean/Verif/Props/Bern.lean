import Verif.Props.Combi
/-! C83: `ef::bernoulli`. -/

namespace EFX.Props
open EFX EFX.Stir Finset

/-- The loop adds the reciprocal powers up to the first one below the tolerance. -/
theorem bernLoop_real {E : RealEnv} {n : ℕ} : ∀ fuel k : ℕ, 1 ≤ k → ∃ K, k ≤ K ∧ K ≤ k + fuel ∧
    Fn.bernLoop (realArith E) n fuel k (∑ i ∈ range k, 1 / (i : ℝ) ^ n) = ∑ i ∈ range K, 1 / (i : ℝ) ^ n ∧
    (K = k + fuel ∨ 1 / (K : ℝ) ^ n ≤ (10 : ℝ) ^ (-E.tol)) := by
  intro fuel
  induction fuel with
  | zero => intro k h; exact ⟨k, le_rfl, le_rfl, rfl, Or.inl rfl⟩
  | succ fuel ih =>
    intro k h
    have k0 : (0 : ℝ) < k := by exact_mod_cast h
    unfold Fn.bernLoop
    simp only
    rw [ra_pown E _ (by omega)]
    ra_simp
    rw [show (1 / ((k : ℤ) : ℝ)) ^ ((n : ℕ) : ℤ) = 1 / (k : ℝ) ^ n by rw [zpow_natCast, div_pow, one_pow]; push_cast; ring]
    have tp : 0 < 1 / (k : ℝ) ^ n := by positivity
    by_cases hc : ordR (1 / (k : ℝ) ^ n) < -E.tol
    · rw [if_pos hc]
      refine ⟨k, le_rfl, by omega, rfl, Or.inr ?_⟩
      have := (ordR_lt tp.ne').1 hc
      rw [abs_of_pos tp] at this
      exact this.le
    · rw [if_neg hc, ← sum_range_succ]
      obtain ⟨K, a, b, c, d⟩ := ih (k + 1) (by omega)
      exact ⟨K, by omega, by omega, c, d.imp (by omega) id⟩

/-- What is left out of the series. -/
theorem zeta_tail {n K : ℕ} (hK : 2 ≤ K) {z : ℝ} (hz : HasSum (fun i : ℕ => 1 / (i : ℝ) ^ (n + 2)) z) :
    ∑ i ∈ range K, 1 / (i : ℝ) ^ (n + 2) ≤ z ∧ z ≤ ∑ i ∈ range K, 1 / (i : ℝ) ^ (n + 2) + 2 * K * (1 / (K : ℝ) ^ (n + 2)) := by
  refine ⟨sum_le_hasSum _ (fun i _ => by positivity) hz, ?_⟩
  have K2 : (2 : ℝ) ≤ K := by exact_mod_cast hK
  have part : ∀ j : ℕ, ∑ i ∈ range (K + j), 1 / (i : ℝ) ^ (n + 2) + 1 / (K : ℝ) ^ n * (1 / ((K + j : ℝ) - 1)) ≤
      ∑ i ∈ range K, 1 / (i : ℝ) ^ (n + 2) + 1 / (K : ℝ) ^ n * (1 / ((K : ℝ) - 1)) := by
    intro j
    induction j with
    | zero => simp
    | succ j ih =>
      refine le_trans ?_ ih
      rw [← add_assoc, sum_range_succ, add_assoc]
      refine add_le_add le_rfl ?_
      have j0 : (0 : ℝ) ≤ j := by positivity
      have a : 1 / ((K + j : ℕ) : ℝ) ^ (n + 2) ≤ 1 / (K : ℝ) ^ n * (1 / (K + j : ℝ) ^ 2) := by
        rw [pow_add, ← one_div_mul_one_div]
        push_cast
        gcongr
        linarith
      have b : 1 / (K + j : ℝ) ^ 2 + 1 / ((K + (j + 1 : ℕ) : ℝ) - 1) ≤ 1 / ((K + j : ℝ) - 1) := by
        push_cast
        have y2 : 2 ≤ (K : ℝ) + j := by linarith
        obtain ⟨y, hy⟩ : ∃ y : ℝ, y = K + j := ⟨_, rfl⟩
        rw [show (K : ℝ) + (j + 1) - 1 = K + j by ring, ← hy]
        rw [← hy] at y2
        rw [div_add_div _ _ (by positivity) (by positivity), div_le_div_iff₀ (by positivity) (by linarith)]
        nlinarith [sq_nonneg y]
      have c : (0 : ℝ) ≤ 1 / (K : ℝ) ^ n := by positivity
      have := mul_le_mul_of_nonneg_left b c
      rw [mul_add] at this
      linarith
  have lim : z ≤ ∑ i ∈ range K, 1 / (i : ℝ) ^ (n + 2) + 1 / (K : ℝ) ^ n * (1 / ((K : ℝ) - 1)) := by
    refine le_of_tendsto (hz.tendsto_sum_nat) (Filter.eventually_atTop.2 ⟨K, fun M hM => ?_⟩)
    obtain ⟨j, rfl⟩ := Nat.exists_eq_add_of_le hM
    refine le_trans ?_ (part j)
    have : (0 : ℝ) ≤ 1 / (K : ℝ) ^ n * (1 / ((K + j : ℝ) - 1)) := by
      have : (0 : ℝ) ≤ j := by positivity
      have : (0 : ℝ) ≤ (K + j : ℝ) - 1 := by linarith
      positivity
    linarith
  refine lim.trans (add_le_add le_rfl ?_)
  rw [pow_add, ← one_div_mul_one_div, show 2 * (K : ℝ) * (1 / (K : ℝ) ^ n * (1 / (K : ℝ) ^ 2)) = 1 / (K : ℝ) ^ n * (2 / K) by field_simp]
  refine mul_le_mul_of_nonneg_left ?_ (by positivity)
  rw [div_le_div_iff₀ (by linarith) (by linarith)]
  linarith

/-- C83: odd indices are exact, even indices up to 2000 come from the tables. -/
theorem C83_bernoulli (E : RealEnv) (m : ℤ) (rg : List ℝ) {n : ℕ} (hn : n % 2 = 1 ∨ n ≤ 2000) :
    ∃ b, Fn.bernoulli (realArith E) (tabR m rg) n = some b ∧
      |b - (_root_.bernoulli n : ℝ)| ≤ (10 : ℝ) ^ (-419 : ℤ) * |(_root_.bernoulli n : ℝ)| := by
  by_cases ho : n % 2 = 1
  · refine ⟨_root_.bernoulli n, ?_, by rw [sub_self, abs_zero]; positivity⟩
    unfold Fn.bernoulli
    rw [if_pos (by omega)]
    ra_simp
    by_cases h1 : n = 1
    · subst h1; norm_num [bernoulli_one]
    · rw [if_neg h1, bernoulli_eq_zero_of_odd (Nat.odd_iff.2 ho) (by omega)]; simp
  · obtain ⟨k, rfl⟩ : ∃ k, n = 2 * k := ⟨n / 2, by omega⟩
    rcases Nat.eq_zero_or_pos k with rfl | hk
    · have h0 : TabData.a367[0]? = some (1, 0) ∧ TabData.a2445[0]? = some (1, 0) := ⟨rfl, rfl⟩
      refine ⟨1, ?_, by norm_num⟩
      unfold Fn.bernoulli Fn.bernTab
      rw [if_neg (by omega), if_pos (by rw [tabR_bernMax]; omega)]
      simp [tabR, h0.1, h0.2, tabVal, ra_div]
    · obtain ⟨b, h1, h2, h3⟩ := bernoulli_tab (E := E) (C78_tabBern m rg) (k := k) (by omega) (by omega)
      exact ⟨b, h2, h3⟩

example (E : RealEnv) (m : ℤ) (rg : List ℝ) : ∃ b, Fn.bernoulli (realArith E) (tabR m rg) 2 = some b ∧
    |b - 1 / 6| ≤ (10 : ℝ) ^ (-419 : ℤ) * (1 / 6) := by
  obtain ⟨b, h1, h2⟩ := C83_bernoulli E m rg (n := 2) (by norm_num)
  refine ⟨b, h1, ?_⟩
  rw [bernoulli_two] at h2
  push_cast at h2
  rw [abs_of_pos (show (0 : ℝ) < 6⁻¹ by norm_num)] at h2
  rwa [one_div]

/-- C83: larger even indices; the relative error of the factorial carries over. -/
theorem C83_bernoulli_large_partial {E : RealEnv} (ht : E.tol ≤ 8000) (m : ℤ) (rg : List ℝ) {n : ℕ} (hn : 2000 < n) (he : n % 2 = 0)
    {f ε : ℝ} (hf : Fn.factorial (realArith E) (tabR m rg) n = some f) (hf' : |f - n.factorial| ≤ ε * n.factorial) :
    ∃ b, Fn.bernoulli (realArith E) (tabR m rg) n = some b ∧
      |b - (_root_.bernoulli n : ℝ)| ≤ (ε + 20000 * (10 : ℝ) ^ (-E.tol)) * |(_root_.bernoulli n : ℝ)| := by
  obtain ⟨k, rfl⟩ : ∃ k, n = 2 * k := ⟨n / 2, by omega⟩
  unfold Fn.bernoulli
  rw [if_neg (by omega), if_neg (by rw [tabR_bernMax]; omega), hf]
  obtain ⟨fuel, hfuel⟩ : ∃ fuel : ℕ, fuel = 9998 := ⟨_, rfl⟩
  rw [← hfuel]
  have s2 : ∑ i ∈ range 2, 1 / (i : ℝ) ^ (2 * k) = 1 := by
    rw [sum_range_succ, sum_range_one]
    simp [show k ≠ 0 by omega]
  obtain ⟨K, k1, k2, k3, k4⟩ := bernLoop_real (E := E) (n := 2 * k) fuel 2 (by norm_num)
  rw [s2] at k3
  have hz := hasSum_zeta_nat (k := k) (by omega)
  obtain ⟨j, hj⟩ : ∃ j, 2 * k = j + 2 := ⟨2 * k - 2, by omega⟩
  obtain ⟨z1, z2⟩ := zeta_tail (n := j) k1 (by rw [← hj]; exact hz)
  rw [← hj] at z1 z2
  obtain ⟨z, hzz⟩ : ∃ z, z = (-1 : ℝ) ^ (k + 1) * (2 : ℝ) ^ (2 * k - 1) * Real.pi ^ (2 * k) * (_root_.bernoulli (2 * k) : ℝ) / (2 * k).factorial := ⟨_, rfl⟩
  rw [← hzz] at z1 z2
  have S1 : 1 ≤ ∑ i ∈ range K, 1 / (i : ℝ) ^ (2 * k) := by
    refine le_trans s2.ge ?_
    exact sum_le_sum_of_subset_of_nonneg (range_subset_range.2 k1) (fun i _ _ => by positivity)
  have tail : 2 * (K : ℝ) * (1 / (K : ℝ) ^ (2 * k)) ≤ 20000 * (10 : ℝ) ^ (-E.tol) := by
    have K1 : (K : ℝ) ≤ 10000 := by exact_mod_cast (by omega)
    have K0 : (0 : ℝ) < K := by exact_mod_cast (by omega)
    have h : 1 / (K : ℝ) ^ (2 * k) ≤ (10 : ℝ) ^ (-E.tol) := by
      rcases k4 with h | h
      · rw [show K = 10000 by omega]
        have e : (((10000 : ℕ) : ℝ)) = (10 : ℝ) ^ 4 := by norm_num
        rw [e, ← pow_mul, one_div, ← zpow_natCast, ← zpow_neg]
        exact zpow_le_zpow_right₀ (by norm_num) (by push_cast; omega)
      · exact h
    have := mul_le_mul (mul_le_mul_of_nonneg_left K1 (by norm_num : (0 : ℝ) ≤ 2)) h (by positivity) (by norm_num)
    linarith
  have P0 : (0 : ℝ) < (2 * Real.pi) ^ (2 * k) := by have := Real.pi_pos; positivity
  have F0 : (0 : ℝ) < (2 * k).factorial := by exact_mod_cast Nat.factorial_pos _
  have sq : (-1 : ℝ) ^ (k + 1) * (-1) ^ (k + 1) = 1 := by rw [← mul_pow]; norm_num
  have B : (_root_.bernoulli (2 * k) : ℝ) = (-1) ^ (k + 1) * (z * (((2 * k).factorial : ℝ) / (2 * Real.pi) ^ (2 * k) * 2)) := by
    have e2 : (2 * Real.pi) ^ (2 * k) = 2 * (2 : ℝ) ^ (2 * k - 1) * Real.pi ^ (2 * k) := by
      rw [mul_pow, ← pow_succ', show 2 * k - 1 + 1 = 2 * k by omega]
    rw [e2, hzz]
    have a1 : (2 : ℝ) ^ (2 * k - 1) ≠ 0 := by positivity
    have a2 : Real.pi ^ (2 * k) ≠ 0 := by have := Real.pi_pos; positivity
    have a3 := F0.ne'
    generalize (-1 : ℝ) ^ (k + 1) = σ at *
    generalize (_root_.bernoulli (2 * k) : ℝ) = b at *
    generalize ((2 * k).factorial : ℝ) = F at *
    field_simp
    linear_combination (-b) * sq
  obtain ⟨S, hS⟩ : ∃ S, S = ∑ i ∈ range K, 1 / (i : ℝ) ^ (2 * k) := ⟨_, rfl⟩
  rw [← hS] at k3 z1 z2 S1
  refine ⟨(-1) ^ (k + 1) * (S * (f / (2 * Real.pi) ^ (2 * k) * 2)), ?_, ?_⟩
  · simp only [Option.bind_eq_bind, Option.bind_some]
    rw [ra_pown E _ (by omega), ra_one, k3]
    unfold Fn.twoPi
    ra_simp
    rw [show (Real.pi * ((2 : ℤ) : ℝ)) ^ ((2 * k : ℕ) : ℤ) = (2 * Real.pi) ^ (2 * k) by rw [zpow_natCast]; push_cast; ring_nf]
    rw [show 2 * k / 2 = k by omega]
    push_cast
    rcases Nat.even_or_odd k with h | h
    · rw [if_pos (Nat.even_iff.1 h), (Even.add_one h).neg_one_pow]; simp
    · rw [if_neg (by have := Nat.odd_iff.1 h; omega), (Odd.add_one h).neg_one_pow]; simp
  · rw [B]
    have sa : |(-1 : ℝ) ^ (k + 1)| = 1 := by rw [abs_pow, abs_neg, abs_one, one_pow]
    rw [← mul_sub, abs_mul, abs_mul, sa, one_mul, one_mul]
    have zp : 0 < z := by linarith
    rw [abs_of_pos (show 0 < z * (((2 * k).factorial : ℝ) / (2 * Real.pi) ^ (2 * k) * 2) by positivity)]
    generalize (10 : ℝ) ^ (-E.tol) = δ at *
    generalize (2 * Real.pi) ^ (2 * k) = P at *
    generalize ((2 * k).factorial : ℝ) = F at *
    have key : |S * f - z * F| ≤ (ε + 20000 * δ) * (z * F) := by
      have e : S * f - z * F = S * (f - F) - (z - S) * F := by ring
      rw [e]
      have a := abs_sub (S * (f - F)) ((z - S) * F)
      rw [abs_mul, abs_mul, abs_of_pos F0, abs_of_nonneg (show 0 ≤ z - S by linarith), abs_of_pos (show 0 < S by linarith)] at a
      have b : S * |f - F| ≤ z * (ε * F) := mul_le_mul z1 hf' (abs_nonneg _) zp.le
      have d0 : 0 ≤ 20000 * δ := le_trans (by positivity) tail
      have c : (z - S) * F ≤ 20000 * δ * (z * F) := by
        have c1 : z - S ≤ 20000 * δ * z := by nlinarith
        have := mul_le_mul_of_nonneg_right c1 F0.le
        linarith
      linarith
    rw [show S * (f / P * 2) - z * (F / P * 2) = (S * f - z * F) * (2 / P) by ring, abs_mul, abs_of_pos (show 0 < 2 / P by positivity),
      show (ε + 20000 * δ) * (z * (F / P * 2)) = (ε + 20000 * δ) * (z * F) * (2 / P) by ring]
    exact mul_le_mul_of_nonneg_right key (by positivity)

/-- The hypothesis about the factorial is what C79 gives. -/
example {E : RealEnv} (t0 : 10 ≤ E.tol) (ht : E.tol ≤ 8000) (hm : E.maxExp ≤ 2 ^ 62) (hm' : 10000 ≤ E.maxExp) (m : ℤ) (rg : List ℝ)
    (l1 : LogStart E 14 (newtonArg ((3001 : ℕ) : ℝ))) (l2 : LogStart E 14 (2 * Real.pi))
    (hη : 6001 * (10 : ℝ) ^ (-E.tol) * ((3001 : ℕ) : ℝ) + factErr E ((10 : ℝ) ^ (-419 : ℤ)) ((3001 : ℕ) : ℝ) ≤ 1)
    (hL : Real.log (Nat.factorial 3000) + 1 ≤ E.maxExp) :
    ∃ y b, Fn.bernoulli (realArith E) (tabR m rg) 3000 = some b ∧ ((∀ k : ℤ, y ≠ k * Real.log 2) →
      |b - (_root_.bernoulli 3000 : ℝ)| ≤ (2 * (6001 * (10 : ℝ) ^ (-E.tol) * ((3001 : ℕ) : ℝ) + factErr E ((10 : ℝ) ^ (-419 : ℤ)) ((3001 : ℕ) : ℝ)) +
          34100 * (10 : ℝ) ^ (-E.tol)) * |(_root_.bernoulli 3000 : ℝ)|) := by
  obtain ⟨y, f, -, h2, h3⟩ := C79_factorial_partial t0 (by omega) hm hm' m rg (n := 3000) (by norm_num) (by norm_num) l1 l2 hη hL
  by_cases hy : ∀ k : ℤ, y ≠ k * Real.log 2
  · have h4 := h3 hy
    rw [abs_sub_comm] at h4
    obtain ⟨b, b1, b2⟩ := C83_bernoulli_large_partial ht m rg (n := 3000) (by norm_num) (by norm_num) h2 h4
    refine ⟨y, b, b1, fun _ => b2.trans (mul_le_mul_of_nonneg_right (le_of_eq ?_) (abs_nonneg _))⟩
    generalize (10 : ℝ) ^ (-E.tol) = δ
    ring
  · have F0 : (0 : ℝ) < (Nat.factorial 3000 : ℝ) := by exact_mod_cast Nat.factorial_pos _
    obtain ⟨b, b1, -⟩ := C83_bernoulli_large_partial ht m rg (n := 3000) (by norm_num) (by norm_num) h2
      (ε := |f - (Nat.factorial 3000 : ℕ)| / (Nat.factorial 3000 : ℕ)) (by rw [div_mul_cancel₀ _ F0.ne'])
    exact ⟨y, b, b1, fun h => absurd h hy⟩

end EFX.Props
