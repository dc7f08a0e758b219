import Verif.Lemmas.RealBinom
import Verif.Props.Atan
/-! C68: the arc sine and the arc cosine. -/

namespace EFX
open Finset

theorem t2f1_asin (y : ℝ) (n : ℕ) : t2f1 (1 / 2) (1 / 2) (3 / 2) y n = cHalf n * y ^ n / (2 * n + 1) := by
  unfold t2f1 xn cHalf
  rw [← poch_half_three]
  have h1 : (n.factorial : ℝ) ≠ 0 := by exact_mod_cast n.factorial_ne_zero
  have h2 := (poch_pos (b := 1 / 2) (by norm_num) n).ne'
  have h3 : 2 * (n : ℝ) + 1 ≠ 0 := by positivity
  field_simp

theorem hasSum_asin2 {y : ℝ} (h0 : y ≠ 0) (h1 : |y| < 1) : HasSum (t2f1 (1 / 2) (1 / 2) (3 / 2) (y * y)) (Real.arcsin y / y) := by
  have h := (hasSum_asin h1).div_const y
  refine h.congr_fun ?_
  intro n
  rw [t2f1_asin, show 2 * n + 1 = n + n + 1 by ring, pow_succ, pow_add, mul_pow]
  field_simp

theorem cHalf_succ (n : ℕ) : cHalf (n + 1) ≤ cHalf n := by
  unfold cHalf
  have h1 : (0 : ℝ) < n.factorial := by exact_mod_cast n.factorial_pos
  have h2 := poch_pos (b := 1 / 2) (by norm_num) n
  rw [poch_succ, Nat.factorial_succ, div_le_div_iff₀ (by positivity) h1]
  push_cast
  have h3 : 0 < poch (1 / 2) n * n.factorial := by positivity
  nlinarith

/-- The series of the arc sine, divided by the argument. -/
theorem asin_series {E : RealEnv} (ht : E.tol ≤ 29990) {y r : ℝ} (h0 : y ≠ 0) (h1 : |y| ≤ 2 / 100)
    (hr : SeriesOf E (t2f1 (1 / 2) (1 / 2) (3 / 2) (y * y)) r) :
    |Real.arcsin y - y * r| ≤ (22 / 10) * (10 : ℝ) ^ (-E.tol) * |y| ∧ 99 / 100 * |y| ≤ |Real.arcsin y| := by
  have yp : 0 < |y| := abs_pos.2 h0
  have y2 : y * y ≤ 4 / 10000 := by
    rw [← abs_mul_abs_self]; nlinarith
  have ny : 0 < y * y := mul_self_pos.2 h0
  have near := series_near1 ht hr (hasSum_asin2 h0 (by linarith)) (by rw [t2f1_asin]; simp [cHalf, poch_zero]) (by
      rw [t2f1_asin]
      exact div_ne_zero (mul_ne_zero (cHalf_bound _).1.ne' (pow_ne_zero _ ny.ne')) (by positivity)) (by
      rw [t2f1_asin, pow_one, abs_div, abs_mul, abs_of_pos ny, abs_of_pos (cHalf_bound 1).1]
      have := (cHalf_bound 1).2
      norm_num at y2 ⊢
      nlinarith) (by
      intro i hi
      have c1 := (cHalf_bound (i + 1)).1
      have c2 := (cHalf_bound i).1
      rw [t2f1_asin, t2f1_asin, abs_of_pos (by positivity), abs_of_pos (by positivity)]
      push_cast
      rw [div_div, div_le_div_iff₀ (by positivity) (by positivity), pow_succ]
      have hp : 0 ≤ (y * y) ^ i := by positivity
      have hi0 : (0 : ℝ) ≤ i := by positivity
      have e1 : cHalf (i + 1) * ((y * y) ^ i * (y * y)) * ((2 * (i : ℝ) + 1) * 1000) =
          (y * y) ^ i * (cHalf (i + 1) * ((y * y * 1000) * (2 * (i : ℝ) + 1))) := by ring
      have e2 : cHalf i * (y * y) ^ i * (2 * ((i : ℝ) + 1) + 1) = (y * y) ^ i * (cHalf i * (2 * ((i : ℝ) + 1) + 1)) := by ring
      rw [e1, e2]
      apply mul_le_mul_of_nonneg_left _ hp
      exact mul_le_mul (cHalf_succ i) (by nlinarith) (by positivity) c2.le)
  have hq := abs_le.1 near.2.2
  constructor
  · have e : Real.arcsin y - y * r = (Real.arcsin y / y - r) * y := by field_simp
    rw [e, abs_mul]
    exact mul_le_mul_of_nonneg_right near.1 yp.le
  · have e : |Real.arcsin y| = |Real.arcsin y / y| * |y| := by
      rw [← abs_mul]; congr 1; field_simp
    rw [e, abs_of_pos (by linarith : 0 < Real.arcsin y / y)]
    nlinarith

theorem arcsin_half {x : ℝ} (h0 : 0 ≤ x) (h1 : x ≤ 1) : Real.arcsin x = Real.pi / 2 - 2 * Real.arcsin (Real.sqrt ((1 - x) / 2)) := by
  have s0 := Real.sqrt_nonneg ((1 - x) / 2)
  have sq := Real.sq_sqrt (show 0 ≤ (1 - x) / 2 by linarith)
  have s1 : Real.sqrt ((1 - x) / 2) ≤ 1 := by nlinarith
  have a0 : 0 ≤ Real.arcsin (Real.sqrt ((1 - x) / 2)) := Real.arcsin_nonneg.2 s0
  have a1 := Real.arcsin_le_pi_div_two (Real.sqrt ((1 - x) / 2))
  have c : Real.cos (2 * Real.arcsin (Real.sqrt ((1 - x) / 2))) = x := by
    rw [Real.cos_two_mul, Real.cos_sq', Real.sin_arcsin (by linarith) s1, sq]; ring
  have := Real.arccos_cos (x := 2 * Real.arcsin (Real.sqrt ((1 - x) / 2))) (by linarith) (by linarith)
  rw [c, Real.arccos] at this
  linarith

/-- The series near one. -/
theorem asinOne_near {E : RealEnv} (ht : E.tol ≤ 29990) {x : ℝ} (h1 : 0 < 1 - x) (h2 : 1 - x ≤ 1 / 10000) :
    |Real.arcsin x - (Real.pi / 2 - Real.sqrt ((1 - x) * 2) *
      Fn.hyp2f1 (realArith E) (1 / 2) (1 / 2) (3 / 2) ((1 - x) / 2))| ≤ (10 : ℝ) ^ (-E.tol) := by
  have tp : (0 : ℝ) < (10 : ℝ) ^ (-E.tol) := by positivity
  set y := Real.sqrt ((1 - x) / 2) with hy
  have sq : y * y = (1 - x) / 2 := Real.mul_self_sqrt (by linarith)
  have y0 : 0 < y := Real.sqrt_pos.2 (by linarith)
  have ys : y ≤ 2 / 100 := by nlinarith
  have r := hyp2f1_real E (1 / 2) (1 / 2) (3 / 2) ((1 - x) / 2)
  rw [← sq] at r ⊢
  have h := (asin_series ht y0.ne' (by rwa [abs_of_pos y0]) r).1
  have e : Real.sqrt ((1 - x) * 2) = 2 * y := by
    rw [show (1 - x) * 2 = (2 * y) ^ 2 by nlinarith]
    exact Real.sqrt_sq (by linarith)
  rw [e, arcsin_half (by linarith) (by linarith), ← hy]
  rw [show ∀ a b c : ℝ, a - 2 * b - (a - 2 * y * c) = -(2 * (b - y * c)) by intros; ring, abs_neg, abs_mul, abs_two]
  rw [abs_of_pos y0] at h
  nlinarith

theorem sub_sin_bound {ε : ℝ} (e1 : |ε| ≤ 1) : |ε - Real.sin ε| ≤ |ε| ^ 2 * (|ε| / 4) := by
  have key : ∀ e : ℝ, 0 < e → e ≤ 1 → |e - Real.sin e| ≤ |e| ^ 2 * (|e| / 4) := by
    intro e he0 he1
    have l := Real.sin_gt_sub_cube (x := e) he0
    have u := Real.sin_lt (x := e) he0
    rw [abs_of_pos he0, abs_of_pos (by linarith)]
    nlinarith
  rcases lt_trichotomy ε 0 with h0 | h0 | h0
  · have := key (-ε) (by linarith) (by rwa [abs_of_neg h0] at e1)
    rw [Real.sin_neg, abs_neg] at this
    rw [show ε - Real.sin ε = -(-ε - -Real.sin ε) by ring, abs_neg]
    exact this
  · rw [h0]; simp
  · rw [abs_of_pos h0] at e1
    exact key ε h0 e1

set_option maxHeartbeats 800000 in
/-- One Newton step: error `p + B` with `p <= c/20`, `B <= c/100` for `c` the cosine of the result. -/
theorem asinStep_near {E : RealEnv} (t0 : 30 ≤ E.tol) (ht : E.tol ≤ 29990) {x v p : ℝ} (hx : 0 < x) (hx1 : x < 1) (p0 : 0 ≤ p)
    (hp : p ≤ Real.sqrt (1 - x ^ 2) / 20) (hA : (10 : ℝ) ^ (9 - E.tol) ≤ (1 - x ^ 2) / 1000)
    (hv : |v - Real.arcsin x| ≤ p + (10 : ℝ) ^ (9 - E.tol) / Real.sqrt (1 - x ^ 2)) :
    |Fn.asinStep (realArith E) x v - Real.arcsin x| ≤ p ^ 2 / Real.sqrt (1 - x ^ 2) + (10 : ℝ) ^ (9 - E.tol) / Real.sqrt (1 - x ^ 2) := by
  have ha := (Props.C64_cos_partial (E := E) (by omega) (by omega) v).1
  have hb := Props.C64_sin_partial (E := E) (by omega) (by omega) v
  have Ap : (0 : ℝ) < (10 : ℝ) ^ (9 - E.tol) := by positivity
  have hb2 : |Real.sin v - Fn.sin (realArith E) v| ≤ (10 : ℝ) ^ (9 - E.tol) / 100 := by
    refine le_trans hb ?_
    have e9 : (10 : ℝ) ^ (9 - E.tol) = 1000000000 * (10 : ℝ) ^ (-E.tol) := by
      rw [sub_eq_add_neg, zpow_add₀ (by norm_num)]; norm_num
    have tp : (0 : ℝ) < (10 : ℝ) ^ (-E.tol) := by positivity
    have := Real.abs_sin_le_one v
    rw [e9]
    nlinarith
  unfold Fn.asinStep
  ra_simp
  generalize Fn.cos (realArith E) v = C at *
  generalize Fn.sin (realArith E) v = S at *
  generalize (10 : ℝ) ^ (9 - E.tol) = A at *
  have st : Real.sin (Real.arcsin x) = x := Real.sin_arcsin (by linarith) (by linarith)
  have ct : Real.cos (Real.arcsin x) = Real.sqrt (1 - x ^ 2) := Real.cos_arcsin x
  have sq := Real.sq_sqrt (show 0 ≤ 1 - x ^ 2 by nlinarith)
  have cp : 0 < Real.sqrt (1 - x ^ 2) := Real.sqrt_pos.2 (by nlinarith)
  have c1 : Real.sqrt (1 - x ^ 2) ≤ 1 := by nlinarith
  generalize Real.sqrt (1 - x ^ 2) = c0 at *
  generalize Real.arcsin x = θ at *
  obtain ⟨ε, rfl⟩ : ∃ ε, v = θ + ε := ⟨v - θ, by ring⟩
  rw [add_sub_cancel_left] at hv
  have hA' : A ≤ c0 ^ 2 / 1000 := by rw [sq]; exact hA
  have AB : A / c0 ≤ c0 / 1000 := by
    rw [div_le_iff₀ cp]; linarith
  have Bp : 0 < A / c0 := by positivity
  have eb : |ε| ≤ c0 * (51 / 1000) := by linarith
  have dc := Real.abs_cos_sub_cos_le (θ + ε) θ
  have ds := Real.abs_sin_sub_sin_le (θ + ε) θ
  rw [add_sub_cancel_left, ct] at dc
  rw [add_sub_cancel_left, st] at ds
  have dc' := abs_le.1 dc
  have cl : c0 * (949 / 1000) ≤ Real.cos (θ + ε) := by linarith
  have Cl : c0 * (948 / 1000) ≤ C := by
    have := abs_le.1 ha
    have : A ≤ c0 / 1000 := by nlinarith
    linarith
  have s1 := Real.abs_sin_le_one (θ + ε)
  -- the exact step
  have ex : ε * Real.cos (θ + ε) - (Real.sin (θ + ε) - x) =
      (ε - Real.sin ε) * Real.cos (θ + ε) - Real.sin (θ + ε) * (1 - Real.cos ε) := by
    have : x = Real.sin (θ + ε) * Real.cos ε - Real.cos (θ + ε) * Real.sin ε := by
      rw [← Real.sin_sub, add_sub_cancel_right, st]
    rw [this]; ring
  have k1 := sub_sin_bound (ε := ε) (by linarith)
  have k2 : |1 - Real.cos ε| ≤ |ε| ^ 2 / 2 := by
    have h1 := Real.one_sub_sq_div_two_le_cos (x := ε)
    have h2 := Real.cos_le_one ε
    rw [sq_abs, abs_of_nonneg (by linarith)]
    linarith
  have e0 := abs_nonneg ε
  -- the quotient with errors
  have Cp : 0 < C := by linarith [mul_pos cp (by norm_num : (0 : ℝ) < 948 / 1000)]
  have num : θ + ε - (S - x) / C - θ = ((ε * Real.cos (θ + ε) - (Real.sin (θ + ε) - x)) + (ε * (C - Real.cos (θ + ε)) - (S - Real.sin (θ + ε)))) / C := by
    field_simp; ring
  rw [num, ex, abs_div, abs_of_pos Cp, div_le_iff₀ Cp]
  have cc1 := Real.cos_le_one (θ + ε)
  have ca : |Real.cos (θ + ε)| ≤ c0 * (1051 / 1000) := by
    rw [abs_le]; constructor <;> linarith
  generalize Real.cos (θ + ε) = c at *
  generalize Real.sin (θ + ε) = s at *
  generalize Real.sin ε = σ at *
  generalize Real.cos ε = κ at *
  have b1 : |(ε - σ) * c| ≤ |ε| ^ 2 * (2 / 100) := by
    rw [abs_mul]
    have h1 : |ε - σ| * |c| ≤ (|ε| ^ 2 * (|ε| / 4)) * (c0 * (1051 / 1000)) := mul_le_mul k1 ca (abs_nonneg _) (by positivity)
    have h2 : |ε| / 4 * (c0 * (1051 / 1000)) ≤ 2 / 100 := by nlinarith
    have h3 := mul_le_mul_of_nonneg_left h2 (by positivity : 0 ≤ |ε| ^ 2)
    nlinarith
  have b2 : |s * (1 - κ)| ≤ |ε| ^ 2 / 2 := by
    rw [abs_mul]
    calc |s| * |1 - κ| ≤ 1 * (|ε| ^ 2 / 2) := mul_le_mul s1 k2 (abs_nonneg _) (by norm_num)
      _ = _ := one_mul _
  rw [abs_sub_comm] at ha hb2
  have b3 : |ε * (C - c)| ≤ A * (51 / 1000) := by
    rw [abs_mul, mul_comm]
    refine mul_le_mul ha ?_ e0 Ap.le
    nlinarith
  have t1 := abs_add_le ((ε - σ) * c - s * (1 - κ)) (ε * (C - c) - (S - s))
  have t2 := abs_sub ((ε - σ) * c) (s * (1 - κ))
  have t3 := abs_sub (ε * (C - c)) (S - s)
  have b5 : |ε| ^ 2 ≤ p ^ 2 + A * (11 / 100) := by
    have h1 : |ε| ^ 2 ≤ (p + A / c0) ^ 2 := pow_le_pow_left₀ e0 hv 2
    have h2 : (p + A / c0) ^ 2 = p ^ 2 + A * (2 * (p / c0)) + A * (A / c0 / c0) := by field_simp; ring
    have h3 : p / c0 ≤ 1 / 20 := by rw [div_le_iff₀ cp]; linarith
    have h4 : A / c0 / c0 ≤ 1 / 1000 := by rw [div_le_iff₀ cp]; linarith
    have h5 := mul_le_mul_of_nonneg_left h3 Ap.le
    have h6 := mul_le_mul_of_nonneg_left h4 Ap.le
    rw [h2] at h1
    linarith
  have r1 : (p ^ 2 / c0 + A / c0) * C ≥ (p ^ 2 + A) * (948 / 1000) := by
    have h1 : p ^ 2 / c0 + A / c0 = (p ^ 2 + A) / c0 := by ring
    rw [h1, ge_iff_le, div_mul_eq_mul_div, le_div_iff₀ cp, mul_assoc]
    apply mul_le_mul_of_nonneg_left _ (by positivity)
    linarith
  have p2 : 0 ≤ p ^ 2 := by positivity
  linarith

/-- The number of passes of the loop. -/
theorem digitLoop_count (E : RealEnv) (f : ℤ → ℝ → ℝ) (P : ℕ → ℝ → Prop) (hs : ∀ k d v, P k v → P (k + 1) (f d v)) :
    ∀ (fuel k : ℕ) (d : ℤ) (v : ℝ), 0 < d → P k v →
      ∃ K, k ≤ K ∧ (K = k ∨ d * 2 ^ (K - k - 1) ≤ E.tol) ∧ P K (Fn.digitLoop (realArith E) f fuel d v)
  | 0, k, d, v, _, hp => ⟨k, le_refl _, Or.inl rfl, by simpa [Fn.digitLoop] using hp⟩
  | fuel + 1, k, d, v, h0, hp => by
    rw [Fn.digitLoop, ra_tol]
    by_cases hd : d ≤ E.tol
    · rw [if_pos hd]
      obtain ⟨K, k1, k2, k3⟩ := digitLoop_count E f P hs fuel (k + 1) (d * 2) (f d v) (by omega) (hs k d v hp)
      refine ⟨K, by omega, Or.inr ?_, k3⟩
      rcases k2 with k2 | k2
      · rw [k2, show k + 1 - k - 1 = 0 by omega, pow_zero, mul_one]; exact hd
      · by_cases hK : K = k + 1
        · rw [hK, show k + 1 - k - 1 = 0 by omega, pow_zero, mul_one]; exact hd
        · rw [show K - k - 1 = (K - (k + 1) - 1) + 1 by omega, pow_succ]
          linarith
    · rw [if_neg hd]
      exact ⟨k, le_refl _, Or.inl rfl, hp⟩

/-- At one the iteration only halves the error. -/
theorem asinStep_one {E : RealEnv} (t0 : 60 ≤ E.tol) (ht : E.tol ≤ 29990) {v : ℝ} (h1 : (10 : ℝ) ^ (-22 : ℤ) ≤ |v - Real.pi / 2|)
    (h2 : |v - Real.pi / 2| ≤ (10 : ℝ) ^ (-10 : ℤ)) :
    (2 / 5) * |v - Real.pi / 2| ≤ |Fn.asinStep (realArith E) 1 v - Real.pi / 2| ∧
    |Fn.asinStep (realArith E) 1 v - Real.pi / 2| ≤ 2 * |v - Real.pi / 2| := by
  have ha := (Props.C64_cos_partial (E := E) (by omega) (by omega) v).1
  have hb := Props.C64_sin_partial (E := E) (by omega) (by omega) v
  have hA : (10 : ℝ) ^ (9 - E.tol) ≤ (10 : ℝ) ^ (-51 : ℤ) := zpow_le_zpow_right₀ (by norm_num) (by omega)
  have hT : (10 : ℝ) ^ (-E.tol) ≤ (10 : ℝ) ^ (-60 : ℤ) := zpow_le_zpow_right₀ (by norm_num) (by omega)
  have ha := le_trans ha hA
  have hb : |Real.sin v - Fn.sin (realArith E) v| ≤ 4 * (10 : ℝ) ^ (-60 : ℤ) := by
    refine le_trans hb ?_
    have := Real.abs_sin_le_one v
    have : 0 < (10 : ℝ) ^ (-E.tol) := by positivity
    nlinarith [abs_nonneg (Real.sin v)]
  unfold Fn.asinStep
  ra_simp
  generalize Fn.cos (realArith E) v = C at *
  generalize Fn.sin (realArith E) v = S at *
  clear hA hT t0 ht
  obtain ⟨ε, rfl⟩ : ∃ ε, v = ε + Real.pi / 2 := ⟨v - Real.pi / 2, by ring⟩
  rw [add_sub_cancel_right] at *
  rw [Real.cos_add_pi_div_two] at ha
  rw [Real.sin_add_pi_div_two] at hb
  have k1 := sub_sin_bound (ε := ε) (le_trans h2 (by norm_num))
  have k2 : |1 - Real.cos ε| ≤ |ε| ^ 2 / 2 := by
    have h1 := Real.one_sub_sq_div_two_le_cos (x := ε)
    have h2 := Real.cos_le_one ε
    rw [sq_abs, abs_of_nonneg (by linarith)]
    linarith
  norm_num at h1 h2 ha hb
  have e0 : 0 < |ε| := lt_of_lt_of_le (by norm_num) h1
  have hC : (9 / 10) * |ε| ≤ |C| := by
    have a1 := abs_sub_abs_le_abs_sub ε (-C)
    have a2 : |ε - -C| ≤ |ε - Real.sin ε| + |-Real.sin ε - C| := by
      rw [show ε - -C = (ε - Real.sin ε) - (-Real.sin ε - C) by ring]
      exact abs_sub _ _
    rw [abs_neg] at a1
    nlinarith
  have hS : |S - 1| ≤ (51 / 100) * |ε| ^ 2 := by
    have a1 : |S - 1| ≤ |Real.cos ε - S| + |1 - Real.cos ε| := by
      rw [show S - 1 = -((Real.cos ε - S) + (1 - Real.cos ε)) by ring, abs_neg]
      exact abs_add_le _ _
    have a2 : (1 / 10 ^ 44 : ℝ) ≤ |ε| ^ 2 := by
      have := pow_le_pow_left₀ (by norm_num) h1 2
      norm_num at this ⊢
      exact this
    rw [sq_abs] at a2 k2 ⊢
    norm_num at a2
    linarith
  have Cp : 0 < |C| := by linarith
  have q : |(S - 1) / C| ≤ (6 / 10) * |ε| := by
    rw [abs_div, div_le_iff₀ Cp]
    nlinarith
  rw [show ε + Real.pi / 2 - (S - 1) / C - Real.pi / 2 = ε - (S - 1) / C by ring]
  have u := abs_sub ε ((S - 1) / C)
  have l := abs_sub_abs_le_abs_sub ε ((S - 1) / C)
  constructor <;> linarith

end EFX

namespace EFX.Props
open EFX

theorem asin_unfold (E : RealEnv) (x : ℝ) : Fn.asin (realArith E) x =
    if 1 < |x| then E.nan
    else if x = 0 then 0
    else if ordR |x| < -max (E.tol / 10) 6 then
      (if ¬x < 0 then x * Fn.hyp2f1 (realArith E) (1 / 2) (1 / 2) (3 / 2) (x * x)
       else -(x * Fn.hyp2f1 (realArith E) (1 / 2) (1 / 2) (3 / 2) (x * x)))
    else if ordR |1 - abs x| < -max (E.tol / 10) 6 then
      (if ¬x < 0 then Real.pi / 2 - Real.sqrt ((1 - |x|) * 2) * Fn.hyp2f1 (realArith E) (1 / 2) (1 / 2) (3 / 2) ((1 - |x|) / 2)
       else -(Real.pi / 2 - Real.sqrt ((1 - |x|) * 2) * Fn.hyp2f1 (realArith E) (1 / 2) (1 / 2) (3 / 2) ((1 - |x|) / 2)))
    else if ¬x < 0 then Fn.digitLoop (realArith E) (fun _ v => Fn.asinStep (realArith E) |x| v) 32 12 (E.asin0 |x|)
      else -Fn.digitLoop (realArith E) (fun _ v => Fn.asinStep (realArith E) |x| v) 32 12 (E.asin0 |x|) := by
  unfold Fn.asin
  simp only [Bool.not_eq_true']
  ra_simp
  rw [if_neg (by simp)]
  by_cases hx : x < 0
  · simp [hx, abs_of_neg hx]
  · simp [hx, abs_of_nonneg (not_lt.1 hx)]

theorem asinNewton_near {E : RealEnv} (t0 : 30 ≤ E.tol) (ht : E.tol ≤ 29990) {x v0 : ℝ} (hx : 0 < x) (hx1 : x < 1)
    (hr : 1 / 1000 ≤ 1 - x ^ 2) (h0 : |v0 - Real.arcsin x| ≤ (10 : ℝ) ^ (-15 : ℤ) / Real.sqrt (1 - x ^ 2)) :
    |Fn.digitLoop (realArith E) (fun _ v => Fn.asinStep (realArith E) x v) 32 12 v0 - Real.arcsin x| ≤
      2 * (10 : ℝ) ^ (9 - E.tol) / Real.sqrt (1 - x ^ 2) := by
  have Ap : (0 : ℝ) < (10 : ℝ) ^ (9 - E.tol) := by positivity
  have hA : (10 : ℝ) ^ (9 - E.tol) ≤ (1 - x ^ 2) / 1000 := by
    refine le_trans (zpow_le_zpow_right₀ (by norm_num) (show 9 - E.tol ≤ (-21 : ℤ) by omega)) ?_
    norm_num
    norm_num at hr
    linarith
  have sq := Real.sq_sqrt (show 0 ≤ 1 - x ^ 2 by nlinarith)
  have cp : 0 < Real.sqrt (1 - x ^ 2) := Real.sqrt_pos.2 (by nlinarith)
  have c1 : Real.sqrt (1 - x ^ 2) ≤ 1 := by nlinarith
  have step : ∀ {v p : ℝ}, 0 ≤ p → p ≤ Real.sqrt (1 - x ^ 2) / 20 →
      |v - Real.arcsin x| ≤ p + (10 : ℝ) ^ (9 - E.tol) / Real.sqrt (1 - x ^ 2) →
      |Fn.asinStep (realArith E) x v - Real.arcsin x| ≤ p ^ 2 / Real.sqrt (1 - x ^ 2) + (10 : ℝ) ^ (9 - E.tol) / Real.sqrt (1 - x ^ 2) :=
    fun p0 hp hv => asinStep_near t0 ht hx hx1 p0 hp hA hv
  clear hA
  rw [← sq] at hr
  generalize Real.sqrt (1 - x ^ 2) = c at *
  have aq : ∀ k : ℕ, (10 : ℝ) ^ (-((12 * 2 ^ k : ℕ) : ℤ)) ≤ 1 / 100 := by
    intro k
    have : 1 ≤ 2 ^ k := Nat.one_le_two_pow
    refine le_trans (zpow_le_zpow_right₀ (by norm_num) (show _ ≤ (-2 : ℤ) by omega)) (by norm_num)
  have hst : ∀ (k : ℕ) (d : ℤ) (v : ℝ), |v - Real.arcsin x| ≤ c * (10 : ℝ) ^ (-((12 * 2 ^ k : ℕ) : ℤ)) + (10 : ℝ) ^ (9 - E.tol) / c →
      |(fun (_ : ℤ) v => Fn.asinStep (realArith E) x v) d v - Real.arcsin x| ≤
        c * (10 : ℝ) ^ (-((12 * 2 ^ (k + 1) : ℕ) : ℤ)) + (10 : ℝ) ^ (9 - E.tol) / c := by
    intro k d v hv
    have qp : (0 : ℝ) < (10 : ℝ) ^ (-((12 * 2 ^ k : ℕ) : ℤ)) := by positivity
    have q1 := aq k
    have a2 : (10 : ℝ) ^ (-((12 * 2 ^ (k + 1) : ℕ) : ℤ)) = (10 : ℝ) ^ (-((12 * 2 ^ k : ℕ) : ℤ)) * (10 : ℝ) ^ (-((12 * 2 ^ k : ℕ) : ℤ)) := by
      rw [← zpow_add₀ (by norm_num)]
      congr 1
      push_cast
      ring
    rw [a2]
    generalize (10 : ℝ) ^ (-((12 * 2 ^ k : ℕ) : ℤ)) = q at *
    refine le_trans (step (by positivity : 0 ≤ c * q) (by nlinarith) hv) (le_of_eq ?_)
    field_simp
  have h00 : |v0 - Real.arcsin x| ≤ c * (10 : ℝ) ^ (-((12 * 2 ^ 0 : ℕ) : ℤ)) + (10 : ℝ) ^ (9 - E.tol) / c := by
    rw [pow_zero, mul_one]
    have : (10 : ℝ) ^ (-15 : ℤ) / c ≤ c * (10 : ℝ) ^ (-((12 : ℕ) : ℤ)) := by
      rw [div_le_iff₀ cp]
      norm_num
      norm_num at hr
      nlinarith
    refine le_trans h0 (le_trans this ?_)
    exact le_add_of_nonneg_right (by positivity)
  obtain ⟨K, _, k2, k3⟩ := digitLoop_inv E (fun _ v => Fn.asinStep (realArith E) x v)
    (fun k v => |v - Real.arcsin x| ≤ c * (10 : ℝ) ^ (-((12 * 2 ^ k : ℕ) : ℤ)) + (10 : ℝ) ^ (9 - E.tol) / c) hst 32 0 12 v0
    (by norm_num) (by omega) h00
  refine le_trans k3 ?_
  have h5 : (10 : ℝ) ^ (-((12 * 2 ^ K : ℕ) : ℤ)) ≤ (10 : ℝ) ^ (9 - E.tol) := by
    apply zpow_le_zpow_right₀ (by norm_num)
    push_cast
    rw [Nat.sub_zero] at k2
    omega
  have h6 : c * (10 : ℝ) ^ (-((12 * 2 ^ K : ℕ) : ℤ)) ≤ (10 : ℝ) ^ (9 - E.tol) / c := by
    rw [le_div_iff₀ cp]
    generalize (10 : ℝ) ^ (-((12 * 2 ^ K : ℕ) : ℤ)) = q at *
    have h8 : c * c ≤ 1 := by nlinarith
    nlinarith
  rw [mul_div_assoc]
  linarith

/-- C68 in exact arithmetic.  Suppose the double precision arc sine has an error of at most `10^-15 / sqrt(1 - y^2)`.
Then the error of `asin` is at most `2 * 10^(9 - tolerance) / sqrt(1 - x^2)` if `1 - x^2 >= 1/1000`, or if `1 - |x|` is
below `10^-max(tolerance/10, 6)`; small negative arguments (see `C68_negative_refuted`) are excluded.  Below
`10^-max(tolerance/10, 6)` the relative error is at most `3 * 10^-tolerance`. -/
theorem C68_asin_partial {E : RealEnv} (t0 : 30 ≤ E.tol) (ht : E.tol ≤ 29990)
    (hs : ∀ y, 0 < y → y < 1 → |E.asin0 y - Real.arcsin y| ≤ (10 : ℝ) ^ (-15 : ℤ) / Real.sqrt (1 - y ^ 2)) {x : ℝ} (h1 : |x| < 1)
    (hn : 0 ≤ x ∨ (10 : ℝ) ^ (-max (E.tol / 10) 6) ≤ |x|)
    (hr : 1 / 1000 ≤ 1 - x ^ 2 ∨ 1 - |x| < (10 : ℝ) ^ (-max (E.tol / 10) 6)) :
    |Real.arcsin x - Fn.asin (realArith E) x| ≤ 2 * (10 : ℝ) ^ (9 - E.tol) / Real.sqrt (1 - x ^ 2) ∧
    (|x| < (10 : ℝ) ^ (-max (E.tol / 10) 6) → |Real.arcsin x - Fn.asin (realArith E) x| ≤ 3 * (10 : ℝ) ^ (-E.tol) * |Real.arcsin x|) := by
  have Ap : (0 : ℝ) < (10 : ℝ) ^ (9 - E.tol) := by positivity
  have tp : (0 : ℝ) < (10 : ℝ) ^ (-E.tol) := by positivity
  have e9 : (10 : ℝ) ^ (9 - E.tol) = 1000000000 * (10 : ℝ) ^ (-E.tol) := by
    rw [sub_eq_add_neg, zpow_add₀ (by norm_num)]; norm_num
  have hl := le_max_right (E.tol / 10) 6
  have x2 : 0 < 1 - x ^ 2 := by
    have := sq_abs x
    nlinarith [abs_nonneg x]
  have sq := Real.sq_sqrt x2.le
  have cp : 0 < Real.sqrt (1 - x ^ 2) := Real.sqrt_pos.2 x2
  have c1 : Real.sqrt (1 - x ^ 2) ≤ 1 := by nlinarith
  have big : (10 : ℝ) ^ (-E.tol) ≤ 2 * (10 : ℝ) ^ (9 - E.tol) / Real.sqrt (1 - x ^ 2) := by
    rw [le_div_iff₀ cp]; nlinarith
  rw [asin_unfold, if_neg (by linarith)]
  by_cases h0 : x = 0
  · rw [if_pos h0, h0, Real.arcsin_zero, sub_self, abs_zero]
    exact ⟨by positivity, fun _ => by positivity⟩
  rw [if_neg h0]
  have xp : 0 < |x| := abs_pos.2 h0
  have o : |x| < (10 : ℝ) ^ (-max (E.tol / 10) 6) ↔ ordR |x| < -max (E.tol / 10) 6 := by
    have := (ordR_lt xp.ne' (k := -max (E.tol / 10) 6)).symm
    rwa [abs_abs] at this
  by_cases h2 : ordR |x| < -max (E.tol / 10) 6
  · rw [if_pos h2]
    have xs := o.2 h2
    have xpos : 0 ≤ x := by
      rcases hn with h | h
      · exact h
      · linarith
    rw [if_pos (not_lt.2 xpos)]
    have small : |x| ≤ 2 / 100 :=
      le_trans xs.le (le_trans (zpow_le_zpow_right₀ (by norm_num) (show _ ≤ (-2 : ℤ) by omega)) (by norm_num))
    have h := asin_series ht h0 small (hyp2f1_real E (1 / 2) (1 / 2) (3 / 2) (x * x))
    constructor
    · refine le_trans h.1 (le_trans ?_ big)
      nlinarith
    · intro _
      refine le_trans h.1 ?_
      have h5 : |x| ≤ 100 / 99 * |Real.arcsin x| := by linarith [h.2]
      have h6 := mul_le_mul_of_nonneg_left h5 (by positivity : 0 ≤ 22 / 10 * (10 : ℝ) ^ (-E.tol))
      have h7 : 0 ≤ (10 : ℝ) ^ (-E.tol) * |Real.arcsin x| := by positivity
      linarith
  rw [if_neg h2]
  refine ⟨?_, fun h => absurd (o.1 h) h2⟩
  have d0 : 0 < 1 - |x| := by linarith
  have o2 : 1 - |x| < (10 : ℝ) ^ (-max (E.tol / 10) 6) ↔ ordR |1 - abs x| < -max (E.tol / 10) 6 := by
    have := (ordR_lt (abs_pos.2 d0.ne').ne' (k := -max (E.tol / 10) 6)).symm
    rw [abs_abs, abs_of_pos d0] at this
    rw [abs_of_pos d0]
    exact this
  have fin : ∀ w : ℝ, |Real.arcsin (abs x) - w| ≤ 2 * (10 : ℝ) ^ (9 - E.tol) / Real.sqrt (1 - x ^ 2) →
      |Real.arcsin x - (if ¬x < 0 then w else -w)| ≤ 2 * (10 : ℝ) ^ (9 - E.tol) / Real.sqrt (1 - x ^ 2) := by
    intro w hw
    by_cases hn : x < 0
    · rw [if_neg (by simpa using hn)]
      rw [abs_of_neg hn, Real.arcsin_neg] at hw
      rw [show Real.arcsin x - -w = -(-Real.arcsin x - w) by ring, abs_neg]
      exact hw
    · rw [if_pos hn]
      rwa [abs_of_nonneg (not_lt.1 hn)] at hw
  by_cases h3 : ordR |1 - abs x| < -max (E.tol / 10) 6
  · rw [if_pos h3]
    apply fin
    refine le_trans (asinOne_near ht d0 ?_) big
    exact le_trans (o2.2 h3).le (le_trans (zpow_le_zpow_right₀ (by norm_num) (show _ ≤ (-6 : ℤ) by omega)) (by norm_num))
  · rw [if_neg h3]
    apply fin
    have hr' : 1 / 1000 ≤ 1 - |x| ^ 2 := by
      rw [sq_abs]
      rcases hr with h | h
      · exact h
      · exact absurd (o2.1 h) h3
    have := asinNewton_near t0 ht xp h1 hr' (hs _ xp h1)
    rw [abs_sub_comm, sq_abs] at this
    exact this

/-- C68 refuted for small negative arguments: the sign of the result is wrong. -/
theorem C68_negative_refuted {E : RealEnv} (ht : E.tol ≤ 29990) {x : ℝ} (hx : x < 0)
    (h1 : |x| < (10 : ℝ) ^ (-max (E.tol / 10) 6)) :
    |Real.arcsin x + Fn.asin (realArith E) x| ≤ 3 * (10 : ℝ) ^ (-E.tol) * |Real.arcsin x| := by
  have tp : (0 : ℝ) < (10 : ℝ) ^ (-E.tol) := by positivity
  have hl := le_max_right (E.tol / 10) 6
  have xp : 0 < |x| := abs_pos.2 hx.ne
  have small : |x| ≤ 2 / 100 :=
    le_trans h1.le (le_trans (zpow_le_zpow_right₀ (by norm_num) (show _ ≤ (-2 : ℤ) by omega)) (by norm_num))
  have o : ordR |x| < -max (E.tol / 10) 6 := by
    have := (ordR_lt xp.ne' (k := -max (E.tol / 10) 6)).2
    rw [abs_abs] at this
    exact this h1
  rw [asin_unfold, if_neg (by linarith), if_neg hx.ne, if_pos o, if_neg (by simpa using hx)]
  have h := asin_series ht hx.ne small (hyp2f1_real E (1 / 2) (1 / 2) (3 / 2) (x * x))
  rw [← sub_eq_add_neg]
  refine le_trans h.1 ?_
  have h5 : |x| ≤ 100 / 99 * |Real.arcsin x| := by linarith [h.2]
  have h6 := mul_le_mul_of_nonneg_left h5 (by positivity : 0 ≤ 22 / 10 * (10 : ℝ) ^ (-E.tol))
  have h7 : 0 ≤ (10 : ℝ) ^ (-E.tol) * |Real.arcsin x| := by positivity
  linarith

/-- C68 refuted at one.  The double nearest to pi/2 is off by `6.1 * 10^-17`; whatever the number of digits, the result is
off by more than `10^-22`. -/
theorem C68_one_refuted {E : RealEnv} (t0 : 60 ≤ E.tol) (ht : E.tol ≤ 29990)
    (h1 : 6 * (10 : ℝ) ^ (-17 : ℤ) ≤ |E.asin0 1 - Real.pi / 2|) (h2 : |E.asin0 1 - Real.pi / 2| ≤ (10 : ℝ) ^ (-16 : ℤ)) :
    (10 : ℝ) ^ (-22 : ℤ) ≤ |Fn.asin (realArith E) 1 - Real.arcsin 1| := by
  have hl := le_max_right (E.tol / 10) 6
  have o1 : ordR 1 = 0 := by
    have := ordR_eq (x := 1) (k := 0) (by norm_num) (by norm_num) (by norm_num)
    exact this
  rw [asin_unfold, abs_one, if_neg (by norm_num), if_neg (by norm_num), o1, if_neg (by omega), sub_self, abs_zero, ordR_zero,
    if_neg (by omega), if_pos (by norm_num), Real.arcsin_one]
  have hst : ∀ (k : ℕ) (d : ℤ) (v : ℝ),
      (k ≤ 12 → 6 * (10 : ℝ) ^ (-17 : ℤ) * (2 / 5) ^ k ≤ |v - Real.pi / 2| ∧ |v - Real.pi / 2| ≤ (10 : ℝ) ^ (-16 : ℤ) * 2 ^ k) →
      (k + 1 ≤ 12 → 6 * (10 : ℝ) ^ (-17 : ℤ) * (2 / 5) ^ (k + 1) ≤ |(fun (_ : ℤ) v => Fn.asinStep (realArith E) 1 v) d v - Real.pi / 2| ∧
        |(fun (_ : ℤ) v => Fn.asinStep (realArith E) 1 v) d v - Real.pi / 2| ≤ (10 : ℝ) ^ (-16 : ℤ) * 2 ^ (k + 1)) := by
    intro k d v hv hk
    have hv := hv (by omega)
    have p1 : ((2 : ℝ) / 5) ^ 12 ≤ (2 / 5) ^ k := pow_le_pow_of_le_one (by norm_num) (by norm_num) (by omega)
    have p2 : (2 : ℝ) ^ k ≤ 2 ^ 12 := pow_le_pow_right₀ (by norm_num) (by omega)
    have s := asinStep_one t0 ht (v := v) (by
        refine le_trans ?_ hv.1
        norm_num at p1 ⊢
        linarith) (by
        refine le_trans hv.2 ?_
        norm_num at p2 ⊢
        linarith)
    rw [pow_succ, pow_succ]
    constructor
    · linarith [s.1, hv.1]
    · linarith [s.2, hv.2]
  obtain ⟨K, _, k2, k3⟩ := digitLoop_count E (fun _ v => Fn.asinStep (realArith E) 1 v) _ hst 32 0 12 (E.asin0 1) (by norm_num)
    (fun _ => by rw [pow_zero, pow_zero, mul_one, mul_one]; exact ⟨h1, h2⟩)
  have hK : K ≤ 12 := by
    rcases k2 with k2 | k2
    · omega
    · by_contra hK
      have : (2 : ℤ) ^ 12 ≤ 2 ^ (K - 0 - 1) := pow_le_pow_right₀ (by norm_num) (by omega)
      norm_num at this k2
      omega
  refine le_trans ?_ (k3 hK).1
  have p1 : ((2 : ℝ) / 5) ^ 12 ≤ (2 / 5) ^ K := pow_le_pow_of_le_one (by norm_num) (by norm_num) hK
  norm_num at p1 ⊢
  linarith

theorem acos_unfold (E : RealEnv) (x : ℝ) (h : |x| ≤ 1) : Fn.acos (realArith E) x =
    if |x| < 1 then (if x = 0 then Real.pi / 2 else Real.pi / 2 - Fn.asin (realArith E) x)
    else if 0 ≤ x then 0 else Real.pi := by
  unfold Fn.acos
  simp only [Bool.not_eq_true']
  ra_simp
  rw [if_neg (by simp)]
  by_cases hx : x < 0
  · rw [abs_of_neg hx] at *
    simp [hx, not_lt.2 h, not_le.2 hx]
  · rw [abs_of_nonneg (not_lt.1 hx)] at *
    simp [hx, not_lt.2 h, not_lt.1 hx]

/-- C68 for the arc cosine, under the same conditions. -/
theorem C68_acos_partial {E : RealEnv} (t0 : 30 ≤ E.tol) (ht : E.tol ≤ 29990)
    (hs : ∀ y, 0 < y → y < 1 → |E.asin0 y - Real.arcsin y| ≤ (10 : ℝ) ^ (-15 : ℤ) / Real.sqrt (1 - y ^ 2)) {x : ℝ} :
    (|x| = 1 → Fn.acos (realArith E) x = Real.arccos x) ∧
    (|x| < 1 → 0 ≤ x ∨ (10 : ℝ) ^ (-max (E.tol / 10) 6) ≤ |x| →
      1 / 1000 ≤ 1 - x ^ 2 ∨ 1 - |x| < (10 : ℝ) ^ (-max (E.tol / 10) 6) →
      |Real.arccos x - Fn.acos (realArith E) x| ≤ 2 * (10 : ℝ) ^ (9 - E.tol) / Real.sqrt (1 - x ^ 2)) := by
  constructor
  · intro h
    rw [acos_unfold E x h.le, if_neg (by linarith)]
    by_cases hx : 0 ≤ x
    · rw [abs_of_nonneg hx] at h
      rw [if_pos hx, h, Real.arccos_one]
    · rw [abs_of_neg (not_le.1 hx)] at h
      rw [if_neg hx, show x = -1 by linarith, Real.arccos_neg_one]
  · intro h1 hn hr
    have h := (C68_asin_partial t0 ht hs h1 hn hr).1
    rw [acos_unfold E x h1.le, if_pos h1]
    by_cases h0 : x = 0
    · rw [if_pos h0, h0, Real.arccos_zero, sub_self, abs_zero]
      positivity
    · rw [if_neg h0, Real.arccos, show ∀ a b c : ℝ, a - b - (a - c) = -(b - c) by intros; ring, abs_neg]
      exact h

/-- The hypotheses hold at 101 digits (tolerance 112) for the argument 3/5, whose cosine is 4/5. -/
example (E : RealEnv) (h : E.tol = 112)
    (hs : ∀ y, 0 < y → y < 1 → |E.asin0 y - Real.arcsin y| ≤ (10 : ℝ) ^ (-15 : ℤ) / Real.sqrt (1 - y ^ 2)) :
    |Real.arcsin (3 / 5) - Fn.asin (realArith E) (3 / 5)| ≤ 2 * (10 : ℝ) ^ (-103 : ℤ) / (4 / 5) := by
  have e : Real.sqrt (1 - (3 / 5) ^ 2) = 4 / 5 := by
    rw [show (1 - (3 / 5) ^ 2 : ℝ) = (4 / 5) ^ 2 by norm_num]
    exact Real.sqrt_sq (by norm_num)
  have := (C68_asin_partial (E := E) (x := 3 / 5) (by omega) (by omega) hs (by rw [abs_of_pos] <;> norm_num) (by norm_num) (by norm_num)).1
  rwa [h, e] at this

end EFX.Props
