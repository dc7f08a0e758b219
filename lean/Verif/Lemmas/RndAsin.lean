import Verif.Lemmas.RndTrig3
import Mathlib.Analysis.SpecialFunctions.Trigonometric.Bounds
import Mathlib.Analysis.SpecialFunctions.Trigonometric.Inverse
/-!
# The inverse sine and cosine in rounded arithmetic
-/

namespace EFX

variable {α : Type} {A : Arith α} {v : α → ℝ} {ok : α → Prop} {u : ℝ}

/-- An invariant of the loop that doubles the number of digits. -/
theorem digitLoop_gen (A : Arith α) (f : ℤ → α → α) (P : ℕ → α → Prop) (hs : ∀ k d w, P k w → P (k + 1) (f d w)) :
    ∀ (fuel k : ℕ) (d : ℤ) (w : α), 0 < d → A.tol < d * 2 ^ fuel → P k w →
      ∃ K, k ≤ K ∧ K ≤ k + fuel ∧ A.tol < d * 2 ^ (K - k) ∧ P K (Fn.digitLoop A f fuel d w)
  | 0, k, d, w, _, h1, hp => ⟨k, le_refl _, le_refl _, by simpa using h1, by simpa [Fn.digitLoop] using hp⟩
  | fuel + 1, k, d, w, h0, h1, hp => by
    rw [Fn.digitLoop]
    by_cases hd : d ≤ A.tol
    · rw [if_pos hd]
      obtain ⟨K, k1, k2, k3, k4⟩ := digitLoop_gen A f P hs fuel (k + 1) (d * 2) (f d w) (by omega)
        (by rw [pow_succ] at h1; linarith) (hs k d w hp)
      refine ⟨K, by omega, by omega, ?_, k4⟩
      rw [show K - k = (K - (k + 1)) + 1 by omega, pow_succ]
      linarith
    · rw [if_neg hd]
      exact ⟨k, le_refl _, by omega, by rw [Nat.sub_self, pow_zero, mul_one]; omega, hp⟩

theorem sub_sin_le {ε : ℝ} (e1 : |ε| ≤ 1) : |ε - Real.sin ε| ≤ |ε| ^ 2 * (|ε| / 4) := by
  have key : ∀ e : ℝ, 0 < e → e ≤ 1 → |e - Real.sin e| ≤ |e| ^ 2 * (|e| / 4) := by
    intro e he0 he1
    have l := Real.sin_gt_sub_cube (x := e) he0
    have u := Real.sin_lt (x := e) he0
    rw [abs_of_pos he0, abs_of_pos (by linarith)]
    nlinarith
  rcases lt_trichotomy ε 0 with h0 | h0 | h0
  · have := key (-ε) (by linarith) (by rwa [abs_of_neg h0] at e1)
    rw [Real.sin_neg, abs_neg] at this
    rw [show ε - Real.sin ε = -(-ε - -Real.sin ε) by ring, abs_neg]
    exact this
  · rw [h0]; simp
  · rw [abs_of_pos h0] at e1
    exact key ε h0 e1

set_option maxHeartbeats 800000 in
/-- One Newton step for the arc sine, with approximations `S` and `C` of sine and cosine. -/
theorem asin_newton {x w S C p A B : ℝ} (hx : 0 < x) (hx1 : x < 1) (p0 : 0 ≤ p) (hp : p ≤ Real.sqrt (1 - x ^ 2) / 20) (B0 : 0 < B)
    (hB : B ≤ (1 - x ^ 2) / 1000) (A0 : 0 ≤ A) (hA : A ≤ Real.sqrt (1 - x ^ 2) / 1000)
    (hAB : A * (p + B / Real.sqrt (1 - x ^ 2)) ≤ B / 10) (hv : |w - Real.arcsin x| ≤ p + B / Real.sqrt (1 - x ^ 2))
    (ha : |C - Real.cos w| ≤ A) (hb : |S - Real.sin w| ≤ B / 2) :
    |w - (S - x) / C - Real.arcsin x| ≤ p ^ 2 / Real.sqrt (1 - x ^ 2) + 9 / 10 * (B / Real.sqrt (1 - x ^ 2)) ∧
      Real.sqrt (1 - x ^ 2) * (948 / 1000) ≤ C := by
  have st : Real.sin (Real.arcsin x) = x := Real.sin_arcsin (by linarith) (by linarith)
  have ct : Real.cos (Real.arcsin x) = Real.sqrt (1 - x ^ 2) := Real.cos_arcsin x
  have sq := Real.sq_sqrt (show 0 ≤ 1 - x ^ 2 by nlinarith)
  have cp : 0 < Real.sqrt (1 - x ^ 2) := Real.sqrt_pos.2 (by nlinarith)
  have c1 : Real.sqrt (1 - x ^ 2) ≤ 1 := by nlinarith
  generalize Real.sqrt (1 - x ^ 2) = c0 at *
  generalize Real.arcsin x = θ at *
  obtain ⟨ε, rfl⟩ : ∃ ε, w = θ + ε := ⟨w - θ, by ring⟩
  rw [add_sub_cancel_left] at hv
  have hA' : B ≤ c0 ^ 2 / 1000 := by rw [sq]; exact hB
  have AB : B / c0 ≤ c0 / 1000 := by
    rw [div_le_iff₀ cp]; linarith
  have Bp : 0 < B / c0 := by positivity
  have eb : |ε| ≤ c0 * (51 / 1000) := by linarith
  have dc := Real.abs_cos_sub_cos_le (θ + ε) θ
  rw [add_sub_cancel_left, ct] at dc
  have dc' := abs_le.1 dc
  have cl : c0 * (949 / 1000) ≤ Real.cos (θ + ε) := by linarith
  have Cl : c0 * (948 / 1000) ≤ C := by
    have := abs_le.1 ha
    linarith
  refine ⟨?_, Cl⟩
  have s1 := Real.abs_sin_le_one (θ + ε)
  -- the exact step
  have ex : ε * Real.cos (θ + ε) - (Real.sin (θ + ε) - x) =
      (ε - Real.sin ε) * Real.cos (θ + ε) - Real.sin (θ + ε) * (1 - Real.cos ε) := by
    have : x = Real.sin (θ + ε) * Real.cos ε - Real.cos (θ + ε) * Real.sin ε := by
      rw [← Real.sin_sub, add_sub_cancel_right, st]
    rw [this]; ring
  have k1 := sub_sin_le (ε := ε) (by linarith)
  have k2 : |1 - Real.cos ε| ≤ |ε| ^ 2 / 2 := by
    have h1 := Real.one_sub_sq_div_two_le_cos (x := ε)
    have h2 := Real.cos_le_one ε
    rw [sq_abs, abs_of_nonneg (by linarith)]
    linarith
  have e0 := abs_nonneg ε
  -- the quotient with errors
  have Cp : 0 < C := by linarith [mul_pos cp (by norm_num : (0 : ℝ) < 948 / 1000)]
  have num : θ + ε - (S - x) / C - θ = ((ε * Real.cos (θ + ε) - (Real.sin (θ + ε) - x)) + (ε * (C - Real.cos (θ + ε)) - (S - Real.sin (θ + ε)))) / C := by
    field_simp; ring
  rw [num, ex, abs_div, abs_of_pos Cp, div_le_iff₀ Cp]
  have cc1 := Real.cos_le_one (θ + ε)
  have ca : |Real.cos (θ + ε)| ≤ c0 * (1051 / 1000) := by
    rw [abs_le]; constructor <;> linarith
  generalize Real.cos (θ + ε) = c at *
  generalize Real.sin (θ + ε) = s at *
  generalize Real.sin ε = σ at *
  generalize Real.cos ε = κ at *
  have b1 : |(ε - σ) * c| ≤ |ε| ^ 2 * (2 / 100) := by
    rw [abs_mul]
    have h1 : |ε - σ| * |c| ≤ (|ε| ^ 2 * (|ε| / 4)) * (c0 * (1051 / 1000)) := mul_le_mul k1 ca (abs_nonneg _) (by positivity)
    have h2 : |ε| / 4 * (c0 * (1051 / 1000)) ≤ 2 / 100 := by nlinarith
    have h3 := mul_le_mul_of_nonneg_left h2 (by positivity : 0 ≤ |ε| ^ 2)
    nlinarith
  have b2 : |s * (1 - κ)| ≤ |ε| ^ 2 / 2 := by
    rw [abs_mul]
    calc |s| * |1 - κ| ≤ 1 * (|ε| ^ 2 / 2) := mul_le_mul s1 k2 (abs_nonneg _) (by norm_num)
      _ = _ := one_mul _
  have b3 : |ε * (C - c)| ≤ B / 10 := by
    rw [abs_mul, mul_comm]
    refine le_trans (mul_le_mul ha hv e0 A0) hAB
  have t1 := abs_add_le ((ε - σ) * c - s * (1 - κ)) (ε * (C - c) - (S - s))
  have t2 := abs_sub ((ε - σ) * c) (s * (1 - κ))
  have t3 := abs_sub (ε * (C - c)) (S - s)
  have b5 : |ε| ^ 2 ≤ p ^ 2 + B * (11 / 100) := by
    have h1 : |ε| ^ 2 ≤ (p + B / c0) ^ 2 := pow_le_pow_left₀ e0 hv 2
    have h2 : (p + B / c0) ^ 2 = p ^ 2 + B * (2 * (p / c0)) + B * (B / c0 / c0) := by field_simp; ring
    have h3 : p / c0 ≤ 1 / 20 := by rw [div_le_iff₀ cp]; linarith
    have h4 : B / c0 / c0 ≤ 1 / 1000 := by rw [div_le_iff₀ cp]; linarith
    have h5 := mul_le_mul_of_nonneg_left h3 B0.le
    have h6 := mul_le_mul_of_nonneg_left h4 B0.le
    rw [h2] at h1
    linarith
  have r1 : (p ^ 2 / c0 + 9 / 10 * (B / c0)) * C ≥ (p ^ 2 + 9 / 10 * B) * (948 / 1000) := by
    have h1 : p ^ 2 / c0 + 9 / 10 * (B / c0) = (p ^ 2 + 9 / 10 * B) / c0 := by ring
    rw [h1, ge_iff_le]
    have h2 : (p ^ 2 + 9 / 10 * B) / c0 * C = (p ^ 2 + 9 / 10 * B) * (C / c0) := by ring
    rw [h2]
    apply mul_le_mul_of_nonneg_left _ (by positivity)
    rw [le_div_iff₀ cp]
    linarith
  have p2 : 0 ≤ p ^ 2 := by positivity
  linarith

namespace Rnd

/-- A difference of known sizes. -/
theorem sub_sz (R : Rnd A v ok u) {x y : α} (hx : ok x) (hy : ok y) {k l : ℤ} (l0 : l + 5200 ≤ k) (hk : k ≤ 1000000)
    (sx : v x = 0 ∨ Sz l (v x)) (sy : v y = 0 ∨ Sz (k - 1) (v y)) (hy2 : |v y| ≤ pw l) :
    ok (A.sub x y) ∧ |v (A.sub x y) - (v x - v y)| ≤ u / 10 ^ 12 * (|v x| + |v y|) ∧ (v (A.sub x y) = 0 ∨ Sz k (v (A.sub x y))) := by
  have u0 := R.u0
  have u1 := R.u1
  have px : |v x| ≤ pw l := by
    rcases sx with h | h
    · rw [h, abs_zero]; exact (pw_pos _).le
    · exact h.2
  have pm : pw l ≤ pw 2000000000 := pw_mono (by omega)
  obtain ⟨o, e, z, n⟩ := R.sub x y hx hy (by linarith) (by linarith)
  refine ⟨o, e, ?_⟩
  have up : |v (A.sub x y)| ≤ pw k := by
    have h1 : pw k = pw (k - l) * pw l := by rw [← pw_add]; congr 1; ring
    have h2 : (10 : ℝ) ≤ pw (k - l) := by rw [← pw_one]; exact pw_mono (by omega)
    have h3 := mul_le_mul_of_nonneg_right h2 (pw_pos l).le
    have h4 := abs_sub_abs_le_abs_sub (v (A.sub x y)) (v x - v y)
    have h5 := abs_sub (v x) (v y)
    have h6 : u / 10 ^ 12 * (|v x| + |v y|) ≤ 1 * (|v x| + |v y|) := mul_le_mul_of_nonneg_right (by norm_num at u1 ⊢; linarith) (by positivity)
    linarith [pw_pos l]
  by_cases h : v x = v y
  · left; exact z h
  by_cases h0 : v x = 0
  · right
    rcases sy with hy0 | hs
    · rw [h0, hy0] at h; exact absurd rfl h
    refine ⟨?_, up⟩
    rw [h0, zero_sub, abs_zero, zero_add, sub_neg_eq_add] at e
    have h1 : |v y| ≤ |v (A.sub x y)| + |v (A.sub x y) + v y| := by
      have := abs_sub (v (A.sub x y) + v y) (v (A.sub x y))
      rw [add_sub_cancel_left] at this; linarith
    have h2 : u / 10 ^ 12 * |v y| ≤ 1 / 2 * |v y| := mul_le_mul_of_nonneg_right (by norm_num at u1 ⊢; linarith) (abs_nonneg _)
    have h3 := hs.1
    have h4 : pw (-k) ≤ pw (-1) * pw (-(k - 1)) := by rw [← pw_add]; exact pw_mono (by omega)
    rw [pw_neg 1, pw_one] at h4
    have h5 := pw_pos (-(k - 1))
    rw [show (10 : ℝ)⁻¹ = 1 / 10 by norm_num] at h4
    linarith
  · right
    refine ⟨?_, up⟩
    refine le_trans ?_ (n h0 h)
    rcases sx with hx0 | hs
    · exact absurd hx0 h0
    have h1 := mul_le_mul_of_nonneg_left hs.1 (pw_pos (-5200)).le
    rw [← pw_add] at h1
    exact le_trans (pw_mono (by omega)) h1

/-- The computed sine of a number of middle size is not too small. -/
theorem sin_sz (R : Rnd A v ok u) (P : PiEnv A v ok u) {w : α} (hw : ok w) (w1 : |v w| ≤ 155 / 100) {k : ℤ} (k1 : 1 ≤ k)
    (hk : k ≤ 10000000) (sw : v w = 0 ∨ Sz k (v w)) :
    v (Fn.sin A w) = 0 ∨ Sz (k + 1) (v (Fn.sin A w)) := by
  have u0 := R.u0
  have u1 := R.u1
  have p1 := Real.pi_gt_d2
  have p2 := Real.pi_lt_d2
  obtain ⟨-, e1, e2⟩ := R.sin_acc P hw (by norm_num; linarith) (sw.imp id (fun h => h.mono (by omega)))
  rcases sw with h0 | hs
  · left
    have := e2 (by rw [h0, abs_zero]; norm_num)
    rw [h0, Real.sin_zero, abs_zero, mul_zero, sub_zero] at this
    exact abs_eq_zero.1 (le_antisymm this (abs_nonneg _))
  · right
    have hsin := Real.mul_abs_le_abs_sin (x := v w) (by linarith)
    have h2 : (6 / 10 : ℝ) ≤ 2 / Real.pi := by
      rw [le_div_iff₀ Real.pi_pos]; linarith
    have h3 := mul_le_mul_of_nonneg_right h2 (abs_nonneg (v w))
    have h4 := abs_sub_abs_le_abs_sub (Real.sin (v w)) (v (Fn.sin A w))
    rw [abs_sub_comm] at h4
    have low : 1 / 10 * |v w| ≤ |v (Fn.sin A w)| := by
      by_cases h5 : |v w| ≤ 3 / 2
      · have := e2 h5
        have h6 : 2 * u * |v w| ≤ 1 / 10 * |v w| := mul_le_mul_of_nonneg_right (by linarith) (abs_nonneg _)
        have := abs_nonneg (v w)
        linarith
      · have h6 : u * (4 + |v w| / 1000) ≤ u * 5 := mul_le_mul_of_nonneg_left (by linarith) u0.le
        linarith
    have up : |v (Fn.sin A w)| ≤ 2 := by
      have h5 := abs_sub_abs_le_abs_sub (v (Fn.sin A w)) (Real.sin (v w))
      have h6 := Real.abs_sin_le_one (v w)
      have h7 : u * (4 + |v w| / 1000) ≤ u * 5 := mul_le_mul_of_nonneg_left (by linarith) u0.le
      linarith
    constructor
    · refine le_trans ?_ low
      rw [neg_add, pw_add, pw_neg 1, pw_one]
      have := hs.1
      norm_num
      linarith
    · refine le_trans up ?_
      refine le_trans (show (2 : ℝ) ≤ pw 1 by rw [pw_one]; norm_num) (pw_mono (by omega))

/-- One Newton step of the arc sine. -/
theorem asinStep_acc (R : Rnd A v ok u) (P : PiEnv A v ok u) {x w : α} (hx : ok x) (hw : ok w) (x0 : 0 < v x) (x1 : v x < 1)
    (hr : 1 / 1000 ≤ 1 - v x ^ 2) (xs : Sz 1000 (v x)) {p : ℝ} (p0 : 0 ≤ p) (hp : p ≤ 1 / 10 ^ 12 * Real.sqrt (1 - v x ^ 2))
    (hv : |v w - Real.arcsin (v x)| ≤ p + 10 * u / Real.sqrt (1 - v x ^ 2)) {k : ℤ} (k1 : 1000 ≤ k) (hk : k ≤ 900000)
    (sw : v w = 0 ∨ Sz k (v w)) :
    ok (Fn.asinStep A x w) ∧
    |v (Fn.asinStep A x w) - Real.arcsin (v x)| ≤ p ^ 2 / Real.sqrt (1 - v x ^ 2) + 10 * u / Real.sqrt (1 - v x ^ 2) ∧
    (v (Fn.asinStep A x w) = 0 ∨ Sz (k + 5300) (v (Fn.asinStep A x w))) := by
  have u0 := R.u0
  have u1 := R.u1
  have sq := Real.sq_sqrt (show 0 ≤ 1 - v x ^ 2 by linarith)
  have cp : 0 < Real.sqrt (1 - v x ^ 2) := Real.sqrt_pos.2 (by linarith)
  have c1 : Real.sqrt (1 - v x ^ 2) ≤ 1 := by nlinarith
  have c3 : 3 / 100 ≤ Real.sqrt (1 - v x ^ 2) := by
    apply Real.le_sqrt_of_sq_le; norm_num at hr ⊢; linarith
  have ub : 10 * u / Real.sqrt (1 - v x ^ 2) ≤ 1000 * u := by
    rw [div_le_iff₀ cp]
    have := mul_le_mul_of_nonneg_left c3 u0.le
    linarith
  have ub0 : 10 * u ≤ 10 * u / Real.sqrt (1 - v x ^ 2) := by
    rw [le_div_iff₀ cp]
    have := mul_le_mul_of_nonneg_left c1 u0.le
    linarith
  have pb : p ≤ 1 / 10 ^ 12 := by
    have := mul_le_mul_of_nonneg_left c1 (show (0 : ℝ) ≤ 1 / 10 ^ 12 by norm_num)
    linarith
  have ct : Real.cos (Real.arcsin (v x)) = Real.sqrt (1 - v x ^ 2) := Real.cos_arcsin _
  -- the argument is below 155/100
  have a0 : 0 ≤ Real.arcsin (v x) := Real.arcsin_nonneg.2 x0.le
  have a1 : Real.arcsin (v x) ≤ 1546 / 1000 := by
    have h1 : Real.sin (Real.pi / 2 - Real.arcsin (v x)) ≤ Real.pi / 2 - Real.arcsin (v x) :=
      Real.sin_le (by linarith [Real.arcsin_le_pi_div_two (v x)])
    rw [Real.sin_pi_div_two_sub, ct] at h1
    linarith [Real.pi_lt_d2]
  have w1 : |v w| ≤ 155 / 100 := by
    have := abs_sub_abs_le_abs_sub (v w) (Real.arcsin (v x))
    rw [abs_of_nonneg a0] at this
    norm_num at u1 pb
    linarith
  obtain ⟨os, es, -⟩ := R.sin_acc P hw (by norm_num; linarith) (sw.imp id (fun h => h.mono (by omega)))
  obtain ⟨oc, ec⟩ := R.cos_acc P hw (by norm_num; linarith) (sw.imp id (fun h => h.mono (by omega)))
  have ss := R.sin_sz P hw w1 (by omega) (by omega) sw
  unfold Fn.asinStep
  generalize Fn.sin A w = s at *
  generalize Fn.cos A w = c at *
  have es' : |v s - Real.sin (v w)| ≤ 41 / 10 * u := by
    have : u * (4 + |v w| / 1000) ≤ u * (41 / 10) := mul_le_mul_of_nonneg_left (by linarith) u0.le
    linarith
  have ec' : |v c - Real.cos (v w)| ≤ 20000000 * u := by
    have : u * (10000001 + |v w| / 1000) ≤ u * 20000000 := mul_le_mul_of_nonneg_left (by linarith) u0.le
    linarith
  have s2 : |v s| ≤ 2 := by
    have h5 := abs_sub_abs_le_abs_sub (v s) (Real.sin (v w))
    have h6 := Real.abs_sin_le_one (v w)
    norm_num at u1
    linarith
  -- the numerator
  have big10 : (10 : ℝ) ≤ pw (k + 1) := by rw [← pw_one]; exact pw_mono (by omega)
  obtain ⟨on, en, sn⟩ := R.sub_sz (k := k + 5201) (l := k + 1) os hx (by omega) (by omega) ss (Or.inr (xs.mono (by omega)))
    (by rw [abs_of_pos x0]; linarith)
  have en' : |v (A.sub s x) - (v s - v x)| ≤ u / 10 := by
    refine le_trans en ?_
    rw [abs_of_pos x0]
    have := mul_le_mul_of_nonneg_left (show |v s| + v x ≤ 3 by linarith) (show 0 ≤ u / 10 ^ 12 by positivity)
    linarith
  have hS : |(v (A.sub s x) + v x) - Real.sin (v w)| ≤ 10 * u / 2 := by
    rw [show v (A.sub s x) + v x - Real.sin (v w) = (v (A.sub s x) - (v s - v x)) + (v s - Real.sin (v w)) by ring]
    refine le_trans (abs_add_le _ _) ?_
    linarith
  obtain ⟨st, Cl⟩ := asin_newton (B := 10 * u) (A := 20000000 * u) x0 x1 p0
    (by norm_num at hp ⊢; linarith) (by positivity) (by norm_num at u1 hr ⊢; linarith) (by positivity) (by norm_num at u1 ⊢; linarith)
    (by
      have h1 : p + 10 * u / Real.sqrt (1 - v x ^ 2) ≤ 1 / 10 ^ 8 := by norm_num at u1 pb ⊢; linarith
      have := mul_le_mul_of_nonneg_left h1 (show 0 ≤ 20000000 * u by positivity)
      linarith) hv ec' hS
  rw [add_sub_cancel_right] at st
  have e0 : |v (A.sub s x) / v c| ≤ 1 / 10 ^ 10 := by
    have h1 : v (A.sub s x) / v c = (v w - Real.arcsin (v x)) - (v w - v (A.sub s x) / v c - Real.arcsin (v x)) := by ring
    have h2 := abs_sub (v w - Real.arcsin (v x)) (v w - v (A.sub s x) / v c - Real.arcsin (v x))
    rw [← h1] at h2
    have h3 : p ^ 2 / Real.sqrt (1 - v x ^ 2) ≤ p := by
      rw [div_le_iff₀ cp, pow_two]
      apply mul_le_mul_of_nonneg_left _ p0
      linarith
    norm_num at u1 pb ⊢
    linarith
  have c0 : 0 < v c := by linarith [mul_pos cp (by norm_num : (0 : ℝ) < 948 / 1000)]
  have cl2 : 1 / 100 ≤ v c := by linarith
  have cu : v c ≤ 2 := by
    have h5 := (abs_le.1 ec').2
    have h6 := Real.cos_le_one (v w)
    norm_num at u1
    linarith
  have sc : Sz 2 (v c) := by
    unfold Sz
    rw [abs_of_pos c0]
    constructor
    · rw [show (2 : ℤ) = ((2 : ℕ) : ℤ) from rfl, pw_neg, pw_nat]; norm_num; linarith
    · rw [show (2 : ℤ) = ((2 : ℕ) : ℤ) from rfl, pw_nat]; norm_num; linarith
  have nn : |v (A.sub s x)| ≤ 1 / 10 ^ 9 := by
    rw [abs_div, div_le_iff₀ (abs_pos.2 c0.ne'), abs_of_pos c0] at e0
    norm_num at e0 ⊢
    linarith
  -- the quotient
  have key : ok (A.div (A.sub s x) c) ∧ |v (A.div (A.sub s x) c) - v (A.sub s x) / v c| ≤ u * |v (A.sub s x) / v c| ∧
      (v (A.div (A.sub s x) c) = 0 ∨ Sz (k + 5204) (v (A.div (A.sub s x) c))) := by
    rcases sn with h0 | h0
    · obtain ⟨o, e⟩ := R.div0 _ _ on oc h0 (sc.mono (by norm_num))
      refine ⟨o, ?_, Or.inl e⟩
      rw [e, h0, zero_div, sub_self, abs_zero, mul_zero]
    · obtain ⟨o, e⟩ := R.div _ _ on oc (Or.inr (by rw [abs_of_pos c0]; intro h; norm_num at nn; linarith)) (h0.mono (by omega)) (sc.mono (by norm_num))
      refine ⟨o, e, Or.inr ?_⟩
      have h1 : NearR u (v (A.div (A.sub s x) c)) (v (A.sub s x) / v c) := e
      exact (h1.sz (by norm_num at u1 ⊢; linarith) (h0.div sc)).mono (by omega)
  obtain ⟨oq, eq, sq'⟩ := key
  generalize A.div (A.sub s x) c = q at *
  have q1 : |v q| ≤ 1 := by
    have h1 := abs_sub_abs_le_abs_sub (v q) (v (A.sub s x) / v c)
    have h2 : u * |v (A.sub s x) / v c| ≤ 1 * |v (A.sub s x) / v c| := mul_le_mul_of_nonneg_right (by norm_num at u1; linarith) (abs_nonneg _)
    norm_num at e0
    linarith
  obtain ⟨of, ef, sf⟩ := R.sub_sz (k := k + 5300) (l := k) hw oq (by omega) (by omega) sw (sq'.imp id (fun h => h.mono (by omega)))
    (le_trans q1 (by rw [← pw_zero]; exact pw_mono (by omega)))
  refine ⟨of, ?_, sf⟩
  have e3 : u / 10 ^ 12 * (|v w| + |v q|) ≤ u / 10 ^ 12 * 3 := mul_le_mul_of_nonneg_left (by linarith) (by positivity)
  have e4 : u * |v (A.sub s x) / v c| ≤ u * (1 / 10 ^ 10) := mul_le_mul_of_nonneg_left e0 u0.le
  have t1 : v (A.sub w q) - Real.arcsin (v x) = (v (A.sub w q) - (v w - v q)) - (v q - v (A.sub s x) / v c) +
      (v w - v (A.sub s x) / v c - Real.arcsin (v x)) := by ring
  rw [t1]
  have t2 := abs_add_le ((v (A.sub w q) - (v w - v q)) - (v q - v (A.sub s x) / v c)) (v w - v (A.sub s x) / v c - Real.arcsin (v x))
  have t3 := abs_sub (v (A.sub w q) - (v w - v q)) (v q - v (A.sub s x) / v c)
  linarith

/-- The double precision start value of the arc sine: off by at most `10^-15`, zero or not below `10^-400`. -/
structure AsinStart (A : Arith α) (v : α → ℝ) (ok : α → Prop) (x : α) : Prop where
  ok : ok (A.asin0 x)
  near : |v (A.asin0 x) - Real.arcsin (v x)| ≤ 1 / 10 ^ 15
  sz : v (A.asin0 x) = 0 ∨ Sz 400 (v (A.asin0 x))

/-- The iteration. -/
theorem asinLoop_acc (R : Rnd A v ok u) (P : PiEnv A v ok u) {x : α} (hx : ok x) (x0 : 0 < v x) (x1 : v x < 1)
    (hr : 1 / 1000 ≤ 1 - v x ^ 2) (xs : Sz 1000 (v x)) (h0 : AsinStart A v ok x) :
    ok (Fn.digitLoop A (fun _ w => Fn.asinStep A x w) 32 12 (A.asin0 x)) ∧
    |v (Fn.digitLoop A (fun _ w => Fn.asinStep A x w) 32 12 (A.asin0 x)) - Real.arcsin (v x)| ≤ 11 * u / Real.sqrt (1 - v x ^ 2) := by
  have u0 := R.u0
  have sq := Real.sq_sqrt (show 0 ≤ 1 - v x ^ 2 by linarith)
  have cp : 0 < Real.sqrt (1 - v x ^ 2) := Real.sqrt_pos.2 (by linarith)
  have c1 : Real.sqrt (1 - v x ^ 2) ≤ 1 := by nlinarith
  have c3 : 3 / 100 ≤ Real.sqrt (1 - v x ^ 2) := by
    apply Real.le_sqrt_of_sq_le; norm_num at hr ⊢; linarith
  obtain ⟨K, -, k2, k3, k4⟩ := digitLoop_gen A (fun _ w => Fn.asinStep A x w)
    (fun n w => n ≤ 32 → ok w ∧ |v w - Real.arcsin (v x)| ≤
      Real.sqrt (1 - v x ^ 2) * pw (-(12 * 2 ^ n)) + 10 * u / Real.sqrt (1 - v x ^ 2) ∧ (v w = 0 ∨ Sz (1000 + n * 5300) (v w)))
    (by
      intro n _ w hw hn
      obtain ⟨a, b, c⟩ := hw (by omega)
      have hq : pw (-(12 * 2 ^ n)) ≤ 1 / 10 ^ 12 := by
        have : pw (-(12 * 2 ^ n)) ≤ pw (-((12 : ℕ) : ℤ)) := by
          apply pw_mono
          have : (1 : ℤ) ≤ 2 ^ n := one_le_pow₀ (by norm_num)
          push_cast; omega
        rwa [pw_neg ((12 : ℕ) : ℤ), pw_nat, ← one_div] at this
      have hq0 := pw_pos (-(12 * 2 ^ n))
      obtain ⟨d, e, f⟩ := R.asinStep_acc P hx a x0 x1 hr xs (p := Real.sqrt (1 - v x ^ 2) * pw (-(12 * 2 ^ n))) (by positivity)
        (by rw [mul_comm]; exact mul_le_mul_of_nonneg_right hq cp.le) b (by omega) (by omega) c
      refine ⟨d, le_trans e (le_of_eq ?_), ?_⟩
      · rw [show -(12 * 2 ^ (n + 1)) = -(12 * 2 ^ n) + -(12 * 2 ^ n : ℤ) by rw [pow_succ]; ring, pw_add]
        field_simp
      · refine f.imp id (fun h => ?_)
        refine h.mono ?_
        push_cast; omega)
    32 0 12 (A.asin0 x) (by norm_num) (by have := R.t1; norm_num; omega)
    (by
      intro _
      refine ⟨h0.ok, le_trans h0.near ?_, h0.sz.imp id (fun h => h.mono (by norm_num))⟩
      rw [pow_zero, mul_one, show (12 : ℤ) = ((12 : ℕ) : ℤ) from rfl, pw_neg, pw_nat, ← one_div]
      have h1 : 3 / 100 * (1 / 10 ^ 12) ≤ Real.sqrt (1 - v x ^ 2) * (1 / 10 ^ 12) := mul_le_mul_of_nonneg_right c3 (by norm_num)
      have h2 : 0 ≤ 10 * u / Real.sqrt (1 - v x ^ 2) := by positivity
      norm_num at h1 ⊢
      linarith)
  obtain ⟨a, b, -⟩ := k4 (by omega)
  refine ⟨a, le_trans b ?_⟩
  rw [Nat.sub_zero] at k3
  have h1 : pw (-(12 * 2 ^ K)) ≤ pw (-A.tol) := pw_mono (by omega)
  have h2 := R.ut
  have h3 : Real.sqrt (1 - v x ^ 2) * pw (-(12 * 2 ^ K)) ≤ 1 * (u / 1000) := mul_le_mul c1 (by linarith) (pw_pos _).le (by norm_num)
  have h4 : u ≤ u / Real.sqrt (1 - v x ^ 2) := by
    rw [le_div_iff₀ cp]
    have := mul_le_mul_of_nonneg_left c1 u0.le
    linarith
  have h5 : 11 * u / Real.sqrt (1 - v x ^ 2) = 10 * u / Real.sqrt (1 - v x ^ 2) + u / Real.sqrt (1 - v x ^ 2) := by ring
  linarith

theorem not_small (R : Rnd A v ok u) {x : α} (hx : ok x) (x0 : v x ≠ 0) (h : pw (-Fn.argLim A) ≤ |v x|) : Fn.smallArg A x = false := by
  unfold Fn.smallArg
  rw [decide_eq_false_iff_not, not_lt]
  by_contra hc
  have h1 := (R.order x hx x0).2
  have h2 : pw (A.order x + 1) ≤ pw (-Fn.argLim A) := pw_mono (by omega)
  linarith

theorem argLim_le (R : Rnd A v ok u) : 6 ≤ Fn.argLim A ∧ Fn.argLim A ≤ 550 := by
  have := R.t0
  have := R.t1
  unfold Fn.argLim
  omega

/-- The arc sine of a number of middle size. -/
theorem asin_acc (R : Rnd A v ok u) (P : PiEnv A v ok u) {x : α} (hx : ok x) (hl : pw (-Fn.argLim A) ≤ |v x|)
    (hr : 1 / 1000 ≤ 1 - v x ^ 2) (h0 : AsinStart A v ok (Fn.fabs A x)) :
    ok (Fn.asin A x) ∧ |v (Fn.asin A x) - Real.arcsin (v x)| ≤ 11 * u / Real.sqrt (1 - v x ^ 2) := by
  have u0 := R.u0
  have u1 := R.u1
  obtain ⟨lo, up⟩ := R.argLim_le
  obtain ⟨oa, ea⟩ := R.fabs_acc hx
  have xp : 0 < |v x| := lt_of_lt_of_le (pw_pos _) hl
  have xn : v x ≠ 0 := abs_pos.1 xp
  have xa1 : |v x| < 9996 / 10000 := by
    rw [← sq_abs] at hr
    by_contra hc
    nlinarith
  have xs : Sz 1000 (v (Fn.fabs A x)) := by
    rw [ea]
    refine ⟨?_, ?_⟩
    · rw [abs_abs]; exact le_trans (pw_mono (by omega)) hl
    · rw [abs_abs]
      refine le_trans (show |v x| ≤ pw 0 by rw [pw_zero]; linarith) (pw_mono (by norm_num))
  have big : (2 : ℝ) ≤ pw 2000000000 := by
    refine le_trans (show (2 : ℝ) ≤ pw 1 by rw [pw_one]; norm_num) (pw_mono (by norm_num))
  obtain ⟨od, ed, -⟩ := R.sub (Fn.one A) (Fn.fabs A x) R.one.1 oa (by rw [R.one.2, abs_one]; linarith) (by rw [ea, abs_abs]; linarith)
  rw [R.one.2, ea, abs_one, abs_abs] at ed
  have dl : 1 / 10000 ≤ |v (A.sub (Fn.one A) (Fn.fabs A x))| := by
    have h1 := abs_sub_abs_le_abs_sub (1 - |v x|) (v (A.sub (Fn.one A) (Fn.fabs A x)))
    rw [abs_of_pos (show 0 < 1 - |v x| by linarith), abs_sub_comm] at h1
    have h2 : u / 10 ^ 12 * (1 + |v x|) ≤ u / 10 ^ 12 * 2 := mul_le_mul_of_nonneg_left (by linarith) (by positivity)
    norm_num at u1
    linarith
  obtain ⟨ofd, efd⟩ := R.fabs_acc od
  have hnear : Fn.nearOne A (Fn.fabs A x) = false := by
    unfold Fn.nearOne
    apply R.not_small ofd
    · rw [efd]; intro h; rw [h] at dl; norm_num at dl
    · rw [efd, abs_abs]
      refine le_trans (pw_mono (show -Fn.argLim A ≤ -((6 : ℕ) : ℤ) by push_cast; omega)) ?_
      rw [pw_neg, pw_nat]
      norm_num at dl ⊢
      linarith
  have hsm : Fn.smallArg A (Fn.fabs A x) = false := R.not_small oa (by rw [ea]; exact xp.ne') (by rw [ea, abs_abs]; exact hl)
  have hone : A.isone (Fn.fabs A x) = false := by
    by_contra hc
    have := R.isone _ oa (by simpa using hc)
    rw [ea] at this
    have := (abs_le.1 this).1
    norm_num at this
    linarith
  have hlt : A.lt (Fn.one A) (Fn.fabs A x) = false := by
    by_contra hc
    have := (R.lt _ _ R.one.1 oa).1 (by simpa using hc)
    rw [R.one.2, ea] at this
    linarith
  have hz : A.iszero x = false := by
    by_contra hc
    exact xn ((R.iszero x hx).1 (by simpa using hc))
  obtain ⟨ol, el⟩ := R.asinLoop_acc P oa (by rw [ea]; exact xp) (by rw [ea]; linarith) (by rw [ea, sq_abs]; exact hr) xs h0
  rw [ea, sq_abs] at el
  have hf : (if A.isneg x = true then A.neg x else x) = Fn.fabs A x := rfl
  unfold Fn.asin
  rw [R.isfinite_ok hx]
  simp only [Bool.not_true, Bool.false_eq_true, if_false]
  by_cases hn : v x < 0
  · have hb := (R.isneg x hx).2 hn
    have hf : A.neg x = Fn.fabs A x := by unfold Fn.fabs; rw [if_pos hb]
    simp only [hb, Bool.not_true, Bool.false_eq_true, if_false, hf, hlt, hz, hone, hsm, hnear]
    obtain ⟨o, e⟩ := R.neg _ ol
    refine ⟨o, ?_⟩
    rw [e]
    rw [abs_of_neg hn, Real.arcsin_neg] at el
    rw [show ∀ a b : ℝ, -a - b = -(a - -b) by intros; ring, abs_neg]
    exact el
  · have hb : A.isneg x = false := by
      by_contra hc
      exact hn ((R.isneg x hx).1 (by simpa using hc))
    have hf : Fn.fabs A x = x := by unfold Fn.fabs; rw [hb]; rfl
    rw [hf] at hlt hone hsm hnear ol el
    simp only [hb, Bool.not_false, if_true, hlt, hz, hone, hsm, hnear, Bool.false_eq_true, if_false]
    rw [abs_of_nonneg (not_lt.1 hn)] at el
    exact ⟨ol, el⟩

/-- The arc cosine of a number of middle size. -/
theorem acos_acc (R : Rnd A v ok u) (P : PiEnv A v ok u) {x : α} (hx : ok x) (hl : pw (-Fn.argLim A) ≤ |v x|)
    (hr : 1 / 1000 ≤ 1 - v x ^ 2) (h0 : AsinStart A v ok (Fn.fabs A x)) :
    ok (Fn.acos A x) ∧ |v (Fn.acos A x) - Real.arccos (v x)| ≤ 13 * u / Real.sqrt (1 - v x ^ 2) := by
  have u0 := R.u0
  have u1 := R.u1
  obtain ⟨oa, ea⟩ := R.fabs_acc hx
  obtain ⟨os, es⟩ := R.asin_acc P hx hl hr h0
  obtain ⟨oh, eh⟩ := R.piHalf_acc P
  have sq := Real.sq_sqrt (show 0 ≤ 1 - v x ^ 2 by linarith)
  have cp : 0 < Real.sqrt (1 - v x ^ 2) := Real.sqrt_pos.2 (by linarith)
  have c1 : Real.sqrt (1 - v x ^ 2) ≤ 1 := by
    have := sq_nonneg (v x)
    nlinarith
  have c3 : 3 / 100 ≤ Real.sqrt (1 - v x ^ 2) := by
    apply Real.le_sqrt_of_sq_le; norm_num at hr ⊢; linarith
  have xp : 0 < |v x| := lt_of_lt_of_le (pw_pos _) hl
  have xn : v x ≠ 0 := abs_pos.1 xp
  have xa1 : |v x| < 1 := by
    rw [← sq_abs] at hr
    by_contra hc
    nlinarith
  have ub : 11 * u / Real.sqrt (1 - v x ^ 2) ≤ 1000 * u := by
    rw [div_le_iff₀ cp]
    have := mul_le_mul_of_nonneg_left c3 u0.le
    linarith
  have big : (4 : ℝ) ≤ pw 2000000000 := by
    refine le_trans (show (4 : ℝ) ≤ pw 1 by rw [pw_one]; norm_num) (pw_mono (by norm_num))
  have p2 := Real.pi_lt_d2
  have p0 := Real.pi_pos
  have hh : |v (Fn.piHalf A)| ≤ 2 := by
    have := abs_sub_abs_le_abs_sub (v (Fn.piHalf A)) (Real.pi / 2)
    rw [abs_of_pos (show 0 < Real.pi / 2 by linarith)] at this
    norm_num at u1
    linarith
  have hs : |v (Fn.asin A x)| ≤ 2 := by
    have := abs_sub_abs_le_abs_sub (v (Fn.asin A x)) (Real.arcsin (v x))
    have h2 : |Real.arcsin (v x)| ≤ Real.pi / 2 := abs_le.2 ⟨Real.neg_pi_div_two_le_arcsin _, Real.arcsin_le_pi_div_two _⟩
    norm_num at u1
    linarith
  obtain ⟨o, e, -⟩ := R.sub (Fn.piHalf A) (Fn.asin A x) oh os (by linarith) (by linarith)
  have hlt : A.lt (Fn.one A) (Fn.fabs A x) = false := by
    by_contra hc
    have := (R.lt _ _ R.one.1 oa).1 (by simpa using hc)
    rw [R.one.2, ea] at this
    linarith
  have hlt2 : A.lt (Fn.fabs A x) (Fn.one A) = true := by
    rw [R.lt _ _ oa R.one.1, R.one.2, ea]; exact xa1
  have hz : A.iszero x = false := by
    by_contra hc
    exact xn ((R.iszero x hx).1 (by simpa using hc))
  have hf : (if !A.lt x (Fn.zero A) then x else A.neg x) = Fn.fabs A x := by
    unfold Fn.fabs
    by_cases hn : v x < 0
    · rw [(R.lt _ _ hx R.zero.1).2 (by rw [R.zero.2]; exact hn), (R.isneg x hx).2 hn]; rfl
    · rw [show A.lt x (Fn.zero A) = false by
        by_contra hc
        have := (R.lt _ _ hx R.zero.1).1 (by simpa using hc)
        rw [R.zero.2] at this; exact hn this,
        show A.isneg x = false by
        by_contra hc
        exact hn ((R.isneg x hx).1 (by simpa using hc))]; rfl
  unfold Fn.acos
  rw [R.isfinite_ok hx]
  simp only [Bool.not_true, Bool.false_eq_true, if_false]
  rw [hf]
  simp only [hlt, hlt2, hz, Bool.false_eq_true, if_false, if_true]
  refine ⟨o, ?_⟩
  have h4 : u ≤ u / Real.sqrt (1 - v x ^ 2) := by
    rw [le_div_iff₀ cp]
    have := mul_le_mul_of_nonneg_left c1 u0.le
    linarith
  have h5 : 13 * u / Real.sqrt (1 - v x ^ 2) = 11 * u / Real.sqrt (1 - v x ^ 2) + 2 * (u / Real.sqrt (1 - v x ^ 2)) := by ring
  have e2 : u / 10 ^ 12 * (|v (Fn.piHalf A)| + |v (Fn.asin A x)|) ≤ u / 10 ^ 12 * 4 := mul_le_mul_of_nonneg_left (by linarith) (by positivity)
  rw [h5, Real.arccos]
  have t1 : v (A.sub (Fn.piHalf A) (Fn.asin A x)) - (Real.pi / 2 - Real.arcsin (v x)) =
    (v (A.sub (Fn.piHalf A) (Fn.asin A x)) - (v (Fn.piHalf A) - v (Fn.asin A x))) + (v (Fn.piHalf A) - Real.pi / 2) -
      (v (Fn.asin A x) - Real.arcsin (v x)) := by ring
  rw [t1]
  have t2 := abs_sub ((v (A.sub (Fn.piHalf A) (Fn.asin A x)) - (v (Fn.piHalf A) - v (Fn.asin A x))) + (v (Fn.piHalf A) - Real.pi / 2))
    (v (Fn.asin A x) - Real.arcsin (v x))
  have t3 := abs_add_le (v (A.sub (Fn.piHalf A) (Fn.asin A x)) - (v (Fn.piHalf A) - v (Fn.asin A x))) (v (Fn.piHalf A) - Real.pi / 2)
  linarith

end Rnd
end EFX
