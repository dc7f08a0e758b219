import Verif.Props.GenericPi
import Verif.Lemmas.AgmLog
import Verif.Lemmas.Rnd
import Mathlib.Analysis.Complex.ExponentialBounds

/-! # `ln2` and `log` of the generic functions (generic_functions_constants.h 95-150, generic_functions_elementary.h 286-345) -/

namespace EFX.Props

open EFX EFX.Theta

/-- The number of halvings: `1.7 D` rounded down, up to one. -/
theorem bits_bounds {E : GenEnv} (hE : E.Good) :
    17 * E.digits10 - 10 ≤ 10 * Gf.bits (realGen E) ∧ 10 * Gf.bits (realGen E) ≤ 17 * E.digits10 := by
  have d0 : (0 : ℚ) ≤ (E.digits10 : ℚ) := by exact_mod_cast hE.dig0
  have d1 : (E.digits10 : ℚ) ≤ 2 ^ 30 := by exact_mod_cast hE.dig1
  have key : ∃ w : ℚ, Gf.bits (realGen E) = w.floor ∧ |w - 17 / 10 * E.digits10| ≤ 1 / 10 ^ 5 := by
    refine ⟨_, rfl, ?_⟩
    change |rnd (rnd (17 / 10) * rnd (E.digits10 : ℚ)) - 17 / 10 * E.digits10| ≤ _
    have h1 := abs_le.1 (rnd_err (show (0 : ℚ) ≤ 17 / 10 by norm_num))
    have h2 := abs_le.1 (rnd_err d0)
    generalize rnd (17 / 10) = u at *
    generalize rnd (E.digits10 : ℚ) = v at *
    generalize (E.digits10 : ℚ) = D at *
    norm_num at h1 h2 d1
    have u0 : 0 ≤ u := by linarith
    have v0 : 0 ≤ v := by linarith
    have h3 := abs_le.1 (rnd_err (mul_nonneg u0 v0))
    have v1 : v ≤ 1073741825 := by linarith
    have e : u * v - 17 / 10 * D = (u - 17 / 10) * v + 17 / 10 * (v - D) := by ring
    have m1 : |(u - 17 / 10) * v| ≤ 17 / 90071992547409920 * 1073741825 := by
      rw [abs_mul, abs_of_nonneg v0]
      exact mul_le_mul (abs_le.2 ⟨by linarith, by linarith⟩) v1 v0 (by norm_num)
    have m2 := abs_le.1 m1
    have uv : u * v ≤ 2147483650 := by linarith
    norm_num at h3 m2 ⊢
    rw [abs_le]
    constructor <;> linarith
  obtain ⟨w, hw, hb⟩ := key
  have b := abs_le.1 hb
  rw [hw]
  have f1 : ((w.floor : ℤ) : ℚ) ≤ w := Int.floor_le w
  have f2 : w < ((w.floor : ℤ) : ℚ) + 1 := Int.lt_floor_add_one w
  norm_num at b
  constructor
  · by_contra hn
    have : 10 * w.floor + 1 ≤ 17 * E.digits10 - 10 := by omega
    have : ((10 * w.floor + 1 : ℤ) : ℚ) ≤ ((17 * E.digits10 - 10 : ℤ) : ℚ) := by exact_mod_cast this
    push_cast at this
    linarith
  · by_contra hn
    have : 17 * E.digits10 + 1 ≤ 10 * w.floor := by omega
    have : ((17 * E.digits10 + 1 : ℤ) : ℚ) ≤ ((10 * w.floor : ℤ) : ℚ) := by exact_mod_cast this
    push_cast at this
    linarith

theorem agm_pos {b : ℝ} (b0 : 0 < b) (n : ℕ) :
    0 < (agm b n).1 ∧ 0 < (agm b n).2 ∧ b ≤ (agm b n).2 * (agm b n).1 := by
  induction n with
  | zero => simp [agm, b0]
  | succ n ih =>
    obtain ⟨h1, h2, h3⟩ := ih
    simp only [agm]
    generalize (agm b n).1 = A at *
    generalize (agm b n).2 = B at *
    have sp : 0 < Real.sqrt (B * A) := Real.sqrt_pos.2 (by positivity)
    refine ⟨by linarith, sp, ?_⟩
    have : Real.sqrt (B * A) ≤ (A + B) / 2 := Real.sqrt_le_iff.2 ⟨by linarith, by nlinarith [sq_nonneg (A - B)]⟩
    have e := Real.mul_self_sqrt (show 0 ≤ B * A by positivity)
    nlinarith

/-- `a` is `A` up to `n` relative errors of size `ε`. -/
def Off (ε : ℝ) (n : ℕ) (a A : ℝ) : Prop := (1 - ε) ^ n * A ≤ a ∧ a ≤ (1 + ε) ^ n * A

theorem Off.succ {ε : ℝ} (e0 : 0 ≤ ε) (e1 : ε ≤ 1) {n : ℕ} {a A : ℝ} (hA : 0 ≤ A) (h : Off ε n a A) : Off ε (n + 1) a A := by
  obtain ⟨h1, h2⟩ := h
  have p : 0 ≤ (1 - ε) ^ n := pow_nonneg (by linarith) n
  have q : 0 ≤ (1 + ε) ^ n := pow_nonneg (by linarith) n
  constructor
  · refine le_trans ?_ h1
    rw [pow_succ]
    exact mul_le_mul_of_nonneg_right (mul_le_of_le_one_right p (by linarith)) hA
  · refine h2.trans ?_
    rw [pow_succ]
    exact mul_le_mul_of_nonneg_right (le_mul_of_one_le_right q (by linarith)) hA

theorem agm_round {ε μ : ℝ} (e0 : 0 ≤ ε) (e1 : ε ≤ 1 / 1000) {sq : ℝ → ℝ}
    (hsq : ∀ y, 2 * μ ≤ y → |sq y - Real.sqrt y| ≤ ε * Real.sqrt y) {n : ℕ} (hn : n < 64) {a b A B : ℝ} (A0 : 0 < A) (B0 : 0 < B)
    (hAB : 4 * μ ≤ B * A) (ha : Off ε n a A) (hb : Off ε n b B) :
    Off ε (n + 1) ((a + b) / 2) ((A + B) / 2) ∧ Off ε (n + 1) (sq (b * a)) (Real.sqrt (B * A)) := by
  have p : 0 < (1 - ε) ^ n := pow_pos (by linarith) n
  have q : 0 < (1 + ε) ^ n := pow_pos (by linarith) n
  constructor
  · refine Off.succ e0 (by linarith) (by linarith) ?_
    exact ⟨by linarith [ha.1, hb.1], by linarith [ha.2, hb.2]⟩
  · have a0 : 0 < a := lt_of_lt_of_le (by positivity) ha.1
    have b0 : 0 < b := lt_of_lt_of_le (by positivity) hb.1
    have l1 : ((1 - ε) ^ n) ^ 2 * (B * A) ≤ b * a := by
      calc ((1 - ε) ^ n) ^ 2 * (B * A) = ((1 - ε) ^ n * B) * ((1 - ε) ^ n * A) := by ring
        _ ≤ b * a := mul_le_mul hb.1 ha.1 (by positivity) b0.le
    have l2 : b * a ≤ ((1 + ε) ^ n) ^ 2 * (B * A) := by
      calc b * a ≤ ((1 + ε) ^ n * B) * ((1 + ε) ^ n * A) := mul_le_mul hb.2 ha.2 a0.le (by positivity)
        _ = _ := by ring
    have half : 1 / 2 ≤ ((1 - ε) ^ n) ^ 2 := by
      rw [← pow_mul]
      have := one_add_mul_le_pow (show (-2 : ℝ) ≤ -ε by linarith) (n * 2)
      have hn' : (n : ℝ) ≤ 64 := by exact_mod_cast hn.le
      rw [show 1 + -ε = 1 - ε by ring] at this
      push_cast at this
      nlinarith
    have hy := hsq (b * a) (by linarith [mul_le_mul_of_nonneg_right half (show 0 ≤ B * A by positivity)])
    have r1 : (1 - ε) ^ n * Real.sqrt (B * A) ≤ Real.sqrt (b * a) := by
      refine Real.le_sqrt_of_sq_le ?_
      rw [mul_pow, Real.sq_sqrt (by positivity)]; exact l1
    have r2 : Real.sqrt (b * a) ≤ (1 + ε) ^ n * Real.sqrt (B * A) := by
      refine Real.sqrt_le_iff.2 ⟨by positivity, ?_⟩
      rw [mul_pow, Real.sq_sqrt (by positivity)]; exact l2
    have hy2 := abs_le.1 hy
    have s0 : 0 ≤ Real.sqrt (b * a) := Real.sqrt_nonneg _
    constructor
    · rw [pow_succ]
      calc (1 - ε) ^ n * (1 - ε) * Real.sqrt (B * A) = (1 - ε) * ((1 - ε) ^ n * Real.sqrt (B * A)) := by ring
        _ ≤ (1 - ε) * Real.sqrt (b * a) := mul_le_mul_of_nonneg_left r1 (by linarith)
        _ ≤ _ := by linarith
    · rw [pow_succ]
      calc sq (b * a) ≤ (1 + ε) * Real.sqrt (b * a) := by linarith
        _ ≤ (1 + ε) * ((1 + ε) ^ n * Real.sqrt (B * A)) := mul_le_mul_of_nonneg_left r2 (by linarith)
        _ = _ := by ring

/-- The loop delivers a member of the exact sequence up to the errors of the square roots, the last one or one that
nearly agrees with the geometric mean. -/
theorem agmLoop_spec {E : GenEnv} {ε : ℝ} (e0 : 0 ≤ ε) (e1 : ε ≤ 1 / 1000) {sq : ℝ → ℝ}
    (hsq : ∀ y, 2 * E.minv ≤ y → |sq y - Real.sqrt y| ≤ ε * Real.sqrt y) {β : ℝ} (b0 : 0 < β) (hβ : 4 * E.minv ≤ β) :
    ∀ (fuel n : ℕ) (a b : ℝ), fuel + n = 64 → Off ε n a (agm β n).1 → Off ε n b (agm β n).2 →
      ∃ N, N ≤ 64 ∧ Off ε N (Gf.agmLoop (realGen E) sq fuel n a b) (agm β N).1 ∧
        (N = 64 ∨ ∃ b', Off ε N b' (agm β N).2 ∧ |Gf.agmLoop (realGen E) sq fuel n a b - b'| < E.minv)
  | 0, n, a, b, hn, ha, _ => ⟨n, by omega, ha, Or.inl (by omega)⟩
  | fuel + 1, n, a, b, hn, ha, hb => by
    obtain ⟨A0, B0, AB⟩ := agm_pos b0 n
    obtain ⟨r1, r2⟩ := agm_round e0 e1 hsq (by omega) A0 B0 (hβ.trans AB) ha hb
    unfold Gf.agmLoop
    have ea : (realGen E).divI ((realGen E).add a b) 2 = (a + b) / 2 := by
      change (a + b) / ((2 : ℤ) : ℝ) = _; norm_num
    have eb : (realGen E).mul b a = b * a := rfl
    dsimp only
    rw [ea, eb]
    by_cases h : 4 < n ∧ (realGen E).lt (Gf.fabs (realGen E) ((realGen E).sub ((a + b) / 2) (sq (b * a)))) (realGen E).minv = true
    · rw [if_pos h]
      have h2 := h.2
      rw [rg_lt, rg_fabs] at h2
      exact ⟨n + 1, by omega, r1, Or.inr ⟨_, r2, h2⟩⟩
    · rw [if_neg h]
      exact agmLoop_spec e0 e1 hsq b0 hβ fuel (n + 1) _ _ (by omega) r1 r2

/-- Bounds of the accumulated errors. -/
theorem Off.bounds {ε : ℝ} (e0 : 0 ≤ ε) (e1 : ε ≤ 1 / 1000) {N : ℕ} (hN : N ≤ 64) :
    1 - 64 * ε ≤ (1 - ε) ^ N ∧ (1 + ε) ^ N ≤ 1 + 70 * ε := by
  have hN' : (N : ℝ) ≤ 64 := by exact_mod_cast hN
  constructor
  · have := one_add_mul_le_pow (show (-2 : ℝ) ≤ -ε by linarith) N
    rw [show 1 + -ε = 1 - ε by ring] at this
    nlinarith
  · have h1 : (1 + ε) ^ N ≤ (1 + ε) ^ 64 := pow_le_pow_right₀ (by linarith) hN
    have h2 : (1 + ε) ^ 64 ≤ Real.exp (64 * ε) := by
      have := pow_le_pow_left₀ (by linarith) (Real.add_one_le_exp ε) 64
      rw [← Real.exp_nat_mul] at this
      rw [add_comm] at this
      exact_mod_cast this
    have h3 := Real.add_one_le_exp (-(64 * ε))
    have h4 : Real.exp (64 * ε) * Real.exp (-(64 * ε)) = 1 := by rw [← Real.exp_add]; simp
    have h5 := Real.exp_pos (64 * ε)
    have h6 : Real.exp (64 * ε) * (1 - 64 * ε) ≤ 1 := by nlinarith
    have h7 : Real.exp (64 * ε) ≤ 1 + 70 * ε := by
      by_contra hn
      push Not at hn
      nlinarith
    linarith

theorem ten_pow_exp (D : ℤ) : (10 : ℝ) ^ (-D) = Real.exp (-(D * Real.log 10)) := by
  rw [Real.exp_neg, zpow_neg, ← Real.rpow_intCast, Real.rpow_def_of_pos (by norm_num)]; ring_nf

/-- The mean that the loop delivers, relative to the true mean. -/
theorem agm_value {E : GenEnv} (hE : E.Good) {ε : ℝ} (e0 : 0 ≤ ε) (e1 : ε ≤ 1 / 1000) {sq : ℝ → ℝ}
    (hsq : ∀ y, 2 * E.minv ≤ y → |sq y - Real.sqrt y| ≤ ε * Real.sqrt y) {s : ℝ} (hs : 25 ≤ s) (hm : E.minv * s ≤ 1)
    (hL : Real.log s ≤ 7 * 10 ^ 9) (hδ : Real.log s * (10 : ℝ) ^ (-E.digits10) ≤ 1 / 1000) :
    ∃ M η : ℝ, 0 < M ∧ |Real.pi / (2 * M) - Real.log s| ≤ 13 * Real.log s / s ^ 2 ∧
      Gf.agmLoop (realGen E) sq 64 0 1 (4 / s) = M * (1 + η) ∧ -(64 * ε) ≤ η ∧
      η ≤ 70 * ε + 2 * (Real.log s * (10 : ℝ) ^ (-E.digits10)) := by
  obtain ⟨M, M0, M1, hM, hlog, hth⟩ := agm_log hs
  have s0 : 0 < s := by linarith
  have L3 : 3 ≤ Real.log s := by
    rw [Real.le_log_iff_exp_le s0, show (3 : ℝ) = ((3 : ℕ) : ℝ) * 1 by norm_num, Real.exp_nat_mul]
    have := pow_le_pow_left₀ (Real.exp_pos 1).le Real.exp_one_lt_d9.le 3
    norm_num at this ⊢
    linarith
  have β0 : 0 < 4 / s := by positivity
  obtain ⟨N, N64, hN, hor⟩ := agmLoop_spec (E := E) e0 e1 hsq β0
    (by rw [le_div_iff₀ s0]; linarith) 64 0 1 (4 / s) (by norm_num) (by simp [Off, agm]) (by simp [Off, agm])
  generalize Gf.agmLoop (realGen E) sq 64 0 1 (4 / s) = a at *
  obtain ⟨δ, hδe⟩ : ∃ δ, δ = (10 : ℝ) ^ (-E.digits10) := ⟨_, rfl⟩
  rw [← hδe] at hδ ⊢
  have δ0 : 0 < δ := by rw [hδe]; positivity
  have δ1 : δ ≤ 1 / 1000 := by nlinarith
  obtain ⟨g1, g2⟩ := Off.bounds e0 e1 N64
  have lo : (1 - 64 * ε) * M ≤ a :=
    calc (1 - 64 * ε) * M ≤ (1 - ε) ^ N * M := mul_le_mul_of_nonneg_right g1 M0.le
      _ ≤ (1 - ε) ^ N * (agm (4 / s) N).1 := mul_le_mul_of_nonneg_left (hM N).2 (pow_nonneg (by linarith) N)
      _ ≤ a := hN.1
  have hi : a ≤ (1 + (70 * ε + 2 * (Real.log s * δ))) * M := by
    rcases hor with h64 | ⟨b', hb', hd⟩
    · have q1 : Real.exp (-(2 : ℝ) ^ N / Real.log s) ≤ δ := by
        rw [hδe, ten_pow_exp, Real.exp_le_exp, h64, neg_div, neg_le_neg_iff, le_div_iff₀ (by linarith)]
        have d0 : (0 : ℝ) ≤ E.digits10 := by exact_mod_cast hE.dig0
        have d1 : (E.digits10 : ℝ) ≤ 2 ^ 30 := by exact_mod_cast hE.dig1
        have l10 : Real.log 10 ≤ 24 / 10 := by
          have := Real.log_le_sub_one_of_pos (show (0 : ℝ) < 5 / 4 by norm_num)
          have h2 := Real.log_two_lt_d9
          rw [show (10 : ℝ) = 2 ^ 3 * (5 / 4) by norm_num, Real.log_mul (by norm_num) (by norm_num), Real.log_pow]
          push_cast; linarith
        have l0 : 0 ≤ Real.log 10 := Real.log_nonneg (by norm_num)
        calc (E.digits10 : ℝ) * Real.log 10 * Real.log s ≤ 2 ^ 30 * (24 / 10) * (7 * 10 ^ 9) := by gcongr
          _ ≤ 2 ^ 64 := by norm_num
      have q0 : 0 < Real.exp (-(2 : ℝ) ^ N / Real.log s) := Real.exp_pos _
      have hA := hth N
      generalize Real.exp (-(2 : ℝ) ^ N / Real.log s) = q at *
      have t1 := th_le4 q0.le (by linarith)
      have t0 := th_ge_one q0.le (by linarith)
      have q4 : q ^ 4 ≤ q / 100 := by
        have : q ^ 3 ≤ (1 / 1000) ^ 3 := pow_le_pow_left₀ q0.le (by linarith) 3
        have e : q ^ 4 = q * q ^ 3 := by ring
        rw [e]
        norm_num at this
        nlinarith
      have t2 : th q ^ 2 ≤ 1 + 5 * δ := by
        have : th q ≤ 1 + 21 / 10 * δ := by linarith
        nlinarith
      have A0 : (agm (4 / s) N).1 ≤ M * (1 + 5 * δ) := hA.trans (mul_le_mul_of_nonneg_left t2 M0.le)
      calc a ≤ (1 + ε) ^ N * (agm (4 / s) N).1 := hN.2
        _ ≤ (1 + 70 * ε) * (M * (1 + 5 * δ)) := mul_le_mul g2 A0 (M0.le.trans (hM N).2) (by linarith)
        _ = ((1 + 70 * ε) * (1 + 5 * δ)) * M := by ring
        _ ≤ _ := by
          refine mul_le_mul_of_nonneg_right ?_ M0.le
          nlinarith
    · have h1 := (abs_lt.1 hd).2
      have h2 : b' ≤ (1 + 70 * ε) * M := hb'.2.trans (mul_le_mul g2 (hM N).1 ((agm_pos β0 N).2.1.le) (by linarith))
      have h3 : E.minv ≤ δ / 100 := by
        refine hE.min_le.trans (le_of_eq ?_)
        rw [zpow_sub₀ (by norm_num), hδe]; norm_num
      have h4 : 1 ≤ Real.log s * M := by
        have h5 := (abs_le.1 hlog).2
        have h6 : 13 * Real.log s / s ^ 2 ≤ Real.log s * (1 / 40) := by
          rw [div_le_iff₀ (by positivity)]
          have := mul_le_mul_of_nonneg_left (show (625 : ℝ) ≤ s ^ 2 by nlinarith) (show 0 ≤ Real.log s by linarith)
          linarith
        have h7 : Real.pi / (2 * M) ≤ Real.log s * (41 / 40) := by linarith
        rw [div_le_iff₀ (by positivity)] at h7
        nlinarith [Real.pi_gt_three]
      nlinarith
  refine ⟨M, a / M - 1, M0, hlog, by field_simp; ring, ?_, ?_⟩
  · have : 1 - 64 * ε ≤ a / M := by rwa [le_div_iff₀ M0]
    linarith
  · have : a / M ≤ 1 + (70 * ε + 2 * (Real.log s * δ)) := by rwa [div_le_iff₀ M0]
    linarith

theorem agm_quot {ε σ η P L z t : ℝ} (e0 : 0 ≤ ε) (e1 : ε ≤ 1 / 1000) (L0 : 3 ≤ L) (t0 : 0 ≤ t) (z0 : 0 ≤ z) (z1 : z ≤ 1 / 40)
    (hσ : |σ| ≤ ε / 3) (h1 : -(64 * ε) ≤ η) (h2 : η ≤ 70 * ε + 2 * t) (hP : |P - L| ≤ L * z) :
    |P * ((1 + σ) / (1 + η)) - L| ≤ L * (80 * ε + 3 * t + z) := by
  have η0 : 9 / 10 < 1 + η := by linarith
  have hs := abs_le.1 hσ
  have q : |(1 + σ) / (1 + η) - 1| ≤ 77 * ε + 23 / 10 * t := by
    rw [show (1 + σ) / (1 + η) - 1 = (σ - η) / (1 + η) by field_simp; ring, abs_div, abs_of_pos (show 0 < 1 + η by linarith),
      div_le_iff₀ (by linarith)]
    have m : 77 * ε + 23 / 10 * t - (77 * ε + 23 / 10 * t) * (77 / 1000) ≤ (77 * ε + 23 / 10 * t) * (1 + η) := by
      have : 0 ≤ (77 * ε + 23 / 10 * t) * (η + 77 / 1000) := mul_nonneg (by linarith) (by linarith)
      linarith
    rw [abs_le]
    by_cases hη : 0 ≤ η
    · have : 77 * ε + 23 / 10 * t ≤ (77 * ε + 23 / 10 * t) * (1 + η) := by
        have : 0 ≤ (77 * ε + 23 / 10 * t) * η := mul_nonneg (by linarith) hη
        linarith
      constructor <;> linarith
    · push Not at hη
      constructor <;> linarith
  have e : P * ((1 + σ) / (1 + η)) - L = (P - L) + P * ((1 + σ) / (1 + η) - 1) := by ring
  have hP' := abs_le.1 hP
  have Pb : |P| ≤ L * (1 + z) := by rw [abs_le]; constructor <;> nlinarith
  have k : |P * ((1 + σ) / (1 + η) - 1)| ≤ L * (1 + z) * (77 * ε + 23 / 10 * t) := by
    rw [abs_mul]; exact mul_le_mul Pb q (abs_nonneg _) (by positivity)
  rw [e]
  refine (abs_add_le _ _).trans ?_
  have w : L * (1 + z) * (77 * ε + 23 / 10 * t) ≤ L * (80 * ε + 3 * t) := by
    rw [mul_assoc]
    refine mul_le_mul_of_nonneg_left ?_ (by linarith)
    nlinarith
  linarith

/-- The logarithm of `s` from the loop. -/
theorem agm_log_acc {E : GenEnv} (hE : E.Good) {ε : ℝ} (e0 : 0 ≤ ε) (e1 : ε ≤ 1 / 1000) {sq : ℝ → ℝ}
    (hsq : ∀ y, 2 * E.minv ≤ y → |sq y - Real.sqrt y| ≤ ε * Real.sqrt y) {π' : ℝ} (hpi : |π' - Real.pi| ≤ ε) {s : ℝ} (hs : 25 ≤ s)
    (hm : E.minv * s ≤ 1) (hL : Real.log s ≤ 7 * 10 ^ 9) (hδ : Real.log s * (10 : ℝ) ^ (-E.digits10) ≤ 1 / 1000) :
    0 < Gf.agmLoop (realGen E) sq 64 0 1 (4 / s) ∧
    |π' / (Gf.agmLoop (realGen E) sq 64 0 1 (4 / s) * 2) - Real.log s| ≤
      Real.log s * (80 * ε + 3 * (Real.log s * (10 : ℝ) ^ (-E.digits10)) + 13 / s ^ 2) := by
  obtain ⟨M, η, M0, hlog, ha, h1, h2⟩ := agm_value hE e0 e1 hsq hs hm hL hδ
  have s0 : 0 < s := by linarith
  have L3 : 3 ≤ Real.log s := by
    rw [Real.le_log_iff_exp_le s0, show (3 : ℝ) = ((3 : ℕ) : ℝ) * 1 by norm_num, Real.exp_nat_mul]
    have := pow_le_pow_left₀ (Real.exp_pos 1).le Real.exp_one_lt_d9.le 3
    norm_num at this ⊢
    linarith
  rw [ha]
  have η0 : 0 < 1 + η := by linarith
  refine ⟨mul_pos M0 η0, ?_⟩
  have p3 := Real.pi_gt_three
  obtain ⟨σ, s1, s2⟩ : ∃ σ, |σ| ≤ ε / 3 ∧ π' = Real.pi * (1 + σ) := by
    refine ⟨π' / Real.pi - 1, ?_, by field_simp; ring⟩
    rw [show π' / Real.pi - 1 = (π' - Real.pi) / Real.pi by field_simp, abs_div, abs_of_pos Real.pi_pos]
    exact div_le_div₀ e0 hpi (by norm_num) p3.le
  have e : π' / (M * (1 + η) * 2) = Real.pi / (2 * M) * ((1 + σ) / (1 + η)) := by
    rw [s2]; field_simp
  rw [e]
  refine agm_quot e0 e1 L3 (by positivity) (by positivity) ?_ s1 h1 h2 (hlog.trans (le_of_eq (by ring)))
  rw [div_le_iff₀ (by positivity)]
  nlinarith

/-- The power of two in `ln2` and `log`. -/
theorem two_bits {E : GenEnv} (hE : E.Good) (hD : 6 ≤ E.digits10) :
    ∃ m : ℕ, Gf.bits (realGen E) = m ∧ 9 ≤ m ∧ (m : ℝ) ≤ 17 / 10 * E.digits10 ∧
      Gf.pownNat ((realGen E).ofI 1) (realGen E).mul ((realGen E).ofI 2) (Gf.bits (realGen E)).toNat = 2 ^ m ∧
      1 / ((2 : ℝ) ^ m) ^ 2 ≤ 4 * (10 : ℝ) ^ (-E.digits10) := by
  obtain ⟨b1, b2⟩ := bits_bounds hE
  obtain ⟨m, hm⟩ : ∃ m : ℕ, Gf.bits (realGen E) = m := ⟨(Gf.bits (realGen E)).toNat, by omega⟩
  rw [hm] at b1 b2 ⊢
  refine ⟨m, rfl, by omega, ?_, ?_, ?_⟩
  · have : ((10 * (m : ℤ) : ℤ) : ℝ) ≤ ((17 * E.digits10 : ℤ) : ℝ) := by exact_mod_cast b2
    push_cast at this
    linarith
  · rw [show (realGen E).ofI 1 = 1 by simp [realGen], show (realGen E).mul = (· * ·) from rfl, gpownNat_spec, Int.toNat_natCast]
    congr 1
  · obtain ⟨D, hDn⟩ : ∃ D : ℕ, E.digits10 = D := ⟨E.digits10.toNat, by omega⟩
    rw [hDn] at b1 ⊢
    have h : (10 : ℝ) ^ D ≤ 4 * ((2 : ℝ) ^ m) ^ 2 := by
      refine le_of_pow_le_pow_left₀ (n := 10) (by norm_num) (by positivity) ?_
      calc ((10 : ℝ) ^ D) ^ 10 = (10 ^ 10) ^ D := by rw [← pow_mul, ← pow_mul, mul_comm]
        _ ≤ (2 ^ 34) ^ D := pow_le_pow_left₀ (by norm_num) (by norm_num) D
        _ = 2 ^ (34 * D) := by rw [← pow_mul]
        _ ≤ 2 ^ (20 + m * 2 * 10) := pow_le_pow_right₀ (by norm_num) (by omega)
        _ = (4 * ((2 : ℝ) ^ m) ^ 2) ^ 10 := by
          rw [mul_pow, ← pow_mul, ← pow_mul, pow_add, mul_assoc]; norm_num
    rw [zpow_neg, zpow_natCast, ← one_div, mul_one_div, div_le_div_iff₀ (by positivity) (by positivity)]
    linarith

theorem small_digits (D : ℕ) (h : 6 ≤ D) : (D : ℝ) * 10 ^ 5 ≤ 6 * 10 ^ D / 10 := by
  induction D, h using Nat.le_induction with
  | base => norm_num
  | succ n hn ih =>
    have : (1 : ℝ) ≤ n := by exact_mod_cast (by omega : 1 ≤ n)
    rw [pow_succ (10 : ℝ) n]
    push_cast
    linarith

theorem small_digits' {E : GenEnv} (hD : 6 ≤ E.digits10) : (E.digits10 : ℝ) * (10 : ℝ) ^ (-E.digits10) ≤ 6 / 10 ^ 6 := by
  obtain ⟨D, hDn⟩ : ∃ D : ℕ, E.digits10 = D := ⟨E.digits10.toNat, by omega⟩
  rw [hDn]
  have := small_digits D (by omega)
  rw [zpow_neg, zpow_natCast, ← div_eq_mul_inv, Int.cast_natCast, div_le_iff₀ (by positivity)]
  linarith

theorem two_pow_bits {E : GenEnv} (hE : E.Good) (hD : 6 ≤ E.digits10) {m : ℕ} (hm : Gf.bits (realGen E) = m) :
    (2 : ℝ) ^ m ≤ 10 ^ E.digits10 := by
  obtain ⟨D, hDn⟩ : ∃ D : ℕ, E.digits10 = D := ⟨E.digits10.toNat, by omega⟩
  have b2 := (bits_bounds hE).2
  rw [hm, hDn] at b2
  rw [hDn, zpow_natCast]
  calc (2 : ℝ) ^ m ≤ 2 ^ (2 * D) := pow_le_pow_right₀ (by norm_num) (by omega)
    _ = 4 ^ D := by rw [pow_mul]; norm_num
    _ ≤ 10 ^ D := pow_le_pow_left₀ (by norm_num) (by norm_num) D

/-- C100, the constant.  With a square root and a value of pi that are good to `ε`, `ln2<T>()` is the natural logarithm
of two with an error of at most `60 ε + 20 D 10^-D`, as long as `2 * m` fits 32 bits. -/
theorem C100_ln2_partial {E : GenEnv} (hE : E.Good) (hD : 6 ≤ E.digits10) (hD2 : E.digits10 ≤ 630000000) {ε : ℝ} (e0 : 0 ≤ ε)
    (e1 : ε ≤ 1 / 1000) {sq : ℝ → ℝ} (hsq : ∀ y, 2 * E.minv ≤ y → |sq y - Real.sqrt y| ≤ ε * Real.sqrt y) {π' : ℝ}
    (hpi : |π' - Real.pi| ≤ ε) :
    ∃ y, Gf.ln2 (realGen E) sq π' = some y ∧ |y - Real.log 2| ≤ 60 * ε + 20 * (E.digits10 * (10 : ℝ) ^ (-E.digits10)) := by
  obtain ⟨m, hm, m9, m17, hpw, h2m⟩ := two_bits hE hD
  have d1 : (6 : ℝ) ≤ E.digits10 := by exact_mod_cast hD
  have d2 : (E.digits10 : ℝ) ≤ 630000000 := by exact_mod_cast hD2
  have ml : (9 : ℝ) ≤ m := by exact_mod_cast m9
  have sd := small_digits' hD
  have l1 := Real.log_two_gt_d9
  have l2 := Real.log_two_lt_d9
  obtain ⟨δ, hδe⟩ : ∃ δ, δ = (10 : ℝ) ^ (-E.digits10) := ⟨_, rfl⟩
  have δ0 : 0 < δ := by rw [hδe]; positivity
  have hs : (25 : ℝ) ≤ 2 ^ m := by
    calc (25 : ℝ) ≤ 2 ^ 9 := by norm_num
      _ ≤ 2 ^ m := pow_le_pow_right₀ (by norm_num) m9
  have hlog : Real.log ((2 : ℝ) ^ m) = m * Real.log 2 := Real.log_pow 2 m
  have mlog : (m : ℝ) * Real.log 2 ≤ 12 / 10 * E.digits10 := by nlinarith
  obtain ⟨a0, ha⟩ := agm_log_acc hE e0 e1 hsq hpi hs (by
      have h1 := hE.min_le
      rw [zpow_sub₀ (by norm_num), ← hδe] at h1
      norm_num at h1
      rw [← hδe] at h2m
      have h4 : (1 : ℝ) ≤ 2 ^ m := by linarith
      have h3 : (2 : ℝ) ^ m * δ ≤ 100 := by
        have := two_pow_bits hE hD hm
        have h5 := mul_le_mul_of_nonneg_right this δ0.le
        rw [hδe, ← zpow_add₀ (by norm_num)] at h5
        rw [hδe]
        norm_num at h5 ⊢
        linarith
      have h6 := mul_le_mul_of_nonneg_right h1 (show (0 : ℝ) ≤ 2 ^ m by positivity)
      linarith)
    (by rw [hlog]; linarith) (by rw [hlog, ← hδe]; rw [← hδe] at sd; nlinarith)
  unfold Gf.ln2
  dsimp only
  rw [hpw]
  have eb : (realGen E).div ((realGen E).ofI 4) (2 ^ m : ℝ) = 4 / 2 ^ m := by
    change ((4 : ℤ) : ℝ) / _ = _
    norm_num
  have e1' : (realGen E).ofI 1 = (1 : ℝ) := by change ((1 : ℤ) : ℝ) = 1; norm_num
  rw [eb, e1', hm, if_neg (by have := (bits_bounds hE).2; rw [hm] at this; omega)]
  refine ⟨_, rfl, ?_⟩
  change |π' / (Gf.agmLoop (realGen E) sq 64 0 1 (4 / 2 ^ m) * ((2 * (m : ℤ) : ℤ) : ℝ)) - Real.log 2| ≤ _
  generalize Gf.agmLoop (realGen E) sq 64 0 1 (4 / 2 ^ m) = a at *
  rw [hlog, ← hδe] at ha
  rw [← hδe] at sd h2m ⊢
  have m0 : (0 : ℝ) < m := by linarith
  have e : π' / (a * ((2 * (m : ℤ) : ℤ) : ℝ)) - Real.log 2 = (π' / (a * 2) - m * Real.log 2) / m := by
    push_cast; field_simp
  rw [e, abs_div, abs_of_pos m0, div_le_iff₀ m0]
  refine ha.trans ?_
  rw [show (m : ℝ) * Real.log 2 * (80 * ε + 3 * (m * Real.log 2 * δ) + 13 / (2 ^ m) ^ 2) =
    (Real.log 2 * (80 * ε + 3 * (m * Real.log 2 * δ) + 13 * (1 / (2 ^ m) ^ 2))) * m by ring]
  refine mul_le_mul_of_nonneg_right ?_ m0.le
  have k1 : (m : ℝ) * Real.log 2 * δ ≤ 12 / 10 * (E.digits10 * δ) := by nlinarith
  have k2 : δ ≤ E.digits10 * δ / 6 := by nlinarith
  have k3 : 80 * ε + 3 * (m * Real.log 2 * δ) + 13 * (1 / (2 ^ m) ^ 2) ≤ 80 * ε + 123 / 10 * (E.digits10 * δ) := by linarith
  have k0 : 0 ≤ E.digits10 * δ := by positivity
  calc _ ≤ Real.log 2 * (80 * ε + 123 / 10 * (E.digits10 * δ)) := mul_le_mul_of_nonneg_left k3 (by linarith)
    _ ≤ 7 / 10 * (80 * ε + 123 / 10 * (E.digits10 * δ)) := mul_le_mul_of_nonneg_right (by linarith) (by linarith)
    _ ≤ _ := by linarith

theorem mlog_bounds {m D : ℝ} (h9 : 9 ≤ m) (h : m ≤ 17 / 10 * D) : m * Real.log 2 ≤ 12 / 10 * D ∧ 3 ≤ m * Real.log 2 := by
  have l1 := Real.log_two_gt_d9
  have l2 := Real.log_two_lt_d9
  constructor <;> nlinarith

theorem exp_abs_log {x : ℝ} (hx : 0 < x) : Real.exp |Real.log x| = if x < 1 then 1 / x else x := by
  split
  · rename_i h
    rw [abs_of_neg (Real.log_neg hx h), Real.exp_neg, Real.exp_log hx, one_div]
  · rename_i h
    rw [abs_of_nonneg (Real.log_nonneg (not_lt.1 h)), Real.exp_log hx]

set_option maxHeartbeats 1000000 in
/-- C100, the function.  With a square root and a value of pi that are good to `ε` and a logarithm of two that is good to
`ε₂`, `log<T>` is the natural logarithm with an error of at most `27 S² (ε + 10^-D) + S ε₂`, where `S = |ln x| + 2 D`, for
all arguments that stay away from the ends of the range. -/
theorem C100_log_partial {E : GenEnv} (hE : E.Good) (hD : 6 ≤ E.digits10) {ε ε₂ : ℝ} (e0 : 0 ≤ ε) (e1 : ε ≤ 1 / 1000) {sq : ℝ → ℝ}
    (hsq : ∀ y, 2 * E.minv ≤ y → |sq y - Real.sqrt y| ≤ ε * Real.sqrt y) {π' l : ℝ} (hpi : |π' - Real.pi| ≤ ε)
    (hl : |l - Real.log 2| ≤ ε₂) :
    (∀ x, 0 < x → E.minv * (10 : ℝ) ^ E.digits10 * Real.exp |Real.log x| ≤ 1 / 2 → |Real.log x| ≤ 5 * 10 ^ 9 →
      |Real.log x| * (10 : ℝ) ^ (-E.digits10) ≤ 1 / 2000 →
      |Gf.log (realGen E) sq π' l x - Real.log x| ≤
        27 * (|Real.log x| + 2 * E.digits10) ^ 2 * (ε + (10 : ℝ) ^ (-E.digits10)) + (|Real.log x| + 2 * E.digits10) * ε₂) ∧
    ∀ x, x < 2 * E.minv → Gf.log (realGen E) sq π' l x = E.nan := by
  have μ0 := hE.min_pos
  constructor
  swap
  · intro x hx
    unfold Gf.log
    simp only [Bool.or_eq_true, rg_isneg, rg_iszero]
    rw [if_pos]
    · rfl
    · by_cases h : x < 0
      · exact Or.inr h
      · exact Or.inl (by rwa [abs_of_nonneg (not_lt.1 h)])
  intro x hx hx1 hx2 hx3
  obtain ⟨m, hm, m9, m17, hpw, h2m⟩ := two_bits hE hD
  have d1 : (6 : ℝ) ≤ E.digits10 := by exact_mod_cast hD
  have d2 : (E.digits10 : ℝ) ≤ 1073741824 := by
    have := hE.dig1
    norm_num at this
    exact_mod_cast this
  have ml : (9 : ℝ) ≤ m := by exact_mod_cast m9
  have sd := small_digits' hD
  have l1 := Real.log_two_gt_d9
  have l2 := Real.log_two_lt_d9
  have tp := two_pow_bits hE hD hm
  have hmin := hE.min_le
  have hte : (10 : ℝ) ^ E.digits10 * (10 : ℝ) ^ (-E.digits10) = 1 := by
    rw [← zpow_add₀ (by norm_num)]; simp
  rw [zpow_sub₀ (by norm_num)] at hmin
  generalize (10 : ℝ) ^ E.digits10 = T at *
  obtain ⟨δ, hδe⟩ : ∃ δ, δ = (10 : ℝ) ^ (-E.digits10) := ⟨_, rfl⟩
  have δ0 : 0 < δ := by rw [hδe]; positivity
  rw [← hδe] at hx3 h2m sd hte hmin ⊢
  norm_num at hmin
  have T0 : 0 < T := by
    by_contra hn
    push Not at hn
    nlinarith
  have al := abs_nonneg (Real.log x)
  have X1 : 1 ≤ Real.exp |Real.log x| := Real.one_le_exp al
  have T1 : 1 ≤ T := by
    have : (1 : ℝ) ≤ 2 ^ m := one_le_pow₀ (by norm_num)
    linarith
  have X2 := exp_abs_log hx
  obtain ⟨X, hX⟩ : ∃ X, X = Real.exp |Real.log x| := ⟨_, rfl⟩
  have X0 : 0 < X := by rw [hX]; positivity
  rw [← hX] at hx1 X1 X2
  have xμ : 2 * E.minv ≤ x := by
    have h1 : E.minv * X ≤ 1 / 2 := by
      have : E.minv * 1 * X ≤ E.minv * T * X := by gcongr
      linarith
    have h2 : 1 ≤ x * X := by
      rw [X2]
      split
      · rw [mul_one_div, div_self hx.ne']
      · rename_i h; nlinarith
    nlinarith
  unfold Gf.log
  simp only [Bool.or_eq_true, rg_isneg, rg_iszero, rg_isone]
  rw [if_neg (by rw [abs_of_pos hx]; push Not; exact ⟨xμ, hx.le⟩)]
  have S12 : 12 ≤ |Real.log x| + 2 * E.digits10 := by linarith
  have ε20 := (abs_nonneg _).trans hl
  by_cases h1 : |1 - x| < 2 * E.minv
  · rw [if_pos h1]
    change |((0 : ℤ) : ℝ) - Real.log x| ≤ _
    have : |Real.log x| ≤ δ := by
      have hδs : δ ≤ 1 / 1000 := by
        have : 6 * δ ≤ E.digits10 * δ := mul_le_mul_of_nonneg_right d1 δ0.le
        norm_num at sd
        linarith
      have hb := abs_lt.1 h1
      have u := Real.log_le_sub_one_of_pos hx
      have v := Real.one_sub_inv_le_log_of_pos hx
      have w : -(2 * (2 * E.minv)) ≤ 1 - x⁻¹ := by
        rw [show 1 - x⁻¹ = (x - 1) / x by field_simp, le_div_iff₀ hx]
        nlinarith
      rw [abs_le]
      constructor <;> linarith
    rw [Int.cast_zero, zero_sub, abs_neg]
    refine this.trans ?_
    generalize |Real.log x| + 2 * (E.digits10 : ℝ) = S at *
    have : 1 ≤ 27 * S ^ 2 := by nlinarith
    have h3 : 1 * δ ≤ 27 * S ^ 2 * (ε + δ) := mul_le_mul this (by linarith) δ0.le (by positivity)
    have h4 : 0 ≤ S * ε₂ := by positivity
    linarith
  rw [if_neg h1, hpw, hm]
  have ec : ((realGen E).lt x ((realGen E).ofI 1) = true) = (x < 1) := by
    rw [rg_lt]; change (x < ((1 : ℤ) : ℝ)) = _; norm_num
  simp only [ec]
  have exx : (if x < 1 then (realGen E).div ((realGen E).ofI 1) x else x) = X := by
    rw [X2]
    congr 1
    change ((1 : ℤ) : ℝ) / x = _
    norm_num
  have eb : (realGen E).div ((realGen E).ofI 4) ((realGen E).mul X (2 ^ m : ℝ)) = 4 / (X * 2 ^ m) := by
    change ((4 : ℤ) : ℝ) / _ = _
    norm_num
    rfl
  have e1' : (realGen E).ofI 1 = (1 : ℝ) := by change ((1 : ℤ) : ℝ) = 1; norm_num
  rw [exx, eb, e1']
  have P9 : (2 : ℝ) ^ 9 ≤ 2 ^ m := pow_le_pow_right₀ (by norm_num) m9
  have P0 : (0 : ℝ) < 2 ^ m := by positivity
  have hs : (25 : ℝ) ≤ X * 2 ^ m := by
    have := mul_le_mul_of_nonneg_right X1 P0.le
    norm_num at P9
    linarith
  have hlog : Real.log (X * (2 : ℝ) ^ m) = |Real.log x| + m * Real.log 2 := by
    rw [Real.log_mul X0.ne' P0.ne', Real.log_pow, hX, Real.log_exp]
  obtain ⟨mlog, mlog0⟩ := mlog_bounds ml m17
  have kd : (m : ℝ) * Real.log 2 * δ ≤ 12 / 10 * (E.digits10 * δ) := by
    have := mul_le_mul_of_nonneg_right mlog δ0.le
    linarith
  obtain ⟨a0, ha⟩ := agm_log_acc hE e0 e1 hsq hpi hs (by
      have h5 : E.minv * (X * 2 ^ m) ≤ E.minv * (X * T) := by gcongr
      linarith) (by rw [hlog]; linarith) (by rw [hlog, ← hδe, add_mul]; norm_num at sd; linarith)
  generalize Gf.agmLoop (realGen E) sq 64 0 1 (4 / (X * 2 ^ m)) = a at *
  rw [hlog, ← hδe] at ha
  have hval : |π' / (a * 2) - l * m - (|Real.log x|)| ≤
      27 * (|Real.log x| + 2 * E.digits10) ^ 2 * (ε + δ) + (|Real.log x| + 2 * E.digits10) * ε₂ := by
    have t1 : 13 / (X * 2 ^ m) ^ 2 ≤ 52 * δ := by
      have h6 : ((2 : ℝ) ^ m) ^ 2 ≤ (X * 2 ^ m) ^ 2 := pow_le_pow_left₀ P0.le (by nlinarith) 2
      have h7 := one_div_le_one_div_of_le (by positivity) h6
      rw [show 13 / (X * 2 ^ m) ^ 2 = 13 * (1 / (X * 2 ^ m) ^ 2) by ring]
      linarith
    obtain ⟨L, hLe⟩ : ∃ L, L = |Real.log x| + m * Real.log 2 := ⟨_, rfl⟩
    rw [← hLe] at ha
    have L3 : 3 ≤ L := by linarith
    have LS : L ≤ |Real.log x| + 2 * E.digits10 := by linarith
    have mS : (m : ℝ) ≤ |Real.log x| + 2 * E.digits10 := by linarith
    have t2 : L * (80 * ε + 3 * (L * δ) + 13 / (X * 2 ^ m) ^ 2) ≤ 27 * L ^ 2 * (ε + δ) := by
      have u1 : L * (80 * ε + 3 * (L * δ) + 13 / (X * 2 ^ m) ^ 2) ≤ L * (80 * ε + 3 * (L * δ) + 52 * δ) :=
        mul_le_mul_of_nonneg_left (by linarith) (by linarith)
      have u2 : 3 * ε ≤ L * ε := mul_le_mul_of_nonneg_right L3 e0
      have u3 : 3 * δ ≤ L * δ := mul_le_mul_of_nonneg_right L3 δ0.le
      have u4 : L * (80 * ε + 3 * (L * δ) + 52 * δ) ≤ L * (27 * L * (ε + δ)) :=
        mul_le_mul_of_nonneg_left (by linarith) (by linarith)
      linarith
    have t3 : 27 * L ^ 2 * (ε + δ) ≤ 27 * (|Real.log x| + 2 * E.digits10) ^ 2 * (ε + δ) := by gcongr
    have t4 : |(m : ℝ) * (Real.log 2 - l)| ≤ (|Real.log x| + 2 * E.digits10) * ε₂ := by
      rw [abs_mul, abs_sub_comm, abs_of_nonneg (by linarith : (0 : ℝ) ≤ m)]
      exact mul_le_mul mS hl (abs_nonneg _) (by linarith)
    have e : π' / (a * 2) - l * m - |Real.log x| = (π' / (a * 2) - L) + m * (Real.log 2 - l) := by rw [hLe]; ring
    rw [e]
    refine (abs_add_le _ _).trans ?_
    linarith
  have ev : (realGen E).sub ((realGen E).div π' ((realGen E).mulI a 2)) ((realGen E).mulI l (m : ℤ)) = π' / (a * 2) - l * m := by
    change π' / (a * ((2 : ℤ) : ℝ)) - l * (((m : ℕ) : ℤ) : ℝ) = _
    norm_num
  rw [ev]
  by_cases hb : x < 1
  · rw [if_pos hb]
    change |-(π' / (a * 2) - l * m) - Real.log x| ≤ _
    rw [abs_of_neg (Real.log_neg hx hb)] at hval ⊢
    rw [← abs_neg]
    convert hval using 2
    ring
  · rw [if_neg hb]
    rw [abs_of_nonneg (Real.log_nonneg (not_lt.1 hb))] at hval ⊢
    exact hval

/-- C100, put together: the square root, the logarithm of two and the logarithm are those of the templates, and pi is
good to `1230 * 10^-D`, as C99 says.  Then the logarithm is good to `10^6 S² 10^-D`. -/
theorem C100_all_partial {E : GenEnv} (hE : E.Good) (hD : 7 ≤ E.digits10) (hD2 : E.digits10 ≤ 630000000) {π' : ℝ}
    (hpi : |π' - Real.pi| ≤ 1230 * (10 : ℝ) ^ (-E.digits10)) {x : ℝ} (hx : 0 < x)
    (hx1 : E.minv * (10 : ℝ) ^ E.digits10 * Real.exp |Real.log x| ≤ 1 / 2) (hx2 : |Real.log x| ≤ 5 * 10 ^ 9)
    (hx3 : |Real.log x| * (10 : ℝ) ^ (-E.digits10) ≤ 1 / 2000) :
    ∃ l, Gf.ln2 (realGen E) (Gf.sqrt (realGen E)) π' = some l ∧
      |Gf.log (realGen E) (Gf.sqrt (realGen E)) π' l x - Real.log x| ≤
        10 ^ 6 * (|Real.log x| + 2 * E.digits10) ^ 2 * (10 : ℝ) ^ (-E.digits10) := by
  have hδ : (10 : ℝ) ^ (-E.digits10) ≤ 1 / 10 ^ 7 := by
    refine (zpow_le_zpow_right₀ (by norm_num) (by omega : -E.digits10 ≤ -7)).trans (by norm_num)
  have hsq : ∀ y, 2 * E.minv ≤ y → |Gf.sqrt (realGen E) y - Real.sqrt y| ≤ 1230 * (10 : ℝ) ^ (-E.digits10) * Real.sqrt y := by
    intro y hy
    refine ((C97_sqrt_partial hE y).1 hy).trans (mul_le_mul_of_nonneg_right ?_ (Real.sqrt_nonneg y))
    rw [zpow_sub₀ (by norm_num)]
    have : (0 : ℝ) < (10 : ℝ) ^ (-E.digits10) := by positivity
    generalize (10 : ℝ) ^ (-E.digits10) = δ at *
    norm_num
    linarith
  have δ0 : (0 : ℝ) < (10 : ℝ) ^ (-E.digits10) := by positivity
  have ε1 : 1230 * (10 : ℝ) ^ (-E.digits10) ≤ 1 / 1000 := by norm_num at hδ ⊢; linarith
  obtain ⟨l, hl, hl2⟩ := C100_ln2_partial hE (by omega) hD2 (by positivity) ε1 hsq hpi
  refine ⟨l, hl, ((C100_log_partial hE (by omega) (by positivity) ε1 hsq hpi hl2).1 x hx hx1 hx2 hx3).trans ?_⟩
  have d1 : (7 : ℝ) ≤ E.digits10 := by exact_mod_cast hD
  have al := abs_nonneg (Real.log x)
  have S14 : 2 * (E.digits10 : ℝ) ≤ |Real.log x| + 2 * E.digits10 := by linarith
  generalize (10 : ℝ) ^ (-E.digits10) = δ at *
  generalize |Real.log x| + 2 * (E.digits10 : ℝ) = S at *
  generalize (E.digits10 : ℝ) = D at *
  have S0 : 14 ≤ S := by linarith
  have a1 : S * δ ≤ S ^ 2 * δ / 14 := by
    have := mul_le_mul_of_nonneg_right (show 14 * S ≤ S ^ 2 by nlinarith) δ0.le
    linarith
  have a2 : S * (D * δ) ≤ S ^ 2 * δ / 2 := by
    have := mul_le_mul_of_nonneg_right (show S * (2 * D) ≤ S * S from mul_le_mul_of_nonneg_left S14 (by linarith)) δ0.le
    linarith
  have a3 : 0 ≤ S ^ 2 * δ := by positivity
  nlinarith

/-- A case: 100 digits, the logarithm of ten. -/
example : ∃ E : GenEnv, E.Good ∧ E.digits10 = 100 ∧ ∃ l, Gf.ln2 (realGen E) (Gf.sqrt (realGen E)) Real.pi = some l ∧
      |Gf.log (realGen E) (Gf.sqrt (realGen E)) Real.pi l 10 - Real.log 10| ≤ (10 : ℝ) ^ (-89 : ℤ) := by
  obtain ⟨E, hE, hd, hμ⟩ := good_exists_min 100 (by norm_num) (by norm_num) (μ := (10 : ℝ) ^ (-300 : ℤ)) (by positivity)
    (zpow_le_zpow_right₀ (by norm_num) (by norm_num))
  have h0 : 0 ≤ Real.log 10 := Real.log_nonneg (by norm_num)
  have h1 : Real.log 10 ≤ 9 := by
    have := Real.log_le_sub_one_of_pos (show (0 : ℝ) < 10 by norm_num)
    linarith
  refine ⟨E, hE, hd, ?_⟩
  obtain ⟨l, l1, l2⟩ := C100_all_partial hE (by omega) (by omega) (π' := Real.pi) (by rw [sub_self, abs_zero]; positivity) (x := 10)
    (by norm_num) (by rw [hd, hμ, abs_of_nonneg h0, Real.exp_log (by norm_num), ← zpow_add₀ (by norm_num)]; norm_num) (by rw [abs_of_nonneg h0]; norm_num; linarith)
    (by
      rw [abs_of_nonneg h0, hd]
      have : (10 : ℝ) ^ (-(100 : ℤ)) ≤ (10 : ℝ) ^ (-(10 : ℤ)) := zpow_le_zpow_right₀ (by norm_num) (by norm_num)
      have p : (0 : ℝ) < (10 : ℝ) ^ (-(100 : ℤ)) := by positivity
      norm_num at this p ⊢
      nlinarith)
  refine ⟨l, l1, l2.trans ?_⟩
  rw [abs_of_nonneg h0, hd]
  have hS : (Real.log 10 + 2 * ((100 : ℤ) : ℝ)) ^ 2 ≤ 10 ^ 5 := by
    push_cast
    nlinarith
  have e : (10 : ℝ) ^ (-89 : ℤ) = 10 ^ 6 * 10 ^ 5 * (10 : ℝ) ^ (-(100 : ℤ)) := by
    norm_num
  rw [e]
  gcongr

end EFX.Props
