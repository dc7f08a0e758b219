import Verif.Lemmas.Agm
import Verif.Lemmas.RealArith
import Verif.Lemmas.RealSeries
import Verif.Model.Special
/-! C76: the loop that computes `pi` for 1010 digits and more. -/

namespace EFX.Props
open EFX EFX.Theta

theorem order_bounds {k : ℕ} (hk : 1 ≤ k) (hk30 : k ≤ 30) {z : ℝ} (hz : |z| = 2 ^ k * (ga k ^ 2 - gb k ^ 2)) :
    z ≠ 0 ∧ -(6 * (2 : ℤ) ^ k) < 4 * (ordR z + 1) ∧ ordR z < 11 ∧ (k = 30 → |z| ≤ (10 : ℝ) ^ (11 - 1073741824 : ℤ)) := by
  have hp := th0_pos
  obtain ⟨T, hT⟩ : ∃ T, T = th (Q 0) ^ 4 := ⟨_, rfl⟩
  have T0 : 0 < T := by rw [hT]; positivity
  have T2 : T ≤ 5 / 2 := by
    obtain ⟨-, h2, h3⟩ := c2_bounds (Q_pos 0).le (Q_le 0)
    rw [hT]; linarith [Q_le 0]
  have T1 : 1 ≤ T := by rw [hT]; exact one_le_pow₀ (th_ge_one (Q_pos 0).le (Q_lt 0))
  obtain ⟨b1, b2, -⟩ := c2_bounds (Q_pos k).le (Q_le k)
  rw [gc_eq, ← hT] at hz
  have hq := Q_pos k
  have P1 : (2 : ℝ) ≤ 2 ^ k := by
    calc (2 : ℝ) = 2 ^ 1 := by norm_num
      _ ≤ 2 ^ k := pow_le_pow_right₀ (by norm_num) hk
  have P30 : (2 : ℝ) ^ k ≤ 2 ^ 30 := pow_le_pow_right₀ (by norm_num) hk30
  have lo : Q k ≤ |z| := by
    rw [hz, mul_div_assoc', le_div_iff₀ T0]
    have h1 : 2 * (8 * Q k) ≤ 2 ^ k * c2 (Q k) := mul_le_mul P1 b1 (by positivity) (by positivity)
    have h2 : Q k * T ≤ Q k * (5 / 2) := mul_le_mul_of_nonneg_left T2 hq.le
    linarith
  have hi : |z| ≤ 2 ^ k * (30 * Q k) := by
    rw [hz]
    refine mul_le_mul_of_nonneg_left ?_ (by positivity)
    exact (div_le_self (by linarith) T1).trans b2
  have z0 : z ≠ 0 := fun h => by rw [h, abs_zero] at lo; linarith
  have hm : (0 : ℝ) < |z| := abs_pos.2 z0
  have olo : -(6 * (2 : ℤ) ^ k) < 4 * (ordR z + 1) := by
    have h1 := lt_ordR z0
    have h2 : Q k ^ 4 < ((10 : ℝ) ^ (ordR z + 1)) ^ 4 := pow_lt_pow_left₀ (lo.trans_lt h1) hq.le (by norm_num)
    have h3 : (1 / 10 ^ 6 : ℝ) ^ 2 ^ k ≤ Q k ^ 4 := by
      unfold Q; rw [← pow_mul, mul_comm, pow_mul]
      exact pow_le_pow_left₀ (by norm_num) qe_one_ge _
    have h4 := h3.trans_lt h2
    have e1 : (1 / 10 ^ 6 : ℝ) ^ 2 ^ k = (10 : ℝ) ^ (-(6 * (2 : ℤ) ^ k)) := by
      rw [zpow_neg, one_div, inv_pow, ← pow_mul]
      norm_cast
    have e2 : ((10 : ℝ) ^ (ordR z + 1)) ^ 4 = (10 : ℝ) ^ (4 * (ordR z + 1)) := by
      rw [← zpow_natCast, ← zpow_mul]; congr 1; push_cast; ring
    rw [e1, e2] at h4
    exact (zpow_lt_zpow_iff_right₀ (by norm_num)).1 h4
  have p30 : (2 : ℤ) ^ k ≤ 1073741824 := by
    have : (2 : ℤ) ^ k ≤ 2 ^ 30 := pow_le_pow_right₀ (by norm_num) hk30
    norm_num at this; exact this
  have qs : Q k ≤ 1 / 20 := Q_le k
  have ohi : ordR z < 11 := by
    rw [ordR_lt z0]
    have h1 : (2 : ℝ) ^ k * (30 * Q k) ≤ 2 ^ 30 * (30 * (1 / 20)) :=
      mul_le_mul P30 (by linarith) (by positivity) (by positivity)
    calc |z| ≤ _ := hi
      _ ≤ _ := h1
      _ < (10 : ℝ) ^ (11 : ℤ) := by norm_num
  refine ⟨z0, olo, ohi, fun h30 => ?_⟩
  have h2 : Q k ≤ (10 : ℝ) ^ (-((2 : ℤ) ^ k)) := by
    have e1 : (10 : ℝ) ^ (-((2 : ℤ) ^ k)) = (1 / 10 : ℝ) ^ 2 ^ k := by
      rw [zpow_neg, one_div, inv_pow]; norm_cast
    rw [e1]; unfold Q
    exact pow_le_pow_left₀ (qe_pos 1).le (qe_one_le.trans (by norm_num)) _
  have h3 : (2 : ℝ) ^ k * (30 * Q k) ≤ (10 : ℝ) ^ (11 : ℤ) * (10 : ℝ) ^ (-((2 : ℤ) ^ k)) := by
    have h4 : (2 : ℝ) ^ k * 30 ≤ (10 : ℝ) ^ (11 : ℤ) := by
      calc (2 : ℝ) ^ k * 30 ≤ 2 ^ 30 * 30 := by linarith
        _ ≤ _ := by norm_num
    rw [← mul_assoc]
    exact mul_le_mul h4 h2 hq.le (by positivity)
  rw [← zpow_add₀ (by norm_num)] at h3
  refine (hi.trans h3).trans (zpow_le_zpow_right₀ (by norm_num) ?_)
  have : (2 : ℤ) ^ k = 1073741824 := by rw [h30]; norm_num
  rw [this]; norm_num

theorem order_term (tol : ℤ) (h0 : 0 ≤ tol) (ht : tol ≤ 1200000000) {k : ℕ} (hk : 1 ≤ k) (hk30 : k ≤ 30) {z : ℝ}
    (hz : |z| = 2 ^ k * (ga k ^ 2 - gb k ^ 2)) :
    Int.bmod (-(ordR z)) 4294967296 = -(ordR z) ∧ (k = 30 → -(ordR z) ≥ Int.tdiv tol 2 + 10) ∧ z ≠ 0 := by
  obtain ⟨z0, olo, ohi, o30⟩ := order_bounds hk hk30 hz
  have p30 : (2 : ℤ) ^ k ≤ 1073741824 := by
    have : (2 : ℤ) ^ k ≤ 2 ^ 30 := pow_le_pow_right₀ (by norm_num) hk30
    norm_num at this; exact this
  refine ⟨?_, ?_, z0⟩
  · rw [Int.bmod_def]; split <;> omega
  · intro h30
    have h1 : ordR z < -(Int.tdiv tol 2 + 9) := by
      rw [ordR_lt z0]
      refine (o30 h30).trans_lt (zpow_lt_zpow_right₀ (by norm_num) ?_)
      rw [Int.tdiv_eq_ediv_of_nonneg h0]; omega
    omega

theorem piLoop_real (E : RealEnv) (h0 : 0 ≤ E.tol) (ht : E.tol ≤ 1200000000) (fuel k : ℕ) (hk : k + 1 ≤ 30) (hf : 30 ≤ fuel + k) (v : ℝ) :
    ∃ n, 1 ≤ n ∧ Fn.piLoop (realArith E) fuel (k + 1) (ga k) (gb k ^ 2) (gs k) ((ga k ^ 2 + gb k ^ 2) / 4) v =
      (ga n ^ 2, gb n ^ 2, gs n) ∧ 2 ^ n * (ga n ^ 2 - gb n ^ 2) < (10 : ℝ) ^ (-(Int.tdiv E.tol 2 + 9)) := by
  induction fuel generalizing k v with
  | zero => omega
  | succ fuel ih =>
    unfold Fn.piLoop
    ra_simp
    have hb := Int.bmod_def ((2 ^ (k + 1) : ℕ) : ℤ) 4294967296
    have p30 : (2 : ℤ) ^ (k + 1) ≤ 1073741824 := by
      have : (2 : ℤ) ^ (k + 1) ≤ 2 ^ 30 := pow_le_pow_right₀ (by norm_num) hk
      norm_num at this; exact this
    have p0 : 0 < (2 : ℤ) ^ (k + 1) := by positivity
    have hb' : Int.bmod ((2 ^ (k + 1) : ℕ) : ℤ) 4294967296 = (2 : ℤ) ^ (k + 1) := by
      rw [hb]; push_cast; split <;> omega
    have hs : Real.sqrt (gb k ^ 2) = gb k := Real.sqrt_sq (gb_pos k).le
    have ha : (ga k + gb k) / ((2 : ℤ) : ℝ) = ga (k + 1) := by rw [ga_succ]; norm_num
    have hb2 : (ga (k + 1) * ga (k + 1) - (ga k ^ 2 + gb k ^ 2) / 4) * ((2 : ℤ) : ℝ) = gb (k + 1) ^ 2 := by
      rw [gb_succ, ga_succ]; push_cast; ring
    have hv : ga (k + 1) * ga (k + 1) = ga (k + 1) ^ 2 := by ring
    rw [hs, ha, hb2, hb', hv]
    obtain ⟨z, hz⟩ : ∃ z, z = (gb (k + 1) ^ 2 - ga (k + 1) ^ 2) * (((2 : ℤ) ^ (k + 1) : ℤ) : ℝ) := ⟨_, rfl⟩
    rw [← hz]
    have hz1 : gs k + z = gs (k + 1) := by rw [gs, hz]; push_cast; ring
    have nn : 0 ≤ ga (k + 1) ^ 2 - gb (k + 1) ^ 2 := by
      rw [gc_eq]
      refine div_nonneg ?_ (by have := th0_pos; positivity)
      have := (c2_bounds (Q_pos (k + 1)).le (Q_le (k + 1))).1
      linarith [Q_pos (k + 1)]
    have hz2 : |z| = 2 ^ (k + 1) * (ga (k + 1) ^ 2 - gb (k + 1) ^ 2) := by
      have : z = -(2 ^ (k + 1) * (ga (k + 1) ^ 2 - gb (k + 1) ^ 2)) := by rw [hz]; push_cast; ring
      rw [this, abs_neg, abs_of_nonneg (by positivity)]
    obtain ⟨o1, o2, z0⟩ := order_term E.tol h0 ht (by omega) hk hz2
    rw [o1, hz1]
    by_cases h : -(ordR z) ≥ Int.tdiv E.tol 2 + 10
    · rw [if_pos h]
      refine ⟨k + 1, by omega, rfl, ?_⟩
      rw [← hz2, ← ordR_lt z0]; omega
    · rw [if_neg h]
      have hk1 : k + 1 ≠ 30 := fun h30 => h (o2 h30)
      have := ih (k + 1) (by omega) (by omega) (ga (k + 1) ^ 2)
      push_cast
      exact this

/-- C76, exact arithmetic.  With exact operations the loop of `ef::pi` for 1010 digits and more ends by its own test and
gives `pi` with an error below `10^-(tolerance + 14)`, for every tolerance up to `1.2 * 10^9`, which covers every
configuration.  The 32 bit conversions of `1UL << k` and of the decimal order, which are part of the loop, do not
overflow. -/
theorem C76_pi_partial (E : RealEnv) (h0 : 0 ≤ E.tol) (ht : E.tol ≤ 1200000000) :
    |Fn.piAgm (realArith E) (3 / 8) - Real.pi| ≤ (10 : ℝ) ^ (-E.tol - 14) := by
  obtain ⟨n, n1, hn, hw⟩ := piLoop_real E h0 ht 63 0 (by norm_num) (by norm_num) 0
  rw [ga_zero, gb_zero, show gs 0 = 1 / 2 from rfl, show ((1 : ℝ) ^ 2 + 1 / 2) / 4 = 3 / 8 by norm_num] at hn
  have e : Fn.piAgm (realArith E) (3 / 8) = (ga n ^ 2 + gb n ^ 2) / gs n := by
    unfold Fn.piAgm
    ra_simp
    rw [show (((1 : ℤ) : ℝ)) = 1 by norm_num, hn]
    rw [div_eq_mul_inv]
  rw [e]
  have hd : E.tol - 1 ≤ 2 * Int.tdiv E.tol 2 := by rw [Int.tdiv_eq_ediv_of_nonneg h0]; omega
  have hd0 : 0 ≤ Int.tdiv E.tol 2 := by rw [Int.tdiv_eq_ediv_of_nonneg h0]; omega
  have hw1 : (10 : ℝ) ^ (-(Int.tdiv E.tol 2 + 9)) ≤ 1 / 100 := by
    calc (10 : ℝ) ^ (-(Int.tdiv E.tol 2 + 9)) ≤ (10 : ℝ) ^ (-2 : ℤ) := zpow_le_zpow_right₀ (by norm_num) (by omega)
      _ = 1 / 100 := by norm_num
  refine (pi_error hw.le hw1).trans ?_
  have e2 : ((10 : ℝ) ^ (-(Int.tdiv E.tol 2 + 9))) ^ 2 = (10 : ℝ) ^ (-(2 * Int.tdiv E.tol 2) - 18) := by
    rw [← zpow_natCast, ← zpow_mul]; congr 1; push_cast; ring
  rw [e2]
  calc (120 : ℝ) * (10 : ℝ) ^ (-(2 * Int.tdiv E.tol 2) - 18) ≤ (10 : ℝ) ^ (3 : ℤ) * (10 : ℝ) ^ (-(2 * Int.tdiv E.tol 2) - 18) :=
        mul_le_mul_of_nonneg_right (by norm_num) (by positivity)
    _ = (10 : ℝ) ^ (3 + (-(2 * Int.tdiv E.tol 2) - 18)) := (zpow_add₀ (by norm_num) _ _).symm
    _ ≤ _ := zpow_le_zpow_right₀ (by norm_num) (by omega)

example (E : RealEnv) (h : E.tol = 2200) : |Fn.piAgm (realArith E) (3 / 8) - Real.pi| ≤ (10 : ℝ) ^ (-2214 : ℤ) := by
  have := C76_pi_partial E (by omega) (by omega)
  rwa [h] at this

end EFX.Props
