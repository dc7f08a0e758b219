import Verif.Props.Generic
import Verif.Props.Pi

/-! # `pi` of the generic functions (generic_functions_constants.h 39-93) -/

namespace EFX.Props

open EFX EFX.Theta

/-- The exponent of `frexp10` is the decimal order up to one, and bounds the number. -/
theorem frexp_order {E : GenEnv} (hE : E.Good) {z : ℝ} (hz : z ≠ 0) :
    ordR z - 1 ≤ (E.frexp z).2 ∧ (E.frexp z).2 ≤ ordR z + 1 ∧ |z| ≤ 101 / 100 * (10 : ℝ) ^ ((E.frexp z).2 + 1) := by
  obtain ⟨m1, m2⟩ := hE.frexp_range z hz
  have hv := hE.frexp_val z hz
  generalize (E.frexp z).1 = m at *
  generalize (E.frexp z).2 = e at *
  have z0 := abs_pos.2 hz
  have P : (0 : ℝ) < (10 : ℝ) ^ e := by positivity
  have a1 : |(m : ℝ) * 10 ^ e| = |(m : ℝ)| * 10 ^ e := by rw [abs_mul, abs_of_pos P]
  have a2 := abs_sub_abs_le_abs_sub ((m : ℝ) * 10 ^ e) z
  have a3 := abs_sub_abs_le_abs_sub z ((m : ℝ) * 10 ^ e)
  rw [abs_sub_comm z] at a3
  rw [a1] at a2 a3
  have b1 : 1 * (10 : ℝ) ^ e ≤ |(m : ℝ)| * 10 ^ e := mul_le_mul_of_nonneg_right m1 P.le
  have b2 : |(m : ℝ)| * 10 ^ e ≤ 10 * (10 : ℝ) ^ e := mul_le_mul_of_nonneg_right m2 P.le
  have e1 : (10 : ℝ) ^ (e + 1) = 10 * (10 : ℝ) ^ e := by rw [zpow_add₀ (by norm_num)]; ring
  have e2 : (10 : ℝ) ^ (e + 2) = 100 * (10 : ℝ) ^ e := by rw [zpow_add₀ (by norm_num)]; norm_num; ring
  have e3 : (10 : ℝ) ^ (e - 1) = (10 : ℝ) ^ e / 10 := by rw [zpow_sub₀ (by norm_num)]; norm_num
  norm_num at hv
  refine ⟨?_, ?_, ?_⟩
  · have : ordR z < e + 2 := by
      rw [ordR_lt hz, e2]; linarith
    omega
  · by_contra hn
    have : ordR z < e - 1 := by omega
    rw [ordR_lt hz, e3] at this
    linarith
  · rw [e1]; linarith

theorem gpiLoop_real {E : GenEnv} (hE : E.Good) {isz : ℝ → Bool} (hi : ∀ z, z ≠ 0 → isz z = false) (fuel k : ℕ)
    (hk : k + 1 ≤ 30) (hf : 30 ≤ fuel + k) (v : ℝ) :
    ∃ n, 1 ≤ n ∧ Gf.piLoop (realGen E) Real.sqrt isz fuel (k + 1) (ga k) (gb k ^ 2) (gs k) ((ga k ^ 2 + gb k ^ 2) / 4) v =
      some (ga n ^ 2, gb n ^ 2, gs n) ∧ 2 ^ n * (ga n ^ 2 - gb n ^ 2) ≤ 101 / 100 * (10 : ℝ) ^ (-(E.digits10 / 2)) := by
  induction fuel generalizing k v with
  | zero => omega
  | succ fuel ih =>
    unfold Gf.piLoop
    rw [if_neg (by omega)]
    dsimp only
    have hb := Int.bmod_def ((2 ^ (k + 1) : ℕ) : ℤ) 4294967296
    have p30 : (2 : ℤ) ^ (k + 1) ≤ 1073741824 := by
      have : (2 : ℤ) ^ (k + 1) ≤ 2 ^ 30 := pow_le_pow_right₀ (by norm_num) hk
      norm_num at this; exact this
    have p0 : 0 < (2 : ℤ) ^ (k + 1) := by positivity
    have hb' : Int.bmod ((2 ^ (k + 1) : ℕ) : ℤ) 4294967296 = (2 : ℤ) ^ (k + 1) := by
      rw [hb]; push_cast; split <;> omega
    have hs : Real.sqrt (gb k ^ 2) = gb k := Real.sqrt_sq (gb_pos k).le
    have ha : (realGen E).divI ((realGen E).add (ga k) (gb k)) 2 = ga (k + 1) := by
      change (ga k + gb k) / ((2 : ℤ) : ℝ) = _
      rw [ga_succ]; norm_num
    have hv : (realGen E).mul (ga (k + 1)) (ga (k + 1)) = ga (k + 1) ^ 2 := by
      change ga (k + 1) * ga (k + 1) = _
      ring
    have hb2 : (realGen E).mulI ((realGen E).sub (ga (k + 1) ^ 2) ((ga k ^ 2 + gb k ^ 2) / 4)) 2 = gb (k + 1) ^ 2 := by
      change (ga (k + 1) ^ 2 - (ga k ^ 2 + gb k ^ 2) / 4) * ((2 : ℤ) : ℝ) = _
      rw [gb_succ, ga_succ]; push_cast; ring
    rw [hs, ha, hv, hb2, hb']
    obtain ⟨z, hz⟩ : ∃ z, z = (gb (k + 1) ^ 2 - ga (k + 1) ^ 2) * (((2 : ℤ) ^ (k + 1) : ℤ) : ℝ) := ⟨_, rfl⟩
    have hz0 : (realGen E).mulI ((realGen E).sub (gb (k + 1) ^ 2) (ga (k + 1) ^ 2)) (2 ^ (k + 1)) = z := hz.symm
    have hz1 : (realGen E).add (gs k) z = gs (k + 1) := by
      change gs k + z = _
      rw [gs, hz]; push_cast; ring
    rw [hz0, hz1]
    have nn : 0 ≤ ga (k + 1) ^ 2 - gb (k + 1) ^ 2 := by
      rw [gc_eq]
      refine div_nonneg ?_ (by have := th0_pos; positivity)
      have := (c2_bounds (Q_pos (k + 1)).le (Q_le (k + 1))).1
      linarith [Q_pos (k + 1)]
    have hz2 : |z| = 2 ^ (k + 1) * (ga (k + 1) ^ 2 - gb (k + 1) ^ 2) := by
      have : z = -(2 ^ (k + 1) * (ga (k + 1) ^ 2 - gb (k + 1) ^ 2)) := by rw [hz]; push_cast; ring
      rw [this, abs_neg, abs_of_nonneg (by positivity)]
    obtain ⟨z0, o1, o2, o3⟩ := order_bounds (by omega) hk hz2
    obtain ⟨f1, f2, f3⟩ := frexp_order hE z0
    have d0 := hE.dig0
    have d1 := hE.dig1
    have fe : Gf.frexpExp (realGen E) isz z = (E.frexp z).2 := by
      unfold Gf.frexpExp
      rw [hi z z0]; rfl
    have fb : Int.bmod (Gf.frexpExp (realGen E) isz z) 4294967296 = (E.frexp z).2 := by
      rw [fe, Int.bmod_def]; split <;> omega
    have td : Int.tdiv (-(realGen E).digits10) 2 = -(E.digits10 / 2) := by
      change Int.tdiv (-E.digits10) 2 = _
      rw [Int.neg_tdiv, Int.tdiv_eq_ediv_of_nonneg d0]
    rw [fb, td]
    by_cases h : (E.frexp z).2 < -(E.digits10 / 2)
    · rw [if_pos h]
      refine ⟨k + 1, by omega, rfl, ?_⟩
      rw [← hz2]
      refine f3.trans (mul_le_mul_of_nonneg_left (zpow_le_zpow_right₀ (by norm_num) ?_) (by norm_num))
      omega
    · rw [if_neg h]
      have hk1 : k + 1 ≠ 30 := by
        intro h30
        have h2 : ordR z < -(E.digits10 / 2) - 1 := by
          rw [ordR_lt z0]
          refine (o3 h30).trans_lt (zpow_lt_zpow_right₀ (by norm_num) ?_)
          norm_num at d1; omega
        omega
      have e : (realGen E).divI ((realGen E).add (ga (k + 1) ^ 2) (gb (k + 1) ^ 2)) 4 = (ga (k + 1) ^ 2 + gb (k + 1) ^ 2) / 4 := by
        change (ga (k + 1) ^ 2 + gb (k + 1) ^ 2) / ((4 : ℤ) : ℝ) = _
        norm_num
      rw [e]
      exact ih (k + 1) (by omega) (by omega) (ga (k + 1) ^ 2)

/-- C99.  With exact arithmetic and an exact square root `pi<T>()` ends by its own test, its shifts and conversions to 32
bits do not overflow, and the result differs from the number pi by at most `123 * 10^(-2 [D/2])`. -/
theorem C99_pi_partial {E : GenEnv} (hE : E.Good) (hD : 6 ≤ E.digits10) {isz : ℝ → Bool} (hi : ∀ z, z ≠ 0 → isz z = false) :
    ∃ y, Gf.pi (realGen E) Real.sqrt isz = some y ∧ |y - Real.pi| ≤ 123 * (10 : ℝ) ^ (-(2 * (E.digits10 / 2))) := by
  obtain ⟨n, n1, hn, hw⟩ := gpiLoop_real hE hi 63 0 (by norm_num) (by norm_num) 0
  rw [ga_zero, gb_zero, show gs 0 = 1 / 2 from rfl, show ((1 : ℝ) ^ 2 + 1 / 2) / 4 = 3 / 8 by norm_num] at hn
  refine ⟨(ga n ^ 2 + gb n ^ 2) / gs n, ?_, ?_⟩
  · unfold Gf.pi
    have e1 : (realGen E).ofI 1 = (1 : ℝ) := by change ((1 : ℤ) : ℝ) = 1; norm_num
    have e2 : (realGen E).divI (1 : ℝ) 2 = 1 / 2 := by change (1 : ℝ) / ((2 : ℤ) : ℝ) = _; norm_num
    have e3 : (realGen E).divI ((realGen E).ofI 3) 8 = 3 / 8 := by change ((3 : ℤ) : ℝ) / ((8 : ℤ) : ℝ) = _; norm_num
    have e4 : (realGen E).ofI 0 = (0 : ℝ) := by change ((0 : ℤ) : ℝ) = 0; norm_num
    dsimp only
    rw [e1, e2, e3, e4]
    rw [hn]
    rfl
  · have hw1 : 101 / 100 * (10 : ℝ) ^ (-(E.digits10 / 2)) ≤ 1 / 100 := by
      have : (10 : ℝ) ^ (-(E.digits10 / 2)) ≤ (10 : ℝ) ^ (-3 : ℤ) := zpow_le_zpow_right₀ (by norm_num) (by omega)
      norm_num at this ⊢
      linarith
    refine (pi_error hw hw1).trans ?_
    have e2 : (10 : ℝ) ^ (-(2 * (E.digits10 / 2))) = ((10 : ℝ) ^ (-(E.digits10 / 2))) ^ 2 := by
      rw [← zpow_natCast, ← zpow_mul]; congr 1; push_cast; ring
    rw [e2]
    nlinarith [sq_nonneg ((10 : ℝ) ^ (-(E.digits10 / 2)))]

/-- A case: 200 digits. -/
example : ∃ E : GenEnv, E.Good ∧ ∃ y, Gf.pi (realGen E) Real.sqrt (fun _ => false) = some y ∧
    |y - Real.pi| ≤ 123 * (10 : ℝ) ^ (-200 : ℤ) := by
  obtain ⟨E, hE, hd⟩ := good_exists 200 (by norm_num) (by norm_num)
  obtain ⟨y, h1, h2⟩ := C99_pi_partial hE (by omega) (isz := fun _ => false) (fun _ _ => rfl)
  rw [hd] at h2
  exact ⟨E, hE, y, h1, h2⟩

end EFX.Props
