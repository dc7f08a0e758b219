import Verif.Lemmas.Value
/-! Helper lemmas for `cmp`. -/

namespace EFX
open Spec

/-- Sign of a rational as the comparison functions report it. -/
def signQ (q : ℚ) : Int := if q < 0 then -1 else if q = 0 then 0 else 1

theorem mag_lt_of_exp_lt {c : Cfg} {x y : EFloat} (hx : WF c x) (hy : WF c y)
    (hzy : y.data.headD 0 ≠ 0) (h : x.exp < y.exp) : mag x < mag y := by
  have h8 : x.exp + 8 ≤ y.exp := by
    have h1 := hx.exp8
    have h2 := hy.exp8
    omega
  exact lt_of_lt_of_le (mag_lt hx) (le_trans (p10_mono h8) (mag_ge hy hzy))

theorem cmp_finite {c : Cfg} {x y : EFloat} (hx : FinWF c x) (hy : FinWF c y) :
    cmp x y = signQ (val x - val y) := by
  have fx : x.isfinite = true := by simp [EFloat.isfinite, hx.fin]
  have fy : y.isfinite = true := by simp [EFloat.isfinite, hy.fin]
  unfold cmp
  simp only [fx, fy, Bool.not_true, Bool.or_false, Bool.false_eq_true, if_false]
  by_cases zx : x.iszero = true
  · have vx : val x = 0 := by
      have := mag_zero_of_iszero hx ((iszero_iff hx.fin).1 zx); unfold val; rw [this]; simp
    rw [if_pos zx, vx]
    by_cases zy : y.iszero = true
    · have vy : val y = 0 := by
        have := mag_zero_of_iszero hy ((iszero_iff hy.fin).1 zy); unfold val; rw [this]; simp
      rw [if_pos zy, vy]; simp [signQ]
    · rw [if_neg zy]
      have my := mag_pos hy.toWF (fun h => zy ((iszero_iff hy.fin).2 h))
      unfold val signQ
      cases y.neg
      · simp; exact fun h => absurd my (not_lt.2 h)
      · simp [not_lt.2 my.le, my.ne']
  · rw [if_neg zx]
    have mx := mag_pos hx.toWF (fun h => zx ((iszero_iff hx.fin).2 h))
    by_cases zy : y.iszero = true
    · have vy : val y = 0 := by
        have := mag_zero_of_iszero hy ((iszero_iff hy.fin).1 zy); unfold val; rw [this]; simp
      rw [if_pos zy, vy]
      unfold val signQ
      cases x.neg
      · simp [not_lt.2 mx.le, mx.ne']
      · simp; exact fun h => absurd mx (not_lt.2 h)
    · rw [if_neg zy]
      have hzx : x.data.headD 0 ≠ 0 := fun h => zx ((iszero_iff hx.fin).2 h)
      have hzy : y.data.headD 0 ≠ 0 := fun h => zy ((iszero_iff hy.fin).2 h)
      have my := mag_pos hy.toWF hzy
      by_cases hs : x.neg = y.neg
      · rw [if_neg (by simpa using hs)]
        by_cases he : x.exp = y.exp
        · rw [if_neg (by simpa using he)]
          have hd := cmpData_spec (by rw [hx.len, hy.len]) hx.ok hy.ok
          have hu : ulp c x = ulp c y := by unfold ulp; rw [he]
          have key : mag x - mag y = ((lv x.data : ℚ) - lv y.data) * ulp c y := by
            rw [mag_eq hx.toWF, mag_eq hy.toWF, hu]; ring
          have hp := ulp_pos c y
          have hlt : lv x.data < lv y.data ↔ mag x < mag y := by
            rw [mag_eq hx.toWF, mag_eq hy.toWF, hu, mul_lt_mul_iff_left₀ hp]; norm_cast
          have heq : lv x.data = lv y.data ↔ mag x = mag y := by
            rw [mag_eq hx.toWF, mag_eq hy.toWF, hu, mul_left_inj' hp.ne']; norm_cast
          rw [hd]
          unfold val signQ
          rw [hs]
          cases y.neg
          · simp only [Bool.not_false, if_true, Bool.false_eq_true, if_false, sub_neg, sub_eq_zero,
              hlt, heq]
          · simp only [Bool.not_true, Bool.false_eq_true, if_false, if_true, hlt, heq]
            rcases lt_trichotomy (mag x) (mag y) with h | h | h
            · rw [if_pos h, if_neg (by linarith), if_neg (by linarith)]; rfl
            · simp [h]
            · rw [if_neg (by linarith), if_neg (by linarith), if_pos (by linarith)]
        · rw [if_pos he]
          rcases lt_or_gt_of_ne he with h | h
          · have hm := mag_lt_of_exp_lt hx.toWF hy.toWF hzy h
            unfold val signQ
            rw [hs]
            cases y.neg
            · simp [h, hm]
            · simp only [h, if_true]
              rw [if_neg (by linarith), if_neg (by linarith)]
          · have hm := mag_lt_of_exp_lt hy.toWF hx.toWF hzx h
            have h' : ¬ x.exp < y.exp := by omega
            unfold val signQ
            rw [hs]
            cases y.neg
            · simp only [h', if_false, Bool.false_eq_true]
              rw [if_neg (by linarith), if_neg (by linarith)]; rfl
            · simp only [h', if_true, if_false]
              rw [if_pos (by linarith)]
      · rw [if_pos hs]
        unfold val signQ
        cases hxn : x.neg <;> cases hyn : y.neg
        · rw [hxn, hyn] at hs; exact absurd rfl hs
        · simp only [Bool.false_eq_true, if_false, if_true]
          rw [if_neg (by linarith), if_neg (by linarith)]
        · simp only [Bool.false_eq_true, if_false, if_true]
          rw [if_pos (by linarith)]
        · rw [hxn, hyn] at hs; exact absurd rfl hs

theorem signQ_neg_iff (q : ℚ) : signQ q < 0 ↔ q < 0 := by
  unfold signQ; split
  · simp [*]
  · split <;> simp_all
theorem signQ_pos_iff (q : ℚ) : signQ q > 0 ↔ q > 0 := by
  unfold signQ
  rcases lt_trichotomy q 0 with h | h | h
  · simp [h, h.le]
  · simp [h]
  · simp [not_lt.2 h.le, h.ne', h]
theorem signQ_zero_iff (q : ℚ) : signQ q = 0 ↔ q = 0 := by
  unfold signQ
  rcases lt_trichotomy q 0 with h | h | h
  · simp [h, h.ne]
  · simp [h]
  · simp [not_lt.2 h.le, h.ne']

end EFX
