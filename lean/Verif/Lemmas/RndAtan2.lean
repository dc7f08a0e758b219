import Verif.Lemmas.RndAtan
import Verif.Props.Roots
import Mathlib.Analysis.SpecialFunctions.Trigonometric.ArctanDeriv
import Mathlib.Analysis.Calculus.Deriv.MeanValue
/-!
# The angle of a point and the arc sine of small numbers in rounded arithmetic
-/

namespace EFX
open Finset

variable {α : Type} {A : Arith α} {v : α → ℝ} {ok : α → Prop} {u : ℝ}

theorem arctan_lip (a b : ℝ) : |Real.arctan a - Real.arctan b| ≤ |a - b| := by
  have key : ∀ a b : ℝ, a ≤ b → |Real.arctan a - Real.arctan b| ≤ |a - b| := by
    intro a b h
    have h1 := image_sub_le_mul_sub_of_deriv_le (f := Real.arctan) Real.differentiable_arctan (C := 1) (fun x => by
      rw [Real.deriv_arctan, div_le_one (by positivity)]
      have := sq_nonneg x
      linarith) h
    have h2 := Real.arctan_le_arctan_iff.2 h
    rw [abs_sub_comm, abs_of_nonneg (by linarith), abs_sub_comm a b, abs_of_nonneg (by linarith)]
    linarith
  rcases le_total a b with h | h
  · exact key a b h
  · rw [abs_sub_comm, abs_sub_comm a b]; exact key b a h

/-- The arc tangent of a number with a relative error. -/
theorem arctan_near {e a b : ℝ} (e0 : 0 ≤ e) (e1 : e ≤ 1 / 2) (h : NearR e a b) : |Real.arctan a - Real.arctan b| ≤ 2 * e := by
  by_cases hb : |b| ≤ 1
  · refine le_trans (arctan_lip a b) (le_trans h ?_)
    have := mul_le_mul_of_nonneg_left hb e0
    linarith
  have b1 := not_le.1 hb
  have b0 : b ≠ 0 := abs_pos.1 (by linarith)
  have hi := h.inv e0 e1 b0
  have l := arctan_lip a⁻¹ b⁻¹
  have l2 : |a⁻¹ - b⁻¹| ≤ 2 * e := by
    refine le_trans hi ?_
    rw [abs_inv]
    have : |b|⁻¹ ≤ 1 := inv_le_one_of_one_le₀ b1.le
    have := mul_le_mul_of_nonneg_left this (show 0 ≤ 2 * e by linarith)
    linarith
  unfold NearR at h
  have hab : |a - b| ≤ 1 / 2 * |b| := le_trans h (mul_le_mul_of_nonneg_right e1 (abs_nonneg _))
  rcases lt_or_gt_of_ne b0 with hb0 | hb0
  · have a0 : a < 0 := by
      rw [abs_of_neg hb0] at hab
      have := (abs_le.1 hab).2
      linarith
    rw [Real.arctan_inv_of_neg a0, Real.arctan_inv_of_neg hb0] at l
    rw [show -(Real.pi / 2) - Real.arctan a - (-(Real.pi / 2) - Real.arctan b) = -(Real.arctan a - Real.arctan b) by ring, abs_neg] at l
    linarith
  · have a0 : 0 < a := by
      rw [abs_of_pos hb0] at hab
      have := (abs_le.1 hab).1
      linarith
    rw [Real.arctan_inv_of_pos a0, Real.arctan_inv_of_pos hb0] at l
    rw [show Real.pi / 2 - Real.arctan a - (Real.pi / 2 - Real.arctan b) = -(Real.arctan a - Real.arctan b) by ring, abs_neg] at l
    linarith

theorem arcsin_ratio {y : ℝ} (h0 : y ≠ 0) (h1 : |y| ≤ 2 / 100) : |Real.arcsin y / y - 1| ≤ 1 / 1000 := by
  have h3 : |y * y| ≤ 4 / 10000 := by
    rw [abs_mul]
    have := mul_le_mul h1 h1 (abs_nonneg _) (by norm_num)
    linarith
  have hr : ∀ n, |t2f1 (1 / 2) (1 / 2) (3 / 2) (y * y) (n + 1)| ≤ |t2f1 (1 / 2) (1 / 2) (3 / 2) (y * y) n| * |y * y| :=
    t2f1_ratio (by norm_num) (by norm_num) (by norm_num) (by norm_num) (by norm_num)
  have := tail_le (hasSum_asin2 h0 (by linarith)) (m := 1) (fun i _ => by
    have h5 := mul_le_mul_of_nonneg_left (show |y * y| ≤ 1 / 2 by linarith) (abs_nonneg (t2f1 (1 / 2) (1 / 2) (3 / 2) (y * y) i))
    have := hr i
    linarith)
  rw [psum_succ, t2f1_zero] at this
  simp only [psum, Finset.range_zero, Finset.sum_empty, zero_add] at this
  rw [t2f1_one, abs_mul, abs_of_pos (by norm_num : (0 : ℝ) < 1 / 2 * (1 / 2) / (3 / 2))] at this
  linarith

namespace Rnd

/-- The arc sine of small numbers that are not negative. -/
theorem asinSmall_acc (R : Rnd A v ok u) {x : α} (hx : ok x) (hs : v x = 0 ∨ pw (-10000000) ≤ v x) (hl : v x < pw (-Fn.argLim A)) :
    ok (Fn.asin A x) ∧ |v (Fn.asin A x) - Real.arcsin (v x)| ≤ u / 40 * v x := by
  have u0 := R.u0
  have u1 := R.u1
  obtain ⟨lo, up⟩ := R.argLim_le
  have nn : 0 ≤ v x := by
    rcases hs with h | h
    · exact h.ge
    · exact le_trans (pw_pos _).le h
  have hb : A.isneg x = false := by
    by_contra hc
    have := (R.isneg x hx).1 (by simpa using hc)
    linarith
  have l6 : v x ≤ 1 / 10 ^ 6 := by
    have := pw_mono (show -Fn.argLim A ≤ -((6 : ℕ) : ℤ) by push_cast; omega)
    rw [pw_neg ((6 : ℕ) : ℤ), pw_nat, ← one_div] at this
    linarith
  have hlt : A.lt (Fn.one A) x = false := by
    by_contra hc
    have := (R.lt _ _ R.one.1 hx).1 (by simpa using hc)
    rw [R.one.2] at this
    norm_num at l6
    linarith
  unfold Fn.asin
  rw [R.isfinite_ok hx]
  simp only [Bool.not_true, Bool.false_eq_true, if_false, hb, Bool.not_false, if_true, hlt]
  by_cases xz : v x = 0
  · rw [if_pos ((R.iszero x hx).2 xz), R.zero.2, xz, Real.arcsin_zero, sub_self, abs_zero, mul_zero]
    exact ⟨R.zero.1, le_refl _⟩
  rw [if_neg (fun h => xz ((R.iszero x hx).1 h))]
  have hone : A.isone x = false := by
    by_contra hc
    have := (abs_le.1 (R.isone _ hx (by simpa using hc))).1
    norm_num at this l6
    linarith
  have hsm : Fn.smallArg A x = true := by
    unfold Fn.smallArg
    rw [decide_eq_true_eq]
    have h1 := (R.order x hx xz).1
    rw [abs_of_nonneg nn] at h1
    exact pw_lt (lt_of_le_of_lt h1 hl)
  simp only [hone, hsm, Bool.false_eq_true, if_false, if_true]
  have xp : 0 < v x := lt_of_le_of_ne nn (Ne.symm xz)
  have hxs := hs.resolve_left xz
  have xs : Sz 10000000 (v x) := by
    refine ⟨by rw [abs_of_pos xp]; exact hxs, ?_⟩
    rw [abs_of_pos xp]
    refine le_trans (show v x ≤ pw 0 by rw [pw_zero]; norm_num at l6; linarith) (pw_mono (by norm_num))
  have x1 : |v x| ≤ 2 / 100 := by rw [abs_of_pos xp]; norm_num at l6; linarith
  have s2 := xs.mul xs
  obtain ⟨o1, e1, -⟩ := R.mul x x hx hx (s2.mono (by norm_num))
  obtain ⟨o3, n3⟩ := R.threeHalf
  have nx : NearR (3 * u) (v (A.mul x x)) (v x * v x) := by
    have h1 : NearR (u / 10 ^ 4) (v (A.mul x x)) (v x * v x) := e1
    exact h1.mono (by linarith)
  have bX : |v x * v x| ≤ 1 / 1000 := by
    rw [abs_mul]
    have := mul_le_mul x1 x1 (abs_nonneg _) (by norm_num)
    linarith
  have hr := arcsin_ratio xz x1
  obtain ⟨oh, eh⟩ := R.hyp2f1_acc (a := A.half) (b := A.half) (c := Fn.threeHalf A) o1 R.half.1 R.half.1 o3 nx (s2.mono (by norm_num)) bX
    (a0 := 1 / 2) (b0 := 1 / 2) (c0 := 3 / 2)
    (by norm_num) (by norm_num) (by norm_num) (by norm_num) (by norm_num) (by norm_num)
    (by rw [R.half.2]; exact NearR.rfl' (by positivity)) (by rw [R.half.2]; exact NearR.rfl' (by positivity)) n3
    (hasSum_asin2 xz (by linarith)) (by linarith)
  generalize Fn.hyp2f1 A A.half A.half (Fn.threeHalf A) (A.mul x x) = h at *
  have hl := abs_le.1 hr
  have hh := abs_le.1 eh
  norm_num at u1
  have sh : Sz 1 (v h) := by
    unfold Sz
    rw [pw_neg, pw_one, abs_of_pos (by linarith)]
    norm_num
    constructor <;> linarith
  obtain ⟨om, em, -⟩ := R.mul x h hx oh ((xs.mul sh).mono (by norm_num))
  refine ⟨om, ?_⟩
  have ea : Real.arcsin (v x) = v x * (Real.arcsin (v x) / v x) := by field_simp
  generalize Real.arcsin (v x) / v x = L at *
  rw [ea, show v (A.mul x h) - v x * L = (v (A.mul x h) - v x * v h) + v x * (v h - L) by ring]
  have t1 := abs_add_le (v (A.mul x h) - v x * v h) (v x * (v h - L))
  rw [abs_mul (v x) (v h - L), abs_of_pos xp] at t1
  rw [abs_mul, abs_of_pos xp] at em
  have t2 := mul_le_mul_of_nonneg_left eh nn
  have t3 : u / 10 ^ 4 * (v x * |v h|) ≤ u / 10 ^ 4 * (v x * 2) := by
    apply mul_le_mul_of_nonneg_left _ (by positivity)
    apply mul_le_mul_of_nonneg_left _ nn
    rw [abs_of_pos (by linarith)]; linarith
  have t4 : 0 ≤ u * v x := by positivity
  have e4 : u / 10 ^ 4 * (v x * 2) = u * v x * (2 / 10 ^ 4) := by ring
  have e5 : v x * (u / 50) = u * v x / 50 := by ring
  have e6 : u / 40 * v x = u * v x / 40 := by ring
  rw [e4] at t3
  rw [e5] at t2
  rw [e6]
  have t5 : u * v x * (2 / 10 ^ 4) ≤ u * v x / 1000 := by linarith
  linarith

/-- The angle of a point off the axes. -/
theorem atan2_acc (R : Rnd A v ok u) (P : PiEnv A v ok u) {x y : α} (hx : ok x) (hy : ok y) (xs : Sz 1000000 (v x)) (ys : Sz 1000000 (v y))
    (hd : 0 < v y ∨ |v y| ≠ |v x|)
    (hn : 0 ≤ v x * v y ∨ |v y| ≤ pw (Fn.argLim A) * |v x| ∨ pw (A.tol + 2) * |v x| ≤ |v y|)
    (h0 : pw (-Fn.argLim A) ≤ |v (A.div y x)| → |v (A.div y x)| < 100 → AtanStart A v ok (Fn.fabs A (A.div y x))) :
    ok (Fn.atan2 A y x) ∧ |v (Fn.atan2 A y x) - Complex.arg ⟨v x, v y⟩| ≤ 80000000 * u := by
  have u0 := R.u0
  have u1 := R.u1
  have x0 := xs.ne
  have y0 := ys.ne
  obtain ⟨oq, eq⟩ := R.div y x hy hx hd (ys.mono (by norm_num)) (xs.mono (by norm_num))
  have nq : NearR u (v (A.div y x)) (v y / v x) := eq
  have uh : u ≤ 1 / 2 := by norm_num at u1; linarith
  have sq := nq.sz uh (ys.div xs)
  have qn : v y / v x ≠ 0 := div_ne_zero y0 x0
  have ap := abs_pos.2 x0
  have eqa : |v y / v x| = |v y| / |v x| := abs_div _ _
  have hq1 : |v (A.div y x)| ≤ 2 * |v y / v x| := by
    have := abs_sub_abs_le_abs_sub (v (A.div y x)) (v y / v x)
    have h2 : u * |v y / v x| ≤ 1 * |v y / v x| := mul_le_mul_of_nonneg_right (by linarith) (abs_nonneg _)
    linarith
  have hq2 : 1 / 2 * |v y / v x| ≤ |v (A.div y x)| := by
    have := abs_sub_abs_le_abs_sub (v y / v x) (v (A.div y x))
    rw [abs_sub_comm] at this
    have h2 : u * |v y / v x| ≤ 1 / 2 * |v y / v x| := mul_le_mul_of_nonneg_right uh (abs_nonneg _)
    linarith
  obtain ⟨ot, et, -⟩ := R.atan_acc P oq (Or.inr (sq.mono (by norm_num)).1) (by
    rcases hn with h | h | h
    · left
      have : 0 ≤ v y / v x := by
        rcases lt_or_gt_of_ne x0 with h1 | h1
        · exact div_nonneg_of_nonpos (by by_contra hc; have := mul_neg_of_neg_of_pos h1 (not_le.1 hc); linarith) h1.le
        · exact div_nonneg (by by_contra hc; have := mul_neg_of_pos_of_neg h1 (not_le.1 hc); linarith) h1.le
      have h2 := (abs_le.1 eq).1
      rw [abs_of_nonneg this] at h2
      have : u * (v y / v x) ≤ 1 * (v y / v x) := mul_le_mul_of_nonneg_right (by linarith) this
      linarith
    · right; left
      have h1 : |v y / v x| ≤ pw (Fn.argLim A) := by rw [eqa, div_le_iff₀ ap]; exact h
      rw [pw_add, pw_one]
      have := pw_pos (Fn.argLim A)
      linarith
    · right; right
      have h1 : pw (A.tol + 2) ≤ |v y / v x| := by rw [eqa, le_div_iff₀ ap]; exact h
      rw [show A.tol + 2 = A.tol + 1 + 1 by ring, pw_add, pw_one] at h1
      have := pw_pos (A.tol + 1)
      linarith) h0
  have ea := arctan_near u0.le uh nq
  have e1 : |v (Fn.atan A (A.div y x)) - Real.arctan (v y / v x)| ≤ 70000002 * u := by
    have := abs_sub_le (v (Fn.atan A (A.div y x))) (Real.arctan (v (A.div y x))) (Real.arctan (v y / v x))
    linarith
  have tb : |v (Fn.atan A (A.div y x))| ≤ 2 := by
    have h1 := abs_sub_abs_le_abs_sub (v (Fn.atan A (A.div y x))) (Real.arctan (v y / v x))
    have h2 : |Real.arctan (v y / v x)| ≤ Real.pi / 2 := abs_le.2 ⟨(Real.neg_pi_div_two_lt_arctan _).le, (Real.arctan_lt_pi_div_two _).le⟩
    have := Real.pi_lt_d2
    norm_num at u1
    linarith
  obtain ⟨op, ep⟩ := P.pi
  have pb : |v A.pi| ≤ 4 := by
    have h1 := abs_sub_abs_le_abs_sub (v A.pi) Real.pi
    rw [abs_of_pos Real.pi_pos] at h1
    have := Real.pi_lt_d2
    norm_num at u1
    linarith
  have big : (4 : ℝ) ≤ pw 2000000000 := by
    refine le_trans (show (4 : ℝ) ≤ pw 1 by rw [pw_one]; norm_num) (pw_mono (by norm_num))
  rw [Props.arg_eq_arctan x0]
  unfold Fn.atan2
  rw [R.isfinite_ok hx, R.isfinite_ok hy]
  simp only [Bool.not_true, Bool.or_self, Bool.false_eq_true, if_false]
  rw [if_neg (fun h => y0 ((R.iszero y hy).1 h)), if_neg (fun h => x0 ((R.iszero x hx).1 h))]
  generalize Fn.atan A (A.div y x) = t at *
  have bneg : ∀ {z : α}, ok z → v z < 0 → A.isneg z = true := fun h1 h2 => (R.isneg _ h1).2 h2
  have bpos : ∀ {z : α}, ok z → 0 < v z → A.isneg z = false := by
    intro z h1 h2
    by_contra hc
    have := (R.isneg z h1).1 (by simpa using hc)
    linarith
  have bb : u / 10 ^ 12 * (|v t| + |v A.pi|) ≤ u / 10 ^ 12 * 6 := mul_le_mul_of_nonneg_left (by linarith) (by positivity)
  rcases lt_or_gt_of_ne x0 with h1 | h1 <;> rcases lt_or_gt_of_ne y0 with h2 | h2
  · rw [bneg hx h1, bneg hy h2, if_neg (show ¬0 < v x by linarith), if_neg (show ¬0 ≤ v y by linarith)]
    simp only [if_true]
    obtain ⟨o, e, -⟩ := R.sub t A.pi ot op (by linarith) (by linarith)
    refine ⟨o, ?_⟩
    rw [show v (A.sub t A.pi) - (Real.arctan (v y / v x) - Real.pi) = (v (A.sub t A.pi) - (v t - v A.pi)) + (v t - Real.arctan (v y / v x)) -
      (v A.pi - Real.pi) by ring]
    have t1 := abs_sub ((v (A.sub t A.pi) - (v t - v A.pi)) + (v t - Real.arctan (v y / v x))) (v A.pi - Real.pi)
    have t2 := abs_add_le (v (A.sub t A.pi) - (v t - v A.pi)) (v t - Real.arctan (v y / v x))
    linarith
  · rw [bneg hx h1, bpos hy h2, if_neg (show ¬0 < v x by linarith), if_pos h2.le]
    simp only [Bool.false_eq_true, if_false, if_true]
    obtain ⟨o, e⟩ := R.add t A.pi ot op (by linarith) (by linarith)
    refine ⟨o, ?_⟩
    rw [show v (A.add t A.pi) - (Real.arctan (v y / v x) + Real.pi) = (v (A.add t A.pi) - (v t + v A.pi)) + (v t - Real.arctan (v y / v x)) +
      (v A.pi - Real.pi) by ring]
    have t1 := abs_add_le ((v (A.add t A.pi) - (v t + v A.pi)) + (v t - Real.arctan (v y / v x))) (v A.pi - Real.pi)
    have t2 := abs_add_le (v (A.add t A.pi) - (v t + v A.pi)) (v t - Real.arctan (v y / v x))
    linarith
  · rw [bpos hx h1, bneg hy h2, if_pos h1]
    simp only [Bool.true_eq_false, Bool.false_eq_true, if_false]
    exact ⟨ot, by linarith⟩
  · rw [bpos hx h1, bpos hy h2, if_pos h1]
    simp only [Bool.false_eq_true, if_false, if_true]
    exact ⟨ot, by linarith⟩

end Rnd
end EFX
