import Verif.Lemmas.RndTrig2
/-!
# Sine and cosine in rounded arithmetic: all arguments
-/

namespace EFX
open Finset

variable {α : Type} {A : Arith α} {v : α → ℝ} {ok : α → Prop} {u : ℝ}

theorem sin_lip (a b : ℝ) : |Real.sin a - Real.sin b| ≤ |a - b| := by
  rw [Real.sin_sub_sin, abs_mul, abs_mul, abs_of_pos (by norm_num : (0 : ℝ) < 2)]
  have h1 := Real.abs_sin_le_abs (x := (a - b) / 2)
  rw [abs_div, abs_of_pos (by norm_num : (0 : ℝ) < 2)] at h1
  have h2 := Real.abs_cos_le_one ((a + b) / 2)
  have := mul_le_mul h1 h2 (abs_nonneg _) (by positivity)
  linarith

theorem cos_lip (a b : ℝ) : |Real.cos a - Real.cos b| ≤ |a - b| := by
  have := sin_lip (Real.pi / 2 - a) (Real.pi / 2 - b)
  rw [Real.sin_pi_div_two_sub, Real.sin_pi_div_two_sub, show Real.pi / 2 - a - (Real.pi / 2 - b) = -(a - b) by ring, abs_neg] at this
  exact this

theorem flag_sign {b : Bool} {n : ℕ} (h : b = true ↔ Odd n) : (-1 : ℝ) ^ n = if b = true then -1 else 1 := by
  cases b with
  | true => rw [(h.1 rfl).neg_one_pow, if_pos rfl]
  | false =>
    have : Even n := by
      rw [← Nat.not_odd_iff_even]; intro g; exact absurd (h.2 g) (by simp)
    rw [this.neg_one_pow, if_neg (by simp)]

theorem sign_sub {σ w S : ℝ} (hσ : |σ| = 1) (n : ℕ) : |σ * (-1) ^ n * w - σ * S| ≤ |w - (-1) ^ n * S| := by
  have h : ((-1 : ℝ) ^ n) * (-1) ^ n = 1 := by rw [← mul_pow]; norm_num
  rw [show σ * (-1) ^ n * w - σ * S = σ * (-1) ^ n * (w - (-1) ^ n * S) + σ * S * ((-1) ^ n * (-1) ^ n - 1) by ring, h, sub_self,
    mul_zero, add_zero, abs_mul, abs_mul, hσ, abs_pow, abs_neg, abs_one, one_pow, one_mul, one_mul]

namespace Rnd

/-- The stored pi is near pi. -/
structure PiEnv (A : Arith α) (v : α → ℝ) (ok : α → Prop) (u : ℝ) : Prop where
  pi : ok A.pi ∧ |v A.pi - Real.pi| ≤ u / 10 ^ 4

theorem piHalf_acc (R : Rnd A v ok u) (P : PiEnv A v ok u) : ok (Fn.piHalf A) ∧ |v (Fn.piHalf A) - Real.pi / 2| ≤ 8 / 5 * u := by
  obtain ⟨o, e⟩ := P.pi
  have u0 := R.u0
  have u1 := R.u1
  have p1 := Real.pi_gt_d2
  have p2 := Real.pi_lt_d2
  obtain ⟨l, r⟩ := abs_le.1 e
  obtain ⟨o1, e1⟩ := R.divI A.pi 2 o (by norm_num) (by norm_num)
  push_cast at e1
  refine ⟨o1, ?_⟩
  have h1 := abs_sub_le (v (A.divI A.pi 2)) (v A.pi / 2) (Real.pi / 2)
  rw [abs_of_pos (show 0 < v A.pi / 2 by linarith)] at e1
  have h2 : |v A.pi / 2 - Real.pi / 2| = |v A.pi - Real.pi| / 2 := by
    rw [div_sub_div_same, abs_div, abs_of_pos (by norm_num : (0 : ℝ) < 2)]
  have h3 : u * (v A.pi / 2) ≤ u * (1576 / 1000) := mul_le_mul_of_nonneg_left (by linarith) u0.le
  change |v (A.divI A.pi 2) - _| ≤ _
  linarith

theorem order_lt (R : Rnd A v ok u) {x : α} (hx : ok x) (x0 : v x ≠ 0) {k : ℕ} (h : A.order x < -(k : ℤ)) : |v x| ≤ 1 / 10 ^ k := by
  have := (R.order x hx x0).2
  have h2 : pw (A.order x + 1) ≤ pw (-(k : ℤ)) := pw_mono (by omega)
  rw [pw_neg, pw_nat, ← one_div] at h2
  linarith

theorem order_ge (R : Rnd A v ok u) {x : α} (hx : ok x) (x0 : v x ≠ 0) {k : ℕ} (h : -(k : ℤ) ≤ A.order x) : 1 / 10 ^ k ≤ |v x| := by
  have := (R.order x hx x0).1
  have h2 : pw (-(k : ℤ)) ≤ pw (A.order x) := pw_mono h
  rw [pw_neg, pw_nat, ← one_div] at h2
  linarith

theorem smallArg_le (R : Rnd A v ok u) {x : α} (hx : ok x) (x0 : v x ≠ 0) (h : Fn.smallArg A x = true) : |v x| ≤ 1 / 10 ^ 6 := by
  unfold Fn.smallArg at h
  rw [decide_eq_true_eq] at h
  apply R.order_lt hx x0 (k := 6)
  have := le_max_right (A.tol / 10) 6
  unfold Fn.argLim at h
  push_cast
  omega

/-- What is known about a reduced argument. -/
structure Red (v : α → ℝ) (ok : α → Prop) (r : α) : Prop where
  ok : ok r
  sz : v r = 0 ∨ Sz 19000000 (v r)
  lo : -(1 / 10 ^ 10) ≤ v r
  hi : v r ≤ Real.pi / 2 + 1 / 10 ^ 10

/-- The difference `pi/2 - r`. -/
theorem delta_acc (R : Rnd A v ok u) (P : PiEnv A v ok u) {r : α} (hr : Red v ok r) (hne : v r ≠ v (Fn.piHalf A)) :
    ok (A.sub (Fn.piHalf A) r) ∧ |v (A.sub (Fn.piHalf A) r) - (Real.pi / 2 - v r)| ≤ 17 / 10 * u ∧
      v (A.sub (Fn.piHalf A) r) ≠ 0 ∧ Sz 19000000 (v (A.sub (Fn.piHalf A) r)) := by
  have u0 := R.u0
  have u1 := R.u1
  have p1 := Real.pi_gt_d2
  have p2 := Real.pi_lt_d2
  obtain ⟨o, e⟩ := R.piHalf_acc P
  obtain ⟨l, h⟩ := abs_le.1 e
  have q0 : 0 < v (Fn.piHalf A) := by linarith
  have big : (100 : ℝ) ≤ pw 2000000000 := by
    refine le_trans (show (100 : ℝ) ≤ pw ((2 : ℕ) : ℤ) by rw [pw_nat]; norm_num) (pw_mono (by norm_num))
  have ra : |v r| ≤ 2 := by
    have := hr.lo
    have := hr.hi
    rw [abs_le]; constructor <;> linarith
  have qa : |v (Fn.piHalf A)| ≤ 2 := by rw [abs_of_pos q0]; linarith
  obtain ⟨o1, e1, -, e2⟩ := R.sub (Fn.piHalf A) r o hr.ok (by linarith) (by linarith)
  have e3 := e2 q0.ne' (Ne.symm hne)
  have e4 : |v (A.sub (Fn.piHalf A) r) - (Real.pi / 2 - v r)| ≤ 17 / 10 * u := by
    have h1 := abs_sub_le (v (A.sub (Fn.piHalf A) r)) (v (Fn.piHalf A) - v r) (Real.pi / 2 - v r)
    rw [show v (Fn.piHalf A) - v r - (Real.pi / 2 - v r) = v (Fn.piHalf A) - Real.pi / 2 by ring] at h1
    have h2 : u / 10 ^ 12 * (|v (Fn.piHalf A)| + |v r|) ≤ u / 10 ^ 12 * 4 := mul_le_mul_of_nonneg_left (by linarith) (by positivity)
    linarith
  have h3 : pw (-5200) ≤ |v (A.sub (Fn.piHalf A) r)| := by
    have := mul_le_mul_of_nonneg_left (show 1 ≤ |v (Fn.piHalf A)| by rw [abs_of_pos q0]; linarith) (pw_pos (-5200)).le
    linarith
  refine ⟨o1, e4, ?_, le_trans (pw_mono (by norm_num)) h3, ?_⟩
  · intro hc
    rw [hc, abs_zero] at h3
    exact absurd h3 (not_le.2 (pw_pos _))
  · have big2 : (100 : ℝ) ≤ pw 19000000 := by
      refine le_trans (show (100 : ℝ) ≤ pw ((2 : ℕ) : ℤ) by rw [pw_nat]; norm_num) (pw_mono (by norm_num))
    refine le_trans ?_ big2
    have h4 := abs_sub_abs_le_abs_sub (v (A.sub (Fn.piHalf A) r)) (Real.pi / 2 - v r)
    have h5 : |Real.pi / 2 - v r| ≤ 4 := by
      have := hr.lo
      have := hr.hi
      rw [abs_le]; constructor <;> linarith
    linarith

theorem iszero_half (R : Rnd A v ok u) (P : PiEnv A v ok u) {r : α} (hr : Red v ok r) (r0 : v r ≠ 0) :
    A.iszero (A.sub r (Fn.piHalf A)) = true ↔ v r = v (Fn.piHalf A) := by
  have u0 := R.u0
  have u1 := R.u1
  have p1 := Real.pi_gt_d2
  have p2 := Real.pi_lt_d2
  obtain ⟨o, e⟩ := R.piHalf_acc P
  obtain ⟨l, h⟩ := abs_le.1 e
  have big : (100 : ℝ) ≤ pw 2000000000 := by
    refine le_trans (show (100 : ℝ) ≤ pw ((2 : ℕ) : ℤ) by rw [pw_nat]; norm_num) (pw_mono (by norm_num))
  have ra : |v r| ≤ 2 := by
    have := hr.lo
    have := hr.hi
    rw [abs_le]; constructor <;> linarith
  have qa : |v (Fn.piHalf A)| ≤ 2 := by rw [abs_le]; constructor <;> linarith
  obtain ⟨o1, -, e1, e2⟩ := R.sub r (Fn.piHalf A) hr.ok o (by linarith) (by linarith)
  rw [R.iszero _ o1]
  refine ⟨fun hz => ?_, e1⟩
  by_contra hc
  have := e2 r0 hc
  rw [hz, abs_zero] at this
  have := mul_pos (pw_pos (-5200)) (abs_pos.2 r0)
  linarith

/-- The scaled argument. -/
theorem scaled (R : Rnd A v ok u) {r : α} (hr : Red v ok r) (h : 1 / 10 ^ 3 ≤ v r) :
    ok (A.divI r Fn.threePow9) ∧ |v (A.divI r Fn.threePow9) - v r / 19683| ≤ u * (v r / 19683) ∧
      |v (A.divI r Fn.threePow9)| ≤ 1 / 10 ^ 4 ∧ Sz 19000000 (v (A.divI r Fn.threePow9)) := by
  have u0 := R.u0
  have u1 := R.u1
  have p2 := Real.pi_lt_d2
  have := hr.hi
  obtain ⟨o, e⟩ := R.divI r Fn.threePow9 hr.ok (by unfold Fn.threePow9; norm_num) (by unfold Fn.threePow9; norm_num)
  rw [show ((Fn.threePow9 : ℤ) : ℝ) = 19683 by norm_num [Fn.threePow9]] at e
  have r0 : 0 < v r := lt_of_lt_of_le (by norm_num) h
  rw [abs_of_pos (show 0 < v r / 19683 by positivity)] at e
  have h2 : u * (v r / 19683) ≤ 1 / 10 ^ 30 * (v r / 19683) := mul_le_mul_of_nonneg_right u1 (by positivity)
  obtain ⟨l, l'⟩ := abs_le.1 e
  have hp : 0 < v (A.divI r Fn.threePow9) := by linarith
  refine ⟨o, e, ?_, ?_, ?_⟩
  · rw [abs_of_pos hp]; linarith
  · rw [abs_of_pos hp]
    refine le_trans (pw_mono (show (-19000000 : ℤ) ≤ -((10 : ℕ) : ℤ) by norm_num)) ?_
    rw [pw_neg, pw_nat, ← one_div]
    linarith
  · rw [abs_of_pos hp]
    refine le_trans ?_ (pw_mono (show (0 : ℤ) ≤ 19000000 by norm_num))
    rw [pw_zero]; linarith

theorem sinCore_acc (R : Rnd A v ok u) (P : PiEnv A v ok u) {r : α} (hr : Red v ok r) :
    ok (Fn.sinCore A r) ∧ |v (Fn.sinCore A r) - Real.sin (v r)| ≤ 2 * u * |v r| := by
  have u0 := R.u0
  have u1 := R.u1
  have p1 := Real.pi_gt_d2
  have p2 := Real.pi_lt_d2
  have r1 := hr.lo
  have r2 := hr.hi
  unfold Fn.sinCore
  simp only [decide_eq_true_eq]
  by_cases hz : v r = 0
  · rw [if_pos ((R.iszero _ hr.ok).2 hz)]
    obtain ⟨o, e⟩ := R.ofI 0 (by norm_num)
    refine ⟨o, ?_⟩
    change |v (A.ofI 0) - _| ≤ _
    rw [e, hz]; simp
  rw [if_neg (fun h => hz ((R.iszero _ hr.ok).1 h))]
  have rs := hr.sz.resolve_left hz
  obtain ⟨oh, eh⟩ := R.piHalf_acc P
  by_cases hh : v r = v (Fn.piHalf A)
  · rw [if_pos ((R.iszero_half P hr hz).2 hh)]
    obtain ⟨o, e⟩ := R.ofI 1 (by norm_num)
    refine ⟨o, ?_⟩
    change |v (A.ofI 1) - _| ≤ _
    rw [e]
    push_cast
    rw [← hh] at eh
    have h1 := sin_lip (v r) (Real.pi / 2)
    rw [Real.sin_pi_div_two, abs_sub_comm] at h1
    obtain ⟨l, -⟩ := abs_le.1 eh
    have h2 : 1 ≤ |v r| := by rw [le_abs]; left; linarith
    have := mul_le_mul_of_nonneg_left h2 u0.le
    linarith
  rw [if_neg (fun h => hh ((R.iszero_half P hr hz).1 h))]
  have fin : ∀ w : ℝ, |w - Real.sin (v r)| ≤ u / 40 * |v r| → |w - Real.sin (v r)| ≤ 2 * u * |v r| := by
    intro w hw
    have : 0 ≤ u * |v r| := by positivity
    linarith
  by_cases hs : Fn.smallArg A r = true
  · rw [if_pos hs]
    have := R.smallArg_le hr.ok hz hs
    obtain ⟨o, e⟩ := R.sinc_acc hr.ok rs (by linarith)
    exact ⟨o, fin _ e⟩
  rw [if_neg hs]
  obtain ⟨od, ed, d0, ds⟩ := R.delta_acc P hr hh
  by_cases hd : Fn.smallArg A (A.sub (Fn.piHalf A) r) = true
  · rw [if_pos hd]
    have hsm := R.smallArg_le od d0 hd
    obtain ⟨o, e⟩ := R.cosc_acc od ds (by linarith)
    refine ⟨o, ?_⟩
    have h1 := cos_lip (v (A.sub (Fn.piHalf A) r)) (Real.pi / 2 - v r)
    rw [Real.cos_pi_div_two_sub] at h1
    have h2 := abs_sub_le (v (Fn.hyp0f1 A A.half (A.divI (A.neg (A.mul (A.sub (Fn.piHalf A) r) (A.sub (Fn.piHalf A) r))) 4)))
      (Real.cos (v (A.sub (Fn.piHalf A) r))) (Real.sin (v r))
    have h3 : 1 ≤ |v r| := by
      rw [le_abs]; left
      obtain ⟨l, r⟩ := abs_le.1 ed
      obtain ⟨l', r'⟩ := abs_le.1 hsm
      linarith
    have := mul_le_mul_of_nonneg_left h3 u0.le
    linarith
  rw [if_neg hd]
  by_cases ho : A.order r > -4
  · simp only [if_pos ho]
    have hb := R.order_ge hr.ok hz (k := 3) (by push_cast; omega)
    have rp : 1 / 10 ^ 3 ≤ v r := by
      rcases le_abs.1 hb with h | h
      · exact h
      · linarith
    obtain ⟨o, e, l, s⟩ := R.scaled hr rp
    obtain ⟨o1, e1⟩ := R.sinc_acc o s (by linarith)
    have h1 := sin_lip (v (A.divI r Fn.threePow9)) (v r / 19683)
    generalize A.divI r Fn.threePow9 = y at *
    have h2 : |v y| ≤ (1 + u) * (v r / 19683) := by
      have := abs_sub_abs_le_abs_sub (v y) (v r / 19683)
      rw [abs_of_pos (show 0 < v r / 19683 by linarith)] at this
      linarith
    have t0 : 0 < v r / 19683 := by linarith
    generalize A.mul y (Fn.hyp0f1 A (Fn.threeHalf A) (A.divI (A.neg (A.mul y y)) 4)) = s at *
    have h3 : |v s - Real.sin (v r / 19683)| ≤ 3 / 2 * u * (v r / 19683) := by
      have h4 := abs_sub_le (v s) (Real.sin (v y)) (Real.sin (v r / 19683))
      have h5 : u / 40 * |v y| ≤ u / 40 * (2 * (v r / 19683)) := by
        apply mul_le_mul_of_nonneg_left _ (by positivity)
        refine le_trans h2 (mul_le_mul_of_nonneg_right (by linarith) t0.le)
      have : 0 ≤ u * (v r / 19683) := by positivity
      linarith
    have hp : v r / 19683 * 3 ^ 9 = v r := by norm_num
    obtain ⟨o2, e2⟩ := R.tripleSin_acc 9 (v r / 19683) (3 / 2 * u) s o1 (by linarith) (by rw [hp]; linarith) h3 (by push_cast; linarith)
    rw [hp] at e2
    refine ⟨o2, le_trans e2 ?_⟩
    rw [abs_of_pos (by linarith)]
    apply mul_le_mul_of_nonneg_right _ (by linarith)
    push_cast; linarith
  · simp only [if_neg ho]
    have := R.order_lt hr.ok hz (k := 3) (by push_cast; omega)
    obtain ⟨o, e⟩ := R.sinc_acc hr.ok rs (by linarith)
    exact ⟨o, fin _ e⟩

theorem cosCore_acc (R : Rnd A v ok u) (P : PiEnv A v ok u) {r : α} (hr : Red v ok r) :
    ok (Fn.cosCore A r) ∧ |v (Fn.cosCore A r) - Real.cos (v r)| ≤ 10 ^ 7 * u := by
  have u0 := R.u0
  have u1 := R.u1
  have p1 := Real.pi_gt_d2
  have p2 := Real.pi_lt_d2
  have r1 := hr.lo
  have r2 := hr.hi
  unfold Fn.cosCore
  simp only [decide_eq_true_eq]
  by_cases hz : v r = 0
  · rw [if_pos ((R.iszero _ hr.ok).2 hz)]
    obtain ⟨o, e⟩ := R.ofI 1 (by norm_num)
    refine ⟨o, ?_⟩
    change |v (A.ofI 1) - _| ≤ _
    rw [e, hz]; simp; positivity
  rw [if_neg (fun h => hz ((R.iszero _ hr.ok).1 h))]
  have rs := hr.sz.resolve_left hz
  obtain ⟨oh, eh⟩ := R.piHalf_acc P
  by_cases hh : v r = v (Fn.piHalf A)
  · rw [if_pos ((R.iszero_half P hr hz).2 hh)]
    obtain ⟨o, e⟩ := R.ofI 0 (by norm_num)
    refine ⟨o, ?_⟩
    change |v (A.ofI 0) - _| ≤ _
    rw [e]
    push_cast
    rw [← hh] at eh
    have h1 := cos_lip (v r) (Real.pi / 2)
    rw [Real.cos_pi_div_two, abs_sub_comm] at h1
    linarith
  rw [if_neg (fun h => hh ((R.iszero_half P hr hz).1 h))]
  by_cases hs : Fn.smallArg A r = true
  · rw [if_pos hs]
    have := R.smallArg_le hr.ok hz hs
    obtain ⟨o, e⟩ := R.cosc_acc hr.ok rs (by linarith)
    exact ⟨o, by linarith⟩
  rw [if_neg hs]
  obtain ⟨od, ed, d0, ds⟩ := R.delta_acc P hr hh
  by_cases hd : Fn.smallArg A (A.sub (Fn.piHalf A) r) = true
  · rw [if_pos hd]
    have hsm := R.smallArg_le od d0 hd
    obtain ⟨o, e⟩ := R.sinc_acc od ds (by linarith)
    refine ⟨o, ?_⟩
    have h1 := sin_lip (v (A.sub (Fn.piHalf A) r)) (Real.pi / 2 - v r)
    rw [Real.sin_pi_div_two_sub] at h1
    generalize A.sub (Fn.piHalf A) r = d at *
    have h2 := abs_sub_le (v (A.mul d (Fn.hyp0f1 A (Fn.threeHalf A) (A.divI (A.neg (A.mul d d)) 4)))) (Real.sin (v d)) (Real.cos (v r))
    have h3 : u / 40 * |v d| ≤ u / 40 * 1 := mul_le_mul_of_nonneg_left (by linarith) (by positivity)
    linarith
  rw [if_neg hd]
  by_cases ho : A.order r > -4
  · simp only [if_pos ho]
    have hb := R.order_ge hr.ok hz (k := 3) (by push_cast; omega)
    have rp : 1 / 10 ^ 3 ≤ v r := by
      rcases le_abs.1 hb with h | h
      · exact h
      · linarith
    obtain ⟨o, e, l, s⟩ := R.scaled hr rp
    obtain ⟨o1, e1⟩ := R.cosc_acc o s (by linarith)
    have h1 := cos_lip (v (A.divI r Fn.threePow9)) (v r / 19683)
    generalize A.divI r Fn.threePow9 = y at *
    have t0 : 0 < v r / 19683 := by linarith
    generalize Fn.hyp0f1 A A.half (A.divI (A.neg (A.mul y y)) 4) = s at *
    have h3 : |v s - Real.cos (v r / 19683)| ≤ 21 / 1000 * u := by
      have h4 := abs_sub_le (v s) (Real.cos (v y)) (Real.cos (v r / 19683))
      have h5 : u * (v r / 19683) ≤ u * (1 / 1000) := mul_le_mul_of_nonneg_left (by linarith) u0.le
      linarith
    have hp : v r / 19683 * 3 ^ 9 = v r := by norm_num
    have h9 : (91 / 10 : ℝ) ^ 9 ≤ 43 * 10 ^ 7 := by norm_num
    have h8 : (21 / 1000 * u + u / 1000) * (91 / 10) ^ 9 ≤ 10 ^ 7 * u := by
      have := mul_le_mul_of_nonneg_left h9 (show 0 ≤ 21 / 1000 * u + u / 1000 by positivity)
      linarith
    obtain ⟨o2, e2⟩ := R.tripleCos_acc 9 (v r / 19683) (21 / 1000 * u) s o1 t0.le (by rw [hp]; linarith) h3 (by linarith)
    rw [hp] at e2
    exact ⟨o2, le_trans e2 h8⟩
  · simp only [if_neg ho]
    have := R.order_lt hr.ok hz (k := 3) (by push_cast; omega)
    obtain ⟨o, e⟩ := R.cosc_acc hr.ok rs (by linarith)
    exact ⟨o, by linarith⟩

/-- Removal of multiples of pi. -/
theorem reducePi_acc (R : Rnd A v ok u) (P : PiEnv A v ok u) {x : α} (hx : ok x) (x0 : 0 ≤ v x) (x1 : v x ≤ 10 ^ 8)
    (xs : v x = 0 ∨ Sz 19000000 (v x)) :
    ok (Fn.reducePi A x).1 ∧ (v (Fn.reducePi A x).1 = 0 ∨ Sz 19000000 (v (Fn.reducePi A x).1)) ∧
    -(1 / 10 ^ 11) ≤ v (Fn.reducePi A x).1 ∧ v (Fn.reducePi A x).1 ≤ Real.pi + 1 / 10 ^ 11 ∧
    ∃ n : ℕ, |v (Fn.reducePi A x).1 - (v x - n * Real.pi)| ≤ u / 1000 * v x ∧ ((Fn.reducePi A x).2 = true ↔ Odd n) := by
  have u0 := R.u0
  have u1 := R.u1
  have p1 := Real.pi_gt_d2
  have p2 := Real.pi_lt_d2
  obtain ⟨op, ep⟩ := P.pi
  obtain ⟨l, h⟩ := abs_le.1 ep
  unfold Fn.reducePi
  by_cases hlt : v A.pi < v x
  · rw [if_pos ((R.lt _ _ op hx).2 hlt)]
    dsimp only
    have q0 : 3 < v A.pi := by linarith
    have q1 : v A.pi < 4 := by linarith
    have sp : Sz 1 (v A.pi) := by
      unfold Sz
      rw [abs_of_pos (by linarith), pw_neg, pw_one]
      norm_num
      constructor <;> linarith
    have sx : Sz 8 (v x) := by
      unfold Sz
      rw [abs_of_nonneg x0, show (8 : ℤ) = ((8 : ℕ) : ℤ) by norm_num, pw_neg, pw_nat]
      norm_num at x1 ⊢
      constructor <;> linarith
    obtain ⟨oq, eq⟩ := R.div x A.pi hx op (Or.inl (by linarith)) (sx.mono (by norm_num)) (sp.mono (by norm_num))
    have xp : 0 < v x := by linarith
    have pp : 0 < v A.pi := by linarith
    rw [abs_of_pos (div_pos xp pp)] at eq
    generalize A.div x A.pi = q at *
    -- the quotient times pi
    have eq' : |v q * v A.pi - v x| ≤ u * v x := by
      have := mul_le_mul_of_nonneg_right eq pp.le
      rw [← abs_of_pos pp, ← abs_mul, abs_of_pos pp, sub_mul, div_mul_cancel₀ _ pp.ne', mul_assoc, div_mul_cancel₀ _ pp.ne'] at this
      exact this
    have ux : u * v x ≤ 1 / 10 ^ 30 * 10 ^ 8 := mul_le_mul u1 x1 x0 (by norm_num)
    norm_num at ux
    obtain ⟨q2, q3⟩ := abs_le.1 eq'
    have vq0 : 0 ≤ v q := by
      by_contra hc
      have := mul_neg_of_neg_of_pos (not_le.1 hc) pp
      linarith
    have vq1 : v q < 10 ^ 8 / 2 := by
      by_contra hc
      have := mul_le_mul (not_lt.1 hc) q0.le (by norm_num) vq0
      norm_num at this x1
      linarith
    obtain ⟨on, en⟩ := R.intPart q oq vq0 (by norm_num at vq1 ⊢; linarith)
    have f1 := Int.floor_le (v q)
    have f2 := Int.lt_floor_add_one (v q)
    have fn : 0 ≤ ⌊v q⌋ := Int.floor_nonneg.2 vq0
    obtain ⟨n, hn⟩ := Int.eq_ofNat_of_zero_le fn
    rw [hn] at en f1 f2
    push_cast at en f1 f2
    generalize A.intPart q = N at *
    have nlt : n < 100000000 := by
      have : (n : ℝ) < 100000000 := by norm_num at vq1; linarith
      exact_mod_cast this
    have n0 : (0 : ℝ) ≤ n := Nat.cast_nonneg n
    -- the multiple of pi
    have nπ : n * v A.pi ≤ v q * v A.pi := mul_le_mul_of_nonneg_right f1 pp.le
    have nπ0 : 0 ≤ n * v A.pi := by positivity
    have nπ1 : v q * v A.pi ≤ (n + 1) * v A.pi := mul_le_mul_of_nonneg_right f2.le pp.le
    have nx : n * v A.pi ≤ 101 / 100 * v x := by
      have : u * v x ≤ 1 / 100 * v x := mul_le_mul_of_nonneg_right (by linarith) x0
      linarith
    obtain ⟨om, em⟩ : ok (A.mul N A.pi) ∧ |v (A.mul N A.pi) - n * v A.pi| ≤ u / 10 ^ 4 * (n * v A.pi) := by
      rcases Nat.eq_zero_or_pos n with h0 | h0
      · obtain ⟨o, e⟩ := R.mul0 N A.pi on op (by rw [en, h0]; simp)
        refine ⟨o, ?_⟩
        rw [e, h0]; simp
      · have sn : Sz 8 (v N) := by rw [en]; exact Sz.nat h0 nlt
        obtain ⟨o, e, -⟩ := R.mul N A.pi on op ((sn.mul sp).mono (by norm_num))
        rw [en, abs_of_nonneg nπ0] at e
        exact ⟨o, e⟩
    generalize A.mul N A.pi = m at *
    have unx := mul_le_mul_of_nonneg_left nx u0.le
    have uxp : 0 ≤ u * v x := by positivity
    have big : (10 : ℝ) ^ 9 ≤ pw 2000000000 := by
      rw [← pw_nat]; exact pw_mono (by norm_num)
    have um : |v m| ≤ 102 / 100 * v x := by
      have := abs_sub_abs_le_abs_sub (v m) (n * v A.pi)
      rw [abs_of_nonneg nπ0] at this
      have : u * v x ≤ 1 / 1000 * v x := mul_le_mul_of_nonneg_right (by linarith) x0
      linarith
    obtain ⟨o, e, ez, enz⟩ := R.sub x m hx om (by rw [abs_of_nonneg x0]; norm_num at big x1; linarith) (by norm_num at big x1; linarith)
    rw [abs_of_nonneg x0] at e enz
    have e1 : |v (A.sub x m) - (v x - n * v A.pi)| ≤ u / 5000 * v x := by
      have h1 := abs_sub_le (v (A.sub x m)) (v x - v m) (v x - n * v A.pi)
      rw [show v x - v m - (v x - n * v A.pi) = -(v m - n * v A.pi) by ring, abs_neg] at h1
      have h2 := mul_le_mul_of_nonneg_left (show v x + |v m| ≤ 3 * v x by linarith) (show 0 ≤ u / 10 ^ 12 by positivity)
      linarith
    have e2 : |n * v A.pi - n * Real.pi| ≤ u / 10 ^ 4 * v x := by
      rw [← mul_sub, abs_mul, Nat.abs_cast]
      have h1 := mul_le_mul_of_nonneg_left ep n0
      have h2 : (n : ℝ) ≤ v x := by
        have : (n : ℝ) * 2 ≤ n * v A.pi := mul_le_mul_of_nonneg_left (by linarith) n0
        linarith
      have h3 := mul_le_mul_of_nonneg_right h2 (show 0 ≤ u / 10 ^ 4 by positivity)
      linarith
    refine ⟨o, ?_, ?_, ?_, n, ?_, ?_⟩
    · by_cases hz : v x = v m
      · exact Or.inl (ez hz)
      · right
        have h3 := enz xp.ne' hz
        refine ⟨le_trans (pw_mono (show (-19000000 : ℤ) ≤ -5200 by norm_num)) ?_, ?_⟩
        · have := mul_le_mul_of_nonneg_left (show 1 ≤ v x by linarith) (pw_pos (-5200)).le
          linarith
        · have h4 : |v (A.sub x m)| ≤ 10 ^ 9 := by
            have h5 := abs_sub_abs_le_abs_sub (v (A.sub x m)) (v x - n * v A.pi)
            have h6 : |v x - n * v A.pi| ≤ 5 := by
              rw [abs_le]; constructor <;> linarith
            norm_num
            linarith
          refine le_trans h4 ?_
          rw [← pw_nat]; exact pw_mono (by norm_num)
    · obtain ⟨a, b⟩ := abs_le.1 e1
      linarith
    · obtain ⟨a, b⟩ := abs_le.1 e1
      linarith
    · have h1 := abs_sub_le (v (A.sub x m)) (v x - n * v A.pi) (v x - n * Real.pi)
      rw [show v x - n * v A.pi - (v x - n * Real.pi) = -(n * v A.pi - n * Real.pi) by ring, abs_neg] at h1
      change |v (A.sub x m) - _| ≤ _
      linarith
    · have := R.par N n on en nlt
      change (!A.iszero (A.decPart (A.divI N 2))) = true ↔ _
      rw [Bool.not_eq_true', ← Bool.not_eq_true, this, Nat.not_even_iff_odd]
  · rw [if_neg (fun h => hlt ((R.lt _ _ op hx).1 h))]
    refine ⟨hx, xs, ?_, ?_, 0, ?_, by simp⟩
    · change _ ≤ v x; linarith
    · change v x ≤ _; linarith
    · simp; positivity

/-- The second half of the reduction: `pi - r` for `r` above `pi/2`. -/
theorem fold_acc (R : Rnd A v ok u) (P : PiEnv A v ok u) {r : α} (hr : ok r) (rs : v r = 0 ∨ Sz 19000000 (v r))
    (lo : -(1 / 10 ^ 11) ≤ v r) (hi : v r ≤ Real.pi + 1 / 10 ^ 11) :
    Red v ok (if A.lt (Fn.piHalf A) r then A.sub A.pi r else r) ∧
    (if A.lt (Fn.piHalf A) r then |v (A.sub A.pi r) - (Real.pi - v r)| ≤ u / 1000 else True) := by
  have u0 := R.u0
  have u1 := R.u1
  have p1 := Real.pi_gt_d2
  have p2 := Real.pi_lt_d2
  obtain ⟨op, ep⟩ := P.pi
  obtain ⟨l, h⟩ := abs_le.1 ep
  obtain ⟨oh, eh⟩ := R.piHalf_acc P
  obtain ⟨l', h'⟩ := abs_le.1 eh
  by_cases hlt : v (Fn.piHalf A) < v r
  · rw [if_pos ((R.lt _ _ oh hr).2 hlt), if_pos ((R.lt _ _ oh hr).2 hlt)]
    have pp : 0 < v A.pi := by linarith
    have ra : |v r| ≤ 4 := by rw [abs_le]; constructor <;> linarith
    have pa : |v A.pi| ≤ 4 := by rw [abs_le]; constructor <;> linarith
    have big : (100 : ℝ) ≤ pw 2000000000 := by
      refine le_trans (show (100 : ℝ) ≤ pw ((2 : ℕ) : ℤ) by rw [pw_nat]; norm_num) (pw_mono (by norm_num))
    obtain ⟨o, e, ez, enz⟩ := R.sub A.pi r op hr (by linarith) (by linarith)
    have e1 : |v (A.sub A.pi r) - (Real.pi - v r)| ≤ u / 1000 := by
      have h1 := abs_sub_le (v (A.sub A.pi r)) (v A.pi - v r) (Real.pi - v r)
      rw [show v A.pi - v r - (Real.pi - v r) = v A.pi - Real.pi by ring] at h1
      have h2 := mul_le_mul_of_nonneg_left (show |v A.pi| + |v r| ≤ 8 by linarith) (show 0 ≤ u / 10 ^ 12 by positivity)
      linarith
    obtain ⟨a, b⟩ := abs_le.1 e1
    refine ⟨⟨o, ?_, by linarith, by linarith⟩, e1⟩
    by_cases hz : v A.pi = v r
    · exact Or.inl (ez hz)
    · right
      have h3 := enz pp.ne' hz
      refine ⟨le_trans (pw_mono (show (-19000000 : ℤ) ≤ -5200 by norm_num)) ?_, ?_⟩
      · have := mul_le_mul_of_nonneg_left (show 1 ≤ |v A.pi| by rw [abs_of_pos pp]; linarith) (pw_pos (-5200)).le
        linarith
      · have h4 : |v (A.sub A.pi r)| ≤ 100 := by
          rw [abs_le]; constructor <;> linarith
        refine le_trans h4 (le_trans (show (100 : ℝ) ≤ pw ((2 : ℕ) : ℤ) by rw [pw_nat]; norm_num) (pw_mono (by norm_num)))
  · have hn : ¬ A.lt (Fn.piHalf A) r = true := fun h => hlt ((R.lt _ _ oh hr).1 h)
    rw [if_neg hn, if_neg hn]
    exact ⟨⟨hr, rs, by linarith, by linarith⟩, trivial⟩

theorem fabs_acc (R : Rnd A v ok u) {x : α} (hx : ok x) : ok (Fn.fabs A x) ∧ v (Fn.fabs A x) = |v x| := by
  unfold Fn.fabs
  by_cases h : v x < 0
  · rw [if_pos ((R.isneg _ hx).2 h), abs_of_neg h]
    exact R.neg x hx
  · rw [if_neg (fun g => h ((R.isneg _ hx).1 g)), abs_of_nonneg (not_lt.1 h)]
    exact ⟨hx, rfl⟩

theorem isfinite_ok (R : Rnd A v ok u) {x : α} (hx : ok x) : Fn.isfinite A x = true := by
  unfold Fn.isfinite
  rw [R.isnan x hx, R.isinf x hx]; rfl

/-- A sign given by a flag. -/
theorem sign_acc (R : Rnd A v ok u) {w : α} (hw : ok w) (b : Bool) :
    ok (if b then A.neg w else w) ∧ v (if b then A.neg w else w) = (if b then -1 else 1) * v w := by
  cases b with
  | true =>
    simp only [if_true]
    obtain ⟨o, e⟩ := R.neg w hw
    exact ⟨o, by rw [e]; ring⟩
  | false =>
    simp only [Bool.false_eq_true, if_false, one_mul]
    exact ⟨hw, trivial⟩

/-- Sine. -/
theorem sin_acc (R : Rnd A v ok u) (P : PiEnv A v ok u) {x : α} (hx : ok x) (x1 : |v x| ≤ 10 ^ 8)
    (xs : v x = 0 ∨ Sz 19000000 (v x)) :
    ok (Fn.sin A x) ∧ |v (Fn.sin A x) - Real.sin (v x)| ≤ u * (4 + |v x| / 1000) ∧
      (|v x| ≤ 3 / 2 → |v (Fn.sin A x) - Real.sin (v x)| ≤ 2 * u * |v x|) := by
  have u0 := R.u0
  have u1 := R.u1
  have p1 := Real.pi_gt_d2
  have p2 := Real.pi_lt_d2
  obtain ⟨oa, ea⟩ := R.fabs_acc hx
  obtain ⟨oh, eh⟩ := R.piHalf_acc P
  obtain ⟨op, ep⟩ := P.pi
  have sa : v (Fn.fabs A x) = 0 ∨ Sz 19000000 (v (Fn.fabs A x)) := by
    rw [ea]
    rcases xs with h | h
    · left; rw [h, abs_zero]
    · right; unfold Sz at h ⊢; rwa [abs_abs]
  obtain ⟨o1, s1, l1, l2, n, e1, e2⟩ := R.reducePi_acc P oa (by rw [ea]; exact abs_nonneg _) (by rw [ea]; exact x1) sa
  rw [ea] at e1
  have small : |v x| ≤ 3 / 2 → Fn.reducePi A (Fn.fabs A x) = (Fn.fabs A x, false) := by
    intro h
    unfold Fn.reducePi
    rw [if_neg]
    rw [R.lt _ _ op oa, ea]
    obtain ⟨l, -⟩ := abs_le.1 ep
    intro hc; linarith
  unfold Fn.sin
  rw [R.isfinite_ok hx]
  simp only [Bool.not_true, Bool.false_eq_true, if_false]
  have hsx : Real.sin (v x) = (if A.isneg x then -1 else 1) * Real.sin |v x| := by
    by_cases h : v x < 0
    · rw [if_pos ((R.isneg _ hx).2 h), abs_of_neg h, Real.sin_neg]; ring
    · rw [if_neg (fun g => h ((R.isneg _ hx).1 g)), abs_of_nonneg (not_lt.1 h), one_mul]
  generalize hr : Fn.reducePi A (Fn.fabs A x) = rr at *
  obtain ⟨r, b⟩ := rr
  simp only at o1 s1 l1 l2 e1 e2 ⊢
  obtain ⟨f1, f2⟩ := R.fold_acc P o1 s1 l1 l2
  generalize hy : (if A.lt (Fn.piHalf A) r = true then A.sub A.pi r else r) = y at *
  obtain ⟨o3, e3⟩ := R.sinCore_acc P f1
  obtain ⟨o4, e4⟩ := R.sign_acc o3 (A.isneg x ^^ b)
  refine ⟨o4, ?_⟩
  rw [e4, hsx]
  constructor
  · -- the sine of the reduced argument
    have g1 : |Real.sin (v y) - Real.sin (v r)| ≤ u / 1000 := by
      by_cases h : A.lt (Fn.piHalf A) r = true
      · rw [if_pos h] at f2 hy
        have := sin_lip (v y) (Real.pi - v r)
        rw [Real.sin_pi_sub, ← hy] at this
        rw [← hy]
        linarith
      · rw [if_neg h] at hy
        rw [hy]; simp; positivity
    have g2 := sin_lip (v r) (|v x| - n * Real.pi)
    rw [Real.sin_sub_nat_mul_pi] at g2
    have g3 : 2 * u * |v y| ≤ 2 * u * (1586 / 1000) := by
      apply mul_le_mul_of_nonneg_left _ (by positivity)
      have := f1.lo
      have := f1.hi
      rw [abs_le]; constructor <;> linarith
    have g4 : |v (Fn.sinCore A y) - (-1) ^ n * Real.sin (|v x|)| ≤ u * (4 + |v x| / 1000) := by
      have h1 := abs_sub_le (v (Fn.sinCore A y)) (Real.sin (v y)) ((-1) ^ n * Real.sin |v x|)
      have h2 := abs_sub_le (Real.sin (v y)) (Real.sin (v r)) ((-1) ^ n * Real.sin |v x|)
      linarith
    have g5 : (if (A.isneg x ^^ b) = true then (-1 : ℝ) else 1) = (if A.isneg x = true then -1 else 1) * (-1) ^ n := by
      rw [flag_sign e2]
      cases A.isneg x <;> cases b <;> simp
    rw [g5]
    exact le_trans (sign_sub (by cases A.isneg x <;> simp) n) g4
  · intro h
    have hs := small h
    cases hs
    have hny : ¬ A.lt (Fn.piHalf A) (Fn.fabs A x) = true := by
      rw [R.lt _ _ oh oa, ea]
      obtain ⟨l, -⟩ := abs_le.1 eh
      intro hc; linarith
    rw [if_neg hny] at hy
    rw [← hy, ea] at e3
    rw [← hy, Bool.xor_false, ← mul_sub, abs_mul]
    have : |(if A.isneg x = true then (-1 : ℝ) else 1)| = 1 := by cases A.isneg x <;> simp
    rw [this, one_mul]
    rwa [abs_abs] at e3

/-- Cosine. -/
theorem cos_acc (R : Rnd A v ok u) (P : PiEnv A v ok u) {x : α} (hx : ok x) (x1 : |v x| ≤ 10 ^ 8)
    (xs : v x = 0 ∨ Sz 19000000 (v x)) :
    ok (Fn.cos A x) ∧ |v (Fn.cos A x) - Real.cos (v x)| ≤ u * (10000001 + |v x| / 1000) := by
  have u0 := R.u0
  have u1 := R.u1
  obtain ⟨oa, ea⟩ := R.fabs_acc hx
  have sa : v (Fn.fabs A x) = 0 ∨ Sz 19000000 (v (Fn.fabs A x)) := by
    rw [ea]
    rcases xs with h | h
    · left; rw [h, abs_zero]
    · right; unfold Sz at h ⊢; rwa [abs_abs]
  obtain ⟨o1, s1, l1, l2, n, e1, e2⟩ := R.reducePi_acc P oa (by rw [ea]; exact abs_nonneg _) (by rw [ea]; exact x1) sa
  rw [ea] at e1
  unfold Fn.cos
  rw [R.isfinite_ok hx]
  simp only [Bool.not_true, Bool.false_eq_true, if_false]
  generalize Fn.reducePi A (Fn.fabs A x) = rr at *
  obtain ⟨r, b⟩ := rr
  simp only at o1 s1 l1 l2 e1 e2 ⊢
  obtain ⟨f1, f2⟩ := R.fold_acc P o1 s1 l1 l2
  generalize hg : A.lt (Fn.piHalf A) r = g at *
  generalize hy : (if g = true then A.sub A.pi r else r) = y at *
  obtain ⟨o3, e3⟩ := R.cosCore_acc P f1
  obtain ⟨o4, e4⟩ := R.sign_acc o3 (b ^^ g)
  refine ⟨o4, ?_⟩
  rw [e4, ← Real.cos_abs (v x)]
  have g1 : |(if g = true then -1 else 1) * Real.cos (v y) - Real.cos (v r)| ≤ u / 1000 := by
    cases g with
    | true =>
      rw [if_pos rfl] at f2 hy
      have := cos_lip (v y) (Real.pi - v r)
      rw [Real.cos_pi_sub, ← hy] at this
      rw [← hy, if_pos rfl, show -1 * Real.cos (v (A.sub A.pi r)) - Real.cos (v r) =
        -(Real.cos (v (A.sub A.pi r)) - -Real.cos (v r)) by ring, abs_neg]
      linarith
    | false =>
      rw [if_neg (by simp)] at hy
      rw [hy]; simp; positivity
  have g2 := cos_lip (v r) (|v x| - n * Real.pi)
  rw [Real.cos_sub_nat_mul_pi] at g2
  have g3 : |(if g = true then -1 else 1) * v (Fn.cosCore A y) - (if g = true then -1 else 1) * Real.cos (v y)| ≤ 10 ^ 7 * u := by
    rw [← mul_sub, abs_mul]
    have : |(if g = true then (-1 : ℝ) else 1)| = 1 := by cases g <;> simp
    rw [this, one_mul]
    exact e3
  have g4 : |(if g = true then -1 else 1) * v (Fn.cosCore A y) - (-1) ^ n * Real.cos (|v x|)| ≤ u * (10000001 + |v x| / 1000) := by
    have h1 := abs_sub_le ((if g = true then -1 else 1) * v (Fn.cosCore A y)) ((if g = true then -1 else 1) * Real.cos (v y))
      ((-1) ^ n * Real.cos (|v x|))
    have h2 := abs_sub_le ((if g = true then -1 else 1) * Real.cos (v y)) (Real.cos (v r)) ((-1) ^ n * Real.cos (|v x|))
    linarith
  have g5 : (if (b ^^ g) = true then (-1 : ℝ) else 1) * v (Fn.cosCore A y) =
      1 * (-1) ^ n * ((if g = true then -1 else 1) * v (Fn.cosCore A y)) := by
    rw [flag_sign e2]
    cases b <;> cases g <;> simp
  rw [g5]
  have := sign_sub (σ := 1) (w := (if g = true then -1 else 1) * v (Fn.cosCore A y)) (S := Real.cos (|v x|)) (by simp) n
  rw [one_mul (Real.cos (|v x|))] at this
  exact le_trans this g4

end Rnd
end EFX
