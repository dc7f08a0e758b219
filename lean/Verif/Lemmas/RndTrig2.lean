import Verif.Lemmas.RndTrig
/-!
# Sine and cosine of the reduced argument in rounded arithmetic
-/

namespace EFX
open Finset

variable {α : Type} {A : Arith α} {v : α → ℝ} {ok : α → Prop} {u : ℝ}

theorem sinc_one {y : ℝ} (y0 : y ≠ 0) (h : |y| ≤ 2 / 1000) : |Real.sin y / y - 1| ≤ 1 / 100 := by
  have key : ∀ y : ℝ, 0 < y → y ≤ 2 / 1000 → |Real.sin y / y - 1| ≤ 1 / 100 := by
    intro y hy h
    have h1 := Real.sin_lt hy
    have h2 := Real.sin_gt_sub_cube hy
    have h3 : y ^ 3 ≤ y * (4 / 1000000) := by
      rw [show y ^ 3 = y * (y * y) by ring]
      apply mul_le_mul_of_nonneg_left _ hy.le
      nlinarith
    rw [abs_le]
    constructor
    · rw [le_sub_iff_add_le, le_div_iff₀ hy]; linarith
    · rw [sub_le_iff_le_add, div_le_iff₀ hy]; linarith
  rcases lt_or_gt_of_ne y0 with hy | hy
  · have := key (-y) (by linarith) (by rw [abs_of_neg hy] at h; exact h)
    rwa [Real.sin_neg, neg_div_neg_eq] at this
  · exact key y hy (by rwa [abs_of_pos hy] at h)

theorem cos_one {y : ℝ} (h : |y| ≤ 2 / 1000) : |Real.cos y - 1| ≤ 1 / 100 := by
  have h1 := Real.one_sub_sq_div_two_le_cos (x := y)
  have h2 := Real.cos_le_one y
  have h3 : y ^ 2 ≤ (2 / 1000) ^ 2 := by rw [← sq_abs]; exact pow_le_pow_left₀ (abs_nonneg _) h 2
  norm_num at h3
  rw [abs_le]; constructor <;> linarith

namespace Rnd

/-- The argument `-y^2/4` of the series. -/
theorem quarter_sq (R : Rnd A v ok u) {y : α} (hy : ok y) (ys : Sz 19000000 (v y)) (y1 : |v y| ≤ 2 / 1000) :
    ok (A.divI (A.neg (A.mul y y)) 4) ∧ NearR (3 * u) (v (A.divI (A.neg (A.mul y y)) 4)) (-(v y * v y) / 4) ∧
      Sz 40000000 (-(v y * v y) / 4) ∧ |-(v y * v y) / 4| ≤ 1 / 1000000 := by
  have u0 := R.u0
  have u1 := R.u1
  have s1 := ys.mul ys
  obtain ⟨o1, e1, -⟩ := R.mul y y hy hy (s1.mono (by norm_num))
  obtain ⟨o2, e2⟩ := R.neg _ o1
  obtain ⟨o3, e3⟩ := R.divI (A.neg (A.mul y y)) 4 o2 (by norm_num) (by norm_num)
  refine ⟨o3, ?_, ?_, ?_⟩
  · rw [e2] at e3
    have n1 : NearR (u / 10 ^ 4) (v (A.mul y y)) (v y * v y) := e1
    have n2 : NearR (u / 10 ^ 4) (-v (A.mul y y) / ((4 : ℤ) : ℝ)) (-(v y * v y) / 4) := by
      have := n1.neg
      unfold NearR at this ⊢
      push_cast
      rw [div_sub_div_same, abs_div, abs_div, ← mul_div_assoc]
      exact div_le_div_of_nonneg_right this (abs_nonneg _)
    have n3 := NearR.trans (f := u) u0.le e3 n2
    refine n3.mono ?_
    have : u / 10 ^ 4 * u ≤ 1 * u := mul_le_mul_of_nonneg_right (by linarith) u0.le
    linarith
  · have h4 : Sz 1 (4 : ℝ) := by
      unfold Sz
      rw [abs_of_pos (by norm_num), pw_neg, pw_one]; norm_num
    have := s1.div h4
    have h5 : Sz 38000001 (-(v y * v y) / 4) := by
      unfold Sz at this ⊢
      rw [neg_div, abs_neg]; norm_num at this ⊢; exact this
    exact h5.mono (by norm_num)
  · rw [neg_div, abs_neg, abs_div, abs_mul, abs_of_pos (by norm_num : (0 : ℝ) < 4)]
    have := mul_le_mul y1 y1 (abs_nonneg _) (by norm_num)
    linarith

/-- The cosine of a small number. -/
theorem cosc_acc (R : Rnd A v ok u) {y : α} (hy : ok y) (ys : Sz 19000000 (v y)) (y1 : |v y| ≤ 2 / 1000) :
    ok (Fn.hyp0f1 A A.half (A.divI (A.neg (A.mul y y)) 4)) ∧
      |v (Fn.hyp0f1 A A.half (A.divI (A.neg (A.mul y y)) 4)) - Real.cos (v y)| ≤ u / 50 := by
  have u0 := R.u0
  obtain ⟨o, n, s, l⟩ := R.quarter_sq hy ys y1
  exact R.hyp0f1_acc o R.half.1 n s l (le_refl _) (by norm_num) (by rw [R.half.2]; exact NearR.rfl' (by positivity)) (hasSum_cosc (v y)) (cos_one y1)

/-- The sine of a small number. -/
theorem sinc_acc (R : Rnd A v ok u) {y : α} (hy : ok y) (ys : Sz 19000000 (v y)) (y1 : |v y| ≤ 2 / 1000) :
    ok (A.mul y (Fn.hyp0f1 A (Fn.threeHalf A) (A.divI (A.neg (A.mul y y)) 4))) ∧
      |v (A.mul y (Fn.hyp0f1 A (Fn.threeHalf A) (A.divI (A.neg (A.mul y y)) 4))) - Real.sin (v y)| ≤ u / 40 * |v y| := by
  have u0 := R.u0
  have u1 := R.u1
  obtain ⟨o, n, s, l⟩ := R.quarter_sq hy ys y1
  have sc := sinc_one ys.ne y1
  obtain ⟨o1, e1⟩ := R.hyp0f1_acc o R.threeHalf.1 n s l (by norm_num) (le_refl _) R.threeHalf.2 (hasSum_sinc ys.ne) sc
  generalize Fn.hyp0f1 A (Fn.threeHalf A) (A.divI (A.neg (A.mul y y)) 4) = h at *
  have e2 : |v h - 1| ≤ 2 / 100 := by
    have := abs_sub_le (v h) (Real.sin (v y) / v y) 1
    linarith
  obtain ⟨l1, l2⟩ := abs_le.1 e2
  have sh : Sz 1 (v h) := by
    unfold Sz
    rw [abs_of_pos (by linarith), pw_neg, pw_one]
    norm_num
    constructor <;> linarith
  obtain ⟨o2, e3, -⟩ := R.mul y h hy o1 ((ys.mul sh).mono (by norm_num))
  refine ⟨o2, ?_⟩
  have h3 := abs_sub_le (v (A.mul y h)) (v y * v h) (Real.sin (v y))
  have h4 : v y * v h - Real.sin (v y) = v y * (v h - Real.sin (v y) / v y) := by
    have := ys.ne
    field_simp
  rw [h4, abs_mul (v y) (v h - _)] at h3
  have h5 := mul_le_mul_of_nonneg_left e1 (abs_nonneg (v y))
  rw [abs_mul] at e3
  have h6 : |v y| * |v h| ≤ |v y| * 2 := mul_le_mul_of_nonneg_left (by rw [abs_of_pos (by linarith)]; linarith) (abs_nonneg _)
  have h7 := mul_le_mul_of_nonneg_left h6 (show 0 ≤ u / 10 ^ 4 by positivity)
  have : 0 ≤ u * |v y| := by positivity
  linarith

/-! ### the triple angle formulas -/

/-- The cube times four and three times a number. -/
theorem cubes (R : Rnd A v ok u) {s : α} (hs : ok s) (ss : Sz 10 (v s)) (s1 : |v s| ≤ 2) :
    ok (A.mulI (A.mul s (A.mul s s)) 4) ∧ |v (A.mulI (A.mul s (A.mul s s)) 4) - 4 * v s ^ 3| ≤ 3 * u / 10 ^ 4 * (4 * |v s| ^ 3) ∧
      ok (A.mulI s 3) ∧ |v (A.mulI s 3) - 3 * v s| ≤ u / 10 ^ 12 * (3 * |v s|) := by
  have u0 := R.u0
  have u1 := R.u1
  obtain ⟨o1, e1, l1⟩ := R.mul s s hs hs ((ss.mul ss).mono (by norm_num))
  have n1 : NearR (u / 10 ^ 4) (v (A.mul s s)) (v s * v s) := e1
  have n2 := (NearR.rfl' (b := v s) (le_refl (0 : ℝ))).mul (le_refl _) n1
  have n2' : NearR (u / 10 ^ 4) (v s * v (A.mul s s)) (v s * (v s * v s)) := n2.mono (by linarith)
  have s2 := n2'.sz (by linarith) (ss.mul (ss.mul ss))
  obtain ⟨o2, e2, l2⟩ := R.mul s (A.mul s s) hs o1 (s2.mono (by norm_num))
  have n3 := NearR.trans (f := u / 10 ^ 4) (by positivity) e2 n2'
  have big : (100 : ℝ) ≤ pw 2000000000 := by
    refine le_trans (show (100 : ℝ) ≤ pw ((2 : ℕ) : ℤ) by rw [pw_nat]; norm_num) (pw_mono (by norm_num))
  have a1 : |v s * v s| ≤ 4 := by
    rw [abs_mul]; have := mul_le_mul s1 s1 (abs_nonneg _) (by norm_num); linarith
  have a2 : |v (A.mul s (A.mul s s))| ≤ 8 := by
    refine le_trans l2 ?_
    rw [abs_mul]
    have := mul_le_mul s1 (le_trans l1 a1) (abs_nonneg _) (by norm_num)
    linarith
  obtain ⟨o3, e3⟩ := R.mulI (A.mul s (A.mul s s)) 4 o2 (by norm_num) (by
    rw [abs_mul]; push_cast; rw [abs_of_pos (by norm_num : (0 : ℝ) < 4)]; linarith)
  obtain ⟨o4, e4⟩ := R.mulI s 3 hs (by norm_num) (by
    rw [abs_mul]; push_cast; rw [abs_of_pos (by norm_num : (0 : ℝ) < 3)]; linarith)
  push_cast at e3 e4
  refine ⟨o3, ?_, o4, ?_⟩
  · have n4 := n3.mul (by positivity) (NearR.rfl' (b := (4 : ℝ)) (le_refl (0 : ℝ)))
    have n5 := NearR.trans (f := u / 10 ^ 12) (by positivity) e3 n4
    have n6 := NearR.mono (f := 3 * u / 10 ^ 4) n5 (by
      have h1 : u / 10 ^ 4 * (u / 10 ^ 4) ≤ 1 / 100 * (u / 10 ^ 4) := mul_le_mul_of_nonneg_right (by linarith) (by positivity)
      have h2 : (u / 10 ^ 4 + u / 10 ^ 4 + u / 10 ^ 4 * (u / 10 ^ 4)) * (u / 10 ^ 12) ≤ 1 * (u / 10 ^ 12) :=
        mul_le_mul_of_nonneg_right (by linarith) (by positivity)
      simp only [mul_zero, add_zero]
      linarith)
    unfold NearR at n6
    rw [show v s * (v s * v s) * 4 = 4 * v s ^ 3 by ring, abs_mul, abs_pow, abs_of_pos (by norm_num : (0 : ℝ) < 4)] at n6
    exact n6
  · rw [show v s * 3 = 3 * v s by ring, abs_mul, abs_of_pos (by norm_num : (0 : ℝ) < 3)] at e4
    exact e4

theorem tripleSin_acc (R : Rnd A v ok u) : ∀ (k : ℕ) (θ e : ℝ) (s : α), ok s → 1 / 10 ^ 9 ≤ θ → θ * 3 ^ k ≤ 8 / 5 →
    |v s - Real.sin θ| ≤ e * θ → e + k * (u / 1000) ≤ 1 / 1000 →
    ok (Fn.tripleSin A k s) ∧ |v (Fn.tripleSin A k s) - Real.sin (θ * 3 ^ k)| ≤ (e + k * (u / 1000)) * (θ * 3 ^ k)
  | 0, θ, e, s, os, _, _, h, _ => by simpa [Fn.tripleSin] using ⟨os, h⟩
  | k + 1, θ, e, s, os, h0, hu, h, he => by
    have u0 := R.u0
    have u1 := R.u1
    have p1 : (1 : ℝ) ≤ 3 ^ k := one_le_pow₀ (by norm_num)
    have θ0 : 0 < θ := lt_of_lt_of_le (by norm_num) h0
    have e0 : 0 ≤ e := by
      have := le_trans (abs_nonneg _) h
      by_contra hc
      have := mul_neg_of_neg_of_pos (not_le.1 hc) θ0
      linarith
    have hk0 : 0 ≤ (k : ℝ) * (u / 1000) := by positivity
    push_cast at he
    have he1 : e ≤ 1 / 1000 := by linarith
    rw [pow_succ] at hu ⊢
    have hθ : θ ≤ 8 / 15 := by
      have : θ * 3 * 1 ≤ θ * 3 * 3 ^ k := mul_le_mul_of_nonneg_left p1 (by positivity)
      linarith
    have w1 : Real.sin θ < θ := Real.sin_lt θ0
    have w0 : θ / 2 ≤ Real.sin θ := by
      have := Real.mul_le_sin θ0.le (by linarith [Real.pi_gt_three])
      have hp := Real.pi_lt_d2
      have hq : 1 / 2 ≤ 2 / Real.pi := by
        rw [le_div_iff₀ Real.pi_pos]; linarith
      have := mul_le_mul_of_nonneg_right hq θ0.le
      linarith
    have heθ : e * θ ≤ 1 / 1000 * θ := mul_le_mul_of_nonneg_right he1 θ0.le
    obtain ⟨l, r⟩ := abs_le.1 h
    have s0 : 0 < v s := by linarith
    have s1 : v s ≤ 101 / 100 * θ := by linarith
    have sa : |v s| = v s := abs_of_pos s0
    have ss : Sz 10 (v s) := by
      unfold Sz
      rw [sa, show (10 : ℤ) = ((10 : ℕ) : ℤ) by norm_num, pw_neg, pw_nat]
      norm_num at h0 ⊢
      constructor <;> linarith
    obtain ⟨o1, e1, o2, e2⟩ := R.cubes os ss (by rw [sa]; linarith)
    rw [sa] at e1 e2
    rw [Fn.tripleSin]
    generalize A.mulI (A.mul s (A.mul s s)) 4 = c at *
    generalize A.mulI s 3 = t at *
    obtain ⟨o3, e3⟩ := R.neg c o1
    have s3 : v s ^ 3 ≤ v s * (3 / 10) := by
      rw [show v s ^ 3 = v s * (v s * v s) by ring]
      apply mul_le_mul_of_nonneg_left _ s0.le
      have : v s ≤ 54 / 100 := by linarith
      have := mul_le_mul this this s0.le (by norm_num)
      linarith
    have s30 : 0 ≤ v s ^ 3 := by positivity
    have us : 0 ≤ u * v s := by positivity
    have us3 : u * v s ^ 3 ≤ u * (v s * (3 / 10)) := mul_le_mul_of_nonneg_left s3 u0.le
    have usθ : u * v s ≤ u * (101 / 100 * θ) := mul_le_mul_of_nonneg_left s1 u0.le
    have us1 : u * v s ≤ 1 / 100 * v s := mul_le_mul_of_nonneg_right (by linarith) s0.le
    have vc : |v c| ≤ 2 * v s := by
      have := abs_sub_abs_le_abs_sub (v c) (4 * v s ^ 3)
      rw [abs_of_nonneg (show 0 ≤ 4 * v s ^ 3 by positivity)] at this
      linarith
    have vt : |v t| ≤ 4 * v s := by
      have := abs_sub_abs_le_abs_sub (v t) (3 * v s)
      rw [abs_of_pos (show 0 < 3 * v s by positivity)] at this
      linarith
    have big : (100 : ℝ) ≤ pw 2000000000 := by
      refine le_trans (show (100 : ℝ) ≤ pw ((2 : ℕ) : ℤ) by rw [pw_nat]; norm_num) (pw_mono (by norm_num))
    obtain ⟨o4, e4⟩ := R.add (A.neg c) t o3 o2 (by rw [e3, abs_neg]; linarith) (by linarith)
    rw [e3, abs_neg] at e4
    have e5 : |v (A.add (A.neg c) t) - (3 * v s - 4 * v s ^ 3)| ≤ u / 1000 * θ := by
      have h1 : u / 10 ^ 12 * (|v c| + |v t|) ≤ u / 10 ^ 12 * (6 * v s) := mul_le_mul_of_nonneg_left (by linarith) (by positivity)
      have h2 := abs_sub_le (v (A.add (A.neg c) t)) (-v c + v t) (3 * v s - 4 * v s ^ 3)
      have h3 : |-v c + v t - (3 * v s - 4 * v s ^ 3)| ≤ |v t - 3 * v s| + |v c - 4 * v s ^ 3| := by
        have := abs_sub (v t - 3 * v s) (v c - 4 * v s ^ 3)
        rwa [show v t - 3 * v s - (v c - 4 * v s ^ 3) = -v c + v t - (3 * v s - 4 * v s ^ 3) by ring] at this
      linarith
    have e6 : |3 * v s - 4 * v s ^ 3 - Real.sin (θ * 3)| ≤ 3 * (e * θ) := by
      rw [show θ * 3 = 3 * θ by ring, Real.sin_three_mul]
      generalize Real.sin θ = w at *
      rw [show 3 * v s - 4 * v s ^ 3 - (3 * w - 4 * w ^ 3) = (v s - w) * (3 - 4 * (w ^ 2 + w * v s + v s ^ 2)) by ring, abs_mul]
      have : |3 - 4 * (w ^ 2 + w * v s + v s ^ 2)| ≤ 3 := by
        have w2 : 0 ≤ w := by linarith
        have a : w ≤ 6 / 10 := by linarith
        have b : v s ≤ 6 / 10 := by linarith
        have h1 : w ^ 2 ≤ 36 / 100 := by have := mul_le_mul a a w2 (by norm_num); rw [sq]; linarith
        have h2 : w * v s ≤ 36 / 100 := by have := mul_le_mul a b s0.le (by norm_num); linarith
        have h3 : v s ^ 2 ≤ 36 / 100 := by have := mul_le_mul b b s0.le (by norm_num); rw [sq]; linarith
        have h4 : 0 ≤ w * v s := by positivity
        have h5 : 0 ≤ w ^ 2 := by positivity
        have h6 : 0 ≤ v s ^ 2 := by positivity
        rw [abs_le]
        constructor <;> linarith
      have := mul_le_mul h this (abs_nonneg _) (by positivity)
      linarith
    have e7 : |v (A.add (A.neg c) t) - Real.sin (θ * 3)| ≤ (e + u / 1000) * (θ * 3) := by
      have := abs_sub_le (v (A.add (A.neg c) t)) (3 * v s - 4 * v s ^ 3) (Real.sin (θ * 3))
      have : 0 ≤ u / 1000 * θ := by positivity
      linarith
    have ih := tripleSin_acc R k (θ * 3) (e + u / 1000) (A.add (A.neg c) t) o4 (by linarith) (by linarith) e7 (by linarith)
    rw [show θ * (3 ^ k * 3) = θ * 3 * 3 ^ k by ring]
    push_cast
    rw [show e + ((k : ℝ) + 1) * (u / 1000) = e + u / 1000 + k * (u / 1000) by ring]
    exact ih

theorem tripleCos_acc (R : Rnd A v ok u) : ∀ (k : ℕ) (θ e : ℝ) (c : α), ok c → 0 ≤ θ → θ * 3 ^ k ≤ 8 / 5 →
    |v c - Real.cos θ| ≤ e → (e + u / 1000) * (91 / 10) ^ k ≤ 1 / 200 →
    ok (Fn.tripleCos A k c) ∧ |v (Fn.tripleCos A k c) - Real.cos (θ * 3 ^ k)| ≤ (e + u / 1000) * (91 / 10) ^ k
  | 0, θ, e, c, oc, _, _, h, _ => by
    have u0 := R.u0
    refine ⟨oc, ?_⟩
    rw [pow_zero, pow_zero, mul_one, mul_one]
    exact le_trans h (by linarith)
  | k + 1, θ, e, c, oc, θ0, hu, h, he => by
    have u0 := R.u0
    have u1 := R.u1
    have e0 : 0 ≤ e := le_trans (abs_nonneg _) h
    have p1 : (1 : ℝ) ≤ 3 ^ k := one_le_pow₀ (by norm_num)
    have p2 : (1 : ℝ) ≤ (91 / 10) ^ k := one_le_pow₀ (by norm_num)
    rw [pow_succ] at hu
    rw [pow_succ (91 / 10 : ℝ)] at he
    rw [pow_succ, pow_succ (91 / 10 : ℝ)]
    have he1 : e ≤ 1 / 1800 := by
      have h1 : (e + u / 1000) * (1 * (91 / 10)) ≤ (e + u / 1000) * ((91 / 10) ^ k * (91 / 10)) := by
        apply mul_le_mul_of_nonneg_left _ (by positivity)
        linarith
      linarith
    have hθ : θ ≤ 8 / 15 := by
      have : θ * 3 * 1 ≤ θ * 3 * 3 ^ k := mul_le_mul_of_nonneg_left p1 (by positivity)
      linarith
    have w1 := Real.cos_le_one θ
    have w0 : 8 / 10 ≤ Real.cos θ := by
      have h1 := Real.one_sub_sq_div_two_le_cos (x := θ)
      have h2 := mul_le_mul hθ hθ θ0 (by norm_num)
      rw [sq] at h1
      linarith
    obtain ⟨l, r⟩ := abs_le.1 h
    have s0 : 0 < v c := by linarith
    have s1 : v c ≤ 1 + 1 / 1800 := by linarith
    have sa : |v c| = v c := abs_of_pos s0
    have ss : Sz 10 (v c) := by
      unfold Sz
      rw [sa, show (10 : ℤ) = ((10 : ℕ) : ℤ) by norm_num, pw_neg, pw_nat]
      norm_num
      constructor <;> linarith
    obtain ⟨o1, e1, o2, e2⟩ := R.cubes oc ss (by rw [sa]; linarith)
    rw [sa] at e1 e2
    rw [Fn.tripleCos]
    generalize A.mulI (A.mul c (A.mul c c)) 4 = d at *
    generalize A.mulI c 3 = t at *
    have s3 : v c ^ 3 ≤ 101 / 100 := by
      have h1 := mul_le_mul s1 s1 s0.le (by norm_num)
      have h2 := mul_le_mul h1 s1 s0.le (by norm_num)
      have h3 : v c ^ 3 = v c * v c * v c := by ring
      rw [h3]
      norm_num at h2
      linarith
    have s30 : 0 ≤ v c ^ 3 := by positivity
    have us3 : u * v c ^ 3 ≤ u * (101 / 100) := mul_le_mul_of_nonneg_left s3 u0.le
    have us1 : u * v c ≤ u * 2 := mul_le_mul_of_nonneg_left (by linarith) u0.le
    have vd : |v d| ≤ 5 := by
      have := abs_sub_abs_le_abs_sub (v d) (4 * v c ^ 3)
      rw [abs_of_nonneg (show 0 ≤ 4 * v c ^ 3 by positivity)] at this
      linarith
    have vt : |v t| ≤ 5 := by
      have := abs_sub_abs_le_abs_sub (v t) (3 * v c)
      rw [abs_of_pos (show 0 < 3 * v c by positivity)] at this
      linarith
    have big : (100 : ℝ) ≤ pw 2000000000 := by
      refine le_trans (show (100 : ℝ) ≤ pw ((2 : ℕ) : ℤ) by rw [pw_nat]; norm_num) (pw_mono (by norm_num))
    obtain ⟨o4, e4, -⟩ := R.sub d t o1 o2 (by linarith) (by linarith)
    have e5 : |v (A.sub d t) - (4 * v c ^ 3 - 3 * v c)| ≤ 2 * u / 1000 := by
      have h1 : u / 10 ^ 12 * (|v d| + |v t|) ≤ u / 10 ^ 12 * 10 := mul_le_mul_of_nonneg_left (by linarith) (by positivity)
      have h2 := abs_sub_le (v (A.sub d t)) (v d - v t) (4 * v c ^ 3 - 3 * v c)
      have h3 : |v d - v t - (4 * v c ^ 3 - 3 * v c)| ≤ |v d - 4 * v c ^ 3| + |v t - 3 * v c| := by
        have := abs_sub (v d - 4 * v c ^ 3) (v t - 3 * v c)
        rwa [show v d - 4 * v c ^ 3 - (v t - 3 * v c) = v d - v t - (4 * v c ^ 3 - 3 * v c) by ring] at this
      linarith
    have e6 : |4 * v c ^ 3 - 3 * v c - Real.cos (θ * 3)| ≤ 91 / 10 * e := by
      rw [show θ * 3 = 3 * θ by ring, Real.cos_three_mul]
      generalize Real.cos θ = w at *
      rw [show 4 * v c ^ 3 - 3 * v c - (4 * w ^ 3 - 3 * w) = (v c - w) * (4 * (w ^ 2 + w * v c + v c ^ 2) - 3) by ring, abs_mul]
      have : |4 * (w ^ 2 + w * v c + v c ^ 2) - 3| ≤ 91 / 10 := by
        have w2 : 0 ≤ w := by linarith
        have h1 : w ^ 2 ≤ 1 := by have := mul_le_mul w1 w1 w2 (by norm_num); rw [sq]; linarith
        have h2 : w * v c ≤ 1001 / 1000 := by have := mul_le_mul w1 s1 s0.le (by norm_num); linarith
        have h3 : v c ^ 2 ≤ 1003 / 1000 := by have := mul_le_mul s1 s1 s0.le (by norm_num); rw [sq]; norm_num at this; linarith
        have h4 : 0 ≤ w * v c := by positivity
        have h5 : 0 ≤ w ^ 2 := by positivity
        have h6 : 0 ≤ v c ^ 2 := by positivity
        rw [abs_le]
        constructor <;> linarith
      have := mul_le_mul h this (abs_nonneg _) (by positivity)
      linarith
    have e7 : |v (A.sub d t) - Real.cos (θ * 3)| ≤ 91 / 10 * e + 2 * u / 1000 := by
      have := abs_sub_le (v (A.sub d t)) (4 * v c ^ 3 - 3 * v c) (Real.cos (θ * 3))
      linarith
    have hle : (91 / 10 * e + 2 * u / 1000 + u / 1000) * (91 / 10) ^ k ≤ (e + u / 1000) * ((91 / 10) ^ k * (91 / 10)) := by
      have : 91 / 10 * e + 2 * u / 1000 + u / 1000 ≤ (e + u / 1000) * (91 / 10) := by linarith
      have := mul_le_mul_of_nonneg_right this (show (0 : ℝ) ≤ (91 / 10) ^ k by positivity)
      linarith
    have ih := tripleCos_acc R k (θ * 3) (91 / 10 * e + 2 * u / 1000) (A.sub d t) o4 (by linarith) (by linarith) e7 (by linarith)
    rw [show θ * (3 ^ k * 3) = θ * 3 * 3 ^ k by ring]
    exact ⟨ih.1, le_trans ih.2 hle⟩

end Rnd
end EFX
