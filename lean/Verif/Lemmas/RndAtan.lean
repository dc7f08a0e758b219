import Verif.Lemmas.RndAsin
import Verif.Lemmas.RndHyp
import Verif.Props.Atan
/-!
# The arc tangent in rounded arithmetic
-/

namespace EFX
open Finset

variable {α : Type} {A : Arith α} {v : α → ℝ} {ok : α → Prop} {u : ℝ}

theorem arctan_ratio {y : ℝ} (h0 : y ≠ 0) (h1 : |y| ≤ 2 / 100) : |Real.arctan y / y - 1| ≤ 1 / 1000 := by
  have h2 : |-(y * y)| ≤ 1 / 1000 := by
    rw [abs_neg, abs_mul]
    have := mul_le_mul h1 h1 (abs_nonneg _) (by norm_num)
    linarith
  have hr : ∀ n, |t2f1 1 (1 / 2) (3 / 2) (-(y * y)) (n + 1)| ≤ |t2f1 1 (1 / 2) (3 / 2) (-(y * y)) n| * |-(y * y)| :=
    t2f1_ratio (by norm_num) (by norm_num) (by norm_num) (by norm_num) (by norm_num)
  have := tail_le (hasSum_atan h0 (by linarith)) (m := 1) (fun i _ => by
    have h5 := mul_le_mul_of_nonneg_left (show |-(y * y)| ≤ 1 / 2 by linarith) (abs_nonneg (t2f1 1 (1 / 2) (3 / 2) (-(y * y)) i))
    have := hr i
    linarith)
  rw [psum_succ, t2f1_zero] at this
  simp only [psum, Finset.range_zero, Finset.sum_empty, zero_add] at this
  rw [t2f1_one, abs_mul, abs_of_pos (by norm_num : (0 : ℝ) < 1 * (1 / 2) / (3 / 2))] at this
  have h3 : |-(y * y)| ≤ 4 / 10000 := by
    rw [abs_neg, abs_mul]
    have := mul_le_mul h1 h1 (abs_nonneg _) (by norm_num)
    linarith
  norm_num at this h3 ⊢
  linarith

namespace Rnd

/-- A sum of known sizes. -/
theorem add_sz (R : Rnd A v ok u) {x y : α} (hx : ok x) (hy : ok y) {k l : ℤ} (l0 : l + 5200 ≤ k) (hk : k ≤ 1000000)
    (sx : v x = 0 ∨ Sz l (v x)) (sy : v y = 0 ∨ Sz (k - 1) (v y)) (hy2 : |v y| ≤ pw l) :
    ok (A.add x y) ∧ |v (A.add x y) - (v x + v y)| ≤ u / 10 ^ 12 * (|v x| + |v y|) ∧ (v (A.add x y) = 0 ∨ Sz k (v (A.add x y))) := by
  have u0 := R.u0
  have u1 := R.u1
  have px : |v x| ≤ pw l := by
    rcases sx with h | h
    · rw [h, abs_zero]; exact (pw_pos _).le
    · exact h.2
  have pm : pw l ≤ pw 2000000000 := pw_mono (by omega)
  obtain ⟨o, e⟩ := R.add x y hx hy (by linarith) (by linarith)
  obtain ⟨z, n⟩ := R.addz x y hx hy (by linarith) (by linarith)
  refine ⟨o, e, ?_⟩
  have up : |v (A.add x y)| ≤ pw k := by
    have h1 : pw k = pw (k - l) * pw l := by rw [← pw_add]; congr 1; ring
    have h2 : (10 : ℝ) ≤ pw (k - l) := by rw [← pw_one]; exact pw_mono (by omega)
    have h3 := mul_le_mul_of_nonneg_right h2 (pw_pos l).le
    have h4 := abs_sub_abs_le_abs_sub (v (A.add x y)) (v x + v y)
    have h5 := abs_add_le (v x) (v y)
    have h6 : u / 10 ^ 12 * (|v x| + |v y|) ≤ 1 * (|v x| + |v y|) := mul_le_mul_of_nonneg_right (by norm_num at u1 ⊢; linarith) (by positivity)
    linarith [pw_pos l]
  by_cases h : v x = -v y
  · left; exact z h
  by_cases h0 : v x = 0
  · right
    rcases sy with hy0 | hs
    · rw [h0, hy0, neg_zero] at h; exact absurd rfl h
    refine ⟨?_, up⟩
    rw [h0, zero_add, abs_zero, zero_add] at e
    have h1 := abs_sub_abs_le_abs_sub (v y) (v (A.add x y))
    rw [abs_sub_comm] at h1
    have h2 : u / 10 ^ 12 * |v y| ≤ 1 / 2 * |v y| := mul_le_mul_of_nonneg_right (by norm_num at u1 ⊢; linarith) (abs_nonneg _)
    have h3 := hs.1
    have h4 : pw (-k) ≤ pw (-1) * pw (-(k - 1)) := by rw [← pw_add]; exact pw_mono (by omega)
    rw [pw_neg 1, pw_one] at h4
    have h5 := pw_pos (-(k - 1))
    rw [show (10 : ℝ)⁻¹ = 1 / 10 by norm_num] at h4
    linarith
  · right
    refine ⟨?_, up⟩
    refine le_trans ?_ (n h0 h)
    rcases sx with hx0 | hs
    · exact absurd hx0 h0
    have h1 := mul_le_mul_of_nonneg_left hs.1 (pw_pos (-5200)).le
    rw [← pw_add] at h1
    exact le_trans (pw_mono (by omega)) h1

/-- As `sin_sz`, beyond `pi/2`. -/
theorem sin_sz2 (R : Rnd A v ok u) (P : PiEnv A v ok u) {w : α} (hw : ok w) (w1 : |v w| ≤ 165 / 100) {k : ℤ} (k1 : 1 ≤ k)
    (hk : k ≤ 10000000) (sw : v w = 0 ∨ Sz k (v w)) :
    v (Fn.sin A w) = 0 ∨ Sz (k + 1) (v (Fn.sin A w)) := by
  by_cases h : |v w| ≤ 155 / 100
  · exact R.sin_sz P hw h k1 hk sw
  right
  have u0 := R.u0
  have u1 := R.u1
  obtain ⟨-, e1, -⟩ := R.sin_acc P hw (by norm_num; linarith) (sw.imp id (fun h => h.mono (by omega)))
  have l : 1 / 2 ≤ |Real.sin (v w)| := by
    have key : ∀ y : ℝ, 155 / 100 < y → y ≤ 165 / 100 → 1 / 2 ≤ Real.sin y := by
      intro y h1 h2
      have := Real.sin_gt_sub_cube (x := y) (by linarith)
      nlinarith [mul_nonneg (sub_nonneg.2 h1.le) (sub_nonneg.2 h2), sq_nonneg y]
    rcases le_or_gt 0 (v w) with h1 | h1
    · rw [abs_of_nonneg h1] at h w1
      exact le_trans (key _ (by linarith) w1) (le_abs_self _)
    · rw [abs_of_neg h1] at h w1
      have := key _ (by linarith) w1
      rw [Real.sin_neg] at this
      rw [← abs_neg]
      exact le_trans this (le_abs_self _)
  have h4 := abs_sub_abs_le_abs_sub (Real.sin (v w)) (v (Fn.sin A w))
  rw [abs_sub_comm] at h4
  have h5 := abs_sub_abs_le_abs_sub (v (Fn.sin A w)) (Real.sin (v w))
  have h6 := Real.abs_sin_le_one (v w)
  have h7 : u * (4 + |v w| / 1000) ≤ u * 5 := mul_le_mul_of_nonneg_left (by linarith) u0.le
  norm_num at u1
  have : Sz 1 (v (Fn.sin A w)) := by
    refine ⟨?_, ?_⟩
    · rw [pw_neg, pw_one]; norm_num; linarith
    · rw [pw_one]; linarith
  exact this.mono (by omega)

/-- One Newton step of the arc tangent. -/
theorem atanStep_acc (R : Rnd A v ok u) (P : PiEnv A v ok u) {x w : α} (hx : ok x) (hw : ok w) (x0 : 0 < v x) (xs : Sz 1000 (v x))
    (hA : (1 + v x) * (20000000 * u) ≤ 1 / 100) {p : ℝ} (p0 : 0 ≤ p) (hp : (1 + v x) * p ≤ 1 / 100)
    (hv : |v w - Real.arctan (v x)| ≤ p + 3 * (20000000 * u)) {k : ℤ} (k1 : 7300 ≤ k) (hk : k ≤ 900000)
    (sw : v w = 0 ∨ Sz k (v w)) :
    ok (Fn.atanStep A x w) ∧
    |v (Fn.atanStep A x w) - Real.arctan (v x)| ≤ (1 + v x) * p ^ 2 + 3 * (20000000 * u) ∧
    (v (Fn.atanStep A x w) = 0 ∨ Sz (k + 5200) (v (Fn.atanStep A x w))) := by
  have u0 := R.u0
  have u1 := R.u1
  have p1 := Real.pi_lt_d2
  have a0 : 0 < Real.arctan (v x) := Real.arctan_pos.2 x0
  have a1 := Real.arctan_lt_pi_div_two (v x)
  have pb : p ≤ 1 / 100 := by
    have : 1 * p ≤ (1 + v x) * p := mul_le_mul_of_nonneg_right (by linarith) p0
    linarith
  have w1 : |v w| ≤ 165 / 100 := by
    have := abs_sub_abs_le_abs_sub (v w) (Real.arctan (v x))
    rw [abs_of_pos a0] at this
    norm_num at u1
    linarith
  obtain ⟨os, es, -⟩ := R.sin_acc P hw (by norm_num; linarith) (sw.imp id (fun h => h.mono (by omega)))
  obtain ⟨oc, ec⟩ := R.cos_acc P hw (by norm_num; linarith) (sw.imp id (fun h => h.mono (by omega)))
  have ss := R.sin_sz2 P hw w1 (by omega) (by omega) sw
  unfold Fn.atanStep
  generalize Fn.sin A w = s at *
  generalize Fn.cos A w = c at *
  have es' : |v s - Real.sin (v w)| ≤ 5 * u := by
    have : u * (4 + |v w| / 1000) ≤ u * 5 := mul_le_mul_of_nonneg_left (by linarith) u0.le
    linarith
  have ec' : |v c - Real.cos (v w)| ≤ 20000000 * u := by
    have : u * (10000001 + |v w| / 1000) ≤ u * 20000000 := mul_le_mul_of_nonneg_left (by linarith) u0.le
    linarith
  have s2 : |v s| ≤ 3 / 2 := by
    have h5 := abs_sub_abs_le_abs_sub (v s) (Real.sin (v w))
    have h6 := Real.abs_sin_le_one (v w)
    norm_num at u1
    linarith
  have Ap : 0 < 20000000 * u := by positivity
  obtain ⟨-, n2, n3⟩ := atan_newton (C := v c) (S := v s) x0 p0 Ap hp hA hv (by rw [abs_sub_comm]; exact ec') (by rw [abs_sub_comm]; linarith)
  have c0 : 0 < v c := by
    by_contra hc
    have := mul_nonpos_of_nonneg_of_nonpos (show 0 ≤ 1 + v x by linarith) (not_lt.1 hc)
    linarith
  have c2 : v c ≤ 2 := by
    have h5 := (abs_le.1 ec').2
    have h6 := Real.cos_le_one (v w)
    norm_num at u1
    linarith
  have sc : Sz 1002 (v c) := by
    refine ⟨?_, ?_⟩
    · rw [abs_of_pos c0]
      have h1 : 1 + v x ≤ 2 * pw 1000 := by
        have h2 := xs.2
        rw [abs_of_pos x0] at h2
        have : (1 : ℝ) ≤ pw 1000 := by rw [← pw_zero]; exact pw_mono (by norm_num)
        linarith
      have h2 := mul_le_mul_of_nonneg_right h1 c0.le
      have h3 : 9 / 20 ≤ pw 1000 * v c := by linarith
      have h4 := mul_le_mul_of_nonneg_left h3 (pw_pos (-1000)).le
      rw [← mul_assoc, ← pw_add, show (-1000 : ℤ) + 1000 = 0 by norm_num, pw_zero, one_mul] at h4
      have h5 : pw (-1002) ≤ pw (-1) * pw (-1000) := by rw [← pw_add]; exact pw_mono (by norm_num)
      rw [pw_neg 1, pw_one, show (10 : ℝ)⁻¹ = 1 / 10 by norm_num] at h5
      have := pw_pos (-1000)
      linarith
    · rw [abs_of_pos c0]
      refine le_trans c2 (le_trans (show (2 : ℝ) ≤ pw 1 by rw [pw_one]; norm_num) (pw_mono (by norm_num)))
  have m2 : |v x * v c| ≤ 2 := by
    have := abs_sub_abs_le_abs_sub (v x * v c) (v s)
    linarith
  have sm := xs.mul sc
  obtain ⟨om, em, em2⟩ := R.mul x c hx oc (sm.mono (by norm_num))
  have sm2 : Sz 2003 (v (A.mul x c)) := by
    have h1 : NearR (u / 10 ^ 4) (v (A.mul x c)) (v x * v c) := em
    exact (h1.sz (by norm_num at u1 ⊢; linarith) sm).mono (by norm_num)
  have em' : |v (A.mul x c) - v x * v c| ≤ u / 1000 := by
    refine le_trans em ?_
    have := mul_le_mul_of_nonneg_left m2 (show 0 ≤ u / 10 ^ 4 by positivity)
    linarith
  generalize A.mul x c = m at *
  have s3 : |v s| ≤ pw 2003 := le_trans s2 (le_trans (show (3 / 2 : ℝ) ≤ pw 1 by rw [pw_one]; norm_num) (pw_mono (by norm_num)))
  obtain ⟨od, ed, sd⟩ := R.sub_sz (k := k + 2) (l := 2003) om os (by omega) (by omega) (Or.inr sm2)
    (ss.imp id (fun h => h.mono (by omega))) s3
  have ed' : |v (A.sub m s) - (v m - v s)| ≤ u / 1000 := by
    refine le_trans ed ?_
    have := mul_le_mul_of_nonneg_left (show |v m| + |v s| ≤ 4 by linarith) (show 0 ≤ u / 10 ^ 12 by positivity)
    linarith
  generalize A.sub m s = d at *
  have hS : |Real.sin (v w) - (v x * v c - v d)| ≤ 20000000 * u := by
    rw [show Real.sin (v w) - (v x * v c - v d) = (v d - (v m - v s)) + (v m - v x * v c) - (v s - Real.sin (v w)) by ring]
    have h1 := abs_sub ((v d - (v m - v s)) + (v m - v x * v c)) (v s - Real.sin (v w))
    have h2 := abs_add_le (v d - (v m - v s)) (v m - v x * v c)
    linarith
  obtain ⟨f1, f2, -⟩ := atan_newton (C := v c) (S := v x * v c - v d) x0 p0 Ap hp hA hv (by rw [abs_sub_comm]; exact ec') hS
  rw [sub_sub_cancel] at f1 f2
  have cd : |v c * v d| ≤ 1 / 5 := by
    rw [abs_mul, abs_of_pos c0]
    have := mul_le_mul c2 f2 (abs_nonneg _) (by norm_num)
    linarith
  have key : ok (A.mul c d) ∧ |v (A.mul c d) - v c * v d| ≤ u / 1000 ∧ (v (A.mul c d) = 0 ∨ Sz (k + 1005) (v (A.mul c d))) ∧ |v (A.mul c d)| ≤ 1 / 5 := by
    rcases sd with h | h
    · obtain ⟨o, e⟩ := R.mul0 c d oc od (by rw [h, mul_zero])
      refine ⟨o, ?_, Or.inl e, ?_⟩
      · rw [e, h, mul_zero, sub_self, abs_zero]; positivity
      · rw [e, abs_zero]; norm_num
    · have sz := sc.mul h
      obtain ⟨o, e, e2⟩ := R.mul c d oc od (sz.mono (by omega))
      refine ⟨o, ?_, Or.inr ?_, by linarith⟩
      · refine le_trans e ?_
        have := mul_le_mul_of_nonneg_left cd (show 0 ≤ u / 10 ^ 4 by positivity)
        linarith
      · have h1 : NearR (u / 10 ^ 4) (v (A.mul c d)) (v c * v d) := e
        exact (h1.sz (by norm_num at u1 ⊢; linarith) sz).mono (by omega)
  obtain ⟨oq, eq, sq, q1⟩ := key
  generalize A.mul c d = q at *
  obtain ⟨of, ef, sf⟩ := R.add_sz (k := k + 5200) (l := k) hw oq (by omega) (by omega) sw (sq.imp id (fun h => h.mono (by omega)))
    (le_trans q1 (le_trans (show (1 / 5 : ℝ) ≤ pw 0 by rw [pw_zero]; norm_num) (pw_mono (by omega))))
  refine ⟨of, ?_, sf⟩
  have e3 : u / 10 ^ 12 * (|v w| + |v q|) ≤ u / 10 ^ 12 * 3 := mul_le_mul_of_nonneg_left (by linarith) (by positivity)
  rw [show v (A.add w q) - Real.arctan (v x) = (v (A.add w q) - (v w + v q)) + (v q - v c * v d) + (v w + v c * v d - Real.arctan (v x)) by ring]
  have t1 := abs_add_le ((v (A.add w q) - (v w + v q)) + (v q - v c * v d)) (v w + v c * v d - Real.arctan (v x))
  have t2 := abs_add_le (v (A.add w q) - (v w + v q)) (v q - v c * v d)
  linarith

/-- The iteration from a start value off by at most `r * 10^-12` with `(1 + x) r ≤ 1`. -/
theorem atanLoop_acc (R : Rnd A v ok u) (P : PiEnv A v ok u) {x w : α} (hx : ok x) (hw : ok w) (x0 : 0 < v x) (xs : Sz 1000 (v x))
    (hA : (1 + v x) * (20000000 * u) ≤ 1 / 100) {r : ℝ} (r0 : 0 ≤ r) (hr : (1 + v x) * r ≤ 1)
    (hv : |v w - Real.arctan (v x)| ≤ r * pw (-12) + 3 * (20000000 * u)) (sw : v w = 0 ∨ Sz 7300 (v w)) :
    ok (Fn.digitLoop A (fun _ w => Fn.atanStep A x w) 32 12 w) ∧
    |v (Fn.digitLoop A (fun _ w => Fn.atanStep A x w) 32 12 w) - Real.arctan (v x)| ≤ 70000000 * u := by
  have u0 := R.u0
  obtain ⟨K, -, k2, k3, k4⟩ := digitLoop_gen A (fun _ w => Fn.atanStep A x w)
    (fun n w => n ≤ 32 → ok w ∧ |v w - Real.arctan (v x)| ≤ r * pw (-(12 * 2 ^ n)) + 3 * (20000000 * u) ∧
      (v w = 0 ∨ Sz (7300 + n * 5200) (v w)))
    (by
      intro n _ w hw hn
      obtain ⟨a, b, c⟩ := hw (by omega)
      have hq : pw (-(12 * 2 ^ n)) ≤ 1 / 100 := by
        have : pw (-(12 * 2 ^ n)) ≤ pw (-((2 : ℕ) : ℤ)) := by
          apply pw_mono
          have : (1 : ℤ) ≤ 2 ^ n := one_le_pow₀ (by norm_num)
          push_cast; omega
        rw [pw_neg ((2 : ℕ) : ℤ), pw_nat, ← one_div] at this
        norm_num at this ⊢
        exact this
      have hq0 := pw_pos (-(12 * 2 ^ n))
      obtain ⟨d, e, f⟩ := R.atanStep_acc P hx a x0 xs hA (p := r * pw (-(12 * 2 ^ n))) (by positivity)
        (by
          rw [← mul_assoc]
          have := mul_le_mul hr hq hq0.le (by norm_num)
          linarith) b (by omega) (by omega) c
      refine ⟨d, le_trans e ?_, ?_⟩
      · rw [show -(12 * 2 ^ (n + 1)) = -(12 * 2 ^ n) + -(12 * 2 ^ n : ℤ) by rw [pow_succ]; ring, pw_add]
        have h1 := mul_le_mul_of_nonneg_right hr (show 0 ≤ r * (pw (-(12 * 2 ^ n)) * pw (-(12 * 2 ^ n))) by positivity)
        have h2 : (1 + v x) * (r * pw (-(12 * 2 ^ n))) ^ 2 = (1 + v x) * r * (r * (pw (-(12 * 2 ^ n)) * pw (-(12 * 2 ^ n)))) := by ring
        linarith
      · refine f.imp id (fun h => ?_)
        refine h.mono ?_
        push_cast; omega)
    32 0 12 w (by norm_num) (by have := R.t1; norm_num; omega)
    (by
      intro _
      refine ⟨hw, ?_, sw.imp id (fun h => h.mono (by norm_num))⟩
      rw [pow_zero, mul_one]
      exact hv)
  obtain ⟨a, b, -⟩ := k4 (by omega)
  refine ⟨a, le_trans b ?_⟩
  rw [Nat.sub_zero] at k3
  have h1 : pw (-(12 * 2 ^ K)) ≤ pw (-A.tol) := pw_mono (by omega)
  have h2 := R.ut
  have r1 : r ≤ 1 := by
    have : 1 * r ≤ (1 + v x) * r := mul_le_mul_of_nonneg_right (by linarith) r0
    linarith
  have h3 : r * pw (-(12 * 2 ^ K)) ≤ 1 * (u / 1000) := mul_le_mul r1 (by linarith) (pw_pos _).le (by norm_num)
  linarith

/-- The series at zero. -/
theorem atanZero_acc (R : Rnd A v ok u) {x : α} (hx : ok x) (xs : Sz 10000000 (v x)) (x1 : |v x| ≤ 2 / 100) :
    ok (Fn.atanZero A x) ∧ |v (Fn.atanZero A x) - Real.arctan (v x)| ≤ u / 40 * |v x| := by
  have u0 := R.u0
  have u1 := R.u1
  have x0 := xs.ne
  have s2 := xs.mul xs
  obtain ⟨o1, e1, -⟩ := R.mul x x hx hx (s2.mono (by norm_num))
  obtain ⟨o2, e2⟩ := R.neg _ o1
  obtain ⟨o3, n3⟩ := R.threeHalf
  have nx : NearR (3 * u) (v (A.neg (A.mul x x))) (-(v x * v x)) := by
    rw [e2]
    have h1 : NearR (u / 10 ^ 4) (v (A.mul x x)) (v x * v x) := e1
    exact (h1.mono (by linarith)).neg
  have sX : Sz 40000000 (-(v x * v x)) := by
    unfold Sz at s2 ⊢
    rw [abs_neg]
    exact Sz.mono s2 (by norm_num)
  have bX : |-(v x * v x)| ≤ 1 / 1000 := by
    rw [abs_neg, abs_mul]
    have := mul_le_mul x1 x1 (abs_nonneg _) (by norm_num)
    linarith
  have hr := arctan_ratio x0 x1
  obtain ⟨oh, eh⟩ := R.hyp2f1_acc (a := Fn.one A) (b := A.half) (c := Fn.threeHalf A) o2 R.one.1 R.half.1 o3 nx sX bX
    (a0 := 1) (b0 := 1 / 2) (c0 := 3 / 2)
    (by norm_num) (by norm_num) (by norm_num) (by norm_num) (by norm_num) (by norm_num)
    (by rw [R.one.2]; exact NearR.rfl' (by positivity)) (by rw [R.half.2]; exact NearR.rfl' (by positivity)) n3
    (hasSum_atan x0 (by linarith)) (by linarith)
  unfold Fn.atanZero
  generalize Fn.hyp2f1 A (Fn.one A) A.half (Fn.threeHalf A) (A.neg (A.mul x x)) = h at *
  have hl := abs_le.1 hr
  have hh := abs_le.1 eh
  norm_num at u1
  have sh : Sz 1 (v h) := by
    unfold Sz
    rw [pw_neg, pw_one, abs_of_pos (by linarith)]
    norm_num
    constructor <;> linarith
  obtain ⟨om, em, -⟩ := R.mul x h hx oh ((xs.mul sh).mono (by norm_num))
  refine ⟨om, ?_⟩
  have ea : Real.arctan (v x) = v x * (Real.arctan (v x) / v x) := by field_simp
  generalize Real.arctan (v x) / v x = L at *
  rw [ea, show v (A.mul x h) - v x * L = (v (A.mul x h) - v x * v h) + v x * (v h - L) by ring]
  have t1 := abs_add_le (v (A.mul x h) - v x * v h) (v x * (v h - L))
  rw [abs_mul (v x) (v h - L)] at t1
  rw [abs_mul] at em
  have t2 := mul_le_mul_of_nonneg_left eh (abs_nonneg (v x))
  have t3 : u / 10 ^ 4 * (|v x| * |v h|) ≤ u / 10 ^ 4 * (|v x| * 2) := by
    apply mul_le_mul_of_nonneg_left _ (by positivity)
    apply mul_le_mul_of_nonneg_left _ (abs_nonneg _)
    rw [abs_of_pos (by linarith)]; linarith
  have t4 : 0 ≤ u * |v x| := by positivity
  have e4 : u / 10 ^ 4 * (|v x| * 2) = u * |v x| * (2 / 10 ^ 4) := by ring
  have e5 : |v x| * (u / 50) = u * |v x| / 50 := by ring
  have e6 : u / 40 * |v x| = u * |v x| / 40 := by ring
  rw [e4] at t3
  rw [e5] at t2
  rw [e6]
  norm_num at t3
  linarith

/-- The series at infinity for a positive argument. -/
theorem atanInf_acc (R : Rnd A v ok u) (P : PiEnv A v ok u) {x : α} (hx : ok x) (xs : Sz 10000000 (v x)) (x1 : 100 ≤ v x) :
    ok (Fn.atanInf A x) ∧ |v (Fn.atanInf A x) - Real.arctan (v x)| ≤ 2 * u := by
  have u0 := R.u0
  have u1 := R.u1
  have x0 : 0 < v x := by linarith
  have s2 := xs.mul xs
  obtain ⟨o1, e1, -⟩ := R.mul x x hx hx (s2.mono (by norm_num))
  have n1 : NearR (u / 10 ^ 4) (v (A.mul x x)) (v x * v x) := e1
  obtain ⟨o2, e2⟩ := R.neg _ R.one.1
  rw [R.one.2] at e2
  obtain ⟨o3, n3⟩ := R.threeHalf
  have s3 := n1.sz (by norm_num at u1 ⊢; linarith) s2
  have b1 : 2 ≤ |v (A.mul x x)| := by
    unfold NearR at n1
    have h1 := abs_sub_abs_le_abs_sub (v x * v x) (v (A.mul x x))
    rw [abs_sub_comm] at h1
    have h2 : u / 10 ^ 4 * |v x * v x| ≤ 1 / 2 * |v x * v x| := mul_le_mul_of_nonneg_right (by norm_num at u1 ⊢; linarith) (abs_nonneg _)
    have h3 : 100 * 100 ≤ v x * v x := mul_le_mul x1 x1 (by norm_num) x0.le
    rw [abs_of_pos (show 0 < v x * v x by positivity)] at h1 h2 n1
    linarith
  obtain ⟨o4, e4⟩ := R.div _ _ o2 o1 (Or.inr (by rw [e2, abs_neg, abs_one]; intro h; rw [← h] at b1; norm_num at b1))
    (by
      rw [e2]
      unfold Sz
      rw [abs_neg, abs_one, ← pw_zero]
      exact ⟨pw_mono (by norm_num), pw_mono (by norm_num)⟩) (s3.mono (by norm_num))
  rw [e2] at e4
  have hX : -((v x)⁻¹ * (v x)⁻¹) = -1 / (v x * v x) := by field_simp
  have nx : NearR (3 * u) (v (A.div (A.neg (Fn.one A)) (A.mul x x))) (-((v x)⁻¹ * (v x)⁻¹)) := by
    rw [hX]
    have h1 : NearR u (v (A.div (A.neg (Fn.one A)) (A.mul x x))) (-1 / v (A.mul x x)) := e4
    have h2 := (NearR.rfl' (e := 0) (b := (-1 : ℝ)) (le_refl _)).div (le_refl _) (show 0 ≤ u / 10 ^ 4 by positivity) (by norm_num at u1 ⊢; linarith)
      (show v x * v x ≠ 0 by positivity) n1
    refine (NearR.trans u0.le h1 h2).mono ?_
    have h3 : (0 + 2 * (u / 10 ^ 4) + 0 * (2 * (u / 10 ^ 4))) * u ≤ 1 * u := mul_le_mul_of_nonneg_right (by norm_num at u1 ⊢; linarith) u0.le
    linarith
  have sX : Sz 40000000 (-((v x)⁻¹ * (v x)⁻¹)) := by
    have := xs.inv.mul xs.inv
    unfold Sz at this ⊢
    rw [abs_neg]
    exact Sz.mono this (by norm_num)
  have y1 : |(v x)⁻¹| ≤ 2 / 100 := by
    rw [abs_of_pos (by positivity)]
    rw [inv_le_comm₀ x0 (by norm_num)]
    norm_num; linarith
  have bX : |-((v x)⁻¹ * (v x)⁻¹)| ≤ 1 / 1000 := by
    rw [abs_neg, abs_mul]
    have := mul_le_mul y1 y1 (abs_nonneg _) (by norm_num)
    linarith
  have yn : (v x)⁻¹ ≠ 0 := inv_ne_zero x0.ne'
  have hr := arctan_ratio yn y1
  obtain ⟨oh, eh⟩ := R.hyp2f1_acc (a := A.half) (b := Fn.one A) (c := Fn.threeHalf A) o4 R.half.1 R.one.1 o3 nx sX bX
    (a0 := 1 / 2) (b0 := 1) (c0 := 3 / 2)
    (by norm_num) (by norm_num) (by norm_num) (by norm_num) (by norm_num) (by norm_num)
    (by rw [R.half.2]; exact NearR.rfl' (by positivity)) (by rw [R.one.2]; exact NearR.rfl' (by positivity)) n3
    (L := Real.arctan (v x)⁻¹ / (v x)⁻¹) (by
      have hc : t2f1 (1 / 2) 1 (3 / 2) (-((v x)⁻¹ * (v x)⁻¹)) = t2f1 1 (1 / 2) (3 / 2) (-((v x)⁻¹ * (v x)⁻¹)) := by
        funext n; exact t2f1_comm _ _ _ _ _
      rw [hc]
      exact hasSum_atan yn (by linarith)) (by linarith)
  unfold Fn.atanInf
  generalize Fn.hyp2f1 A A.half (Fn.one A) (Fn.threeHalf A) (A.div (A.neg (Fn.one A)) (A.mul x x)) = h at *
  have hl := abs_le.1 hr
  have hh := abs_le.1 eh
  norm_num at u1
  have h0 : 0 < v h := by linarith
  have sh : Sz 1 (v h) := by
    unfold Sz
    rw [pw_neg, pw_one, abs_of_pos h0]
    norm_num
    constructor <;> linarith
  obtain ⟨oq, eq⟩ := R.div h x oh hx (Or.inl h0) (sh.mono (by norm_num)) (xs.mono (by norm_num))
  have q1 : |v h / v x| ≤ 2 / 100 := by
    rw [abs_of_pos (by positivity), div_le_iff₀ x0]; linarith
  obtain ⟨op, ep⟩ := R.piHalf_acc P
  have p1 := Real.pi_gt_d2
  have p2 := Real.pi_lt_d2
  have pq : |v (Fn.piHalf A)| ≤ 2 := by
    have := abs_sub_abs_le_abs_sub (v (Fn.piHalf A)) (Real.pi / 2)
    rw [abs_of_pos (show 0 < Real.pi / 2 by linarith)] at this
    linarith
  have qv : |v (A.div h x)| ≤ 1 := by
    have h1 := abs_sub_abs_le_abs_sub (v (A.div h x)) (v h / v x)
    have h2 : u * |v h / v x| ≤ 1 * |v h / v x| := mul_le_mul_of_nonneg_right (by linarith) (abs_nonneg _)
    linarith
  have big : (2 : ℝ) ≤ pw 2000000000 := by
    refine le_trans (show (2 : ℝ) ≤ pw 1 by rw [pw_one]; norm_num) (pw_mono (by norm_num))
  obtain ⟨of, ef, -⟩ := R.sub _ _ op oq (by linarith) (by linarith)
  refine ⟨of, ?_⟩
  have hinv := Real.arctan_inv_of_pos x0
  have ea : Real.arctan (v x) = Real.pi / 2 - (v x)⁻¹ * (Real.arctan (v x)⁻¹ / (v x)⁻¹) := by
    rw [hinv]; field_simp; ring
  generalize Real.arctan (v x)⁻¹ / (v x)⁻¹ = L at *
  have f1 : u * |v h / v x| ≤ u * (2 / 100) := mul_le_mul_of_nonneg_left q1 u0.le
  have f2 : |(v x)⁻¹ * (v h - L)| ≤ 2 / 100 * (u / 50) := by
    rw [abs_mul]
    exact mul_le_mul y1 eh (abs_nonneg _) (by norm_num)
  have f3 : u / 10 ^ 12 * (|v (Fn.piHalf A)| + |v (A.div h x)|) ≤ u / 10 ^ 12 * 3 := mul_le_mul_of_nonneg_left (by linarith) (by positivity)
  rw [ea, show v (A.sub (Fn.piHalf A) (A.div h x)) - (Real.pi / 2 - (v x)⁻¹ * L) =
    (v (A.sub (Fn.piHalf A) (A.div h x)) - (v (Fn.piHalf A) - v (A.div h x))) + (v (Fn.piHalf A) - Real.pi / 2) -
      ((v (A.div h x) - v h / v x) + (v x)⁻¹ * (v h - L)) by ring]
  have t1 := abs_sub ((v (A.sub (Fn.piHalf A) (A.div h x)) - (v (Fn.piHalf A) - v (A.div h x))) + (v (Fn.piHalf A) - Real.pi / 2))
      ((v (A.div h x) - v h / v x) + (v x)⁻¹ * (v h - L))
  have t2 := abs_add_le (v (A.sub (Fn.piHalf A) (A.div h x)) - (v (Fn.piHalf A) - v (A.div h x))) (v (Fn.piHalf A) - Real.pi / 2)
  have t3 := abs_add_le (v (A.div h x) - v h / v x) ((v x)⁻¹ * (v h - L))
  have f4 : u / 10 ^ 12 * 3 ≤ u / 1000 := by linarith
  have f5 := le_trans ef (le_trans f3 f4)
  linarith

/-- The double precision start value of the arc tangent: off by at most `10^-15`, zero or not below `10^-400`. -/
structure AtanStart (A : Arith α) (v : α → ℝ) (ok : α → Prop) (x : α) : Prop where
  ok : ok (A.atan0 x)
  near : |v (A.atan0 x) - Real.arctan (v x)| ≤ 1 / 10 ^ 15
  sz : v (A.atan0 x) = 0 ∨ Sz 400 (v (A.atan0 x))

/-- The arc tangent. -/
theorem atan_acc (R : Rnd A v ok u) (P : PiEnv A v ok u) {x : α} (hx : ok x) (hs : v x = 0 ∨ pw (-10000000) ≤ |v x|)
    (hn : 0 ≤ v x ∨ |v x| < pw (Fn.argLim A + 1) ∨ pw (A.tol + 1) ≤ |v x|)
    (h0 : pw (-Fn.argLim A) ≤ |v x| → |v x| < 100 → AtanStart A v ok (Fn.fabs A x)) :
    ok (Fn.atan A x) ∧ |v (Fn.atan A x) - Real.arctan (v x)| ≤ 70000000 * u ∧
      (|v x| < pw (-Fn.argLim A) → |v (Fn.atan A x) - Real.arctan (v x)| ≤ u / 40 * |v x|) := by
  have u0 := R.u0
  have u1 := R.u1
  have t0 := R.t0
  have t1 := R.t1
  obtain ⟨lo, up⟩ := R.argLim_le
  unfold Fn.atan
  rw [R.isfinite_ok hx]
  simp only [Bool.not_true, Bool.false_eq_true, if_false]
  by_cases xz : v x = 0
  · rw [R.order0 x hx xz, if_neg (by omega), if_pos ((R.iszero x hx).2 xz)]
    refine ⟨(R.zero).1, ?_, ?_⟩
    · rw [(R.zero).2, xz, Real.arctan_zero, sub_self, abs_zero]; positivity
    · intro _
      rw [(R.zero).2, xz, Real.arctan_zero, sub_self, abs_zero]; positivity
  have hxs := hs.resolve_left xz
  have xp : 0 < |v x| := abs_pos.2 xz
  obtain ⟨or1, or2⟩ := R.order x hx xz
  have hz : ¬A.iszero x = true := fun h => xz ((R.iszero x hx).1 h)
  by_cases hbig : A.order x > A.tol
  · rw [if_pos hbig]
    have hge : pw A.tol ≤ |v x| := le_trans (pw_mono (by omega)) or1
    have notsmall : ¬|v x| < pw (-Fn.argLim A) := by
      have := pw_mono (show -Fn.argLim A ≤ A.tol by omega)
      linarith
    have inv : |v x|⁻¹ ≤ u / 1000 := by
      refine le_trans ?_ R.ut
      rw [pw_neg]; exact inv_anti₀ (pw_pos _) hge
    have hb := Props.arctan_big xp
    obtain ⟨op, ep⟩ := R.piHalf_acc P
    by_cases hneg : v x < 0
    · have hb2 := (R.isneg x hx).2 hneg
      simp only [hb2, Bool.not_true, Bool.false_eq_true, if_false]
      obtain ⟨on, en⟩ := R.neg _ op
      refine ⟨on, ?_, fun h => absurd h notsmall⟩
      rw [en]
      rw [abs_of_neg hneg] at hb inv
      rw [Real.arctan_neg] at hb
      rw [show -v (Fn.piHalf A) - Real.arctan (v x) = -(v (Fn.piHalf A) - Real.pi / 2) + (-Real.arctan (v x) - Real.pi / 2) by ring]
      have := abs_add_le (-(v (Fn.piHalf A) - Real.pi / 2)) (-Real.arctan (v x) - Real.pi / 2)
      rw [abs_neg] at this
      linarith
    · have hb2 : A.isneg x = false := by
        by_contra hc
        exact hneg ((R.isneg x hx).1 (by simpa using hc))
      simp only [hb2, Bool.not_false, if_true]
      refine ⟨op, ?_, fun h => absurd h notsmall⟩
      rw [abs_of_nonneg (not_lt.1 hneg)] at hb inv
      rw [show v (Fn.piHalf A) - Real.arctan (v x) = (v (Fn.piHalf A) - Real.pi / 2) - (Real.arctan (v x) - Real.pi / 2) by ring]
      have := abs_sub (v (Fn.piHalf A) - Real.pi / 2) (Real.arctan (v x) - Real.pi / 2)
      linarith
  rw [if_neg hbig, if_neg hz]
  have hxu : |v x| ≤ pw 5501 := le_trans or2.le (pw_mono (by omega))
  have xs : Sz 10000000 (v x) := ⟨hxs, le_trans hxu (pw_mono (by norm_num))⟩
  by_cases hsm : Fn.smallArg A x = true
  · rw [if_pos hsm]
    have h6 := R.smallArg_le hx xz hsm
    obtain ⟨o, e⟩ := R.atanZero_acc hx xs (by norm_num at h6 ⊢; linarith)
    refine ⟨o, le_trans e ?_, fun _ => e⟩
    have : u / 40 * |v x| ≤ u / 40 * 1 := mul_le_mul_of_nonneg_left (by norm_num at h6 ⊢; linarith) (by positivity)
    linarith
  rw [if_neg hsm]
  have hsm2 : -Fn.argLim A ≤ A.order x := by
    unfold Fn.smallArg at hsm
    rw [decide_eq_true_eq] at hsm
    omega
  have hge : pw (-Fn.argLim A) ≤ |v x| := le_trans (pw_mono hsm2) or1
  have notsmall : ¬|v x| < pw (-Fn.argLim A) := not_lt.2 hge
  by_cases hlg : Fn.largeArg A x = true
  · rw [if_pos hlg]
    unfold Fn.largeArg at hlg
    rw [decide_eq_true_eq] at hlg
    have h100 : 100 ≤ |v x| := by
      refine le_trans ?_ (le_trans (pw_mono (show ((2 : ℕ) : ℤ) ≤ A.order x by push_cast; omega)) or1)
      rw [pw_nat]; norm_num
    have pos : 0 ≤ v x := by
      rcases hn with h | h | h
      · exact h
      · have := pw_mono (show Fn.argLim A + 1 ≤ A.order x by omega)
        linarith
      · have := pw_lt (lt_of_le_of_lt h or2)
        omega
    rw [abs_of_nonneg pos] at h100
    obtain ⟨o, e⟩ := R.atanInf_acc P hx xs h100
    exact ⟨o, by linarith, fun h => absurd h notsmall⟩
  rw [if_neg hlg]
  have hlg2 : A.order x ≤ Fn.argLim A := by
    unfold Fn.largeArg at hlg
    rw [decide_eq_true_eq] at hlg
    omega
  obtain ⟨oa, ea⟩ := R.fabs_acc hx
  have hup : |v x| ≤ pw (Fn.argLim A + 1) := le_trans or2.le (pw_mono (by omega))
  have sa : Sz 1000 (v (Fn.fabs A x)) := by
    rw [ea]
    unfold Sz
    rw [abs_abs]
    exact ⟨le_trans (pw_mono (by omega)) hge, le_trans hup (pw_mono (by omega))⟩
  have hA : (1 + v (Fn.fabs A x)) * (20000000 * u) ≤ 1 / 100 := by
    rw [ea]
    have g1 : 1 + |v x| ≤ 2 * pw (Fn.argLim A + 1) := by
      have : (1 : ℝ) ≤ pw (Fn.argLim A + 1) := by rw [← pw_zero]; exact pw_mono (by omega)
      linarith
    have g2 : pw (Fn.argLim A + 1) * u ≤ pw (-((11 : ℕ) : ℤ)) := by
      rcases le_or_gt (A.tol / 10) 6 with h | h
      · have e6 : Fn.argLim A = 6 := by unfold Fn.argLim; omega
        rw [e6, show (6 : ℤ) + 1 = ((7 : ℕ) : ℤ) from rfl, pw_nat, pw_neg, pw_nat]
        norm_num at u1 ⊢
        linarith
      · have e6 : Fn.argLim A = A.tol / 10 := by unfold Fn.argLim; omega
        have := mul_le_mul_of_nonneg_left R.ut2 (pw_pos (Fn.argLim A + 1)).le
        rw [← pw_add] at this
        refine le_trans this (pw_mono ?_)
        rw [e6]
        push_cast
        omega
    rw [pw_neg, pw_nat] at g2
    have g3 := mul_le_mul_of_nonneg_right g1 (show 0 ≤ 20000000 * u by positivity)
    norm_num at g2 ⊢
    linarith
  -- the start value
  have start : ∃ r : ℝ, 0 ≤ r ∧ (1 + v (Fn.fabs A x)) * r ≤ 1 ∧
      ok (if A.order x < 2 then A.atan0 (Fn.fabs A x) else Fn.atanInf A (Fn.fabs A x)) ∧
      |v (if A.order x < 2 then A.atan0 (Fn.fabs A x) else Fn.atanInf A (Fn.fabs A x)) - Real.arctan (v (Fn.fabs A x))| ≤
        r * pw (-12) + 3 * (20000000 * u) ∧
      (v (if A.order x < 2 then A.atan0 (Fn.fabs A x) else Fn.atanInf A (Fn.fabs A x)) = 0 ∨
        Sz 7300 (v (if A.order x < 2 then A.atan0 (Fn.fabs A x) else Fn.atanInf A (Fn.fabs A x)))) := by
    by_cases h2 : A.order x < 2
    · rw [if_pos h2]
      have h100 : |v x| < 100 := by
        refine lt_of_lt_of_le or2 (le_trans (pw_mono (show A.order x + 1 ≤ ((2 : ℕ) : ℤ) by push_cast; omega)) ?_)
        rw [pw_nat]; norm_num
      have st := h0 hge h100
      refine ⟨1 / 101, by norm_num, by rw [ea]; linarith, st.ok, le_trans st.near ?_, st.sz.imp id (fun h => h.mono (by norm_num))⟩
      rw [show (-12 : ℤ) = -((12 : ℕ) : ℤ) from rfl, pw_neg, pw_nat]
      norm_num
      linarith
    · rw [if_neg h2]
      have h100 : 100 ≤ v (Fn.fabs A x) := by
        rw [ea]
        refine le_trans ?_ (le_trans (pw_mono (show ((2 : ℕ) : ℤ) ≤ A.order x by push_cast; omega)) or1)
        rw [pw_nat]; norm_num
      obtain ⟨o, e⟩ := R.atanInf_acc P oa (sa.mono (by norm_num)) h100
      refine ⟨0, le_refl _, by norm_num, o, by rw [zero_mul]; linarith, Or.inr ?_⟩
      have hb := Props.arctan_big (show 0 < v (Fn.fabs A x) by linarith)
      have hi : (v (Fn.fabs A x))⁻¹ ≤ 1 / 100 := by
        rw [inv_le_comm₀ (by linarith) (by norm_num)]; norm_num; linarith
      have p1 := Real.pi_gt_d2
      have p2 := Real.pi_lt_d2
      have g1 := abs_le.1 e
      have g2 := abs_le.1 hb
      norm_num at u1
      have : Sz 1 (v (Fn.atanInf A (Fn.fabs A x))) := by
        unfold Sz
        rw [pw_neg, pw_one, abs_of_pos (by linarith)]
        norm_num
        constructor <;> linarith
      exact this.mono (by norm_num)
  obtain ⟨r, r0, r1, ow, ew, sw⟩ := start
  obtain ⟨ol, el⟩ := R.atanLoop_acc P oa ow (by rw [ea]; exact xp) sa hA r0 r1 ew sw
  rw [ea] at el
  by_cases hneg : v x < 0
  · have hb := (R.isneg x hx).2 hneg
    have hf : A.neg x = Fn.fabs A x := by unfold Fn.fabs; rw [if_pos hb]
    simp only [hb, Bool.not_true, Bool.false_eq_true, if_false, hf]
    obtain ⟨o, e⟩ := R.neg _ ol
    refine ⟨o, ?_, fun h => absurd h notsmall⟩
    rw [e]
    rw [abs_of_neg hneg, Real.arctan_neg] at el
    rw [show ∀ a b : ℝ, -a - b = -(a - -b) by intros; ring, abs_neg]
    exact el
  · have hb : A.isneg x = false := by
      by_contra hc
      exact hneg ((R.isneg x hx).1 (by simpa using hc))
    have hf : Fn.fabs A x = x := by unfold Fn.fabs; rw [hb]; rfl
    rw [hf] at ol el
    simp only [hb, Bool.not_false, if_true]
    rw [abs_of_nonneg (not_lt.1 hneg)] at el
    exact ⟨ol, el, fun h => absurd h notsmall⟩

end Rnd
end EFX
