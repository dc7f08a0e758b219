import Mathlib.Analysis.Complex.ExponentialBounds
import Mathlib.Analysis.Real.Pi.Bounds
import Verif.Lemmas.Theta
/-!
# The formula of Gauss, Brent and Salamin for `pi`
-/

namespace EFX.Theta
open Filter Topology

/-- `exp (-pi t)`. -/
noncomputable def qe (t : ℝ) : ℝ := Real.exp (-Real.pi * t)

theorem qe_pos (t : ℝ) : 0 < qe t := Real.exp_pos _

theorem qe_lt {t : ℝ} (h : 0 < t) : qe t < 1 := by
  unfold qe; rw [Real.exp_lt_one_iff]; nlinarith [Real.pi_pos]

theorem qe_two (t : ℝ) : qe t ^ 2 = qe (2 * t) := by
  unfold qe; rw [← Real.exp_nat_mul]; congr 1; push_cast; ring

theorem th_qe (t : ℝ) : th (qe t) = ∑' n : ℤ, Real.exp (-Real.pi * t * (n : ℝ) ^ 2) := by
  unfold th qe
  refine tsum_congr fun n => ?_
  rw [← Real.exp_nat_mul]
  congr 1
  have : ((sq n : ℕ) : ℝ) = (n : ℝ) ^ 2 := by exact_mod_cast sq_cast n
  rw [this]; ring

/-- The functional equation. -/
theorem th_fe {t : ℝ} (h : 0 < t) : Real.sqrt t * th (qe t) = th (qe t⁻¹) := by
  rw [th_qe, Real.tsum_exp_neg_mul_int_sq h, th_qe, ← Real.sqrt_eq_rpow, ← mul_assoc, mul_one_div,
    div_self (Real.sqrt_pos.2 h).ne', one_mul]
  rfl

/-- At `exp (-pi)` the pair of the arithmetic-geometric mean has the ratio `1 / sqrt 2`. -/
theorem start_ratio : th (-qe 1) ^ 4 = th (qe 1) ^ 4 / 2 := by
  have e1 := th_add (q := qe (1 / 2)) (by rw [abs_of_pos (qe_pos _)]; exact qe_lt (by norm_num))
  have e2 := th_mul (q := qe (1 / 2)) (by rw [abs_of_pos (qe_pos _)]; exact qe_lt (by norm_num))
  have e3 := th_add (q := qe 1) (by rw [abs_of_pos (qe_pos _)]; exact qe_lt (by norm_num))
  have f := th_fe (t := 2) (by norm_num)
  rw [qe_two] at e1 e2 e3
  norm_num at e1 e2 e3 f
  have f2 : 2 * th (qe 2) ^ 2 = th (qe (1 / 2)) ^ 2 := by
    rw [← f, mul_pow, Real.sq_sqrt (by norm_num)]
  have e4 : th (-qe 1) ^ 4 = th (qe (1 / 2)) ^ 2 * th (-qe (1 / 2)) ^ 2 := by
    have : th (-qe 1) ^ 4 = (th (-qe 1) ^ 2) ^ 2 := by ring
    rw [this, ← e2]; ring
  have e5 : th (qe (1 / 2)) ^ 2 = th (qe 1) ^ 2 + th (-qe 1) ^ 2 := by linarith
  have e6 : th (-qe (1 / 2)) ^ 2 = th (qe 1) ^ 2 - th (-qe 1) ^ 2 := by linarith
  rw [e5, e6] at e4
  linear_combination e4 / 2

/-- The logarithmic derivative at `exp (-pi)`. -/
theorem L3_start : 2 * L3 (qe 1) = 1 / (2 * Real.pi) := by
  have hd : HasDerivAt (fun t => th (qe t)) (th' (qe 1) * (-Real.pi * qe 1)) 1 := by
    have h1 : HasDerivAt qe (-Real.pi * qe 1) 1 := by
      have := ((hasDerivAt_id (1 : ℝ)).const_mul (-Real.pi)).exp
      simp only [id, mul_one] at this
      unfold qe
      rw [mul_one, mul_comm]
      exact this
    exact HasDerivAt.comp (h₂ := th) (h := qe) 1 (hasDerivAt_th (by rw [abs_of_pos (qe_pos _)]; exact qe_lt (by norm_num))) h1
  have hi : HasDerivAt (fun t : ℝ => th (qe t⁻¹)) (-(th' (qe 1) * (-Real.pi * qe 1))) 1 := by
    have h1 := hasDerivAt_inv (x := (1 : ℝ)) (by norm_num)
    have hd' : HasDerivAt (fun t => th (qe t)) (th' (qe 1) * (-Real.pi * qe 1)) (1 : ℝ)⁻¹ := by rw [inv_one]; exact hd
    have := HasDerivAt.comp (h₂ := fun t => th (qe t)) (h := fun t : ℝ => t⁻¹) 1 hd' h1
    norm_num at this ⊢
    exact this
  have hs : HasDerivAt (fun t : ℝ => Real.sqrt t * th (qe t)) (1 / 2 * th (qe 1) + th' (qe 1) * (-Real.pi * qe 1)) 1 := by
    have h1 := Real.hasDerivAt_sqrt (x := 1) (by norm_num)
    have := h1.mul hd
    simp only [Real.sqrt_one, one_mul, mul_one] at this
    exact this
  have he : (fun t : ℝ => Real.sqrt t * th (qe t)) =ᶠ[𝓝 1] fun t : ℝ => th (qe t⁻¹) := by
    filter_upwards [lt_mem_nhds (show (0 : ℝ) < 1 by norm_num)] with t ht using th_fe ht
  have e := hs.unique (hi.congr_of_eventuallyEq he)
  have hp := th_ge_one (qe_pos 1).le (qe_lt (by norm_num))
  have hpi := Real.pi_pos
  unfold L3
  field_simp
  linarith

/-! ### Bounds -/

theorem summable_nat {q : ℝ} (hq : |q| < 1) : Summable fun n : ℕ => q ^ ((n + 1) ^ 2) := by
  have := (summable_pow hq).comp_injective (i := fun n : ℕ => ((n + 1 : ℕ) : ℤ)) (fun a b h => by simpa using h)
  refine this.congr fun n => ?_
  simp only [Function.comp, sq, Int.natAbs_natCast]

theorem th_split {q : ℝ} (hq : |q| < 1) : th q = 1 + 2 * ∑' n : ℕ, q ^ ((n + 1) ^ 2) := by
  have s := summable_nat hq
  have e1 : ∀ n : ℕ, q ^ sq ((n : ℤ) + 1) = q ^ ((n + 1) ^ 2) := fun n => by
    rw [show ((n : ℤ) + 1) = ((n + 1 : ℕ) : ℤ) by push_cast; rfl, sq, Int.natAbs_natCast]
  have e2 : ∀ n : ℕ, q ^ sq (-((n : ℤ) + 1)) = q ^ ((n + 1) ^ 2) := fun n => by rw [sq_neg, e1]
  have h := tsum_of_add_one_of_neg_add_one (f := fun n : ℤ => q ^ sq n) (by simpa only [e1] using s) (by simpa only [e2] using s)
  simp only [e1, e2] at h
  unfold th
  rw [h]
  simp only [sq, Int.natAbs_zero]
  ring

theorem nat_sum_le {q : ℝ} (h0 : 0 ≤ q) (h1 : q < 1) : q ≤ ∑' n : ℕ, q ^ ((n + 1) ^ 2) ∧ ∑' n : ℕ, q ^ ((n + 1) ^ 2) ≤ q / (1 - q) := by
  have hq : |q| < 1 := by rwa [abs_of_nonneg h0]
  have s := summable_nat hq
  constructor
  · have := s.sum_le_tsum {0} (fun n _ => pow_nonneg h0 _)
    simpa using this
  · have g : HasSum (fun n : ℕ => q * q ^ n) (q * (1 - q)⁻¹) := (hasSum_geometric_of_lt_one h0 h1).mul_left q
    have := s.tsum_le_tsum (fun n => ?_) g.summable
    · rw [g.tsum_eq] at this
      rw [div_eq_mul_inv]; exact this
    · rw [← pow_succ']
      refine pow_le_pow_of_le_one h0 h1.le ?_
      nlinarith

theorem th_bounds {q : ℝ} (h0 : 0 ≤ q) (h1 : q < 1) : 1 + 2 * q ≤ th q ∧ th q ≤ 1 + 2 * (q / (1 - q)) := by
  have hq : |q| < 1 := by rwa [abs_of_nonneg h0]
  rw [th_split hq]
  have := nat_sum_le h0 h1
  constructor <;> linarith [this.1, this.2]

theorem th_neg_ge {q : ℝ} (h0 : 0 ≤ q) (h1 : q < 1) : 2 - th q ≤ th (-q) := by
  have hq : |q| < 1 := by rwa [abs_of_nonneg h0]
  have s1 := summable_nat hq
  have s2 := summable_nat (q := -q) (by rwa [abs_neg])
  rw [th_split hq, th_split (by rwa [abs_neg])]
  have : 0 ≤ ∑' n : ℕ, (q ^ ((n + 1) ^ 2) + (-q) ^ ((n + 1) ^ 2)) := by
    refine tsum_nonneg fun n => ?_
    rcases Nat.mod_two_eq_zero_or_one ((n + 1) ^ 2) with h | h
    · rw [neg_pow_even h]; positivity
    · rw [neg_pow_odd h]; simp
  rw [s1.tsum_add s2] at this
  linarith

theorem th_neg_le {q : ℝ} (h0 : 0 ≤ q) (h1 : q < 1) : th (-q) ≤ th q := by
  have hq : |q| < 1 := by rwa [abs_of_nonneg h0]
  refine (summable_pow (by rwa [abs_neg])).tsum_le_tsum (fun n => ?_) (summable_pow hq)
  refine (le_abs_self _).trans ?_
  rw [abs_pow, abs_neg, abs_of_nonneg h0]

theorem th_neg_le_one {q : ℝ} (h0 : 0 ≤ q) (h1 : q < 1) : th (-q) ≤ 1 := by
  have hq : |q| < 1 := by rwa [abs_of_nonneg h0]
  have key : ∀ n : ℕ, th (-q) ≤ th (-q ^ 2 ^ n) := by
    intro n
    induction n with
    | zero => simp
    | succ n ih =>
      have a0 : 0 ≤ q ^ 2 ^ n := by positivity
      have a1 : q ^ 2 ^ n < 1 := pow_lt_one₀ h0 h1 (by positivity)
      have h2 := th_mul (q := q ^ 2 ^ n) (by rwa [abs_of_nonneg a0])
      have h3 := th_neg_le a0 a1
      have h4 := th_neg_pos a0 a1
      have h5 := th_neg_pos (q := (q ^ 2 ^ n) ^ 2) (by positivity) (pow_lt_one₀ a0 a1 (by norm_num))
      rw [← pow_mul, ← pow_succ] at h2 h5
      refine ih.trans ?_
      refine le_of_sq_le_sq ?_ h5.le
      rw [← h2]
      nlinarith
  have t : Tendsto (fun n : ℕ => th (-q ^ 2 ^ n)) atTop (𝓝 1) := by
    rw [← th_zero]
    exact (continuousAt_th (q := 0) (by simp)).tendsto.comp (by simpa using (tendsto_sq hq).neg)
  exact ge_of_tendsto' t key

/-- Bounds of the difference of squares. -/
theorem c2_bounds {q : ℝ} (h0 : 0 ≤ q) (h1 : q ≤ 1 / 20) : 8 * q ≤ c2 q ∧ c2 q ≤ 30 * q ∧ th q ^ 4 ≤ 1 + c2 q := by
  have h1' : q < 1 := by linarith
  obtain ⟨a, b⟩ := th_bounds h0 h1'
  have c := th_neg_ge h0 h1'
  have d := th_neg_le_one h0 h1'
  have e := th_neg_pos h0 h1'
  have b' : th q ≤ 1 + 20 / 9 * q := by
    refine b.trans ?_
    have : q / (1 - q) ≤ 10 / 9 * q := by rw [div_le_iff₀ (by linarith)]; nlinarith
    linarith
  have hd : th (-q) ^ 4 ≤ 1 := pow_le_one₀ e.le d
  unfold c2
  refine ⟨?_, ?_, by linarith⟩
  · have : (1 + 2 * q) ^ 4 ≤ th q ^ 4 := pow_le_pow_left₀ (by linarith) a 4
    nlinarith [pow_nonneg h0 2, pow_nonneg h0 3, pow_nonneg h0 4]
  · have h3 : th q ^ 4 ≤ (1 + 20 / 9 * q) ^ 4 := pow_le_pow_left₀ (by linarith) b' 4
    have h4 : (1 - 20 / 9 * q) ^ 4 ≤ th (-q) ^ 4 := pow_le_pow_left₀ (by linarith) (by linarith) 4
    nlinarith [mul_le_mul_of_nonneg_left h1 h0, pow_nonneg h0 2, pow_nonneg h0 3, mul_nonneg (mul_nonneg h0 h0) (sub_nonneg.2 h1)]

/-- Bounds of the logarithmic derivative. -/
theorem L3_bounds {q : ℝ} (h0 : 0 ≤ q) (h1 : q ≤ 1 / 20) : 0 ≤ L3 q ∧ L3 q ≤ 5 * q := by
  have h1' : q < 1 := by linarith
  have p := th_ge_one h0 h1'
  have t0 : 0 ≤ th' q := tsum_nonneg fun n => by positivity
  refine ⟨by unfold L3; positivity, ?_⟩
  have h2 : q * th' q ≤ th (2 * q) - th q := by
    have s1 := summable_bound h0 h1'
    have s2 := summable_pow (q := q) (by rwa [abs_of_nonneg h0])
    have s3 := summable_pow (q := 2 * q) (by rw [abs_of_nonneg (by linarith)]; linarith)
    unfold th' th
    rw [← s3.tsum_sub s2, ← tsum_mul_left]
    refine (s1.mul_left q).tsum_le_tsum (fun n => ?_) (s3.sub s2)
    have hk : ((sq n : ℕ) : ℝ) + 1 ≤ 2 ^ sq n := by exact_mod_cast Nat.lt_two_pow_self
    rcases Nat.eq_zero_or_pos (sq n) with hz | hz
    · rw [hz]; simp
    · have : q * (↑(sq n) * q ^ (sq n - 1)) = sq n * q ^ sq n := by
        obtain ⟨k, hk⟩ : ∃ k, sq n = k + 1 := ⟨sq n - 1, by omega⟩
        rw [hk, Nat.add_sub_cancel, pow_succ]; ring
      rw [this, mul_pow]
      nlinarith [pow_nonneg h0 (sq n)]
  have h3 := (th_bounds (q := 2 * q) (by linarith) (by linarith)).2
  have h4 : 2 * q / (1 - 2 * q) ≤ 20 / 9 * q := by rw [div_le_iff₀ (by linarith)]; nlinarith
  unfold L3
  rw [div_le_iff₀ (by linarith)]
  nlinarith

theorem qe_one_le : qe 1 ≤ 1 / 20 := by
  unfold qe
  rw [mul_one, Real.exp_neg, ← one_div]
  refine one_div_le_one_div_of_le (by norm_num) ?_
  have h1 : Real.exp 3 ≤ Real.exp Real.pi := Real.exp_le_exp.2 Real.pi_gt_three.le
  have h2 : Real.exp 3 = Real.exp 1 ^ 3 := by rw [← Real.exp_nat_mul]; norm_num
  have h3 : (2.718 : ℝ) ^ 3 ≤ Real.exp 1 ^ 3 := pow_le_pow_left₀ (by norm_num) (by linarith [Real.exp_one_gt_d9]) 3
  norm_num at h3
  linarith

theorem qe_one_ge : 1 / 10 ^ 6 ≤ qe 1 ^ 4 := by
  unfold qe
  rw [mul_one, Real.exp_neg, inv_pow, ← one_div]
  refine one_div_le_one_div_of_le (by positivity) ?_
  have h1 : Real.exp Real.pi ^ 4 ≤ Real.exp 1 ^ 13 := by
    rw [← Real.exp_nat_mul, ← Real.exp_nat_mul]
    refine Real.exp_le_exp.2 ?_
    push_cast
    linarith [Real.pi_lt_d2]
  have h3 : Real.exp 1 ^ 13 ≤ (2.72 : ℝ) ^ 13 := pow_le_pow_left₀ (Real.exp_pos 1).le (by linarith [Real.exp_one_lt_d9]) 13
  have h4 : (2.72 : ℝ) ^ 13 ≤ 10 ^ 6 := by norm_num
  exact h1.trans (h3.trans h4)

/-- The sequence of squares that belongs to the arithmetic-geometric mean of `1` and `1 / sqrt 2`. -/
noncomputable def Q (n : ℕ) : ℝ := qe 1 ^ 2 ^ n

theorem Q_succ (n : ℕ) : Q (n + 1) = Q n ^ 2 := by unfold Q; rw [← pow_mul, ← pow_succ]

theorem Q_pos (n : ℕ) : 0 < Q n := pow_pos (qe_pos 1) _

theorem Q_lt (n : ℕ) : Q n < 1 := pow_lt_one₀ (qe_pos 1).le (qe_lt (by norm_num)) (by positivity)

theorem Q_le (n : ℕ) : Q n ≤ 1 / 20 :=
  (pow_le_of_le_one (qe_pos 1).le (qe_lt (by norm_num)).le (by positivity)).trans qe_one_le

theorem Q_abs (n : ℕ) : |Q n| < 1 := by rw [abs_of_pos (Q_pos n)]; exact Q_lt n

/-- The pair of the arithmetic-geometric mean started at `1` and `1 / sqrt 2`. -/
noncomputable def ga (n : ℕ) : ℝ := th (Q n) ^ 2 / th (Q 0) ^ 2
@[inherit_doc ga] noncomputable def gb (n : ℕ) : ℝ := th (-Q n) ^ 2 / th (Q 0) ^ 2

theorem th0_pos : 0 < th (Q 0) := by linarith [th_ge_one (Q_pos 0).le (Q_lt 0)]

theorem ga_zero : ga 0 = 1 := div_self (pow_ne_zero 2 th0_pos.ne')

theorem gb_zero : gb 0 ^ 2 = 1 / 2 := by
  have h := start_ratio
  have hp := th0_pos
  unfold gb
  have e : Q 0 = qe 1 := by simp [Q]
  rw [e] at hp ⊢
  rw [div_pow, ← pow_mul, ← pow_mul]
  norm_num
  rw [h]
  field_simp

theorem ga_succ (n : ℕ) : ga (n + 1) = (ga n + gb n) / 2 := by
  have h := th_add (Q_abs n)
  have hp := th0_pos
  unfold ga gb
  rw [Q_succ, ← add_div, h]
  field_simp

theorem gb_succ (n : ℕ) : gb (n + 1) ^ 2 = ga n * gb n := by
  have h := th_mul (Q_abs n)
  have hp := th0_pos
  unfold ga gb
  rw [Q_succ, ← h]
  field_simp

theorem gb_pos (n : ℕ) : 0 < gb n := by
  have := th_neg_pos (Q_pos n).le (Q_lt n)
  have := th0_pos
  unfold gb; positivity

theorem ga_pos (n : ℕ) : 0 < ga n := by
  have := th_ge_one (Q_pos n).le (Q_lt n)
  have := th0_pos
  unfold ga; positivity

/-- `c_n^2` of the normalised mean. -/
theorem gc_eq (n : ℕ) : ga n ^ 2 - gb n ^ 2 = c2 (Q n) / th (Q 0) ^ 4 := by
  have hp := th0_pos
  unfold ga gb c2
  field_simp

/-- The sum in the denominator of the formula. -/
noncomputable def gs : ℕ → ℝ
  | 0 => 1 / 2
  | n + 1 => gs n - 2 ^ (n + 1) * (ga (n + 1) ^ 2 - gb (n + 1) ^ 2)

/-- The finite form of the formula for `pi`. -/
theorem gs_eq (n : ℕ) : th (Q 0) ^ 4 * gs n / 4 = 1 / (2 * Real.pi) - 2 ^ n * (2 * L3 (Q n) - c2 (Q n) / 4) := by
  have hp := th0_pos
  induction n with
  | zero =>
    have h := L3_start
    have e : Q 0 = qe 1 := by simp [Q]
    have h2 := gc_eq 0
    rw [ga_zero, gb_zero] at h2
    have h3 : c2 (Q 0) = th (Q 0) ^ 4 / 2 := by field_simp at h2; linarith
    rw [h3, gs]
    rw [← e] at h
    rw [h]
    ring
  | succ n ih =>
    have st := L3_step (Q_pos n) (Q_lt n)
    rw [← Q_succ] at st
    have h2 := gc_eq (n + 1)
    have h3 : c2 (Q (n + 1)) = th (Q 0) ^ 4 * (ga (n + 1) ^ 2 - gb (n + 1) ^ 2) := by rw [h2]; field_simp
    rw [gs]
    rw [st] at ih
    rw [pow_succ]
    linear_combination ih + (2 ^ n / 2) * h3

/-- The error of the approximation after `n` rounds, in terms of the last term of the sum. -/
theorem pi_error {n : ℕ} {w : ℝ} (hw : 2 ^ n * (ga n ^ 2 - gb n ^ 2) ≤ w) (hw2 : w ≤ 1 / 100) :
    |(ga n ^ 2 + gb n ^ 2) / gs n - Real.pi| ≤ 120 * w ^ 2 := by
  have hp := th0_pos
  have hpi := Real.pi_pos
  have hpi4 := Real.pi_lt_d2
  obtain ⟨T, hT⟩ : ∃ T, T = th (Q 0) ^ 4 := ⟨_, rfl⟩
  have T0 : 0 < T := by rw [hT]; positivity
  have T2 : T ≤ 5 / 2 := by
    obtain ⟨-, h2, h3⟩ := c2_bounds (Q_pos 0).le (Q_le 0)
    rw [hT]; linarith [Q_le 0]
  obtain ⟨x, hx⟩ : ∃ x, x = th (Q n) ^ 2 := ⟨_, rfl⟩
  obtain ⟨y, hy⟩ : ∃ y, y = th (-Q n) ^ 2 := ⟨_, rfl⟩
  have x1 : 1 ≤ x := by rw [hx]; exact one_le_pow₀ (th_ge_one (Q_pos n).le (Q_lt n))
  have y0 : 0 < y := by rw [hy]; exact pow_pos (th_neg_pos (Q_pos n).le (Q_lt n)) 2
  have hc : c2 (Q n) = x ^ 2 - y ^ 2 := by rw [hx, hy, c2]; ring
  have ha : th (Q (n + 1)) ^ 2 = (x + y) / 2 := by
    rw [hx, hy, th_add (Q_abs n), Q_succ]; ring
  have hb : th (-Q (n + 1)) ^ 4 = x * y := by
    have h := th_mul (Q_abs n)
    rw [hx, hy, ← mul_pow, h, Q_succ]; ring
  have ha4 : th (Q (n + 1)) ^ 4 = ((x + y) / 2) ^ 2 := by rw [← ha]; ring
  obtain ⟨C, hC⟩ : ∃ C, C = c2 (Q (n + 1)) := ⟨_, rfl⟩
  have hC' : C = ((x - y) / 2) ^ 2 := by rw [hC, c2, ha4, hb]; ring
  obtain ⟨b1, -, b3⟩ := c2_bounds (Q_pos (n + 1)).le (Q_le (n + 1))
  obtain ⟨l1, l2⟩ := L3_bounds (Q_pos (n + 1)).le (Q_le (n + 1))
  rw [← hC] at b1 b3
  rw [ha4] at b3
  have C0 : 0 ≤ C := by rw [hC']; positivity
  have one_le : 1 ≤ ((x + y) / 2) ^ 2 := by
    rw [← ha4]; exact one_le_pow₀ (th_ge_one (Q_pos _).le (Q_lt _))
  obtain ⟨R, hR⟩ : ∃ R, R = 2 * L3 (Q n) - c2 (Q n) / 4 := ⟨_, rfl⟩
  have hR' : R = 4 * L3 (Q (n + 1)) - C := by
    rw [hR, L3_step (Q_pos n) (Q_lt n), ← Q_succ, hC]; ring
  have hg := gs_eq n
  rw [← hR, ← hT] at hg
  have gsum : ga n ^ 2 + gb n ^ 2 = (x ^ 2 + y ^ 2) / T := by
    unfold ga gb; rw [hx, hy, hT]; field_simp
  have gdiff : ga n ^ 2 - gb n ^ 2 = (x ^ 2 - y ^ 2) / T := by rw [gc_eq, hc, hT]
  have hgs : gs n = 4 / T * (1 / (2 * Real.pi) - 2 ^ n * R) := by rw [← hg]; field_simp
  obtain ⟨P, hP⟩ : ∃ P : ℝ, P = 2 ^ n := ⟨_, rfl⟩
  have P1 : 1 ≤ P := by rw [hP]; exact one_le_pow₀ (by norm_num)
  rw [← hP] at hgs hw
  rw [gdiff] at hw
  have xy : y ≤ x := by
    rw [hx, hy]
    exact pow_le_pow_left₀ (th_neg_pos (Q_pos n).le (Q_lt n)).le (th_neg_le (Q_pos n).le (Q_lt n)) 2
  have w0 : 0 ≤ w := le_trans (mul_nonneg (by linarith) (div_nonneg (sub_nonneg.2 (pow_le_pow_left₀ y0.le xy 2)) T0.le)) hw
  have hw' : P * (x ^ 2 - y ^ 2) ≤ T * w := by
    rw [mul_div_assoc', div_le_iff₀ T0] at hw; linarith
  have hd : P * (x - y) ≤ 5 / 2 * w := by
    have : P * (x - y) ≤ P * (x ^ 2 - y ^ 2) := by
      refine mul_le_mul_of_nonneg_left ?_ (by linarith)
      have := mul_nonneg (sub_nonneg.2 xy) (show 0 ≤ x + y - 1 by linarith)
      linarith [show (x - y) * (x + y - 1) = x ^ 2 - y ^ 2 - (x - y) by ring]
    have := mul_le_mul_of_nonneg_right T2 w0
    linarith
  obtain ⟨e, he⟩ : ∃ e, e = P * C := ⟨_, rfl⟩
  have e0 : 0 ≤ e := by rw [he]; positivity
  have Ce : C ≤ e := by rw [he]; exact le_mul_of_one_le_left C0 P1
  have eb : e ≤ 25 / 16 * w ^ 2 := by
    have h0 : 0 ≤ P * (x - y) := mul_nonneg (by linarith) (by linarith)
    have h1 : (P * (x - y)) ^ 2 ≤ (5 / 2 * w) ^ 2 := pow_le_pow_left₀ h0 hd 2
    have h2 : P * (x - y) ^ 2 ≤ (P * (x - y)) ^ 2 := by
      have := mul_nonneg (sub_nonneg.2 P1) (mul_nonneg (show 0 ≤ P by linarith) (sq_nonneg (x - y)))
      linarith [show (P - 1) * (P * (x - y) ^ 2) = (P * (x - y)) ^ 2 - P * (x - y) ^ 2 by ring]
    rw [he, hC']
    linarith [show (5 / 2 * w) ^ 2 = 25 / 4 * w ^ 2 by ring,
      show P * ((x - y) / 2) ^ 2 = P * (x - y) ^ 2 / 4 by ring]
  have e1 : e ≤ 1 / 1000 := by
    have : w ^ 2 ≤ (1 / 100) ^ 2 := pow_le_pow_left₀ w0 hw2 2
    linarith
  have pr1 : -e ≤ P * R := by
    have : P * (-C) ≤ P * R := mul_le_mul_of_nonneg_left (by linarith) (by linarith)
    linarith
  have pr2 : P * R ≤ 3 / 2 * e := by
    have : P * R ≤ P * (3 / 2 * C) := mul_le_mul_of_nonneg_left (by linarith) (by linarith)
    linarith
  have pr3 : 2 * Real.pi * (P * R) ≤ 2 * Real.pi * (3 / 2 * e) :=
    mul_le_mul_of_nonneg_left pr2 (by linarith)
  have pr4 : 2 * Real.pi * (-e) ≤ 2 * Real.pi * (P * R) :=
    mul_le_mul_of_nonneg_left pr1 (by linarith)
  have pr5 : Real.pi * e ≤ 3.15 * e := mul_le_mul_of_nonneg_right hpi4.le e0
  have hden : 1 / 2 ≤ 1 - 2 * Real.pi * (P * R) := by linarith
  have hv : (ga n ^ 2 + gb n ^ 2) / gs n - Real.pi =
      Real.pi * (((x + y) / 2) ^ 2 - 1 + C + 2 * Real.pi * (P * R)) / (1 - 2 * Real.pi * (P * R)) := by
    have hne : (1 - 2 * Real.pi * (P * R)) ≠ 0 := by linarith
    have hs : 1 / (2 * Real.pi) - P * R = (1 - 2 * Real.pi * (P * R)) / (2 * Real.pi) := by
      field_simp
    rw [gsum, hgs, hs, hC', eq_div_iff hne]
    obtain ⟨D, hD⟩ : ∃ D, D = 1 - 2 * Real.pi * (P * R) := ⟨_, rfl⟩
    have h2 : 2 * Real.pi * (P * R) = 1 - D := by rw [hD]; ring
    rw [h2]
    rw [← hD] at hne
    rw [show (1 : ℝ) - (1 - D) = D by ring]
    field_simp
    ring
  rw [hv, abs_div, abs_of_pos (by linarith : 0 < 1 - 2 * Real.pi * (P * R)), div_le_iff₀ (by linarith), abs_mul, abs_of_pos hpi]
  have hn : |((x + y) / 2) ^ 2 - 1 + C + 2 * Real.pi * (P * R)| ≤ 12 * e := by
    rw [abs_le]
    constructor <;> linarith
  have h5 : Real.pi * |((x + y) / 2) ^ 2 - 1 + C + 2 * Real.pi * (P * R)| ≤ 3.15 * (12 * e) :=
    mul_le_mul hpi4.le hn (abs_nonneg _) (by norm_num)
  have h6 : 120 * w ^ 2 * (1 / 2) ≤ 120 * w ^ 2 * (1 - 2 * Real.pi * (P * R)) := mul_le_mul_of_nonneg_left hden (by positivity)
  linarith

end EFX.Theta
