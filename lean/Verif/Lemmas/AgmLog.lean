import Verif.Lemmas.Agm
/-!
# The logarithm from the arithmetic-geometric mean

`pi / (2 M(1, 4/s))` is `log s` up to a relative error of order `1/s^2`, where `M` is the arithmetic-geometric mean.
-/

namespace EFX.Theta
open Filter Topology

theorem nat_sum_le4 {q : ℝ} (h0 : 0 ≤ q) (h1 : q < 1) : ∑' n : ℕ, q ^ ((n + 1) ^ 2) ≤ q + q ^ 4 / (1 - q) := by
  have hq : |q| < 1 := by rwa [abs_of_nonneg h0]
  have s := summable_nat hq
  have s' : Summable fun n : ℕ => q ^ ((n + 1 + 1) ^ 2) := (summable_nat_add_iff (f := fun n : ℕ => q ^ ((n + 1) ^ 2)) 1).2 s
  rw [s.tsum_eq_zero_add]
  have g : HasSum (fun n : ℕ => q ^ 4 * q ^ n) (q ^ 4 * (1 - q)⁻¹) := (hasSum_geometric_of_lt_one h0 h1).mul_left _
  have h := s'.tsum_le_tsum (fun n => ?_) g.summable
  · rw [g.tsum_eq] at h
    rw [div_eq_mul_inv]
    simp only [zero_add, one_pow, pow_one]
    linarith
  · rw [← pow_add]
    refine pow_le_pow_of_le_one h0 h1.le ?_
    nlinarith

theorem th_le4 {q : ℝ} (h0 : 0 ≤ q) (h1 : q ≤ 1 / 20) : th q ≤ 1 + 2 * q + 3 * q ^ 4 := by
  have hq : |q| < 1 := by rw [abs_of_nonneg h0]; linarith
  rw [th_split hq]
  have h := nat_sum_le4 h0 (by linarith)
  have h2 : q ^ 4 / (1 - q) ≤ 3 / 2 * q ^ 4 := by
    rw [div_le_iff₀ (by linarith)]
    nlinarith [pow_nonneg h0 4]
  linarith

theorem th_mono {a b : ℝ} (h0 : 0 ≤ a) (hab : a ≤ b) (h1 : b < 1) : th a ≤ th b := by
  have ha : |a| < 1 := by rw [abs_of_nonneg h0]; linarith
  have hb : |b| < 1 := by rw [abs_of_nonneg (h0.trans hab)]; exact h1
  exact (summable_pow ha).tsum_le_tsum (fun n => pow_le_pow_left₀ h0 hab _) (summable_pow hb)

/-- The second start value of the mean as a function of the nome. -/
noncomputable def nb (r : ℝ) : ℝ := (th r ^ 2 - th (r ^ 2) ^ 2) / th (r ^ 2) ^ 2

theorem th_sq_bounds {r : ℝ} (h0 : 0 ≤ r) (h1 : r ≤ 1 / 20) : 1 ≤ th (r ^ 2) ∧ th (r ^ 2) ≤ 1 + 2 * r ^ 2 + 3 * r ^ 8 := by
  have a : r ^ 2 ≤ 1 / 20 := by nlinarith
  refine ⟨th_ge_one (sq_nonneg r) (by linarith), ?_⟩
  have := th_le4 (sq_nonneg r) a
  rw [← pow_mul] at this
  exact this

theorem nb_bounds {r : ℝ} (h0 : 0 ≤ r) (h1 : r ≤ 1 / 20) : 4 * r * (1 - 5 * r ^ 2) ≤ nb r ∧ nb r ≤ 4 * r * (1 + r ^ 2) := by
  obtain ⟨y1, y2⟩ := th_sq_bounds h0 h1
  have x1 := (th_bounds h0 (by linarith : r < 1)).1
  have x2 := th_le4 h0 h1
  have r2 : 0 ≤ r ^ 2 := sq_nonneg r
  have r2' : r ^ 2 ≤ 1 / 400 := by nlinarith
  have y0 := (th_bounds (q := r ^ 2) r2 (by linarith)).1
  unfold nb
  generalize th r = x at *
  generalize th (r ^ 2) = y at *
  have r3 : 0 ≤ r ^ 3 := by positivity
  have r4 : 0 ≤ r ^ 4 := by positivity
  have p4 : r ^ 4 ≤ r ^ 3 / 20 := by
    have : r ^ 4 = r * r ^ 3 := by ring
    rw [this]; nlinarith
  have p42 : r ^ 4 ≤ r ^ 2 / 400 := by
    have : r ^ 4 = r ^ 2 * r ^ 2 := by ring
    rw [this]; nlinarith
  have p5 : r * r ^ 4 ≤ r ^ 4 / 20 := by nlinarith
  have p6 : r ^ 2 * r ^ 4 ≤ r ^ 4 / 400 := by nlinarith
  have p8 : r ^ 4 * r ^ 4 ≤ r ^ 4 / 160000 := by nlinarith
  have e8 : r ^ 8 = r ^ 4 * r ^ 4 := by ring
  have yy : y ≤ 1 + 2 * r ^ 2 + r ^ 4 / 1000 := by rw [e8] at y2; linarith
  have Y0 : (1 + 2 * r ^ 2) ^ 2 ≤ y ^ 2 := pow_le_pow_left₀ (by linarith) y0 2
  have Y1 : 1 ≤ y ^ 2 := one_le_pow₀ y1
  have Y2 : y ^ 2 ≤ 1 + 4 * r ^ 2 + 5 * r ^ 4 := by
    have h : y ^ 2 ≤ (1 + 2 * r ^ 2 + r ^ 4 / 1000) ^ 2 := pow_le_pow_left₀ (by linarith) yy 2
    have e : (1 + 2 * r ^ 2 + r ^ 4 / 1000) ^ 2 = 1 + 4 * r ^ 2 + (4 + 2 / 1000) * r ^ 4 + 4 / 1000 * (r ^ 2 * r ^ 4) + (r ^ 4 * r ^ 4) / 1000000 := by ring
    linarith
  have X1 : (1 + 2 * r) ^ 2 ≤ x ^ 2 := pow_le_pow_left₀ (by linarith) x1 2
  have X2 : x ^ 2 ≤ (1 + 2 * r + 3 * r ^ 4) ^ 2 := pow_le_pow_left₀ (by linarith) x2 2
  have D1 : 4 * r - 5 * r ^ 4 ≤ x ^ 2 - y ^ 2 := by
    have e : (1 + 2 * r) ^ 2 = 1 + 4 * r + 4 * r ^ 2 := by ring
    linarith
  have D2 : x ^ 2 - y ^ 2 ≤ 4 * r + 4 * r ^ 3 := by
    have e : (1 + 2 * r + 3 * r ^ 4) ^ 2 = 1 + 4 * r + 4 * r ^ 2 + 6 * r ^ 4 + 12 * (r * r ^ 4) + 9 * (r ^ 4 * r ^ 4) := by ring
    have e2 : (1 + 2 * r ^ 2) ^ 2 = 1 + 4 * r ^ 2 + 4 * r ^ 4 := by ring
    linarith
  constructor
  · rw [le_div_iff₀ (by linarith)]
    have f0 : 0 ≤ 4 * r * (1 - 5 * r ^ 2) := mul_nonneg (by linarith) (by linarith)
    have h := mul_le_mul_of_nonneg_left Y2 f0
    have e : 4 * r * (1 - 5 * r ^ 2) * (1 + 4 * r ^ 2 + 5 * r ^ 4) = 4 * r - 4 * r ^ 3 - 60 * r ^ 5 - 100 * r ^ 7 := by ring
    have q5 : 0 ≤ r ^ 5 := by positivity
    have q7 : 0 ≤ r ^ 7 := by positivity
    linarith
  · rw [div_le_iff₀ (by linarith)]
    have f0 : 0 ≤ 4 * r * (1 + r ^ 2) := mul_nonneg (by linarith) (by linarith)
    have h := mul_le_mul_of_nonneg_left Y1 f0
    have e : 4 * r * (1 + r ^ 2) * 1 = 4 * r + 4 * r ^ 3 := by ring
    linarith

theorem th_sq_sq {r : ℝ} (h0 : 0 ≤ r) (h1 : r ≤ 1 / 20) : th (r ^ 2) ^ 2 ≤ 1 + 5 * r ^ 2 := by
  obtain ⟨y1, y2⟩ := th_sq_bounds h0 h1
  have r2 : r ^ 2 ≤ 1 / 400 := by nlinarith
  have e : r ^ 8 = (r ^ 2) ^ 4 := by ring
  rw [e] at y2
  have p : 0 ≤ r ^ 2 := sq_nonneg r
  generalize th (r ^ 2) = y at *
  generalize r ^ 2 = x at *
  have r8 : x ^ 4 ≤ x / 400 := by
    have : x ^ 3 ≤ (1 / 400) ^ 3 := pow_le_pow_left₀ p r2 3
    have e : x ^ 4 = x * x ^ 3 := by ring
    rw [e]; nlinarith
  have h2 : y ≤ 1 + (2 + 1 / 100) * x := by linarith
  have h3 := pow_le_pow_left₀ (by linarith) h2 2
  nlinarith

/-- An auxiliary bound. -/
theorem le_of_mul_le {z x : ℝ} (hx : 0 ≤ x) (h1 : x ≤ 1 / 400) (h : z * (1 - 5 * x) ≤ 1) : z ≤ 1 + 6 * x := by
  by_contra hc
  push Not at hc
  have := mul_lt_mul_of_pos_right hc (show 0 < 1 - 5 * x by linarith)
  nlinarith

/-- An auxiliary bound. -/
theorem exp_aux {c l L p : ℝ} (hp : 3 < p) (hc : 0 ≤ c) (hl : 1 ≤ l) (hL : 0 < L) (h : l ≤ 400 / 399 * L) :
    c / L ≤ c * (p * (p / (2 * l))) := by
  rw [div_le_iff₀ hL, mul_assoc]
  refine le_mul_of_one_le_right hc ?_
  have h9 : 9 ≤ p * p := by nlinarith
  have : p * (p / (2 * l)) = p * p / (2 * l) := by ring
  rw [this, div_mul_eq_mul_div, le_div_iff₀ (by linarith)]
  nlinarith

theorem nb_continuous : ContinuousOn nb (Set.Icc 0 (1 / 20)) := by
  intro r hr
  have a : |r| < 1 := by rw [abs_of_nonneg hr.1]; linarith [hr.2]
  have c1 : ContinuousAt th r := continuousAt_th a
  have c2 : ContinuousAt (fun x : ℝ => th (x ^ 2)) r :=
    ContinuousAt.comp (g := th) (f := fun x : ℝ => x ^ 2) (continuousAt_th (sq_lt a)) (by fun_prop)
  have h := (th_sq_bounds hr.1 hr.2).1
  exact (ContinuousAt.div ((c1.pow 2).sub (c2.pow 2)) (c2.pow 2) (pow_ne_zero 2 (by linarith))).continuousWithinAt

/-- Every start value up to 4/25 has a nome. -/
theorem exists_nome {b : ℝ} (hb : 0 < b) (hb2 : b ≤ 4 / 25) : ∃ r, 0 < r ∧ r ≤ 1 / 20 ∧ nb r = b := by
  have hz : nb 0 = 0 := by unfold nb; rw [zero_pow (by norm_num), th_zero]; norm_num
  have h1 := (nb_bounds (r := 1 / 20) (by norm_num) (by norm_num)).1
  norm_num at h1
  have h := intermediate_value_Icc (show (0 : ℝ) ≤ 1 / 20 by norm_num) nb_continuous
  obtain ⟨r, hr, e⟩ := h (show b ∈ Set.Icc (nb 0) (nb (1 / 20)) from ⟨by rw [hz]; exact hb.le, by linarith⟩)
  refine ⟨r, lt_of_le_of_ne hr.1 ?_, hr.2, e⟩
  rintro rfl
  rw [hz] at e
  linarith

/-- The arithmetic-geometric mean: the pair after `n` rounds from `(1, b)`. -/
noncomputable def agm (b : ℝ) : ℕ → ℝ × ℝ
  | 0 => (1, b)
  | n + 1 => (((agm b n).1 + (agm b n).2) / 2, Real.sqrt ((agm b n).2 * (agm b n).1))

theorem agm_theta {q : ℝ} (h0 : 0 < q) (h1 : q < 1) (n : ℕ) :
    agm (th (-q) ^ 2 / th q ^ 2) n = (th (q ^ 2 ^ n) ^ 2 / th q ^ 2, th (-q ^ 2 ^ n) ^ 2 / th q ^ 2) := by
  have hp : 0 < th q := by linarith [th_ge_one h0.le h1]
  induction n with
  | zero => simp [agm, hp.ne']
  | succ n ih =>
    have a0 : 0 < q ^ 2 ^ n := by positivity
    have a1 : q ^ 2 ^ n < 1 := pow_lt_one₀ h0.le h1 (by positivity)
    have a2 : |q ^ 2 ^ n| < 1 := by rwa [abs_of_pos a0]
    have e : (q ^ 2 ^ n) ^ 2 = q ^ 2 ^ (n + 1) := by rw [← pow_mul, ← pow_succ]
    have t1 := th_add a2
    have t2 := th_mul a2
    rw [e] at t1 t2
    have p1 := th_neg_pos (q := q ^ 2 ^ (n + 1)) (by positivity) (pow_lt_one₀ h0.le h1 (by positivity))
    unfold agm
    rw [ih]
    refine Prod.ext ?_ ?_
    · simp only
      rw [← add_div, t1]; ring
    · simp only
      have e2 : th (-q ^ 2 ^ n) ^ 2 / th q ^ 2 * (th (q ^ 2 ^ n) ^ 2 / th q ^ 2) = (th (-q ^ 2 ^ (n + 1)) ^ 2 / th q ^ 2) ^ 2 := by
        rw [← t2]; field_simp
      rw [e2, Real.sqrt_sq (by positivity)]

set_option maxHeartbeats 400000 in
/-- The logarithm of `s` from the arithmetic-geometric mean `M` of `1` and `4/s`, which lies between the members of every
pair. -/
theorem agm_log {s : ℝ} (hs : 25 ≤ s) :
    ∃ M : ℝ, 0 < M ∧ M ≤ 1 ∧ (∀ n, (agm (4 / s) n).2 ≤ M ∧ M ≤ (agm (4 / s) n).1) ∧
      |Real.pi / (2 * M) - Real.log s| ≤ 13 * Real.log s / s ^ 2 ∧
      ∀ n, (agm (4 / s) n).1 ≤ M * th (Real.exp (-(2 : ℝ) ^ n / Real.log s)) ^ 2 := by
  have s0 : 0 < s := by linarith
  obtain ⟨r, r0, r1, hr⟩ := exists_nome (b := 4 / s) (by positivity) (by rw [div_le_div_iff₀ s0 (by norm_num)]; linarith)
  have hpi := Real.pi_pos
  obtain ⟨l, hl⟩ : ∃ l, l = -Real.log r := ⟨_, rfl⟩
  have l1 : 1 ≤ l := by
    have : Real.log r ≤ Real.log (Real.exp (-1)) := Real.log_le_log r0 (by
      have := Real.exp_one_lt_d9
      rw [Real.exp_neg]
      rw [← one_div, le_div_iff₀ (Real.exp_pos 1)]
      nlinarith)
    rw [Real.log_exp] at this
    linarith
  obtain ⟨t, ht⟩ : ∃ t, t = Real.pi / (2 * l) := ⟨_, rfl⟩
  have t0 : 0 < t := by rw [ht]; positivity
  have er : qe (1 / (2 * t)) = r := by
    unfold qe
    rw [ht, show -Real.pi * (1 / (2 * (Real.pi / (2 * l)))) = -l by field_simp, hl, neg_neg, Real.exp_log r0]
  have er2 : qe (1 / t) = r ^ 2 := by
    rw [← er, qe_two]; congr 1; field_simp
  obtain ⟨q, hq⟩ : ∃ q, q = qe t := ⟨_, rfl⟩
  have q0 : 0 < q := by rw [hq]; exact qe_pos t
  have q1 : q < 1 := by rw [hq]; exact qe_lt t0
  have qa : |q| < 1 := by rwa [abs_of_pos q0]
  have y1 := th_sq_bounds r0.le r1
  -- the pair at `q`
  have f1 : th q ^ 2 = th (r ^ 2) ^ 2 / t := by
    have := th_fe t0
    rw [← one_div, er2, ← hq] at this
    rw [← this, mul_pow, Real.sq_sqrt t0.le]; field_simp
  have f2 : th (q ^ 2) ^ 2 = th r ^ 2 / (2 * t) := by
    have := th_fe (t := 2 * t) (by linarith)
    rw [← one_div, er, ← qe_two, ← hq] at this
    rw [← this, mul_pow, Real.sq_sqrt (by linarith)]; field_simp
  have f3 : th (-q) ^ 2 = (th r ^ 2 - th (r ^ 2) ^ 2) / t := by
    have h := th_add qa
    rw [f1, f2] at h
    have : th (-q) ^ 2 = 2 * (th r ^ 2 / (2 * t)) - th (r ^ 2) ^ 2 / t := by linarith
    rw [this]; field_simp
  have yp : 0 < th (r ^ 2) := by linarith [y1.1]
  have start : th (-q) ^ 2 / th q ^ 2 = 4 / s := by
    rw [f1, f3, ← hr]; unfold nb; field_simp
  have ag := agm_theta q0 q1
  rw [start] at ag
  have M0 : 0 < th q ^ 2 := by have := th_ge_one q0.le q1; positivity
  have nb1 := nb_bounds r0.le r1
  rw [hr] at nb1
  have r2 : 0 < r ^ 2 := by positivity
  have r2' : r ^ 2 ≤ 1 / 400 := by nlinarith
  -- bounds of `s r`
  have z0 : 1 ≤ (s * r) * (1 + r ^ 2) := by
    have h := nb1.2
    rw [div_le_iff₀ s0] at h
    linarith
  have z2 : s * r ≤ 1 + 6 * r ^ 2 := by
    have h := nb1.1
    rw [le_div_iff₀ s0] at h
    have h2 : (s * r) * (1 - 5 * r ^ 2) ≤ 1 := by linarith
    exact le_of_mul_le r2.le r2' h2
  have srp : 0 < s * r := by positivity
  have logs : Real.log s = l + Real.log (s * r) := by
    rw [Real.log_mul s0.ne' r0.ne', hl]; ring
  have w2 : Real.log (s * r) ≤ 6 * r ^ 2 := by
    have := Real.log_le_sub_one_of_pos srp; linarith
  have w1 : -(r ^ 2) ≤ Real.log (s * r) := by
    have h := Real.one_sub_inv_le_log_of_pos srp
    have : (s * r)⁻¹ ≤ 1 + r ^ 2 := by
      rw [inv_eq_one_div, div_le_iff₀ srp]; linarith
    linarith
  have ls : l ≤ 400 / 399 * Real.log s := by
    have : r ^ 2 ≤ l / 400 := by linarith
    linarith
  have rs : r ≤ (1 + 6 / 400) / s := by rw [le_div_iff₀ s0]; linarith
  have r2s : r ^ 2 ≤ 104 / 100 / s ^ 2 := by
    have := pow_le_pow_left₀ r0.le rs 2
    rw [div_pow] at this
    refine this.trans ?_
    exact div_le_div_of_nonneg_right (by norm_num) (by positivity)
  have Y := th_sq_sq r0.le r1
  have Y1 : 1 ≤ th (r ^ 2) ^ 2 := one_le_pow₀ y1.1
  refine ⟨1 / th q ^ 2, by positivity, ?_, ?_, ?_, ?_⟩
  · rw [div_le_one M0]; exact one_le_pow₀ (th_ge_one q0.le q1)
  · intro n
    have a0 : 0 < q ^ 2 ^ n := by positivity
    have a1 : q ^ 2 ^ n < 1 := pow_lt_one₀ q0.le q1 (by positivity)
    rw [ag n]
    refine ⟨div_le_div_of_nonneg_right ?_ M0.le, div_le_div_of_nonneg_right ?_ M0.le⟩
    · exact pow_le_one₀ (th_neg_pos a0.le a1).le (th_neg_le_one a0.le a1)
    · exact one_le_pow₀ (th_ge_one a0.le a1)
  · have e : Real.pi / (2 * (1 / th q ^ 2)) = l * th (r ^ 2) ^ 2 := by
      rw [f1, ht]; field_simp
    rw [e, logs, abs_le]
    have u1 : 0 ≤ l * (th (r ^ 2) ^ 2 - 1) := mul_nonneg (by linarith) (by linarith)
    have u2 : l * (th (r ^ 2) ^ 2 - 1) ≤ l * (5 * r ^ 2) := mul_le_mul_of_nonneg_left (by linarith) (by linarith)
    have u3 : r ^ 2 ≤ l * r ^ 2 := by nlinarith
    have u4 : 6 * (l * r ^ 2) * 2 ≤ 13 * (l + Real.log (s * r)) / s ^ 2 := by
      rw [← logs]
      have h1 : l * r ^ 2 ≤ (400 / 399 * Real.log s) * (104 / 100 / s ^ 2) :=
        mul_le_mul ls r2s r2.le (by linarith)
      have e2 : 13 * Real.log s / s ^ 2 = 13 * (Real.log s / s ^ 2) := by ring
      have e3 : (400 / 399 * Real.log s) * (104 / 100 / s ^ 2) = 400 / 399 * (104 / 100) * (Real.log s / s ^ 2) := by ring
      have h0 : 0 ≤ Real.log s / s ^ 2 := div_nonneg (by linarith) (by positivity)
      rw [e2]; rw [e3] at h1
      linarith
    have e4 : l * th (r ^ 2) ^ 2 = l + l * (th (r ^ 2) ^ 2 - 1) := by ring
    rw [e4]
    have e5 : l * (5 * r ^ 2) = 5 * (l * r ^ 2) := by ring
    rw [e5] at u2
    constructor <;> linarith
  · intro n
    rw [ag n, one_div, div_eq_inv_mul]
    refine mul_le_mul_of_nonneg_left (pow_le_pow_left₀ ?_ ?_ 2) (by positivity)
    · linarith [th_ge_one (q := q ^ 2 ^ n) (by positivity) (pow_lt_one₀ q0.le q1 (by positivity))]
    · have lp : 0 < Real.log s := by linarith
      refine th_mono (by positivity) ?_ (Real.exp_lt_one_iff.2 ?_)
      · rw [hq]; unfold qe
        rw [← Real.exp_nat_mul, Real.exp_le_exp]
        push_cast
        rw [ht, neg_div]
        have h1 := exp_aux (c := (2 : ℝ) ^ n) Real.pi_gt_three (by positivity) l1 lp ls
        linarith
      · rw [neg_div]
        have : 0 < (2 : ℝ) ^ n / Real.log s := by positivity
        linarith

end EFX.Theta
