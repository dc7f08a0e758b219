import Mathlib.Analysis.Calculus.SmoothSeries
import Mathlib.Analysis.SpecialFunctions.Gaussian.PoissonSummation
import Mathlib.Analysis.SpecificLimits.Normed
/-!
# The theta function and the arithmetic-geometric mean

`th q` is the sum of `q^(n^2)` over all integers `n`.  The pair `th q ^ 2`, `th (-q) ^ 2` goes through the steps of the
arithmetic-geometric mean when `q` is squared; the functional equation of the theta function and its derivative at
`q = exp (-pi)` give the formula of Gauss, Brent and Salamin for `pi`.
-/

namespace EFX.Theta
open Filter Topology

/-- The square of an integer. -/
def sq (n : ℤ) : ℕ := n.natAbs ^ 2

/-- The theta function. -/
noncomputable def th (q : ℝ) : ℝ := ∑' n : ℤ, q ^ sq n

/-- Its derivative. -/
noncomputable def th' (q : ℝ) : ℝ := ∑' n : ℤ, (sq n : ℝ) * q ^ (sq n - 1)

theorem sq_cast (n : ℤ) : ((sq n : ℕ) : ℤ) = n ^ 2 := by
  unfold sq; rw [Nat.cast_pow]; exact Int.natAbs_sq n

theorem sq_neg (n : ℤ) : sq (-n) = sq n := by unfold sq; rw [Int.natAbs_neg]

/-- A bound of the derivative terms. -/
theorem summable_bound {r : ℝ} (h0 : 0 ≤ r) (h1 : r < 1) : Summable fun n : ℤ => (sq n : ℝ) * r ^ (sq n - 1) := by
  have key : Summable fun n : ℕ => ((n ^ 2 : ℕ) : ℝ) * r ^ (n ^ 2 - 1) := by
    have hs : Summable fun n : ℕ => ((n + 1 : ℕ) : ℝ) ^ 2 * r ^ n := by
      have a := summable_pow_mul_geometric_of_norm_lt_one (R := ℝ) 2 (r := r) (by rw [Real.norm_eq_abs, abs_of_nonneg h0]; exact h1)
      have b := summable_pow_mul_geometric_of_norm_lt_one (R := ℝ) 1 (r := r) (by rw [Real.norm_eq_abs, abs_of_nonneg h0]; exact h1)
      have c := summable_pow_mul_geometric_of_norm_lt_one (R := ℝ) 0 (r := r) (by rw [Real.norm_eq_abs, abs_of_nonneg h0]; exact h1)
      refine ((a.add (b.mul_left 2)).add c).congr fun n => ?_
      push_cast; ring
    refine (summable_nat_add_iff 1).1 (Summable.of_nonneg_of_le (fun n => by positivity) (fun n => ?_) hs)
    push_cast
    refine mul_le_mul_of_nonneg_left ?_ (by positivity)
    refine pow_le_pow_of_le_one h0 h1.le ?_
    have : (n + 1) ^ 2 = n + (n ^ 2 + n + 1) := by ring
    omega
  refine Summable.of_nat_of_neg ?_ ?_
  · refine key.congr fun n => ?_
    simp only [sq, Int.natAbs_natCast]
  · refine key.congr fun n => ?_
    simp only [sq, Int.natAbs_neg, Int.natAbs_natCast]

theorem summable_pow {q : ℝ} (hq : |q| < 1) : Summable fun n : ℤ => q ^ sq n := by
  have key : Summable fun n : ℕ => |q| ^ (n ^ 2) := by
    refine Summable.of_nonneg_of_le (fun n => by positivity) (fun n => ?_) (summable_geometric_of_lt_one (abs_nonneg q) hq)
    refine pow_le_pow_of_le_one (abs_nonneg q) hq.le ?_
    nlinarith [Nat.le_mul_self n]
  refine Summable.of_norm (Summable.of_nat_of_neg ?_ ?_)
  · refine key.congr fun n => ?_
    simp only [sq, Int.natAbs_natCast, norm_pow, Real.norm_eq_abs]
  · refine key.congr fun n => ?_
    simp only [sq, Int.natAbs_neg, Int.natAbs_natCast, norm_pow, Real.norm_eq_abs]

theorem bound_term {r y : ℝ} (h : |y| ≤ r) (n : ℤ) : ‖(sq n : ℝ) * y ^ (sq n - 1)‖ ≤ (sq n : ℝ) * r ^ (sq n - 1) := by
  rw [norm_mul, norm_pow, Real.norm_eq_abs, Real.norm_eq_abs, abs_of_nonneg (Nat.cast_nonneg _)]
  exact mul_le_mul_of_nonneg_left (pow_le_pow_left₀ (abs_nonneg y) h _) (Nat.cast_nonneg _)

theorem hasDerivAt_th {q : ℝ} (hq : |q| < 1) : HasDerivAt th (th' q) q := by
  obtain ⟨r, h1, h2⟩ := exists_between hq
  have h0 : 0 ≤ r := (abs_nonneg q).trans h1.le
  refine hasDerivAt_tsum_of_isPreconnected (t := Set.Ioo (-r) r) (y₀ := q) (summable_bound h0 h2) isOpen_Ioo isPreconnected_Ioo
    (fun n y _ => hasDerivAt_pow (sq n) y) (fun n y hy => bound_term (abs_le.2 ⟨hy.1.le, hy.2.le⟩) n) ?_ (summable_pow hq) ?_
  · exact abs_lt.1 h1
  · exact abs_lt.1 h1

theorem continuousAt_th' : ContinuousAt th' 0 := by
  have : ContinuousOn th' (Set.Ioo (-1 / 2) (1 / 2)) := by
    refine continuousOn_tsum (fun n => ?_) (summable_bound (r := 1 / 2) (by norm_num) (by norm_num)) (fun n y hy => bound_term ?_ n)
    · fun_prop
    · rw [abs_le]; constructor <;> linarith [hy.1, hy.2]
  exact this.continuousAt (Ioo_mem_nhds (by norm_num) (by norm_num))

theorem continuousAt_th {q : ℝ} (hq : |q| < 1) : ContinuousAt th q := (hasDerivAt_th hq).continuousAt

theorem th_zero : th 0 = 1 := by
  unfold th
  rw [tsum_eq_single 0]
  · simp [sq]
  · intro n hn
    rw [zero_pow]
    simp [sq, hn]

theorem th'_zero : th' 0 = 2 := by
  unfold th'
  rw [tsum_eq_sum (s := {1, -1})]
  · simp [sq]; norm_num
  · intro n hn
    simp only [Finset.mem_insert, Finset.mem_singleton, not_or] at hn
    by_cases h0 : n = 0
    · simp [h0, sq]
    · rw [zero_pow, mul_zero]
      have h1 : 2 ≤ n.natAbs := by omega
      have : 2 * 2 ≤ n.natAbs * n.natAbs := Nat.mul_le_mul h1 h1
      unfold sq
      rw [pow_two]
      omega

/-- Rotation of the lattice: the points with even coordinate sum. -/
def rot (p : ℤ × ℤ) : ℤ × ℤ := (p.1 + p.2, p.1 - p.2)

theorem rot_inj : Function.Injective rot := by
  rintro ⟨a, b⟩ ⟨c, d⟩ h
  simp only [rot, Prod.mk.injEq] at h
  ext <;> simp only <;> omega

theorem mem_range_rot {p : ℤ × ℤ} (h : (p.1 + p.2) % 2 = 0) : p ∈ Set.range rot :=
  ⟨((p.1 + p.2) / 2, (p.1 - p.2) / 2), by ext <;> simp only [rot] <;> omega⟩

theorem sq_rot (u v : ℤ) : sq (u + v) + sq (u - v) = 2 * (sq u + sq v) := by
  have : ((sq (u + v) + sq (u - v) : ℕ) : ℤ) = ((2 * (sq u + sq v) : ℕ) : ℤ) := by
    push_cast; rw [sq_cast, sq_cast, sq_cast, sq_cast]; ring
  exact_mod_cast this

theorem sq_parity (n : ℤ) : (sq n : ℤ) % 2 = n % 2 := by
  rw [sq_cast, pow_two, Int.mul_emod]
  rcases Int.emod_two_eq_zero_or_one n with h | h <;> rw [h] <;> rfl

theorem prod_sum {x y : ℝ} (hx : |x| < 1) (hy : |y| < 1) :
    Summable (fun p : ℤ × ℤ => x ^ sq p.1 * y ^ sq p.2) ∧ th x * th y = ∑' p : ℤ × ℤ, x ^ sq p.1 * y ^ sq p.2 := by
  have s1 := (summable_pow (q := |x|) (by rwa [abs_abs]))
  have s2 := (summable_pow (q := |y|) (by rwa [abs_abs]))
  have n1 : Summable fun n : ℤ => ‖x ^ sq n‖ := s1.congr fun n => by rw [norm_pow, Real.norm_eq_abs]
  have n2 : Summable fun n : ℤ => ‖y ^ sq n‖ := s2.congr fun n => by rw [norm_pow, Real.norm_eq_abs]
  have a := summable_mul_of_summable_norm (f := fun n : ℤ => x ^ sq n) (g := fun n : ℤ => y ^ sq n) n1 n2
  have b := tsum_mul_tsum_of_summable_norm (f := fun n : ℤ => x ^ sq n) (g := fun n : ℤ => y ^ sq n) n1 n2
  exact ⟨a, b⟩

theorem neg_pow_even {q : ℝ} {k : ℕ} (h : k % 2 = 0) : (-q) ^ k = q ^ k := (Nat.even_iff.2 h).neg_pow q
theorem neg_pow_odd {q : ℝ} {k : ℕ} (h : k % 2 = 1) : (-q) ^ k = -q ^ k := (Nat.odd_iff.2 h).neg_pow q

/-- First step of the arithmetic-geometric mean. -/
theorem th_add {q : ℝ} (hq : |q| < 1) : th q ^ 2 + th (-q) ^ 2 = 2 * th (q ^ 2) ^ 2 := by
  have hq' : |-q| < 1 := by rwa [abs_neg]
  have hq2 : |q ^ 2| < 1 := by rw [abs_pow]; exact pow_lt_one₀ (abs_nonneg q) hq (by norm_num)
  obtain ⟨s1, e1⟩ := prod_sum hq hq
  obtain ⟨s2, e2⟩ := prod_sum hq' hq'
  obtain ⟨s3, e3⟩ := prod_sum hq2 hq2
  rw [pow_two, pow_two, pow_two (th (q ^ 2)), e1, e2, e3, ← s1.tsum_add s2, ← tsum_mul_left]
  rw [← rot_inj.tsum_eq]
  · refine tsum_congr fun p => ?_
    simp only [rot]
    rw [← pow_add, ← pow_add, ← pow_add, sq_rot, neg_pow_even (by omega), ← pow_mul]
    ring
  · intro p hp
    apply mem_range_rot
    by_contra h
    apply hp
    have h1 := sq_parity p.1
    have h2 := sq_parity p.2
    have h3 : (sq p.1 + sq p.2) % 2 = 1 := by omega
    show q ^ sq p.1 * q ^ sq p.2 + (-q) ^ sq p.1 * (-q) ^ sq p.2 = 0
    rw [← pow_add, ← pow_add, neg_pow_odd h3]
    ring

/-- Second step of the arithmetic-geometric mean. -/
theorem th_mul {q : ℝ} (hq : |q| < 1) : th q * th (-q) = th (-q ^ 2) ^ 2 := by
  have hq' : |-q| < 1 := by rwa [abs_neg]
  have hq2 : |-q ^ 2| < 1 := by rw [abs_neg, abs_pow]; exact pow_lt_one₀ (abs_nonneg q) hq (by norm_num)
  obtain ⟨s1, e1⟩ := prod_sum hq hq'
  obtain ⟨s2, e2⟩ := prod_sum hq' hq
  obtain ⟨s3, e3⟩ := prod_sum hq2 hq2
  have key : th q * th (-q) + th (-q) * th q = 2 * (th (-q ^ 2) * th (-q ^ 2)) := by
    rw [e1, e2, e3, ← s1.tsum_add s2, ← tsum_mul_left]
    rw [← rot_inj.tsum_eq]
    · refine tsum_congr fun p => ?_
      simp only [rot]
      have h0 := sq_rot p.1 p.2
      have h1 := sq_parity (p.1 + p.2)
      have h2 := sq_parity (p.1 - p.2)
      have h3 := sq_parity p.1
      have h4 := sq_parity p.2
      have e : (q ^ 2) ^ (sq p.1 + sq p.2) = q ^ sq (p.1 + p.2) * q ^ sq (p.1 - p.2) := by
        rw [← pow_add, h0, pow_mul]
      rcases Nat.mod_two_eq_zero_or_one (sq (p.1 + p.2)) with h | h
      · rw [neg_pow_even h, neg_pow_even (show sq (p.1 - p.2) % 2 = 0 by omega), ← pow_add (-q ^ 2),
          neg_pow_even (show (sq p.1 + sq p.2) % 2 = 0 by omega), e]
        ring
      · rw [neg_pow_odd h, neg_pow_odd (show sq (p.1 - p.2) % 2 = 1 by omega), ← pow_add (-q ^ 2),
          neg_pow_odd (show (sq p.1 + sq p.2) % 2 = 1 by omega), e]
        ring
    · intro p hp
      apply mem_range_rot
      by_contra h
      apply hp
      have h1 := sq_parity p.1
      have h2 := sq_parity p.2
      show q ^ sq p.1 * (-q) ^ sq p.2 + (-q) ^ sq p.1 * q ^ sq p.2 = 0
      rcases Nat.mod_two_eq_zero_or_one (sq p.1) with h3 | h3
      · rw [neg_pow_even h3, neg_pow_odd (show sq p.2 % 2 = 1 by omega)]; ring
      · rw [neg_pow_odd h3, neg_pow_even (show sq p.2 % 2 = 0 by omega)]; ring
  linarith [key, pow_two (th (-q ^ 2)), mul_comm (th q) (th (-q))]

theorem th_ge_one {q : ℝ} (h0 : 0 ≤ q) (h1 : q < 1) : 1 ≤ th q := by
  have h := (summable_pow (q := q) (by rwa [abs_of_nonneg h0])).sum_le_tsum {0} (fun n _ => pow_nonneg h0 _)
  rw [Finset.sum_singleton] at h
  exact h

/-- Iterated squares tend to zero. -/
theorem tendsto_sq {q : ℝ} (hq : |q| < 1) : Tendsto (fun n : ℕ => q ^ 2 ^ n) atTop (𝓝 0) :=
  (tendsto_pow_atTop_nhds_zero_of_abs_lt_one hq).comp (tendsto_pow_atTop_atTop_of_one_lt (by norm_num))

theorem th_neg_pos {q : ℝ} (h0 : 0 ≤ q) (h1 : q < 1) : 0 < th (-q) := by
  have hq : |q| < 1 := by rwa [abs_of_nonneg h0]
  have key : th (-q) ≠ 0 := by
    intro h
    have h2 : ∀ n : ℕ, th (-q ^ 2 ^ n) = 0 := by
      intro n
      induction n with
      | zero => simpa using h
      | succ n ih =>
        have := th_mul (q := q ^ 2 ^ n) (by rw [abs_pow]; exact pow_lt_one₀ (abs_nonneg q) hq (by positivity))
        rw [ih, mul_zero, ← pow_mul, ← pow_succ] at this
        exact pow_eq_zero_iff (by norm_num) |>.1 this.symm
    have h3 : Tendsto (fun n : ℕ => th (-q ^ 2 ^ n)) atTop (𝓝 (th 0)) :=
      (continuousAt_th (q := 0) (by simp)).tendsto.comp (by simpa using (tendsto_sq hq).neg)
    rw [th_zero] at h3
    simp only [h2] at h3
    exact one_ne_zero (tendsto_nhds_unique h3 tendsto_const_nhds)
  have h2 := th_mul hq
  have h3 := th_ge_one h0 h1
  by_contra h
  have h4 : th (-q) < 0 := lt_of_le_of_ne (not_lt.1 h) key
  nlinarith [sq_nonneg (th (-q ^ 2))]

/-- Logarithmic derivatives `q d/dq log th (±q)`. -/
noncomputable def L3 (q : ℝ) : ℝ := q * th' q / th q
@[inherit_doc L3] noncomputable def L4 (q : ℝ) : ℝ := -(q * th' (-q)) / th (-q)

/-- The difference of the squares of the pair. -/
noncomputable def c2 (q : ℝ) : ℝ := th q ^ 4 - th (-q) ^ 4

theorem hasDerivAt_neg {q : ℝ} (hq : |q| < 1) : HasDerivAt (fun x => th (-x)) (-th' (-q)) q := by
  have h := HasDerivAt.comp (h₂ := th) (h := fun x : ℝ => -x) q (hasDerivAt_th (q := -q) (by rwa [abs_neg])) (hasDerivAt_id q).neg
  rw [mul_neg, mul_one] at h
  exact h

theorem sq_lt {q : ℝ} (h1 : |q| < 1) : |q ^ 2| < 1 := by
  rw [abs_pow]; exact pow_lt_one₀ (abs_nonneg q) h1 (by norm_num)

theorem hasDerivAt_sq {q : ℝ} (hq : |q| < 1) : HasDerivAt (fun x => th (x ^ 2)) (th' (q ^ 2) * (2 * q)) q :=
  HasDerivAt.comp (h₂ := th) (h := fun x : ℝ => x ^ 2) q (hasDerivAt_th (sq_lt hq)) (by simpa using hasDerivAt_pow 2 q)

theorem hasDerivAt_neg_sq {q : ℝ} (hq : |q| < 1) : HasDerivAt (fun x => th (-x ^ 2)) (-th' (-q ^ 2) * (2 * q)) q :=
  HasDerivAt.comp (h₂ := fun x => th (-x)) (h := fun x : ℝ => x ^ 2) q (hasDerivAt_neg (sq_lt hq)) (by simpa using hasDerivAt_pow 2 q)

theorem ball_nhds {q : ℝ} (hq : |q| < 1) : ∀ᶠ x in 𝓝 q, |x| < 1 := by
  have := (isOpen_lt continuous_abs continuous_const : IsOpen {x : ℝ | |x| < 1})
  exact this.mem_nhds hq

theorem L_mul {q : ℝ} (h0 : 0 ≤ q) (h1 : q < 1) : L3 q + L4 q = 4 * L4 (q ^ 2) := by
  have hq : |q| < 1 := by rwa [abs_of_nonneg h0]
  have d1 := (hasDerivAt_th hq).mul (hasDerivAt_neg hq)
  have d2 := (hasDerivAt_neg_sq hq).pow 2
  have he : (fun x => th x * th (-x)) =ᶠ[𝓝 q] fun x => th (-x ^ 2) ^ 2 := by
    filter_upwards [ball_nhds hq] with x hx using th_mul hx
  have e := d1.unique (d2.congr_of_eventuallyEq he)
  norm_num at e
  have p1 := th_ge_one h0 h1
  have p2 := th_neg_pos h0 h1
  have p3 := th_neg_pos (sq_nonneg q) ((abs_lt.1 (sq_lt hq)).2)
  have m := th_mul hq
  unfold L3 L4
  rw [div_add_div _ _ (by positivity) p2.ne', m, mul_div_assoc', div_eq_div_iff (by positivity) p3.ne']
  linear_combination (q * th (-q ^ 2)) * e

theorem L_add {q : ℝ} (h0 : 0 ≤ q) (h1 : q < 1) :
    th q ^ 2 * L3 q + th (-q) ^ 2 * L4 q = 2 * (th q ^ 2 + th (-q) ^ 2) * L3 (q ^ 2) := by
  have hq : |q| < 1 := by rwa [abs_of_nonneg h0]
  have d1 := ((hasDerivAt_th hq).pow 2).add ((hasDerivAt_neg hq).pow 2)
  have d2 := ((hasDerivAt_sq hq).pow 2).const_mul 2
  have he : (fun x => th x ^ 2 + th (-x) ^ 2) =ᶠ[𝓝 q] fun x => 2 * th (x ^ 2) ^ 2 := by
    filter_upwards [ball_nhds hq] with x hx using th_add hx
  have e := d1.unique (d2.congr_of_eventuallyEq he)
  norm_num at e
  have p1 := th_ge_one h0 h1
  have p2 := th_neg_pos h0 h1
  have p3 := th_ge_one (sq_nonneg q) ((abs_lt.1 (sq_lt hq)).2)
  rw [th_add hq]
  unfold L3 L4
  have e1 : th q ^ 2 * (q * th' q / th q) = q * th q * th' q := by field_simp
  have e2 : th (-q) ^ 2 * (-(q * th' (-q)) / th (-q)) = -(q * th (-q) * th' (-q)) := by field_simp
  have e3 : 2 * (2 * th (q ^ 2) ^ 2) * (q ^ 2 * th' (q ^ 2) / th (q ^ 2)) = 4 * q ^ 2 * th (q ^ 2) * th' (q ^ 2) := by field_simp; ring
  rw [e1, e2, e3]
  linear_combination (q / 2) * e

/-- The common factor of both differences in one step. -/
theorem J_step {q : ℝ} (h0 : 0 ≤ q) (h1 : q < 1) : ∃ f : ℝ, L3 (q ^ 2) - L4 (q ^ 2) = f * (L3 q - L4 q) ∧ c2 (q ^ 2) = f * c2 q := by
  have hq : |q| < 1 := by rwa [abs_of_nonneg h0]
  have p1 := th_ge_one h0 h1
  have p2 := th_neg_pos h0 h1
  have m := L_mul h0 h1
  have a := L_add h0 h1
  have tm := th_mul hq
  have ta := th_add hq
  unfold c2
  have e1 : th (q ^ 2) ^ 4 - th (-q ^ 2) ^ 4 = ((th q ^ 2 - th (-q) ^ 2) / 2) ^ 2 := by
    have : th (q ^ 2) ^ 4 = ((th q ^ 2 + th (-q) ^ 2) / 2) ^ 2 := by rw [ta]; ring
    have h2 : th (-q ^ 2) ^ 4 = (th q * th (-q)) ^ 2 := by rw [tm]; ring
    rw [this, h2]; ring
  have e2 : th q ^ 4 - th (-q) ^ 4 = (th q ^ 2) ^ 2 - (th (-q) ^ 2) ^ 2 := by ring
  have q1 : 0 < th q ^ 2 := by positivity
  have q2 : 0 < th (-q) ^ 2 := by positivity
  rw [e1, e2]
  generalize th q ^ 2 = x at *
  generalize th (-q) ^ 2 = y at *
  refine ⟨(x - y) / (4 * (x + y)), ?_, ?_⟩
  · have h3 : L3 (q ^ 2) = (x * L3 q + y * L4 q) / (2 * (x + y)) := by rw [a]; field_simp
    have h4 : L4 (q ^ 2) = (L3 q + L4 q) / 4 := by rw [m]; ring
    rw [h3, h4]
    field_simp
    ring
  · field_simp
    ring

theorem J_iter {q : ℝ} (h0 : 0 ≤ q) (h1 : q < 1) (n : ℕ) : (L3 (q ^ 2 ^ n) - L4 (q ^ 2 ^ n)) * c2 q = (L3 q - L4 q) * c2 (q ^ 2 ^ n) := by
  induction n with
  | zero => simp
  | succ n ih =>
    obtain ⟨f, e1, e2⟩ := J_step (q := q ^ 2 ^ n) (by positivity) (pow_lt_one₀ h0 h1 (by positivity))
    rw [← pow_mul, ← pow_succ] at e1 e2
    rw [e1, e2]
    linear_combination f * ih

/-- Jacobi's identity for the logarithmic derivatives. -/
theorem L_diff {q : ℝ} (h0 : 0 < q) (h1 : q < 1) : L3 q - L4 q = c2 q / 4 := by
  have hq : |q| < 1 := by rwa [abs_of_pos h0]
  have hz : |(0 : ℝ)| < 1 := by simp
  have t1 : Tendsto (fun x : ℝ => th' x / th x + th' (-x) / th (-x)) (𝓝 0) (𝓝 4) := by
    have c : ContinuousAt (fun x : ℝ => th' x / th x + th' (-x) / th (-x)) 0 := by
      have n0 : ContinuousAt (fun x : ℝ => -x) 0 := continuous_neg.continuousAt
      have a := continuousAt_th'
      have b := continuousAt_th hz
      refine (a.div b (by rw [th_zero]; norm_num)).add (ContinuousAt.div ?_ ?_ ?_)
      · exact ContinuousAt.comp (g := th') (by simpa using a) n0
      · exact ContinuousAt.comp (g := th) (by simpa using b) n0
      · simp [th_zero]
    have := c.tendsto
    simp only [neg_zero, th_zero, th'_zero] at this
    norm_num at this
    exact this
  have t2 : Tendsto (fun x : ℝ => x⁻¹ * c2 x) (𝓝[≠] 0) (𝓝 16) := by
    have d : HasDerivAt c2 16 0 := by
      have := ((hasDerivAt_th hz).pow 4).sub ((hasDerivAt_neg hz).pow 4)
      simp only [neg_zero, th_zero, th'_zero] at this
      norm_num at this
      exact this
    have := d.tendsto_slope_zero
    simp only [zero_add, smul_eq_mul] at this
    have hc : c2 0 = 0 := by simp [c2]
    simpa [hc] using this
  have ts := tendsto_sq hq
  have tn : Tendsto (fun n : ℕ => q ^ 2 ^ n) atTop (𝓝[≠] 0) :=
    tendsto_nhdsWithin_iff.2 ⟨ts, Eventually.of_forall fun n => (pow_pos h0 _).ne'⟩
  have r1 := (t1.comp ts).mul_const (c2 q)
  have r2 := (t2.comp tn).const_mul (L3 q - L4 q)
  have e : (fun n : ℕ => ((fun x : ℝ => th' x / th x + th' (-x) / th (-x)) ∘ fun n : ℕ => q ^ 2 ^ n) n * c2 q) =
      fun n : ℕ => (L3 q - L4 q) * ((fun x : ℝ => x⁻¹ * c2 x) ∘ fun n : ℕ => q ^ 2 ^ n) n := by
    funext n
    have := J_iter h0.le h1 n
    simp only [Function.comp]
    have hp : 0 < q ^ 2 ^ n := pow_pos h0 _
    generalize q ^ 2 ^ n = x at *
    have e2 : L3 x - L4 x = x * (th' x / th x + th' (-x) / th (-x)) := by unfold L3 L4; ring
    rw [e2] at this
    field_simp
    linear_combination this
  rw [e] at r1
  have := tendsto_nhds_unique r1 r2
  linarith

/-- The recursion for the sum of Gauss, Brent and Salamin. -/
theorem L3_step {q : ℝ} (h0 : 0 < q) (h1 : q < 1) : 2 * L3 q - c2 q / 4 = 2 * (2 * L3 (q ^ 2)) - c2 (q ^ 2) := by
  have a := L_diff h0 h1
  have b := L_diff (q := q ^ 2) (by positivity) (pow_lt_one₀ h0.le h1 (by norm_num))
  have m := L_mul h0.le h1
  linarith

end EFX.Theta
