import Verif.Lemmas.RndTrig
/-!
# The series `2F1` in rounded arithmetic
-/

namespace EFX
open Finset

variable {α : Type} {A : Arith α} {v : α → ℝ} {ok : α → Prop} {u : ℝ}

theorem poch_hi2 {b : ℝ} (h : 1 / 2 ≤ b) (h2 : b ≤ 2) {n : ℕ} (hn : n ≤ 2000) : poch b n ≤ 10 ^ (4 * n) := by
  induction n with
  | zero => rw [poch_zero]; norm_num
  | succ n ih =>
    rw [poch_succ, show 4 * (n + 1) = 4 * n + 4 by ring, pow_add]
    have hq : (n : ℝ) ≤ 2000 := by exact_mod_cast (show n ≤ 2000 by omega)
    refine mul_le_mul (ih (by omega)) ?_ ?_ (by positivity)
    · norm_num; linarith
    · have : (0 : ℝ) ≤ n := by positivity
      linarith

theorem poch_sz2 {b : ℝ} (h : 1 / 2 ≤ b) (h2 : b ≤ 2) {n : ℕ} (hn : n ≤ 2000) : Sz 8000 (poch b n) := by
  have l := poch_lo h n
  have r := poch_hi2 h h2 hn
  unfold Sz
  rw [abs_of_nonneg (by linarith)]
  constructor
  · have := pw_mono (show (-8000 : ℤ) ≤ -1 by norm_num)
    rw [pw_neg 1, pw_one] at this
    norm_num at this
    linarith
  · refine le_trans r ?_
    rw [← pw_nat]
    apply pw_mono
    push_cast
    have : (n : ℤ) ≤ 2000 := by exact_mod_cast hn
    omega

theorem poch_mono {a c : ℝ} (a0 : 0 < a) (h : a ≤ c) (n : ℕ) : poch a n ≤ poch c n ∧ 0 < poch a n := by
  induction n with
  | zero => rw [poch_zero, poch_zero]; norm_num
  | succ n ih =>
    rw [poch_succ, poch_succ]
    have : (0 : ℝ) ≤ n := by positivity
    exact ⟨mul_le_mul ih.1 (by linarith) (by linarith) (by linarith), mul_pos ih.2 (by linarith)⟩

/-- One factor of the series. -/
theorem t2f1_succ {a b c x : ℝ} (c0 : 0 < c) (n : ℕ) : t2f1 a b c x (n + 1) = t2f1 a b c x n * ((a + n) * (b + n) / ((c + n) * (n + 1)) * x) := by
  unfold t2f1
  rw [poch_succ, poch_succ, poch_succ, ← xn_step]
  have h1 := (poch_mono c0 (le_refl c) n).2
  have h2 : (0 : ℝ) ≤ n := by positivity
  have h3 : c + (n : ℝ) ≠ 0 := by linarith
  push_cast
  have h4 : (n : ℝ) + 1 ≠ 0 := by linarith
  field_simp

theorem t2f1_ratio {a b c x : ℝ} (a0 : 0 < a) (a1 : a ≤ 1) (b0 : 0 < b) (b1 : b ≤ 1) (c1 : 1 ≤ c) (n : ℕ) :
    |t2f1 a b c x (n + 1)| ≤ |t2f1 a b c x n| * |x| := by
  rw [t2f1_succ (by linarith), abs_mul, abs_mul]
  apply mul_le_mul_of_nonneg_left _ (abs_nonneg _)
  have h2 : (0 : ℝ) ≤ n := by positivity
  have h3 : |(a + n) * (b + n) / ((c + n) * (n + 1))| ≤ 1 := by
    rw [abs_of_nonneg (by positivity), div_le_one (by positivity)]
    exact mul_le_mul (by linarith) (by linarith) (by linarith) (by linarith)
  calc _ ≤ 1 * |x| := mul_le_mul_of_nonneg_right h3 (abs_nonneg _)
    _ = _ := one_mul _

theorem t2f1_zero (a b c x : ℝ) : t2f1 a b c x 0 = 1 := by simp [t2f1, poch_zero, xn]

theorem t2f1_one (a b c x : ℝ) : t2f1 a b c x 1 = a * b / c * x := by rw [t2f1, poch_one, poch_one, poch_one, xn_one]

theorem t2f1_le {a b c x : ℝ} (a0 : 0 < a) (a1 : a ≤ 1) (b0 : 0 < b) (b1 : b ≤ 1) (c1 : 1 ≤ c) (hx : |x| ≤ 1 / 1000) (n : ℕ) :
    |t2f1 a b c x n| ≤ (1 / 1000) ^ n := by
  induction n with
  | zero => rw [t2f1_zero]; simp
  | succ n ih =>
    refine le_trans (t2f1_ratio a0 a1 b0 b1 c1 n) ?_
    rw [pow_succ]
    exact mul_le_mul ih hx (abs_nonneg _) (by positivity)

theorem t2f1_ne {a b c x : ℝ} (a0 : 0 < a) (b0 : 0 < b) (c0 : 0 < c) (x0 : x ≠ 0) (n : ℕ) : t2f1 a b c x n ≠ 0 := by
  unfold t2f1
  have h1 := (poch_mono a0 (le_refl a) n).2
  have h2 := (poch_mono b0 (le_refl b) n).2
  have h3 := (poch_mono c0 (le_refl c) n).2
  exact mul_ne_zero (by positivity) (xn_ne x0 n)

namespace Rnd

/-- The running power over the factorial. -/
theorem xn_step_acc (R : Rnd A v ok u) {x : α} {X : ℝ} (hx : ok x) (nx : NearR (3 * u) (v x) X) (xs : Sz 40000000 X)
    {m : ℕ} (m1 : 1 ≤ m) (m2 : m < 2000) (sa : Sz 900000000 (xn X m)) {p : α} (op : ok p)
    (np : NearR (m * (5 * u)) (v p) (xn X m)) :
    ok (A.divI (A.mul p x) ((m + 1 : ℕ) : ℤ)) ∧ NearR ((m + 1 : ℕ) * (5 * u)) (v (A.divI (A.mul p x) ((m + 1 : ℕ) : ℤ))) (xn X (m + 1)) ∧
      Sz 950000000 (xn X (m + 1)) := by
  have u0 := R.u0
  have u1 := R.u1
  have hmq : (m : ℝ) ≤ 2000 := by exact_mod_cast m2.le
  have m0 : (1 : ℝ) ≤ m := by exact_mod_cast m1
  have hmu : (m : ℝ) * u ≤ 2000 * u := mul_le_mul_of_nonneg_right hmq u0.le
  have hmu0 : 0 ≤ (m : ℝ) * u := by positivity
  have hmu1 : u ≤ (m : ℝ) * u := by have := mul_le_mul_of_nonneg_right m0 u0.le; linarith
  have n1 := np.mul (by positivity) nx
  have s1 : Sz 940000001 (v p * v x) := by
    refine (n1.sz ?_ (sa.mul xs)).mono (by norm_num)
    have : (m : ℝ) * (5 * u) * (3 * u) ≤ 1 * (3 * u) := mul_le_mul_of_nonneg_right (by linarith) (by positivity)
    linarith
  obtain ⟨o2, e2, -⟩ := R.mul p x op hx (s1.mono (by norm_num))
  have n2 := NearR.trans (f := u / 10 ^ 4) (by positivity) e2 n1
  obtain ⟨o3, e3⟩ := R.divI (A.mul p x) ((m + 1 : ℕ) : ℤ) o2 (by omega) (by
    rw [abs_of_nonneg (by positivity)]; omega)
  have n3 : NearR (m * (5 * u) + 3 * u + m * (5 * u) * (3 * u) + u / 10 ^ 4 + (m * (5 * u) + 3 * u + m * (5 * u) * (3 * u)) * (u / 10 ^ 4))
      (v (A.mul p x) / (((m + 1 : ℕ) : ℤ) : ℝ)) (xn X (m + 1)) := by
    rw [← xn_step]
    unfold NearR at n2 ⊢
    rw [div_sub_div_same, abs_div, abs_div, ← mul_div_assoc]
    exact div_le_div_of_nonneg_right n2 (abs_nonneg _)
  have n4 := NearR.trans (f := u) u0.le e3 n3
  refine ⟨o3, ?_, ?_⟩
  · refine n4.mono ?_
    push_cast
    have h5 : (m : ℝ) * (5 * u) * (3 * u) ≤ 1 / 1000 * (3 * u) := mul_le_mul_of_nonneg_right (by linarith) (by positivity)
    have h6 : (m * (5 * u) + 3 * u + m * (5 * u) * (3 * u)) * (u / 10 ^ 4) ≤ 1 * (u / 10 ^ 4) :=
      mul_le_mul_of_nonneg_right (by linarith) (by positivity)
    have h7 : (m * (5 * u) + 3 * u + m * (5 * u) * (3 * u) + u / 10 ^ 4 + (m * (5 * u) + 3 * u + m * (5 * u) * (3 * u)) * (u / 10 ^ 4)) * u
        ≤ 1 / 10 * u := mul_le_mul_of_nonneg_right (by linarith) u0.le
    linarith
  · have hn8 := Sz.nat (n := m + 1) (by omega) (by omega)
    have := (sa.mul xs).div hn8
    rw [← xn_step]
    push_cast at this ⊢
    exact this.mono (by norm_num)

/-- The running product of a parameter. -/
theorem poch_step_acc (R : Rnd A v ok u) {b : ℝ} (b1 : 1 / 2 ≤ b) (b2 : b ≤ 2) {m : ℕ} (m1 : 1 ≤ m) (m2 : m < 2000)
    {pb bp : α} (opb : ok pb) (obp : ok bp) (npb : NearR (m * (2 * u / 10 ^ 4)) (v pb) (poch b m))
    (nbp : NearR (m * (2 * u / 10 ^ 12)) (v bp) (b + (m - 1))) :
    ok (A.incr bp) ∧ ok (A.mul pb (A.incr bp)) ∧
      NearR ((m + 1 : ℕ) * (2 * u / 10 ^ 4)) (v (A.mul pb (A.incr bp))) (poch b (m + 1)) ∧
      NearR ((m + 1 : ℕ) * (2 * u / 10 ^ 12)) (v (A.incr bp)) (b + ((m + 1 : ℕ) - 1)) := by
  have u0 := R.u0
  have u1 := R.u1
  have hmq : (m : ℝ) ≤ 2000 := by exact_mod_cast m2.le
  have m0 : (1 : ℝ) ≤ m := by exact_mod_cast m1
  have hmu : (m : ℝ) * u ≤ 2000 * u := mul_le_mul_of_nonneg_right hmq u0.le
  have hmu0 : 0 ≤ (m : ℝ) * u := by positivity
  have hmu1 : u ≤ (m : ℝ) * u := by have := mul_le_mul_of_nonneg_right m0 u0.le; linarith
  have bm0 : 0 < b + ((m : ℝ) - 1) := by linarith
  have bmv : |v bp| ≤ 2 * (b + ((m : ℝ) - 1)) := by
    have h5 := abs_sub_abs_le_abs_sub (v bp) (b + ((m : ℝ) - 1))
    unfold NearR at nbp
    rw [abs_of_pos bm0] at h5 nbp
    have h6 : (m : ℝ) * (2 * u / 10 ^ 12) * (b + ((m : ℝ) - 1)) ≤ 1 * (b + ((m : ℝ) - 1)) := mul_le_mul_of_nonneg_right (by linarith) bm0.le
    linarith
  have big : (10000 : ℝ) ≤ pw 2000000000 := by
    refine le_trans (show (10000 : ℝ) ≤ pw ((4 : ℕ) : ℤ) by rw [pw_nat]; norm_num) (pw_mono (by norm_num))
  obtain ⟨o4, e4⟩ := R.incr bp obp (by linarith)
  have fbp : NearR ((m + 1 : ℕ) * (2 * u / 10 ^ 12)) (v (A.incr bp)) (b + ((m + 1 : ℕ) - 1)) := by
    unfold NearR at nbp ⊢
    push_cast
    rw [abs_of_pos bm0] at nbp
    rw [abs_of_pos (show 0 < b + ((m : ℝ) + 1 - 1) by linarith)]
    have h5 := abs_sub_le (v (A.incr bp)) (v bp + 1) (b + ((m : ℝ) + 1 - 1))
    have h6 : |v bp + 1 - (b + ((m : ℝ) + 1 - 1))| = |v bp - (b + ((m : ℝ) - 1))| := by congr 1; ring
    have h7 : u / 10 ^ 12 * (|v bp| + 1) ≤ u / 10 ^ 12 * (2 * (b + ((m : ℝ) - 1)) + 1) := mul_le_mul_of_nonneg_left (by linarith) (by positivity)
    have h8 : 0 ≤ (m : ℝ) * (2 * u / 10 ^ 12) := by positivity
    rw [h6] at h5
    have e : ((m : ℝ) + 1) * (2 * u / 10 ^ 12) * (b + (m + 1 - 1)) = m * (2 * u / 10 ^ 12) * (b + (m - 1)) + m * (2 * u / 10 ^ 12) +
      u / 10 ^ 12 * (2 * (b + (m - 1)) + 1) + u / 10 ^ 12 := by ring
    rw [e]
    have : 0 ≤ u / 10 ^ 12 := by positivity
    linarith
  have hpoch : poch b (m + 1) = poch b m * (b + ((m + 1 : ℕ) - 1)) := by rw [poch_succ]; push_cast; ring
  have n5 := npb.mul (by positivity) fbp
  rw [← hpoch] at n5
  have spb := poch_sz2 b1 b2 (show m + 1 ≤ 2000 by omega)
  have em : ((m + 1 : ℕ) : ℝ) * (2 * u / 10 ^ 12) ≤ u / 10 ^ 5 := by
    push_cast
    linarith
  have em0 : 0 ≤ ((m + 1 : ℕ) : ℝ) * (2 * u / 10 ^ 12) := by positivity
  have n5' : NearR (m * (2 * u / 10 ^ 4) + 2 * (u / 10 ^ 5)) (v pb * v (A.incr bp)) (poch b (m + 1)) := by
    refine n5.mono ?_
    have : (m : ℝ) * (2 * u / 10 ^ 4) * (((m + 1 : ℕ) : ℝ) * (2 * u / 10 ^ 12)) ≤ 1 * (u / 10 ^ 5) := mul_le_mul (by linarith) em em0 (by norm_num)
    linarith
  have s5 : Sz 8001 (v pb * v (A.incr bp)) := n5'.sz (by linarith) spb
  obtain ⟨o6, e6, -⟩ := R.mul pb (A.incr bp) opb o4 (s5.mono (by norm_num))
  have n6 := NearR.trans (f := u / 10 ^ 4) (by positivity) e6 n5'
  refine ⟨o4, o6, ?_, fbp⟩
  refine n6.mono ?_
  push_cast
  have : (m * (2 * u / 10 ^ 4) + 2 * (u / 10 ^ 5)) * (u / 10 ^ 4) ≤ 1 / 10 * (u / 10 ^ 4) := mul_le_mul_of_nonneg_right (by linarith) (by positivity)
  linarith

/-- The term made from the running products: `a b / c * p` with small relative errors. -/
theorem term2f1_acc (R : Rnd A v ok u) {pa pb pc p : α} {a b c q e f : ℝ} (oa : ok pa) (ob : ok pb) (oc : ok pc) (op : ok p)
    (a0 : 0 < a) (b0 : 0 < b) (sa : Sz 8000 a) (sb : Sz 8000 b) (sc : Sz 8000 c) (sq : Sz 950000000 q) (e0 : 0 ≤ e)
    (e1 : e ≤ 1 / 10 ^ 10) (f1 : f ≤ 1 / 10 ^ 10)
    (na : NearR e (v pa) a) (nb : NearR e (v pb) b) (nc : NearR e (v pc) c) (np : NearR f (v p) q) :
    ok (A.mul (A.div (A.mul pa pb) pc) p) ∧ NearR (5 * e + f + 2 * u) (v (A.mul (A.div (A.mul pa pb) pc) p)) (a * b / c * q) := by
  have u0 := R.u0
  have u1 := R.u1
  norm_num at u1
  norm_num at e1 f1
  have n1 := na.mul e0 nb
  have n1' : NearR (21 / 10 * e) (v pa * v pb) (a * b) := by
    refine n1.mono ?_
    have := mul_le_mul_of_nonneg_right e1 e0
    linarith
  have s1 := n1'.sz (by linarith) (sa.mul sb)
  obtain ⟨o1, g1, -⟩ := R.mul pa pb oa ob (s1.mono (by norm_num))
  have n2 : NearR (21 / 10 * e + 2 * u / 10 ^ 4) (v (A.mul pa pb)) (a * b) := by
    refine (NearR.trans (f := u / 10 ^ 4) (by positivity) g1 n1').mono ?_
    have : 21 / 10 * e * (u / 10 ^ 4) ≤ 1 * (u / 10 ^ 4) := mul_le_mul_of_nonneg_right (by linarith) (by positivity)
    linarith
  have ab : 0 < a * b := mul_pos a0 b0
  have p1 : 0 < v (A.mul pa pb) := by
    unfold NearR at n2
    rw [abs_of_pos ab] at n2
    have h := (abs_le.1 n2).1
    have : (21 / 10 * e + 2 * u / 10 ^ 4) * (a * b) ≤ 1 / 2 * (a * b) := mul_le_mul_of_nonneg_right (by linarith) ab.le
    linarith
  have s2 := n2.sz (by linarith) (sa.mul sb)
  have s3 := nc.sz (by linarith) sc
  obtain ⟨o3, g3⟩ := R.div _ _ o1 oc (Or.inl p1) (s2.mono (by norm_num)) (s3.mono (by norm_num))
  have n3 := n2.div (by positivity) e0 (by linarith) sc.ne nc
  have n3' : NearR (42 / 10 * e + 3 * u / 10 ^ 4) (v (A.mul pa pb) / v pc) (a * b / c) := by
    refine n3.mono ?_
    have : (21 / 10 * e + 2 * u / 10 ^ 4) * (2 * e) ≤ 1 / 100 * (2 * e) := mul_le_mul_of_nonneg_right (by linarith) (by linarith)
    linarith
  have n4 : NearR (43 / 10 * e + 11 / 10 * u) (v (A.div (A.mul pa pb) pc)) (a * b / c) := by
    refine (NearR.trans (f := u) u0.le g3 n3').mono ?_
    have : (42 / 10 * e + 3 * u / 10 ^ 4) * u ≤ 1 / 100 * u := mul_le_mul_of_nonneg_right (by linarith) u0.le
    linarith
  have n5 := n4.mul (by positivity) np
  have n5' : NearR (44 / 10 * e + 12 / 10 * u + f) (v (A.div (A.mul pa pb) pc) * v p) (a * b / c * q) := by
    refine n5.mono ?_
    have : (43 / 10 * e + 11 / 10 * u) * f ≤ (43 / 10 * e + 11 / 10 * u) * (1 / 100) := mul_le_mul_of_nonneg_left (by linarith) (by positivity)
    linarith
  have s5 := n5'.sz (by linarith) (((sa.mul sb).div sc).mul sq)
  obtain ⟨o6, g6, -⟩ := R.mul _ _ o3 op (s5.mono (by norm_num))
  refine ⟨o6, ?_⟩
  refine (NearR.trans (f := u / 10 ^ 4) (by positivity) g6 n5').mono ?_
  have : (44 / 10 * e + 12 / 10 * u + f) * (u / 10 ^ 4) ≤ 1 * (u / 10 ^ 4) := mul_le_mul_of_nonneg_right (by linarith) (by positivity)
  linarith

/-- The state of the series `2F1` after `m` terms. -/
structure State2f1 (v : α → ℝ) (ok : α → Prop) (u a b c X : ℝ) (m : ℕ) (s : α × (α × α) × (α × α) × (α × α)) : Prop where
  p : ok s.1 ∧ NearR (m * (5 * u)) (v s.1) (xn X m)
  a : ok s.2.1.1 ∧ ok s.2.1.2 ∧ NearR (m * (2 * u / 10 ^ 4)) (v s.2.1.1) (poch a m) ∧ NearR (m * (2 * u / 10 ^ 12)) (v s.2.1.2) (a + (m - 1))
  b : ok s.2.2.1.1 ∧ ok s.2.2.1.2 ∧ NearR (m * (2 * u / 10 ^ 4)) (v s.2.2.1.1) (poch b m) ∧ NearR (m * (2 * u / 10 ^ 12)) (v s.2.2.1.2) (b + (m - 1))
  c : ok s.2.2.2.1 ∧ ok s.2.2.2.2 ∧ NearR (m * (2 * u / 10 ^ 4)) (v s.2.2.2.1) (poch c m) ∧ NearR (m * (2 * u / 10 ^ 12)) (v s.2.2.2.2) (c + (m - 1))

/-- The series `2F1` of a small argument. -/
theorem hyp2f1_acc (R : Rnd A v ok u) {x a b c : α} {a0 b0 c0 X L : ℝ} (hx : ok x) (ha : ok a) (hb : ok b) (hc : ok c)
    (nx : NearR (3 * u) (v x) X) (xs : Sz 40000000 X) (x1 : |X| ≤ 1 / 1000)
    (a1 : 1 / 2 ≤ a0) (a2 : a0 ≤ 1) (b1 : 1 / 2 ≤ b0) (b2 : b0 ≤ 1) (c1 : 1 ≤ c0) (c2 : c0 ≤ 2)
    (na : NearR (2 * u / 10 ^ 12) (v a) a0) (nb : NearR (2 * u / 10 ^ 12) (v b) b0) (nc : NearR (2 * u / 10 ^ 12) (v c) c0)
    (hL : HasSum (t2f1 a0 b0 c0 X) L) (hL1 : |L - 1| ≤ 1 / 100) :
    ok (Fn.hyp2f1 A a b c x) ∧ |v (Fn.hyp2f1 A a b c x) - L| ≤ u / 50 := by
  have u0 := R.u0
  have u1 := R.u1
  have x0 := xs.ne
  have big : (2 : ℝ) ≤ pw 2000000000 := by
    refine le_trans (show (2 : ℝ) ≤ pw 1 by rw [pw_one]; norm_num) (pw_mono (by norm_num))
  have sz1 : ∀ {t : ℝ}, 1 / 2 ≤ t → t ≤ 2 → Sz 8000 t := by
    intro t h1 h2
    have := poch_sz2 h1 h2 (show 1 ≤ 2000 by norm_num)
    rwa [poch_one] at this
  have ratio : ∀ n, |t2f1 a0 b0 c0 X (n + 1)| ≤ |t2f1 a0 b0 c0 X n| * |X| := t2f1_ratio (by linarith) a2 (by linarith) b2 c1
  -- the first term
  obtain ⟨o1, n1⟩ := R.term2f1_acc (e := 2 * u / 10 ^ 12) (f := 3 * u) ha hb hc hx (by linarith) (by linarith) (sz1 a1 (by linarith)) (sz1 b1 (by linarith))
    (sz1 (by linarith) c2) (xs.mono (by norm_num)) (by positivity) (by norm_num at u1 ⊢; linarith) (by norm_num at u1 ⊢; linarith) na nb nc nx
  rw [← t2f1_one] at n1
  have t1 : |t2f1 a0 b0 c0 X 1| ≤ 1 / 1000 := by
    have := ratio 0
    rw [t2f1_zero, abs_one, one_mul] at this
    linarith
  generalize hw : A.mul (A.div (A.mul a b) c) x = w at *
  have dd : |v w - t2f1 a0 b0 c0 X 1| ≤ 6 * u / 1000 := by
    refine le_trans n1 ?_
    have := mul_le_mul_of_nonneg_left t1 (show 0 ≤ 5 * (2 * u / 10 ^ 12) + 3 * u + 2 * u by positivity)
    linarith
  have dv : |v w| ≤ 1 := by
    have := abs_sub_abs_le_abs_sub (v w) (t2f1 a0 b0 c0 X 1)
    norm_num at u1
    linarith
  obtain ⟨os, es⟩ := R.add (Fn.one A) w R.one.1 o1 (by rw [R.one.2, abs_one]; linarith) (by linarith)
  rw [R.one.2, abs_one] at es
  have hs : |v (A.add (Fn.one A) w) - (t2f1 a0 b0 c0 X 0 + t2f1 a0 b0 c0 X 1)| ≤ 7 * u / 1000 := by
    have h1 := abs_sub_le (v (A.add (Fn.one A) w)) (1 + v w) (t2f1 a0 b0 c0 X 0 + t2f1 a0 b0 c0 X 1)
    rw [t2f1_zero] at h1 ⊢
    have h2 : |1 + v w - (1 + t2f1 a0 b0 c0 X 1)| = |v w - t2f1 a0 b0 c0 X 1| := by congr 1; ring
    rw [h2] at h1
    have : u / 10 ^ 12 * (1 + |v w|) ≤ u / 10 ^ 12 * 2 := mul_le_mul_of_nonneg_left (by linarith) (by positivity)
    linarith
  have := R.series_acc (fun n (s : α × (α × α) × (α × α) × (α × α)) =>
      let p := A.divI (A.mul s.1 x) n
      let ap := A.incr s.2.1.2
      let pa := A.mul s.2.1.1 ap
      let bp := A.incr s.2.2.1.2
      let pb := A.mul s.2.2.1.1 bp
      let cp := A.incr s.2.2.2.2
      let pc := A.mul s.2.2.2.1 cp
      ((p, (pa, ap), (pb, bp), (pc, cp)), A.mul (A.div (A.mul pa pb) pc) p)) (t2f1 a0 b0 c0 X) L (8 * u)
    (fun n s => State2f1 v ok u a0 b0 c0 X (n - 1) s) (by positivity) (by norm_num at u1 ⊢; linarith)
    (by
      rintro n ⟨p, ⟨pa, ap⟩, ⟨pb, bp⟩, pc, cp⟩ h2 h3 h4 ⟨⟨op, np⟩, ⟨opa, oap, npa, nap⟩, ⟨opb, obp, npb, nbp⟩, ⟨opc, ocp, npc, ncp⟩⟩
      obtain ⟨m, rfl⟩ : ∃ m, n = m + 1 := ⟨n - 1, by omega⟩
      rw [Nat.add_sub_cancel] at h4 np npa nap npb nbp npc ncp
      have hmq : (m : ℝ) ≤ 2000 := by exact_mod_cast (show m ≤ 2000 by omega)
      have hmu : (m : ℝ) * u ≤ 2000 * u := mul_le_mul_of_nonneg_right hmq u0.le
      have hm1 : (1 : ℝ) ≤ m := by exact_mod_cast (show 1 ≤ m by omega)
      have hmu1 : u ≤ (m : ℝ) * u := by have := mul_le_mul_of_nonneg_right hm1 u0.le; linarith
      have sa : Sz 900000000 (xn X m) := by
        rcases h4 with h4 | h4
        · exact xn_sz xs (by omega)
        · refine ⟨?_, le_trans (xn_abs_le (by linarith) m) ?_⟩
          · unfold t2f1 at h4
            have q1 := poch_sz2 a1 (by linarith) (show m ≤ 2000 by omega)
            have q2 := poch_sz2 b1 (by linarith) (show m ≤ 2000 by omega)
            have q3 := poch_sz2 (show 1 / 2 ≤ c0 by linarith) c2 (show m ≤ 2000 by omega)
            have q4 := ((q1.mul q2).div q3).2
            rw [abs_mul] at h4
            have q5 := mul_le_mul_of_nonneg_right q4 (abs_nonneg (xn X m))
            have q6 : pw (-6000) ≤ pw 24000 * |xn X m| := le_trans h4 q5
            have q7 := mul_le_mul_of_nonneg_left q6 (pw_pos (-24000)).le
            rw [← mul_assoc, ← pw_add, ← pw_add, show (-24000 : ℤ) + 24000 = 0 by norm_num, pw_zero, one_mul] at q7
            exact le_trans (pw_mono (by norm_num)) q7
          · refine le_trans (pow_le_one₀ (by norm_num) (by norm_num)) ?_
            rw [← pw_zero]; exact pw_mono (by norm_num)
      obtain ⟨r1, r2, r3⟩ := R.xn_step_acc hx nx xs (by omega) (by omega) sa op np
      obtain ⟨s1, s2, s3, s4⟩ := R.poch_step_acc a1 (by linarith) (by omega) (by omega) opa oap npa nap
      obtain ⟨t1, t2, t3, t4⟩ := R.poch_step_acc b1 (by linarith) (by omega) (by omega) opb obp npb nbp
      obtain ⟨v1, v2, v3, v4⟩ := R.poch_step_acc (show 1 / 2 ≤ c0 by linarith) c2 (by omega) (by omega) opc ocp npc ncp
      have k1 : ((m + 1 : ℕ) : ℝ) * (2 * u / 10 ^ 4) ≤ 1 / 10 ^ 10 := by push_cast; norm_num at u1 ⊢; linarith
      have k2 : ((m + 1 : ℕ) : ℝ) * (5 * u) ≤ 1 / 10 ^ 10 := by push_cast; norm_num at u1 ⊢; linarith
      obtain ⟨w1, w2⟩ := R.term2f1_acc s2 t2 v2 r1 (poch_mono (by linarith) (le_refl a0) (m + 1)).2 (poch_mono (by linarith) (le_refl b0) (m + 1)).2
        (poch_sz2 a1 (by linarith) (by omega)) (poch_sz2 b1 (by linarith) (by omega)) (poch_sz2 (by linarith) c2 (by omega)) r3
        (by positivity) k1 k2 s3 t3 v3 r2
      refine ⟨w1, ?_, ⟨⟨r1, ?_⟩, ⟨s2, s1, ?_, ?_⟩, ⟨t2, t1, ?_, ?_⟩, ⟨v2, v1, ?_, ?_⟩⟩⟩
      · have w3 : NearR ((m + 1 : ℕ) * (8 * u)) (v (A.mul (A.div (A.mul (A.mul pa (A.incr ap)) (A.mul pb (A.incr bp))) (A.mul pc (A.incr cp)))
            (A.divI (A.mul p x) ((m + 1 : ℕ) : ℤ)))) (t2f1 a0 b0 c0 X (m + 1)) := by
          refine w2.mono ?_
          push_cast
          linarith
        exact w3
      · rw [Nat.add_sub_cancel]; exact r2
      · rw [Nat.add_sub_cancel]; exact s3
      · rw [Nat.add_sub_cancel]; exact s4
      · rw [Nat.add_sub_cancel]; exact t3
      · rw [Nat.add_sub_cancel]; exact t4
      · rw [Nat.add_sub_cancel]; exact v3
      · rw [Nat.add_sub_cancel]; exact v4)
    (t2f1_ne (by linarith) (by linarith) (by linarith) x0) (t2f1_le (by linarith) a2 (by linarith) b2 c1 (by linarith))
    (fun n hn => tail_le hL (fun i hi => by
      have := ratio i
      have h5 : |t2f1 a0 b0 c0 X i| * |X| ≤ |t2f1 a0 b0 c0 X i| * (1 / 2) := mul_le_mul_of_nonneg_left (by linarith) (abs_nonneg _)
      linarith))
    hL1
    (st := (x, (a, a), (b, b), (c, c))) (s := A.add (Fn.one A) w) (e := 7 * u / 1000)
    (by
      have one : ∀ {t : ℝ} {y : α}, NearR (2 * u / 10 ^ 12) (v y) t → NearR ((2 - 1 : ℕ) * (2 * u / 10 ^ 4)) (v y) (poch t (2 - 1)) := by
        intro t y h
        rw [show 2 - 1 = 1 from rfl, poch_one]; refine NearR.mono h ?_; push_cast; linarith
      have two : ∀ {t : ℝ} {y : α}, NearR (2 * u / 10 ^ 12) (v y) t → NearR ((2 - 1 : ℕ) * (2 * u / 10 ^ 12)) (v y) (t + ((2 - 1 : ℕ) - 1)) := by
        intro t y h
        rw [show 2 - 1 = 1 from rfl]; push_cast; rw [sub_self, add_zero, one_mul]; exact h
      refine ⟨⟨hx, ?_⟩, ⟨ha, ha, one na, two na⟩, ⟨hb, hb, one nb, two nb⟩, ⟨hc, hc, one nc, two nc⟩⟩
      rw [show 2 - 1 = 1 from rfl, xn_one]; refine NearR.mono nx ?_; push_cast; linarith) os hs (by norm_num at u1 ⊢; linarith)
  rw [← hw] at this
  refine ⟨this.1, le_trans this.2 ?_⟩
  linarith

end Rnd
end EFX
