import Verif.Lemmas.RndHyp
import Verif.Lemmas.RndExp2
import Verif.Lemmas.RndAsin
import Verif.Props.Log
/-!
# The logarithm with rounding: the series at one and one step of Newton's method
-/

namespace EFX
variable {α : Type} {A : Arith α} {v : α → ℝ} {ok : α → Prop} {u : ℝ}

theorem log_ratio {d : ℝ} (h0 : d ≠ 0) (h1 : |d| ≤ 1 / 1000) : |Real.log (1 + d) / d - 1| ≤ 1 / 200 := by
  have dp : 0 < |d| := abs_pos.2 h0
  have hd := abs_le.1 h1
  have hl := Real.abs_log_sub_add_sum_range_le (x := -d) (by rw [abs_neg]; linarith) 1
  rw [sub_neg_eq_add, abs_neg] at hl
  simp only [Finset.sum_range_one, Nat.cast_zero, zero_add, pow_one, div_one] at hl
  rw [show Real.log (1 + d) / d - 1 = (-d + Real.log (1 + d)) / d by field_simp; ring, abs_div, div_le_iff₀ dp]
  refine le_trans hl ?_
  rw [div_le_iff₀ (by linarith)]
  nlinarith

namespace Rnd

/-- The series of `log(1 + x)` for small `x`. -/
theorem logAtOne_acc (R : Rnd A v ok u) {x : α} (hx : ok x) (xs : Sz 40000000 (v x)) (x1 : |v x| ≤ 1 / 1000) :
    ok (Fn.logAtOne A x) ∧ |v (Fn.logAtOne A x) - Real.log (1 + v x)| ≤ u / 40 * |v x| := by
  have u0 := R.u0
  have u1 := R.u1
  have x0 := xs.ne
  obtain ⟨o2, e2⟩ := R.neg _ hx
  have o3 := R.ofI 2 (by norm_num)
  have nx : NearR (3 * u) (v (A.neg x)) (-v x) := by rw [e2]; exact NearR.rfl' (by positivity)
  have sX : Sz 40000000 (-v x) := by unfold Sz at xs ⊢; rwa [abs_neg]
  have hr := log_ratio x0 x1
  obtain ⟨oh, eh⟩ := R.hyp2f1_acc (a := Fn.one A) (b := Fn.one A) (c := Fn.two A) o2 R.one.1 R.one.1 o3.1 nx sX (by rwa [abs_neg])
    (a0 := 1) (b0 := 1) (c0 := 2)
    (by norm_num) (by norm_num) (by norm_num) (by norm_num) (by norm_num) (by norm_num)
    (by rw [R.one.2]; exact NearR.rfl' (by positivity)) (by rw [R.one.2]; exact NearR.rfl' (by positivity))
    (by
      have h : v (Fn.two A) = 2 := by have := o3.2; push_cast at this; exact this
      rw [h]; exact NearR.rfl' (by positivity))
    (hasSum_log x0 (by linarith)) (by linarith)
  unfold Fn.logAtOne
  generalize Fn.hyp2f1 A (Fn.one A) (Fn.one A) (Fn.two A) (A.neg x) = h at *
  have hl := abs_le.1 hr
  have hh := abs_le.1 eh
  norm_num at u1
  have sh : Sz 1 (v h) := by
    unfold Sz
    rw [pw_neg, pw_one, abs_of_pos (by linarith)]
    norm_num
    constructor <;> linarith
  obtain ⟨om, em, -⟩ := R.mul x h hx oh ((xs.mul sh).mono (by norm_num))
  refine ⟨om, ?_⟩
  have ea : Real.log (1 + v x) = v x * (Real.log (1 + v x) / v x) := by field_simp
  generalize Real.log (1 + v x) / v x = L at *
  rw [ea, show v (A.mul x h) - v x * L = (v (A.mul x h) - v x * v h) + v x * (v h - L) by ring]
  have t1 := abs_add_le (v (A.mul x h) - v x * v h) (v x * (v h - L))
  rw [abs_mul (v x) (v h - L)] at t1
  rw [abs_mul] at em
  have t2 := mul_le_mul_of_nonneg_left eh (abs_nonneg (v x))
  have t3 : u / 10 ^ 4 * (|v x| * |v h|) ≤ u / 10 ^ 4 * (|v x| * 2) := by
    apply mul_le_mul_of_nonneg_left _ (by positivity)
    apply mul_le_mul_of_nonneg_left _ (abs_nonneg _)
    rw [abs_of_pos (by linarith)]; linarith
  have t4 : 0 ≤ u * |v x| := by positivity
  have e4 : u / 10 ^ 4 * (|v x| * 2) = u * |v x| * (2 / 10 ^ 4) := by ring
  have e5 : |v x| * (u / 50) = u * |v x| / 50 := by ring
  have e6 : u / 40 * |v x| = u * |v x| / 40 := by ring
  rw [e4] at t3
  rw [e5] at t2
  rw [e6]
  norm_num at t3
  linarith

/-- One step of Newton's method at full precision. -/
theorem logStep_acc (R : Rnd A v ok u) (H : ExpEnv A v ok u) {x w : α} {d : ℤ} (hx : ok (A.setPrec x (d * 2))) (hw : ok (A.setPrec w (d * 2)))
    (ex : v (A.setPrec x (d * 2)) = v x) (ew : v (A.setPrec w (d * 2)) = v w) (x0 : 0 < v x) (xl : |Real.log (v x)| ≤ 10 ^ 7)
    {δ : ℝ} (hδ : |v w - Real.log (v x)| ≤ δ) (δ1 : δ ≤ 1 / 100) :
    ok (Fn.logStep A x d w) ∧ |v (Fn.logStep A x d w) - Real.log (v x)| ≤ δ ^ 2 + u * (520 + 2 * |Real.log (v x)|) := by
  have u0 := R.u0
  have u1 := R.u1
  unfold Fn.logStep
  dsimp only
  generalize A.setPrec w (d * 2) = w' at *
  generalize A.setPrec x (d * 2) = x' at *
  rw [← ew] at hδ
  clear ew
  obtain ⟨on, en⟩ := R.neg _ hw
  have lw : |v w'| ≤ |Real.log (v x)| + 1 / 100 := by
    have := abs_sub_abs_le_abs_sub (v w') (Real.log (v x))
    linarith
  obtain ⟨oe, ne, -⟩ := R.exp_acc H on (by rw [en, abs_neg]; norm_num at xl ⊢; linarith)
  rw [en, abs_neg] at ne
  set L := Real.log (v x) with hL
  generalize Fn.exp A (A.neg w') = e at *
  set ε := v w' - L with hε
  have eX : v x * Real.exp (-v w') = Real.exp (-ε) := by
    rw [hε, neg_sub, Real.exp_sub, hL, Real.exp_log x0, Real.exp_neg]
    field_simp
  have hl := abs_le.1 (le_trans hδ δ1)
  have q := Real.abs_exp_sub_one_sub_id_le (x := -ε) (by rw [abs_neg]; linarith)
  have q1 := abs_le.1 q
  have hq : ε ^ 2 ≤ 1 / 10000 := by nlinarith
  rw [neg_sq] at q q1
  have E0 : 0 < Real.exp (-ε) := Real.exp_pos _
  have f0 : 0 ≤ u * (500 + |v w'|) := by positivity
  have f1 : u * (500 + |v w'|) ≤ 1 / 10 ^ 20 := by
    have h1 : 500 + |v w'| ≤ 10 ^ 8 := by norm_num at xl ⊢; linarith
    refine le_trans (mul_le_mul u1 h1 (by positivity) (by norm_num)) (by norm_num)
  have n1 : NearR (u * (500 + |v w'|)) (v x' * v e) (Real.exp (-ε)) := by
    unfold NearR at ne ⊢
    rw [ex, ← eX, ← mul_sub, abs_mul, abs_mul, ← mul_assoc, mul_comm (u * _) |v x|, mul_assoc]
    exact mul_le_mul_of_nonneg_left ne (abs_nonneg _)
  have n1' := n1
  unfold NearR at n1'
  rw [abs_of_pos E0] at n1'
  have a1 := abs_le.1 n1'
  have E2 : Real.exp (-ε) ≤ 102 / 100 := by linarith
  have E1 : 98 / 100 ≤ Real.exp (-ε) := by linarith
  have g1 : u * (500 + |v w'|) * Real.exp (-ε) ≤ u * (500 + |v w'|) * (102 / 100) := mul_le_mul_of_nonneg_left E2 f0
  have f2 : u * (500 + |v w'|) ≤ 1 / 1000 := le_trans f1 (by norm_num)
  obtain ⟨om, em, -⟩ := R.mul x' e hx oe (by
    refine Sz.mono (K := 1) ?_ (by norm_num)
    unfold Sz
    rw [pw_neg, pw_one, abs_of_pos (by linarith)]
    norm_num
    constructor <;> linarith)
  generalize A.mul x' e = m at *
  have em2 : |v m - v x' * v e| ≤ u / 10 ^ 4 * 2 := by
    refine le_trans em (mul_le_mul_of_nonneg_left ?_ (by positivity))
    rw [abs_of_pos (by linarith)]; linarith
  have hb := abs_le.1 em2
  norm_num at u1
  have m2 : |v m| ≤ 2 := by rw [abs_le]; constructor <;> linarith
  have big : (10 : ℝ) ^ 8 ≤ pw 2000000000 := by
    have := pw_mono (show ((8 : ℕ) : ℤ) ≤ 2000000000 by norm_num)
    rwa [pw_nat] at this
  norm_num at big xl
  obtain ⟨os, es, -⟩ := R.sub m (Fn.one A) om R.one.1 (by linarith) (by rw [R.one.2, abs_one]; linarith)
  rw [R.one.2, abs_one] at es
  generalize A.sub m (Fn.one A) = s at *
  have es2 : |v s - (v m - 1)| ≤ u / 10 ^ 12 * 3 := le_trans es (mul_le_mul_of_nonneg_left (by linarith) (by positivity))
  have hs := abs_le.1 es2
  have s2 : |v s| ≤ 4 := by
    have := abs_le.1 m2
    rw [abs_le]; constructor <;> linarith
  obtain ⟨oa, ea⟩ := R.add w' s hw os (by linarith) (by linarith)
  refine ⟨oa, ?_⟩
  generalize A.add w' s = r at *
  have ea2 : |v r - (v w' + v s)| ≤ u / 10 ^ 12 * (|L| + 5) := le_trans ea (mul_le_mul_of_nonneg_left (by linarith) (by positivity))
  have ha := abs_le.1 ea2
  have hδ2 : ε ^ 2 ≤ δ ^ 2 := by
    have := abs_le.1 hδ
    apply sq_le_sq'
    · linarith
    · linarith
  have g2 : u * (500 + |v w'|) * (102 / 100) ≤ u * (511 + 103 / 100 * |L|) := by
    rw [mul_assoc]
    exact mul_le_mul_of_nonneg_left (by linarith [abs_nonneg L]) u0.le
  have hwe : v w' = L + ε := by rw [hε]; ring
  have ux : 0 ≤ u * |L| := by positivity
  have k1 : u * (511 + 103 / 100 * |L|) = 511 * u + 103 / 100 * (u * |L|) := by ring
  have k2 : u / 10 ^ 12 * (|L| + 5) = (u * |L|) / 10 ^ 12 + 5 * u / 10 ^ 12 := by ring
  have k3 : u * (520 + 2 * |L|) = 520 * u + 2 * (u * |L|) := by ring
  rw [k1] at g2
  rw [k2] at ha
  rw [k3, abs_le]
  norm_num at ha hs hb
  constructor <;> linarith

/-- The computed difference to one. -/
theorem one_sub (R : Rnd A v ok u) {x : α} (hx : ok x) (h : |v x - 1| ≤ 1 / 2 ∨ |v x| ≤ pw 1001) :
    ok (A.sub (Fn.one A) x) ∧ |v (A.sub (Fn.one A) x) - (1 - v x)| ≤ u / 10 ^ 12 * (1 + |v x|) ∧ (v x ≠ 1 → v (A.sub (Fn.one A) x) ≠ 0) := by
  have hb : |v x| ≤ pw 2000000000 := by
    rcases h with h | h
    · refine le_trans (show |v x| ≤ pw 1 by rw [pw_one]; have := abs_le.1 h; rw [abs_le]; constructor <;> linarith) (pw_mono (by norm_num))
    · exact le_trans h (pw_mono (by norm_num))
  obtain ⟨a, b, -, d⟩ := R.sub (Fn.one A) x R.one.1 hx (by rw [R.one.2, abs_one, ← pw_zero]; exact pw_mono (by norm_num)) hb
  rw [R.one.2, abs_one] at b
  refine ⟨a, b, fun hn h0 => ?_⟩
  have := d (by rw [R.one.2]; norm_num) (by rw [R.one.2]; exact fun h => hn h.symm)
  rw [h0, R.one.2, abs_one, abs_zero, mul_one] at this
  exact absurd this (not_le.2 (pw_pos _))

theorem lim_u (R : Rnd A v ok u) : u ≤ pw (-Fn.argLim A) ∧ pw (-Fn.argLim A) ≤ 1 / 1000000 := by
  have t0 := R.t0
  have hl : Fn.argLim A = max (A.tol / 10) 6 := rfl
  constructor
  · refine le_trans R.ut2 (pw_mono ?_)
    rw [hl]; omega
  · refine le_trans (pw_mono (show -Fn.argLim A ≤ -((6 : ℕ) : ℤ) by rw [hl]; push_cast; omega)) ?_
    rw [pw_neg, pw_nat]; norm_num

/-- The logarithm near one. -/
theorem log_near_acc (R : Rnd A v ok u) {x : α} (hx : ok x) (h1 : v x ≠ 1) (hone : A.isone x = false) (h2 : 2 * |v x - 1| ≤ pw (-Fn.argLim A)) :
    ok (Fn.log A x) ∧ |v (Fn.log A x) - Real.log (v x)| ≤ u / 40 * |v x - 1| + u / 10 ^ 10 := by
  have u0 := R.u0
  have u1 := R.u1
  obtain ⟨lu, l6⟩ := R.lim_u
  have hd : |v x - 1| ≤ 1 / 2000000 := by linarith
  have hd' := abs_le.1 hd
  obtain ⟨o1, e1, z1⟩ := R.one_sub hx (Or.inl (by linarith))
  have z1 := z1 h1
  obtain ⟨o2, e2, -, z2⟩ := R.sub x (Fn.one A) hx R.one.1
    (le_trans (show |v x| ≤ pw 1 by rw [pw_one, abs_le]; constructor <;> linarith) (pw_mono (by norm_num)))
    (by rw [R.one.2, abs_one, ← pw_zero]; exact pw_mono (by norm_num))
  have z2 := z2 (by intro h; rw [h] at hd'; linarith) (by rw [R.one.2]; exact h1)
  rw [R.one.2, abs_one] at e2
  have ax : |v x| ≤ 2 := by rw [abs_le]; constructor <;> linarith
  have ax' : 1 / 2 ≤ |v x| := by rw [abs_of_pos (by linarith)]; linarith
  have e1' : |v (A.sub (Fn.one A) x) - (1 - v x)| ≤ u / 10 ^ 12 * 3 := le_trans e1 (mul_le_mul_of_nonneg_left (by linarith) (by positivity))
  have e2' : |v (A.sub x (Fn.one A)) - (v x - 1)| ≤ u / 10 ^ 12 * 3 := le_trans e2 (mul_le_mul_of_nonneg_left (by linarith) (by positivity))
  obtain ⟨of, ef⟩ := R.fabs_acc o1
  have hsm : Fn.nearOne A x = true := by
    unfold Fn.nearOne Fn.smallArg
    rw [decide_eq_true_eq]
    have hz : v (Fn.fabs A (A.sub (Fn.one A) x)) ≠ 0 := by rw [ef]; exact abs_ne_zero.2 z1
    have h3 := (R.order _ of hz).1
    rw [ef, abs_abs] at h3
    apply pw_lt
    refine lt_of_le_of_lt h3 ?_
    have h4 := abs_sub_abs_le_abs_sub (v (A.sub (Fn.one A) x)) (1 - v x)
    rw [abs_sub_comm (1 : ℝ)] at h4
    have : u / 10 ^ 12 * 3 = u * 3 / 10 ^ 12 := by ring
    rw [this] at e1'
    norm_num at e1'
    linarith [pw_pos (-Fn.argLim A)]
  unfold Fn.log
  rw [R.isnan x hx, R.isinf x hx]
  have hn : A.isneg x = false := by
    by_contra hc
    have := (R.isneg x hx).1 (by simpa using hc)
    linarith
  have hz : A.iszero x = false := by
    by_contra hc
    have := (R.iszero x hx).1 (by simpa using hc)
    linarith
  rw [hn, hz, hone]
  simp only [Bool.or_self, Bool.false_eq_true, if_false]
  rw [hsm, if_pos rfl]
  norm_num at u1
  have e2'' := e2'
  rw [show u / 10 ^ 12 * 3 = u * 3 / 10 ^ 12 by ring] at e2''
  norm_num at e2''
  have hm := abs_le.1 e2''
  have am : |v (A.sub x (Fn.one A))| ≤ |v x - 1| + u * 3 / 10 ^ 12 := by
    have h4 := abs_sub_abs_le_abs_sub (v (A.sub x (Fn.one A))) (v x - 1)
    norm_num
    linarith
  norm_num at am
  obtain ⟨o3, e3⟩ := R.logAtOne_acc o2 (by
    refine ⟨?_, ?_⟩
    · refine le_trans ?_ z2
      have := mul_le_mul_of_nonneg_left (show pw (-1) ≤ |v x| by rw [pw_neg, pw_one]; norm_num; linarith) (pw_pos (-5200)).le
      rw [← pw_add] at this
      exact le_trans (pw_mono (by norm_num)) this
    · refine le_trans ?_ (pw_mono (show (0 : ℤ) ≤ 40000000 by norm_num))
      rw [pw_zero]; linarith) (by linarith)
  refine ⟨o3, ?_⟩
  generalize Fn.logAtOne A (A.sub x (Fn.one A)) = r at *
  generalize v (A.sub x (Fn.one A)) = m at *
  have hlog : |Real.log (1 + m) - Real.log (v x)| ≤ u * 7 / 10 ^ 12 := by
    have p1 : 0 < 1 + m := by linarith
    have p2 : 0 < v x := by linarith
    rw [abs_le]
    constructor
    · have := Real.log_le_sub_one_of_pos (show 0 < v x / (1 + m) by positivity)
      rw [Real.log_div p2.ne' p1.ne'] at this
      have h5 : v x / (1 + m) - 1 ≤ u * 7 / 10 ^ 12 := by
        rw [div_sub_one p1.ne', div_le_iff₀ p1]
        have : u * 7 / 10 ^ 12 * (1 / 2) ≤ u * 7 / 10 ^ 12 * (1 + m) := mul_le_mul_of_nonneg_left (by linarith) (by positivity)
        refine le_trans ?_ this
        norm_num
        linarith
      linarith
    · have := Real.log_le_sub_one_of_pos (show 0 < (1 + m) / v x by positivity)
      rw [Real.log_div p1.ne' p2.ne'] at this
      have h5 : (1 + m) / v x - 1 ≤ u * 7 / 10 ^ 12 := by
        rw [div_sub_one p2.ne', div_le_iff₀ p2]
        have : u * 7 / 10 ^ 12 * (1 / 2) ≤ u * 7 / 10 ^ 12 * v x := mul_le_mul_of_nonneg_left (by linarith) (by positivity)
        refine le_trans ?_ this
        norm_num
        linarith
      linarith
  have t := abs_sub_le (v r) (Real.log (1 + m)) (Real.log (v x))
  have e3' : u / 40 * |m| ≤ u / 40 * (|v x - 1| + u * 3 / 10 ^ 12) := mul_le_mul_of_nonneg_left (by norm_num; linarith) (by positivity)
  have k1 : u / 40 * (|v x - 1| + u * 3 / 10 ^ 12) = u / 40 * |v x - 1| + u * u * (3 / (40 * 10 ^ 12)) := by ring
  have k2 : u * u ≤ u * 1 := mul_le_mul_of_nonneg_left (by linarith) u0.le
  rw [k1] at e3'
  norm_num at e3' hlog k2 ⊢
  linarith

/-- Away from one the logarithm is the result of the iteration. -/
theorem log_mid_eq (R : Rnd A v ok u) {x : α} (hx : ok x) (hone : A.isone x = false) (h2 : 11 / 10 * pw (-Fn.argLim A) ≤ |v x - 1|)
    (h3 : pw (-1000) ≤ v x) (h4 : v x < pw 1001) :
    Fn.log A x = Fn.logNewton A x (A.sub x (Fn.one A)) := by
  have u0 := R.u0
  have u1 := R.u1
  obtain ⟨lu, l6⟩ := R.lim_u
  have x0 : 0 < v x := lt_of_lt_of_le (pw_pos _) h3
  obtain ⟨o1, e1, z1⟩ := R.one_sub hx (Or.inr (by rw [abs_of_pos x0]; exact h4.le))
  obtain ⟨of, ef⟩ := R.fabs_acc o1
  have lp := pw_pos (-Fn.argLim A)
  have hsm : Fn.nearOne A x = false := by
    unfold Fn.nearOne Fn.smallArg
    rw [decide_eq_false_iff_not]
    intro hc
    have hz : v (Fn.fabs A (A.sub (Fn.one A) x)) ≠ 0 := by
      rw [ef]; refine abs_ne_zero.2 (z1 ?_)
      intro h; rw [h, sub_self, abs_zero] at h2; linarith
    have h5 := (R.order _ of hz).2
    rw [ef, abs_abs] at h5
    have h6 := lt_of_lt_of_le h5 (pw_mono (show A.order (Fn.fabs A (A.sub (Fn.one A) x)) + 1 ≤ -Fn.argLim A by omega))
    have h7 := abs_sub_abs_le_abs_sub (1 - v x) (v (A.sub (Fn.one A) x))
    rw [abs_sub_comm (1 : ℝ), abs_sub_comm (1 - v x)] at h7
    have h8 : 1 + |v x| ≤ 2 + |v x - 1| := by
      have := abs_sub_abs_le_abs_sub (v x) 1
      rw [abs_one] at this
      linarith
    have h9 : u / 10 ^ 12 * (1 + |v x|) ≤ u / 10 ^ 12 * (2 + |v x - 1|) := mul_le_mul_of_nonneg_left h8 (by positivity)
    have k1 : u / 10 ^ 12 * (2 + |v x - 1|) = u * 2 / 10 ^ 12 + u / 10 ^ 12 * |v x - 1| := by ring
    have k2 : u / 10 ^ 12 * |v x - 1| ≤ 1 / 1000 * |v x - 1| := mul_le_mul_of_nonneg_right (by norm_num at u1 ⊢; linarith) (abs_nonneg _)
    rw [k1] at h9
    norm_num at h9 k2
    norm_num at e1
    linarith
  have ho : A.order x ≤ 1000 ∧ -1000 ≤ A.order x := by
    have := R.order x hx x0.ne'
    rw [abs_of_pos x0] at this
    constructor
    · have := pw_lt (lt_of_le_of_lt this.1 h4); omega
    · have := pw_lt (lt_of_le_of_lt h3 this.2); omega
  unfold Fn.log
  rw [R.isnan x hx, R.isinf x hx]
  have hn : A.isneg x = false := by
    by_contra hc
    have := (R.isneg x hx).1 (by simpa using hc)
    linarith
  have hz : A.iszero x = false := by
    by_contra hc
    have := (R.iszero x hx).1 (by simpa using hc)
    linarith
  rw [hn, hz, hone]
  simp only [Bool.or_self, Bool.false_eq_true, if_false]
  rw [hsm, if_neg (by simp), if_neg (by omega)]

end Rnd

/-- The last step of the loop: after `K + 1` steps, the last of which is still allowed. -/
theorem digitLoop_last (A : Arith α) (f : ℤ → α → α) : ∀ (K fuel : ℕ) (d : ℤ) (w : α), K < fuel → 0 < d → d * 2 ^ K ≤ A.tol → A.tol < d * 2 ^ (K + 1) →
    Fn.digitLoop A f fuel d w = f (d * 2 ^ K) (Fn.digitLoop A f K d w)
  | 0, fuel + 1, d, w, _, _, h1, h2 => by
    conv_lhs => rw [Fn.digitLoop]
    rw [if_pos (by simpa using h1)]
    have : ∀ n y, Fn.digitLoop A f n (d * 2) y = y := by
      intro n y
      cases n with
      | zero => rfl
      | succ n => rw [Fn.digitLoop, if_neg (by simp only [zero_add, pow_one] at h2; omega)]
    rw [this, Fn.digitLoop]; simp
  | K + 1, fuel + 1, d, w, hf, d0, h1, h2 => by
    have hd : d ≤ A.tol := by
      refine le_trans ?_ h1
      have : (1 : ℤ) ≤ 2 ^ (K + 1) := one_le_pow₀ (by norm_num)
      nlinarith
    rw [Fn.digitLoop, if_pos hd, Fn.digitLoop, if_pos hd]
    rw [digitLoop_last A f K fuel (d * 2) (f d w) (by omega) (by omega) (by rw [pow_succ] at h1; rw [mul_assoc, mul_comm 2]; exact h1)
      (by rw [pow_succ] at h2; rw [mul_assoc, mul_comm 2]; exact h2)]
    rw [show d * 2 * 2 ^ K = d * 2 ^ (K + 1) by ring]

end EFX
