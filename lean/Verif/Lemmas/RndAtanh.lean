import Verif.Lemmas.RndLog
import Verif.Lemmas.RndAtan2
import Verif.Props.Hyperbolic
/-!
# The series of the inverse hyperbolic tangent with rounding
-/

namespace EFX
open Props
variable {α : Type} {A : Arith α} {v : α → ℝ} {ok : α → Prop} {u : ℝ}

theorem abs_tAtanh (x : ℝ) (i : ℕ) : |tAtanh x i| = |x| ^ (2 * i + 1) / (2 * i + 1) := by
  unfold tAtanh
  rw [abs_div, abs_pow, abs_of_pos (by positivity : (0 : ℝ) < 2 * (i : ℝ) + 1)]

theorem tAtanh_dec {x : ℝ} (h1 : |x| ≤ 1 / 1000) (i : ℕ) : |tAtanh x (i + 1)| ≤ |tAtanh x i| / 1000000 := by
  rw [abs_tAtanh, abs_tAtanh, div_div, div_le_div_iff₀ (by positivity) (by positivity)]
  rw [show 2 * (i + 1) + 1 = (2 * i + 1) + 2 by ring, pow_add]
  push_cast
  have hp : 0 ≤ |x| ^ (2 * i + 1) := by positivity
  have hi0 : (0 : ℝ) ≤ i := by positivity
  have e1 : |x| ^ (2 * i + 1) * |x| ^ 2 * ((2 * (i : ℝ) + 1) * 1000000) = |x| ^ (2 * i + 1) * ((|x| ^ 2 * 1000000) * (2 * (i : ℝ) + 1)) := by ring
  rw [e1]
  apply mul_le_mul_of_nonneg_left _ hp
  have h2 : |x| ^ 2 * 1000000 ≤ 1 := by
    have := mul_le_mul h1 h1 (abs_nonneg x) (by norm_num)
    rw [pow_two]; linarith
  have := mul_le_mul_of_nonneg_right h2 (show (0 : ℝ) ≤ 2 * i + 1 by positivity)
  linarith

theorem tAtanh_zero (x : ℝ) : tAtanh x 0 = x := by simp [tAtanh]

theorem tAtanh_small {x : ℝ} (h1 : |x| ≤ 1 / 1000) : ∀ i : ℕ, |tAtanh x (i + 1)| ≤ |x| / 1000000
  | 0 => by have := tAtanh_dec h1 0; rwa [tAtanh_zero] at this
  | i + 1 => by
    have h2 := tAtanh_dec h1 (i + 1)
    have h3 := tAtanh_small h1 i
    have := abs_nonneg (tAtanh x (i + 1))
    linarith

theorem tAtanh_tail {x : ℝ} (h1 : |x| ≤ 1 / 1000) (m : ℕ) : |Real.artanh x - psum (tAtanh x) m| ≤ 2 * |tAtanh x m| :=
  tail_le (hasSum_artanh (by linarith)) (fun i _ => by
    have := tAtanh_dec h1 i
    have := abs_nonneg (tAtanh x i)
    linarith)

theorem psum_near {x : ℝ} (h1 : |x| ≤ 1 / 1000) (m : ℕ) : |psum (tAtanh x) (m + 1) - x| ≤ |x| / 100000 := by
  have a := tAtanh_tail h1 1
  have b := tAtanh_tail h1 (m + 1)
  have c := tAtanh_small h1 0
  have d := tAtanh_small h1 m
  have e : psum (tAtanh x) 1 = x := by rw [psum_succ, tAtanh_zero]; simp [psum]
  rw [e] at a
  have t := abs_sub_le (psum (tAtanh x) (m + 1)) (Real.artanh x) x
  rw [abs_sub_comm] at b
  have := abs_nonneg x
  simp only [zero_add] at c
  linarith

namespace Rnd

theorem atanhLoop_acc (R : Rnd A v ok u) {x2 : α} {X : ℝ} (o2 : ok x2) (n2 : NE (u / 10 ^ 4) 1 (v x2) (X * X)) (Xs : Sz 100000 X)
    (x1 : |X| ≤ 1 / 1000) : ∀ (k j : ℕ) (xn s : α), j + k = 4999 → ok xn → NE (u / 10 ^ 4) (2 * j) (v xn) (X ^ (2 * j + 1)) → ok s →
      |v s - psum (tAtanh X) (j + 1)| ≤ j * (u * |X| / 10 ^ 4) →
      ok (Fn.log1p1m2Loop A x2 k (2 * (j : ℤ) + 3) xn s) ∧
      ∃ J, |v (Fn.log1p1m2Loop A x2 k (2 * (j : ℤ) + 3) xn s) - psum (tAtanh X) J| ≤ u * |X| / 2 ∧
        (J = 5000 ∨ |tAtanh X J| ≤ u * |X| / 100) := by
  have u0 := R.u0
  have u1 := R.u1
  norm_num at u1
  have X0 := abs_pos.2 Xs.ne
  have uX : 0 < u * |X| := by positivity
  intro k
  induction k with
  | zero =>
    intro j xn s hj oxn nxn os es
    rw [Fn.log1p1m2Loop]
    refine ⟨os, j + 1, le_trans es ?_, Or.inl (by omega)⟩
    have : (j : ℝ) ≤ 5000 := by exact_mod_cast (by omega : j ≤ 5000)
    have := mul_le_mul_of_nonneg_right this (show 0 ≤ u * |X| / 10 ^ 4 by positivity)
    norm_num at this ⊢
    linarith
  | succ k ih =>
    intro j xn s hj oxn nxn os es
    rw [Fn.log1p1m2Loop]
    have j5 : (j : ℝ) ≤ 5000 := by exact_mod_cast (by omega : j ≤ 5000)
    have kg : ∀ m : ℕ, m ≤ 20000 → (m : ℝ) * (u / 10 ^ 4) ≤ 2 * u := by
      intro m hm
      have : (m : ℝ) ≤ 20000 := by exact_mod_cast hm
      have := mul_le_mul_of_nonneg_right this (show 0 ≤ u / 10 ^ 4 by positivity)
      norm_num at this ⊢
      linarith
    have epow : X ^ (2 * j + 1) * (X * X) = X ^ (2 * (j + 1) + 1) := by ring
    have szp : Sz 1500000000 (X ^ (2 * (j + 1) + 1)) := by
      refine (Xs.pow _).mono ?_
      push_cast
      omega
    obtain ⟨om, nm⟩ := R.ne_mul (g := u / 10 ^ 4) (le_refl _) (k := 2 * j) (l := 1)
      (le_trans (kg _ (by omega)) (by linarith)) oxn o2 nxn n2 (K := 1500000000) (by rw [epow]; exact szp) (by norm_num)
    rw [epow, show 2 * j + 1 + 1 = 2 * (j + 1) by ring] at nm
    obtain ⟨ot, et⟩ := R.divI (A.mul xn x2) (2 * (j : ℤ) + 3) om (by omega) (by rw [abs_of_pos (by omega)]; omega)
    generalize A.mul xn x2 = y at *
    generalize A.divI y (2 * (j : ℤ) + 3) = t at *
    have n3 : (0 : ℝ) < 2 * (j : ℝ) + 3 := by positivity
    have nt : NearR (6 * u) (v t) (tAtanh X (j + 1)) := by
      have h1 : NearR (4 * u) (v y) (X ^ (2 * (j + 1) + 1)) := by
        refine NearR.mono nm (le_trans (pow_sub_le (by positivity) _ (le_trans (kg _ (by omega)) (by linarith))) ?_)
        have := kg (2 * (j + 1)) (by omega)
        linarith
      have h2 : NearR (4 * u) (v y / ((2 * (j : ℤ) + 3 : ℤ) : ℝ)) (tAtanh X (j + 1)) := by
        unfold NearR tAtanh at *
        push_cast
        rw [show 2 * ((j : ℝ) + 1) + 1 = 2 * (j : ℝ) + 3 by ring, ← sub_div, abs_div, abs_div, ← mul_div_assoc]
        exact div_le_div_of_nonneg_right h1 (abs_nonneg _)
      refine (NearR.trans u0.le (show NearR u _ _ from et) h2).mono ?_
      have := mul_le_mul_of_nonneg_left (show u ≤ 1 / 4 by linarith) (show 0 ≤ 4 * u by linarith)
      linarith
    have ts := tAtanh_small x1 j
    have t0 : tAtanh X (j + 1) ≠ 0 := by
      unfold tAtanh
      exact div_ne_zero (pow_ne_zero _ Xs.ne) (by positivity)
    have pn := psum_near x1 j
    have sb : |v s| ≤ 2 * |X| := by
      have h1 := abs_sub_abs_le_abs_sub (v s) (psum (tAtanh X) (j + 1))
      have h2 := abs_sub_abs_le_abs_sub (psum (tAtanh X) (j + 1)) X
      have h3 := mul_le_mul_of_nonneg_right j5 (show 0 ≤ u * |X| / 10 ^ 4 by positivity)
      have h4 := mul_le_mul_of_nonneg_right (show u ≤ 1 / 10 by linarith) X0.le
      norm_num at h3 es
      linarith
    have tb : |v t| ≤ 2 * |tAtanh X (j + 1)| := by
      have h1 := abs_sub_abs_le_abs_sub (v t) (tAtanh X (j + 1))
      have h2 : |v t - tAtanh X (j + 1)| ≤ 6 * u * |tAtanh X (j + 1)| := nt
      have h4 := mul_le_mul_of_nonneg_right (show 6 * u ≤ 1 by linarith) (abs_nonneg (tAtanh X (j + 1)))
      linarith
    by_cases hb : (2 * (j : ℤ) + 3) > 20 ∧ A.order t - A.order s < -A.tol
    · rw [if_pos hb]
      refine ⟨os, j + 1, le_trans es ?_, Or.inr ?_⟩
      · have := mul_le_mul_of_nonneg_right j5 (show 0 ≤ u * |X| / 10 ^ 4 by positivity)
        norm_num at this ⊢
        linarith
      · have vt0 : v t ≠ 0 := nt.ne (by linarith) t0
        have vs0 : v s ≠ 0 := by
          intro h0
          have h2 := abs_sub_abs_le_abs_sub X (psum (tAtanh X) (j + 1))
          rw [abs_sub_comm] at h2
          rw [h0, zero_sub, abs_neg] at es
          have h3 := mul_le_mul_of_nonneg_right j5 (show 0 ≤ u * |X| / 10 ^ 4 by positivity)
          have h4 := mul_le_mul_of_nonneg_right (show u ≤ 1 / 10 by linarith) X0.le
          norm_num at h3 es
          linarith
        have a1 := (R.order t ot vt0).2
        have a2 := (R.order s os vs0).1
        have a3 : |v t| ≤ pw (A.order s) * pw (-A.tol) := by
          rw [← pw_add]
          exact le_trans a1.le (pw_mono (by omega))
        have a4 : pw (A.order s) * pw (-A.tol) ≤ 2 * |X| * (u / 1000) :=
          mul_le_mul (le_trans a2 sb) R.ut (pw_pos _).le (by positivity)
        have h1 := abs_sub_abs_le_abs_sub (tAtanh X (j + 1)) (v t)
        rw [abs_sub_comm] at h1
        have h2 : |v t - tAtanh X (j + 1)| ≤ 6 * u * |tAtanh X (j + 1)| := nt
        have h4 := mul_le_mul_of_nonneg_right (show 6 * u ≤ 1 / 2 by linarith) (abs_nonneg (tAtanh X (j + 1)))
        have e4 : 2 * |X| * (u / 1000) = u * |X| / 500 := by ring
        linarith
    · rw [if_neg hb]
      have big : (4 : ℝ) ≤ pw 2000000000 := by
        refine le_trans (show (4 : ℝ) ≤ pw 1 by rw [pw_one]; norm_num) (pw_mono (by norm_num))
      obtain ⟨oa, ea⟩ := R.add s t os ot (by linarith) (by linarith)
      have := ih (j + 1) y (A.add s t) (by omega) om nm oa (by
        rw [psum_succ]
        have h2 : |v t - tAtanh X (j + 1)| ≤ 6 * u * |tAtanh X (j + 1)| := nt
        have h3 : 6 * u * |tAtanh X (j + 1)| ≤ 6 * u * (|X| / 1000000) := mul_le_mul_of_nonneg_left ts (by linarith)
        have h4 : u / 10 ^ 12 * (|v s| + |v t|) ≤ u / 10 ^ 12 * (3 * |X|) := mul_le_mul_of_nonneg_left (by linarith) (by positivity)
        have e3 : 6 * u * (|X| / 1000000) = u * |X| * (6 / 1000000) := by ring
        have e4 : u / 10 ^ 12 * (3 * |X|) = u * |X| * (3 / 10 ^ 12) := by ring
        rw [e3] at h3
        rw [e4] at h4
        rw [show v (A.add s t) - (psum (tAtanh X) (j + 1) + tAtanh X (j + 1)) = (v (A.add s t) - (v s + v t)) +
          (v s - psum (tAtanh X) (j + 1)) + (v t - tAtanh X (j + 1)) by ring]
        have t1 := abs_add_le ((v (A.add s t) - (v s + v t)) + (v s - psum (tAtanh X) (j + 1))) (v t - tAtanh X (j + 1))
        have t2 := abs_add_le (v (A.add s t) - (v s + v t)) (v s - psum (tAtanh X) (j + 1))
        push_cast
        rw [add_mul, one_mul]
        norm_num at h3 h4 es ⊢
        linarith)
      rw [show 2 * (j : ℤ) + 3 + 2 = 2 * ((j + 1 : ℕ) : ℤ) + 3 by push_cast; ring]
      exact this

/-- The function `log1p1m2`, half the logarithm of `(1 + x) / (1 - x)`, for small arguments. -/
theorem log1p1m2_acc (R : Rnd A v ok u) {x : α} (hx : ok x) (xs : Sz 100000 (v x)) (x1 : |v x| ≤ 1 / 1000) :
    ok (Fn.log1p1m2 A x) ∧ |v (Fn.log1p1m2 A x) - Real.artanh (v x)| ≤ u * |v x| := by
  have u0 := R.u0
  have X0 := abs_pos.2 xs.ne
  have uX : 0 < u * |v x| := by positivity
  have hx1 := abs_le.1 x1
  obtain ⟨om, em, -⟩ := R.mul x x hx hx ((xs.mul xs).mono (by norm_num))
  have o1 := R.one
  have o2 : ok (Fn.oneMinus A) ∧ v (Fn.oneMinus A) = -1 := by
    have := R.ofI_small (-1) (by norm_num)
    simpa [Fn.oneMinus] using this
  have hl1 : A.le x (Fn.oneMinus A) = false := by
    by_contra h
    have := (R.le x _ hx o2.1).1 (by rw [Bool.not_eq_false] at h; exact h)
    rw [o2.2] at this
    linarith
  have hl2 : A.le (Fn.one A) x = false := by
    by_contra h
    have := (R.le _ x o1.1 hx).1 (by rw [Bool.not_eq_false] at h; exact h)
    rw [o1.2] at this
    linarith
  unfold Fn.log1p1m2
  rw [R.isfinite_ok hx, hl1, hl2]
  simp only [Bool.not_true, Bool.or_self, Bool.false_eq_true, if_false]
  have e1 : psum (tAtanh (v x)) 1 = v x := by rw [psum_succ, tAtanh_zero]; simp [psum]
  obtain ⟨a, J, b, c⟩ := R.atanhLoop_acc om (X := v x) (by
      unfold NE
      rw [pow_one, add_sub_cancel_left]; exact em) xs x1 4999 0 x x (by norm_num) hx (by simp [NE, NearR]) hx (by simp [e1])
  simp only [Nat.cast_zero, mul_zero, zero_add] at a b
  refine ⟨a, ?_⟩
  have tl := tAtanh_tail x1 J
  have hJ : |tAtanh (v x) J| ≤ u * |v x| / 100 := by
    rcases c with c | c
    · rw [c, abs_tAtanh]
      have p1 : |v x| ^ (2 * 5000 + 1) ≤ |v x| * pw (-5500) := by
        rw [pow_succ, mul_comm]
        apply mul_le_mul_of_nonneg_left _ X0.le
        have h3 : |v x| ≤ pw (-3) := le_trans x1 (by unfold pw; norm_num)
        refine le_trans (pow_le_pow_left₀ X0.le h3 _) ?_
        unfold pw
        rw [← zpow_natCast, ← zpow_mul]
        exact zpow_le_zpow_right₀ (by norm_num) (by norm_num)
      have p2 : pw (-5500) ≤ u / 1000 := le_trans (pw_mono (by have := R.t1; omega)) R.ut
      have p3 := mul_le_mul_of_nonneg_left p2 X0.le
      have p4 : |v x| ^ (2 * 5000 + 1) / (2 * ((5000 : ℕ) : ℝ) + 1) ≤ |v x| ^ (2 * 5000 + 1) :=
        div_le_self (by positivity) (by norm_num)
      have e3 : |v x| * (u / 1000) = u * |v x| / 1000 := by ring
      refine le_trans (le_trans p4 (le_trans p1 p3)) ?_
      rw [e3]
      linarith
    · exact c
  have t := abs_sub_le (v (Fn.log1p1m2Loop A (A.mul x x) 4999 3 x x)) (psum (tAtanh (v x)) J) (Real.artanh (v x))
  rw [abs_sub_comm (psum (tAtanh (v x)) J)] at t
  linarith

end Rnd
end EFX
