import Verif.Lemmas.RndExp
import Verif.Lemmas.RealSinCos
/-!
# The series of sine and cosine in rounded arithmetic
-/

namespace EFX
open Finset

variable {α : Type} {A : Arith α} {v : α → ℝ} {ok : α → Prop} {u : ℝ}

theorem poch_lo {b : ℝ} (h : 1 / 2 ≤ b) (n : ℕ) : 1 / 2 ≤ poch b n := by
  have key : ∀ n : ℕ, 1 / 2 ≤ poch b (n + 1) := by
    intro n
    induction n with
    | zero => rw [poch_succ, poch_zero]; push_cast; linarith
    | succ n ih =>
      rw [poch_succ]
      push_cast
      have : (0 : ℝ) ≤ n := by positivity
      have := mul_le_mul ih (show (1 : ℝ) ≤ b + (n + 1) by linarith) (by norm_num) (by linarith)
      linarith
  cases n with
  | zero => rw [poch_zero]; norm_num
  | succ n => exact key n

theorem poch_hi {b : ℝ} (h : 1 / 2 ≤ b) (h2 : b ≤ 3 / 2) {n : ℕ} (hn : n ≤ 2000) : poch b n ≤ 10 ^ (4 * n) := by
  induction n with
  | zero => rw [poch_zero]; norm_num
  | succ n ih =>
    rw [poch_succ, show 4 * (n + 1) = 4 * n + 4 by ring, pow_add]
    have hq : (n : ℝ) ≤ 2000 := by exact_mod_cast (show n ≤ 2000 by omega)
    refine mul_le_mul (ih (by omega)) ?_ ?_ (by positivity)
    · norm_num; linarith
    · have : (0 : ℝ) ≤ n := by positivity
      linarith

theorem poch_sz {b : ℝ} (h : 1 / 2 ≤ b) (h2 : b ≤ 3 / 2) {n : ℕ} (hn : n ≤ 2000) : Sz 8000 (poch b n) := by
  have l := poch_lo h n
  have r := poch_hi h h2 hn
  unfold Sz
  rw [abs_of_nonneg (by linarith)]
  constructor
  · have := pw_mono (show (-8000 : ℤ) ≤ -1 by norm_num)
    rw [pw_neg 1, pw_one] at this
    norm_num at this
    linarith
  · refine le_trans r ?_
    rw [← pw_nat]
    apply pw_mono
    push_cast
    have : (n : ℤ) ≤ 2000 := by exact_mod_cast hn
    omega

theorem t0f1_le {b x : ℝ} (hb : 1 / 2 ≤ b) (hx : |x| ≤ 1 / 1000000) (n : ℕ) : |t0f1 b x n| ≤ (1 / 1000) ^ n := by
  cases n with
  | zero => simp [t0f1, xn, poch_zero]
  | succ n =>
    refine le_trans (t0f1_bound hb n) ?_
    have h1 : |x| ^ (n + 1) ≤ (1 / 1000000) ^ (n + 1) := pow_le_pow_left₀ (abs_nonneg _) hx _
    have h2 : (1 / 1000000 : ℝ) ^ (n + 1) = (1 / 1000) ^ (n + 1) * (1 / 1000) ^ (n + 1) := by rw [← mul_pow]; norm_num
    have h3 : (1 / 1000 : ℝ) ^ (n + 1) ≤ 1 / 1000 := by
      rw [pow_succ]
      have : (1 / 1000 : ℝ) ^ n ≤ 1 := pow_le_one₀ (by norm_num) (by norm_num)
      linarith
    have h4 : (0 : ℝ) ≤ (1 / 1000) ^ (n + 1) := by positivity
    have h5 := mul_le_mul_of_nonneg_left h3 h4
    linarith

namespace Rnd

theorem threeHalf (R : Rnd A v ok u) : ok (Fn.threeHalf A) ∧ NearR (2 * u / 10 ^ 12) (v (Fn.threeHalf A)) (3 / 2) := by
  have big : (2 : ℝ) ≤ pw 2000000000 := by
    refine le_trans (show (2 : ℝ) ≤ pw 1 by rw [pw_one]; norm_num) (pw_mono (by norm_num))
  obtain ⟨o, e⟩ := R.add (Fn.one A) A.half R.one.1 R.half.1 (by rw [R.one.2, abs_one]; linarith)
    (by rw [R.half.2, abs_of_nonneg (by norm_num)]; linarith)
  refine ⟨o, ?_⟩
  have u0 := R.u0
  rw [R.one.2, R.half.2] at e
  unfold NearR
  norm_num at e ⊢
  unfold Fn.threeHalf
  linarith

/-- One round of the series `0F1`: the state after it. -/
theorem step0f1 (R : Rnd A v ok u) {x : α} {b X : ℝ} (hx : ok x) (nx : NearR (3 * u) (v x) X) (xs : Sz 40000000 X)
    (x1 : |X| ≤ 1 / 1000000) (b1 : 1 / 2 ≤ b) (b2 : b ≤ 3 / 2) {m : ℕ} (m1 : 1 ≤ m) (m2 : m < 2000)
    (hm : m ≤ 20 ∨ pw (-6000) ≤ |t0f1 b X m|) {p pb bp : α} (op : ok p) (opb : ok pb) (obp : ok bp)
    (np : NearR (m * (5 * u)) (v p) (xn X m)) (npb : NearR (m * (2 * u / 10 ^ 4)) (v pb) (poch b m))
    (nbp : NearR (m * (2 * u / 10 ^ 12)) (v bp) (b + (m - 1))) :
    let p' := A.divI (A.mul p x) ((m + 1 : ℕ) : ℤ)
    let bp' := A.incr bp
    let pb' := A.mul pb bp'
    ok p' ∧ ok bp' ∧ ok pb' ∧ NearR ((m + 1 : ℕ) * (5 * u)) (v p') (xn X (m + 1)) ∧
      NearR ((m + 1 : ℕ) * (2 * u / 10 ^ 4)) (v pb') (poch b (m + 1)) ∧ NearR ((m + 1 : ℕ) * (2 * u / 10 ^ 12)) (v bp') (b + ((m + 1 : ℕ) - 1)) ∧
      ok (A.div p' pb') ∧ NearR ((m + 1 : ℕ) * (8 * u)) (v (A.div p' pb')) (t0f1 b X (m + 1)) := by
  have u0 := R.u0
  have u1 := R.u1
  have x0 := xs.ne
  have hmq : (m : ℝ) ≤ 2000 := by exact_mod_cast m2.le
  have m0 : (1 : ℝ) ≤ m := by exact_mod_cast m1
  have hmu : (m : ℝ) * u ≤ 2000 * u := mul_le_mul_of_nonneg_right hmq u0.le
  have hmu0 : 0 ≤ (m : ℝ) * u := by positivity
  have hmu1 : u ≤ (m : ℝ) * u := by have := mul_le_mul_of_nonneg_right m0 u0.le; linarith
  -- the size of the power
  have sa : Sz 900000000 (xn X m) := by
    rcases hm with h4 | h4
    · exact xn_sz xs h4
    · refine ⟨?_, le_trans (xn_abs_le (by linarith) m) ?_⟩
      · unfold t0f1 at h4
        rw [abs_div, le_div_iff₀ (abs_pos.2 (by have := poch_lo b1 m; linarith))] at h4
        refine le_trans ?_ h4
        have := poch_lo b1 m
        rw [abs_of_nonneg (by linarith)]
        have h5 : pw (-900000000) ≤ pw (-6000) * pw (-1) := by rw [← pw_add]; exact pw_mono (by norm_num)
        rw [pw_neg 1, pw_one] at h5
        have h6 := mul_le_mul_of_nonneg_left (show (10 : ℝ)⁻¹ ≤ poch b m by norm_num; linarith) (pw_pos (-6000)).le
        linarith
      · refine le_trans (pow_le_one₀ (by norm_num) (by norm_num)) ?_
        rw [← pw_zero]; exact pw_mono (by norm_num)
  -- the power
  have n1 := np.mul (by positivity) nx
  have s1 : Sz 940000001 (v p * v x) := by
    refine (n1.sz ?_ (sa.mul xs)).mono (by norm_num)
    have : (m : ℝ) * (5 * u) * (3 * u) ≤ 1 * (3 * u) := mul_le_mul_of_nonneg_right (by linarith) (by positivity)
    linarith
  obtain ⟨o2, e2, -⟩ := R.mul p x op hx (s1.mono (by norm_num))
  have n2 := NearR.trans (f := u / 10 ^ 4) (by positivity) e2 n1
  obtain ⟨o3, e3⟩ := R.divI (A.mul p x) ((m + 1 : ℕ) : ℤ) o2 (by omega) (by
    rw [abs_of_nonneg (by positivity)]; omega)
  have n3 : NearR (m * (5 * u) + 3 * u + m * (5 * u) * (3 * u) + u / 10 ^ 4 + (m * (5 * u) + 3 * u + m * (5 * u) * (3 * u)) * (u / 10 ^ 4))
      (v (A.mul p x) / (((m + 1 : ℕ) : ℤ) : ℝ)) (xn X (m + 1)) := by
    rw [← xn_step]
    unfold NearR at n2 ⊢
    rw [div_sub_div_same, abs_div, abs_div, ← mul_div_assoc]
    exact div_le_div_of_nonneg_right n2 (abs_nonneg _)
  have n4 := NearR.trans (f := u) u0.le e3 n3
  have fp : NearR ((m + 1 : ℕ) * (5 * u)) (v (A.divI (A.mul p x) ((m + 1 : ℕ) : ℤ))) (xn X (m + 1)) := by
    refine n4.mono ?_
    push_cast
    have h5 : (m : ℝ) * (5 * u) * (3 * u) ≤ 1 / 1000 * (3 * u) := mul_le_mul_of_nonneg_right (by linarith) (by positivity)
    have h6 : (m * (5 * u) + 3 * u + m * (5 * u) * (3 * u)) * (u / 10 ^ 4) ≤ 1 * (u / 10 ^ 4) :=
      mul_le_mul_of_nonneg_right (by linarith) (by positivity)
    have h7 : (m * (5 * u) + 3 * u + m * (5 * u) * (3 * u) + u / 10 ^ 4 + (m * (5 * u) + 3 * u + m * (5 * u) * (3 * u)) * (u / 10 ^ 4)) * u
        ≤ 1 / 10 * u := mul_le_mul_of_nonneg_right (by linarith) u0.le
    linarith
  -- the parameter
  have bm0 : 0 < b + ((m : ℝ) - 1) := by linarith
  have bmv : |v bp| ≤ 2 * (b + ((m : ℝ) - 1)) := by
    have h5 := abs_sub_abs_le_abs_sub (v bp) (b + ((m : ℝ) - 1))
    unfold NearR at nbp
    rw [abs_of_pos bm0] at h5 nbp
    have h6 : (m : ℝ) * (2 * u / 10 ^ 12) * (b + ((m : ℝ) - 1)) ≤ 1 * (b + ((m : ℝ) - 1)) := mul_le_mul_of_nonneg_right (by linarith) bm0.le
    linarith
  have big : (10000 : ℝ) ≤ pw 2000000000 := by
    refine le_trans (show (10000 : ℝ) ≤ pw ((4 : ℕ) : ℤ) by rw [pw_nat]; norm_num) (pw_mono (by norm_num))
  obtain ⟨o4, e4⟩ := R.incr bp obp (by linarith)
  have fbp : NearR ((m + 1 : ℕ) * (2 * u / 10 ^ 12)) (v (A.incr bp)) (b + ((m + 1 : ℕ) - 1)) := by
    unfold NearR at nbp ⊢
    push_cast
    rw [abs_of_pos bm0] at nbp
    rw [abs_of_pos (show 0 < b + ((m : ℝ) + 1 - 1) by linarith)]
    have h5 := abs_sub_le (v (A.incr bp)) (v bp + 1) (b + ((m : ℝ) + 1 - 1))
    have h6 : |v bp + 1 - (b + ((m : ℝ) + 1 - 1))| = |v bp - (b + ((m : ℝ) - 1))| := by congr 1; ring
    have h7 : u / 10 ^ 12 * (|v bp| + 1) ≤ u / 10 ^ 12 * (2 * (b + ((m : ℝ) - 1)) + 1) := mul_le_mul_of_nonneg_left (by linarith) (by positivity)
    have h8 : 0 ≤ (m : ℝ) * (2 * u / 10 ^ 12) := by positivity
    rw [h6] at h5
    have e : ((m : ℝ) + 1) * (2 * u / 10 ^ 12) * (b + (m + 1 - 1)) = m * (2 * u / 10 ^ 12) * (b + (m - 1)) + m * (2 * u / 10 ^ 12) +
      u / 10 ^ 12 * (2 * (b + (m - 1)) + 1) + u / 10 ^ 12 := by ring
    rw [e]
    have : 0 ≤ u / 10 ^ 12 := by positivity
    linarith
  -- the product of the parameters
  have hpoch : poch b (m + 1) = poch b m * (b + ((m + 1 : ℕ) - 1)) := by rw [poch_succ]; push_cast; ring
  have n5 := npb.mul (by positivity) fbp
  rw [← hpoch] at n5
  have spb := poch_sz b1 b2 (show m + 1 ≤ 2000 by omega)
  have em : ((m + 1 : ℕ) : ℝ) * (2 * u / 10 ^ 12) ≤ u / 10 ^ 5 := by
    push_cast
    linarith
  have em0 : 0 ≤ ((m + 1 : ℕ) : ℝ) * (2 * u / 10 ^ 12) := by positivity
  have n5' : NearR (m * (2 * u / 10 ^ 4) + 2 * (u / 10 ^ 5)) (v pb * v (A.incr bp)) (poch b (m + 1)) := by
    refine n5.mono ?_
    have : (m : ℝ) * (2 * u / 10 ^ 4) * (((m + 1 : ℕ) : ℝ) * (2 * u / 10 ^ 12)) ≤ 1 * (u / 10 ^ 5) := mul_le_mul (by linarith) em em0 (by norm_num)
    linarith
  have s5 : Sz 8001 (v pb * v (A.incr bp)) := n5'.sz (by linarith) spb
  obtain ⟨o6, e6, -⟩ := R.mul pb (A.incr bp) opb o4 (s5.mono (by norm_num))
  have n6 := NearR.trans (f := u / 10 ^ 4) (by positivity) e6 n5'
  have fpb : NearR ((m + 1 : ℕ) * (2 * u / 10 ^ 4)) (v (A.mul pb (A.incr bp))) (poch b (m + 1)) := by
    refine n6.mono ?_
    push_cast
    have : (m * (2 * u / 10 ^ 4) + 2 * (u / 10 ^ 5)) * (u / 10 ^ 4) ≤ 1 / 10 * (u / 10 ^ 4) := mul_le_mul_of_nonneg_right (by linarith) (by positivity)
    linarith
  -- the quotient
  have s7 : Sz 950000000 (xn X (m + 1)) := by
    have hn8 := Sz.nat (n := m + 1) (by omega) (by omega)
    have := (sa.mul xs).div hn8
    rw [← xn_step]
    push_cast at this ⊢
    exact this.mono (by norm_num)
  have fpe : ((m + 1 : ℕ) : ℝ) * (5 * u) ≤ 1 / 4 := by push_cast; linarith
  have fpbe : ((m + 1 : ℕ) : ℝ) * (2 * u / 10 ^ 4) ≤ 1 / 4 := by push_cast; linarith
  have sp' := fp.sz (by linarith) s7
  have spb' := fpb.sz (by linarith) spb
  have hne : |v (A.divI (A.mul p x) ((m + 1 : ℕ) : ℤ))| ≠ |v (A.mul pb (A.incr bp))| := by
    have h5 := abs_sub_abs_le_abs_sub (v (A.divI (A.mul p x) ((m + 1 : ℕ) : ℤ))) (xn X (m + 1))
    have h6 := abs_sub_abs_le_abs_sub (poch b (m + 1)) (v (A.mul pb (A.incr bp)))
    rw [abs_sub_comm] at h6
    unfold NearR at fp fpb
    have h7 := mul_le_mul_of_nonneg_right fpe (abs_nonneg (xn X (m + 1)))
    have h8 := mul_le_mul_of_nonneg_right fpbe (abs_nonneg (poch b (m + 1)))
    have h9 : |xn X (m + 1)| ≤ 1 / 1000 := by
      refine le_trans (xn_abs_le (by linarith) (m + 1)) ?_
      rw [pow_succ]
      have : (1 / 1000 : ℝ) ^ m ≤ 1 := pow_le_one₀ (by norm_num) (by norm_num)
      linarith
    have h10 : 1 / 2 ≤ |poch b (m + 1)| := le_trans (poch_lo b1 (m + 1)) (le_abs_self _)
    intro h
    linarith
  obtain ⟨o8, e8⟩ := R.div _ _ o3 o6 (Or.inr hne) (sp'.mono (by norm_num)) (spb'.mono (by norm_num))
  have n8 := fp.div (by positivity) (by positivity) (by linarith) spb.ne fpb
  have n9 := NearR.trans (f := u) u0.le e8 n8
  refine ⟨o3, o4, o6, fp, fpb, fbp, o8, ?_⟩
  unfold t0f1
  refine n9.mono ?_
  push_cast
  have h5 : ((m : ℝ) + 1) * (5 * u) * (2 * (((m : ℝ) + 1) * (2 * u / 10 ^ 4))) ≤ 1 / 1000 * u :=
    mul_le_mul (by linarith) (by linarith) (by positivity) (by norm_num)
  have h6 : (((m : ℝ) + 1) * (5 * u) + 2 * (((m : ℝ) + 1) * (2 * u / 10 ^ 4)) + ((m : ℝ) + 1) * (5 * u) * (2 * (((m : ℝ) + 1) * (2 * u / 10 ^ 4)))) * u
      ≤ 1 / 10 * u := mul_le_mul_of_nonneg_right (by linarith) u0.le
  linarith

/-- `0F1` of a small argument. -/
theorem hyp0f1_acc (R : Rnd A v ok u) {x b : α} {b0 X L : ℝ} (hx : ok x) (hb : ok b) (nx : NearR (3 * u) (v x) X) (xs : Sz 40000000 X)
    (x1 : |X| ≤ 1 / 1000000) (b1 : 1 / 2 ≤ b0) (b2 : b0 ≤ 3 / 2) (nb : NearR (2 * u / 10 ^ 12) (v b) b0)
    (hL : HasSum (t0f1 b0 X) L) (hL1 : |L - 1| ≤ 1 / 100) :
    ok (Fn.hyp0f1 A b x) ∧ |v (Fn.hyp0f1 A b x) - L| ≤ u / 50 := by
  have u0 := R.u0
  have u1 := R.u1
  have x0 := xs.ne
  have big : (2 : ℝ) ≤ pw 2000000000 := by
    refine le_trans (show (2 : ℝ) ≤ pw 1 by rw [pw_one]; norm_num) (pw_mono (by norm_num))
  have sx : Sz 40000001 (v x) := nx.sz (by linarith) xs
  have sb0 : Sz 8000 b0 := by
    have := poch_sz b1 b2 (show 1 ≤ 2000 by norm_num)
    rwa [poch_succ, poch_zero, one_mul, Nat.cast_zero, add_zero] at this
  have sb : Sz 8001 (v b) := nb.sz (by linarith) sb0
  have ax : |v x| ≤ 1 / 1000 := by
    have := abs_sub_abs_le_abs_sub (v x) X
    unfold NearR at nx
    have : 3 * u * |X| ≤ 1 * |X| := mul_le_mul_of_nonneg_right (by linarith) (abs_nonneg _)
    linarith
  have ab : 1 / 4 ≤ |v b| := by
    have h1 := abs_sub_abs_le_abs_sub b0 (v b)
    rw [abs_sub_comm] at h1
    unfold NearR at nb
    rw [abs_of_pos (show 0 < b0 by linarith)] at h1 nb
    have : 2 * u / 10 ^ 12 * b0 ≤ 1 / 2 * b0 := mul_le_mul_of_nonneg_right (by linarith) (by linarith)
    linarith
  obtain ⟨od, ed⟩ := R.div x b hx hb (Or.inr (by intro h; linarith)) (sx.mono (by norm_num)) (sb.mono (by norm_num))
  have nd : NearR (5 * u) (v (A.div x b)) (t0f1 b0 X 1) := by
    rw [t0f1_one]
    have h1 := nx.div (by positivity) (by positivity) (by linarith) sb0.ne nb
    have h2 := NearR.trans (f := u) u0.le ed h1
    refine h2.mono ?_
    have h3 : 3 * u * (2 * (2 * u / 10 ^ 12)) ≤ 1 * (2 * (2 * u / 10 ^ 12)) := mul_le_mul_of_nonneg_right (by linarith) (by positivity)
    have h4 : (3 * u + 2 * (2 * u / 10 ^ 12) + 3 * u * (2 * (2 * u / 10 ^ 12))) * u ≤ 1 / 10 * u := mul_le_mul_of_nonneg_right (by linarith) u0.le
    linarith
  have a1' : |t0f1 b0 X 1| ≤ 1 / 100000 := by
    have := t0f1_bound (x := X) b1 0
    rw [zero_add, pow_one] at this
    linarith
  have dd : |v (A.div x b) - t0f1 b0 X 1| ≤ 5 * u / 100000 := by
    refine le_trans nd ?_
    have := mul_le_mul_of_nonneg_left a1' (show 0 ≤ 5 * u by positivity)
    linarith
  have dv : |v (A.div x b)| ≤ 1 := by
    have := abs_sub_abs_le_abs_sub (v (A.div x b)) (t0f1 b0 X 1)
    linarith
  obtain ⟨os, es⟩ := R.add (Fn.one A) (A.div x b) R.one.1 od (by rw [R.one.2, abs_one]; linarith) (by linarith)
  rw [R.one.2, abs_one] at es
  have hs : |v (A.add (Fn.one A) (A.div x b)) - (t0f1 b0 X 0 + t0f1 b0 X 1)| ≤ u / 10 ^ 4 := by
    have h1 := abs_sub_le (v (A.add (Fn.one A) (A.div x b))) (1 + v (A.div x b)) (t0f1 b0 X 0 + t0f1 b0 X 1)
    have h0 : t0f1 b0 X 0 = 1 := by simp [t0f1, xn, poch_zero]
    rw [h0] at h1 ⊢
    have h2 : |1 + v (A.div x b) - (1 + t0f1 b0 X 1)| = |v (A.div x b) - t0f1 b0 X 1| := by congr 1; ring
    rw [h2] at h1
    have : u / 10 ^ 12 * (1 + |v (A.div x b)|) ≤ u / 10 ^ 12 * 2 := mul_le_mul_of_nonneg_left (by linarith) (by positivity)
    linarith
  have := R.series_acc (fun n (s : α × α × α) =>
      let p := A.divI (A.mul s.1 x) n
      let bp := A.incr s.2.2
      let pb := A.mul s.2.1 bp
      ((p, pb, bp), A.div p pb)) (t0f1 b0 X) L (8 * u)
    (fun n s => ok s.1 ∧ ok s.2.1 ∧ ok s.2.2 ∧ NearR ((n - 1 : ℕ) * (5 * u)) (v s.1) (xn X (n - 1)) ∧
      NearR ((n - 1 : ℕ) * (2 * u / 10 ^ 4)) (v s.2.1) (poch b0 (n - 1)) ∧
      NearR ((n - 1 : ℕ) * (2 * u / 10 ^ 12)) (v s.2.2) (b0 + ((n - 1 : ℕ) - 1))) (by positivity) (by linarith)
    (by
      rintro n ⟨p, pb, bp⟩ h2 h3 h4 ⟨op, opb, obp, np, npb, nbp⟩
      obtain ⟨m, rfl⟩ : ∃ m, n = m + 1 := ⟨n - 1, by omega⟩
      rw [Nat.add_sub_cancel] at h4 np npb nbp
      obtain ⟨r1, r2, r3, r4, r5, r6, r7, r8⟩ := R.step0f1 hx nx xs x1 b1 b2 (by omega) (by omega) (h4.imp (by omega) id) op opb obp np npb nbp
      refine ⟨r7, ?_, r1, r3, r2, ?_, ?_, ?_⟩
      · exact r8
      · rw [Nat.add_sub_cancel]; exact r4
      · rw [Nat.add_sub_cancel]; exact r5
      · rw [Nat.add_sub_cancel]; exact r6)
    (t0f1_ne (by linarith) x0) (t0f1_le b1 x1)
    (fun n hn => tail_le hL (fun i hi => by
      have := t0f1_ratio (x := X) b1 (n := i) (by omega)
      have h5 : |t0f1 b0 X i| * (|X| / 3) ≤ |t0f1 b0 X i| * (1 / 2) := mul_le_mul_of_nonneg_left (by linarith) (abs_nonneg _)
      linarith))
    hL1
    (st := (x, b, b)) (s := A.add (Fn.one A) (A.div x b)) (e := u / 10 ^ 4)
    (by
      refine ⟨hx, hb, hb, ?_, ?_, ?_⟩
      · rw [show 2 - 1 = 1 from rfl, xn_one]; refine NearR.mono nx ?_; push_cast; linarith
      · rw [show 2 - 1 = 1 from rfl, poch_one]; refine NearR.mono nb ?_; push_cast; linarith
      · rw [show 2 - 1 = 1 from rfl]; push_cast; rw [sub_self, add_zero, one_mul]; exact nb) os hs (by linarith)
  refine ⟨this.1, le_trans this.2 ?_⟩
  linarith

end Rnd
end EFX
