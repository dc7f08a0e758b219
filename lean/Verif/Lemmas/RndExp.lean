import Verif.Lemmas.RndSeries
import Verif.Lemmas.RealExp
/-!
# The exponential function in rounded arithmetic
-/

namespace EFX
open Finset

variable {α : Type} {A : Arith α} {v : α → ℝ} {ok : α → Prop} {u : ℝ}

theorem xn_sz {z : ℝ} (hz : Sz 40000000 z) {n : ℕ} (hn : n ≤ 20) : Sz 900000000 (xn z n) := by
  have a := hz.pow n
  have b : Sz 20 ((n.factorial : ℕ) : ℝ) := by
    have h : n.factorial ≤ Nat.factorial 20 := Nat.factorial_le hn
    have h' : ((n.factorial : ℕ) : ℝ) ≤ Nat.factorial 20 := by exact_mod_cast h
    have p : (1 : ℝ) ≤ ((n.factorial : ℕ) : ℝ) := by exact_mod_cast Nat.factorial_pos n
    constructor
    · rw [abs_of_nonneg (by linarith)]
      refine le_trans ?_ p
      have := pw_mono (show (-20 : ℤ) ≤ 0 by norm_num)
      rwa [pw_zero] at this
    · rw [abs_of_nonneg (by linarith)]
      refine le_trans h' ?_
      rw [show (20 : ℤ) = ((20 : ℕ) : ℤ) by norm_num, pw_nat]
      norm_num [Nat.factorial]
  unfold xn
  refine (a.div b).mono ?_
  have : (n : ℤ) * 40000000 ≤ 20 * 40000000 := by
    have : (n : ℤ) ≤ 20 := by exact_mod_cast hn
    omega
  omega

theorem xn_abs_le {z : ℝ} (h1 : |z| ≤ 1 / 1000) (n : ℕ) : |xn z n| ≤ (1 / 1000) ^ n := by
  unfold xn
  rw [abs_div, abs_pow]
  have p : (1 : ℝ) ≤ |((n.factorial : ℕ) : ℝ)| := by
    rw [abs_of_nonneg (by positivity)]; exact_mod_cast Nat.factorial_pos n
  exact le_trans (div_le_self (by positivity) p) (pow_le_pow_left₀ (abs_nonneg _) h1 n)

theorem xn_ne {z : ℝ} (h : z ≠ 0) (n : ℕ) : xn z n ≠ 0 := by
  unfold xn
  exact div_ne_zero (pow_ne_zero _ h) (by exact_mod_cast Nat.factorial_ne_zero n)

namespace Rnd

theorem ratio_xn {z : ℝ} (h1 : |z| ≤ 1 / 1000) (i : ℕ) : |xn z (i + 1)| ≤ |xn z i| / 1000 := by
  rw [← xn_step, abs_div, abs_mul]
  have hp : (1 : ℝ) ≤ |(((i + 1 : ℕ) : ℤ) : ℝ)| := by
    rw [abs_of_nonneg (by positivity)]
    push_cast
    have : (0 : ℝ) ≤ i := by positivity
    linarith
  refine le_trans (div_le_self (by positivity) hp) ?_
  have := mul_le_mul_of_nonneg_left h1 (abs_nonneg (xn z i))
  linarith

/-- `0F0` of a small number is its exponential, up to a fiftieth of the error unit. -/
theorem hyp0f0_acc (R : Rnd A v ok u) {x : α} (hx : ok x) (xs : Sz 40000000 (v x)) (x1 : |v x| ≤ 1 / 1000) :
    ok (Fn.hyp0f0 A x) ∧ |v (Fn.hyp0f0 A x) - Real.exp (v x)| ≤ u / 50 := by
  have u0 := R.u0
  have u1 := R.u1
  have x0 := xs.ne
  have big : (2 : ℝ) ≤ pw 2000000000 := by
    refine le_trans (show (2 : ℝ) ≤ pw 1 by rw [pw_one]; norm_num) (pw_mono (by norm_num))
  obtain ⟨os, es⟩ := R.add (Fn.one A) x R.one.1 hx (by rw [R.one.2, abs_one]; linarith) (by linarith)
  rw [R.one.2, abs_one] at es
  have hs : |v (A.add (Fn.one A) x) - (xn (v x) 0 + xn (v x) 1)| ≤ 2 * u / 10 ^ 12 := by
    rw [xn_one, show xn (v x) 0 = 1 by simp [xn]]
    refine le_trans es ?_
    have : u / 10 ^ 12 * (1 + |v x|) ≤ u / 10 ^ 12 * 2 := mul_le_mul_of_nonneg_left (by linarith) (by positivity)
    linarith
  have hsum := hasSum_exp (v x)
  have := R.series_acc (fun n p => let p := A.divI (A.mul p x) n; (p, p)) (xn (v x)) (Real.exp (v x)) (2 * u)
    (fun n p => ok p ∧ NearR ((n - 1 : ℕ) * (2 * u)) (v p) (xn (v x) (n - 1))) (by positivity) (by linarith)
    (by
      rintro n p h2 h3 h4 ⟨op, np⟩
      obtain ⟨m, rfl⟩ : ∃ m, n = m + 1 := ⟨n - 1, by omega⟩
      rw [Nat.add_sub_cancel] at h4 np
      have sa : Sz 900000000 (xn (v x) m) := by
        rcases h4 with h4 | h4
        · exact xn_sz xs (by omega)
        · refine ⟨le_trans (pw_mono (by norm_num)) h4, le_trans (xn_abs_le x1 m) ?_⟩
          refine le_trans (pow_le_one₀ (by norm_num) (by norm_num)) ?_
          rw [← pw_zero]; exact pw_mono (by norm_num)
      have hm : (m : ℝ) ≤ 2000 := by exact_mod_cast (show m ≤ 2000 by omega)
      have m0 : (0 : ℝ) ≤ m := by positivity
      have hmu : (m : ℝ) * (2 * u) ≤ 2000 * (2 * u) := mul_le_mul_of_nonneg_right hm (by positivity)
      have hmu0 : 0 ≤ (m : ℝ) * (2 * u) := by positivity
      have n1 : NearR (m * (2 * u)) (v p * v x) (xn (v x) m * v x) := by
        have := np.mul (by positivity) (NearR.rfl' (b := v x) (le_refl (0 : ℝ)))
        simpa using this
      have s1 : Sz 940000001 (v p * v x) := (n1.sz (by linarith) (sa.mul xs)).mono (by norm_num)
      obtain ⟨o2, e2, -⟩ := R.mul p x op hx (s1.mono (by norm_num))
      have n2 := NearR.trans (f := u / 10 ^ 4) (by positivity) e2 n1
      obtain ⟨o3, e3⟩ := R.divI (A.mul p x) ((m + 1 : ℕ) : ℤ) o2 (by omega) (by
        rw [abs_of_nonneg (by positivity)]; omega)
      have n3 : NearR (m * (2 * u) + u / 10 ^ 4 + m * (2 * u) * (u / 10 ^ 4)) (v (A.mul p x) / (((m + 1 : ℕ) : ℤ) : ℝ)) (xn (v x) (m + 1)) := by
        rw [← xn_step]
        unfold NearR at n2 ⊢
        rw [div_sub_div_same, abs_div, abs_div, ← mul_div_assoc]
        exact div_le_div_of_nonneg_right n2 (abs_nonneg _)
      have n4 := NearR.trans (f := u) u0.le e3 n3
      have fin : m * (2 * u) + u / 10 ^ 4 + m * (2 * u) * (u / 10 ^ 4) + u + (m * (2 * u) + u / 10 ^ 4 + m * (2 * u) * (u / 10 ^ 4)) * u ≤
          ((m + 1 : ℕ) : ℝ) * (2 * u) := by
        push_cast
        have h5 : (m : ℝ) * (2 * u) * (u / 10 ^ 4) ≤ 1 * (u / 10 ^ 4) := mul_le_mul_of_nonneg_right (by linarith) (by positivity)
        have h6 : (m * (2 * u) + u / 10 ^ 4 + m * (2 * u) * (u / 10 ^ 4)) * u ≤ 1 / 10 * u := mul_le_mul_of_nonneg_right (by linarith) u0.le
        linarith
      exact ⟨o3, n4.mono fin, o3, n4.mono fin⟩)
    (xn_ne x0) (xn_abs_le x1)
    (fun n hn => tail_le hsum (fun i hi => by
      have := ratio_xn x1 i
      have := abs_nonneg (xn (v x) i)
      change |xn (v x) (i + 1)| ≤ |xn (v x) i| / 2
      linarith))
    (by
      have := Real.abs_exp_sub_one_le (x := v x) (by linarith)
      linarith)
    (st := x) (s := A.add (Fn.one A) x) (e := 2 * u / 10 ^ 12)
    ⟨hx, by rw [show 2 - 1 = 1 from rfl, xn_one]; exact NearR.rfl' (by positivity)⟩ os hs (by linarith)
  refine ⟨this.1, le_trans this.2 ?_⟩
  linarith

/-- What `exp` needs to know about the stored constants: `ln 2` and `e` are accurate, the reciprocal of the stored `ln 2` is cut and
not rounded up, and the limit of the arguments is large. -/
structure ExpEnv (A : Arith α) (v : α → ℝ) (ok : α → Prop) (u : ℝ) : Prop where
  ln2 : ok A.ln2 ∧ |v A.ln2 - Real.log 2| ≤ u / 10 ^ 4
  e : ok A.e ∧ NearR (u / 10 ^ 4) (v A.e) (Real.exp 1)
  max : ok A.maxExp ∧ 10 ^ 8 ≤ v A.maxExp
  below : v (A.div (Fn.one A) A.ln2) * v A.ln2 < 1

theorem exp_shift {a b δ : ℝ} (h : |a - b| ≤ δ) (h1 : δ ≤ 1) : NearR (2 * δ) (Real.exp a) (Real.exp b) := by
  unfold NearR
  rw [abs_of_pos (Real.exp_pos b)]
  have h2 := Real.abs_exp_sub_one_le (x := a - b) (by linarith)
  have e1 : Real.exp a - Real.exp b = (Real.exp (a - b) - 1) * Real.exp b := by
    rw [sub_mul, ← Real.exp_add, sub_add_cancel, one_mul]
  rw [e1, abs_mul, abs_of_pos (Real.exp_pos b)]
  exact mul_le_mul_of_nonneg_right (by linarith) (Real.exp_pos b).le

theorem log2_bounds : 69 / 100 < Real.log 2 ∧ Real.log 2 < 70 / 100 := by
  have h1 := Real.log_two_gt_d9
  have h2 := Real.log_two_lt_d9
  constructor <;> linarith

theorem sz_of_bounds {a : ℝ} (h1 : 1 / 10 ≤ |a|) (h2 : |a| ≤ 10) : Sz 1 a := by
  unfold Sz; rw [pw_neg, pw_one]; constructor <;> linarith

theorem pow2_acc (R : Rnd A v ok u) {n : ℕ} (hn : n ≤ 200000000) :
    ok (Fn.pow2 A (n : ℤ)) ∧ NearR (4 * n * (u / 10 ^ 4)) (v (Fn.pow2 A (n : ℤ))) (2 ^ n) := by
  have u0 := R.u0
  have u1 := R.u1
  have hn' : (n : ℝ) ≤ 200000000 := by exact_mod_cast hn
  unfold Fn.pow2
  rw [if_neg (by omega), if_neg (by omega)]
  by_cases h0 : n = 0
  · rw [if_pos (by omega), h0, pow_zero]; exact ⟨R.one.1, by rw [R.one.2]; exact NearR.rfl' (by positivity)⟩
  rw [if_neg (by omega)]
  by_cases h1 : n = 1
  · rw [if_pos (by omega), h1, pow_one]; exact ⟨R.two.1, by rw [R.two.2]; exact NearR.rfl' (by positivity)⟩
  rw [if_neg (by omega)]
  unfold Fn.powI powInt
  rw [if_neg (by omega), Option.getD_some, Int.natAbs_natCast]
  have hng : (n : ℝ) * (u / 10 ^ 4) ≤ 200000000 * (u / 10 ^ 4) := mul_le_mul_of_nonneg_right hn' (by positivity)
  obtain ⟨o, ne⟩ := R.powNat_acc (le_refl (u / 10 ^ 4)) (K := 1) (t := 2) (by norm_num) (sz_of_bounds (by norm_num) (by norm_num)) (p := n)
    (by push_cast; linarith) (by push_cast; omega) R.two.1 (by rw [R.two.2]; exact NearR.rfl' (by positivity))
  refine ⟨o, NearR.mono ne ?_⟩
  have := pow_sub_le (g := u / 10 ^ 4) (by positivity) (2 * n) (by push_cast; linarith)
  push_cast at this
  linarith

theorem pownN_acc (R : Rnd A v ok u) {g t : ℝ} (hg : u / 10 ^ 4 ≤ g) (ht : Sz 1 t) {p : ℕ} (hp : (2 * p : ℕ) * g ≤ 1 / 4)
    (hs : p ≤ 200000000) {x : α} (hx : ok x) (h : NearR g (v x) t) :
    ok (Fn.pown A x p) ∧ NearR (4 * p * g) (v (Fn.pown A x p)) (t ^ p) := by
  have u0 := R.u0
  have g0 : 0 ≤ g := le_trans (by positivity) hg
  obtain ⟨o, ne⟩ := R.pownNat_acc hg (by norm_num) ht hp (by omega) hx h
  unfold Fn.pown pown
  rw [if_neg (by omega), Option.getD_some, Int.natAbs_natCast]
  refine ⟨o, NearR.mono ne ?_⟩
  have := pow_sub_le g0 (2 * p) hp
  push_cast at this
  linarith

set_option maxHeartbeats 2000000 in
/-- The reduction: the number of multiples of `ln 2` and the remainder. -/
theorem expRed_acc (R : Rnd A v ok u) (H : ExpEnv A v ok u) {x : α} (hx : ok x) (x0 : 1 / 1000 ≤ v x) (x1 : v x ≤ 10 ^ 8) :
    let nf := A.intPart (A.mul x (A.div (Fn.one A) A.ln2))
    let q := A.divI (A.sub x (A.mul nf A.ln2)) 2048
    ∃ n : ℕ, ok nf ∧ v nf = n ∧ (n : ℝ) ≤ 3 / 2 * v x ∧ ok q ∧ Sz 40000000 (v q) ∧ |v q| ≤ 1 / 1000 ∧
      0 ≤ v x - n * Real.log 2 + 1 / 100 ∧ v x - n * Real.log 2 ≤ 71 / 100 ∧
      |v q - (v x - n * Real.log 2) / 2048| ≤ u * (1 + v x / 1000) / 2048 := by
  have u0 := R.u0
  have u1 := R.u1
  obtain ⟨ol, el⟩ := H.ln2
  have hb := H.below
  obtain ⟨L1, L2⟩ := log2_bounds
  obtain ⟨l1, l2⟩ := abs_le.1 el
  have l3 : 689 / 1000 < v A.ln2 := by linarith
  have l4 : v A.ln2 < 701 / 1000 := by linarith
  have l0 : 0 < v A.ln2 := by linarith
  have sl : Sz 1 (v A.ln2) := sz_of_bounds (by rw [abs_of_pos l0]; linarith) (by rw [abs_of_pos l0]; linarith)
  have s1 : Sz 1 (1 : ℝ) := sz_of_bounds (by norm_num) (by norm_num)
  obtain ⟨oi, ei⟩ := R.div (Fn.one A) A.ln2 R.one.1 ol (Or.inl (by rw [R.one.2]; norm_num)) (by rw [R.one.2]; exact s1.mono (by norm_num))
    (sl.mono (by norm_num))
  rw [R.one.2] at ei
  generalize A.div (Fn.one A) A.ln2 = inv at *
  generalize hl : v A.ln2 = l at *
  have il : 0 < 1 / l := by positivity
  rw [abs_of_pos il] at ei
  obtain ⟨i1, i2⟩ := abs_le.1 ei
  have i3 : (1 - u) * (1 / l) ≤ v inv := by linarith
  have il1 : 1 ≤ 1 / l := by rw [le_div_iff₀ l0]; linarith
  have il2 : 1 / l ≤ 3 / 2 := by rw [div_le_iff₀ l0]; linarith
  have iv0 : 9 / 10 ≤ v inv := by nlinarith
  have iv1 : v inv ≤ 2 := by
    have := mul_le_mul_of_nonneg_left il2 u0.le
    linarith
  have x0' : 0 < v x := by linarith
  have pos : 0 < v x * v inv := by positivity
  have sx : Sz 9 (v x) := by
    rw [Sz, abs_of_pos x0', show (9 : ℤ) = ((9 : ℕ) : ℤ) by norm_num, pw_neg, pw_nat]
    constructor
    · refine le_trans ?_ x0; norm_num
    · refine le_trans x1 ?_; norm_num
  have si : Sz 1 (v inv) := sz_of_bounds (by rw [abs_of_pos (by linarith)]; linarith) (by rw [abs_of_pos (by linarith)]; linarith)
  obtain ⟨om, em, tm⟩ := R.mul x inv hx oi ((sx.mul si).mono (by norm_num))
  generalize A.mul x inv = m at *
  rw [abs_of_pos pos] at em tm
  obtain ⟨m1, m2⟩ := abs_le.1 em
  have mlow : (1 - u / 10 ^ 4) * (v x * v inv) ≤ v m := by linarith
  have m0 : 0 ≤ v m := le_trans (mul_nonneg (by linarith) pos.le) mlow
  rw [abs_of_nonneg m0] at tm
  have mup : v m ≤ 2 * 10 ^ 8 := by
    have := mul_le_mul x1 iv1 (by linarith) (by norm_num)
    linarith
  obtain ⟨on, en⟩ := R.intPart m om m0 (by linarith)
  simp only
  generalize A.intPart m = nf at *
  obtain ⟨n, hn⟩ : ∃ n : ℕ, ⌊v m⌋ = (n : ℤ) := ⟨⌊v m⌋.toNat, by rw [Int.toNat_of_nonneg (Int.floor_nonneg.2 m0)]⟩
  rw [hn] at en
  have en' : v nf = n := by rw [en]; push_cast; rfl
  have fl1 : (n : ℝ) ≤ v m := by have := Int.floor_le (v m); rw [hn] at this; exact_mod_cast this
  have fl2 : v m < n + 1 := by have := Int.lt_floor_add_one (v m); rw [hn] at this; exact_mod_cast this
  have n0 : (0 : ℝ) ≤ n := by positivity
  -- the multiple is below the argument
  have nl : n * l < v x := by
    calc (n : ℝ) * l ≤ v x * v inv * l := mul_le_mul_of_nonneg_right (le_trans fl1 tm) l0.le
      _ = v x * (v inv * l) := by ring
      _ < v x * 1 := mul_lt_mul_of_pos_left hb x0'
      _ = v x := mul_one _
  have nx : (n : ℝ) ≤ 3 / 2 * v x := by nlinarith
  have hmul : ok (A.mul nf A.ln2) ∧ |v (A.mul nf A.ln2) - n * l| ≤ u / 10 ^ 4 * (n * l) ∧ 0 ≤ v (A.mul nf A.ln2) ∧ v (A.mul nf A.ln2) ≤ n * l := by
    by_cases hz : n = 0
    · obtain ⟨a, b⟩ := R.mul0 nf A.ln2 on ol (by rw [en', hz]; simp)
      refine ⟨a, ?_, by rw [b], ?_⟩ <;> rw [b, hz] <;> simp
    · have hn1 : (1 : ℝ) ≤ n := by exact_mod_cast Nat.one_le_iff_ne_zero.2 hz
      have nl0 : 0 < n * l := by positivity
      have sn : Sz 9 (n : ℝ) := by
        rw [Sz, abs_of_pos (by linarith), show (9 : ℤ) = ((9 : ℕ) : ℤ) by norm_num, pw_neg, pw_nat]
        constructor
        · refine le_trans ?_ hn1; norm_num
        · linarith
      obtain ⟨a, b, d⟩ := R.mul nf A.ln2 on ol (by rw [en', hl]; exact (sn.mul sl).mono (by norm_num))
      rw [en', hl, abs_of_pos nl0] at b d
      have h5 := (abs_le.1 b).1
      have h6 : u / 10 ^ 4 * (n * l) ≤ 1 * (n * l) := mul_le_mul_of_nonneg_right (by linarith) nl0.le
      exact ⟨a, b, by linarith, (abs_le.1 d).2⟩
  generalize A.mul nf A.ln2 = t at *
  obtain ⟨ot, et, t0, t1⟩ := hmul
  have big : (10 : ℝ) ^ 8 ≤ pw 2000000000 := by
    have := pw_mono (show ((8 : ℕ) : ℤ) ≤ 2000000000 by norm_num)
    rwa [pw_nat] at this
  obtain ⟨or_, er, -, lr⟩ := R.sub x t hx ot (by rw [abs_of_pos x0']; linarith) (by rw [abs_of_nonneg t0]; linarith)
  have lr' := lr x0'.ne' (by linarith)
  generalize A.sub x t = r at *
  rw [abs_of_pos x0', abs_of_nonneg t0] at er
  rw [abs_of_pos x0'] at lr'
  -- error of the remainder
  have q1 : u / 10 ^ 12 * (v x + v t) ≤ u / 10 ^ 12 * (2 * v x) := mul_le_mul_of_nonneg_left (by linarith) (by positivity)
  have q2 : u / 10 ^ 4 * (n * l) ≤ u / 10 ^ 4 * v x := mul_le_mul_of_nonneg_left nl.le (by positivity)
  have q3 : |n * l - n * Real.log 2| ≤ 3 / 2 * v x * (u / 10 ^ 4) := by
    rw [← mul_sub, abs_mul, abs_of_nonneg n0]
    exact mul_le_mul nx el (abs_nonneg _) (by positivity)
  have er2 : |v r - (v x - n * Real.log 2)| ≤ u * (v x / 1000) / 2 := by
    have h1 := abs_sub_le (v r) (v x - v t) (v x - n * Real.log 2)
    rw [show v x - v t - (v x - n * Real.log 2) = -(v t - n * Real.log 2) by ring, abs_neg] at h1
    have h2 := abs_sub_le (v t) (n * l) (n * Real.log 2)
    have h3 : 0 < u * v x := by positivity
    nlinarith
  have hux : u * v x ≤ 1 / 10 ^ 20 := by
    have := mul_le_mul u1 x1 x0'.le (by norm_num)
    refine le_trans this (by norm_num)
  -- size of the remainder
  have up : v x - n * l ≤ 702 / 1000 := by
    have h1 : v x * v inv * l ≥ v x * (1 - u) := by
      have : (1 - u) * (1 / l) * l = 1 - u := by field_simp
      have h2 := mul_le_mul_of_nonneg_right i3 l0.le
      rw [this] at h2
      have := mul_le_mul_of_nonneg_left h2 x0'.le
      linarith
    have h2 : v x * v inv * l ≤ v x := by
      have := mul_le_mul_of_nonneg_left hb.le x0'.le
      linarith
    have h3 := mul_le_mul_of_nonneg_right mlow l0.le
    have h4 : (1 - u / 10 ^ 4) * (v x * v inv) * l = v x * v inv * l - u / 10 ^ 4 * (v x * v inv * l) := by ring
    have h5 : u / 10 ^ 4 * (v x * v inv * l) ≤ u / 10 ^ 4 * v x := mul_le_mul_of_nonneg_left h2 (by positivity)
    have h6 := mul_lt_mul_of_pos_right fl2 l0
    have h7 : (n + 1 : ℝ) * l = n * l + l := by ring
    linarith
  obtain ⟨q4, q5⟩ := abs_le.1 q3
  have hsm : 3 / 2 * v x * (u / 10 ^ 4) ≤ 1 / 1000 := by linarith
  obtain ⟨r1, r2⟩ := abs_le.1 er2
  have rabs : |v r| ≤ 72 / 100 := abs_le.2 ⟨by linarith, by linarith⟩
  obtain ⟨oq, eq⟩ := R.divI r 2048 or_ (by norm_num) (by norm_num)
  push_cast at eq
  have rdiv : |v r / 2048| = |v r| / 2048 := by rw [abs_div]; norm_num
  rw [rdiv] at eq
  have rn : 0 < |v r| := lt_of_lt_of_le (mul_pos (pw_pos _) x0') lr'
  have b1 := abs_sub_abs_le_abs_sub (v (A.divI r 2048)) (v r / 2048)
  have b2 := abs_sub_abs_le_abs_sub (v r / 2048) (v (A.divI r 2048))
  rw [abs_sub_comm (v r / 2048), rdiv] at b2
  rw [rdiv] at b1
  have h8 : u * (|v r| / 2048) ≤ 1 / 2 * (|v r| / 2048) := mul_le_mul_of_nonneg_right (by linarith) (by positivity)
  refine ⟨n, on, en', nx, oq, ⟨?_, ?_⟩, by linarith, by linarith, by linarith, ?_⟩
  · have h9 : pw (-40000000) ≤ pw (-5200) * pw (-8) := by rw [← pw_add]; exact pw_mono (by norm_num)
    have h10 : pw (-8) = 1 / 10 ^ 8 := by rw [show (-8 : ℤ) = -((8 : ℕ) : ℤ) by norm_num, pw_neg, pw_nat]; norm_num
    have h11 : pw (-5200) * (1 / 1000) ≤ pw (-5200) * v x := mul_le_mul_of_nonneg_left x0 (pw_pos _).le
    rw [h10] at h9
    have := pw_pos (-5200)
    generalize pw (-5200) = P at *
    linarith
  · have := pw_mono (show (0 : ℤ) ≤ 40000000 by norm_num)
    rw [pw_zero] at this
    linarith
  · have h9 := abs_sub_le (v (A.divI r 2048)) (v r / 2048) ((v x - n * Real.log 2) / 2048)
    rw [← sub_div, abs_div, show |(2048 : ℝ)| = 2048 by norm_num] at h9
    have h10 : |v r - (v x - n * Real.log 2)| / 2048 ≤ u * (v x / 1000) / 2 / 2048 := div_le_div_of_nonneg_right er2 (by norm_num)
    have h11 : u * (|v r| / 2048) ≤ u * (1 / 2048) := mul_le_mul_of_nonneg_left (by linarith) u0.le
    have h12 : 0 ≤ u * v x := by positivity
    linarith

end Rnd
end EFX
