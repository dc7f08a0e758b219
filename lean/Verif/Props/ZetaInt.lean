import Verif.Props.ZetaProd
import Mathlib.NumberTheory.LSeries.HurwitzZetaValues
/-! C85: integers with a simple form. -/

namespace EFX.Props
open EFX EFX.Stir EFX.Borw

/-- The zeta function at the even numbers. -/
theorem zetaR_even {k : ℕ} (hk : k ≠ 0) : zetaR ((2 * k : ℕ) : ℝ) = (2 * Real.pi) ^ (2 * k) * |(_root_.bernoulli (2 * k) : ℝ)| / (2 * k).factorial / 2 := by
  have h := (zeta_hasSum (s := ((2 * k : ℕ) : ℝ)) (by exact_mod_cast (by omega))).1
  have h2 := hasSum_zeta_nat hk
  have e := h.unique (by simpa only [Real.rpow_natCast] using h2)
  have z0 : 0 ≤ zetaR ((2 * k : ℕ) : ℝ) := h.nonneg fun n => by positivity
  have a : |zetaR ((2 * k : ℕ) : ℝ)| = (2 * Real.pi) ^ (2 * k) * |(_root_.bernoulli (2 * k) : ℝ)| / (2 * k).factorial / 2 := by
    have F : (0 : ℝ) < ((2 * k).factorial : ℝ) := by exact_mod_cast Nat.factorial_pos _
    unfold zetaR
    rw [e, abs_div, abs_mul, abs_mul, abs_mul, abs_pow, abs_neg, abs_one, one_pow, one_mul, abs_of_pos F,
      abs_of_pos (show (0 : ℝ) < 2 ^ (2 * k - 1) by positivity), abs_of_pos (show (0 : ℝ) < Real.pi ^ (2 * k) by have := Real.pi_pos; positivity), mul_pow]
    have : (2 : ℝ) ^ (2 * k) = 2 ^ (2 * k - 1) * 2 := by rw [← pow_succ]; congr 1; omega
    rw [this]
    field_simp
  rw [abs_of_nonneg z0] at a
  exact a

/-- The zeta function at the negative integers. -/
theorem zetaR_neg (k : ℕ) : zetaR (-(k : ℝ)) = (-1) ^ k * (_root_.bernoulli (k + 1) : ℝ) / (k + 1) := by
  unfold zetaR
  push_cast
  rw [riemannZeta_neg_nat_eq_bernoulli k]
  have : (-1 : ℂ) ^ k * ((_root_.bernoulli (k + 1) : ℚ) : ℂ) / ((k : ℂ) + 1) = (((-1) ^ k * ((_root_.bernoulli (k + 1) : ℚ) : ℝ) / ((k : ℝ) + 1) : ℝ) : ℂ) := by
    push_cast; rfl
  rw [this, Complex.ofReal_re]

/-- C85: when the result is set to one. -/
theorem C85_one {E : RealEnv} {Z : ZEnv ℝ} (hl : |((Z.lg2 : ℚ) : ℝ) - Real.logb 10 2| ≤ 1 / 2 ^ 53) {n : ℤ} (h31 : n < 2 ^ 31)
    (h : Fn.zetaIsOne (realArith E) Z n = true) :
    Fn.zetaInt (realArith E) Z n = some 1 ∧ |1 - zetaR n| ≤ 8 * (10 : ℝ) ^ (-E.tol) * zetaR n := by
  refine ⟨by unfold Fn.zetaInt; rw [h, if_pos rfl, ra_one], ?_⟩
  unfold Fn.zetaIsOne at h
  rw [Bool.and_eq_true, decide_eq_true_eq, decide_eq_true_eq, show (realArith E).tol = E.tol from rfl] at h
  obtain ⟨h1, h2⟩ := h
  obtain ⟨k, rfl⟩ : ∃ k : ℕ, n = k := ⟨n.toNat, by omega⟩
  have k2 : 2 ≤ k := by omega
  have k31 : (k : ℚ) ≤ 2 ^ 31 := by exact_mod_cast (by omega)
  have L0 : (3 : ℝ) / 10 ≤ Real.logb 10 2 := by
    rw [Real.le_logb_iff_rpow_le (by norm_num) (by norm_num)]
    have : ((10 : ℝ) ^ (3 / 10 : ℝ)) ^ (10 : ℕ) ≤ (2 : ℝ) ^ (10 : ℕ) := by
      rw [← Real.rpow_natCast, ← Real.rpow_mul (by norm_num)]
      norm_num
    exact (pow_le_pow_iff_left₀ (by positivity) (by norm_num) (by norm_num)).1 this
  have L1 : Real.logb 10 2 ≤ 1 := by
    rw [Real.logb_le_iff_le_rpow (by norm_num) (by norm_num)]; norm_num
  generalize hL : Real.logb 10 2 = L at *
  have lp := (abs_le.1 hl)
  have g0 : (0 : ℝ) ≤ (Z.lg2 : ℝ) := by
    have : (1 : ℝ) / 2 ^ 53 ≤ 3 / 10 := by norm_num
    linarith
  have g0' : (0 : ℚ) ≤ Z.lg2 := by exact_mod_cast g0
  have r1 := (abs_le.1 (rnd_err (q := ((k : ℤ) : ℚ)) (by positivity))).2
  have rk : (0 : ℚ) ≤ rnd ((k : ℤ) : ℚ) := rnd_nonneg (by positivity)
  have r2 := (abs_le.1 (rnd_err (q := rnd ((k : ℤ) : ℚ) * Z.lg2) (mul_nonneg rk g0'))).2
  have key : (E.tol : ℚ) < (k : ℚ) * (1 + 1 / 2 ^ 53) * Z.lg2 * (1 + 1 / 2 ^ 53) := by
    have a : rnd ((k : ℤ) : ℚ) ≤ (k : ℚ) * (1 + 1 / 2 ^ 53) := by push_cast at r1 ⊢; linarith
    have b : rnd (rnd ((k : ℤ) : ℚ) * Z.lg2) ≤ rnd ((k : ℤ) : ℚ) * Z.lg2 * (1 + 1 / 2 ^ 53) := by linarith
    have c : rnd ((k : ℤ) : ℚ) * Z.lg2 * (1 + 1 / 2 ^ 53) ≤ (k : ℚ) * (1 + 1 / 2 ^ 53) * Z.lg2 * (1 + 1 / 2 ^ 53) :=
      mul_le_mul_of_nonneg_right (mul_le_mul_of_nonneg_right a g0') (by norm_num)
    linarith
  have keyR : (E.tol : ℝ) < (k : ℝ) * (1 + 1 / 2 ^ 53) * (Z.lg2 : ℝ) * (1 + 1 / 2 ^ 53) := by
    have := (Rat.cast_lt (K := ℝ)).2 key
    push_cast at this
    exact this
  have kr : (k : ℝ) ≤ 2 ^ 31 := by exact_mod_cast k31
  have sL : (E.tol : ℝ) - 1 / 10 ≤ k * L := by
    have e : (k : ℝ) * (1 + 1 / 2 ^ 53) * (Z.lg2 : ℝ) * (1 + 1 / 2 ^ 53) ≤ k * ((L + 1 / 2 ^ 53) * (1 + 3 / 2 ^ 53)) := by
      rw [show (k : ℝ) * (1 + 1 / 2 ^ 53) * (Z.lg2 : ℝ) * (1 + 1 / 2 ^ 53) = k * ((Z.lg2 : ℝ) * ((1 + 1 / 2 ^ 53) * (1 + 1 / 2 ^ 53))) by ring]
      refine mul_le_mul_of_nonneg_left (mul_le_mul (by linarith) (by norm_num) (by norm_num) (by linarith)) (by positivity)
    have : (L + 1 / 2 ^ 53) * (1 + 3 / 2 ^ 53) ≤ L + 5 / 2 ^ 53 := by
      have : L * (3 / 2 ^ 53) ≤ 1 * (3 / 2 ^ 53) := mul_le_mul_of_nonneg_right L1 (by norm_num)
      norm_num at this ⊢
      linarith
    have b := mul_le_mul_of_nonneg_left this (show (0 : ℝ) ≤ k by positivity)
    have c : (k : ℝ) * (5 / 2 ^ 53) ≤ 1 / 10 := by
      have := mul_le_mul_of_nonneg_right kr (show (0 : ℝ) ≤ 5 / 2 ^ 53 by norm_num)
      norm_num at this ⊢
      linarith
    rw [mul_add] at b
    linarith
  have pw : (10 : ℝ) ^ E.tol ≤ 2 * (2 : ℝ) ^ (k : ℝ) := by
    have lg : (2 : ℝ) ^ (k : ℝ) = (10 : ℝ) ^ ((k : ℝ) * L) := by
      rw [mul_comm, Real.rpow_mul (by norm_num), ← hL, Real.rpow_logb (by norm_num) (by norm_num) (by norm_num)]
    rw [lg]
    have : (10 : ℝ) ^ E.tol = (10 : ℝ) ^ ((E.tol : ℝ) - 1 / 10) * (10 : ℝ) ^ (1 / 10 : ℝ) := by
      rw [← Real.rpow_add (by norm_num), sub_add_cancel, Real.rpow_intCast]
    rw [this, mul_comm]
    have c : (10 : ℝ) ^ (1 / 10 : ℝ) ≤ 2 := by
      have : (10 : ℝ) ^ (1 / 10 : ℝ) ≤ ((2 : ℝ) ^ (10 : ℝ)) ^ (1 / 10 : ℝ) := Real.rpow_le_rpow (by norm_num) (by norm_num) (by norm_num)
      rw [← Real.rpow_mul (by norm_num)] at this
      norm_num at this ⊢
      exact this
    exact mul_le_mul c (Real.rpow_le_rpow_of_exponent_le (by norm_num) sL) (by positivity) (by norm_num)
  obtain ⟨z1, z2⟩ := zeta_tail_real (s := (k : ℝ)) (by exact_mod_cast k2) (K := 2) le_rfl
  have e : ∑ i ∈ Finset.range 2, 1 / (i : ℝ) ^ (k : ℝ) = 1 := by
    rw [Finset.sum_range_succ, Finset.sum_range_one]
    simp [show k ≠ 0 by omega]
  rw [e] at z1 z2
  have c : 1 / ((2 : ℕ) : ℝ) ^ (k : ℝ) ≤ 2 * (10 : ℝ) ^ (-E.tol) := by
    push_cast
    have p0 : (0 : ℝ) < (2 : ℝ) ^ (k : ℝ) := by positivity
    generalize (2 : ℝ) ^ (k : ℝ) = p at *
    rw [zpow_neg, div_le_iff₀ p0, mul_assoc, mul_comm _ p, ← mul_assoc, ← div_eq_mul_inv, le_div_iff₀ (by positivity), one_mul]
    exact pw
  have tp : (0 : ℝ) < (10 : ℝ) ^ (-E.tol) := by positivity
  have zr : zetaR (((k : ℤ)) : ℝ) = (riemannZeta ((k : ℝ) : ℂ)).re := by unfold zetaR; push_cast; rfl
  rw [zr]
  push_cast at z1 z2 ⊢
  generalize (riemannZeta (k : ℂ)).re = z at *
  rw [abs_sub_comm, abs_of_nonneg (by linarith)]
  have : 8 * (10 : ℝ) ^ (-E.tol) ≤ 8 * (10 : ℝ) ^ (-E.tol) * z := le_mul_of_one_le_right (by positivity) z1
  push_cast at c
  linarith

/-- One is returned for 400 with 101 digits (tolerance 112). -/
example {E : RealEnv} (t0 : E.tol = 112) {Z : ZEnv ℝ} (hl : Z.lg2 = 5422874305198079 / 2 ^ 54) (h : |((Z.lg2 : ℚ) : ℝ) - Real.logb 10 2| ≤ 1 / 2 ^ 53) :
    Fn.zetaInt (realArith E) Z 400 = some 1 ∧ |1 - zetaR 400| ≤ 8 * (10 : ℝ) ^ (-112 : ℤ) * zetaR 400 := by
  have := C85_one (E := E) (Z := Z) h (n := 400) (by norm_num) (by
    unfold Fn.zetaIsOne
    rw [show (realArith E).tol = E.tol from rfl, t0, hl]
    decide +kernel)
  rw [t0] at this
  exact_mod_cast this

/-- C85: even positive integers. -/
theorem C85_even (E : RealEnv) (m : ℤ) (rg : List ℝ) {Z : ZEnv ℝ} (hT : Z.tab = tabR m rg) {n : ℕ} (he : n % 2 = 0) (hn : n ≤ 2000)
    (hz : Fn.zetaIsOne (realArith E) Z n = false) :
    ((n = 0 ∨ n = 2 ∨ n = 4) → Fn.zetaInt (realArith E) Z n = some (zetaR n)) ∧
    (6 ≤ n → ∀ f ε, 0 ≤ ε → ε ≤ 1 / 2 → Fn.factorial (realArith E) (tabR m rg) n = some f → |f - n.factorial| ≤ ε * n.factorial →
      ∃ r, Fn.zetaInt (realArith E) Z n = some r ∧ |r - zetaR n| ≤ 2 * ((10 : ℝ) ^ (-419 : ℤ) + ε) * zetaR n) := by
  have hsf : Fn.hasSimple Z (n : ℤ) = true := by
    unfold Fn.hasSimple
    rw [hT, tabR_bernMax]
    simp
    omega
  have start : Fn.zetaInt (realArith E) Z n = Fn.zetaSimple (realArith E) Z n := by
    unfold Fn.zetaInt
    rw [hz, hsf]
    simp
  rw [start]
  constructor
  · rintro (rfl | rfl | rfl)
    · unfold Fn.zetaSimple zetaR
      ra_simp
      simp [riemannZeta_zero]
      norm_num
    · unfold Fn.zetaSimple
      have e := zetaR_even (k := 1) (by norm_num)
      norm_num [bernoulli_two, Nat.factorial] at e
      ra_simp
      simp
      rw [e]
      ring
    · unfold Fn.zetaSimple
      have e := zetaR_even (k := 2) (by norm_num)
      have b4 : _root_.bernoulli 4 = -1 / 30 := by decide +kernel
      norm_num [b4, Nat.factorial] at e
      ra_simp
      simp
      rw [e]
      ring
  · intro h6 f ε e0 e1 hf hf'
    obtain ⟨b, b1, b2⟩ := C83_bernoulli E m rg (n := n) (Or.inr hn)
    unfold Fn.zetaSimple
    rw [if_neg (by omega), if_neg (by omega), if_neg (by omega), if_neg (by omega), if_neg (by omega)]
    simp only [Option.bind_eq_bind]
    rw [hT, Int.toNat_natCast, b1, hf]
    simp only [Option.bind_some]
    rw [ra_pown E _ (by omega)]
    ra_simp
    refine ⟨_, rfl, ?_⟩
    obtain ⟨k, rfl⟩ : ∃ k, n = 2 * k := ⟨n / 2, by omega⟩
    rw [zetaR_even (by omega)]
    have P : (0 : ℝ) < (2 * Real.pi) ^ (2 * k) := by have := Real.pi_pos; positivity
    have F : (0 : ℝ) < ((2 * k).factorial : ℝ) := by exact_mod_cast Nat.factorial_pos _
    have tpi : Fn.twoPi (realArith E) = 2 * Real.pi := by unfold Fn.twoPi; ra_simp; push_cast; ring
    rw [zpow_natCast, tpi]
    generalize (2 * Real.pi) ^ (2 * k) = p at *
    generalize ((2 * k).factorial : ℝ) = F' at *
    generalize (_root_.bernoulli (2 * k) : ℝ) = B at *
    have tp : (0 : ℝ) < (10 : ℝ) ^ (-419 : ℤ) := by positivity
    generalize (10 : ℝ) ^ (-419 : ℤ) = t at *
    have q := quot_rel (S := p * |b|) (η := p * |B|) (D := F') (D' := f) (B := t) (δ := ε) (by positivity) tp.le (by
      rw [← mul_sub, abs_mul, abs_of_pos P, mul_left_comm]
      exact mul_le_mul_of_nonneg_left ((abs_abs_sub_abs_le _ _).trans b2) P.le) F.ne' e1 e0 (by rw [abs_of_pos F]; exact hf')
    rw [abs_of_nonneg (show 0 ≤ p * |B| / F' by positivity)] at q
    push_cast
    rw [← sub_div, abs_div, abs_two]
    linarith

example (E : RealEnv) (m : ℤ) (rg : List ℝ) {Z : ZEnv ℝ} (hT : Z.tab = tabR m rg) : Fn.zetaInt (realArith E) Z 0 = some (-1 / 2) := by
  have := (C85_even E m rg hT (n := 0) rfl (by norm_num) (by unfold Fn.zetaIsOne; simp)).1 (Or.inl rfl)
  rw [show ((0 : ℕ) : ℤ) = 0 from rfl] at this
  rw [this]
  simp [zetaR, riemannZeta_zero]

/-- C85: even integers up to 1000 with the tables. -/
theorem C85_even_table (E : RealEnv) (m : ℤ) (rg : List ℝ) {Z : ZEnv ℝ} (hT : Z.tab = tabR m rg) {n : ℕ} (he : n % 2 = 0) (h6 : 6 ≤ n) (hn : n ≤ 1000)
    (hz : Fn.zetaIsOne (realArith E) Z n = false) :
    ∃ r, Fn.zetaInt (realArith E) Z n = some r ∧ |r - zetaR n| ≤ 4 * (10 : ℝ) ^ (-419 : ℤ) * zetaR n := by
  obtain ⟨f, f1, f2, -⟩ := C79_factorial_table E m rg hn
  obtain ⟨r, r1, r2⟩ := (C85_even E m rg hT he (by omega) hz).2 h6 f _ (by positivity)
    (le_trans (zpow_le_zpow_right₀ (by norm_num) (show (-419 : ℤ) ≤ -1 by norm_num)) (by norm_num)) f1 f2
  refine ⟨r, r1, r2.trans (le_of_eq ?_)⟩
  ring

/-- C85: negative integers. -/
theorem C85_negative (E : RealEnv) (m : ℤ) (rg : List ℝ) {Z : ZEnv ℝ} (hT : Z.tab = tabR m rg) {k : ℕ} (hk : 1 ≤ k) :
    (k % 2 = 0 → k < 2147483647 → Fn.zetaInt (realArith E) Z (-k) = some 0 ∧ zetaR (-k) = 0) ∧
    (k % 2 = 1 → k < 2147483647 → ∀ b ε, Fn.bernoulli (realArith E) (tabR m rg) (k + 1) = some b → |b - (_root_.bernoulli (k + 1) : ℝ)| ≤ ε * |(_root_.bernoulli (k + 1) : ℝ)| →
      ∃ r, Fn.zetaInt (realArith E) Z (-k) = some r ∧ |r - zetaR (-k)| ≤ ε * |zetaR (-k)|) ∧
    (2147483647 ≤ k → Fn.zetaInt (realArith E) Z (-k) = none) := by
  have hsf : Fn.hasSimple Z (-(k : ℤ)) = true := by
    unfold Fn.hasSimple
    rw [hT, tabR_bernMax]
    simp
    omega
  have start : Fn.zetaInt (realArith E) Z (-(k : ℤ)) = Fn.zetaSimple (realArith E) Z (-(k : ℤ)) := by
    unfold Fn.zetaInt Fn.zetaIsOne
    rw [hsf]
    have : ¬ (1 : ℤ) < -k := by omega
    simp [this]
  rw [start]
  unfold Fn.zetaSimple
  rw [if_neg (by omega), if_neg (by omega), if_neg (by omega), if_neg (by omega), if_pos (by omega)]
  refine ⟨fun h h' => ?_, fun h h' b ε b1 b2 => ?_, fun h => if_pos (by omega)⟩
  · rw [if_neg (by omega), if_pos (by omega)]
    refine ⟨by ra_simp, ?_⟩
    rw [zetaR_neg, bernoulli_eq_zero_of_odd (Nat.odd_iff.2 (by omega)) (by omega)]
    simp
  · rw [if_neg (by omega), if_neg (by omega)]
    simp only [Option.bind_eq_bind]
    rw [hT, show (- -(k : ℤ) + 1).toNat = k + 1 by omega, b1]
    simp only [Option.bind_some]
    ra_simp
    refine ⟨_, rfl, ?_⟩
    rw [zetaR_neg, (Nat.odd_iff.2 h).neg_one_pow]
    push_cast
    generalize (_root_.bernoulli (k + 1) : ℝ) = B at *
    have k0 : (0 : ℝ) < (k : ℝ) + 1 := by positivity
    rw [neg_neg, ← sub_div, abs_div, abs_div, abs_of_pos k0, mul_div_assoc', show -b - -1 * B = -(b - B) by ring, abs_neg, neg_one_mul, abs_neg]
    exact div_le_div_of_nonneg_right b2 k0.le

/-- The zeta function at minus one. -/
example (E : RealEnv) (m : ℤ) (rg : List ℝ) {Z : ZEnv ℝ} (hT : Z.tab = tabR m rg) : ∃ r, Fn.zetaInt (realArith E) Z (-1) = some r ∧
    |r - -1 / 12| ≤ (10 : ℝ) ^ (-419 : ℤ) * (1 / 12) := by
  obtain ⟨b, b1, b2⟩ := C83_bernoulli E m rg (n := 2) (Or.inr (by norm_num))
  obtain ⟨r, r1, r2⟩ := (C85_negative E m rg hT (k := 1) le_rfl).2.1 rfl (by norm_num) b _ b1 b2
  refine ⟨r, r1, ?_⟩
  rw [zetaR_neg] at r2
  generalize (10 : ℝ) ^ (-419 : ℤ) = t at *
  norm_num [bernoulli_two] at r2
  rwa [show r - -1 / 12 = r + 1 / 12 by ring]

end EFX.Props
