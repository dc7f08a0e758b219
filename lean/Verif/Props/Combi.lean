import Mathlib.RingTheory.Polynomial.Pochhammer
import Verif.Props.Factorial
/-! C80, C81, C82: binomial coefficients, Pochhammer symbols, double factorials. -/

namespace EFX
open EFX.Stir

/-- Quotient of numbers with a small relative error. -/
theorem quot_near {a b c A B C ε : ℝ} (hA : 0 < A) (hB : 0 < B) (hC : 0 < C) (e0 : 0 ≤ ε) (e1 : ε ≤ 1 / 100)
    (ha : |a - A| ≤ ε * A) (hb : |b - B| ≤ ε * B) (hc : |c - C| ≤ ε * C) :
    |a / (b * c) - A / (B * C)| ≤ 10 * ε * (A / (B * C)) := by
  obtain ⟨a1, a2⟩ := abs_le.1 ha
  obtain ⟨b1, b2⟩ := abs_le.1 hb
  obtain ⟨c1, c2⟩ := abs_le.1 hc
  have p1 : (1 - ε) * A ≤ a := by linarith
  have p2 : a ≤ (1 + ε) * A := by linarith
  have q1 : (1 - ε) * B ≤ b := by linarith
  have q2 : b ≤ (1 + ε) * B := by linarith
  have r1 : (1 - ε) * C ≤ c := by linarith
  have r2 : c ≤ (1 + ε) * C := by linarith
  have u : 0 < 1 - ε := by linarith
  have bp : 0 < b := lt_of_lt_of_le (mul_pos u hB) q1
  have cp : 0 < c := lt_of_lt_of_le (mul_pos u hC) r1
  have BC : 0 < B * C := mul_pos hB hC
  have l : (1 - ε) ^ 2 * (B * C) ≤ b * c := by
    calc (1 - ε) ^ 2 * (B * C) = ((1 - ε) * B) * ((1 - ε) * C) := by ring
      _ ≤ b * c := mul_le_mul q1 r1 (by positivity) bp.le
  have h : b * c ≤ (1 + ε) ^ 2 * (B * C) := by
    calc b * c ≤ ((1 + ε) * B) * ((1 + ε) * C) := mul_le_mul q2 r2 cp.le (by positivity)
      _ = _ := by ring
  have up : a / (b * c) ≤ (1 + 10 * ε) * (A / (B * C)) := by
    rw [div_le_iff₀ (mul_pos bp cp), show (1 + 10 * ε) * (A / (B * C)) * (b * c) = (1 + 10 * ε) * A * (b * c) / (B * C) by ring, le_div_iff₀ BC]
    have k : (1 + ε) ≤ (1 + 10 * ε) * (1 - ε) ^ 2 := by
      have k1 : 0 ≤ ε * (7 - 19 * ε + 10 * ε ^ 2) := mul_nonneg e0 (by nlinarith [sq_nonneg ε])
      have k2 : (1 + 10 * ε) * (1 - ε) ^ 2 - (1 + ε) = ε * (7 - 19 * ε + 10 * ε ^ 2) := by ring
      linarith
    calc a * (B * C) ≤ (1 + ε) * A * (B * C) := by gcongr
      _ ≤ ((1 + 10 * ε) * (1 - ε) ^ 2) * A * (B * C) := by gcongr
      _ = (1 + 10 * ε) * A * ((1 - ε) ^ 2 * (B * C)) := by ring
      _ ≤ _ := by gcongr
  have lo : (1 - 10 * ε) * (A / (B * C)) ≤ a / (b * c) := by
    rw [le_div_iff₀ (mul_pos bp cp), show (1 - 10 * ε) * (A / (B * C)) * (b * c) = (1 - 10 * ε) * A * (b * c) / (B * C) by ring, div_le_iff₀ BC]
    have k : (1 - 10 * ε) * (1 + ε) ^ 2 ≤ 1 - ε := by
      have k1 : 0 ≤ ε * (7 + 19 * ε + 10 * ε ^ 2) := by positivity
      have k2 : 1 - ε - (1 - 10 * ε) * (1 + ε) ^ 2 = ε * (7 + 19 * ε + 10 * ε ^ 2) := by ring
      linarith
    have k0 : 0 ≤ 1 - 10 * ε := by linarith
    calc (1 - 10 * ε) * A * (b * c) ≤ (1 - 10 * ε) * A * ((1 + ε) ^ 2 * (B * C)) := by gcongr
      _ = ((1 - 10 * ε) * (1 + ε) ^ 2) * A * (B * C) := by ring
      _ ≤ (1 - ε) * A * (B * C) := by gcongr
      _ ≤ a * (B * C) := by gcongr
  rw [abs_le]
  constructor <;> linarith

end EFX

namespace EFX.Props
open EFX EFX.Stir

/-- C80: binomial coefficients are exact up to row 160 … -/
theorem C80_binomial_exact (E : RealEnv) (m : ℤ) (rg : List ℝ) {n k : ℕ} (hn : n ≤ 160) (hk : k ≤ n) :
    Fn.binomial (realArith E) (tabR m rg) n k = some (n.choose k : ℝ) := by
  unfold Fn.binomial
  rw [if_neg (by omega)]
  by_cases h : k = n
  · rw [if_pos h, h, Nat.choose_self]; ra_simp; norm_num
  · rw [if_neg h, if_pos (by rw [(tabR_len m rg).2.2]; omega)]
    obtain ⟨r, h1, -, h2⟩ := C78_binomials n hn
    simp [tabR, h1, h2 k hk]

/-- … and right to 418 digits up to row 1000. -/
theorem C80_binomial_partial (E : RealEnv) (m : ℤ) (rg : List ℝ) {n k : ℕ} (hn : n ≤ 1000) (hk : k ≤ n) :
    ∃ b, Fn.binomial (realArith E) (tabR m rg) n k = some b ∧ |b - n.choose k| ≤ (10 : ℝ) ^ (-418 : ℤ) * n.choose k := by
  by_cases h160 : n ≤ 160
  · refine ⟨_, C80_binomial_exact E m rg h160 hk, ?_⟩
    rw [sub_self, abs_zero]; positivity
  unfold Fn.binomial
  rw [if_neg (by omega)]
  by_cases h : k = n
  · refine ⟨_, if_pos h, ?_⟩
    rw [h, Nat.choose_self]; ra_simp; norm_num
  · rw [if_neg h, if_neg (by rw [(tabR_len m rg).2.2]; omega)]
    obtain ⟨a, ha, ha', -⟩ := C79_factorial_table E m rg hn
    obtain ⟨b, hb, hb', -⟩ := C79_factorial_table E m rg (show k ≤ 1000 by omega)
    obtain ⟨c, hc, hc', -⟩ := C79_factorial_table E m rg (show n - k ≤ 1000 by omega)
    rw [ha, hb, hc]
    ra_simp
    simp only [Option.bind_eq_bind, Option.bind_some]
    refine ⟨_, rfl, ?_⟩
    rw [Nat.cast_choose ℝ hk]
    have ef : (10 : ℝ) ^ (-418 : ℤ) = 10 * (10 : ℝ) ^ (-419 : ℤ) := by
      rw [show (-418 : ℤ) = 1 + -419 by norm_num, zpow_add₀ (by norm_num), zpow_one]
    have e1 : (10 : ℝ) ^ (-419 : ℤ) ≤ 1 / 100 :=
      le_trans (zpow_le_zpow_right₀ (by norm_num) (show (-419 : ℤ) ≤ -2 by norm_num)) (by norm_num)
    have e0 : 0 ≤ (10 : ℝ) ^ (-419 : ℤ) := by positivity
    rw [ef]
    exact quot_near (by exact_mod_cast Nat.factorial_pos _) (by exact_mod_cast Nat.factorial_pos _) (by exact_mod_cast Nat.factorial_pos _) e0 e1 ha' hb' hc'

example (E : RealEnv) (m : ℤ) (rg : List ℝ) : Fn.binomial (realArith E) (tabR m rg) 10 3 = some 120 := by
  have := C80_binomial_exact E m rg (n := 10) (k := 3) (by norm_num) (by norm_num)
  norm_num [Nat.choose] at this
  exact this

/-- C80: outside the triangle the result is NaN, where the coefficient is zero. -/
theorem C80_binomial_refuted (E : RealEnv) (T : Tab ℝ) {n k : ℕ} (hk : n < k) :
    Fn.binomial (realArith E) T n k = some E.nan ∧ n.choose k = 0 := by
  refine ⟨?_, Nat.choose_eq_zero_of_lt hk⟩
  unfold Fn.binomial
  rw [if_pos hk]
  ra_simp

theorem pochLoop_real (E : RealEnv) (x : ℝ) : ∀ (k j : ℕ) (v : ℝ), v = (ascPochhammer ℝ (j + 1)).eval x →
    Fn.pochLoop (realArith E) k (x + j) v = (ascPochhammer ℝ (j + 1 + k)).eval x := by
  intro k
  induction k with
  | zero => intro j v hv; simp [Fn.pochLoop, hv]
  | succ k ih =>
    intro j v hv
    rw [Fn.pochLoop]
    ra_simp
    have := ih (j + 1) (v * (x + j + 1)) (by rw [ascPochhammer_succ_eval, ← hv]; push_cast; ring)
    rw [show x + ((j + 1 : ℕ) : ℝ) = x + j + 1 by push_cast; ring] at this
    rw [show ((1 : ℤ) : ℝ) = 1 by norm_num, this, show j + 1 + 1 + k = j + 1 + (k + 1) by ring]

/-- C81: below 50 factors the Pochhammer symbol is the product, for every argument. -/
theorem C81_pochhammer_small (E : RealEnv) (T : Tab ℝ) (x : ℝ) {n : ℕ} (hn : n < 50) :
    Fn.pochhammer (realArith E) T x n = some ((ascPochhammer ℝ n).eval x) := by
  unfold Fn.pochhammer
  by_cases h0 : n = 0
  · rw [if_pos h0, h0]; ra_simp; simp
  rw [if_neg h0]
  by_cases h1 : n = 1
  · rw [if_pos h1, h1]; simp
  rw [if_neg h1, if_pos hn]
  have := pochLoop_real E x (n - 1) 0 x (by simp)
  rw [show x + ((0 : ℕ) : ℝ) = x by simp, show 0 + 1 + (n - 1) = n by omega] at this
  rw [this]

/-- C81: from 50 factors on it is a quotient of gamma functions, which fails where the symbol is zero: at the integers
from `-(n-1)` to zero the divisor is NaN. -/
theorem C81_pochhammer_refuted (E : RealEnv) (T : Tab ℝ) {n j : ℕ} (hn : 50 ≤ n) (hj : j < n) {p : ℝ}
    (hp : Fn.gamma (realArith E) T (-(j : ℝ) + n) = some p) :
    Fn.pochhammer (realArith E) T (-(j : ℝ)) n = some (p / E.nan) ∧ (ascPochhammer ℝ n).eval (-(j : ℝ)) = 0 := by
  constructor
  · unfold Fn.pochhammer
    rw [if_neg (by omega), if_neg (by omega), if_neg (by omega)]
    ra_simp
    rw [show ((n : ℤ) : ℝ) = n by push_cast; ring, hp, C77_gamma_poles]
    rfl
  · exact ascPochhammer_eval_neg_coe_nat_of_lt hj

/-- The hypothesis holds with the tables of the source: the code divides 56! by NaN where the symbol is zero. -/
example (E : RealEnv) (m : ℤ) (rg : List ℝ) :
    ∃ p, Fn.pochhammer (realArith E) (tabR m rg) (-(3 : ℕ) : ℝ) 60 = some (p / E.nan) ∧ (ascPochhammer ℝ 60).eval (-(3 : ℕ) : ℝ) = 0 := by
  obtain ⟨f, h, -⟩ := C79_factorial_table E m rg (n := 56) (by norm_num)
  refine ⟨f, C81_pochhammer_refuted E _ (by norm_num) (by norm_num) ?_⟩
  have := C77_gamma_table E (tabR m rg) 56 (by rw [(tabR_len m rg).1]; norm_num) (by norm_num)
  unfold Fn.factorial at h
  rw [if_pos (by rw [(tabR_len m rg).1]; norm_num), ← this] at h
  convert h using 2
  norm_num

/-- C81: for a positive argument the quotient of exact gamma functions is the symbol, and relative errors carry over. -/
theorem C81_pochhammer_partial (E : RealEnv) (T : Tab ℝ) {x : ℝ} (hx : 0 < x) {n : ℕ} (hn : 50 ≤ n) {p q ε : ℝ} (e0 : 0 ≤ ε) (e1 : ε ≤ 1 / 100)
    (hp : Fn.gamma (realArith E) T (x + n) = some p) (hq : Fn.gamma (realArith E) T x = some q)
    (hp' : |p - Real.Gamma (x + n)| ≤ ε * Real.Gamma (x + n)) (hq' : |q - Real.Gamma x| ≤ ε * Real.Gamma x) :
    ∃ v, Fn.pochhammer (realArith E) T x n = some v ∧ |v - (ascPochhammer ℝ n).eval x| ≤ 10 * ε * (ascPochhammer ℝ n).eval x := by
  refine ⟨p / q, ?_, ?_⟩
  · unfold Fn.pochhammer
    rw [if_neg (by omega), if_neg (by omega), if_neg (by omega)]
    ra_simp
    rw [show ((n : ℤ) : ℝ) = n by push_cast; ring, hp, hq]
    rfl
  · have G : (ascPochhammer ℝ n).eval x = Real.Gamma (x + n) / (Real.Gamma x * 1) := by
      rw [mul_one, eq_div_iff (Real.Gamma_pos_of_pos hx).ne']
      clear hp hp' hn
      induction n with
      | zero => simp
      | succ n ih =>
        rw [ascPochhammer_succ_eval, show x + ((n + 1 : ℕ) : ℝ) = x + n + 1 by push_cast; ring,
          Real.Gamma_add_one (by positivity), ← ih]; ring
    have := quot_near (Real.Gamma_pos_of_pos (show 0 < x + n by positivity)) (Real.Gamma_pos_of_pos hx) one_pos e0 e1 hp' hq'
      (c := 1) (by rw [sub_self, abs_zero]; linarith)
    rw [G]
    rwa [mul_one] at this

theorem fact2_table (E : RealEnv) (m : ℤ) (rg : List ℝ) {n : ℕ} (hn : n ≤ 1000) :
    ∃ f, Fn.factorial2Pos (realArith E) (tabR m rg) n = some f ∧ |f - n.doubleFactorial| ≤ (10 : ℝ) ^ (-419 : ℤ) * n.doubleFactorial := by
  obtain ⟨p, h1, h2, -⟩ := C78_double_factorials n hn
  refine ⟨tabVal p, ?_, h2⟩
  unfold Fn.factorial2Pos
  rw [if_pos (by rw [(tabR_len m rg).2.1]; omega)]
  simp [tabR, h1]

/-- C82: double factorials up to 1000 come from the table; even ones up to 2000 from that of the factorials. -/
theorem C82_factorial2 (E : RealEnv) (m : ℤ) (rg : List ℝ) {n : ℕ} (hn : n ≤ 1000 ∨ n ≤ 2000 ∧ n % 2 = 0) :
    ∃ f, Fn.factorial2 (realArith E) (tabR m rg) n = some f ∧ |f - n.doubleFactorial| ≤ (10 : ℝ) ^ (-419 : ℤ) * n.doubleFactorial := by
  have unf : Fn.factorial2 (realArith E) (tabR m rg) n = Fn.factorial2Pos (realArith E) (tabR m rg) n := by
    unfold Fn.factorial2
    rw [if_pos (by omega), Int.toNat_natCast]
  rw [unf]
  by_cases h : n ≤ 1000
  · exact fact2_table E m rg h
  · obtain ⟨j, rfl⟩ : ∃ j, n = 2 * j := ⟨n / 2, by omega⟩
    obtain ⟨f, h1, h2, -⟩ := C79_factorial_table E m rg (show j ≤ 1000 by omega)
    refine ⟨2 ^ j * f, ?_, ?_⟩
    · unfold Fn.factorial2Pos Fn.factorial2Even
      rw [if_neg (by rw [(tabR_len m rg).2.1]; omega), if_pos (by omega), if_neg (by rw [(tabR_len m rg).2.1]; omega),
        show 2 * j / 2 = j by omega, h1, ra_pow2 E (by omega) (by omega)]
      ra_simp
      simp
    · rw [Nat.doubleFactorial_two_mul]
      push_cast
      rw [← mul_sub, abs_mul, abs_of_pos (by positivity : (0 : ℝ) < 2 ^ j)]
      calc (2 : ℝ) ^ j * |f - j.factorial| ≤ 2 ^ j * ((10 : ℝ) ^ (-419 : ℤ) * j.factorial) := by gcongr
        _ = _ := by ring

example (E : RealEnv) (m : ℤ) (rg : List ℝ) :
    ∃ f, Fn.factorial2 (realArith E) (tabR m rg) 9 = some f ∧ |f - 945| ≤ (10 : ℝ) ^ (-419 : ℤ) * 945 := by
  have := C82_factorial2 E m rg (n := 9) (by norm_num)
  norm_num [Nat.doubleFactorial] at this ⊢
  exact this

/-- C82: large odd double factorials are `(n+1)! / (n+1)!!`; relative errors of the two parts carry over. -/
theorem C82_odd_partial (E : RealEnv) (m : ℤ) (rg : List ℝ) {n : ℕ} (hn : 1000 < n) (ho : n % 2 = 1) (h31 : n + 1 < 2147483648)
    {f g ε : ℝ} (e0 : 0 ≤ ε) (e1 : ε ≤ 1 / 100)
    (hf : Fn.factorial (realArith E) (tabR m rg) (n + 1) = some f) (hg : Fn.factorial2 (realArith E) (tabR m rg) (n + 1 : ℕ) = some g)
    (hf' : |f - (n + 1).factorial| ≤ ε * (n + 1).factorial) (hg' : |g - (n + 1).doubleFactorial| ≤ ε * (n + 1).doubleFactorial) :
    ∃ v, Fn.factorial2 (realArith E) (tabR m rg) n = some v ∧ |v - n.doubleFactorial| ≤ 10 * ε * n.doubleFactorial := by
  refine ⟨f / g, ?_, ?_⟩
  · unfold Fn.factorial2 at hg ⊢
    rw [if_pos (by omega), Int.toNat_natCast] at hg ⊢
    unfold Fn.factorial2Pos at hg ⊢
    rw [if_neg (by rw [(tabR_len m rg).2.1]; omega), if_pos (by omega)] at hg
    rw [if_neg (by rw [(tabR_len m rg).2.1]; omega), if_neg (by omega), if_neg (by omega), hf, hg]
    ra_simp
    rfl
  · have G : (n.doubleFactorial : ℝ) = ((n + 1).factorial : ℝ) / (((n + 1).doubleFactorial : ℝ) * 1) := by
      have hd : (0 : ℝ) < ((n + 1).doubleFactorial : ℝ) := by exact_mod_cast Nat.doubleFactorial_pos _
      rw [mul_one, eq_div_iff hd.ne', Nat.factorial_eq_mul_doubleFactorial]
      push_cast; ring
    have := quot_near (by exact_mod_cast Nat.factorial_pos _) (by exact_mod_cast Nat.doubleFactorial_pos _) one_pos e0 e1 hf' hg'
      (c := 1) (by rw [sub_self, abs_zero]; linarith)
    rw [G]
    rwa [mul_one] at this

/-- C82: at the negative odd numbers the code agrees with every function that goes on with the recurrence
`(n + 2)!! = (n + 2) n!!` from `(-1)!! = 1` downwards; at the negative even numbers it gives NaN. -/
theorem C82_negative (E : RealEnv) (m : ℤ) (rg : List ℝ) (D : ℤ → ℝ) (h0 : D (-1) = 1)
    (hr : ∀ j : ℕ, D (-(2 * (j : ℤ) + 1)) = -(2 * (j : ℝ) + 1) * D (-(2 * (j : ℤ) + 3))) :
    (∀ j : ℕ, j ≤ 500 → ∃ v, Fn.factorial2 (realArith E) (tabR m rg) (-(2 * (j : ℤ) + 1)) = some v ∧
      |v - D (-(2 * (j : ℤ) + 1))| ≤ (10 : ℝ) ^ (-418 : ℤ) * |D (-(2 * (j : ℤ) + 1))|) ∧
    ∀ j : ℕ, 1 ≤ j → j < 1073741824 → Fn.factorial2 (realArith E) (tabR m rg) (-(2 * (j : ℤ))) = some E.nan := by
  have val : ∀ j : ℕ, D (-(2 * ((j + 1 : ℕ) : ℤ) + 1)) = (-1) ^ (j + 1) / (2 * j + 1).doubleFactorial := by
    intro j
    induction j with
    | zero =>
      have := hr 0
      norm_num at this
      norm_num
      rw [h0] at this
      linarith
    | succ j ih =>
      have := hr (j + 1)
      rw [ih] at this
      have hd : (0 : ℝ) < ((2 * j + 1).doubleFactorial : ℝ) := by exact_mod_cast Nat.doubleFactorial_pos _
      rw [show 2 * (j + 1) + 1 = (2 * j + 1) + 2 by ring, Nat.doubleFactorial_add_two]
      push_cast at this ⊢
      have hj : (2 * ((j : ℝ) + 1) + 1) ≠ 0 := by positivity
      rw [show -(2 * ((j : ℤ) + 1 + 1) + 1) = -(2 * ((j : ℤ) + 1) + 3) by ring]
      have e : D (-(2 * ((j : ℤ) + 1) + 3)) = (-1) ^ (j + 1) / ((2 * j + 1).doubleFactorial : ℝ) / -(2 * ((j : ℝ) + 1) + 1) := by
        rw [eq_div_iff (neg_ne_zero.2 hj)]; linarith
      rw [e, pow_succ (-1 : ℝ) (j + 1)]
      rw [show (2 * (j : ℝ) + 1 + 2) = 2 * ((j : ℝ) + 1) + 1 by ring]
      field_simp
  constructor
  · intro j hj
    unfold Fn.factorial2
    rw [if_neg (by omega)]
    rcases Nat.eq_zero_or_pos j with rfl | hp
    · refine ⟨_, if_pos (by norm_num), ?_⟩
      ra_simp
      norm_num
      rw [h0]; simp
    · obtain ⟨i, rfl⟩ : ∃ i, j = i + 1 := ⟨j - 1, by omega⟩
      rw [if_neg (by omega), if_neg (by omega)]
      simp only
      rw [if_neg (by omega), show (-(-(2 * ((i + 1 : ℕ) : ℤ) + 1)) - 2).toNat = 2 * i + 1 by omega]
      obtain ⟨f, h1, h2⟩ := fact2_table E m rg (show 2 * i + 1 ≤ 1000 by omega)
      rw [h1]
      ra_simp
      simp only [Option.bind_eq_bind, Option.bind_some]
      refine ⟨_, rfl, ?_⟩
      rw [val i]
      have hd : (0 : ℝ) < ((2 * i + 1).doubleFactorial : ℝ) := by exact_mod_cast Nat.doubleFactorial_pos _
      have ef : (10 : ℝ) ^ (-418 : ℤ) = 10 * (10 : ℝ) ^ (-419 : ℤ) := by
        rw [show (-418 : ℤ) = 1 + -419 by norm_num, zpow_add₀ (by norm_num), zpow_one]
      have e1 : (10 : ℝ) ^ (-419 : ℤ) ≤ 1 / 100 :=
        le_trans (zpow_le_zpow_right₀ (by norm_num) (show (-419 : ℤ) ≤ -2 by norm_num)) (by norm_num)
      have e0 : 0 ≤ (10 : ℝ) ^ (-419 : ℤ) := by positivity
      rw [ef]
      have q := quot_near (a := 1) (c := 1) one_pos hd one_pos e0 e1 (by rw [sub_self, abs_zero]; linarith) h2 (by rw [sub_self, abs_zero]; linarith)
      rw [mul_one, mul_one] at q
      have sg : (if ((-(-(2 * ((i + 1 : ℕ) : ℤ) + 1)) - 1) / 2 % 2 ≠ 0) then -(1 / f) else 1 / f) = (-1) ^ (i + 1) * (1 / f) := by
        rcases Nat.even_or_odd i with he | he
        · rw [if_pos (by have := Nat.even_iff.1 he; omega), (Even.add_one he).neg_one_pow]; ring
        · rw [if_neg (by have := Nat.odd_iff.1 he; omega), (Odd.add_one he).neg_one_pow]; ring
      rw [sg, show (-1 : ℝ) ^ (i + 1) / (2 * i + 1).doubleFactorial = (-1) ^ (i + 1) * (1 / ((2 * i + 1).doubleFactorial : ℝ)) by ring,
        ← mul_sub, abs_mul, abs_mul, abs_pow, abs_neg, abs_one, one_pow, one_mul, one_mul,
        abs_of_pos (show 0 < 1 / ((2 * i + 1).doubleFactorial : ℝ) by positivity)]
      exact q
  · intro j h1 h2
    unfold Fn.factorial2
    rw [if_neg (by omega), if_neg (by omega), if_neg (by omega)]
    simp only
    rw [if_pos (by omega)]
    ra_simp

/-- Such a function exists, and the theorem gives `(-5)!! = 1/3` to 418 digits. -/
example (E : RealEnv) (m : ℤ) (rg : List ℝ) :
    ∃ v, Fn.factorial2 (realArith E) (tabR m rg) (-5) = some v ∧ |v - 1 / 3| ≤ (10 : ℝ) ^ (-418 : ℤ) * (1 / 3) := by
  obtain ⟨D, hD⟩ : ∃ D : ℕ → ℝ, D 0 = 1 ∧ ∀ j, D j = -(2 * (j : ℝ) + 1) * D (j + 1) := by
    refine ⟨fun j => Nat.rec 1 (fun j v => v / -(2 * (j : ℝ) + 1)) j, rfl, fun j => ?_⟩
    have : -(2 * (j : ℝ) + 1) ≠ 0 := neg_ne_zero.2 (by positivity)
    show _ = -(2 * (j : ℝ) + 1) * (_ / -(2 * (j : ℝ) + 1))
    field_simp
  have h := (C82_negative E m rg (fun n => D ((-n - 1) / 2).toNat) (by simpa using hD.1) (fun j => by
    show D ((-(-(2 * (j : ℤ) + 1)) - 1) / 2).toNat = _ * D ((-(-(2 * (j : ℤ) + 3)) - 1) / 2).toNat
    rw [show ((-(-(2 * (j : ℤ) + 1)) - 1) / 2).toNat = j by omega, show ((-(-(2 * (j : ℤ) + 3)) - 1) / 2).toNat = j + 1 by omega]
    exact hD.2 j)).1 2 (by norm_num)
  have d2 : D 2 = 1 / 3 := by
    have a := hD.2 0
    have b := hD.2 1
    rw [hD.1] at a
    norm_num at a b
    linarith
  obtain ⟨v, a, b⟩ := h
  refine ⟨v, a, ?_⟩
  have t : ((-(-(2 * ((2 : ℕ) : ℤ) + 1)) - 1) / 2).toNat = 2 := by omega
  simp only [t, d2] at b
  rwa [abs_of_pos (show (0 : ℝ) < 1 / 3 by norm_num)] at b

end EFX.Props
