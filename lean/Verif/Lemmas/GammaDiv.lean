import Verif.Lemmas.GammaReal
import Mathlib.Analysis.SpecialFunctions.Exponential
import Mathlib.Analysis.Complex.ExponentialBounds
/-! The Bernoulli series of the gamma function when no term is below the tolerance: all terms are added, also the growing ones. -/

namespace EFX.Stir
open EFX

theorem ub_pos (k : ℕ) {x : ℝ} (hx : 0 < x) : 0 < ub k x := by unfold ub; have := Real.pi_pos; positivity

theorem ub_step {k : ℕ} (hk : 1 ≤ k) {x : ℝ} (hx : 0 < x) : ub (k + 1) x = ub k x * ((2 * k * (2 * k - 1)) / (2 * Real.pi * x) ^ 2) := by
  have hp := Real.pi_pos
  unfold ub
  obtain ⟨j, rfl⟩ : ∃ j, k = j + 1 := ⟨k - 1, by omega⟩
  rw [show 2 * (j + 1 + 1) - 2 = 2 * j + 1 + 1 by omega, show 2 * (j + 1) - 2 = 2 * j by omega, Nat.factorial_succ, Nat.factorial_succ,
    show 2 * (j + 1 + 1) - 1 = (2 * (j + 1) - 1) + 2 by omega, show 2 * (j + 1 + 1) = 2 * (j + 1) + 2 by ring]
  push_cast
  rw [pow_add, pow_add]
  field_simp
  ring

theorem ub_low {k : ℕ} (hk : 1 ≤ k) {x : ℝ} (hx : 0 < x) : ub k x / 2 ≤ |term k x| := by
  have hp := Real.pi_pos
  have k1 : (1 : ℝ) ≤ k := by exact_mod_cast hk
  have kk : (0 : ℝ) < 2 * k * (2 * k - 1) := by nlinarith
  obtain ⟨b1, -⟩ := bern_abs hk
  have f : ((2 * k).factorial : ℝ) = (2 * k) * (2 * k - 1) * ((2 * k - 2).factorial : ℝ) := by
    obtain ⟨j, rfl⟩ : ∃ j, k = j + 1 := ⟨k - 1, by omega⟩
    rw [show 2 * (j + 1) - 2 = 2 * j by omega, show 2 * (j + 1) = 2 * j + 1 + 1 by ring, Nat.factorial_succ, Nat.factorial_succ]
    push_cast; ring
  rw [term_abs hk hx]
  calc ub k x / 2 = (2 * ((2 * k).factorial : ℝ) / (2 * Real.pi) ^ (2 * k)) / ((2 * k : ℝ) * (2 * k - 1)) * (1 / x ^ (2 * k - 1)) := by
        unfold ub
        have : (2 * (k : ℝ) - 1) ≠ 0 := by linarith
        rw [f]
        field_simp
        ring
    _ ≤ _ := by gcongr

theorem ub_eq {k : ℕ} (hk : 1 ≤ k) {x : ℝ} (hx : 0 < x) :
    ub k x = ((2 * k - 2).factorial : ℝ) / (2 * Real.pi * x) ^ (2 * k - 2) / (Real.pi ^ 2 * x) := by
  have hp := Real.pi_pos
  unfold ub
  obtain ⟨j, rfl⟩ : ∃ j, k = j + 1 := ⟨k - 1, by omega⟩
  rw [show 2 * (j + 1) - 2 = 2 * j by omega, show 2 * (j + 1) - 1 = 2 * j + 1 by omega, show 2 * (j + 1) = 2 * j + 2 by ring]
  rw [pow_add, pow_succ, mul_pow _ x]
  field_simp
  ring

/-- No term falls below the exponential. -/
theorem ub_ge_exp {k : ℕ} (hk : 1 ≤ k) {x : ℝ} (hx : 0 < x) : Real.exp (-(2 * Real.pi * x)) / (10 * x) ≤ ub k x := by
  have hp := Real.pi_pos
  rw [ub_eq hk hx]
  have y0 : 0 < 2 * Real.pi * x := by positivity
  generalize hy : 2 * Real.pi * x = y at *
  have h := Real.pow_div_factorial_le_exp y y0.le (2 * k - 2)
  have f0 : (0 : ℝ) < ((2 * k - 2).factorial : ℝ) := by positivity
  rw [div_le_iff₀ f0] at h
  have h2 : Real.exp (-y) ≤ ((2 * k - 2).factorial : ℝ) / y ^ (2 * k - 2) := by
    rw [Real.exp_neg, le_div_iff₀ (by positivity), inv_mul_le_iff₀ (Real.exp_pos _)]
    exact h
  have p10 : Real.pi ^ 2 * x ≤ 10 * x := by
    have := Real.pi_lt_d2
    have : Real.pi ^ 2 ≤ 10 := by nlinarith
    gcongr
  calc Real.exp (-y) / (10 * x) ≤ Real.exp (-y) / (Real.pi ^ 2 * x) := by gcongr
    _ ≤ _ := by gcongr

theorem ub_before {x : ℝ} (hx : 0 < x) : ∀ k : ℕ, 1 ≤ k → (2 * k * (2 * k - 1) : ℝ) ≤ (2 * Real.pi * x) ^ 2 → ∀ j, 1 ≤ j → j ≤ k + 1 → ub j x ≤ ub 1 x := by
  have hp := Real.pi_pos
  intro k hk
  induction k, hk using Nat.le_induction with
  | base =>
    intro h j h1 h2
    rcases Nat.eq_or_lt_of_le h1 with rfl | h1
    · exact le_rfl
    obtain rfl : j = 1 + 1 := by omega
    rw [ub_step le_rfl hx]
    have : (2 * ((1 : ℕ) : ℝ) * (2 * ((1 : ℕ) : ℝ) - 1)) / (2 * Real.pi * x) ^ 2 ≤ 1 := by rw [div_le_one (by positivity)]; exact h
    nlinarith [ub_pos 1 hx]
  | succ k hk ih =>
    intro h j h1 h2
    have k1 : (1 : ℝ) ≤ k := by exact_mod_cast hk
    have ih' := ih (le_trans (by push_cast; nlinarith) h)
    rcases Nat.lt_or_ge j (k + 2) with h3 | h3
    · exact ih' j h1 (by omega)
    obtain rfl : j = k + 1 + 1 := by omega
    rw [ub_step (by omega) hx]
    have : (2 * ((k + 1 : ℕ) : ℝ) * (2 * ((k + 1 : ℕ) : ℝ) - 1)) / (2 * Real.pi * x) ^ 2 ≤ 1 := by rw [div_le_one (by positivity)]; exact h
    have := ih' (k + 1) (by omega) le_rfl
    have := ub_pos (k + 1) hx
    nlinarith

/-- The terms fall, then rise. -/
theorem ub_two {x : ℝ} (hx : 0 < x) : ∀ k : ℕ, 1 ≤ k → ∀ j, 1 ≤ j → j ≤ k → ub j x ≤ ub 1 x + ub k x := by
  have hp := Real.pi_pos
  intro k hk
  induction k, hk using Nat.le_induction with
  | base =>
    intro j h1 h2
    obtain rfl : j = 1 := by omega
    linarith [ub_pos 1 hx]
  | succ k hk ih =>
    intro j h1 h2
    rcases Nat.eq_or_lt_of_le h2 with rfl | h3
    · linarith [ub_pos 1 hx]
    rcases le_or_gt (2 * k * (2 * k - 1) : ℝ) ((2 * Real.pi * x) ^ 2) with h | h
    · have := ub_before hx k hk h j h1 (by omega)
      linarith [ub_pos (k + 1) hx]
    · have a := ih j h1 (by omega)
      have : 1 ≤ (2 * (k : ℝ) * (2 * k - 1)) / (2 * Real.pi * x) ^ 2 := by rw [one_le_div (by positivity)]; exact h.le
      have e := ub_step hk hx
      have := ub_pos k hx
      nlinarith

theorem ub_grow {x : ℝ} (hx : 0 < x) (h : x ≤ 250) {k : ℕ} (hk : 3150 ≤ k) : 16 * ub k x ≤ ub (k + 1) x := by
  have hp := Real.pi_pos
  have k1 : (3150 : ℝ) ≤ k := by exact_mod_cast hk
  rw [ub_step (by omega) hx, mul_comm]
  refine mul_le_mul_of_nonneg_left ?_ (ub_pos k hx).le
  rw [le_div_iff₀ (by positivity)]
  have y1 : 2 * Real.pi * x ≤ 1574 := by
    have := Real.pi_lt_d4
    have : Real.pi * x ≤ 3.1416 * 250 := mul_le_mul this.le h hx.le (by norm_num)
    linarith
  have y2 : (2 * Real.pi * x) ^ 2 ≤ 1574 ^ 2 := by gcongr
  nlinarith

theorem ub_last {x : ℝ} (hx : 0 < x) (h : x ≤ 250) : (2 : ℝ) ^ 80 ≤ ub 4999 x := by
  have hp := Real.pi_pos
  rw [ub_eq (by norm_num) hx, show 2 * 4999 - 2 = 9996 by norm_num]
  have y1 : 2 * Real.pi * x ≤ 1574 := by
    have := Real.pi_lt_d4
    have : Real.pi * x ≤ 3.1416 * 250 := mul_le_mul this.le h hx.le (by norm_num)
    linarith
  have y0 : 0 < 2 * Real.pi * x := by positivity
  have q : Real.pi ^ 2 * x ≤ 2 ^ 12 := by
    have := Real.pi_lt_d2
    have : Real.pi ^ 2 ≤ 10 := by nlinarith
    calc Real.pi ^ 2 * x ≤ 10 * 250 := mul_le_mul this h hx.le (by norm_num)
      _ ≤ _ := by norm_num
  generalize 2 * Real.pi * x = y at *
  obtain ⟨n, hn⟩ : ∃ n : ℕ, n = 9996 := ⟨_, rfl⟩
  rw [← hn]
  have n9 : (n : ℝ) = 9996 := by rw [hn]; norm_num
  have f := Real.pow_div_factorial_le_exp (n : ℝ) (by positivity) n
  have f0 : (0 : ℝ) < (n.factorial : ℝ) := by positivity
  rw [div_le_iff₀ f0] at f
  have e1 : Real.exp (n : ℝ) = Real.exp 1 ^ n := by rw [← Real.exp_nat_mul]; simp
  rw [e1] at f
  have b : (2 * (Real.exp 1 * y)) ^ n ≤ (n : ℝ) ^ n := by
    refine pow_le_pow_left₀ (by positivity) ?_ n
    rw [n9]
    have := Real.exp_one_lt_d9
    have : Real.exp 1 * y ≤ 2.7182818286 * 1574 := mul_le_mul this.le y1 y0.le (by norm_num)
    linarith
  rw [mul_pow, mul_pow] at b
  have c : (2 : ℝ) ^ n * y ^ n ≤ n.factorial := by
    have ep : 0 < Real.exp 1 ^ n := by positivity
    refine le_of_mul_le_mul_left ?_ ep
    calc Real.exp 1 ^ n * (2 ^ n * y ^ n) = 2 ^ n * (Real.exp 1 ^ n * y ^ n) := by ring
      _ ≤ _ := b.trans f
  have d : (2 : ℝ) ^ n ≤ n.factorial / y ^ n := by rw [le_div_iff₀ (by positivity)]; exact c
  have g : (2 : ℝ) ^ 92 ≤ 2 ^ n := pow_le_pow_right₀ (by norm_num) (by omega)
  rw [le_div_iff₀ (by positivity)]
  calc (2 : ℝ) ^ 80 * (Real.pi ^ 2 * x) ≤ 2 ^ 80 * 2 ^ 12 := by gcongr
    _ = 2 ^ 92 := by norm_num
    _ ≤ _ := g.trans d

/-- All Bernoulli numbers the loop can ask for are right to one percent. -/
def BernOk (E : RealEnv) (T : Tab ℝ) : Prop :=
  ∀ k, 1 ≤ k → k ≤ 4999 → ∃ b, Fn.bernoulli (realArith E) T (2 * k) = some b ∧ |b - (_root_.bernoulli (2 * k) : ℝ)| ≤ 1 / 100 * |(_root_.bernoulli (2 * k) : ℝ)|

/-- The loop adds all terms. -/
theorem gammaLoop_all {E : RealEnv} {T : Tab ℝ} {x : ℝ} (hT : BernOk E T) (hx : 10 ≤ x) (t0 : 6 ≤ E.tol)
    (hE : 1000000 * x * Real.exp (2 * Real.pi * x) ≤ (10 : ℝ) ^ E.tol) :
    ∃ t : ℕ → ℝ, (∀ j, 1 ≤ j → j ≤ 4999 → |t j - term j x| ≤ 1 / 100 * |term j x|) ∧
      ∀ fuel k : ℕ, 2 ≤ k → k + fuel = 5000 → ∀ s, |s| ≤ 101 / 100 * ∑ j ∈ Finset.range (k - 1), ub (j + 1) x →
        Fn.gammaLoop (realArith E) T (1 / x * (1 / x)) fuel (2 * k) (1 / x ^ (2 * k - 3)) s = some (s + ∑ j ∈ Finset.Ico k 5000, t j) := by
  have hp : 0 < x := by linarith
  obtain ⟨t, ht⟩ : ∃ t : ℕ → ℝ, ∀ k, 1 ≤ k → k ≤ 4999 → ∃ b, Fn.bernoulli (realArith E) T (2 * k) = some b ∧
      t k = b * (1 / x ^ (2 * k - 1)) / ((((2 * k : ℕ) : ℤ) * (((2 * k : ℕ) : ℤ) - 1) : ℤ) : ℝ) ∧ |t k - term k x| ≤ 1 / 100 * |term k x| := by
    have : ∀ k, ∃ t, 1 ≤ k → k ≤ 4999 → ∃ b, Fn.bernoulli (realArith E) T (2 * k) = some b ∧
      t = b * (1 / x ^ (2 * k - 1)) / ((((2 * k : ℕ) : ℤ) * (((2 * k : ℕ) : ℤ) - 1) : ℤ) : ℝ) ∧ |t - term k x| ≤ 1 / 100 * |term k x| := by
      intro k
      by_cases h : 1 ≤ k ∧ k ≤ 4999
      · obtain ⟨b, hb, hbe⟩ := hT k h.1 h.2
        refine ⟨_, fun _ _ => ⟨b, hb, rfl, ?_⟩⟩
        have k1 : (1 : ℝ) ≤ k := by exact_mod_cast h.1
        have kk : (0 : ℝ) < 2 * k * (2 * k - 1) := by nlinarith
        have e : b * (1 / x ^ (2 * k - 1)) / ((((2 * k : ℕ) : ℤ) * (((2 * k : ℕ) : ℤ) - 1) : ℤ) : ℝ) - term k x =
            (b - (_root_.bernoulli (2 * k) : ℝ)) * (1 / x ^ (2 * k - 1) / (2 * k * (2 * k - 1))) := by
          rw [term]; push_cast; ring
        rw [e, abs_mul, abs_of_pos (show (0 : ℝ) < 1 / x ^ (2 * k - 1) / (2 * k * (2 * k - 1)) by positivity), term_abs h.1 hp]
        calc |b - (_root_.bernoulli (2 * k) : ℝ)| * (1 / x ^ (2 * k - 1) / (2 * k * (2 * k - 1)))
            ≤ 1 / 100 * |(_root_.bernoulli (2 * k) : ℝ)| * (1 / x ^ (2 * k - 1) / (2 * k * (2 * k - 1))) := by gcongr
          _ = _ := by ring
      · exact ⟨0, fun h1 h2 => absurd ⟨h1, h2⟩ h⟩
    choose t ht using this
    exact ⟨t, ht⟩
  refine ⟨t, fun j h1 h2 => (ht j h1 h2).choose_spec.2.2, ?_⟩
  intro fuel
  induction fuel with
  | zero =>
    intro k h2 hf s _
    obtain rfl : k = 5000 := by omega
    unfold Fn.gammaLoop
    simp
  | succ fuel ih =>
    intro k h2 hf s hs
    obtain ⟨b, hb, htk, hte⟩ := ht k (by omega) (by omega)
    obtain ⟨u1, u2⟩ := term_le_ub (k := k) (by omega) hp
    have ul := ub_low (k := k) (by omega) hp
    have up := ub_pos k hp
    have t3 : |t k| ≤ 101 / 100 * ub k x := by
      have := abs_sub_abs_le_abs_sub (t k) (term k x); linarith
    have t4 : 99 / 200 * ub k x ≤ |t k| := by
      have := abs_sub_abs_le_abs_sub (term k x) (t k); rw [abs_sub_comm] at this; linarith
    have tne : t k ≠ 0 := abs_pos.1 (by linarith)
    have hsum : ∑ j ∈ Finset.range (k - 1), ub (j + 1) x ≤ 5000 * (1 + ub k x) := by
      have h1 : ub 1 x ≤ 1 := by
        refine (ub_one x hp).trans ?_
        rw [div_le_one (by positivity)]; linarith
      calc ∑ j ∈ Finset.range (k - 1), ub (j + 1) x ≤ ∑ j ∈ Finset.range (k - 1), (1 + ub k x) := by
            refine Finset.sum_le_sum fun j hj => ?_
            have := ub_two hp k (by omega) (j + 1) (by omega) (by have := Finset.mem_range.1 hj; omega)
            linarith
        _ = ((k - 1 : ℕ) : ℝ) * (1 + ub k x) := by rw [Finset.sum_const, Finset.card_range, nsmul_eq_mul]
        _ ≤ _ := by
          refine mul_le_mul_of_nonneg_right ?_ (by linarith)
          have : ((k - 1 : ℕ) : ℝ) ≤ ((5000 : ℕ) : ℝ) := by exact_mod_cast (by omega : k - 1 ≤ 5000)
          simpa using this
    have hs' : |s| ≤ 5050 * (1 + ub k x) := by linarith
    have tp : (0 : ℝ) < (10 : ℝ) ^ (-E.tol) := by positivity
    have a1 : 100000 * (10 : ℝ) ^ (-E.tol) ≤ ub k x := by
      refine le_trans ?_ (ub_ge_exp (k := k) (by omega) hp)
      rw [zpow_neg, ← div_eq_mul_inv, div_le_div_iff₀ (by positivity) (by positivity), Real.exp_neg, inv_mul_eq_div, le_div_iff₀ (Real.exp_pos _)]
      linarith
    have a2 : (10 : ℝ) ^ (-E.tol) ≤ 1 / 1000000 := by
      have : (10 : ℝ) ^ (-E.tol) ≤ (10 : ℝ) ^ (-6 : ℤ) := zpow_le_zpow_right₀ (by norm_num) (by omega)
      refine this.trans (by norm_num)
    have nb : ¬ (2 * k > 20 ∧ ordR |t k| - ordR |s| < -E.tol) := by
      rintro ⟨-, h⟩
      have key : |t k| ≤ (10 : ℝ) ^ (-E.tol) * (1 + |s|) := by
        rcases eq_or_ne s 0 with rfl | s0
        · rw [abs_zero, ordR_zero, sub_zero, ordR_lt (abs_ne_zero.2 tne), abs_abs] at h
          rw [abs_zero, add_zero, mul_one]; exact h.le
        · have := ord_le tne s0 h
          linarith
      have c1 := mul_le_mul_of_nonneg_left hs' tp.le
      have c2 := mul_le_mul_of_nonneg_right a2 up.le
      linarith
    obtain ⟨j, hj⟩ : ∃ j, k = j + 1 := ⟨k - 1, by omega⟩
    have ihs : |s + t k| ≤ 101 / 100 * ∑ j ∈ Finset.range (k + 1 - 1), ub (j + 1) x := by
      subst hj
      rw [show j + 1 + 1 - 1 = j + 1 by omega, Finset.sum_range_succ]
      rw [show j + 1 - 1 = j by omega] at hs
      have := abs_add_le s (t (j + 1))
      linarith
    have hr : 1 / x ^ (2 * k - 3) * (1 / x * (1 / x)) = 1 / x ^ (2 * k - 1) := by
      rw [show 2 * k - 1 = (2 * k - 3) + 2 by omega, pow_add]; field_simp
    have step : Fn.gammaLoop (realArith E) T (1 / x * (1 / x)) (fuel + 1) (2 * k) (1 / x ^ (2 * k - 3)) s =
        Fn.gammaLoop (realArith E) T (1 / x * (1 / x)) fuel (2 * (k + 1)) (1 / x ^ (2 * (k + 1) - 3)) (s + t k) := by
      conv_lhs => unfold Fn.gammaLoop
      rw [hb]
      ra_simp
      simp only [Option.bind_eq_bind, Option.bind_some]
      rw [hr, ← htk, if_neg nb, show 2 * (k + 1) - 3 = 2 * k - 1 by omega, show 2 * (k + 1) = 2 * k + 2 by ring]
    rw [step, ih (k + 1) (by omega) (by omega) _ ihs, Finset.sum_eq_sum_Ico_succ_bot (show k < 5000 by omega)]
    congr 1; ring

theorem term_last_pos {x : ℝ} (hx : 0 < x) : 0 < term 4999 x := by
  have h := hasSum_zeta_nat (k := 4999) (by norm_num)
  have z1 := le_hasSum h 1 (fun j _ => by positivity)
  have b : 0 < (_root_.bernoulli (2 * 4999) : ℝ) := by
    obtain ⟨B, hB⟩ : ∃ B, B = (_root_.bernoulli (2 * 4999) : ℝ) := ⟨_, rfl⟩
    rw [← hB] at z1 ⊢
    have e : (-1 : ℝ) ^ (4999 + 1) = 1 := Even.neg_one_pow (by decide)
    rw [e] at z1
    by_contra hc
    have hp := Real.pi_pos
    have : 1 * (2 : ℝ) ^ (2 * 4999 - 1) * Real.pi ^ (2 * 4999) * B / ((2 * 4999).factorial : ℝ) ≤ 0 := by
      refine div_nonpos_of_nonpos_of_nonneg (mul_nonpos_of_nonneg_of_nonpos (by positivity) (not_lt.1 hc)) (by positivity)
    have h1 : (0 : ℝ) < 1 / ((1 : ℕ) : ℝ) ^ (2 * 4999) := by positivity
    linarith
  unfold term
  refine mul_pos (div_pos b (by norm_num)) (by positivity)

/-- The sum of all terms is huge. -/
theorem all_terms {x : ℝ} (hx : 10 ≤ x) (h : x ≤ 250) {t : ℕ → ℝ} (ht : ∀ j, 1 ≤ j → j ≤ 4999 → |t j - term j x| ≤ 1 / 100 * |term j x|) :
    (2 : ℝ) ^ 70 ≤ ∑ j ∈ Finset.Ico 1 5000, t j := by
  have hp : 0 < x := by linarith
  have tb : ∀ j, 1 ≤ j → j ≤ 4999 → |t j| ≤ 101 / 100 * ub j x := fun j h1 h2 => by
    have a := abs_sub_abs_le_abs_sub (t j) (term j x)
    have b := (term_le_ub h1 hp).1
    have c := ht j h1 h2
    linarith
  have key : ∀ n, 3150 ≤ n → n ≤ 4998 → |∑ j ∈ Finset.Ico 1 (n + 1), t j| ≤ 3200 * (1 + ub 3150 x) + 11 / 10 * ub n x := by
    intro n hn
    induction n, hn using Nat.le_induction with
    | base =>
      intro _
      have h1 : ub 1 x ≤ 1 := by
        refine (ub_one x hp).trans ?_
        rw [div_le_one (by positivity)]; linarith
      have : |∑ j ∈ Finset.Ico 1 (3150 + 1), t j| ≤ 3150 * (101 / 100 * (1 + ub 3150 x)) := by
        calc |∑ j ∈ Finset.Ico 1 (3150 + 1), t j| ≤ ∑ j ∈ Finset.Ico 1 (3150 + 1), |t j| := Finset.abs_sum_le_sum_abs _ _
          _ ≤ ∑ j ∈ Finset.Ico 1 (3150 + 1), (101 / 100 * (1 + ub 3150 x)) := by
            refine Finset.sum_le_sum fun j hj => ?_
            rw [Finset.mem_Ico] at hj
            have := tb j hj.1 (by omega)
            have := ub_two hp 3150 (by norm_num) j hj.1 (by omega)
            linarith
          _ = _ := by rw [Finset.sum_const, Nat.card_Ico, nsmul_eq_mul]; norm_num
      have := ub_pos 3150 hp
      linarith
    | succ n hn ih =>
      intro h2
      have a := ih (by omega)
      rw [Finset.sum_Ico_succ_top (by omega)]
      have b := abs_add_le (∑ j ∈ Finset.Ico 1 (n + 1), t j) (t (n + 1))
      have c := tb (n + 1) (by omega) (by omega)
      have d := ub_grow hp h hn
      have := ub_pos (n + 1) hp
      linarith
  have a := key 4998 (by norm_num) le_rfl
  have g := ub_grow hp h (k := 4998) (by norm_num)
  have l := ub_last hp h
  have far : 100000 * ub 3150 x ≤ ub 4999 x := by
    have : ∀ n, 3150 ≤ n → ub 3150 x ≤ ub n x := by
      intro n hn
      induction n, hn using Nat.le_induction with
      | base => exact le_rfl
      | succ n hn ih => have := ub_grow hp h hn; have := ub_pos n hp; linarith
    have g1 := ub_grow hp h (k := 4997) (by norm_num)
    have g2 := ub_grow hp h (k := 4996) (by norm_num)
    have g3 := ub_grow hp h (k := 4995) (by norm_num)
    have g4 := ub_grow hp h (k := 4994) (by norm_num)
    have g5 := this 4994 (by norm_num)
    norm_num at g1 g2 g3 g4 g
    have := ub_pos 3150 hp
    linarith
  rw [Finset.sum_Ico_succ_top (show 1 ≤ 4999 by norm_num)]
  have e := abs_le.1 a
  have f := ht 4999 (by norm_num) le_rfl
  have lo := ub_low (k := 4999) (by norm_num) hp
  have tl := term_last_pos hp
  rw [abs_of_pos tl] at f lo
  have f' := abs_le.1 f
  norm_num at e f' lo g ⊢
  norm_num at l
  linarith [e.1, f'.1]

end EFX.Stir
