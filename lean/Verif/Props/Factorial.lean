import Verif.Props.Tables
/-! C79: factorials and binomial coefficients. -/

namespace EFX.Props
open EFX EFX.Stir

/-- The exponent and the exponential of the closed form plus a sum. -/
theorem stir_exp {E : RealEnv} (t0 : 10 ≤ E.tol) (ht : E.tol ≤ 29990) (hm : E.maxExp ≤ 2 ^ 62) (hm' : 10000 ≤ E.maxExp)
    {x s q : ℝ} (x10 : 10 ≤ x) (hse : |s - (Real.log (Real.Gamma x) - f0 x)| ≤ q)
    (l1 : LogStart E 14 (newtonArg x)) (l2 : LogStart E 14 (2 * Real.pi)) (hη : 6001 * (10 : ℝ) ^ (-E.tol) * x + q ≤ 1)
    (hL : Real.log (Real.Gamma x) + 1 ≤ E.maxExp) :
    |Fn.stirArg (realArith E) x s - Real.log (Real.Gamma x)| ≤ 6001 * (10 : ℝ) ^ (-E.tol) * x + q ∧
      ((∀ n : ℤ, Fn.stirArg (realArith E) x s ≠ n * Real.log 2) →
        |Real.Gamma x - Fn.exp (realArith E) (Fn.stirArg (realArith E) x s)| ≤
          (2 * (6001 * (10 : ℝ) ^ (-E.tol) * x + q) + 14100 * (10 : ℝ) ^ (-E.tol)) * Real.Gamma x) := by
  have tp : (0 : ℝ) < (10 : ℝ) ^ (-E.tol) := by positivity
  have xp : 0 < x := by linarith
  have lx := C66_log14_partial t0 ht hm hm' xp (Or.inr (by
    have : (10 : ℝ) ^ (-max (E.tol / 10) 6) ≤ (10 : ℝ) ^ (0 : ℤ) := zpow_le_zpow_right₀ (by norm_num) (by omega)
    rw [zpow_zero] at this
    rw [abs_of_neg (by linarith)]; linarith)) l1
  have pi3 := Real.pi_gt_three
  have o2 : ordR (2 * Real.pi) = 0 := ordR_eq (by linarith) (by norm_num; linarith) (by
    have := Real.pi_lt_d2; norm_num; linarith)
  have l2' : LogStart E 14 (newtonArg (2 * Real.pi)) := by
    unfold newtonArg; rw [o2, if_neg (by norm_num), if_neg (by norm_num)]; exact l2
  have lp := C66_log14_partial t0 ht hm hm' (show 0 < 2 * Real.pi by linarith) (Or.inr (by
    have : (10 : ℝ) ^ (-max (E.tol / 10) 6) ≤ (10 : ℝ) ^ (0 : ℤ) := zpow_le_zpow_right₀ (by norm_num) (by omega)
    rw [zpow_zero] at this
    rw [abs_of_neg (by linarith)]; linarith)) l2'
  have hy : |Fn.stirArg (realArith E) x s - Real.log (Real.Gamma x)| ≤ 6001 * (10 : ℝ) ^ (-E.tol) * x + q := by
    unfold Fn.stirArg Fn.halfLnTwoPi Fn.twoPi
    ra_simp
    rw [show Real.pi * ((2 : ℤ) : ℝ) = 2 * Real.pi by push_cast; ring]
    unfold f0 at hse
    generalize Fn.log (realArith E) x = a at *
    generalize Fn.log (realArith E) (2 * Real.pi) = b at *
    generalize (10 : ℝ) ^ (-E.tol) = δ at *
    generalize Real.log (2 * Real.pi) = B at *
    generalize Real.log x = A' at *
    generalize hLg : Real.log (Real.Gamma x) = L at *
    have e : (x - 1 / 2) * a - x + b / ((2 : ℤ) : ℝ) + s - L =
        -((x - 1 / 2) * (A' - a)) - (B - b) / 2 + (s - (L - ((x - 1 / 2) * A' - x + B / 2))) := by push_cast; ring
    rw [e]
    have a1 : |(x - 1 / 2) * (A' - a)| ≤ (x - 1 / 2) * (6001 * δ) := by
      rw [abs_mul, abs_of_pos (show 0 < x - 1 / 2 by linarith)]
      exact mul_le_mul_of_nonneg_left lx (by linarith)
    have a1' := abs_le.1 a1
    have a2 := abs_le.1 lp
    have a3 := abs_le.1 hse
    rw [show (x - 1 / 2) * (6001 * δ) = 6001 * δ * x - 6001 * δ / 2 by ring] at a1'
    exact abs_le.2 ⟨by linarith, by linarith⟩
  refine ⟨hy, fun hn => ?_⟩
  have Gp := Real.Gamma_pos_of_pos xp
  have L0 : 0 ≤ Real.log (Real.Gamma x) := by
    apply Real.log_nonneg
    have := Real.Gamma_strictMonoOn_Ici.monotoneOn (show (2 : ℝ) ∈ Set.Ici 2 by simp) (show x ∈ Set.Ici 2 by simp; linarith) (by linarith)
    rwa [Real.Gamma_two] at this
  have he := exp_near hy hη
  rw [Real.exp_log Gp] at he
  have hy' := abs_le.1 (hy.trans hη)
  have hex := C65_exp_partial t0 ht hm (x := Fn.stirArg (realArith E) x s) (abs_le.2 ⟨by linarith, by linarith⟩) (fun n _ => hn n)
  generalize Fn.exp (realArith E) (Fn.stirArg (realArith E) x s) = v at *
  generalize Real.exp (Fn.stirArg (realArith E) x s) = w at *
  generalize Real.Gamma x = G at *
  generalize (10 : ℝ) ^ (-E.tol) = δ at *
  generalize 6001 * δ * x + q = η at *
  have w3 : w ≤ 3 * G := by
    have := (abs_le.1 he).2
    nlinarith
  have a1 := abs_sub_le G w v
  rw [abs_sub_comm G w] at a1
  nlinarith

/-- The loop of the expansion of the factorial. -/
theorem factLoop_real {E : RealEnv} {T : Tab ℝ} {M : ℕ} {ε x : ℝ} (hT : TabBern T M ε) (xp : 0 < x) (e1 : ε ≤ 1 / 100) :
    ∀ fuel k : ℕ, 2 ≤ k → k + fuel = M → ∀ s, Near ε x (k - 1) s →
      ∃ N, N ≤ M ∧ 2 ≤ N ∧ ∃ s', Fn.factLoop (realArith E) T (1 / x * (1 / x)) fuel k (1 / x ^ (2 * k - 3)) s = some s' ∧ Near ε x (N - 1) s' ∧
        (N = M ∨ |term N x| ≤ 11 / 10 * (10 : ℝ) ^ (-E.tol)) := by
  intro fuel
  induction fuel with
  | zero => intro k h2 hk s hs; exact ⟨k, by omega, h2, s, rfl, hs, Or.inl (by omega)⟩
  | succ fuel ih =>
    intro k h2 hk s hs
    unfold Fn.factLoop
    obtain ⟨b, hb, -, hbe⟩ := bernoulli_tab (E := E) hT (k := k) (by omega) (by omega)
    rw [hb]
    ra_simp
    simp only [Option.bind_eq_bind, Option.bind_some]
    have k1 : (2 : ℝ) ≤ k := by exact_mod_cast h2
    have hr : 1 / x ^ (2 * k - 3) * (1 / x * (1 / x)) = 1 / x ^ (2 * k - 1) := by
      rw [show 2 * k - 1 = (2 * k - 3) + 2 by omega, pow_add]; field_simp
    rw [hr]
    obtain ⟨t, ht⟩ : ∃ t, t = b * (1 / x ^ (2 * k - 1)) / ((2 * (k : ℤ) : ℤ) : ℝ) / ((2 * (k : ℤ) - 1 : ℤ) : ℝ) := ⟨_, rfl⟩
    rw [← ht]
    have kk : (0 : ℝ) < 2 * k * (2 * k - 1) := by nlinarith
    have t1 : |t - term k x| ≤ ε * |term k x| := by
      have e : t - term k x = (b - (_root_.bernoulli (2 * k) : ℝ)) * (1 / x ^ (2 * k - 1) / (2 * k * (2 * k - 1))) := by
        rw [ht, term]; push_cast; rw [div_div]; ring
      rw [e, abs_mul, abs_of_pos (show (0 : ℝ) < 1 / x ^ (2 * k - 1) / (2 * k * (2 * k - 1)) by positivity), term_abs (by omega) xp]
      calc |b - (_root_.bernoulli (2 * k) : ℝ)| * (1 / x ^ (2 * k - 1) / (2 * k * (2 * k - 1)))
          ≤ ε * |(_root_.bernoulli (2 * k) : ℝ)| * (1 / x ^ (2 * k - 1) / (2 * k * (2 * k - 1))) := by gcongr
        _ = _ := by ring
    obtain ⟨-, u2⟩ := term_le_ub (k := k) (by omega) xp
    have t2 : ε * |term k x| ≤ 1 / 100 * |term k x| := mul_le_mul_of_nonneg_right e1 u2.le
    have t4 : |term k x| - ε * |term k x| ≤ |t| := by
      have := abs_sub_abs_le_abs_sub (term k x) t; rw [abs_sub_comm] at this; linarith
    have tne : t ≠ 0 := abs_pos.1 (by linarith)
    by_cases hc : ordR t < -E.tol
    · rw [if_pos hc]
      refine ⟨k, by omega, h2, s, rfl, hs, Or.inr ?_⟩
      have := (ordR_lt tne).1 hc
      linarith
    · rw [if_neg hc]
      have hs' : Near ε x (k + 1 - 1) (s + t) := by
        unfold Near at hs ⊢
        obtain ⟨j, rfl⟩ : ∃ j, k = j + 1 := ⟨k - 1, by omega⟩
        rw [show j + 1 + 1 - 1 = j + 1 by omega, Finset.sum_range_succ, Finset.sum_range_succ]
        rw [show j + 1 - 1 = j by omega] at hs
        have : s + t - (∑ i ∈ Finset.range j, term (i + 1) x + term (j + 1) x) = (s - ∑ i ∈ Finset.range j, term (i + 1) x) + (t - term (j + 1) x) := by ring
        rw [this]
        have := abs_add_le (s - ∑ i ∈ Finset.range j, term (i + 1) x) (t - term (j + 1) x)
        linarith
      have := ih (k + 1) (by omega) (by omega) (s + t) hs'
      rwa [show 2 * (k + 1) - 3 = 2 * k - 1 by omega] at this

theorem ub_le {k t m : ℕ} (m0 : 0 < m) (h : 4 * (2 * k - 2).factorial * 10 ^ t * 1000 ^ (2 * k) ≤ 6283 ^ (2 * k) * m ^ (2 * k - 1)) {x : ℝ} (hx : m ≤ x) :
    ub k x ≤ (10 : ℝ) ^ (-(t : ℤ)) := by
  have m0' : (0 : ℝ) < m := by exact_mod_cast m0
  have hp : 0 < x := lt_of_lt_of_le m0' hx
  have h' : (4 : ℝ) * ((2 * k - 2).factorial : ℝ) * 10 ^ t * 1000 ^ (2 * k) ≤ 6283 ^ (2 * k) * (m : ℝ) ^ (2 * k - 1) := by exact_mod_cast h
  have pi1 : (6283 / 1000 : ℝ) ≤ 2 * Real.pi := by have := Real.pi_gt_d4; linarith
  have h1 : (6283 / 1000 : ℝ) ^ (2 * k) ≤ (2 * Real.pi) ^ (2 * k) := pow_le_pow_left₀ (by norm_num) pi1 _
  have h2 : (m : ℝ) ^ (2 * k - 1) ≤ x ^ (2 * k - 1) := pow_le_pow_left₀ m0'.le hx _
  have h3 : (4 : ℝ) * ((2 * k - 2).factorial : ℝ) * 10 ^ t ≤ (2 * Real.pi) ^ (2 * k) * x ^ (2 * k - 1) := by
    refine le_trans ?_ (mul_le_mul h1 h2 (by positivity) (by positivity))
    rw [div_pow, div_mul_eq_mul_div, le_div_iff₀ (by positivity)]
    exact h'
  unfold ub
  rw [zpow_neg, zpow_natCast, div_le_iff₀ (by positivity), inv_mul_eq_div, le_div_iff₀ (by positivity)]
  exact h3

theorem ub_1000 {x : ℝ} (hx : 1002 ≤ x) : ub 1000 x ≤ (10 : ℝ) ^ (-((1800 : ℕ) : ℤ)) :=
  ub_le (m := 1002) (by norm_num) (by decide +kernel) (by exact_mod_cast hx)

/-- The error of the sum in the expansion of the factorial. -/
noncomputable def factErr (E : RealEnv) (ε x : ℝ) : ℝ := 2 * ε / x + 3 * (10 : ℝ) ^ (-E.tol) + (10 : ℝ) ^ (-((1800 : ℕ) : ℤ))

theorem factInf_real {E : RealEnv} {T : Tab ℝ} {ε : ℝ} (hT : TabBern T 1001 ε) (hl : Fn.bernMax T = 1001) (e0 : 0 ≤ ε) (e1 : ε ≤ 1 / 100)
    {n : ℕ} (hn : 1002 ≤ n) :
    ∃ s, Fn.factInf (realArith E) T n = some (Fn.exp (realArith E) (Fn.stirArg (realArith E) n s)) ∧
      |s - (Real.log (Real.Gamma n) - f0 n)| ≤ factErr E ε n := by
  have hx : (1002 : ℝ) ≤ n := by exact_mod_cast hn
  obtain ⟨x, hxn⟩ : ∃ x : ℝ, x = n := ⟨_, rfl⟩
  rw [← hxn] at hx ⊢
  have hp : 0 < x := by linarith
  have i0 : 0 < 1 / x := by positivity
  obtain ⟨b2, hb2, -, hbe2⟩ := bernoulli_tab (E := E) hT (k := 1) (by omega) (by omega)
  have n1 : Near ε x 1 (b2 * (1 / x) / 2) := by
    unfold Near
    rw [Finset.sum_range_one, Finset.sum_range_one, term_abs (by omega) hp]
    have e : b2 * (1 / x) / 2 - term (0 + 1) x = (b2 - (_root_.bernoulli (2 * 1) : ℝ)) * (1 / x / 2) := by
      rw [term]; norm_num; ring
    rw [e, abs_mul, abs_of_pos (show (0 : ℝ) < 1 / x / 2 by positivity)]
    calc |b2 - (_root_.bernoulli (2 * 1) : ℝ)| * (1 / x / 2) ≤ ε * |(_root_.bernoulli (2 * 1) : ℝ)| * (1 / x / 2) := by gcongr
      _ = _ := by norm_num; ring
  unfold Fn.factInf
  rw [hb2, hl]
  ra_simp
  simp only [Option.bind_eq_bind, Option.bind_some]
  rw [show (((n : ℕ) : ℤ) : ℝ) = x by rw [hxn]; push_cast; ring]
  obtain ⟨fuel, hfuel⟩ : ∃ fuel : ℕ, fuel = 1001 - 2 := ⟨_, rfl⟩
  rw [← hfuel]
  obtain ⟨N, n2, n3, s, hs, hns, hts⟩ := factLoop_real (E := E) hT hp e1 fuel 2 le_rfl (by omega) (b2 * (1 / x) / 2) n1
  rw [show 1 / x ^ (2 * 2 - 3) = 1 / x by norm_num] at hs
  rw [show ((2 : ℤ) : ℝ) = 2 by norm_num, hs]
  refine ⟨s, rfl, ?_⟩
  have hNr : (2 * ((N - 1 : ℕ) : ℝ)) ≤ 6 * x := by
    have : ((N - 1 : ℕ) : ℝ) ≤ 1001 := by exact_mod_cast (by omega)
    linarith
  have hsum := sum_term_le hp hNr
  have b0 : 0 ≤ ∑ k ∈ Finset.range (N - 1), |term (k + 1) x| := Finset.sum_nonneg fun k _ => abs_nonneg _
  have h2 := mul_le_mul_of_nonneg_left hsum e0
  unfold Near at hns
  have tp : (0 : ℝ) < (10 : ℝ) ^ (-E.tol) := by positivity
  have tq : (0 : ℝ) < (10 : ℝ) ^ (-((1800 : ℕ) : ℤ)) := by positivity
  have h4 : 0 ≤ ε * (1 / x) := by positivity
  unfold factErr
  rw [show 2 * ε / x = 2 * (ε * (1 / x)) by ring]
  rw [show ε * (13 / 10 / x) = 13 / 10 * (ε * (1 / x)) by ring] at h2
  have u := (term_le_ub (k := 1000) (by omega) hp).1.trans (ub_1000 hx)
  generalize (10 : ℝ) ^ (-E.tol) = δ at *
  generalize (10 : ℝ) ^ (-((1800 : ℕ) : ℤ)) = ρ at *
  rcases hts with hN | hts
  · have hst := stirling hp (N := 1000) (by omega)
    rw [show N - 1 = 1000 by omega] at hns h2
    unfold fN at hst
    generalize (∑ k ∈ Finset.range 1000, |term (k + 1) x|) = A at *
    generalize (∑ k ∈ Finset.range 1000, term (k + 1) x) = S at *
    have e : s - (Real.log (Real.Gamma x) - f0 x) = (s - S) - (Real.log (Real.Gamma x) - (f0 x + S)) := by ring
    rw [e]
    have a1 := abs_sub (s - S) (Real.log (Real.Gamma x) - (f0 x + S))
    linarith
  · have hst := stirling hp (N := N) (by omega)
    obtain ⟨j, rfl⟩ : ∃ j, N = j + 1 := ⟨N - 1, by omega⟩
    rw [show j + 1 - 1 = j by omega] at hns h2
    unfold fN at hst
    rw [Finset.sum_range_succ] at hst
    generalize (∑ k ∈ Finset.range j, |term (k + 1) x|) = A at *
    generalize (∑ k ∈ Finset.range j, term (k + 1) x) = S at *
    have e : s - (Real.log (Real.Gamma x) - f0 x) = (s - S) - (Real.log (Real.Gamma x) - (f0 x + (S + term (j + 1) x))) - term (j + 1) x := by ring
    rw [e]
    have a1 := abs_sub (s - S) (Real.log (Real.Gamma x) - (f0 x + (S + term (j + 1) x)))
    have a2 := abs_sub ((s - S) - (Real.log (Real.Gamma x) - (f0 x + (S + term (j + 1) x)))) (term (j + 1) x)
    linarith

theorem tabR_bernMax (m : ℤ) (rg : List ℝ) : Fn.bernMax (tabR m rg) = 1001 := by
  unfold Fn.bernMax tabR; simp [len_a367.1, len_a367.2]

theorem tabR_len (m : ℤ) (rg : List ℝ) : (tabR m rg).a142.length = 1001 ∧ (tabR m rg).a6882.length = 1001 ∧ (tabR m rg).a7318.length = 161 := by
  unfold tabR; simp [len_a142, len_a6882, len_a7318]

/-- C79: factorials up to 1000 come from the table, right to 419 digits. -/
theorem C79_factorial_table (E : RealEnv) (m : ℤ) (rg : List ℝ) {n : ℕ} (hn : n ≤ 1000) :
    ∃ f, Fn.factorial (realArith E) (tabR m rg) n = some f ∧ |f - n.factorial| ≤ (10 : ℝ) ^ (-419 : ℤ) * n.factorial ∧
      (n.factorial < 10 ^ 419 → f = n.factorial) := by
  obtain ⟨p, h1, h2, h3⟩ := C78_factorials n hn
  refine ⟨tabVal p, ?_, h2, h3⟩
  unfold Fn.factorial
  rw [if_pos (by rw [(tabR_len m rg).1]; omega)]
  simp [tabR, h1]

example (E : RealEnv) (m : ℤ) (rg : List ℝ) : Fn.factorial (realArith E) (tabR m rg) 10 = some 3628800 := by
  obtain ⟨f, h, -, h2⟩ := C79_factorial_table E m rg (n := 10) (by norm_num)
  rw [h, h2 (by decide +kernel)]
  norm_num [Nat.factorial]

/-- C79: larger factorials, exact arithmetic and the tables of the source. -/
theorem C79_factorial_partial {E : RealEnv} (t0 : 10 ≤ E.tol) (ht : E.tol ≤ 29990) (hm : E.maxExp ≤ 2 ^ 62) (hm' : 10000 ≤ E.maxExp) (m : ℤ) (rg : List ℝ)
    {n : ℕ} (hn : 1000 < n) (hn2 : n < 4294967295)
    (l1 : LogStart E 14 (newtonArg ((n + 1 : ℕ) : ℝ))) (l2 : LogStart E 14 (2 * Real.pi))
    (hη : 6001 * (10 : ℝ) ^ (-E.tol) * ((n + 1 : ℕ) : ℝ) + factErr E ((10 : ℝ) ^ (-419 : ℤ)) ((n + 1 : ℕ) : ℝ) ≤ 1)
    (hL : Real.log n.factorial + 1 ≤ E.maxExp) :
    ∃ y f, |y - Real.log n.factorial| ≤ 6001 * (10 : ℝ) ^ (-E.tol) * ((n + 1 : ℕ) : ℝ) + factErr E ((10 : ℝ) ^ (-419 : ℤ)) ((n + 1 : ℕ) : ℝ) ∧
      Fn.factorial (realArith E) (tabR m rg) n = some f ∧
      ((∀ k : ℤ, y ≠ k * Real.log 2) →
        |(n.factorial : ℝ) - f| ≤ (2 * (6001 * (10 : ℝ) ^ (-E.tol) * ((n + 1 : ℕ) : ℝ) + factErr E ((10 : ℝ) ^ (-419 : ℤ)) ((n + 1 : ℕ) : ℝ)) +
          14100 * (10 : ℝ) ^ (-E.tol)) * n.factorial) := by
  obtain ⟨ε, hε⟩ : ∃ ε : ℝ, ε = (10 : ℝ) ^ (-419 : ℤ) := ⟨_, rfl⟩
  have hT := C78_tabBern m rg
  have e0 : 0 ≤ ε := by rw [hε]; positivity
  have e1 : ε ≤ 1 / 100 := by
    rw [hε]
    refine le_trans (zpow_le_zpow_right₀ (by norm_num) (show (-419 : ℤ) ≤ -2 by norm_num)) (by norm_num)
  rw [← hε] at hT hη ⊢
  have G : Real.Gamma ((n + 1 : ℕ) : ℝ) = n.factorial := by
    rw [← Real.Gamma_nat_eq_factorial]; push_cast; ring
  obtain ⟨s, hs, hse⟩ := factInf_real (E := E) hT (tabR_bernMax m rg) e0 e1 (n := n + 1) (by omega)
  have x10 : (10 : ℝ) ≤ ((n + 1 : ℕ) : ℝ) := by exact_mod_cast (by omega)
  obtain ⟨h1, h2⟩ := stir_exp t0 ht hm hm' x10 hse l1 l2 hη (by rw [G]; exact hL)
  rw [G] at h1 h2
  refine ⟨_, _, h1, ?_, h2⟩
  unfold Fn.factorial
  rw [if_neg (by rw [(tabR_len m rg).1]; omega), Nat.mod_eq_of_lt (by omega), hs]

end EFX.Props
