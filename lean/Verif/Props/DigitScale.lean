import Verif.Model.DigitScale
import Verif.Lemmas.Rnd
import Verif.Props.Gamma
import Verif.Props.Combi
import Verif.Lemmas.GammaDiv
/-! C107: the least argument of the expansion of the gamma function, and the digits it is good for. -/

namespace EFX.Props
open EFX EFX.Stir

/-! ## The least argument -/

/-- The function through the points of the source, in exact arithmetic. -/
def scaleSpec (d : ℕ) : ℚ :=
  if d ≤ 50 then 1 / 6
  else if d ≤ 100 then 1 / 6 + (d - 50) / 50 * (1 / 6)
  else if d ≤ 200 then 1 / 3 + (d - 100) / 100 * (1 / 6)
  else if d ≤ 300 then 1 / 2 + (d - 200) / 100 * (1 / 2)
  else 1

theorem scale_mid : ∀ d < 301, 50 < d → minArgN d = some ((240 * scaleSpec d).floor - if d = 60 ∨ d = 75 ∨ d = 100 ∨ d = 150 then 1 else 0) := by
  decide +kernel

/-- C107: the least argument for every number of digits: the truncated interpolated value, except that the rounding of double makes it one
too small for 60, 75, 100 and 150 digits. -/
theorem C107_minarg (d : ℕ) : minArgN d = some ((240 * scaleSpec d).floor - if d = 60 ∨ d = 75 ∨ d = 100 ∨ d = 150 then 1 else 0) := by
  rcases le_or_gt d 50 with h | h
  · have b : rnd 50 = 50 := by decide +kernel
    have : rnd (d : ℚ) ≤ 50 := by
      rw [← b]; exact rnd_mono (by positivity) (by exact_mod_cast h)
    have e : minArgN d = (some (rnd (1 / 6))).map fun s => (rnd (240 * s)).floor := by
      unfold minArgN digitScale interpD scaleData
      simp only [this, true_or, if_true]
    rw [e, if_neg (by omega)]
    unfold scaleSpec
    rw [if_pos h]
    decide +kernel
  rcases lt_or_ge d 301 with h2 | h2
  · exact scale_mid d h2 h
  · have b : rnd 301 = 301 := by decide +kernel
    have t : (301 : ℚ) ≤ rnd (d : ℚ) := by
      conv_lhs => rw [← b]
      exact rnd_mono (by norm_num) (by exact_mod_cast h2)
    have e : minArgN d = (some (1 : ℚ)).map fun s => (rnd (240 * s)).floor := by
      unfold minArgN digitScale interpD scaleData
      have a1 : ¬ rnd (d : ℚ) ≤ 50 := by linarith
      have a2 : rnd (d : ℚ) ≥ 300 := by linarith
      simp [a1, a2]
    rw [e, if_neg (by omega)]
    unfold scaleSpec
    rw [if_neg (by omega), if_neg (by omega), if_neg (by omega), if_neg (by omega)]
    decide +kernel

/-- A case: 79 for 100 digits, where exact arithmetic gives 80. -/
example : minArgN 100 = some 79 ∧ (240 * scaleSpec 100).floor = 80 := by
  refine ⟨?_, by decide +kernel⟩
  rw [C107_minarg]; decide +kernel

theorem range_mid : ∀ d < 300, 50 < d → Range ((minArgN d).getD 0).toNat (d + 1 + (d + 1) / 10) := by
  unfold Range; decide +kernel

theorem minarg_low {d : ℕ} (h : d ≤ 50) : minArgN d = some 40 := by
  rw [C107_minarg, if_neg (by omega)]
  unfold scaleSpec
  rw [if_pos h]
  decide +kernel

theorem minarg_high {d : ℕ} (h : 300 ≤ d) : minArgN d = some 240 := by
  rw [C107_minarg, if_neg (by omega)]
  unfold scaleSpec
  rcases Nat.eq_or_lt_of_le h with h | h
  · subst h; decide +kernel
  · rw [if_neg (by omega), if_neg (by omega), if_neg (by omega), if_neg (by omega)]
    decide +kernel

/-- C107: up to 590 digits the smallest term of the expansion at the least argument is below the tolerance. -/
theorem C107_range {d : ℕ} (h : d ≤ 590) : ∃ m : ℕ, minArgN d = some (m : ℤ) ∧ 40 ≤ m ∧ m ≤ 240 ∧ Range m (d + 1 + (d + 1) / 10) := by
  rcases le_or_gt d 50 with h1 | h1
  · refine ⟨40, minarg_low h1, le_rfl, by norm_num, ?_⟩
    have : Range 40 56 := by unfold Range; decide +kernel
    exact this.mono (by omega)
  rcases lt_or_ge d 300 with h2 | h2
  · have r := range_mid d h2 h1
    have : ∀ d < 300, 50 < d → ∃ m : ℕ, m < 241 ∧ 40 ≤ m ∧ minArgN d = some (m : ℤ) := by
      intro d h2 h1
      have a : ∀ d < 300, 50 < d → ∃ m, minArgN d = some m ∧ 40 ≤ m ∧ m ≤ 240 := by
        intro d h2 h1
        have q : ∀ d < 300, 50 < d → (match minArgN d with | none => false | some m => decide (40 ≤ m ∧ m ≤ 240)) = true := by decide +kernel
        have := q d h2 h1
        revert this
        rcases minArgN d with - | m
        · intro h; exact absurd h (by simp)
        · intro h; exact ⟨m, rfl, by simpa using h⟩
      obtain ⟨m, e, p, q⟩ := a d h2 h1
      exact ⟨m.toNat, by omega, by omega, by rw [e]; congr 1; omega⟩
    obtain ⟨m, m1, m2, e⟩ := this d h2 h1
    refine ⟨m, e, m2, by omega, ?_⟩
    rw [e] at r
    exact r
  · exact ⟨240, minarg_high h2, by norm_num, le_rfl, range_configs.2.2.2.mono (by omega)⟩

/-- C107: the accuracy of the gamma function (C77) with the tables and the least argument of the source, up to 590 digits.  No condition
on tables or least arguments is left; the other conditions are those of C77.  The rounding is left out. -/
theorem C107_gamma_partial {E : RealEnv} {d : ℕ} (h30 : 30 ≤ d) (h : d ≤ 590) (ht : E.tol = ((d + 1 + (d + 1) / 10 : ℕ) : ℤ)) (hm : E.maxExp ≤ 2 ^ 62) (hm' : 10000 ≤ E.maxExp)
    {m : ℤ} (hmin : minArgN d = some m) (rg : List ℝ) {x : ℝ} (hx : ∀ n : ℤ, x ≠ n) (hs : (10 : ℝ) ^ (-max (E.tol / 10) 6) ≤ |x|)
    (l1 : LogStart E 14 (newtonArg (raised m |x|))) (l2 : LogStart E 14 (2 * Real.pi)) (hη : stirErr E ((10 : ℝ) ^ (-419 : ℤ)) (raised m |x|) ≤ 1 / 10)
    (hL : Real.log (Real.Gamma (raised m |x|)) + 1 ≤ E.maxExp) :
    ∃ y g, |y - Real.log (Real.Gamma (raised m |x|))| ≤ stirErr E ((10 : ℝ) ^ (-419 : ℤ)) (raised m |x|) ∧ Fn.gamma (realArith E) (tabR m rg) x = some g ∧
      ((∀ n : ℤ, y ≠ n * Real.log 2) →
        |Real.Gamma x - g| ≤ (4 * stirErr E ((10 : ℝ) ^ (-419 : ℤ)) (raised m |x|) + 30000 * (10 : ℝ) ^ (-E.tol)) * |Real.Gamma x|) := by
  obtain ⟨n, hn, n40, n240, hR⟩ := C107_range h
  obtain rfl : m = (n : ℤ) := by rw [hmin] at hn; exact Option.some.inj hn
  refine C77_gamma_partial (by omega) (by omega) hm hm' (C78_tabBern n rg) (by positivity) ?_ (by omega) (by omega) (by omega) rfl ?_ (Or.inl hx)
    (by rw [(tabR_len n rg).1]; norm_num) hs l1 l2 hη hL
  · exact le_trans (zpow_le_zpow_right₀ (by norm_num) (show (-419 : ℤ) ≤ -2 by norm_num)) (by norm_num)
  · rw [ht, Int.toNat_natCast]; exact hR

/-! ## More digits -/

theorem exp_arg {x : ℝ} (h : x ≤ 242) (hx : 0 < x) : 1000000 * x * Real.exp (2 * Real.pi * x) ≤ (10 : ℝ) ^ (10 + 661) := by
  have y1 : 2 * Real.pi * x ≤ 1521 := by
    have := Real.pi_lt_d4
    have : Real.pi * x ≤ 3.1416 * 242 := mul_le_mul this.le h hx.le (by norm_num)
    linarith
  have e1 : Real.exp (2 * Real.pi * x) ≤ (10 : ℝ) ^ 661 := by
    refine (Real.exp_le_exp.2 y1).trans ?_
    have : Real.exp 1521 = Real.exp 1 ^ 1521 := by rw [← Real.exp_nat_mul]; norm_num
    rw [this]
    refine (pow_le_pow_left₀ (Real.exp_pos 1).le (show Real.exp 1 ≤ 27182818286 / 10 ^ 10 by have := Real.exp_one_lt_d9; norm_num; linarith) 1521).trans ?_
    have k : (27182818286 : ℕ) ^ 1521 ≤ 10 ^ 661 * (10 ^ 10) ^ 1521 := by decide +kernel
    rw [div_pow, div_le_iff₀ (by positivity)]
    exact_mod_cast k
  calc 1000000 * x * Real.exp (2 * Real.pi * x) ≤ 1000000 * 242 * 10 ^ 661 := by gcongr
    _ ≤ (10 : ℝ) ^ 10 * 10 ^ 661 := by gcongr; norm_num
    _ = _ := (pow_add _ _ _).symm

/-- C107 refuted: from 609 digits on every argument below 240 that is no integer gives infinity, divided by the factors of the recursion.
The least argument stays 240, no term of the expansion falls below the tolerance, and the loop adds all terms up to index 9998,
the last of which are huge.  The Bernoulli numbers may be wrong by one percent; exact arithmetic otherwise. -/
theorem C107_digits_refuted {E : RealEnv} {d : ℕ} (hd : 609 ≤ d) (ht : E.tol = ((d + 1 + (d + 1) / 10 : ℕ) : ℤ)) (ht' : E.tol ≤ 29990) (hm : E.maxExp ≤ 2 ^ 62)
    (hm' : 10000 ≤ E.maxExp) {T : Tab ℝ} (hmin : minArgN d = some T.minArg) (hT : BernOk E T) {x : ℝ} (hx : 0 < x) (hx' : x < 240) (hn : ∀ n : ℤ, x ≠ n)
    (hs : (10 : ℝ) ^ (-max (E.tol / 10) 6) ≤ x) (l1 : LogStart E 14 (newtonArg (raised 240 x))) (l2 : LogStart E 14 (2 * Real.pi)) :
    ∃ P, 0 < P ∧ Real.Gamma (raised 240 x) = P * Real.Gamma x ∧ Fn.gamma (realArith E) T x = some (E.inf / P) := by
  have hmin' : T.minArg = 240 := by rw [minarg_high (by omega)] at hmin; exact (Option.some.inj hmin).symm
  have t0 : 671 ≤ E.tol := by rw [ht]; push_cast; omega
  obtain ⟨X, hX⟩ : ∃ X, X = raised 240 x := ⟨_, rfl⟩
  have X1 : 240 ≤ X := by rw [hX]; exact_mod_cast raised_ge (m := (240 : ℤ)) (x := x)
  have hfl : ⌊x⌋ < 240 := by rw [Int.floor_lt]; exact_mod_cast hx'
  have X2 : X ≤ 242 := by
    rw [hX]; unfold raised
    rw [if_pos (by exact_mod_cast hx')]
    have := Int.lt_floor_add_one x
    push_cast
    linarith
  have Xp : 0 < X := by linarith
  rw [← hX] at l1 ⊢
  have hE : 1000000 * X * Real.exp (2 * Real.pi * X) ≤ (10 : ℝ) ^ E.tol := by
    refine (exp_arg X2 Xp).trans ?_
    rw [← zpow_natCast]
    exact zpow_le_zpow_right₀ (by norm_num) (by omega)
  obtain ⟨t, t1, t2⟩ := gammaLoop_all hT (by linarith) (by omega) hE
  obtain ⟨b2, hb2, hbe2⟩ := hT 1 le_rfl (by norm_num)
  have first : ∃ t' : ℕ → ℝ, (∀ j, 1 ≤ j → j ≤ 4999 → |t' j - term j X| ≤ 1 / 100 * |term j X|) ∧
      Fn.gammaLoop (realArith E) T (1 / X * (1 / X)) 4998 4 (1 / X) (b2 / 2 * (1 / X)) = some (∑ j ∈ Finset.Ico 1 5000, t' j) := by
    have n1 : |b2 / 2 * (1 / X) - term 1 X| ≤ 1 / 100 * |term 1 X| := by
      rw [term_abs (by omega) Xp]
      have e : b2 / 2 * (1 / X) - term 1 X = (b2 - (_root_.bernoulli (2 * 1) : ℝ)) * (1 / X / 2) := by
        rw [term]; norm_num; ring
      rw [e, abs_mul, abs_of_pos (show (0 : ℝ) < 1 / X / 2 by positivity)]
      calc |b2 - (_root_.bernoulli (2 * 1) : ℝ)| * (1 / X / 2) ≤ 1 / 100 * |(_root_.bernoulli (2 * 1) : ℝ)| * (1 / X / 2) := by gcongr
        _ = _ := by norm_num; ring
    refine ⟨fun j => if j = 1 then b2 / 2 * (1 / X) else t j, fun j h1 h2 => ?_, ?_⟩
    · by_cases h : j = 1
      · subst h; simpa using n1
      · simpa [h] using t1 j h1 h2
    · have := t2 4998 2 le_rfl rfl (b2 / 2 * (1 / X)) (by
        have a := abs_sub_abs_le_abs_sub (b2 / 2 * (1 / X)) (term 1 X)
        have b := (term_le_ub (k := 1) le_rfl Xp).1
        simp only [show 2 - 1 = 1 by norm_num, Finset.sum_range_one]
        linarith)
      rw [show 2 * 2 = 4 by norm_num, show 4 - 3 = 1 by norm_num, pow_one] at this
      have e : ∑ j ∈ Finset.Ico (1 + 1) 5000, (if j = 1 then b2 / 2 * (1 / X) else t j) = ∑ j ∈ Finset.Ico 2 5000, t j := by
        refine Finset.sum_congr rfl fun j hj => ?_
        rw [Finset.mem_Ico] at hj
        rw [if_neg (by omega)]
      rw [this, Finset.sum_eq_sum_Ico_succ_bot (show 1 < 5000 by norm_num), e, if_pos rfl]
  obtain ⟨t', t3, t4⟩ := first
  have big := all_terms (by linarith) (by linarith) t3
  obtain ⟨S, hS⟩ : ∃ S, S = ∑ j ∈ Finset.Ico 1 5000, t' j := ⟨_, rfl⟩
  rw [← hS] at t4 big
  have lx := C66_log14_partial (by omega) ht' hm hm' Xp (Or.inr (by
    have : (10 : ℝ) ^ (-max (E.tol / 10) 6) ≤ (10 : ℝ) ^ (0 : ℤ) := zpow_le_zpow_right₀ (by norm_num) (by omega)
    rw [zpow_zero] at this
    rw [abs_of_neg (by linarith)]; linarith)) l1
  have pi3 := Real.pi_gt_three
  have o2 : ordR (2 * Real.pi) = 0 := ordR_eq (by linarith) (by norm_num; linarith) (by
    have := Real.pi_lt_d2; norm_num; linarith)
  have l2' : LogStart E 14 (newtonArg (2 * Real.pi)) := by
    unfold newtonArg; rw [o2, if_neg (by norm_num), if_neg (by norm_num)]; exact l2
  have lp := C66_log14_partial (by omega) ht' hm hm' (show 0 < 2 * Real.pi by linarith) (Or.inr (by
    have : (10 : ℝ) ^ (-max (E.tol / 10) 6) ≤ (10 : ℝ) ^ (0 : ℤ) := zpow_le_zpow_right₀ (by norm_num) (by omega)
    rw [zpow_zero] at this
    rw [abs_of_neg (by linarith)]; linarith)) l2'
  have tol6 : 6001 * (10 : ℝ) ^ (-E.tol) ≤ 1 / 1000 := by
    have : (10 : ℝ) ^ (-E.tol) ≤ (10 : ℝ) ^ (-10 : ℤ) := zpow_le_zpow_right₀ (by norm_num) (by omega)
    norm_num at this ⊢; linarith
  have stir : Fn.gammaStir (realArith E) T X = some E.inf := by
    unfold Fn.gammaStir
    rw [show Fn.bernoulli (realArith E) T 2 = some b2 from hb2]
    ra_simp
    simp only [Option.bind_eq_bind, Option.bind_some]
    rw [show b2 / ((2 : ℤ) : ℝ) * (1 / X) = b2 / 2 * (1 / X) by norm_num, t4]
    simp only [Option.bind_some]
    have arg : (2 : ℝ) ^ 62 < Fn.stirArg (realArith E) X S := by
      unfold Fn.stirArg Fn.halfLnTwoPi Fn.twoPi
      ra_simp
      rw [show Real.pi * ((2 : ℤ) : ℝ) = 2 * Real.pi by push_cast; ring]
      have a := abs_le.1 lx
      have b := abs_le.1 lp
      have c : 1 ≤ Real.log X := by
        rw [Real.le_log_iff_exp_le Xp]; have := Real.exp_one_lt_d9; linarith
      have d : 1 ≤ Real.log (2 * Real.pi) := by
        rw [Real.le_log_iff_exp_le (by positivity)]; have := Real.exp_one_lt_d9; linarith
      have e : 0 ≤ (X - 1 / 2) * Fn.log (realArith E) X := mul_nonneg (by linarith) (by linarith)
      generalize (X - 1 / 2) * Fn.log (realArith E) X = q at *
      push_cast
      norm_num at big ⊢
      linarith
    generalize Fn.stirArg (realArith E) X S = w at *
    have w1 : (1 : ℝ) < w := lt_trans (by norm_num) arg
    unfold Fn.exp
    ra_simp
    have wo : ¬ (ordR w < -E.tol) := by
      rw [ordR_lt (by linarith), abs_of_pos (by linarith)]
      have : (10 : ℝ) ^ (-E.tol) ≤ (10 : ℝ) ^ (0 : ℤ) := zpow_le_zpow_right₀ (by norm_num) (by omega)
      rw [zpow_zero] at this
      linarith
    have w2 : ¬ w < 0 := by linarith
    have w3 : (E.maxExp : ℝ) < w := by
      refine lt_of_le_of_lt ?_ arg
      exact_mod_cast hm
    have w4 : w ≠ 0 := by linarith
    have z1 : (realArith E).iszero w = false := decide_eq_false w4
    have z2 : (realArith E).isneg w = false := decide_eq_false w2
    simp [z1, z2, wo, w3]
  have hnat : ∃ n : ℕ, Fn.nRecur (realArith E) T x = n ∧ X = x + n := by
    rw [hX]
    unfold Fn.nRecur raised
    ra_simp
    rw [hmin', truncR_nonneg hx.le]
    have h : x < ((240 : ℤ) : ℝ) := by exact_mod_cast hx'
    rw [if_pos h, if_pos h]
    refine ⟨((240 : ℤ) - ⌊x⌋ + 1).toNat, by omega, ?_⟩
    have : ((((240 : ℤ) - ⌊x⌋ + 1).toNat : ℕ) : ℤ) = (240 : ℤ) - ⌊x⌋ + 1 := by omega
    have h2 : ((((240 : ℤ) - ⌊x⌋ + 1).toNat : ℕ) : ℝ) = ((((240 : ℤ) - ⌊x⌋ + 1 : ℤ)) : ℝ) := by exact_mod_cast this
    rw [h2]; push_cast; ring
  obtain ⟨n, hn', hr⟩ := hnat
  obtain ⟨P, P0, hG, hdn⟩ := gamma_down E hx n
  refine ⟨P, P0, by rw [hr]; exact hG, ?_⟩
  have pos : Fn.gammaPos (realArith E) T x = some (x, E.inf / P) := by
    unfold Fn.gammaPos
    have hsm : ¬ordR |x| < -max (E.tol / 10) 6 := by
      rw [abs_of_pos hx, ordR_lt hx.ne', abs_of_pos hx]; exact not_lt.2 hs
    ra_simp
    rw [if_neg hsm, hn']
    push_cast
    rw [← hr, stir, hr]
    simp only [Option.bind_eq_bind, Option.bind_some, Int.toNat_natCast, hdn]
  unfold Fn.gamma
  simp only [Bool.not_eq_true', Bool.and_eq_true, Bool.or_eq_true, decide_eq_true_eq]
  ra_simp
  have c1 : ¬((truncR x : ℝ) = x ∧ (x < 0 ∨ x = 0)) := fun h => hn _ h.1.symm
  have c2 : ¬((truncR x : ℝ) = x ∧ (truncR x).toNat < T.a142.length) := fun h => hn _ h.1.symm
  have h' : ¬x < 0 := not_lt.2 hx.le
  rw [if_neg (by simp), if_neg c1, if_neg c2, if_pos h', pos]
  simp only [Option.bind_eq_bind, Option.bind_some]
  rw [if_pos h']

/-- A case: `gamma(1/2)` at 1000 digits with exact Bernoulli numbers. -/
example (E : RealEnv) (h : E.tol = 1101) (hm : E.maxExp = 4944763836) (T : Tab ℝ) (hT : TabBern T 5000 0) (hmin : T.minArg = 240)
    (l1 : LogStart E 14 (newtonArg (raised 240 (1 / 2)))) (l2 : LogStart E 14 (2 * Real.pi)) :
    ∃ P, 0 < P ∧ Fn.gamma (realArith E) T (1 / 2) = some (E.inf / P) := by
  obtain ⟨P, a, -, b⟩ := C107_digits_refuted (E := E) (d := 1000) (by norm_num) (by rw [h]; rfl) (by omega) (by rw [hm]; norm_num) (by rw [hm]; norm_num)
    (T := T) (by rw [hmin]; exact minarg_high (by norm_num)) (fun k h1 h2 => by
      obtain ⟨b, -, hb, he⟩ := bernoulli_tab (E := E) hT h1 (by omega)
      refine ⟨b, hb, he.trans ?_⟩
      rw [zero_mul]; positivity) (x := 1 / 2) (by norm_num) (by norm_num)
    (fun n hn => by
      have : (1 : ℝ) = ((2 * n : ℤ) : ℝ) := by push_cast; linarith
      have : (1 : ℤ) = 2 * n := by exact_mod_cast this
      omega)
    (le_trans (zpow_le_zpow_right₀ (by norm_num) (show -max (E.tol / 10) 6 ≤ (-1 : ℤ) by omega)) (by norm_num)) l1 l2
  exact ⟨P, a, b⟩

end EFX.Props
