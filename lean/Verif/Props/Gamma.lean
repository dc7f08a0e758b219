import Mathlib.Analysis.SpecialFunctions.Gamma.Beta
import Verif.Lemmas.GammaReal
import Verif.Props.Pow
/-! C77: the gamma function. -/

namespace EFX.Props
open EFX EFX.Stir

/-- The argument of the Stirling expansion: the argument, raised above the least argument by a whole number. -/
noncomputable def raised (m : ℤ) (x : ℝ) : ℝ := if x < m then x + (m - ⌊x⌋ + 1) else x

theorem raised_ge {m : ℤ} {x : ℝ} : (m : ℝ) ≤ raised m x := by
  unfold raised
  split
  · have := Int.floor_le x; linarith
  · linarith

theorem gamma_down (E : RealEnv) {x : ℝ} (hx : 0 < x) (n : ℕ) :
    ∃ P : ℝ, 0 < P ∧ Real.Gamma (x + n) = P * Real.Gamma x ∧
      ∀ g, Fn.gammaDown (realArith E) n (x + n) g = (x, g / P) := by
  induction n with
  | zero => exact ⟨1, one_pos, by simp, fun g => by simp [Fn.gammaDown]⟩
  | succ n ih =>
    obtain ⟨P, hP, hG, hd⟩ := ih
    have hxn : 0 < x + n := by positivity
    refine ⟨(x + n) * P, by positivity, ?_, fun g => ?_⟩
    · rw [show x + ((n + 1 : ℕ) : ℝ) = x + n + 1 by push_cast; ring, Real.Gamma_add_one hxn.ne', hG]; ring
    · rw [Fn.gammaDown]
      ra_simp
      rw [show x + ((n + 1 : ℕ) : ℝ) - ((1 : ℤ) : ℝ) = x + n by push_cast; ring, hd, div_div]

/-- The smallest term of the expansion at the least argument is below the tolerance. -/
def Range (m tol : ℕ) : Prop :=
  800 * (6 * m - 2).factorial * 10 ^ tol * 1000 ^ (6 * m) ≤ 6283 ^ (6 * m) * m ^ (6 * m - 2)

theorem range_ub {m tol : ℕ} (hm : 10 ≤ m) (h : Range m tol) {x : ℝ} (hx : m ≤ x) :
    ub (3 * m) x * (10 : ℝ) ^ (tol : ℤ) * x ≤ 1 / 200 := by
  have m0 : (0 : ℝ) < m := by exact_mod_cast (by omega)
  have hp : 0 < x := lt_of_lt_of_le m0 hx
  have h' : (800 : ℝ) * ((6 * m - 2).factorial : ℝ) * 10 ^ tol * 1000 ^ (6 * m) ≤ 6283 ^ (6 * m) * (m : ℝ) ^ (6 * m - 2) := by
    unfold Range at h; exact_mod_cast h
  have pi1 : (6283 / 1000 : ℝ) ≤ 2 * Real.pi := by have := Real.pi_gt_d4; linarith
  have h1 : (6283 / 1000 : ℝ) ^ (6 * m) ≤ (2 * Real.pi) ^ (6 * m) := pow_le_pow_left₀ (by norm_num) pi1 _
  have h2 : (m : ℝ) ^ (6 * m - 2) ≤ x ^ (6 * m - 2) := pow_le_pow_left₀ m0.le hx _
  have h3 : (800 : ℝ) * ((6 * m - 2).factorial : ℝ) * 10 ^ tol ≤ (2 * Real.pi) ^ (6 * m) * x ^ (6 * m - 2) := by
    refine le_trans ?_ (mul_le_mul h1 h2 (by positivity) (by positivity))
    rw [div_pow, div_mul_eq_mul_div, le_div_iff₀ (by positivity)]
    exact h'
  unfold ub
  rw [zpow_natCast, show 2 * (3 * m) = 6 * m by ring, show 6 * m - 1 = (6 * m - 2) + 1 by omega, pow_succ]
  rw [div_mul_eq_mul_div, div_mul_eq_mul_div, div_le_iff₀ (by positivity)]
  nlinarith

theorem exp_near {y L η : ℝ} (h : |y - L| ≤ η) (h1 : η ≤ 1) : |Real.exp y - Real.exp L| ≤ 2 * η * Real.exp L := by
  have e : Real.exp y - Real.exp L = (Real.exp (y - L) - 1) * Real.exp L := by
    rw [sub_mul, ← Real.exp_add]; ring_nf
  rw [e, abs_mul, abs_of_pos (Real.exp_pos L)]
  apply mul_le_mul_of_nonneg_right _ (Real.exp_pos L).le
  have := Real.abs_exp_sub_one_le (h.trans h1)
  linarith

/-- The error of the exponent of the expansion. -/
noncomputable def stirErr (E : RealEnv) (ε x : ℝ) : ℝ := 6001 * (10 : ℝ) ^ (-E.tol) * x + (2 * ε + 4 * (10 : ℝ) ^ (-E.tol)) / x

theorem stir_near {E : RealEnv} (t0 : 10 ≤ E.tol) (ht : E.tol ≤ 29990) (hm : E.maxExp ≤ 2 ^ 62) (hm' : 10000 ≤ E.maxExp)
    {T : Tab ℝ} {ε : ℝ} {M m : ℕ} (hT : TabBern T M ε) (e0 : 0 ≤ ε) (e1 : ε ≤ 1 / 100) (m0 : 10 ≤ m) (mM : 3 * m < M) (m5 : 3 * m ≤ 4998)
    (hR : Range m E.tol.toNat) {x : ℝ} (hx : m ≤ x)
    (l1 : LogStart E 14 (newtonArg x)) (l2 : LogStart E 14 (2 * Real.pi)) (hη : stirErr E ε x ≤ 1) (hL : Real.log (Real.Gamma x) + 1 ≤ E.maxExp) :
    ∃ y, |y - Real.log (Real.Gamma x)| ≤ stirErr E ε x ∧ Fn.gammaStir (realArith E) T x = some (Fn.exp (realArith E) y) ∧
      ((∀ n : ℤ, y ≠ n * Real.log 2) → |Real.Gamma x - Fn.exp (realArith E) y| ≤ (2 * stirErr E ε x + 14100 * (10 : ℝ) ^ (-E.tol)) * Real.Gamma x) := by
  have tp : (0 : ℝ) < (10 : ℝ) ^ (-E.tol) := by positivity
  have m0' : (10 : ℝ) ≤ m := by exact_mod_cast m0
  have x10 : 10 ≤ x := m0'.trans hx
  have xp : 0 < x := by linarith
  have hub := range_ub m0 hR hx
  rw [show ((E.tol.toNat : ℕ) : ℤ) = E.tol by omega] at hub
  obtain ⟨s, hs, hse⟩ := gammaStir_real hT x10 e0 e1 (K := 3 * m) (by omega) mM m5 (by push_cast; linarith) hub
  have lx := C66_log14_partial t0 ht hm hm' xp (Or.inr (by
    have : (10 : ℝ) ^ (-max (E.tol / 10) 6) ≤ (10 : ℝ) ^ (0 : ℤ) := zpow_le_zpow_right₀ (by norm_num) (by omega)
    rw [zpow_zero] at this
    rw [abs_of_neg (by linarith)]; linarith)) l1
  have pi3 := Real.pi_gt_three
  have pi4 := Real.pi_lt_four
  have o2 : ordR (2 * Real.pi) = 0 := ordR_eq (by linarith) (by norm_num; linarith) (by
    have := Real.pi_lt_d2; norm_num; linarith)
  have l2' : LogStart E 14 (newtonArg (2 * Real.pi)) := by
    unfold newtonArg; rw [o2, if_neg (by norm_num), if_neg (by norm_num)]; exact l2
  have lp := C66_log14_partial t0 ht hm hm' (show 0 < 2 * Real.pi by linarith) (Or.inr (by
    have : (10 : ℝ) ^ (-max (E.tol / 10) 6) ≤ (10 : ℝ) ^ (0 : ℤ) := zpow_le_zpow_right₀ (by norm_num) (by omega)
    rw [zpow_zero] at this
    rw [abs_of_neg (by linarith)]; linarith)) l2'
  refine ⟨Fn.stirArg (realArith E) x s, ?_, hs, ?_⟩
  all_goals
    have hy : |Fn.stirArg (realArith E) x s - Real.log (Real.Gamma x)| ≤ stirErr E ε x := by
      unfold Fn.stirArg Fn.halfLnTwoPi Fn.twoPi stirErr
      ra_simp
      rw [show Real.pi * ((2 : ℤ) : ℝ) = 2 * Real.pi by push_cast; ring]
      unfold f0 at hse
      generalize Fn.log (realArith E) x = a at *
      generalize Fn.log (realArith E) (2 * Real.pi) = b at *
      generalize (10 : ℝ) ^ (-E.tol) = δ at *
      generalize Real.log (2 * Real.pi) = B at *
      generalize Real.log x = A' at *
      generalize hLg : Real.log (Real.Gamma x) = L at *
      generalize hq : (2 * ε + 4 * δ) / x = q at *
      have e : (x - 1 / 2) * a - x + b / ((2 : ℤ) : ℝ) + s - L =
          -((x - 1 / 2) * (A' - a)) - (B - b) / 2 + (s - (L - ((x - 1 / 2) * A' - x + B / 2))) := by push_cast; ring
      rw [e]
      have a1 : |(x - 1 / 2) * (A' - a)| ≤ (x - 1 / 2) * (6001 * δ) := by
        rw [abs_mul, abs_of_pos (show 0 < x - 1 / 2 by linarith)]
        exact mul_le_mul_of_nonneg_left lx (by linarith)
      have a1' := abs_le.1 a1
      have a2 := abs_le.1 lp
      have a3 := abs_le.1 hse
      rw [show (x - 1 / 2) * (6001 * δ) = 6001 * δ * x - 6001 * δ / 2 by ring] at a1'
      exact abs_le.2 ⟨by linarith, by linarith⟩
  · exact hy
  · intro hn
    have Gp := Real.Gamma_pos_of_pos xp
    have L0 : 0 ≤ Real.log (Real.Gamma x) := by
      apply Real.log_nonneg
      have := Real.Gamma_strictMonoOn_Ici.monotoneOn (show (2 : ℝ) ∈ Set.Ici 2 by simp) (show x ∈ Set.Ici 2 by simp; linarith) (by linarith)
      rwa [Real.Gamma_two] at this
    have he := exp_near hy hη
    rw [Real.exp_log Gp] at he
    have hy' := abs_le.1 (hy.trans hη)
    have hex := C65_exp_partial t0 ht hm (x := Fn.stirArg (realArith E) x s) (abs_le.2 ⟨by linarith, by linarith⟩) (fun n _ => hn n)
    generalize Fn.exp (realArith E) (Fn.stirArg (realArith E) x s) = v at *
    generalize Real.exp (Fn.stirArg (realArith E) x s) = w at *
    generalize Real.Gamma x = G at *
    generalize (10 : ℝ) ^ (-E.tol) = δ at *
    have w3 : w ≤ 3 * G := by
      have := (abs_le.1 he).2
      nlinarith
    have a1 := abs_sub_le G w v
    rw [abs_sub_comm G w] at a1
    nlinarith

/-- Positive arguments: the value belongs to an exponent near the logarithm of the gamma function of the raised argument. -/
theorem gammaPos_near {E : RealEnv} (t0 : 10 ≤ E.tol) (ht : E.tol ≤ 29990) (hm : E.maxExp ≤ 2 ^ 62) (hm' : 10000 ≤ E.maxExp)
    {T : Tab ℝ} {ε : ℝ} {M m : ℕ} (hT : TabBern T M ε) (e0 : 0 ≤ ε) (e1 : ε ≤ 1 / 100) (m0 : 10 ≤ m) (mM : 3 * m < M) (m5 : 3 * m ≤ 4998)
    (hmin : T.minArg = m) (hR : Range m E.tol.toNat) {x : ℝ} (hx : 0 < x) (hs : (10 : ℝ) ^ (-max (E.tol / 10) 6) ≤ x)
    (l1 : LogStart E 14 (newtonArg (raised m x))) (l2 : LogStart E 14 (2 * Real.pi)) (hη : stirErr E ε (raised m x) ≤ 1)
    (hL : Real.log (Real.Gamma (raised m x)) + 1 ≤ E.maxExp) :
    ∃ y g, |y - Real.log (Real.Gamma (raised m x))| ≤ stirErr E ε (raised m x) ∧ Fn.gammaPos (realArith E) T x = some (x, g) ∧
      ((∀ n : ℤ, y ≠ n * Real.log 2) →
        |Real.Gamma x - g| ≤ (2 * stirErr E ε (raised m x) + 14100 * (10 : ℝ) ^ (-E.tol)) * Real.Gamma x) := by
  have key := raised_ge (m := (m : ℤ)) (x := x)
  obtain ⟨y, hy, hsy, hacc⟩ := stir_near t0 ht hm hm' hT e0 e1 m0 mM m5 hR (by exact_mod_cast key) l1 l2 hη hL
  have hnat : ∃ n : ℕ, Fn.nRecur (realArith E) T x = n ∧ raised m x = x + n := by
    unfold Fn.nRecur raised
    ra_simp
    rw [hmin, truncR_nonneg hx.le]
    by_cases h : x < ((m : ℤ) : ℝ)
    · rw [if_pos h, if_pos h]
      have hf : ⌊x⌋ < m := by rw [Int.floor_lt]; exact h
      refine ⟨((m : ℤ) - ⌊x⌋ + 1).toNat, by omega, ?_⟩
      have : ((((m : ℤ) - ⌊x⌋ + 1).toNat : ℕ) : ℤ) = (m : ℤ) - ⌊x⌋ + 1 := by omega
      have h2 : ((((m : ℤ) - ⌊x⌋ + 1).toNat : ℕ) : ℝ) = ((((m : ℤ) - ⌊x⌋ + 1 : ℤ)) : ℝ) := by exact_mod_cast this
      rw [h2]; push_cast; ring
    · rw [if_neg h, if_neg h]; exact ⟨0, by simp, by simp⟩
  obtain ⟨n, hn, hr⟩ := hnat
  obtain ⟨P, P0, hG, hd⟩ := gamma_down E hx n
  refine ⟨y, Fn.exp (realArith E) y / P, hy, ?_, ?_⟩
  · unfold Fn.gammaPos
    have hsm : ¬ordR |x| < -max (E.tol / 10) 6 := by
      rw [abs_of_pos hx, ordR_lt hx.ne', abs_of_pos hx]; exact not_lt.2 hs
    ra_simp
    rw [if_neg hsm, hn]
    push_cast
    rw [← hr, hsy, hr]
    simp only [Option.bind_eq_bind, Option.bind_some, Int.toNat_natCast, hd]
  · intro hne
    have := hacc hne
    rw [hr] at this ⊢
    rw [hG] at this
    generalize Fn.exp (realArith E) y = v at *
    have e : Real.Gamma x - v / P = (P * Real.Gamma x - v) / P := by field_simp
    rw [e, abs_div, abs_of_pos P0, div_le_iff₀ P0]
    linarith

theorem inv_near {U u τ : ℝ} (h : |U - u| ≤ τ * |U|) (h1 : τ ≤ 1 / 2) (hU : U ≠ 0) : |1 / U - 1 / u| ≤ 2 * τ * |1 / U| := by
  have U0 := abs_pos.2 hU
  have h2 : |U| / 2 ≤ |u| := by
    have := abs_sub_abs_le_abs_sub U u
    nlinarith
  have hu : u ≠ 0 := abs_pos.1 (by linarith)
  have u0 := abs_pos.2 hu
  rw [div_sub_div _ _ hU hu, abs_div, abs_mul, one_mul, mul_one, abs_sub_comm, abs_div, abs_one]
  rw [div_le_iff₀ (by positivity), show 2 * τ * (1 / |U|) * (|U| * |u|) = 2 * τ * |u| by field_simp]
  have t0 : 0 ≤ τ := by
    by_contra hc
    have := abs_nonneg (U - u)
    nlinarith
  nlinarith

/-- C77: the poles give NaN. -/
theorem C77_gamma_poles (E : RealEnv) (T : Tab ℝ) (n : ℕ) : Fn.gamma (realArith E) T (-(n : ℝ)) = some E.nan := by
  unfold Fn.gamma
  have hi : (truncR (-(n : ℝ)) : ℝ) = -(n : ℝ) := by
    have := truncR_int (-(n : ℤ))
    push_cast at this
    rw [this]; push_cast; ring
  simp only [Bool.not_eq_true', Bool.and_eq_true, Bool.or_eq_true]
  ra_simp
  have h0 : -(n : ℝ) < 0 ∨ -(n : ℝ) = 0 := by
    rcases Nat.eq_zero_or_pos n with h | h
    · right; simp [h]
    · left; have : (0 : ℝ) < n := by exact_mod_cast h
      linarith
  rw [if_neg (by simp), if_pos ⟨hi, h0⟩]

/-- C77: the positive integers within the table of the factorials. -/
theorem C77_gamma_table (E : RealEnv) (T : Tab ℝ) (n : ℕ) (h1 : n + 1 < T.a142.length) (h2 : n < 4294967296) :
    Fn.gamma (realArith E) T ((n + 1 : ℕ) : ℝ) = T.a142[n]? := by
  unfold Fn.gamma
  have hi : truncR ((n + 1 : ℕ) : ℝ) = (n : ℤ) + 1 := by
    have := truncR_int ((n + 1 : ℕ) : ℤ)
    push_cast at this ⊢
    exact this
  have hp : (0 : ℝ) < ((n + 1 : ℕ) : ℝ) := by positivity
  simp only [Bool.not_eq_true', Bool.and_eq_true, Bool.or_eq_true, decide_eq_true_eq]
  ra_simp
  rw [if_neg (by simp), hi, if_neg (by rintro ⟨-, h | h⟩ <;> linarith), if_pos ⟨by push_cast; ring, by omega⟩]
  rw [show (((n : ℤ) + 1 - 1) % 4294967296).toNat = n by omega]
  unfold Fn.factorial
  rw [if_pos (by omega)]

/-- C77 in exact arithmetic: for the other arguments (beyond the small-argument series) the value belongs to an exponent `y` near the
logarithm of the gamma function of the raised argument, and has a small relative error unless `y` is a multiple of `ln 2`
(`C65_ln2_refuted`).  The error grows with the raised argument, as the exponent does.  The starting values of the Newton
iteration of the logarithm and the rounding are left out. -/
theorem C77_gamma_partial {E : RealEnv} (t0 : 10 ≤ E.tol) (ht : E.tol ≤ 29990) (hm : E.maxExp ≤ 2 ^ 62) (hm' : 10000 ≤ E.maxExp)
    {T : Tab ℝ} {ε : ℝ} {M m : ℕ} (hT : TabBern T M ε) (e0 : 0 ≤ ε) (e1 : ε ≤ 1 / 100) (m0 : 10 ≤ m) (mM : 3 * m < M) (m5 : 3 * m ≤ 4998)
    (hmin : T.minArg = m) (hR : Range m E.tol.toNat) {x : ℝ} (hx : (∀ n : ℤ, x ≠ n) ∨ (T.a142.length : ℝ) ≤ x)
    (h142 : 0 < T.a142.length) (hs : (10 : ℝ) ^ (-max (E.tol / 10) 6) ≤ |x|)
    (l1 : LogStart E 14 (newtonArg (raised m |x|))) (l2 : LogStart E 14 (2 * Real.pi)) (hη : stirErr E ε (raised m |x|) ≤ 1 / 10)
    (hL : Real.log (Real.Gamma (raised m |x|)) + 1 ≤ E.maxExp) :
    ∃ y g, |y - Real.log (Real.Gamma (raised m |x|))| ≤ stirErr E ε (raised m |x|) ∧ Fn.gamma (realArith E) T x = some g ∧
      ((∀ n : ℤ, y ≠ n * Real.log 2) →
        |Real.Gamma x - g| ≤ (4 * stirErr E ε (raised m |x|) + 30000 * (10 : ℝ) ^ (-E.tol)) * |Real.Gamma x|) := by
  have l0 : (0 : ℝ) < T.a142.length := by exact_mod_cast h142
  have x0 : x ≠ 0 := by
    rintro rfl
    rcases hx with hx | hx
    · exact hx 0 (by simp)
    · linarith
  have a0 : 0 < |x| := abs_pos.2 x0
  obtain ⟨y, g, hy, hg, hacc⟩ := gammaPos_near t0 ht hm hm' hT e0 e1 m0 mM m5 hmin hR a0 hs l1 l2 (by linarith) hL
  have tp : (0 : ℝ) < (10 : ℝ) ^ (-E.tol) := by positivity
  have tl : (10 : ℝ) ^ (-E.tol) ≤ 1 / 10000000000 := by
    have : (10 : ℝ) ^ (-E.tol) ≤ (10 : ℝ) ^ (-10 : ℤ) := zpow_le_zpow_right₀ (by norm_num) (by omega)
    refine le_trans this (by norm_num)
  have hmr : (m : ℝ) ≤ raised m |x| := by exact_mod_cast raised_ge (m := (m : ℤ)) (x := |x|)
  have s0 : 0 ≤ stirErr E ε (raised m |x|) := by
    have : (0 : ℝ) ≤ raised m |x| := le_trans (by positivity) hmr
    unfold stirErr; positivity
  have hfirst : ¬((truncR x : ℝ) = x ∧ (x < 0 ∨ x = 0)) := by
    rintro ⟨h1, h2⟩
    rcases hx with hx | hx
    · exact hx _ h1.symm
    · rcases h2 with h2 | h2 <;> linarith
  have hsec : ¬((truncR x : ℝ) = x ∧ (truncR x).toNat < T.a142.length) := by
    rintro ⟨h1, h2⟩
    rcases hx with hx | hx
    · exact hx _ h1.symm
    · rw [← h1] at hx
      have h3 : (T.a142.length : ℤ) ≤ truncR x := by exact_mod_cast hx
      omega
  have unf : Fn.gamma (realArith E) T x = if 0 < x then some g else some (Fn.gammaRefl (realArith E) |x| g) := by
    unfold Fn.gamma
    simp only [Bool.not_eq_true', Bool.and_eq_true, Bool.or_eq_true, decide_eq_true_eq]
    ra_simp
    rw [if_neg (by simp), if_neg hfirst, if_neg hsec]
    rcases lt_or_gt_of_ne x0 with h | h
    · have h' : ¬¬x < 0 := not_not.2 h
      rw [if_neg h', if_neg (not_lt.2 h.le), show -x = |x| from (abs_of_neg h).symm, hg]
      simp only [Option.bind_eq_bind, Option.bind_some]
      rw [if_neg h']
    · have h' : ¬x < 0 := not_lt.2 h.le
      rw [if_pos h', if_pos h]
      nth_rewrite 1 [show x = |x| from (abs_of_pos h).symm]
      rw [hg]
      simp only [Option.bind_eq_bind, Option.bind_some]
      rw [if_pos h']
  rcases lt_or_gt_of_ne x0 with h | h
  · rw [if_neg (not_lt.2 h.le)] at unf
    refine ⟨y, _, hy, unf, fun hn => ?_⟩
    have h1 := hacc hn
    have h2 := C64_sin_partial t0 (by omega) (Real.pi * |x|)
    have Gp := Real.Gamma_pos_of_pos a0
    have hG : Real.Gamma x = -Real.pi / |x| * (1 / (Real.Gamma |x| * Real.sin (Real.pi * |x|))) := by
      have r := Real.Gamma_mul_Gamma_one_sub x
      have e1 : Real.Gamma (1 - x) = |x| * Real.Gamma |x| := by
        rw [show 1 - x = |x| + 1 by rw [abs_of_neg h]; ring, Real.Gamma_add_one a0.ne']
      have e2 : Real.sin (Real.pi * x) = -Real.sin (Real.pi * |x|) := by
        rw [abs_of_neg h, ← Real.sin_neg]; congr 1; ring
      rw [e1, e2] at r
      have : Real.Gamma x = Real.pi / -Real.sin (Real.pi * |x|) / (|x| * Real.Gamma |x|) := by
        rw [← r]; field_simp
      rw [this, div_neg]
      simp only [div_eq_mul_inv, mul_inv, neg_mul, one_mul]
      ring
    have hg' : Fn.gammaRefl (realArith E) |x| g = -Real.pi / |x| * (1 / (g * Fn.sin (realArith E) (Real.pi * |x|))) := by
      unfold Fn.gammaRefl
      ra_simp
      simp only [div_eq_mul_inv, mul_inv, one_mul]
      ring
    rw [hG, hg']
    have hsn : Real.sin (Real.pi * |x|) ≠ 0 := by
      rw [Real.sin_ne_zero_iff]
      intro n hn
      rcases hx with hx | hx
      · have : (n : ℝ) = |x| := by
          have pp := Real.pi_pos
          have : Real.pi * (n : ℝ) = Real.pi * |x| := by linarith
          exact mul_left_cancel₀ pp.ne' this
        exact hx (-n) (by push_cast; rw [this, abs_of_neg h]; ring)
      · linarith
    generalize Real.Gamma |x| = G at *
    generalize Real.sin (Real.pi * |x|) = S at *
    generalize Fn.sin (realArith E) (Real.pi * |x|) = S' at *
    generalize (10 : ℝ) ^ (-E.tol) = δ at *
    generalize stirErr E ε (raised m |x|) = η at *
    have hU : |G * S - g * S'| ≤ (2 * η + 15000 * δ) * |G * S| := by
      have e : G * S - g * S' = (G - g) * S' + G * (S - S') := by ring
      have S1 : |S'| ≤ (1 + 4 * δ) * |S| := by
        have := abs_sub_abs_le_abs_sub S' S
        rw [abs_sub_comm] at this
        linarith
      have a1 : |(G - g) * S'| ≤ (2 * η + 14100 * δ) * G * ((1 + 4 * δ) * |S|) := by
        rw [abs_mul]; exact mul_le_mul h1 S1 (abs_nonneg _) (by positivity)
      have a2 : |G * (S - S')| ≤ G * (4 * δ * |S|) := by
        rw [abs_mul, abs_of_pos Gp]; exact mul_le_mul_of_nonneg_left h2 Gp.le
      rw [e, abs_mul, abs_of_pos Gp]
      have a3 := abs_add_le ((G - g) * S') (G * (S - S'))
      have GS : 0 ≤ G * |S| := by positivity
      have c : (2 * η + 14100 * δ) * (1 + 4 * δ) + 4 * δ ≤ 2 * η + 15000 * δ := by nlinarith
      calc |(G - g) * S' + G * (S - S')| ≤ ((2 * η + 14100 * δ) * (1 + 4 * δ) + 4 * δ) * (G * |S|) := by linarith
        _ ≤ _ := mul_le_mul_of_nonneg_right c GS
    have := inv_near hU (by linarith) (mul_ne_zero Gp.ne' hsn)
    rw [← mul_sub, abs_mul, abs_mul]
    calc |(-Real.pi / |x|)| * |1 / (G * S) - 1 / (g * S')| ≤ |(-Real.pi / |x|)| * (2 * (2 * η + 15000 * δ) * |1 / (G * S)|) :=
          mul_le_mul_of_nonneg_left this (abs_nonneg _)
      _ = _ := by ring
  · rw [if_pos h] at unf
    refine ⟨y, g, hy, unf, fun hn => ?_⟩
    have h1 := hacc hn
    rw [abs_of_pos h] at *
    have Gp := Real.Gamma_pos_of_pos h
    rw [abs_of_pos Gp]
    refine h1.trans (mul_le_mul_of_nonneg_right ?_ Gp.le)
    linarith

/-- The configurations with up to 50, 100, 200 and 595 digits have tables and least arguments in the range. -/
theorem range_configs : Range 40 55 ∧ Range 80 110 ∧ Range 120 220 ∧ Range 240 650 := by
  unfold Range; decide +kernel

theorem Range.mono {m t t' : ℕ} (h : Range m t') (ht : t ≤ t') : Range m t := by
  unfold Range at *
  refine le_trans ?_ h
  gcongr
  norm_num

/-- The hypotheses hold for `x = 1/2` at 50 digits with exact tables and estimates of the logarithm of 14 digits. -/
example (E : RealEnv) (h : E.tol = 55) (hm : E.maxExp = 4944763836) (T : Tab ℝ) (hT : TabBern T 1001 0) (hmin : T.minArg = 40) (hl : T.a142.length = 1001)
    (h0 : ∀ y, ∃ v, E.log0 y = some v ∧ |v - Real.log y| ≤ (10 : ℝ) ^ (-(14 : ℤ))) :
    ∃ y g, |y - Real.log (Real.Gamma (83 / 2))| ≤ (10 : ℝ) ^ (-49 : ℤ) ∧ Fn.gamma (realArith E) T (1 / 2) = some g ∧
      ((∀ n : ℤ, y ≠ n * Real.log 2) → |Real.sqrt Real.pi - g| ≤ (10 : ℝ) ^ (-48 : ℤ) * Real.sqrt Real.pi) := by
  have hr : raised (40 : ℕ) |(1 / 2 : ℝ)| = 83 / 2 := by
    have : ⌊(1 / 2 : ℝ)⌋ = 0 := by norm_num
    unfold raised
    rw [abs_of_pos (by norm_num), this, if_pos (by norm_num)]
    norm_num
  have l2 := Real.log_two_gt_d9
  have l2' := Real.log_two_lt_d9
  have la : (5 + 1 / 10) * Real.log 2 ≤ Real.log (83 / 2) ∧ Real.log (83 / 2) ≤ (6 - 1 / 10) * Real.log 2 := by
    constructor
    · have h4 : 51 * Real.log 2 ≤ 10 * Real.log (83 / 2) := by
        rw [show 51 * Real.log 2 = Real.log (2 ^ 51) by rw [Real.log_pow]; norm_num,
          show 10 * Real.log (83 / 2) = Real.log ((83 / 2) ^ 10) by rw [Real.log_pow]; norm_num]
        exact Real.log_le_log (by norm_num) (by norm_num)
      linarith
    · have h4 : 10 * Real.log (83 / 2) ≤ 59 * Real.log 2 := by
        rw [show 59 * Real.log 2 = Real.log (2 ^ 59) by rw [Real.log_pow]; norm_num,
          show 10 * Real.log (83 / 2) = Real.log ((83 / 2) ^ 10) by rw [Real.log_pow]; norm_num]
        exact Real.log_le_log (by norm_num) (by norm_num)
      linarith
  have lb : (2 + 1 / 10) * Real.log 2 ≤ Real.log (2 * Real.pi) ∧ Real.log (2 * Real.pi) ≤ (3 - 1 / 10) * Real.log 2 := by
    have p1 := Real.pi_gt_d2
    have p2 := Real.pi_lt_d2
    constructor
    · have h4 : 21 * Real.log 2 ≤ 10 * Real.log (2 * Real.pi) := by
        rw [show 21 * Real.log 2 = Real.log (2 ^ 21) by rw [Real.log_pow]; norm_num,
          show 10 * Real.log (2 * Real.pi) = Real.log ((2 * Real.pi) ^ 10) by rw [Real.log_pow]; norm_num]
        refine Real.log_le_log (by norm_num) (le_trans ?_ (pow_le_pow_left₀ (show (0 : ℝ) ≤ 6 by norm_num) (show 6 ≤ 2 * Real.pi by linarith) 10))
        norm_num
      linarith
    · have h4 : 10 * Real.log (2 * Real.pi) ≤ 29 * Real.log 2 := by
        rw [show 29 * Real.log 2 = Real.log (2 ^ 29) by rw [Real.log_pow]; norm_num,
          show 10 * Real.log (2 * Real.pi) = Real.log ((2 * Real.pi) ^ 10) by rw [Real.log_pow]; norm_num]
        refine Real.log_le_log (by positivity) (le_trans (pow_le_pow_left₀ (by positivity) (show 2 * Real.pi ≤ 63 / 10 by linarith) 10) ?_)
        norm_num
      linarith
  have ap : ∀ (a : ℝ) (k : ℤ), ((k : ℝ) + 1 / 10) * Real.log 2 ≤ a → a ≤ ((k : ℝ) + 1 - 1 / 10) * Real.log 2 →
      ∀ n : ℤ, n ≠ 0 → 1 / 50 < |a - n * Real.log 2| := by
    intro a k h1 h2 n _
    rw [lt_abs]
    rcases le_or_gt n k with hn | hn
    · left
      have : (n : ℝ) ≤ k := by exact_mod_cast hn
      nlinarith
    · right
      have : (k : ℝ) + 1 ≤ n := by exact_mod_cast hn
      nlinarith
  have o1 : ordR (83 / 2) = 1 := ordR_eq (by norm_num) (by norm_num) (by norm_num)
  have na : newtonArg (83 / 2) = 83 / 2 := by unfold newtonArg; rw [o1]; norm_num
  have hLG : Real.log (Real.Gamma (83 / 2)) + 1 ≤ 4944763836 := by
    have g1 : Real.Gamma (83 / 2) ≤ Real.Gamma (41 + 1) :=
      Real.Gamma_strictMonoOn_Ici.monotoneOn (show (83 / 2 : ℝ) ∈ Set.Ici 2 by simp; norm_num) (show (41 + 1 : ℝ) ∈ Set.Ici 2 by simp; norm_num) (by norm_num)
    have g2 : Real.Gamma (41 + 1) = (Nat.factorial 41 : ℝ) := by
      have := Real.Gamma_nat_eq_factorial 41
      exact_mod_cast this
    have g3 : (Nat.factorial 41 : ℝ) ≤ 2 ^ 200 := by exact_mod_cast (by decide +kernel : Nat.factorial 41 ≤ 2 ^ 200)
    have g4 := Real.log_le_log (Real.Gamma_pos_of_pos (by norm_num)) ((g1.trans_eq g2).trans g3)
    rw [Real.log_pow] at g4
    push_cast at g4
    linarith
  have e0 : stirErr E 0 (83 / 2) = (6001 * (83 / 2) + 4 / (83 / 2)) * (10 : ℝ) ^ (-55 : ℤ) := by
    unfold stirErr; rw [h]; ring
  have e1 : stirErr E 0 (83 / 2) ≤ (10 : ℝ) ^ (-49 : ℤ) := by
    rw [e0]; norm_num
  obtain ⟨y, g, hy, hg, ha⟩ := C77_gamma_partial (E := E) (T := T) (ε := 0) (M := 1001) (m := 40) (x := 1 / 2) (by omega) (by omega)
    (by rw [hm]; norm_num) (by rw [hm]; norm_num) hT le_rfl (by norm_num) (by norm_num) (by norm_num) (by norm_num) (by rw [hmin]; rfl)
    (by rw [h]; exact range_configs.1)
    (Or.inl (by
      intro n hn
      have h1 : ((2 * n : ℤ) : ℝ) = ((1 : ℤ) : ℝ) := by push_cast; linarith
      have h2 : 2 * n = 1 := by exact_mod_cast h1
      omega)) (by omega)
    (by rw [h]; norm_num [abs_of_pos])
    (by rw [hr, na]; exact ⟨h0 _, ap _ 5 (by exact_mod_cast la.1) (by push_cast; linarith [la.2])⟩)
    ⟨h0 _, ap _ 2 (by exact_mod_cast lb.1) (by push_cast; linarith [lb.2])⟩
    (by rw [hr]; refine e1.trans (by norm_num)) (by rw [hr, hm]; exact_mod_cast hLG)
  rw [hr] at hy ha
  refine ⟨y, g, hy.trans e1, hg, fun hn => ?_⟩
  have := ha hn
  rw [Real.Gamma_one_half_eq, abs_of_pos (show 0 < Real.sqrt Real.pi by positivity)] at this
  refine this.trans (mul_le_mul_of_nonneg_right ?_ (by positivity))
  rw [e0, h]; norm_num

end EFX.Props
