import Verif.Model.ComplexFn
import Verif.Lemmas.StirlingC
import Verif.Lemmas.GammaReal
import Verif.Props.Complex
/-! The complex operations in exact arithmetic and the series of the complex gamma function. -/

namespace EFX.FnC
open EFX EFX.Props
variable (E : RealEnv)

theorem tc_ofR (x : ℝ) : toC (ofR (realArith E) x) = x := by
  apply Complex.ext <;> simp [toC, ofR, ra_zero]
theorem tc_neg (z : Cx ℝ) : toC (neg (realArith E) z) = -toC z := by
  apply Complex.ext <;> simp [toC, neg, ra_neg]
theorem tc_add (u v : Cx ℝ) : toC (add (realArith E) u v) = toC u + toC v := by
  apply Complex.ext <;> simp [toC, add, ra_add]
theorem tc_sub (u v : Cx ℝ) : toC (sub (realArith E) u v) = toC u - toC v := by
  apply Complex.ext <;> simp [toC, sub, ra_sub]
theorem tc_mul (u v : Cx ℝ) : toC (mul (realArith E) u v) = toC u * toC v := by
  apply Complex.ext <;> simp [toC, mul, ra_sub, ra_mul, ra_add]
theorem tc_mulSelf (u : Cx ℝ) : toC (mulSelf (realArith E) u) = toC u * toC u := by
  apply Complex.ext <;> simp [toC, mulSelf, ra_sub, ra_mul, ra_mulI]
  ring
theorem tc_norm (z : Cx ℝ) : norm (realArith E) z = ‖toC z‖ ^ 2 := by
  rw [← norm_eq]; simp [norm, Cx.norm, ra_add, ra_mul]
theorem tc_abs (z : Cx ℝ) : abs (realArith E) z = ‖toC z‖ := by
  unfold abs; rw [tc_norm, ra_sqrt, Real.sqrt_sq (norm_nonneg _)]
theorem tc_div (u v : Cx ℝ) (h : toC v ≠ 0) : toC (div (realArith E) u v) = toC u / toC v := by
  rw [← toC_divE u v h]
  apply Complex.ext <;> simp [toC, div, Cx.divE, norm, Cx.norm, ra_sub, ra_mul, ra_add, ra_inv]
theorem tc_addR (u : Cx ℝ) (x : ℝ) : toC (addR (realArith E) u x) = toC u + x := by
  apply Complex.ext <;> simp [toC, addR, ra_add]
theorem tc_subR (u : Cx ℝ) (x : ℝ) : toC (subR (realArith E) u x) = toC u - x := by
  apply Complex.ext <;> simp [toC, subR, ra_sub]
theorem tc_mulR (u : Cx ℝ) (x : ℝ) : toC (mulR (realArith E) u x) = toC u * x := by
  apply Complex.ext <;> simp [toC, mulR, ra_mul]
theorem tc_divR (u : Cx ℝ) (x : ℝ) : toC (divR (realArith E) u x) = toC u / x := by
  apply Complex.ext <;> simp [toC, divR, ra_div]
theorem tc_rSub (u : Cx ℝ) (x : ℝ) : toC (rSub (realArith E) x u) = x - toC u := by
  apply Complex.ext <;> simp [toC, rSub, ra_sub, ra_neg]
theorem tc_rMul (u : Cx ℝ) (x : ℝ) : toC (rMul (realArith E) x u) = x * toC u := by
  apply Complex.ext <;> simp [toC, rMul, ra_mul, mul_comm]
theorem tc_rDiv (u : Cx ℝ) (x : ℝ) (h : toC u ≠ 0) : toC (rDiv (realArith E) x u) = x / toC u := by
  have := (C42_complex u u x).2.2.2.2.2.1 h
  rw [← this.2.2.2.1]
  apply Complex.ext <;> simp [toC, rDiv, Cx.rDivE, norm, Cx.norm, ra_mul, ra_add, ra_div, ra_neg]

end EFX.FnC

namespace EFX.Stir
open EFX EFX.Props

theorem norm_termC {k : ℕ} (hk : 1 ≤ k) {z : ℂ} (hz : z ≠ 0) : ‖termC k z‖ = |term k ‖z‖| := by
  have k1 : (1 : ℝ) ≤ k := by exact_mod_cast hk
  rw [term_abs hk (norm_pos_iff.2 hz)]
  unfold termC
  rw [norm_mul, norm_div, norm_div, norm_one, norm_pow]
  congr 2
  · rw [show ((_root_.bernoulli (2 * k) : ℚ) : ℂ) = (((_root_.bernoulli (2 * k) : ℚ) : ℝ) : ℂ) by push_cast; rfl, Complex.norm_real, Real.norm_eq_abs]
  · rw [show (2 * (k : ℂ) * (2 * k - 1)) = (((2 * k * (2 * k - 1) : ℝ)) : ℂ) by push_cast; ring, Complex.norm_real, Real.norm_of_nonneg (by nlinarith)]

/-- The absolute terms after the first. -/
theorem tail_le {x : ℝ} (hx : 10 ≤ x) {n : ℕ} (h : (2 * n : ℝ) ≤ 6 * x) (h1 : 1 ≤ n) :
    ∑ k ∈ Finset.range n, |term (k + 1) x| ≤ 1 / (12 * x) + 1 / (1000 * x) := by
  have hp : 0 < x := by linarith
  have key : ∀ n : ℕ, 1 ≤ n → (2 * n : ℝ) ≤ 6 * x → ∑ k ∈ Finset.range n, |term (k + 1) x| + 25 / 2 * ub (n + 1) x ≤ 1 / (12 * x) + 25 / 2 * ub 2 x := by
    intro n hn
    induction n, hn using Nat.le_induction with
    | base =>
      intro _
      rw [Finset.sum_range_one, term_one, abs_of_pos (by positivity)]
    | succ n hn ih =>
      intro h
      push_cast at h
      have := ih (by linarith)
      have h2 := ub_succ (k := n + 1) (by omega) hp (by push_cast; linarith)
      have h3 := (term_le_ub (k := n + 1) (by omega) hp).1
      rw [Finset.sum_range_succ]
      linarith
  have k1 := key n h1 h
  have k2 : 0 ≤ ub (n + 1) x := by unfold ub; have := Real.pi_pos; positivity
  have u2 : 25 / 2 * ub 2 x ≤ 1 / (1000 * x) := by
    have hpi := Real.pi_pos
    have p3 := Real.pi_gt_d2
    unfold ub
    norm_num [Nat.factorial]
    rw [show x⁻¹ * (1 / 1000) = 1 / (1000 * x) by ring, mul_div_assoc']
    rw [div_le_div_iff₀ (by positivity) (by positivity)]
    have h2 : (3.14 : ℝ) ^ 4 ≤ Real.pi ^ 4 := pow_le_pow_left₀ (by norm_num) p3.le 4
    have h3 : (6.28 : ℝ) ^ 4 ≤ (2 * Real.pi) ^ 4 := by rw [mul_pow]; nlinarith
    have h4 : (100 : ℝ) * x ≤ x ^ 3 := by nlinarith [mul_pos hp hp]
    have h5 : (6.28 : ℝ) ^ 4 * (100 * x) ≤ (2 * Real.pi) ^ 4 * x ^ 3 := mul_le_mul h3 h4 (by positivity) (by positivity)
    nlinarith
  linarith

/-- The partial sum of the loop is near the exact one. -/
def NearC (ε : ℝ) (z : ℂ) (n : ℕ) (s : ℂ) : Prop :=
  ‖s - ∑ j ∈ Finset.range n, termC (j + 1) z‖ ≤ ε * ∑ j ∈ Finset.range n, |term (j + 1) ‖z‖|

theorem NearC.bounds {ε : ℝ} {z s : ℂ} {n : ℕ} (h : NearC ε z n s) (hx : 10 ≤ ‖z‖) (e1 : ε ≤ 1 / 100) (h1 : 1 ≤ n) (hn : (2 * n : ℝ) ≤ 6 * ‖z‖) :
    8 / 100 / ‖z‖ ≤ ‖s‖ ∧ ‖s‖ ≤ 1 / 10 / ‖z‖ := by
  have hp : 0 < ‖z‖ := by linarith
  have z0 : z ≠ 0 := norm_pos_iff.1 hp
  have b2 := tail_le hx hn h1
  have b0 : 0 ≤ ∑ k ∈ Finset.range n, |term (k + 1) ‖z‖| := Finset.sum_nonneg fun k _ => abs_nonneg _
  have h' := h.trans (mul_le_mul_of_nonneg_right e1 b0)
  have b3 : ‖∑ k ∈ Finset.range n, termC (k + 1) z‖ ≤ ∑ k ∈ Finset.range n, |term (k + 1) ‖z‖| := by
    refine (norm_sum_le _ _).trans (le_of_eq (Finset.sum_congr rfl fun k _ => ?_))
    exact norm_termC (by omega) z0
  have b4 : 2 * (1 / (12 * ‖z‖)) - ∑ k ∈ Finset.range n, |term (k + 1) ‖z‖| ≤ ‖∑ k ∈ Finset.range n, termC (k + 1) z‖ := by
    obtain ⟨m, rfl⟩ : ∃ m, n = m + 1 := ⟨n - 1, by omega⟩
    rw [Finset.sum_range_succ', Finset.sum_range_succ']
    have t1 : |term (0 + 1) ‖z‖| = 1 / (12 * ‖z‖) := by rw [zero_add, term_one, abs_of_pos (by positivity)]
    have t2 := norm_termC (k := 0 + 1) (by omega) z0
    have t3 : ‖∑ k ∈ Finset.range m, termC (k + 1 + 1) z‖ ≤ ∑ k ∈ Finset.range m, |term (k + 1 + 1) ‖z‖| := by
      refine (norm_sum_le _ _).trans (le_of_eq (Finset.sum_congr rfl fun k _ => ?_))
      exact norm_termC (by omega) z0
    have t4 := norm_sub_norm_le (termC (0 + 1) z) (-∑ k ∈ Finset.range m, termC (k + 1 + 1) z)
    rw [norm_neg, sub_neg_eq_add, add_comm (termC (0 + 1) z)] at t4
    linarith
  have i0 : 0 < 1 / ‖z‖ := by positivity
  have t5 := norm_sub_norm_le (∑ j ∈ Finset.range n, termC (j + 1) z) s
  rw [norm_sub_rev] at t5
  have t6 := norm_sub_norm_le s (∑ j ∈ Finset.range n, termC (j + 1) z)
  rw [show 1 / (12 * ‖z‖) = 1 / 12 * (1 / ‖z‖) by ring] at b2 b4
  rw [show 1 / (1000 * ‖z‖) = 1 / 1000 * (1 / ‖z‖) by ring] at b2
  rw [div_eq_mul_one_div (8 / 100) ‖z‖, div_eq_mul_one_div (1 / 10) ‖z‖]
  constructor <;> linarith

theorem gammaLoopC {E : RealEnv} {T : Tab ℝ} {M : ℕ} {ε : ℝ} {z : ℂ} (hT : TabBern T M ε) (hx : 10 ≤ ‖z‖) (e1 : ε ≤ 1 / 100)
    {K : ℕ} (hK11 : 11 ≤ K) (hKM : K < M) (hKx : (2 * K : ℝ) ≤ 6 * ‖z‖) (hK : ub K ‖z‖ * (10 : ℝ) ^ E.tol * ‖z‖ ≤ 1 / 200)
    {r2 : Cx ℝ} (hr2 : toC r2 = 1 / z * (1 / z)) :
    ∀ fuel k : ℕ, 2 ≤ k → k ≤ K → K < k + fuel → ∀ r s, toC r = 1 / z ^ (2 * k - 3) → NearC ε z (k - 1) (toC s) →
      ∃ N, N ≤ K ∧ 2 ≤ N ∧ ∃ s', FnC.gammaLoop (realArith E) T r2 fuel (2 * k) r s = some s' ∧ NearC ε z (N - 1) (toC s') ∧
        |term N ‖z‖| ≤ 11 / 10 * (10 : ℝ) ^ (-E.tol) * ‖toC s'‖ := by
  have hp : 0 < ‖z‖ := by linarith
  have z0 : z ≠ 0 := norm_pos_iff.1 hp
  intro fuel
  induction fuel with
  | zero => intro k _ h1 h2; omega
  | succ fuel ih =>
    intro k h3 hkK hf r s hr hs
    unfold FnC.gammaLoop
    obtain ⟨b, -, hb, hbe⟩ := bernoulli_tab (E := E) hT (k := k) (by omega) (by omega)
    rw [hb]
    simp only [Option.bind_eq_bind, Option.bind_some]
    rw [FnC.tc_abs, FnC.tc_abs]
    have k1 : (2 : ℝ) ≤ k := by exact_mod_cast h3
    have kx : (2 * (k : ℝ)) ≤ 6 * ‖z‖ := by
      have : (k : ℝ) ≤ K := by exact_mod_cast hkK
      linarith
    have hr' : toC (FnC.mul (realArith E) r r2) = 1 / z ^ (2 * k - 1) := by
      rw [FnC.tc_mul, hr, hr2, show 2 * k - 1 = (2 * k - 3) + 2 by omega, pow_add]; field_simp
    obtain ⟨t, ht⟩ : ∃ t, t = FnC.divR (realArith E) (FnC.rMul (realArith E) b (FnC.mul (realArith E) r r2)) ((realArith E).ofI (((2 * k : ℕ) : ℤ) * (((2 * k : ℕ) : ℤ) - 1))) := ⟨_, rfl⟩
    rw [← ht]
    have kk : (0 : ℝ) < 2 * k * (2 * k - 1) := by nlinarith
    have t1 : ‖toC t - termC k z‖ ≤ ε * |term k ‖z‖| := by
      have e : toC t - termC k z = (((b - (_root_.bernoulli (2 * k) : ℝ)) / (2 * k * (2 * k - 1)) : ℝ) : ℂ) * (1 / z ^ (2 * k - 1)) := by
        rw [ht, FnC.tc_divR, FnC.tc_rMul, hr', termC, ra_ofI]; push_cast; ring
      rw [e, norm_mul, Complex.norm_real, Real.norm_eq_abs, abs_div, abs_of_pos kk, norm_div, norm_one, norm_pow, term_abs (by omega) hp]
      calc |b - (_root_.bernoulli (2 * k) : ℝ)| / (2 * k * (2 * k - 1)) * (1 / ‖z‖ ^ (2 * k - 1))
          ≤ ε * |(_root_.bernoulli (2 * k) : ℝ)| / (2 * k * (2 * k - 1)) * (1 / ‖z‖ ^ (2 * k - 1)) := by gcongr
        _ = _ := by ring
    obtain ⟨u1, u2⟩ := term_le_ub (k := k) (by omega) hp
    have t2 : ε * |term k ‖z‖| ≤ 1 / 100 * |term k ‖z‖| := mul_le_mul_of_nonneg_right e1 u2.le
    have nt := norm_termC (k := k) (by omega) z0
    have t3 : ‖toC t‖ ≤ |term k ‖z‖| + ε * |term k ‖z‖| := by
      have := norm_sub_norm_le (toC t) (termC k z); linarith
    have t4 : |term k ‖z‖| - ε * |term k ‖z‖| ≤ ‖toC t‖ := by
      have := norm_sub_norm_le (termC k z) (toC t); rw [norm_sub_rev] at this; linarith
    have tne : ‖toC t‖ ≠ 0 := by linarith
    have hkr : (2 * ((k - 1 : ℕ) : ℝ)) ≤ 6 * ‖z‖ := by
      have : ((k - 1 : ℕ) : ℝ) ≤ k := by exact_mod_cast (by omega)
      linarith
    obtain ⟨s1, s2⟩ := hs.bounds hx e1 (by omega) hkr
    have s0 : 0 < ‖toC s‖ := lt_of_lt_of_le (by positivity) s1
    have aT : ∀ w : ℂ, |‖w‖| = ‖w‖ := fun w => abs_of_nonneg (norm_nonneg w)
    by_cases hc : 2 * k > 20 ∧ ordR ‖toC t‖ - ordR ‖toC s‖ < -E.tol
    · rw [if_pos (by ra_simp; exact hc)]
      refine ⟨k, hkK, h3, s, rfl, hs, ?_⟩
      have := ord_le (t := ‖toC t‖) (s := ‖toC s‖) tne s0.ne' (tol := E.tol) (by rw [aT, aT]; exact hc.2)
      rw [aT, aT] at this
      linarith
    · rw [if_neg (by ra_simp; exact hc)]
      have hkne : k ≠ K := by
        intro hkK
        apply hc
        refine ⟨by omega, ?_⟩
        have key := ord_lt (t := ‖toC t‖) (s := ‖toC s‖) tne s0.ne' (tol := E.tol) ?_
        · rw [aT, aT] at key; exact key
        rw [aT, aT]
        rw [hkK] at t3 t2 u1
        have p10 : (0 : ℝ) < (10 : ℝ) ^ E.tol := by positivity
        have h5 : ‖toC t‖ ≤ 101 / 100 * ub K ‖z‖ := by linarith
        rw [zpow_add_one₀ (by norm_num)]
        have h6 : ub K ‖z‖ * (10 : ℝ) ^ E.tol ≤ 1 / 200 / ‖z‖ := by rw [le_div_iff₀ hp]; exact hK
        have h7 : ‖toC t‖ * (10 : ℝ) ^ E.tol ≤ 101 / 100 * ub K ‖z‖ * (10 : ℝ) ^ E.tol := mul_le_mul_of_nonneg_right h5 p10.le
        have i0 : 0 < 1 / ‖z‖ := by positivity
        rw [div_eq_mul_one_div] at h6 s1
        calc ‖toC t‖ * ((10 : ℝ) ^ E.tol * 10) = ‖toC t‖ * (10 : ℝ) ^ E.tol * 10 := by ring
          _ ≤ 101 / 100 * ub K ‖z‖ * (10 : ℝ) ^ E.tol * 10 := by linarith
          _ ≤ ‖toC s‖ := by linarith
      have hs' : NearC ε z (k + 1 - 1) (toC (FnC.add (realArith E) s t)) := by
        rw [FnC.tc_add]
        unfold NearC at hs ⊢
        obtain ⟨j, rfl⟩ : ∃ j, k = j + 1 := ⟨k - 1, by omega⟩
        rw [show j + 1 + 1 - 1 = j + 1 by omega, Finset.sum_range_succ, Finset.sum_range_succ]
        rw [show j + 1 - 1 = j by omega] at hs
        have : toC s + toC t - (∑ i ∈ Finset.range j, termC (i + 1) z + termC (j + 1) z) =
            (toC s - ∑ i ∈ Finset.range j, termC (i + 1) z) + (toC t - termC (j + 1) z) := by ring
        rw [this]
        have := norm_add_le (toC s - ∑ i ∈ Finset.range j, termC (i + 1) z) (toC t - termC (j + 1) z)
        linarith
      have := ih (k + 1) (by omega) (by omega) (by omega) (FnC.mul (realArith E) r r2) (FnC.add (realArith E) s t)
        (by rw [hr']; congr 2) hs'
      rw [show 2 * (k + 1) = 2 * k + 2 by ring] at this
      exact this

/-- The sum of the expansion in the code, against a logarithm of the gamma function. -/
theorem gammaStirC {E : RealEnv} {T : Tab ℝ} {M : ℕ} {ε : ℝ} {x : Cx ℝ} (hre : 0 < x.re) (hT : TabBern T M ε) (hx : 10 ≤ ‖toC x‖) (e0 : 0 ≤ ε)
    (e1 : ε ≤ 1 / 100)
    {K : ℕ} (hK11 : 11 ≤ K) (hKM : K < M) (hK5 : K ≤ 4998) (hKx : (2 * K : ℝ) ≤ 6 * ‖toC x‖) (hK : ub K ‖toC x‖ * (10 : ℝ) ^ E.tol * ‖toC x‖ ≤ 1 / 200) :
    ∃ s L, FnC.gammaStir (realArith E) T x = some (FnC.exp (realArith E) (FnC.stirArg (realArith E) x s)) ∧ Complex.Gamma (toC x) = Complex.exp L ∧
      ‖toC s - (L - f0C (toC x))‖ ≤ 2 * ε / ‖toC x‖ + 2 * (10 : ℝ) ^ (-E.tol) := by
  have hp : 0 < ‖toC x‖ := by linarith
  have z0 : toC x ≠ 0 := norm_pos_iff.1 hp
  have i0 : 0 < 1 / ‖toC x‖ := by positivity
  obtain ⟨b2, -, hb2, hbe2⟩ := bernoulli_tab (E := E) hT (k := 1) (by omega) (by omega)
  have hr : toC (FnC.rDiv (realArith E) (Fn.one (realArith E)) x) = 1 / toC x := by rw [FnC.tc_rDiv _ _ _ z0, ra_one]; simp
  have n1 : NearC ε (toC x) 1 (toC (FnC.rMul (realArith E) ((realArith E).divI b2 2) (FnC.rDiv (realArith E) (Fn.one (realArith E)) x))) := by
    unfold NearC
    rw [Finset.sum_range_one, Finset.sum_range_one, term_abs (by omega) hp, FnC.tc_rMul, hr, ra_divI]
    have e : ((b2 / ((2 : ℤ) : ℝ) : ℝ) : ℂ) * (1 / toC x) - termC (0 + 1) (toC x) = (((b2 - (_root_.bernoulli (2 * 1) : ℝ)) / 2 : ℝ) : ℂ) * (1 / toC x) := by
      rw [termC]; norm_num; ring
    rw [e, norm_mul, Complex.norm_real, Real.norm_eq_abs, abs_div, norm_div, norm_one, abs_of_pos (show (0 : ℝ) < 2 by norm_num)]
    calc |b2 - (_root_.bernoulli (2 * 1) : ℝ)| / 2 * (1 / ‖toC x‖) ≤ ε * |(_root_.bernoulli (2 * 1) : ℝ)| / 2 * (1 / ‖toC x‖) := by gcongr
      _ = _ := by norm_num; ring
  unfold FnC.gammaStir
  rw [show Fn.bernoulli (realArith E) T 2 = some b2 from hb2]
  simp only [Option.bind_eq_bind, Option.bind_some]
  obtain ⟨N, n2, n3, s, hs, hns, hts⟩ := gammaLoopC (E := E) hT hx e1 hK11 hKM hKx hK
    (r2 := FnC.mul (realArith E) (FnC.rDiv (realArith E) (Fn.one (realArith E)) x) (FnC.rDiv (realArith E) (Fn.one (realArith E)) x))
    (by rw [FnC.tc_mul, hr]) 4998 2 (by omega) (by omega) (by omega) _ _ (by rw [hr]; norm_num) n1
  rw [show 2 * 2 = 4 from rfl] at hs
  rw [hs]
  obtain ⟨R, hR, hRn⟩ := stirlingC (z := toC x) hre (N := N) (by omega)
  refine ⟨s, _, rfl, hR, ?_⟩
  have hNr : (2 * ((N - 1 : ℕ) : ℝ)) ≤ 6 * ‖toC x‖ := by
    have : ((N - 1 : ℕ) : ℝ) ≤ K := by exact_mod_cast (by omega)
    linarith
  have hNx : (2 * (N : ℝ)) ≤ 6 * ‖toC x‖ := by
    have : (N : ℝ) ≤ K := by exact_mod_cast n2
    linarith
  obtain ⟨s1, s2⟩ := hns.bounds hx e1 (by omega) hNr
  obtain ⟨j, rfl⟩ : ∃ j, N = j + 1 := ⟨N - 1, by omega⟩
  rw [show j + 1 - 1 = j by omega] at hns hNr
  unfold fNC
  rw [Finset.sum_range_succ]
  have hsum := sum_term_le hp hNr
  unfold NearC at hns
  have nt := norm_termC (k := j + 1) (by omega) z0
  obtain ⟨S, hS⟩ : ∃ S, S = ∑ j ∈ Finset.range j, termC (j + 1) (toC x) := ⟨_, rfl⟩
  rw [← hS] at hns ⊢
  have e : toC s - (f0C (toC x) + (S + termC (j + 1) (toC x)) + R - f0C (toC x)) = (toC s - S) - termC (j + 1) (toC x) - R := by ring
  rw [e]
  have a1 := norm_sub_le ((toC s - S) - termC (j + 1) (toC x)) R
  have a2 := norm_sub_le (toC s - S) (termC (j + 1) (toC x))
  have h2 : ε * ∑ j ∈ Finset.range j, |term (j + 1) ‖toC x‖| ≤ ε * (13 / 10 / ‖toC x‖) := mul_le_mul_of_nonneg_left hsum e0
  have tp : (0 : ℝ) < (10 : ℝ) ^ (-E.tol) := by positivity
  have h3 : |term (j + 1) ‖toC x‖| ≤ 11 / 100 * (10 : ℝ) ^ (-E.tol) * (1 / ‖toC x‖) := by
    refine hts.trans ?_
    have := mul_le_mul_of_nonneg_left s2 (show 0 ≤ 11 / 10 * (10 : ℝ) ^ (-E.tol) by positivity)
    refine this.trans (le_of_eq (by ring))
  have h4 : 0 ≤ ε * (1 / ‖toC x‖) := by positivity
  have i1 : 1 / ‖toC x‖ ≤ 1 / 10 := one_div_le_one_div_of_le (by norm_num) hx
  have h5 : Real.pi / 2 * (2 * ((j + 1 : ℕ) : ℝ) - 1) ≤ 96 / 10 * ‖toC x‖ := by
    have p := Real.pi_lt_d2
    have p0 := Real.pi_pos
    have : Real.pi / 2 * (2 * ((j + 1 : ℕ) : ℝ) - 1) ≤ Real.pi / 2 * (6 * ‖toC x‖) := mul_le_mul_of_nonneg_left (by linarith) (by linarith)
    nlinarith
  have h6 : Real.pi / 2 * (2 * ((j + 1 : ℕ) : ℝ) - 1) * |term (j + 1) ‖toC x‖| ≤
      96 / 10 * ‖toC x‖ * (11 / 100 * (10 : ℝ) ^ (-E.tol) * (1 / ‖toC x‖)) :=
    mul_le_mul h5 h3 (abs_nonneg _) (by positivity)
  have h7 : 96 / 10 * ‖toC x‖ * (11 / 100 * (10 : ℝ) ^ (-E.tol) * (1 / ‖toC x‖)) = 1056 / 1000 * (10 : ℝ) ^ (-E.tol) := by
    field_simp; norm_num
  have h8 : 11 / 100 * (10 : ℝ) ^ (-E.tol) * (1 / ‖toC x‖) ≤ 11 / 100 * (10 : ℝ) ^ (-E.tol) * (1 / 10) := mul_le_mul_of_nonneg_left i1 (by positivity)
  rw [show ε * (13 / 10 / ‖toC x‖) = 13 / 10 * (ε * (1 / ‖toC x‖)) by ring] at h2
  rw [show 2 * ε / ‖toC x‖ = 2 * (ε * (1 / ‖toC x‖)) by ring]
  linarith

end EFX.Stir
