import Verif.Lemmas.Stirling
import Verif.Lemmas.RealArith
import Mathlib.Analysis.Real.Pi.Bounds
import Verif.Lemmas.RealSeries
import Verif.Model.Gamma
/-! The Bernoulli series of the gamma function in exact arithmetic. -/

namespace EFX.Stir
open EFX

/-- Size of the Bernoulli numbers. -/
theorem bern_abs {k : ℕ} (hk : 1 ≤ k) :
    2 * ((2 * k).factorial : ℝ) / (2 * Real.pi) ^ (2 * k) ≤ |(_root_.bernoulli (2 * k) : ℝ)| ∧
    |(_root_.bernoulli (2 * k) : ℝ)| ≤ 4 * ((2 * k).factorial : ℝ) / (2 * Real.pi) ^ (2 * k) := by
  have hp := Real.pi_pos
  have h := hasSum_zeta_nat (k := k) (by omega)
  have f0 : (0 : ℝ) < ((2 * k).factorial : ℝ) := by positivity
  obtain ⟨z, hz⟩ : ∃ z : ℝ, z = (-1 : ℝ) ^ (k + 1) * (2 : ℝ) ^ (2 * k - 1) * Real.pi ^ (2 * k) * (_root_.bernoulli (2 * k) : ℝ) / ((2 * k).factorial : ℝ) := ⟨_, rfl⟩
  rw [← hz] at h
  have z1 : 1 ≤ z := by
    have := le_hasSum h 1 (fun j _ => by positivity)
    simpa using this
  have z2 : z ≤ 2 := by
    have h2 := hasSum_zeta_two
    have : z ≤ Real.pi ^ 2 / 6 := by
      refine hasSum_le (fun n => ?_) h h2
      rcases Nat.eq_zero_or_pos n with rfl | hn
      · simp [show k ≠ 0 by omega]
      · have n1 : (1 : ℝ) ≤ n := by exact_mod_cast hn
        exact one_div_le_one_div_of_le (by positivity) (pow_le_pow_right₀ n1 (by omega))
    nlinarith [Real.pi_lt_d2]
  have hab : |z| = z := abs_of_pos (by linarith)
  have e : z = (2 * Real.pi) ^ (2 * k) * |(_root_.bernoulli (2 * k) : ℝ)| / (2 * ((2 * k).factorial : ℝ)) := by
    rw [← hab, hz, abs_div, abs_mul, abs_mul, abs_mul, abs_pow, abs_neg, abs_one, one_pow, one_mul, abs_of_pos (by positivity : (0 : ℝ) < 2 ^ (2 * k - 1)),
      abs_of_pos (by positivity : 0 < Real.pi ^ (2 * k)), abs_of_pos f0, mul_pow]
    have : (2 : ℝ) ^ (2 * k) = 2 * 2 ^ (2 * k - 1) := by rw [← pow_succ']; congr 1; omega
    rw [this]
    field_simp
  have P0 : (0 : ℝ) < (2 * Real.pi) ^ (2 * k) := by positivity
  rw [e] at z1 z2
  rw [le_div_iff₀ (by positivity)] at z1
  rw [div_le_iff₀ (by positivity)] at z2
  constructor
  · rw [div_le_iff₀ P0]; linarith
  · rw [le_div_iff₀ P0]; linarith

/-- Upper bound of the terms. -/
noncomputable def ub (k : ℕ) (x : ℝ) : ℝ := 4 * ((2 * k - 2).factorial : ℝ) / ((2 * Real.pi) ^ (2 * k) * x ^ (2 * k - 1))

theorem term_abs {k : ℕ} (hk : 1 ≤ k) {x : ℝ} (hx : 0 < x) :
    |term k x| = |(_root_.bernoulli (2 * k) : ℝ)| / ((2 * k : ℝ) * (2 * k - 1)) * (1 / x ^ (2 * k - 1)) := by
  have k1 : (1 : ℝ) ≤ k := by exact_mod_cast hk
  unfold term
  rw [abs_mul, abs_div, abs_of_pos (show (0 : ℝ) < 2 * k * (2 * k - 1) by nlinarith), abs_of_pos (show (0 : ℝ) < 1 / x ^ (2 * k - 1) by positivity)]

theorem term_le_ub {k : ℕ} (hk : 1 ≤ k) {x : ℝ} (hx : 0 < x) : |term k x| ≤ ub k x ∧ 0 < |term k x| := by
  have hp := Real.pi_pos
  have k1 : (1 : ℝ) ≤ k := by exact_mod_cast hk
  have kk : (0 : ℝ) < 2 * k * (2 * k - 1) := by nlinarith
  obtain ⟨b1, b2⟩ := bern_abs hk
  have f : ((2 * k).factorial : ℝ) = (2 * k) * (2 * k - 1) * ((2 * k - 2).factorial : ℝ) := by
    obtain ⟨j, rfl⟩ : ∃ j, k = j + 1 := ⟨k - 1, by omega⟩
    rw [show 2 * (j + 1) - 2 = 2 * j by omega, show 2 * (j + 1) = 2 * j + 1 + 1 by ring, Nat.factorial_succ, Nat.factorial_succ]
    push_cast; ring
  rw [term_abs hk hx]
  constructor
  · calc |(_root_.bernoulli (2 * k) : ℝ)| / ((2 * k : ℝ) * (2 * k - 1)) * (1 / x ^ (2 * k - 1))
        ≤ (4 * ((2 * k).factorial : ℝ) / (2 * Real.pi) ^ (2 * k)) / ((2 * k : ℝ) * (2 * k - 1)) * (1 / x ^ (2 * k - 1)) := by gcongr
      _ = ub k x := by
        unfold ub
        have : (2 * (k : ℝ) - 1) ≠ 0 := by linarith
        rw [f]
        field_simp
  · have : 0 < |(_root_.bernoulli (2 * k) : ℝ)| := lt_of_lt_of_le (by positivity) b1
    positivity

theorem ub_succ {k : ℕ} (hk : 1 ≤ k) {x : ℝ} (hx : 0 < x) (h : (2 * k : ℝ) ≤ 6 * x) : ub (k + 1) x ≤ 23 / 25 * ub k x := by
  have hp := Real.pi_pos
  have k1 : (1 : ℝ) ≤ k := by exact_mod_cast hk
  have e : ub (k + 1) x = ub k x * ((2 * k * (2 * k - 1)) / (2 * Real.pi * x) ^ 2) := by
    unfold ub
    obtain ⟨j, rfl⟩ : ∃ j, k = j + 1 := ⟨k - 1, by omega⟩
    rw [show 2 * (j + 1 + 1) - 2 = 2 * j + 1 + 1 by omega, show 2 * (j + 1) - 2 = 2 * j by omega, Nat.factorial_succ, Nat.factorial_succ,
      show 2 * (j + 1 + 1) - 1 = (2 * (j + 1) - 1) + 2 by omega, show 2 * (j + 1 + 1) = 2 * (j + 1) + 2 by ring]
    push_cast
    rw [pow_add, pow_add]
    field_simp
    ring
  rw [e, mul_comm]
  refine mul_le_mul_of_nonneg_right ?_ (by unfold ub; positivity)
  rw [div_le_iff₀ (by positivity)]
  have p3 := Real.pi_gt_d2
  have h1 : 2 * (k : ℝ) * (2 * k - 1) ≤ 6 * x * (6 * x) := mul_le_mul h (by linarith) (by linarith) (by linarith)
  have h2 : (3.14 : ℝ) ^ 2 ≤ Real.pi ^ 2 := pow_le_pow_left₀ (by norm_num) p3.le 2
  have h3 : (3.14 : ℝ) ^ 2 * x ^ 2 ≤ Real.pi ^ 2 * x ^ 2 := mul_le_mul_of_nonneg_right h2 (by positivity)
  nlinarith [sq_nonneg x]

theorem ub_one (x : ℝ) (hx : 0 < x) : ub 1 x ≤ 11 / (108 * x) := by
  have hp := Real.pi_pos
  have p3 := Real.pi_gt_d2
  unfold ub
  norm_num
  rw [div_le_div_iff₀ (by positivity) (by positivity)]
  have h2 : (3.14 : ℝ) ^ 2 ≤ Real.pi ^ 2 := pow_le_pow_left₀ (by norm_num) p3.le 2
  have h3 : (3.14 : ℝ) ^ 2 * x ≤ Real.pi ^ 2 * x := mul_le_mul_of_nonneg_right h2 hx.le
  nlinarith

/-- The sum of the absolute terms as long as they decrease. -/
theorem sum_term_le {x : ℝ} (hx : 0 < x) {n : ℕ} (h : (2 * n : ℝ) ≤ 6 * x) :
    ∑ k ∈ Finset.range n, |term (k + 1) x| ≤ 13 / 10 / x := by
  have key : ∀ n : ℕ, (2 * n : ℝ) ≤ 6 * x → ∑ k ∈ Finset.range n, |term (k + 1) x| + 25 / 2 * ub (n + 1) x ≤ 25 / 2 * ub 1 x := by
    intro n
    induction n with
    | zero => intro _; simp
    | succ n ih =>
      intro h
      push_cast at h
      have := ih (by linarith)
      have h2 := ub_succ (k := n + 1) (by omega) hx (by push_cast; linarith)
      have h3 := (term_le_ub (k := n + 1) (by omega) hx).1
      rw [Finset.sum_range_succ]
      linarith
  have h1 := key n h
  have h2 := ub_one x hx
  have h3 : 0 ≤ ub (n + 1) x := by unfold ub; have := Real.pi_pos; positivity
  have h4 : 25 / 2 * (11 / (108 * x)) ≤ 13 / 10 / x := by
    rw [mul_div_assoc', div_le_div_iff₀ (by positivity) (by positivity)]; nlinarith
  linarith

theorem term_one (x : ℝ) : term 1 x = 1 / (12 * x) := by
  unfold term
  rw [show 2 * 1 = 2 by norm_num, bernoulli_two]
  norm_num
  ring

theorem term_two (x : ℝ) : term 2 x = -(1 / (360 * x ^ 3)) := by
  unfold term
  rw [show 2 * 2 = 4 by norm_num, show (_root_.bernoulli 4 : ℚ) = -1 / 30 by rw [bernoulli_eq_bernoulli'_of_ne_one (by norm_num), bernoulli'_four]]
  norm_num
  field_simp

/-- The partial sum is not too small. -/
theorem partial_ge {x : ℝ} (hx : 10 ≤ x) {n : ℕ} (h2 : 2 ≤ n) (h : (2 * n : ℝ) ≤ 6 * x) :
    2 / 25 / x ≤ ∑ k ∈ Finset.range n, term (k + 1) x := by
  have hp : 0 < x := by linarith
  have s1 := stirling hp (N := n) (by omega)
  have s2 := stirling hp (N := 2) (by omega)
  unfold fN at s1 s2
  rw [Finset.sum_range_succ, Finset.sum_range_one, term_one, term_two] at s2
  have t2 : |-(1 / (360 * x ^ 3))| ≤ 1 / (36000 * x) := by
    rw [abs_neg, abs_of_pos (by positivity)]
    exact one_div_le_one_div_of_le (by positivity) (by nlinarith [sq_nonneg (x - 10), mul_pos hp hp])
  have tn : |term n x| ≤ ub 2 x := by
    refine (term_le_ub (by omega) hp).1.trans ?_
    clear s1
    induction n, h2 using Nat.le_induction with
    | base => exact le_rfl
    | succ m hm ih =>
      push_cast at h
      have h3 := ub_succ (k := m) (by omega) hp (by linarith)
      have h4 : 0 ≤ ub m x := by unfold ub; have := Real.pi_pos; positivity
      have := ih (by linarith)
      linarith
  have u2 : ub 2 x ≤ 1 / (1000 * x) := by
    have hpi := Real.pi_pos
    have p3 := Real.pi_gt_d2
    unfold ub
    norm_num [Nat.factorial]
    rw [show x⁻¹ * (1 / 1000) = 1 / (1000 * x) by ring]
    rw [div_le_div_iff₀ (by positivity) (by positivity)]
    have h2 : (3.14 : ℝ) ^ 4 ≤ Real.pi ^ 4 := pow_le_pow_left₀ (by norm_num) p3.le 4
    have h3 : (6.28 : ℝ) ^ 4 ≤ (2 * Real.pi) ^ 4 := by rw [mul_pow]; nlinarith
    have h4 : (100 : ℝ) * x ≤ x ^ 3 := by nlinarith [mul_pos hp hp]
    have h5 : (6.28 : ℝ) ^ 4 * (100 * x) ≤ (2 * Real.pi) ^ 4 * x ^ 3 := mul_le_mul h3 h4 (by positivity) (by positivity)
    nlinarith
  have a1 := abs_le.1 s1
  have a2 := abs_le.1 s2
  have a3 := abs_le.1 t2
  have i0 : 0 < 1 / x := by positivity
  have e1 : 1 / (36000 * x) = 1 / 36000 * (1 / x) := by ring
  have e2 : 1 / (1000 * x) = 1 / 1000 * (1 / x) := by ring
  have e3 : 1 / (12 * x) = 1 / 12 * (1 / x) := by ring
  have e4 : 2 / 25 / x = 2 / 25 * (1 / x) := by ring
  rw [e1] at t2 a3
  rw [e2] at u2
  rw [e3] at a2
  rw [e4]
  linarith

/-- The entries of the tables of the Bernoulli numbers up to index `M` are right to the relative error `ε`. -/
def TabBern (T : Tab ℝ) (M : ℕ) (ε : ℝ) : Prop :=
  ∀ k, 1 ≤ k → k < M → ∃ p q, T.a367[k]? = some p ∧ T.a2445[k]? = some q ∧
    |p / q - (_root_.bernoulli (2 * k) : ℝ)| ≤ ε * |(_root_.bernoulli (2 * k) : ℝ)|

theorem bernoulli_tab {E : RealEnv} {T : Tab ℝ} {M : ℕ} {ε : ℝ} (hT : TabBern T M ε) {k : ℕ} (h1 : 1 ≤ k) (h2 : k < M) :
    ∃ b, Fn.bernTab (realArith E) T k = some b ∧ Fn.bernoulli (realArith E) T (2 * k) = some b ∧
      |b - (_root_.bernoulli (2 * k) : ℝ)| ≤ ε * |(_root_.bernoulli (2 * k) : ℝ)| := by
  obtain ⟨p, q, hp, hq, h⟩ := hT k h1 h2
  have hb : Fn.bernTab (realArith E) T k = some (p / q) := by
    unfold Fn.bernTab; rw [hp, hq]; simp [ra_div]
  refine ⟨p / q, hb, ?_, h⟩
  unfold Fn.bernoulli
  have l1 : k < T.a367.length := (List.getElem?_eq_some_iff.1 hp).1
  have l2 : k < T.a2445.length := (List.getElem?_eq_some_iff.1 hq).1
  rw [if_neg (by omega), if_pos (by unfold Fn.bernMax; omega), show 2 * k / 2 = k by omega, hb]

theorem ord_le {t s : ℝ} (ht : t ≠ 0) (hs : s ≠ 0) {tol : ℤ} (h : ordR |t| - ordR |s| < -tol) : |t| ≤ (10 : ℝ) ^ (-tol) * |s| := by
  have h1 := lt_ordR (x := |t|) (abs_ne_zero.2 ht)
  have h2 := ordR_le (x := |s|) (abs_ne_zero.2 hs)
  rw [abs_abs] at h1 h2
  calc |t| ≤ (10 : ℝ) ^ (ordR |t| + 1) := h1.le
    _ ≤ (10 : ℝ) ^ (-tol + ordR |s|) := zpow_le_zpow_right₀ (by norm_num) (by omega)
    _ = (10 : ℝ) ^ (-tol) * (10 : ℝ) ^ ordR |s| := zpow_add₀ (by norm_num) _ _
    _ ≤ _ := mul_le_mul_of_nonneg_left h2 (by positivity)

theorem ord_lt {t s : ℝ} (ht : t ≠ 0) (hs : s ≠ 0) {tol : ℤ} (h : |t| * (10 : ℝ) ^ (tol + 1) ≤ |s|) : ordR |t| - ordR |s| < -tol := by
  have h1 := lt_ordR (x := |s|) (abs_ne_zero.2 hs)
  rw [abs_abs] at h1
  have h2 : ordR |t| < -tol + ordR |s| := by
    rw [ordR_lt (abs_ne_zero.2 ht), abs_abs]
    have h3 : |t| * (10 : ℝ) ^ (tol + 1) < (10 : ℝ) ^ (ordR |s| + 1) := h.trans_lt h1
    have h4 : (10 : ℝ) ^ (ordR |s| + 1) = (10 : ℝ) ^ (-tol + ordR |s|) * (10 : ℝ) ^ (tol + 1) := by
      rw [← zpow_add₀ (by norm_num)]; congr 1; ring
    rw [h4] at h3
    exact lt_of_mul_lt_mul_right h3 (by positivity)
  omega

/-- The partial sum of the loop is near the exact one. -/
def Near (ε x : ℝ) (n : ℕ) (s : ℝ) : Prop :=
  |s - ∑ j ∈ Finset.range n, term (j + 1) x| ≤ ε * ∑ j ∈ Finset.range n, |term (j + 1) x|

theorem Near.bounds {ε x s : ℝ} {n : ℕ} (h : Near ε x n s) (hx : 10 ≤ x) (e1 : ε ≤ 1 / 100) (h2 : 2 ≤ n) (hn : (2 * n : ℝ) ≤ 6 * x) :
    6 / 100 / x ≤ s ∧ s ≤ 14 / 10 / x := by
  have hp : 0 < x := by linarith
  have b1 := partial_ge hx h2 hn
  have b2 := sum_term_le hp hn
  have b3 : ∑ k ∈ Finset.range n, term (k + 1) x ≤ ∑ k ∈ Finset.range n, |term (k + 1) x| :=
    Finset.sum_le_sum fun k _ => le_abs_self _
  have b0 : 0 ≤ ∑ k ∈ Finset.range n, |term (k + 1) x| := Finset.sum_nonneg fun k _ => abs_nonneg _
  have h' := abs_le.1 (h.trans (mul_le_mul_of_nonneg_right e1 b0))
  have i0 : 0 < 1 / x := by positivity
  rw [div_eq_mul_one_div] at b1 b2 ⊢
  rw [div_eq_mul_one_div (14 / 10) x]
  constructor <;> linarith

theorem gammaLoop_real {E : RealEnv} {T : Tab ℝ} {M : ℕ} {ε x : ℝ} (hT : TabBern T M ε) (hx : 10 ≤ x) (e1 : ε ≤ 1 / 100)
    {K : ℕ} (hK11 : 11 ≤ K) (hKM : K < M) (hKx : (2 * K : ℝ) ≤ 6 * x) (hK : ub K x * (10 : ℝ) ^ E.tol * x ≤ 1 / 200) :
    ∀ fuel k : ℕ, 3 ≤ k → k ≤ K → K < k + fuel → ∀ s, Near ε x (k - 1) s →
      ∃ N, N ≤ K ∧ 3 ≤ N ∧ ∃ s', Fn.gammaLoop (realArith E) T (1 / x * (1 / x)) fuel (2 * k) (1 / x ^ (2 * k - 3)) s = some s' ∧ Near ε x (N - 1) s' ∧
        |term N x| ≤ 11 / 10 * (10 : ℝ) ^ (-E.tol) * |s'| := by
  have hp : 0 < x := by linarith
  intro fuel
  induction fuel with
  | zero => intro k _ h1 h2; omega
  | succ fuel ih =>
    intro k h3 hkK hf s hs
    unfold Fn.gammaLoop
    obtain ⟨b, -, hb, hbe⟩ := bernoulli_tab (E := E) hT (k := k) (by omega) (by omega)
    rw [hb]
    ra_simp
    simp only [Option.bind_eq_bind, Option.bind_some]
    have k1 : (3 : ℝ) ≤ k := by exact_mod_cast h3
    have kx : (2 * (k : ℝ)) ≤ 6 * x := by
      have : (k : ℝ) ≤ K := by exact_mod_cast hkK
      linarith
    have hr : 1 / x ^ (2 * k - 3) * (1 / x * (1 / x)) = 1 / x ^ (2 * k - 1) := by
      rw [show 2 * k - 1 = (2 * k - 3) + 2 by omega, pow_add]; field_simp
    rw [hr]
    obtain ⟨t, ht⟩ : ∃ t, t = b * (1 / x ^ (2 * k - 1)) / ((((2 * k : ℕ) : ℤ) * (((2 * k : ℕ) : ℤ) - 1) : ℤ) : ℝ) := ⟨_, rfl⟩
    rw [← ht]
    have kk : (0 : ℝ) < 2 * k * (2 * k - 1) := by nlinarith
    have t1 : |t - term k x| ≤ ε * |term k x| := by
      have e : t - term k x = (b - (_root_.bernoulli (2 * k) : ℝ)) * (1 / x ^ (2 * k - 1) / (2 * k * (2 * k - 1))) := by
        rw [ht, term]; push_cast; ring
      rw [e, abs_mul, abs_of_pos (show (0 : ℝ) < 1 / x ^ (2 * k - 1) / (2 * k * (2 * k - 1)) by positivity), term_abs (by omega) hp]
      calc |b - (_root_.bernoulli (2 * k) : ℝ)| * (1 / x ^ (2 * k - 1) / (2 * k * (2 * k - 1)))
          ≤ ε * |(_root_.bernoulli (2 * k) : ℝ)| * (1 / x ^ (2 * k - 1) / (2 * k * (2 * k - 1))) := by gcongr
        _ = _ := by ring
    obtain ⟨u1, u2⟩ := term_le_ub (k := k) (by omega) hp
    have t2 : ε * |term k x| ≤ 1 / 100 * |term k x| := mul_le_mul_of_nonneg_right e1 u2.le
    have t3 : |t| ≤ |term k x| + ε * |term k x| := by
      have := abs_sub_abs_le_abs_sub t (term k x); linarith
    have t4 : |term k x| - ε * |term k x| ≤ |t| := by
      have := abs_sub_abs_le_abs_sub (term k x) t; rw [abs_sub_comm] at this; linarith
    have tne : t ≠ 0 := abs_pos.1 (by linarith)
    have hkr : (2 * ((k - 1 : ℕ) : ℝ)) ≤ 6 * x := by
      have : ((k - 1 : ℕ) : ℝ) ≤ k := by exact_mod_cast (by omega)
      linarith
    obtain ⟨s1, s2⟩ := hs.bounds hx e1 (by omega) hkr
    have s0 : 0 < s := lt_of_lt_of_le (by positivity) s1
    by_cases hc : 2 * k > 20 ∧ ordR |t| - ordR |s| < -E.tol
    · rw [if_pos hc]
      refine ⟨k, hkK, h3, s, rfl, hs, ?_⟩
      have := ord_le tne s0.ne' hc.2
      linarith
    · rw [if_neg hc]
      have hkne : k ≠ K := by
        intro hkK
        apply hc
        refine ⟨by omega, ord_lt tne s0.ne' ?_⟩
        rw [abs_of_pos s0]
        rw [hkK] at t3 t2 u1
        have p10 : (0 : ℝ) < (10 : ℝ) ^ E.tol := by positivity
        have h5 : |t| ≤ 101 / 100 * ub K x := by linarith
        rw [zpow_add_one₀ (by norm_num)]
        have h6 : ub K x * (10 : ℝ) ^ E.tol ≤ 1 / 200 / x := by rw [le_div_iff₀ hp]; exact hK
        have h7 : |t| * (10 : ℝ) ^ E.tol ≤ 101 / 100 * ub K x * (10 : ℝ) ^ E.tol := mul_le_mul_of_nonneg_right h5 p10.le
        have i0 : 0 < 1 / x := by positivity
        rw [div_eq_mul_one_div] at h6 s1
        calc |t| * ((10 : ℝ) ^ E.tol * 10) = |t| * (10 : ℝ) ^ E.tol * 10 := by ring
          _ ≤ 101 / 100 * ub K x * (10 : ℝ) ^ E.tol * 10 := by linarith
          _ ≤ s := by linarith
      have hs' : Near ε x (k + 1 - 1) (s + t) := by
        unfold Near at hs ⊢
        obtain ⟨j, rfl⟩ : ∃ j, k = j + 1 := ⟨k - 1, by omega⟩
        rw [show j + 1 + 1 - 1 = j + 1 by omega, Finset.sum_range_succ, Finset.sum_range_succ]
        rw [show j + 1 - 1 = j by omega] at hs
        have : s + t - (∑ i ∈ Finset.range j, term (i + 1) x + term (j + 1) x) = (s - ∑ i ∈ Finset.range j, term (i + 1) x) + (t - term (j + 1) x) := by ring
        rw [this]
        have := abs_add_le (s - ∑ i ∈ Finset.range j, term (i + 1) x) (t - term (j + 1) x)
        linarith
      have := ih (k + 1) (by omega) (by omega) (by omega) (s + t) hs'
      rw [show 2 * (k + 1) - 3 = 2 * k - 1 by omega, show 2 * (k + 1) = 2 * k + 2 by ring] at this
      exact this

/-- The sum of the expansion in the code, against the logarithm of the gamma function. -/
theorem gammaStir_real {E : RealEnv} {T : Tab ℝ} {M : ℕ} {ε x : ℝ} (hT : TabBern T M ε) (hx : 10 ≤ x) (e0 : 0 ≤ ε) (e1 : ε ≤ 1 / 100)
    {K : ℕ} (hK11 : 11 ≤ K) (hKM : K < M) (hK5 : K ≤ 4998) (hKx : (2 * K : ℝ) ≤ 6 * x) (hK : ub K x * (10 : ℝ) ^ E.tol * x ≤ 1 / 200) :
    ∃ s, Fn.gammaStir (realArith E) T x = some (Fn.exp (realArith E) (Fn.stirArg (realArith E) x s)) ∧
      |s - (Real.log (Real.Gamma x) - f0 x)| ≤ (2 * ε + 4 * (10 : ℝ) ^ (-E.tol)) / x := by
  have hp : 0 < x := by linarith
  have i0 : 0 < 1 / x := by positivity
  obtain ⟨b2, -, hb2, hbe2⟩ := bernoulli_tab (E := E) hT (k := 1) (by omega) (by omega)
  have n1 : Near ε x 1 (b2 / 2 * (1 / x)) := by
    unfold Near
    rw [Finset.sum_range_one, Finset.sum_range_one, term_abs (by omega) hp]
    have e : b2 / 2 * (1 / x) - term (0 + 1) x = (b2 - (_root_.bernoulli (2 * 1) : ℝ)) * (1 / x / 2) := by
      rw [term]; norm_num; ring
    rw [e, abs_mul, abs_of_pos (show (0 : ℝ) < 1 / x / 2 by positivity)]
    calc |b2 - (_root_.bernoulli (2 * 1) : ℝ)| * (1 / x / 2) ≤ ε * |(_root_.bernoulli (2 * 1) : ℝ)| * (1 / x / 2) := by gcongr
      _ = _ := by norm_num; ring
  unfold Fn.gammaStir
  rw [show Fn.bernoulli (realArith E) T 2 = some b2 from hb2]
  ra_simp
  simp only [Option.bind_eq_bind, Option.bind_some]
  -- the first round of the loop does not end it
  have first : ∀ fuel, ∃ s', Fn.gammaLoop (realArith E) T (1 / x * (1 / x)) (fuel + 1) 4 (1 / x) (b2 / ((2 : ℤ) : ℝ) * (1 / x)) =
      Fn.gammaLoop (realArith E) T (1 / x * (1 / x)) fuel (2 * 3) (1 / x ^ (2 * 3 - 3)) s' ∧ Near ε x 2 s' := by
    intro fuel
    obtain ⟨b, -, hb, hbe⟩ := bernoulli_tab (E := E) hT (k := 2) (by omega) (by omega)
    rw [Fn.gammaLoop, show Fn.bernoulli (realArith E) T 4 = some b from hb]
    ra_simp
    simp only [Option.bind_eq_bind, Option.bind_some]
    rw [if_neg (by omega)]
    refine ⟨_, by rw [show 1 / x * (1 / x * (1 / x)) = 1 / x ^ (2 * 3 - 3) by norm_num; field_simp], ?_⟩
    unfold Near at n1 ⊢
    rw [Finset.sum_range_one, Finset.sum_range_one] at n1
    rw [Finset.sum_range_succ, Finset.sum_range_one, Finset.sum_range_succ, Finset.sum_range_one]
    obtain ⟨t, ht⟩ : ∃ t : ℝ, t = b * (1 / x ^ (2 * 3 - 3)) / ((((4 : ℕ) : ℤ) * (((4 : ℕ) : ℤ) - 1) : ℤ) : ℝ) := ⟨_, rfl⟩
    have t1 : |t - term (1 + 1) x| ≤ ε * |term (1 + 1) x| := by
      rw [term_abs (by omega) hp]
      have e : t - term (1 + 1) x = (b - (_root_.bernoulli (2 * 2) : ℝ)) * (1 / x ^ 3 / 12) := by
        rw [ht, term, show 2 * 3 - 3 = 3 from rfl]; push_cast; ring
      rw [e, abs_mul, abs_of_pos (show (0 : ℝ) < 1 / x ^ 3 / 12 by positivity)]
      calc |b - (_root_.bernoulli (2 * 2) : ℝ)| * (1 / x ^ 3 / 12) ≤ ε * |(_root_.bernoulli (2 * 2) : ℝ)| * (1 / x ^ 3 / 12) := by gcongr
        _ = _ := by norm_num; ring
    rw [← ht]
    push_cast
    have : b2 / 2 * (1 / x) + t - (term (0 + 1) x + term (1 + 1) x) = (b2 / 2 * (1 / x) - term (0 + 1) x) + (t - term (1 + 1) x) := by ring
    rw [this]
    have := abs_add_le (b2 / 2 * (1 / x) - term (0 + 1) x) (t - term (1 + 1) x)
    linarith
  obtain ⟨fuel, hfuel⟩ : ∃ fuel : ℕ, fuel = 4997 := ⟨_, rfl⟩
  rw [show (4998 : ℕ) = fuel + 1 by omega]
  obtain ⟨s', hs', hn'⟩ := first fuel
  rw [hs']
  obtain ⟨N, n2, n3, s, hs, hns, hts⟩ := gammaLoop_real hT hx e1 hK11 hKM hKx hK fuel 3 (by omega) (by omega) (by omega) s' hn'
  rw [hs]
  refine ⟨s, rfl, ?_⟩
  have hNr : (2 * ((N - 1 : ℕ) : ℝ)) ≤ 6 * x := by
    have : ((N - 1 : ℕ) : ℝ) ≤ K := by exact_mod_cast (by omega)
    linarith
  obtain ⟨s1, s2⟩ := hns.bounds hx e1 (by omega) hNr
  have s0 : 0 < s := lt_of_lt_of_le (by positivity) s1
  have hst := stirling hp (N := N) (by omega)
  obtain ⟨j, rfl⟩ : ∃ j, N = j + 1 := ⟨N - 1, by omega⟩
  rw [show j + 1 - 1 = j by omega] at hns hNr
  unfold fN at hst
  rw [Finset.sum_range_succ] at hst
  have hsum := sum_term_le hp hNr
  unfold Near at hns
  have h1 : |s - (Real.log (Real.Gamma x) - f0 x)| ≤ ε * ∑ j ∈ Finset.range j, |term (j + 1) x| + 2 * |term (j + 1) x| := by
    obtain ⟨S, hS⟩ : ∃ S, S = ∑ j ∈ Finset.range j, term (j + 1) x := ⟨_, rfl⟩
    rw [← hS] at hns hst
    have e : s - (Real.log (Real.Gamma x) - f0 x) = (s - S) - (Real.log (Real.Gamma x) - (f0 x + (S + term (j + 1) x))) - term (j + 1) x := by ring
    rw [e]
    have a1 := abs_sub (s - S) (Real.log (Real.Gamma x) - (f0 x + (S + term (j + 1) x)))
    have a2 := abs_sub ((s - S) - (Real.log (Real.Gamma x) - (f0 x + (S + term (j + 1) x)))) (term (j + 1) x)
    linarith
  rw [abs_of_pos s0] at hts
  have h2 : ε * ∑ j ∈ Finset.range j, |term (j + 1) x| ≤ ε * (13 / 10 / x) := mul_le_mul_of_nonneg_left hsum e0
  have tp : (0 : ℝ) < (10 : ℝ) ^ (-E.tol) := by positivity
  have h3 : 11 / 10 * (10 : ℝ) ^ (-E.tol) * s ≤ 11 / 10 * (10 : ℝ) ^ (-E.tol) * (14 / 10 / x) := mul_le_mul_of_nonneg_left s2 (by positivity)
  have h4 : 0 ≤ ε * (1 / x) := by positivity
  have h5 : 0 ≤ (10 : ℝ) ^ (-E.tol) * (1 / x) := by positivity
  rw [show (2 * ε + 4 * (10 : ℝ) ^ (-E.tol)) / x = 2 * (ε * (1 / x)) + 4 * ((10 : ℝ) ^ (-E.tol) * (1 / x)) by ring]
  rw [show ε * (13 / 10 / x) = 13 / 10 * (ε * (1 / x)) by ring] at h2
  rw [show 11 / 10 * (10 : ℝ) ^ (-E.tol) * (14 / 10 / x) = 154 / 100 * ((10 : ℝ) ^ (-E.tol) * (1 / x)) by ring] at h3
  linarith

end EFX.Stir
