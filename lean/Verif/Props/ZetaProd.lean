import Verif.Props.Zeta
import Verif.Lemmas.Euler
import Mathlib.Analysis.SpecialFunctions.Log.Base
/-! C87: the product over the primes. -/

namespace EFX.Props
open EFX EFX.Stir EFX.Borw

/-- A factor of the product. -/
noncomputable def eulerFac (E : RealEnv) (Z : ZEnv ℝ) (s : ℝ) (k : ℕ) : ℝ :=
  jpow E Z s (Nat.nth Nat.Prime k) / (jpow E Z s (Nat.nth Nat.Prime k) - 1)

/-- The loop over the primes. -/
theorem primeProd_real (E : RealEnv) {Z : ZEnv ℝ} (hd : Z.data = primeTable) (s : ℝ) : ∀ (cnt i : ℕ) (m : List (ℕ × ℝ)) (v : ℝ), i + cnt ≤ 300 → MapOk E s m →
    ∃ K, i ≤ K ∧ K ≤ i + cnt ∧ Fn.primeProd (realArith E) Z s ((List.range' i cnt).map (Nat.nth Nat.Prime)) m v = some (v * ∏ k ∈ Finset.Ico i K, eulerFac E Z s k) ∧
      (K = i + cnt ∨ i < K ∧ E.tol < ordR |jpow E Z s (Nat.nth Nat.Prime (K - 1))|) := by
  intro cnt
  induction cnt with
  | zero => intro i m v _ _; exact ⟨i, le_rfl, le_rfl, by simp [Fn.primeProd], Or.inl rfl⟩
  | succ cnt ih =>
    intro i m v hi hm
    have inf := Nat.infinite_setOfPred_prime
    have p1 : (Nat.nth Nat.Prime i).Prime := Nat.nth_mem_of_infinite inf i
    have p2 : Nat.nth Nat.Prime i ≤ 2000 := le_trans ((Nat.nth_monotone inf) (by omega)) prime300.2
    obtain ⟨m', a, b⟩ := (C84_jpow E hd s p1.one_lt.le (by omega)).1 m hm
    rw [List.range'_succ, List.map_cons]
    unfold Fn.primeProd
    simp only [Option.bind_eq_bind]
    rw [a]
    simp only [Option.bind_some]
    ra_simp
    by_cases ho : ordR |jpow E Z s (Nat.nth Nat.Prime i)| > E.tol
    · rw [if_pos ho]
      refine ⟨i + 1, by omega, by omega, ?_, Or.inr ⟨by omega, by simpa using ho⟩⟩
      rw [Finset.prod_Ico_succ_top le_rfl]
      simp [eulerFac]
    · rw [if_neg ho]
      obtain ⟨K, k1, k2, k3, k4⟩ := ih (i + 1) m' (v * (jpow E Z s (Nat.nth Nat.Prime i) / (jpow E Z s (Nat.nth Nat.Prime i) - 1))) (by omega) b
      refine ⟨K, by omega, by omega, ?_, ?_⟩
      · rw [k3, Finset.prod_eq_prod_Ico_succ_bot (by omega : i < K), ← mul_assoc]
        rfl
      · rcases k4 with h | ⟨h, h'⟩
        · left; omega
        · right; exact ⟨by omega, h'⟩

/-- When the product is used, the last prime is large enough. -/
theorem usePrimes_spec {E : RealEnv} (t0 : 10 ≤ E.tol) (t1 : E.tol ≤ 2 ^ 40) {Z : ZEnv ℝ} {s : ℝ} (hs : 0 < s) (h : Fn.usePrimes (realArith E) Z s = true)
    (hD : |((Z.toD s : ℚ) : ℝ) - s| ≤ s / 2 ^ 50) (hL : |((Z.lgp : ℚ) : ℝ) - Real.logb 10 (Nat.nth Nat.Prime 299)| ≤ 1 / 2 ^ 50) :
    (10 : ℝ) ^ E.tol ≤ 2 * (Nat.nth Nat.Prime 299 : ℝ) ^ s ∧ 2 ≤ s := by
  obtain ⟨P, hP⟩ : ∃ P : ℕ, P = Nat.nth Nat.Prime 299 := ⟨_, rfl⟩
  have pb := prime300
  rw [← hP] at hL pb ⊢
  have P1 : (299 : ℝ) ≤ P := by exact_mod_cast pb.1
  have P2 : (P : ℝ) ≤ 2000 := by exact_mod_cast pb.2
  obtain ⟨L, hLd⟩ : ∃ L : ℝ, L = Real.logb 10 P := ⟨_, rfl⟩
  rw [← hLd] at hL
  have L1 : 2 ≤ L := by
    rw [hLd, Real.le_logb_iff_rpow_le (by norm_num) (by linarith)]
    norm_num; linarith
  have L2 : L ≤ 4 := by
    rw [hLd, Real.logb_le_iff_le_rpow (by norm_num) (by linarith)]
    norm_num; linarith
  unfold Fn.usePrimes at h
  rw [Bool.and_eq_true, decide_eq_true_eq, decide_eq_true_eq, show (realArith E).tol = E.tol from rfl] at h
  obtain ⟨-, h2⟩ := h
  generalize Z.toD s = d at *
  have dl := (abs_le.1 hD).1
  have du := (abs_le.1 hD).2
  have d0r : (0 : ℝ) < (d : ℝ) := by
    have : s / 2 ^ 50 ≤ s / 2 := by apply div_le_div_of_nonneg_left hs.le <;> norm_num
    linarith
  have d0 : 0 < d := by exact_mod_cast d0r
  have q0 : (0 : ℚ) ≤ (E.tol : ℚ) / d := by
    have : (0 : ℚ) ≤ E.tol := by exact_mod_cast (by omega)
    positivity
  have er := (abs_le.1 (rnd_err q0)).1
  have tq : (E.tol : ℚ) / d * (1 - 1 / 2 ^ 53) < Z.lgp := by
    have : (E.tol : ℚ) / d * (1 - 1 / 2 ^ 53) = (E.tol : ℚ) / d - (E.tol : ℚ) / d / 2 ^ 53 := by ring
    linarith
  have tr : (E.tol : ℝ) / d * (1 - 1 / 2 ^ 53) < (Z.lgp : ℝ) := by
    have := (Rat.cast_lt (K := ℝ)).2 tq
    push_cast at this
    exact this
  have lu := (abs_le.1 hL).2
  have T0 : (10 : ℝ) ≤ E.tol := by exact_mod_cast t0
  have T1 : (E.tol : ℝ) ≤ 2 ^ 40 := by exact_mod_cast t1
  have key : (E.tol : ℝ) * (1 - 1 / 2 ^ 53) < (L + 1 / 2 ^ 50) * (s * (1 + 1 / 2 ^ 50)) := by
    have a : (E.tol : ℝ) * (1 - 1 / 2 ^ 53) < (Z.lgp : ℝ) * d := by
      rw [div_mul_eq_mul_div, div_lt_iff₀ d0r] at tr
      exact tr
    have b : (Z.lgp : ℝ) * d ≤ (L + 1 / 2 ^ 50) * (s * (1 + 1 / 2 ^ 50)) := by
      apply mul_le_mul (by linarith) _ d0r.le (by positivity)
      have : s / 2 ^ 50 = s * (1 / 2 ^ 50) := by ring
      linarith
    linarith
  have sL : (E.tol : ℝ) - 1 / 10 ≤ s * L := by
    by_cases hb : s ≤ 2 ^ 40
    · have : s * (1 / 2 ^ 50) ≤ 1 / 1000 := by
        have := mul_le_mul_of_nonneg_right hb (show (0 : ℝ) ≤ 1 / 2 ^ 50 by positivity)
        norm_num at this ⊢
        linarith
      have e : (L + 1 / 2 ^ 50) * (s * (1 + 1 / 2 ^ 50)) = s * L + L * (s * (1 / 2 ^ 50)) + s * (1 / 2 ^ 50) * (1 + 1 / 2 ^ 50) := by ring
      have m1 : L * (s * (1 / 2 ^ 50)) ≤ 4 * (1 / 1000) := mul_le_mul L2 this (by positivity) (by norm_num)
      have m2 : s * (1 / 2 ^ 50) * (1 + 1 / 2 ^ 50) ≤ 1 / 1000 * 2 := mul_le_mul this (by norm_num) (by positivity) (by norm_num)
      have m3 : (E.tol : ℝ) * (1 / 2 ^ 53) ≤ 1 / 1000 := by
        have := mul_le_mul_of_nonneg_right T1 (show (0 : ℝ) ≤ 1 / 2 ^ 53 by positivity)
        norm_num at this ⊢
        linarith
      linarith
    · push Not at hb
      nlinarith
  have lg : (P : ℝ) ^ s = (10 : ℝ) ^ (s * L) := by
    rw [mul_comm, Real.rpow_mul (by norm_num), hLd, Real.rpow_logb (by norm_num) (by norm_num) (by linarith)]
  refine ⟨?_, by nlinarith⟩
  rw [lg]
  have : (10 : ℝ) ^ E.tol = (10 : ℝ) ^ ((E.tol : ℝ) - 1 / 10) * (10 : ℝ) ^ (1 / 10 : ℝ) := by
    rw [← Real.rpow_add (by norm_num), sub_add_cancel, Real.rpow_intCast]
  rw [this, mul_comm]
  have c : (10 : ℝ) ^ (1 / 10 : ℝ) ≤ 2 := by
    have : (10 : ℝ) ^ (1 / 10 : ℝ) ≤ ((2 : ℝ) ^ (10 : ℝ)) ^ (1 / 10 : ℝ) := Real.rpow_le_rpow (by norm_num) (by norm_num) (by norm_num)
    rw [← Real.rpow_mul (by norm_num)] at this
    norm_num at this ⊢
    exact this
  exact mul_le_mul c (Real.rpow_le_rpow_of_exponent_le (by norm_num) sL) (by positivity) (by norm_num)

theorem pow35 {ε : ℝ} (e0 : 0 ≤ ε) (e1 : ε ≤ 1 / 100000) : ∀ k : ℕ, k ≤ 300 → (1 + 35 * ε) ^ k ≤ 1 + k * (49 * ε) := by
  intro k
  induction k with
  | zero => simp
  | succ k ih =>
    intro hk
    have k3 : (k : ℝ) ≤ 299 := by exact_mod_cast (show k ≤ 299 by omega)
    have t2 := mul_le_mul_of_nonneg_right (ih (by omega)) (show (0 : ℝ) ≤ 1 + 35 * ε by linarith)
    rw [pow_succ]
    push_cast
    have ke : (k : ℝ) * ε ≤ 299 * (1 / 100000) := mul_le_mul k3 e1 e0 (by norm_num)
    have : (k : ℝ) * ε * ε ≤ 299 * (1 / 100000) * ε := mul_le_mul_of_nonneg_right ke e0
    refine t2.trans ?_
    rw [show (1 + (k : ℝ) * (49 * ε)) * (1 + 35 * ε) = 1 + k * (49 * ε) + 35 * ε + 1715 * (k * ε * ε) by ring]
    linarith

/-- C87: the product over the primes. -/
theorem C87_primes_partial {E : RealEnv} (t0 : 10 ≤ E.tol) (t1 : E.tol ≤ 2 ^ 40) {Z : ZEnv ℝ} (hd : Z.data = primeTable) {s : ℝ} (hs : 0 < s)
    (hn : NotSimple Z s) (hp : Fn.usePrimes (realArith E) Z s = true)
    (hD : |((Z.toD s : ℚ) : ℝ) - s| ≤ s / 2 ^ 50) (hL : |((Z.lgp : ℚ) : ℝ) - Real.logb 10 (Nat.nth Nat.Prime 299)| ≤ 1 / 2 ^ 50) :
    ∃ r, Fn.zeta (realArith E) Z s = some r ∧ ∀ ε, 0 ≤ ε → ε ≤ 1 / 100000 →
      (∀ n : ℕ, n = 1 ∨ n.Prime → n ≤ 2000 → |Fn.primePow (realArith E) n s - (n : ℝ) ^ s| ≤ ε * (n : ℝ) ^ s) →
      |r - zetaR s| ≤ (14700 * ε + 8000 * (10 : ℝ) ^ (-E.tol)) * zetaR s := by
  obtain ⟨big, s2⟩ := usePrimes_spec t0 t1 hs hp hD hL
  unfold Fn.zeta
  rw [zetaF_pos E hs hn, hp, if_pos rfl]
  obtain ⟨K, k1, k2, k3, k4⟩ := primeProd_real E hd s 300 0 [] 1 (by norm_num) (fun n w h => by simp at h)
  have tk : Z.data.take 300 = (List.range' 0 300).map (Nat.nth Nat.Prime) := by
    rw [hd, primeTable, ← List.map_take, List.take_range, List.range_eq_range']
    rfl
  rw [tk, k3]
  refine ⟨_, rfl, fun ε e0 e1 hε => ?_⟩
  rw [one_mul, ← Finset.range_eq_Ico]
  have inf := Nat.infinite_setOfPred_prime
  have near : ∀ k, k < 300 → |jpow E Z s (Nat.nth Nat.Prime k) - (Nat.nth Nat.Prime k : ℝ) ^ s| ≤ 35 * ε * (Nat.nth Nat.Prime k : ℝ) ^ s := by
    intro k hk
    have p1 : (Nat.nth Nat.Prime k).Prime := Nat.nth_mem_of_infinite inf k
    have p2 : Nat.nth Nat.Prime k ≤ 2000 := le_trans ((Nat.nth_monotone inf) (by omega)) prime300.2
    exact (C84_jpow E hd s p1.one_lt.le (by omega)).2 ε e0 (by linarith) fun n h h' => hε n h (by omega)
  have K1 : 1 ≤ K := by rcases k4 with h | ⟨h, -⟩ <;> omega
  -- the truncated product
  have pm : Nat.nth Nat.Prime (K - 1) ≤ Nat.nth Nat.Prime K := (Nat.nth_monotone inf) (by omega)
  have p2 : 2 ≤ Nat.nth Nat.Prime (K - 1) := (Nat.nth_mem_of_infinite inf (K - 1)).two_le
  have pu : Nat.nth Nat.Prime (K - 1) ≤ 2000 := le_trans ((Nat.nth_monotone inf) (by omega)) prime300.2
  obtain ⟨z1, z2⟩ := euler_near s2 (M := Nat.nth Nat.Prime K) (by omega)
  have Q := prod_primes (fun p => (p : ℝ) ^ s / ((p : ℝ) ^ s - 1)) K
  rw [← Q] at z1 z2
  have zone : 1 ≤ zetaR s := by
    have := (zeta_tail_real s2 (K := 2) le_rfl).1
    rw [Finset.sum_range_succ, Finset.sum_range_one] at this
    have e : 1 / ((0 : ℕ) : ℝ) ^ s = 0 := by simp [Real.zero_rpow hs.ne']
    rw [e] at this
    simpa [zetaR] using this
  have W : (10 : ℝ) ^ E.tol ≤ 2 * (Nat.nth Nat.Prime (K - 1) : ℝ) ^ s := by
    rcases k4 with h | ⟨h, h'⟩
    · rw [show K - 1 = 299 by omega]; exact big
    · have n := near (K - 1) (by omega)
      generalize jpow E Z s (Nat.nth Nat.Prime (K - 1)) = w at *
      have pw : (0 : ℝ) < (Nat.nth Nat.Prime (K - 1) : ℝ) ^ s := by
        have : (0 : ℝ) < (Nat.nth Nat.Prime (K - 1) : ℝ) := by exact_mod_cast (by omega)
        positivity
      generalize (Nat.nth Nat.Prime (K - 1) : ℝ) ^ s = V at *
      have w1 : |w| ≤ 2 * V := by
        have := abs_sub_abs_le_abs_sub w V
        rw [abs_of_pos pw] at this
        have : 35 * ε * V ≤ 1 * V := mul_le_mul_of_nonneg_right (by linarith) pw.le
        linarith
      refine le_trans ?_ w1
      have w0 : w ≠ 0 := by
        rintro rfl
        rw [abs_zero, ordR_zero] at h'
        omega
      have := ordR_le (x := |w|) (by simpa using w0)
      rw [abs_abs] at this
      exact le_trans (zpow_le_zpow_right₀ (by norm_num) (by omega)) this
  have T : 2 * (Nat.nth Nat.Prime K : ℝ) * (1 / (Nat.nth Nat.Prime K : ℝ) ^ s) ≤ 8000 * (10 : ℝ) ^ (-E.tol) := by
    have a0 : (2 : ℝ) ≤ (Nat.nth Nat.Prime (K - 1) : ℝ) := by exact_mod_cast p2
    have a1 : (Nat.nth Nat.Prime (K - 1) : ℝ) ≤ 2000 := by exact_mod_cast pu
    have a2 : (Nat.nth Nat.Prime (K - 1) : ℝ) ≤ (Nat.nth Nat.Prime K : ℝ) := by exact_mod_cast pm
    generalize (Nat.nth Nat.Prime (K - 1) : ℝ) = p at *
    generalize (Nat.nth Nat.Prime K : ℝ) = q at *
    have e : ∀ x : ℝ, 0 < x → x * (1 / x ^ s) = 1 / x ^ (s - 1) := by
      intro x hx
      rw [Real.rpow_sub hx, Real.rpow_one]
      field_simp
    have b : q * (1 / q ^ s) ≤ p * (1 / p ^ s) := by
      rw [e q (by linarith), e p (by linarith)]
      refine one_div_le_one_div_of_le (by positivity) (Real.rpow_le_rpow (by linarith) a2 (by linarith))
    have c : 1 / p ^ s ≤ 2 * (10 : ℝ) ^ (-E.tol) := by
      rw [zpow_neg, div_le_iff₀ (by positivity), mul_assoc, mul_comm _ (p ^ s), ← mul_assoc, ← div_eq_mul_inv, le_div_iff₀ (by positivity), one_mul]
      exact W
    have : p * (1 / p ^ s) ≤ 2000 * (2 * (10 : ℝ) ^ (-E.tol)) := mul_le_mul a1 c (by positivity) (by norm_num)
    linarith
  -- the errors of the factors
  have F : |∏ k ∈ Finset.range K, eulerFac E Z s k - ∏ k ∈ Finset.range K, ((Nat.nth Nat.Prime k : ℝ) ^ s / ((Nat.nth Nat.Prime k : ℝ) ^ s - 1))| ≤
      14700 * ε * ∏ k ∈ Finset.range K, ((Nat.nth Nat.Prime k : ℝ) ^ s / ((Nat.nth Nat.Prime k : ℝ) ^ s - 1)) := by
    have lp : ∀ g : ℕ → ℝ, (((List.range K).map fun k => (k, 1)).map fun x : ℕ × ℕ => g x.1 ^ x.2).prod = ∏ k ∈ Finset.range K, g k := by
      intro g
      rw [List.map_map, Finset.prod_eq_multiset_prod, Finset.range_val, Multiset.range, Multiset.map_coe, Multiset.prod_coe]
      simp [Function.comp_def]
    obtain ⟨f1, f2⟩ := prod_near (f := eulerFac E Z s) (g := fun k => (Nat.nth Nat.Prime k : ℝ) ^ s / ((Nat.nth Nat.Prime k : ℝ) ^ s - 1)) (ε := 35 * ε) (by positivity)
      ((List.range K).map fun k => (k, 1)) (by
        intro x hx
        obtain ⟨k, hk, rfl⟩ := List.mem_map.1 hx
        have hk := List.mem_range.1 hk
        have n := near k (by omega)
        have V4 : 4 ≤ (Nat.nth Nat.Prime k : ℝ) ^ s := by
          have q2 : (2 : ℝ) ≤ (Nat.nth Nat.Prime k : ℝ) := by exact_mod_cast (Nat.nth_mem_of_infinite inf k).two_le
          refine le_trans ?_ (Real.rpow_le_rpow (by norm_num) q2 hs.le)
          refine le_trans ?_ (Real.rpow_le_rpow_of_exponent_le (by norm_num) s2)
          norm_num
        simp only [eulerFac]
        generalize jpow E Z s (Nat.nth Nat.Prime k) = w at *
        generalize (Nat.nth Nat.Prime k : ℝ) ^ s = V at *
        have wl : V * (9 / 10) ≤ w := by
          have := (abs_le.1 n).1
          have : 35 * ε * V ≤ 1 / 10 * V := mul_le_mul_of_nonneg_right (by linarith) (by linarith)
          linarith
        refine ⟨div_pos (by linarith) (by linarith), ?_⟩
        have d1 : 0 < w - 1 := by linarith
        have d2 : 0 < V - 1 := by linarith
        rw [div_sub_div _ _ d1.ne' d2.ne', abs_div, abs_of_pos (show 0 < (w - 1) * (V - 1) by positivity), div_le_iff₀ (by positivity),
          show w * (V - 1) - (w - 1) * V = -(w - V) by ring, abs_neg]
        refine n.trans ?_
        rw [show 35 * ε * (V / (V - 1)) * ((w - 1) * (V - 1)) = 35 * ε * V * (w - 1) by field_simp]
        exact le_mul_of_one_le_right (by positivity) (by linarith))
    rw [lp (eulerFac E Z s), lp (fun k => (Nat.nth Nat.Prime k : ℝ) ^ s / ((Nat.nth Nat.Prime k : ℝ) ^ s - 1))] at f2
    rw [lp (fun k => (Nat.nth Nat.Prime k : ℝ) ^ s / ((Nat.nth Nat.Prime k : ℝ) ^ s - 1))] at f1
    refine f2.trans (mul_le_mul_of_nonneg_right ?_ f1.le)
    have sn : (((List.range K).map fun k => (k, 1)).map Prod.snd).sum = K := by simp [Function.comp_def]
    rw [sn]
    have b1 : (1 + 35 * ε) ^ K ≤ (1 + 35 * ε) ^ 300 := pow_le_pow_right₀ (by linarith) (by omega)
    have := pow35 e0 e1 300 le_rfl
    push_cast at this
    linarith
  have tri := abs_sub_le (∏ k ∈ Finset.range K, eulerFac E Z s k) (∏ k ∈ Finset.range K, ((Nat.nth Nat.Prime k : ℝ) ^ s / ((Nat.nth Nat.Prime k : ℝ) ^ s - 1))) (zetaR s)
  generalize ∏ k ∈ Finset.range K, ((Nat.nth Nat.Prime k : ℝ) ^ s / ((Nat.nth Nat.Prime k : ℝ) ^ s - 1)) = q at *
  change q ≤ zetaR s at z1
  change zetaR s ≤ _ at z2
  have h1 : |q - zetaR s| ≤ 8000 * (10 : ℝ) ^ (-E.tol) := by rw [abs_le]; constructor <;> linarith
  have tp : (0 : ℝ) < (10 : ℝ) ^ (-E.tol) := by positivity
  have h2 : 14700 * ε * q ≤ 14700 * ε * zetaR s := mul_le_mul_of_nonneg_left z1 (by positivity)
  have h3 : 8000 * (10 : ℝ) ^ (-E.tol) ≤ 8000 * (10 : ℝ) ^ (-E.tol) * zetaR s := le_mul_of_one_le_right (by positivity) zone
  rw [add_mul]
  linarith

/-- C87 for integers: the powers are exact. -/
theorem C87_primes_integer {E : RealEnv} (t0 : 10 ≤ E.tol) (t1 : E.tol ≤ 2 ^ 40) {Z : ZEnv ℝ} (hd : Z.data = primeTable) {n : ℕ} (h1 : 1 ≤ n)
    (hsf : Fn.hasSimple Z n = false) (h31 : n < 2 ^ 31) (hz : Fn.zetaIsOne (realArith E) Z n = false) (hp : Fn.usePrimes (realArith E) Z (n : ℝ) = true)
    (hD : |((Z.toD (n : ℝ) : ℚ) : ℝ) - n| ≤ (n : ℝ) / 2 ^ 50) (hL : |((Z.lgp : ℚ) : ℝ) - Real.logb 10 (Nat.nth Nat.Prime 299)| ≤ 1 / 2 ^ 50) :
    ∃ r, Fn.zetaInt (realArith E) Z n = some r ∧ |r - zetaR n| ≤ 8000 * (10 : ℝ) ^ (-E.tol) * zetaR n := by
  have tr : truncR ((n : ℕ) : ℝ) = n := by have := truncR_int n; push_cast at this; exact this
  have hn2 : (0 : ℝ) < (n : ℕ) := by exact_mod_cast h1
  obtain ⟨r, r1, r2⟩ := C87_primes_partial t0 t1 hd (s := (n : ℝ)) hn2 (Or.inr (by
    rw [tr, show min (max (n : ℤ) (-2147483648)) 2147483647 = n by omega]; exact hsf)) hp hD hL
  refine ⟨r, ?_, ?_⟩
  · unfold Fn.zetaInt
    rw [hz, hsf]
    simp only [Bool.not_false, if_true, Bool.false_eq_true, if_false]
    ra_simp
    push_cast
    exact r1
  · have h := r2 0 le_rfl (by norm_num) (fun k _ _ => by
      have := primePow_int E k (k := n) (by rw [abs_of_nonneg (by omega)]; omega)
      push_cast at this
      rw [this]; simp)
    simpa using h

/-- The product is used for 35 with 101 digits (tolerance 112). -/
example {E : RealEnv} (t0 : E.tol = 112) {Z : ZEnv ℝ} (hd : Z.data = primeTable) (h3 : Z.toD 35 = 35) (l2 : Z.lg2 ≤ 1) (l0 : 0 ≤ Z.lg2)
    (lp : 32981 / 10000 ≤ Z.lgp) (hL : |((Z.lgp : ℚ) : ℝ) - Real.logb 10 (Nat.nth Nat.Prime 299)| ≤ 1 / 2 ^ 50) :
    ∃ r, Fn.zetaInt (realArith E) Z 35 = some r ∧ |r - zetaR 35| ≤ 8000 * (10 : ℝ) ^ (-112 : ℤ) * zetaR 35 := by
  have r35 : rnd 35 = 35 := by decide +kernel
  have hz : Fn.zetaIsOne (realArith E) Z ((35 : ℕ) : ℤ) = false := by
    unfold Fn.zetaIsOne
    rw [show (realArith E).tol = E.tol from rfl, t0]
    have a : rnd (rnd (((35 : ℕ) : ℤ) : ℚ) * Z.lg2) ≤ 35 := by
      norm_num
      rw [r35]
      refine le_trans (rnd_mono (show (0 : ℚ) ≤ 35 * Z.lg2 by linarith) (show 35 * Z.lg2 ≤ 35 by linarith)) r35.le
    simp
    norm_num at a ⊢
    linarith
  have hp : Fn.usePrimes (realArith E) Z ((35 : ℕ) : ℝ) = true := by
    unfold Fn.usePrimes
    rw [show (realArith E).tol = E.tol from rfl, t0, show ((35 : ℕ) : ℝ) = 35 by norm_num, h3]
    have : rnd (((112 : ℤ) : ℚ) / 35) < 32981 / 10000 := by decide +kernel
    rw [Bool.and_eq_true, decide_eq_true_eq, decide_eq_true_eq]
    exact ⟨by norm_num, lt_of_lt_of_le this lp⟩
  obtain ⟨r, r1, r2⟩ := C87_primes_integer (E := E) (by omega) (by omega) hd (n := 35) (by norm_num) (by unfold Fn.hasSimple; simp) (by norm_num) hz hp
    (by push_cast; rw [h3]; norm_num) hL
  rw [t0] at r2
  exact ⟨r, r1, by exact_mod_cast r2⟩

end EFX.Props
