import Mathlib.Analysis.SpecificLimits.Basic
import Mathlib.Topology.Algebra.InfiniteSum.NatInt
import Verif.Model.ElementaryR
/-! The series loops in exact arithmetic. -/

namespace EFX
open Finset

theorem ordR_le {x : ℝ} (h : x ≠ 0) : (10 : ℝ) ^ ordR x ≤ |x| := by
  unfold ordR; rw [if_neg h]
  exact Int.zpow_log_le_self (by norm_num) (abs_pos.2 h)

theorem lt_ordR {x : ℝ} (h : x ≠ 0) : |x| < (10 : ℝ) ^ (ordR x + 1) := by
  unfold ordR; rw [if_neg h]
  exact Int.lt_zpow_succ_log_self (by norm_num) _

theorem ordR_zero : ordR 0 = 0 := by unfold ordR; rw [if_pos rfl]

theorem ordR_lt {x : ℝ} (h : x ≠ 0) {k : ℤ} : ordR x < k ↔ |x| < (10 : ℝ) ^ k := by
  constructor
  · intro hk
    exact lt_of_lt_of_le (lt_ordR h) (zpow_le_zpow_right₀ (by norm_num) (by omega))
  · intro hk
    exact (zpow_lt_zpow_iff_right₀ (by norm_num : (1 : ℝ) < 10)).1 (lt_of_le_of_lt (ordR_le h) hk)

/-- The test that ends a series: the order of the term is more than `t` below the order of the sum. -/
def Stops (t : ℤ) (a s : ℝ) : Prop := ordR a - ordR s < -t

/-- At the stop the term is at most `10^-t` of the sum. -/
theorem stops_le {t : ℤ} {a s : ℝ} (hs : s ≠ 0) (h : Stops t a s) : |a| ≤ (10 : ℝ) ^ (-t) * |s| := by
  by_cases ha : a = 0
  · rw [ha, abs_zero]; positivity
  · have h1 := lt_ordR ha
    have h2 := ordR_le hs
    unfold Stops at h
    have h3 : (10 : ℝ) ^ (ordR a + 1) ≤ (10 : ℝ) ^ (-t + ordR s) := zpow_le_zpow_right₀ (by norm_num) (by omega)
    rw [zpow_add₀ (by norm_num : (10 : ℝ) ≠ 0) (-t)] at h3
    have h4 : (10 : ℝ) ^ (-t) * (10 : ℝ) ^ ordR s ≤ (10 : ℝ) ^ (-t) * |s| :=
      mul_le_mul_of_nonneg_left h2 (by positivity)
    linarith

/-- A term below `10^-(t+2)` beside a sum of at least one tenth ends the loop. -/
theorem stops_of {t : ℤ} {a s : ℝ} (ha : a ≠ 0) (h1 : |a| < (10 : ℝ) ^ (-(t + 1))) (h2 : 1 / 10 ≤ |s|) : Stops t a s := by
  have hs : s ≠ 0 := by
    rintro rfl
    rw [abs_zero] at h2; norm_num at h2
  have e1 : ordR a < -(t + 1) := (ordR_lt ha).2 h1
  have e2 : -1 ≤ ordR s := by
    by_contra hc
    have := (ordR_lt hs (k := -1)).1 (by omega)
    norm_num at this h2
    linarith
  unfold Stops
  omega

/-- Partial sums. -/
noncomputable def psum (a : ℕ → ℝ) (m : ℕ) : ℝ := ∑ i ∈ range m, a i

theorem psum_succ (a : ℕ → ℝ) (m : ℕ) : psum a (m + 1) = psum a m + a m := Finset.sum_range_succ _ _

/-- The loop of a series returns the first partial sum whose next term meets the test, if there is one among the
rounds. -/
theorem series_spec {E : RealEnv} {σ : Type} {step : ℤ → σ → σ × ℝ} (a : ℕ → ℝ) (J : ℕ → σ → Prop)
    (hstep : ∀ (n : ℕ) s, J n s → (step n s).2 = a n ∧ J (n + 1) (step n s).1) :
    ∀ (k n : ℕ) (s : σ), J n s → (∃ m, n ≤ m ∧ m < n + k ∧ 20 < m ∧ Stops E.tol (a m) (psum a m)) →
      ∃ m, n ≤ m ∧ 20 < m ∧ Stops E.tol (a m) (psum a m) ∧
        Fn.seriesLoop (realArith E) step k n s (psum a n) = psum a m
  | 0, n, s, _, ⟨m, h1, h2, _⟩ => by omega
  | k + 1, n, s, hj, ⟨m, h1, h2, h3, h4⟩ => by
    obtain ⟨e1, e2⟩ := hstep n s hj
    rw [Fn.seriesLoop]
    by_cases hc : (n : ℤ) > 20 ∧ (realArith E).order (step n s).2 - (realArith E).order (psum a n) < -(realArith E).tol
    · rw [if_pos hc]
      refine ⟨n, le_refl _, by omega, ?_, rfl⟩
      have := hc.2
      rw [e1] at this
      exact this
    · rw [if_neg hc]
      have hne : m ≠ n := by
        rintro rfl
        apply hc
        refine ⟨by omega, ?_⟩
        rw [e1]
        exact h4
      obtain ⟨m', g1, g2, g3, g4⟩ := series_spec a J hstep k (n + 1) _ e2 ⟨m, by omega, by omega, h3, h4⟩
      refine ⟨m', by omega, g2, g3, ?_⟩
      rw [← g4]
      have : (realArith E).add (psum a n) (step n s).2 = psum a (n + 1) := by
        rw [e1, psum_succ]; rfl
      rw [this]
      push_cast
      rfl

/-- Without a stop the result is NaN. -/
theorem series_nan {E : RealEnv} {σ : Type} {step : ℤ → σ → σ × ℝ} (a : ℕ → ℝ) (J : ℕ → σ → Prop)
    (hstep : ∀ (n : ℕ) s, J n s → (step n s).2 = a n ∧ J (n + 1) (step n s).1) :
    ∀ (k n : ℕ) (s : σ), J n s → (∀ m, n ≤ m → m < n + k → 20 < m → ¬ Stops E.tol (a m) (psum a m)) →
      Fn.seriesLoop (realArith E) step k n s (psum a n) = E.nan
  | 0, n, s, _, _ => rfl
  | k + 1, n, s, hj, h => by
    obtain ⟨e1, e2⟩ := hstep n s hj
    rw [Fn.seriesLoop]
    rw [if_neg]
    · have := series_nan a J hstep k (n + 1) _ e2 (fun m h1 h2 h3 => h m (by omega) (by omega) h3)
      rw [← this]
      have : (realArith E).add (psum a n) (step n s).2 = psum a (n + 1) := by
        rw [e1, psum_succ]; rfl
      rw [this]
      push_cast
      rfl
    · rintro ⟨c1, c2⟩
      rw [e1] at c2
      exact h n (le_refl _) (by omega) (by omega) c2

/-- If the terms at least halve from `m` on, the sum of the series differs from the partial sum by at most two terms. -/
theorem tail_le {a : ℕ → ℝ} {L : ℝ} (h : HasSum a L) {m : ℕ} (hr : ∀ i, m ≤ i → |a (i + 1)| ≤ |a i| / 2) :
    |L - psum a m| ≤ 2 * |a m| := by
  have ht := h.tendsto_sum_nat
  have ht2 : Filter.Tendsto (fun j => psum a (m + j)) Filter.atTop (nhds L) := by
    have := ht.comp (Filter.tendsto_add_atTop_nat m)
    refine this.congr fun j => ?_
    simp only [Function.comp, psum]
    rw [add_comm]
  have hd : ∀ j, |a (m + j)| ≤ |a m| * (1 / 2) ^ j := by
    intro j
    induction j with
    | zero => simp
    | succ j ih =>
      have := hr (m + j) (by omega)
      rw [pow_succ]
      rw [← add_assoc]
      linarith
  have := dist_le_of_le_geometric_of_tendsto (1 / 2 : ℝ) |a m| (by norm_num) (f := fun j => psum a (m + j)) (fun j => by
    rw [Real.dist_eq, ← add_assoc, psum_succ]
    rw [show psum a (m + j) - (psum a (m + j) + a (m + j)) = -a (m + j) by ring, abs_neg]
    exact hd j) ht2 0
  rw [Real.dist_eq, abs_sub_comm] at this
  simp only [add_zero, pow_zero, mul_one] at this
  calc |L - psum a m| ≤ |a m| / (1 - 1 / 2) := this
    _ = 2 * |a m| := by ring

end EFX
