import Verif.Lemmas.RealHyp
/-! C63: the hypergeometric functions. -/

namespace EFX.Props
open EFX

/-- C63, exact arithmetic.  Each hypergeometric function returns a partial sum of the hypergeometric series of more than 20
terms whose next term is at least `tolerance` decimal orders below it, if one is found within 9999 terms, and NaN if not.
(`SeriesOf`, terms `t0f0` … `tpfq`.) -/
theorem C63_partial_sums (E : RealEnv) (a b c x : ℝ) (la lb : List ℝ) :
    SeriesOf E (t0f0 x) (Fn.hyp0f0 (realArith E) x) ∧ SeriesOf E (t0f1 b x) (Fn.hyp0f1 (realArith E) b x) ∧
    SeriesOf E (t1f0 a x) (Fn.hyp1f0 (realArith E) a x) ∧ SeriesOf E (t1f1 a b x) (Fn.hyp1f1 (realArith E) a b x) ∧
    SeriesOf E (t2f0 a b x) (Fn.hyp2f0 (realArith E) a b x) ∧ SeriesOf E (t2f1 a b c x) (Fn.hyp2f1 (realArith E) a b c x) ∧
    SeriesOf E (tpfq la lb x) (Fn.hypPfq (realArith E) la lb x) :=
  ⟨hyp0f0_real E x, hyp0f1_real E b x, hyp1f0_real E a x, hyp1f1_real E a b x, hyp2f0_real E a b x, hyp2f1_real E a b c x,
    hypPfq_real E la lb x⟩

/-- C63, remainder.  If the series converges to `L` and its terms at least halve after the 20th, then a result that is not
NaN differs from `L` by at most `2 * 10^-tolerance` of the result. -/
theorem C63_remainder {E : RealEnv} {t : ℕ → ℝ} {r L : ℝ} (h : SeriesOf E t r) (hL : HasSum t L)
    (hh : ∀ i, 20 < i → |t (i + 1)| ≤ |t i| / 2) (hn : r ≠ E.nan) (h0 : r ≠ 0) :
    |L - r| ≤ 2 * (10 : ℝ) ^ (-E.tol) * |r| := by
  by_cases hex : ∃ m, 20 < m ∧ m < 10000 ∧ Stops E.tol (t m) (psum t m)
  · obtain ⟨m, m1, m2, m3⟩ := h.conv hex
    have h1 := tail_le hL (m := m) (fun i hi => hh i (by omega))
    rw [m3] at h0 ⊢
    have h2 := stops_le h0 m2
    linarith
  · exact absurd (h.fail (fun m h1 h2 h3 => hex ⟨m, h1, h2, h3⟩)) hn

theorem poch_terminates {n m : ℕ} (h : n < m) : poch (-(n : ℝ)) m = 0 := by
  unfold poch
  exact Finset.prod_eq_zero (Finset.mem_range.2 h) (by ring)

/-- The partial sums of a terminated series do not change. -/
theorem psum_const {t : ℕ → ℝ} {n : ℕ} (h : ∀ m, n < m → t m = 0) : ∀ m, n < m → psum t m = psum t (n + 1) := by
  intro m hm
  obtain ⟨k, rfl⟩ : ∃ k, m = n + 1 + k := ⟨m - n - 1, by omega⟩
  induction k with
  | zero => rfl
  | succ k ih =>
    rw [← add_assoc, psum_succ, ih (by omega), h _ (by omega), add_zero]

/-- A series that terminates within 20 terms is never accepted: the order of the zero term counts as 0. -/
theorem terminating_nan {E : RealEnv} {t : ℕ → ℝ} {r : ℝ} (h : SeriesOf E t r) {n : ℕ} (hn : n ≤ 20) (ht : ∀ m, n < m → t m = 0)
    (hs : |psum t (n + 1)| < (10 : ℝ) ^ (E.tol + 1)) (ht0 : 0 ≤ E.tol) : r = E.nan := by
  apply h.fail
  intro m hm _ hst
  rw [ht m (by omega), psum_const ht m (by omega)] at hst
  unfold Stops at hst
  rw [ordR_zero] at hst
  by_cases h0 : psum t (n + 1) = 0
  · rw [h0, ordR_zero] at hst; omega
  · have := (ordR_lt h0).2 hs
    omega

/-- C63 refuted for terminating series: if an upper parameter of `2F1`, `1F1` or `1F0` is `0, -1, …, -20`, or the argument
is zero, the function is a polynomial with an exactly computed value below `10^(tolerance + 1)`, yet NaN is returned. -/
theorem C63_terminating_refuted (E : RealEnv) (ht : 0 ≤ E.tol) (n : ℕ) (hn : n ≤ 20) (b c x : ℝ) :
    (|psum (t2f1 (-n) b c x) (n + 1)| < (10 : ℝ) ^ (E.tol + 1) → Fn.hyp2f1 (realArith E) (-n) b c x = E.nan) ∧
    (|psum (t1f1 (-n) b x) (n + 1)| < (10 : ℝ) ^ (E.tol + 1) → Fn.hyp1f1 (realArith E) (-n) b x = E.nan) ∧
    (|psum (t1f0 (-n) x) (n + 1)| < (10 : ℝ) ^ (E.tol + 1) → Fn.hyp1f0 (realArith E) (-n) x = E.nan) ∧
    Fn.hyp0f0 (realArith E) 0 = E.nan ∧ Fn.hyp0f1 (realArith E) b 0 = E.nan := by
  have one_lt : (1 : ℝ) < (10 : ℝ) ^ (E.tol + 1) := one_lt_zpow₀ (by norm_num) (by omega)
  have x0 : ∀ m, 0 < m → xn 0 m = 0 := by
    intro m hm
    unfold xn
    rw [zero_pow (by omega), zero_div]
  refine ⟨fun h => ?_, fun h => ?_, fun h => ?_, ?_, ?_⟩
  · exact terminating_nan (hyp2f1_real E _ b c x) hn (fun m hm => by unfold t2f1; rw [poch_terminates hm]; ring) h ht
  · exact terminating_nan (hyp1f1_real E _ b x) hn (fun m hm => by unfold t1f1; rw [poch_terminates hm]; ring) h ht
  · exact terminating_nan (hyp1f0_real E _ x) hn (fun m hm => by unfold t1f0; rw [poch_terminates hm]; ring) h ht
  · refine terminating_nan (hyp0f0_real E 0) (n := 0) (by omega) (fun m hm => x0 m hm) ?_ ht
    rw [psum_succ]
    simp only [psum, Finset.range_zero, Finset.sum_empty, zero_add, t0f0, xn_zero, abs_one]
    exact one_lt
  · refine terminating_nan (hyp0f1_real E b 0) (n := 0) (by omega) (fun m hm => by unfold t0f1; rw [x0 m hm, zero_div]) ?_ ht
    rw [psum_succ]
    simp only [psum, Finset.range_zero, Finset.sum_empty, zero_add, t0f1, xn_zero, poch_zero, div_one, abs_one]
    exact one_lt

/-- A case of the refutation: `1F0(-2; 1/2) = (1 - 1/2)^2 = 1/4`, returned as NaN. -/
example (E : RealEnv) (ht : 0 ≤ E.tol) : psum (t1f0 (-(2 : ℕ)) (1 / 2)) 3 = 1 / 4 ∧ Fn.hyp1f0 (realArith E) (-(2 : ℕ)) (1 / 2) = E.nan := by
  have e : psum (t1f0 (-(2 : ℕ)) (1 / 2)) 3 = 1 / 4 := by
    simp only [psum, t1f0, xn, poch]
    norm_num [Finset.sum_range_succ, Finset.prod_range_succ, Nat.factorial]
  refine ⟨e, (C63_terminating_refuted E ht 2 (by norm_num) 1 1 (1 / 2)).2.2.1 ?_⟩
  rw [e]
  have : (1 : ℝ) < (10 : ℝ) ^ (E.tol + 1) := one_lt_zpow₀ (by norm_num) (by omega)
  rw [abs_of_pos (by norm_num)]
  linarith

end EFX.Props
