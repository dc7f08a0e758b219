import Mathlib.NumberTheory.EulerProduct.DirichletLSeries
import Mathlib.NumberTheory.PrimeCounting
import Mathlib.Analysis.PSeries
import Verif.Props.Bern
/-! The product over the primes. -/

namespace EFX.Borw
open Finset

/-- The zeta function of a real argument beyond one. -/
theorem zeta_hasSum {s : ℝ} (hs : 1 < s) : HasSum (fun n : ℕ => 1 / (n : ℝ) ^ s) (riemannZeta s).re ∧ riemannZeta s = ((riemannZeta s).re : ℂ) := by
  have sm := Real.summable_one_div_nat_rpow.2 hs
  have e := zeta_eq_tsum_one_div_nat_cpow (s := (s : ℂ)) (by simpa using hs)
  have e2 : ∀ n : ℕ, 1 / (n : ℂ) ^ (s : ℂ) = ((1 / (n : ℝ) ^ s : ℝ) : ℂ) := by
    intro n
    push_cast
    rw [Complex.ofReal_cpow (by positivity)]
    push_cast
    rfl
  simp_rw [e2] at e
  rw [← Complex.ofReal_tsum] at e
  rw [e, Complex.ofReal_re]
  exact ⟨sm.hasSum, rfl⟩

/-- What is left out of the series. -/
theorem zeta_tail_real {s : ℝ} (hs : 2 ≤ s) {K : ℕ} (hK : 2 ≤ K) :
    ∑ i ∈ range K, 1 / (i : ℝ) ^ s ≤ (riemannZeta s).re ∧ (riemannZeta s).re ≤ ∑ i ∈ range K, 1 / (i : ℝ) ^ s + 2 * K * (1 / (K : ℝ) ^ s) := by
  have h := (zeta_hasSum (s := s) (by linarith)).1
  refine ⟨sum_le_hasSum _ (fun i _ => by positivity) h, ?_⟩
  have K0 : (0 : ℝ) < K := by exact_mod_cast (by omega)
  have s2 : Summable (fun n : ℕ => 1 / (n : ℝ) ^ 2) := Real.summable_one_div_nat_pow.2 (by norm_num)
  have t2 := (Props.zeta_tail (n := 0) hK s2.hasSum).2
  rw [zero_add, ← s2.sum_add_tsum_nat_add K] at t2
  rw [← h.tsum_eq, ← h.summable.sum_add_tsum_nat_add K]
  have c : ∑' i : ℕ, 1 / ((i + K : ℕ) : ℝ) ^ s ≤ 1 / (K : ℝ) ^ (s - 2) * ∑' i : ℕ, 1 / ((i + K : ℕ) : ℝ) ^ 2 := by
    rw [← tsum_mul_left]
    refine Summable.tsum_le_tsum (fun i => ?_) ((summable_nat_add_iff K).2 h.summable) (((summable_nat_add_iff K).2 s2).mul_left _)
    have i0 : (0 : ℝ) < ((i + K : ℕ) : ℝ) := by exact_mod_cast (by omega)
    have : (((i + K : ℕ) : ℝ)) ^ s = ((i + K : ℕ) : ℝ) ^ (s - 2) * ((i + K : ℕ) : ℝ) ^ 2 := by
      rw [← Real.rpow_natCast, ← Real.rpow_add i0]; push_cast; ring_nf
    rw [this, one_div_mul_one_div]
    refine one_div_le_one_div_of_le (by positivity) (mul_le_mul_of_nonneg_right ?_ (by positivity))
    exact Real.rpow_le_rpow K0.le (by push_cast; linarith [show (0 : ℝ) ≤ i by positivity]) (by linarith)
  have e : (K : ℝ) ^ s = (K : ℝ) ^ (s - 2) * (K : ℝ) ^ 2 := by
    rw [← Real.rpow_natCast, ← Real.rpow_add K0]; push_cast; ring_nf
  have := mul_le_mul_of_nonneg_left (show ∑' i : ℕ, 1 / ((i + K : ℕ) : ℝ) ^ 2 ≤ 2 * K * (1 / (K : ℝ) ^ 2) by linarith) (show (0 : ℝ) ≤ 1 / (K : ℝ) ^ (s - 2) by positivity)
  rw [e, ← one_div_mul_one_div]
  linarith

/-- The truncated product as a sum. -/
theorem euler_smooth (f : ℕ →*₀ ℝ) {z : ℝ} (hz : HasSum (fun n => f n) z) (M : ℕ) :
    ∏ p ∈ M.primesBelow, (1 - f p)⁻¹ = ∑' m : M.smoothNumbers, f m := by
  have := EulerProduct.prod_primesBelow_geometric_eq_tsum_smoothNumbers (f := (f : ℕ →* ℝ)) (N := M) hz.summable
  simpa using this
/-- Part of a sum. -/
theorem sum_part (f : ℕ → ℝ) (fn : ∀ n, 0 ≤ f n) {z : ℝ} (hz : HasSum f z) (S : Set ℕ) :
    ∑' m : S, f m ≤ z := by
  rw [← hz.tsum_eq]
  exact hz.summable.tsum_subtype_le f S fn
/-- Part of a sum that has the first terms. -/
theorem sum_first (f : ℕ → ℝ) (fn : ∀ n, 0 ≤ f n) (f0 : f 0 = 0) {z : ℝ} (hz : HasSum f z) (S : Set ℕ) (M : ℕ) (hS : ∀ i, 0 < i → i < M → i ∈ S) :
    ∑ i ∈ range M, f i ≤ ∑' m : S, f m  := by
    rw [tsum_subtype S f]
    have h2 : ∑ i ∈ range M, f i = ∑ i ∈ range M, S.indicator f i := by
      refine sum_congr rfl fun i hi => ?_
      rw [mem_range] at hi
      rcases Nat.eq_zero_or_pos i with rfl | h
      · by_cases h : 0 ∈ S
        · rw [Set.indicator_of_mem h]
        · rw [Set.indicator_of_notMem h, f0]
      · rw [Set.indicator_of_mem (hS i h hi)]
    rw [h2]
    exact (hz.summable.indicator _).sum_le_tsum _ fun i _ => Set.indicator_nonneg (fun n _ => fn n) i

/-- The truncated product lies between the truncated sum and the sum. -/
theorem euler_between (f : ℕ →*₀ ℝ) (fn : ∀ n, 0 ≤ f n) {z : ℝ} (hz : HasSum (fun n => f n) z) (M : ℕ) :
    ∏ p ∈ M.primesBelow, (1 - f p)⁻¹ ≤ z ∧ ∑ i ∈ range M, f i ≤ ∏ p ∈ M.primesBelow, (1 - f p)⁻¹ := by
  rw [euler_smooth f hz]
  exact ⟨sum_part (fun n => f n) fn hz _, sum_first (fun n => f n) fn (map_zero f) hz _ M fun i h1 h2 => Nat.mem_smoothNumbers_of_lt h1 h2⟩

theorem pow_hom {s : ℝ} (hs : s ≠ 0) : ∃ f : ℕ →*₀ ℝ, ∀ n : ℕ, f n = 1 / (n : ℝ) ^ s :=
  ⟨{
    toFun := fun n => 1 / (n : ℝ) ^ s
    map_zero' := by simp [Real.zero_rpow hs]
    map_one' := by simp
    map_mul' := fun a b => by push_cast; rw [Real.mul_rpow (by positivity) (by positivity), one_div_mul_one_div] }, fun n => rfl⟩

/-- The truncated product. -/
theorem euler_near {s : ℝ} (hs : 2 ≤ s) {M : ℕ} (hM : 2 ≤ M) :
    ∏ p ∈ M.primesBelow, ((p : ℝ) ^ s / ((p : ℝ) ^ s - 1)) ≤ (riemannZeta s).re ∧
    (riemannZeta s).re ≤ ∏ p ∈ M.primesBelow, ((p : ℝ) ^ s / ((p : ℝ) ^ s - 1)) + 2 * M * (1 / (M : ℝ) ^ s) := by
  have h := (zeta_hasSum (s := s) (by linarith)).1
  have t := (zeta_tail_real hs hM).2
  generalize (riemannZeta s).re = z at *
  obtain ⟨f, fe⟩ := pow_hom (s := s) (by linarith)
  have tr : ∏ p ∈ M.primesBelow, ((p : ℝ) ^ s / ((p : ℝ) ^ s - 1)) = ∏ p ∈ M.primesBelow, (1 - f p)⁻¹ := by
    refine prod_congr rfl fun p hp => ?_
    have p2 := (Nat.prime_of_mem_primesBelow hp).two_le
    have : 1 < (p : ℝ) ^ s := Real.one_lt_rpow (by exact_mod_cast (by omega)) (by linarith)
    have : (p : ℝ) ^ s - 1 ≠ 0 := by linarith
    rw [fe]
    field_simp
  obtain ⟨a, b⟩ := euler_between f (fun n => by rw [fe]; positivity) (z := z) (by simp_rw [fe]; exact h) M
  rw [tr]
  refine ⟨a, t.trans (add_le_add ?_ le_rfl)⟩
  simp_rw [fe] at b ⊢
  exact b

/-- The primes below a prime. -/
theorem prod_primes (g : ℕ → ℝ) (K : ℕ) : ∏ k ∈ range K, g (Nat.nth Nat.Prime k) = ∏ p ∈ (Nat.nth Nat.Prime K).primesBelow, g p := by
  have inf := Nat.infinite_setOfPred_prime
  refine prod_nbij (Nat.nth Nat.Prime) (fun k hk => ?_) (fun a _ b _ h => (Nat.nth_injective inf) h) (fun p hp => ?_) (fun _ _ => rfl)
  · exact Nat.mem_primesBelow.2 ⟨(Nat.nth_strictMono inf) (mem_range.1 hk), Nat.nth_mem_of_infinite inf k⟩
  · have hp' := Nat.mem_primesBelow.1 hp
    refine ⟨Nat.count Nat.Prime p, ?_, Nat.nth_count hp'.2⟩
    rw [mem_coe, mem_range]
    have : Nat.nth Nat.Prime (Nat.count Nat.Prime p) < Nat.nth Nat.Prime K := by rw [Nat.nth_count hp'.2]; exact hp'.1
    exact (Nat.nth_strictMono inf).lt_iff_lt.1 this

/-- Primality below 2025 by trial division. -/
def isP (n : ℕ) : Bool := decide (2 ≤ n) && (List.range 43).all fun d => decide (n ≤ d + 2) || decide (n % (d + 2) ≠ 0)

theorem isP_prime {n : ℕ} (h : isP n = true) (h2 : n < 2025) : n.Prime := by
  unfold isP at h
  rw [Bool.and_eq_true, List.all_eq_true] at h
  obtain ⟨a, b⟩ := h
  have a := of_decide_eq_true a
  by_contra hp
  have m1 := Nat.minFac_sq_le_self (by omega) hp
  have m2 := Nat.minFac_prime (n := n) (by omega)
  have m3 := Nat.minFac_dvd n
  have m4 := m2.two_le
  have m5 : n.minFac < 45 := by nlinarith
  have := b (n.minFac - 2) (List.mem_range.2 (by omega))
  rw [Nat.sub_add_cancel m4, Bool.or_eq_true, decide_eq_true_eq, decide_eq_true_eq] at this
  rcases this with h | h
  · nlinarith
  · exact h (Nat.mod_eq_zero_of_dvd m3)

/-- The 300th prime number. -/
theorem prime300 : 299 ≤ Nat.nth Nat.Prime 299 ∧ Nat.nth Nat.Prime 299 ≤ 2000 := by
  refine ⟨(Nat.nth_strictMono Nat.infinite_setOfPred_prime).le_apply, ?_⟩
  have c : 299 < Nat.count (fun n => isP n = true) 2000 := by decide +kernel
  have m : Nat.count (fun n => isP n = true) 2000 ≤ Nat.count Nat.Prime 2000 := by
    rw [Nat.count_eq_card_filter_range, Nat.count_eq_card_filter_range]
    refine card_le_card fun n hn => ?_
    rw [mem_filter, mem_range] at hn ⊢
    exact ⟨hn.1, isP_prime hn.2 (by omega)⟩
  exact (Nat.nth_lt_of_lt_count (lt_of_lt_of_le c m)).le

end EFX.Borw
