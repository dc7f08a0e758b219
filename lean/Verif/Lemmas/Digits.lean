import Mathlib.Algebra.BigOperators.Group.Finset.Basic
import Mathlib.Algebra.BigOperators.Intervals
import Mathlib.Algebra.BigOperators.Ring.Finset
import Mathlib.Algebra.Order.BigOperators.Group.Finset
import Mathlib.Tactic.Ring
import Mathlib.Tactic.Linarith
/-! Numbers written as digit functions, and the truncated product of two of them. -/

namespace EFX

open Finset

/-- The number whose first `n` base-`b` digits are `f 0, f 1, ...`, most significant first. -/
def dv (b : Nat) (f : Nat → Nat) : Nat → Nat
  | 0 => 0
  | n + 1 => b * dv b f n + f n

/-- Columns of the product of two digit functions. -/
def conv (f g : Nat → Nat) (k : Nat) : Nat := ∑ i ∈ range (k + 1), f i * g (k - i)

theorem conv_comm (f g : Nat → Nat) (k : Nat) : conv f g k = conv g f k := by
  unfold conv
  rw [← Finset.sum_range_reflect]
  apply sum_congr rfl
  intro i hi
  have := mem_range.1 hi
  rw [mul_comm]
  congr 2; omega

theorem dv_congr {b : Nat} {f g : Nat → Nat} {n : Nat} (h : ∀ i < n, f i = g i) : dv b f n = dv b g n := by
  induction n with
  | zero => rfl
  | succ n ih => rw [dv, dv, ih (fun i hi => h i (by omega)), h n (by omega)]

theorem conv_congr {f f' g g' : Nat → Nat} {k : Nat} (h : ∀ i ≤ k, f i = f' i) (h' : ∀ i ≤ k, g i = g' i) :
    conv f g k = conv f' g' k := by
  unfold conv
  apply sum_congr rfl
  intro i hi
  have := mem_range.1 hi
  rw [h i (by omega), h' (k - i) (by omega)]

theorem dv_lt {b : Nat} {f : Nat → Nat} {n : Nat} (h : ∀ i < n, f i < b) : dv b f n < b ^ n := by
  induction n with
  | zero => simp [dv]
  | succ n ih =>
    have h1 := ih (fun i hi => h i (by omega))
    have h2 := h n (by omega)
    rw [dv, pow_succ]
    calc b * dv b f n + f n < b * dv b f n + b := by omega
      _ = b * (dv b f n + 1) := by ring
      _ ≤ b * b ^ n := Nat.mul_le_mul_left _ h1
      _ = b ^ n * b := by ring

/-- Splitting off the last `k` digits. -/
theorem dv_split {b : Nat} {f : Nat → Nat} (n k : Nat) (h : ∀ i < n + k, f i < b) :
    ∃ r, r + 1 ≤ b ^ k ∧ dv b f (n + k) = dv b f n * b ^ k + r := by
  induction k with
  | zero => exact ⟨0, by simp, by simp⟩
  | succ k ih =>
    obtain ⟨r, hr, he⟩ := ih (fun i hi => h i (by omega))
    have h2 := h (n + k) (by omega)
    refine ⟨b * r + f (n + k), ?_, ?_⟩
    · rw [pow_succ]
      calc b * r + f (n + k) + 1 ≤ b * r + b := by omega
        _ = b * (r + 1) := by ring
        _ ≤ b * b ^ k := Nat.mul_le_mul_left _ hr
        _ = b ^ k * b := by ring
    · rw [← add_assoc, dv, he, pow_succ]; ring

theorem dv_eq_sum (b : Nat) (f : Nat → Nat) (n : Nat) :
    dv b f n = ∑ i ∈ range n, f i * b ^ (n - 1 - i) := by
  induction n with
  | zero => simp [dv]
  | succ n ih =>
    rw [dv, ih, sum_range_succ, mul_sum]
    congr 1
    · apply sum_congr rfl
      intro i hi
      have := mem_range.1 hi
      rw [show n + 1 - 1 - i = (n - 1 - i) + 1 by omega, pow_succ]; ring
    · simp

theorem dv_conv (b : Nat) (f g : Nat → Nat) (n : Nat) :
    dv b (conv f g) n = ∑ i ∈ range n, f i * dv b g (n - i) := by
  induction n with
  | zero => simp [dv]
  | succ n ih =>
    rw [dv, ih, sum_range_succ, mul_sum, conv, sum_range_succ, ← add_assoc, ← sum_add_distrib]
    congr 1
    · apply sum_congr rfl
      intro i hi
      have := mem_range.1 hi
      rw [show n + 1 - i = (n - i) + 1 by omega, dv]; ring
    · simp [dv]

/-- The truncated product: exact product = columns kept (scaled) + a remainder that is bounded. -/
theorem dv_mul {b : Nat} {f g : Nat → Nat} {n : Nat} (hf : ∀ i < n, f i < b) (hg : ∀ i < n, g i < b) :
    dv b (conv f g) n * b ^ (n - 1) ≤ dv b f n * dv b g n ∧
    dv b f n * dv b g n ≤ (dv b (conv f g) n + (n - 1) * (b - 1)) * b ^ (n - 1) := by
  have key : ∀ i < n, ∃ r, r + 1 ≤ b ^ i ∧ dv b g n = dv b g (n - i) * b ^ i + r := by
    intro i hi
    have := dv_split (b := b) (f := g) (n - i) i (by rw [show n - i + i = n by omega]; exact hg)
    rw [show n - i + i = n by omega] at this
    exact this
  have hpow : ∀ i < n, b ^ (n - 1) = b ^ (n - 1 - i) * b ^ i := by
    intro i hi; rw [← pow_add]; congr 1; omega
  rw [dv_conv, dv_eq_sum b f n, sum_mul, sum_mul]
  constructor
  · apply sum_le_sum
    intro i hi
    have hi' := mem_range.1 hi
    obtain ⟨r, _, hr⟩ := key i hi'
    rw [hpow i hi', hr]
    calc f i * dv b g (n - i) * (b ^ (n - 1 - i) * b ^ i)
        = f i * b ^ (n - 1 - i) * (dv b g (n - i) * b ^ i) := by ring
      _ ≤ _ := Nat.mul_le_mul_left _ (by omega)
  · have step : ∀ i ∈ range n, f i * b ^ (n - 1 - i) * dv b g n ≤
        f i * dv b g (n - i) * b ^ (n - 1) + (if i = 0 then 0 else (b - 1) * b ^ (n - 1)) := by
      intro i hi
      have hi' := mem_range.1 hi
      obtain ⟨r, hr1, hr⟩ := key i hi'
      have hfi := hf i hi'
      by_cases h0 : i = 0
      · subst h0
        simp at hr1 ⊢
        rw [hr, hr1]; simp; ring_nf; exact le_refl _
      · rw [if_neg h0, hr, hpow i hi']
        have h1 : f i * b ^ (n - 1 - i) * r ≤ (b - 1) * (b ^ (n - 1 - i) * b ^ i) := by
          calc f i * b ^ (n - 1 - i) * r = f i * (b ^ (n - 1 - i) * r) := by ring
            _ ≤ (b - 1) * (b ^ (n - 1 - i) * b ^ i) :=
              Nat.mul_le_mul (by omega) (Nat.mul_le_mul_left _ (by omega))
        calc f i * b ^ (n - 1 - i) * (dv b g (n - i) * b ^ i + r)
            = f i * dv b g (n - i) * (b ^ (n - 1 - i) * b ^ i) + f i * b ^ (n - 1 - i) * r := by ring
          _ ≤ _ := by omega
    refine le_trans (sum_le_sum step) ?_
    rw [sum_add_distrib, add_mul, ← sum_mul]
    apply Nat.add_le_add_left
    cases n with
    | zero => simp
    | succ m =>
      rw [sum_range_succ']
      simp
      rw [mul_assoc]

theorem conv_le {b : Nat} {f g : Nat → Nat} {k : Nat} (hf : ∀ i ≤ k, f i < b) (hg : ∀ i ≤ k, g i < b) :
    conv f g k ≤ (k + 1) * ((b - 1) * (b - 1)) := by
  unfold conv
  calc ∑ i ∈ range (k + 1), f i * g (k - i) ≤ ∑ _i ∈ range (k + 1), (b - 1) * (b - 1) := by
        apply sum_le_sum
        intro i hi
        have := mem_range.1 hi
        have h1 := hf i (by omega)
        have h2 := hg (k - i) (by omega)
        exact Nat.mul_le_mul (by omega) (by omega)
    _ = _ := by simp

end EFX
