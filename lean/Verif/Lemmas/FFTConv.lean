import Verif.Lemmas.FFT
import Verif.Lemmas.Mul

/-! The inverse real transform and the convolution theorem. -/

namespace EFX.FFT

open Finset Complex

theorem orth (M : Nat) (hM : M ≠ 0) (i j : Nat) (hi : i < M) (hj : j < M) :
    ∑ k ∈ range M, om true M ^ (j * k) * om false M ^ (k * i) = if i = j then (M : ℂ) else 0 := by
  by_cases h : i = j
  · subst h
    rw [if_pos rfl]
    have : ∀ k ∈ range M, om true M ^ (i * k) * om false M ^ (k * i) = 1 := by
      intro k _
      rw [mul_comm k i, ← mul_pow, om_unit, one_pow]
    rw [sum_congr rfl this]; simp
  · rw [if_neg h]
    have e : ∀ k ∈ range M, om true M ^ (j * k) * om false M ^ (k * i) =
        (om true M ^ j * om false M ^ i) ^ k := by
      intro k _
      rw [mul_pow, ← pow_mul, ← pow_mul, mul_comm i k]
    rw [sum_congr rfl e]
    have h1 : om true M ^ j * om false M ^ i ≠ 1 := by
      intro h1
      rw [om_false, inv_pow, mul_inv_eq_one₀ (pow_ne_zero _ (om_ne_zero _ _))] at h1
      exact h ((om_prim M hM).pow_inj hj hi h1).symm
    rw [geom_sum_eq h1, mul_pow, ← pow_mul, ← pow_mul, mul_comm j, mul_comm i, pow_mul, pow_mul,
      om_pow true M hM, om_pow false M hM]
    simp

/-- The inverse complex transform of the even and odd parts. -/
theorem fft_inverse (m : Nat) (d : Arr) (y : Nat → ℝ)
    (h : ∀ k, k < 2 ^ m → cz d k = evenPart (2 ^ m) y k + I * oddPart (2 ^ m) y k)
    (i : Nat) (hi : i < 2 ^ m) : cz (fft false m d) i = (2 ^ m : ℕ) * (y (2 * i) + I * y (2 * i + 1)) := by
  have hM : 2 ^ m ≠ 0 := by positivity
  rw [fft_spec false m d i hi]
  have e : ∀ k ∈ range (2 ^ m), cz d k * om false (2 ^ m) ^ (k * i) =
      ∑ j ∈ range (2 ^ m), ((y (2 * j) : ℂ) + I * y (2 * j + 1)) *
        (om true (2 ^ m) ^ (j * k) * om false (2 ^ m) ^ (k * i)) := by
    intro k hk
    rw [h k (mem_range.mp hk)]
    unfold evenPart oddPart
    rw [mul_sum, ← sum_add_distrib, sum_mul]
    refine sum_congr rfl fun j _ => by ring
  rw [sum_congr rfl e, sum_comm]
  have e2 : ∀ j ∈ range (2 ^ m), ∑ k ∈ range (2 ^ m), ((y (2 * j) : ℂ) + I * y (2 * j + 1)) *
        (om true (2 ^ m) ^ (j * k) * om false (2 ^ m) ^ (k * i)) =
      if i = j then ((2 ^ m : ℕ) : ℂ) * ((y (2 * j) : ℂ) + I * y (2 * j + 1)) else 0 := by
    intro j hj
    rw [← mul_sum, orth (2 ^ m) hM i j hi (mem_range.mp hj)]
    split_ifs <;> ring
  rw [sum_congr rfl e2, sum_ite_eq (range (2 ^ m)) i, if_pos (mem_range.mpr hi)]

/-- The inverse transform of a packed spectrum returns the sequence, times half the length. -/
theorem rfft_inverse (m : Nat) (d : Arr) (y : Nat → ℝ) (hp : Packed (2 ^ (m + 1)) d y) (i : Nat)
    (hi : i < 2 * 2 ^ (m + 1)) : rfft false (m + 1) d i = (2 ^ (m + 1) : ℕ) * y i := by
  have hM : 2 ^ (m + 1) ≠ 0 := by positivity
  have hN : 2 ^ (m + 1 + 1) = 2 * 2 ^ (m + 1) := by ring
  have hq : 2 * 2 ^ (m + 1) / 4 - 1 = 2 ^ m - 1 := by
    rw [show 2 * 2 ^ (m + 1) = 4 * 2 ^ m by ring, Nat.mul_div_cancel_left _ (by norm_num)]
  have hpos : 0 < 2 ^ m := by positivity
  have h2 : 2 ^ (m + 1) = 2 * 2 ^ m := by ring
  have hI : I * I = -1 := Complex.I_mul_I
  obtain ⟨p0, pM, pk⟩ := hp
  have pc : ∀ k, 0 < k → k < 2 ^ (m + 1) → (starRingEnd ℂ) (cz d (2 ^ (m + 1) - k)) =
      evenPart (2 ^ (m + 1)) y k - om true (2 * 2 ^ (m + 1)) ^ k * oddPart (2 ^ (m + 1)) y k := by
    intro k h0 hk
    rw [pk _ (by omega) (by omega), spec_conj _ hM y k hk.le]
  have unit : ∀ k, om true (2 * 2 ^ (m + 1)) ^ k * om false (2 * 2 ^ (m + 1)) ^ k = 1 := by
    intro k; rw [← mul_pow, om_unit, one_pow]
  have mid : ∀ k, 0 < k → k < 2 ^ (m + 1) → cz (unpackLoop (2 * 2 ^ (m + 1)) false (2 ^ m - 1) 1
      (1 + wpReal (2 * 2 ^ (m + 1)) false, wpImag (2 * 2 ^ (m + 1)) false) d) k =
      evenPart (2 ^ (m + 1)) y k + I * oddPart (2 ^ (m + 1)) y k := by
    intro k h0 hk
    refine unpack_all m false _ k h0 hk (fun k => evenPart (2 ^ (m + 1)) y k + I * oddPart (2 ^ (m + 1)) y k) ?_ ?_ ?_
    · intro k h0 hk
      rw [pk k h0 (by omega), pc k h0 (by omega), spec_split _ hM, hfac_false]
      linear_combination (I * oddPart (2 ^ (m + 1)) y k) * unit k
    · intro k h0 hk
      rw [pk k h0 (by omega), pc k h0 (by omega), spec_split _ hM, hfac_false]
      have a := evenPart_conj _ hM y k (by omega : k ≤ 2 ^ (m + 1))
      have b := oddPart_conj _ hM y k (by omega : k ≤ 2 ^ (m + 1))
      have e : evenPart (2 ^ (m + 1)) y (2 ^ (m + 1) - k) + I * oddPart (2 ^ (m + 1)) y (2 ^ (m + 1) - k) =
          (starRingEnd ℂ) (evenPart (2 ^ (m + 1)) y k - I * oddPart (2 ^ (m + 1)) y k) := by
        rw [← a, ← b, map_sub, map_mul, Complex.conj_conj, Complex.conj_conj, Complex.conj_I]
        ring
      rw [e]
      congr 1
      linear_combination (-(I * oddPart (2 ^ (m + 1)) y k)) * unit k
    · rw [pk _ (by omega) (by omega), spec_split _ hM, quarter]
  have zero := unpack_zero m false (1 + wpReal (2 * 2 ^ (m + 1)) false, wpImag (2 * 2 ^ (m + 1)) false) d
  have e0 : evenPart (2 ^ (m + 1)) y 0 = ((∑ j ∈ range (2 ^ (m + 1)), y (2 * j) : ℝ) : ℂ) := by
    unfold evenPart; push_cast; simp
  have o0 : oddPart (2 ^ (m + 1)) y 0 = ((∑ j ∈ range (2 ^ (m + 1)), y (2 * j + 1) : ℝ) : ℂ) := by
    unfold oddPart; push_cast; simp
  have eM : evenPart (2 ^ (m + 1)) y (2 ^ (m + 1)) = evenPart (2 ^ (m + 1)) y 0 := by
    unfold evenPart; refine sum_congr rfl fun j _ => ?_
    rw [mul_comm j, pow_mul, om_pow true _ hM, one_pow, Nat.mul_zero, pow_zero]
  have oM : oddPart (2 ^ (m + 1)) y (2 ^ (m + 1)) = oddPart (2 ^ (m + 1)) y 0 := by
    unfold oddPart; refine sum_congr rfl fun j _ => ?_
    rw [mul_comm j, pow_mul, om_pow true _ hM, one_pow, Nat.mul_zero, pow_zero]
  have q0 : d 0 = ∑ j ∈ range (2 ^ (m + 1)), y (2 * j) + ∑ j ∈ range (2 ^ (m + 1)), y (2 * j + 1) := by
    rw [spec_split _ hM, pow_zero, one_mul, e0, o0, ← Complex.ofReal_add] at p0
    exact Complex.ofReal_injective p0
  have q1 : d 1 = ∑ j ∈ range (2 ^ (m + 1)), y (2 * j) - ∑ j ∈ range (2 ^ (m + 1)), y (2 * j + 1) := by
    rw [spec_split _ hM, om_half true _ hM, eM, oM, e0, o0, neg_one_mul, ← sub_eq_add_neg,
      ← Complex.ofReal_sub] at pM
    exact Complex.ofReal_injective pM
  have r0 := congrArg Complex.re zero
  have i0 := congrArg Complex.im zero
  simp only [cz, Nat.mul_zero, Nat.zero_add] at r0 i0
  set U := unpackLoop (2 * 2 ^ (m + 1)) false (2 ^ m - 1) 1
      (1 + wpReal (2 * 2 ^ (m + 1)) false, wpImag (2 * 2 ^ (m + 1)) false) d with hU
  have hr : rfft false (m + 1) d = fft false (m + 1)
      (put (put U 0 (∑ j ∈ range (2 ^ (m + 1)), y (2 * j))) 1 (∑ j ∈ range (2 ^ (m + 1)), y (2 * j + 1))) := by
    simp only [rfft, hN, hq, Bool.false_eq_true, if_false, ← hU]
    congr 1
    have a1 : (1 / 2 : ℝ) * (U 0 + U 1) = ∑ j ∈ range (2 ^ (m + 1)), y (2 * j) := by
      rw [r0, i0, q0, q1]; ring
    have a2 : (1 / 2 : ℝ) * (U 0 - U 1) = ∑ j ∈ range (2 ^ (m + 1)), y (2 * j + 1) := by
      rw [r0, i0, q0, q1]; ring
    rw [a1]
    congr 1
  have all : ∀ k, k < 2 ^ (m + 1) →
      cz (put (put U 0 (∑ j ∈ range (2 ^ (m + 1)), y (2 * j))) 1 (∑ j ∈ range (2 ^ (m + 1)), y (2 * j + 1))) k =
      evenPart (2 ^ (m + 1)) y k + I * oddPart (2 ^ (m + 1)) y k := by
    intro k hk
    rcases Nat.eq_zero_or_pos k with rfl | h0
    · rw [e0, o0]
      rw [cz_eq]; simp [put]
    · rw [← mid k h0 hk]
      unfold cz put
      rw [Function.update_of_ne (by omega), Function.update_of_ne (by omega), Function.update_of_ne (by omega),
        Function.update_of_ne (by omega)]
  have fin := fft_inverse (m + 1) _ y all (i / 2) (by omega)
  rw [← hr, cz_eq] at fin
  have re := congrArg Complex.re fin
  have im := congrArg Complex.im fin
  simp only [Complex.add_re, Complex.add_im, Complex.mul_re, Complex.mul_im, Complex.ofReal_re,
    Complex.ofReal_im, Complex.I_re, Complex.I_im, Complex.natCast_re, Complex.natCast_im, zero_mul,
    one_mul, sub_zero, add_zero, zero_add, mul_zero] at re im
  rcases Nat.mod_two_eq_zero_or_one i with h | h
  · rw [show 2 * (i / 2) = i by omega] at re; exact re
  · rw [show 2 * (i / 2) + 1 = i by omega] at im; exact im

/-- Product in the transform space. -/
theorem pointLoop_spec (bf : Arr) (n : Nat) : ∀ (j : Nat) (af : Arr),
    (∀ k, j ≤ k → k < j + n → cz (pointLoop bf n (2 * j) af) k = cz af k * cz bf k) ∧
    (∀ k, k < j ∨ j + n ≤ k → cz (pointLoop bf n (2 * j) af) k = cz af k) := by
  induction n with
  | zero => intro j af; exact ⟨fun k _ _ => by omega, fun k _ => rfl⟩
  | succ n ih =>
    intro j af
    rw [pointLoop, show 2 * j + 2 = 2 * (j + 1) by ring]
    obtain ⟨h1, h2⟩ := ih (j + 1) (put (put af (2 * j) (af (2 * j) * bf (2 * j) - af (2 * j + 1) * bf (2 * j + 1)))
      (2 * j + 1) (af (2 * j) * bf (2 * j + 1) +
        (put af (2 * j) (af (2 * j) * bf (2 * j) - af (2 * j + 1) * bf (2 * j + 1))) (2 * j + 1) * bf (2 * j)))
    have other : ∀ k, k ≠ j → cz (put (put af (2 * j) (af (2 * j) * bf (2 * j) - af (2 * j + 1) * bf (2 * j + 1)))
      (2 * j + 1) (af (2 * j) * bf (2 * j + 1) +
        (put af (2 * j) (af (2 * j) * bf (2 * j) - af (2 * j + 1) * bf (2 * j + 1))) (2 * j + 1) * bf (2 * j))) k =
        cz af k := by
      intro k hk
      apply Complex.ext <;> simp only [cz, put] <;> simp (disch := omega) only [Function.update_of_ne]
    have same : cz (put (put af (2 * j) (af (2 * j) * bf (2 * j) - af (2 * j + 1) * bf (2 * j + 1)))
      (2 * j + 1) (af (2 * j) * bf (2 * j + 1) +
        (put af (2 * j) (af (2 * j) * bf (2 * j) - af (2 * j + 1) * bf (2 * j + 1))) (2 * j + 1) * bf (2 * j))) j =
        cz af j * cz bf j := by
      apply Complex.ext <;> simp only [cz, put, Complex.mul_re, Complex.mul_im] <;>
        simp (disch := omega) only [Function.update_self, Function.update_of_ne]
    refine ⟨fun k a b => ?_, fun k a => ?_⟩
    · by_cases hk : k = j
      · subst hk; rw [h2 k (Or.inl (by omega)), same]
      · rw [h1 k (by omega) (by omega), other k hk]
    · rw [h2 k (by omega), other k (by omega)]

/-- Convolution of real sequences. -/
noncomputable def convR (a b : Nat → ℝ) (k : Nat) : ℝ := ∑ i ∈ range (k + 1), a i * b (k - i)

theorem spec_conv (N : Nat) (a b : Nat → ℝ) (h : ∀ i j, i < N → j < N → N ≤ i + j → a i * b j = 0) (k : Nat) :
    spec N (convR a b) k = spec N a k * spec N b k := by
  have h1 : spec N (convR a b) k = ∑ n ∈ range N, ∑ i ∈ range (n + 1),
      ((a i : ℂ) * om true N ^ (i * k)) * ((b (n - i) : ℂ) * om true N ^ ((n - i) * k)) := by
    unfold spec convR
    refine sum_congr rfl fun n _ => ?_
    push_cast
    rw [sum_mul]
    refine sum_congr rfl fun i hi => ?_
    have : i ≤ n := by have := mem_range.mp hi; omega
    conv_lhs => rw [show n * k = i * k + (n - i) * k by rw [← add_mul]; congr 1; omega, pow_add]
    ring
  rw [h1, sum_range_diag_flip N (fun i j => ((a i : ℂ) * om true N ^ (i * k)) * ((b j : ℂ) * om true N ^ (j * k)))]
  unfold spec
  rw [sum_mul_sum]
  refine sum_congr rfl fun i hi => ?_
  have hi := mem_range.mp hi
  refine sum_subset (fun x hx => mem_range.mpr (by have := mem_range.mp hx; omega)) ?_
  intro j hj hj'
  have hj := mem_range.mp hj
  have hj' : ¬ j < N - i := fun h => hj' (mem_range.mpr h)
  have := h i j hi hj (by omega)
  have : (a i : ℂ) * b j = 0 := by exact_mod_cast this
  linear_combination (om true N ^ (i * k) * om true N ^ (j * k)) * this

/-- Forward transforms, product and inverse transform of length `N = 2^(m+2)`. -/
noncomputable def convolve (m n : Nat) (a b : Arr) : Arr :=
  let af := rfft true (m + 1) a
  let bf := rfft true (m + 1) b
  let af := put af 0 (af 0 * bf 0)
  let af := put af 1 (af 1 * bf 1)
  let af := pointLoop bf n 2 af
  rfft false (m + 1) af

theorem convolve_spec (m n : Nat) (a b : Arr) (hn : 2 ^ (m + 1) - 1 ≤ n)
    (h : ∀ i j, i < 2 * 2 ^ (m + 1) → j < 2 * 2 ^ (m + 1) → 2 * 2 ^ (m + 1) ≤ i + j → a i * b j = 0) (i : Nat)
    (hi : i < 2 * 2 ^ (m + 1)) : convolve m n a b i = (2 ^ (m + 1) : ℕ) * convR a b i := by
  have A := rfft_forward m a
  have B := rfft_forward m b
  refine rfft_inverse m _ (convR a b) ?_ i hi
  have hpos : 0 < 2 ^ m := by positivity
  have h2 : 2 ^ (m + 1) = 2 * 2 ^ m := by ring
  set af := rfft true (m + 1) a
  set bf := rfft true (m + 1) b
  obtain ⟨p1, p2⟩ := pointLoop_spec bf n 1 (put (put af 0 (af 0 * bf 0)) 1 ((put af 0 (af 0 * bf 0)) 1 * bf 1))
  have z := p2 0 (Or.inl (by omega))
  have z0 := congrArg Complex.re z
  have z1 := congrArg Complex.im z
  simp only [cz, Nat.mul_zero, Nat.zero_add, Nat.mul_one, put] at z0 z1
  simp (disch := omega) only [Function.update_self, Function.update_of_ne] at z0 z1
  refine ⟨?_, ?_, fun k h0 hk => ?_⟩
  · rw [spec_conv _ a b h, ← A.zero, ← B.zero]
    simp only [put]
    rw [Function.update_of_ne (by norm_num), z0]; push_cast; rfl
  · rw [spec_conv _ a b h, ← A.half, ← B.half]
    simp only [put]
    rw [Function.update_of_ne (by norm_num), z1]; push_cast; rfl
  · rw [spec_conv _ a b h, ← A.mid k h0 hk, ← B.mid k h0 hk]
    rw [show (2 : ℕ) = 2 * 1 by norm_num, p1 k h0 (by omega)]
    congr 1
    apply Complex.ext <;> simp only [cz, put] <;> simp (disch := omega) only [Function.update_of_ne]

end EFX.FFT
