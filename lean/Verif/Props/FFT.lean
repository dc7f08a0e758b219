import Verif.Lemmas.FFTMul

/-!
# C41: multiplication by Fourier transforms

The transform of `e_float_detail_fft.h` and `mul_loop_fft` in exact real arithmetic.  What rounding
of `double` does is covered by `C41_rounding`: any error below one half per column is harmless.  (That
the errors of the actual `double` computation stay below one half is assumption A-FFT.)
-/

namespace EFX.Props

open EFX EFX.FFT Finset

/-! ## Specification -/

/-- The discrete Fourier transform of `N` numbers with the root `exp (2 π i / N)`. -/
noncomputable def dft (N : Nat) (x : Nat → ℂ) (k : Nat) : ℂ :=
  ∑ j ∈ range N, x j * Complex.exp (2 * Real.pi * Complex.I * (j * k / N))

/-- The number with the first `p` limbs of `l`. -/
def limbNumber (p : Nat) (l : List Nat) : Nat := ∑ i ∈ range p, l.getD i 0 * (10 ^ 8) ^ (p - 1 - i)

/-- Half-digits (base 10^4) of the limbs of a list. -/
def halfDigit (l : List Nat) (i : Nat) : Nat :=
  if i % 2 = 0 then l.getD (i / 2) 0 / 10000 else l.getD (i / 2) 0 % 10000

/-- Column `k` of the product of two half-digit sequences of `n` digits each. -/
def productColumn (n : Nat) (u v : List Nat) (k : Nat) : Nat :=
  ∑ i ∈ range n, ∑ j ∈ range n, if i + j = k then halfDigit u i * halfDigit v j else 0

/-! ## Connecting lemmas -/

theorem dft_eq (N : Nat) (x : Nat → ℂ) (k : Nat) :
    dft N x k = ∑ j ∈ range N, x j * om true N ^ (j * k) := by
  unfold dft
  refine sum_congr rfl fun j _ => ?_
  rw [om_true, ← Complex.exp_nat_mul]
  congr 2
  push_cast; ring

theorem halfDigit_eq (l : List Nat) (i : Nat) : (halves l).getD i 0 = halfDigit l i := by
  unfold halfDigit
  rcases Nat.mod_two_eq_zero_or_one i with h | h
  · rw [if_pos h, ← halves_even]; congr 1; omega
  · rw [if_neg (by omega), ← halves_odd]; congr 1; omega

theorem halfDigit_take (l : List Nat) (p i : Nat) :
    halfDigit (l.take p) i = if i < 2 * p then halfDigit l i else 0 := by
  unfold halfDigit
  by_cases h : i < 2 * p
  · have e : (l.take p).getD (i / 2) 0 = l.getD (i / 2) 0 := by
      simp [List.getD_eq_getElem?_getD, show i / 2 < p by omega]
    rw [if_pos h, e]
  · have e : (l.take p).getD (i / 2) 0 = 0 := by
      simp [List.getD_eq_getElem?_getD, show ¬ i / 2 < p by omega]
    rw [if_neg h, e]; simp

theorem convAt_column (u v : List Nat) (p k : Nat) :
    convAt (halves (u.take p)) (halves (v.take p)) k = productColumn (2 * p) u v k := by
  rw [convAt_eq]
  unfold conv productColumn
  have inner : ∀ i, ∑ j ∈ range (2 * p), (if i + j = k then halfDigit u i * halfDigit v j else 0) =
      if i ≤ k ∧ k - i < 2 * p then halfDigit u i * halfDigit v (k - i) else 0 := by
    intro i
    by_cases h : i ≤ k ∧ k - i < 2 * p
    · rw [if_pos h, sum_eq_single (k - i)]
      · rw [if_pos (by omega)]
      · intro j _ hj; rw [if_neg (by omega)]
      · intro hj; exact absurd (mem_range.mpr h.2) hj
    · rw [if_neg h]
      refine sum_eq_zero fun j hj => ?_
      have := mem_range.mp hj
      rw [if_neg (by omega)]
  rw [sum_congr rfl fun i _ => inner i]
  have left : ∀ i ∈ range (k + 1), (halves (u.take p)).getD i 0 * (halves (v.take p)).getD (k - i) 0 =
      if i < 2 * p then (if i ≤ k ∧ k - i < 2 * p then halfDigit u i * halfDigit v (k - i) else 0) else 0 := by
    intro i hi
    have hi := mem_range.mp hi
    rw [halfDigit_eq, halfDigit_eq, halfDigit_take, halfDigit_take]
    by_cases h1 : i < 2 * p
    · by_cases h2 : k - i < 2 * p
      · rw [if_pos h1, if_pos h2, if_pos h1, if_pos ⟨by omega, h2⟩]
      · rw [if_neg h2, Nat.mul_zero, if_pos h1, if_neg (by omega)]
    · rw [if_neg h1, if_neg h1, Nat.zero_mul]
  rw [sum_congr rfl left, ← sum_filter]
  refine sum_subset_zero_on_sdiff ?_ ?_ fun _ _ => rfl
  · intro i hi
    have := mem_filter.mp hi
    exact mem_range.mpr this.2
  · intro i hi
    have h := mem_sdiff.mp hi
    have h1 := mem_range.mp h.1
    rw [if_neg]
    intro h2
    exact h.2 (mem_filter.mpr ⟨mem_range.mpr (by omega), h1⟩)

theorem limbNumber_eq (p : Nat) (l : List Nat) (h : p ≤ l.length) : limbNumber p l = lv (l.take p) := by
  rw [lv_take_eq_dv l p h, dv_eq_sum]; rfl

/-! ## Theorems -/

/-- **C41, transforms.**  For every length `N = 2^(m+2)` (complex length `2^(m+1)`):
* `fft_lanczos` returns the discrete Fourier transform of the complex numbers stored in the array;
* `rfft` forward returns the transform of the `N` real numbers, entry 0 and entry `N/2` packed into the
  first two places;
* `rfft` backward after `rfft` forward returns the array times `N/2`. -/
theorem C41_transform (m : Nat) (x : Nat → ℝ) :
    (∀ k, k < 2 ^ (m + 1) →
      (⟨fft true (m + 1) x (2 * k), fft true (m + 1) x (2 * k + 1)⟩ : ℂ) =
        dft (2 ^ (m + 1)) (fun j => ⟨x (2 * j), x (2 * j + 1)⟩) k) ∧
    (∀ k, 0 < k → k < 2 ^ (m + 1) →
      (⟨rfft true (m + 1) x (2 * k), rfft true (m + 1) x (2 * k + 1)⟩ : ℂ) =
        dft (2 ^ (m + 2)) (fun j => (x j : ℂ)) k) ∧
    ((rfft true (m + 1) x 0 : ℝ) : ℂ) = dft (2 ^ (m + 2)) (fun j => (x j : ℂ)) 0 ∧
    ((rfft true (m + 1) x 1 : ℝ) : ℂ) = dft (2 ^ (m + 2)) (fun j => (x j : ℂ)) (2 ^ (m + 1)) ∧
    (∀ i, i < 2 ^ (m + 2) → rfft false (m + 1) (rfft true (m + 1) x) i = 2 ^ (m + 1) * x i) := by
  have hN : 2 ^ (m + 2) = 2 * 2 ^ (m + 1) := by ring
  have P := rfft_forward m x
  refine ⟨fun k hk => ?_, fun k h0 hk => ?_, ?_, ?_, fun i hi => ?_⟩
  · rw [dft_eq]; exact fft_spec true (m + 1) x k hk
  · rw [dft_eq, hN]; exact P.mid k h0 hk
  · rw [dft_eq, hN]; exact P.zero
  · rw [dft_eq, hN]; exact P.half
  · rw [rfft_inverse m _ x P i (by omega)]; push_cast; rfl

/-- **C41, rounding.**  Whatever array the transforms produce: if every column is off by less than one
half, `mul_loop_fft` stores the limbs of the exact columns. -/
theorem C41_rounding (u v : List Nat) (p : Nat) (af : Nat → ℝ)
    (h : ∀ j, j < 2 * p - 1 → |af j / ((fftSize p / 2 : Nat) : ℝ) - (productColumn (2 * p) u v j : ℝ)| < 1 / 2) :
    mulWith af u p = mulLoopFFT u v p :=
  mulWith_near u v p af fun j hj => by rw [convAt_column]; exact h j hj

/-- **C41.**  In exact arithmetic, for 9 to 2^25 limbs: the transformed product divided by half the
length is the column of the product; the stored number `R` consists of valid limbs, the limbs from `p` on
are untouched, `R` is the sum of the leading `2p - 1` columns and differs from the product of the two
numbers by less than the dropped columns can hold. -/
theorem C41_product_partial {u v : List Nat} (hu : ∀ d ∈ u, d < 10 ^ 8) (hv : ∀ d ∈ v, d < 10 ^ 8) {p : Nat}
    (h1 : 9 ≤ p) (h2 : p ≤ 2 ^ 25) (hpu : p ≤ u.length) (hpv : p ≤ v.length) :
    (∀ j, j < 4 * p → transformed u v p j / ((fftSize p / 2 : Nat) : ℝ) = (productColumn (2 * p) u v j : ℝ)) ∧
    mulLoopReal u v p = mulLoopFFT u v p ∧
    (mulLoopReal u v p).length = u.length ∧ (∀ d ∈ mulLoopReal u v p, d < 10 ^ 8) ∧
    (mulLoopReal u v p).drop p = u.drop p ∧
    limbNumber p (mulLoopReal u v p) =
      ∑ k ∈ range (2 * p - 1), productColumn (2 * p) u v k * 10000 ^ (2 * p - 2 - k) ∧
    limbNumber p (mulLoopReal u v p) * 10 ^ (8 * p) ≤ limbNumber p u * limbNumber p v ∧
    limbNumber p u * limbNumber p v ≤ (limbNumber p (mulLoopReal u v p) + 2 * p * 9999) * 10 ^ (8 * p) := by
  have e := mulLoopReal_eq u v p h1 h2
  have hu' : OK u := fun d hd => hu d hd
  have hv' : OK v := fun d hd => hv d hd
  obtain ⟨s1, s2, s3, s4⟩ := mulLoopFFT_spec hu' hv' (by omega : 1 ≤ p) (by omega) hpu hpv
  have b := colsF_bounds hu' hv' (by omega : 1 ≤ p) hpu hpv
  have q : 100000000 ^ p = 10 ^ (8 * p) := by rw [pow_mul]; norm_num
  rw [q] at b
  have hl : limbNumber p (mulLoopFFT u v p) = colsF u v p := by
    rw [limbNumber_eq p _ (by omega), s4]
  refine ⟨fun j hj => ?_, e, ?_, ?_, ?_, ?_, ?_, ?_⟩
  · rw [transformed_spec u v p h1 h2 j hj, convAt_column]
  · rw [e, s1]
  · rw [e]; exact fun d hd => s2 d hd
  · rw [e, s3]
  · rw [e, hl]
    unfold colsF
    rw [dv_eq_sum]
    refine sum_congr rfl fun k _ => ?_
    rw [← convAt_column, convAt_eq]
    congr 2
  · rw [e, hl, limbNumber_eq p u hpu, limbNumber_eq p v hpv]; exact b.1
  · rw [e, hl, limbNumber_eq p u hpu, limbNumber_eq p v hpv]; exact b.2

/-- The hypotheses of `C41_product_partial` hold for limbs of mixed size. -/
example : ∃ u v : List Nat, (∀ d ∈ u, d < 10 ^ 8) ∧ (∀ d ∈ v, d < 10 ^ 8) ∧ 9 ≤ u.length ∧ 9 ≤ v.length ∧
    limbNumber 9 u ≠ 0 ∧ limbNumber 9 v ≠ 0 :=
  ⟨[99999999, 1, 2, 3, 4, 5, 6, 7, 8], [12345678, 0, 0, 0, 0, 0, 0, 0, 99999999], by decide, by decide,
    by decide, by decide, by decide, by decide⟩

/-- **C41 is false above 2^25 limbs** (settings above 268 million digits, which the library accepts): no
`case` matches, the `default` label runs the transform of 64 points and the digits of `1 * 1` are all
zero, although column 2 of the product is one. -/
theorem C41_large_refuted (p : Nat) (h1 : 2 ^ 25 < p) (h2 : p ≤ 2 ^ 27 + 4) :
    let one := 1 :: List.replicate (p - 1) 0
    mulLoopReal one one p = List.replicate p 0 ∧ productColumn (2 * p) one one 2 = 1 ∧
    mulLoopFFT one one p ≠ List.replicate p 0 := by
  intro one
  have hlen : one.length = p := by simp [one]; omega
  have ht : one.take p = one := by rw [List.take_of_length_le (by omega)]
  have hd : ∀ i, (halves one).getD i 0 = if i = 1 then 1 else 0 := by
    intro i
    rw [halfDigit_eq]
    unfold halfDigit
    have g : ∀ j, one.getD j 0 = if j = 0 then 1 else 0 := by
      intro j
      cases j with
      | zero => rfl
      | succ j =>
        have : one.getD (j + 1) 0 = (List.replicate (p - 1) 0).getD j 0 := List.getD_cons_succ
        rw [this, if_neg (by omega), List.getD_eq_getElem?_getD, List.getElem?_replicate]
        split <;> rfl
    rw [g]
    rcases Nat.mod_two_eq_zero_or_one i with h | h
    · rw [if_pos h, if_neg (by omega : ¬ i = 1)]
      split <;> rfl
    · rw [if_neg (by omega)]
      by_cases h0 : i = 1
      · subst h0; rfl
      · rw [if_neg (by omega), if_neg h0]
  have hconv : ∀ k, convAt (halves (one.take p)) (halves (one.take p)) k = if k = 2 then 1 else 0 := by
    intro k
    rw [ht, convAt_eq]
    unfold conv
    simp only [hd]
    by_cases hk : k = 2
    · subst hk; decide
    · rw [if_neg hk]
      refine sum_eq_zero fun i hi => ?_
      have := mem_range.mp hi
      by_cases h1 : i = 1
      · rw [if_pos h1, if_neg (by omega), Nat.mul_zero]
      · rw [if_neg h1, Nat.zero_mul]
  refine ⟨?_, ?_, ?_⟩
  · rw [mulLoopReal_large one one p h1 (by omega) ?_ ?_ ?_]
    · rw [List.drop_of_length_le (by omega), List.append_nil]
    · intro i hi; rw [ht, hd, if_neg (by omega)]
    · intro i hi; rw [ht, hd, if_neg (by omega)]
    · intro j _; rw [hconv]; split <;> norm_num
  · rw [← convAt_column, hconv, if_pos rfl]
  · intro h
    have hok : OK one := by
      intro d hd
      rcases List.mem_cons.mp hd with rfl | hd
      · norm_num
      · rw [List.eq_of_mem_replicate hd]; norm_num
    have s := (mulLoopFFT_spec hok hok (by omega : 1 ≤ p) (by omega) hlen.ge hlen.ge).2.2.2
    rw [h, ← limbNumber_eq p _ (by simp)] at s
    have z : limbNumber p (List.replicate p 0) = 0 := by
      unfold limbNumber
      refine sum_eq_zero fun i _ => ?_
      rw [List.getD_eq_getElem?_getD, List.getElem?_replicate]
      split <;> simp
    have g := colsF_ge (u := one) (v := one) (p := p) (by omega) (by simp [one]) (by simp [one])
    have pos : 0 < 100000000 ^ (p - 2) := Nat.pow_pos (by norm_num)
    generalize 100000000 ^ (p - 2) = q at g pos
    omega

end EFX.Props
