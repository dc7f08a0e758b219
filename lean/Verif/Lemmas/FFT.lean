import Verif.Model.FFT
import Mathlib.RingTheory.RootsOfUnity.Complex
import Mathlib.Data.Complex.BigOperators
import Mathlib.Tactic.LinearCombination

/-! Lemmas on the real Fourier transform. -/

namespace EFX.FFT

open Finset Complex

/-- The complex number stored at `data[2k]`, `data[2k+1]`. -/
noncomputable def cz (d : Arr) (k : Nat) : ℂ := ⟨d (2 * k), d (2 * k + 1)⟩

/-- The root of unity of the transform. -/
noncomputable def om (fwd : Bool) (N : Nat) : ℂ :=
  Complex.exp ((if fwd then 1 else -1) * (2 * Real.pi * I / N))

noncomputable def cw (w : ℝ × ℝ) : ℂ := ⟨w.1, w.2⟩

theorem om_ri (fwd : Bool) (N : Nat) :
    om fwd N = ⟨1 + wpReal N fwd, wpImag N fwd⟩ := by
  have h : Real.cos (2 * Real.pi / N) = 1 - 2 * Real.sin (Real.pi / N) ^ 2 := by
    have := Real.cos_sq' (Real.pi / N)
    rw [mul_div_assoc, Real.cos_two_mul, this]; ring
  have e : (2 * (Real.pi : ℂ) * I / N) = ((2 * Real.pi / N : ℝ) : ℂ) * I := by
    push_cast; ring
  cases fwd
  · have : om false N = Complex.exp (((-(2 * Real.pi / N) : ℝ) : ℂ) * I) := by
      unfold om; rw [e]; congr 1; push_cast; simp
    rw [this]
    apply Complex.ext
    · rw [Complex.exp_ofReal_mul_I_re, Real.cos_neg, h]
      simp [wpReal, wpRealInit, sin1]; ring
    · rw [Complex.exp_ofReal_mul_I_im, Real.sin_neg]
      simp [wpImag, sin2]
  · have : om true N = Complex.exp (((2 * Real.pi / N : ℝ) : ℂ) * I) := by
      unfold om; rw [e]; congr 1; simp
    rw [this]
    apply Complex.ext
    · rw [Complex.exp_ofReal_mul_I_re, h]
      simp [wpReal, wpRealInit, sin1]; ring
    · rw [Complex.exp_ofReal_mul_I_im]
      simp [wpImag, sin2]

theorem om_true (N : Nat) : om true N = Complex.exp (2 * Real.pi * I / N) := by simp [om]

theorem om_false (N : Nat) : om false N = (om true N)⁻¹ := by
  unfold om; rw [← Complex.exp_neg]; congr 1; simp

theorem om_sq (fwd : Bool) (N : Nat) (hN : N ≠ 0) : om fwd (2 * N) ^ 2 = om fwd N := by
  unfold om
  rw [← Complex.exp_nat_mul]
  congr 1
  have : (N : ℂ) ≠ 0 := by exact_mod_cast hN
  push_cast
  field_simp

theorem om_prim (N : Nat) (hN : N ≠ 0) : IsPrimitiveRoot (om true N) N := by
  rw [om_true]; exact Complex.isPrimitiveRoot_exp N hN

theorem om_pow (fwd : Bool) (N : Nat) (hN : N ≠ 0) : om fwd N ^ N = 1 := by
  cases fwd
  · rw [om_false, inv_pow, (om_prim N hN).pow_eq_one, inv_one]
  · exact (om_prim N hN).pow_eq_one

theorem om_half (fwd : Bool) (M : Nat) (hM : M ≠ 0) : om fwd (2 * M) ^ M = -1 := by
  have h2 : (om fwd (2 * M) ^ M) ^ 2 = 1 := by
    rw [← pow_mul, mul_comm M 2]; exact om_pow fwd (2 * M) (by omega)
  have h1 : om true (2 * M) ^ M ≠ 1 := by
    intro h
    have := ((om_prim (2 * M) (by omega)).pow_eq_one_iff_dvd M).mp h
    have := Nat.le_of_dvd (by omega) this
    omega
  have h3 : om fwd (2 * M) ^ M ≠ 1 := by
    cases fwd
    · rw [om_false, inv_pow]
      intro h; exact h1 (inv_eq_one.mp h)
    · exact h1
  rcases mul_self_eq_one_iff.mp ((sq _).symm.trans h2) with h | h
  · exact absurd h h3
  · exact h

theorem om_conj (N : Nat) : (starRingEnd ℂ) (om true N) = om false N := by
  rw [om_ri, om_ri]
  apply Complex.ext <;> simp [wpReal, wpImag, wpRealInit]

theorem om_ne_zero (fwd : Bool) (N : Nat) : om fwd N ≠ 0 := Complex.exp_ne_zero _

theorem cw_next (N : Nat) (fwd : Bool) (w : ℝ × ℝ) : cw (nextW N fwd w) = cw w * om fwd N := by
  rw [om_ri]
  apply Complex.ext <;> simp [cw, nextW] <;> ring

/-! ### Butterflies -/

theorem butterfly_lo {H o i : Nat} (hi : i < H) (wr wi : ℝ) (d : Arr) :
    cz (butterfly (2 * H) (2 * o) (2 * i) wr wi d) (o + i) =
      cz d (o + i) + ⟨wr, wi⟩ * cz d (o + H + i) := by
  have e1 : 2 * (o + i) = 2 * o + 2 * i := by ring
  have e2 : 2 * o + 2 * i + 1 = 2 * o + (2 * i + 1) := by ring
  have e3 : 2 * (o + H + i) = 2 * o + (2 * i + 2 * H) := by ring
  have e4 : 2 * o + (2 * i + 2 * H) + 1 = 2 * o + (2 * i + (2 * H + 1)) := by ring
  apply Complex.ext <;> simp only [cz, e1, e2, e3, e4, butterfly, put, Complex.add_re, Complex.add_im,
    Complex.mul_re, Complex.mul_im]
  · simp (disch := omega) only [Function.update_self, Function.update_of_ne]
  · simp (disch := omega) only [Function.update_self, Function.update_of_ne]

theorem butterfly_hi {H o i : Nat} (hi : i < H) (wr wi : ℝ) (d : Arr) :
    cz (butterfly (2 * H) (2 * o) (2 * i) wr wi d) (o + H + i) =
      cz d (o + i) - ⟨wr, wi⟩ * cz d (o + H + i) := by
  have e1 : 2 * (o + i) = 2 * o + 2 * i := by ring
  have e2 : 2 * o + 2 * i + 1 = 2 * o + (2 * i + 1) := by ring
  have e3 : 2 * (o + H + i) = 2 * o + (2 * i + 2 * H) := by ring
  have e4 : 2 * o + (2 * i + 2 * H) + 1 = 2 * o + (2 * i + (2 * H + 1)) := by ring
  apply Complex.ext <;> simp only [cz, e1, e2, e3, e4, butterfly, put, Complex.sub_re, Complex.sub_im,
    Complex.mul_re, Complex.mul_im]
  · simp (disch := omega) only [Function.update_self, Function.update_of_ne]
  · simp (disch := omega) only [Function.update_self, Function.update_of_ne]

theorem butterfly_out {H o i k : Nat} (h1 : k ≠ o + i) (h2 : k ≠ o + H + i) (wr wi : ℝ)
    (d : Arr) : cz (butterfly (2 * H) (2 * o) (2 * i) wr wi d) k = cz d k := by
  apply Complex.ext <;> simp only [cz, butterfly, put]
  · simp (disch := omega) only [Function.update_of_ne]
  · simp (disch := omega) only [Function.update_of_ne]

/-- Effect of the butterfly loop, rounds `i, ..., H - 1`. -/
theorem dlLoop_spec (H o : Nat) (fwd : Bool) (n : Nat) : ∀ (i : Nat) (w : ℝ × ℝ) (d : Arr), i + n = H →
    (∀ k, i ≤ k → k < H → cz (dlLoop (2 * H) (2 * o) fwd n (2 * i) w d) (o + k) =
        cz d (o + k) + cw w * om fwd (2 * H) ^ (k - i) * cz d (o + H + k)) ∧
    (∀ k, i ≤ k → k < H → cz (dlLoop (2 * H) (2 * o) fwd n (2 * i) w d) (o + H + k) =
        cz d (o + k) - cw w * om fwd (2 * H) ^ (k - i) * cz d (o + H + k)) ∧
    (∀ x, (x < o + i ∨ o + 2 * H ≤ x ∨ (o + H ≤ x ∧ x < o + H + i)) →
        cz (dlLoop (2 * H) (2 * o) fwd n (2 * i) w d) x = cz d x) := by
  induction n with
  | zero =>
    intro i w d h
    refine ⟨fun k h1 h2 => by omega, fun k h1 h2 => by omega, fun x _ => rfl⟩
  | succ n ih =>
    intro i w d h
    obtain ⟨hl, hh, ho⟩ := ih (i + 1) (nextW (2 * H) fwd w)
      (butterfly (2 * H) (2 * o) (2 * i) w.1 w.2 d) (by omega)
    have hw : (⟨w.1, w.2⟩ : ℂ) = cw w := rfl
    refine ⟨fun k h1 h2 => ?_, fun k h1 h2 => ?_, fun x hx => ?_⟩
    · rw [dlLoop, show 2 * i + 2 = 2 * (i + 1) by ring]
      by_cases hk : k = i
      · subst hk
        rw [ho _ (Or.inl (by omega)), butterfly_lo (by omega), Nat.sub_self, pow_zero, hw, mul_one]
      · rw [hl k (by omega) h2, butterfly_out (by omega) (by omega), butterfly_out (by omega) (by omega),
          cw_next, show k - i = (k - (i + 1)) + 1 by omega, pow_succ]
        ring
    · rw [dlLoop, show 2 * i + 2 = 2 * (i + 1) by ring]
      by_cases hk : k = i
      · subst hk
        rw [ho _ (Or.inr (Or.inr (by omega))), butterfly_hi (by omega), Nat.sub_self, pow_zero, hw, mul_one]
      · rw [hh k (by omega) h2, butterfly_out (by omega) (by omega), butterfly_out (by omega) (by omega),
          cw_next, show k - i = (k - (i + 1)) + 1 by omega, pow_succ]
        ring
    · rw [dlLoop, show 2 * i + 2 = 2 * (i + 1) by ring, ho x (by omega),
        butterfly_out (by omega) (by omega)]

/-- The combination step of the transform: `a` is the array after both halves are transformed. -/
structure Combined (fwd : Bool) (H o : Nat) (a b : Arr) : Prop where
  lo : ∀ k, k < H → cz b (o + k) = cz a (o + k) + om fwd (2 * H) ^ k * cz a (o + H + k)
  hi : ∀ k, k < H → cz b (o + H + k) = cz a (o + k) - om fwd (2 * H) ^ k * cz a (o + H + k)
  out : ∀ x, (x < o ∨ o + 2 * H ≤ x) → cz b x = cz a x

theorem cw_one : cw (1, 0) = 1 := by apply Complex.ext <;> simp [cw]

theorem dlLoop_combined (fwd : Bool) (H o : Nat) (a : Arr) :
    Combined fwd H o a (dlLoop (2 * H) (2 * o) fwd H 0 (1, 0) a) := by
  obtain ⟨h1, h2, h3⟩ := dlLoop_spec H o fwd H 0 (1, 0) a (by omega)
  refine ⟨fun k hk => ?_, fun k hk => ?_, fun x hx => ?_⟩
  · have := h1 k (by omega) hk; rw [cw_one, one_mul, Nat.sub_zero] at this; exact this
  · have := h2 k (by omega) hk; rw [cw_one, one_mul, Nat.sub_zero] at this; exact this
  · exact h3 x (by omega)

theorem dl2_combined (fwd : Bool) (o : Nat) (a : Arr) : Combined fwd 1 o a (dl2 (2 * o) a) := by
  have e1 : 2 * (o + 1) = 2 * o + 2 := by ring
  have e2 : 2 * o + 2 + 1 = 2 * o + 3 := by ring
  refine ⟨fun k hk => ?_, fun k hk => ?_, fun x hx => ?_⟩
  · obtain rfl : k = 0 := by omega
    simp only [pow_zero, one_mul, Nat.add_zero]
    apply Complex.ext <;> simp only [cz, dl2, put, e1, e2, Complex.add_re, Complex.add_im]
    · simp (disch := omega) only [Function.update_self, Function.update_of_ne]
    · simp (disch := omega) only [Function.update_self, Function.update_of_ne]
  · obtain rfl : k = 0 := by omega
    simp only [pow_zero, one_mul, Nat.add_zero]
    apply Complex.ext <;> simp only [cz, dl2, put, e1, e2, Complex.sub_re, Complex.sub_im]
    · simp (disch := omega) only [Function.update_self, Function.update_of_ne]
    · simp (disch := omega) only [Function.update_self, Function.update_of_ne]
  · apply Complex.ext <;> simp only [cz, dl2, put]
    · simp (disch := omega) only [Function.update_of_ne]
    · simp (disch := omega) only [Function.update_of_ne]

/-- The part of `dl4` after the two transforms of length two. -/
noncomputable def dl4tail (fwd : Bool) (o : Nat) (d : Arr) : Arr :=
  let tr := d (o + 4)
  let ti := d (o + 5)
  let d := put d (o + 4) (d o - tr)
  let d := put d (o + 5) (d (o + 1) - ti)
  let d := put d o (d o + tr)
  let d := put d (o + 1) (d (o + 1) + ti)
  let wr := wpReal 4 fwd + 1
  let wi := wpImag 4 fwd
  let tr := wr * d (o + 6) - wi * d (o + 7)
  let ti := wr * d (o + 7) + wi * d (o + 6)
  let d := put d (o + 6) (d (o + 2) - tr)
  let d := put d (o + 7) (d (o + 3) - ti)
  let d := put d (o + 2) (d (o + 2) + tr)
  put d (o + 3) (d (o + 3) + ti)

theorem dl4_eq (fwd : Bool) (o : Nat) (d : Arr) :
    dl4 fwd o d = dl4tail fwd o (dl2 (o + 4) (dl2 o d)) := rfl

theorem dl4tail_eq (fwd : Bool) (o : Nat) (d : Arr) :
    dl4tail fwd o d = dlLoop 4 o fwd 2 0 (1, 0) d := by
  simp only [dl4tail, dlLoop, butterfly, nextW, zero_add, one_mul, zero_mul, sub_zero, add_zero,
    Nat.reduceAdd]
  rw [add_comm (wpReal 4 fwd) 1]

theorem dl4_combined (fwd : Bool) (o : Nat) (a : Arr) :
    Combined fwd 2 o a (dl4tail fwd (2 * o) a) := by
  rw [dl4tail_eq]; exact dlLoop_combined fwd 2 o a

/-- Every level of the recursion is two half transforms and a combination. -/
theorem dl_succ (fwd : Bool) (m o : Nat) (d : Arr) :
    Combined fwd (2 ^ m) o (dl fwd m (2 * (o + 2 ^ m)) (dl fwd m (2 * o) d)) (dl fwd (m + 1) (2 * o) d) := by
  match m with
  | 0 => exact dl2_combined fwd o d
  | 1 =>
    have h := dl4_combined fwd o (dl2 (2 * o + 4) (dl2 (2 * o) d))
    rw [← dl4_eq] at h
    exact h
  | m + 2 =>
    rw [dl, show 2 * o + 2 ^ (m + 3) = 2 * (o + 2 ^ (m + 2)) by ring, show 2 ^ (m + 3) = 2 * 2 ^ (m + 2) by ring]
    exact dlLoop_combined fwd (2 ^ (m + 2)) o _

/-- Bit reversal of `m`-bit numbers. -/
def rev : Nat → Nat → Nat
  | 0, _ => 0
  | m + 1, j => j % 2 * 2 ^ m + rev m (j / 2)

theorem rev_lt (m j : Nat) : rev m j < 2 ^ m := by
  induction m generalizing j with
  | zero => simp [rev]
  | succ m ih =>
    rw [rev, pow_succ]
    have := ih (j / 2)
    rcases Nat.mod_two_eq_zero_or_one j with h | h <;> rw [h] <;> omega

theorem sum_even_odd (f : Nat → ℂ) (n : Nat) :
    ∑ j ∈ range (2 * n), f j = ∑ j ∈ range n, f (2 * j) + ∑ j ∈ range n, f (2 * j + 1) := by
  induction n with
  | zero => simp
  | succ n ih =>
    rw [show 2 * (n + 1) = 2 * n + 1 + 1 by ring, sum_range_succ, sum_range_succ, ih, sum_range_succ,
      sum_range_succ]
    ring

/-- `danielson_lanczos` on bit-reversed input is the discrete Fourier transform. -/
theorem dl_spec (fwd : Bool) (m : Nat) : ∀ (o : Nat) (d : Arr),
    (∀ k, k < 2 ^ m → cz (dl fwd m (2 * o) d) (o + k) =
      ∑ j ∈ range (2 ^ m), cz d (o + rev m j) * om fwd (2 ^ m) ^ (j * k)) ∧
    (∀ x, (x < o ∨ o + 2 ^ m ≤ x) → cz (dl fwd m (2 * o) d) x = cz d x) := by
  induction m with
  | zero =>
    intro o d
    refine ⟨fun k hk => ?_, fun x _ => rfl⟩
    obtain rfl : k = 0 := by simpa using hk
    simp [dl, rev]
  | succ m ih =>
    intro o d
    have C := dl_succ fwd m o d
    obtain ⟨a1, a2⟩ := ih o d
    obtain ⟨b1, b2⟩ := ih (o + 2 ^ m) (dl fwd m (2 * o) d)
    have hpos : 0 < 2 ^ m := by positivity
    have hsq : om fwd (2 * 2 ^ m) ^ 2 = om fwd (2 ^ m) := om_sq fwd (2 ^ m) (by omega)
    have hhalf : om fwd (2 * 2 ^ m) ^ (2 ^ m) = -1 := om_half fwd (2 ^ m) (by omega)
    have lo : ∀ k, k < 2 ^ m → cz (dl fwd m (2 * (o + 2 ^ m)) (dl fwd m (2 * o) d)) (o + k) =
        ∑ j ∈ range (2 ^ m), cz d (o + rev m j) * om fwd (2 ^ m) ^ (j * k) := by
      intro k hk
      rw [b2 _ (Or.inl (by omega)), a1 k hk]
    have hi : ∀ k, k < 2 ^ m → cz (dl fwd m (2 * (o + 2 ^ m)) (dl fwd m (2 * o) d)) (o + 2 ^ m + k) =
        ∑ j ∈ range (2 ^ m), cz d (o + 2 ^ m + rev m j) * om fwd (2 ^ m) ^ (j * k) := by
      intro k hk
      rw [b1 k hk]
      exact sum_congr rfl fun j _ => by rw [a2 _ (Or.inr (by omega))]
    have split : ∀ k, ∑ j ∈ range (2 ^ (m + 1)), cz d (o + rev (m + 1) j) * om fwd (2 ^ (m + 1)) ^ (j * k) =
        ∑ j ∈ range (2 ^ m), cz d (o + rev m j) * om fwd (2 ^ m) ^ (j * k) +
        om fwd (2 * 2 ^ m) ^ k * ∑ j ∈ range (2 ^ m), cz d (o + 2 ^ m + rev m j) * om fwd (2 ^ m) ^ (j * k) := by
      intro k
      rw [show 2 ^ (m + 1) = 2 * 2 ^ m by ring, sum_even_odd, mul_sum]
      congr 1
      · refine sum_congr rfl fun j _ => ?_
        rw [rev, show 2 * j % 2 = 0 by omega, show 2 * j / 2 = j by omega, ← hsq, ← pow_mul, zero_mul,
          zero_add, mul_assoc]
      · refine sum_congr rfl fun j _ => ?_
        rw [rev, show (2 * j + 1) % 2 = 1 by omega, show (2 * j + 1) / 2 = j by omega, ← hsq, ← pow_mul,
          one_mul, ← add_assoc, add_mul, pow_add, one_mul, mul_assoc 2 j k]
        ring
    refine ⟨fun k hk => ?_, fun x hx => ?_⟩
    · rw [split k]
      by_cases h : k < 2 ^ m
      · rw [C.lo k h, lo k h, hi k h]
      · obtain ⟨k', rfl⟩ : ∃ k', k = 2 ^ m + k' := ⟨k - 2 ^ m, by omega⟩
        have hk' : k' < 2 ^ m := by rw [pow_succ] at hk; omega
        have per : ∀ j, om fwd (2 ^ m) ^ (j * (2 ^ m + k')) = om fwd (2 ^ m) ^ (j * k') := by
          intro j
          rw [mul_add, pow_add, mul_comm j (2 ^ m), pow_mul, om_pow fwd (2 ^ m) (by omega), one_pow, one_mul]
        simp only [per]
        rw [pow_add, hhalf, ← add_assoc, C.hi k' hk', lo k' hk', hi k' hk']
        ring
    · rw [pow_succ] at hx
      rw [C.out x (by omega), b2 x (by omega), a2 x (by omega)]

/-! ### Bit reversal -/

theorem rev_succ' (m j : Nat) : rev (m + 1) j = 2 * rev m j + j / 2 ^ m % 2 := by
  induction m generalizing j with
  | zero => simp [rev]
  | succ m ih =>
    rw [rev, ih, rev, Nat.div_div_eq_div_mul, pow_succ', mul_comm 2 (2 ^ m)]
    ring

theorem rev_rev (m j : Nat) : rev m (rev m j) = j % 2 ^ m := by
  induction m with
  | zero => simp [rev, Nat.mod_one]
  | succ m ih =>
    rw [rev_succ' m j, rev, show (2 * rev m j + j / 2 ^ m % 2) % 2 = j / 2 ^ m % 2 by omega,
      show (2 * rev m j + j / 2 ^ m % 2) / 2 = rev m j by omega, ih, Nat.mod_pow_succ]
    ring

theorem rev_zero (m : Nat) : rev m 0 = 0 := by
  induction m with
  | zero => rfl
  | succ m ih => rw [rev]; simp [ih]

theorem twiddleStep_spec (t : Nat) : ∀ i, i + 1 < 2 ^ t →
    twiddleStep (2 ^ t) (2 * rev t i + 1) = 2 * rev t (i + 1) + 1 := by
  induction t with
  | zero => intro i h; omega
  | succ s ih =>
    intro i h
    have hs : 0 < 2 ^ s := by positivity
    rw [twiddleStep, rev, rev]
    rw [pow_succ] at h ⊢
    have hr := rev_lt s (i / 2)
    rcases Nat.mod_two_eq_zero_or_one i with h0 | h0
    · rw [dif_neg (by rw [h0]; omega), h0, show (i + 1) % 2 = 1 by omega, show (i + 1) / 2 = i / 2 by omega]
      ring
    · rw [dif_pos ⟨by omega, by rw [h0]; omega⟩, h0, show (i + 1) % 2 = 0 by omega,
        show (i + 1) / 2 = i / 2 + 1 by omega, show 2 ^ s * 2 / 2 = 2 ^ s by omega,
        show 2 * (1 * 2 ^ s + rev s (i / 2)) + 1 - 2 ^ s * 2 = 2 * rev s (i / 2) + 1 by omega,
        ih (i / 2) (by omega)]
      ring

theorem swap_spec (d : Arr) {a b : Nat} (h : a < b) (k : Nat) :
    cz (swapAt (swapAt d (2 * b + 1 - 1) (2 * a + 1 - 1)) (2 * b + 1) (2 * a + 1)) k =
      if k = a then cz d b else if k = b then cz d a else cz d k := by
  rw [show 2 * b + 1 - 1 = 2 * b by omega, show 2 * a + 1 - 1 = 2 * a by omega]
  by_cases ha : k = a
  · subst ha
    rw [if_pos rfl]
    apply Complex.ext <;> simp only [cz, swapAt, put] <;>
      simp (disch := omega) only [Function.update_self, Function.update_of_ne]
  · rw [if_neg ha]
    by_cases hb : k = b
    · subst hb
      rw [if_pos rfl]
      apply Complex.ext <;> simp only [cz, swapAt, put] <;>
        simp (disch := omega) only [Function.update_self, Function.update_of_ne]
    · rw [if_neg hb]
      apply Complex.ext <;> simp only [cz, swapAt, put] <;>
        simp (disch := omega) only [Function.update_of_ne]

theorem twiddleLoop_spec (m : Nat) (x : Arr) (n : Nat) : ∀ (I : Nat) (j : Nat) (d : Arr), I + n = 2 ^ m →
    (I < 2 ^ m → j = 2 * rev m I + 1) →
    (∀ k, k < 2 ^ m → cz d k = if k < I ∨ rev m k < I then cz x (rev m k) else cz x k) →
    ∀ k, k < 2 ^ m → cz (twiddleLoop (2 ^ m) n (2 * I + 1) j d) k = cz x (rev m k) := by
  induction n with
  | zero =>
    intro I j d h hj hd k hk
    rw [twiddleLoop, hd k hk, if_pos (Or.inl (by omega))]
  | succ n ih =>
    intro I j d h hj hd k hk
    have hI : I < 2 ^ m := by omega
    obtain rfl := hj hI
    have hr := rev_lt m I
    have hrr : rev m (rev m I) = I := by rw [rev_rev, Nat.mod_eq_of_lt hI]
    have inj : ∀ k, k < 2 ^ m → (rev m k = I ↔ k = rev m I) := by
      intro k hk
      constructor
      · rintro rfl; rw [rev_rev, Nat.mod_eq_of_lt hk]
      · rintro rfl; exact hrr
    rw [twiddleLoop, show 2 * I + 1 + 2 = 2 * (I + 1) + 1 by ring]
    refine ih (I + 1) _ _ (by omega) (fun h' => twiddleStep_spec m I h') ?_ k hk
    intro k hk
    by_cases hs : I < rev m I
    · rw [if_pos (by omega), swap_spec d hs]
      by_cases h1 : k = I
      · subst h1
        rw [if_pos rfl, hd _ hr, if_neg (by rw [hrr]; omega), if_pos (by omega)]
      · rw [if_neg h1]
        by_cases h2 : k = rev m I
        · subst h2
          rw [if_pos rfl, hd I hI, if_neg (by omega), hrr, if_pos (by omega)]
        · have := (inj k hk).not.mpr h2
          rw [if_neg h2, hd k hk]
          have e : (k < I ∨ rev m k < I) ↔ (k < I + 1 ∨ rev m k < I + 1) := by omega
          simp only [e]
    · rw [if_neg (by omega), hd k hk]
      by_cases h1 : k = I
      · subst h1
        by_cases h3 : rev m k = k
        · rw [if_neg (by omega), if_pos (by omega), h3]
        · rw [if_pos (by omega), if_pos (by omega)]
      · by_cases h2 : k = rev m I
        · have : k < I := by omega
          rw [if_pos (by omega), if_pos (by omega)]
        · have := (inj k hk).not.mpr h2
          have e : (k < I ∨ rev m k < I) ↔ (k < I + 1 ∨ rev m k < I + 1) := by omega
          simp only [e]

theorem bitTwiddle_spec (m : Nat) (d : Arr) (k : Nat) (hk : k < 2 ^ m) :
    cz (bitTwiddle (2 ^ m) d) k = cz d (rev m k) := by
  refine twiddleLoop_spec m d (2 ^ m) 0 1 d (by omega) (fun _ => by rw [rev_zero]) ?_ k hk
  intro k _
  rw [if_neg (by omega)]

/-- `fft_lanczos` is the discrete Fourier transform. -/
theorem fft_spec (fwd : Bool) (m : Nat) (d : Arr) (k : Nat) (hk : k < 2 ^ m) :
    cz (fft fwd m d) k = ∑ j ∈ range (2 ^ m), cz d j * om fwd (2 ^ m) ^ (j * k) := by
  have h := (dl_spec fwd m 0 (bitTwiddle (2 ^ m) d)).1 k hk
  rw [Nat.zero_add, Nat.mul_zero] at h
  unfold fft
  rw [h]
  refine sum_congr rfl fun j hj => ?_
  rw [Nat.zero_add, bitTwiddle_spec m d _ (rev_lt m j), rev_rev, Nat.mod_eq_of_lt (mem_range.mp hj)]

/-! ### The real transform -/

/-- Spectrum of a sequence of `N` real numbers. -/
noncomputable def spec (N : Nat) (y : Nat → ℝ) (k : Nat) : ℂ :=
  ∑ j ∈ range N, (y j : ℂ) * om true N ^ (j * k)

noncomputable def evenPart (M : Nat) (y : Nat → ℝ) (k : Nat) : ℂ :=
  ∑ j ∈ range M, (y (2 * j) : ℂ) * om true M ^ (j * k)

noncomputable def oddPart (M : Nat) (y : Nat → ℝ) (k : Nat) : ℂ :=
  ∑ j ∈ range M, (y (2 * j + 1) : ℂ) * om true M ^ (j * k)

theorem om_mul (fwd : Bool) (a b : Nat) (ha : a ≠ 0) (hb : b ≠ 0) : om fwd (a * b) ^ a = om fwd b := by
  unfold om
  rw [← Complex.exp_nat_mul]
  congr 1
  have : (a : ℂ) ≠ 0 := by exact_mod_cast ha
  have : (b : ℂ) ≠ 0 := by exact_mod_cast hb
  push_cast
  field_simp

theorem om_four : om true 4 = I := by
  rw [om_ri]
  apply Complex.ext
  · simp only [wpReal, wpRealInit, sin1, if_true, Complex.I_re]
    have h := Real.sin_pi_div_four
    have h2 : √(2 : ℝ) * √2 = 2 := Real.mul_self_sqrt (by norm_num)
    push_cast
    rw [h]; linear_combination (-(1 / 2) : ℝ) * h2
  · simp only [wpImag, sin2, if_true, Complex.I_im]
    push_cast
    rw [show 2 * Real.pi / 4 = Real.pi / 2 by ring, Real.sin_pi_div_two]

theorem spec_split (M : Nat) (hM : M ≠ 0) (y : Nat → ℝ) (k : Nat) :
    spec (2 * M) y k = evenPart M y k + om true (2 * M) ^ k * oddPart M y k := by
  unfold spec evenPart oddPart
  rw [sum_even_odd, mul_sum]
  congr 1
  · refine sum_congr rfl fun j _ => ?_
    rw [← om_sq true M hM, ← pow_mul, mul_assoc]
  · refine sum_congr rfl fun j _ => ?_
    rw [← om_sq true M hM, ← pow_mul, add_mul, pow_add, one_mul, mul_assoc 2 j k]
    ring

theorem om_unit (N : Nat) : om true N * om false N = 1 := by
  rw [om_false, mul_inv_cancel₀ (om_ne_zero true N)]

theorem conj_pow_sub (M : Nat) (hM : M ≠ 0) (j k : Nat) (hk : k ≤ M) :
    (starRingEnd ℂ) (om true M ^ (j * (M - k))) = om true M ^ (j * k) := by
  rw [map_pow, om_conj]
  have h1 : om true M ^ (j * k) * om false M ^ (j * k) = 1 := by rw [← mul_pow, om_unit, one_pow]
  have h2 : om false M ^ (j * (M - k)) * om false M ^ (j * k) = 1 := by
    rw [← pow_add, ← mul_add, Nat.sub_add_cancel hk, mul_comm j M, pow_mul, om_pow false M hM, one_pow]
  have h3 : om false M ^ (j * k) ≠ 0 := pow_ne_zero _ (om_ne_zero _ _)
  exact mul_right_cancel₀ h3 (h2.trans h1.symm)

theorem evenPart_conj (M : Nat) (hM : M ≠ 0) (y : Nat → ℝ) (k : Nat) (hk : k ≤ M) :
    (starRingEnd ℂ) (evenPart M y (M - k)) = evenPart M y k := by
  unfold evenPart
  rw [map_sum]
  refine sum_congr rfl fun j _ => ?_
  rw [map_mul, Complex.conj_ofReal, conj_pow_sub M hM j k hk]

theorem oddPart_conj (M : Nat) (hM : M ≠ 0) (y : Nat → ℝ) (k : Nat) (hk : k ≤ M) :
    (starRingEnd ℂ) (oddPart M y (M - k)) = oddPart M y k := by
  unfold oddPart
  rw [map_sum]
  refine sum_congr rfl fun j _ => ?_
  rw [map_mul, Complex.conj_ofReal, conj_pow_sub M hM j k hk]

theorem om_conj_sub (M : Nat) (hM : M ≠ 0) (k : Nat) (hk : k ≤ M) :
    (starRingEnd ℂ) (om true (2 * M) ^ (M - k)) = -om true (2 * M) ^ k := by
  rw [map_pow, om_conj]
  have h1 : om true (2 * M) ^ k * om false (2 * M) ^ k = 1 := by rw [← mul_pow, om_unit, one_pow]
  have h2 : om false (2 * M) ^ (M - k) * om false (2 * M) ^ k = -1 := by
    rw [← pow_add, Nat.sub_add_cancel hk, om_half false M hM]
  have h3 : om false (2 * M) ^ k ≠ 0 := pow_ne_zero _ (om_ne_zero _ _)
  apply mul_right_cancel₀ h3
  rw [h2]; linear_combination h1

theorem spec_conj (M : Nat) (hM : M ≠ 0) (y : Nat → ℝ) (k : Nat) (hk : k ≤ M) :
    (starRingEnd ℂ) (spec (2 * M) y (M - k)) = evenPart M y k - om true (2 * M) ^ k * oddPart M y k := by
  rw [spec_split M hM, map_add, map_mul, evenPart_conj M hM y k hk, oddPart_conj M hM y k hk,
    om_conj_sub M hM k hk]
  ring

theorem cz_eq (d : Arr) (k : Nat) : cz d k = d (2 * k) + I * d (2 * k + 1) := by
  apply Complex.ext <;> simp [cz]

theorem fft_parts (m : Nat) (d : Arr) (k : Nat) (hk : k < 2 ^ m) :
    cz (fft true m d) k = evenPart (2 ^ m) d k + I * oddPart (2 ^ m) d k := by
  rw [fft_spec true m d k hk]
  unfold evenPart oddPart
  rw [mul_sum, ← sum_add_distrib]
  refine sum_congr rfl fun j _ => ?_
  rw [cz_eq]; ring

/-- Factor of `h2` in `rfft`. -/
noncomputable def hfac (fwd : Bool) : ℂ := if fwd then ⟨0, -(1 / 2)⟩ else ⟨0, 1 / 2⟩

theorem hfac_true : hfac true = -I / 2 := by
  have : (-I / 2 : ℂ) = ((1 / 2 : ℝ) : ℂ) * (-I) := by push_cast; ring
  rw [this]
  apply Complex.ext <;> simp [hfac]

theorem hfac_false : hfac false = I / 2 := by
  have : (I / 2 : ℂ) = ((1 / 2 : ℝ) : ℂ) * I := by push_cast; ring
  rw [this]
  apply Complex.ext <;> simp [hfac]

theorem unpack_at {M : Nat} (fwd : Bool) {i : Nat} (hi : 1 ≤ i) (h2 : 2 * i < M) (wr wi : ℝ) (d : Arr) :
    cz (unpack (2 * M) fwd i wr wi d) i =
      (cz d i + (starRingEnd ℂ) (cz d (M - i))) / 2 +
        ⟨wr, wi⟩ * (hfac fwd * (cz d i - (starRingEnd ℂ) (cz d (M - i)))) := by
  have e1 : i + i = 2 * i := by ring
  have e2 : 2 * M - 2 * i = 2 * (M - i) := by omega
  have e3 : 1 + 2 * i = 2 * i + 1 := by ring
  have e4 : 1 + 2 * (M - i) = 2 * (M - i) + 1 := by ring
  have key : ∀ x : ℂ, x / 2 = (((1 / 2 : ℝ) : ℝ) : ℂ) * x := by intro x; push_cast; ring
  rw [key]
  cases fwd <;>
  (apply Complex.ext <;> simp only [cz, unpack, put, e1, e2, e3, e4, hfac, Complex.conj_re, Complex.conj_im,
      Complex.add_re, Complex.add_im, Complex.sub_re, Complex.sub_im, Complex.mul_re, Complex.mul_im,
      Complex.ofReal_re, Complex.ofReal_im, if_true, Bool.false_eq_true, if_false] <;>
    simp (disch := omega) only [Function.update_self, Function.update_of_ne] <;> ring)

theorem unpack_opp {M : Nat} (fwd : Bool) {i : Nat} (hi : 1 ≤ i) (h2 : 2 * i < M) (wr wi : ℝ) (d : Arr) :
    cz (unpack (2 * M) fwd i wr wi d) (M - i) =
      (starRingEnd ℂ) ((cz d i + (starRingEnd ℂ) (cz d (M - i))) / 2 -
        ⟨wr, wi⟩ * (hfac fwd * (cz d i - (starRingEnd ℂ) (cz d (M - i))))) := by
  have e1 : i + i = 2 * i := by ring
  have e2 : 2 * M - 2 * i = 2 * (M - i) := by omega
  have e3 : 1 + 2 * i = 2 * i + 1 := by ring
  have e4 : 1 + 2 * (M - i) = 2 * (M - i) + 1 := by ring
  have key : ∀ x : ℂ, x / 2 = (((1 / 2 : ℝ) : ℝ) : ℂ) * x := by intro x; push_cast; ring
  rw [key]
  cases fwd <;>
  (apply Complex.ext <;> simp only [cz, unpack, put, e1, e2, e3, e4, hfac, Complex.conj_re, Complex.conj_im,
      Complex.add_re, Complex.add_im, Complex.sub_re, Complex.sub_im, Complex.mul_re, Complex.mul_im,
      Complex.ofReal_re, Complex.ofReal_im, if_true, Bool.false_eq_true, if_false] <;>
    simp (disch := omega) only [Function.update_self, Function.update_of_ne] <;> ring)

theorem unpack_out {M : Nat} (fwd : Bool) {i k : Nat} (h1 : k ≠ i) (h2 : k ≠ M - i) (h3 : 2 * i < M)
    (wr wi : ℝ) (d : Arr) : cz (unpack (2 * M) fwd i wr wi d) k = cz d k := by
  apply Complex.ext <;> simp only [cz, unpack, put] <;>
    simp (disch := omega) only [Function.update_of_ne]

/-- Effect of the unpacking loop, rounds `i, ..., i + n - 1`. -/
theorem unpackLoop_spec (M : Nat) (fwd : Bool) (n : Nat) : ∀ (i : Nat) (w : ℝ × ℝ) (d : Arr), 1 ≤ i →
    2 * (i + n) ≤ M →
    (∀ k, i ≤ k → k < i + n → cz (unpackLoop (2 * M) fwd n i w d) k =
      (cz d k + (starRingEnd ℂ) (cz d (M - k))) / 2 +
        cw w * om fwd (2 * M) ^ (k - i) * (hfac fwd * (cz d k - (starRingEnd ℂ) (cz d (M - k))))) ∧
    (∀ k, i ≤ k → k < i + n → cz (unpackLoop (2 * M) fwd n i w d) (M - k) =
      (starRingEnd ℂ) ((cz d k + (starRingEnd ℂ) (cz d (M - k))) / 2 -
        cw w * om fwd (2 * M) ^ (k - i) * (hfac fwd * (cz d k - (starRingEnd ℂ) (cz d (M - k)))))) ∧
    (∀ x, (x < i ∨ (i + n ≤ x ∧ x ≤ M - (i + n)) ∨ M - i < x) →
      cz (unpackLoop (2 * M) fwd n i w d) x = cz d x) := by
  induction n with
  | zero =>
    intro i w d _ _
    refine ⟨fun k h1 h2 => by omega, fun k h1 h2 => by omega, fun x _ => rfl⟩
  | succ n ih =>
    intro i w d hi h
    obtain ⟨hl, hh, ho⟩ := ih (i + 1) (nextW (2 * M) fwd w) (unpack (2 * M) fwd i w.1 w.2 d)
      (by omega) (by omega)
    have hw : (⟨w.1, w.2⟩ : ℂ) = cw w := rfl
    refine ⟨fun k h1 h2 => ?_, fun k h1 h2 => ?_, fun x hx => ?_⟩
    · rw [unpackLoop]
      by_cases hk : k = i
      · subst hk
        rw [ho _ (Or.inl (by omega)), unpack_at fwd hi (by omega), Nat.sub_self, pow_zero, hw, mul_one]
      · rw [hl k (by omega) (by omega), unpack_out fwd (by omega) (by omega) (by omega),
          unpack_out fwd (by omega) (by omega) (by omega), cw_next,
          show k - i = (k - (i + 1)) + 1 by omega, pow_succ]
        ring
    · rw [unpackLoop]
      by_cases hk : k = i
      · subst hk
        rw [ho _ (Or.inr (Or.inr (by omega))), unpack_opp fwd hi (by omega), Nat.sub_self, pow_zero, hw, mul_one]
      · rw [hh k (by omega) (by omega), unpack_out fwd (by omega) (by omega) (by omega),
          unpack_out fwd (by omega) (by omega) (by omega), cw_next,
          show k - i = (k - (i + 1)) + 1 by omega, pow_succ]
        congr 1; ring
    · rw [unpackLoop, ho x (by omega), unpack_out fwd (by omega) (by omega) (by omega)]

/-- The packed form of the spectrum of `N = 2 M` real numbers. -/
structure Packed (M : Nat) (d : Arr) (y : Nat → ℝ) : Prop where
  zero : ((d 0 : ℝ) : ℂ) = spec (2 * M) y 0
  half : ((d 1 : ℝ) : ℂ) = spec (2 * M) y M
  mid : ∀ k, 0 < k → k < M → cz d k = spec (2 * M) y k

theorem cw_first (N : Nat) (fwd : Bool) : cw (1 + wpReal N fwd, wpImag N fwd) = om fwd N := by
  rw [om_ri]; rfl

/-- Entries `0 < k < M` after the unpacking loop of `rfft`. -/
theorem unpack_all (m : Nat) (fwd : Bool) (d : Arr) (k : Nat) (h0 : 0 < k) (hk : k < 2 ^ (m + 1))
    (a : Nat → ℂ)
    (hlo : ∀ k, 0 < k → 2 * k < 2 ^ (m + 1) → (cz d k + (starRingEnd ℂ) (cz d (2 ^ (m + 1) - k))) / 2 +
        om fwd (2 * 2 ^ (m + 1)) ^ k * (hfac fwd * (cz d k - (starRingEnd ℂ) (cz d (2 ^ (m + 1) - k)))) = a k)
    (hhi : ∀ k, 0 < k → 2 * k < 2 ^ (m + 1) → (starRingEnd ℂ) ((cz d k + (starRingEnd ℂ) (cz d (2 ^ (m + 1) - k))) / 2 -
        om fwd (2 * 2 ^ (m + 1)) ^ k * (hfac fwd * (cz d k - (starRingEnd ℂ) (cz d (2 ^ (m + 1) - k))))) = a (2 ^ (m + 1) - k))
    (hmid : cz d (2 ^ m) = a (2 ^ m)) :
    cz (unpackLoop (2 * 2 ^ (m + 1)) fwd (2 ^ m - 1) 1 (1 + wpReal (2 * 2 ^ (m + 1)) fwd, wpImag (2 * 2 ^ (m + 1)) fwd) d) k = a k := by
  have hpos : 0 < 2 ^ m := by positivity
  have h2 : 2 ^ (m + 1) = 2 * 2 ^ m := by ring
  obtain ⟨hl, hh, ho⟩ := unpackLoop_spec (2 ^ (m + 1)) fwd (2 ^ m - 1) 1
    (1 + wpReal (2 * 2 ^ (m + 1)) fwd, wpImag (2 * 2 ^ (m + 1)) fwd) d le_rfl (by omega)
  have hp : ∀ k, 0 < k → cw (1 + wpReal (2 * 2 ^ (m + 1)) fwd, wpImag (2 * 2 ^ (m + 1)) fwd) *
      om fwd (2 * 2 ^ (m + 1)) ^ (k - 1) = om fwd (2 * 2 ^ (m + 1)) ^ k := by
    intro k hk
    rw [cw_first, ← pow_succ', Nat.sub_add_cancel hk]
  rcases lt_trichotomy k (2 ^ m) with h | h | h
  · rw [hl k (by omega) (by omega), hp k h0, hlo k h0 (by omega)]
  · subst h
    rw [ho _ (Or.inr (Or.inl (by omega))), hmid]
  · obtain ⟨k', hk', rfl⟩ : ∃ k', k' < 2 ^ m ∧ k = 2 ^ (m + 1) - k' := ⟨2 ^ (m + 1) - k, by omega, by omega⟩
    rw [hh k' (by omega) (by omega), hp k' (by omega), hhi k' (by omega) (by omega)]

theorem unpack_zero (m : Nat) (fwd : Bool) (w : ℝ × ℝ) (d : Arr) :
    cz (unpackLoop (2 * 2 ^ (m + 1)) fwd (2 ^ m - 1) 1 w d) 0 = cz d 0 := by
  have hpos : 0 < 2 ^ m := by positivity
  have h2 : 2 ^ (m + 1) = 2 * 2 ^ m := by ring
  exact (unpackLoop_spec (2 ^ (m + 1)) fwd (2 ^ m - 1) 1 w d le_rfl (by omega)).2.2 0 (Or.inl (by omega))

theorem quarter (m : Nat) : om true (2 * 2 ^ (m + 1)) ^ (2 ^ m) = I := by
  rw [show 2 * 2 ^ (m + 1) = 2 ^ m * 4 by ring, om_mul true _ _ (by positivity) (by norm_num), om_four]

/-- The forward transform of `N = 2^(m+2)` real numbers is the packed spectrum. -/
theorem rfft_forward (m : Nat) (d : Arr) : Packed (2 ^ (m + 1)) (rfft true (m + 1) d) d := by
  have hM : 2 ^ (m + 1) ≠ 0 := by positivity
  have hN : 2 ^ (m + 1 + 1) = 2 * 2 ^ (m + 1) := by ring
  have hq : 2 * 2 ^ (m + 1) / 4 - 1 = 2 ^ m - 1 := by
    rw [show 2 * 2 ^ (m + 1) = 4 * 2 ^ m by ring, Nat.mul_div_cancel_left _ (by norm_num)]
  have hpos : 0 < 2 ^ m := by positivity
  have h2 : 2 ^ (m + 1) = 2 * 2 ^ m := by ring
  have z : ∀ k, k < 2 ^ (m + 1) → cz (fft true (m + 1) d) k = _ := fun k hk => fft_parts (m + 1) d k hk
  have zc : ∀ k, 0 < k → k < 2 ^ (m + 1) → (starRingEnd ℂ) (cz (fft true (m + 1) d) (2 ^ (m + 1) - k)) =
      evenPart (2 ^ (m + 1)) d k - I * oddPart (2 ^ (m + 1)) d k := by
    intro k h0 hk
    rw [z _ (by omega), map_add, map_mul, evenPart_conj _ hM d k hk.le, oddPart_conj _ hM d k hk.le, Complex.conj_I]
    ring
  have hI : I * I = -1 := Complex.I_mul_I
  have mid : ∀ k, 0 < k → k < 2 ^ (m + 1) → cz (unpackLoop (2 * 2 ^ (m + 1)) true (2 ^ m - 1) 1
      (1 + wpReal (2 * 2 ^ (m + 1)) true, wpImag (2 * 2 ^ (m + 1)) true) (fft true (m + 1) d)) k =
      spec (2 * 2 ^ (m + 1)) d k := by
    intro k h0 hk
    refine unpack_all m true _ k h0 hk (spec (2 * 2 ^ (m + 1)) d) ?_ ?_ ?_
    · intro k h0 hk
      rw [z k (by omega), zc k h0 (by omega), spec_split _ hM]
      simp only [hfac_true]
      linear_combination (-(om true (2 * 2 ^ (m + 1)) ^ k * oddPart (2 ^ (m + 1)) d k)) * hI
    · intro k h0 hk
      rw [z k (by omega), zc k h0 (by omega)]
      have h := spec_conj (2 ^ (m + 1)) hM d k (by omega)
      have h' := congrArg (starRingEnd ℂ) h
      rw [Complex.conj_conj] at h'
      rw [h']
      congr 1
      simp only [hfac_true]
      linear_combination (om true (2 * 2 ^ (m + 1)) ^ k * oddPart (2 ^ (m + 1)) d k) * hI
    · rw [z _ (by omega), spec_split _ hM, quarter]
  have zero := unpack_zero m true (1 + wpReal (2 * 2 ^ (m + 1)) true, wpImag (2 * 2 ^ (m + 1)) true)
    (fft true (m + 1) d)
  rw [z 0 (by omega)] at zero
  have e0 : evenPart (2 ^ (m + 1)) d 0 = ((∑ j ∈ range (2 ^ (m + 1)), d (2 * j) : ℝ) : ℂ) := by
    unfold evenPart; push_cast; simp
  have o0 : oddPart (2 ^ (m + 1)) d 0 = ((∑ j ∈ range (2 ^ (m + 1)), d (2 * j + 1) : ℝ) : ℂ) := by
    unfold oddPart; push_cast; simp
  have eM : evenPart (2 ^ (m + 1)) d (2 ^ (m + 1)) = evenPart (2 ^ (m + 1)) d 0 := by
    unfold evenPart; refine sum_congr rfl fun j _ => ?_
    rw [mul_comm j, pow_mul, om_pow true _ hM, one_pow, Nat.mul_zero, pow_zero]
  have oM : oddPart (2 ^ (m + 1)) d (2 ^ (m + 1)) = oddPart (2 ^ (m + 1)) d 0 := by
    unfold oddPart; refine sum_congr rfl fun j _ => ?_
    rw [mul_comm j, pow_mul, om_pow true _ hM, one_pow, Nat.mul_zero, pow_zero]
  have r0 := congrArg Complex.re zero
  have i0 := congrArg Complex.im zero
  rw [e0, o0] at r0 i0
  simp [cz] at r0 i0
  have hr : rfft true (m + 1) d =
      put (put (unpackLoop (2 * 2 ^ (m + 1)) true (2 ^ m - 1) 1
        (1 + wpReal (2 * 2 ^ (m + 1)) true, wpImag (2 * 2 ^ (m + 1)) true) (fft true (m + 1) d)) 0
        (∑ j ∈ range (2 ^ (m + 1)), d (2 * j) + ∑ j ∈ range (2 ^ (m + 1)), d (2 * j + 1))) 1
        (∑ j ∈ range (2 ^ (m + 1)), d (2 * j) - ∑ j ∈ range (2 ^ (m + 1)), d (2 * j + 1)) := by
    simp only [rfft, hN, hq, if_true]
    rw [r0]
    congr 1
    · rw [i0]
    · simp only [put]; rw [Function.update_of_ne (by norm_num), i0]
  refine ⟨?_, ?_, ?_⟩
  · rw [hr, spec_split _ hM, e0, o0]
    simp [put]
  · rw [hr, spec_split _ hM, eM, oM, e0, o0, om_half true _ hM]
    simp [put]; ring
  · intro k h0 hk
    rw [← mid k h0 hk, hr]
    unfold cz put
    rw [Function.update_of_ne (by omega), Function.update_of_ne (by omega), Function.update_of_ne (by omega),
      Function.update_of_ne (by omega)]

end EFX.FFT
