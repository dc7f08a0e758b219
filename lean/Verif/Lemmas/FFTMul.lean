import Verif.Lemmas.FFTConv

/-! The multiplication by transforms. -/

namespace EFX.FFT

open Finset Complex

theorem sizeLoop_spec (p2 : Nat) (k : Nat) : ∀ a, 2 ^ a < p2 → p2 ≤ 2 ^ (a + k) →
    ∃ t, sizeLoop p2 k (2 ^ a) = 2 ^ (t + 1) ∧ p2 ≤ 2 ^ (t + 1) ∧ 2 ^ t < p2 := by
  induction k with
  | zero => intro a h h'; rw [Nat.add_zero] at h'; omega
  | succ k ih =>
    intro a h h'
    rw [sizeLoop, ← pow_succ]
    by_cases hc : 2 ^ (a + 1) ≥ p2
    · rw [if_pos hc]; exact ⟨a, rfl, hc, h⟩
    · rw [if_neg hc]
      exact ih (a + 1) (by omega) (by rw [show a + 1 + k = a + (k + 1) by ring]; exact h')

theorem fftSize_spec (p : Nat) (h1 : 1 ≤ p) (h2 : p ≤ 2 ^ 29) :
    ∃ t, fftSize p = 2 * 2 ^ (t + 1) ∧ p * 2 ≤ 2 ^ (t + 1) ∧ 2 ^ t < p * 2 := by
  obtain ⟨t, a, b, c⟩ := sizeLoop_spec (p * 2) 30 0 (by omega)
    (by rw [Nat.zero_add]; omega)
  refine ⟨t, ?_, b, c⟩
  unfold fftSize
  rw [pow_zero] at a
  rw [a]; ring

theorem dispatch_in (t : Nat) (h1 : 5 ≤ t + 1) (h2 : t + 1 ≤ 26) : dispatch (2 * 2 ^ (t + 1)) = t + 1 := by
  have e : 2 * 2 ^ (t + 1) = 2 ^ (t + 2) := by ring
  have l1 : 2 ^ 6 ≤ 2 ^ (t + 2) := Nat.pow_le_pow_right (by norm_num) (by omega)
  have l2 : 2 ^ (t + 2) ≤ 2 ^ 27 := Nat.pow_le_pow_right (by norm_num) (by omega)
  unfold dispatch
  rw [e, if_pos ⟨by omega, l2⟩, Nat.log2_two_pow]
  omega

theorem spread_zero (l : List Nat) (p i : Nat) (h : 2 * p ≤ i) : spread (l.take p) i = 0 := by
  unfold spread
  have : (halves (l.take p)).length ≤ i := by
    rw [halves_length, List.length_take]; omega
  rw [List.getD_eq_default _ _ this]; simp

theorem convR_spread (u v : List Nat) (k : Nat) :
    convR (spread u) (spread v) k = (convAt (halves u) (halves v) k : ℝ) := by
  rw [convAt_eq]
  unfold convR conv spread
  push_cast
  rfl

/-- The transformed product in exact arithmetic, every column. -/
theorem transformed_spec (u v : List Nat) (p : Nat) (h1 : 9 ≤ p) (h2 : p ≤ 2 ^ 25) (j : Nat) (hj : j < 4 * p) :
    transformed u v p j / ((fftSize p / 2 : Nat) : ℝ) = (convAt (halves (u.take p)) (halves (v.take p)) j : ℝ) := by
  obtain ⟨t, e, b, c⟩ := fftSize_spec p (by omega) (by omega)
  have t1 : 5 ≤ t + 1 := by
    by_contra h
    have : 2 ^ (t + 1) ≤ 2 ^ 4 := Nat.pow_le_pow_right (by norm_num) (by omega)
    omega
  have t2 : t + 1 ≤ 26 := by
    by_contra h
    have : 2 ^ 26 ≤ 2 ^ t := Nat.pow_le_pow_right (by norm_num) (by omega)
    omega
  have d : dispatch (fftSize p) = t + 1 := by rw [e]; exact dispatch_in t t1 t2
  have hM : (0 : ℝ) < ((2 ^ (t + 1) : ℕ) : ℝ) := by positivity
  have ev : transformed u v p = convolve t (fftSize p / 2 - 1) (spread (u.take p)) (spread (v.take p)) := by
    unfold transformed convolve
    simp only [d]
  have hs : fftSize p / 2 = 2 ^ (t + 1) := by rw [e]; omega
  rw [ev, convolve_spec t _ _ _ (by omega) ?_ j (by omega), convR_spread, hs]
  · field_simp
  · intro i j hi hj hij
    rcases le_or_gt (2 * p) i with h | h
    · rw [spread_zero u p i h, zero_mul]
    · rw [spread_zero v p j (by omega), mul_zero]

theorem releaseCols_congr (a b : List Nat) (col : Nat → Nat) (p : Nat) :
    ∀ i acc carry, i ≤ p → (∀ j, j < 2 * p - 1 → col j = convAt a b j) →
    releaseCols col i acc carry = fftRelease a b i acc carry := by
  intro i
  induction i with
  | zero => intro acc carry _ _; rfl
  | succ i ih =>
    intro acc carry hi h
    rw [releaseCols, fftRelease]
    rw [h (2 * i) (by omega)]
    have e : (if i ≠ 0 then col (2 * i - 1) else 0) = if i ≠ 0 then convAt a b (2 * i - 1) else 0 := by
      by_cases h0 : i ≠ 0
      · rw [if_pos h0, if_pos h0, h _ (by omega)]
      · rw [if_neg h0, if_neg h0]
    simp only [e]
    exact ih _ _ (by omega) h

/-- Rounding recovers an integer from an approximation that is off by less than one half. -/
theorem floor_near (x : ℝ) (n : Nat) (h : |x - n| < 1 / 2) : ⌊x + 1 / 2⌋₊ = n := by
  have h1 := (abs_lt.mp h).1
  have h2 := (abs_lt.mp h).2
  rw [Nat.floor_eq_iff (by have : (0:ℝ) ≤ n := Nat.cast_nonneg n; linarith)]
  constructor <;> linarith

theorem mulWith_near (u v : List Nat) (p : Nat) (af : Arr)
    (h : ∀ j, j < 2 * p - 1 → |af j / ((fftSize p / 2 : Nat) : ℝ) -
      (convAt (halves (u.take p)) (halves (v.take p)) j : ℝ)| < 1 / 2) :
    mulWith af u p = mulLoopFFT u v p := by
  unfold mulWith mulLoopFFT
  rw [releaseCols_congr (halves (u.take p)) (halves (v.take p)) _ p p [] 0 le_rfl]
  intro j hj
  exact floor_near _ _ (h j hj)

theorem mulLoopReal_eq (u v : List Nat) (p : Nat) (h1 : 9 ≤ p) (h2 : p ≤ 2 ^ 25) :
    mulLoopReal u v p = mulLoopFFT u v p := by
  refine mulWith_near u v p _ fun j hj => ?_
  rw [transformed_spec u v p h1 h2 j (by omega), sub_self, abs_zero]
  norm_num

/-! ### More than 2^25 limbs -/

theorem twiddleLoop_out (m : Nat) (n : Nat) : ∀ (I : Nat) (j : Nat) (d : Arr), I + n = 2 ^ m →
    (I < 2 ^ m → j = 2 * rev m I + 1) →
    ∀ k, 2 ^ m ≤ k → cz (twiddleLoop (2 ^ m) n (2 * I + 1) j d) k = cz d k := by
  induction n with
  | zero => intro I j d h hj k hk; rfl
  | succ n ih =>
    intro I j d h hj k hk
    have hI : I < 2 ^ m := by omega
    obtain rfl := hj hI
    have hr := rev_lt m I
    rw [twiddleLoop, show 2 * I + 1 + 2 = 2 * (I + 1) + 1 by ring,
      ih (I + 1) _ _ (by omega) (fun h' => twiddleStep_spec m I h') k hk]
    by_cases hs : I < rev m I
    · rw [if_pos (by omega), swap_spec d hs, if_neg (by omega), if_neg (by omega)]
    · rw [if_neg (by omega)]

theorem fft_out (fwd : Bool) (m : Nat) (d : Arr) (k : Nat) (hk : 2 ^ m ≤ k) : cz (fft fwd m d) k = cz d k := by
  have h := (dl_spec fwd m 0 (bitTwiddle (2 ^ m) d)).2 k (Or.inr (by omega))
  rw [Nat.mul_zero] at h
  unfold fft
  rw [h]
  exact twiddleLoop_out m (2 ^ m) 0 1 d (by omega) (fun _ => by rw [rev_zero]) k hk

theorem unpackLoop_out (m : Nat) (fwd : Bool) (w : ℝ × ℝ) (d : Arr) (k : Nat) (hk : 2 ^ (m + 1) ≤ k) :
    cz (unpackLoop (2 * 2 ^ (m + 1)) fwd (2 ^ m - 1) 1 w d) k = cz d k := by
  have hpos : 0 < 2 ^ m := by positivity
  have h2 : 2 ^ (m + 1) = 2 * 2 ^ m := by ring
  exact (unpackLoop_spec (2 ^ (m + 1)) fwd (2 ^ m - 1) 1 w d le_rfl (by omega)).2.2 k (Or.inr (Or.inr (by omega)))

theorem cz_put (d : Arr) (i : Nat) (x : ℝ) (k : Nat) (h : i < 2 * k) : cz (put d i x) k = cz d k := by
  unfold cz put
  rw [Function.update_of_ne (by omega), Function.update_of_ne (by omega)]

theorem rfft_out (fwd : Bool) (m : Nat) (d : Arr) (k : Nat) (hk : 2 ^ (m + 1) ≤ k) :
    cz (rfft fwd (m + 1) d) k = cz d k := by
  have hN : 2 ^ (m + 1 + 1) = 2 * 2 ^ (m + 1) := by ring
  have hq : 2 * 2 ^ (m + 1) / 4 - 1 = 2 ^ m - 1 := by
    rw [show 2 * 2 ^ (m + 1) = 4 * 2 ^ m by ring, Nat.mul_div_cancel_left _ (by norm_num)]
  have hpos : 0 < 2 ^ m := by positivity
  have h2 : 2 ^ (m + 1) = 2 * 2 ^ m := by ring
  cases fwd
  · simp only [rfft, hN, hq, Bool.false_eq_true, if_false]
    rw [fft_out false _ _ k hk, cz_put _ _ _ _ (by omega), cz_put _ _ _ _ (by omega), unpackLoop_out m _ _ _ k hk]
  · simp only [rfft, hN, hq, if_true]
    rw [cz_put _ _ _ _ (by omega), cz_put _ _ _ _ (by omega), unpackLoop_out m _ _ _ k hk, fft_out true _ _ k hk]

theorem releaseCols_zero (i : Nat) (acc : List Nat) :
    releaseCols (fun _ => 0) i acc 0 = List.replicate i 0 ++ acc := by
  induction i generalizing acc with
  | zero => rfl
  | succ i ih =>
    rw [releaseCols]
    have e : (if i ≠ 0 then 0 else 0) = 0 := by split <;> rfl
    simp only [e]
    have h : releaseCols (fun _ => 0) i (0 :: acc) 0 = List.replicate (i + 1) 0 ++ acc := by
      rw [ih, List.replicate_succ', List.append_assoc]; rfl
    exact h

theorem dispatch_out (t : Nat) (h2 : 27 ≤ t + 1) : dispatch (2 * 2 ^ (t + 1)) = 5 := by
  have l2 : 2 ^ 27 ≤ 2 ^ (t + 1) := Nat.pow_le_pow_right (by norm_num) h2
  unfold dispatch
  rw [if_neg (by omega)]

/-- Above 2^25 limbs the product of two short numbers vanishes. -/
theorem mulLoopReal_large (u v : List Nat) (p : Nat) (h1 : 2 ^ 25 < p) (h2 : p ≤ 2 ^ 29)
    (hu : ∀ i, 32 ≤ i → (halves (u.take p)).getD i 0 = 0) (hv : ∀ i, 32 ≤ i → (halves (v.take p)).getD i 0 = 0)
    (hc : ∀ j, j < 64 → convAt (halves (u.take p)) (halves (v.take p)) j < 2 ^ 21) :
    mulLoopReal u v p = List.replicate p 0 ++ u.drop p := by
  obtain ⟨t, e, b, c⟩ := fftSize_spec p (by omega) h2
  have t2 : 27 ≤ t + 1 := by
    by_contra h
    have : 2 ^ (t + 1) ≤ 2 ^ 26 := Nat.pow_le_pow_right (by norm_num) (by omega)
    omega
  have d : dispatch (fftSize p) = 4 + 1 := by rw [e]; exact dispatch_out t t2
  have big : 2 ^ 27 ≤ 2 ^ (t + 1) := Nat.pow_le_pow_right (by norm_num) t2
  have hs : fftSize p / 2 = 2 ^ (t + 1) := by rw [e]; omega
  have ev : transformed u v p = convolve 4 (fftSize p / 2 - 1) (spread (u.take p)) (spread (v.take p)) := by
    unfold transformed convolve
    simp only [d]
  have su : ∀ i, 32 ≤ i → spread (u.take p) i = 0 := fun i hi => by unfold spread; rw [hu i hi]; simp
  have sv : ∀ i, 32 ≤ i → spread (v.take p) i = 0 := fun i hi => by unfold spread; rw [hv i hi]; simp
  have low : ∀ j, j < 64 → transformed u v p j = 32 * (convAt (halves (u.take p)) (halves (v.take p)) j : ℝ) := by
    intro j hj
    rw [ev, convolve_spec 4 _ _ _ (by omega) ?_ j (by omega), convR_spread]
    · norm_num
    · intro i j hi hj hij
      rcases le_or_gt 32 i with h | h
      · rw [su i h, zero_mul]
      · rw [sv j (by omega), mul_zero]
  have high : ∀ k, 32 ≤ k → cz (transformed u v p) k = 0 := by
    intro k hk
    have c0 : cz (rfft true (4 + 1) (spread (u.take p))) k = 0 := by
      rw [rfft_out true 4 _ k (by omega)]
      apply Complex.ext
      · exact su _ (by omega)
      · exact su _ (by omega)
    rw [ev]
    unfold convolve
    simp only []
    rw [rfft_out false 4 _ k (by omega)]
    obtain ⟨p1, p2⟩ := pointLoop_spec (rfft true (4 + 1) (spread (v.take p))) (fftSize p / 2 - 1) 1
      (put (put (rfft true (4 + 1) (spread (u.take p))) 0
        (rfft true (4 + 1) (spread (u.take p)) 0 * rfft true (4 + 1) (spread (v.take p)) 0)) 1
        ((put (rfft true (4 + 1) (spread (u.take p))) 0
        (rfft true (4 + 1) (spread (u.take p)) 0 * rfft true (4 + 1) (spread (v.take p)) 0)) 1 *
          rfft true (4 + 1) (spread (v.take p)) 1))
    rw [Nat.mul_one] at p1 p2
    by_cases hk' : k < 1 + (fftSize p / 2 - 1)
    · rw [p1 k (by omega) hk', cz_put _ _ _ _ (by omega), cz_put _ _ _ _ (by omega), c0, zero_mul]
    · rw [p2 k (by omega), cz_put _ _ _ _ (by omega), cz_put _ _ _ _ (by omega), c0]
  have col0 : column (fftSize p) (transformed u v p) = fun _ => 0 := by
    funext j
    unfold column
    rw [hs]
    have hB : (2 ^ 27 : ℝ) ≤ ((2 ^ (t + 1) : ℕ) : ℝ) := by exact_mod_cast big
    have pos : (0 : ℝ) < ((2 ^ (t + 1) : ℕ) : ℝ) := by positivity
    by_cases hj : j < 64
    · rw [low j hj]
      have hcj : (convAt (halves (u.take p)) (halves (v.take p)) j : ℝ) + 1 ≤ 2 ^ 21 := by
        exact_mod_cast hc j hj
      refine floor_near _ 0 ?_
      rw [Nat.cast_zero, sub_zero, abs_of_nonneg (by positivity), div_lt_iff₀ pos]
      generalize (convAt (halves (u.take p)) (halves (v.take p)) j : ℝ) = x at hcj ⊢
      nlinarith
    · have h := high (j / 2) (by omega)
      have : transformed u v p j = 0 := by
        rcases Nat.mod_two_eq_zero_or_one j with h' | h'
        · have := congrArg Complex.re h
          simp only [cz, Complex.zero_re] at this
          rwa [show 2 * (j / 2) = j by omega] at this
        · have := congrArg Complex.im h
          simp only [cz, Complex.zero_im] at this
          rwa [show 2 * (j / 2) + 1 = j by omega] at this
      rw [this, zero_div]
      norm_num
  unfold mulLoopReal mulWith
  rw [col0, releaseCols_zero, List.append_nil]

end EFX.FFT
