import Verif.Lemmas.MulDivN
import Verif.Props.SmallInt
/-!
# C04-C06 construction from and conversion to built-in integers, C14 for integers
-/

namespace EFX.Props
open EFX EFX.Spec

/-! ### specification -/

/-- A rational cut toward zero to an integer. -/
def truncZ (q : ℚ) : ℤ := if q < 0 then -⌊-q⌋ else ⌊q⌋

/-- The integer of `[lo, hi]` nearest to `n`. -/
def clamp (lo hi n : ℤ) : ℤ := if n < lo then lo else if hi < n then hi else n

/-! ### C04 -/

/-- C04.  Construction from any `unsigned long long` / `signed long long` value is exact.  The
narrower built-in integer types are converted to these first. -/
theorem C04_integer_ctor (c : Cfg) :
    (∀ u : Nat, u < 2 ^ 64 → FinWF c (ofUnsigned c u) ∧ denote (ofUnsigned c u) = .fin u) ∧
    (∀ n : Int, -2 ^ 63 ≤ n → n < 2 ^ 63 → FinWF c (ofSigned c n) ∧ denote (ofSigned c n) = .fin n) := by
  constructor
  · intro u hu
    obtain ⟨h1, h2, _⟩ := ofUnsigned_spec c (u := u) (by norm_num at hu; exact hu)
    refine ⟨h1, ?_⟩
    unfold denote; rw [h1.fin]; simp only; rw [h2]
  · intro n h1 h2
    obtain ⟨h1, h2, _⟩ := ofSigned_spec c (n := n) (by norm_num at h1; exact h1) (by norm_num at h2; exact h2)
    refine ⟨h1, ?_⟩
    unfold denote; rw [h1.fin]; simp only; rw [h2]

/-- The most negative value is covered and takes three limbs. -/
example : (-2 ^ 63 : Int) ≤ -2 ^ 63 ∧ (ofSigned cfg101 (-2 ^ 63)).data.take 3 = [922, 33720368, 54775808] ∧
    (ofSigned cfg101 (-2 ^ 63)).neg = true := by decide +kernel

/-! ### C06 -/

theorem mag_lt_one {c : Cfg} {x : EFloat} (hx : WF c x) (h : x.exp < 0) : mag x < 1 := by
  have h8 := hx.exp8
  refine lt_of_lt_of_le (mag_lt hx) ?_
  calc (10 : ℚ) ^ (x.exp + 8) ≤ (10 : ℚ) ^ (0 : ℤ) := p10_mono (by omega)
    _ = 1 := by norm_num

theorem truncZ_pos {x : EFloat} (h : x.neg = false) : truncZ (val x) = ⌊mag x⌋ ∧ val x = mag x := by
  have hv : val x = mag x := by unfold val; rw [h]; simp
  refine ⟨?_, hv⟩
  unfold truncZ
  rw [hv, if_neg (not_lt.2 (mag_nonneg x))]

theorem truncZ_neg {c : Cfg} {x : EFloat} (hx : FinWF c x) (h : x.neg = true) :
    truncZ (val x) = -⌊mag x⌋ ∧ val x = -mag x ∧ 0 < mag x := by
  have hv : val x = -mag x := by unfold val; rw [h]; simp
  have hz : x.data.headD 0 ≠ 0 := by
    intro h0; have := (hx.norm hx.fin h0).2; rw [h] at this; simp at this
  have hp := mag_pos hx.toWF hz
  refine ⟨?_, hv, hp⟩
  unfold truncZ
  rw [hv, if_pos (by linarith), neg_neg]

theorem limbs_fabs {c : Cfg} (y : EFloat) : limbsToULL c (fabs y) = limbsToULL c y :=
  limbsToULL_congr (fabs_data y) (fabs_exp y)

/-- C06, signed.  The value cut toward zero, or the nearest limit of the type.

Missing: for `x = -2^63` the C++ code computes `-static_cast<signed long long>(val)` with
`val = 2^63`, which is undefined behaviour; the model reports it as `none`
(`C06_min_is_undefined_refuted`). -/
theorem C06_extract_signed_partial {c : Cfg} {x : EFloat} (hx : FinWF c x) (h : val x ≠ -2 ^ 63) :
    extractSigned c x = some (clamp (-2 ^ 63) (2 ^ 63 - 1) (truncZ (val x))) := by
  obtain ⟨mx1, mx2, _⟩ := ofSigned_spec c (n := 2 ^ 63 - 1) (by norm_num) (by norm_num)
  obtain ⟨mn1, mn2, _⟩ := ofSigned_spec c (n := -2 ^ 63) (by norm_num) (by norm_num)
  have c1 : ((2 ^ 63 - 1 : ℤ) : ℚ) = 9223372036854775807 := by norm_num
  have c2 : ((-2 ^ 63 : ℤ) : ℚ) = -9223372036854775808 := by norm_num
  rw [c1] at mx2; rw [c2] at mn2
  have e1 : (-2 ^ 63 : ℤ) = -9223372036854775808 := by norm_num
  have e2 : (2 ^ 63 - 1 : ℤ) = 9223372036854775807 := by norm_num
  have h' : val x ≠ -9223372036854775808 := by
    intro hh; apply h; rw [hh]; norm_num
  unfold extractSigned
  by_cases hexp : x.exp < 0
  · rw [if_pos hexp]
    have hm := mag_lt_one hx.toWF hexp
    have h0 : ⌊mag x⌋ = 0 := by
      rw [Int.floor_eq_iff]; exact ⟨by simpa using mag_nonneg x, by simpa using hm⟩
    have ht : truncZ (val x) = 0 := by
      cases hb : x.neg
      · rw [(truncZ_pos hb).1, h0]
      · rw [(truncZ_neg hx hb).1, h0, neg_zero]
    rw [ht]; rfl
  rw [if_neg hexp]
  unfold EFloat.isneg
  have hg := gt_iff hx mx1
  have hl := lt_iff hx mn1
  rw [mx2] at hg
  rw [mn2] at hl
  generalize gt x (ofSigned c (2 ^ 63 - 1)) = bg at *
  generalize lt x (ofSigned c (-2 ^ 63)) = bl at *
  have hfl := Int.floor_le (mag x)
  have hfu := Int.lt_floor_add_one (mag x)
  cases hb : x.neg
  · obtain ⟨t1, t2⟩ := truncZ_pos hb
    rw [t1]
    cases bg
    · simp only [Bool.not_false, Bool.and_false, Bool.false_eq_true, if_false, Bool.false_and]
      have hle : mag x ≤ 9223372036854775807 := by
        rw [← t2]; by_contra hc; exact absurd (hg.2 (not_le.1 hc)) (by simp)
      have hf63 : ⌊mag x⌋ ≤ 9223372036854775807 := by
        have : ((⌊mag x⌋ : ℤ) : ℚ) ≤ 9223372036854775807 := le_trans hfl hle
        exact_mod_cast this
      have hf0 : 0 ≤ ⌊mag x⌋ := Int.floor_nonneg.2 (mag_nonneg x)
      have hu := limbs_integerPart hx (not_lt.1 hexp) (by omega)
      rw [limbs_fabs]
      generalize limbsToULL c (integerPart c x) = u at *
      rw [← hu] at hf63 ⊢
      have hcl : clamp (-2 ^ 63) (2 ^ 63 - 1) (u : ℤ) = u := by
        unfold clamp
        rw [e1, e2, if_neg (by omega), if_neg (by omega)]
      rw [hcl, if_pos trivial, if_pos (by norm_num; omega)]
    · simp only [Bool.not_false, Bool.and_true, if_true]
      have hgt := hg.1 rfl
      rw [t2] at hgt
      have : (9223372036854775807 : ℤ) ≤ ⌊mag x⌋ := Int.le_floor.2 (by exact_mod_cast hgt.le)
      unfold clamp
      rw [e1, e2, if_neg (by omega)]
      split
      · rfl
      · congr 1; omega
  · obtain ⟨t1, t2, t3⟩ := truncZ_neg hx hb
    rw [t1]
    simp only [Bool.not_true, Bool.false_and, Bool.false_eq_true, if_false, Bool.true_and]
    rw [t2] at h' hl
    cases bl
    · simp only [Bool.false_eq_true, if_false]
      have hle : mag x ≤ 9223372036854775808 := by
        by_contra hc; exact absurd (hl.2 (by linarith [not_le.1 hc])) (by simp)
      have hlt : mag x < 9223372036854775808 := lt_of_le_of_ne hle (fun hh => h' (by rw [hh]))
      have hf63 : ⌊mag x⌋ < 9223372036854775808 := by
        have : ((⌊mag x⌋ : ℤ) : ℚ) < 9223372036854775808 := lt_of_le_of_lt hfl hlt
        exact_mod_cast this
      have hf0 : 0 ≤ ⌊mag x⌋ := Int.floor_nonneg.2 (mag_nonneg x)
      have hu := limbs_integerPart hx (not_lt.1 hexp) (by omega)
      rw [limbs_fabs]
      generalize limbsToULL c (integerPart c x) = u at *
      rw [← hu] at hf63 ⊢
      have hcl : clamp (-2 ^ 63) (2 ^ 63 - 1) (-(u : ℤ)) = -u := by
        unfold clamp
        rw [e1, e2, if_neg (by omega), if_neg (by omega)]
      have hu63 : (if u < 2 ^ 63 then (u : ℤ) else (u : ℤ) - 2 ^ 64) = u := if_pos (by norm_num; omega)
      rw [hcl, hu63, if_neg (by rw [e1]; omega)]
    · simp only [if_true]
      have hgt := hl.1 rfl
      have : (9223372036854775808 : ℤ) ≤ ⌊mag x⌋ := Int.le_floor.2 (by
        have : (9223372036854775808 : ℚ) ≤ mag x := by linarith
        exact_mod_cast this)
      unfold clamp
      rw [e1, e2]
      split
      · rfl
      · rw [if_neg (by omega)]; congr 1; omega

/-- `-12345679.25` is not `-2^63` and is cut to `-12345679`; `12345678.9 * 10^16` saturates. -/
example : FinWF cfg101 exC ∧ val exC ≠ -2 ^ 63 ∧ extractSigned cfg101 exC = some (-12345679) ∧
    FinWF cfg101 { exA with exp := 16 } ∧ extractSigned cfg101 { exA with exp := 16 } = some (2 ^ 63 - 1) := by
  refine ⟨exC_fin, ?_, ?_, ?_, ?_⟩ <;> decide +kernel

/-- C06, 32 bits.  `to_int32` is the value cut toward zero, or the nearest limit of the 32-bit type.

Missing: `x = -2^63`, as above. -/
theorem C06_to_int32_partial {c : Cfg} {x : EFloat} (hx : FinWF c x) (h : val x ≠ -2 ^ 63) :
    toInt32 c x = some (clamp (-2 ^ 31) (2 ^ 31 - 1) (truncZ (val x))) := by
  unfold toInt32
  rw [C06_extract_signed_partial hx h]
  simp only [Option.map_some, Option.some.injEq]
  generalize truncZ (val x) = t
  unfold clamp
  norm_num
  split_ifs <;> omega

/-- `-12345679.25` gives `-12345679`; `5·10^9` gives the upper limit. -/
example : FinWF cfg101 exC ∧ val exC ≠ -2 ^ 63 ∧ toInt32 cfg101 exC = some (-12345679) ∧
    toInt32 cfg101 (ofSigned cfg101 5000000000) = some 2147483647 := by
  decide +kernel

/-- C06 fails at the most negative value: undefined behaviour instead of `-2^63`. -/
theorem C06_min_is_undefined_refuted :
    FinWF cfg101 (ofSigned cfg101 (-2 ^ 63)) ∧ val (ofSigned cfg101 (-2 ^ 63)) = -2 ^ 63 ∧
    extractSigned cfg101 (ofSigned cfg101 (-2 ^ 63)) = none := by
  refine ⟨?_, ?_, ?_⟩ <;> decide +kernel

/-- C06, unsigned, for non-negative arguments. -/
theorem C06_extract_unsigned {c : Cfg} {x : EFloat} (hx : FinWF c x) (h0 : 0 ≤ val x) :
    ∃ u : Nat, extractUnsigned c x = some u ∧ (u : ℤ) = clamp 0 (2 ^ 64 - 1) (truncZ (val x)) := by
  have hb : x.neg = false := by
    cases hb : x.neg
    · rfl
    · obtain ⟨_, t2, t3⟩ := truncZ_neg hx hb; linarith
  obtain ⟨t1, t2⟩ := truncZ_pos hb
  have e2 : (2 ^ 64 - 1 : ℤ) = 18446744073709551615 := by norm_num
  obtain ⟨mx1, mx2, _⟩ := ofUnsigned_spec c (u := 2 ^ 64 - 1) (by norm_num)
  have c1 : ((2 ^ 64 - 1 : ℕ) : ℚ) = 18446744073709551615 := by norm_num
  rw [c1] at mx2
  have hf0 : 0 ≤ ⌊mag x⌋ := Int.floor_nonneg.2 (mag_nonneg x)
  unfold extractUnsigned EFloat.isneg
  rw [hb, t1]
  simp only [Bool.false_eq_true, if_false]
  by_cases hexp : x.exp < 0
  · rw [if_pos hexp]
    have hm := mag_lt_one hx.toWF hexp
    have h0 : ⌊mag x⌋ = 0 := by
      rw [Int.floor_eq_iff]; exact ⟨by simpa using mag_nonneg x, by simpa using hm⟩
    exact ⟨0, rfl, by rw [h0]; rfl⟩
  rw [if_neg hexp]
  have hexp' := not_lt.1 hexp
  -- the integer part is a valid number between the floor and the number, and its size decides
  have hI : FinWF c (integerPart c x) ∧ (integerPart c x).neg = false ∧
      (18446744073709551615 < mag (integerPart c x) ↔ 18446744073709551615 < ⌊mag x⌋) := by
    by_cases hD : x.exp < (c.digits10 : Int) - 1
    · obtain ⟨i1, i2, i3, i4, i5, i6⟩ := integerPart_spec hx hexp' hD
      refine ⟨i1, by rw [i3, hb], ?_⟩
      rw [i5]; norm_cast
    · have hI : integerPart c x = x := by
        unfold integerPart
        have : x.isfinite = true := by simp [EFloat.isfinite, hx.fin]
        rw [this]
        simp only [Bool.not_true, Bool.false_eq_true, if_false]
        rw [if_neg hexp, if_pos (by omega)]
      rw [hI]
      refine ⟨hx, hb, ?_⟩
      by_cases hz : x.data.headD 0 = 0
      · rw [mag_zero_of_iszero hx hz]; norm_num
      · have hD30 := (digits10_bounds c).1
        have h1 := le_trans (p10_mono (by omega : (24 : ℤ) ≤ x.exp)) (mag_ge hx.toWF hz)
        have h2 : (10 : ℚ) ^ (24 : ℤ) = 1000000000000000000000000 := by norm_num
        rw [h2] at h1
        have h3 : (1000000000000000000000000 : ℤ) ≤ ⌊mag x⌋ := Int.le_floor.2 (by exact_mod_cast h1)
        constructor
        · intro _; omega
        · intro _; linarith
  obtain ⟨i1, i2, i3⟩ := hI
  have hg := gt_iff i1 mx1
  rw [mx2, (truncZ_pos i2).2, i3] at hg
  generalize gt (integerPart c x) (ofUnsigned c (2 ^ 64 - 1)) = bg at *
  cases bg
  · simp only [Bool.false_eq_true, if_false]
    have hle : ⌊mag x⌋ ≤ 18446744073709551615 := by
      by_contra hc; exact absurd (hg.2 (not_le.1 hc)) (by simp)
    have hu := limbs_integerPart hx hexp' (by omega)
    refine ⟨_, rfl, ?_⟩
    rw [hu]
    unfold clamp
    rw [e2, if_neg (by omega), if_neg (by omega)]
  · simp only [if_true]
    have hgt := hg.1 rfl
    refine ⟨_, rfl, ?_⟩
    unfold clamp
    rw [e2, if_neg (by omega), if_pos (by omega)]
    norm_num

example : FinWF cfg101 exA ∧ 0 ≤ val exA ∧ extractUnsigned cfg101 exA = some 12345678 := by
  refine ⟨exA_fin, ?_, ?_⟩ <;> decide +kernel

/-! ### C05 -/

theorem truncZ_int (n : ℤ) : truncZ (n : ℚ) = n := by
  unfold truncZ
  split
  · rw [show -(n : ℚ) = ((-n : ℤ) : ℚ) by push_cast; rfl, Int.floor_intCast, neg_neg]
  · exact Int.floor_intCast n

/-- C05, signed: the round trip is the identity.

Missing: `n = -2^63`, where the extraction is undefined (`C06_min_is_undefined_refuted`). -/
theorem C05_round_trip_signed_partial (c : Cfg) (n : Int) (h1 : -2 ^ 63 < n) (h2 : n < 2 ^ 63) :
    extractSigned c (ofSigned c n) = some n := by
  have e1 : (-2 ^ 63 : ℤ) = -9223372036854775808 := by norm_num
  have e2 : (2 ^ 63 - 1 : ℤ) = 9223372036854775807 := by norm_num
  have e3 : (2 ^ 63 : ℤ) = 9223372036854775808 := by norm_num
  rw [e1] at h1; rw [e3] at h2
  obtain ⟨s1, s2, _⟩ := ofSigned_spec c (n := n) h1.le h2
  rw [C06_extract_signed_partial s1, s2, truncZ_int]
  · unfold clamp
    rw [e1, e2, if_neg (by omega), if_neg (by omega)]
  · rw [s2]
    intro hh
    have : (n : ℚ) = ((-9223372036854775808 : ℤ) : ℚ) := by rw [hh]; norm_num
    have := Int.cast_injective this
    omega

example : (-2 ^ 63 : Int) < -9007199254740993 ∧ (-9007199254740993 : Int) < 2 ^ 63 := by norm_num

/-- C05, unsigned. -/
theorem C05_round_trip_unsigned (c : Cfg) (u : Nat) (h : u < 2 ^ 64) :
    extractUnsigned c (ofUnsigned c u) = some u := by
  have e2 : (2 ^ 64 - 1 : ℤ) = 18446744073709551615 := by norm_num
  have h' : u < 18446744073709551616 := by norm_num at h; exact h
  obtain ⟨s1, s2, _⟩ := ofUnsigned_spec c (u := u) h'
  obtain ⟨w, hw1, hw2⟩ := C06_extract_unsigned s1 (by rw [s2]; exact Nat.cast_nonneg u)
  rw [hw1]
  rw [s2, show (u : ℚ) = ((u : ℤ) : ℚ) by norm_cast, truncZ_int] at hw2
  unfold clamp at hw2
  rw [e2, if_neg (by omega), if_neg (by omega)] at hw2
  congr 1; omega

/-! ### C14 for integers -/

/-- C14 for built-in integers: the product of any two 64-bit integers is exact in every
configuration (three limbs times three limbs). -/
theorem C14_mul_integers (c : Cfg) (m n : Int) (hm1 : -2 ^ 63 ≤ m) (hm2 : m < 2 ^ 63) (hn1 : -2 ^ 63 ≤ n)
    (hn2 : n < 2 ^ 63) :
    denote (mul c (ofSigned c m) (ofSigned c n)) = .fin ((m * n : ℤ) : ℚ) := by
  have h7 := elems_ge c
  obtain ⟨a1, a2, a3, a4, a5, a6, a7⟩ := ofSigned_spec c (n := m) (by norm_num at hm1; exact hm1) (by norm_num at hm2; exact hm2)
  obtain ⟨b1, b2, b3, b4, b5, b6, b7⟩ := ofSigned_spec c (n := n) (by norm_num at hn1; exact hn1) (by norm_num at hn2; exact hn2)
  have key : FinWF c (mul c (ofSigned c m) (ofSigned c n)) ∧
      val (mul c (ofSigned c m) (ofSigned c n)) = val (ofSigned c m) * val (ofSigned c n) := by
    refine C14_mul_exact a1 b1 ?_ a3 b3 (by omega)
    unfold ExpInRange minExp10
    have : maxExp10 = 2147483616 := rfl
    omega
  unfold denote
  rw [key.1.fin]; simp only
  rw [key.2, a2, b2]; push_cast; rfl

end EFX.Props
