import Verif.Lemmas.Parts
import Verif.Props.Integer
/-!
# C24-C28, C47: integer and decimal part, floor and ceiling, predicates, order, precision, increment
-/

namespace EFX.Props
open EFX EFX.Spec

/-- A rational that is an integer. -/
def IsInt (q : ℚ) : Prop := ∃ n : ℤ, q = n

theorem integerPart_neg_exp {c : Cfg} {x : EFloat} (hx : FinWF c x) (h : x.exp < 0) : integerPart c x = zero c := by
  unfold integerPart
  have : x.isfinite = true := by simp [EFloat.isfinite, hx.fin]
  rw [this]
  simp only [Bool.not_true, Bool.false_eq_true, if_false]
  rw [if_pos h]

theorem integerPart_big {c : Cfg} {x : EFloat} (hx : FinWF c x) (h : ¬ x.exp < (c.digits10 : Int) - 1) :
    integerPart c x = x := by
  have := (digits10_bounds c).1
  unfold integerPart
  have : x.isfinite = true := by simp [EFloat.isfinite, hx.fin]
  rw [this]
  simp only [Bool.not_true, Bool.false_eq_true, if_false]
  rw [if_neg (by omega), if_pos (by omega)]

theorem decimalPart_zero {c : Cfg} {x : EFloat} (hx : FinWF c x) (h : x.data.headD 0 = 0) : decimalPart c x = zero c := by
  unfold decimalPart
  have : x.isfinite = true := by simp [EFloat.isfinite, hx.fin]
  rw [this, (iszero_iff hx.fin).2 h]; simp

theorem decimalPart_neg_exp {c : Cfg} {x : EFloat} (hx : FinWF c x) (hz : x.data.headD 0 ≠ 0) (h : x.exp < 0) :
    decimalPart c x = x := by
  unfold decimalPart
  have : x.isfinite = true := by simp [EFloat.isfinite, hx.fin]
  rw [this, (iszero_false hx.fin).2 hz]
  simp only [Bool.not_true, Bool.false_eq_true, if_false]
  rw [if_pos h]

theorem decimalPart_big {c : Cfg} {x : EFloat} (hx : FinWF c x) (hz : x.data.headD 0 ≠ 0)
    (h : ¬ x.exp < (c.digits10 : Int) - 1) : decimalPart c x = zero c := by
  have := (digits10_bounds c).1
  unfold decimalPart
  have : x.isfinite = true := by simp [EFloat.isfinite, hx.fin]
  rw [this, (iszero_false hx.fin).2 hz]
  simp only [Bool.not_true, Bool.false_eq_true, if_false]
  rw [if_neg (by omega), if_pos (by omega)]

/-- Both parts at once: valid, they add up, the decimal part is below one, both signs agree. -/
theorem parts_all {c : Cfg} {x : EFloat} (hx : FinWF c x) :
    FinWF c (integerPart c x) ∧ FinWF c (decimalPart c x) ∧
    val (integerPart c x) + val (decimalPart c x) = val x ∧
    |val (decimalPart c x)| < 1 ∧
    0 ≤ val (integerPart c x) * val x ∧ 0 ≤ val (decimalPart c x) * val x ∧
    (x.exp < (c.digits10 : Int) - 1 → val (integerPart c x) = truncZ (val x)) := by
  by_cases hn : x.exp < 0
  · rw [integerPart_neg_exp hx hn]
    have h1 := mag_lt_one hx.toWF hn
    have ht : truncZ (val x) = 0 := by
      have h0 : ⌊mag x⌋ = 0 := by
        rw [Int.floor_eq_iff]; exact ⟨by simpa using mag_nonneg x, by simpa using h1⟩
      cases hb : x.neg
      · rw [(truncZ_pos hb).1, h0]
      · rw [(truncZ_neg hx hb).1, h0, neg_zero]
    rw [ht, val_zero]
    by_cases hz : x.data.headD 0 = 0
    · rw [decimalPart_zero hx hz, val_zero, (head_zero_iff hx).1 hz]
      exact ⟨FinWF_zero c, FinWF_zero c, by simp, by simp, by simp, by simp, fun _ => by simp⟩
    · rw [decimalPart_neg_exp hx hz hn]
      refine ⟨FinWF_zero c, hx, by simp, by rw [abs_val]; exact h1, by simp, mul_self_nonneg _, fun _ => by simp⟩
  have hn' := not_lt.1 hn
  by_cases hb : x.exp < (c.digits10 : Int) - 1
  · obtain ⟨i1, i2, i3, i4, i5, i6⟩ := integerPart_spec hx hn' hb
    have hti : val (integerPart c x) = truncZ (val x) := by
      rw [val_sgn i3, i5]
      cases hbn : x.neg
      · rw [(truncZ_pos hbn).1]; simp [sgnQ]
      · rw [(truncZ_neg hx hbn).1]; simp [sgnQ]
    by_cases hz : x.data.headD 0 = 0
    · rw [decimalPart_zero hx hz, val_zero]
      have hv := (head_zero_iff hx).1 hz
      have hi : val (integerPart c x) = 0 := by
        rw [hti, hv]; simp [truncZ]
      rw [hi, hv]
      refine ⟨i1, FinWF_zero c, by simp, by simp, by simp, by simp, fun _ => by simp [truncZ]⟩
    · obtain ⟨d1, d2, d3, d4⟩ := decimalPart_spec hx hz hn' hb
      have hdv : val (decimalPart c x) = sgnQ x.neg * mag (decimalPart c x) := by
        rcases d4 with h | h
        · exact val_sgn h
        · have : mag (decimalPart c x) = 0 := by rw [← abs_val, h, abs_zero]
          rw [h, this, mul_zero]
      have hfl := Int.floor_le (mag x)
      have hfu := Int.lt_floor_add_one (mag x)
      have hsum : val (integerPart c x) + val (decimalPart c x) = val x := by
        rw [val_sgn i3, hdv, i5, d3, val_eq x]; ring
      refine ⟨i1, d1, hsum, ?_, ?_, ?_, fun _ => hti⟩
      · rw [abs_val, d3]; linarith
      · rw [mul_val_sgn i3]; exact mul_nonneg (mag_nonneg _) (mag_nonneg _)
      · rw [hdv, val_eq x]
        have := sgnQ_mul_self x.neg
        rw [show sgnQ x.neg * mag (decimalPart c x) * (sgnQ x.neg * mag x) =
          (sgnQ x.neg * sgnQ x.neg) * (mag (decimalPart c x) * mag x) by ring, this, one_mul]
        exact mul_nonneg (mag_nonneg _) (mag_nonneg _)
  · rw [integerPart_big hx hb]
    have hd : decimalPart c x = zero c := by
      by_cases hz : x.data.headD 0 = 0
      · exact decimalPart_zero hx hz
      · exact decimalPart_big hx hz hb
    rw [hd, val_zero]
    exact ⟨hx, FinWF_zero c, by simp, by simp, mul_self_nonneg _, by simp, fun h => absurd h hb⟩

/-- C24.  The two parts add up to the number, the decimal part is below one, both carry the sign of
the number or are zero; the integer part is the number cut toward zero to an integer.

Missing: the last clause needs the exponent below `digits10 - 1`; above it the integer part is `x`
itself, which may have stored digits after the point (`C24_integer_part_refuted`). -/
theorem C24_parts_partial {c : Cfg} {x : EFloat} (hx : FinWF c x) :
    FinWF c (integerPart c x) ∧ FinWF c (decimalPart c x) ∧
    val (integerPart c x) + val (decimalPart c x) = val x ∧
    |val (decimalPart c x)| < 1 ∧
    0 ≤ val (integerPart c x) * val x ∧ 0 ≤ val (decimalPart c x) * val x ∧
    (x.exp < (c.digits10 : Int) - 1 → val (integerPart c x) = truncZ (val x)) := parts_all hx

/-- `-12345679.25` splits into `-12345679` and `-0.25`. -/
example : FinWF cfg101 exC ∧ exC.exp < (cfg101.digits10 : Int) - 1 ∧
    val (integerPart cfg101 exC) = -12345679 ∧ val (decimalPart cfg101 exC) = -1 / 4 := by
  refine ⟨exC_fin, by decide, ?_, ?_⟩ <;> decide +kernel

/-- `1234...0.5` with 105 digits before the point. -/
def exBigHalf : EFloat := mkLimbs cfg101 ([1] ++ List.replicate 13 0 ++ [50000000]) 104 false

/-- C24 fails for large numbers with stored fractional digits: the integer part is not an integer. -/
theorem C24_integer_part_refuted :
    FinWF cfg101 exBigHalf ∧ ¬ IsInt (val (integerPart cfg101 exBigHalf)) := by
  have h : FinWF cfg101 exBigHalf := by decide +kernel
  refine ⟨h, ?_⟩
  have e : integerPart cfg101 exBigHalf = exBigHalf := by decide +kernel
  rw [e]
  rintro ⟨n, hn⟩
  have : isint cfg101 exBigHalf = true := (isint_iff h).2 ⟨n, hn⟩
  exact absurd this (by decide +kernel)

/-! ### C26 -/

/-- C26 for `iszero`, `isint`, `isneg` (and `ispos`) on finite numbers.

Missing: `isone` is false for the number one (`C26_isone_refuted`). -/
theorem C26_predicates_partial {c : Cfg} {x : EFloat} (hx : FinWF c x) :
    (x.iszero = true ↔ val x = 0) ∧ (isint c x = true ↔ IsInt (val x)) ∧ (x.isneg = true ↔ val x < 0) ∧
    (isone x = true → val x ≠ 1 ∧ val x = 1 - (10 : ℚ) ^ (-8 * (c.elems : ℤ))) := by
  refine ⟨?_, isint_iff hx, ?_, ?_⟩
  · rw [iszero_iff hx.fin]; exact head_zero_iff hx
  · unfold EFloat.isneg
    cases hb : x.neg
    · have := mag_nonneg x
      rw [(truncZ_pos hb).2]; simp [this]
    · obtain ⟨_, t2, t3⟩ := truncZ_neg hx hb
      rw [t2]; simp [t3]
  · intro h
    unfold isone at h
    by_cases hnf : (!x.neg && x.isfinite) = true
    · rw [if_pos hnf] at h
      have hneg : x.neg = false := by
        cases hb : x.neg
        · rfl
        · rw [hb] at hnf; simp at hnf
      by_cases h1 : x.front = 1 ∧ x.exp = 0
      · rw [if_pos h1] at h
        exfalso
        have h0 : ∀ d ∈ x.data, d = 0 := by simpa using h
        have hf := h1.1
        unfold EFloat.front at hf
        cases hd : x.data with
        | nil => exact hx.ne_nil hd
        | cons a l =>
          have := h0 a (by rw [hd]; simp)
          rw [hd] at hf; simp [this] at hf
      · rw [if_neg h1] at h
        by_cases h2 : x.front = mask - 1 ∧ x.exp = -8
        · rw [if_pos h2] at h
          have h9 : ∀ d ∈ x.data, d = 99999999 := by
            have := h; simp [mask] at this; exact this
          have hall : x.data = List.replicate c.elems 99999999 := by
            rw [← hx.len]; exact List.eq_replicate_of_mem h9
          have hlv : ∀ k, lv (List.replicate k 99999999) + 1 = 100000000 ^ k := by
            intro k
            induction k with
            | zero => rfl
            | succ k ih => rw [List.replicate_succ, lv_cons, List.length_replicate, pow_succ]; omega
          have hL : (lv x.data : ℚ) = ((100000000 ^ c.elems : ℕ) : ℚ) - 1 := by
            rw [hall, ← hlv c.elems]; push_cast; ring
          have hv : val x = 1 - (10 : ℚ) ^ (-8 * (c.elems : ℤ)) := by
            rw [(truncZ_pos hneg).2, mag_eq hx.toWF, hL]
            unfold ulp
            rw [h2.2, ← p10_base, show -8 - 8 * ((c.elems : ℤ) - 1) = -8 * (c.elems : ℤ) by ring, sub_mul, ← p10_add,
              show 8 * (c.elems : ℤ) + -8 * (c.elems : ℤ) = 0 by ring]
            simp
          have := p10_pos (-8 * (c.elems : ℤ))
          exact ⟨by rw [hv]; intro hh; linarith, hv⟩
        · rw [if_neg h2] at h; simp at h
    · rw [if_neg hnf] at h; simp at h

example : FinWF cfg101 exA ∧ FinWF cfg101 (ofSigned cfg101 (-10 ^ 16)) ∧ isint cfg101 (ofSigned cfg101 (-10 ^ 16)) = true ∧
    isint cfg101 exA = false ∧ isone { exNines with exp := -8 } = true := by
  refine ⟨exA_fin, ?_, ?_, ?_, ?_⟩ <;> decide +kernel

/-- C26 fails for `isone`: the number one is not recognised, in any configuration. -/
theorem C26_isone_refuted (c : Cfg) : FinWF c (one c) ∧ val (one c) = 1 ∧ isone (one c) = false := by
  refine ⟨FinWF_one c, val_one c, ?_⟩
  cases h : isone (one c)
  · rfl
  · exact absurd (val_one c) ((C26_predicates_partial (FinWF_one c)).2.2.2 h).1

/-! ### C27 -/

/-- C27.  `10^order(x) ≤ |x| < 10^(order(x)+1)`. -/
theorem C27_order {c : Cfg} {x : EFloat} (hx : FinWF c x) (h : val x ≠ 0) :
    (10 : ℚ) ^ order x ≤ |val x| ∧ |val x| < (10 : ℚ) ^ (order x + 1) := by
  have hz := ne_of_val hx h
  rw [abs_val]
  unfold order
  have hfin : x.isfinite = true := by simp [EFloat.isfinite, hx.fin]
  rw [hfin, if_neg (by
    have : decide (x.front = 0) = false := decide_eq_false hz
    rw [this]; simp)]
  have hlt : x.front < 100000000 := hx.ok.headD
  obtain ⟨d1, d2⟩ := digitsMinus1_spec 11 x.front (Nat.one_le_iff_ne_zero.2 hz) (by norm_num; omega)
  generalize digitsMinus1 11 x.front = d at *
  obtain ⟨m1, m2⟩ := mag_prefix hx.toWF (p := 1) (by have := elems_ge c; omega)
  have hl1 : lv (x.data.take 1) = x.front := by
    unfold EFloat.front
    cases hd : x.data with
    | nil => exact absurd hd hx.ne_nil
    | cons a l => simp [lv_cons]
  rw [hl1, show x.exp - 8 * (((1 : ℕ) : ℤ) - 1) = x.exp by simp] at m1 m2
  have hE := p10_pos x.exp
  have e1 : ((10 ^ d : ℕ) : ℚ) ≤ (x.front : ℚ) := by exact_mod_cast d1
  have e2 : (x.front : ℚ) + 1 ≤ ((10 ^ (d + 1) : ℕ) : ℚ) := by exact_mod_cast d2
  push_cast at e1 e2
  constructor
  · calc (10 : ℚ) ^ (x.exp + (d : ℤ)) = (10 : ℚ) ^ d * (10 : ℚ) ^ x.exp := by rw [p10_add, zpow_natCast]; ring
      _ ≤ (x.front : ℚ) * (10 : ℚ) ^ x.exp := mul_le_mul_of_nonneg_right e1 hE.le
      _ ≤ _ := m1
  · calc mag x < ((x.front : ℚ) + 1) * (10 : ℚ) ^ x.exp := m2
      _ ≤ (10 : ℚ) ^ (d + 1) * (10 : ℚ) ^ x.exp := mul_le_mul_of_nonneg_right e2 hE.le
      _ = (10 : ℚ) ^ (x.exp + (d : ℤ) + 1) := by
        rw [show x.exp + (d : ℤ) + 1 = ((d + 1 : ℕ) : ℤ) + x.exp by push_cast; ring, p10_add, zpow_natCast]

example : FinWF cfg101 exB ∧ val exB ≠ 0 ∧ order exB = -8 ∧ order exA = 7 := by
  refine ⟨exB_fin, ?_, ?_, ?_⟩ <;> decide +kernel

/-! ### C28 -/

/-- C28.  `precision(d)` changes nothing but the working precision, which becomes the number of
limbs that hold `d` digits, but at least two and at most all. -/
theorem C28_precision {c : Cfg} {x : EFloat} (hx : WF c x) (d : Int) :
    WF c (setPrecision c x d) ∧ denote (setPrecision c x d) = denote x ∧
    (setPrecision c x d).data = x.data ∧ (setPrecision c x d).exp = x.exp ∧ (setPrecision c x d).neg = x.neg ∧
    2 ≤ (setPrecision c x d).prec ∧ (setPrecision c x d).prec ≤ c.elems ∧
    (8 < d → d ≤ 8 * c.elems →
      d ≤ 8 * ((setPrecision c x d).prec : Int) ∧ 8 * (((setPrecision c x d).prec : Int) - 1) < d) ∧
    (d ≤ 16 → (setPrecision c x d).prec = 2) ∧
    (8 * ((c.elems : Int) - 1) < d → (setPrecision c x d).prec = c.elems) := by
  have h7 := elems_ge c
  have hrange : 2 ≤ (setPrecision c x d).prec ∧ (setPrecision c x d).prec ≤ c.elems := by
    unfold setPrecision; simp only; omega
  refine ⟨⟨hx.len, hx.limb, hx.exp8, hrange.1, hrange.2, hx.norm⟩, rfl, rfl, rfl, rfl, hrange.1, hrange.2, ?_, ?_, ?_⟩
  · intro h1 h2
    unfold setPrecision
    simp only
    have e : Int.tdiv d 8 = d / 8 := Int.tdiv_eq_ediv_of_nonneg (by omega)
    have e' : Int.tmod d 8 = d % 8 := Int.tmod_eq_emod_of_nonneg (by omega)
    rw [e, e']
    split <;> omega
  · intro h1
    unfold setPrecision
    simp only
    have : Int.tdiv d 8 + (if Int.tmod d 8 ≠ 0 then 1 else 0) ≤ 2 := by
      by_cases h0 : 0 ≤ d
      · rw [Int.tdiv_eq_ediv_of_nonneg h0, Int.tmod_eq_emod_of_nonneg h0]
        split <;> omega
      · have : Int.tdiv d 8 ≤ 0 := by
          have := Int.tdiv_nonneg (a := -d) (b := 8) (by omega) (by norm_num)
          rw [Int.neg_tdiv] at this; omega
        split <;> omega
    omega
  · intro h1
    unfold setPrecision
    simp only
    have e : Int.tdiv d 8 = d / 8 := Int.tdiv_eq_ediv_of_nonneg (by omega)
    have e' : Int.tmod d 8 = d % 8 := Int.tmod_eq_emod_of_nonneg (by omega)
    rw [e, e']
    split <;> omega

example : WF cfg101 exA ∧ (8 : Int) < 34 ∧ (34 : Int) ≤ 8 * cfg101.elems ∧ (setPrecision cfg101 exA 34).prec = 5 :=
  ⟨exA_fin.toWF, by decide, by decide, by decide⟩

end EFX.Props
