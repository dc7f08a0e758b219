import Verif.Lemmas.Int
/-! Decimal part, `isint`, representability of integers, decimal order. -/

namespace EFX
open Spec

/-- Every natural number of at most `N` limbs is a valid object. -/
theorem nat_repr (c : Cfg) (m : Nat) (h : m < 100000000 ^ c.elems) : ∃ w, FinWF c w ∧ val w = m := by
  obtain ⟨i1, i2, i3, i4, i5⟩ := ullDigits_spec c.elems m h
  have h7 := elems_ge c
  generalize hL : ullDigits c.elems m = L at *
  let w : EFloat := ⟨L.reverse ++ List.replicate (c.elems - L.length) 0,
    if L.length > 1 then ((L.length : Int) - 1) * 8 else 0, false, .finite, c.elems⟩
  have hz : ZeroFrom L.length w.data := by
    have := zeroFrom_replicate L.reverse (c.elems - L.length)
    rwa [List.length_reverse] at this
  have hF : FinWF c w := by
    refine ⟨⟨?_, ?_, ?_, ?_, le_refl _, ?_⟩, rfl⟩
    · show (L.reverse ++ List.replicate (c.elems - L.length) 0).length = c.elems
      simp; omega
    · exact OK.append (fun d hd => i2 d (List.mem_reverse.1 hd)) (OK.replicate _)
    · show (8 : ℤ) ∣ if L.length > 1 then ((L.length : Int) - 1) * 8 else 0
      split
      · exact Dvd.intro_left _ rfl
      · exact dvd_zero _
    · show 2 ≤ c.elems; omega
    · intro _ h0
      refine ⟨?_, rfl⟩
      by_cases hu : m = 0
      · intro d hd
        have : w.data = List.replicate c.elems 0 := by
          show L.reverse ++ List.replicate (c.elems - L.length) 0 = _
          rw [i5 hu]; simp
        rw [this] at hd; exact List.eq_of_mem_replicate hd
      · exfalso
        apply i4 hu
        have h0' : (L.reverse ++ List.replicate (c.elems - L.length) 0).headD 0 = 0 := h0
        cases hr : L.reverse with
        | nil => rfl
        | cons a l => rw [hr] at h0'; simpa using h0'
  refine ⟨w, hF, ?_⟩
  have hv : val w = mag w := by unfold val; rfl
  rw [hv, mag_zeroFrom hF.toWF (p := L.length) i1 hz]
  have ht : w.data.take L.length = L.reverse := List.take_left' (by simp)
  rw [ht, i3]
  show (m : ℚ) * (10 : ℚ) ^ ((if L.length > 1 then ((L.length : Int) - 1) * 8 else 0) - 8 * ((L.length : ℤ) - 1)) = m
  by_cases hl : L.length > 1
  · rw [if_pos hl, show ((L.length : Int) - 1) * 8 - 8 * ((L.length : Int) - 1) = 0 by ring]; simp
  · rw [if_neg hl]
    by_cases hu : m = 0
    · rw [hu]; simp
    · have : L.length ≠ 0 := by
        intro h0
        have := List.length_eq_zero_iff.1 h0
        rw [this] at i3; simp at i3; omega
      rw [show L.length = 1 by omega]; simp

/-! ### decimal part -/

theorem lv_split (l : List Nat) (k : Nat) :
    lv l = lv (l.take k) * 100000000 ^ (l.length - k) + lv (l.drop k) := by
  conv_lhs => rw [← List.take_append_drop k l]
  rw [lv_append, List.length_drop]

/-- The fractional part of the magnitude is carried by the limbs after the point. -/
theorem frac_mag {c : Cfg} {x : EFloat} (hx : WF c x) {k : Nat} (hk : x.exp = 8 * (k : Int)) (hkN : k < c.elems) :
    mag x - (⌊mag x⌋ : ℚ) = (lv (x.data.drop (k + 1)) : ℚ) * ulp c x := by
  rw [floor_mag hx hk hkN, mag_eq hx, lv_split x.data (k + 1), hx.len]
  have hu : ((100000000 ^ (c.elems - (k + 1)) : ℕ) : ℚ) * ulp c x = 1 := by
    unfold ulp
    rw [← p10_base, ← p10_add, hk]
    rw [show 8 * ((c.elems - (k + 1) : ℕ) : ℤ) + (8 * (k : ℤ) - 8 * ((c.elems : ℤ) - 1)) = 0 by omega]
    simp
  push_cast at hu ⊢
  rw [add_mul, mul_assoc, hu]; ring

theorem lv_shiftUp_drop {d : List Nat} (k : Nat) (hk : k ≤ d.length) :
    lv (shiftUp k d) = lv (d.drop k) * 100000000 ^ k := by
  unfold shiftUp
  rw [lv_append, lv_replicate, List.length_replicate, Nat.min_eq_left hk, add_zero]

/-- `extract_decimal_part` where it cuts. -/
theorem decimalPart_spec {c : Cfg} {x : EFloat} (hx : FinWF c x) (hz : x.data.headD 0 ≠ 0) (h0 : 0 ≤ x.exp)
    (h1 : x.exp < (c.digits10 : Int) - 1) :
    FinWF c (decimalPart c x) ∧ (decimalPart c x).prec = x.prec ∧
    mag (decimalPart c x) = mag x - (⌊mag x⌋ : ℚ) ∧
    ((decimalPart c x).neg = x.neg ∨ val (decimalPart c x) = 0) := by
  obtain ⟨k, hk, hkd⟩ := exp_div hx.toWF h0
  have hkN : k + 1 ≤ c.elems := by
    have : (c.digits10 : ℤ) + 25 ≤ 8 * (c.elems : ℤ) := by
      unfold Cfg.elems Cfg.maxDigits10
      split <;> omega
    omega
  have hfr := frac_mag hx.toWF hk (by omega)
  have h8 := hx.exp8
  have hfin : x.isfinite = true := by simp [EFloat.isfinite, hx.fin]
  have hd1 : (shiftUp (k + 1) x.data).length = c.elems := by rw [shiftUp_length, hx.len]
  have hd2 : OK (shiftUp (k + 1) x.data) := shiftUp_OK _ hx.ok
  have hd3 := lv_shiftUp_drop (d := x.data) (k + 1) (by rw [hx.len]; omega)
  have hun : decimalPart c x =
      (let d := shiftUp (k + 1) x.data
       let sj := firstNonzero d
       if sj ≠ 0 then
         if sj = d.length then { x with data := d, neg := false, exp := 0 - ((k + 1 : ℕ) : Int) * 8 }
         else { x with data := shiftUp sj d, exp := x.exp - (((k + 1 : ℕ) : Int) + sj) * 8 }
       else { x with data := d, exp := x.exp - ((k + 1 : ℕ) : Int) * 8 }) := by
    unfold decimalPart
    rw [hfin, (iszero_false hx.fin).2 hz]
    simp only [Bool.not_true, Bool.false_eq_true, if_false]
    rw [if_neg (by omega), if_neg (by omega), hkd]
  rw [hun]
  simp only
  generalize hd : shiftUp (k + 1) x.data = d at *
  have hne : d ≠ [] := by
    intro h; rw [h] at hd1; simp at hd1; have := elems_ge c; omega
  rw [hfr]
  have hB1 : ((100000000 ^ (k + 1) : ℕ) : ℚ) * (10 : ℚ) ^ (-(8 : ℤ) * (k + 1)) = 1 := by
    rw [← p10_base, ← p10_add]; push_cast; rw [show 8 * ((k : ℤ) + 1) + -8 * ((k : ℤ) + 1) = 0 by ring]; simp
  by_cases hs : firstNonzero d = 0
  · rw [if_neg (by simpa using hs)]
    have hh := (firstNonzero_eq_zero hne).1 hs
    have hF : FinWF c { x with data := d, exp := x.exp - ((k + 1 : ℕ) : Int) * 8 } := by
      refine ⟨⟨hd1, hd2, ?_, hx.prec_lo, hx.prec_hi, fun _ h => absurd h hh⟩, hx.fin⟩
      show (8 : ℤ) ∣ x.exp - ((k + 1 : ℕ) : Int) * 8
      omega
    refine ⟨hF, rfl, ?_, Or.inl rfl⟩
    rw [mag_eq hF.toWF]
    simp only [hd3]
    have hu : ulp c { x with data := d, exp := x.exp - ((k + 1 : ℕ) : Int) * 8 } =
        (10 : ℚ) ^ (-(8 : ℤ) * (k + 1)) * ulp c x := by
      unfold ulp; rw [← p10_add]; congr 1; push_cast; ring
    rw [hu]
    calc ((lv (x.data.drop (k + 1)) * 100000000 ^ (k + 1) : ℕ) : ℚ) * ((10 : ℚ) ^ (-(8 : ℤ) * (k + 1)) * ulp c x)
        = (lv (x.data.drop (k + 1)) : ℚ) * (((100000000 ^ (k + 1) : ℕ) : ℚ) * (10 : ℚ) ^ (-(8 : ℤ) * (k + 1))) * ulp c x := by
          push_cast; ring
      _ = _ := by rw [hB1, mul_one]
  · rw [if_pos hs]
    by_cases hl : firstNonzero d = d.length
    · rw [if_pos hl]
      have hall := firstNonzero_eq_length.1 hl
      have hlv0 : lv d = 0 := lv_eq_zero.2 hall
      have hF : FinWF c { x with data := d, neg := false, exp := 0 - ((k + 1 : ℕ) : Int) * 8 } := by
        refine ⟨⟨hd1, hd2, ?_, hx.prec_lo, hx.prec_hi, fun _ _ => ⟨hall, rfl⟩⟩, hx.fin⟩
        show (8 : ℤ) ∣ 0 - ((k + 1 : ℕ) : Int) * 8
        omega
      have hm0 : mag { x with data := d, neg := false, exp := 0 - ((k + 1 : ℕ) : Int) * 8 } = 0 := by
        rw [mag_eq hF.toWF]; simp only [hlv0]; simp
      have hdr : lv (x.data.drop (k + 1)) = 0 := by
        rw [hlv0] at hd3
        rcases Nat.mul_eq_zero.1 hd3.symm with h | h
        · exact h
        · exact absurd h (Bpos _).ne'
      refine ⟨hF, rfl, ?_, Or.inr ?_⟩
      · rw [hm0, hdr]; simp
      · unfold val; rw [hm0]; simp
    · rw [if_neg hl]
      have hlt : firstNonzero d < d.length := lt_of_le_of_ne (firstNonzero_le d) hl
      have hh := shiftUp_first_head hlt
      have hlv := shiftUp_first hd2
      have hF : FinWF c { x with data := shiftUp (firstNonzero d) d, exp := x.exp - (((k + 1 : ℕ) : Int) + firstNonzero d) * 8 } := by
        refine ⟨⟨by rw [shiftUp_length, hd1], shiftUp_OK _ hd2, ?_, hx.prec_lo, hx.prec_hi, fun _ h => absurd h hh⟩, hx.fin⟩
        show (8 : ℤ) ∣ x.exp - (((k + 1 : ℕ) : Int) + firstNonzero d) * 8
        omega
      refine ⟨hF, rfl, ?_, Or.inl rfl⟩
      rw [mag_eq hF.toWF]
      simp only [hlv, hd3]
      generalize firstNonzero d = s
      have hu : ulp c { x with data := shiftUp s d, exp := x.exp - (((k + 1 : ℕ) : Int) + s) * 8 } =
          (10 : ℚ) ^ (-(8 : ℤ) * (k + 1)) * (10 : ℚ) ^ (-(8 : ℤ) * s) * ulp c x := by
        unfold ulp; rw [← p10_add, ← p10_add]; congr 1; push_cast; ring
      have hB2 : ((100000000 ^ s : ℕ) : ℚ) * (10 : ℚ) ^ (-(8 : ℤ) * s) = 1 := by
        rw [← p10_base, ← p10_add, show 8 * (s : ℤ) + -8 * (s : ℤ) = 0 by ring]; simp
      rw [hu]
      calc ((lv (x.data.drop (k + 1)) * 100000000 ^ (k + 1) * 100000000 ^ s : ℕ) : ℚ) *
            ((10 : ℚ) ^ (-(8 : ℤ) * (k + 1)) * (10 : ℚ) ^ (-(8 : ℤ) * s) * ulp c x)
          = (lv (x.data.drop (k + 1)) : ℚ) * (((100000000 ^ (k + 1) : ℕ) : ℚ) * (10 : ℚ) ^ (-(8 : ℤ) * (k + 1))) *
              (((100000000 ^ s : ℕ) : ℚ) * (10 : ℚ) ^ (-(8 : ℤ) * s)) * ulp c x := by push_cast; ring
        _ = _ := by rw [hB1, hB2, mul_one, mul_one]

/-! ### `isint` -/

theorem isint_iff {c : Cfg} {x : EFloat} (hx : FinWF c x) : isint c x = true ↔ ∃ n : ℤ, val x = n := by
  have hval : (∃ n : ℤ, val x = n) ↔ (⌊mag x⌋ : ℚ) = mag x := by
    constructor
    · rintro ⟨n, hn⟩
      have : mag x = ((|n| : ℤ) : ℚ) := by rw [← abs_val, hn]; push_cast; rfl
      rw [this, Int.floor_intCast]
    · intro h
      cases hb : x.neg
      · exact ⟨⌊mag x⌋, by rw [h]; unfold val; rw [hb]; simp⟩
      · exact ⟨-⌊mag x⌋, by push_cast; rw [h]; unfold val; rw [hb]; simp⟩
  rw [hval]
  unfold isint
  rw [if_neg (by rw [hx.fin]; simp)]
  by_cases hz : x.data.headD 0 = 0
  · rw [if_pos ((iszero_iff hx.fin).2 hz), mag_zero_of_iszero hx hz]; simp
  rw [if_neg (by rw [(iszero_false hx.fin).2 hz]; simp)]
  by_cases he : x.exp < 0
  · rw [if_pos he]
    have h1 := mag_pos hx.toWF hz
    have h2 : mag x < 1 := by
      have h8 := hx.exp8
      refine lt_of_lt_of_le (mag_lt hx.toWF) ?_
      calc (10 : ℚ) ^ (x.exp + 8) ≤ (10 : ℚ) ^ (0 : ℤ) := p10_mono (by omega)
        _ = 1 := by norm_num
    have hf : ⌊mag x⌋ = 0 := by
      rw [Int.floor_eq_iff]; exact ⟨by simpa using h1.le, by simpa using h2⟩
    rw [hf]
    simp only [Bool.false_eq_true, false_iff]
    intro h; simp at h; linarith
  rw [if_neg he]
  obtain ⟨k, hk, hkd⟩ := exp_div hx.toWF (not_lt.1 he)
  rw [hkd]
  simp only
  by_cases hN : k + 1 ≥ c.elems
  · rw [if_pos hN]
    simp only [true_iff]
    have : ∃ m : ℕ, mag x = m := by
      refine ⟨lv x.data * 100000000 ^ (k + 1 - c.elems), ?_⟩
      rw [mag_eq hx.toWF]
      unfold ulp
      push_cast
      rw [show (100000000 : ℚ) ^ (k + 1 - c.elems) = (10 : ℚ) ^ (8 * ((k + 1 - c.elems : ℕ) : ℤ)) by
        rw [p10_base]; push_cast; rfl]
      congr 2; rw [hk]; omega
    obtain ⟨m, hm⟩ := this
    rw [hm, Int.floor_natCast]; norm_cast
  · rw [if_neg hN]
    have hfr := frac_mag hx.toWF hk (by omega)
    have hu := ulp_pos c x
    have h1 : (⌊mag x⌋ : ℚ) = mag x ↔ lv (x.data.drop (k + 1)) = 0 := by
      constructor
      · intro h
        rw [h, sub_self] at hfr
        rcases mul_eq_zero.1 hfr.symm with h | h
        · exact_mod_cast h
        · linarith
      · intro h; rw [h, Nat.cast_zero, zero_mul] at hfr; linarith
    rw [h1, lv_eq_zero, List.all_eq_true]
    simp

/-! ### decimal order -/

theorem digitsMinus1_spec (f n : Nat) (hn : 1 ≤ n) (h : n < 10 ^ f) :
    10 ^ digitsMinus1 f n ≤ n ∧ n < 10 ^ (digitsMinus1 f n + 1) := by
  induction f generalizing n with
  | zero => simp at h; omega
  | succ f ih =>
    rw [digitsMinus1]
    by_cases h0 : n / 10 = 0
    · rw [if_pos h0]; simp; omega
    · rw [if_neg h0]
      have h1 : n / 10 < 10 ^ f := by
        apply Nat.div_lt_of_lt_mul; rw [pow_succ] at h; omega
      obtain ⟨i1, i2⟩ := ih _ (by omega) h1
      constructor
      · rw [pow_succ]; omega
      · rw [pow_succ]; omega

end EFX
