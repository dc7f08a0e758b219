import Verif.Lemmas.IntArith
/-!
# C25 floor and ceiling, C47 increment and decrement, C51 exact integer arithmetic
-/

namespace EFX.Props
open EFX EFX.Spec

theorem exp_lt_of_mag {c : Cfg} {x : EFloat} (hx : FinWF c x) (h0 : val x ≠ 0) {e : ℤ} (h : |val x| < (10 : ℚ) ^ e) :
    x.exp < e := by
  have hz := ne_of_val hx h0
  rw [abs_val] at h
  have h1 := mag_ge hx.toWF hz
  by_contra hc
  have := p10_mono (not_lt.1 hc)
  linarith

theorem p10_succ_gap {e : ℤ} (he : 0 ≤ e) : (10 : ℚ) ^ e + 1 < (10 : ℚ) ^ (e + 1) := by
  have h1 : (1 : ℚ) ≤ (10 : ℚ) ^ e := by
    calc (1 : ℚ) = (10 : ℚ) ^ (0 : ℤ) := by simp
      _ ≤ _ := p10_mono he
  rw [p10_add]; norm_num; linarith

/-- Moving a number away from zero by one and cutting gives one more than cutting. -/
theorem trunc_step {c : Cfg} {z : EFloat} {q : ℚ} (hq : 0 ≤ q) (hb : q ≤ (10 : ℚ) ^ ((c.digits10 : ℤ) - 2))
    (hz : FinWF c z) (h1 : |val z| ≤ q + 1) (h2 : ∀ w, FinWF c w → |val w| ≤ q + 1 → |val w| ≤ |val z|) :
    ⌊|val z|⌋ = ⌊q⌋ + 1 ∧ z.exp < (c.digits10 : ℤ) - 1 := by
  have hD := (digits10_bounds c).1
  have hN := digits_elems c
  have hgap := p10_succ_gap (e := (c.digits10 : ℤ) - 2) (by omega)
  rw [show (c.digits10 : ℤ) - 2 + 1 = (c.digits10 : ℤ) - 1 by ring] at hgap
  have hf0 : 0 ≤ ⌊q⌋ := Int.floor_nonneg.2 hq
  have hfl := Int.floor_le q
  have hfu := Int.lt_floor_add_one q
  have hlow : ((⌊q⌋ + 1 : ℤ) : ℚ) ≤ |val z| := by
    have hm : |((⌊q⌋ + 1 : ℤ) : ℚ)| = ((⌊q⌋ + 1 : ℤ) : ℚ) := abs_of_nonneg (by exact_mod_cast (by omega : (0 : ℤ) ≤ ⌊q⌋ + 1))
    obtain ⟨w, hw, hwv⟩ := int_repr c (⌊q⌋ + 1) (by
      rw [hm]; push_cast
      calc (⌊q⌋ : ℚ) + 1 ≤ q + 1 := by linarith
        _ < (10 : ℚ) ^ ((c.digits10 : ℤ) - 1) := by linarith
        _ ≤ _ := p10_mono (by omega))
    have := h2 w hw (by rw [hwv, hm]; push_cast; linarith)
    rwa [hwv, hm] at this
  constructor
  · rw [Int.floor_eq_iff]
    refine ⟨hlow, ?_⟩
    push_cast; linarith
  · apply exp_lt_of_mag hz
    · intro h
      rw [h, abs_zero] at hlow
      have : (⌊q⌋ + 1 : ℤ) ≤ 0 := by exact_mod_cast hlow
      omega
    · linarith

theorem floor_neg_nonint {q : ℚ} (h : ¬ IsInt q) : ⌊q⌋ = -(⌊-q⌋ + 1) := by
  have h1 := Int.floor_le (-q)
  have h2 := Int.lt_floor_add_one (-q)
  have h3 : (⌊-q⌋ : ℚ) ≠ -q := by
    intro hh; apply h; exact ⟨-⌊-q⌋, by push_cast; linarith⟩
  have h4 : (⌊-q⌋ : ℚ) < -q := lt_of_le_of_ne h1 h3
  rw [Int.floor_eq_iff]
  push_cast
  constructor <;> linarith

theorem ceil_pos_nonint {q : ℚ} (h : ¬ IsInt q) : ⌈q⌉ = ⌊q⌋ + 1 := by
  have h1 := Int.floor_le q
  have h2 := Int.lt_floor_add_one q
  have h3 : (⌊q⌋ : ℚ) ≠ q := by intro hh; exact h ⟨⌊q⌋, hh.symm⟩
  have h4 : (⌊q⌋ : ℚ) < q := lt_of_le_of_ne h1 h3
  rw [Int.ceil_eq_iff]
  push_cast
  constructor <;> linarith

/-- C25.  For integers of any size and for all numbers up to `10^(digits10-2)`, `floor` and `ceil`
are the mathematical functions.

Missing: numbers above that bound that have stored digits after the point, for which the result is
not an integer (`C25_floor_refuted`). -/
theorem C25_floor_ceil_partial {c : Cfg} {x : EFloat} (hx : FinWF c x)
    (h : IsInt (val x) ∨ |val x| ≤ (10 : ℚ) ^ ((c.digits10 : ℤ) - 2)) :
    denote (floor c x) = .fin (⌊val x⌋ : ℤ) ∧ denote (ceil c x) = .fin (⌈val x⌉ : ℤ) := by
  have hfin : x.isfinite = true := by simp [EFloat.isfinite, hx.fin]
  have hD := (digits10_bounds c).1
  have hgap := p10_succ_gap (e := (c.digits10 : ℤ) - 2) (by omega)
  rw [show (c.digits10 : ℤ) - 2 + 1 = (c.digits10 : ℤ) - 1 by ring] at hgap
  have den : ∀ {z : EFloat} {n : ℤ}, FinWF c z → val z = n → denote z = .fin (n : ℤ) := by
    intro z n hz hv; unfold denote; rw [hz.fin]; simp only; rw [hv]
  unfold floor ceil
  rw [hfin]
  by_cases hi : isint c x = true
  · rw [hi]
    simp only [Bool.not_true, Bool.false_or, if_true]
    obtain ⟨n, hn⟩ := (isint_iff hx).1 hi
    exact ⟨den hx (by rw [hn, Int.floor_intCast]), den hx (by rw [hn, Int.ceil_intCast])⟩
  · have hi' : ¬ IsInt (val x) := fun hh => hi ((isint_iff hx).2 hh)
    rw [Bool.eq_false_iff.2 hi]
    simp only [Bool.not_true, Bool.false_or, Bool.false_eq_true, if_false]
    have hb := h.resolve_left hi'
    have hv0 : val x ≠ 0 := fun h0 => hi' ⟨0, by rw [h0]; simp⟩
    have hexp : x.exp < (c.digits10 : ℤ) - 1 := exp_lt_of_mag hx hv0 (by linarith)
    obtain ⟨i1, _, _, _, _, _, i7⟩ := parts_all hx
    have hint := i7 hexp
    have hmax : (10 : ℚ) ^ ((c.digits10 : ℤ) - 1) ≤ (10 : ℚ) ^ maxExp10 :=
      pow_le_max c (by have := digits_elems c; omega)
    unfold EFloat.isneg
    cases hneg : x.neg
    · obtain ⟨t1, t2⟩ := truncZ_pos hneg
      have hpos : 0 < val x := lt_of_le_of_ne (by rw [t2]; exact mag_nonneg x) (Ne.symm hv0)
      rw [t1, ← t2] at hint
      simp only [Bool.false_eq_true, if_false]
      refine ⟨den i1 hint, ?_⟩
      rw [abs_of_pos hpos] at hb
      have ht := add_trunc hx (FinWF_one c) (by rw [val_one, mul_one]; exact hpos.le)
        (by rw [val_one, abs_of_pos (by linarith)]; linarith)
      rw [val_one] at ht
      have hq1 : |val x + 1| = val x + 1 := abs_of_pos (by linarith)
      obtain ⟨s1, s2⟩ := trunc_step (z := addAssign c x (one c)) hpos.le hb ht.fin (hq1 ▸ ht.le)
        (fun w hw hle => ht.greatest w hw (hq1.symm ▸ hle))
      obtain ⟨j1, _, _, _, _, _, j7⟩ := parts_all ht.fin
      have hz0 := trunc_nonneg ht (by linarith)
      unfold add
      apply den j1
      rw [j7 s2, ceil_pos_nonint hi', ← s1, abs_of_nonneg hz0]
      unfold truncZ; rw [if_neg (not_lt.2 hz0)]
    · obtain ⟨t1, t2, t3⟩ := truncZ_neg hx hneg
      have hlt : val x < 0 := by rw [t2]; linarith
      simp only [if_true]
      rw [abs_of_neg hlt] at hb
      have hceil : ⌈val x⌉ = -⌊mag x⌋ := by rw [t2, Int.ceil_neg]
      refine ⟨?_, den i1 (by rw [hint, t1, hceil])⟩
      have hno : FinWF c (negate (one c)) := FinWF_negate (FinWF_one c)
      have hvo : val (negate (one c)) = -1 := by rw [negate_val (FinWF_one c), val_one]
      have ht := add_trunc hx hno (by rw [hvo]; linarith) (by rw [hvo, abs_of_neg (by linarith)]; linarith)
      rw [hvo] at ht
      have hq1 : |val x + -1| = -val x + 1 := by rw [abs_of_neg (by linarith)]; ring
      obtain ⟨s1, s2⟩ := trunc_step (z := addAssign c x (negate (one c))) (q := -val x) (by linarith) hb ht.fin (hq1 ▸ ht.le)
        (fun w hw hle => ht.greatest w hw (hq1.symm ▸ hle))
      obtain ⟨j1, _, _, _, _, _, j7⟩ := parts_all ht.fin
      have hz0 := trunc_nonpos ht (by linarith)
      unfold sub
      rw [subAssign_eq hx (FinWF_one c)]
      apply den j1
      rw [j7 s2, floor_neg_nonint hi', ← s1, abs_of_nonpos hz0]
      unfold truncZ
      rcases hz0.lt_or_eq with h' | h'
      · rw [if_pos h']
      · rw [h']; simp

/-- `-12345679.25` has floor `-12345680` and ceiling `-12345679`. -/
example : FinWF cfg101 exC ∧ |val exC| ≤ (10 : ℚ) ^ ((cfg101.digits10 : ℤ) - 2) ∧
    val (floor cfg101 exC) = -12345680 ∧ val (ceil cfg101 exC) = -12345679 := by
  refine ⟨exC_fin, ?_, ?_, ?_⟩ <;> decide +kernel

/-- C25 fails for large numbers with stored fractional digits. -/
theorem C25_floor_refuted : FinWF cfg101 exBigHalf ∧ ¬ IsInt (val (floor cfg101 exBigHalf)) := by
  refine ⟨by decide +kernel, ?_⟩
  have e : floor cfg101 exBigHalf = exBigHalf := by decide +kernel
  have e2 : integerPart cfg101 exBigHalf = exBigHalf := by decide +kernel
  rw [e, ← e2]
  exact C24_integer_part_refuted.2

/-! ### C47 -/

/-- C47.  `++x` and `--x` add and subtract exactly one for integers while they fit the storage, they
undo each other, and `++x` is exact for every non-negative `x` for which `x + 1` can be stored.

Missing: negative non-integers, and integers beyond the storage, for which `++x` may differ from a
representable `x + 1` (`C47_increment_refuted`). -/
theorem C47_increment_partial {c : Cfg} {x : EFloat} (hx : FinWF c x) :
    (∀ n : ℤ, val x = n → |(n : ℚ)| < (10 : ℚ) ^ (8 * (c.elems : ℤ)) →
      (|((n + 1 : ℤ) : ℚ)| < (10 : ℚ) ^ (8 * (c.elems : ℤ)) →
        FinWF c (incr c x) ∧ val (incr c x) = ((n + 1 : ℤ) : ℚ) ∧
        FinWF c (decr c (incr c x)) ∧ val (decr c (incr c x)) = val x) ∧
      (|((n - 1 : ℤ) : ℚ)| < (10 : ℚ) ^ (8 * (c.elems : ℤ)) →
        FinWF c (decr c x) ∧ val (decr c x) = ((n - 1 : ℤ) : ℚ) ∧
        FinWF c (incr c (decr c x)) ∧ val (incr c (decr c x)) = val x)) ∧
    (0 ≤ val x → val x + 1 ≤ (10 : ℚ) ^ maxExp10 → (∃ w, FinWF c w ∧ val w = val x + 1) →
      FinWF c (incr c x) ∧ val (incr c x) = val x + 1) := by
  have h1b : |((1 : ℤ) : ℚ)| < (10 : ℚ) ^ (8 * (c.elems : ℤ)) := by
    have := elems_ge c
    calc |((1 : ℤ) : ℚ)| = 1 := by norm_num
      _ < (10 : ℚ) ^ (1 : ℤ) := by norm_num
      _ ≤ _ := p10_mono (by omega)
  have h1 : val (one c) = ((1 : ℤ) : ℚ) := by rw [val_one]; norm_num
  refine ⟨fun n hn hb => ⟨fun hb1 => ?_, fun hb1 => ?_⟩, fun h0 hM hw => ?_⟩
  · obtain ⟨a1, a2⟩ := add_int hx (FinWF_one c) hn h1 hb h1b hb1
    have e : ((n + 1 - 1 : ℤ)) = n := by ring
    obtain ⟨b1, b2⟩ := sub_int a1 (FinWF_one c) a2 h1 hb1 h1b (by rw [e]; exact hb)
    unfold incr decr
    exact ⟨a1, a2, b1, by rw [b2, e, hn]⟩
  · obtain ⟨a1, a2⟩ := sub_int hx (FinWF_one c) hn h1 hb h1b hb1
    have e : ((n - 1 + 1 : ℤ)) = n := by ring
    obtain ⟨b1, b2⟩ := add_int a1 (FinWF_one c) a2 h1 hb1 h1b (by rw [e]; exact hb)
    unfold incr decr
    exact ⟨a1, a2, b1, by rw [b2, e, hn]⟩
  · have ht := add_trunc hx (FinWF_one c) (by rw [val_one, mul_one]; exact h0)
      (by rw [val_one, abs_of_nonneg (by linarith)]; exact hM)
    obtain ⟨w, hw1, hw2⟩ := hw
    rw [val_one, ← hw2] at ht
    unfold incr
    exact ⟨ht.fin, by rw [ht.unique (isTrunc_self hw1), hw2]⟩

example : FinWF cfg101 (ofSigned cfg101 (-10 ^ 16)) ∧ val (ofSigned cfg101 (-10 ^ 16)) = ((-10 ^ 16 : ℤ) : ℚ) ∧
    |((-10 ^ 16 : ℤ) : ℚ)| < (10 : ℚ) ^ (8 * (cfg101.elems : ℤ)) ∧
    val (incr cfg101 (ofSigned cfg101 (-10 ^ 16))) = -10 ^ 16 + 1 := by
  refine ⟨?_, ?_, ?_, ?_⟩ <;> decide +kernel

/-- C47 fails for `x = -0.99...9`: `x + 1` is representable, `++x` is a different number. -/
theorem C47_increment_refuted :
    ∃ x w, FinWF cfg101 x ∧ FinWF cfg101 w ∧ val w = val x + 1 ∧ FinWF cfg101 (incr cfg101 x) ∧
      val (incr cfg101 x) ≠ val x + 1 := by
  refine ⟨{ exNines with exp := -8, neg := true }, mkLimbs cfg101 [1] (-128) false, ?_, ?_, ?_, ?_, ?_⟩ <;> decide +kernel

/-! ### C51 -/

/-- C51.  Sums, differences and products of integers are exact as long as operands and result fit
the stored digits (for products: the operands need at most `a` and `b` limbs and the working
precision has `a + b` limbs). -/
theorem C51_integer_arithmetic {c : Cfg} {x y : EFloat} (hx : FinWF c x) (hy : FinWF c y) {m n : ℤ}
    (hm : val x = m) (hn : val y = n) :
    (|(m : ℚ)| < (10 : ℚ) ^ (8 * (c.elems : ℤ)) → |(n : ℚ)| < (10 : ℚ) ^ (8 * (c.elems : ℤ)) →
      (|((m + n : ℤ) : ℚ)| < (10 : ℚ) ^ (8 * (c.elems : ℤ)) → denote (add c x y) = .fin ((m + n : ℤ) : ℚ)) ∧
      (|((m - n : ℤ) : ℚ)| < (10 : ℚ) ^ (8 * (c.elems : ℤ)) → denote (sub c x y) = .fin ((m - n : ℤ) : ℚ))) ∧
    (∀ a b : ℕ, |(m : ℚ)| < (10 : ℚ) ^ (8 * (a : ℤ)) → |(n : ℚ)| < (10 : ℚ) ^ (8 * (b : ℤ)) →
      a + b ≤ x.prec → a + b ≤ y.prec → denote (mul c x y) = .fin ((m * n : ℤ) : ℚ)) := by
  have den : ∀ {z : EFloat} {n : ℤ}, FinWF c z → val z = n → denote z = .fin (n : ℤ) := by
    intro z n hz hv; unfold denote; rw [hz.fin]; simp only; rw [hv]
  refine ⟨fun bm bn => ⟨fun bs => ?_, fun bs => ?_⟩, fun a b bm bn pa pb => ?_⟩
  · obtain ⟨h1, h2⟩ := add_int hx hy hm hn bm bn bs
    exact den h1 h2
  · obtain ⟨h1, h2⟩ := sub_int hx hy hm hn bm bn bs
    exact den h1 h2
  · obtain ⟨z1, e1⟩ := zeroFrom_int hx hm bm
    obtain ⟨z2, e2⟩ := zeroFrom_int hy hn bn
    have hN := elems_le c
    have hpx := hx.prec_hi
    by_cases hz : m = 0 ∨ n = 0
    · have hzz : x.data.headD 0 = 0 ∨ y.data.headD 0 = 0 := by
        rcases hz with h | h
        · left; exact (head_zero_iff hx).2 (by rw [hm, h]; simp)
        · right; exact (head_zero_iff hy).2 (by rw [hn, h]; simp)
      have := mulAssignG_zero (c := c) (self := false) hx.fin hy.fin hzz
      unfold mul mulAssign
      rw [this]
      apply den (FinWF_zero c)
      rw [val_zero]
      rcases hz with h | h <;> simp [h]
    · have hm0 : m ≠ 0 := fun h => hz (Or.inl h)
      have hn0 : n ≠ 0 := fun h => hz (Or.inr h)
      obtain ⟨f1, f2⟩ := e1 hm0
      obtain ⟨f3, f4⟩ := e2 hn0
      have hr : ExpInRange x y := by
        unfold ExpInRange minExp10
        have : maxExp10 = 2147483616 := rfl
        omega
      obtain ⟨g1, g2⟩ := C14_mul_exact hx hy hr z1 z2 (by omega)
      apply den g1
      rw [g2, hm, hn]; push_cast; rfl

/-- `12345678 * 87654321` with one limb each; `10^100 - 1`-sized sums are far below the bound. -/
example : FinWF cfg101 (ofSigned cfg101 12345678) ∧ val (ofSigned cfg101 12345678) = ((12345678 : ℤ) : ℚ) ∧
    |((12345678 : ℤ) : ℚ)| < (10 : ℚ) ^ (8 * ((1 : ℕ) : ℤ)) ∧ 1 + 1 ≤ (ofSigned cfg101 12345678).prec := by
  refine ⟨?_, ?_, ?_, ?_⟩ <;> decide +kernel

end EFX.Props
