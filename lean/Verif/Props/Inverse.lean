import Verif.Lemmas.InvAcc
/-!
# C21 accuracy of the reciprocal and of the quotient
-/

namespace EFX.Props
open EFX EFX.Spec

/-- The exponent of `x` keeps a distance of 64 from the ends of the exponent range. -/
def ExpMargin (x : EFloat) : Prop := minExp10 + 64 ≤ x.exp ∧ x.exp ≤ maxExp10 - 64

/-- Error bound of the reciprocal for every configuration: the Newton iteration ends below `10^-(D+2)`,
the rest is the error of the products at full precision. -/
def recipBound (c : Cfg) : ℚ :=
  (10 : ℚ) ^ (-((c.digits10 : ℤ) + 2)) +
    23 / 10 * ((c.elems : ℚ) * (if c.elems < 625 then 1 else 20000) + 2) * (10 : ℚ) ^ (16 - 8 * (c.elems : ℤ))

theorem invErr_eq (c : Cfg) : invErr c = recipBound c := by
  unfold invErr recipBound floorErr epsP mulErr
  by_cases h : c.elems < 625
  · rw [if_pos h, if_pos (by omega)]; ring
  · rw [if_neg h, if_neg (by omega)]; push_cast; ring

theorem recipBound_small {c : Cfg} (h : c.elems ≤ 19000) : recipBound c ≤ 9 / 10 * (10 : ℚ) ^ (-(c.digits10 : ℤ)) := by
  unfold recipBound
  have e1 : (10 : ℚ) ^ (-((c.digits10 : ℤ) + 2)) = (10 : ℚ) ^ (-(c.digits10 : ℤ)) * (1 / 100) := by
    rw [neg_add, p10_add]; norm_num
  have e2 : (10 : ℚ) ^ (16 - 8 * (c.elems : ℤ)) ≤ (10 : ℚ) ^ (-(c.digits10 : ℤ)) * (1 / 10 ^ 9) := by
    have : (10 : ℚ) ^ (16 - 8 * (c.elems : ℤ)) ≤ (10 : ℚ) ^ (-(c.digits10 : ℤ) + (-9)) := by
      apply p10_mono; have := digits_elems c; omega
    rw [p10_add] at this
    calc _ ≤ _ := this
      _ = _ := by norm_num
  have hc : (c.elems : ℚ) ≤ 19000 := by exact_mod_cast h
  have h3 : (c.elems : ℚ) * (if c.elems < 625 then 1 else 20000) ≤ 380000000 := by
    split <;> linarith
  have h0 : (0 : ℚ) ≤ (c.elems : ℚ) * (if c.elems < 625 then 1 else 20000) := by
    split <;> positivity
  have hP := p10_pos (-(c.digits10 : ℤ))
  rw [e1]
  calc _ ≤ (10 : ℚ) ^ (-(c.digits10 : ℤ)) * (1 / 100) + 23 / 10 * (380000000 + 2) * ((10 : ℚ) ^ (-(c.digits10 : ℤ)) * (1 / 10 ^ 9)) := by
        apply add_le_add le_rfl
        apply mul_le_mul _ e2 (p10_pos _).le (by norm_num)
        linarith
    _ = (10 : ℚ) ^ (-(c.digits10 : ℤ)) * (1 / 100 + 23 / 10 * (380000000 + 2) * (1 / 10 ^ 9)) := by ring
    _ ≤ (10 : ℚ) ^ (-(c.digits10 : ℤ)) * (9 / 10) := mul_le_mul_of_nonneg_left (by norm_num) hP.le
    _ = _ := by ring

/-- C21, reciprocal.  For every configuration, every finite non-zero `x` with an exponent at least 64 away
from the ends of the range: the computed inverse is a well-formed finite number of the sign of `x`
whose relative error is at most `recipBound`; this is below `10^-digits10` up to 19000 limbs
(about 151000 digits).

Missing: the claimed bound for configurations with more than 19000 limbs, where the product by the
fast transform loses up to `20000 * elems` units of the limb before the last, and the outermost 64 exponents. -/
theorem C21_inverse_partial {c : Cfg} {x : EFloat} (hx : FinWF c x) (h0 : val x ≠ 0) (hr : ExpMargin x) :
    FinWF c (calculateInv c x) ∧
    0 < val (calculateInv c x) * val x ∧
    RelErr (val (calculateInv c x)) (1 / val x) (recipBound c) ∧
    (c.elems ≤ 19000 → |val (calculateInv c x) - 1 / val x| < (10 : ℚ) ^ (-(c.digits10 : ℤ)) * |1 / val x|) := by
  obtain ⟨s1, s2, s3, _⟩ := calculateInv_spec hx h0 hr
  rw [invErr_eq] at s3
  have hrel : RelErr (val (calculateInv c x)) (1 / val x) (recipBound c) := by
    unfold RelErr
    have e : val (calculateInv c x) - 1 / val x = -(1 - val (calculateInv c x) * val x) * (1 / val x) := by
      field_simp; ring
    rw [e, abs_mul, abs_neg]
    exact mul_le_mul_of_nonneg_right s3 (abs_nonneg _)
  refine ⟨s1, s2, hrel, fun hN => ?_⟩
  have hpos : 0 < |1 / val x| := abs_pos.2 (one_div_ne_zero h0)
  refine lt_of_le_of_lt hrel (mul_lt_mul_of_pos_right ?_ hpos)
  have := recipBound_small hN
  have := p10_pos (-(c.digits10 : ℤ))
  linarith

theorem exA_margin : ExpMargin exA := by unfold ExpMargin; decide +kernel
theorem exC_margin : ExpMargin exC := by unfold ExpMargin; decide +kernel

example : FinWF cfg101 exC ∧ val exC ≠ 0 ∧ ExpMargin exC ∧ cfg101.elems ≤ 19000 := by
  refine ⟨exC_fin, ?_, exC_margin, ?_⟩ <;> decide +kernel

theorem abs_fin {c : Cfg} {x : EFloat} (hx : FinWF c x) : FinWF c (fabs x) ∧ val (fabs x) = |val x| ∧ (fabs x).exp = x.exp :=
  ⟨FinWF_fabs hx, fabs_val hx, fabs_exp x⟩

theorem recip_exp {c : Cfg} {x r : EFloat} (hx : FinWF c x) (hr : FinWF c r) (hp : 0 < val r * val x)
    (he : |1 - val r * val x| ≤ 1 / 2) : -16 ≤ r.exp + x.exp ∧ r.exp + x.exp ≤ 0 := by
  obtain ⟨x1, x2, x3⟩ := abs_fin hx
  obtain ⟨r1, r2, r3⟩ := abs_fin hr
  have hx0 : val x ≠ 0 := fun h => by rw [h, mul_zero] at hp; exact lt_irrefl _ hp
  have hr0 : val r ≠ 0 := fun h => by rw [h, zero_mul] at hp; exact lt_irrefl _ hp
  have hprod : |val r| * |val x| = val r * val x := by rw [← abs_mul, abs_of_pos hp]
  obtain ⟨a1, a2⟩ := abs_le.1 he
  have := exp_inv x1 r1 (by rw [x2]; exact abs_pos.2 hx0) (by rw [r2]; exact abs_pos.2 hr0)
    (by rw [x2, r2, hprod]; linarith) (by rw [x2, r2, hprod]; linarith)
  rwa [x3, r3] at this

theorem quotient_alg {q x i y e E B : ℚ} (hy : y ≠ 0) (h1 : |q - x * i| ≤ e * |x * i|) (h2 : |1 - i * y| ≤ B)
    (he : 0 ≤ e) (hB : B ≤ 1 / 10) (hE : B + 11 / 10 * e ≤ E) : |q - x / y| ≤ E * |x / y| := by
  have hxi : x * i = (i * y) * (x / y) := by field_simp
  have hiy : |i * y| ≤ 11 / 10 := by
    have : i * y = 1 - (1 - i * y) := by ring
    rw [this]
    calc _ ≤ |(1 : ℚ)| + |1 - i * y| := abs_sub _ _
      _ ≤ _ := by rw [abs_one]; linarith
  have key : q - x / y = (q - x * i) + -((1 - i * y) * (x / y)) := by rw [hxi]; ring
  rw [key]
  have hxy := abs_nonneg (x / y)
  calc _ ≤ |q - x * i| + |-((1 - i * y) * (x / y))| := abs_add_le _ _
    _ = |q - x * i| + |1 - i * y| * |x / y| := by rw [abs_neg, abs_mul (1 - i * y)]
    _ ≤ e * (|i * y| * |x / y|) + B * |x / y| := by
        apply add_le_add
        · rw [← abs_mul, ← hxi]; exact h1
        · exact mul_le_mul_of_nonneg_right h2 hxy
    _ ≤ e * (11 / 10 * |x / y|) + B * |x / y| := by
        apply add_le_add _ le_rfl
        exact mul_le_mul_of_nonneg_left (mul_le_mul_of_nonneg_right hiy hxy) he
    _ = (B + 11 / 10 * e) * |x / y| := by ring
    _ ≤ _ := mul_le_mul_of_nonneg_right hE hxy

/-- C21, quotient.  For finite non-zero full-precision operands of different magnitude whose exponents and exponent
difference keep a distance from the ends of the range, the quotient is finite, has the sign of `x / y`
and a relative error of at most twice the bound of the reciprocal; below `10^-(digits10-1)` up to
19000 limbs.  (Equal magnitudes: C20.)

Missing: as for the reciprocal. -/
theorem C21_quotient_partial {c : Cfg} {x y : EFloat} (hx : FinWF c x) (hy : FinWF c y)
    (x0 : val x ≠ 0) (y0 : val y ≠ 0) (hne : |val x| ≠ |val y|) (px : x.prec = c.elems) (py : y.prec = c.elems)
    (hr : ExpMargin y) (he : minExp10 + 64 ≤ x.exp - y.exp ∧ x.exp - y.exp ≤ maxExp10 - 64) :
    FinWF c (div c x y) ∧
    0 < val (div c x y) * (val x / val y) ∧
    RelErr (val (div c x y)) (val x / val y) (2 * recipBound c) ∧
    (c.elems ≤ 19000 →
      |val (div c x y) - val x / val y| < (10 : ℚ) ^ (-((c.digits10 : ℤ) - 1)) * |val x / val y|) := by
  obtain ⟨s1, s2, s3, s4⟩ := calculateInv_spec hy y0 hr
  have hfl := floorErr_bounds c
  have hsm : invErr c ≤ 1 / 10 := by
    unfold invErr
    have h1 : (10 : ℚ) ^ (-((c.digits10 : ℤ) + 2)) ≤ (10 : ℚ) ^ (-2 : ℤ) := by apply p10_mono; omega
    rw [show (10 : ℚ) ^ (-2 : ℤ) = 1 / 100 by norm_num] at h1
    have : (1 / 10 ^ 12 : ℚ) ≤ 1 / 100 := by norm_num
    linarith [hfl.2]
  have hdiv : div c x y = mul c x (calculateInv c y) := by
    unfold div divAssign mul
    rw [if_neg]
    intro h
    exact hne ((finiteIdentical_iff hx hy x0).1 h)
  have hexp := recip_exp hy s1 s2 (by linarith)
  have pinv : (calculateInv c y).prec = c.elems := by rcases s4 with h | h <;> simp [h, py]
  have i0 : val (calculateInv c y) ≠ 0 := fun h => by rw [h, zero_mul] at s2; exact lt_irrefl _ s2
  have hER : ExpInRange x (calculateInv c y) := by
    unfold ExpInRange; omega
  obtain ⟨m1, _, m2, m3⟩ := C13_mul_error_reduced_partial hx s1 x0 i0 hER
  rw [px, pinv, Nat.min_self] at m3
  rw [hdiv]
  generalize mul c x (calculateInv c y) = q at *
  generalize val (calculateInv c y) = i at *
  have heps : (((c.elems : ℚ) * (if c.elems < 625 then 1 else 20000) + 2 : ℚ) * (10 : ℚ) ^ (8 * (2 - (c.elems : ℤ)))) = epsP c.elems := by
    unfold epsP mulErr
    rw [show (8 * (2 - (c.elems : ℤ))) = 16 - 8 * (c.elems : ℤ) by ring]
    by_cases h : c.elems < 625
    · rw [if_pos h, if_pos (by omega)]; ring
    · rw [if_neg h, if_neg (by omega)]; push_cast; ring
  rw [heps] at m3
  have hE : invErr c + 11 / 10 * epsP c.elems ≤ 2 * recipBound c := by
    rw [← invErr_eq]
    have : invErr c = (10 : ℚ) ^ (-((c.digits10 : ℤ) + 2)) + 23 / 10 * epsP c.elems := rfl
    rw [this]
    have := epsP_pos c.elems
    have := p10_pos (-((c.digits10 : ℤ) + 2))
    linarith
  have hrel := quotient_alg y0 m3 s3 (epsP_pos _).le hsm hE
  refine ⟨m1, ?_, hrel, fun hN => ?_⟩
  · -- signs
    have h2 : 0 < val q * (val x * i) * (i * val y) := mul_pos m2 s2
    have h3 : val q * (val x / val y) = val q * (val x * i) * (i * val y) / (i * val y) ^ 2 := by
      field_simp
    rw [h3]
    exact div_pos h2 (pow_pos s2 2)
  · have hpos : 0 < |val x / val y| := abs_pos.2 (div_ne_zero x0 y0)
    refine lt_of_le_of_lt hrel (mul_lt_mul_of_pos_right ?_ hpos)
    have h1 := recipBound_small hN
    have h2 := p10_pos (-(c.digits10 : ℤ))
    have h3 : (10 : ℚ) ^ (-((c.digits10 : ℤ) - 1)) = (10 : ℚ) ^ (-(c.digits10 : ℤ)) * 10 := by
      rw [show -((c.digits10 : ℤ) - 1) = -(c.digits10 : ℤ) + 1 by ring, p10_add]; norm_num
    rw [h3]
    linarith

example : FinWF cfg101 exC ∧ FinWF cfg101 exA ∧ val exC ≠ 0 ∧ val exA ≠ 0 ∧ |val exC| ≠ |val exA| ∧
    exC.prec = cfg101.elems ∧ exA.prec = cfg101.elems ∧ ExpMargin exA ∧
    (minExp10 + 64 ≤ exC.exp - exA.exp ∧ exC.exp - exA.exp ≤ maxExp10 - 64) := by
  refine ⟨exC_fin, exA_fin, ?_, ?_, ?_, rfl, rfl, exA_margin, ?_⟩ <;> decide +kernel

/-- C20, non-finite operands: NaN on either side gives NaN, `inf / inf` is NaN, a finite number divided by an
infinity is zero, an infinity divided by a non-zero number with an exponent away from the ends of the
range is the infinity with the product of the signs. -/
theorem C20_div_nonfinite {c : Cfg} {x y : EFloat} (hx : WF c x) (hy : WF c y) :
    (denote x = .nan ∨ denote y = .nan → denote (div c x y) = .nan) ∧
    (∀ s t, denote x = .inf s → denote y = .inf t → denote (div c x y) = .nan) ∧
    (∀ s q, denote x = .fin q → denote y = .inf s → denote (div c x y) = .fin 0) ∧
    (∀ s q, denote x = .inf s → denote y = .fin q → q ≠ 0 → ExpMargin y →
      denote (div c x y) = .inf (decide (s ≠ decide (q < 0)))) ∧
    (∀ s, denote x = .inf s → denote y = .fin 0 → denote (div c x y) = .inf s) := by
  have cl : ∀ {z : EFloat}, (z.cls = .nan → denote z = .nan) ∧ (z.cls = .inf → denote z = .inf z.neg) ∧
      (z.cls = .finite → denote z = .fin (val z)) := by
    intro z; unfold denote
    refine ⟨fun h => ?_, fun h => ?_, fun h => ?_⟩ <;> rw [h]
  have hnan : ∀ {z : EFloat}, denote z = .nan → z.cls = .nan := by
    intro z h; unfold denote at h; split at h <;> simp_all
  have hinf : ∀ {z : EFloat} {s}, denote z = .inf s → z.cls = .inf ∧ z.neg = s := by
    intro z s h; unfold denote at h; split at h <;> simp_all
  have hfin : ∀ {z : EFloat} {q}, denote z = .fin q → z.cls = .finite ∧ val z = q := by
    intro z s h; unfold denote at h; split at h <;> simp_all
  have inv_nan : y.cls = .nan → calculateInv c y = { y with neg := false } := by
    intro h; unfold calculateInv; simp [EFloat.iszero, EFloat.isnan, h]
  have inv_inf : y.cls = .inf → calculateInv c y = zero c := by
    intro h; unfold calculateInv; simp [EFloat.iszero, EFloat.isnan, EFloat.isinf, h]
  have notid : x.cls ≠ .finite ∨ y.cls ≠ .finite → div c x y = mul c x (calculateInv c y) := by
    intro h
    unfold div divAssign mul
    rw [if_neg]
    intro hc
    simp only [finiteIdentical, EFloat.isfinite, Bool.and_eq_true, decide_eq_true_eq] at hc
    rcases h with h | h
    · exact h hc.1.1.1
    · exact h (hc.1.1.2 ▸ hc.1.1.1)
  refine ⟨fun h => ?_, fun s t h1 h2 => ?_, fun s q h1 h2 => ?_, fun s q h1 h2 h3 h4 => ?_, fun s h1 h2 => ?_⟩
  · rcases h with h | h
    · have := hnan h
      rw [notid (Or.inl (by rw [this]; simp))]
      unfold mul mulAssign mulAssignG
      simp [EFloat.isnan, this, denote, nanV, mkClass]
    · have := hnan h
      rw [notid (Or.inr (by rw [this]; simp)), inv_nan this]
      unfold mul mulAssign mulAssignG
      simp [EFloat.isnan, this, denote, nanV, mkClass]
  · have h1' := hinf h1
    have h2' := hinf h2
    rw [notid (Or.inl (by rw [h1'.1]; simp)), inv_inf h2'.1]
    exact (C15_mul_special hx (FinWF_zero c).toWF).2.1 s (Or.inr ⟨h1, by rw [cl.2.2 (FinWF_zero c).fin, val_zero]⟩)
  · have h1' := hfin h1
    have h2' := hinf h2
    rw [notid (Or.inr (by rw [h2'.1]; simp)), inv_inf h2'.1]
    exact (C15_mul_special hx (FinWF_zero c).toWF).2.2.2.2.2.1 q 0 h1 (by rw [cl.2.2 (FinWF_zero c).fin, val_zero]) (Or.inr rfl)
  · have h1' := hinf h1
    have h2' := hfin h2
    rw [notid (Or.inl (by rw [h1'.1]; simp))]
    obtain ⟨s1, s2, _, _⟩ := calculateInv_spec (c := c) ⟨hy, h2'.1⟩ (by rw [h2'.2]; exact h3) h4
    rw [h2'.2] at s2
    have i0 : val (calculateInv c y) ≠ 0 := fun h => by rw [h, zero_mul] at s2; exact lt_irrefl _ s2
    rw [(C15_mul_special hx s1.toWF).2.2.2.1 s _ h1 (cl.2.2 s1.fin) i0]
    have : val (calculateInv c y) < 0 ↔ q < 0 := by
      constructor
      · intro h; by_contra hc
        have := mul_nonpos_of_nonpos_of_nonneg h.le (not_lt.1 hc)
        linarith
      · intro h; by_contra hc
        have := mul_nonpos_of_nonneg_of_nonpos (not_lt.1 hc) h.le
        linarith
    simp only [this]
  · have h1' := hinf h1
    have h2' := hfin h2
    have hF : FinWF c y := ⟨hy, h2'.1⟩
    have hyz := (head_zero_iff hF).2 h2'.2
    have hyn := (hF.norm hF.fin hyz).2
    have hzero : (EFloat.iszero { y with neg := false }) = true := by
      simp [EFloat.iszero, EFloat.front, hF.fin] ; simpa using hyz
    have hi : calculateInv c y = infV c := by
      unfold calculateInv
      simp only
      rw [if_pos hzero, hyn]
      rfl
    rw [notid (Or.inl (by rw [h1'.1]; simp)), hi]
    have := (C15_mul_special hx (WF_mkClass c .inf)).2.2.1 s false h1 rfl
    rw [infV, this]
    cases s <;> rfl

example : WF cfg101 (infV cfg101) ∧ WF cfg101 exC ∧ denote (infV cfg101) = .inf false ∧
    denote exC = .fin (-12345679.25) ∧ ExpMargin exC := by
  refine ⟨WF_mkClass _ _, exC_fin.toWF, rfl, ?_, exC_margin⟩
  unfold denote; rw [exC_fin.fin]; simp only; congr 1; decide +kernel

end EFX.Props
