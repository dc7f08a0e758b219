import Verif.Lemmas.Concrete
/-!
# C02, C03, C23: comparison, negation, absolute value
-/

namespace EFX.Props
open EFX EFX.Spec

/-- C02. `cmp` returns -1, 0, 1 exactly when the number `x` is below, equal to, above the number `y`. -/
theorem C02_cmp_is_order {c : Cfg} {x y : EFloat} (hx : FinWF c x) (hy : FinWF c y) :
    (cmp x y = -1 ↔ val x < val y) ∧ (cmp x y = 0 ↔ val x = val y) ∧ (cmp x y = 1 ↔ val y < val x) := by
  rw [cmp_finite hx hy]
  unfold signQ
  rcases lt_trichotomy (val x) (val y) with h | h | h
  · have h1 : val x - val y < 0 := by linarith
    rw [if_pos h1]
    simp [h, h.ne, h.le]
  · rw [h]; simp
  · have h1 : ¬ val x - val y < 0 := by linarith
    have h2 : val x - val y ≠ 0 := by linarith
    rw [if_neg h1]
    simp [h, h.ne', h.le, h2]

/-- C02. The six comparison operators are the order of the rationals. -/
theorem C02_operators {c : Cfg} {x y : EFloat} (hx : FinWF c x) (hy : FinWF c y) :
    (lt x y = true ↔ val x < val y) ∧ (le x y = true ↔ val x ≤ val y) ∧
    (eq x y = true ↔ val x = val y) ∧ (ne x y = true ↔ val x ≠ val y) ∧
    (ge x y = true ↔ val y ≤ val x) ∧ (gt x y = true ↔ val y < val x) := by
  obtain ⟨h1, h2, h3⟩ := C02_cmp_is_order hx hy
  have hcases : cmp x y = -1 ∨ cmp x y = 0 ∨ cmp x y = 1 := by
    rcases lt_trichotomy (val x) (val y) with h | h | h
    · exact Or.inl (h1.2 h)
    · exact Or.inr (Or.inl (h2.2 h))
    · exact Or.inr (Or.inr (h3.2 h))
  unfold lt le eq ne ge gt
  simp only [decide_eq_true_eq]
  rcases hcases with h | h | h
  · have := h1.1 h; rw [h]; simp [this, this.ne, not_le.2 this, this.le]
  · have := h2.1 h; rw [h]; simp [this]
  · have := h3.1 h; rw [h]; simp [this, this.ne', not_le.2 this, this.le]

/-- C02. Equal numbers have identical digits, exponent and sign unless both are zero. -/
theorem C02_eq_same_digits {c : Cfg} {x y : EFloat} (hx : FinWF c x) (hy : FinWF c y)
    (h : eq x y = true) (h0 : val x ≠ 0) : x.data = y.data ∧ x.exp = y.exp ∧ x.neg = y.neg := by
  have hv := (C02_operators hx hy).2.2.1.1 h
  have zx : x.data.headD 0 ≠ 0 := fun hz => h0 ((head_zero_iff hx).1 hz)
  have zy : y.data.headD 0 ≠ 0 := fun hz => h0 (hv ▸ (head_zero_iff hy).1 hz)
  have hm : mag x = mag y := by rw [← abs_val, hv, abs_val]
  have he : x.exp = y.exp := by
    have h1 := exp_le_of_mag_le hx.toWF hy.toWF hm.ge zy
    have h2 := exp_le_of_mag_le hy.toWF hx.toWF hm.le zx
    omega
  refine ⟨?_, he, ?_⟩
  · have hu : ulp c x = ulp c y := by unfold ulp; rw [he]
    rw [mag_eq hx.toWF, mag_eq hy.toWF, hu] at hm
    have := mul_right_cancel₀ (ulp_pos c y).ne' hm
    exact lv_inj (by rw [hx.len, hy.len]) hx.ok hy.ok (by exact_mod_cast this)
  · have hp : 0 < val x * val y := by rw [hv]; exact mul_self_pos.2 (hv ▸ h0)
    exact (val_mul_nonneg_iff hx hy zx zy).1 hp

/-- The case `12345678.9 > -12345679.25`, `-12345679.25 < -0.00000007`. -/
example : cmp exA exC = 1 ∧ cmp exC exB = -1 ∧ cmp exB exB = 0 := by decide +kernel

/-- C03, the part that holds: infinities are ordered around the finite numbers, equal infinities are
equal, and NaN is never equal to anything. -/
theorem C03_infinities_and_nan_partial :
    (∀ x y : EFloat, x.cls = .inf → y.cls = .finite →
      lt x y = x.neg ∧ gt x y = !x.neg ∧ lt y x = !x.neg ∧ gt y x = x.neg ∧ eq x y = false ∧ eq y x = false) ∧
    (∀ x y : EFloat, x.cls = .inf → y.cls = .inf →
      eq x y = decide (x.neg = y.neg) ∧ lt x y = (x.neg && !y.neg) ∧ gt x y = (!x.neg && y.neg)) ∧
    (∀ x y : EFloat, x.cls = .nan ∨ y.cls = .nan → eq x y = false ∧ ne x y = true) := by
  refine ⟨?_, ?_, ?_⟩
  · intro x y hx hy
    unfold lt gt eq cmp EFloat.isfinite EFloat.isnan EFloat.isinf EFloat.isneg
    rw [hx, hy]
    cases x.neg <;> simp
  · intro x y hx hy
    unfold lt gt eq cmp EFloat.isfinite EFloat.isnan EFloat.isinf EFloat.isneg
    rw [hx, hy]
    cases x.neg <;> cases y.neg <;> simp
  · intro x y h
    unfold eq ne cmp EFloat.isfinite EFloat.isnan EFloat.isinf EFloat.isneg
    rcases h with h | h
    · rw [h]; simp
    · rw [h]
      by_cases hx : x.cls = .nan <;> simp [hx]

/-- C03, the part that fails: ordered comparisons with NaN are not false.  NaN compares greater than
everything when it is on the left, and everything else is less than NaN on the right. -/
theorem C03_nan_ordered_refuted :
    (∀ (x y : EFloat), x.cls = .nan → gt x y = true ∧ ge x y = true) ∧
    (∀ (x y : EFloat), x.cls ≠ .nan → y.cls = .nan → lt x y = true ∧ le x y = true) := by
  constructor
  · intro x y hx
    unfold gt ge cmp EFloat.isfinite EFloat.isnan
    rw [hx]; simp
  · intro x y hx hy
    unfold lt le cmp EFloat.isfinite EFloat.isnan
    rw [hy]; simp [hx]

example : gt (nanV cfg101) exA = true ∧ gt exA (infSigned cfg101 true) = true ∧
    lt exA (infV cfg101) = true := by decide +kernel

/-- C23. Negation is exact and involutive for every object, keeps NaN and flips infinities. -/
theorem C23_negate {c : Cfg} {x : EFloat} (hx : WF c x) :
    negate (negate x) = x ∧ WF c (negate x) ∧ (x.cls = .finite → val (negate x) = -val x) ∧
    (x.cls = .inf → (negate x).cls = .inf ∧ (negate x).neg = !x.neg) ∧
    (x.cls = .nan → (negate x).cls = .nan) := by
  refine ⟨negate_negate x, WF_negate hx, fun h => negate_val ⟨hx, h⟩, fun h => ?_, fun h => ?_⟩
  · have hz : x.iszero = false := by simp [EFloat.iszero, h]
    refine ⟨by rw [negate_cls, h], ?_⟩
    unfold negate; rw [hz]; simp
  · rw [negate_cls, h]

/-- C23. `fabs` is the exact absolute value and never carries a sign. -/
theorem C23_fabs {c : Cfg} {x : EFloat} (hx : WF c x) :
    WF c (fabs x) ∧ (fabs x).cls = x.cls ∧ (x.cls = .finite → val (fabs x) = |val x|) ∧
    (x.cls = .inf → (fabs x).neg = false) := by
  refine ⟨WF_fabs hx, fabs_cls x, fun h => fabs_val ⟨hx, h⟩, fun h => ?_⟩
  have hz : x.iszero = false := by simp [EFloat.iszero, h]
  unfold fabs EFloat.isneg
  by_cases hn : x.neg = true
  · rw [if_pos hn]; unfold negate; rw [hz]; simp [hn]
  · rw [if_neg hn]; simpa using hn

/-- C23. `sgn` is the sign of the number. -/
theorem C23_sgn {c : Cfg} {x : EFloat} (hx : FinWF c x) :
    (sgn x = 0 ↔ val x = 0) ∧ (sgn x = 1 ↔ 0 < val x) ∧ (sgn x = -1 ↔ val x < 0) := by
  unfold sgn
  by_cases hz : x.data.headD 0 = 0
  · have h0 := (head_zero_iff hx).1 hz
    rw [if_pos ((iszero_iff hx.fin).2 hz), h0]; simp
  · rw [if_neg (by rw [(iszero_false hx.fin).2 hz]; simp)]
    have hp := mag_pos hx.toWF hz
    unfold EFloat.isneg val
    by_cases hn : x.neg = true
    · simp [hn, hp, hp.ne', hp.le]
    · simp [hn, hp, hp.ne', hp.le]

example : sgn exB = -1 ∧ negate exB = mkLimbs cfg101 [7] (-8) false := by decide +kernel

end EFX.Props
