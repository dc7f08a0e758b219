import Verif.Props.Floor
import Verif.Props.Compare
import Verif.Model.Inv
/-!
# C11 aliased compound assignment, C20 division special cases
-/

namespace EFX.Props
open EFX EFX.Spec

theorem cmpData_eq_zero_iff : ∀ {a b : List ℕ}, a.length = b.length → (cmpData a b = 0 ↔ a = b)
  | [], [], _ => by simp [cmpData]
  | x :: xs, y :: ys, h => by
    unfold cmpData
    by_cases hxy : x = y
    · rw [if_pos hxy, cmpData_eq_zero_iff (by simpa using h)]
      simp [hxy]
    · rw [if_neg hxy]
      split <;> simp [hxy]

theorem finiteIdentical_self {x : EFloat} (hx : x.cls = .finite) : finiteIdentical x x = true := by
  unfold finiteIdentical
  simp [EFloat.isfinite, hx, (cmpData_eq_zero_iff (rfl : x.data.length = x.data.length)).2 rfl]

/-- The identity test of the division compares magnitudes. -/
theorem finiteIdentical_iff {c : Cfg} {x y : EFloat} (hx : FinWF c x) (hy : FinWF c y)
    (h0 : val x ≠ 0) : finiteIdentical x y = true ↔ |val x| = |val y| := by
  have e : finiteIdentical x y = true ↔ x.exp = y.exp ∧ x.data = y.data := by
    unfold finiteIdentical
    rw [← cmpData_eq_zero_iff (by rw [hx.len, hy.len])]
    simp [EFloat.isfinite, hx.fin, hy.fin]
  rw [e, abs_val, abs_val]
  constructor
  · rintro ⟨h1, h2⟩; unfold mag; rw [h1, h2]
  · intro h
    have hxf := FinWF_fabs hx
    have hyf := FinWF_fabs hy
    have h1 : val (fabs x) = val (fabs y) := by rw [fabs_val hx, fabs_val hy, abs_val, abs_val]; exact h
    obtain ⟨h2, h3, _⟩ := C02_eq_same_digits hxf hyf ((C02_operators hxf hyf).2.2.1.2 h1)
      (by rw [fabs_val hx]; exact abs_ne_zero.2 h0)
    rw [fabs_data, fabs_data] at h2
    rw [fabs_exp, fabs_exp] at h3
    exact ⟨h3, h2⟩

theorem negate_one (c : Cfg) : denote (one c) = .fin 1 ∧ denote (negate (one c)) = .fin (-1) := by
  constructor
  · unfold denote; rw [(FinWF_one c).fin]; simp only; rw [val_one]
  · unfold denote; rw [(FinWF_negate (FinWF_one c)).fin]; simp only; rw [negate_val (FinWF_one c), val_one]

/-- C11.  `x += x` is the cut double of `x` (or infinity), `x *= x` is `x * x`, `x /= x` is one.

Missing: `x -= x`, which doubles instead of giving zero, and `x /= x` for negative `x`, which differs
from the division by a copy (`C11_self_refuted`). -/
theorem C11_self_partial {c : Cfg} {x : EFloat} (hx : FinWF c x) (rx : InRange c x) :
    (∃ z, IsTrunc c z (2 * val x) ∧ denote (addAssign c x x) =
      if |val z| ≤ val (valueMax c) then .fin (val z) else .inf (decide (val x < 0))) ∧
    mulAssignSelf c x = mulAssign c x x ∧
    denote (divAssignSelf c x) = .fin 1 ∧
    (0 < val x → divAssignSelf c x = divAssign c x x) := by
  refine ⟨?_, mulAssignSelf_eq c x, ?_, fun hp => ?_⟩
  · by_cases h0 : val x = 0
    · refine ⟨x, by rw [h0, mul_zero, ← h0]; exact isTrunc_self hx, ?_⟩
      rw [addAssign_zero_left hx ((head_zero_iff hx).2 h0), if_pos (by
        rw [h0, abs_zero]; unfold InRange at rx; exact le_trans (abs_nonneg _) rx)]
      unfold denote; rw [hx.fin]
    · obtain ⟨z, z1, _, z3⟩ := C07_add_same_sign hx hx rx rx (mul_self_pos.2 h0)
      exact ⟨z, by rw [two_mul]; exact z1, z3⟩
  · unfold divAssignSelf
    rw [if_pos (finiteIdentical_self hx.fin)]
    exact (negate_one c).1
  · have hn : x.neg = false := by
      cases h : x.neg
      · rfl
      · have := (truncZ_neg hx h).2.1
        have := mag_nonneg x
        linarith
    unfold divAssignSelf divAssign
    rw [if_pos (finiteIdentical_self hx.fin), if_pos (finiteIdentical_self hx.fin), hn]
    rfl

example : FinWF cfg101 exC ∧ val (addAssign cfg101 exC exC) = -24691358.5 ∧
    val (divAssignSelf cfg101 exC) = 1 := by
  refine ⟨exC_fin, ?_, ?_⟩ <;> decide +kernel

/-- C11 fails: for every finite `x`, `x -= x` does exactly what `x += x` does; and for `x = -12345679.25`
`x /= x` gives `1` while dividing by a copy gives `-1`. -/
theorem C11_self_refuted :
    (∀ (c : Cfg) (x : EFloat), FinWF c x → subAssignSelf c x = addAssign c x x) ∧
    val (subAssignSelf cfg101 exA) = 2 * val exA ∧ val exA ≠ 0 ∧
    val (divAssignSelf cfg101 exC) = 1 ∧ val (divAssign cfg101 exC exC) = -1 := by
  refine ⟨fun c x hx => ?_, ?_, ?_, ?_, ?_⟩
  · unfold subAssignSelf
    rw [addAssign_negate hx hx, negate_negate]
  all_goals decide +kernel

/-- C20.  For finite `x`, `y`: equal magnitudes give `1` or `-1` as the sign of `y` when `x` is positive;
a non-zero number divided by zero is the infinity with the sign of the dividend.

Missing: equal magnitudes with a negative dividend and zero divided by zero (`C20_div_refuted`). -/
theorem C20_div_partial {c : Cfg} {x y : EFloat} (hx : FinWF c x) (hy : FinWF c y) :
    (0 < val x → |val y| = val x → denote (div c x y) = .fin (val y / val x)) ∧
    (val x ≠ 0 → val y = 0 → denote (div c x y) = .inf (decide (val x < 0))) ∧
    (0 < val x → denote (div c x x) = .fin 1) := by
  have main : ∀ {y : EFloat}, FinWF c y → 0 < val x → |val y| = val x → denote (div c x y) = .fin (val y / val x) := by
    intro y hy hp he
    unfold div divAssign
    rw [if_pos ((finiteIdentical_iff hx hy hp.ne').2 (by rw [he, abs_of_pos hp]))]
    have e1 : (one c).neg = false := rfl
    rw [e1]
    cases hn : y.neg
    · have := (truncZ_pos hn).2
      rw [if_neg (by simp), (negate_one c).1]
      rw [this, abs_of_nonneg (mag_nonneg y)] at he
      rw [this, he, div_self hp.ne']
    · have := (truncZ_neg hy hn).2.1
      rw [if_pos (by simp), (negate_one c).2]
      rw [this, abs_neg, abs_of_nonneg (mag_nonneg y)] at he
      rw [this, he, neg_div, div_self hp.ne']
  refine ⟨main hy, fun h0 hz => ?_, fun hp => ?_⟩
  · have hid : finiteIdentical x y ≠ true := fun h => by
      have := (finiteIdentical_iff hx hy h0).1 h
      rw [hz, abs_zero] at this
      exact h0 (abs_eq_zero.1 this)
    have hyz := (head_zero_iff hy).2 hz
    have hyn := (hy.norm hy.fin hyz).2
    have hzero : (EFloat.iszero { y with neg := false }) = true := by
      simp [EFloat.iszero, EFloat.front, hy.fin] ; simpa using hyz
    unfold div divAssign
    rw [if_neg hid]
    have hi : calculateInv c y = infV c := by
      unfold calculateInv
      simp only
      rw [if_pos hzero, hyn]
      rfl
    rw [hi]
    have hinf : denote (infV c) = .inf false := rfl
    have := (C15_mul_special (c := c) hx.toWF (WF_mkClass c .inf)).2.2.2.2.1 false (val x)
      (by unfold denote; rw [hx.fin]) hinf h0
    unfold mul at this
    rw [infV, this]
    by_cases hneg : val x < 0 <;> simp [hneg]
  · rw [main hx hp (abs_of_pos hp), div_self hp.ne']

example : FinWF cfg101 exA ∧ FinWF cfg101 (negate exA) ∧ 0 < val exA ∧ |val (negate exA)| = val exA := by
  refine ⟨exA_fin, ?_, ?_, ?_⟩ <;> decide +kernel

/-- C20 fails: `(-3) / 3` is `1`, `(-3) / (-3)` is `-1`, and `0 / 0` is `1`. -/
theorem C20_div_refuted :
    denote (div cfg101 (ofSigned cfg101 (-3)) (ofSigned cfg101 3)) = .fin 1 ∧
    denote (div cfg101 (ofSigned cfg101 (-3)) (ofSigned cfg101 (-3))) = .fin (-1) ∧
    denote (div cfg101 (zero cfg101) (zero cfg101)) = .fin 1 := by
  have e1 : div cfg101 (ofSigned cfg101 (-3)) (ofSigned cfg101 3) = one cfg101 := by decide +kernel
  have e2 : div cfg101 (ofSigned cfg101 (-3)) (ofSigned cfg101 (-3)) = negate (one cfg101) := by decide +kernel
  have e3 : div cfg101 (zero cfg101) (zero cfg101) = one cfg101 := by decide +kernel
  rw [e1, e2, e3]
  exact ⟨(negate_one _).1, (negate_one _).2, (negate_one _).1⟩

end EFX.Props
