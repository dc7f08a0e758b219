import Verif.Lemmas.Concrete
/-!
# C07-C12, C44: addition and subtraction

`add c x y` is `x + y`, `sub c x y` is `x - y`; `valueMax c` is `numeric_limits<e_float>::max()`.
-/

namespace EFX.Props
open EFX EFX.Spec

/-- Operand not larger than `numeric_limits<e_float>::max()`. -/
def InRange (c : Cfg) (x : EFloat) : Prop := |val x| ≤ val (valueMax c)

theorem magMax (c : Cfg) : val (valueMax c) = mag (valueMax c) := valueMax_val c

/-- C07. Same signs: the exact sum cut toward zero to the storage format (`z`), or the infinity of
that sign when the cut sum exceeds the largest finite number. -/
theorem C07_add_same_sign {c : Cfg} {x y : EFloat} (hx : FinWF c x) (hy : FinWF c y)
    (rx : InRange c x) (ry : InRange c y) (hs : 0 < val x * val y) :
    ∃ z, IsTrunc c z (val x + val y) ∧ 0 < val z * val x ∧
      denote (add c x y) =
        if |val z| ≤ val (valueMax c) then .fin (val z) else .inf (decide (val x < 0)) := by
  obtain ⟨z, z1, z2, z3, z4, z5, z6, z7, z8⟩ := addAssign_core hx hy
  have ht := z2 hs.le
  have hx0 : val x ≠ 0 := by intro h; rw [h] at hs; simp at hs
  have hzx : |val x| ≤ |val z| := by
    apply ht.greatest x hx
    rcases lt_or_gt_of_ne hx0 with h | h
    · have : val y < 0 := by by_contra hc; nlinarith
      rw [abs_of_neg h, abs_of_neg (by linarith)]; linarith
    · have : 0 < val y := by by_contra hc; nlinarith
      rw [abs_of_pos h, abs_of_pos (by linarith)]; linarith
  have hz0 : val z ≠ 0 := by
    intro h; rw [h, abs_zero] at hzx; exact hx0 (abs_nonpos_iff.1 hzx)
  have hsgn : 0 < val z * val x := by
    have h1 := ht.sign
    rcases lt_or_gt_of_ne hx0 with h | h
    · have hy0 : val y < 0 := by by_contra hc; nlinarith
      have : val z < 0 := lt_of_le_of_ne (by by_contra hc; nlinarith) hz0
      exact mul_pos_of_neg_of_neg this h
    · have hy0 : 0 < val y := by by_contra hc; nlinarith
      have : 0 < val z := lt_of_le_of_ne (by by_contra hc; nlinarith) (Ne.symm hz0)
      exact mul_pos this h
  refine ⟨z, ht, hsgn, ?_⟩
  unfold InRange at rx ry
  rw [abs_val, magMax] at rx ry
  rw [abs_val, magMax]
  unfold add
  by_cases hle : mag z ≤ mag (valueMax c)
  · rw [if_pos hle, z7 (Or.inr hle)]; simp [denote, z1.fin]
  · rw [if_neg hle]
    have hk : ¬ keep c x y := fun hk => hle (le_trans (z5 hk) (max_le rx ry))
    rw [z8 ⟨hk, not_le.1 hle⟩, infSigned_eq]
    simp only [denote]
    congr 1
    have hmz := mag_nonneg z
    have hmx := mag_nonneg x
    unfold val at hsgn ⊢
    cases hzn : z.neg <;> cases hxn : x.neg <;> simp [hzn, hxn] at hsgn ⊢ <;> nlinarith

/-- Every number with exponent below the limit is in range. -/
theorem inRange_of_exp {c : Cfg} {x : EFloat} (hx : FinWF c x) (h : x.exp < maxExp10) : InRange c x := by
  unfold InRange
  rw [abs_val, magMax]
  exact (mag_lt_of_exp_lt hx.toWF (valueMax_WF c).1.toWF (valueMax_WF c).2
    (by rw [valueMax_exp]; exact h)).le

/-- `99999999.99...9 + 9.99...9e-113` needs one limb more than there are and is cut. -/
example : add cfg101 exNines exTiny = mkLimbs cfg101 [1] 8 false ∧ InRange cfg101 exNines ∧
    InRange cfg101 exTiny :=
  ⟨by decide +kernel, inRange_of_exp exNines_fin (by decide), inRange_of_exp exTiny_fin (by decide)⟩

/-- C08. Opposite signs: never overflows, sign and zero of the exact sum, error below one unit of the
last limb of the larger operand, exact for equal exponents. -/
theorem C08_add_opposite_sign {c : Cfg} {x y : EFloat} (hx : FinWF c x) (hy : FinWF c y)
    (rx : InRange c x) (ry : InRange c y) (hs : val x * val y < 0) :
    FinWF c (add c x y) ∧ InRange c (add c x y) ∧
    (val (add c x y) = 0 ↔ val x + val y = 0) ∧
    0 ≤ val (add c x y) * (val x + val y) ∧
    (|val y| ≤ |val x| → |val (add c x y) - (val x + val y)| < ulp c x) ∧
    (|val x| ≤ |val y| → |val (add c x y) - (val x + val y)| < ulp c y) ∧
    (x.exp = y.exp → val (add c x y) = val x + val y) := by
  obtain ⟨z, z1, z2, z3, z4, z5, z6, z7, z8⟩ := addAssign_core hx hy
  unfold InRange at rx ry ⊢
  have hle : mag z ≤ mag (valueMax c) := by
    rw [abs_val, magMax] at rx ry
    exact le_trans (z6 hs) (max_le rx ry)
  unfold add
  rw [z7 (Or.inr hle)]
  refine ⟨z1, by rw [abs_val, magMax]; exact hle, ?_, ?_, ?_, ?_, ?_⟩
  · rcases le_total |val y| |val x| with h | h
    · have e := z3 hs h
      have hc := chop_abs_err (ulp_pos c x) (val y)
      constructor
      · intro h0
        rw [e] at h0
        have h1 : |val x| ≤ |val y| := by
          have : val x = -chop (ulp c x) (val y) := by linarith
          rw [this, abs_neg]; exact hc.2
        rcases abs_eq_abs.1 (le_antisymm h1 h) with h2 | h2
        · rw [h2] at hs; nlinarith [mul_self_nonneg (val y)]
        · rw [h2]; ring
      · intro h0
        have h1 : |val x| ≤ |val y| := by
          have : val x = -val y := by linarith
          rw [this, abs_neg]
        have e2 := z4 hs h1
        have : val y = -val x := by linarith
        rw [e, this, chop_neg, chop_val, chop_mag hx.toWF, ← val_eq]; ring
    · have e := z4 hs h
      have hc := chop_abs_err (ulp_pos c y) (val x)
      constructor
      · intro h0
        rw [e] at h0
        have h1 : |val y| ≤ |val x| := by
          have : val y = -chop (ulp c y) (val x) := by linarith
          rw [this, abs_neg]; exact hc.2
        rcases abs_eq_abs.1 (le_antisymm h1 h) with h2 | h2
        · rw [h2] at hs; nlinarith [mul_self_nonneg (val x)]
        · rw [h2]; ring
      · intro h0
        have : val x = -val y := by linarith
        rw [e, this, chop_neg, chop_val, chop_mag hy.toWF, ← val_eq]; ring
  · rcases le_total |val y| |val x| with h | h
    · have e := z3 hs h
      have hc := (chop_abs_err (ulp_pos c x) (val y)).2
      rw [e]
      have hc' := le_trans hc h
      rcases lt_trichotomy (val x) 0 with h0 | h0 | h0
      · rw [abs_of_neg h0] at hc' h
        have a := (abs_le.1 hc').2; have b := (abs_le.1 h).2
        exact mul_nonneg_of_nonpos_of_nonpos (by linarith) (by linarith)
      · rw [h0] at hs; simp at hs
      · rw [abs_of_pos h0] at hc' h
        have a := (abs_le.1 hc').1; have b := (abs_le.1 h).1
        exact mul_nonneg (by linarith) (by linarith)
    · have e := z4 hs h
      have hc := (chop_abs_err (ulp_pos c y) (val x)).2
      rw [e]
      have hc' := le_trans hc h
      rcases lt_trichotomy (val y) 0 with h0 | h0 | h0
      · rw [abs_of_neg h0] at hc' h
        have a := (abs_le.1 hc').2; have b := (abs_le.1 h).2
        exact mul_nonneg_of_nonpos_of_nonpos (by linarith) (by linarith)
      · rw [h0] at hs; simp at hs
      · rw [abs_of_pos h0] at hc' h
        have a := (abs_le.1 hc').1; have b := (abs_le.1 h).1
        exact mul_nonneg (by linarith) (by linarith)
  · intro h
    rw [z3 hs h, add_sub_add_left_eq_sub, abs_sub_comm]
    exact (chop_abs_err (ulp_pos c x) (val y)).1
  · intro h
    rw [z4 hs h, add_comm (val x), add_sub_add_left_eq_sub, abs_sub_comm]
    exact (chop_abs_err (ulp_pos c y) (val x)).1
  · intro he
    have hu : ulp c x = ulp c y := by unfold ulp; rw [he]
    rcases le_total |val y| |val x| with h | h
    · rw [z3 hs h, chop_val, hu, chop_mag hy.toWF, ← val_eq]
    · rw [z4 hs h, chop_val, ← hu, chop_mag hx.toWF, ← val_eq]; ring

/-- `12345678.9 - 12345679.25 = -0.35`: cancellation of the leading limb. -/
example : add cfg101 exA exC = mkLimbs cfg101 [35000000] (-8) true := by decide +kernel

/-- C09. Addition of finite numbers commutes (value and overflow). -/
theorem C09_add_comm_partial {c : Cfg} {x y : EFloat} (hx : FinWF c x) (hy : FinWF c y) :
    denote (add c x y) = denote (add c y x) := by
  obtain ⟨z, z1, z2, z3, z4, z5, z6, z7, z8⟩ := addAssign_core hx hy
  obtain ⟨w, w1, w2, w3, w4, w5, w6, w7, w8⟩ := addAssign_core hy hx
  have hvw : val z = val w := by
    by_cases hs : val x * val y < 0
    · have hs' : val y * val x < 0 := by linarith
      rcases le_total |val y| |val x| with h | h
      · rw [z3 hs h, w4 hs' h]
      · rw [z4 hs h, w3 hs' h]
    · have h1 := z2 (not_lt.1 hs)
      have h2 := w2 (by rw [mul_comm]; exact not_lt.1 hs)
      rw [add_comm] at h2
      exact h1.unique h2
  have hm : mag z = mag w := by rw [← abs_val, hvw, abs_val]
  unfold add
  by_cases h : keep c x y ∨ mag z ≤ mag (valueMax c)
  · rw [z7 h, w7 (by rw [keep_comm, ← hm]; exact h)]
    simp [denote, z1.fin, w1.fin, hvw]
  · have h1 : ¬ keep c x y ∧ mag (valueMax c) < mag z := by
      constructor
      · exact fun hk => h (Or.inl hk)
      · exact not_le.1 fun hk => h (Or.inr hk)
    rw [z8 h1, w8 (by rw [keep_comm, ← hm]; exact h1), infSigned_eq, infSigned_eq]
    simp only [denote]
    congr 1
    have hp : 0 < mag z := lt_of_le_of_lt (mag_nonneg _) h1.2
    have hp' : 0 < mag w := hm ▸ hp
    unfold val at hvw
    cases hz : z.neg <;> cases hw : w.neg <;> simp [hz, hw] at hvw ⊢ <;> linarith

example : denote (add cfg101 exA exB) = denote (add cfg101 exB exA) := C09_add_comm_partial exA_fin exB_fin

/-- C09, the part that fails: with an infinite operand the order matters. -/
theorem C09_add_comm_inf_refuted :
    add cfg101 (one cfg101) (infV cfg101) = one cfg101 ∧
    add cfg101 (infV cfg101) (one cfg101) = infV cfg101 := by decide +kernel

/-- C10. Zero is neutral on both sides, for operands of every class. -/
theorem C10_add_zero {c : Cfg} {x o : EFloat} (hx : WF c x) (ho : FinWF c o) (h0 : val o = 0) :
    denote (add c x o) = denote x ∧ denote (add c o x) = denote x := by
  have zo := (head_zero_iff ho).2 h0
  refine ⟨?_, by unfold add; rw [addAssign_zero_left ho zo]⟩
  unfold add
  by_cases hf : x.cls = .finite
  · by_cases zx : x.data.headD 0 = 0
    · rw [addAssign_zero_left ⟨hx, hf⟩ zx]
      simp only [denote, hf, ho.fin, h0, (head_zero_iff ⟨hx, hf⟩).1 zx]
    · rw [addAssign_zero_right ho zo zx]
  · unfold addAssign EFloat.isnan EFloat.isinf
    cases hc : x.cls
    · exact absurd hc hf
    · simp [ho.fin]
    · simp

/-- C10. `x + (-x) = 0`, `x - y = 0` only for equal numbers, and `-(x - y) = y - x`. -/
theorem C10_sub {c : Cfg} {x y : EFloat} (hx : FinWF c x) (hy : FinWF c y)
    (rx : InRange c x) (ry : InRange c y) :
    denote (add c x (negate x)) = .fin 0 ∧ denote (sub c x x) = .fin 0 ∧
    (denote (sub c x y) = .fin 0 ↔ val x = val y) ∧
    denote (negate (sub c x y)) = denote (sub c y x) := by
  have key : ∀ {a b : EFloat}, FinWF c a → FinWF c b → InRange c a → InRange c b →
      (denote (add c a (negate b)) = .fin 0 ↔ val a = val b) := by
    intro a b ha hb ra rb
    have hnb := FinWF_negate hb
    have hvb := negate_val hb
    have rnb : InRange c (negate b) := by unfold InRange; rw [hvb, abs_neg]; exact rb
    rcases lt_trichotomy (val a * val (negate b)) 0 with h | h | h
    · obtain ⟨h1, _, h3, _⟩ := C08_add_opposite_sign ha hnb ra rnb h
      simp only [denote, h1.fin, Ext.fin.injEq]
      rw [h3, hvb]
      constructor <;> intro hh <;> linarith
    · rcases mul_eq_zero.1 h with h0 | h0
      · have z0 := (head_zero_iff ha).2 h0
        unfold add
        rw [addAssign_zero_left ha z0]
        simp only [denote, hnb.fin, Ext.fin.injEq, hvb, h0]
        constructor <;> intro hh <;> linarith
      · rw [(C10_add_zero ha.toWF hnb h0).1]
        simp only [denote, ha.fin, Ext.fin.injEq]
        rw [hvb] at h0
        constructor <;> intro hh <;> linarith
    · obtain ⟨z, _, z2, z3⟩ := C07_add_same_sign ha hnb ra rnb h
      rw [z3]
      constructor
      · intro hh
        split at hh
        · simp only [Ext.fin.injEq] at hh
          rw [hh] at z2; simp at z2
        · cases hh
      · intro hh
        rw [hvb, hh] at h
        nlinarith [mul_self_nonneg (val b)]
  refine ⟨(key hx hx rx rx).2 rfl, ?_, ?_, ?_⟩
  · unfold sub; rw [subAssign_eq hx hx]; exact (key hx hx rx rx).2 rfl
  · unfold sub; rw [subAssign_eq hx hy]; exact key hx hy rx ry
  · unfold sub
    rw [subAssign_eq hy hx]
    unfold subAssign
    rw [negate_negate]
    exact C09_add_comm_partial (FinWF_negate hx) hy

example : denote (sub cfg101 exA exA) = .fin 0 :=
  (C10_sub exA_fin exA_fin (inRange_of_exp exA_fin (by decide)) (inRange_of_exp exA_fin (by decide))).2.1

/-- C12, the cases that hold: a NaN left operand, an infinite left operand, and a zero left operand. -/
theorem C12_add_special_partial {c : Cfg} {x y : EFloat} :
    (x.cls = .nan → add c x y = x) ∧
    (x.cls = .inf → y.cls = .finite ∨ y.cls = .nan ∨ (y.cls = .inf ∧ y.neg = x.neg) → add c x y = x) ∧
    (x.cls = .inf → y.cls = .inf → y.neg ≠ x.neg → (add c x y).cls = .nan) ∧
    (FinWF c x → val x = 0 → add c x y = y) := by
  refine ⟨fun h => ?_, fun h h' => ?_, fun h h' h'' => ?_, fun h h0 => ?_⟩
  · unfold add addAssign EFloat.isnan; simp [h]
  · unfold add addAssign EFloat.isnan EFloat.isinf EFloat.isneg
    rcases h' with h' | h' | ⟨h', h''⟩ <;> simp [h, h']
    intro h3; exact absurd h''.symm h3
  · unfold add addAssign EFloat.isnan EFloat.isinf EFloat.isneg
    simp [h, h', h''.symm, nanV, mkClass]
  · exact addAssign_zero_left h ((head_zero_iff h).2 h0)

/-- C12, the part that fails: an infinite or NaN right operand is ignored by a finite non-zero left
operand, and an infinite left operand absorbs NaN. -/
theorem C12_add_special_refuted :
    add cfg101 (one cfg101) (infV cfg101) = one cfg101 ∧
    add cfg101 (one cfg101) (nanV cfg101) = one cfg101 ∧
    add cfg101 (mkLimbs cfg101 [1] (-8) false) (infV cfg101) = zero cfg101 ∧
    add cfg101 (infV cfg101) (nanV cfg101) = infV cfg101 := by decide +kernel

/-! ### C44 -/

theorem finite_result {c : Cfg} {x y : EFloat} (hx : FinWF c x) (hy : FinWF c y)
    (h : (add c x y).cls = .finite) :
    FinWF c (add c x y) ∧ (0 ≤ val x * val y → IsTrunc c (add c x y) (val x + val y)) ∧
      (val x * val y < 0 → |val y| ≤ |val x| → val (add c x y) = val x + chop (ulp c x) (val y)) ∧
      (val x * val y < 0 → |val x| ≤ |val y| → val (add c x y) = val y + chop (ulp c y) (val x)) := by
  obtain ⟨z, z1, z2, z3, z4, z5, z6, z7, z8⟩ := addAssign_core hx hy
  unfold add at *
  have : addAssign c x y = z := by
    by_cases hk : keep c x y ∨ mag z ≤ mag (valueMax c)
    · exact z7 hk
    · rw [z8 ⟨fun hh => hk (Or.inl hh), not_le.1 fun hh => hk (Or.inr hh)⟩, infSigned_eq] at h
      cases h
  rw [this]
  exact ⟨z1, z2, z3, z4⟩

theorem trunc_nonneg {c : Cfg} {z : EFloat} {q : ℚ} (h : IsTrunc c z q) (hq : 0 ≤ q) : 0 ≤ val z := by
  by_contra hc
  have hs := h.sign
  rcases hq.lt_or_eq with h1 | h1
  · nlinarith
  · have := h.le
    rw [← h1, abs_zero] at this
    have := abs_nonpos_iff.1 this
    linarith

theorem trunc_nonpos {c : Cfg} {z : EFloat} {q : ℚ} (h : IsTrunc c z q) (hq : q ≤ 0) : val z ≤ 0 := by
  by_contra hc
  have hs := h.sign
  rcases hq.lt_or_eq with h1 | h1
  · nlinarith
  · have := h.le
    rw [h1, abs_zero] at this
    have := abs_nonpos_iff.1 this
    linarith

/-- A coarser grid cuts off more. -/
theorem chop_coarser {g q : ℚ} (hg : 0 < g) (hq : 0 ≤ q) (k : Nat) :
    chop (g * ((100000000 ^ k : Nat) : ℚ)) q ≤ chop g q := by
  have hB : (0 : ℚ) < ((100000000 ^ k : Nat) : ℚ) := by exact_mod_cast Bpos k
  have h1 := (chop_le (mul_pos hg hB) hq).1
  unfold chop at h1 ⊢
  rw [if_neg (not_lt.2 hq)] at h1 ⊢
  rw [if_neg (not_lt.2 hq)]
  rw [mul_comm g, ← mul_assoc] at h1 ⊢
  apply mul_le_mul_of_nonneg_right _ hg.le
  have h2 : (((⌊q / (((100000000 ^ k : Nat) : ℚ) * g)⌋ * ((100000000 ^ k : Nat) : ℤ) : ℤ)) : ℚ) ≤ q / g := by
    rw [le_div_iff₀ hg]; push_cast at h1 ⊢; exact h1
  have := Int.le_floor.2 h2
  exact_mod_cast this

theorem add_mono_nonneg {c : Cfg} {x y z : EFloat} (hx : FinWF c x) (hy : FinWF c y) (hz : FinWF c z)
    (fy : (add c x y).cls = .finite) (fz : (add c x z).cls = .finite) (h : val y ≤ val z)
    (hx0 : 0 ≤ val x) : val (add c x y) ≤ val (add c x z) := by
  obtain ⟨a1, a2, a3, a4⟩ := finite_result hx hy fy
  obtain ⟨b1, b2, b3, b4⟩ := finite_result hx hz fz
  generalize add c x y = r at *
  generalize add c x z = s at *
  rcases le_or_gt 0 (val y) with hy0 | hy0
  · have t1 := a2 (mul_nonneg hx0 hy0)
    have t2 := b2 (mul_nonneg hx0 (le_trans hy0 h))
    have := t1.mono t2 (by rw [abs_of_nonneg (by linarith), abs_of_nonneg (by linarith)]; linarith)
    rwa [abs_of_nonneg (trunc_nonneg t1 (by linarith)), abs_of_nonneg (trunc_nonneg t2 (by linarith))] at this
  rcases hx0.lt_or_eq with hx1 | hx1
  swap
  · -- x = 0
    have t1 := a2 (by rw [← hx1, zero_mul])
    have t2 := b2 (by rw [← hx1, zero_mul])
    rw [← hx1, zero_add] at t1 t2
    have e1 : val r = val y := t1.unique (isTrunc_self hy)
    have e2 : val s = val z := t2.unique (isTrunc_self hz)
    rw [e1, e2]; exact h
  have hxy : val x * val y < 0 := mul_neg_of_pos_of_neg hx1 hy0
  have hr : val r ≤ val x := by
    rcases le_total |val y| |val x| with hc | hc
    · rw [a3 hxy hc]
      have h1 := chop_nonneg (ulp_pos c x) (by linarith : 0 ≤ -val y)
      rw [chop_neg] at h1; linarith
    · rw [a4 hxy hc]
      have := (chop_le (ulp_pos c y) hx0).1
      linarith
  rcases le_or_gt 0 (val z) with hz0 | hz0
  · have t2 := b2 (mul_nonneg hx0 hz0)
    have := t2.greatest x hx (by rw [abs_of_nonneg hx0, abs_of_nonneg (by linarith)]; linarith)
    rw [abs_of_nonneg hx0, abs_of_nonneg (trunc_nonneg t2 (by linarith))] at this
    linarith
  have hxz : val x * val z < 0 := mul_neg_of_pos_of_neg hx1 hz0
  have ez : |val z| = -val z := abs_of_neg hz0
  have ey : |val y| = -val y := abs_of_neg hy0
  have ex : |val x| = val x := abs_of_pos hx1
  rw [ez, ex] at b3 b4
  rw [ey, ex] at a3 a4
  rcases le_or_gt (-val y) (val x) with hc | hc
  · rw [a3 hxy hc, b3 hxz (by linarith)]
    have e1 : chop (ulp c x) (val y) = -chop (ulp c x) (-val y) := by rw [chop_neg]; ring
    have e2 : chop (ulp c x) (val z) = -chop (ulp c x) (-val z) := by rw [chop_neg]; ring
    have : chop (ulp c x) (-val z) ≤ chop (ulp c x) (-val y) := by
      unfold chop
      rw [if_neg (by linarith), if_neg (by linarith)]
      apply mul_le_mul_of_nonneg_right _ (ulp_pos c x).le
      exact_mod_cast Int.floor_le_floor (div_le_div_of_nonneg_right (by linarith) (ulp_pos c x).le)
    linarith
  · have er := a4 hxy hc.le
    have hxc := (chop_le (ulp_pos c y) hx0).1
    rcases le_or_gt (-val z) (val x) with hd | hd
    · rw [b3 hxz hd, er]
      have h1 := (chop_le (ulp_pos c x) (by linarith : 0 ≤ -val z)).1
      rw [chop_neg] at h1
      linarith
    · rw [b4 hxz hd.le, er]
      have zy : y.data.headD 0 ≠ 0 := fun h0 => hy0.ne ((head_zero_iff hy).1 h0)
      have zz : z.data.headD 0 ≠ 0 := fun h0 => hz0.ne ((head_zero_iff hz).1 h0)
      have hm : mag z ≤ mag y := by rw [← abs_val, ← abs_val y, ez, ey]; linarith
      have he : z.exp ≤ y.exp := exp_le_of_mag_le hy.toWF hz.toWF hm zz
      obtain ⟨m, hm8⟩ : (8 : ℤ) ∣ y.exp - z.exp := dvd_sub hy.exp8 hz.exp8
      obtain ⟨k, rfl⟩ : ∃ k : Nat, m = k := ⟨m.toNat, by omega⟩
      have hu := ulp_shift (c := c) (x := y) (v := z) (k := k) (by omega)
      have := chop_coarser (ulp_pos c z) hx0 k
      rw [hu]
      linarith

/-- C44. Addition is monotone wherever both results are finite. -/
theorem C44_add_monotone {c : Cfg} {x y z : EFloat} (hx : FinWF c x) (hy : FinWF c y) (hz : FinWF c z)
    (fy : (add c x y).cls = .finite) (fz : (add c x z).cls = .finite) (h : val y ≤ val z) :
    val (add c x y) ≤ val (add c x z) := by
  rcases le_total 0 (val x) with h0 | h0
  · exact add_mono_nonneg hx hy hz fy fz h h0
  · have e1 := addAssign_negate hx hy
    have e2 := addAssign_negate hx hz
    have := add_mono_nonneg (FinWF_negate hx) (FinWF_negate hz) (FinWF_negate hy)
      (by unfold add at *; rw [e2, negate_cls]; exact fz)
      (by unfold add at *; rw [e1, negate_cls]; exact fy)
      (by rw [negate_val hy, negate_val hz]; linarith)
      (by rw [negate_val hx]; linarith)
    have w1 := (finite_result hx hy fy).1
    have w2 := (finite_result hx hz fz).1
    unfold add at *
    rw [e1, e2, negate_val w1, negate_val w2] at this
    linarith

example : val (add cfg101 exA exC) ≤ val (add cfg101 exA exB) := by
  apply C44_add_monotone exA_fin exC_fin exB_fin (by decide +kernel) (by decide +kernel)
  exact ((lt_iff exC_fin exB_fin).1 (by decide +kernel)).le

end EFX.Props
