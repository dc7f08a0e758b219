import Verif.Lemmas.AddMain

/-! # `operator+=` on finite operands: one statement covering all cases -/

namespace EFX
open Spec

/-- The smaller operand is dropped without any range check. -/
def keep (c : Cfg) (x v : EFloat) : Prop := x.data.headD 0 = 0 ∨ v.data.headD 0 = 0 ∨ far c x v

theorem keep_comm {c : Cfg} {x v : EFloat} : keep c x v ↔ keep c v x := by
  unfold keep
  have := far_comm (c := c) (x := x) (v := v)
  tauto

theorem val_mul_nonneg_iff {c : Cfg} {x v : EFloat} (hx : FinWF c x) (hv : FinWF c v)
    (zx : x.data.headD 0 ≠ 0) (zv : v.data.headD 0 ≠ 0) : 0 < val x * val v ↔ x.neg = v.neg := by
  have h1 := mag_pos hx.toWF zx
  have h2 := mag_pos hv.toWF zv
  have h3 := mul_pos h1 h2
  unfold val
  cases x.neg <;> cases v.neg <;> simp <;> nlinarith

theorem val_mul_neg_iff {c : Cfg} {x v : EFloat} (hx : FinWF c x) (hv : FinWF c v)
    (zx : x.data.headD 0 ≠ 0) (zv : v.data.headD 0 ≠ 0) : val x * val v < 0 ↔ x.neg ≠ v.neg := by
  have h1 := mag_pos hx.toWF zx
  have h2 := mag_pos hv.toWF zv
  have h3 := mul_pos h1 h2
  unfold val
  cases x.neg <;> cases v.neg <;> simp <;> nlinarith

theorem sgnQ_ne {a b : Bool} (h : a ≠ b) : sgnQ b = - sgnQ a := by
  cases a <;> cases b <;> simp_all [sgnQ]

theorem chop_val (c : Cfg) (x v : EFloat) : chop (ulp c x) (val v) = sgnQ v.neg * chop (ulp c x) (mag v) := by
  rw [val_eq, chop_sgn]

theorem addAssign_core {c : Cfg} {x v : EFloat} (hx : FinWF c x) (hv : FinWF c v) :
    ∃ z, FinWF c z ∧ (0 ≤ val x * val v → IsTrunc c z (val x + val v)) ∧
      (val x * val v < 0 → |val v| ≤ |val x| → val z = val x + chop (ulp c x) (val v)) ∧
      (val x * val v < 0 → |val x| ≤ |val v| → val z = val v + chop (ulp c v) (val x)) ∧
      (keep c x v → mag z ≤ max (mag x) (mag v)) ∧
      (val x * val v < 0 → mag z ≤ max (mag x) (mag v)) ∧
      ((keep c x v ∨ mag z ≤ mag (valueMax c)) → addAssign c x v = z) ∧
      ((¬ keep c x v ∧ mag (valueMax c) < mag z) → addAssign c x v = infSigned c z.neg) := by
  by_cases zx : x.data.headD 0 = 0
  · have hk : keep c x v := Or.inl zx
    have h0 := (head_zero_iff hx).1 zx
    refine ⟨v, hv, fun _ => ?_, fun h => ?_, fun h => ?_, fun _ => le_max_right _ _, fun _ => le_max_right _ _,
      fun _ => addAssign_zero_left hx zx, fun h => absurd hk h.1⟩
    · rw [h0, zero_add]; exact isTrunc_self hv
    · rw [h0] at h; simp at h
    · rw [h0] at h; simp at h
  by_cases zv : v.data.headD 0 = 0
  · have hk : keep c x v := Or.inr (Or.inl zv)
    have h0 := (head_zero_iff hv).1 zv
    refine ⟨x, hx, fun _ => ?_, fun h => ?_, fun h => ?_, fun _ => le_max_left _ _, fun _ => le_max_left _ _,
      fun _ => addAssign_zero_right hv zv zx, fun h => absurd hk h.1⟩
    · rw [h0, add_zero]; exact isTrunc_self hx
    · rw [h0] at h; simp at h
    · rw [h0] at h; simp at h
  have hkf : keep c x v ↔ far c x v := by
    constructor
    · rintro (h | h | h)
      · exact absurd h zx
      · exact absurd h zv
      · exact h
    · exact fun h => Or.inr (Or.inr h)
  by_cases hs : x.neg = v.neg
  · obtain ⟨y, y1, y2, y3, y4, y5, y6, y7⟩ := addAssign_same hx hv zx zv hs
    have hpos := (val_mul_nonneg_iff hx hv zx zv).2 hs
    refine ⟨y, y1, fun _ => ?_, fun h => absurd h (not_lt.2 hpos.le),
      fun h => absurd h (not_lt.2 hpos.le), ?_, fun h => absurd h (not_lt.2 hpos.le), ?_, ?_⟩
    · have hsum : val x + val v = sgnQ x.neg * (mag x + mag v) := by
        rw [val_eq, val_eq v, hs]; ring
      have habs : |val x + val v| = mag x + mag v := by
        have := mag_nonneg x; have := mag_nonneg v
        rw [hsum, abs_mul, abs_of_nonneg (by linarith : 0 ≤ mag x + mag v)]
        cases x.neg <;> simp [sgnQ]
      refine isTrunc_of_chop y1 y2 (by rw [habs]; exact y4) ?_
      rw [hsum, val_eq, y3, mul_mul_mul_comm, sgnQ_mul_self, one_mul]
      exact mul_nonneg (mag_nonneg _) (add_nonneg (mag_nonneg _) (mag_nonneg _))
    · intro hk
      rcases y5 with ⟨_, h | h⟩ | h
      · rw [h]; exact le_max_left _ _
      · rw [h]; exact le_max_right _ _
      · exact absurd (hkf.1 hk) h
    · rw [hkf]; exact y6
    · rw [hkf, y3]; exact y7
  · obtain ⟨y, y1, y2, y3, y4, y5, y6, y7⟩ := addAssign_diff hx hv zx zv hs
    have hneg := (val_mul_neg_iff hx hv zx zv).2 hs
    have hle : mag y ≤ max (mag x) (mag v) := by
      rcases le_or_gt (mag v) (mag x) with h | h
      · rw [y2 h]
        have := chop_nonneg (ulp_pos c x) (mag_nonneg v)
        exact le_trans (by linarith) (le_max_left _ _)
      · rw [(y4 h).1]
        have := chop_nonneg (ulp_pos c v) (mag_nonneg x)
        exact le_trans (by linarith) (le_max_right _ _)
    have heq : mag x = mag v → val y = 0 ∧ val x + chop (ulp c x) (val v) = 0 ∧
        val v + chop (ulp c v) (val x) = 0 := by
      intro h
      have hexp : x.exp = v.exp := by
        have h1 := exp_le_of_mag_le hx.toWF hv.toWF h.ge zv
        have h2 := exp_le_of_mag_le hv.toWF hx.toWF h.le zx
        omega
      have hu : ulp c x = ulp c v := by unfold ulp; rw [hexp]
      refine ⟨by rw [(y7 h).1]; exact val_zero c, ?_, ?_⟩
      · rw [chop_val, hu, chop_mag hv.toWF, val_eq, sgnQ_ne hs, h]; ring
      · rw [chop_val, ← hu, chop_mag hx.toWF, val_eq, sgnQ_ne hs, h]; ring
    refine ⟨y, y1, fun h => absurd hneg (not_lt.2 h), ?_, ?_, fun _ => hle, fun _ => hle, ?_, ?_⟩
    · intro _ h
      rw [abs_val, abs_val] at h
      rcases lt_or_eq_of_le h with h' | h'
      · rw [val_eq, (y3 h').1, y2 h, chop_val, val_eq x, sgnQ_ne hs]; ring
      · rw [(heq h'.symm).1, (heq h'.symm).2.1]
    · intro _ h
      rw [abs_val, abs_val] at h
      rcases lt_or_eq_of_le h with h' | h'
      · rw [val_eq, (y4 h').2.1, (y4 h').1, chop_val, val_eq v, sgnQ_ne hs]; ring
      · rw [(heq h').1, (heq h').2.2]
    · rw [hkf]; exact y5
    · rw [hkf]; exact y6

/-! ### odd symmetry -/

/-- Flip of the sign flag. -/
def flip (x : EFloat) : EFloat := { x with neg := !x.neg }

theorem negate_of_ne {x : EFloat} (h : x.data.headD 0 ≠ 0) : negate x = flip x := by
  have : x.iszero = false := by
    unfold EFloat.iszero EFloat.front; rw [decide_eq_false h, Bool.and_false]
  unfold negate flip; rw [this]; simp

theorem negate_of_zero {c : Cfg} {x : EFloat} (hx : FinWF c x) (h : x.data.headD 0 = 0) :
    negate x = x := by
  unfold negate; rw [if_pos ((iszero_iff hx.fin).2 h)]

theorem addSame_flip (x v : EFloat) (m : Int) : addSame (flip x) (flip v) m = flip (addSame x v m) := by
  unfold addSame flip; simp only; split <;> split <;> rfl

theorem iszero_justify_flip (y : EFloat) :
    (justify (flip y)).iszero = (justify y).iszero ∧
    ((justify y).iszero = false → y.cls = .finite → justify (flip y) = flip (justify y)) := by
  unfold justify flip EFloat.iszero EFloat.front
  simp only
  split
  · split
    · refine ⟨rfl, ?_⟩
      rename_i h1 h2
      intro h hf
      exfalso
      have := (firstNonzero_eq_length.1 h2)
      have h0 : y.data.headD 0 = 0 := by
        cases hd : y.data with
        | nil => rfl
        | cons a l => rw [hd] at this; simpa using this a (by simp)
      rw [hf, decide_eq_true h0] at h; simp at h
    · exact ⟨rfl, fun _ _ => rfl⟩
  · exact ⟨rfl, fun _ _ => rfl⟩

theorem fabs_flip {x : EFloat} (hx : x.iszero = false) : fabs (flip x) = fabs x := by
  have h2 : (flip x).iszero = false := hx
  unfold fabs EFloat.isneg
  unfold negate
  rw [hx, h2]
  unfold flip
  cases hn : x.neg <;> simp
  cases x; simp_all

theorem addFinish_flip {c : Cfg} {x : EFloat} (hx : x.iszero = false) :
    addFinish c (flip x) = negate (addFinish c x) := by
  have h2 : (flip x).iszero = false := hx
  have hh : x.cls = .finite → x.data.headD 0 ≠ 0 := by
    intro h; exact (iszero_false h).1 hx
  unfold addFinish
  rw [hx, h2, fabs_flip hx]
  simp only [Bool.false_eq_true, if_false]
  have he : (flip x).exp = x.exp := rfl
  rw [he]
  split
  · rw [infSigned_eq, infSigned_eq]; simp [negate, flip, EFloat.iszero]
  · unfold negate; rw [hx]; simp [flip]

theorem addFinish_zero {c : Cfg} {x : EFloat} (hx : x.iszero = true) : addFinish c x = zero c := by
  unfold addFinish; rw [if_pos hx]

theorem negate_zero (c : Cfg) : negate (zero c) = zero c := by
  have : (zero c).iszero = true := (iszero_iff (FinWF_zero c).fin).2 ((head_zero_iff (FinWF_zero c)).2 (val_zero c))
  unfold negate; rw [if_pos this]

theorem addDiff_cls (x v : EFloat) (m : Int) : (addDiff x v m).cls = x.cls := by
  unfold addDiff justify; simp only; repeat' split
  all_goals rfl

theorem addFinish_justify_flip {c : Cfg} {y : EFloat} (hf : y.cls = .finite) :
    addFinish c (justify (flip y)) = negate (addFinish c (justify y)) := by
  obtain ⟨h1, h2⟩ := iszero_justify_flip y
  cases hz : (justify y).iszero
  · rw [h2 hz hf, addFinish_flip hz]
  · rw [addFinish_zero (by rw [h1]; exact hz), addFinish_zero hz, negate_zero]

theorem addFinish_addDiff_flip {c : Cfg} {x v : EFloat} {m : Int} (hf : x.cls = .finite) :
    addFinish c (addDiff (flip x) (flip v) m) = negate (addFinish c (addDiff x v m)) := by
  unfold addDiff
  have e1 : (flip x).data = x.data := rfl
  have e2 : (flip v).data = v.data := rfl
  simp only [e1, e2]
  split
  · exact addFinish_justify_flip (y := { x with data := (subLoop x.data (shiftDown m.toNat v.data)).1 }) hf
  · exact addFinish_justify_flip (y := { x with data := (subLoop v.data (if m ≠ 0 then shiftDown (-m).toNat x.data else x.data)).1, exp := v.exp, neg := v.neg }) hf

theorem FinWF_flip {c : Cfg} {x : EFloat} (hx : FinWF c x) (h : x.data.headD 0 ≠ 0) : FinWF c (flip x) := by
  rw [← negate_of_ne h]; exact FinWF_negate hx

theorem addAssign_negate {c : Cfg} {x v : EFloat} (hx : FinWF c x) (hv : FinWF c v) :
    addAssign c (negate x) (negate v) = negate (addAssign c x v) := by
  by_cases zx : x.data.headD 0 = 0
  · rw [addAssign_zero_left hx zx,
      addAssign_zero_left (FinWF_negate hx) (by rw [negate_data]; exact zx)]
  by_cases zv : v.data.headD 0 = 0
  · rw [addAssign_zero_right hv zv zx, addAssign_zero_right (FinWF_negate hv)
      (by rw [negate_data]; exact zv) (by rw [negate_data]; exact zx)]
  rw [addAssign_unfold hx hv zx zv, negate_of_ne zx, negate_of_ne zv,
    addAssign_unfold (FinWF_flip hx zx) (FinWF_flip hv zv) zx zv]
  have e1 : (flip x).exp = x.exp := rfl
  have e2 : (flip v).exp = v.exp := rfl
  rw [e1, e2]
  split
  · exact (negate_of_ne zx).symm
  · split
    · exact (negate_of_ne zv).symm
    · by_cases hs : x.neg = v.neg
      · have hs' : (flip x).neg = (flip v).neg := by unfold flip; simp [hs]
        rw [if_pos hs, if_pos hs', addSame_flip]
        obtain ⟨a1, a2, _⟩ := addSame_spec hx hv zx zv
        exact addFinish_flip ((iszero_false a1.fin).2 a2)
      · have hs' : ¬ (flip x).neg = (flip v).neg := by unfold flip; simpa using hs
        rw [if_neg hs, if_neg hs']
        exact addFinish_addDiff_flip hx.fin

/-- Subtraction is addition of the opposite. -/
theorem subAssign_eq {c : Cfg} {x v : EFloat} (hx : FinWF c x) (hv : FinWF c v) :
    subAssign c x v = addAssign c x (negate v) := by
  unfold subAssign
  rw [← addAssign_negate (FinWF_negate hx) hv, negate_negate]

end EFX
