import Verif.Lemmas.Add
import Mathlib.Tactic.IntervalCases

/-! # `operator+=` on finite operands: whole-operation results -/

namespace EFX
open Spec

/-! ### `value_max` and the final checks -/

theorem digits10_bounds (c : Cfg) : 30 ≤ c.digits10 ∧ c.digits10 ≤ 1073741824 := by
  unfold Cfg.digits10
  split
  · norm_num
  · split
    · norm_num
    · constructor <;> omega

theorem mkLimbs_WF {c : Cfg} {l : List Nat} {e : Int} {b : Bool} (ho : OK l) (he : (8 : Int) ∣ e)
    (hh : l.headD 0 ≠ 0) : FinWF c (mkLimbs c l e b) ∧ (mkLimbs c l e b).data.headD 0 ≠ 0 := by
  have hN := elems_ge c
  have hd : (mkLimbs c l e b).data.headD 0 ≠ 0 := by
    unfold mkLimbs
    cases l with
    | nil => simp at hh
    | cons a l =>
      obtain ⟨n, hn⟩ : ∃ n, c.elems = n + 1 := ⟨c.elems - 1, by omega⟩
      simpa [hn] using hh
  refine ⟨⟨⟨?_, ?_, he, ?_, ?_, ?_⟩, rfl⟩, hd⟩
  · unfold mkLimbs; simp; omega
  · exact OK.append (ho.take _) (OK.replicate _)
  · show 2 ≤ c.elems; omega
  · exact le_refl _
  · intro _ h0; exact absurd h0 hd

theorem valueMax_WF (c : Cfg) : FinWF c (valueMax c) ∧ (valueMax c).data.headD 0 ≠ 0 := by
  unfold valueMax
  apply mkLimbs_WF
  · apply OK.cons (by norm_num)
    apply OK.append
    · intro d hd; rw [List.eq_of_mem_replicate hd]; norm_num [mask]
    · split
      · apply OK.cons _ OK.nil
        have h : c.maxDigits10 % 8 < 8 := Nat.mod_lt _ (by norm_num)
        generalize c.maxDigits10 % 8 = r at h
        interval_cases r <;> norm_num
      · exact OK.nil
  · norm_num [maxExp10]
  · simp

theorem mkLimbs_exp (c : Cfg) (l : List Nat) (e : Int) (b : Bool) : (mkLimbs c l e b).exp = e := rfl

theorem valueMax_exp (c : Cfg) : (valueMax c).exp = maxExp10 := by
  unfold valueMax; exact mkLimbs_exp _ _ _ _

theorem valueMax_neg (c : Cfg) : (valueMax c).neg = false := by simp only [valueMax, mkLimbs]

theorem valueMax_val (c : Cfg) : val (valueMax c) = mag (valueMax c) := by
  unfold val; rw [valueMax_neg, if_neg (by simp)]

theorem gt_iff {c : Cfg} {x y : EFloat} (hx : FinWF c x) (hy : FinWF c y) :
    gt x y = true ↔ val y < val x := by
  unfold gt
  rw [cmp_finite hx hy, decide_eq_true_iff]
  rw [gt_iff_lt, ← gt_iff_lt, signQ_pos_iff]
  constructor <;> intro h <;> linarith

theorem lt_iff {c : Cfg} {x y : EFloat} (hx : FinWF c x) (hy : FinWF c y) :
    lt x y = true ↔ val x < val y := by
  unfold lt
  rw [cmp_finite hx hy, decide_eq_true_iff, signQ_neg_iff]
  constructor <;> intro h <;> linarith

theorem addFinish_cases {c : Cfg} {y : EFloat} (hy : FinWF c y) :
    (y.data.headD 0 = 0 ∧ addFinish c y = zero c) ∨
    (y.data.headD 0 ≠ 0 ∧ addFinish c y = y ∧ mag y ≤ mag (valueMax c)) ∨
    (y.data.headD 0 ≠ 0 ∧ addFinish c y = infSigned c y.neg ∧ mag (valueMax c) < mag y) := by
  unfold addFinish
  by_cases hz : y.iszero = true
  · left; exact ⟨(iszero_iff hy.fin).1 hz, by rw [if_pos hz]⟩
  · right
    have hh : y.data.headD 0 ≠ 0 := fun h => hz ((iszero_iff hy.fin).2 h)
    rw [if_neg hz]
    have hg := gt_iff (FinWF_fabs hy) (valueMax_WF c).1
    rw [fabs_val hy, abs_val, valueMax_val] at hg
    by_cases h : y.exp ≥ maxExp10 ∧ gt (fabs y) (valueMax c) = true
    · right; rw [if_pos h]; exact ⟨hh, rfl, hg.1 h.2⟩
    · left
      rw [if_neg h]
      refine ⟨hh, rfl, ?_⟩
      by_cases he : y.exp ≥ maxExp10
      · by_contra hc
        exact h ⟨he, hg.2 (not_le.1 hc)⟩
      · exact (mag_lt_of_exp_lt hy.toWF (valueMax_WF c).1.toWF (valueMax_WF c).2
          (by rw [valueMax_exp]; omega)).le

/-! ### the whole of `operator+=` on finite operands -/

theorem chop_lt_ulp {g q : ℚ} (hg : 0 < g) (hq : 0 ≤ q) (h : q < g) : chop g q = 0 := by
  unfold chop
  rw [if_neg (not_lt.2 hq)]
  have : ⌊q / g⌋ = 0 := by
    rw [Int.floor_eq_iff]
    constructor
    · simp; positivity
    · simp; rw [div_lt_one hg]; exact h
  rw [this]; simp

theorem negligible {c : Cfg} {x v : EFloat} (hx : WF c x) (hv : WF c v)
    (h : x.exp - v.exp > ((c.elems : Int) - 1) * 8) : mag v < ulp c x := by
  refine lt_of_lt_of_le (mag_lt hv) ?_
  unfold ulp
  apply p10_mono
  have h1 := hx.exp8
  have h2 := hv.exp8
  omega

theorem chop_mag {c : Cfg} {x : EFloat} (hx : WF c x) : chop (ulp c x) (mag x) = mag x := by
  have := chop_nat (ulp_pos c x) (lv x.data) 1 (by norm_num)
  rw [mag_eq hx]
  simpa using this

theorem chop_mag_add {c : Cfg} {x : EFloat} (hx : WF c x) {q : ℚ} (hq : 0 ≤ q) (h : q < ulp c x) :
    chop (ulp c x) (mag x + q) = mag x := by
  have hp := ulp_pos c x
  have hm := mag_nonneg x
  unfold chop
  rw [if_neg (by linarith)]
  have : ⌊(mag x + q) / ulp c x⌋ = (lv x.data : ℤ) := by
    rw [Int.floor_eq_iff, mag_eq hx]
    constructor
    · rw [le_div_iff₀ hp]; push_cast; linarith
    · rw [div_lt_iff₀ hp]; push_cast; linarith
  rw [this, mag_eq hx]; push_cast; rfl

theorem addAssign_unfold {c : Cfg} {x v : EFloat} (hx : FinWF c x) (hv : FinWF c v)
    (zx : x.data.headD 0 ≠ 0) (zv : v.data.headD 0 ≠ 0) :
    addAssign c x v =
      if x.exp - v.exp > ((c.elems : Int) - 1) * 8 then x
      else if x.exp - v.exp < -(((c.elems : Int) - 1) * 8) then v
      else addFinish c (if x.neg = v.neg then addSame x v (Int.tdiv (x.exp - v.exp) 8)
        else addDiff x v (Int.tdiv (x.exp - v.exp) 8)) := by
  have h1 : x.isnan = false := by simp [EFloat.isnan, hx.fin]
  have h2 : x.isinf = false := by simp [EFloat.isinf, hx.fin]
  have h3 : x.iszero = false := (iszero_false hx.fin).2 zx
  have h4 : v.iszero = false := (iszero_false hv.fin).2 zv
  unfold addAssign
  simp only [h1, h2, h3, h4, Bool.false_eq_true, if_false, false_or]

/-- Exponents too far apart for the smaller operand to matter (`max_delta_exp`, efx.cpp 449). -/
def far (c : Cfg) (x v : EFloat) : Prop :=
  x.exp - v.exp > ((c.elems : Int) - 1) * 8 ∨ x.exp - v.exp < -(((c.elems : Int) - 1) * 8)

theorem far_comm {c : Cfg} {x v : EFloat} : far c x v ↔ far c v x := by
  unfold far; constructor <;> (intro h; omega)

theorem addAssign_same {c : Cfg} {x v : EFloat} (hx : FinWF c x) (hv : FinWF c v)
    (zx : x.data.headD 0 ≠ 0) (zv : v.data.headD 0 ≠ 0) (hs : x.neg = v.neg) :
    ∃ y, FinWF c y ∧ y.data.headD 0 ≠ 0 ∧ y.neg = x.neg ∧
      mag y = chop (ulp c y) (mag x + mag v) ∧
      ((far c x v ∧ (y = x ∨ y = v)) ∨ (¬ far c x v)) ∧
      ((far c x v ∨ mag y ≤ mag (valueMax c)) → addAssign c x v = y) ∧
      ((¬ far c x v ∧ mag (valueMax c) < mag y) → addAssign c x v = infSigned c x.neg) := by
  rw [addAssign_unfold hx hv zx zv]
  by_cases h1 : x.exp - v.exp > ((c.elems : Int) - 1) * 8
  · rw [if_pos h1]
    have hf : far c x v := Or.inl h1
    exact ⟨x, hx, zx, rfl,
      (chop_mag_add hx.toWF (mag_nonneg v) (negligible hx.toWF hv.toWF h1)).symm,
      Or.inl ⟨hf, Or.inl rfl⟩, fun _ => rfl, fun h => absurd hf h.1⟩
  · rw [if_neg h1]
    by_cases h2 : x.exp - v.exp < -(((c.elems : Int) - 1) * 8)
    · rw [if_pos h2]
      have hf : far c x v := Or.inr h2
      refine ⟨v, hv, zv, hs.symm, ?_, Or.inl ⟨hf, Or.inr rfl⟩, fun _ => rfl, fun h => absurd hf h.1⟩
      rw [add_comm]
      exact (chop_mag_add hv.toWF (mag_nonneg x)
        (negligible hv.toWF hx.toWF (by omega))).symm
    · rw [if_neg h2, if_pos hs]
      have hf : ¬ far c x v := by rintro (h | h) <;> contradiction
      obtain ⟨a1, a2, a3, a4, a5⟩ := addSame_spec hx hv zx zv
      refine ⟨_, a1, a2, a3, a5, Or.inr hf, ?_, ?_⟩
      · rintro (h | h)
        · exact absurd h hf
        · rcases addFinish_cases a1 with ⟨h', _⟩ | ⟨_, h', _⟩ | ⟨_, _, h'⟩
          · exact absurd h' a2
          · exact h'
          · exact absurd h (not_le.2 h')
      · rintro ⟨_, h⟩
        rcases addFinish_cases a1 with ⟨h', _⟩ | ⟨_, _, h'⟩ | ⟨_, h', _⟩
        · exact absurd h' a2
        · exact absurd h (not_lt.2 h')
        · rw [h', a3]

theorem exp_le_of_mag_le {c : Cfg} {x v : EFloat} (hx : WF c x) (hv : WF c v)
    (h : mag v ≤ mag x) (zv : v.data.headD 0 ≠ 0) : v.exp ≤ x.exp := by
  by_contra hc
  have := mag_lt_of_exp_lt hx hv zv (by omega)
  linarith

theorem lv_le_iff {c : Cfg} {x v : EFloat} (hx : WF c x) (hv : WF c v) (he : x.exp = v.exp) :
    lv v.data ≤ lv x.data ↔ mag v ≤ mag x := by
  have hu : ulp c x = ulp c v := by unfold ulp; rw [he]
  rw [mag_eq hx, mag_eq hv, hu, mul_le_mul_iff_left₀ (ulp_pos c v)]
  norm_cast

/-- Different signs: which operand is larger decides; the smaller one is cut at the last limb of
the larger one. -/
theorem addDiff_spec {c : Cfg} {x v : EFloat} (hx : FinWF c x) (hv : FinWF c v)
    (zx : x.data.headD 0 ≠ 0) (zv : v.data.headD 0 ≠ 0) :
    FinWF c (addDiff x v (Int.tdiv (x.exp - v.exp) 8)) ∧
    (addDiff x v (Int.tdiv (x.exp - v.exp) 8)).prec = x.prec ∧
    (mag v ≤ mag x →
      mag (addDiff x v (Int.tdiv (x.exp - v.exp) 8)) = mag x - chop (ulp c x) (mag v)) ∧
    (mag v < mag x → (addDiff x v (Int.tdiv (x.exp - v.exp) 8)).neg = x.neg ∧
        (addDiff x v (Int.tdiv (x.exp - v.exp) 8)).data.headD 0 ≠ 0) ∧
    (mag x < mag v →
      mag (addDiff x v (Int.tdiv (x.exp - v.exp) 8)) = mag v - chop (ulp c v) (mag x) ∧
      (addDiff x v (Int.tdiv (x.exp - v.exp) 8)).neg = v.neg ∧
        (addDiff x v (Int.tdiv (x.exp - v.exp) 8)).data.headD 0 ≠ 0) := by
  obtain ⟨m, hm⟩ : ∃ m : Int, x.exp - v.exp = 8 * m := dvd_sub hx.exp8 hv.exp8
  have hofs : Int.tdiv (x.exp - v.exp) 8 = m := by
    rw [hm, Int.mul_tdiv_cancel_left _ (by norm_num)]
  rw [hofs]
  have hcmp := cmpData_spec (by rw [hx.len, hv.len]) hx.ok hv.ok
  by_cases hb : m > 0 ∨ (m = 0 ∧ cmpData x.data v.data > 0)
  · -- `x` is the larger operand
    obtain ⟨k, rfl⟩ : ∃ k : Nat, m = k := ⟨m.toNat, by omega⟩
    have hk : x.exp = v.exp + 8 * (k : Int) := by omega
    have hstrict : lv v.data / 100000000 ^ k < lv x.data := by
      rcases hb with h | ⟨h, h'⟩
      · have h1 := headroom hv.toWF (k := k) (by omega)
        have h2 := lv_head zx
        rw [hx.len] at h2
        omega
      · rw [hcmp] at h'
        have : k = 0 := by omega
        subst this
        simp only [pow_zero, Nat.div_one]
        by_contra hc
        split at h'
        · norm_num at h'
        · split at h'
          · norm_num at h'
          · omega
    have hbig : 0 < k ∨ (k = 0 ∧ lv v.data ≤ lv x.data) := by
      rcases Nat.eq_zero_or_pos k with h | h
      · subst h; right; simp at hstrict; exact ⟨rfl, hstrict.le⟩
      · exact Or.inl h
    have hlt : mag v < mag x := by
      rcases hbig with h | ⟨h, h'⟩
      · exact mag_lt_of_exp_lt hv.toWF hx.toWF zx (by omega)
      · subst h
        simp at hstrict
        have he : x.exp = v.exp := by simpa using hk
        have := (lv_le_iff (c := c) hv.toWF hx.toWF he.symm).not
        exact lt_of_not_ge (this.1 (by omega))
    obtain ⟨s1, s2, s3, s4, s5⟩ := subCore_spec (x := x) hx hv hx.prec_lo hx.prec_hi hx.fin zx hk hbig _ rfl
    have hr : addDiff x v (k : Int) = justify { x with data := (subLoop x.data (shiftDown k v.data)).1, exp := x.exp, neg := x.neg } := by
      unfold addDiff; rw [if_pos hb]; simp
    rw [hr]
    refine ⟨s1, s2, fun _ => s3, fun _ => s5 hstrict, fun h => ?_⟩
    exact absurd h (not_lt.2 hlt.le)
  · -- `v` is at least as large
    obtain ⟨k, rfl⟩ : ∃ k : Nat, m = -(k : Int) := ⟨(-m).toNat, by omega⟩
    have hk : v.exp = x.exp + 8 * (k : Int) := by omega
    have hbig : 0 < k ∨ (k = 0 ∧ lv x.data ≤ lv v.data) := by
      rcases Nat.eq_zero_or_pos k with h | h
      · subst h; right
        refine ⟨rfl, ?_⟩
        by_contra hc
        apply hb
        right
        refine ⟨rfl, ?_⟩
        rw [hcmp, if_neg (by omega), if_neg (by omega)]; norm_num
      · exact Or.inl h
    have hle : mag x ≤ mag v := by
      rcases hbig with h | ⟨h, h'⟩
      · exact (mag_lt_of_exp_lt hx.toWF hv.toWF zv (by omega)).le
      · subst h
        have he : x.exp = v.exp := by simpa using hk.symm
        exact (lv_le_iff (c := c) hv.toWF hx.toWF he.symm).1 h'
    have hstrict : mag x < mag v → lv x.data / 100000000 ^ k < lv v.data := by
      intro hlt
      rcases hbig with h | ⟨h, h'⟩
      · have h1 := headroom hx.toWF h
        have h2 := lv_head zv
        rw [hv.len] at h2
        omega
      · subst h
        have he : x.exp = v.exp := by simpa using hk.symm
        have := (lv_le_iff (c := c) hx.toWF hv.toWF he).not.2 (not_le.2 hlt)
        simp; omega
    obtain ⟨s1, s2, s3, s4, s5⟩ := subCore_spec (x := x) hv hx hx.prec_lo hx.prec_hi hx.fin zv hk hbig _ rfl
    have hr : addDiff x v (-(k : Int)) = justify { x with data := (subLoop v.data (shiftDown k x.data)).1, exp := v.exp, neg := v.neg } := by
      unfold addDiff; rw [if_neg hb]
      by_cases h0 : k = 0
      · subst h0; simp
      · simp [h0]
    rw [hr]
    refine ⟨s1, s2, fun h => ?_, fun h => absurd h (not_lt.2 hle), fun h => ⟨s3, s5 (hstrict h)⟩⟩
    have heq : mag x = mag v := le_antisymm hle h
    have hexp : x.exp = v.exp := by
      have h1 := exp_le_of_mag_le hx.toWF hv.toWF h zv
      have h2 := exp_le_of_mag_le hv.toWF hx.toWF hle zx
      omega
    have hu : ulp c x = ulp c v := by unfold ulp; rw [hexp]
    rw [s3, heq, hu, ← heq, ← hu, chop_mag hx.toWF]

theorem addAssign_diff {c : Cfg} {x v : EFloat} (hx : FinWF c x) (hv : FinWF c v)
    (zx : x.data.headD 0 ≠ 0) (zv : v.data.headD 0 ≠ 0) (hs : x.neg ≠ v.neg) :
    ∃ y, FinWF c y ∧
      (mag v ≤ mag x → mag y = mag x - chop (ulp c x) (mag v)) ∧
      (mag v < mag x → y.neg = x.neg ∧ y.data.headD 0 ≠ 0) ∧
      (mag x < mag v → mag y = mag v - chop (ulp c v) (mag x) ∧ y.neg = v.neg ∧ y.data.headD 0 ≠ 0) ∧
      ((far c x v ∨ mag y ≤ mag (valueMax c)) → addAssign c x v = y) ∧
      ((¬ far c x v ∧ mag (valueMax c) < mag y) → addAssign c x v = infSigned c y.neg) ∧
      (mag x = mag v → y = zero c ∧ addAssign c x v = zero c) := by
  rw [addAssign_unfold hx hv zx zv]
  by_cases h1 : x.exp - v.exp > ((c.elems : Int) - 1) * 8
  · have hn := negligible hx.toWF hv.toWF h1
    have hNp : ((c.elems : Int) - 1) * 8 ≥ 0 := by have := elems_ge c; omega
    have hlt : mag v < mag x := mag_lt_of_exp_lt hv.toWF hx.toWF zx (by omega)
    have hf : far c x v := Or.inl h1
    rw [if_pos h1]
    refine ⟨x, hx, fun _ => ?_, fun _ => ⟨rfl, zx⟩, fun h => absurd h (not_lt.2 hlt.le),
      fun _ => rfl, fun h => absurd hf h.1, fun h => absurd h hlt.ne'⟩
    rw [chop_lt_ulp (ulp_pos c x) (mag_nonneg v) hn, sub_zero]
  · rw [if_neg h1]
    by_cases h2 : x.exp - v.exp < -(((c.elems : Int) - 1) * 8)
    · have hn := negligible hv.toWF hx.toWF (by omega : v.exp - x.exp > ((c.elems : Int) - 1) * 8)
      have hNp : ((c.elems : Int) - 1) * 8 ≥ 0 := by have := elems_ge c; omega
      have hlt : mag x < mag v := mag_lt_of_exp_lt hx.toWF hv.toWF zv (by omega)
      have hf : far c x v := Or.inr h2
      rw [if_pos h2]
      refine ⟨v, hv, fun h => absurd h (not_le.2 hlt), fun h => absurd h (not_lt.2 hlt.le),
        fun _ => ⟨?_, rfl, zv⟩, fun _ => rfl, fun h => absurd hf h.1, fun h => absurd h hlt.ne⟩
      rw [chop_lt_ulp (ulp_pos c v) (mag_nonneg x) hn, sub_zero]
    · rw [if_neg h2, if_neg hs]
      have hf : ¬ far c x v := by rintro (h | h) <;> contradiction
      obtain ⟨a1, a2, a3, a4, a5⟩ := addDiff_spec hx hv zx zv
      generalize hy : addDiff x v (Int.tdiv (x.exp - v.exp) 8) = y at *
      have heqz : mag x = mag v → y.data.headD 0 = 0 := by
        intro h
        by_contra hne
        have hp := mag_pos a1.toWF hne
        have hexp : x.exp = v.exp := by
          have h1 := exp_le_of_mag_le hx.toWF hv.toWF h.ge zv
          have h2 := exp_le_of_mag_le hv.toWF hx.toWF h.le zx
          omega
        have hu : ulp c x = ulp c v := by unfold ulp; rw [hexp]
        rw [a3 h.ge, h, hu, chop_mag hv.toWF] at hp
        simp at hp
      have hM := mag_nonneg (valueMax c)
      rcases addFinish_cases a1 with ⟨h, h'⟩ | ⟨h, h', h''⟩ | ⟨h, h', h''⟩
      · rw [h']
        have hz1 : mag (zero c) = 0 := by rw [← abs_val, val_zero, abs_zero]
        have hz0 : mag (zero c) = mag y := by
          rw [mag_zero_of_iszero a1 h, hz1]
        refine ⟨zero c, FinWF_zero c, fun hh => by rw [hz0]; exact a3 hh,
          fun hh => absurd h (a4 hh).2, fun hh => absurd h (a5 hh).2.2, fun _ => rfl,
          fun hh => ?_, fun _ => ⟨rfl, rfl⟩⟩
        rw [hz1] at hh; exact absurd hh.2 (not_lt.2 hM)
      · rw [h']
        exact ⟨y, a1, a3, a4, a5, fun _ => rfl, fun hh => absurd hh.2 (not_lt.2 h''),
          fun hh => absurd (heqz hh) h⟩
      · rw [h']
        refine ⟨y, a1, a3, a4, a5, ?_, fun _ => rfl, fun hh => absurd (heqz hh) h⟩
        rintro (hh | hh)
        · exact absurd hh hf
        · exact absurd hh (not_le.2 h'')

/-! ### zero operands -/

theorem addAssign_zero_left {c : Cfg} {x v : EFloat} (hx : FinWF c x) (zx : x.data.headD 0 = 0) :
    addAssign c x v = v := by
  have h1 : x.isnan = false := by simp [EFloat.isnan, hx.fin]
  have h2 : x.isinf = false := by simp [EFloat.isinf, hx.fin]
  have h3 : x.iszero = true := (iszero_iff hx.fin).2 zx
  unfold addAssign
  simp only [h1, h2, h3, Bool.false_eq_true, if_false, if_true]

theorem addAssign_zero_right {c : Cfg} {x v : EFloat} (hv : FinWF c v) (zv : v.data.headD 0 = 0)
    (hx : x.data.headD 0 ≠ 0) : addAssign c x v = x := by
  have h4 : v.iszero = true := (iszero_iff hv.fin).2 zv
  have h5 : v.isinf = false := by simp [EFloat.isinf, hv.fin]
  have h3 : x.iszero = false := by
    unfold EFloat.iszero EFloat.front; rw [decide_eq_false hx, Bool.and_false]
  unfold addAssign
  simp only [h3, h4, h5, Bool.false_eq_true, Bool.false_and, if_false, true_or, if_true, ite_self]

theorem head_zero_iff {c : Cfg} {x : EFloat} (hx : FinWF c x) : x.data.headD 0 = 0 ↔ val x = 0 := by
  constructor
  · intro h
    have := mag_zero_of_iszero hx h
    rw [← abs_val] at this; exact abs_eq_zero.1 this
  · intro h
    by_contra hne
    have := mag_pos hx.toWF hne
    rw [← abs_val, h] at this; simp at this

/-- Truncation to the format: the chopped object is the greatest one not above. -/
theorem isTrunc_of_chop {c : Cfg} {z : EFloat} {q : ℚ} (hz : FinWF c z) (hh : z.data.headD 0 ≠ 0)
    (hm : mag z = chop (ulp c z) |q|) (hs : 0 ≤ val z * q) : IsTrunc c z q := by
  have hp := ulp_pos c z
  have hc := chop_le hp (abs_nonneg q)
  rw [← hm] at hc
  refine ⟨hz, hs, by rw [abs_val]; exact hc.1, ?_⟩
  intro w hw hle
  rw [abs_val] at hle ⊢
  rw [abs_val]
  by_contra hlt
  rw [not_le] at hlt
  have zw : w.data.headD 0 ≠ 0 := by
    intro h0
    have := mag_zero_of_iszero hw h0
    have h1 := mag_nonneg z
    linarith
  have he1 : z.exp ≤ w.exp := exp_le_of_mag_le hw.toWF hz.toWF hlt.le hh
  -- both are multiples of the last-limb weight of `z`, and they differ by less than one
  have h8 : (8 : ℤ) ∣ w.exp - z.exp := dvd_sub hw.exp8 hz.exp8
  obtain ⟨m, hm8⟩ := h8
  obtain ⟨k, rfl⟩ : ∃ k : Nat, m = k := ⟨m.toNat, by omega⟩
  have hu := ulp_shift (c := c) (x := w) (v := z) (k := k) (by omega)
  rw [mag_eq hz.toWF] at hlt hc
  rw [mag_eq hw.toWF, hu] at hlt hle
  have h1 : (lv z.data : ℚ) < lv w.data * ((100000000 ^ k : Nat) : ℚ) := by
    have : (lv z.data : ℚ) * ulp c z < (lv w.data * ((100000000 ^ k : Nat) : ℚ)) * ulp c z := by
      linarith
    exact lt_of_mul_lt_mul_right this hp.le
  have h2 : (lv w.data * ((100000000 ^ k : Nat) : ℚ)) < lv z.data + 1 := by
    have : (lv w.data * ((100000000 ^ k : Nat) : ℚ)) * ulp c z < (lv z.data + 1) * ulp c z := by
      linarith [hc.2]
    exact lt_of_mul_lt_mul_right this hp.le
  have h1' : lv z.data < lv w.data * 100000000 ^ k := by exact_mod_cast h1
  have h2' : lv w.data * 100000000 ^ k < lv z.data + 1 := by exact_mod_cast h2
  omega

theorem isTrunc_self {c : Cfg} {z : EFloat} (hz : FinWF c z) : IsTrunc c z (val z) :=
  ⟨hz, mul_self_nonneg _, le_refl _, fun _ _ h => h⟩

theorem Spec.IsTrunc.unique {c : Cfg} {z z' : EFloat} {q : ℚ} (h : IsTrunc c z q) (h' : IsTrunc c z' q) :
    val z = val z' := by
  have h1 := h.greatest z' h'.fin h'.le
  have h2 := h'.greatest z h.fin h.le
  have habs : |val z| = |val z'| := le_antisymm h2 h1
  rcases lt_trichotomy q 0 with hq | hq | hq
  · have a := h.sign; have b := h'.sign
    have a' : val z ≤ 0 := by by_contra hc; nlinarith
    have b' : val z' ≤ 0 := by by_contra hc; nlinarith
    rw [abs_of_nonpos a', abs_of_nonpos b'] at habs; linarith
  · have a := h.le; have b := h'.le
    rw [hq, abs_zero] at a b
    rw [abs_nonpos_iff.1 a, abs_nonpos_iff.1 b]
  · have a := h.sign; have b := h'.sign
    have a' : 0 ≤ val z := by by_contra hc; nlinarith
    have b' : 0 ≤ val z' := by by_contra hc; nlinarith
    rw [abs_of_nonneg a', abs_of_nonneg b'] at habs; exact habs

theorem Spec.IsTrunc.mono {c : Cfg} {z z' : EFloat} {q q' : ℚ} (h : IsTrunc c z q) (h' : IsTrunc c z' q')
    (hq : |q| ≤ |q'|) : |val z| ≤ |val z'| := h'.greatest z h.fin (le_trans h.le hq)


/-! ### validity of the result for operands of every class -/

theorem addFinish_WF {c : Cfg} {y : EFloat} (hl : y.data.length = c.elems) (ho : OK y.data)
    (he : (8 : Int) ∣ y.exp) (hp : 2 ≤ y.prec) (hp2 : y.prec ≤ c.elems) (hf : y.cls = .finite) :
    WF c (addFinish c y) := by
  unfold addFinish
  by_cases hz : y.iszero = true
  · rw [if_pos hz]; exact (FinWF_zero c).toWF
  · rw [if_neg hz]
    split
    · exact WF_infSigned c _
    · refine ⟨hl, ho, he, hp, hp2, ?_⟩
      intro _ h0; exact absurd ((iszero_iff hf).2 h0) hz

theorem addAssign_WF {c : Cfg} {x v : EFloat} (hx : WF c x) (hv : WF c v) :
    WF c (addAssign c x v) := by
  have hN := elems_ge c
  unfold addAssign
  by_cases h1 : x.isnan = true
  · rw [if_pos h1]; exact hx
  rw [if_neg h1]
  by_cases h2 : x.isinf = true
  · rw [if_pos h2]
    split
    · exact WF_mkClass c _
    · exact hx
  rw [if_neg h2]
  by_cases h3 : x.iszero = true
  · rw [if_pos h3]; exact hv
  rw [if_neg h3]
  simp only
  by_cases h4 : v.iszero = true ∨ x.exp - v.exp > ((c.elems : Int) - 1) * 8
  · rw [if_pos h4]; exact hx
  rw [if_neg h4]
  by_cases h5 : x.exp - v.exp < -(((c.elems : Int) - 1) * 8)
  · rw [if_pos h5]; exact hv
  rw [if_neg h5]
  have hf : x.cls = .finite := by
    simp only [EFloat.isnan, EFloat.isinf, decide_eq_true_eq] at h1 h2
    revert h1 h2; cases x.cls <;> simp
  obtain ⟨m, hm⟩ : ∃ m : Int, x.exp - v.exp = 8 * m := dvd_sub hx.exp8 hv.exp8
  have hofs : Int.tdiv (x.exp - v.exp) 8 = m := by
    rw [hm, Int.mul_tdiv_cancel_left _ (by norm_num)]
  rw [hofs]
  have key : ∀ y : EFloat, y.data.length = c.elems → OK y.data → (8 : Int) ∣ y.exp →
      y.prec = x.prec → y.cls = x.cls → WF c (addFinish c y) := by
    intro y a1 a2 a3 a4 a5
    exact addFinish_WF a1 a2 a3 (by rw [a4]; exact hx.prec_lo) (by rw [a4]; exact hx.prec_hi)
      (by rw [a5]; exact hf)
  split
  · -- same sign
    unfold addSame
    simp only
    have hr : ∃ r : List Nat × Nat, r = (if m ≥ 0 then addLoop x.data (shiftDown m.toNat v.data)
        else addLoop (shiftDown (-m).toNat x.data) v.data) ∧ r.1.length = c.elems ∧ OK r.1 ∧ r.2 ≤ 1 := by
      refine ⟨_, rfl, ?_⟩
      split
      · obtain ⟨r1, r2, r3, _⟩ := addLoop_res (k := m.toNat) hx.len hv.len hx.ok hv.ok
        exact ⟨r1, r2, r3⟩
      · obtain ⟨r1, r2, r3, _⟩ := addLoop_res' (k := (-m).toNat) hx.len hv.len hx.ok hv.ok
        exact ⟨r1, r2, r3⟩
    obtain ⟨r, hr, r1, r2, r3⟩ := hr
    rw [← hr]
    have he : (8 : Int) ∣ (if m ≥ 0 then x.exp else v.exp) := by
      split
      · exact hx.exp8
      · exact hv.exp8
    split
    · apply key
      · simp [r1]; omega
      · exact OK.cons (by omega) r2.dropLast
      · exact dvd_add he (by norm_num)
      · rfl
      · rfl
    · apply key
      · exact r1
      · exact r2
      · exact he
      · rfl
      · rfl
  · -- different signs
    have kj : ∀ y : EFloat, y.data.length = c.elems → OK y.data → (8 : Int) ∣ y.exp →
        y.prec = x.prec → y.cls = x.cls → WF c (addFinish c (justify y)) := by
      intro y a1 a2 a3 a4 a5
      obtain ⟨j1, j2, _, _⟩ := justify_spec (c := c) a1 a2 a3 (by rw [a4]; exact hx.prec_lo)
        (by rw [a4]; exact hx.prec_hi) (by rw [a5]; exact hf)
      exact addFinish_WF j1.len j1.ok j1.exp8 j1.prec_lo j1.prec_hi j1.fin
    unfold addDiff
    split
    · obtain ⟨s1, s2, _, _⟩ := subLoop_spec (u := x.data) (v := shiftDown m.toNat v.data)
        (by simp [hx.len, hv.len]) hx.ok (shiftDown_OK _ hv.ok)
      apply kj
      · simp only [s1, hx.len]
      · exact s2
      · exact hx.exp8
      · rfl
      · rfl
    · simp only
      have hxd : (if m ≠ 0 then shiftDown (-m).toNat x.data else x.data).length = c.elems ∧
          OK (if m ≠ 0 then shiftDown (-m).toNat x.data else x.data) := by
        split
        · exact ⟨by simp [hx.len], shiftDown_OK _ hx.ok⟩
        · exact ⟨hx.len, hx.ok⟩
      obtain ⟨s1, s2, _, _⟩ := subLoop_spec (u := v.data)
        (v := if m ≠ 0 then shiftDown (-m).toNat x.data else x.data)
        (by rw [hxd.1, hv.len]) hv.ok hxd.2
      apply kj
      · simp only [s1, hv.len]
      · exact s2
      · exact hv.exp8
      · rfl
      · rfl

theorem subAssign_WF {c : Cfg} {x v : EFloat} (hx : WF c x) (hv : WF c v) :
    WF c (subAssign c x v) := WF_negate (addAssign_WF (WF_negate hx) hv)

theorem subAssignSelf_WF {c : Cfg} {x : EFloat} (hx : WF c x) :
    WF c (subAssignSelf c x) := WF_negate (addAssign_WF (WF_negate hx) (WF_negate hx))

end EFX
