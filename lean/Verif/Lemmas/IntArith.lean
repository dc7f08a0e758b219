import Verif.Lemmas.Parts
import Verif.Props.Parts
/-! Sums and differences of integers. -/

namespace EFX
open Spec Props

theorem chop_of_int {g : ℚ} (hg : 0 < g) (k : ℤ) : chop g (k * g) = k * g := by
  unfold chop
  split
  · have : -(↑k * g) / g = ((-k : ℤ) : ℚ) := by push_cast; field_simp
    rw [this, Int.floor_intCast]; push_cast; ring
  · rw [mul_div_cancel_right₀ _ hg.ne', Int.floor_intCast]

theorem max_ge (c : Cfg) : (10 : ℚ) ^ maxExp10 ≤ mag (valueMax c) := by
  have := mag_ge (valueMax_WF c).1.toWF (valueMax_WF c).2
  rwa [valueMax_exp] at this

/-- Same-sign sums below `10^maxExp10` do not overflow. -/
theorem add_trunc {c : Cfg} {x v : EFloat} (hx : FinWF c x) (hv : FinWF c v) (hs : 0 ≤ val x * val v)
    (hb : |val x + val v| ≤ (10 : ℚ) ^ maxExp10) : IsTrunc c (addAssign c x v) (val x + val v) := by
  obtain ⟨z, z1, z2, z3, z4, z5, z6, z7, z8⟩ := addAssign_core hx hv
  have ht := z2 hs
  rw [z7 (Or.inr (by
    rw [← abs_val]; exact le_trans ht.le (le_trans hb (max_ge c))))]
  exact ht

/-- Opposite-sign sums of numbers below `10^maxExp10` do not overflow. -/
theorem add_opp {c : Cfg} {x v : EFloat} (hx : FinWF c x) (hv : FinWF c v) (hs : val x * val v < 0)
    (hbx : |val x| ≤ (10 : ℚ) ^ maxExp10) (hbv : |val v| ≤ (10 : ℚ) ^ maxExp10) :
    FinWF c (addAssign c x v) ∧
    (|val v| ≤ |val x| → val (addAssign c x v) = val x + chop (ulp c x) (val v)) ∧
    (|val x| ≤ |val v| → val (addAssign c x v) = val v + chop (ulp c v) (val x)) := by
  obtain ⟨z, z1, z2, z3, z4, z5, z6, z7, z8⟩ := addAssign_core hx hv
  rw [z7 (Or.inr (le_trans (z6 hs) (max_le
    (by rw [← abs_val]; exact le_trans hbx (max_ge c)) (by rw [← abs_val]; exact le_trans hbv (max_ge c)))))]
  exact ⟨z1, z3 hs, z4 hs⟩

theorem pow_le_max (c : Cfg) {e : ℤ} (h : e ≤ 8 * (c.elems : ℤ)) : (10 : ℚ) ^ e ≤ (10 : ℚ) ^ maxExp10 := by
  apply p10_mono
  have := elems_le c
  have h2 : maxExp10 = 2147483616 := rfl
  rw [h2]; omega

/-- Numbers below `10^(8N)` have a last limb of weight at most one. -/
theorem ulp_int {c : Cfg} {x : EFloat} (hx : FinWF c x) (h0 : val x ≠ 0) (hb : |val x| < (10 : ℚ) ^ (8 * (c.elems : ℤ))) :
    ∃ k : ℕ, ulp c x * ((100000000 ^ k : ℕ) : ℚ) = 1 := by
  have hz : x.data.headD 0 ≠ 0 := fun h => h0 ((head_zero_iff hx).1 h)
  rw [abs_val] at hb
  have h1 := mag_ge hx.toWF hz
  have he : x.exp < 8 * (c.elems : ℤ) := by
    by_contra hc
    have := p10_mono (not_lt.1 hc)
    linarith
  have h8 := hx.exp8
  refine ⟨(((8 * ((c.elems : ℤ) - 1) - x.exp)) / 8).toNat, ?_⟩
  unfold ulp
  rw [← p10_base, ← p10_add]
  rw [show x.exp - 8 * ((c.elems : ℤ) - 1) + 8 * ((((8 * ((c.elems : ℤ) - 1) - x.exp)) / 8).toNat : ℤ) = 0 by omega]
  simp

theorem chop_ulp_int {c : Cfg} {x : EFloat} (hx : FinWF c x) (h0 : val x ≠ 0)
    (hb : |val x| < (10 : ℚ) ^ (8 * (c.elems : ℤ))) (n : ℤ) : chop (ulp c x) (n : ℚ) = n := by
  obtain ⟨k, hk⟩ := ulp_int hx h0 hb
  have : (n : ℚ) = ((n * ((100000000 ^ k : ℕ) : ℤ) : ℤ) : ℚ) * ulp c x := by
    push_cast at hk ⊢
    rw [mul_assoc, mul_comm _ (ulp c x), hk, mul_one]
  rw [this]; exact chop_of_int (ulp_pos c x) _

theorem int_repr (c : Cfg) (n : ℤ) (h : |(n : ℚ)| < (10 : ℚ) ^ (8 * (c.elems : ℤ))) : ∃ w, FinWF c w ∧ val w = n := by
  have hn : n.natAbs < 100000000 ^ c.elems := by
    rw [p10_base] at h
    have h2 : ((|n| : ℤ) : ℚ) < ((100000000 ^ c.elems : ℕ) : ℚ) := by push_cast at h ⊢; exact h
    rw [Int.abs_eq_natAbs, Int.cast_natCast] at h2
    exact_mod_cast h2
  obtain ⟨w, hw, hv⟩ := nat_repr c n.natAbs hn
  by_cases h0 : 0 ≤ n
  · refine ⟨w, hw, ?_⟩
    rw [hv, ← Int.cast_natCast, Int.natAbs_of_nonneg h0]
  · refine ⟨negate w, FinWF_negate hw, ?_⟩
    rw [negate_val hw, hv, ← Int.cast_natCast, Int.ofNat_natAbs_of_nonpos (by omega)]; push_cast; ring

/-- The sum of two integers is exact while everything stays below `10^(8N)`. -/
theorem add_int {c : Cfg} {x v : EFloat} (hx : FinWF c x) (hv : FinWF c v) {m n : ℤ} (hm : val x = m) (hn : val v = n)
    (bm : |(m : ℚ)| < (10 : ℚ) ^ (8 * (c.elems : ℤ))) (bn : |(n : ℚ)| < (10 : ℚ) ^ (8 * (c.elems : ℤ)))
    (bs : |((m + n : ℤ) : ℚ)| < (10 : ℚ) ^ (8 * (c.elems : ℤ))) :
    FinWF c (addAssign c x v) ∧ val (addAssign c x v) = ((m + n : ℤ) : ℚ) := by
  have hM := pow_le_max c (le_refl (8 * (c.elems : ℤ)))
  rcases le_or_gt 0 (val x * val v) with hs | hs
  · have ht := add_trunc hx hv hs (by rw [hm, hn, ← Int.cast_add]; exact le_trans bs.le hM)
    refine ⟨ht.fin, ?_⟩
    obtain ⟨w, hw, hwv⟩ := int_repr c (m + n) bs
    rw [hm, hn, ← Int.cast_add, ← hwv] at ht
    rw [ht.unique (isTrunc_self hw), hwv]
  · obtain ⟨a1, a2, a3⟩ := add_opp hx hv hs (by rw [hm]; exact le_trans bm.le hM) (by rw [hn]; exact le_trans bn.le hM)
    refine ⟨a1, ?_⟩
    have hx0 : val x ≠ 0 := by intro h; rw [h] at hs; simp at hs
    have hv0 : val v ≠ 0 := by intro h; rw [h] at hs; simp at hs
    rcases le_total |val v| |val x| with h | h
    · rw [a2 h, hn, chop_ulp_int hx hx0 (by rw [hm]; exact bm), hm]; push_cast; rfl
    · rw [a3 h, hm, chop_ulp_int hv hv0 (by rw [hn]; exact bn), hn]; push_cast; ring

theorem sub_int {c : Cfg} {x v : EFloat} (hx : FinWF c x) (hv : FinWF c v) {m n : ℤ} (hm : val x = m) (hn : val v = n)
    (bm : |(m : ℚ)| < (10 : ℚ) ^ (8 * (c.elems : ℤ))) (bn : |(n : ℚ)| < (10 : ℚ) ^ (8 * (c.elems : ℤ)))
    (bs : |((m - n : ℤ) : ℚ)| < (10 : ℚ) ^ (8 * (c.elems : ℤ))) :
    FinWF c (subAssign c x v) ∧ val (subAssign c x v) = ((m - n : ℤ) : ℚ) := by
  rw [subAssign_eq hx hv]
  have := add_int hx (FinWF_negate hv) hm (n := -n) (by rw [negate_val hv, hn]; push_cast; rfl) bm
    (by push_cast; rw [abs_neg]; exact bn) (by rw [← sub_eq_add_neg]; exact bs)
  rwa [← sub_eq_add_neg] at this

/-- Limbs of an integer below `10^(8a)` beyond the first `a` are zero. -/
theorem zeroFrom_int {c : Cfg} {x : EFloat} (hx : FinWF c x) {m : ℤ} (hm : val x = m) {a : ℕ}
    (bm : |(m : ℚ)| < (10 : ℚ) ^ (8 * (a : ℤ))) : ZeroFrom a x.data ∧ (m ≠ 0 → 0 ≤ x.exp ∧ x.exp < 8 * (a : ℤ)) := by
  have allz : (∀ d ∈ x.data, d = 0) → ∀ i, x.data.getD i 0 = 0 := by
    intro h i
    by_cases hi : i < x.data.length
    · rw [List.getD_eq_getElem _ _ hi]; exact h _ (List.getElem_mem hi)
    · rw [List.getD_eq_default _ _ (by omega)]
  by_cases h0 : x.data.headD 0 = 0
  · refine ⟨fun i _ => allz (hx.norm hx.fin h0).1 i, fun hm0 => ?_⟩
    exfalso; apply hm0
    have := (head_zero_iff hx).1 h0
    rw [hm] at this; exact_mod_cast this
  · have h1 := mag_ge hx.toWF h0
    have h2 := mag_lt hx.toWF
    rw [← hm, abs_val] at bm
    have he : x.exp < 8 * (a : ℤ) := by
      by_contra hc
      have := p10_mono (not_lt.1 hc)
      linarith
    have hint : isint c x = true := (isint_iff hx).2 ⟨m, hm⟩
    have h8 := hx.exp8
    unfold isint at hint
    rw [if_neg (by rw [hx.fin]; simp), if_neg (by rw [(iszero_false hx.fin).2 h0]; simp)] at hint
    by_cases hn : x.exp < 0
    · rw [if_pos hn] at hint; simp at hint
    · rw [if_neg hn] at hint
      refine ⟨?_, fun _ => ⟨not_lt.1 hn, he⟩⟩
      obtain ⟨k, hk, hkd⟩ := exp_div hx.toWF (not_lt.1 hn)
      rw [hkd] at hint
      intro i hi
      by_cases hN : k + 1 ≥ c.elems
      · rw [List.getD_eq_default _ _ (by rw [hx.len]; omega)]
      · simp only at hint
        rw [if_neg hN, List.all_eq_true] at hint
        by_cases hil : i < x.data.length
        · rw [List.getD_eq_getElem _ _ hil]
          have : x.data[i] ∈ x.data.drop (k + 1) := by
            rw [List.mem_drop_iff_getElem]
            exact ⟨i - (k + 1), by omega, by congr 1; omega⟩
          simpa using hint _ this
        · rw [List.getD_eq_default _ _ (by omega)]

end EFX
