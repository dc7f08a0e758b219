import Verif.Props.SmallInt
import Verif.Props.Floor
import Verif.Props.Mul
import Verif.Props.Inverse
/-!
# C58: mixed arithmetic with signed integers
-/

namespace EFX.Props
open EFX EFX.Spec

theorem ofSigned_nonneg (c : Cfg) {n : ℤ} (h : 0 ≤ n) (h2 : n < 9223372036854775808) : ofSigned c n = ofUnsigned c n.natAbs := by
  unfold ofSigned ofUnsigned
  have e1 : (n % 18446744073709551616).toNat = n.natAbs := by omega
  rw [decide_eq_false (by omega), if_neg (by omega), e1, w64_id (by omega)]

theorem ofSigned_neg (c : Cfg) {n : ℤ} (h : n < 0) (h1 : -9223372036854775808 ≤ n) : ofSigned c n = negate (ofUnsigned c n.natAbs) := by
  obtain ⟨a1, a2, _⟩ := ofUnsigned_spec c (u := n.natAbs) (by omega)
  have hz : (ofUnsigned c n.natAbs).iszero = false := by
    have h0 : (ofUnsigned c n.natAbs).data.headD 0 ≠ 0 := ne_of_val a1 (by
      rw [a2]; exact_mod_cast (by omega : n.natAbs ≠ 0))
    unfold EFloat.iszero EFloat.front; rw [decide_eq_false h0, Bool.and_false]
  unfold negate
  rw [hz, if_neg (by simp)]
  unfold ofSigned ofUnsigned
  have e1 : ((-(n % 18446744073709551616)) % 18446744073709551616).toNat = n.natAbs := by omega
  rw [decide_eq_true h, if_pos h, e1, w64_id (by omega)]
  simp [fromULL]

theorem natAbs_q {n : ℤ} (h : n < 0) : (n.natAbs : ℚ) = -(n : ℚ) := by
  have : ((n.natAbs : ℤ) : ℚ) = ((-n : ℤ) : ℚ) := by congr 1; omega
  rw [← Int.cast_natCast, this]; push_cast; rfl

theorem natAbs_q' {n : ℤ} (h : 0 ≤ n) : (n.natAbs : ℚ) = (n : ℚ) := by
  have : ((n.natAbs : ℤ) : ℚ) = (n : ℚ) := by congr 1; omega
  rw [← Int.cast_natCast, this]

theorem addSigned_eq {c : Cfg} {x : EFloat} (hx : FinWF c x) {n : ℤ} (h1 : -9223372036854775808 ≤ n)
    (h2 : n < 9223372036854775808) : addSigned c x n = add c x (ofSigned c n) := by
  unfold addSigned add
  by_cases h : n < 0
  · rw [if_pos h, ofSigned_neg c h h1, ← subAssign_eq hx (ofUnsigned_spec c (u := n.natAbs) (by omega)).1]
    rfl
  · rw [if_neg h, ofSigned_nonneg c (by omega) h2]; rfl

/-- C58, sums and differences.  Adding or subtracting a built-in signed integer is adding or subtracting the `e_float` of the
same value; with an integer operand the result is exact. -/
theorem C58_add_sub {c : Cfg} {x : EFloat} (hx : FinWF c x) {n : ℤ} (h1 : -9223372036854775808 < n)
    (h2 : n < 9223372036854775808) :
    val (ofSigned c n) = n ∧
    denote (addSigned c x n) = denote (add c x (ofSigned c n)) ∧
    denote (subSigned c x n) = denote (sub c x (ofSigned c n)) ∧
    (∀ m : ℤ, val x = m → |(m : ℚ)| < (10 : ℚ) ^ (8 * (c.elems : ℤ) - 1) →
      denote (addSigned c x n) = .fin ((m + n : ℤ) : ℚ) ∧ denote (subSigned c x n) = .fin ((m - n : ℤ) : ℚ)) := by
  obtain ⟨a1, a2, _⟩ := ofSigned_spec c h1.le h2
  have e1 := addSigned_eq hx h1.le h2
  have e2 : subSigned c x n = sub c x (ofSigned c n) := by
    unfold subSigned sub
    rw [addSigned_eq hx (by omega) (by omega)]
    unfold add
    rw [subAssign_eq hx a1]
    congr 1
    by_cases h : n < 0
    · rw [ofSigned_neg c h h1.le, negate_negate, ofSigned_nonneg c (by omega) (by omega)]
      congr 1; omega
    · by_cases h0 : n = 0
      · subst h0; rfl
      · rw [ofSigned_neg c (n := -n) (by omega) (by omega), ofSigned_nonneg c (by omega) h2]
        congr 2; omega
  refine ⟨a2, by rw [e1], by rw [e2], fun m hm bm => ?_⟩
  have h7 := elems_ge c
  have hp1 : (10 : ℚ) ^ (8 * (c.elems : ℤ)) = 10 * (10 : ℚ) ^ (8 * (c.elems : ℤ) - 1) := by
    rw [show 8 * (c.elems : ℤ) = (8 * (c.elems : ℤ) - 1) + 1 by ring, p10_add]; norm_num [mul_comm]
  have hn : |(n : ℚ)| < (10 : ℚ) ^ (8 * (c.elems : ℤ) - 1) := by
    have ha : |(n : ℚ)| < (10 : ℚ) ^ (19 : ℤ) := by
      rw [abs_lt]
      constructor
      · have : (-9223372036854775808 : ℚ) < n := by exact_mod_cast h1
        refine lt_trans ?_ this; norm_num
      · have : (n : ℚ) < 9223372036854775808 := by exact_mod_cast h2
        refine lt_trans this ?_; norm_num
    exact lt_of_lt_of_le ha (p10_mono (by omega))
  have hpos := p10_pos (8 * (c.elems : ℤ) - 1)
  generalize (10 : ℚ) ^ (8 * (c.elems : ℤ) - 1) = P at *
  have k := C51_integer_arithmetic hx a1 hm a2
  have k1 := k.1 (by rw [hp1]; linarith) (by rw [hp1]; linarith)
  rw [abs_lt] at bm hn
  refine ⟨?_, ?_⟩
  · rw [e1]; apply k1.1; rw [hp1, abs_lt]; push_cast; constructor <;> linarith
  · rw [e2]; apply k1.2; rw [hp1, abs_lt]; push_cast; constructor <;> linarith

/-- The sign of the result is that of `x` times that of `n`. -/
theorem mulSigned_finite {c : Cfg} {x : EFloat} {n : ℤ} {r : EFloat} (hr : r = mulUnsigned c x n.natAbs) (hf : FinWF c r) :
    ∃ z, FinWF c z ∧ val z = (if n < 0 then -val r else val r) ∧
      denote (mulSigned c x n) = if |val z| ≤ val (valueMax c) then .fin (val z) else .inf (decide (val z < 0)) := by
  refine ⟨if n < 0 then negate r else r, ?_, ?_, ?_⟩
  · split
    · exact FinWF_negate hf
    · exact hf
  · split
    · exact negate_val hf
    · rfl
  have hz : FinWF c (if n < 0 then negate r else r) := by
    split
    · exact FinWF_negate hf
    · exact hf
  unfold mulSigned
  rw [← hr]
  simp only
  generalize (if n < 0 then negate r else r) = z at *
  have hfa : FinWF c (fabs z) ∧ val (fabs z) = |val z| := by
    unfold fabs EFloat.isneg
    by_cases h : z.neg = true
    · rw [if_pos h]
      refine ⟨FinWF_negate hz, ?_⟩
      rw [negate_val hz, abs_of_nonpos]
      unfold val; rw [if_pos h]; linarith [mag_nonneg z]
    · rw [if_neg h]
      refine ⟨hz, ?_⟩
      rw [abs_of_nonneg]
      unfold val; rw [if_neg h]; exact mag_nonneg z
  by_cases hg : |val z| ≤ val (valueMax c)
  · rw [if_neg (by rw [gt_iff hfa.1 (valueMax_WF c).1, hfa.2]; exact not_lt.2 hg), if_pos hg]
    unfold denote; rw [hz.fin]
  · rw [if_pos (by rw [gt_iff hfa.1 (valueMax_WF c).1, hfa.2]; exact not_le.1 hg), if_neg hg, infSigned_eq]
    have hv0 : val z ≠ 0 := by
      intro h0; apply hg; rw [h0, abs_zero, valueMax_val]; exact mag_nonneg _
    have : decide (val z < 0) = z.neg := by
      have hm := mag_nonneg z
      unfold val at hv0 ⊢
      cases h : z.neg
      · rw [h] at hv0; simp; exact hm
      · rw [h] at hv0; simp at hv0 ⊢; exact lt_of_le_of_ne hm (Ne.symm hv0)
    rw [this]; rfl

/-- C58, products.  With fewer than nine decimal digits the product is the exact product cut toward zero, replaced by a
signed infinity above `max`; with larger integers the relative error is that of `C13`. -/
theorem C58_mul {c : Cfg} {x : EFloat} (hx : FinWF c x) (hp : x.prec = c.elems) {n : ℤ} (h1 : -9223372036854775808 < n)
    (h2 : n < 9223372036854775808) :
    (n.natAbs < 100000000 → ∃ z, IsTrunc c z (val x * n) ∧
      denote (mulSigned c x n) = if |val z| ≤ val (valueMax c) then .fin (val z) else .inf (decide (val z < 0))) ∧
    (100000000 ≤ n.natAbs → minExp10 < x.exp → x.exp ≤ maxExp10 - 32 → |val x * n| ≤ val (valueMax c) →
      ∃ q, denote (mulSigned c x n) = .fin q ∧ 0 ≤ q * (val x * n) ∧ |q| ≤ |val x * n| ∧
      RelErr q (val x * n) ((c.elems : ℚ) * (if c.elems < 625 then 1 else 20000) * (10 : ℚ) ^ (8 * (2 - (c.elems : ℤ))))) := by
  refine ⟨fun hn => ?_, fun hn hlo he hr => ?_⟩
  · have ht := (C18_mul_unsigned hx.toWF hp n.natAbs hn).1 hx.fin
    obtain ⟨z, z1, z2, z3⟩ := mulSigned_finite (n := n) rfl ht.fin
    refine ⟨z, ?_, z3⟩
    by_cases h : n < 0
    · rw [if_pos h] at z2
      rw [natAbs_q h] at ht
      have t1 := ht.sign
      have t2 := ht.le
      have t3 := ht.greatest
      refine ⟨z1, by rw [z2]; linarith, by rw [z2, abs_neg]; rwa [mul_neg, abs_neg] at t2, fun w hw hle => ?_⟩
      rw [z2, abs_neg]
      exact t3 w hw (by rw [mul_neg, abs_neg]; exact hle)
    · rw [if_neg h] at z2
      rw [natAbs_q' (by omega)] at ht
      exact ⟨z1, by rw [z2]; exact ht.sign, by rw [z2]; exact ht.le, fun w hw hle => by rw [z2]; exact ht.greatest w hw hle⟩
  · have hb0 : (0 : ℚ) ≤ (c.elems : ℚ) * (if c.elems < 625 then 1 else 20000) * (10 : ℚ) ^ (8 * (2 - (c.elems : ℤ))) := by
      have := p10_pos (8 * (2 - (c.elems : ℤ)))
      have h3 : (0 : ℚ) ≤ (if c.elems < 625 then 1 else 20000) := by split <;> norm_num
      exact mul_nonneg (mul_nonneg (Nat.cast_nonneg _) h3) this.le
    obtain ⟨b1, b2, b3, b4, b5, b6, b7⟩ := ofUnsigned_spec c (u := n.natAbs) (by omega)
    have hni : x.isnan = false := by simp [EFloat.isnan, hx.fin]
    have hii : x.isinf = false := by simp [EFloat.isinf, hx.fin]
    by_cases h0 : val x = 0
    · have hr0 : mulUnsigned c x n.natAbs = zero c := by
        unfold mulUnsigned
        rw [if_neg (by simp [hni, hii]), if_neg (by simp [hii]), if_pos]
        have := (head_zero_iff hx).2 h0
        unfold EFloat.iszero EFloat.front; rw [decide_eq_true hx.fin, decide_eq_true this]; rfl
      obtain ⟨z, z1, z2, z3⟩ := mulSigned_finite (x := x) (n := n) hr0.symm (FinWF_zero c)
      rw [val_zero] at z2
      have z2' : val z = 0 := by rw [z2]; simp
      rw [z2', abs_zero, if_pos (by rw [valueMax_val]; exact mag_nonneg _)] at z3
      refine ⟨0, z3, by rw [h0]; simp, by rw [h0]; simp, by unfold RelErr; rw [h0]; simp⟩
    · have hz := ne_of_val hx h0
      have hru : mulUnsigned c x n.natAbs = mul c x (ofUnsigned c n.natAbs) := by
        unfold mulUnsigned
        have hiz : x.iszero = false := by unfold EFloat.iszero EFloat.front; rw [decide_eq_false hz, Bool.and_false]
        rw [if_neg (by simp [hni, hii]), if_neg (by simp [hii]), if_neg (by
          rw [hiz, decide_eq_false (by omega)]; simp), if_pos (by unfold mask; omega)]
        rfl
      obtain ⟨c1, c2, c3, c4, _⟩ := C13_mul_error_partial hx b1 h0 (by rw [b2]; exact_mod_cast (by omega : n.natAbs ≠ 0)) hp b5
        ⟨by omega, by omega⟩
      obtain ⟨z, z1, z2, z3⟩ := mulSigned_finite (x := x) (n := n) hru.symm c1
      generalize mul c x (ofUnsigned c n.natAbs) = r at *
      rw [b2] at c2 c3 c4
      have hq : val z * (val x * n) = val r * (val x * n.natAbs) ∧ |val z| = |val r| ∧ |val x * n| = |val x * n.natAbs| ∧
          |val z - val x * n| = |val r - val x * n.natAbs| := by
        by_cases h : n < 0
        · rw [if_pos h] at z2
          rw [natAbs_q h, z2]
          refine ⟨by ring, abs_neg _, by rw [mul_neg, abs_neg], ?_⟩
          rw [← abs_neg]; congr 1; ring
        · rw [if_neg h] at z2
          rw [natAbs_q' (by omega), z2]
          exact ⟨rfl, rfl, rfl, rfl⟩
      obtain ⟨q1, q2, q3, q4⟩ := hq
      rw [if_pos (by rw [q2]; exact le_trans c3 (by rw [← q3]; exact hr))] at z3
      refine ⟨_, z3, by rw [q1]; exact c2.le, by rw [q2, q3]; exact c3, ?_⟩
      unfold RelErr at c4 ⊢
      rw [q4, q3]; exact c4

example : FinWF cfg101 exA ∧ exA.prec = cfg101.elems ∧ minExp10 < exA.exp ∧ exA.exp ≤ maxExp10 - 32 := by
  refine ⟨exA_fin, ?_, ?_, ?_⟩ <;> decide +kernel

/-- Multiplying NaN by a signed integer gives `+inf`: the overflow check compares NaN as larger than `max`. -/
theorem C58_nan_refuted : denote (mulSigned cfg101 (nanV cfg101) 2) = .inf false ∧ denote (mulUnsigned cfg101 (nanV cfg101) 2) = .nan := by
  constructor <;> rfl

/-- C58, quotients.  Dividing by a non-zero signed integer keeps the error bounds of `C19` and `C21`, with the sign of the
exact quotient. -/
theorem C58_div {c : Cfg} {x : EFloat} (hx : FinWF c x) (hp : x.prec = c.elems) {n : ℤ} (h1 : -9223372036854775808 < n)
    (h2 : n < 9223372036854775808) (hn0 : n ≠ 0) :
    (n.natAbs < 100000000 →
      FinWF c (divSigned c x n) ∧ (val x ≠ 0 → 0 < val (divSigned c x n) * (val x / n)) ∧
      RelErr (val (divSigned c x n)) (val x / n) ((10 : ℚ) ^ (-((c.digits10 : ℤ) + 1)))) ∧
    (100000000 ≤ n.natAbs → val x ≠ 0 → |val x| ≠ |(n : ℚ)| → minExp10 + 80 ≤ x.exp → x.exp ≤ maxExp10 - 64 →
      FinWF c (divSigned c x n) ∧ 0 < val (divSigned c x n) * (val x / n) ∧
      RelErr (val (divSigned c x n)) (val x / n) (2 * recipBound c)) := by
  have key : ∀ (e : ℚ), FinWF c (divUnsigned c x n.natAbs) → (val x ≠ 0 → 0 < val (divUnsigned c x n.natAbs) * (val x / n.natAbs)) →
      RelErr (val (divUnsigned c x n.natAbs)) (val x / n.natAbs) e →
      FinWF c (divSigned c x n) ∧ (val x ≠ 0 → 0 < val (divSigned c x n) * (val x / n)) ∧
      RelErr (val (divSigned c x n)) (val x / n) e := by
    intro e k1 k2 k3
    unfold divSigned
    simp only
    by_cases h : n < 0
    · rw [if_pos h, negate_val k1]
      rw [natAbs_q h, div_neg] at k2 k3
      refine ⟨FinWF_negate k1, fun hx0 => ?_, ?_⟩
      · have := k2 hx0; linarith
      · unfold RelErr at k3 ⊢
        rw [abs_neg] at k3
        have : -val (divUnsigned c x n.natAbs) - val x / n = -(val (divUnsigned c x n.natAbs) - -(val x / n)) := by ring
        rw [this, abs_neg]; exact k3
    · rw [if_neg h]
      rw [natAbs_q' (by omega)] at k2 k3
      exact ⟨k1, k2, k3⟩
  refine ⟨fun hn => ?_, fun hn hx0 hne he1 he2 => ?_⟩
  · obtain ⟨d1, d2, d3, d4, _⟩ := (C19_div_unsigned_partial hx hp).1 n.natAbs (by omega) hn
    refine key _ d1 (fun hx0 => ?_) d4
    have hq : (0 : ℚ) < n.natAbs := by exact_mod_cast (by omega : 0 < n.natAbs)
    have := d3 hx0
    rw [mul_div_assoc']; exact div_pos this hq
  · obtain ⟨b1, b2, b3, b4, b5, b6, b7⟩ := ofUnsigned_spec c (u := n.natAbs) (by omega)
    have hni : x.isnan = false := by simp [EFloat.isnan, hx.fin]
    have hii : x.isinf = false := by simp [EFloat.isinf, hx.fin]
    have hz := ne_of_val hx hx0
    have hiz : x.iszero = false := by unfold EFloat.iszero EFloat.front; rw [decide_eq_false hz, Bool.and_false]
    have hdu : divUnsigned c x n.natAbs = div c x (ofUnsigned c n.natAbs) := by
      unfold divUnsigned
      rw [hni, hii, hiz, if_neg (by simp), if_neg (by simp), if_neg (by omega), if_neg (by simp), if_pos (by unfold mask; omega)]
      rfl
    have hab : |(n : ℚ)| = (n.natAbs : ℚ) := by rw [Nat.cast_natAbs]; push_cast; rfl
    have hm : maxExp10 = 2147483616 := rfl
    have hm2 : minExp10 = -2147483616 := rfl
    obtain ⟨e1, e2, e3, _⟩ := C21_quotient_partial hx b1 hx0 (by rw [b2]; exact_mod_cast (by omega : n.natAbs ≠ 0))
      (by rw [b2, Nat.abs_cast, ← hab]; exact hne) hp b5 ⟨by omega, by omega⟩ ⟨by omega, by omega⟩
    rw [← hdu, b2] at e2 e3
    rw [← hdu] at e1
    obtain ⟨f1, f2, f3⟩ := key _ e1 (fun _ => e2) e3
    exact ⟨f1, f2 hx0, f3⟩

example : FinWF cfg101 exB ∧ exB.prec = cfg101.elems ∧ val exB ≠ 0 ∧ minExp10 + 80 ≤ exB.exp ∧ exB.exp ≤ maxExp10 - 64 := by
  refine ⟨exB_fin, ?_, ?_, ?_, ?_⟩ <;> decide +kernel

end EFX.Props
