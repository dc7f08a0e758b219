import Verif.Model.Core
import Verif.Lemmas.Limbs
import Mathlib.Tactic.FieldSimp
/-! Helper lemmas: values of well-formed objects, chopping, constants. -/

namespace EFX
open Spec

theorem ten_ne : (10 : ℚ) ≠ 0 := by norm_num
theorem ten_pos : (0 : ℚ) < 10 := by norm_num
theorem p10_pos (e : ℤ) : (0 : ℚ) < (10 : ℚ) ^ e := zpow_pos ten_pos e
theorem p10_add (a b : ℤ) : (10 : ℚ) ^ (a + b) = (10 : ℚ) ^ a * (10 : ℚ) ^ b := zpow_add₀ ten_ne a b
theorem p10_mono {a b : ℤ} (h : a ≤ b) : (10 : ℚ) ^ a ≤ (10 : ℚ) ^ b :=
  zpow_le_zpow_right₀ (by norm_num) h
theorem p10_base (k : Nat) : (10 : ℚ) ^ (8 * (k : ℤ)) = ((100000000 ^ k : Nat) : ℚ) := by
  rw [zpow_mul]; push_cast; norm_num

theorem Bpos (k : Nat) : 0 < 100000000 ^ k := Nat.pos_of_ne_zero (by positivity)

theorem elems_ge (c : Cfg) : 7 ≤ c.elems := by
  have h : 30 ≤ c.digits10 := by
    unfold Cfg.digits10
    split
    · exact le_refl _
    · split
      · norm_num
      · omega
  unfold Cfg.elems Cfg.maxDigits10
  split <;> omega

theorem Spec.WF.ok {c : Cfg} {x : EFloat} (h : WF c x) : OK x.data := h.limb
theorem Spec.WF.ne_nil {c : Cfg} {x : EFloat} (h : WF c x) : x.data ≠ [] := by
  intro h0
  have := h.len
  rw [h0] at this
  have := elems_ge c
  simp at *
  omega

theorem ulp_pos (c : Cfg) (x : EFloat) : 0 < ulp c x := p10_pos _

theorem mag_eq {c : Cfg} {x : EFloat} (h : WF c x) : mag x = (lv x.data : ℚ) * ulp c x := by
  unfold mag ulp
  rw [digitsValue_eq, h.len]

theorem mag_nonneg (x : EFloat) : 0 ≤ mag x := by
  unfold mag
  rw [digitsValue_eq]
  exact mul_nonneg (by positivity) (p10_pos _).le

theorem iszero_iff {x : EFloat} (h : x.cls = .finite) : x.iszero = true ↔ x.data.headD 0 = 0 := by
  simp [EFloat.iszero, EFloat.front, h]

theorem iszero_false {x : EFloat} (h : x.cls = .finite) : x.iszero = false ↔ x.data.headD 0 ≠ 0 := by
  simp [EFloat.iszero, EFloat.front, h]

theorem mag_zero_of_iszero {c : Cfg} {x : EFloat} (h : FinWF c x) (hz : x.data.headD 0 = 0) :
    mag x = 0 := by
  rw [mag_eq h.toWF, lv_eq_zero.2 (h.norm h.fin hz).1]; simp

theorem mag_lt {c : Cfg} {x : EFloat} (h : WF c x) : mag x < (10 : ℚ) ^ (x.exp + 8) := by
  rw [mag_eq h]
  have h1 : (lv x.data : ℚ) < ((100000000 ^ c.elems : Nat) : ℚ) := by
    have := lv_lt h.ok
    rw [h.len] at this
    exact_mod_cast this
  rw [← p10_base] at h1
  have h2 : (10 : ℚ) ^ (x.exp + 8) = (10 : ℚ) ^ (8 * (c.elems : ℤ)) * ulp c x := by
    unfold ulp; rw [← p10_add]; congr 1; ring
  rw [h2]
  exact mul_lt_mul_of_pos_right h1 (ulp_pos c x)

theorem mag_ge {c : Cfg} {x : EFloat} (h : WF c x) (hz : x.data.headD 0 ≠ 0) :
    (10 : ℚ) ^ x.exp ≤ mag x := by
  rw [mag_eq h]
  have h0 := elems_ge c
  have h1 : ((100000000 ^ (c.elems - 1) : Nat) : ℚ) ≤ (lv x.data : ℚ) := by
    have := lv_head hz
    rw [h.len] at this
    exact_mod_cast this
  rw [← p10_base] at h1
  have h2 : (10 : ℚ) ^ x.exp = (10 : ℚ) ^ (8 * ((c.elems - 1 : Nat) : ℤ)) * ulp c x := by
    unfold ulp; rw [← p10_add]; congr 1; push_cast [Nat.cast_sub (by omega : 1 ≤ c.elems)]; ring
  rw [h2]
  exact mul_le_mul_of_nonneg_right h1 (ulp_pos c x).le

theorem mag_pos {c : Cfg} {x : EFloat} (h : WF c x) (hz : x.data.headD 0 ≠ 0) : 0 < mag x :=
  lt_of_lt_of_le (p10_pos _) (mag_ge h hz)

theorem val_eq (x : EFloat) : val x = sgnQ x.neg * mag x := by
  unfold val sgnQ; split <;> simp

theorem sgnQ_mul_self (b : Bool) : sgnQ b * sgnQ b = 1 := by cases b <;> simp [sgnQ]

theorem abs_val (x : EFloat) : |val x| = mag x := by
  unfold val
  have := mag_nonneg x
  split
  · rw [abs_neg, abs_of_nonneg this]
  · rw [abs_of_nonneg this]

/-! ### chopping -/

theorem chop_nat {g : ℚ} (hg : 0 < g) (S M : Nat) (hM : 0 < M) :
    chop (g * M) (S * g) = ((S / M : Nat) : ℚ) * (g * M) := by
  have h0 : ¬ ((S : ℚ) * g < 0) := not_lt.2 (by positivity)
  unfold chop
  rw [if_neg h0]
  have e : (S : ℚ) * g / (g * M) = (S : ℚ) / M := by field_simp
  rw [e]
  congr 1
  have : ⌊(S : ℚ) / (M : ℚ)⌋ = ((S / M : Nat) : ℤ) := by
    rw [Int.floor_eq_iff]
    have hMq : (0 : ℚ) < M := by exact_mod_cast hM
    have h1 := Nat.div_add_mod S M
    have h2 := Nat.mod_lt S hM
    constructor
    · rw [le_div_iff₀ hMq]
      have : S / M * M ≤ S := Nat.div_mul_le_self S M
      exact_mod_cast this
    · rw [div_lt_iff₀ hMq]
      have : S < (S / M + 1) * M := by rw [Nat.add_mul, Nat.mul_comm]; omega
      exact_mod_cast this
  rw [this]; push_cast; rfl

theorem chop_neg (g q : ℚ) : chop g (-q) = -chop g q := by
  unfold chop
  rcases lt_trichotomy q 0 with h | h | h
  · rw [if_neg (by linarith), if_pos h]; simp
  · subst h; simp
  · rw [if_pos (by linarith), if_neg (by linarith)]; simp

theorem chop_sgn (g q : ℚ) (b : Bool) : chop g (sgnQ b * q) = sgnQ b * chop g q := by
  cases b
  · simp [sgnQ]
  · simp only [sgnQ, if_true, neg_mul, one_mul, chop_neg]

theorem chop_le {g q : ℚ} (hg : 0 < g) (hq : 0 ≤ q) : chop g q ≤ q ∧ q < chop g q + g := by
  unfold chop
  rw [if_neg (not_lt.2 hq)]
  have h1 := Int.floor_le (q / g)
  have h2 := Int.lt_floor_add_one (q / g)
  rw [le_div_iff₀ hg] at h1
  rw [div_lt_iff₀ hg] at h2
  exact ⟨h1, by linarith⟩

theorem chop_nonneg {g q : ℚ} (hg : 0 < g) (hq : 0 ≤ q) : 0 ≤ chop g q := by
  unfold chop
  rw [if_neg (not_lt.2 hq)]
  have : 0 ≤ ⌊q / g⌋ := Int.floor_nonneg.2 (div_nonneg hq hg.le)
  exact mul_nonneg (by exact_mod_cast this) hg.le

theorem chop_abs_err {g : ℚ} (hg : 0 < g) (q : ℚ) : |q - chop g q| < g ∧ |chop g q| ≤ |q| := by
  rcases le_or_gt 0 q with h | h
  · have := chop_le hg h
    have h2 := chop_nonneg hg h
    rw [abs_of_nonneg h, abs_of_nonneg h2, abs_of_nonneg (by linarith)]
    constructor <;> linarith
  · have hq : q = -(-q) := by ring
    rw [hq, chop_neg]
    have := chop_le hg (by linarith : 0 ≤ -q)
    have h2 := chop_nonneg hg (by linarith : 0 ≤ -q)
    rw [abs_neg, abs_neg, abs_of_nonneg h2, abs_of_nonneg (by linarith : 0 ≤ -q),
      abs_of_nonpos (by linarith)]
    constructor <;> linarith

/-! ### constants -/

theorem WF_mkClass (c : Cfg) (k : FpClass) : WF c (mkClass c k) where
  len := by simp [mkClass, zeros]
  limb := OK.replicate _
  exp8 := by simp [mkClass]
  prec_lo := by have := elems_ge c; simp [mkClass]; omega
  prec_hi := by simp [mkClass]
  norm := by
    intro _ _
    refine ⟨?_, rfl⟩
    intro d hd
    exact List.eq_of_mem_replicate hd

theorem zero_def (c : Cfg) : zero c = ⟨zeros c, 0, false, .finite, c.elems⟩ := by
  simp [zero, ofUnsigned, fromULL, w64, ullDigits, zeros]

theorem zero_eq (c : Cfg) : zero c = mkClass c .finite := zero_def c

theorem FinWF_zero (c : Cfg) : FinWF c (zero c) where
  toWF := by rw [zero_eq]; exact WF_mkClass c _
  fin := by rw [zero_def]

theorem val_zero (c : Cfg) : val (zero c) = 0 := by
  have h : mag (zero c) = 0 := mag_zero_of_iszero (FinWF_zero c) (by
    rw [zero_def]; simp only [zeros]
    obtain ⟨n, hn⟩ : ∃ n, c.elems = n + 1 := ⟨c.elems - 1, by have := elems_ge c; omega⟩
    rw [hn]; rfl)
  unfold val; rw [h]; simp

theorem WF_negate {c : Cfg} {x : EFloat} (h : WF c x) : WF c (negate x) := by
  unfold negate
  split
  · exact h
  · rename_i hz
    refine ⟨h.len, h.limb, h.exp8, h.prec_lo, h.prec_hi, ?_⟩
    intro hf h0
    exact absurd ((iszero_iff hf).2 h0) hz

theorem WF_infSigned (c : Cfg) (b : Bool) : WF c (infSigned c b) := by
  unfold infSigned
  split
  · exact WF_negate (WF_mkClass c _)
  · exact WF_mkClass c _

theorem infSigned_eq (c : Cfg) (b : Bool) : infSigned c b = ⟨zeros c, 0, b, .inf, c.elems⟩ := by
  cases b <;> simp [infSigned, negate, infV, mkClass, EFloat.iszero]

theorem negate_cls (x : EFloat) : (negate x).cls = x.cls := by unfold negate; split <;> rfl
theorem negate_data (x : EFloat) : (negate x).data = x.data := by unfold negate; split <;> rfl
theorem negate_exp (x : EFloat) : (negate x).exp = x.exp := by unfold negate; split <;> rfl
theorem negate_prec (x : EFloat) : (negate x).prec = x.prec := by unfold negate; split <;> rfl

theorem FinWF_negate {c : Cfg} {x : EFloat} (h : FinWF c x) : FinWF c (negate x) :=
  ⟨WF_negate h.toWF, by rw [negate_cls]; exact h.fin⟩

theorem negate_mag (x : EFloat) : mag (negate x) = mag x := by
  unfold mag; rw [negate_data, negate_exp]

theorem negate_val {c : Cfg} {x : EFloat} (h : FinWF c x) : val (negate x) = -val x := by
  have hm := negate_mag x
  unfold val
  rw [hm]
  unfold negate
  by_cases hz : x.iszero = true
  · rw [if_pos hz]
    have h0 := mag_zero_of_iszero h ((iszero_iff h.fin).1 hz)
    rw [h0]; simp
  · rw [if_neg hz]
    cases x.neg <;> simp

theorem negate_negate (x : EFloat) : negate (negate x) = x := by
  by_cases hz : x.iszero = true
  · simp [negate, hz]
  · have h1 : negate x = { x with neg := !x.neg } := by simp [negate, hz]
    have hz2 : EFloat.iszero { x with neg := !x.neg } = x.iszero := rfl
    rw [h1, negate, hz2, if_neg hz]
    simp

theorem fabs_mag (x : EFloat) : mag (fabs x) = mag x := by
  unfold fabs; split
  · exact negate_mag x
  · rfl

theorem fabs_cls (x : EFloat) : (fabs x).cls = x.cls := by
  unfold fabs; split
  · exact negate_cls x
  · rfl

theorem WF_fabs {c : Cfg} {x : EFloat} (h : WF c x) : WF c (fabs x) := by
  unfold fabs; split
  · exact WF_negate h
  · exact h

theorem FinWF_fabs {c : Cfg} {x : EFloat} (h : FinWF c x) : FinWF c (fabs x) :=
  ⟨WF_fabs h.toWF, by rw [fabs_cls]; exact h.fin⟩

theorem fabs_val {c : Cfg} {x : EFloat} (h : FinWF c x) : val (fabs x) = |val x| := by
  have hn := mag_nonneg x
  rw [abs_val]
  unfold fabs
  by_cases hneg : x.isneg = true
  · rw [if_pos hneg, negate_val h]
    unfold val
    unfold EFloat.isneg at hneg
    simp [hneg]
  · rw [if_neg hneg]
    unfold val
    unfold EFloat.isneg at hneg
    simp [hneg]

end EFX
