import Verif.Lemmas.SqrtAcc
/-! Closure of representation validity under every operation, and exponent growth. -/

namespace EFX
open Spec

/-- Validity of the representation; with `s = true` zero must not carry a sign (this is `WF`),
with `s = false` it may. -/
structure VG (s : Bool) (c : Cfg) (x : EFloat) : Prop where
  len : x.data.length = c.elems
  limb : ∀ d ∈ x.data, d < 100000000
  exp8 : (8 : Int) ∣ x.exp
  prec_lo : 2 ≤ x.prec
  prec_hi : x.prec ≤ c.elems
  norm : x.cls = .finite → x.data.headD 0 = 0 → (∀ d ∈ x.data, d = 0) ∧ (s = true → x.neg = false)

theorem Spec.WF.vg {c : Cfg} {x : EFloat} (h : WF c x) (s : Bool) : VG s c x :=
  ⟨h.len, h.limb, h.exp8, h.prec_lo, h.prec_hi, fun a b => ⟨(h.norm a b).1, fun _ => (h.norm a b).2⟩⟩

theorem VG.wf {c : Cfg} {x : EFloat} (h : VG true c x) : WF c x :=
  ⟨h.len, h.limb, h.exp8, h.prec_lo, h.prec_hi, fun a b => ⟨(h.norm a b).1, (h.norm a b).2 rfl⟩⟩

theorem VG.wf_of_ne {s : Bool} {c : Cfg} {x : EFloat} (h : VG s c x) (hz : ¬ x.iszero = true) : WF c x :=
  ⟨h.len, h.limb, h.exp8, h.prec_lo, h.prec_hi, fun a b => absurd ((iszero_iff a).2 b) hz⟩

theorem iszero_cls {x : EFloat} (h : x.iszero = true) : x.cls = .finite ∧ x.data.headD 0 = 0 := by
  unfold EFloat.iszero EFloat.front at h
  simpa using h

theorem VG_negate {s : Bool} {c : Cfg} {x : EFloat} (h : VG s c x) : VG s c (negate x) := by
  by_cases hz : x.iszero = true
  · unfold negate; rw [if_pos hz]; exact h
  · exact (WF_negate (h.wf_of_ne hz)).vg s

theorem VG_fabs {s : Bool} {c : Cfg} {x : EFloat} (h : VG s c x) : VG s c (fabs x) := by
  unfold fabs; split
  · exact VG_negate h
  · exact h

theorem VG_add {s : Bool} {c : Cfg} {x v : EFloat} (hx : VG s c x) (hv : VG s c v) : VG s c (addAssign c x v) := by
  by_cases zx : x.iszero = true
  · obtain ⟨f, _⟩ := iszero_cls zx
    unfold addAssign
    rw [if_neg (by simp [EFloat.isnan, f]), if_neg (by simp [EFloat.isinf, f]), if_pos zx]; exact hv
  · have wx := hx.wf_of_ne zx
    by_cases zv : v.iszero = true
    · obtain ⟨f, _⟩ := iszero_cls zv
      unfold addAssign
      by_cases h1 : x.isnan = true
      · rw [if_pos h1]; exact hx
      rw [if_neg h1]
      by_cases h2 : x.isinf = true
      · rw [if_pos h2]
        split
        · exact (WF_mkClass c _).vg s
        · exact hx
      rw [if_neg h2, if_neg zx]
      simp only
      rw [if_pos (Or.inl zv)]; exact hx
    · exact (addAssign_WF wx (hv.wf_of_ne zv)).vg s

theorem VG_sub {s : Bool} {c : Cfg} {x v : EFloat} (hx : VG s c x) (hv : VG s c v) : VG s c (subAssign c x v) :=
  VG_negate (VG_add (VG_negate hx) hv)

theorem VG_subSelf {s : Bool} {c : Cfg} {x : EFloat} (hx : VG s c x) : VG s c (subAssignSelf c x) :=
  VG_negate (VG_add (VG_negate hx) (VG_negate hx))

theorem WF_mul {s s' : Bool} {c : Cfg} {x v : EFloat} (hx : VG s c x) (hv : VG s' c v) : WF c (mulAssign c x v) := by
  have key : ∀ {b : Bool}, (b = true ∨ b = false) := by intro b; cases b <;> simp
  by_cases zx : x.iszero = true
  · obtain ⟨f, h0⟩ := iszero_cls zx
    by_cases hf : v.cls = .finite
    · unfold mulAssign; rw [mulAssignG_zero f hf (Or.inl h0)]; exact (FinWF_zero c).toWF
    · unfold mulAssign; rw [mulAssignG_nonfin (Or.inr hf)]
      split
      · exact WF_mkClass c _
      · exact WF_infSigned c _
  by_cases zv : v.iszero = true
  · obtain ⟨f, h0⟩ := iszero_cls zv
    by_cases hf : x.cls = .finite
    · unfold mulAssign; rw [mulAssignG_zero hf f (Or.inr h0)]; exact (FinWF_zero c).toWF
    · unfold mulAssign; rw [mulAssignG_nonfin (Or.inl hf)]
      split
      · exact WF_mkClass c _
      · exact WF_infSigned c _
  · exact mulAssign_WF (hx.wf_of_ne zx) (hv.wf_of_ne zv)

theorem VG_setPrecision {s : Bool} {c : Cfg} {x : EFloat} (h : VG s c x) (d : ℤ) : VG s c (setPrecision c x d) := by
  have hN := elems_ge c
  refine ⟨h.len, h.limb, h.exp8, ?_, ?_, h.norm⟩
  · show 2 ≤ (min (c.elems : ℤ) (max _ 2)).toNat
    omega
  · show (min (c.elems : ℤ) (max _ 2)).toNat ≤ c.elems
    omega

theorem cls_finite {x : EFloat} (h1 : ¬ x.isnan = true) (h2 : ¬ x.isinf = true) : x.cls = .finite := by
  simp only [EFloat.isnan, EFloat.isinf, decide_eq_true_eq] at h1 h2
  revert h1 h2; cases x.cls <;> simp

theorem head_ne {x : EFloat} (hf : x.cls = .finite) (hz : ¬ x.iszero = true) : x.data.headD 0 ≠ 0 :=
  fun h => hz ((iszero_iff hf).2 h)

theorem WF_mulUnsigned {s : Bool} {c : Cfg} {x : EFloat} {n : ℕ} (hx : VG s c x) (hn : n < 18446744073709551616) :
    WF c (mulUnsigned c x n) := by
  by_cases h1 : x.isnan = true
  · unfold mulUnsigned; rw [if_pos (by simp [h1])]; exact WF_mkClass c _
  by_cases h2 : x.isinf = true
  · unfold mulUnsigned
    split
    · exact WF_mkClass c _
    · exact WF_infSigned c _
  have hf := cls_finite h1 h2
  by_cases hz : x.iszero = true
  · unfold mulUnsigned
    rw [if_neg (by simp [h1, h2]), if_neg h2, if_pos (by simp [hz])]; exact (FinWF_zero c).toWF
  have wx := hx.wf_of_ne hz
  by_cases h0 : n = 0
  · unfold mulUnsigned
    rw [if_neg (by simp [h1, h2]), if_neg h2, if_pos (by simp [h0])]; exact (FinWF_zero c).toWF
  by_cases hm : n < 100000000
  · by_cases h1' : n = 1
    · unfold mulUnsigned
      rw [if_neg (by simp [h1, h2]), if_neg h2, if_neg (by simp [hz, h0]), if_neg (by simp [mask]; omega), if_pos h1']
      exact wx
    · exact (mulUnsigned_spec ⟨wx, hf⟩ (head_ne hf hz) (by omega) hm).1.toWF
  · unfold mulUnsigned
    rw [if_neg (by simp [h1, h2]), if_neg h2, if_neg (by simp [hz, h0]), if_pos (by simp [mask]; omega)]
    exact mulAssign_WF wx (ofUnsigned_spec c hn).1.toWF

theorem WF_mulSigned {s : Bool} {c : Cfg} {x : EFloat} {n : ℤ} (hx : VG s c x) (hn : n.natAbs < 18446744073709551616) :
    WF c (mulSigned c x n) := by
  have h := WF_mulUnsigned hx hn
  have h2 : WF c (if n < 0 then negate (mulUnsigned c x n.natAbs) else mulUnsigned c x n.natAbs) := by
    split
    · exact WF_negate h
    · exact h
  unfold mulSigned
  simp only
  generalize (if n < 0 then negate (mulUnsigned c x n.natAbs) else mulUnsigned c x n.natAbs) = y at *
  split
  · exact WF_infSigned c _
  · exact h2

theorem VG_integerPart {s : Bool} {c : Cfg} {x : EFloat} (hx : VG s c x) : VG s c (integerPart c x) := by
  unfold integerPart
  split
  · exact hx
  split
  · exact ((FinWF_zero c).toWF).vg s
  split
  · exact hx
  rename_i h1 h2 h3
  have hk : (Int.tdiv x.exp 8).toNat + 1 ≤ c.elems := by
    have h8 := hx.exp8
    rw [Int.tdiv_eq_ediv_of_nonneg (by omega)]
    have : (c.digits10 : ℤ) + 25 ≤ 8 * (c.elems : ℤ) := by
      unfold Cfg.elems Cfg.maxDigits10
      split <;> omega
    omega
  simp only
  generalize (Int.tdiv x.exp 8).toNat = k at *
  refine ⟨?_, ?_, hx.exp8, hx.prec_lo, hx.prec_hi, ?_⟩
  · show (x.data.take (k + 1) ++ List.replicate (c.elems - (k + 1)) 0).length = c.elems
    have := hx.len
    simp; omega
  · intro d hd
    rcases List.mem_append.1 hd with h | h
    · exact hx.limb d (List.mem_of_mem_take h)
    · rw [List.eq_of_mem_replicate h]; norm_num
  · intro hf h0
    have hh : (x.data.take (k + 1) ++ List.replicate (c.elems - (k + 1)) 0).headD 0 = x.data.headD 0 := by
      cases x.data with
      | nil => simp [List.headD]; cases (c.elems - (k+1)) <;> rfl
      | cons a l => simp
    have h0' : (x.data.take (k + 1) ++ List.replicate (c.elems - (k + 1)) 0).headD 0 = 0 := h0
    rw [hh] at h0'
    obtain ⟨a1, a2⟩ := hx.norm hf h0'
    refine ⟨?_, a2⟩
    intro d hd
    rcases List.mem_append.1 hd with h | h
    · exact a1 d (List.mem_of_mem_take h)
    · exact List.eq_of_mem_replicate h

theorem VG_decimalPart {s : Bool} {c : Cfg} {x : EFloat} (hx : VG s c x) : VG s c (decimalPart c x) := by
  by_cases hf : x.cls = .finite
  · have hfin : ¬ (!x.isfinite) = true := by simp [EFloat.isfinite, hf]
    by_cases hz : x.iszero = true
    · unfold decimalPart; rw [if_neg hfin, if_pos hz]; exact ((FinWF_zero c).toWF).vg s
    by_cases h1 : x.exp < 0
    · unfold decimalPart; rw [if_neg hfin, if_neg hz, if_pos h1]; exact hx
    by_cases h2 : x.exp ≥ (c.digits10 : Int) - 1
    · unfold decimalPart; rw [if_neg hfin, if_neg hz, if_neg h1, if_pos h2]; exact ((FinWF_zero c).toWF).vg s
    · exact ((decimalPart_spec ⟨hx.wf_of_ne hz, hf⟩ (head_ne hf hz) (by omega) (by omega)).1.toWF).vg s
  · unfold decimalPart
    rw [if_pos (by simp [EFloat.isfinite, hf])]; exact hx

theorem WF_one (c : Cfg) : WF c (one c) := (ofUnsigned_spec c (u := 1) (by norm_num)).1.toWF

theorem VG_floor {s : Bool} {c : Cfg} {x : EFloat} (hx : VG s c x) : VG s c (floor c x) := by
  unfold floor
  split
  · exact hx
  split
  · exact VG_integerPart (VG_sub hx ((WF_one c).vg s))
  · exact VG_integerPart hx

theorem VG_ceil {s : Bool} {c : Cfg} {x : EFloat} (hx : VG s c x) : VG s c (ceil c x) := by
  unfold ceil
  split
  · exact hx
  split
  · exact VG_integerPart hx
  · exact VG_integerPart (VG_add hx ((WF_one c).vg s))

/-! ### reciprocal and quotient -/

theorem invLoop_WF {c : Cfg} {x : EFloat} (hx : WF c x) : ∀ (n digits : ℕ) (y : EFloat), WF c y → WF c (invLoop c x n digits y)
  | 0, _, _, hy => hy
  | n + 1, digits, y, hy => by
    unfold invLoop
    split
    · simp only
      apply invLoop_WF hx n
      have h1 := VG_setPrecision (hy.vg true) ((digits * 2 + 10 : ℕ) : ℤ)
      have h2 := VG_setPrecision (hx.vg true) ((digits * 2 + 10 : ℕ) : ℤ)
      exact WF_mul h1 (VG_sub ((two_spec c).1.toWF.vg true) ((WF_mul h1 h2).vg true))
    · exact hy

/-- The reciprocal is valid, except that a zero result may carry a sign. -/
theorem VG_inv {s : Bool} {c : Cfg} {x : EFloat} (hx : VG s c x) :
    VG false c (calculateInv c x) ∧ (x.neg = false → WF c (calculateInv c x)) := by
  have key : ∀ z : EFloat, WF c z → VG false c z ∧ (x.neg = false → WF c z) := fun z hz => ⟨hz.vg false, fun _ => hz⟩
  unfold calculateInv
  simp only
  by_cases hz : ({ x with neg := false } : EFloat).iszero = true
  · rw [if_pos hz]; exact key _ (WF_infSigned c _)
  rw [if_neg hz]
  have hz' : ¬ x.iszero = true := hz
  have wy : WF c { x with neg := false } := by
    have w := hx.wf_of_ne hz'
    exact ⟨w.len, w.limb, w.exp8, w.prec_lo, w.prec_hi, fun a b => ⟨(w.norm a b).1, rfl⟩⟩
  by_cases h1 : ({ x with neg := false } : EFloat).isnan = true
  · rw [if_pos h1]; exact key _ wy
  rw [if_neg h1]
  by_cases h2 : ({ x with neg := false } : EFloat).isinf = true
  · rw [if_pos h2]; exact key _ (FinWF_zero c).toWF
  rw [if_neg h2]
  split
  · apply key
    split
    · exact WF_negate (WF_one c)
    · exact WF_one c
  have hf : ({ x with neg := false } : EFloat).cls = .finite := cls_finite h1 h2
  have fy : FinWF c { x with neg := false } := ⟨wy, hf⟩
  have py : 0 < val ({ x with neg := false } : EFloat) := by
    rw [val_of_pos rfl]; exact mag_pos wy (head_ne hf hz)
  have hs := inv_start fy py
  have hl := invLoop_WF wy 32 12 _ hs.1.toWF
  generalize invLoop c { x with neg := false } 32 12 _ = z at hl ⊢
  refine ⟨⟨hl.len, hl.limb, hl.exp8, hx.prec_lo, hx.prec_hi, fun a b => ⟨(hl.norm a b).1, by simp⟩⟩, fun hn => ?_⟩
  exact ⟨hl.len, hl.limb, hl.exp8, hx.prec_lo, hx.prec_hi, fun a b => ⟨(hl.norm a b).1, hn⟩⟩

theorem WF_div {s : Bool} {c : Cfg} {x v : EFloat} (hx : VG s c x) (hv : VG s c v) : WF c (divAssign c x v) := by
  unfold divAssign
  split
  · split
    · exact WF_negate (WF_one c)
    · exact WF_one c
  · exact WF_mul hx (VG_inv hv).1

theorem WF_divSelf {s : Bool} {c : Cfg} {x : EFloat} (hx : VG s c x) : WF c (divAssignSelf c x) := by
  unfold divAssignSelf
  split
  · exact WF_one c
  · exact WF_mul hx (VG_inv hx).1

theorem VG_divUnsigned {s : Bool} {c : Cfg} {x : EFloat} {n : ℕ} (hx : VG s c x) (hn : n < 18446744073709551616) :
    WF c (divUnsigned c x n) := by
  unfold divUnsigned
  by_cases h1 : x.isnan = true
  · rw [if_pos h1]
    have hz : ¬ x.iszero = true := by
      intro hz; have := (iszero_cls hz).1; simp [EFloat.isnan, this] at h1
    have w := hx.wf_of_ne hz
    exact ⟨w.len, w.limb, w.exp8, w.prec_lo, w.prec_hi, fun a b => ⟨(w.norm a b).1, rfl⟩⟩
  rw [if_neg h1]
  by_cases h2 : x.isinf = true
  · rw [if_pos h2]; exact WF_infSigned c _
  rw [if_neg h2]
  have hf := cls_finite h1 h2
  by_cases h0 : n = 0
  · rw [if_pos h0]; split <;> exact WF_mkClass c _
  rw [if_neg h0]
  by_cases hz : x.iszero = true
  · rw [if_pos hz]
    exact ⟨hx.len, hx.limb, hx.exp8, hx.prec_lo, hx.prec_hi, fun a b => ⟨(hx.norm a b).1, rfl⟩⟩
  rw [if_neg hz]
  have wx := hx.wf_of_ne hz
  split
  · exact WF_div (wx.vg true) ((ofUnsigned_spec c hn).1.toWF.vg true)
  · rename_i hm
    have hn' : n < 100000000 := by simp [mask] at hm; exact hm
    have hw : w32 n = n := Nat.mod_eq_of_lt (by omega)
    rw [hw]
    exact (divSmall_WF ⟨wx, hf⟩ (head_ne hf hz) hn').toWF

/-! ### square root -/

theorem sqrtLoop_WF {c : Cfg} {x : EFloat} (hx : WF c x) : ∀ (n digits : ℕ) (y vi : EFloat), WF c y → WF c vi →
    WF c (sqrtLoop c x n digits y vi)
  | 0, _, _, _, hy, _ => hy
  | n + 1, digits, y, vi, hy, hvi => by
    unfold sqrtLoop
    split
    · simp only
      have h1 := (VG_setPrecision (hy.vg true) ((digits * 2 + 10 : ℕ) : ℤ)).wf
      have h2 := (VG_setPrecision (hvi.vg true) ((digits * 2 + 10 : ℕ) : ℤ)).wf
      push_cast at h1 h2
      have h3 := addAssign_WF h2 (mulAssign_WF h2 (addAssign_WF (WF_negate (WF_mulSigned (n := 2) ((mulAssign_WF h1 h2).vg true) (by norm_num))) (WF_one c)))
      have h4 := mulAssign_WF h3 (addAssign_WF (WF_negate (mulAssign_WF h1 h1)) hx)
      have h5 := addAssign_WF h1 h4
      split
      · exact h5
      · exact sqrtLoop_WF hx n _ _ _ h5 h3
    · exact hy

theorem WF_sqrt {s : Bool} {c : Cfg} {x : EFloat} (hx : VG s c x) : WF c (calculateSqrt c x) := by
  by_cases h1 : (x.isneg || !x.isfinite) = true
  · unfold calculateSqrt; rw [if_pos h1]; exact WF_mkClass c _
  have hn : x.neg = false := by
    cases h : x.neg
    · rfl
    · simp [EFloat.isneg, h] at h1
  have hf : x.cls = .finite := by
    by_contra h
    simp [EFloat.isfinite, h] at h1
  have wx : WF c x := ⟨hx.len, hx.limb, hx.exp8, hx.prec_lo, hx.prec_hi, fun a b => ⟨(hx.norm a b).1, hn⟩⟩
  by_cases h2 : (x.iszero || isone x) = true
  · unfold calculateSqrt; rw [if_neg h1, if_pos h2]; exact wx
  rw [Bool.or_eq_true, not_or] at h2
  have fx : FinWF c x := ⟨wx, hf⟩
  have px : 0 < val x := by
    rw [val_of_pos hn]; exact mag_pos wx (head_ne hf h2.1)
  rw [calculateSqrt_main fx px (by simpa using h2.2)]
  have hs := sqrtStart_inv (c := c) fx px
  have hl := sqrtLoop_WF wx 32 12 _ _ hs.fy.toWF hs.fw.toWF
  exact ⟨hl.len, hl.limb, hl.exp8, hx.prec_lo, hx.prec_hi, hl.norm⟩

/-! ### exponents -/

/-- The exponent is at most `B` in magnitude. -/
def EB (B : ℤ) (x : EFloat) : Prop := -B ≤ x.exp ∧ x.exp ≤ B

theorem EB.mono {B B' : ℤ} {x : EFloat} (h : EB B x) (hB : B ≤ B') : EB B' x := by
  unfold EB at *; omega

theorem EB_negate {B : ℤ} {x : EFloat} (h : EB B x) : EB B (negate x) := by
  unfold EB at *; rwa [negate_exp]

theorem justify_exp {N : ℕ} {y : EFloat} (hl : y.data.length = N) :
    (justify y).exp = 0 ∨ (y.exp - 8 * N ≤ (justify y).exp ∧ (justify y).exp ≤ y.exp) := by
  have h := firstNonzero_le y.data
  unfold justify
  simp only
  split
  · split
    · left; rfl
    · right; simp only; omega
  · right; omega

/-- Every way the exponent of a sum can come about. -/
theorem add_expo {s : Bool} {c : Cfg} {x v : EFloat} (hx : VG s c x) (hv : VG s c v) :
    (addAssign c x v).exp = 0 ∨ (addAssign c x v).exp = x.exp ∨
    ((addAssign c x v).exp = v.exp ∧ (x.iszero = true ∨ x.exp ≤ v.exp)) ∨
    (x.exp - 8 * c.elems ≤ (addAssign c x v).exp ∧ v.exp - 8 * c.elems ≤ (addAssign c x v).exp ∧
      (addAssign c x v).exp ≤ max x.exp v.exp + 8) := by
  have hN := elems_ge c
  have okx : OK x.data := hx.limb
  have okv : OK v.data := hv.limb
  unfold addAssign
  by_cases h1 : x.isnan = true
  · rw [if_pos h1]; exact Or.inr (Or.inl rfl)
  rw [if_neg h1]
  by_cases h2 : x.isinf = true
  · rw [if_pos h2]
    split
    · exact Or.inl rfl
    · exact Or.inr (Or.inl rfl)
  rw [if_neg h2]
  by_cases h3 : x.iszero = true
  · rw [if_pos h3]; exact Or.inr (Or.inr (Or.inl ⟨rfl, Or.inl h3⟩))
  rw [if_neg h3]
  simp only
  by_cases h4 : v.iszero = true ∨ x.exp - v.exp > ((c.elems : Int) - 1) * 8
  · rw [if_pos h4]; exact Or.inr (Or.inl rfl)
  rw [if_neg h4]
  by_cases h5 : x.exp - v.exp < -(((c.elems : Int) - 1) * 8)
  · rw [if_pos h5]; exact Or.inr (Or.inr (Or.inl ⟨rfl, Or.inr (by omega)⟩))
  rw [if_neg h5]
  rw [not_or] at h4
  obtain ⟨m, hm⟩ : ∃ m : Int, x.exp - v.exp = 8 * m := dvd_sub hx.exp8 hv.exp8
  have hofs : Int.tdiv (x.exp - v.exp) 8 = m := by
    rw [hm, Int.mul_tdiv_cancel_left _ (by norm_num)]
  rw [hofs]
  have key : ∀ y : EFloat, (y.exp = 0 ∨ (x.exp - 8 * c.elems ≤ y.exp ∧ v.exp - 8 * c.elems ≤ y.exp ∧ y.exp ≤ max x.exp v.exp + 8)) →
      ((addFinish c y).exp = 0 ∨ (addFinish c y).exp = x.exp ∨
        ((addFinish c y).exp = v.exp ∧ (x.iszero = true ∨ x.exp ≤ v.exp)) ∨
        (x.exp - 8 * c.elems ≤ (addFinish c y).exp ∧ v.exp - 8 * c.elems ≤ (addFinish c y).exp ∧
          (addFinish c y).exp ≤ max x.exp v.exp + 8)) := by
    intro y hy
    unfold addFinish
    split
    · exact Or.inl rfl
    split
    · rw [infSigned_eq]; exact Or.inl rfl
    · rcases hy with h | h
      · exact Or.inl h
      · exact Or.inr (Or.inr (Or.inr h))
  apply key
  split
  · right
    unfold addSame
    simp only
    by_cases hm0 : m ≥ 0
    · simp only [if_pos hm0]; split <;> simp only <;> omega
    · simp only [if_neg hm0]; split <;> simp only <;> omega
  · have hs1 : (subLoop x.data (shiftDown m.toNat v.data)).1.length = c.elems := by
      obtain ⟨s1, _⟩ := subLoop_spec (u := x.data) (v := shiftDown m.toNat v.data)
        (by simp [hx.len, hv.len]) okx (shiftDown_OK _ okv)
      rw [s1, hx.len]
    unfold addDiff
    split
    · rename_i hc
      have hj := justify_exp (y := { x with data := (subLoop x.data (shiftDown m.toNat v.data)).1 }) hs1
      simp only at hj
      rcases hj with h | h
      · exact Or.inl h
      · right; omega
    · rename_i hc
      simp only
      have hxd : (if m ≠ 0 then shiftDown (-m).toNat x.data else x.data).length = c.elems ∧
          OK (if m ≠ 0 then shiftDown (-m).toNat x.data else x.data) := by
        split
        · exact ⟨by simp [hx.len], shiftDown_OK _ okx⟩
        · exact ⟨hx.len, okx⟩
      obtain ⟨s1, _⟩ := subLoop_spec (u := v.data)
        (v := if m ≠ 0 then shiftDown (-m).toNat x.data else x.data)
        (by rw [hxd.1, hv.len]) okv hxd.2
      rw [hv.len] at s1
      have hj := justify_exp (y := { x with data := (subLoop v.data (if m ≠ 0 then shiftDown (-m).toNat x.data else x.data)).1, exp := v.exp, neg := v.neg }) s1
      simp only at hj
      rcases hj with h | h
      · exact Or.inl h
      · right; omega

theorem EB_add {s : Bool} {c : Cfg} {B : ℤ} {x v : EFloat} (hx : VG s c x) (hv : VG s c v) (bx : EB B x) (bv : EB B v) :
    EB (B + 8 * c.elems) (addAssign c x v) := by
  have hN := elems_ge c
  have := add_expo hx hv
  unfold EB at *
  omega

theorem EB_sub {s : Bool} {c : Cfg} {B : ℤ} {x v : EFloat} (hx : VG s c x) (hv : VG s c v) (bx : EB B x) (bv : EB B v) :
    EB (B + 8 * c.elems) (subAssign c x v) :=
  EB_negate (EB_add (VG_negate hx) hv (EB_negate bx) bv)

theorem mulData_exp (c : Cfg) (self : Bool) (x v : EFloat) : (mulData c self x v).2 = 0 ∨ (mulData c self x v).2 = 8 := by
  unfold mulData
  simp only
  split
  · generalize (if self = true then mulLoopSelf x.data (min x.prec v.prec) else mulLoopUV x.data v.data (min x.prec v.prec)) = r
    by_cases h : r.2 = 0 <;> simp [h]
  · split <;> simp

theorem EB_mul {c : Cfg} {B : ℤ} {x v : EFloat} (hB : maxExp10 ≤ B) (bx : EB B x) (bv : EB B v) :
    EB (B + 8) (mulAssign c x v) := by
  have hm : maxExp10 = 2147483616 := rfl
  have h8 := mulData_exp c false x v
  unfold EB at *
  unfold mulAssign mulAssignG
  generalize mulData c false x v = r at *
  simp only
  by_cases c1 : (x.isnan || v.isnan || x.isinf && v.iszero || v.isinf && x.iszero) = true
  · rw [if_pos c1]; show -(B + 8) ≤ 0 ∧ 0 ≤ B + 8; omega
  rw [if_neg c1]
  by_cases c2 : (x.isinf || v.isinf) = true
  · rw [if_pos c2, infSigned_eq]; show -(B + 8) ≤ 0 ∧ 0 ≤ B + 8; omega
  rw [if_neg c2]
  by_cases c3 : (x.iszero || v.iszero) = true
  · rw [if_pos c3]; show -(B + 8) ≤ 0 ∧ 0 ≤ B + 8; omega
  rw [if_neg c3]
  have hz := infSigned_eq c (decide (x.neg ≠ v.neg))
  generalize infSigned c (decide (x.neg ≠ v.neg)) = z at hz ⊢
  have hz0 : z.exp = 0 := by rw [hz]
  have h0 : (zero c).exp = 0 := rfl
  by_cases h1 : x.exp < 0 <;> by_cases h2 : v.exp < 0 <;> simp only [h1, h2, decide_true, decide_false, if_true, if_false, true_and, false_and, Bool.true_eq_false, Bool.false_eq_true] <;>
    (try split) <;> (try simp only [hz0, h0]) <;> omega

theorem EB_small {B : ℤ} (hB : maxExp10 ≤ B) {x : EFloat} (h1 : 0 ≤ x.exp) (h2 : x.exp ≤ 16) : EB B x := by
  have hm : maxExp10 = 2147483616 := rfl
  unfold EB; omega

theorem EB_zero {B : ℤ} (hB : maxExp10 ≤ B) {x : EFloat} (h1 : x.exp = 0) : EB B x :=
  EB_small hB (by omega) (by omega)

theorem EB_mulUnsigned {c : Cfg} {B : ℤ} {x : EFloat} {n : ℕ} (hB : maxExp10 ≤ B) (bx : EB B x)
    (hn : n < 18446744073709551616) : EB (B + 8) (mulUnsigned c x n) := by
  unfold mulUnsigned
  split
  · exact EB_zero (by omega) rfl
  split
  · rw [infSigned_eq]; exact EB_zero (by omega) rfl
  split
  · exact EB_zero (by omega) rfl
  split
  · have h := ofUnsigned_spec c hn
    exact EB_mul hB bx (EB_small hB h.2.2.2.2.2.1 h.2.2.2.2.2.2)
  split
  · exact bx.mono (by omega)
  · simp only
    unfold EB at *
    split <;> simp only <;> omega

theorem EB_mulSigned {c : Cfg} {B : ℤ} {x : EFloat} {n : ℤ} (hB : maxExp10 ≤ B) (bx : EB B x)
    (hn : n.natAbs < 18446744073709551616) : EB (B + 8) (mulSigned c x n) := by
  have h := EB_mulUnsigned (c := c) hB bx hn
  have h2 : EB (B + 8) (if n < 0 then negate (mulUnsigned c x n.natAbs) else mulUnsigned c x n.natAbs) := by
    split
    · exact EB_negate h
    · exact h
  unfold mulSigned
  simp only
  generalize (if n < 0 then negate (mulUnsigned c x n.natAbs) else mulUnsigned c x n.natAbs) = y at *
  split
  · rw [infSigned_eq]; exact EB_zero (by omega) rfl
  · exact h2

theorem EB_integerPart {c : Cfg} {B : ℤ} {x : EFloat} (hB : maxExp10 ≤ B) (bx : EB B x) : EB B (integerPart c x) := by
  unfold integerPart
  split
  · exact bx
  split
  · exact EB_zero hB rfl
  split
  · exact bx
  · exact bx

theorem EB_decimalPart {s : Bool} {c : Cfg} {B : ℤ} {x : EFloat} (hB : maxExp10 ≤ B) (hx : VG s c x) (bx : EB B x) :
    EB (B + 8 * c.elems + 8) (decimalPart c x) := by
  have hN := elems_ge c
  unfold decimalPart
  split
  · exact bx.mono (by omega)
  split
  · exact EB_zero (by omega) rfl
  split
  · exact bx.mono (by omega)
  split
  · exact EB_zero (by omega) rfl
  rename_i h1 h2 h3 h4
  have hd : (c.digits10 : ℤ) + 25 ≤ 8 * (c.elems : ℤ) := by
    unfold Cfg.elems Cfg.maxDigits10
    split <;> omega
  have h8 := hx.exp8
  have hk : Int.tdiv x.exp 8 = x.exp / 8 := Int.tdiv_eq_ediv_of_nonneg (by omega)
  rw [hk]
  have hsl : (shiftUp ((x.exp / 8).toNat + 1) x.data).length = c.elems := by rw [shiftUp_length, hx.len]
  have hf := firstNonzero_le (shiftUp ((x.exp / 8).toNat + 1) x.data)
  simp only
  generalize firstNonzero (shiftUp ((x.exp / 8).toNat + 1) x.data) = sj at *
  unfold EB at *
  split
  · split
    · simp only; omega
    · simp only; omega
  · simp only; omega

theorem elems_small (c : Cfg) : 8 * (c.elems : ℤ) + 16 ≤ maxExp10 := by
  have := elems_le c
  have hm : maxExp10 = 2147483616 := rfl
  omega

/-- Adding a number with exponent 0 (`one`, `two`) to anything costs no more than one limb. -/
theorem EB_add_unit {c : Cfg} {B : ℤ} {x v : EFloat} (hB : maxExp10 ≤ B) (hx : WF c x) (hv : WF c v) (bx : EB B x)
    (h0 : v.exp = 0) : EB (B + 8) (addAssign c x v) := by
  have hN := elems_small c
  have := add_expo (hx.vg true) (hv.vg true)
  have hm : maxExp10 = 2147483616 := rfl
  unfold EB at *
  omega

theorem EB_unit_sub {c : Cfg} {B : ℤ} {x v : EFloat} (hB : maxExp10 ≤ B) (hx : WF c x) (hv : WF c v) (bv : EB B v)
    (h0 : x.exp = 0) : EB (B + 8) (subAssign c x v) := by
  have hN := elems_small c
  have := add_expo ((WF_negate hx).vg true) (hv.vg true)
  have hm : maxExp10 = 2147483616 := rfl
  unfold subAssign
  apply EB_negate
  rw [negate_exp] at this
  unfold EB at *
  omega

theorem EB_setPrecision {c : Cfg} {B : ℤ} {x : EFloat} (b : EB B x) (d : ℤ) : EB B (setPrecision c x d) := b

theorem invLoop_EB {c : Cfg} {x : EFloat} (hx : WF c x) : ∀ (n digits : ℕ) (y : EFloat) (B : ℤ), WF c y → maxExp10 ≤ B →
    EB B x → EB B y → EB (B + 24 * n) (invLoop c x n digits y)
  | 0, _, _, _, _, _, _, b => b.mono (by push_cast; omega)
  | n + 1, digits, y, B, hy, hB, bx, b => by
    unfold invLoop
    split
    · simp only
      have h1 := VG_setPrecision (hy.vg true) ((digits * 2 + 10 : ℕ) : ℤ)
      have h2 := VG_setPrecision (hx.vg true) ((digits * 2 + 10 : ℕ) : ℤ)
      have e1 : EB (B + 8) (mulAssign c (setPrecision c y ((digits * 2 + 10 : ℕ) : ℤ)) (setPrecision c x ((digits * 2 + 10 : ℕ) : ℤ))) :=
        EB_mul hB (EB_setPrecision b _) (EB_setPrecision bx _)
      have e2 := EB_unit_sub (c := c) (by omega) (two_spec c).1.toWF (WF_mul h1 h2) e1 (two_spec c).2.2.2
      have e3 := EB_mul (c := c) (by omega) ((EB_setPrecision (c := c) b ((digits * 2 + 10 : ℕ) : ℤ)).mono (show B ≤ B + 8 + 8 by omega)) e2
      have := invLoop_EB hx n (digits * 2) _ (B + 24) (WF_mul h1 (VG_sub ((two_spec c).1.toWF.vg true) ((WF_mul h1 h2).vg true)))
        (by omega) (bx.mono (by omega)) (e3.mono (by omega))
      exact this.mono (by push_cast; omega)
    · exact b.mono (by push_cast; omega)

theorem EB_inv {s : Bool} {c : Cfg} {B : ℤ} {x : EFloat} (hB : maxExp10 ≤ B) (hx : VG s c x) (bx : EB B x) :
    EB (B + 784) (calculateInv c x) := by
  unfold calculateInv
  simp only
  by_cases hz : ({ x with neg := false } : EFloat).iszero = true
  · rw [if_pos hz, infSigned_eq]; exact EB_zero (by omega) rfl
  rw [if_neg hz]
  have wy : WF c { x with neg := false } := by
    have w := hx.wf_of_ne hz
    exact ⟨w.len, w.limb, w.exp8, w.prec_lo, w.prec_hi, fun a b => ⟨(w.norm a b).1, rfl⟩⟩
  by_cases h1 : ({ x with neg := false } : EFloat).isnan = true
  · rw [if_pos h1]; exact bx.mono (by omega)
  rw [if_neg h1]
  by_cases h2 : ({ x with neg := false } : EFloat).isinf = true
  · rw [if_pos h2]; exact EB_zero (by omega) rfl
  rw [if_neg h2]
  split
  · split
    · exact EB_negate (EB_zero (by omega) rfl)
    · exact EB_zero (by omega) rfl
  have hf : ({ x with neg := false } : EFloat).cls = .finite := cls_finite h1 h2
  have fy : FinWF c { x with neg := false } := ⟨wy, hf⟩
  have py : 0 < val ({ x with neg := false } : EFloat) := by
    rw [val_of_pos rfl]; exact mag_pos wy (head_ne hf hz)
  obtain ⟨s1, s2, s3⟩ := inv_start fy py
  obtain ⟨q1, q2⟩ := abs_le.1 s3
  have hc : (1 / 10 ^ 13 : ℚ) ≤ 1 / 2 := by norm_num
  have he := exp_inv fy s1 py s2 (by linarith) (by linarith)
  have := invLoop_EB wy 32 12 _ (B + 16) s1.toWF (by omega) (by unfold EB at *; simp only; omega)
    (by unfold EB at *; simp only at he; omega)
  exact (this.mono (by norm_num; omega))

theorem EB_div {s : Bool} {c : Cfg} {B : ℤ} {x v : EFloat} (hB : maxExp10 ≤ B) (hv : VG s c v) (bx : EB B x) (bv : EB B v) :
    EB (B + 800) (divAssign c x v) := by
  unfold divAssign
  split
  · split
    · exact EB_negate (EB_zero (by omega) rfl)
    · exact EB_zero (by omega) rfl
  · exact (EB_mul (by omega) (bx.mono (show B ≤ B + 784 by omega)) (EB_inv hB hv bv)).mono (by omega)

theorem EB_divSelf {s : Bool} {c : Cfg} {B : ℤ} {x : EFloat} (hB : maxExp10 ≤ B) (hx : VG s c x) (bx : EB B x) :
    EB (B + 800) (divAssignSelf c x) := by
  unfold divAssignSelf
  split
  · exact EB_zero (by omega) rfl
  · exact (EB_mul (by omega) (bx.mono (show B ≤ B + 784 by omega)) (EB_inv hB hx bx)).mono (by omega)

theorem EB_divUnsigned {c : Cfg} {B : ℤ} {x : EFloat} {n : ℕ} (hB : maxExp10 ≤ B) (bx : EB B x)
    (hn : n < 18446744073709551616) : EB (B + 800) (divUnsigned c x n) := by
  unfold divUnsigned
  split
  · exact bx.mono (by omega)
  split
  · rw [infSigned_eq]; exact EB_zero (by omega) rfl
  split
  · split <;> exact EB_zero (by omega) rfl
  split
  · exact bx.mono (by omega)
  split
  · have h := ofUnsigned_spec c hn
    exact EB_div hB (h.1.toWF.vg true) bx (EB_small hB h.2.2.2.2.2.1 h.2.2.2.2.2.2)
  · unfold divSmall
    simp only
    have hy : ∀ y : EFloat, EB (B + 800) y → EB (B + 800) (if y.iszero = true then zero c else y) := by
      intro y h
      split
      · exact EB_zero (by omega) rfl
      · exact h
    apply hy
    unfold EB at *
    split
    · split <;> simp only <;> omega
    · omega

theorem sqrtLoop_EB {c : Cfg} {x : EFloat} (hx : WF c x) : ∀ (n digits : ℕ) (y vi : EFloat) (B : ℤ), WF c y → WF c vi →
    maxExp10 ≤ B → EB B x → EB B y → EB B vi → EB (B + (8 * c.elems + 64) * n) (sqrtLoop c x n digits y vi)
  | 0, _, _, _, _, _, _, _, _, b, _ => b.mono (by push_cast; omega)
  | n + 1, digits, y, vi, B, hy, hvi, hB, bx, b, bvi => by
    have hN := elems_ge c
    have hNs := elems_small c
    have hm : maxExp10 = 2147483616 := rfl
    unfold sqrtLoop
    split
    · simp only
      have w1 := (VG_setPrecision (hy.vg true) ((digits * 2 + 10 : ℕ) : ℤ)).wf
      have w2 := (VG_setPrecision (hvi.vg true) ((digits * 2 + 10 : ℕ) : ℤ)).wf
      have b1 := EB_setPrecision (c := c) b ((digits * 2 + 10 : ℕ) : ℤ)
      have b2 := EB_setPrecision (c := c) bvi ((digits * 2 + 10 : ℕ) : ℤ)
      push_cast at w1 w2 b1 b2
      generalize setPrecision c y (↑digits * 2 + 10) = y at *
      generalize setPrecision c vi (↑digits * 2 + 10) = w at *
      -- the correction of the inverse iterate
      have wp := mulAssign_WF w1 w2
      have bp := EB_mul (c := c) hB b1 b2
      have wm := WF_mulSigned (n := 2) (wp.vg true) (by norm_num)
      have bm := EB_mulSigned (c := c) (n := 2) (by omega) bp (by norm_num)
      have wa := addAssign_WF (WF_negate wm) (WF_one c)
      have ba := EB_add_unit (c := c) (by omega) (WF_negate wm) (WF_one c) (EB_negate bm) rfl
      have wt := mulAssign_WF w2 wa
      have bt := EB_mul (c := c) (by omega) (b2.mono (show B ≤ B + 8 + 8 + 8 by omega)) ba
      have wv := addAssign_WF w2 wt
      have hz : w.iszero = true → (mulAssign c w (addAssign c (negate (mulSigned c (mulAssign c y w) 2)) (one c))).exp = 0 := by
        intro hz
        obtain ⟨f, h0⟩ := iszero_cls hz
        unfold mulAssign
        by_cases hf : (addAssign c (negate (mulSigned c (mulAssignG c false y w) 2)) (one c)).cls = .finite
        · rw [mulAssignG_zero f hf (Or.inl h0)]; rfl
        · rw [mulAssignG_nonfin (Or.inr hf)]
          split
          · rfl
          · rw [infSigned_eq]
      have bv : EB (B + 8 * c.elems + 40) (addAssign c w (mulAssign c w (addAssign c (negate (mulSigned c (mulAssign c y w) 2)) (one c)))) := by
        have := add_expo (w2.vg true) (wt.vg true)
        unfold EB at *
        omega
      -- the correction of the iterate
      have wd := addAssign_WF (WF_negate (mulAssign_WF w1 w1)) hx
      have bd : EB (B + 8 * c.elems + 40) (addAssign c (negate (mulAssign c y y)) x) :=
        (EB_add ((WF_negate (mulAssign_WF w1 w1)).vg true) (hx.vg true) (EB_negate (EB_mul (c := c) hB b1 b1))
          (bx.mono (by omega))).mono (by omega)
      have wterm := mulAssign_WF wv wd
      have bterm := EB_mul (c := c) (by omega) bv bd
      have wy := addAssign_WF w1 wterm
      have by' : EB (B + (8 * c.elems + 64)) (addAssign c y (mulAssign c
          (addAssign c w (mulAssign c w (addAssign c (negate (mulSigned c (mulAssign c y w) 2)) (one c))))
          (addAssign c (negate (mulAssign c y y)) x))) := by
        have := add_expo (w1.vg true) (wterm.vg true)
        unfold EB at *
        omega
      have hn0 : (0 : ℤ) ≤ (8 * c.elems + 64) * n := by positivity
      split
      · exact by'.mono (by push_cast; rw [mul_add]; omega)
      · have := sqrtLoop_EB hx n (digits * 2) _ _ (B + (8 * c.elems + 64)) wy wv (by omega) (bx.mono (by omega)) by'
          (bv.mono (by omega))
        exact this.mono (by push_cast; rw [mul_add]; omega)
    · have hn0 : (0 : ℤ) ≤ (8 * c.elems + 64) * ((n + 1 : ℕ) : ℤ) := by positivity
      exact b.mono (by omega)

/-- Growth of the exponent in one operation. -/
def expGrowth (c : Cfg) : ℤ := 256 * c.elems + 2100

theorem EB_sqrt {s : Bool} {c : Cfg} {B : ℤ} {x : EFloat} (hB : maxExp10 ≤ B) (hx : VG s c x) (bx : EB B x) :
    EB (B + expGrowth c) (calculateSqrt c x) := by
  have hg : 0 ≤ expGrowth c := by unfold expGrowth; positivity
  by_cases h1 : (x.isneg || !x.isfinite) = true
  · unfold calculateSqrt; rw [if_pos h1]; exact EB_zero (by omega) rfl
  have hn : x.neg = false := by
    cases h : x.neg
    · rfl
    · simp [EFloat.isneg, h] at h1
  have hf : x.cls = .finite := by
    by_contra h
    simp [EFloat.isfinite, h] at h1
  have wx : WF c x := ⟨hx.len, hx.limb, hx.exp8, hx.prec_lo, hx.prec_hi, fun a b => ⟨(hx.norm a b).1, hn⟩⟩
  by_cases h2 : (x.iszero || isone x) = true
  · unfold calculateSqrt; rw [if_neg h1, if_pos h2]; exact bx.mono (by omega)
  rw [Bool.or_eq_true, not_or] at h2
  have fx : FinWF c x := ⟨wx, hf⟩
  have px : 0 < val x := by
    rw [val_of_pos hn]; exact mag_pos wx (head_ne hf h2.1)
  rw [calculateSqrt_main fx px (by simpa using h2.2)]
  have hs := sqrt_start (c := c) fx px
  have hi := sqrtStart_inv (c := c) fx px
  unfold sqrtStart at hi ⊢
  simp only at hs hi ⊢
  generalize ofMantExp c (dsqrt (sqrtParts x).1) (Int.tdiv (sqrtParts x).2 2) = y at *
  generalize ofMantExp c (rnd ((1 / 2) / dsqrt (sqrtParts x).1)) (Int.tdiv (-(sqrtParts x).2) 2) = w at *
  obtain ⟨s1, s2, s3, s4, s5, s6⟩ := hs
  obtain ⟨q1, q2⟩ := abs_le.1 s5
  unfold Near at s6
  obtain ⟨q3, q4⟩ := abs_le.1 s6
  have hc : (1 / 10 ^ 12 : ℚ) ≤ 1 / 2 := by norm_num
  have hc' : (1 / 10 ^ 12 : ℚ) * val x ≤ 1 / 2 * val x := mul_le_mul_of_nonneg_right hc px.le
  have e1 := exp_sq fx s1 px s2 (by linarith) (by linarith)
  have e2 := exp_prod s1 s3 s2 s4 (by linarith) (by linarith)
  have := sqrtLoop_EB wx 32 12 y w (B + 17) s1.toWF s3.toWF (by omega) (bx.mono (by omega))
    (by have hm : maxExp10 = 2147483616 := rfl
        unfold EB at *; omega)
    (by have hm : maxExp10 = 2147483616 := rfl
        unfold EB at *; omega)
  refine EB.mono (show EB _ (sqrtLoop c x 32 12 y w) from this) ?_
  unfold expGrowth
  push_cast; omega

end EFX
