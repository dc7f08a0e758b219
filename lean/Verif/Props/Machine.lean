import Verif.Lemmas.Machine
import Verif.Lemmas.Concrete
/-!
# C01 validity after any history, C43 exponent growth, C40 moved-from numbers, C45 swap and
assignment, C34 range of results
-/

namespace EFX.Props
open EFX EFX.Spec

/-- An example program: constructors, aliased operations, division, swap, precision, floor. -/
def exProg : List Instr :=
  [.newSigned 0 (-7), .newLimbs 1 [12345678, 90000000] 8 true, .bin .mul 0 0, .bin .sub 1 1, .bin .div 1 0,
   .prec 1 20, .swap 0 1, .sqrt 1, .uns .div 0 3, .sig .mul 1 (-9), .floor 2 0, .decPart 3 1, .inc 3, .copy 0 3]

/-- C01, partial: any history of constructors, assignments, arithmetic (also aliased, also with built-in
integers), increments, negation, precision changes, swaps, square roots, parts, floor and ceiling, construction from
and reading of decimal literals on valid variables is free of undefined behaviour and leaves every variable valid.
Missing: `std::move` (theorem `C01_moves_partial`), direct calls of `calculate_inv` (`C01_inverse_partial`), and the
constructors outside `Proper`, which really break validity (`C01_history_refuted`). The bound `B` exists for any
finite number of variables. -/
theorem C01_history_partial (c : Cfg) (s : Regs) (p : List Instr) (B : ℤ) (hs : ∀ i, WF c (s i)) (hB : ∀ i, |(s i).exp| ≤ B)
    (hp : ∀ I ∈ p, I.Proper) (hm : ∀ I ∈ p, I.isMove = false) (hi : ∀ I ∈ p, ∀ i, I ≠ .inv i) :
    ∃ s', run c s p = some s' ∧ ∀ i, WF c (s' i) := by
  have h : MInv false true c (max B maxExp10) s :=
    ⟨fun i => Or.inr ((hs i).vg true), fun i => by have := abs_le.1 (hB i); unfold EB; omega⟩
  obtain ⟨s', e, h'⟩ := run_ok p _ s h (le_max_right _ _) hp
    (disciplined_of_no_move p _ s h (le_max_right _ _) hp (fun _ => hi) hm) (fun _ => hi) (fun _ => hm)
  exact ⟨s', e, fun i => ((h'.val i).resolve_left (by simp)).wf⟩


example : (∀ i : ℕ, WF cfg101 ((fun _ => mkDefault cfg101) i)) ∧ (∀ I ∈ exProg, I.Proper) ∧
    (∀ I ∈ exProg, I.isMove = false) ∧ (∀ I ∈ exProg, ∀ i, I ≠ .inv i) ∧
    ((run cfg101 (fun _ => mkDefault cfg101) exProg).map fun s => ((s 2).data.take 2, (s 2).neg, (s 2).prec, (s 1).data.headD 0)) =
      some ([167968, 42040817], true, 3, 63) := by
  refine ⟨fun _ => WF_mkClass _ _, ?_, by decide, by simp [exProg], by decide +kernel⟩
  intro I hI
  simp only [exProg, List.mem_cons, List.not_mem_nil, or_false] at hI
  rcases hI with rfl | rfl | rfl | rfl | rfl | rfl | rfl | rfl | rfl | rfl | rfl | rfl | rfl | rfl <;>
    simp [Instr.Proper, maxExp10]

/-- The literals `-12.5e3` and `.25`. -/
def exRead : List Lit := [⟨some true, "12".toList, some "5".toList, some (false, none, "3".toList)⟩, ⟨none, [], some "25".toList, none⟩]

/-- A history that reads text: construct from `-12.5e3`, read `.25` into the same variable after a change of precision. -/
example : (∀ l ∈ exRead, l.Valid ∧ l.Small) ∧ exRead.map Lit.text = ["-12.5e3".toList, ".25".toList] ∧
    (∀ I ∈ [Instr.newString 0 "-12.5e3".toList, .prec 0 20, .read 0 ".25".toList], I.Proper) ∧
    ((run cfg101 (fun _ => mkDefault cfg101) [.newString 0 "-12.5e3".toList, .newCopy 1 0, .prec 0 20, .read 0 ".25".toList]).map
      fun s => (s 1).neg && decide ((s 1).data.take 2 = [12500, 0] ∧ (s 0).data.take 2 = [25000000, 0] ∧ (s 0).exp = -8 ∧ (s 0).prec = 3)) = some true := by
  have hv : ∀ l ∈ exRead, l.Valid ∧ l.Small := by
    intro l hl
    simp only [exRead, List.mem_cons, List.not_mem_nil, or_false] at hl
    rcases hl with rfl | rfl
    · exact ⟨⟨by decide, by decide, by decide, by rintro up sg d h; cases h; decide⟩, ⟨by decide, by decide⟩⟩
    · exact ⟨⟨by decide, by decide, by decide, by rintro up sg d h; cases h⟩, ⟨by decide, by decide⟩⟩
  refine ⟨hv, by decide, ?_, by decide +kernel⟩
  intro I hI
  simp only [List.mem_cons, List.not_mem_nil, or_false] at hI
  rcases hI with rfl | rfl | rfl
  · have := hv _ (List.mem_cons_self : _ ∈ exRead)
    exact ⟨_, this.1, this.2, by decide⟩
  · trivial
  · exact ⟨_, (hv (⟨none, [], some "25".toList, none⟩) (by simp [exRead])).1, (hv _ (by simp [exRead])).2, by decide⟩

/-- C01 with direct calls of `calculate_inv`: the only defect that can arise is a sign on a zero. -/
theorem C01_inverse_partial (c : Cfg) (s : Regs) (p : List Instr) (B : ℤ) (hs : ∀ i, WF c (s i)) (hB : ∀ i, |(s i).exp| ≤ B)
    (hp : ∀ I ∈ p, I.Proper) (hm : ∀ I ∈ p, I.isMove = false) :
    ∃ s', run c s p = some s' ∧ ∀ i, ∃ b, WF c { s' i with neg := b } := by
  have h : MInv false false c (max B maxExp10) s :=
    ⟨fun i => Or.inr ((hs i).vg false), fun i => by have := abs_le.1 (hB i); unfold EB; omega⟩
  obtain ⟨s', e, h'⟩ := run_ok p _ s h (le_max_right _ _) hp
    (disciplined_of_no_move p _ s h (le_max_right _ _) hp (by simp) hm) (by simp) (fun _ => hm)
  exact ⟨s', e, fun i => vg_false_iff.1 ((h'.val i).resolve_left (by simp))⟩

/-- C01 with moves: as long as no operation needs a moved-from variable, nothing is undefined and every variable
is moved-from or valid (up to the sign of zero). -/
theorem C01_moves_partial (c : Cfg) (s : Regs) (p : List Instr) (B : ℤ) (hs : ∀ i, WF c (s i)) (hB : ∀ i, |(s i).exp| ≤ B)
    (hp : ∀ I ∈ p, I.Proper) (hd : Disciplined c s p) :
    ∃ s', run c s p = some s' ∧ ∀ i, (s' i).data = [] ∨ ∃ b, WF c { s' i with neg := b } := by
  have h : MInv true false c (max B maxExp10) s :=
    ⟨fun i => Or.inr ((hs i).vg false), fun i => by have := abs_le.1 (hB i); unfold EB; omega⟩
  obtain ⟨s', e, h'⟩ := run_ok p _ s h (le_max_right _ _) hp hd (by simp) (by simp)
  refine ⟨s', e, fun i => ?_⟩
  rcases h'.val i with ⟨_, hh⟩ | hv
  · left; unfold EFloat.hollow at hh; exact List.isEmpty_iff.1 hh
  · exact Or.inr (vg_false_iff.1 hv)

/-- Registers of the examples. -/
def exStart : Regs := fun _ => mkDefault cfg101

/-- C01 does not hold without restriction: the reciprocal of a huge negative number is a zero with a sign, and the
constructor from mantissa and exponent stores the digit 10^8, and reading the text `--1` stores the digit 2^32-1. -/
theorem C01_history_refuted :
    (∃ s, run cfg101 exStart [.newLimbs 0 [1, 81111] maxExp10 true, .inv 0] = some s ∧
      (s 0).cls = .finite ∧ (∀ d ∈ (s 0).data, d = 0) ∧ (s 0).neg = true ∧ ¬ WF cfg101 (s 0)) ∧
    (∃ s, run cfg101 exStart [.newMantExp 0 10 7] = some s ∧ 100000000 ∈ (s 0).data ∧ ¬ WF cfg101 (s 0)) ∧
    (∃ s, run cfg101 exStart [.newString 0 "--1".toList] = some s ∧ 4294967295 ∈ (s 0).data ∧ ¬ WF cfg101 (s 0)) := by
  have h : ofString cfg101 "--1".toList = some ⟨4294967295 :: List.replicate 15 0, 0, true, .finite, 16⟩ := by decide +kernel
  refine ⟨⟨_, rfl, ?_⟩, ⟨_, rfl, ?_⟩, ⟨exStart.put 0 ⟨4294967295 :: List.replicate 15 0, 0, true, .finite, 16⟩, ?_, ?_⟩⟩
  · decide +kernel
  · decide +kernel
  · show ((ofString cfg101 "--1".toList).map (exStart.put 0)).bind (fun s' => run cfg101 s' []) = _
    rw [h]; rfl
  · decide +kernel

/-- A history with moves: move away, assign again by move, use. -/
def exMoves : List Instr := [.newUnsigned 0 5, .newUnsigned 2 7, .move 1 0, .move 0 2, .bin .add 0 1, .newDefault 2, .inv 0]

example : (∀ I ∈ exMoves, I.Proper) ∧ ((run cfg101 exStart exMoves).map fun s => (s 0).data.take 2) = some [8333333, 33333333] := by
  refine ⟨?_, by decide +kernel⟩
  intro I hI
  simp only [exMoves, List.mem_cons, List.not_mem_nil, or_false] at hI
  rcases hI with rfl | rfl | rfl | rfl | rfl | rfl | rfl <;> simp [Instr.Proper]

/-! ### C43 -/

/-- C43: from variables in the advertised exponent range, after `k` operations every exponent is at most the range
limit plus a constant times `k`; for at most 10^8 operations even the sum of two exponents plus the largest
alignment shift is below 2^63, for every configuration. -/
theorem C43_exponents (c : Cfg) (s : Regs) (p : List Instr) (hs : ∀ i, WF c (s i)) (hB : ∀ i, |(s i).exp| ≤ maxExp10)
    (hp : ∀ I ∈ p, I.Proper) (hd : Disciplined c s p) :
    ∃ s', run c s p = some s' ∧ ∀ i, |(s' i).exp| ≤ maxExp10 + (256 * c.elems + 2100) * p.length ∧
      (p.length ≤ 10 ^ 8 → ∀ j, |(s' i).exp| + |(s' j).exp| + 8 * c.elems < 2 ^ 63) := by
  have h : MInv true false c maxExp10 s :=
    ⟨fun i => Or.inr ((hs i).vg false), fun i => by have := abs_le.1 (hB i); unfold EB; omega⟩
  obtain ⟨s', e, h'⟩ := run_ok p _ s h (le_refl _) hp hd (by simp) (by simp)
  have key : ∀ i, |(s' i).exp| ≤ maxExp10 + (256 * c.elems + 2100) * p.length := by
    intro i
    have := h'.eb i
    unfold EB expGrowth at this
    exact abs_le.2 this
  refine ⟨s', e, fun i => ⟨key i, fun hl j => ?_⟩⟩
  have hN := elems_le c
  have k1 := key i
  have k2 := key j
  have hm : maxExp10 = 2147483616 := rfl
  have hmul : (256 * (c.elems : ℤ) + 2100) * (p.length : ℤ) ≤ (256 * 134217732 + 2100) * 10 ^ 8 := by
    apply mul_le_mul _ (by exact_mod_cast hl) (by positivity) (by norm_num)
    omega
  rw [hm] at k1 k2
  norm_num at hmul ⊢
  omega

example : (∀ I ∈ exProg, I.Proper) → (∀ i, |(exStart i).exp| ≤ maxExp10) ∧ Disciplined cfg101 exStart exProg := by
  intro hp
  have hx : ∀ i, |(exStart i).exp| ≤ maxExp10 := by intro i; show |(0 : ℤ)| ≤ 2147483616; norm_num
  refine ⟨hx, ?_⟩
  apply disciplined_of_no_move (b := false) exProg maxExp10 exStart _ (le_refl _) hp (by simp) (by decide)
  exact ⟨fun i => Or.inr ((WF_mkClass cfg101 .finite).vg false), fun i => by have := abs_le.1 (hx i); unfold EB; omega⟩

/-! ### C40, C45 -/

/-- C40, partial: a moved-from variable that is assigned by *move* assignment (from another variable, or from a
temporary) holds exactly the new value, and the moved value arrived unchanged. -/
theorem C40_move_partial (c : Cfg) (s : Regs) (i j k : ℕ) (hij : i ≠ j) (hki : k ≠ i) (hkj : k ≠ j) :
    ∃ s', run c s [.move j i, .move i k] = some s' ∧ s' i = s k ∧ s' j = s i := by
  refine ⟨_, rfl, ?_, ?_⟩
  · simp [Regs.put, hij, hki, hkj, hij.symm, hki.symm, hkj.symm]
  · simp [Regs.put, hij, hki, hkj, hij.symm, hki.symm, hkj.symm]

/-- C40 fails for copy assignment: whatever the values, after `j = std::move(i); i = k` the variable `i` has no
digits, and any use of it is undefined. -/
theorem C40_copy_refuted (c : Cfg) (s : Regs) (i j k : ℕ) (hij : i ≠ j) (hki : k ≠ i) (hkj : k ≠ j) :
    ∃ s', run c s [.move j i, .copy i k] = some s' ∧ (s' i).data = [] ∧ exec c s' (.neg i) = none ∧
      ∀ o l, exec c s' (.bin o i l) = none ∧ exec c s' (.bin o l i) = none := by
  refine ⟨_, rfl, ?_⟩
  simp only [if_neg hij.symm, if_neg hki.symm]
  have h : ((Regs.put (Regs.put s j (s i)) i { s i with data := [] }).put i
      (copyAssign ((Regs.put (Regs.put s j (s i)) i { s i with data := [] }) i)
        ((Regs.put (Regs.put s j (s i)) i { s i with data := [] }) k)) i).data = [] := by
    simp [Regs.put, copyAssign, copyData]
  refine ⟨h, ?_, fun o l => ⟨?_, ?_⟩⟩ <;> simp [exec, need, EFloat.hollow, h]

example : (∃ s', run cfg101 exStart [.newUnsigned 0 5, .newUnsigned 2 7, .move 1 0, .copy 0 2] = some s' ∧ (s' 0).data = [] ∧
    (s' 2).data.headD 0 = 7 ∧ (s' 1).data.headD 0 = 5) := by
  refine ⟨_, rfl, ?_⟩
  decide +kernel

/-- C45: `swap` exchanges two variables completely and changes no other; assignment makes the destination equal to
the source in all members and changes no other variable; both also when the variables coincide. -/
theorem C45_swap_assign (c : Cfg) (s : Regs) (i j : ℕ) (hi : WF c (s i)) (hj : WF c (s j)) :
    (∃ s', run c s [.swap i j] = some s' ∧ s' i = s j ∧ s' j = s i ∧ ∀ k, k ≠ i → k ≠ j → s' k = s k) ∧
    (∃ s', run c s [.copy i j] = some s' ∧ s' i = s j ∧ s' j = s j ∧ ∀ k, k ≠ i → s' k = s k) ∧
    (∃ s', run c s [.newCopy i j] = some s' ∧ s' i = s j ∧ s' j = s j ∧ ∀ k, k ≠ i → s' k = s k) := by
  have hl : (s i).data.length = (s j).data.length := by rw [hi.len, hj.len]
  refine ⟨⟨_, rfl, ?_⟩, ⟨_, rfl, ?_⟩, ⟨_, rfl, ?_⟩⟩
  · split
    · rename_i h; subst h; simp
    · rename_i h
      rw [copyAssign_eq hl, copyAssign_eq hl.symm]
      refine ⟨by simp [Regs.put, h], by simp [Regs.put], fun k h1 h2 => by simp [Regs.put, h1, h2]⟩
  · split
    · rename_i h; subst h; simp
    · rename_i h
      rw [copyAssign_eq hl]
      refine ⟨by simp [Regs.put], by simp [Regs.put, Ne.symm h], fun k h1 => by simp [Regs.put, h1]⟩
  · refine ⟨by simp [Regs.put], by simp only [Regs.put]; split <;> rfl, fun k h1 => by simp [Regs.put, h1]⟩

example : WF cfg101 exA ∧ WF cfg101 exB := ⟨exA_fin.toWF, exB_fin.toWF⟩

/-! ### C34 -/

/-- The stored number is finite, valid and not above `numeric_limits<e_float>::max()` in magnitude. -/
structure FinRange (c : Cfg) (x : EFloat) : Prop where
  fin : FinWF c x
  le : |val x| ≤ val (valueMax c)

/-- The result is finite and in range, or an infinity. -/
def RangeOrInf (c : Cfg) (x : EFloat) : Prop := FinRange c x ∨ ∃ b, denote x = .inf b

theorem FinRange.neg {c : Cfg} {x : EFloat} (h : FinRange c x) : FinRange c (negate x) :=
  ⟨FinWF_negate h.1, by rw [negate_val h.1, abs_neg]; exact h.2⟩

theorem denote_infSigned (c : Cfg) (b : Bool) : denote (infSigned c b) = .inf b := by
  rw [infSigned_eq]; rfl

theorem add_range {c : Cfg} {x v : EFloat} (hx : FinRange c x) (hv : FinRange c v) : RangeOrInf c (addAssign c x v) := by
  obtain ⟨z, z1, z2, z3, z4, z5, z6, z7, z8⟩ := addAssign_core hx.1 hv.1
  have mx := hx.2
  have mv := hv.2
  rw [valueMax_val, abs_val] at mx mv
  by_cases hk : keep c x v
  · rw [z7 (Or.inl hk)]
    refine Or.inl ⟨z1, ?_⟩
    rw [valueMax_val, abs_val]
    exact le_trans (z5 hk) (max_le mx mv)
  · by_cases hm : mag z ≤ mag (valueMax c)
    · rw [z7 (Or.inr hm)]
      exact Or.inl ⟨z1, by rw [valueMax_val, abs_val]; exact hm⟩
    · rw [z8 ⟨hk, not_le.1 hm⟩]
      exact Or.inr ⟨_, denote_infSigned c _⟩

theorem RangeOrInf.neg {c : Cfg} {x : EFloat} (h : RangeOrInf c x) : RangeOrInf c (negate x) := by
  rcases h with h | ⟨b, h⟩
  · exact Or.inl h.neg
  · right
    have hc : x.cls = .inf := by
      unfold denote at h
      cases hx : x.cls <;> rw [hx] at h <;> simp at h ⊢
    refine ⟨(negate x).neg, ?_⟩
    unfold denote; rw [negate_cls, hc]

theorem exp_le_of_range {c : Cfg} {x : EFloat} (hx : FinRange c x) (z : x.data.headD 0 ≠ 0) : x.exp ≤ maxExp10 := by
  by_contra h
  have h1 := mag_lt_of_exp_lt (valueMax_WF c).1.toWF hx.1.toWF z (by rw [valueMax_exp]; omega)
  have h2 := hx.2
  rw [valueMax_val, abs_val] at h2
  exact absurd h2 (not_le.2 h1)

theorem finRange_of_exp {c : Cfg} {x : EFloat} (hx : FinWF c x) (h : x.exp < maxExp10) : FinRange c x :=
  ⟨hx, inRange_of_exp hx h⟩

/-- C34, partial: sums, differences, increments, decrements with in-range operands are in range or infinite, and so
are sums and differences with built-in integers; any finite product with a built-in signed integer is in range.
Missing: products (`C34_product_partial`), which can exceed `max` (`C34_product_refuted`). -/
theorem C34_range_partial (c : Cfg) (x v : EFloat) (n : ℤ) (hx : FinRange c x) (hv : FinRange c v)
    (hn : -2 ^ 63 < n ∧ n < 2 ^ 63) :
    RangeOrInf c (add c x v) ∧ RangeOrInf c (sub c x v) ∧ RangeOrInf c (incr c x) ∧ RangeOrInf c (decr c x) ∧
    RangeOrInf c (addSigned c x n) ∧ RangeOrInf c (subSigned c x n) ∧
    ((mulSigned c x n).cls = .finite → FinRange c (mulSigned c x n)) := by
  have hsub : ∀ {y w : EFloat}, FinRange c y → FinRange c w → RangeOrInf c (subAssign c y w) :=
    fun hy hw => (add_range hy.neg hw).neg
  have hu : ∀ m : ℕ, m < 18446744073709551616 → FinRange c (ofUnsigned c m) := by
    intro m hm
    obtain ⟨a1, a2, a3, a4, a5, a6, a7⟩ := ofUnsigned_spec c hm
    exact finRange_of_exp a1 (by have hm : maxExp10 = 2147483616 := rfl
                                 omega)
  have hone : FinRange c (one c) := hu 1 (by norm_num)
  have hsig : ∀ m : ℤ, m.natAbs < 18446744073709551616 → RangeOrInf c (addSigned c x m) := by
    intro m hm
    unfold addSigned addUnsigned
    split
    · exact (add_range hx.neg (hu _ hm)).neg
    · exact add_range hx (hu _ hm)
  have hn1 : n.natAbs < 18446744073709551616 := by omega
  refine ⟨add_range hx hv, hsub hx hv, add_range hx hone, hsub hx hone, hsig n hn1, hsig (-n) (by rwa [Int.natAbs_neg]), ?_⟩
  intro hf
  have hy : WF c (if n < 0 then negate (mulUnsigned c x n.natAbs) else mulUnsigned c x n.natAbs) := by
    have h := WF_mulUnsigned (hx.1.toWF.vg true) hn1
    split
    · exact WF_negate h
    · exact h
  revert hf
  unfold mulSigned
  simp only
  generalize (if n < 0 then negate (mulUnsigned c x n.natAbs) else mulUnsigned c x n.natAbs) = y at *
  by_cases hg : gt (fabs y) (valueMax c) = true
  · rw [if_pos hg, infSigned_eq]
    intro h
    exact absurd h (by simp)
  · rw [if_neg hg]
    intro hf
    have fy : FinWF c y := ⟨hy, hf⟩
    rw [gt_iff (FinWF_fabs fy) (valueMax_WF c).1, fabs_val fy] at hg
    exact ⟨fy, not_lt.1 hg⟩

example : FinRange cfg101 exA ∧ FinRange cfg101 (valueMax cfg101) ∧
    add cfg101 (valueMax cfg101) (valueMax cfg101) = infV cfg101 ∧
    (add cfg101 (valueMax cfg101) exA).cls = .finite ∧ (mulSigned cfg101 (valueMax cfg101) (-1)).cls = .finite ∧
    (mulSigned cfg101 (valueMax cfg101) (-2)).cls = .inf := by
  refine ⟨finRange_of_exp exA_fin (by decide), ⟨(valueMax_WF _).1, ?_⟩, by decide +kernel, by decide +kernel, by decide +kernel, by decide +kernel⟩
  rw [valueMax_val, abs_of_nonneg (mag_nonneg _)]

theorem prod_exp_lt {c : Cfg} {x v : EFloat} {M : ℤ} (hx : FinWF c x) (hv : FinWF c v)
    (zx : x.data.headD 0 ≠ 0) (zv : v.data.headD 0 ≠ 0) (h : |val x * val v| < (10 : ℚ) ^ M) : x.exp + v.exp < M := by
  rw [abs_mul, abs_val, abs_val] at h
  refine (zpow_lt_zpow_iff_right₀ (by norm_num : (1 : ℚ) < 10)).1 (lt_of_le_of_lt ?_ h)
  rw [zpow_add₀ (by norm_num)]
  exact mul_le_mul (mag_ge hx.toWF zx) (mag_ge hv.toWF zv) (by positivity) (mag_nonneg x)

theorem exp_ge_of_mag {c : Cfg} {x : EFloat} {M : ℤ} (hx : FinWF c x) (d8 : (8 : ℤ) ∣ M)
    (h : (10 : ℚ) ^ M ≤ |val x|) : M ≤ x.exp ∧ x.data.headD 0 ≠ 0 := by
  rw [abs_val] at h
  constructor
  · have h1 := mag_lt hx.toWF
    have h2 := (zpow_lt_zpow_iff_right₀ (by norm_num : (1 : ℚ) < 10)).1 (lt_of_le_of_lt h h1)
    have h3 := hx.exp8
    omega
  · intro z
    have : mag x = 0 := mag_zero_of_iszero hx z
    rw [this] at h
    have : (0 : ℚ) < (10 : ℚ) ^ M := by positivity
    linarith

/-- C34, partial, products: for operands in the advertised range (zero, or between `10^-max` and `max` in
magnitude) a product is an infinity or finite below `10^(max_exponent10 + 8)`, and a product below the range is zero. -/
theorem C34_product_partial (c : Cfg) (x v : EFloat) (hx : FinRange c x) (hv : FinRange c v)
    (lx : val x = 0 ∨ (10 : ℚ) ^ (-maxExp10) ≤ |val x|) (lv : val v = 0 ∨ (10 : ℚ) ^ (-maxExp10) ≤ |val v|) :
    ((∃ b, denote (mul c x v) = .inf b) ∨ (FinWF c (mul c x v) ∧ |val (mul c x v)| < (10 : ℚ) ^ (maxExp10 + 8))) ∧
    (|val x * val v| < (10 : ℚ) ^ (-maxExp10) → denote (mul c x v) = .fin 0) := by
  have d8 : (8 : ℤ) ∣ -maxExp10 := by decide
  have hz0 : denote (zero c) = .fin 0 := by
    unfold denote
    rw [(FinWF_zero c).fin]
    simp only
    rw [val_zero]
  have low : ∀ {y : EFloat}, FinRange c y → (val y = 0 ∨ (10 : ℚ) ^ (-maxExp10) ≤ |val y|) → y.data.headD 0 ≠ 0 → -maxExp10 ≤ y.exp := by
    intro y hy h z
    rcases h with h | h
    · exfalso
      have h1 := mag_ge hy.1.toWF z
      have h2 : mag y = 0 := by rw [← abs_val, h, abs_zero]
      rw [h2] at h1
      exact absurd h1 (not_le.2 (by positivity))
    · exact (exp_ge_of_mag hy.1 d8 h).1
  have zero_case : (x.data.headD 0 = 0 ∨ v.data.headD 0 = 0) → mul c x v = zero c := fun h => mulAssignG_zero hx.1.fin hv.1.fin h
  have small : |val (zero c)| < (10 : ℚ) ^ (maxExp10 + 8) := by
    rw [val_zero, abs_zero]; exact zpow_pos (by norm_num) _
  by_cases hz : x.data.headD 0 = 0 ∨ v.data.headD 0 = 0
  · rw [zero_case hz]
    exact ⟨Or.inr ⟨FinWF_zero c, small⟩, fun _ => hz0⟩
  push Not at hz
  obtain ⟨zx, zv⟩ := hz
  have ex := low hx lx zx
  have ev := low hv lv zv
  have ux := exp_le_of_range hx zx
  have uv := exp_le_of_range hv zv
  have gx := hx.1.exp8
  have gv := hv.1.exp8
  have hm : maxExp10 = 2147483616 := rfl
  have hmul : mul c x v = mulAssignG c false x v := rfl
  rw [hmul]
  constructor
  · by_cases ho : MulOver x v
    · rw [(mulAssignG_unfold hx.1 hv.1 zx zv).1 ho]
      exact Or.inl ⟨_, denote_infSigned c _⟩
    by_cases hu : MulUnder x v
    · rw [(mulAssignG_unfold hx.1 hv.1 zx zv).2.1 hu]
      exact Or.inr ⟨FinWF_zero c, small⟩
    obtain ⟨r1, r2, r3, r4, r5, -⟩ := mulAssignG_spec (self := false) hx.1 hv.1 zx zv (by simp) ho hu rfl rfl
    refine Or.inr ⟨r1, ?_⟩
    rw [abs_val]
    refine lt_of_lt_of_le (mag_lt r1.toWF) ?_
    apply zpow_le_zpow_right₀ (by norm_num)
    unfold MulOver at ho
    clear hm small lx lv
    have hm : maxExp10 = 2147483616 := rfl
    omega
  · intro h
    have h1 := prod_exp_lt hx.1 hv.1 zx zv h
    clear h small lx lv
    rw [(mulAssignG_unfold hx.1 hv.1 zx zv).2.1 ⟨by omega, by omega, by omega⟩]
    exact hz0

/-- Just below the range: `10^(-2^30) · 10^(-2^30)`-like factors give zero. -/
example : mul cfg101 (mkLimbs cfg101 [5] (-1073741808) true) (mkLimbs cfg101 [7] (-1073741816) false) = zero cfg101 ∧
    (mul cfg101 (mkLimbs cfg101 [99999999] 1073741808 true) (mkLimbs cfg101 [7] 1073741800 false)).cls = .finite ∧
    (mul cfg101 (mkLimbs cfg101 [5] 1073741808 true) (mkLimbs cfg101 [7] 1073741808 false)).cls = .inf := by
  decide +kernel

/-- C34 fails for products: two in-range numbers whose finite product is above `max`, and twice `max` by
`mul_unsigned_long_long` is finite. -/
theorem C34_product_refuted :
    (∃ x v : EFloat, FinRange cfg101 x ∧ FinRange cfg101 v ∧ FinWF cfg101 (mul cfg101 x v) ∧
      val (valueMax cfg101) < val (mul cfg101 x v)) ∧
    (FinRange cfg101 (valueMax cfg101) ∧ FinWF cfg101 (mulUnsigned cfg101 (valueMax cfg101) 2) ∧
      val (valueMax cfg101) < val (mulUnsigned cfg101 (valueMax cfg101) 2)) := by
  constructor
  · have h1 : FinWF cfg101 (mkLimbs cfg101 [99999999] (maxExp10 - 8) false) := by decide +kernel
    have h2 : FinWF cfg101 (mkLimbs cfg101 [99999999] 0 false) := by decide +kernel
    have h3 : FinWF cfg101 (mul cfg101 (mkLimbs cfg101 [99999999] (maxExp10 - 8) false) (mkLimbs cfg101 [99999999] 0 false)) := by
      decide +kernel
    refine ⟨_, _, finRange_of_exp h1 (by decide), finRange_of_exp h2 (by decide), h3, ?_⟩
    rw [← gt_iff h3 (valueMax_WF cfg101).1]
    decide +kernel
  · have h3 : FinWF cfg101 (mulUnsigned cfg101 (valueMax cfg101) 2) := by decide +kernel
    refine ⟨⟨(valueMax_WF _).1, by rw [valueMax_val, abs_of_nonneg (mag_nonneg _)]⟩, h3, ?_⟩
    rw [← gt_iff h3 (valueMax_WF cfg101).1]
    decide +kernel

end EFX.Props
