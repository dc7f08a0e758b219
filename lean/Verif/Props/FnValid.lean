import Verif.Model.ElementaryE
import Verif.Lemmas.FnClosure
import Verif.Lemmas.Closure
import Verif.Props.Text
import Verif.Lemmas.TextWrite
/-! C61: the elementary functions keep the representation valid. -/

namespace EFX.Props
open EFX EFX.Spec

/-- Tables with valid objects. -/
structure TablesOK (c : Cfg) (T : Tables) : Prop where
  pi : WF c T.pi
  ln2 : WF c T.ln2
  ln10 : WF c T.ln10
  e : WF c T.e
  sqrt2 : WF c T.sqrt2
  asin0 : ∀ x, WF c x → WF c (T.asin0 x)
  atan0 : ∀ x, WF c x → WF c (T.atan0 x)
  log0 : ∀ x y, WF c x → T.log0 x = some y → WF c y
  rootn0 : ∀ x p, WF c x → WF c (T.rootn0 x p)

theorem i64_bound (n : ℤ) : -9223372036854775808 ≤ i64 n ∧ i64 n < 9223372036854775808 := by
  unfold i64
  have h1 := Int.le_bmod (x := n) (m := 18446744073709551616) (by norm_num)
  have h2 := Int.bmod_lt (x := n) (m := 18446744073709551616) (by norm_num)
  constructor
  · exact le_trans (by norm_num) h1
  · exact lt_of_lt_of_le h2 (by norm_num)

/-- The literal `1E<m>`. -/
def tenLit (m : ℤ) : Lit := ⟨none, ['1'], none, some (true, if m < 0 then some true else none, decStr m.natAbs)⟩

theorem tenLit_text (m : ℤ) : (tenLit m).text = '1' :: 'E' :: (if m < 0 then '-' :: decStr m.natAbs else decStr m.natAbs) := by
  unfold Lit.text tenLit
  by_cases h : m < 0
  · simp [h, signText]
  · simp [h, signText]

theorem tenLit_valid {m : ℤ} (hm : m.natAbs < 2 ^ 63) : (tenLit m).Valid ∧ (tenLit m).text.length < 2147483600 ∧
    (tenLit m).expo = m := by
  have hp : (2 : ℕ) ^ 63 < 10 ^ 20 := by norm_num
  obtain ⟨h1, h2, h3, _⟩ := decStr_spec (n := m.natAbs) (by omega)
  have hl : (decStr m.natAbs).length ≤ 20 := by
    by_cases h0 : m.natAbs = 0
    · rw [h0]; decide
    · have := (decStr_len (n := m.natAbs) (by omega) h0).1
      by_contra hc
      have h5 : 10 ^ 20 ≤ 10 ^ ((decStr m.natAbs).length - 1) := Nat.pow_le_pow_right (by norm_num) (by omega)
      omega
  refine ⟨⟨(by decide : IsDigits ['1']), (by decide : IsDigits []), by simp [tenLit], ?_⟩, ?_, ?_⟩
  · intro up sg d hd
    simp only [tenLit, Option.some.injEq, Prod.mk.injEq] at hd
    obtain ⟨_, _, rfl⟩ := hd
    exact ⟨digits_iff.2 h1, h3⟩
  · rw [tenLit_text]
    split_ifs <;> simp only [List.length_cons] <;> omega
  · have e : number (decStr m.natAbs) = m.natAbs := by rw [number_eq h1, h2]
    unfold Lit.expo tenLit
    by_cases hn : m < 0
    · simp only [hn, if_true, e]
      omega
    · simp only [hn, if_false, e]
      simp only [reduceCtorEq, if_false]
      omega

theorem WF_nan (c : Cfg) : WF c (nanV c) := by
  have := elems_ge c
  refine ⟨by simp [nanV, mkClass, zeros], ?_, by simp [nanV, mkClass], by simp only [nanV, mkClass]; omega, le_refl _, ?_⟩
  · intro d hd
    simp only [nanV, mkClass, zeros, List.mem_replicate] at hd
    omega
  · intro h; exact absurd h (by simp [nanV, mkClass])

theorem WF_infSigned (c : Cfg) (s : Bool) : WF c (infSigned c s) := by
  have := elems_ge c
  rw [infSigned_eq]
  refine ⟨by simp [zeros], ?_, by simp, by simp only; omega, le_refl _, ?_⟩
  · intro d hd
    simp only [zeros, List.mem_replicate] at hd
    omega
  · intro h; exact absurd h (by simp)

theorem tenText_WF (c : Cfg) (n : ℤ) : WF c (tenText c n) := by
  have hN := elems_ge c
  have h1 := Int.le_bmod (x := n) (m := 9223372036854775808) (by norm_num)
  have h2 := Int.bmod_lt (x := n) (m := 9223372036854775808) (by norm_num)
  unfold tenText
  simp only
  generalize Int.bmod n 9223372036854775808 = m at *
  have hm : m.natAbs < 2 ^ 63 := by
    norm_num at h1 h2 ⊢
    omega
  obtain ⟨v1, v2, v3⟩ := tenLit_valid hm
  rw [← tenLit_text]
  have hd : (mkDefault c).data.length = c.elems := by simp [mkDefault, zeros]
  rcases rdString_spec c v1 v2 (by rw [v3]; exact hm) hd with ⟨_, hr⟩ | ⟨l, E, hr, g1, g2, g3, g4, _⟩
  · unfold ofString
    rw [hr]
    exact (FinWF_zero c).toWF
  · unfold ofString
    rw [hr]
    simp only [Option.getD_some]
    split_ifs
    · exact WF_infSigned c _
    · exact (FinWF_zero c).toWF
    · exact ⟨g2, g3, g1, by simp only [mkDefault]; omega, le_refl _, fun _ h => absurd h g4⟩

theorem natAbs_i64 (n : ℤ) : (i64 n).natAbs < 18446744073709551616 := by
  have := i64_bound n
  omega

theorem WF_divSigned {c : Cfg} {x : EFloat} {n : ℤ} (hx : WF c x) (hn : n.natAbs < 18446744073709551616) : WF c (divSigned c x n) := by
  have := VG_divUnsigned (hx.vg true) hn
  unfold divSigned
  simp only
  split_ifs
  · exact (VG_negate (this.vg true)).wf
  · exact this

theorem WF_half (c : Cfg) : WF c (half c) := by
  have := elems_ge c
  refine ⟨by simp [half, mkLimbs]; omega, ?_, by simp [half, mkLimbs], by simp only [half, mkLimbs]; omega, le_refl _, ?_⟩
  · intro d hd
    simp only [half, mkLimbs, List.mem_append, List.mem_replicate] at hd
    rcases hd with hd | hd
    · have := List.mem_of_mem_take hd
      simp at this
      omega
    · omega
  · intro _ h
    exfalso
    obtain ⟨k, hk⟩ : ∃ k, c.elems = k + 1 := ⟨c.elems - 1, by omega⟩
    simp [half, mkLimbs, hk] at h

/-- The valid objects are closed under the operations used by the elementary functions. -/
theorem closed_WF {c : Cfg} {T : Tables} (hT : TablesOK c T) : (efArith c T).Closed (WF c) where
  add := fun _ _ hx hy => (VG_add (hx.vg true) (hy.vg true)).wf
  sub := fun _ _ hx hy => (VG_sub (hx.vg true) (hy.vg true)).wf
  mul := fun _ _ hx hy => WF_mul (hx.vg true) (hy.vg true)
  div := fun _ _ hx hy => WF_div (hx.vg true) (hy.vg true)
  neg := fun _ hx => (VG_negate (hx.vg true)).wf
  mulI := fun _ n hx => WF_mulSigned (hx.vg true) (natAbs_i64 n)
  divI := fun _ n hx => WF_divSigned hx (natAbs_i64 n)
  intPart := fun _ hx => (VG_integerPart (hx.vg true)).wf
  decPart := fun _ hx => (VG_decimalPart (hx.vg true)).wf
  mulInv := fun _ _ hx hy => WF_mul (hx.vg true) (VG_inv (hy.vg true)).1
  sqrt := fun _ hx => WF_sqrt (hx.vg true)
  incr := fun _ hx => (VG_add (hx.vg true) ((WF_one c).vg true)).wf
  setPrec := fun _ d hx => (VG_setPrecision (hx.vg true) d).wf
  ofI := fun n => (ofSigned_spec c (i64_bound n).1 (i64_bound n).2).1.toWF
  ten := tenText_WF c
  half := WF_half c
  pi := hT.pi
  ln2 := hT.ln2
  ln10 := hT.ln10
  e := hT.e
  sqrt2 := hT.sqrt2
  nan := WF_nan c
  inf := WF_infSigned c false
  asin0 := hT.asin0
  atan0 := hT.atan0
  log0 := hT.log0
  rootn0 := hT.rootn0

open Fn in
/-- C61.  For valid arguments every elementary function returns a valid object, whatever class or precision the
arguments have, for every digit count and for any valid estimates and constants. -/
theorem C61_valid {c : Cfg} {T : Tables} (hT : TablesOK c T) {x y z w : EFloat} (hx : WF c x) (hy : WF c y) (hz : WF c z)
    (hw : WF c w) (a b : List EFloat) (ha : ∀ v ∈ a, WF c v) (hb : ∀ v ∈ b, WF c v) (p : ℤ) :
    let A := efArith c T
    (WF c (sin A x) ∧ WF c (cos A x) ∧ WF c (tan A x) ∧ WF c (csc A x) ∧ WF c (sec A x) ∧ WF c (cot A x)) ∧
    (WF c (asin A x) ∧ WF c (acos A x) ∧ WF c (atan A x) ∧ WF c (atan2 A y x)) ∧
    (WF c (exp A x) ∧ WF c (log A x) ∧ WF c (log10 A x) ∧ WF c (loga A y x) ∧ WF c (log1p A x) ∧ WF c (log1p1m2 A x)) ∧
    (WF c (pow A x y) ∧ WF c (Fn.pown A x p) ∧ WF c (powI A x p) ∧ WF c (pow2 A p) ∧ WF c (rootnInverse A x p)) ∧
    (WF c (sinh A x) ∧ WF c (cosh A x) ∧ WF c (tanh A x) ∧ WF c (asinh A x) ∧ WF c (acosh A x) ∧ WF c (atanh A x)) ∧
    (WF c (hyp0f0 A x) ∧ WF c (hyp0f1 A y x) ∧ WF c (hyp1f0 A y x) ∧ WF c (hyp1f1 A y z x) ∧ WF c (hyp2f0 A y z x) ∧
      WF c (hyp2f1 A y z w x) ∧ WF c (hypPfq A a b x)) := by
  have h := closed_WF hT
  have hs := c_sin h hx
  have hc := c_cos h hx
  have hl := c_log h hx
  exact ⟨⟨hs, hc, h.div _ _ hs hc, h.div _ _ (c_one h) hs, h.div _ _ (c_one h) hc, h.div _ _ hc hs⟩,
    ⟨c_asin h hx, c_acos h hx, c_atan h hx, c_atan2 h hy hx⟩,
    ⟨c_exp h hx, hl, h.div _ _ hl h.ln10, h.div _ _ hl (c_log h hy), c_logAtOne h hx, c_log1p1m2 h hx⟩,
    ⟨c_powF h 2 hx hy, c_pown h hx p, c_powI h hx p, c_pow2 h p, c_rootnInverse h hx p⟩,
    ⟨c_sinh h hx, c_cosh h hx, c_tanh h hx, c_asinh h hx, c_acosh h hx, c_atanh h hx⟩,
    c_hyp0f0 h hx, c_hyp0f1 h hy hx, c_hyp1f0 h hy hx, c_hyp1f1 h hy hz hx, c_hyp2f0 h hy hz hx, c_hyp2f1 h hy hz hw hx,
    c_hypPfq h ha hb hx⟩

/-- C61 for `rootn` and `cbrt`: as `calculate_inv` may return a zero with sign, these only keep the other conditions
of a valid object. -/
theorem C61_rootn {c : Cfg} {T : Tables} (hT : TablesOK c T) {x : EFloat} (hx : WF c x) (p : ℤ) :
    VG false c (Fn.rootn (efArith c T) x p) ∧ VG false c (Fn.cbrt (efArith c T) x) :=
  have key := fun p => Fn.c_rootn (closed_WF hT) (Q := VG false c) (fun _ h => h.vg false) (fun _ h => (VG_inv (h.vg true)).1) hx p
  ⟨key p, key 3⟩

/-- Tables for examples: the constants to 60 digits, the arguments as estimates. -/
def exTables (c : Cfg) : Tables where
  pi := (ofString c "3.14159265358979323846264338327950288419716939937510582097494".toList).getD (zero c)
  ln2 := (ofString c "0.693147180559945309417232121458176568075500134360255254120680".toList).getD (zero c)
  ln10 := (ofString c "2.30258509299404568401799145468436420760110148862877297603333".toList).getD (zero c)
  e := (ofString c "2.71828182845904523536028747135266249775724709369995957496696".toList).getD (zero c)
  sqrt2 := (ofString c "1.41421356237309504880168872420969807856967187537694807317667".toList).getD (zero c)
  maxExp := ofSigned c 2147483616
  asin0 := fun x => x
  atan0 := fun x => x
  log0 := fun _ => none
  rootn0 := fun _ _ => one c

theorem exTables_OK : TablesOK cfg101 (exTables cfg101) :=
  ⟨by decide +kernel, by decide +kernel, by decide +kernel, by decide +kernel, by decide +kernel, fun _ h => h, fun _ h => h,
    fun _ _ _ h => absurd h (by simp [exTables]), fun _ _ _ => WF_one _⟩

/-- The hypotheses of C61 are met. -/
example : WF cfg101 (Fn.sin (efArith cfg101 (exTables cfg101)) exA) :=
  (C61_valid exTables_OK exA_fin.toWF exA_fin.toWF exA_fin.toWF exA_fin.toWF [] [] (by simp) (by simp) 0).1.1

end EFX.Props
