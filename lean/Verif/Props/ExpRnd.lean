import Verif.Lemmas.RndExp2
import Verif.Lemmas.RndInst
import Verif.Props.Constants
/-!
# C89: the exponential function of `e_float`, with all rounding
-/

namespace EFX.Props
open EFX EFX.Spec

/-- The working precision of a number read from a string. -/
theorem ofString_prec {c : Cfg} {s : Str} {x : EFloat} (h : ofString c s = some x) : x.prec = c.elems := by
  have hr : ∀ y : EFloat, y.prec = c.elems → (rdRange c y).prec = c.elems := by
    intro y hy
    have key : ∀ z : EFloat, z.prec = c.elems →
        (if z.exp ≤ minExp10 then (if z.exp = minExp10 then (if isone { z with exp := 0 } then zero c else z) else zero c)
          else z).prec = c.elems := by
      intro z hz
      split_ifs <;> first | rfl | exact hz
    unfold rdRange
    apply key
    split_ifs
    · unfold infSigned
      split <;> rfl
    · exact hy
  unfold ofString rdString at h
  simp only [Option.bind_eq_bind, Option.bind_eq_some_iff, Option.pure_def] at h
  obtain ⟨a, -, h⟩ := h
  split at h
  · cases h; rfl
  · rw [Option.bind_eq_some_iff] at h
    obtain ⟨b, -, h⟩ := h
    cases b with
    | none => cases h; rfl
    | some b =>
      simp only [Option.bind_eq_some_iff] at h
      obtain ⟨d, -, e, -, f, -, g, -, h⟩ := h
      cases h
      exact hr _ rfl

/-- The tables of the elementary functions hold the constants of the library: `ln 2` and `e` from their strings, the
largest exponent `2147483616`. -/
structure StdTables (c : Cfg) (T : Tables) : Prop where
  ln2 : Const.ln2 c = some T.ln2
  e : Const.e c = some T.e
  max : T.maxExp = ofSigned c maxExp10

theorem close_eu {c : Cfg} (hc : c.digits10 ≤ 1000) {r : EFloat} {x : ℝ} (hx : x ≤ 10) (h : Close c r x) :
    |rv r - x| ≤ eu c / 10 ^ 14 := by
  have h1 := elems_digits c
  have h2 := h.2
  have e1 : (1 : ℝ) / 10 ^ (8 * (c.elems - 1)) ≤ eu c * (1 / 10 ^ 16) := by
    have := pw_shift c (-((16 : ℕ) : ℤ))
    rw [pw_neg, pw_nat, ← one_div] at this
    rw [← this, ← pw_nat, one_div, ← pw_neg]
    apply pw_mono; push_cast; omega
  have e2 : (1 : ℝ) / 10 ^ 1100 ≤ eu c * (1 / 10 ^ 16) := by
    have := pw_shift c (-((16 : ℕ) : ℤ))
    rw [pw_neg, pw_nat, ← one_div] at this
    rw [← this, ← pw_nat, one_div, ← pw_neg]
    apply pw_mono; push_cast; omega
  have u0 : 0 < eu c := pw_pos _
  have e3 : x / 10 ^ (8 * (c.elems - 1)) ≤ 10 * (eu c * (1 / 10 ^ 16)) := by
    rw [div_eq_mul_one_div]
    exact mul_le_mul hx e1 (by positivity) (by norm_num)
  change |rv r - x| ≤ _ at h2
  generalize (1 : ℝ) / 10 ^ 1100 = z at *
  linarith

theorem elems_small {c : Cfg} (hc : c.digits10 ≤ 1000) : c.elems < 625 := by
  unfold Cfg.elems Cfg.maxDigits10
  split <;> omega

/-- The stored `ln 2` times its computed reciprocal is below one. -/
def RecipBelow (c : Cfg) (l : EFloat) : Prop := val (div c (one c) l) * val l < 1

instance (c : Cfg) (l : EFloat) : Decidable (RecipBelow c l) := by unfold RecipBelow; infer_instance

theorem expEnv {c : Cfg} (hc : c.digits10 ≤ 1000) {T : Tables} (hT : StdTables c T) (hb : RecipBelow c T.ln2) :
    Rnd.ExpEnv (efArith c T) rv (Full c) (eu c) where
  ln2 := by
    obtain ⟨r, h1, h2⟩ := (C75_constants_partial c).2.2.1
    have e : T.ln2 = r := by have := hT.ln2; rw [h1] at this; exact (Option.some.inj this).symm
    change Full c T.ln2 ∧ |rv T.ln2 - _| ≤ _
    rw [e]
    refine ⟨⟨h2.1, ofString_prec h1⟩, le_trans (close_eu hc (by linarith [Real.log_two_lt_d9]) h2) ?_⟩
    have u0 : 0 < eu c := pw_pos _
    linarith
  e := by
    obtain ⟨r, h1, h2⟩ := (C75_constants_partial c).2.1
    have e : T.e = r := by have := hT.e; rw [h1] at this; exact (Option.some.inj this).symm
    change Full c T.e ∧ NearR _ (rv T.e) _
    rw [e]
    refine ⟨⟨h2.1, ofString_prec h1⟩, le_trans (close_eu hc (by linarith [Real.exp_one_lt_d9]) h2) ?_⟩
    have u0 : 0 < eu c := pw_pos _
    have e1 := Real.exp_one_gt_d9
    rw [abs_of_pos (Real.exp_pos 1)]
    have : eu c / 10 ^ 4 * 1 ≤ eu c / 10 ^ 4 * Real.exp 1 := mul_le_mul_of_nonneg_left (by linarith) (by positivity)
    linarith
  max := by
    change Full c T.maxExp ∧ _ ≤ rv T.maxExp
    rw [hT.max]
    obtain ⟨f, e, -, -, p, -⟩ := ofSigned_spec c (n := maxExp10) (by decide) (by decide)
    refine ⟨⟨f, p⟩, ?_⟩
    unfold rv
    rw [e, show maxExp10 = 2147483616 from rfl]
    norm_num
  below := by
    have h1 : Fn.one (efArith c T) = one c := by
      change ofSigned c (i64 1) = one c
      rw [i64_id (by norm_num)]
      rfl
    rw [h1]
    change rv (div c (one c) T.ln2) * rv T.ln2 < 1
    unfold rv
    have := (Rat.cast_lt (K := ℝ)).2 hb
    push_cast at this
    exact this

/-- C89.  With up to 1000 digits, and the library's own constants, the computed `exp x` of every number `x` of full
working precision with `|x| ≤ 10^8` is a valid number of full working precision within `(500 + |x|) 10^-(D+1)` of `e^x`,
relatively, `D` being the number of digits: all roundings of all operations are included.

The reciprocal of `ln 2` has to come out below the exact one, which is decidable for each digit count; where it does not,
`exp (ln 2)` would be a NaN.  Missing: more digits, larger arguments (where overflow begins), arguments of reduced
precision. -/
theorem C89_exp_partial {c : Cfg} (hc : c.digits10 ≤ 1000) {T : Tables} (hT : StdTables c T) (hb : RecipBelow c T.ln2) {x : EFloat}
    (hx : FinWF c x) (hp : x.prec = c.elems) (h : |val x| ≤ 10 ^ 8) :
    FinWF c (Fn.exp (efArith c T) x) ∧ (Fn.exp (efArith c T) x).prec = c.elems ∧
    |((val (Fn.exp (efArith c T) x) : ℚ) : ℝ) - Real.exp ((val x : ℚ) : ℝ)| ≤
      (500 + |((val x : ℚ) : ℝ)|) / 10 ^ (c.digits10 + 1) * Real.exp ((val x : ℚ) : ℝ) := by
  have hr : |rv x| ≤ 10 ^ 8 := by
    rw [rv_abs]; exact_mod_cast h
  obtain ⟨f, e, -⟩ := Rnd.exp_acc (rnd_efloat (elems_small hc) T) (expEnv hc hT hb) (x := x) ⟨hx, hp⟩ hr
  refine ⟨f.1, f.2, ?_⟩
  unfold NearR at e
  rw [abs_of_pos (Real.exp_pos _)] at e
  have : eu c = (10 ^ (c.digits10 + 1))⁻¹ := by
    rw [← pw_nat, ← pw_neg]; unfold eu; push_cast; rfl
  rw [this, mul_comm _ (500 + |rv x|), ← div_eq_mul_inv] at e
  exact e

/-- The library's tables at 101 digits. -/
def stdTables (c : Cfg) : Tables where
  pi := (Const.pi c).getD (zero c)
  ln2 := (Const.ln2 c).getD (zero c)
  ln10 := (Const.ln10 c).getD (zero c)
  e := (Const.e c).getD (zero c)
  sqrt2 := (Const.sqrt2 c).getD (zero c)
  maxExp := ofSigned c maxExp10
  asin0 := fun x => x
  atan0 := fun x => x
  log0 := fun _ => none
  rootn0 := fun _ _ => one c

theorem stdTables_std (c : Cfg) : StdTables c (stdTables c) where
  ln2 := by
    obtain ⟨r, h1, -⟩ := (C75_constants_partial c).2.2.1
    simp [stdTables, h1]
  e := by
    obtain ⟨r, h1, -⟩ := (C75_constants_partial c).2.1
    simp [stdTables, h1]
  max := rfl

theorem below101 : RecipBelow cfg101 (stdTables cfg101).ln2 := by decide +kernel

/-- `exp (-12345679.25)` at 101 digits. -/
example : |((val (Fn.exp (efArith cfg101 (stdTables cfg101)) exC) : ℚ) : ℝ) - Real.exp ((val exC : ℚ) : ℝ)| ≤
    (500 + |((val exC : ℚ) : ℝ)|) / 10 ^ (cfg101.digits10 + 1) * Real.exp ((val exC : ℚ) : ℝ) :=
  (C89_exp_partial (by decide) (stdTables_std _) below101 exC_fin rfl (by decide +kernel)).2.2

end EFX.Props
