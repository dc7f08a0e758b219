import Verif.Lemmas.RndTrig3
import Verif.Props.ExpRnd
/-!
# C90: sine and cosine of `e_float`, with all rounding
-/

namespace EFX.Props
open EFX EFX.Spec

theorem piEnv {c : Cfg} (hc : c.digits10 ≤ 1000) {T : Tables} (hT : Const.pi c = some T.pi) :
    Rnd.PiEnv (efArith c T) rv (Full c) (eu c) where
  pi := by
    obtain ⟨r, h1, h2⟩ := (C75_constants_partial c).2.2.2.2.2 (by omega)
    have e : T.pi = r := by rw [h1] at hT; exact (Option.some.inj hT).symm
    change Full c T.pi ∧ |rv T.pi - _| ≤ _
    rw [e]
    refine ⟨⟨h2.1, ofString_prec (s := Const.piText) ?_⟩, le_trans (close_eu hc (by linarith [Real.pi_lt_d2]) h2) ?_⟩
    · unfold Const.pi at h1
      generalize Const.piText = s at *
      rw [if_pos (show c.digits10 < 1010 by omega)] at h1
      exact h1
    · have u0 : 0 < eu c := pw_pos _
      linarith

theorem eu_inv (c : Cfg) : eu c = 1 / 10 ^ (c.digits10 + 1) := by
  rw [one_div, ← pw_nat, ← pw_neg]; unfold eu; push_cast; rfl

/-- C90.  With up to 1000 digits, and the stored `pi`, the computed sine and cosine of every number `x` of full working
precision with `|x| ≤ 10^8` which is zero or at least `10^-19000000` in magnitude are valid numbers of full working
precision.  The sine is within `(4 + |x|/1000) 10^-(D+1)` of `sin x`, and within `2 |x| 10^-(D+1)` where `|x| ≤ 3/2`; the
cosine is within `(10000001 + |x|/1000) 10^-(D+1)` of `cos x`, `D` being the number of digits.  All roundings of all
operations are included: the reduction modulo pi, the series, the nine applications of the triple angle formula.

Missing: more digits, larger and smaller arguments, arguments of reduced precision. -/
theorem C90_sin_cos_partial {c : Cfg} (hc : c.digits10 ≤ 1000) {T : Tables} (hT : Const.pi c = some T.pi) {x : EFloat}
    (hx : FinWF c x) (hp : x.prec = c.elems) (h : |val x| ≤ 10 ^ 8)
    (hs : val x = 0 ∨ (10 : ℝ) ^ (-19000000 : ℤ) ≤ |((val x : ℚ) : ℝ)|) :
    (FinWF c (Fn.sin (efArith c T) x) ∧ (Fn.sin (efArith c T) x).prec = c.elems ∧
      |((val (Fn.sin (efArith c T) x) : ℚ) : ℝ) - Real.sin ((val x : ℚ) : ℝ)| ≤
        (4 + |((val x : ℚ) : ℝ)| / 1000) / 10 ^ (c.digits10 + 1) ∧
      (|((val x : ℚ) : ℝ)| ≤ 3 / 2 → |((val (Fn.sin (efArith c T) x) : ℚ) : ℝ) - Real.sin ((val x : ℚ) : ℝ)| ≤
        2 * |((val x : ℚ) : ℝ)| / 10 ^ (c.digits10 + 1))) ∧
    (FinWF c (Fn.cos (efArith c T) x) ∧ (Fn.cos (efArith c T) x).prec = c.elems ∧
      |((val (Fn.cos (efArith c T) x) : ℚ) : ℝ) - Real.cos ((val x : ℚ) : ℝ)| ≤
        (10000001 + |((val x : ℚ) : ℝ)| / 1000) / 10 ^ (c.digits10 + 1)) := by
  have hr : |rv x| ≤ 10 ^ 8 := by
    rw [rv_abs]; exact_mod_cast h
  have hz : rv x = 0 ∨ Sz 19000000 (rv x) := by
    rcases hs with h0 | h0
    · left; unfold rv; rw [h0]; simp
    · right
      refine ⟨h0, le_trans hr ?_⟩
      rw [← pw_nat]; exact pw_mono (by norm_num)
  have R := rnd_efloat (elems_small hc) T
  have P := piEnv hc hT
  obtain ⟨f, e, e'⟩ := R.sin_acc P (x := x) ⟨hx, hp⟩ hr hz
  obtain ⟨g, d⟩ := R.cos_acc P (x := x) ⟨hx, hp⟩ hr hz
  rw [eu_inv] at e e' d
  refine ⟨⟨f.1, f.2, ?_, fun h3 => ?_⟩, g.1, g.2, ?_⟩
  · rw [div_mul_eq_mul_div, one_mul] at e; exact e
  · have := e' h3
    rw [mul_one_div, div_mul_eq_mul_div] at this; exact this
  · rw [div_mul_eq_mul_div, one_mul] at d; exact d

theorem stdTables_pi {c : Cfg} (hc : c.digits10 ≤ 1000) : Const.pi c = some (stdTables c).pi := by
  obtain ⟨r, h1, -⟩ := (C75_constants_partial c).2.2.2.2.2 (by omega)
  simp [stdTables, h1]

/-- `sin (-12345679.25)` at 101 digits. -/
example : |((val (Fn.sin (efArith cfg101 (stdTables cfg101)) exC) : ℚ) : ℝ) - Real.sin ((val exC : ℚ) : ℝ)| ≤
    (4 + |((val exC : ℚ) : ℝ)| / 1000) / 10 ^ (cfg101.digits10 + 1) := by
  refine (C90_sin_cos_partial (by decide) (stdTables_pi (by decide)) exC_fin rfl (by decide +kernel) (Or.inr ?_)).1.2.2.1
  have h : (1 : ℚ) ≤ |val exC| := by decide +kernel
  have h1 : (1 : ℝ) ≤ |((val exC : ℚ) : ℝ)| := by exact_mod_cast h
  refine le_trans ?_ h1
  exact zpow_le_one_of_nonpos₀ (by norm_num) (by norm_num)

end EFX.Props
