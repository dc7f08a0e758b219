import Verif.Lemmas.RndAtan2
import Verif.Props.FnRnd
/-!
# C94, C95: arc sine, arc cosine, arc tangent and the angle of a point, with all rounding
-/

namespace EFX.Props
open EFX EFX.Spec

/-- A start value from double precision: a valid number of full precision, off by at most `10^-15`, and zero or not below
`10^-400` (doubles are not). -/
def GoodStart (c : Cfg) (e : EFloat) (r : ℝ) : Prop :=
  FinWF c e ∧ e.prec = c.elems ∧ |((val e : ℚ) : ℝ) - r| ≤ 1 / 10 ^ 15 ∧
    (val e = 0 ∨ (10 : ℝ) ^ (-400 : ℤ) ≤ |((val e : ℚ) : ℝ)|)

/-- The absolute value as computed by the functions. -/
def absE (x : EFloat) : EFloat := if x.isneg then negate x else x

/-- The exponent that separates small, middle and large arguments (elementary_math.cpp 180-207). -/
def limE (c : Cfg) : ℕ := max (c.tolerance / 10) 6

theorem argLim_ef (c : Cfg) (T : Tables) : Fn.argLim (efArith c T) = (limE c : ℤ) := by
  change max ((c.tolerance : ℤ) / 10) 6 = _
  unfold limE
  push_cast
  rfl

theorem fabs_ef (c : Cfg) (T : Tables) (x : EFloat) : Fn.fabs (efArith c T) x = absE x := rfl

theorem start_sz {c : Cfg} {e : EFloat} {r : ℝ} (hr : |r| ≤ 2) (h : GoodStart c e r) : rv e = 0 ∨ Sz 400 (rv e) := by
  obtain ⟨-, -, a, b⟩ := h
  rcases b with h0 | h0
  · left; unfold rv; rw [h0]; simp
  · right
    refine ⟨h0, ?_⟩
    have h1 := abs_sub_abs_le_abs_sub (rv e) r
    have h2 : |rv e - r| ≤ 1 / 10 ^ 15 := a
    refine le_trans (show |rv e| ≤ pw 1 by rw [pw_one]; norm_num at h2; linarith) (pw_mono (by norm_num))

theorem rv_absE {c : Cfg} {x : EFloat} (hx : FinWF c x) (hp : x.prec = c.elems) (hc : c.digits10 ≤ 1000) : rv (absE x) = |rv x| := by
  have R := rnd_efloat (elems_small hc) (stdTables c)
  exact (R.fabs_acc (x := x) ⟨hx, hp⟩).2

theorem asinStart_ef {c : Cfg} (hc : c.digits10 ≤ 1000) {T : Tables} {x : EFloat} (hx : FinWF c x) (hp : x.prec = c.elems)
    (h : GoodStart c (T.asin0 (absE x)) (Real.arcsin |((val x : ℚ) : ℝ)|)) :
    Rnd.AsinStart (efArith c T) rv (Full c) (Fn.fabs (efArith c T) x) := by
  have h2 : |(Real.arcsin |((val x : ℚ) : ℝ)|)| ≤ 2 := by
    have : |(Real.arcsin |((val x : ℚ) : ℝ)|)| ≤ Real.pi / 2 := abs_le.2 ⟨Real.neg_pi_div_two_le_arcsin _, Real.arcsin_le_pi_div_two _⟩
    linarith [Real.pi_lt_d2]
  rw [fabs_ef]
  refine ⟨⟨h.1, h.2.1⟩, ?_, start_sz h2 h⟩
  rw [rv_absE hx hp hc]
  exact h.2.2.1

theorem atanStart_ef {c : Cfg} (hc : c.digits10 ≤ 1000) {T : Tables} {x : EFloat} (hx : FinWF c x) (hp : x.prec = c.elems)
    (h : GoodStart c (T.atan0 (absE x)) (Real.arctan |((val x : ℚ) : ℝ)|)) :
    Rnd.AtanStart (efArith c T) rv (Full c) (Fn.fabs (efArith c T) x) := by
  have h2 : |(Real.arctan |((val x : ℚ) : ℝ)|)| ≤ 2 := by
    have : |(Real.arctan |((val x : ℚ) : ℝ)|)| ≤ Real.pi / 2 := abs_le.2 ⟨(Real.neg_pi_div_two_lt_arctan _).le, (Real.arctan_lt_pi_div_two _).le⟩
    linarith [Real.pi_lt_d2]
  rw [fabs_ef]
  refine ⟨⟨h.1, h.2.1⟩, ?_, start_sz h2 h⟩
  rw [rv_absE hx hp hc]
  exact h.2.2.1

/-- C94.  With up to 1000 digits and the stored `pi`, let `x` be a number of full working precision.

If `10^-max(tolerance/10, 6) ≤ |x|`, `1 - x^2 ≥ 1/1000` and the double precision arc sine of `|x|` is good to `10^-15`,
the computed arc sine is within `11 * 10^-(D+1) / sqrt(1 - x^2)` and the computed arc cosine within
`13 * 10^-(D+1) / sqrt(1 - x^2)` of the exact value.

If `0 ≤ x < 10^-max(tolerance/10, 6)` and `x` is zero or at least `10^-10000000`, the computed arc sine is within
`10^-(D+1) x / 40` of the exact one.

Missing: small negative arguments (where the sign is wrong, C68), arguments near `±1`, more digits, reduced precision. -/
theorem C94_asin_acos_partial {c : Cfg} (hc : c.digits10 ≤ 1000) {T : Tables} (hT : Const.pi c = some T.pi) {x : EFloat}
    (hx : FinWF c x) (hp : x.prec = c.elems) {X : ℝ} (hX : X = ((val x : ℚ) : ℝ)) :
    ((10 : ℝ) ^ (-(limE c : ℤ)) ≤ |X| → 1 / 1000 ≤ 1 - X ^ 2 → GoodStart c (T.asin0 (absE x)) (Real.arcsin |X|) →
      (FinWF c (Fn.asin (efArith c T) x) ∧ (Fn.asin (efArith c T) x).prec = c.elems ∧
        |((val (Fn.asin (efArith c T) x) : ℚ) : ℝ) - Real.arcsin X| ≤ 11 / 10 ^ (c.digits10 + 1) / Real.sqrt (1 - X ^ 2)) ∧
      (FinWF c (Fn.acos (efArith c T) x) ∧ (Fn.acos (efArith c T) x).prec = c.elems ∧
        |((val (Fn.acos (efArith c T) x) : ℚ) : ℝ) - Real.arccos X| ≤ 13 / 10 ^ (c.digits10 + 1) / Real.sqrt (1 - X ^ 2))) ∧
    (X = 0 ∨ (10 : ℝ) ^ (-10000000 : ℤ) ≤ X → X < (10 : ℝ) ^ (-(limE c : ℤ)) →
      FinWF c (Fn.asin (efArith c T) x) ∧ (Fn.asin (efArith c T) x).prec = c.elems ∧
        |((val (Fn.asin (efArith c T) x) : ℚ) : ℝ) - Real.arcsin X| ≤ X / 40 / 10 ^ (c.digits10 + 1)) := by
  subst hX
  have R := rnd_efloat (elems_small hc) T
  have P := piEnv hc hT
  constructor
  · intro h1 h2 h3
    have h1' : pw (-Fn.argLim (efArith c T)) ≤ |rv x| := by rw [argLim_ef]; exact h1
    have st := asinStart_ef hc hx hp h3
    obtain ⟨a, b⟩ := R.asin_acc P (x := x) ⟨hx, hp⟩ h1' h2 st
    obtain ⟨a', b'⟩ := R.acos_acc P (x := x) ⟨hx, hp⟩ h1' h2 st
    rw [mul_comm, eu_mul] at b b'
    exact ⟨⟨a.1, a.2, b⟩, a'.1, a'.2, b'⟩
  · intro h1 h2
    obtain ⟨a, b⟩ := R.asinSmall_acc (x := x) ⟨hx, hp⟩ h1 (by rw [argLim_ef]; exact h2)
    refine ⟨a.1, a.2, ?_⟩
    rw [div_mul_eq_mul_div, eu_mul, div_right_comm] at b
    exact b

/-- A double precision value of `pi/6`. -/
def piSixth : EFloat := mkLimbs cfg101 [52359877, 55982988, 70000000] (-8) false
/-- A double precision value of `pi/4`. -/
def piFourth : EFloat := mkLimbs cfg101 [78539816, 33974483, 10000000] (-8) false

/-- Tables with other start values. -/
def withStarts (T : Tables) (a b : EFloat) : Tables := { T with asin0 := fun _ => a, atan0 := fun _ => b }

theorem withStarts_pi (T : Tables) (a b : EFloat) : (withStarts T a b).pi = T.pi := rfl

/-- Tables with the two start values. -/
def startTables : Tables := withStarts (stdTables cfg101) piSixth piFourth

theorem startTables_pi : Const.pi cfg101 = some startTables.pi := by
  unfold startTables
  rw [withStarts_pi]
  exact stdTables_pi (by decide)

theorem piSixth_good : GoodStart cfg101 piSixth (Real.pi / 6) := by
  refine ⟨by decide +kernel, rfl, ?_, Or.inr ?_⟩
  · have e : val piSixth = 52359877559829887 / 10 ^ 17 := by decide +kernel
    rw [e]
    have := Real.pi_gt_d20
    have := Real.pi_lt_d20
    push_cast
    rw [abs_le]
    norm_num at *
    constructor <;> linarith
  · have e : |val piSixth| ≥ 1 / 10 := by decide +kernel
    have e2 : (1 / 10 : ℝ) ≤ |((val piSixth : ℚ) : ℝ)| := by
      have := (Rat.cast_le (K := ℝ)).2 e
      push_cast at this
      exact this
    refine le_trans ?_ e2
    refine le_trans (zpow_le_zpow_right₀ (by norm_num) (show (-400 : ℤ) ≤ -1 by norm_num)) (by norm_num)

theorem piFourth_good : GoodStart cfg101 piFourth (Real.pi / 4) := by
  refine ⟨by decide +kernel, rfl, ?_, Or.inr ?_⟩
  · have e : val piFourth = 78539816339744831 / 10 ^ 17 := by decide +kernel
    rw [e]
    have := Real.pi_gt_d20
    have := Real.pi_lt_d20
    push_cast
    rw [abs_le]
    norm_num at *
    constructor <;> linarith
  · have e : |val piFourth| ≥ 1 / 10 := by decide +kernel
    have e2 : (1 / 10 : ℝ) ≤ |((val piFourth : ℚ) : ℝ)| := by
      have := (Rat.cast_le (K := ℝ)).2 e
      push_cast at this
      exact this
    refine le_trans ?_ e2
    refine le_trans (zpow_le_zpow_right₀ (by norm_num) (show (-400 : ℤ) ≤ -1 by norm_num)) (by norm_num)

/-- The arc sine of one half at 101 digits. -/
example : |((val (Fn.asin (efArith cfg101 startTables) (half cfg101)) : ℚ) : ℝ) - Real.arcsin (1 / 2)| ≤
    11 / 10 ^ (cfg101.digits10 + 1) / Real.sqrt (1 - (1 / 2) ^ 2) := by
  have hv : val (half cfg101) = 1 / 2 := by decide +kernel
  have ha : Real.arcsin (1 / 2) = Real.pi / 6 := by
    rw [← Real.sin_pi_div_six]
    apply Real.arcsin_sin <;> linarith [Real.pi_pos]
  refine ((C94_asin_acos_partial (c := cfg101) (by decide) (T := startTables) startTables_pi (x := half cfg101)
    (half_full cfg101).1.1 (half_full cfg101).1.2 (X := 1 / 2) (by rw [hv]; norm_num)).1 ?_ (by norm_num) ?_).1.2.2
  · refine le_trans (zpow_le_zpow_right₀ (by norm_num) (show -(limE cfg101 : ℤ) ≤ -1 by decide)) ?_
    rw [abs_of_pos (by norm_num)]
    norm_num
  · rw [abs_of_pos (by norm_num), ha]
    exact piSixth_good

/-- C95.  With up to 1000 digits and the stored `pi`, the computed arc tangent of every number `x` of full working
precision, zero or at least `10^-10000000` in magnitude, is within `7 * 10^(7-(D+1))` of the exact one; for
`|x| < 10^-max(tolerance/10, 6)` it is within `10^-(D+1) |x| / 40`.  The double precision arc tangent of `|x|`, where it is
used, must be good to `10^-15`; `x` must not be negative of a magnitude between `10^(max(tolerance/10, 6) + 1)` and
`10^(tolerance + 1)`, where the result is wrong by pi (C67).

Missing: tinier arguments, more digits, reduced precision. -/
theorem C95_atan_partial {c : Cfg} (hc : c.digits10 ≤ 1000) {T : Tables} (hT : Const.pi c = some T.pi) {x : EFloat}
    (hx : FinWF c x) (hp : x.prec = c.elems) {X : ℝ} (hX : X = ((val x : ℚ) : ℝ))
    (hs : X = 0 ∨ (10 : ℝ) ^ (-10000000 : ℤ) ≤ |X|)
    (hn : 0 ≤ X ∨ |X| < (10 : ℝ) ^ ((limE c : ℤ) + 1) ∨ (10 : ℝ) ^ ((c.tolerance : ℤ) + 1) ≤ |X|)
    (h0 : (10 : ℝ) ^ (-(limE c : ℤ)) ≤ |X| → |X| < 100 → GoodStart c (T.atan0 (absE x)) (Real.arctan |X|)) :
    FinWF c (Fn.atan (efArith c T) x) ∧ (Fn.atan (efArith c T) x).prec = c.elems ∧
    |((val (Fn.atan (efArith c T) x) : ℚ) : ℝ) - Real.arctan X| ≤ 70000000 / 10 ^ (c.digits10 + 1) ∧
    (|X| < (10 : ℝ) ^ (-(limE c : ℤ)) →
      |((val (Fn.atan (efArith c T) x) : ℚ) : ℝ) - Real.arctan X| ≤ |X| / 40 / 10 ^ (c.digits10 + 1)) := by
  subst hX
  have R := rnd_efloat (elems_small hc) T
  have P := piEnv hc hT
  obtain ⟨a, b, d⟩ := R.atan_acc P (x := x) ⟨hx, hp⟩ hs (by rw [argLim_ef]; exact hn) (fun h1 h2 => by
    rw [argLim_ef] at h1
    exact atanStart_ef hc hx hp (h0 h1 h2))
  rw [mul_comm, eu_mul] at b
  refine ⟨a.1, a.2, b, fun h => ?_⟩
  have := d (by rw [argLim_ef]; exact h)
  rw [div_mul_eq_mul_div, eu_mul, div_right_comm] at this
  exact this

/-- The arc tangent of one, and of `-12345679.25`, at 101 digits. -/
example : |((val (Fn.atan (efArith cfg101 startTables) (one cfg101)) : ℚ) : ℝ) - Real.arctan 1| ≤ 70000000 / 10 ^ (cfg101.digits10 + 1) ∧
    |((val (Fn.atan (efArith cfg101 startTables) exC) : ℚ) : ℝ) - Real.arctan (-49382717 / 4)| ≤ 70000000 / 10 ^ (cfg101.digits10 + 1) := by
  have hv : val (one cfg101) = 1 := by decide +kernel
  have hc : val exC = -49382717 / 4 := by decide +kernel
  constructor
  · refine (C95_atan_partial (c := cfg101) (by decide) (T := startTables) startTables_pi (x := one cfg101)
      one_fin rfl (X := 1) (by rw [hv]; norm_num) (Or.inr ?_) (Or.inl (by norm_num)) (fun _ _ => ?_)).2.2.1
    · rw [abs_one]; exact zpow_le_one_of_nonpos₀ (by norm_num) (by norm_num)
    · rw [abs_one, Real.arctan_one]; exact piFourth_good
  · have ha : |(-49382717 / 4 : ℝ)| = 49382717 / 4 := by rw [abs_of_neg (by norm_num)]; norm_num
    refine (C95_atan_partial (c := cfg101) (by decide) (T := startTables) startTables_pi (x := exC)
      exC_fin rfl (X := -49382717 / 4) (by rw [hc]; norm_num) (Or.inr ?_) (Or.inr (Or.inl ?_)) (fun _ h => ?_)).2.2.1
    · rw [ha]; exact le_trans (zpow_le_one_of_nonpos₀ (by norm_num) (by norm_num)) (by norm_num)
    · rw [ha]
      refine lt_of_lt_of_le ?_ (zpow_le_zpow_right₀ (by norm_num) (show (8 : ℤ) ≤ (limE cfg101 : ℤ) + 1 by decide))
      norm_num
    · rw [ha] at h; norm_num at h

/-- C95 for `atan2`: with the same conditions on the quotient, and both coordinates between `10^-1000000` and
`10^1000000`, the computed angle of the point `(x, y)` is within `8 * 10^(7-(D+1))` of the exact one in `(-pi, pi]`.  The
coordinates must not be of equal magnitude with `y < 0`, where the division may have the wrong sign (C20). -/
theorem C95_atan2_partial {c : Cfg} (hc : c.digits10 ≤ 1000) {T : Tables} (hT : Const.pi c = some T.pi) {x y : EFloat}
    (hx : FinWF c x) (hp : x.prec = c.elems) (hy : FinWF c y) (hq : y.prec = c.elems) {X Y : ℝ} (hX : X = ((val x : ℚ) : ℝ))
    (hY : Y = ((val y : ℚ) : ℝ))
    (xs : (10 : ℝ) ^ (-1000000 : ℤ) ≤ |X| ∧ |X| ≤ (10 : ℝ) ^ (1000000 : ℤ))
    (ys : (10 : ℝ) ^ (-1000000 : ℤ) ≤ |Y| ∧ |Y| ≤ (10 : ℝ) ^ (1000000 : ℤ)) (hd : 0 < Y ∨ |Y| ≠ |X|)
    (hn : 0 ≤ X * Y ∨ |Y| ≤ (10 : ℝ) ^ (limE c : ℤ) * |X| ∨ (10 : ℝ) ^ ((c.tolerance : ℤ) + 2) * |X| ≤ |Y|)
    (h0 : GoodStart c (T.atan0 (absE (div c y x))) (Real.arctan |((val (div c y x) : ℚ) : ℝ)|)) :
    FinWF c (Fn.atan2 (efArith c T) y x) ∧ (Fn.atan2 (efArith c T) y x).prec = c.elems ∧
    |((val (Fn.atan2 (efArith c T) y x) : ℚ) : ℝ) - Complex.arg ⟨X, Y⟩| ≤ 80000000 / 10 ^ (c.digits10 + 1) := by
  subst hX hY
  have R := rnd_efloat (elems_small hc) T
  have P := piEnv hc hT
  have xs' : Sz 1000000 (rv x) := xs
  have ys' : Sz 1000000 (rv y) := ys
  obtain ⟨o, -⟩ := R.div y x ⟨hy, hq⟩ ⟨hx, hp⟩ hd (ys'.mono (by norm_num)) (xs'.mono (by norm_num))
  obtain ⟨a, b⟩ := R.atan2_acc P (x := x) (y := y) ⟨hx, hp⟩ ⟨hy, hq⟩ xs' ys' hd (by rw [argLim_ef]; exact hn)
    (fun _ _ => atanStart_ef hc o.1 o.2 h0)
  rw [mul_comm, eu_mul] at b
  exact ⟨a.1, a.2, b⟩

/-- The angle of `(1, 1)` at 101 digits. -/
example : |((val (Fn.atan2 (efArith cfg101 startTables) (one cfg101) (one cfg101)) : ℚ) : ℝ) - Complex.arg ⟨1, 1⟩| ≤
    80000000 / 10 ^ (cfg101.digits10 + 1) := by
  have hv : val (one cfg101) = 1 := by decide +kernel
  have hq : val (div cfg101 (one cfg101) (one cfg101)) = 1 := by decide +kernel
  have s : (10 : ℝ) ^ (-1000000 : ℤ) ≤ |(1 : ℝ)| ∧ |(1 : ℝ)| ≤ (10 : ℝ) ^ (1000000 : ℤ) := by
    rw [abs_one]
    exact ⟨zpow_le_one_of_nonpos₀ (by norm_num) (by norm_num), one_le_zpow₀ (by norm_num) (by norm_num)⟩
  refine (C95_atan2_partial (c := cfg101) (by decide) (T := startTables) startTables_pi (x := one cfg101) (y := one cfg101)
    one_fin rfl one_fin rfl (X := 1) (Y := 1) (by rw [hv]; norm_num) (by rw [hv]; norm_num) s s (Or.inl (by norm_num)) (Or.inl (by norm_num)) ?_).2.2
  rw [hq, Rat.cast_one, abs_one, Real.arctan_one]
  exact piFourth_good

end EFX.Props
