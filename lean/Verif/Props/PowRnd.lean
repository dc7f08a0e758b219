import Verif.Lemmas.RndPow
import Verif.Props.LogRnd
import Mathlib.Analysis.SpecialFunctions.Pow.Asymptotics
/-!
# C118: powers with real exponents, with all rounding
-/

namespace EFX.Props
open EFX EFX.Spec

theorem isone_u {c : Cfg} {a : EFloat} (ha : FinWF c a) (h : isone a = true) : |rv a - 1| ≤ eu c / 10 ^ 15 ∧ rv a < 1 := by
  have hv := isone_rv ha h
  have q : pw (-(8 * (c.elems : ℤ))) ≤ eu c / 10 ^ 15 := by
    have h3 := elems_digits c
    have := pw_shift c (-((15 : ℕ) : ℤ))
    rw [pw_neg, pw_nat, ← div_eq_mul_inv] at this
    rw [← this]
    apply pw_mono; push_cast; omega
  have q0 := pw_pos (-(8 * (c.elems : ℤ)))
  rw [hv]
  refine ⟨?_, by linarith⟩
  rw [show 1 - pw (-(8 * (c.elems : ℤ))) - 1 = -pw (-(8 * (c.elems : ℤ))) by ring, abs_neg, abs_of_pos q0]
  exact q

/-- C118.  With up to 1000 digits, the library's constants, and `1/ln 2` not rounded upwards (as in C89), let `x` be a positive
number of full working precision that is at most `0.09` or at least `0.91`, `10^-K ≤ x ≤ 10^K`, whose computed logarithm is off by
at most `δ ≤ 1/100`.  For every exponent `a` of full working precision, an integer or not, of either sign, with `|a| ≤ 10^9` and
`|a| K ≤ 8 10^8`, the computed `pow(x, a)` is a valid number of full working precision within
`5 δ + (1100 + 5 |log x| + |a|/200) 10^-(D+1)` of `x^a`, relatively: the error of the logarithm is not multiplied by the exponent.

Missing: bases between `0.09` and `0.91` (another series), negative bases, the accuracy of the logarithm (C110). -/
theorem C118_pow_partial {c : Cfg} (hc : c.digits10 ≤ 1000) {T : Tables} (hT : StdTables c T) (hb : RecipBelow c T.ln2) {x a : EFloat}
    (hx : FinWF c x) (hp : x.prec = c.elems) (ha : FinWF c a) (hq : a.prec = c.elems) {X E : ℝ} (hX : X = ((val x : ℚ) : ℝ))
    (hE : E = ((val a : ℚ) : ℝ)) (x0 : 0 < X) (x1 : X ≤ 9 / 100 ∨ 91 / 100 ≤ X) {K : ℕ} (k1 : (10 : ℝ) ^ (-(K : ℤ)) ≤ X)
    (k2 : X ≤ (10 : ℝ) ^ (K : ℤ)) (hK : |E| * K ≤ 800000000) (a2 : |E| ≤ 10 ^ 9) {δ : ℝ}
    (hL : FinWF c (Fn.log (efArith c T) x)) (hLp : (Fn.log (efArith c T) x).prec = c.elems)
    (Ll : |((val (Fn.log (efArith c T) x) : ℚ) : ℝ) - Real.log X| ≤ δ) (δ1 : δ ≤ 1 / 100) (l1 : |Real.log X| ≤ 10 ^ 7) :
    FinWF c (Fn.pow (efArith c T) x a) ∧ (Fn.pow (efArith c T) x a).prec = c.elems ∧
    |((val (Fn.pow (efArith c T) x a) : ℚ) : ℝ) - X ^ E| ≤
      (5 * δ + (1100 + 5 * |Real.log X| + |E| / 200) / 10 ^ (c.digits10 + 1)) * X ^ E := by
  have R := rnd_efloat (elems_small hc) T
  have H := expEnv hc hT hb
  have fx : Full c x := ⟨hx, hp⟩
  have fa : Full c a := ⟨ha, hq⟩
  have fL : Full c (Fn.log (efArith c T) x) := ⟨hL, hLp⟩
  have hX' : X = rv x := hX
  have hE' : E = rv a := hE
  have Ll' : |rv (Fn.log (efArith c T) x) - Real.log X| ≤ δ := Ll
  clear Ll hX hE
  subst hX' hE'
  have u0 := R.u0
  have u1 := R.u1
  have δ0 : 0 ≤ δ := le_trans (abs_nonneg _) Ll'
  have hs : Sz K (rv x) := ⟨by rw [abs_of_pos x0]; exact k1, by rw [abs_of_pos x0]; exact k2⟩
  have P0 : 0 < rv x ^ rv a := Real.rpow_pos_of_pos x0 _
  have l0 := abs_nonneg (Real.log (rv x))
  have E0 := abs_nonneg (rv a)
  have ul0 : 0 ≤ eu c * |Real.log (rv x)| := by positivity
  have ul : eu c * |Real.log (rv x)| ≤ 1 / 10 ^ 23 := le_trans (mul_le_mul u1 l1 l0 (by norm_num)) (by norm_num)
  have uE0 : 0 ≤ eu c * |rv a| := by positivity
  have uE : eu c * |rv a| ≤ 1 / 10 ^ 21 := le_trans (mul_le_mul u1 a2 E0 (by norm_num)) (by norm_num)
  suffices key : Full c (Fn.pow (efArith c T) x a) ∧
      NearR (5 * δ + (1100 * eu c + 5 * (eu c * |Real.log (rv x)|) + eu c * |rv a| / 200)) (rv (Fn.pow (efArith c T) x a)) (rv x ^ rv a) by
    refine ⟨key.1.1, key.1.2, ?_⟩
    have h := key.2
    unfold NearR at h
    rw [abs_of_pos P0] at h
    rw [← eu_mul]
    rw [show eu c * (1100 + 5 * |Real.log (rv x)| + |rv a| / 200) =
      1100 * eu c + 5 * (eu c * |Real.log (rv x)|) + eu c * |rv a| / 200 by ring]
    exact h
  have hfin : Fn.isfinite (efArith c T) x = true := by
    unfold Fn.isfinite; rw [R.isnan x fx, R.isinf x fx]; rfl
  unfold Fn.pow
  by_cases ho : isone a = true
  · have e1 : Fn.powF (efArith c T) 2 x a = x := by
      have ho' : (efArith c T).isone a = true := ho
      unfold Fn.powF
      rw [hfin, ho']
      simp
    rw [e1]
    refine ⟨fx, ?_⟩
    have h1 := (isone_u ha ho).1
    have h2 : |Real.log (rv x) - rv a * Real.log (rv x)| ≤ eu c * |Real.log (rv x)| := by
      rw [show Real.log (rv x) - rv a * Real.log (rv x) = -((rv a - 1) * Real.log (rv x)) by ring, abs_neg, abs_mul]
      refine mul_le_mul_of_nonneg_right (le_trans h1 ?_) l0
      apply div_le_self u0.le; norm_num
    have h3 := Rnd.exp_shift h2 (by norm_num at ul; linarith)
    rw [Real.exp_log x0, mul_comm (rv a), ← Real.rpow_def_of_pos x0] at h3
    exact h3.mono (by linarith)
  rw [Bool.not_eq_true] at ho
  have hz : (efArith c T).iszero x = false := by
    by_contra hc'
    rw [Bool.not_eq_false] at hc'
    have := (R.iszero x fx).1 hc'
    linarith
  by_cases a0 : rv a = 0
  · have e1 : Fn.powF (efArith c T) 2 x a = Fn.one (efArith c T) := by
      have ho' : (efArith c T).isone a = false := ho
      unfold Fn.powF
      rw [hfin, ho', hz, (R.iszero a fa).2 a0]
      simp
    rw [e1, a0, Real.rpow_zero]
    refine ⟨R.one.1, ?_⟩
    rw [R.one.2]
    exact NearR.rfl' (by positivity)
  by_cases a1 : -1 < rv a
  · obtain ⟨f, n⟩ := powF_pos_acc hc H fx fa x0 x1 a0 a1 ho (K := K) (by positivity) hs (le_trans (mul_le_mul_of_nonneg_right (le_abs_self _) (by positivity)) hK)
      (le_trans (le_abs_self _) a2) fL Ll' δ1 l1 1
    refine ⟨f, n.mono ?_⟩
    rw [show eu c * (520 + 2 * |Real.log (rv x)| + |rv a| / 500) =
      520 * eu c + 2 * (eu c * |Real.log (rv x)|) + eu c * |rv a| / 500 by ring]
    linarith
  rw [not_lt] at a1
  have om := R.ofI (-1) (by norm_num)
  have hle : (efArith c T).le a (Fn.oneMinus (efArith c T)) = true := by
    refine (R.le _ _ fa om.1).2 ?_
    rw [om.2]; push_cast; exact a1
  have hza : (efArith c T).iszero a = false := by
    by_contra hc'
    rw [Bool.not_eq_false] at hc'
    exact a0 ((R.iszero a fa).1 hc')
  have hn : (efArith c T).isneg x = false := by
    by_contra hc'
    rw [Bool.not_eq_false] at hc'
    have := (R.isneg x fx).1 hc'
    linarith
  have e1 : Fn.powF (efArith c T) 2 x a =
      (efArith c T).div (Fn.one (efArith c T)) (Fn.powF (efArith c T) 1 x ((efArith c T).neg a)) := by
    have ho' : (efArith c T).isone a = false := ho
    conv_lhs => unfold Fn.powF
    rw [hfin, ho', hz, hza, hn, hle]
    simp
  rw [e1]
  obtain ⟨fn, vn⟩ := R.neg a fa
  have hon : isone ((efArith c T).neg a) = false := by
    by_contra hc'
    rw [Bool.not_eq_false] at hc'
    have := (isone_u fn.1 hc').2
    rw [vn] at this
    linarith
  have aabs : |rv a| = -rv a := abs_of_nonpos (by linarith)
  obtain ⟨f, n⟩ := powF_pos_acc hc H fx fn x0 x1 (by rw [vn]; exact neg_ne_zero.2 a0) (by rw [vn]; linarith) hon (K := K) (by positivity) hs
    (by rw [vn, ← aabs]; exact_mod_cast hK) (by rw [vn, ← aabs]; exact a2) fL Ll' δ1 l1 0
  rw [vn, abs_neg] at n
  have hinv : (rv x ^ (-rv a))⁻¹ = rv x ^ rv a := by rw [Real.rpow_neg x0.le, inv_inv]
  have Q0 : rv x ^ (-rv a) ≠ 0 := (Real.rpow_pos_of_pos x0 _).ne'
  rw [show eu c * (520 + 2 * |Real.log (rv x)| + |rv a| / 500) =
      520 * eu c + 2 * (eu c * |Real.log (rv x)|) + eu c * |rv a| / 500 by ring] at n
  have small : 21 / 10 * δ + (520 * eu c + 2 * (eu c * |Real.log (rv x)|) + eu c * |rv a| / 500) ≤ 3 / 100 := by
    norm_num at u1 ul uE; linarith
  have n2 := n.inv (by positivity) (by linarith) Q0
  rw [hinv, ← one_div] at n2
  have sQ : Sz 800000000 (rv x ^ (-rv a)) := by
    have lg : ∀ t : ℝ, t ≤ 800000000 → (10 : ℝ) ^ t ≤ pw 800000000 := by
      intro t ht
      have := Real.rpow_le_rpow_of_exponent_le (show (1 : ℝ) ≤ 10 by norm_num) ht
      unfold pw
      rw [← Real.rpow_intCast]
      push_cast
      exact this
    have hu : rv x ^ (-rv a) ≤ (10 : ℝ) ^ ((K : ℝ) * (-rv a)) := by
      rw [Real.rpow_mul (by norm_num), Real.rpow_natCast]
      refine Real.rpow_le_rpow x0.le ?_ (by linarith)
      rw [zpow_natCast] at k2; exact k2
    have hl : (10 : ℝ) ^ ((K : ℝ) * (rv a)) ≤ rv x ^ (-rv a) := by
      rw [show (K : ℝ) * rv a = (-K : ℝ) * (-rv a) by ring, Real.rpow_mul (by norm_num)]
      refine Real.rpow_le_rpow (by positivity) ?_ (by linarith)
      rw [zpow_neg, zpow_natCast] at k1
      rw [Real.rpow_neg (by norm_num), Real.rpow_natCast]; exact k1
    have hKa : (K : ℝ) * (-rv a) ≤ 800000000 := by rw [aabs] at hK; linarith
    have hp0 : 0 < rv x ^ (-rv a) := Real.rpow_pos_of_pos x0 _
    refine ⟨?_, ?_⟩
    · rw [abs_of_pos hp0, pw_neg]
      refine le_trans ?_ hl
      have h3 := lg _ hKa
      rw [mul_neg, Real.rpow_neg (by norm_num)] at h3
      exact inv_le_of_inv_le₀ (by positivity) h3
    · rw [abs_of_pos hp0]
      exact le_trans hu (lg _ hKa)
  have sC := (n.sz (by linarith) sQ).mono (show (800000001 : ℤ) ≤ 1000000000 by norm_num)
  clear sQ
  have so : Sz 1000000000 (rv (Fn.one (efArith c T))) := by
    rw [R.one.2]
    refine ⟨?_, ?_⟩
    · rw [abs_one]; exact pw_le1 (by norm_num)
    · rw [abs_one, ← pw_zero]; exact pw_mono (by norm_num)
  obtain ⟨od, ed⟩ := R.div _ _ R.one.1 f (Or.inl (by rw [R.one.2]; norm_num)) so sC
  clear so sC
  rw [R.one.2] at ed
  refine ⟨od, (NearR.trans u0.le ed n2).mono ?_⟩
  have : 2 * (21 / 10 * δ + (520 * eu c + 2 * (eu c * |Real.log (rv x)|) + eu c * |rv a| / 500)) * eu c ≤ 1 * eu c :=
    mul_le_mul_of_nonneg_right (by linarith) u0.le
  linarith

/-- C118 near one, without any assumption on the logarithm: for every base `x ≠ 1` with `|x - 1| ≤ 10^-max(tolerance/10, 6) / 2`
and every exponent with `|a| ≤ 8 10^8` the power is within `(1110 + |a|/200) 10^-(D+1)` of `x^a`, relatively. -/
theorem C118_near_one_partial {c : Cfg} (hc : c.digits10 ≤ 1000) {T : Tables} (hT : StdTables c T) (hb : RecipBelow c T.ln2) {x a : EFloat}
    (hx : FinWF c x) (hp : x.prec = c.elems) (ha : FinWF c a) (hq : a.prec = c.elems) {X E : ℝ} (hX : X = ((val x : ℚ) : ℝ))
    (hE : E = ((val a : ℚ) : ℝ)) (h1 : X ≠ 1) (h2 : 2 * |X - 1| ≤ (10 : ℝ) ^ (-(limE c : ℤ))) (a2 : |E| ≤ 800000000) :
    FinWF c (Fn.pow (efArith c T) x a) ∧ (Fn.pow (efArith c T) x a).prec = c.elems ∧
    |((val (Fn.pow (efArith c T) x a) : ℚ) : ℝ) - X ^ E| ≤ (1110 + |E| / 200) / 10 ^ (c.digits10 + 1) * X ^ E := by
  have R := rnd_efloat (elems_small hc) T
  have lim := R.lim_u.2
  rw [argLim_ef] at lim
  have h3 : |X - 1| ≤ 1 / 2000000 := by
    have : (10 : ℝ) ^ (-(limE c : ℤ)) ≤ 1 / 1000000 := lim
    linarith
  obtain ⟨x2, x3⟩ := abs_le.1 h3
  have x0 : 0 < X := by linarith
  obtain ⟨g1, g2, g3⟩ := C110_near_one_partial hc T hx hp (fun h => h1 (by rw [hX, h]; norm_num)) (by rw [← hX]; exact h2)
  rw [← hX, ← eu_mul] at g3
  have u0 : 0 < eu c := R.u0
  have u1 : eu c ≤ 1 / 10 ^ 30 := R.u1
  have g4 := le_trans g3 (mul_le_mul_of_nonneg_left (show |X - 1| / 40 + 1 / 10 ^ 10 ≤ 1 / 1000 by norm_num at h3 ⊢; linarith) u0.le)
  have lg : |Real.log X| ≤ 1 / 1000 := by
    have a1 := Real.log_le_sub_one_of_pos x0
    have a3 := Real.one_sub_inv_le_log_of_pos x0
    have a4 : X⁻¹ ≤ 1 + 1 / 1000 := by
      rw [inv_le_comm₀ x0 (by norm_num)]; norm_num; linarith
    exact abs_le.2 ⟨by linarith, by linarith⟩
  obtain ⟨f, p, e⟩ := C118_pow_partial hc hT hb hx hp ha hq hX hE x0 (Or.inr (by linarith)) (K := 1) (by norm_num; linarith)
    (by norm_num; linarith) (by push_cast; linarith) (by norm_num; linarith) g1 g2 g4 (by norm_num at u1 ⊢; linarith) (by norm_num at lg ⊢; linarith)
  refine ⟨f, p, le_trans e (mul_le_mul_of_nonneg_right ?_ (Real.rpow_pos_of_pos x0 _).le)⟩
  rw [← eu_mul, ← eu_mul]
  have := mul_le_mul_of_nonneg_left lg u0.le
  have e1 : eu c * (1100 + 5 * |Real.log X| + |E| / 200) = 1100 * eu c + 5 * (eu c * |Real.log X|) + eu c * |E| / 200 := by ring
  have e2 : eu c * (1110 + |E| / 200) = 1110 * eu c + eu c * |E| / 200 := by ring
  rw [e1, e2]
  linarith

/-- `10^-12345679.25` at 101 digits, with the logarithm of C110. -/
example : |((val (Fn.pow (efArith cfg101 (logTables cfg101)) (ofUnsigned cfg101 10) exC) : ℚ) : ℝ) - (10 : ℝ) ^ ((val exC : ℚ) : ℝ)| ≤
    (5 / 10 ^ 98 + (1100 + 5 * |Real.log 10| + |((val exC : ℚ) : ℝ)| / 200) / 10 ^ (cfg101.digits10 + 1)) * (10 : ℝ) ^ ((val exC : ℚ) : ℝ) := by
  have hv : val (ofUnsigned cfg101 10) = 10 := by decide +kernel
  have hr : ((val (ofUnsigned cfg101 10) : ℚ) : ℝ) = 10 := by rw [hv]; norm_num
  have l10 : |Real.log 10| ≤ 9 := by
    have h := Real.log_le_sub_one_of_pos (show (0 : ℝ) < 10 by norm_num)
    rw [abs_of_nonneg (Real.log_nonneg (by norm_num))]
    linarith
  have hl := C110_last_step_partial (c := cfg101) (T := logTables cfg101) (x := ofUnsigned cfg101 10) (X := 10) (k := 3) (δ := 2 / 10 ^ 85) (by decide)
    (withLog_std (stdTables_std _) _) (by rw [logTables, withLog_ln2]; exact below101) (by decide +kernel) (by decide +kernel) hr.symm (by
      have : limE cfg101 = 11 := by decide
      rw [this]; norm_num) (le_trans (zpow_le_one_of_nonpos₀ (by norm_num) (by norm_num)) (by norm_num))
    (calc (10 : ℝ) = 10 ^ (1 : ℤ) := by norm_num
      _ < 10 ^ (1001 : ℤ) := zpow_lt_zpow_right₀ (by norm_num) (by norm_num)) (by decide) (by decide) (by decide)
    (by rw [iterate101]; decide +kernel) (by
      rw [iterate101]
      have h : |val log10At100 - ln10Q| ≤ 1 / 10 ^ 85 := by decide +kernel
      refine near_of (cast_near h) ln10Q_near ?_
      norm_num) (by norm_num)
  have hE : |((val exC : ℚ) : ℝ)| ≤ 10 ^ 8 := by
    have h : |val exC| ≤ 10 ^ 8 := by decide +kernel
    exact_mod_cast h
  have h := (C118_pow_partial (c := cfg101) (T := logTables cfg101) (X := 10) (E := ((val exC : ℚ) : ℝ)) (K := 1) (δ := 1 / 10 ^ 98) (by decide)
    (withLog_std (stdTables_std _) _) (by rw [logTables, withLog_ln2]; exact below101) (by decide +kernel) (by decide +kernel) exC_fin rfl hr.symm rfl
    (by norm_num) (Or.inr (by norm_num)) (by norm_num) (by norm_num) (by push_cast; norm_num at hE ⊢; linarith) (by norm_num at hE ⊢; linarith) hl.1 hl.2.1
    (le_trans hl.2.2 (by
      have hd : cfg101.digits10 = 101 := rfl
      rw [hd]
      norm_num
      linarith)) (by norm_num) (by norm_num at l10 ⊢; linarith)).2.2
  rw [mul_one_div] at h
  exact h

/-- `(1 + 10^-120)^-12345679.25` at 101 digits. -/
example : |((val (Fn.pow (efArith cfg101 (stdTables cfg101)) (add cfg101 (one cfg101) exTiny) exC) : ℚ) : ℝ) -
    ((val (add cfg101 (one cfg101) exTiny) : ℚ) : ℝ) ^ ((val exC : ℚ) : ℝ)| ≤
    (1110 + |((val exC : ℚ) : ℝ)| / 200) / 10 ^ (cfg101.digits10 + 1) * ((val (add cfg101 (one cfg101) exTiny) : ℚ) : ℝ) ^ ((val exC : ℚ) : ℝ) := by
  have h : 2 * |val (add cfg101 (one cfg101) exTiny) - 1| ≤ 1 / 10 ^ 11 := by decide +kernel
  have hE : |val exC| ≤ 800000000 := by decide +kernel
  have h1 : val (add cfg101 (one cfg101) exTiny) ≠ 1 := by decide +kernel
  refine (C118_near_one_partial (by decide) (stdTables_std _) below101 (by decide +kernel) (by decide +kernel) exC_fin rfl rfl rfl
    (by exact_mod_cast h1) ?_ (by exact_mod_cast hE)).2.2
  have : limE cfg101 = 11 := by decide
  rw [this]
  have h' := (Rat.cast_le (K := ℝ)).2 h
  push_cast at h'
  rw [zpow_neg, zpow_natCast, ← one_div]
  exact h'

/-- The integer exponent of a large number is the largest `int64_t`. -/
theorem pow_large {c : Cfg} (hc : c.digits10 ≤ 1000) (T : Tables) {x a : EFloat} (fx : Full c x) (fa : Full c a) (x0 : val x ≠ 0)
    {n : ℤ} (hn : val a = n) (h : 2 ^ 63 < n) :
    Fn.pow (efArith c T) x a = Fn.pown (efArith c T) x (2 ^ 63 - 1) := by
  have R := rnd_efloat (elems_small hc) T
  have hr : rv a = n := by unfold rv; rw [hn]; norm_cast
  have hr1 : (2 : ℝ) ^ 63 < rv a := by rw [hr]; exact_mod_cast h
  have hq1 : (2 : ℚ) ^ 63 + 1 ≤ val a := by
    rw [hn]
    have : (2 : ℤ) ^ 63 + 1 ≤ n := by omega
    exact_mod_cast this
  have ho : (efArith c T).isone a = false := by
    by_contra hc'
    rw [Bool.not_eq_false] at hc'
    have := (isone_u fa.1 hc').2
    norm_num at hr1; linarith
  have hz : (efArith c T).iszero x = false := by
    by_contra hc'
    rw [Bool.not_eq_false] at hc'
    exact x0 (rv_ne.1 ((R.iszero x fx).1 hc'))
  have hza : (efArith c T).iszero a = false := by
    by_contra hc'
    rw [Bool.not_eq_false] at hc'
    have := (R.iszero a fa).1 hc'
    norm_num at hr1; linarith
  have hi : (efArith c T).isint a = true := (R.isint a fa).2 ⟨n, hr⟩
  have om := R.ofI (-1) (by norm_num)
  have hle : (efArith c T).le a (Fn.oneMinus (efArith c T)) = false := by
    by_contra hc'
    rw [Bool.not_eq_false] at hc'
    have := (R.le _ _ fa om.1).1 hc'
    rw [om.2] at this
    push_cast at this
    norm_num at hr1; linarith
  obtain ⟨f, -, es, ed, -, -, -⟩ := C24_parts_partial fa.1
  have hip : (2 : ℚ) ^ 63 ≤ val (integerPart c a) := by
    have := (abs_lt.1 ed).2
    linarith
  have hto : (efArith c T).toI ((efArith c T).intPart a) = 2 ^ 63 - 1 := by
    change (extractSigned c (integerPart c a)).getD 0 = 2 ^ 63 - 1
    rw [C06_extract_signed_partial f (by norm_num at hip ⊢; linarith), Option.getD_some]
    have : (2 : ℤ) ^ 63 ≤ truncZ (val (integerPart c a)) := by
      unfold truncZ
      rw [if_neg (by norm_num at hip ⊢; linarith)]
      exact Int.le_floor.2 (by push_cast; exact hip)
    unfold clamp
    rw [if_neg (by omega), if_pos (by omega)]
  unfold Fn.pow Fn.powF Fn.isfinite
  rw [R.isnan x fx, R.isinf x fx, ho, hz, hza, hi, hle]
  simp only [hto]
  simp

/-- C118 refuted for large exponents: the exponent goes through `int64_t`, so all integer exponents above `2^63` give the same power
of every base, while the exact powers of every positive base other than one differ. -/
theorem C118_large_refuted {c : Cfg} (hc : c.digits10 ≤ 1000) (T : Tables) {x a b : EFloat} (hx : FinWF c x) (hp : x.prec = c.elems)
    (ha : FinWF c a) (hpa : a.prec = c.elems) (hb : FinWF c b) (hpb : b.prec = c.elems) (x0 : 0 < val x) (x1 : val x ≠ 1) {m n : ℤ}
    (hm : val a = m) (hn : val b = n) (h1 : 2 ^ 63 < m) (h2 : m < n) :
    Fn.pow (efArith c T) x a = Fn.pow (efArith c T) x b ∧
    ((val x : ℚ) : ℝ) ^ ((val a : ℚ) : ℝ) ≠ ((val x : ℚ) : ℝ) ^ ((val b : ℚ) : ℝ) := by
  refine ⟨?_, ?_⟩
  · rw [pow_large hc T ⟨hx, hp⟩ ⟨ha, hpa⟩ x0.ne' hm h1, pow_large hc T ⟨hx, hp⟩ ⟨hb, hpb⟩ x0.ne' hn (h1.trans h2)]
  · intro h
    have p0 : (0 : ℝ) < ((val x : ℚ) : ℝ) := by exact_mod_cast x0
    have p1 : ((val x : ℚ) : ℝ) ≠ 1 := by exact_mod_cast x1
    have := (Real.rpow_right_inj p0 p1).1 h
    rw [hm, hn] at this
    have : m = n := by exact_mod_cast this
    omega

/-- `(1 + 10^-120)^(10^120)` and `(1 + 10^-120)^(10^128)` at 101 digits: the exact powers are close to `e` and to `e^(10^8)`. -/
example : Fn.pow (efArith cfg101 (stdTables cfg101)) (add cfg101 (one cfg101) exTiny) (mkLimbs cfg101 [1] 120 false) =
    Fn.pow (efArith cfg101 (stdTables cfg101)) (add cfg101 (one cfg101) exTiny) (mkLimbs cfg101 [1] 128 false) :=
  (C118_large_refuted (m := 10 ^ 120) (n := 10 ^ 128) (by decide) _ (by decide +kernel) (by decide +kernel) (by decide +kernel) (by decide +kernel)
    (by decide +kernel) (by decide +kernel) (by decide +kernel) (by decide +kernel) (by decide +kernel) (by decide +kernel) (by norm_num) (by norm_num)).1

/-- C118 refuted for an infinite base: with every negative exponent the power of infinity is infinity, while `t^a` tends to zero as `t`
grows. -/
theorem C118_infinite_refuted {c : Cfg} (T : Tables) {a : EFloat} (h : val a < 0) :
    (Fn.pow (efArith c T) (infV c) a).isinf = true ∧
    Filter.Tendsto (fun t : ℝ => t ^ ((val a : ℚ) : ℝ)) Filter.atTop (nhds 0) := by
  have h' : 0 < -((val a : ℚ) : ℝ) := by
    have : ((val a : ℚ) : ℝ) < 0 := by exact_mod_cast h
    linarith
  refine ⟨?_, by simpa using tendsto_rpow_neg_atTop h'⟩
  have e : Fn.isfinite (efArith c T) (infV c) = false := rfl
  unfold Fn.pow Fn.powF
  rw [e]
  rfl

/-- Infinity to the power `-12345679.25`. -/
example : (Fn.pow (efArith cfg101 (stdTables cfg101)) (infV cfg101) exC).isinf = true :=
  (C118_infinite_refuted _ (by decide +kernel)).1

end EFX.Props
