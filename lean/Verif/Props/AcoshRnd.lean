import Verif.Lemmas.RndAtanh
import Verif.Props.AsinRnd
import Verif.Props.CxSqrt
import Verif.Props.LogRnd
import Verif.Props.Hyperbolic
/-!
# C117: the inverse hyperbolic functions with rounding close to their special points
-/

namespace EFX.Props
open EFX EFX.Spec

/-- The difference to one of a number slightly above one is exact. -/
theorem sub_one_exact {c : Cfg} {x : EFloat} (hx : FinWF c x) (h1 : 1 ≤ val x) (h2 : val x ≤ 2) :
    val (sub c x (one c)) = val x - 1 := by
  have e1 : sub c x (one c) = add c x (negate (one c)) := subAssign_eq hx (FinWF_one c)
  have fn := FinWF_negate (FinWF_one c)
  have vn : val (negate (one c)) = -1 := by rw [negate_val (FinWF_one c), val_one]
  have en : (negate (one c)).exp = 0 := by
    have : (negate (one c)).exp = (one c).exp := by unfold negate; split <;> rfl
    rw [this]; rfl
  have ex : x.exp = 0 := by
    have h3 := lt_exp_of_mag (k := 0) hx (by rw [zpow_zero, abs_of_pos (by linarith)]; exact h1)
    have h4 := exp_lt_of_mag (e := 1) hx (by linarith) (by rw [zpow_one, abs_of_pos (by linarith)]; linarith)
    have h5 := hx.exp8
    omega
  have := (C08_add_opposite_sign hx fn (inRange_of_exp hx (by rw [ex]; decide)) (inRange_of_exp fn (by rw [en]; decide))
    (by rw [vn]; linarith)).2.2.2.2.2.2 (by rw [ex, en])
  rw [e1, this, vn]; ring

theorem arsinh_ratio {y : ℝ} (h0 : 0 < y) (h1 : y ≤ 2 / 100) : |Real.arsinh y / y - 1| ≤ 1 / 100 := by
  have h3 : |(-(y * y))| ≤ 4 / 10000 := by
    rw [abs_neg, abs_mul, abs_of_pos h0]
    have := mul_le_mul h1 h1 h0.le (by norm_num)
    linarith
  have hr : ∀ n, |t2f1 (1 / 2) (1 / 2) (3 / 2) (-(y * y)) (n + 1)| ≤ |t2f1 (1 / 2) (1 / 2) (3 / 2) (-(y * y)) n| * |(-(y * y))| :=
    t2f1_ratio (by norm_num) (by norm_num) (by norm_num) (by norm_num) (by norm_num)
  have := tail_le (hasSum_arsinh2 h0.ne' (by rw [abs_of_pos h0]; linarith)) (m := 1) (fun i _ => by
    have h5 := mul_le_mul_of_nonneg_left (show |(-(y * y))| ≤ 1 / 2 by linarith) (abs_nonneg (t2f1 (1 / 2) (1 / 2) (3 / 2) (-(y * y)) i))
    have := hr i
    linarith)
  rw [psum_succ, t2f1_zero] at this
  simp only [psum, Finset.range_zero, Finset.sum_empty, zero_add] at this
  rw [t2f1_one, abs_mul, abs_of_pos (by norm_num : (0 : ℝ) < 1 / 2 * (1 / 2) / (3 / 2))] at this
  linarith

/-- C117, `acosh` close to one: the computed value is relatively accurate up to the error of the real square root (C22). -/
theorem C117_acosh_partial {c : Cfg} (hc : c.digits10 ≤ 1000) {T : Tables} (hT : Const.sqrt2 c = some T.sqrt2) {x : EFloat}
    (hx : FinWF c x) (hp : x.prec = c.elems) {X : ℝ} (hX : X = ((val x : ℚ) : ℝ)) (h1 : 1 < X)
    (h2 : X - 1 < (10 : ℝ) ^ (-(limE c : ℤ))) :
    FinWF c (Fn.acosh (efArith c T) x) ∧ (Fn.acosh (efArith c T) x).prec = c.elems ∧
    |((val (Fn.acosh (efArith c T) x) : ℚ) : ℝ) - Real.arcosh X| ≤
      (((sqrtBound c : ℚ) : ℝ) + 1 / 10 ^ (c.digits10 + 1)) * Real.arcosh X := by
  have R := rnd_efloat (elems_small hc) T
  have u0 := R.u0
  have u1 := R.u1
  norm_num at u1
  obtain ⟨σ0, σ1⟩ := sqrtErr_small c
  rw [sqrtErr_eq] at σ0 σ1
  have fx : Full c x := ⟨hx, hp⟩
  have hX' : rv x = X := hX.symm
  have l6 : (10 : ℝ) ^ (-(limE c : ℤ)) ≤ 1 / 1000000 := by
    refine le_trans (zpow_le_zpow_right₀ (by norm_num) (show _ ≤ (-6 : ℤ) by have : 6 ≤ limE c := le_max_right _ _; omega)) (by norm_num)
  have big : (4 : ℝ) ≤ pw 2000000000 := by
    refine le_trans (show (4 : ℝ) ≤ pw 1 by rw [pw_one]; norm_num) (pw_mono (by norm_num))
  have X2 : X < 2 := by linarith
  have q1 : 1 < val x := by rw [hX] at h1; exact_mod_cast h1
  have q2 : val x < 2 := by rw [hX] at X2; exact_mod_cast X2
  have o1 := R.one
  -- the branch
  have hsub := sub_one_exact hx q1.le q2.le
  obtain ⟨od, -, -, zd⟩ := R.sub x (Fn.one (efArith c T)) fx o1.1 (by rw [hX', abs_of_pos (by linarith)]; linarith) (by rw [o1.2, abs_one]; linarith)
  have ed : rv ((efArith c T).sub x (Fn.one (efArith c T))) = X - 1 := by
    change ((val (sub c x (one c)) : ℚ) : ℝ) = _
    rw [hsub, hX]; push_cast; rfl
  have zd' := zd (by rw [hX']; linarith) (by rw [hX', o1.2]; linarith)
  have hneg : (efArith c T).isneg x = false := by
    by_contra h
    have := (R.isneg x fx).1 (by rw [Bool.not_eq_false] at h; exact h)
    linarith
  have hlt : (efArith c T).lt x (Fn.one (efArith c T)) = false := by
    by_contra h
    have := (R.lt x _ fx o1.1).1 (by rw [Bool.not_eq_false] at h; exact h)
    rw [o1.2] at this
    linarith
  have hone : (efArith c T).isone x = false := by
    by_contra h
    have := isone_rv hx (by rw [Bool.not_eq_false] at h; exact h)
    have := pw_pos (-(8 * (c.elems : ℤ)))
    linarith
  unfold Fn.acosh
  rw [R.isfinite_ok fx, hneg, hlt, hone]
  simp only [Bool.not_true, Bool.or_self, Bool.false_eq_true, if_false]
  generalize hd : (efArith c T).sub x (Fn.one (efArith c T)) = d at *
  have d0 : 0 < rv d := by rw [ed]; linarith
  have hsm : Fn.smallArg (efArith c T) d = true := by
    unfold Fn.smallArg
    rw [decide_eq_true_eq, argLim_ef]
    have h1 := (R.order d od d0.ne').1
    rw [abs_of_pos d0, ed] at h1
    exact pw_lt (lt_of_le_of_lt h1 h2)
  rw [hsm, if_pos rfl]
  have sd : Sz 6000 (rv d) := by
    refine ⟨le_trans ?_ zd', ?_⟩
    · rw [hX', abs_of_pos (by linarith)]
      have := pw_mono (show (-6000 : ℤ) ≤ -5200 by norm_num)
      have := mul_le_mul_of_nonneg_left h1.le (pw_pos (-5200)).le
      linarith
    · rw [abs_of_pos d0, ed]
      refine le_trans (show X - 1 ≤ pw 0 by rw [pw_zero]; linarith) (pw_mono (by norm_num))
  set δ := X - 1 with hδ
  rw [ed] at d0 sd
  set y := Real.sqrt (δ / 2) with hy
  have sq : y * y = δ / 2 := Real.mul_self_sqrt (by linarith)
  have y0 : 0 < y := Real.sqrt_pos.2 (by linarith)
  have ys : y ≤ 2 / 100 := by
    by_contra h
    have := mul_self_lt_mul_self (by norm_num : (0 : ℝ) ≤ 2 / 100) (not_le.1 h)
    rw [sq] at this
    norm_num at this
    linarith
  -- the square root
  obtain ⟨os, ps, es⟩ := rnd_sqrt (c := c) od (by rw [ed]; exact d0) (by rw [ed]; exact sd.mono (by norm_num))
  rw [ed, sqrtErr_eq] at es
  have rs0 : 0 < Real.sqrt δ := Real.sqrt_pos.2 d0
  have rs := Real.mul_self_sqrt d0.le
  have ns : NearR ((sqrtBound c : ℚ) : ℝ) (rv (calculateSqrt c d)) (Real.sqrt δ) := by
    unfold NearR
    rw [abs_of_pos rs0]
    generalize rv (calculateSqrt c d) = s at *
    have e1 : s ^ 2 - δ = (s - Real.sqrt δ) * (s + Real.sqrt δ) := by linear_combination rs
    have e2 : ((sqrtBound c : ℚ) : ℝ) * δ = ((sqrtBound c : ℚ) : ℝ) * Real.sqrt δ * Real.sqrt δ := by rw [mul_assoc, rs]
    rw [e1, abs_mul, abs_of_pos (show 0 < s + Real.sqrt δ by linarith), e2] at es
    have h3 : |s - Real.sqrt δ| * Real.sqrt δ ≤ |s - Real.sqrt δ| * (s + Real.sqrt δ) := mul_le_mul_of_nonneg_left (by linarith) (abs_nonneg _)
    exact le_of_mul_le_mul_right (by linarith) rs0
  -- the constant
  obtain ⟨r, c1, c2⟩ := (C75_constants_partial c).1
  have er : T.sqrt2 = r := by rw [c1] at hT; exact (Option.some.inj hT).symm
  have o2 : Full c T.sqrt2 := by
    refine ⟨by rw [er]; exact c2.1, ofString_prec (s := Const.sqrt2Text) ?_⟩
    unfold Const.sqrt2 at hT
    exact hT
  have s2a : 1 ≤ Real.sqrt 2 := Real.one_le_sqrt.2 (by norm_num)
  have s2b : Real.sqrt 2 ≤ 2 := Real.sqrt_le_iff.2 ⟨by norm_num, by norm_num⟩
  have n2 : NearR (eu c / 10 ^ 14) (rv T.sqrt2) (Real.sqrt 2) := by
    have h3 := close_eu hc (by linarith) c2
    rw [← er] at h3
    unfold NearR
    rw [abs_of_pos (show 0 < Real.sqrt 2 by linarith)]
    refine le_trans h3 ?_
    have : 0 ≤ eu c / 10 ^ 14 := by positivity
    have := mul_le_mul_of_nonneg_left s2a this
    linarith
  -- the series
  obtain ⟨on, en⟩ := R.neg d od
  obtain ⟨oq, eq, -⟩ : Full c ((efArith c T).divI ((efArith c T).neg d) 2) ∧
      |rv ((efArith c T).divI ((efArith c T).neg d) 2) - rv ((efArith c T).neg d) / (2 : ℤ)| ≤
        eu c * |rv ((efArith c T).neg d) / (2 : ℤ)| ∧ True := by
    obtain ⟨a, b⟩ := R.divI _ 2 on (by norm_num) (by norm_num)
    exact ⟨a, b, trivial⟩
  rw [en, ed] at eq
  have ez : -δ / ((2 : ℤ) : ℝ) = -(y * y) := by rw [sq]; push_cast; ring
  rw [ez] at eq
  have nq : NearR (3 * eu c) (rv ((efArith c T).divI ((efArith c T).neg d) 2)) (-(y * y)) :=
    NearR.mono (show NearR (eu c) _ _ from eq) (by linarith)
  obtain ⟨o3, n3⟩ := R.threeHalf
  have hr := arsinh_ratio y0 ys
  have szq : Sz 40000000 (-(y * y)) := by
    unfold Sz
    rw [abs_neg, sq, abs_of_pos (by linarith)]
    have := sd
    unfold Sz at this
    rw [abs_of_pos d0] at this
    have h3 := pw_mono (show (-40000000 : ℤ) ≤ -6000 + -1 by norm_num)
    rw [pw_add, pw_neg 1, pw_one] at h3
    have := pw_pos (-6000)
    have h4 := pw_mono (show (0 : ℤ) ≤ 40000000 by norm_num)
    rw [pw_zero] at h4
    constructor
    · norm_num at h3; linarith
    · linarith
  obtain ⟨oh, eh⟩ := R.hyp2f1_acc (a := (efArith c T).half) (b := (efArith c T).half) (c := Fn.threeHalf (efArith c T)) oq R.half.1 R.half.1 o3 nq szq
    (by rw [abs_neg, sq, abs_of_pos (by linarith)]; linarith)
    (a0 := 1 / 2) (b0 := 1 / 2) (c0 := 3 / 2)
    (by norm_num) (by norm_num) (by norm_num) (by norm_num) (by norm_num) (by norm_num)
    (by rw [R.half.2]; exact NearR.rfl' (by positivity)) (by rw [R.half.2]; exact NearR.rfl' (by positivity)) n3
    (hasSum_arsinh2 y0.ne' (by rw [abs_of_pos y0]; linarith)) hr
  generalize Fn.hyp2f1 (efArith c T) (efArith c T).half (efArith c T).half (Fn.threeHalf (efArith c T)) ((efArith c T).divI ((efArith c T).neg d) 2) = h at *
  set L := Real.arsinh y / y with hL
  have hl := abs_le.1 hr
  have nh : NearR (eu c / 40) (rv h) L := by
    unfold NearR
    rw [abs_of_pos (show 0 < L by linarith)]
    refine le_trans eh ?_
    have := mul_le_mul_of_nonneg_left (show 99 / 100 ≤ L by linarith) (show 0 ≤ eu c / 40 by positivity)
    linarith
  -- the products
  have comb : ∀ {e f : ℝ}, e ≤ 1 / 2 → 0 ≤ f → e + f + e * f ≤ e + 2 * f := by
    intro e f h3 h4
    have := mul_le_mul_of_nonneg_right h3 h4
    linarith
  have e2y : Real.sqrt 2 * Real.sqrt δ = 2 * y := by
    rw [← Real.sqrt_mul (by norm_num), show 2 * δ = (2 * y) ^ 2 by rw [mul_pow, pow_two y, sq]; ring]
    exact Real.sqrt_sq (by linarith)
  have ea : Real.arcosh X = 2 * y * L := by
    rw [arcosh_half h1.le, ← hδ, ← hy, hL]
    field_simp
  have sy : Sz 6000 (2 * y) := by
    refine ⟨le_trans sd.1 ?_, ?_⟩
    · rw [abs_of_pos d0, abs_of_pos (by linarith)]
      have := mul_le_mul_of_nonneg_left (show y ≤ 1 by linarith) y0.le
      linarith
    · rw [abs_of_pos (by linarith)]
      refine le_trans (show 2 * y ≤ pw 0 by rw [pw_zero]; linarith) (pw_mono (by norm_num))
  have sL : Sz 1 L := by
    unfold Sz
    rw [pw_neg, pw_one, abs_of_pos (by linarith)]
    norm_num
    constructor <;> linarith
  set σ := ((sqrtBound c : ℚ) : ℝ) with hσ
  set u := eu c with hu
  have m1 : NearR (σ + 2 * (u / 10 ^ 14)) (rv T.sqrt2 * rv (calculateSqrt c d)) (2 * y) := by
    have h3 := NearR.mul (by positivity) n2 ns
    rw [e2y] at h3
    refine h3.mono ?_
    have := comb (e := σ) (f := u / 10 ^ 14) (by linarith) (by positivity)
    linarith
  have z1 := NearR.sz m1 (by norm_num; linarith) sy
  obtain ⟨op, ep, -⟩ := R.mul T.sqrt2 (calculateSqrt c d) o2 os (z1.mono (by norm_num))
  have m2 : NearR (σ + u / 10) (rv ((efArith c T).mul T.sqrt2 (calculateSqrt c d))) (2 * y) := by
    refine (NearR.trans (by positivity) (show NearR (u / 10 ^ 4) _ _ from ep) m1).mono ?_
    refine le_trans (comb (by norm_num; linarith) (by positivity)) ?_
    norm_num
    linarith
  have m3 : NearR (σ + u / 5) (rv ((efArith c T).mul T.sqrt2 (calculateSqrt c d)) * rv h) (2 * y * L) := by
    refine (NearR.mul (by positivity) m2 nh).mono ?_
    refine le_trans (comb (by linarith) (by positivity)) ?_
    linarith
  have z2 := NearR.sz m3 (by linarith) (sy.mul sL)
  obtain ⟨or_, er_, -⟩ := R.mul _ h op oh (z2.mono (by norm_num))
  refine ⟨or_.1, or_.2, ?_⟩
  have m4 : NearR (σ + u) (rv ((efArith c T).mul ((efArith c T).mul T.sqrt2 (calculateSqrt c d)) h)) (2 * y * L) := by
    refine (NearR.trans (by positivity) (show NearR (u / 10 ^ 4) _ _ from er_) m3).mono ?_
    refine le_trans (comb (by linarith) (by positivity)) ?_
    norm_num
    linarith
  have p0 : 0 < 2 * y * L := mul_pos (by linarith) (by linarith)
  unfold NearR at m4
  rw [abs_of_pos p0, ← ea, hu, eu_inv] at m4
  exact m4

/-- `1 + 10^-24` at 101 digits. -/
def exAbove : EFloat := add cfg101 (one cfg101) (mkLimbs cfg101 [1] (-24) false)

example : |((val (Fn.acosh (efArith cfg101 (stdTables cfg101)) exAbove) : ℚ) : ℝ) - Real.arcosh (1 + 1 / 10 ^ 24)| ≤
    (((sqrtBound cfg101 : ℚ) : ℝ) + 1 / 10 ^ (cfg101.digits10 + 1)) * Real.arcosh (1 + 1 / 10 ^ 24) := by
  have hv : val exAbove = 1 + 1 / 10 ^ 24 := by decide +kernel
  refine (C117_acosh_partial (by decide) (T := stdTables cfg101) ?_ (x := exAbove) (by decide +kernel) (by decide +kernel)
    (X := 1 + 1 / 10 ^ 24) (by rw [hv]; push_cast; rfl) (by norm_num) ?_).2.2
  · obtain ⟨r, h1, -⟩ := (C75_constants_partial cfg101).1
    simp [stdTables, h1]
  · have : limE cfg101 = 11 := by decide
    rw [this, zpow_neg, zpow_natCast]
    norm_num

/-- C117, `atanh` of small numbers: the error is at most one unit of `10^-(D+1)` relative to the argument. -/
theorem C117_atanh_partial {c : Cfg} (hc : c.digits10 ≤ 1000) (T : Tables) {x : EFloat} (hx : FinWF c x) (hp : x.prec = c.elems)
    {X : ℝ} (hX : X = ((val x : ℚ) : ℝ)) (h1 : (10 : ℝ) ^ (-100000 : ℤ) ≤ |X|) (h2 : |X| < (10 : ℝ) ^ (-(limE c : ℤ))) :
    FinWF c (Fn.atanh (efArith c T) x) ∧ (Fn.atanh (efArith c T) x).prec = c.elems ∧
    |((val (Fn.atanh (efArith c T) x) : ℚ) : ℝ) - Real.artanh X| ≤ |X| / 10 ^ (c.digits10 + 1) := by
  have R := rnd_efloat (elems_small hc) T
  have fx : Full c x := ⟨hx, hp⟩
  have hX' : rv x = X := hX.symm
  have l6 : (10 : ℝ) ^ (-(limE c : ℤ)) ≤ 1 / 1000000 := by
    refine le_trans (zpow_le_zpow_right₀ (by norm_num) (show _ ≤ (-6 : ℤ) by have : 6 ≤ limE c := le_max_right _ _; omega)) (by norm_num)
  have x1 : |X| ≤ 1 / 1000 := by linarith
  have sx : Sz 100000 X := by
    refine ⟨h1, le_trans (show |X| ≤ pw 0 by rw [pw_zero]; linarith) (pw_mono (by norm_num))⟩
  clear h1
  obtain ⟨of, ef⟩ := R.fabs_acc fx
  have hle : (efArith c T).le (Fn.one (efArith c T)) (Fn.fabs (efArith c T) x) = false := by
    by_contra h
    have := (R.le _ _ R.one.1 of).1 (by rw [Bool.not_eq_false] at h; exact h)
    rw [R.one.2, ef, hX'] at this
    linarith
  have hneg : (efArith c T).isneg (Fn.fabs (efArith c T) x) = false := by
    by_contra h
    have := (R.isneg _ of).1 (by rw [Bool.not_eq_false] at h; exact h)
    rw [ef] at this
    linarith [abs_nonneg (rv x)]
  have hsm : Fn.smallArg (efArith c T) x = true := by
    unfold Fn.smallArg
    rw [decide_eq_true_eq, argLim_ef]
    have h1 := (R.order x fx (by rw [hX']; exact sx.ne)).1
    rw [hX'] at h1
    exact pw_lt (lt_of_le_of_lt h1 h2)
  have key : Fn.atanh (efArith c T) x = Fn.log1p1m2 (efArith c T) x := by
    unfold Fn.atanh
    rw [R.isfinite_ok fx, hsm]
    simp only [Bool.not_true, Bool.false_eq_true, if_false, if_true]
    rw [hle, hneg]
    simp only [Bool.false_eq_true, if_false, Bool.not_false, if_true]
  obtain ⟨a, b⟩ := R.log1p1m2_acc fx (by rw [hX']; exact sx) (by rw [hX']; exact x1)
  rw [key]
  rw [hX', eu_mul] at b
  exact ⟨a.1, a.2, b⟩

/-- C117, `log1p` of small numbers: the error is at most a fortieth of `10^-(D+1)` relative to the argument. -/
theorem C117_log1p_partial {c : Cfg} (hc : c.digits10 ≤ 1000) (T : Tables) {x : EFloat} (hx : FinWF c x) (hp : x.prec = c.elems)
    {X : ℝ} (hX : X = ((val x : ℚ) : ℝ)) (h1 : (10 : ℝ) ^ (-40000000 : ℤ) ≤ |X|) (h2 : |X| ≤ 1 / 1000) :
    FinWF c (Fn.log1p (efArith c T) x) ∧ (Fn.log1p (efArith c T) x).prec = c.elems ∧
    |((val (Fn.log1p (efArith c T) x) : ℚ) : ℝ) - Real.log (1 + X)| ≤ |X| / 40 / 10 ^ (c.digits10 + 1) := by
  have R := rnd_efloat (elems_small hc) T
  have hX' : rv x = X := hX.symm
  have sx : Sz 40000000 X := by
    refine ⟨h1, le_trans (show |X| ≤ pw 0 by rw [pw_zero]; linarith) (pw_mono (by norm_num))⟩
  clear h1
  obtain ⟨a, b⟩ := R.logAtOne_acc (x := x) ⟨hx, hp⟩ (by rw [hX']; exact sx) (by rw [hX']; exact h2)
  rw [hX', show eu c / 40 * |X| = eu c * (|X| / 40) by ring, eu_mul] at b
  exact ⟨a.1, a.2, b⟩

/-- The argument `-10^-24` at 101 digits. -/
example : |((val (Fn.atanh (efArith cfg101 (stdTables cfg101)) (mkLimbs cfg101 [1] (-24) true)) : ℚ) : ℝ) - Real.artanh (-(1 / 10 ^ 24))| ≤
      |(-(1 / 10 ^ 24 : ℝ))| / 10 ^ (cfg101.digits10 + 1) ∧
    |((val (Fn.log1p (efArith cfg101 (stdTables cfg101)) (mkLimbs cfg101 [1] (-24) true)) : ℚ) : ℝ) - Real.log (1 + -(1 / 10 ^ 24))| ≤
      |(-(1 / 10 ^ 24 : ℝ))| / 40 / 10 ^ (cfg101.digits10 + 1) := by
  have hv : val (mkLimbs cfg101 [1] (-24) true) = -(1 / 10 ^ 24) := by decide +kernel
  have hf : FinWF cfg101 (mkLimbs cfg101 [1] (-24) true) := by decide +kernel
  have ha : |(-(1 / 10 ^ 24 : ℝ))| = 10 ^ (-24 : ℤ) := by rw [abs_neg, abs_of_pos (by norm_num)]; norm_num
  constructor
  · refine (C117_atanh_partial (by decide) _ hf (by decide +kernel) (X := -(1 / 10 ^ 24)) (by rw [hv]; push_cast; rfl) ?_ ?_).2.2
    · rw [ha]; exact zpow_le_zpow_right₀ (by norm_num) (by norm_num)
    · have : limE cfg101 = 11 := by decide
      rw [ha, this]
      exact zpow_lt_zpow_right₀ (by norm_num) (by norm_num)
  · refine (C117_log1p_partial (by decide) _ hf (by decide +kernel) (X := -(1 / 10 ^ 24)) (by rw [hv]; push_cast; rfl) ?_ ?_).2.2
    · rw [ha]; exact zpow_le_zpow_right₀ (by norm_num) (by norm_num)
    · rw [ha]; norm_num

/-- Tables whose estimate of the logarithm is zero, as the double logarithm of one is. -/
def zeroTables (c : Cfg) : Tables := { stdTables c with log0 := fun _ => some (zero c) }

/-- C117 fails for `asinh` relative to its value: at 101 digits `asinh(10^-200)` is zero, because the sum `|x| + sqrt(x^2 + 1)`
loses the argument. -/
theorem C117_asinh_refuted :
    val (mkLimbs cfg101 [1] (-200) false) = 1 / 10 ^ 200 ∧ 0 < Real.arsinh (1 / 10 ^ 200) ∧
    val (Fn.asinh (efArith cfg101 (zeroTables cfg101)) (mkLimbs cfg101 [1] (-200) false)) = 0 := by
  refine ⟨by decide +kernel, Real.arsinh_pos_iff.2 (by positivity), by decide +kernel⟩

end EFX.Props
