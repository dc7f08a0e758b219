import Verif.Lemmas.RndLog
import Verif.Props.AsinRnd
/-!
# C110: the logarithm with all rounding
-/

namespace EFX.Props
open EFX EFX.Spec

theorem rv_one_iff {x : EFloat} : rv x = 1 ↔ val x = 1 := by unfold rv; exact_mod_cast Iff.rfl

/-- A number that counts as one is `1 - 10^-(8 N)`. -/
theorem isone_rv {c : Cfg} {x : EFloat} (hx : FinWF c x) (h : isone x = true) : rv x = 1 - pw (-(8 * (c.elems : ℤ))) := by
  obtain ⟨h1, h2⟩ := isone_spec hx h
  have h3 : val x = mag x := by unfold val; rw [h1]; simp
  unfold rv
  rw [h3, ← pw_cast, ← h2]
  push_cast; ring

/-- C110 near one.  With up to 1000 digits, for every number `x ≠ 1` of full working precision with
`|x - 1| ≤ 10^-max(tolerance/10, 6) / 2` the computed `log x` is a valid number of full working precision within
`(|x - 1|/40 + 10^-10) 10^-(D+1)` of the exact value. -/
theorem C110_near_one_partial {c : Cfg} (hc : c.digits10 ≤ 1000) (T : Tables) {x : EFloat} (hx : FinWF c x) (hp : x.prec = c.elems)
    (h1 : val x ≠ 1) (h2 : 2 * |((val x : ℚ) : ℝ) - 1| ≤ (10 : ℝ) ^ (-(limE c : ℤ))) :
    FinWF c (Fn.log (efArith c T) x) ∧ (Fn.log (efArith c T) x).prec = c.elems ∧
    |((val (Fn.log (efArith c T) x) : ℚ) : ℝ) - Real.log ((val x : ℚ) : ℝ)| ≤
      (|((val x : ℚ) : ℝ) - 1| / 40 + 1 / 10 ^ 10) / 10 ^ (c.digits10 + 1) := by
  have R := rnd_efloat (elems_small hc) T
  have h1' : rv x ≠ 1 := fun h => h1 (rv_one_iff.1 h)
  have h2' : 2 * |rv x - 1| ≤ pw (-Fn.argLim (efArith c T)) := by rw [argLim_ef]; exact h2
  have u0 : 0 < eu c := R.u0
  by_cases hone : isone x = true
  · have hv := isone_rv hx hone
    have hz : Fn.log (efArith c T) x = zero c := by
      have hn : x.isneg = false := by
        by_contra hc'
        have := (R.isneg x ⟨hx, hp⟩).1 (show x.isneg = true by simpa using hc')
        rw [hv] at this
        have := pw_mono (show -(8 * (c.elems : ℤ)) ≤ 0 by omega)
        rw [pw_zero] at this
        linarith
      have hz0 : x.iszero = false := by
        by_contra hc'
        have h0 := (R.iszero x ⟨hx, hp⟩).1 (show x.iszero = true by simpa using hc')
        rw [h0, zero_sub, abs_neg, abs_one] at h2'
        have := R.lim_u.2
        linarith
      unfold Fn.log
      rw [R.isnan x ⟨hx, hp⟩, R.isinf x ⟨hx, hp⟩]
      change (if (false || x.isneg || false) = true then _ else if x.iszero = true then _ else if isone x = true then _ else _) = _
      rw [hn, hz0, hone]
      simp only [Bool.or_self, Bool.false_eq_true, if_false, if_true]
      change ofSigned c (i64 0) = _
      rw [i64_id (by norm_num)]
      rfl
    rw [hz]
    obtain ⟨f, e, -, -, p, -⟩ := ofSigned_spec c (n := 0) (by decide) (by decide)
    have hzc : ofSigned c 0 = zero c := rfl
    rw [hzc] at f e p
    refine ⟨f, p, ?_⟩
    rw [e]
    change |((0 : ℚ) : ℝ) - Real.log (rv x)| ≤ (|rv x - 1| / 40 + _) / _
    have q : pw (-(8 * (c.elems : ℤ))) ≤ eu c / 10 ^ 15 := by
      have h3 := elems_digits c
      have := pw_shift c (-((15 : ℕ) : ℤ))
      rw [pw_neg, pw_nat, ← div_eq_mul_inv] at this
      rw [← this]
      apply pw_mono; push_cast; omega
    have ue : eu c = 1 / 10 ^ (c.digits10 + 1) := by
      rw [← pw_nat, one_div, ← pw_neg]; unfold eu; push_cast; rfl
    have u1 := R.u1
    have hg : (|rv x - 1| / 40 + 1 / 10 ^ 10) / 10 ^ (c.digits10 + 1) = (|rv x - 1| / 40 + 1 / 10 ^ 10) * eu c := by rw [ue]; ring
    rw [hg, hv]
    have q0 := pw_pos (-(8 * (c.elems : ℤ)))
    generalize pw (-(8 * (c.elems : ℤ))) = P at *
    norm_num at q u1
    have l1 : Real.log (1 - P) ≤ 0 := Real.log_nonpos (by linarith) (by linarith)
    have l2 := Real.one_sub_inv_le_log_of_pos (show 0 < 1 - P by linarith)
    have l3 : (1 - P)⁻¹ ≤ 1 + 2 * P := by
      rw [inv_le_comm₀ (by linarith) (by linarith), inv_eq_one_div, div_le_iff₀ (by linarith)]
      nlinarith
    have k : (1 : ℝ) / 10 ^ 10 * eu c ≤ (|1 - P - 1| / 40 + 1 / 10 ^ 10) * eu c :=
      mul_le_mul_of_nonneg_right (by linarith [abs_nonneg (1 - P - 1)]) u0.le
    rw [Rat.cast_zero, zero_sub, abs_neg, abs_of_nonpos l1]
    norm_num at k ⊢
    linarith
  · obtain ⟨a, b⟩ := R.log_near_acc (x := x) ⟨hx, hp⟩ h1' (show isone x = false by simpa using hone) h2'
    refine ⟨a.1, a.2, le_trans b (le_of_eq ?_)⟩
    have ue : eu c = 1 / 10 ^ (c.digits10 + 1) := by
      rw [← pw_nat, one_div, ← pw_neg]; unfold eu; push_cast; rfl
    rw [ue]
    change _ = (|rv x - 1| / 40 + _) / _
    ring

/-- The value of the iteration of `log` after `k` steps. -/
def logIterate (c : Cfg) (T : Tables) (x : EFloat) (k : ℕ) : EFloat :=
  Fn.digitLoop (efArith c T) (fun d w => Fn.logStep (efArith c T) x d w) k 14 ((T.log0 x).getD (sub c x (one c)))

/-- C110.  With up to 1000 digits, the library's constants, and `1/ln 2` not rounded upwards (as in C89), let `x` be a
number of full working precision, between `10^-1000` and `10^1001`, and at least `1.1 * 10^-max(tolerance/10, 6)` away from
one.  The iteration makes `k + 1` steps, where `14 * 2^k ≤ tolerance < 14 * 2^(k+1)`.  If the last step works at full
precision, which is `14 * 2^k * 2 > 8 (N - 1)` for `N` limbs, and the value before the last step is within `δ` of the
exact logarithm, the computed `log x` is a valid number of full working precision within
`δ^2 + (520 + 2 |log x|) 10^-(D+1)` of the exact one.

Missing: a bound for the value before the last step, which is computed at reduced precision. It cannot be
`10^-(D/2)` in general, see `C110_log_refuted`. -/
theorem C110_last_step_partial {c : Cfg} (hc : c.digits10 ≤ 1000) {T : Tables} (hT : StdTables c T) (hb : RecipBelow c T.ln2) {x : EFloat}
    (hx : FinWF c x) (hp : x.prec = c.elems) {X : ℝ} (hX : X = ((val x : ℚ) : ℝ))
    (h1 : 11 / 10 * (10 : ℝ) ^ (-(limE c : ℤ)) ≤ |X - 1|) (h2 : (10 : ℝ) ^ (-1000 : ℤ) ≤ X) (h3 : X < (10 : ℝ) ^ (1001 : ℤ))
    {k : ℕ} (k1 : 14 * 2 ^ k ≤ c.tolerance) (k2 : c.tolerance < 14 * 2 ^ (k + 1)) (k3 : 8 * (c.elems - 1) < 14 * 2 ^ k * 2)
    {δ : ℝ} (hw : FinWF c (logIterate c T x k)) (hδ : |((val (logIterate c T x k) : ℚ) : ℝ) - Real.log X| ≤ δ) (δ1 : δ ≤ 1 / 100) :
    FinWF c (Fn.log (efArith c T) x) ∧ (Fn.log (efArith c T) x).prec = c.elems ∧
    |((val (Fn.log (efArith c T) x) : ℚ) : ℝ) - Real.log X| ≤ δ ^ 2 + (520 + 2 * |Real.log X|) / 10 ^ (c.digits10 + 1) := by
  subst hX
  have R := rnd_efloat (elems_small hc) T
  have he := elems_digits c
  obtain ⟨lu, l6⟩ := R.lim_u
  have hone : isone x = false := by
    by_contra hc'
    have hv := isone_rv hx (by simpa using hc')
    change 11 / 10 * pw (-(limE c : ℤ)) ≤ |rv x - 1| at h1
    rw [hv, sub_sub_cancel_left, abs_neg, abs_of_pos (pw_pos _)] at h1
    have h5 : pw (-(8 * (c.elems : ℤ))) ≤ eu c := by unfold eu; apply pw_mono; omega
    rw [argLim_ef] at lu
    linarith [pw_pos (-(limE c : ℤ))]
  have hlog := R.log_mid_eq (x := x) ⟨hx, hp⟩ hone (by rw [argLim_ef]; exact h1) h2 h3
  have hst : ∀ y, FinWF c y → Full c (setPrecision c y (14 * 2 ^ k * 2)) ∧ rv (setPrecision c y (14 * 2 ^ k * 2)) = rv y := by
    intro y hy
    refine ⟨⟨setPrecision_fin hy _, ?_⟩, ?_⟩
    · unfold setPrecision
      have e1 : Int.tdiv (14 * 2 ^ k * 2) 8 = (14 * 2 ^ k * 2) / 8 := Int.tdiv_eq_ediv_of_nonneg (by positivity)
      have e2 : Int.tmod (14 * 2 ^ k * 2) 8 = (14 * 2 ^ k * 2) % 8 := Int.tmod_eq_emod_of_nonneg (by positivity)
      dsimp only
      rw [e1, e2]
      have k3' : 8 * ((c.elems : ℤ) - 1) < 14 * 2 ^ k * 2 := by
        zify at k3
        rw [Nat.cast_sub (by omega)] at k3
        exact_mod_cast k3
      generalize (14 : ℤ) * 2 ^ k * 2 = q at *
      split <;> omega
    · unfold rv; rw [(setPrecision_fields c y _).2.2.2.2.2]
  have hnl : Fn.logNewton (efArith c T) x ((efArith c T).sub x (Fn.one (efArith c T))) =
      Fn.logStep (efArith c T) x (14 * 2 ^ k) (logIterate c T x k) := by
    unfold Fn.logNewton logIterate
    have k32 : k < 32 := by
      by_contra hk
      have : 2 ^ 32 ≤ 2 ^ k := Nat.pow_le_pow_right (by norm_num) (not_lt.1 hk)
      have : c.tolerance ≤ 2000 := by unfold Cfg.tolerance Cfg.maxDigits10; omega
      omega
    rw [digitLoop_last (efArith c T) _ k 32 14 _ k32 (by norm_num) (by change _ ≤ (c.tolerance : ℤ); exact_mod_cast k1)
      (by change (c.tolerance : ℤ) < _; exact_mod_cast k2)]
    have ho : Fn.one (efArith c T) = one c := by
      change ofSigned c (i64 1) = one c
      rw [i64_id (by norm_num)]
      rfl
    rw [ho]
    rfl
  have x0 : 0 < rv x := lt_of_lt_of_le (pw_pos (-1000)) h2
  have lx : |Real.log (rv x)| ≤ 10 ^ 7 := by
    have l10 : Real.log 10 ≤ 3 := by
      rw [Real.log_le_iff_le_exp (by norm_num)]
      have h := Real.exp_one_gt_d9
      have : Real.exp 3 = Real.exp 1 ^ 3 := by rw [← Real.exp_nat_mul]; norm_num
      rw [this]
      have : (27 / 10 : ℝ) ^ 3 ≤ Real.exp 1 ^ 3 := pow_le_pow_left₀ (by norm_num) (by linarith) 3
      norm_num at this ⊢
      linarith
    have a : Real.log (pw (-1000)) ≤ Real.log (rv x) := Real.log_le_log (pw_pos (-1000)) h2
    have b := Real.log_le_log x0 h3.le
    unfold pw at a
    rw [Real.log_zpow] at a b
    have l0 := Real.log_nonneg (show (1 : ℝ) ≤ 10 by norm_num)
    push_cast at a b
    norm_num
    rw [abs_le]
    constructor <;> linarith
  rw [hlog, hnl]
  obtain ⟨a, b⟩ := R.logStep_acc (expEnv hc hT hb) (x := x) (w := logIterate c T x k) (d := 14 * 2 ^ k) (hst x hx).1 (hst _ hw).1
    (hst x hx).2 (hst _ hw).2 x0 lx hδ δ1
  refine ⟨a.1, a.2, ?_⟩
  rw [eu_mul] at b
  exact b

/-! ## Concrete cases -/

/-- The double `log(10.0)`. -/
def dlog10 : ℚ := 5184960683398422 / 2251799813685248

/-- Tables with a start value of the logarithm. -/
def withLog (T : Tables) (e : EFloat) : Tables := { T with log0 := fun _ => some e }

theorem withLog_std {c : Cfg} {T : Tables} (h : StdTables c T) (e : EFloat) : StdTables c (withLog T e) := ⟨h.ln2, h.e, h.max⟩

theorem withLog_ln2 (T : Tables) (e : EFloat) : (withLog T e).ln2 = T.ln2 := rfl

/-- The library's tables with the start value of `log 10`: the double `log(10.0)`. -/
def logTables (c : Cfg) : Tables := withLog (stdTables c) (ofMantExp c dlog10 0)

theorem far_of {a b l e f g : ℝ} (h : e ≤ |a - b|) (s : |b - l| ≤ f) (hg : g + f < e) : g < |a - l| := by
  have t := abs_sub_le a l b
  rw [abs_sub_comm l] at t
  linarith

theorem near_of {a b l e f g : ℝ} (h : |a - b| ≤ e) (s : |b - l| ≤ f) (hg : e + f ≤ g) : |a - l| ≤ g := by
  have t := abs_sub_le a b l
  linarith

theorem cast_near {a b e : ℚ} (h : |a - b| ≤ e) : |(a : ℝ) - (b : ℝ)| ≤ ((e : ℚ) : ℝ) := by exact_mod_cast h

theorem cast_far {a b e : ℚ} (h : e ≤ |a - b|) : ((e : ℚ) : ℝ) ≤ |(a : ℝ) - (b : ℝ)| := by exact_mod_cast h

/-- The first 110 digits of `log 10`. -/
def ln10Q : ℚ := 230258509299404568401799145468436420760110148862877297603332790096757260967735248023599720508959829834196778404 / 10 ^ 110

theorem trunc_near {n N P Q l : ℝ} (hP : 1 ≤ P) (hQ : 0 < Q) (a : N * P ≤ n) (b : n + 1 ≤ (N + 1) * P) (h : |n / (P * Q) - l| ≤ 1 / (2 * (P * Q))) :
    |N / Q - l| ≤ 2 / Q := by
  have hp : 0 < P := by linarith
  have e : N / Q = N * P / (P * Q) := by field_simp
  have h1 : |N / Q - n / (P * Q)| ≤ 1 / Q := by
    rw [e, ← sub_div, abs_div, abs_of_pos (show 0 < P * Q by positivity), div_le_div_iff₀ (by positivity) hQ, abs_of_nonpos (by linarith)]
    nlinarith
  have h2 : 1 / (2 * (P * Q)) ≤ 1 / Q := by
    apply one_div_le_one_div_of_le hQ
    nlinarith
  have t := abs_sub_le (N / Q) (n / (P * Q)) l
  have e2 : 2 / Q = 1 / Q + 1 / Q := by ring
  linarith

theorem ln10Q_near : |((ln10Q : ℚ) : ℝ) - Real.log 10| ≤ 2 / 10 ^ 110 := by
  have h := ln10_enc.abs.2
  have a : 230258509299404568401799145468436420760110148862877297603332790096757260967735248023599720508959829834196778404 * 10 ^ 990 ≤ 2 * 10 ^ 1100 + ln10Num := by decide +kernel
  have b : 2 * 10 ^ 1100 + ln10Num + 1 ≤ (230258509299404568401799145468436420760110148862877297603332790096757260967735248023599720508959829834196778404 + 1) * 10 ^ 990 := by decide +kernel
  have a' := (Nat.cast_le (α := ℝ)).2 a
  have b' := (Nat.cast_le (α := ℝ)).2 b
  rw [Nat.cast_mul, Nat.cast_pow] at a' b'
  rw [Nat.cast_add (2 * 10 ^ 1100 + ln10Num)] at b'
  generalize ((2 * 10 ^ 1100 + ln10Num : ℕ) : ℝ) = n at *
  have e : ((ln10Q : ℚ) : ℝ) = (((230258509299404568401799145468436420760110148862877297603332790096757260967735248023599720508959829834196778404 : ℕ) : ℝ)) / 10 ^ 110 := by unfold ln10Q; push_cast; rfl
  rw [e]
  rw [show (10 : ℝ) ^ 1100 = 10 ^ 990 * 10 ^ 110 from pow_add 10 990 110] at h
  rw [Nat.cast_add] at b'
  have p1 : (1 : ℝ) ≤ 10 ^ 990 := one_le_pow₀ (by norm_num)
  have p2 : (0 : ℝ) < 10 ^ 110 := by positivity
  rw [Nat.cast_one] at b'
  rw [Nat.cast_ofNat (n := 10)] at a' b'
  exact trunc_near p1 p2 a' b' h

/-- The computed `log 10` at 100 digits, and the value before the last step at 101 digits. -/
def log10At100 : EFloat :=
  ⟨[2, 30258509, 29940456, 84017991, 45468436, 42076011, 1488628, 77297603, 33279009, 67572609, 67735248,
           2360335, 69367079, 38926049, 50982950, 0], 0, false, .finite, 14⟩

/-- The computed `log 10` at 49 digits. -/
def log10At49 : EFloat := ⟨[2, 30258509, 29940456, 84017991, 45468436, 42076011, 1758311, 9527800, 0, 0], 0, false, .finite, 7⟩

theorem iterate101 : logIterate cfg101 (logTables cfg101) (ofUnsigned cfg101 10) 3 = log10At100 := by decide +kernel

theorem log10_49 : Fn.log (efArith ⟨49⟩ (logTables ⟨49⟩)) (ofUnsigned ⟨49⟩ 10) = log10At49 := by decide +kernel

theorem log10_100 : Fn.log (efArith ⟨100⟩ (logTables ⟨100⟩)) (ofUnsigned ⟨100⟩ 10) = log10At100 := by decide +kernel

theorem far49 : 25 / 10 ^ 44 < |((val log10At49 : ℚ) : ℝ) - Real.log 10| := by
  have h : 26 / 10 ^ 44 ≤ |val log10At49 - ln10Q| := by decide +kernel
  refine far_of (cast_far h) ln10Q_near ?_
  norm_num

theorem far100 : 35 / 10 ^ 87 < |((val log10At100 : ℚ) : ℝ) - Real.log 10| := by
  have h : 36 / 10 ^ 87 ≤ |val log10At100 - ln10Q| := by decide +kernel
  refine far_of (cast_far h) ln10Q_near ?_
  norm_num

theorem dlog10_near : |((dlog10 : ℚ) : ℝ) - Real.log 10| ≤ 1 / 2 ^ 52 := by
  have h : |dlog10 - ln10Q| ≤ 1 / 2 ^ 52 - 4 / 10 ^ 50 := by decide +kernel
  refine near_of (cast_near h) ln10Q_near ?_
  norm_num

/-- C110 refuted.  `dlog10` is the double nearest to `log 10`.  With it as start value the computed `log 10` is off by more
than `25 * 10^-44` at 49 digits and by more than `35 * 10^-87` at 100 digits: six and fourteen digits are lost.  The results
have the reduced working precision of 7 of 10 and 14 of 16 limbs. -/
theorem C110_log_refuted :
    (rnd dlog10 = dlog10 ∧ |((dlog10 : ℚ) : ℝ) - Real.log 10| ≤ 1 / 2 ^ 52) ∧
    (val (ofUnsigned ⟨49⟩ 10) = 10 ∧ (Fn.log (efArith ⟨49⟩ (logTables ⟨49⟩)) (ofUnsigned ⟨49⟩ 10)).prec = 7 ∧ (⟨49⟩ : Cfg).elems = 10 ∧
      25 / 10 ^ 44 < |((val (Fn.log (efArith ⟨49⟩ (logTables ⟨49⟩)) (ofUnsigned ⟨49⟩ 10)) : ℚ) : ℝ) - Real.log 10|) ∧
    (val (ofUnsigned ⟨100⟩ 10) = 10 ∧ (Fn.log (efArith ⟨100⟩ (logTables ⟨100⟩)) (ofUnsigned ⟨100⟩ 10)).prec = 14 ∧ (⟨100⟩ : Cfg).elems = 16 ∧
      35 / 10 ^ 87 < |((val (Fn.log (efArith ⟨100⟩ (logTables ⟨100⟩)) (ofUnsigned ⟨100⟩ 10)) : ℚ) : ℝ) - Real.log 10|) := by
  refine ⟨⟨by decide +kernel, dlog10_near⟩, ⟨by decide +kernel, by rw [log10_49]; rfl, by decide, ?_⟩, by decide +kernel, by rw [log10_100]; rfl, by decide, ?_⟩
  · rw [log10_49]; exact far49
  · rw [log10_100]; exact far100

/-- `log 10` at 101 digits, where the last step works at full precision. -/
example : |((val (Fn.log (efArith cfg101 (logTables cfg101)) (ofUnsigned cfg101 10)) : ℚ) : ℝ) - Real.log 10| ≤
    (1 / 10 ^ 84) ^ 2 + (520 + 2 * |Real.log 10|) / 10 ^ (cfg101.digits10 + 1) := by
  have hv : val (ofUnsigned cfg101 10) = 10 := by decide +kernel
  refine (C110_last_step_partial (c := cfg101) (T := logTables cfg101) (x := ofUnsigned cfg101 10) (X := 10) (k := 3) (by decide)
    (withLog_std (stdTables_std _) _) (by rw [logTables, withLog_ln2]; exact below101) (by decide +kernel) (by decide +kernel) (by rw [hv]; norm_num) ?_ ?_ ?_ (by decide) (by decide) (by decide) ?_ ?_ ?_).2.2
  · have : limE cfg101 = 11 := by decide
    rw [this]; norm_num
  · exact le_trans (zpow_le_one_of_nonpos₀ (by norm_num) (by norm_num)) (by norm_num)
  · calc (10 : ℝ) = 10 ^ (1 : ℤ) := by norm_num
      _ < 10 ^ (1001 : ℤ) := zpow_lt_zpow_right₀ (by norm_num) (by norm_num)
  · rw [iterate101]; decide +kernel
  · rw [iterate101]
    have h : |val log10At100 - ln10Q| ≤ 1 / 10 ^ 85 := by decide +kernel
    refine near_of (cast_near h) ln10Q_near ?_
    norm_num
  · norm_num

/-- A number next to one at 101 digits: `1 + 10^-120` -/
example : |((val (Fn.log (efArith cfg101 (stdTables cfg101)) (add cfg101 (one cfg101) exTiny)) : ℚ) : ℝ) -
    Real.log ((val (add cfg101 (one cfg101) exTiny) : ℚ) : ℝ)| ≤
    (|((val (add cfg101 (one cfg101) exTiny) : ℚ) : ℝ) - 1| / 40 + 1 / 10 ^ 10) / 10 ^ (cfg101.digits10 + 1) := by
  have h : 2 * |val (add cfg101 (one cfg101) exTiny) - 1| ≤ 1 / 10 ^ 11 := by decide +kernel
  refine (C110_near_one_partial (by decide) _ (by decide +kernel) (by decide +kernel) (by decide +kernel) ?_).2.2
  have : limE cfg101 = 11 := by decide
  rw [this]
  have h' := (Rat.cast_le (K := ℝ)).2 h
  push_cast at h'
  rw [zpow_neg, zpow_natCast, ← one_div]
  exact h'

end EFX.Props
