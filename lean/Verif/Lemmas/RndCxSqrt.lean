import Verif.Lemmas.RndCx
import Verif.Lemmas.SqrtAcc
/-!
# Absolute values and square roots of complex numbers with rounding
-/

namespace EFX
open Spec Props

/-- The estimate behind the complex square root: `s` is nearly the square root of `(X + r) / 2` and `q` nearly `Y / (2 s)`. -/
theorem csqrt_core {r X Y s q κ u t : ℝ} (hr : 0 < r) (hX : 0 ≤ X) (hXY : r ^ 2 = X ^ 2 + Y ^ 2) (hs : 0 < s) (u0 : 0 ≤ u) (uκ : u ≤ κ)
    (κ1 : κ ≤ 1 / 1000) (h1 : |s ^ 2 - (X + r) / 2| ≤ 32 / 10 * κ * ((X + r) / 2)) (t0 : 0 ≤ t)
    (h2 : |q - Y / (2 * s)| ≤ 3 * u * |Y / (2 * s)| + t) (ht1 : t * (4 + 4 * r) + t ^ 2 ≤ u * r / 10) (ht2 : 2 * s * t ≤ u * r / 10) :
    |s ^ 2 - q ^ 2 - X| ≤ 12 * κ * r ∧ |2 * s * q - Y| ≤ 12 * κ * r := by
  have Xr : X ≤ r := by nlinarith [sq_nonneg Y]
  have Yr : |Y| ≤ r := abs_le_of_sq_le_sq (by nlinarith) hr.le
  obtain ⟨S, hS⟩ : ∃ S, S = (X + r) / 2 := ⟨_, rfl⟩
  rw [← hS] at h1
  have S0 : 0 < S := by rw [hS]; linarith
  have Sr : S ≤ r := by rw [hS]; linarith
  obtain ⟨R, hR⟩ : ∃ R, R = (r - X) / 2 := ⟨_, rfl⟩
  have R0 : 0 ≤ R := by rw [hR]; linarith
  have RS : R + X = S := by rw [hR, hS]; ring
  have RSr : R + S = r := by rw [hR, hS]; ring
  have Y2 : Y ^ 2 = 4 * (R * S) := by rw [hR, hS]; linear_combination -hXY
  have κ0 : 0 ≤ κ := le_trans u0 uκ
  obtain ⟨Q, hQ⟩ : ∃ Q, Q = Y / (2 * s) := ⟨_, rfl⟩
  rw [← hQ] at h2
  have Ys : Y = 2 * s * Q := by rw [hQ]; field_simp
  have h1' := abs_le.1 h1
  have κS : κ * S ≤ 1 / 1000 * S := mul_le_mul_of_nonneg_right κ1 S0.le
  have κS0 : 0 ≤ κ * S := by positivity
  have s2 : 99 / 100 * S ≤ s ^ 2 := by linarith
  have Q2 : Q ^ 2 * s ^ 2 = R * S := by
    have : Y ^ 2 = 4 * (Q ^ 2 * s ^ 2) := by rw [Ys]; ring
    linarith
  have Q3 : |Q ^ 2 - R| ≤ 33 / 10 * κ * R := by
    have e1 : (Q ^ 2 - R) * s ^ 2 = R * (S - s ^ 2) := by rw [sub_mul, Q2]; ring
    have e2 : |Q ^ 2 - R| * s ^ 2 ≤ R * (32 / 10 * κ * S) := by
      have : |Q ^ 2 - R| * s ^ 2 = |(Q ^ 2 - R) * s ^ 2| := by rw [abs_mul, abs_of_nonneg (sq_nonneg s)]
      rw [this, e1, abs_mul, abs_of_nonneg R0, abs_sub_comm]
      exact mul_le_mul_of_nonneg_left h1 R0
    have e3 : R * (32 / 10 * κ * S) ≤ 33 / 10 * κ * R * s ^ 2 := by
      have e4 : 0 ≤ κ * R := by positivity
      have := mul_le_mul_of_nonneg_left s2 e4
      have e5 := mul_nonneg e4 S0.le
      linarith
    exact le_of_mul_le_mul_right (le_trans e2 e3) (by positivity)
  have κR : κ * R ≤ 1 / 1000 * R := mul_le_mul_of_nonneg_right κ1 R0
  have κR0 : 0 ≤ κ * R := by positivity
  have Q4 : Q ^ 2 ≤ 101 / 100 * R := by
    have := (abs_le.1 Q3).2
    linarith
  have Q5 : |Q| ≤ 1 + Q ^ 2 := by rw [← sq_abs]; nlinarith [abs_nonneg Q, sq_nonneg (|Q| - 1)]
  have Q0 := abs_nonneg Q
  have u1 : u ≤ 1 / 1000 := le_trans uκ κ1
  have dq : |q ^ 2 - Q ^ 2| ≤ 7 * u * Q ^ 2 + (t * (4 + 4 * r) + t ^ 2) := by
    have e1 : q ^ 2 - Q ^ 2 = (q - Q) * (2 * Q + (q - Q)) := by ring
    rw [e1, abs_mul]
    have e2 : |2 * Q + (q - Q)| ≤ 2 * |Q| + (3 * u * |Q| + t) := by
      refine le_trans (abs_add_le _ _) (add_le_add (by rw [abs_mul, abs_two]) h2)
    have e3 := mul_le_mul h2 e2 (abs_nonneg _) (by positivity)
    refine le_trans e3 ?_
    have e4 : (3 * u * |Q| + t) * (2 * |Q| + (3 * u * |Q| + t)) = (6 * u + 9 * u ^ 2) * |Q| ^ 2 + t * ((2 + 6 * u) * |Q|) + t ^ 2 := by ring
    rw [e4, sq_abs]
    have e5 : (6 * u + 9 * u ^ 2) * Q ^ 2 ≤ 7 * u * Q ^ 2 := mul_le_mul_of_nonneg_right (by have := mul_le_mul_of_nonneg_left u1 u0; linarith) (sq_nonneg _)
    have e6 : (2 + 6 * u) * |Q| ≤ 4 + 4 * r := by
      have : (2 + 6 * u) * |Q| ≤ 3 * |Q| := mul_le_mul_of_nonneg_right (by linarith) Q0
      have Rr : R ≤ r := by linarith
      linarith
    have e7 := mul_le_mul_of_nonneg_left e6 t0
    linarith
  constructor
  · have e1 : s ^ 2 - q ^ 2 - X = (s ^ 2 - S) - (q ^ 2 - Q ^ 2) - (Q ^ 2 - R) := by linarith
    rw [e1]
    have a1 := abs_sub (s ^ 2 - S - (q ^ 2 - Q ^ 2)) (Q ^ 2 - R)
    have a2 := abs_sub (s ^ 2 - S) (q ^ 2 - Q ^ 2)
    have a3 : 7 * u * Q ^ 2 ≤ 7 * κ * (101 / 100 * R) := mul_le_mul (by linarith) Q4 (sq_nonneg _) (by positivity)
    have a4 : u * r ≤ κ * r := mul_le_mul_of_nonneg_right uκ hr.le
    have a5 : κ * R + κ * S = κ * r := by rw [← mul_add, RSr]
    linarith
  · have e1 : 2 * s * q - Y = 2 * s * (q - Q) := by rw [Ys]; ring
    rw [e1, abs_mul, abs_of_pos (by positivity)]
    have a1 := mul_le_mul_of_nonneg_left h2 (show 0 ≤ 2 * s by positivity)
    have a2 : 2 * s * (3 * u * |Q| + t) = 3 * u * |Y| + 2 * s * t := by
      rw [Ys, abs_mul, abs_of_pos (show 0 < 2 * s by positivity)]; ring
    rw [a2] at a1
    have a3 : 3 * u * |Y| ≤ 3 * κ * r := mul_le_mul (by linarith) Yr (abs_nonneg _) (by positivity)
    have a4 : u * r ≤ κ * r := mul_le_mul_of_nonneg_right uκ hr.le
    have a5 : 0 ≤ κ * r := by positivity
    linarith

theorem sqrtErr_small (c : Cfg) : 0 < ((sqrtErr c : ℚ) : ℝ) ∧ ((sqrtErr c : ℚ) : ℝ) ≤ 1 / 2000 := by
  have hF := floorErr_bounds c
  have hd := (digits10_bounds c).1
  have h1 : (10 : ℚ) ^ (-(11 * ((c.tolerance : ℤ) + 1) / 24)) ≤ (10 : ℚ) ^ (-4 : ℤ) := by
    apply p10_mono
    have : 30 ≤ c.tolerance := by
      unfold Cfg.tolerance Cfg.maxDigits10
      omega
    omega
  have h2 : sqrtErr c ≤ 1 / 2000 := by
    unfold sqrtErr
    have h4 : (10 : ℚ) ^ (-4 : ℤ) = 1 / 10000 := by norm_num
    rw [h4] at h1
    have h5 := hF.2
    norm_num at h5
    linarith
  have h3 : 0 < sqrtErr c := by
    unfold sqrtErr
    have := p10_pos (-(11 * ((c.tolerance : ℤ) + 1) / 24))
    linarith
  constructor
  · exact_mod_cast h3
  · have := (Rat.cast_le (K := ℝ)).2 h2
    push_cast at this; exact this

theorem rnd_sqrt {c : Cfg} {x : EFloat} (hx : Full c x) (px : 0 < rv x) (sx : Sz 900000000 (rv x)) :
    Full c (calculateSqrt c x) ∧ 0 < rv (calculateSqrt c x) ∧ |rv (calculateSqrt c x) ^ 2 - rv x| ≤ ((sqrtErr c : ℚ) : ℝ) * rv x := by
  have px' : 0 < val x := by unfold rv at px; exact_mod_cast px
  have b1 := exp_le_of hx.1 px'.ne' (rv_le sx.2)
  have b2 := lt_exp_of_mag hx.1 (le_rv sx.1)
  obtain ⟨s1, s2, s3, s4⟩ := calculateSqrt_spec hx.1 px' hx.2 ⟨by omega, by omega⟩
  refine ⟨⟨s1, by rw [s3, hx.2]⟩, by unfold rv; exact_mod_cast s2, ?_⟩
  have := (Rat.cast_le (K := ℝ)).2 s4
  push_cast at this
  rw [sq]; exact this

/-- A number near another one has nearly the same size. -/
theorem Sz.within {K L : ℤ} {x y : ℝ} (h : Sz K y) (hKL : K + 1 ≤ L) (h1 : |y| / 10 ≤ |x|) (h2 : |x| ≤ 10 * |y|) : Sz L x := by
  obtain ⟨a, b⟩ := h
  have e1 : pw (-(K + 1)) = pw (-K) / 10 := by rw [neg_add, pw_add, pw_neg 1, pw_one]; ring
  have e2 : pw (K + 1) = 10 * pw K := by rw [pw_add, pw_one]; ring
  refine ⟨le_trans (pw_mono (by omega : -L ≤ -(K + 1))) ?_, le_trans ?_ (pw_mono hKL)⟩
  · rw [e1]; linarith
  · rw [e2]; linarith

theorem rnd_cabs {c : Cfg} (hc : c.elems < 625) {z : Cx EFloat} (hz : CFull c z) (h : Sz 300000000 ‖cval z‖) :
    Full c (CxE.abs c z) ∧ 0 < rv (CxE.abs c z) ∧
    |rv (CxE.abs c z) ^ 2 - ‖cval z‖ ^ 2| ≤ 101 / 100 * (((sqrtErr c : ℚ) : ℝ) + eu c) * ‖cval z‖ ^ 2 := by
  have e0 : 0 < eu c := pw_pos _
  have e1 := eu_small c
  obtain ⟨σ0, σ1⟩ := sqrtErr_small c
  have h2 : Sz 600000000 (‖cval z‖ ^ 2) := h.pow 2
  have r0 : 0 < ‖cval z‖ := lt_of_le_of_ne (norm_nonneg _) (Ne.symm h.ne)
  have r2 : 0 < ‖cval z‖ ^ 2 := by positivity
  have hl := h2.1
  have hu := h2.2
  rw [abs_of_pos r2] at hl hu
  obtain ⟨f, g⟩ := cx_norm hc hz (le_trans hu (pw_mono (by omega)))
  have t1 : 4 * tau ≤ eu c / 10 * ‖cval z‖ ^ 2 := by
    have t1 : pw (-6000) * pw (-600000000) ≤ eu c * ‖cval z‖ ^ 2 := mul_le_mul (eu_ge hc) hl (pw_pos _).le e0.le
    have t2 : tau = pw (-1399994000) * (pw (-6000) * pw (-600000000)) := by unfold tau; rw [← pw_add, ← pw_add]; rfl
    have t3 : pw (-1399994000) ≤ 1 / 100 := by
      refine le_trans (pw_mono (by omega : (-1399994000 : ℤ) ≤ -((2 : ℕ) : ℤ))) ?_
      rw [pw_neg, pw_nat]; norm_num
    have t4 : tau ≤ 1 / 100 * (eu c * ‖cval z‖ ^ 2) := by
      rw [t2]; exact mul_le_mul t3 t1 (mul_pos (pw_pos _) (pw_pos _)).le (by norm_num)
    have := mul_pos e0 r2
    linarith
  have er := mul_pos e0 r2
  have g1 : |rv (CxE.norm c z) - ‖cval z‖ ^ 2| ≤ 1 / 2 * (eu c * ‖cval z‖ ^ 2) := le_trans g (by linarith)
  have er1 : eu c * ‖cval z‖ ^ 2 ≤ 1 / 1000 * ‖cval z‖ ^ 2 := mul_le_mul_of_nonneg_right (le_trans e1 (by norm_num)) r2.le
  have g2 := abs_le.1 g1
  have n0 : 0 < rv (CxE.norm c z) := by linarith
  obtain ⟨f3, f4, f5⟩ := rnd_sqrt f n0 (h2.within (by norm_num) (by rw [abs_of_pos n0, abs_of_pos r2]; linarith) (by rw [abs_of_pos n0, abs_of_pos r2]; linarith))
  refine ⟨f3, f4, ?_⟩
  have f6 : rv (CxE.abs c z) = rv (calculateSqrt c (CxE.norm c z)) := rfl
  rw [f6]
  have tri := abs_sub_le (rv (calculateSqrt c (CxE.norm c z)) ^ 2) (rv (CxE.norm c z)) (‖cval z‖ ^ 2)
  have m1 : ((sqrtErr c : ℚ) : ℝ) * rv (CxE.norm c z) ≤ ((sqrtErr c : ℚ) : ℝ) * (101 / 100 * ‖cval z‖ ^ 2) :=
    mul_le_mul_of_nonneg_left (by linarith) σ0.le
  linarith

/-- A quotient with a positive divisor; for opposite numbers the e_float division returns `1`. -/
theorem div_any {c : Cfg} (hc : c.elems < 625) {y d : EFloat} (hy : Full c y) (hd : Full c d) (d0 : 0 < rv d) (sd : Sz 400000000 (rv d))
    (by1 : |rv y| ≤ pw 400000000) :
    Full c (div c y d) ∧ (|rv (div c y d) - rv y / rv d| ≤ 2 * eu c * |rv y / rv d| + pw (-1000000000) ∨
      rv y < 0 ∧ rv y = -rv d ∧ rv (div c y d) = 1) := by
  have e0 : 0 < eu c := pw_pos _
  have e1 := eu_small c
  have sd' : Sz 1000000000 (rv d) := ⟨le_trans (pw_mono (by omega)) sd.1, le_trans sd.2 (pw_mono (by omega))⟩
  have P := pw_pos (-1000000000)
  by_cases y0 : rv y = 0
  · obtain ⟨f, v⟩ := rnd_div0 hy hd y0 sd'
    refine ⟨f, Or.inl ?_⟩
    rw [v, y0, zero_div, sub_zero, abs_zero, mul_zero, zero_add]; exact P.le
  have vy0 : val y ≠ 0 := fun h => y0 (rv_ne.2 h)
  by_cases hid : |rv y| = |rv d|
  · rcases lt_or_ge 0 (rv y) with hp | hp
    · obtain ⟨f, g⟩ := rnd_div hc hy hd (Or.inl hp) (by unfold Sz; rw [hid]; exact sd') sd'
      refine ⟨f, Or.inl (le_trans g ?_)⟩
      have : 0 ≤ eu c * |rv y / rv d| := by positivity
      linarith
    · have hn : rv y < 0 := lt_of_le_of_ne hp y0
      have hfi : finiteIdentical y d = true := (finiteIdentical_iff hy.1 hd.1 vy0).2 (by
        rw [rv_abs, rv_abs] at hid; exact_mod_cast hid)
      have dn : d.neg = false := neg_of_val_pos (by unfold rv at d0; exact_mod_cast d0)
      have e : div c y d = one c := by
        unfold div divAssign
        rw [if_pos hfi, dn, show (one c).neg = false from rfl, if_neg (by simp)]
      rw [e]
      refine ⟨⟨FinWF_one c, rfl⟩, Or.inr ⟨hn, ?_, ?_⟩⟩
      · rw [abs_of_neg hn, abs_of_pos d0] at hid; linarith
      · unfold rv; rw [val_one]; norm_num
  · have hfi : ¬ finiteIdentical y d = true := fun h => hid (by
      have := (finiteIdentical_iff hy.1 hd.1 vy0).1 h
      rw [rv_abs, rv_abs, this])
    have e : div c y d = mul c y (calculateInv c d) := by
      unfold div divAssign
      rw [if_neg hfi]; rfl
    rw [e]
    obtain ⟨fi, gi⟩ := rnd_inv hc hd sd'
    have i0 : 0 < 1 / rv d := by positivity
    rw [abs_of_pos i0] at gi
    have ib : 1 / rv d ≤ pw 400000000 := by
      have h := sd.1
      rw [abs_of_pos d0, pw_neg] at h
      rw [one_div]; exact inv_le_of_inv_le₀ (pw_pos _) h
    have ei : eu c * (1 / rv d) ≤ 1 / 1000 * (1 / rv d) := mul_le_mul_of_nonneg_right (le_trans e1 (by norm_num)) i0.le
    have gi' := abs_le.1 gi
    have ii : |rv (calculateInv c d)| ≤ 101 / 100 * (1 / rv d) := by rw [abs_le]; constructor <;> linarith
    have bd : |rv y * rv (calculateInv c d)| ≤ pw 2000000000 := by
      rw [abs_mul]
      refine le_trans (mul_le_mul by1 (le_trans ii (mul_le_mul_of_nonneg_left ib (by norm_num))) (abs_nonneg _) (pw_pos _).le) ?_
      have : pw 2000000000 = pw 1200000000 * (pw 400000000 * pw 400000000) := by rw [← pw_add, ← pw_add]; rfl
      rw [this]
      have h10 : (10 : ℝ) ≤ pw 1200000000 := by rw [← pw_one]; exact pw_mono (by omega)
      have hp := mul_pos (pw_pos 400000000) (pw_pos 400000000)
      have := mul_le_mul_of_nonneg_right h10 hp.le
      linarith
    obtain ⟨f, g, -⟩ := mul_any hc hy fi bd
    refine ⟨f, Or.inl ?_⟩
    have y1 := abs_nonneg (rv y)
    have k1 : |rv y * rv (calculateInv c d) - rv y / rv d| ≤ eu c * |rv y / rv d| := by
      have : rv y * rv (calculateInv c d) - rv y / rv d = rv y * (rv (calculateInv c d) - 1 / rv d) := by ring
      rw [this, abs_mul, abs_div, abs_of_pos d0]
      have := mul_le_mul_of_nonneg_left gi y1
      calc _ ≤ _ := this
        _ = _ := by ring
    have k2 : |rv y * rv (calculateInv c d)| ≤ 101 / 100 * |rv y / rv d| := by
      rw [abs_mul, abs_div, abs_of_pos d0]
      have := mul_le_mul_of_nonneg_left ii y1
      calc _ ≤ _ := this
        _ = _ := by ring
    have tri := abs_sub_le (rv (mul c y (calculateInv c d))) (rv y * rv (calculateInv c d)) (rv y / rv d)
    have k3 : eu c / 10 ^ 4 * |rv y * rv (calculateInv c d)| ≤ eu c / 10 ^ 4 * (101 / 100 * |rv y / rv d|) := mul_le_mul_of_nonneg_left k2 (by positivity)
    have k4 : 2 * tau ≤ pw (-1000000000) := by
      have : pw (-1000000000) = pw 1000000000 * tau := by unfold tau; rw [← pw_add]; rfl
      rw [this]
      refine mul_le_mul_of_nonneg_right ?_ tau_pos.le
      refine le_trans (by norm_num : (2 : ℝ) ≤ 10) ?_
      rw [← pw_one]; exact pw_mono (by omega)
    have k5 : 0 ≤ eu c * |rv y / rv d| := by positivity
    generalize |rv y / rv d| = W at *
    linarith

/-- The larger part of the square root. -/
theorem csqrt_large {c : Cfg} (hc : c.elems < 625) {z : Cx EFloat} (hz : CFull c z) (h : Sz 300000000 ‖cval z‖) {F : EFloat} (hF : Full c F)
    (vF : rv F = |rv z.re|) {κ : ℝ} (hκ : κ = ((sqrtErr c : ℚ) : ℝ) + eu c) :
    Full c (calculateSqrt c (divUnsigned c (add c F (CxE.abs c z)) 2)) ∧ 0 < rv (calculateSqrt c (divUnsigned c (add c F (CxE.abs c z)) 2)) ∧
    |rv (calculateSqrt c (divUnsigned c (add c F (CxE.abs c z)) 2)) ^ 2 - (|rv z.re| + ‖cval z‖) / 2| ≤
      32 / 10 * κ * ((|rv z.re| + ‖cval z‖) / 2) := by
  have e0 : 0 < eu c := pw_pos _
  have e1 := eu_small c
  obtain ⟨σ0, σ1⟩ := sqrtErr_small c
  have r0 : 0 < ‖cval z‖ := lt_of_le_of_ne (norm_nonneg _) (Ne.symm h.ne)
  obtain ⟨a1, a2, a3⟩ := rnd_cabs hc hz h
  rw [← hκ] at a3
  have xr : |rv z.re| ≤ ‖cval z‖ := Complex.abs_re_le_norm (cval z)
  have hl := h.1
  have hu := h.2
  rw [abs_of_pos r0] at hl hu
  have x0 := abs_nonneg (rv z.re)
  generalize hr : ‖cval z‖ = r at *
  generalize hx : |rv z.re| = X at *
  generalize hσ : ((sqrtErr c : ℚ) : ℝ) = σ at *
  have κ0 : 0 < κ := by linarith
  have κ1 : κ ≤ 1 / 1000 := by norm_num at e1; linarith
  have uκ : eu c ≤ κ := by linarith
  -- |a - r|
  have a4 : |rv (CxE.abs c z) - r| ≤ 101 / 100 * κ * r := by
    have e : |rv (CxE.abs c z) - r| * (rv (CxE.abs c z) + r) ≤ 101 / 100 * κ * r * r := by
      rw [← abs_of_pos (show 0 < rv (CxE.abs c z) + r by linarith), ← abs_mul,
        show (rv (CxE.abs c z) - r) * (rv (CxE.abs c z) + r) = rv (CxE.abs c z) ^ 2 - r ^ 2 by ring,
        show 101 / 100 * κ * r * r = 101 / 100 * κ * r ^ 2 by ring]
      exact a3
    have e' : |rv (CxE.abs c z) - r| * r ≤ |rv (CxE.abs c z) - r| * (rv (CxE.abs c z) + r) := mul_le_mul_of_nonneg_left (by linarith) (abs_nonneg _)
    exact le_of_mul_le_mul_right (le_trans e' e) r0
  have κr : κ * r ≤ 1 / 1000 * r := mul_le_mul_of_nonneg_right κ1 r0.le
  have κr0 : 0 < κ * r := by positivity
  have a5 := abs_le.1 a4
  have big : 2 * r ≤ pw 2000000000 := by
    have h10 : (10 : ℝ) ≤ pw 1700000000 := by rw [← pw_one]; exact pw_mono (by omega)
    have h3 : pw 2000000000 = pw 1700000000 * pw 300000000 := by rw [← pw_add]; rfl
    have := mul_le_mul_of_nonneg_right h10 (pw_pos 300000000).le
    rw [h3]; linarith
  obtain ⟨b1, b2⟩ := rnd_add hF a1 (by rw [vF, abs_of_nonneg x0]; linarith) (by rw [abs_of_pos a2]; linarith)
  rw [vF, abs_of_nonneg x0, abs_of_pos a2] at b2
  change Full c (add c F (CxE.abs c z)) at b1
  change |rv (add c F (CxE.abs c z)) - (X + rv (CxE.abs c z))| ≤ _ at b2
  obtain ⟨d1, d2⟩ := rnd_divI b1 (n := 2) (by norm_num) (by norm_num)
  have e1' : divSigned c (add c F (CxE.abs c z)) 2 = divUnsigned c (add c F (CxE.abs c z)) 2 := rfl
  rw [e1'] at d1 d2
  generalize hg : divUnsigned c (add c F (CxE.abs c z)) 2 = G at *
  generalize rv (add c F (CxE.abs c z)) = H at *
  generalize rv (CxE.abs c z) = A at *
  push_cast at d2
  have ue : eu c ≤ 1 / 1000 := le_trans uκ κ1
  have b3 : eu c / 10 ^ 12 * (X + A) ≤ 1 / 10 ^ 10 * (κ * r) := by
    have t1 : X + A ≤ 3 * r := by linarith
    have := mul_le_mul_of_nonneg_left t1 (show 0 ≤ eu c / 10 ^ 12 by positivity)
    have t2 : eu c * r ≤ κ * r := mul_le_mul_of_nonneg_right uκ r0.le
    linarith
  have b4 := abs_le.1 (le_trans b2 b3)
  obtain ⟨S, hS⟩ : ∃ S, S = (X + r) / 2 := ⟨_, rfl⟩
  rw [← hS]
  have Sr : r ≤ 2 * S := by rw [hS]; linarith
  have S0 : 0 < S := by linarith
  have κS : κ * r ≤ 2 * (κ * S) := by have := mul_le_mul_of_nonneg_left Sr κ0.le; linarith
  have κS1 : κ * S ≤ 1 / 1000 * S := mul_le_mul_of_nonneg_right κ1 S0.le
  have κS0 : 0 < κ * S := by positivity
  have H0 : 0 < H := by linarith
  have H1 : H / 2 ≤ 101 / 100 * S := by linarith
  have d3 : eu c * |H / 2| ≤ 101 / 100 * (κ * S) := by
    rw [abs_of_pos (by linarith)]
    have := mul_le_mul uκ H1 (by linarith) κ0.le
    linarith
  have d4 := abs_le.1 (le_trans d2 d3)
  have g1 : |rv G - S| ≤ 21 / 10 * (κ * S) := by rw [abs_le]; constructor <;> linarith
  have g2 := abs_le.1 g1
  have G0 : 0 < rv G := by linarith
  have sS : Sz 300000001 S := by
    have h' : Sz 300000000 r := ⟨by rw [abs_of_pos r0]; exact hl, by rw [abs_of_pos r0]; exact hu⟩
    exact h'.within (by norm_num) (by rw [abs_of_pos r0, abs_of_pos S0]; linarith) (by rw [abs_of_pos r0, abs_of_pos S0]; linarith)
  obtain ⟨q1, q2, q3⟩ := rnd_sqrt d1 G0 (sS.within (by norm_num) (by rw [abs_of_pos G0, abs_of_pos S0]; linarith)
    (by rw [abs_of_pos G0, abs_of_pos S0]; linarith))
  refine ⟨q1, q2, ?_⟩
  rw [hσ] at q3
  have q4 : σ * rv G ≤ 101 / 100 * (κ * S) := by
    have := mul_le_mul (show σ ≤ κ by linarith) (show rv G ≤ 101 / 100 * S by linarith) G0.le κ0.le
    linarith
  have q5 := abs_le.1 (le_trans q3 q4)
  rw [abs_le]; constructor <;> linarith

/-- The smaller part of the square root. -/
theorem csqrt_small {c : Cfg} (hc : c.elems < 625) {s y : EFloat} (hs : Full c s) (s0 : 0 < rv s) (ss : Sz 350000000 (rv s)) (hy : Full c y)
    (by1 : |rv y| ≤ pw 400000000) :
    Full c (div c y (mulUnsigned c s 2)) ∧
    ((|rv (div c y (mulUnsigned c s 2)) - rv y / (2 * rv s)| ≤ 3 * eu c * |rv y / (2 * rv s)| + pw (-1000000000)) ∨
     (rv y < 0 ∧ rv (div c y (mulUnsigned c s 2)) = 1 ∧ |(-1) - rv y / (2 * rv s)| ≤ 3 * eu c * |rv y / (2 * rv s)| + pw (-1000000000))) := by
  have e0 : 0 < eu c := pw_pos _
  have e1 := eu_small c
  obtain ⟨f2, e2⟩ := trunc_rel hs (n := 2) (by norm_num)
  have e2' : |rv (mulUnsigned c s 2) - rv s * 2| ≤ eu c / 10 ^ 12 * (rv s * 2) := by
    have h1 := (Rat.cast_le (K := ℝ)).2 e2
    push_cast at h1
    refine le_trans h1 ?_
    rw [abs_mul, abs_of_pos (by norm_num : (0 : ℝ) < 2)]
    have := mul_le_mul_of_nonneg_right (relU_le c) (show 0 ≤ |rv s| * 2 by positivity)
    rw [abs_of_pos s0] at this
    refine le_trans (le_of_eq ?_) this
    rw [show ((val s : ℚ) : ℝ) = rv s from rfl, abs_of_pos s0]
  have es : eu c / 10 ^ 12 * (rv s * 2) ≤ 1 / 10 ^ 12 * (rv s * 2) := by
    have : eu c ≤ 1 := le_trans e1 (by norm_num)
    exact mul_le_mul_of_nonneg_right (by linarith) (by positivity)
  have e3 := abs_le.1 (le_trans e2' es)
  generalize mulUnsigned c s 2 = d at *
  have d0 : 0 < rv d := by linarith
  have sd : Sz 400000000 (rv d) := ss.within (by norm_num) (by rw [abs_of_pos s0, abs_of_pos d0]; linarith) (by rw [abs_of_pos s0, abs_of_pos d0]; linarith)
  obtain ⟨f, g⟩ := div_any hc hy f2 d0 sd by1
  refine ⟨f, ?_⟩
  -- y/d against y/(2 s)
  have P := pw_pos (-1000000000)
  have rel : |rv y / rv d - rv y / (2 * rv s)| ≤ eu c / 10 ^ 11 * |rv y / (2 * rv s)| := by
    have : rv y / rv d - rv y / (2 * rv s) = rv y / (2 * rv s) * ((2 * rv s - rv d) / rv d) := by field_simp
    rw [this, abs_mul, mul_comm]
    refine mul_le_mul_of_nonneg_right ?_ (abs_nonneg _)
    rw [abs_div, abs_of_pos d0, div_le_iff₀ d0, abs_sub_comm, mul_comm 2]
    refine le_trans e2' ?_
    have : eu c * (rv s * 2) ≤ eu c * (2 * rv d) := mul_le_mul_of_nonneg_left (by linarith) e0.le
    have := mul_pos e0 d0
    linarith
  have w0 := abs_nonneg (rv y / (2 * rv s))
  have ew : 0 ≤ eu c * |rv y / (2 * rv s)| := by positivity
  rcases g with g | ⟨g1, g2, g3⟩
  · left
    have tri := abs_sub_le (rv (div c y d)) (rv y / rv d) (rv y / (2 * rv s))
    have k := abs_sub_abs_le_abs_sub (rv y / rv d) (rv y / (2 * rv s))
    have k1 : |rv y / rv d| ≤ 101 / 100 * |rv y / (2 * rv s)| := by
      have : eu c / 10 ^ 11 * |rv y / (2 * rv s)| ≤ 1 / 100 * |rv y / (2 * rv s)| :=
        mul_le_mul_of_nonneg_right (by norm_num at e1 ⊢; linarith) w0
      linarith
    have k2 := mul_le_mul_of_nonneg_left k1 (show 0 ≤ 2 * eu c by positivity)
    generalize |rv y / (2 * rv s)| = W at *
    linarith
  · right
    refine ⟨g1, g3, ?_⟩
    have : rv y / rv d = -1 := by rw [g2]; field_simp
    rw [this] at rel
    generalize |rv y / (2 * rv s)| = W at *
    linarith

end EFX
