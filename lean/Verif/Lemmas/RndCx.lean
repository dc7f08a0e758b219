import Verif.Lemmas.RndInst
import Verif.Model.ComplexE
import Mathlib.Analysis.Complex.Norm
/-!
# Complex arithmetic with rounding

Error bounds for sums, products, norms and quotients of `complex<e_float>`, relative to the absolute values of the operands.
-/

namespace EFX
open Spec Props

/-- The complex number of a pair of objects. -/
noncomputable def cval (z : Cx EFloat) : ℂ := ⟨rv z.re, rv z.im⟩

/-- Both parts are finite, valid and of full working precision. -/
def CFull (c : Cfg) (z : Cx EFloat) : Prop := Full c z.re ∧ Full c z.im

/-- Products underflow below this size. -/
noncomputable def tau : ℝ := pw (-2000000000)

theorem tau_pos : 0 < tau := pw_pos _

theorem pw_le1 {k : ℤ} (h : k ≤ 0) : pw k ≤ 1 := by rw [← pw_zero]; exact pw_mono h

theorem mul_any {c : Cfg} (hc : c.elems < 625) {x y : EFloat} (hx : Full c x) (hy : Full c y) (h : |rv x * rv y| ≤ pw 2000000000) :
    Full c (mul c x y) ∧ |rv (mul c x y) - rv x * rv y| ≤ eu c / 10 ^ 4 * |rv x * rv y| + 2 * tau ∧ |rv (mul c x y)| ≤ |rv x * rv y| := by
  have e0 : 0 < eu c := pw_pos _
  by_cases h0 : rv x * rv y = 0
  · obtain ⟨f, v⟩ := rnd_mul0 hx hy h0
    refine ⟨f, ?_, ?_⟩
    · rw [v, h0]; simp only [sub_zero, abs_zero, mul_zero]; linarith [tau_pos]
    · rw [v, h0]
  by_cases hs : pw (-2000000000) ≤ |rv x * rv y|
  · obtain ⟨f, e, l⟩ := rnd_mul hc hx hy ⟨hs, h⟩
    exact ⟨f, le_trans e (by linarith [tau_pos]), l⟩
  rw [not_le] at hs
  have key : Full c (mul c x y) ∧ |rv (mul c x y)| ≤ |rv x * rv y| := by
    have x0 : val x ≠ 0 := fun h => h0 (by rw [rv_ne.2 h, zero_mul])
    have y0 : val y ≠ 0 := fun h => h0 (by rw [rv_ne.2 h, mul_zero])
    have zx := ne_of_val hx.1 x0
    have zy := ne_of_val hy.1 y0
    have hm : (((val x * val y : ℚ)) : ℝ) = rv x * rv y := by unfold rv; push_cast; rfl
    have s2 : |val x * val y| ≤ (10 : ℚ) ^ (2000000000 : ℤ) := by
      rw [← hm, ← Rat.cast_abs] at h; exact cast_le_pw.1 h
    rw [abs_mul, abs_val, abs_val] at s2
    have a1 := mag_ge hx.1.toWF zx
    have b1 := mag_ge hy.1.toWF zy
    have l1 : (10 : ℚ) ^ (x.exp + y.exp) ≤ (10 : ℚ) ^ (2000000000 : ℤ) := by
      rw [p10_add]; exact le_trans (mul_le_mul a1 b1 (p10_pos _).le (mag_nonneg _)) s2
    have m1 := (zpow_le_zpow_iff_right₀ (show (1 : ℚ) < 10 by norm_num)).1 l1
    have ho : ¬ MulOver x y := by
      unfold MulOver
      have hm : maxExp10 = 2147483616 := rfl
      omega
    by_cases hu : MulUnder x y
    · have e : mul c x y = zero c := (mulAssignG_unfold (self := false) hx.1 hy.1 zx zy).2.1 hu
      rw [e]
      refine ⟨⟨FinWF_zero c, rfl⟩, ?_⟩
      rw [rv_ne.2 (val_zero c), abs_zero]; exact abs_nonneg _
    · have hp : c.elems = min x.prec y.prec := by rw [hx.2, hy.2, Nat.min_self]
      obtain ⟨s1, s2, s3, s4, s5, s6, s7, s8⟩ := mulAssignG_spec (self := false) hx.1 hy.1 zx zy (by simp) ho hu hp rfl
      obtain ⟨t1, t2⟩ := s6 rfl
      refine ⟨⟨s1, by rw [show (mul c x y).prec = x.prec from s4, hx.2]⟩, ?_⟩
      rw [rv_abs, ← hm, ← Rat.cast_abs, abs_mul, abs_val, abs_val, abs_val]
      exact_mod_cast t1
  refine ⟨key.1, ?_, key.2⟩
  have h1 := abs_sub (rv (mul c x y)) (rv x * rv y)
  have h2 : 0 ≤ eu c / 10 ^ 4 * |rv x * rv y| := by positivity
  have h3 : |rv x * rv y| < tau := hs
  have := key.2
  linarith

/-- A sum or difference of two products. -/
theorem dot_any {c : Cfg} (hc : c.elems < 625) {x y z w : EFloat} (hx : Full c x) (hy : Full c y) (hz : Full c z) (hw : Full c w)
    (h : |rv x * rv y| + |rv z * rv w| ≤ pw 2000000000) :
    (Full c (add c (mul c x y) (mul c z w)) ∧
      |rv (add c (mul c x y) (mul c z w)) - (rv x * rv y + rv z * rv w)| ≤ 2 * (eu c / 10 ^ 4) * (|rv x * rv y| + |rv z * rv w|) * (51 / 100) + 4 * tau ∧
      |rv (add c (mul c x y) (mul c z w))| ≤ 2 * (|rv x * rv y| + |rv z * rv w|)) ∧
    (Full c (sub c (mul c x y) (mul c z w)) ∧
      |rv (sub c (mul c x y) (mul c z w)) - (rv x * rv y - rv z * rv w)| ≤ 2 * (eu c / 10 ^ 4) * (|rv x * rv y| + |rv z * rv w|) * (51 / 100) + 4 * tau ∧
      |rv (sub c (mul c x y) (mul c z w))| ≤ 2 * (|rv x * rv y| + |rv z * rv w|)) := by
  have n1 := abs_nonneg (rv x * rv y)
  have n2 := abs_nonneg (rv z * rv w)
  obtain ⟨f1, e1, l1⟩ := mul_any hc hx hy (by linarith)
  obtain ⟨f2, e2, l2⟩ := mul_any hc hz hw (by linarith)
  obtain ⟨f3, e3⟩ := rnd_add f1 f2 (by linarith) (by linarith)
  obtain ⟨f4, e4, -⟩ := rnd_sub hc f1 f2 (by linarith) (by linarith)
  have e0 : 0 < eu c := pw_pos _
  have eu1 : eu c ≤ 1 := pw_le1 (by omega)
  have t0 := tau_pos
  generalize rv (mul c x y) = p at *
  generalize rv (mul c z w) = q at *
  generalize rv x * rv y = P at *
  generalize rv z * rv w = Q at *
  change |rv (add c (mul c x y) (mul c z w)) - (p + q)| ≤ _ at e3
  generalize rv (sub c (mul c x y) (mul c z w)) = r at *
  generalize rv (add c (mul c x y) (mul c z w)) = s at *
  generalize eu c = u at *
  have m1 : u / 10 ^ 12 * (|p| + |q|) ≤ u / 10 ^ 12 * (|P| + |Q|) := mul_le_mul_of_nonneg_left (by linarith) (by positivity)
  have m2 : u / 10 ^ 12 * (|P| + |Q|) ≤ 1 / 10 ^ 12 * (|P| + |Q|) := mul_le_mul_of_nonneg_right (by gcongr) (by positivity)
  have m3 : 0 ≤ u * (|P| + |Q|) := by positivity
  rw [abs_le] at e1 e2 e3 e4
  have hP := abs_le.1 (le_refl |P|)
  have hQ := abs_le.1 (le_refl |Q|)
  have hp := abs_le.1 (le_refl |p|)
  have hq := abs_le.1 (le_refl |q|)
  refine ⟨⟨f3, ?_, ?_⟩, f4, ?_, ?_⟩ <;> rw [abs_le] <;> constructor <;> linarith

theorem cauchy (u v : ℂ) : |u.re| * |v.re| + |u.im| * |v.im| ≤ ‖u‖ * ‖v‖ ∧ |u.re| * |v.im| + |u.im| * |v.re| ≤ ‖u‖ * ‖v‖ := by
  have a := Complex.sq_norm u
  have b := Complex.sq_norm v
  rw [Complex.normSq_apply, ← abs_mul_abs_self u.re, ← abs_mul_abs_self u.im] at a
  rw [Complex.normSq_apply, ← abs_mul_abs_self v.re, ← abs_mul_abs_self v.im] at b
  have h : (‖u‖ * ‖v‖) ^ 2 = (|u.re| * |u.re| + |u.im| * |u.im|) * (|v.re| * |v.re| + |v.im| * |v.im|) := by rw [mul_pow, a, b]
  have n : 0 ≤ ‖u‖ * ‖v‖ := by positivity
  constructor
  · refine le_of_sq_le_sq' ?_ n
    rw [h]; nlinarith [sq_nonneg (|u.re| * |v.im| - |u.im| * |v.re|)]
  · refine le_of_sq_le_sq' ?_ n
    rw [h]; nlinarith [sq_nonneg (|u.re| * |v.re| - |u.im| * |v.im|)]
where
  le_of_sq_le_sq' {a b : ℝ} (h : a ^ 2 ≤ b ^ 2) (hb : 0 ≤ b) : a ≤ b := le_trans (le_abs_self a) (abs_le_of_sq_le_sq h hb)

theorem CFull.re {c : Cfg} {z : Cx EFloat} (h : CFull c z) : Full c z.re := h.1
theorem CFull.im {c : Cfg} {z : Cx EFloat} (h : CFull c z) : Full c z.im := h.2

theorem cx_norm_le {z : ℂ} {B : ℝ} (h1 : |z.re| ≤ B) (h2 : |z.im| ≤ B) : ‖z‖ ≤ 3 / 2 * B := by
  have b0 : 0 ≤ B := le_trans (abs_nonneg _) h1
  refine le_trans (le_abs_self _) (abs_le_of_sq_le_sq ?_ (by linarith))
  rw [Complex.sq_norm, Complex.normSq_apply]
  nlinarith [abs_mul_abs_self z.re, abs_mul_abs_self z.im, mul_le_mul h1 h1 (abs_nonneg _) b0, mul_le_mul h2 h2 (abs_nonneg _) b0]

theorem cx_norm_sub {a b x y B : ℝ} (h1 : |a - x| ≤ B) (h2 : |b - y| ≤ B) : ‖(⟨a, b⟩ : ℂ) - ⟨x, y⟩‖ ≤ 3 / 2 * B := cx_norm_le h1 h2

theorem cx_mul {c : Cfg} (hc : c.elems < 625) {u v : Cx EFloat} (hu : CFull c u) (hv : CFull c v) (h : ‖cval u‖ * ‖cval v‖ ≤ pw 2000000000) :
    CFull c (CxE.mul c u v) ∧ ‖cval (CxE.mul c u v) - cval u * cval v‖ ≤ eu c / 5000 * (‖cval u‖ * ‖cval v‖) + 6 * tau := by
  obtain ⟨q1, q2⟩ := cauchy (cval u) (cval v)
  simp only [cval, ← abs_mul] at q1 q2
  have d1 := (dot_any hc hu.1 hv.1 hu.2 hv.2 (le_trans q1 h)).2
  have d2 := (dot_any hc hu.1 hv.2 hu.2 hv.1 (le_trans q2 h)).1
  refine ⟨⟨d1.1, d2.1⟩, ?_⟩
  have e0 : 0 < eu c := pw_pos _
  have k : ∀ s, s ≤ ‖cval u‖ * ‖cval v‖ → 2 * (eu c / 10 ^ 4) * s * (51 / 100) + 4 * tau ≤ 2 * (eu c / 10 ^ 4) * (‖cval u‖ * ‖cval v‖) * (51 / 100) + 4 * tau := by
    intro s hs; gcongr
  have := cx_norm_le (z := cval (CxE.mul c u v) - cval u * cval v) (le_trans (by simpa [cval, CxE.mul] using d1.2.1) (k _ q1))
    (le_trans (by simpa [cval, CxE.mul] using d2.2.1) (k _ q2))
  refine le_trans this ?_
  have : 0 ≤ eu c * (‖cval u‖ * ‖cval v‖) := by positivity
  linarith

theorem cx_add {c : Cfg} (hc : c.elems < 625) {u v : Cx EFloat} (hu : CFull c u) (hv : CFull c v) (h1 : ‖cval u‖ ≤ pw 2000000000)
    (h2 : ‖cval v‖ ≤ pw 2000000000) :
    (CFull c (CxE.add c u v) ∧ ‖cval (CxE.add c u v) - (cval u + cval v)‖ ≤ eu c / 10 ^ 11 * (‖cval u‖ + ‖cval v‖)) ∧
    (CFull c (CxE.sub c u v) ∧ ‖cval (CxE.sub c u v) - (cval u - cval v)‖ ≤ eu c / 10 ^ 11 * (‖cval u‖ + ‖cval v‖)) := by
  have a1 : |rv u.re| ≤ ‖cval u‖ := Complex.abs_re_le_norm (cval u)
  have a2 : |rv u.im| ≤ ‖cval u‖ := Complex.abs_im_le_norm (cval u)
  have b1 : |rv v.re| ≤ ‖cval v‖ := Complex.abs_re_le_norm (cval v)
  have b2 : |rv v.im| ≤ ‖cval v‖ := Complex.abs_im_le_norm (cval v)
  have e0 : 0 < eu c := pw_pos _
  obtain ⟨f1, g1⟩ := rnd_add hu.1 hv.1 (le_trans a1 h1) (le_trans b1 h2)
  obtain ⟨f2, g2⟩ := rnd_add hu.2 hv.2 (le_trans a2 h1) (le_trans b2 h2)
  obtain ⟨f3, g3, -⟩ := rnd_sub hc hu.1 hv.1 (le_trans a1 h1) (le_trans b1 h2)
  obtain ⟨f4, g4, -⟩ := rnd_sub hc hu.2 hv.2 (le_trans a2 h1) (le_trans b2 h2)
  have k : ∀ s, s ≤ ‖cval u‖ + ‖cval v‖ → eu c / 10 ^ 12 * s ≤ eu c / 10 ^ 12 * (‖cval u‖ + ‖cval v‖) := by
    intro s hs; gcongr
  have n : 0 ≤ eu c * (‖cval u‖ + ‖cval v‖) := by positivity
  refine ⟨⟨⟨f1, f2⟩, ?_⟩, ⟨f3, f4⟩, ?_⟩
  · refine le_trans (cx_norm_le (z := cval (CxE.add c u v) - (cval u + cval v)) (le_trans g1 (k _ (by linarith)))
      (le_trans g2 (k _ (by linarith)))) (by linarith)
  · refine le_trans (cx_norm_le (z := cval (CxE.sub c u v) - (cval u - cval v)) (le_trans g3 (k _ (by linarith)))
      (le_trans g4 (k _ (by linarith)))) (by linarith)

theorem cx_norm {c : Cfg} (hc : c.elems < 625) {v : Cx EFloat} (hv : CFull c v) (h : ‖cval v‖ ^ 2 ≤ pw 2000000000) :
    Full c (CxE.norm c v) ∧ |rv (CxE.norm c v) - ‖cval v‖ ^ 2| ≤ eu c / 10 ^ 4 * (102 / 100) * ‖cval v‖ ^ 2 + 4 * tau := by
  have e : |rv v.re * rv v.re| + |rv v.im * rv v.im| = ‖cval v‖ ^ 2 := by
    rw [Complex.sq_norm, Complex.normSq_apply, abs_mul_self, abs_mul_self]; rfl
  have e2 : rv v.re * rv v.re + rv v.im * rv v.im = ‖cval v‖ ^ 2 := by
    rw [Complex.sq_norm, Complex.normSq_apply]; rfl
  obtain ⟨f, g, -⟩ := (dot_any hc hv.1 hv.1 hv.2 hv.2 (by rw [e]; exact h)).1
  rw [e, e2] at g
  refine ⟨f, le_trans g (le_of_eq (by ring))⟩

theorem eu_ge {c : Cfg} (hc : c.elems < 625) : pw (-6000) ≤ eu c := by
  refine pw_mono ?_
  unfold Cfg.elems Cfg.maxDigits10 at hc
  split at hc <;> omega

theorem eu_small (c : Cfg) : eu c ≤ 1 / 10 ^ 30 := by
  have h : 30 ≤ c.digits10 := by unfold Cfg.digits10; split <;> [skip; split] <;> omega
  refine le_trans (pw_mono (by omega : _ ≤ -((30 : ℕ) : ℤ))) ?_
  rw [pw_neg, pw_nat, one_div]

theorem quot_big {t S i : ℝ} (t1 : t ≤ 1) (hS : S ≤ pw 800000000) (i0 : 0 < i) (hi : i ≤ pw 800000000) :
    (1001 / 1000 * S + 4 * t) * (101 / 100 * i) ≤ pw 2000000000 := by
  have b1 : 1 ≤ pw 800000000 := by rw [← pw_zero]; exact pw_mono (by omega)
  have b2 : pw 2000000000 = pw 400000000 * (pw 800000000 * pw 800000000) := by rw [← pw_add, ← pw_add]; norm_num
  have b3 : (10 : ℝ) ≤ pw 400000000 := by rw [← pw_one]; exact pw_mono (by omega)
  rw [b2]
  generalize pw 800000000 = B at *
  generalize pw 400000000 = C at *
  have b0 : 0 ≤ B := by linarith
  have b4 : (1001 / 1000 * S + 4 * t) * (101 / 100 * i) ≤ (6 * B) * (101 / 100 * B) := by
    refine mul_le_mul (by linarith) (by linarith) (by linarith) (by linarith)
  have b5 : 0 ≤ B * B := mul_nonneg b0 b0
  have b6 : 10 * (B * B) ≤ C * (B * B) := mul_le_mul_of_nonneg_right b3 b5
  linarith

theorem quot_err {u t i S p P w m : ℝ} (e0 : 0 < u) (e1 : u ≤ 1 / 10 ^ 30) (t0 : 0 < t) (iN : 0 < i) (S0 : 0 ≤ S)
    (p1 : |p| ≤ 1001 / 1000 * S + 4 * t) (ep2 : |p - P| ≤ u / 10 ^ 4 * (102 / 100) * S + 4 * t)
    (ew1 : |w - i| ≤ u * (1005 / 1000) * i) (ew2 : |w| ≤ 101 / 100 * i) (em : |m - p * w| ≤ u / 10 ^ 4 * |p * w| + 2 * t) :
    |m - P * i| ≤ u * (11 / 10) * (S * i) + 2 * t + 9 * t * i := by
  have split : m - P * i = (m - p * w) + p * (w - i) + (p - P) * i := by ring
  rw [split]
  refine le_trans (abs_add_le _ _) ?_
  have a1 := abs_add_le (m - p * w) (p * (w - i))
  rw [abs_mul p (w - i)] at a1
  rw [abs_mul (p - P), abs_of_pos iN]
  have a2 : |p| * |w - i| ≤ (1001 / 1000 * S + 4 * t) * (u * (1005 / 1000) * i) :=
    mul_le_mul p1 ew1 (abs_nonneg _) (by positivity)
  have a3 : |p - P| * i ≤ (u / 10 ^ 4 * (102 / 100) * S + 4 * t) * i := mul_le_mul_of_nonneg_right ep2 iN.le
  have a4 : u / 10 ^ 4 * |p * w| ≤ u / 10 ^ 4 * ((1001 / 1000 * S + 4 * t) * (101 / 100 * i)) := by
    rw [abs_mul]
    exact mul_le_mul_of_nonneg_left (mul_le_mul p1 ew2 (abs_nonneg _) (by positivity)) (by positivity)
  have c1 : u * (t * i) ≤ 1 / 10 ^ 30 * (t * i) := mul_le_mul_of_nonneg_right e1 (by positivity)
  have c2 : 0 ≤ u * (S * i) := by positivity
  have c3 : 0 ≤ t * i := by positivity
  clear e1 p1 ep2 ew1 ew2 split
  have x1 : (1001 / 1000 * S + 4 * t) * (u * (1005 / 1000) * i) = 1001 / 1000 * (1005 / 1000) * (u * (S * i)) + 4 * (1005 / 1000) * (u * (t * i)) := by ring
  have x2 : (u / 10 ^ 4 * (102 / 100) * S + 4 * t) * i = 1 / 10 ^ 4 * (102 / 100) * (u * (S * i)) + 4 * (t * i) := by ring
  have x3 : u / 10 ^ 4 * ((1001 / 1000 * S + 4 * t) * (101 / 100 * i)) =
      1 / 10 ^ 4 * (1001 / 1000) * (101 / 100) * (u * (S * i)) + 4 / 10 ^ 4 * (101 / 100) * (u * (t * i)) := by ring
  rw [x1] at a2; rw [x2] at a3; rw [x3] at a4
  have x4 : u * (11 / 10) * (S * i) + 2 * t + 9 * t * i = 11 / 10 * (u * (S * i)) + 2 * t + 9 * (t * i) := by ring
  rw [x4]
  generalize u * (S * i) = A at *
  generalize u * (t * i) = B at *
  generalize t * i = C at *
  linarith

set_option maxHeartbeats 1000000 in
theorem cx_div {c : Cfg} (hc : c.elems < 625) {u v : Cx EFloat} (hu : CFull c u) (hv : CFull c v) (h1 : ‖cval u‖ ≤ pw 400000000)
    (h2 : Sz 400000000 ‖cval v‖) :
    CFull c (CxE.div c u v) ∧ ‖cval (CxE.div c u v) - cval u / cval v‖ ≤ 2 * eu c * (‖cval u‖ / ‖cval v‖) + pw (-1000000000) := by
  have e0 : 0 < eu c := pw_pos _
  have e1 : eu c ≤ 1 / 10 ^ 30 := eu_small c
  have v0 : 0 < ‖cval v‖ := lt_of_le_of_ne (norm_nonneg _) (Ne.symm h2.ne)
  have hN : Sz 800000000 (‖cval v‖ ^ 2) := h2.pow 2
  have N0 : 0 < ‖cval v‖ ^ 2 := by positivity
  have hl := hN.1
  have hh := hN.2
  rw [abs_of_pos N0] at hl hh
  obtain ⟨fn, en⟩ := cx_norm hc hv (le_trans hh (pw_mono (by omega)))
  -- the underflow is far below the rounding
  have tN : 4 * tau ≤ eu c / 10 ^ 4 * (1 / 100) * ‖cval v‖ ^ 2 := by
    have t1 : tau = pw (-1000000000) * pw (-1000000000) := by rw [← pw_add]; rfl
    have t2 : pw (-1000000000) ≤ pw (-6000) * pw (-800000000) := by rw [← pw_add]; exact pw_mono (by omega)
    have t3 : pw (-6000) * pw (-800000000) ≤ eu c * ‖cval v‖ ^ 2 := mul_le_mul (eu_ge hc) hl (pw_pos _).le e0.le
    have t4 : pw (-1000000000) ≤ 1 / 10 ^ 8 := by
      refine le_trans (pw_mono (by omega : (-1000000000 : ℤ) ≤ -((8 : ℕ) : ℤ))) ?_
      rw [pw_neg, pw_nat]; norm_num
    have t5 := pw_pos (-1000000000)
    have t6 := mul_le_mul_of_nonneg_right t4 t5.le
    have t7 := le_trans t2 t3
    rw [t1]
    generalize pw (-1000000000) = A at *
    have t8 : eu c / 10 ^ 4 * (1 / 100) * ‖cval v‖ ^ 2 = 1 / 10 ^ 6 * (eu c * ‖cval v‖ ^ 2) := by ring
    rw [t8]
    generalize eu c * ‖cval v‖ ^ 2 = B at *
    generalize A * A = A2 at *
    clear t1 t2 t3 t4 en
    linarith
  generalize hn : rv (CxE.norm c v) = n at *
  have en' : |n - ‖cval v‖ ^ 2| ≤ 2 * eu c / 10 ^ 4 * ‖cval v‖ ^ 2 := by
    refine le_trans en ?_
    have : 0 ≤ eu c * ‖cval v‖ ^ 2 := by positivity
    linarith
  have hsm : 2 * eu c / 10 ^ 4 * ‖cval v‖ ^ 2 ≤ 1 / 1000 * ‖cval v‖ ^ 2 := mul_le_mul_of_nonneg_right (by linarith) N0.le
  have nn := abs_le.1 (le_trans en' hsm)
  have n0 : 0 < n := by linarith
  have sn : Sz 1000000000 n := by
    have : Sz 800000001 n := hN.near (by rw [abs_of_pos N0]; linarith [le_trans en' hsm])
    exact this.mono (by omega)
  obtain ⟨fw, ew⟩ := rnd_inv hc fn (by rw [hn]; exact sn)
  rw [hn, abs_of_pos (by positivity : 0 < 1 / n)] at ew
  generalize hN' : ‖cval v‖ ^ 2 = N at *
  -- the reciprocal
  have i1 : 1 / n ≤ 1002 / 1000 * (1 / N) := by
    rw [div_mul_div_comm, div_le_div_iff₀ n0 (by linarith)]; linarith
  have i2 : |1 / n - 1 / N| ≤ eu c * (1 / 1000) * (1 / N) := by
    rw [div_sub_div _ _ n0.ne' N0.ne', abs_div, abs_of_pos (mul_pos n0 N0), div_le_iff₀ (mul_pos n0 N0)]
    rw [one_mul, mul_one, abs_sub_comm]
    refine le_trans en' ?_
    rw [show eu c * (1 / 1000) * (1 / N) * (n * N) = eu c * (1 / 1000) * n * (N / N) by ring, div_self N0.ne', mul_one]
    have : eu c * (N * (999 / 1000)) ≤ eu c * n := mul_le_mul_of_nonneg_left (by linarith) e0.le
    have : 0 ≤ eu c * N := by positivity
    linarith
  have wfin : ∀ w : ℝ, |w - 1 / n| ≤ eu c * (1 / n) → |w - 1 / N| ≤ eu c * (1005 / 1000) * (1 / N) ∧ |w| ≤ 101 / 100 * (1 / N) := by
    intro w hw
    have j : eu c * (1 / n) ≤ eu c * (1002 / 1000 * (1 / N)) := mul_le_mul_of_nonneg_left i1 e0.le
    have iN : 0 < 1 / N := by positivity
    have j2 : 0 ≤ eu c * (1 / N) := by positivity
    have j3 : eu c * (1 / N) ≤ 1 / 10 ^ 30 * (1 / N) := mul_le_mul_of_nonneg_right e1 iN.le
    rw [abs_le] at hw i2
    constructor
    · rw [abs_le]; constructor <;> linarith
    · rw [abs_le]; constructor <;> linarith
  obtain ⟨ew1, ew2⟩ := wfin _ ew
  -- numerators
  have S0 : 0 ≤ ‖cval u‖ * ‖cval v‖ := by positivity
  have hvu : ‖cval v‖ ≤ pw 400000000 := by have := h2.2; rwa [abs_of_pos v0] at this
  have hS : ‖cval u‖ * ‖cval v‖ ≤ pw 800000000 := by
    rw [show (800000000 : ℤ) = 400000000 + 400000000 by norm_num, pw_add]
    exact mul_le_mul h1 hvu v0.le (pw_pos _).le
  obtain ⟨q1, q2⟩ := cauchy (cval u) (cval v)
  simp only [cval, ← abs_mul] at q1 q2
  have d1 := (dot_any hc hu.1 hv.1 hu.2 hv.2 (le_trans q1 (le_trans hS (pw_mono (by omega))))).1
  rw [add_comm] at q2
  have d2 := (dot_any hc hu.2 hv.1 hu.1 hv.2 (le_trans q2 (le_trans hS (pw_mono (by omega))))).2
  have iNb : 1 / N ≤ pw 800000000 := by
    have := one_div_le_one_div_of_le (pw_pos _) hl
    rwa [pw_neg, one_div_one_div_inv] at this
  have fin : ∀ (p w : EFloat) (P s : ℝ), Full c p → Full c w → |rv w - 1 / N| ≤ eu c * (1005 / 1000) * (1 / N) → |rv w| ≤ 101 / 100 * (1 / N) →
      0 ≤ s → s ≤ ‖cval u‖ * ‖cval v‖ → |P| ≤ s →
      |rv p - P| ≤ 2 * (eu c / 10 ^ 4) * s * (51 / 100) + 4 * tau →
      Full c (mul c p w) ∧ |rv (mul c p w) - P / N| ≤ eu c * (11 / 10) * (‖cval u‖ * ‖cval v‖ / N) + 2 * tau + 9 * tau * (1 / N) := by
    intro p w P s fp fw ew1 ew2 s0 hs hP ep
    have iN : 0 < 1 / N := by positivity
    have t0 := tau_pos
    generalize ‖cval u‖ * ‖cval v‖ = S at *
    have k1 : 2 * (eu c / 10 ^ 4) * s * (51 / 100) ≤ eu c / 10 ^ 4 * (102 / 100) * S := by
      have : eu c * s ≤ eu c * S := mul_le_mul_of_nonneg_left hs e0.le
      linarith
    have ep2 : |rv p - P| ≤ eu c / 10 ^ 4 * (102 / 100) * S + 4 * tau := by linarith
    have k2 : eu c * S ≤ 1 / 10 ^ 30 * S := mul_le_mul_of_nonneg_right e1 S0
    have p1 : |rv p| ≤ 1001 / 1000 * S + 4 * tau := by
      have := abs_sub_abs_le_abs_sub (rv p) P
      linarith
    have pw1 : |rv p| * |rv w| ≤ (1001 / 1000 * S + 4 * tau) * (101 / 100 * (1 / N)) :=
      mul_le_mul p1 ew2 (abs_nonneg _) (by positivity)
    have t1 : tau ≤ 1 := pw_le1 (by omega)
    have big : |rv p * rv w| ≤ pw 2000000000 := by
      rw [abs_mul]
      exact le_trans pw1 (quot_big t1 hS iN iNb)
    obtain ⟨fm, em, -⟩ := mul_any hc fp fw big
    refine ⟨fm, ?_⟩
    rw [show P / N = P * (1 / N) by ring, show S / N = S * (1 / N) by ring]
    exact quot_err e0 e1 t0 iN S0 p1 ep2 ew1 ew2 em
  obtain ⟨g1, r1⟩ := fin _ _ (rv u.re * rv v.re + rv u.im * rv v.im) _ d1.1 fw ew1 ew2 (by positivity) q1 (abs_add_le _ _) d1.2.1
  obtain ⟨g2, r2⟩ := fin _ _ (rv u.im * rv v.re - rv u.re * rv v.im) _ d2.1 fw ew1 ew2 (by positivity) q2 (abs_sub _ _) d2.2.1
  have hcd : cval u / cval v = ⟨(rv u.re * rv v.re + rv u.im * rv v.im) / N, (rv u.im * rv v.re - rv u.re * rv v.im) / N⟩ := by
    have hns : Complex.normSq (cval v) = N := by rw [← Complex.sq_norm, hN']
    apply Complex.ext
    · rw [Complex.div_re, hns]; simp only [cval]; ring
    · rw [Complex.div_im, hns]; simp only [cval]; ring
  refine ⟨⟨g1, g2⟩, ?_⟩
  rw [hcd]
  have r1' : |rv (CxE.div c u v).re - (rv u.re * rv v.re + rv u.im * rv v.im) / N| ≤ _ := r1
  have r2' : |rv (CxE.div c u v).im - (rv u.im * rv v.re - rv u.re * rv v.im) / N| ≤ _ := r2
  refine le_trans (cx_norm_sub r1' r2') ?_
  have hq : ‖cval u‖ * ‖cval v‖ / N = ‖cval u‖ / ‖cval v‖ := by
    rw [← hN', sq, mul_div_mul_right _ _ v0.ne']
  rw [hq]
  have x1 : tau * (1 / N) ≤ pw (-1200000000) := by
    have : tau * (1 / N) ≤ tau * pw 800000000 := mul_le_mul_of_nonneg_left iNb tau_pos.le
    unfold tau at this ⊢
    rw [← pw_add] at this
    exact this
  have x2 : tau ≤ pw (-1200000000) := pw_mono (by omega)
  have x3 : pw (-1000000000) = pw (-1200000000) * pw 200000000 := by rw [← pw_add]; rfl
  have x4 : 100 ≤ pw 200000000 := by
    refine le_trans ?_ (pw_mono (by omega : ((2 : ℕ) : ℤ) ≤ 200000000))
    rw [pw_nat]; norm_num
  have x5 : pw (-1200000000) * 100 ≤ pw (-1200000000) * pw 200000000 := mul_le_mul_of_nonneg_left x4 (pw_pos _).le
  have x6 : 0 ≤ eu c * (‖cval u‖ / ‖cval v‖) := by positivity
  have x7 := pw_pos (-1200000000)
  rw [x3, show 3 / 2 * (eu c * (11 / 10) * (‖cval u‖ / ‖cval v‖) + 2 * tau + 9 * tau * (1 / N)) =
    33 / 20 * (eu c * (‖cval u‖ / ‖cval v‖)) + 3 * tau + 27 / 2 * (tau * (1 / N)) by ring,
    show 2 * eu c * (‖cval u‖ / ‖cval v‖) = 2 * (eu c * (‖cval u‖ / ‖cval v‖)) by ring]
  generalize eu c * (‖cval u‖ / ‖cval v‖) = A at *
  generalize tau * (1 / N) = B at *
  generalize pw (-1200000000) * pw 200000000 = C at *
  generalize pw (-1200000000) = E at *
  generalize tau = F at *
  clear fin r1 r2 wfin
  linarith
where
  one_div_one_div_inv {a : ℝ} : 1 / a⁻¹ = a := by rw [one_div, inv_inv]

end EFX
