import Verif.Lemmas.OpNear
import Verif.Lemmas.SqrtAlg
/-!
# One step of the coupled iteration of `calculate_sqrt`
-/

namespace EFX
open Spec EFX.Props

theorem p10_lt_inv {a b : ℤ} (h : (10 : ℚ) ^ a < (10 : ℚ) ^ b) : a < b := by
  by_contra hc
  have := p10_mono (not_lt.1 hc)
  linarith

theorem exp_lt_of_abs {c : Cfg} {x : EFloat} {b : ℤ} (hx : FinWF c x) (h0 : val x ≠ 0) (h : |val x| < (10 : ℚ) ^ b) :
    x.exp < b := by
  rw [abs_val] at h
  exact p10_lt_inv (lt_of_le_of_lt (mag_ge hx.toWF (ne_of_val hx h0)) h)

theorem exp_gt_of_abs {c : Cfg} {x : EFloat} {a : ℤ} (hx : FinWF c x) (h : (10 : ℚ) ^ a ≤ |val x|) : a < x.exp + 8 := by
  rw [abs_val] at h
  exact p10_lt_inv (lt_of_le_of_lt h (mag_lt hx.toWF))

/-- Two positive numbers with product between 1/10 and 10. -/
theorem exp_prod {c : Cfg} {y w : EFloat} (hy : FinWF c y) (hw : FinWF c w) (py : 0 < val y) (pw : 0 < val w)
    (h1 : 1 / 10 ≤ val y * val w) (h2 : val y * val w ≤ 1) : -17 ≤ y.exp + w.exp ∧ y.exp + w.exp ≤ 0 := by
  have ay : |val y| = val y := abs_of_pos py
  have aw : |val w| = val w := abs_of_pos pw
  have y1 := mag_ge hy.toWF (ne_of_val hy py.ne')
  have y2 := mag_lt hy.toWF
  have w1 := mag_ge hw.toWF (ne_of_val hw pw.ne')
  have w2 := mag_lt hw.toWF
  rw [abs_val] at ay aw
  rw [ay] at y1 y2
  rw [aw] at w1 w2
  have lo : (10 : ℚ) ^ (y.exp + w.exp) ≤ val y * val w := by
    rw [p10_add]; exact mul_le_mul y1 w1 (p10_pos _).le py.le
  have hi : val y * val w < (10 : ℚ) ^ (y.exp + w.exp + 16) := by
    rw [show y.exp + w.exp + 16 = (y.exp + 8) + (w.exp + 8) by ring, p10_add]
    exact mul_lt_mul y2 w2.le pw (p10_pos _).le
  constructor
  · have : (10 : ℚ) ^ (-1 : ℤ) < (10 : ℚ) ^ (y.exp + w.exp + 16) := by
      rw [show (10 : ℚ) ^ (-1 : ℤ) = 1 / 10 by norm_num]; linarith
    have := p10_lt_inv this
    omega
  · have : (10 : ℚ) ^ (y.exp + w.exp) < (10 : ℚ) ^ (1 : ℤ) := by
      rw [show (10 : ℚ) ^ (1 : ℤ) = 10 by norm_num]; linarith
    have := p10_lt_inv this
    omega

/-- Exponent of a number whose square is near `x`. -/
theorem exp_sq {c : Cfg} {x y : EFloat} (hx : FinWF c x) (hy : FinWF c y) (px : 0 < val x) (py : 0 < val y)
    (h1 : 1 / 2 * val x ≤ val y * val y) (h2 : val y * val y ≤ 2 * val x) :
    x.exp - 17 ≤ 2 * y.exp ∧ 2 * y.exp ≤ x.exp + 9 := by
  have ay : |val y| = val y := abs_of_pos py
  have ax : |val x| = val x := abs_of_pos px
  have y1 := mag_ge hy.toWF (ne_of_val hy py.ne')
  have y2 := mag_lt hy.toWF
  have w1 := mag_ge hx.toWF (ne_of_val hx px.ne')
  have w2 := mag_lt hx.toWF
  rw [abs_val] at ay ax
  rw [ay] at y1 y2
  rw [ax] at w1 w2
  have lo : (10 : ℚ) ^ (2 * y.exp) ≤ val y * val y := by
    rw [two_mul, p10_add]; exact mul_le_mul y1 y1 (p10_pos _).le py.le
  have hi : val y * val y < (10 : ℚ) ^ (2 * y.exp + 16) := by
    rw [show 2 * y.exp + 16 = (y.exp + 8) + (y.exp + 8) by ring, p10_add]
    exact mul_lt_mul y2 y2.le py (p10_pos _).le
  constructor
  · have : (10 : ℚ) ^ (x.exp + (-1)) < (10 : ℚ) ^ (2 * y.exp + 16) := by
      rw [p10_add, show (10 : ℚ) ^ (-1 : ℤ) = 1 / 10 by norm_num]; linarith
    have := p10_lt_inv this
    omega
  · have : (10 : ℚ) ^ (2 * y.exp) < (10 : ℚ) ^ (x.exp + 8 + 1) := by
      rw [p10_add (x.exp + 8), show (10 : ℚ) ^ (1 : ℤ) = 10 by norm_num]; linarith
    have := p10_lt_inv this
    omega

/-- Range of arguments for which no intermediate result of the iteration leaves the exponent range. -/
def SqrtRange (x : EFloat) : Prop := -1000000000 ≤ x.exp ∧ x.exp ≤ 1000000000

theorem one_exp (c : Cfg) : (one c).exp = 0 := rfl

/-- New value of the inverse iterate. -/
def sqrtVi (c : Cfg) (y w : EFloat) : EFloat :=
  addAssign c w (mul c w (add c (negate (mulSigned c (mul c y w) 2)) (one c)))
/-- Correction of the iterate. -/
def sqrtTerm (c : Cfg) (x y w' : EFloat) : EFloat := mul c w' (add c (negate (mul c y y)) x)

theorem four_small {p q : ℕ} (h : p ≤ q) : 4 * (10 : ℚ) ^ (8 - 8 * (q : ℤ)) ≤ epsP p / 1000 := by
  have h1 : (10 : ℚ) ^ (8 - 8 * (q : ℤ)) ≤ (10 : ℚ) ^ (16 - 8 * (p : ℤ)) * (10 : ℚ) ^ (-8 : ℤ) := by
    rw [← p10_add]; apply p10_mono; omega
  have h2 : (10 : ℚ) ^ (16 - 8 * (p : ℤ)) ≤ epsP p := by
    unfold epsP
    rw [le_mul_iff_one_le_left (p10_pos _)]
    have : (0 : ℚ) ≤ (mulErr p : ℚ) := by positivity
    linarith
  rw [show (10 : ℚ) ^ (-8 : ℤ) = 1 / 100000000 by norm_num] at h1
  have := epsP_pos p
  linarith

theorem sqrtVi_spec {c : Cfg} {y w : EFloat} {p : ℕ} (hy : FinWF c y) (hw : FinWF c w) (py : 0 < val y) (pw : 0 < val w)
    (hyp : y.prec = p) (hwp : w.prec = p) (hp5 : 5 ≤ p) (hpN : p ≤ c.elems) (he : -600000000 ≤ y.exp ∧ y.exp ≤ 600000000)
    (f1 : |1 - 2 * (val y * val w)| ≤ 1 / 1000) :
    FinWF c (sqrtVi c y w) ∧ 0 < val (sqrtVi c y w) ∧ p ≤ (sqrtVi c y w).prec ∧
    |1 - 2 * (val y * val (sqrtVi c y w))| ≤ (1 - 2 * (val y * val w)) ^ 2 + 102 / 100 * epsP p := by
  have hmax : maxExp10 = 2147483616 := rfl
  have hmin : minExp10 = -2147483616 := rfl
  have hNle := elems_le c
  have hE0 := (epsP_pos p).le
  have hE1 : epsP p ≤ 1 / 1000 := le_trans (epsP_small hp5) (by norm_num)
  have hU : relU c ≤ epsP p / 1000 := ulp2_small hpN
  have hU0 := relU_pos c
  obtain ⟨q1, q2⟩ := abs_le.1 f1
  have hexp := exp_prod hy hw py pw (by linarith) (by linarith)
  obtain ⟨m1, m2, m3, m4⟩ := mul_near (p := p) hy hw py pw (by unfold ExpInRange; omega) (by rw [hyp, hwp, Nat.min_self])
  have hm : |val (mul c y w) - val y * val w| ≤ 1 / 1000 := by
    apply le_trans m4
    have := mul_le_mul hE1 (show val y * val w ≤ 1 by linarith) (by positivity) (by norm_num)
    linarith
  obtain ⟨r1, r2⟩ := abs_le.1 hm
  have em : (mul c y w).exp < 1 := by
    apply exp_lt_of_abs m1 m2.ne'
    rw [abs_of_pos m2, show (10 : ℚ) ^ (1 : ℤ) = 10 by norm_num]; linarith
  have em2 : -1 < (mul c y w).exp + 8 := by
    apply exp_gt_of_abs m1
    rw [abs_of_pos m2, show (10 : ℚ) ^ (-1 : ℤ) = 1 / 10 by norm_num]; linarith
  obtain ⟨d1, d2, d3, d4, d5⟩ := mulSigned_two m1 m2 (by omega)
  have d5' : |val (mulSigned c (mul c y w) 2) - 2 * val (mul c y w)| ≤ epsP p / 1000 * val (mul c y w) := by
    apply le_trans d5
    apply mul_le_mul_of_nonneg_right _ m2.le
    rw [m3, hyp]
    exact four_small (le_refl _)
  have nd1 := FinWF_negate d1
  have nd2 := negate_val d1
  have nd3 := negate_exp (mulSigned c (mul c y w) 2)
  have nd4 := negate_prec (mulSigned c (mul c y w) 2)
  obtain ⟨g1, g2, g3⟩ := add_near nd1 (FinWF_one c) (fun _ => by omega) (fun _ => by rw [one_exp]; omega)
  rw [nd2, val_one, abs_neg, abs_one] at g2
  have gp : p ≤ (addAssign c (negate (mulSigned c (mul c y w) 2)) (one c)).prec := by
    rcases addAssign_prec c (negate (mulSigned c (mul c y w) 2)) (one c) with h | h | h
    · rw [h, nd4, d2, m3, hyp]
    · rw [h]; exact hpN
    · rw [h]; exact hpN
  have g2' : |val (addAssign c (negate (mulSigned c (mul c y w) 2)) (one c)) - (1 - val (mulSigned c (mul c y w) 2))| ≤
      relU c * (|val (mulSigned c (mul c y w) 2)| + 1) := by
    rw [show 1 - val (mulSigned c (mul c y w) 2) = -val (mulSigned c (mul c y w) 2) + 1 by ring]; exact g2
  obtain ⟨A1, A2, A3, A4⟩ := sqrt_algA (yw := val y * val w) (f := 1 - 2 * (val y * val w)) (by ring) f1 hE0 hE1 hU m4 d5' g2'
  have nd5 : val (negate (mulSigned c (mul c y w) 2)) ≠ 0 := by rw [nd2]; linarith
  unfold sqrtVi add
  generalize addAssign c (negate (mulSigned c (mul c y w) 2)) (one c) = g at *
  have ge : val g ≠ 0 → g.exp < 0 ∧ -8 - 8 * (c.elems : ℤ) ≤ g.exp := by
    intro h
    refine ⟨?_, by have := g3 nd5 h; omega⟩
    apply exp_lt_of_abs g1 h
    rw [zpow_zero]; linarith
  obtain ⟨t1, t2, t3⟩ := mul_near_any hw g1 (fun _ h => by have := ge h; unfold ExpInRange; omega)
  rw [show min w.prec g.prec = p by omega] at t3
  have te : val (mul c w g) ≠ 0 → (mul c w g).exp ≤ maxExp10 - 16 := by
    intro h
    have : (mul c w g).exp < w.exp + 8 := by
      apply exp_lt_of_abs t1 h
      have hwl := mag_lt hw.toWF
      rw [← abs_val, abs_of_pos pw] at hwl
      have h1 : |val w * val g| ≤ val w * (21 / 10000) := by
        rw [abs_mul, abs_of_pos pw]; exact mul_le_mul_of_nonneg_left A2 pw.le
      have h2 : epsP p * |val w * val g| ≤ 1 / 1000 * (val w * (21 / 10000)) :=
        mul_le_mul hE1 h1 (abs_nonneg _) (by norm_num)
      have h3 : |val (mul c w g)| ≤ |val (mul c w g) - val w * val g| + |val w * val g| := by
        calc |val (mul c w g)| = |(val (mul c w g) - val w * val g) + val w * val g| := by ring_nf
          _ ≤ _ := abs_add_le _ _
      linarith
    omega
  obtain ⟨v1, v2, _⟩ := add_near hw t1 (fun _ => by omega) te
  obtain ⟨B1, B2⟩ := sqrt_algB pw A2 hE0 hE1 hU t3 v2
  refine ⟨v1, B2, ?_, sqrt_algC (by ring) py f1 hE0 A1 B1⟩
  rcases addAssign_prec c w (mul c w g) with h | h | h
  · rw [h, hwp]
  · rw [h]; rcases t2 with h2 | h2 <;> rw [h2]
    · rw [hwp]
    · exact hpN
  · rw [h]; exact hpN

/-- One full step. -/
theorem sqrt_step {c : Cfg} {x y w : EFloat} {p : ℕ} (hx : FinWF c x) (px : 0 < val x) (hxp : x.prec = c.elems) (hr : SqrtRange x)
    (hy : FinWF c y) (hw : FinWF c w) (py : 0 < val y) (pw : 0 < val w)
    (hyp : y.prec = p) (hwp : w.prec = p) (hp5 : 5 ≤ p) (hpN : p ≤ c.elems)
    {e : ℚ} (hye : val y * val y = (1 - e) * val x) (e1 : |e| ≤ 1 / 1000)
    (f1 : |1 - 2 * (val y * val w)| ≤ 1 / 1000) :
    FinWF c (addAssign c y (sqrtTerm c x y (sqrtVi c y w))) ∧ 0 < val (addAssign c y (sqrtTerm c x y (sqrtVi c y w))) ∧
    FinWF c (sqrtVi c y w) ∧ 0 < val (sqrtVi c y w) ∧
    ∃ e', val (addAssign c y (sqrtTerm c x y (sqrtVi c y w))) * val (addAssign c y (sqrtTerm c x y (sqrtVi c y w))) =
        (1 - e') * val x ∧
      |e'| ≤ |e| * (1 - 2 * (val y * val w)) ^ 2 + 27 / 100 * e ^ 2 + 7 / 5 * epsP p ∧
      |1 - 2 * (val (addAssign c y (sqrtTerm c x y (sqrtVi c y w))) * val (sqrtVi c y w))| ≤
        (1 - 2 * (val y * val w)) ^ 2 + 51 / 100 * |e| + 2 * epsP p := by
  have hmax : maxExp10 = 2147483616 := rfl
  have hmin : minExp10 = -2147483616 := rfl
  have hNle := elems_le c
  have hE0 := (epsP_pos p).le
  have hE1 : epsP p ≤ 1 / 1000 := le_trans (epsP_small hp5) (by norm_num)
  have hU : relU c ≤ epsP p / 1000 := ulp2_small hpN
  unfold SqrtRange at hr
  obtain ⟨a1, a2⟩ := abs_le.1 e1
  have ye := exp_sq hx hy px py
    (by rw [hye]; exact mul_le_mul_of_nonneg_right (by linarith) px.le)
    (by rw [hye]; exact mul_le_mul_of_nonneg_right (by linarith) px.le)
  obtain ⟨w1, w2, w3, w4⟩ := sqrtVi_spec hy hw py pw hyp hwp hp5 hpN (by omega) f1
  unfold sqrtTerm
  generalize sqrtVi c y w = w' at *
  have ff : (1 - 2 * (val y * val w)) ^ 2 ≤ 1 / 1000000 := by
    rw [← sq_abs]
    calc _ ≤ (1 / 1000 : ℚ) ^ 2 := pow_le_pow_left₀ (abs_nonneg _) f1 2
      _ = _ := by norm_num
  have hφ : |1 - 2 * (val y * val w')| ≤ 3 / 1000 := by linarith
  obtain ⟨b1, b2⟩ := abs_le.1 hφ
  have we := exp_prod hy w1 py w2 (by linarith) (by linarith)
  obtain ⟨s1, s2, s3, s4⟩ := mul_near (p := p) hy hy py py (by unfold ExpInRange; omega) (by rw [hyp, Nat.min_self])
  have s4' : |val (mul c y y) - val y * val y| ≤ epsP p * |val y * val y| := by
    rw [abs_of_pos (mul_pos py py)]; exact s4
  have hyy : 0 < val y * val y := mul_pos py py
  have ns1 := FinWF_negate s1
  have ns2 := negate_val s1
  have ns3 := negate_exp (mul c y y)
  have ns4 := negate_prec (mul c y y)
  have hEyy : epsP p * (val y * val y) ≤ 1 / 1000 * (val y * val y) := mul_le_mul_of_nonneg_right hE1 hyy.le
  obtain ⟨o1, o2⟩ := abs_le.1 s4
  -- exponent of the square
  have hyb := mag_lt hy.toWF
  have hyg := mag_ge hy.toWF (ne_of_val hy py.ne')
  have ayy : mag y = val y := by rw [← abs_val, abs_of_pos py]
  rw [ayy] at hyb hyg
  have se : (mul c y y).exp < 2 * y.exp + 17 := by
    apply exp_lt_of_abs s1 s2.ne'
    rw [abs_of_pos s2, show 2 * y.exp + 17 = (y.exp + 8) + (y.exp + 8) + 1 by ring, p10_add (y.exp + 8 + (y.exp + 8)), p10_add (y.exp + 8),
      show (10 : ℚ) ^ (1 : ℤ) = 10 by norm_num]
    have := mul_lt_mul hyb hyb.le py (p10_pos (y.exp + 8)).le
    linarith
  have se2 : 2 * y.exp - 1 < (mul c y y).exp + 8 := by
    apply exp_gt_of_abs s1
    rw [abs_of_pos s2, show 2 * y.exp - 1 = y.exp + y.exp + (-1) by ring, p10_add (y.exp + y.exp), p10_add y.exp, show (10 : ℚ) ^ (-1 : ℤ) = 1 / 10 by norm_num]
    have := mul_le_mul hyg hyg (p10_pos _).le py.le
    linarith
  obtain ⟨h1, h2, h3⟩ := add_near ns1 hx (fun _ => by omega) (fun _ => by omega)
  rw [ns2, abs_neg] at h2
  have hns0 : val (negate (mul c y y)) ≠ 0 := by rw [ns2]; linarith
  have hp' : p ≤ (addAssign c (negate (mul c y y)) x).prec := by
    rcases addAssign_prec c (negate (mul c y y)) x with h | h | h
    · rw [h, ns4, s3, hyp]
    · rw [h, hxp]; exact hpN
    · rw [h]; exact hpN
  have h2' : |val (addAssign c (negate (mul c y y)) x) - (val x - val (mul c y y))| ≤ relU c * (|val (mul c y y)| + |val x|) := by
    rw [show val x - val (mul c y y) = -val (mul c y y) + val x by ring]; exact h2
  obtain ⟨D1, D2⟩ := sqrt_algD px hye e1 hE0 hE1 hU s4' h2'
  have hneg : (negate (mul c y y)).exp = (mul c y y).exp := ns3
  unfold add
  generalize addAssign c (negate (mul c y y)) x = h at *
  have hhab : |val h| ≤ val x := by
    have : |val h| ≤ |val h - e * val x| + |e * val x| := by
      calc |val h| = |(val h - e * val x) + e * val x| := by ring_nf
        _ ≤ _ := abs_add_le _ _
    have h5 : |e * val x| ≤ 1 / 1000 * val x := by
      rw [abs_mul, abs_of_pos px]; exact mul_le_mul_of_nonneg_right e1 px.le
    have h6 : epsP p * val x ≤ 1 / 1000 * val x := mul_le_mul_of_nonneg_right hE1 px.le
    linarith
  have he : val h ≠ 0 → h.exp < x.exp + 8 ∧ (mul c y y).exp - 8 * (c.elems : ℤ) ≤ h.exp := by
    intro h0
    constructor
    · apply exp_lt_of_abs h1 h0
      have := mag_lt hx.toWF
      rw [← abs_val, abs_of_pos px] at this
      linarith
    · have := h3 hns0 h0; omega
  obtain ⟨t1, t2, t3⟩ := mul_near_any w1 h1 (fun _ h0 => by have := he h0; unfold ExpInRange; omega)
  have hpmin : epsP (min w'.prec h.prec) ≤ epsP p := epsP_anti (by omega) (by omega)
  have t3' : |val (mul c w' h) - val w' * val h| ≤ epsP p * |val w' * val h| :=
    le_trans t3 (mul_le_mul_of_nonneg_right hpmin (abs_nonneg _))
  have te : val (mul c w' h) ≠ 0 → (mul c w' h).exp ≤ maxExp10 - 16 := by
    intro h0
    have hh0 : val h ≠ 0 := by
      intro hz
      rw [hz, mul_zero, sub_zero, abs_zero, mul_zero] at t3'
      exact h0 (abs_nonpos_iff.1 t3')
    have he' := he hh0
    have : (mul c w' h).exp < (w'.exp + 8) + (h.exp + 8) + 1 := by
      apply exp_lt_of_abs t1 h0
      have l1 := mag_lt w1.toWF
      have l2 := mag_lt h1.toWF
      rw [← abs_val] at l1 l2
      have l3 : |val w' * val h| ≤ (10 : ℚ) ^ (w'.exp + 8) * (10 : ℚ) ^ (h.exp + 8) := by
        rw [abs_mul]; exact mul_le_mul l1.le l2.le (abs_nonneg _) (p10_pos _).le
      rw [p10_add (w'.exp + 8 + (h.exp + 8)), p10_add (w'.exp + 8), show (10 : ℚ) ^ (1 : ℤ) = 10 by norm_num]
      have l4 : epsP p * |val w' * val h| ≤ 1 / 1000 * |val w' * val h| := mul_le_mul_of_nonneg_right hE1 (abs_nonneg _)
      have l5 : |val (mul c w' h)| ≤ |val (mul c w' h) - val w' * val h| + |val w' * val h| := by
        calc |val (mul c w' h)| = |(val (mul c w' h) - val w' * val h) + val w' * val h| := by ring_nf
          _ ≤ _ := abs_add_le _ _
      have l6 := mul_pos (p10_pos (w'.exp + 8)) (p10_pos (h.exp + 8))
      linarith
    omega
  obtain ⟨y1, y2, _⟩ := add_near hy t1 (fun _ => by omega) te
  obtain ⟨a, δ, E1', E2, E3, E4, E5, E6⟩ := sqrt_algE px py hye e1 hE0 hE1 hU rfl hφ D1 t3' y2
  obtain ⟨F1, F2, F3⟩ := sqrt_algF (k := 2 * (val y * val w')) (φ := 1 - 2 * (val y * val w')) e1 f1 hE0 hE1 (by ring) w4 E5 E1' E4 E3
  obtain ⟨z1, z2⟩ := abs_le.1 F3
  refine ⟨y1, ?_, w1, w2, 1 - (1 - e) * (1 + δ) ^ 2, ?_, F1, ?_⟩
  · rw [E2]; exact mul_pos py (by linarith)
  · rw [E2]; linear_combination (1 + δ) ^ 2 * hye
  · rw [E2, show 2 * (val y * (1 + δ) * val w') = 2 * (val y * val w') * (1 + δ) by ring]; exact F2

end EFX
