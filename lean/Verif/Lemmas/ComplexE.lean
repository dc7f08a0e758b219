import Verif.Model.ComplexE
import Verif.Props.Inverse
import Verif.Props.Floor
import Verif.Lemmas.OpNear
/-!
# Error of sums and products at full precision with exponent bounds
-/

namespace EFX
open Spec Props

/-- Finite, full working precision, exponent within `B` unless zero. -/
structure Good (c : Cfg) (B : ℤ) (x : EFloat) : Prop where
  fin : FinWF c x
  prec : x.prec = c.elems
  exp : val x ≠ 0 → -B ≤ x.exp ∧ x.exp ≤ B

theorem Good.mono {c : Cfg} {B B' : ℤ} {x : EFloat} (h : Good c B x) (hB : B ≤ B') : Good c B' x :=
  ⟨h.fin, h.prec, fun h0 => by have := h.exp h0; omega⟩

theorem Good.neg {c : Cfg} {B : ℤ} {x : EFloat} (h : Good c B x) : Good c B (negate x) :=
  ⟨FinWF_negate h.fin, by rw [negate_prec]; exact h.prec, fun h0 => by
    rw [negate_exp]; rw [negate_val h.fin] at h0; exact h.exp (fun h1 => h0 (by rw [h1, neg_zero]))⟩

theorem exp_lt_of_mag {c : Cfg} {x : EFloat} {k : ℤ} (hx : FinWF c x) (h0 : val x ≠ 0) (h : |val x| < (10 : ℚ) ^ k) :
    x.exp < k := by
  have h1 := mag_ge hx.toWF (ne_of_val hx h0)
  rw [abs_val] at h
  have h2 := lt_of_le_of_lt h1 h
  by_contra hc
  exact absurd (p10_mono (not_lt.1 hc)) (not_le.2 h2)

theorem lt_exp_of_mag {c : Cfg} {x : EFloat} {k : ℤ} (hx : FinWF c x) (h : (10 : ℚ) ^ k ≤ |val x|) :
    k < x.exp + 8 := by
  have h1 := mag_lt hx.toWF
  rw [abs_val] at h
  have h2 := lt_of_le_of_lt h h1
  by_contra hc
  exact absurd (p10_mono (not_lt.1 hc)) (not_le.2 h2)

theorem epsP_N (c : Cfg) : 0 < epsP c.elems ∧ epsP c.elems ≤ 1 / 10 ^ 23 ∧ relU c ≤ epsP c.elems / 10 ^ 8 := by
  refine ⟨epsP_pos _, epsP_small (by have := elems_ge c; omega), ?_⟩
  unfold relU epsP
  have hp := p10_pos (8 - 8 * (c.elems : ℤ))
  have e : (10 : ℚ) ^ (16 - 8 * (c.elems : ℤ)) = (10 : ℚ) ^ (8 - 8 * (c.elems : ℤ)) * 10 ^ 8 := by
    rw [show (16 : ℤ) - 8 * (c.elems : ℤ) = (8 - 8 * (c.elems : ℤ)) + 8 by ring, p10_add]; norm_num
  rw [e]
  generalize (10 : ℚ) ^ (8 - 8 * (c.elems : ℤ)) = P at *
  have hm : (0 : ℚ) ≤ (mulErr c.elems : ℚ) := Nat.cast_nonneg _
  have : 0 ≤ (mulErr c.elems : ℚ) * P := mul_nonneg hm hp.le
  have e2 : ((mulErr c.elems : ℚ) + 2) * (P * 10 ^ 8) / 10 ^ 8 = (mulErr c.elems : ℚ) * P + 2 * P := by ring
  rw [e2]; linarith

theorem mul_good {c : Cfg} {B : ℤ} {x v : EFloat} (hx : Good c B x) (hv : Good c B v) (hB : B ≤ 1000000000) :
    Good c (2 * B + 8) (mul c x v) ∧ |val (mul c x v) - val x * val v| ≤ epsP c.elems * |val x * val v| := by
  have hm : maxExp10 = 2147483616 := rfl
  have hm2 : minExp10 = -2147483616 := rfl
  obtain ⟨m1, m2, m3⟩ := mul_near_any hx.fin hv.fin (fun a b => by
    have h1 := hx.exp a; have h2 := hv.exp b
    exact ⟨by omega, by omega⟩)
  rw [hx.prec, hv.prec, Nat.min_self] at m3
  refine ⟨⟨m1, by rcases m2 with h | h <;> simp [h, hx.prec], fun h0 => ?_⟩, m3⟩
  have hxv : val x * val v ≠ 0 := by
    intro h; rw [h, abs_zero, mul_zero, sub_zero] at m3
    exact h0 (abs_eq_zero.1 (le_antisymm m3 (abs_nonneg _)))
  have hx0 := left_ne_zero_of_mul hxv
  have hv0 := right_ne_zero_of_mul hxv
  have h1 := hx.exp hx0; have h2 := hv.exp hv0
  obtain ⟨_, _, _, _, s5, _⟩ := mulAssignG_spec (self := false) hx.fin hv.fin (ne_of_val hx.fin hx0) (ne_of_val hv.fin hv0) (by simp)
    (not_over (x := x) (y := v) ⟨by omega, by omega⟩).1 (not_over (x := x) (y := v) ⟨by omega, by omega⟩).2 rfl (r := mul c x v) rfl
  omega

theorem add_good {c : Cfg} {B : ℤ} {x v : EFloat} (hx : Good c B x) (hv : Good c B v) (hB : B ≤ 2000000000) :
    Good c (B + 8 * (c.elems : ℤ) + 16) (addAssign c x v) ∧
    (val (addAssign c x v) ≠ 0 → (addAssign c x v).exp ≤ B + 16) ∧
    |val (addAssign c x v) - (val x + val v)| ≤ relU c * (|val x| + |val v|) := by
  have hm : maxExp10 = 2147483616 := rfl
  have hN := elems_ge c
  obtain ⟨a1, a2, a3⟩ := add_near hx.fin hv.fin (fun h => by have := hx.exp h; omega) (fun h => by have := hv.exp h; omega)
  have hp : (addAssign c x v).prec = c.elems := by
    rcases addAssign_prec c x v with h | h | h <;> simp [h, hx.prec, hv.prec]
  have hbig : ∀ {y : EFloat}, Good c B y → |val y| ≤ (10 : ℚ) ^ (B + 8) := by
    intro y hy
    by_cases h0 : val y = 0
    · rw [h0, abs_zero]; exact (p10_pos _).le
    · have h1 := (mag_lt hy.fin.toWF).le
      rw [abs_val]
      exact le_trans h1 (p10_mono (by have := (hy.exp h0).2; omega))
  have hup : val (addAssign c x v) ≠ 0 → (addAssign c x v).exp ≤ B + 16 := by
    intro h0
    have hU : relU c ≤ 1 := by
      obtain ⟨e1, e2, e3⟩ := epsP_N c
      have : (1 / 10 ^ 23 : ℚ) ≤ 1 := by norm_num
      linarith
    have hs : |val (addAssign c x v)| ≤ 2 * (|val x| + |val v|) := by
      have t1 := abs_sub_abs_le_abs_sub (val (addAssign c x v)) (val x + val v)
      have t2 := abs_add_le (val x) (val v)
      have t3 : relU c * (|val x| + |val v|) ≤ 1 * (|val x| + |val v|) :=
        mul_le_mul_of_nonneg_right hU (add_nonneg (abs_nonneg _) (abs_nonneg _))
      linarith
    have hl : |val (addAssign c x v)| < (10 : ℚ) ^ (B + 9) := by
      have hb1 := hbig hx
      have hb2 := hbig hv
      have e : (10 : ℚ) ^ (B + 9) = 10 * (10 : ℚ) ^ (B + 8) := by
        rw [show B + 9 = (B + 8) + 1 by ring, p10_add]; norm_num [mul_comm]
      have hpos := p10_pos (B + 8)
      rw [e]; linarith
    have := exp_lt_of_mag a1 h0 hl
    omega
  refine ⟨⟨a1, hp, fun h0 => ?_⟩, hup, a2⟩
  have hu := hup h0
  refine ⟨?_, by omega⟩
  by_cases hx0 : val x = 0
  · have e := addAssign_zero_left (c := c) (v := v) hx.fin ((head_zero_iff hx.fin).2 hx0)
    rw [e] at h0 ⊢
    have := hv.exp h0
    omega
  · have := a3 hx0 h0
    have := hx.exp hx0
    omega

theorem sub_good {c : Cfg} {B : ℤ} {x v : EFloat} (hx : Good c B x) (hv : Good c B v) (hB : B ≤ 2000000000) :
    Good c (B + 8 * (c.elems : ℤ) + 16) (subAssign c x v) ∧
    |val (subAssign c x v) - (val x - val v)| ≤ relU c * (|val x| + |val v|) := by
  rw [subAssign_eq hx.fin hv.fin]
  obtain ⟨h1, _, h2⟩ := add_good hx hv.neg hB
  rw [negate_val hv.fin, abs_neg, ← sub_eq_add_neg] at h2
  exact ⟨h1, h2⟩

/-- Rational step: the error of a sum of two rounded products. -/
theorem two_products {p q a b r s e u : ℚ} (he : 0 < e) (he1 : e ≤ 1 / 10 ^ 23) (hu : u ≤ e / 10 ^ 8)
    (hp : |p - a| ≤ e * |a|) (hq : |q - b| ≤ e * |b|) (hr : |r - s| ≤ u * (|p| + |q|)) (hs : |s - (a + b)| ≤ |p - a| + |q - b|) :
    |r - (a + b)| ≤ 2 * e * (|a| + |b|) := by
  have ha := abs_nonneg a
  have hb := abs_nonneg b
  have hea : e * |a| ≤ |a| := by
    have : e * |a| ≤ 1 * |a| := mul_le_mul_of_nonneg_right (by linarith [(by norm_num : (1 / 10 ^ 23 : ℚ) ≤ 1)]) ha
    linarith
  have heb : e * |b| ≤ |b| := by
    have : e * |b| ≤ 1 * |b| := mul_le_mul_of_nonneg_right (by linarith [(by norm_num : (1 / 10 ^ 23 : ℚ) ≤ 1)]) hb
    linarith
  have h1 := abs_sub_abs_le_abs_sub p a
  have h2 := abs_sub_abs_le_abs_sub q b
  have h3 : |p| + |q| ≤ 2 * (|a| + |b|) := by linarith
  have h4 : u * (|p| + |q|) ≤ e / 10 ^ 8 * (2 * (|a| + |b|)) :=
    mul_le_mul hu h3 (add_nonneg (abs_nonneg _) (abs_nonneg _)) (by positivity)
  have h5 : |r - (a + b)| ≤ |r - s| + |s - (a + b)| := by
    have := abs_add_le (r - s) (s - (a + b))
    rwa [sub_add_sub_cancel] at this
  have h6 : 0 ≤ e * (|a| + |b|) := by positivity
  have h7 : e / 10 ^ 8 * (2 * (|a| + |b|)) ≤ e * (|a| + |b|) := by
    have : e / 10 ^ 8 * (2 * (|a| + |b|)) = (2 / 10 ^ 8) * (e * (|a| + |b|)) := by ring
    rw [this]; linarith
  linarith

theorem sum_products {c : Cfg} {B : ℤ} {x y u v : EFloat} (hx : Good c B x) (hy : Good c B y) (hu : Good c B u) (hv : Good c B v)
    (hB : B ≤ 900000000) :
    Good c (2 * B + 8 * (c.elems : ℤ) + 24) (add c (mul c x y) (mul c u v)) ∧
    (val (add c (mul c x y) (mul c u v)) ≠ 0 → (add c (mul c x y) (mul c u v)).exp ≤ 2 * B + 24) ∧
    |val (add c (mul c x y) (mul c u v)) - (val x * val y + val u * val v)| ≤
      2 * epsP c.elems * (|val x * val y| + |val u * val v|) := by
  obtain ⟨p1, p2⟩ := mul_good hx hy (by omega)
  obtain ⟨q1, q2⟩ := mul_good hu hv (by omega)
  obtain ⟨r1, r2, r3⟩ := add_good p1 q1 (by omega)
  obtain ⟨e1, e2, e3⟩ := epsP_N c
  refine ⟨r1.mono (by omega), fun h => by have := r2 h; unfold add; omega, ?_⟩
  refine two_products e1 e2 e3 p2 q2 r3 ?_
  have := abs_add_le (val (mul c x y) - val x * val y) (val (mul c u v) - val u * val v)
  rwa [show (val (mul c x y) - val x * val y) + (val (mul c u v) - val u * val v) =
    val (mul c x y) + val (mul c u v) - (val x * val y + val u * val v) by ring] at this

theorem diff_products {c : Cfg} {B : ℤ} {x y u v : EFloat} (hx : Good c B x) (hy : Good c B y) (hu : Good c B u) (hv : Good c B v)
    (hB : B ≤ 900000000) :
    Good c (2 * B + 8 * (c.elems : ℤ) + 24) (sub c (mul c x y) (mul c u v)) ∧
    |val (sub c (mul c x y) (mul c u v)) - (val x * val y - val u * val v)| ≤
      2 * epsP c.elems * (|val x * val y| + |val u * val v|) := by
  obtain ⟨p1, p2⟩ := mul_good hx hy (by omega)
  obtain ⟨q1, q2⟩ := mul_good hu hv (by omega)
  obtain ⟨r1, r3⟩ := sub_good p1 q1 (by omega)
  obtain ⟨e1, e2, e3⟩ := epsP_N c
  refine ⟨r1.mono (by omega), ?_⟩
  have q2' : |(-val (mul c u v)) - (-(val u * val v))| ≤ epsP c.elems * |(-(val u * val v))| := by
    rw [abs_neg, ← abs_neg]; rwa [show -(-val (mul c u v) - -(val u * val v)) = val (mul c u v) - val u * val v by ring]
  have r3' : |val (subAssign c (mul c x y) (mul c u v)) - (val (mul c x y) - val (mul c u v))| ≤
      relU c * (|val (mul c x y)| + |(-val (mul c u v))|) := by rw [abs_neg]; exact r3
  have := two_products e1 e2 e3 p2 q2' r3' (by
    have := abs_add_le (val (mul c x y) - val x * val y) (-val (mul c u v) - -(val u * val v))
    rwa [show (val (mul c x y) - val x * val y) + (-val (mul c u v) - -(val u * val v)) =
      val (mul c x y) - val (mul c u v) - (val x * val y + -(val u * val v)) by ring] at this)
  rwa [abs_neg, ← sub_eq_add_neg] at this

/-- Rational step: quotient of a rounded numerator by a rounded, inverted denominator. -/
theorem quot_step {q num A S w n n' e I : ℚ} (he : 0 < e) (he1 : e ≤ 1 / 10 ^ 23) (hI : 23 / 10 * e ≤ I) (hI1 : I ≤ 1 / 100) (hn : 0 < n)
    (hA : |A| ≤ S) (hnum : |num - A| ≤ 2 * e * S) (hn' : |n' - n| ≤ 2 * e * n) (hw : |1 - w * n'| ≤ I)
    (hq : |q - num * w| ≤ e * |num * w|) : |q - A / n| ≤ 4 * I * (S / n) := by
  have hS : 0 ≤ S := le_trans (abs_nonneg _) hA
  obtain ⟨X, hX⟩ : ∃ X, X = |w| * n := ⟨_, rfl⟩
  have hX0 : 0 ≤ X := by rw [hX]; positivity
  have hwn : |1 - w * n| ≤ I + 2 * e * X := by
    have e1 : 1 - w * n = (1 - w * n') + w * (n' - n) := by ring
    have h1 : |w * (n' - n)| ≤ |w| * (2 * e * n) := by
      rw [abs_mul]; exact mul_le_mul_of_nonneg_left hn' (abs_nonneg _)
    have h2 := abs_add_le (1 - w * n') (w * (n' - n))
    rw [← e1] at h2
    have h3 : |w| * (2 * e * n) = 2 * e * X := by rw [hX]; ring
    linarith
  have hXw : X ≤ 1 + |1 - w * n| := by
    have : |w * n| = X := by rw [abs_mul, abs_of_pos hn, hX]
    have h2 := abs_sub_abs_le_abs_sub (w * n) 1
    rw [this, abs_one, abs_sub_comm] at h2
    linarith
  have heX : e * X ≤ 1 / 10 ^ 23 * X := mul_le_mul_of_nonneg_right he1 hX0
  have hX1 : X ≤ 51 / 50 := by
    have : (1 / 10 ^ 23 : ℚ) * X ≤ 1 / 1000 * X := mul_le_mul_of_nonneg_right (by norm_num) hX0
    linarith
  have heX2 : e * X ≤ 51 / 50 * e := by
    have := mul_le_mul_of_nonneg_left hX1 he.le; linarith
  -- multiply by n
  have hnumabs : |num| ≤ 51 / 50 * S := by
    have h1 := abs_sub_abs_le_abs_sub num A
    have h2 : e * S ≤ 1 / 10 ^ 23 * S := mul_le_mul_of_nonneg_right he1 hS
    have h3 : (1 / 10 ^ 23 : ℚ) * S ≤ 1 / 1000 * S := mul_le_mul_of_nonneg_right (by norm_num) hS
    linarith
  have hmain : |q * n - A| ≤ 4 * I * S := by
    have e1 : q * n - A = (q - num * w) * n + ((num - A) * (w * n) + A * (w * n - 1)) := by ring
    have t1 : |(q - num * w) * n| ≤ e * (51 / 50 * S * X) := by
      rw [abs_mul, abs_of_pos hn]
      calc |q - num * w| * n ≤ e * |num * w| * n := mul_le_mul_of_nonneg_right hq hn.le
        _ = e * (|num| * X) := by rw [abs_mul, hX]; ring
        _ ≤ _ := mul_le_mul_of_nonneg_left (mul_le_mul_of_nonneg_right hnumabs hX0) he.le
    have t2 : |(num - A) * (w * n)| ≤ 2 * e * S * X := by
      rw [abs_mul, abs_mul w, abs_of_pos hn, ← hX]
      exact mul_le_mul_of_nonneg_right hnum hX0
    have t3 : |A * (w * n - 1)| ≤ S * (I + 2 * e * X) := by
      rw [abs_mul, abs_sub_comm (w * n)]
      exact mul_le_mul hA hwn (abs_nonneg _) hS
    have t4 := abs_add_le ((q - num * w) * n) ((num - A) * (w * n) + A * (w * n - 1))
    have t5 := abs_add_le ((num - A) * (w * n)) (A * (w * n - 1))
    rw [← e1] at t4
    have hSe : S * (e * X) ≤ S * (51 / 50 * e) := mul_le_mul_of_nonneg_left heX2 hS
    have hSI : S * (23 / 10 * e) ≤ S * I := mul_le_mul_of_nonneg_left hI hS
    have hSe0 : 0 ≤ S * e := mul_nonneg hS he.le
    have g1 : e * (51 / 50 * S * X) = 51 / 50 * (S * (e * X)) := by ring
    have g2 : 2 * e * S * X = 2 * (S * (e * X)) := by ring
    have g3 : S * (I + 2 * e * X) = S * I + 2 * (S * (e * X)) := by ring
    have g4 : 4 * I * S = 4 * (S * I) := by ring
    rw [g1] at t1; rw [g2] at t2; rw [g3] at t3; rw [g4]
    linarith
  have e2 : q - A / n = (q * n - A) / n := by field_simp
  rw [e2, abs_div, abs_of_pos hn, ← mul_div_assoc]
  exact div_le_div_of_nonneg_right hmain hn.le

end EFX
