import Verif.Model.ComplexE
import Verif.Lemmas.Concrete
import Verif.Lemmas.ComplexE
import Verif.Props.SmallInt
/-!
# C55, C57: complex numbers with `e_float` components
-/

namespace EFX.Props
open EFX EFX.Spec

/-- The square root of zero is computed as `i`: the imaginary part is `0 / (0 * 2)` and the division of `e_float` returns
one for equal operands. -/
theorem C55_sqrt_zero_refuted :
    denote (CxE.sqrt cfg101 ⟨zero cfg101, zero cfg101⟩).re = .fin 0 ∧
    denote (CxE.sqrt cfg101 ⟨zero cfg101, zero cfg101⟩).im = .fin 1 := by
  have den : ∀ {z : EFloat} {q : ℚ}, z.cls = .finite → val z = q → denote z = .fin q := by
    intro z q h1 h2; unfold denote; rw [h1]; simp only; rw [h2]
  constructor <;> apply den <;> decide +kernel

/-! ## C57 -/

/-- A complex number with finite components of full working precision and exponents up to `10^8`. -/
structure Moderate (c : Cfg) (z : Cx EFloat) : Prop where
  reFin : FinWF c z.re
  imFin : FinWF c z.im
  rePrec : z.re.prec = c.elems
  imPrec : z.im.prec = c.elems
  reExp : val z.re ≠ 0 → -100000000 ≤ z.re.exp ∧ z.re.exp ≤ 100000000
  imExp : val z.im ≠ 0 → -100000000 ≤ z.im.exp ∧ z.im.exp ≤ 100000000

theorem Moderate.re {c : Cfg} {z : Cx EFloat} (h : Moderate c z) : Good c 100000000 z.re := ⟨h.reFin, h.rePrec, h.reExp⟩
theorem Moderate.im {c : Cfg} {z : Cx EFloat} (h : Moderate c z) : Good c 100000000 z.im := ⟨h.imFin, h.imPrec, h.imExp⟩

/-- Twice the error bound of one product (`C13_mul_error_reduced_partial` at full precision). -/
def complexBound (c : Cfg) : ℚ :=
  2 * (((c.elems : ℚ) * (if c.elems < 625 then 1 else 20000) + 2) * (10 : ℚ) ^ (16 - 8 * (c.elems : ℤ)))

theorem complexBound_eq (c : Cfg) : complexBound c = 2 * epsP c.elems := by
  unfold complexBound epsP mulErr
  by_cases h : c.elems < 625
  · rw [if_pos h, if_pos (by omega)]; ring
  · rw [if_neg h, if_neg (by omega)]; push_cast; ring

theorem complexBound_small {c : Cfg} (h : c.elems < 625) : complexBound c ≤ (10 : ℚ) ^ (-((c.digits10 : ℤ) + 5)) := by
  unfold complexBound
  rw [if_pos h]
  have e2 : (10 : ℚ) ^ (16 - 8 * (c.elems : ℤ)) ≤ (10 : ℚ) ^ (-((c.digits10 : ℤ) + 5)) * (1 / 10 ^ 4) := by
    have : (10 : ℚ) ^ (16 - 8 * (c.elems : ℤ)) ≤ (10 : ℚ) ^ (-((c.digits10 : ℤ) + 5) + (-4)) := by
      apply p10_mono; have := digits_elems c; omega
    rw [p10_add] at this
    calc _ ≤ _ := this
      _ = _ := by norm_num
  have hc : (c.elems : ℚ) ≤ 625 := by exact_mod_cast h.le
  have hP := p10_pos (-((c.digits10 : ℤ) + 5))
  have hQ := p10_pos (16 - 8 * (c.elems : ℤ))
  have h1 : ((c.elems : ℚ) * 1 + 2) * (10 : ℚ) ^ (16 - 8 * (c.elems : ℤ)) ≤ 627 * ((10 : ℚ) ^ (-((c.digits10 : ℤ) + 5)) * (1 / 10 ^ 4)) :=
    mul_le_mul (by linarith) e2 hQ.le (by norm_num)
  linarith

/-- C57, products.  The components of the product and of the square are finite; their error is at most `complexBound`
relative to the sum of the absolute values of the two terms, so the computed product differs from the exact one by a
tiny multiple of `|u| |v|`.  Below 625 limbs the bound is under `10^-(digits10 + 5)`. -/
theorem C57_product {c : Cfg} {u v : Cx EFloat} (hu : Moderate c u) (hv : Moderate c v) :
    (FinWF c (CxE.mul c u v).re ∧ FinWF c (CxE.mul c u v).im ∧
      |val (CxE.mul c u v).re - (val u.re * val v.re - val u.im * val v.im)| ≤
        complexBound c * (|val u.re * val v.re| + |val u.im * val v.im|) ∧
      |val (CxE.mul c u v).im - (val u.re * val v.im + val u.im * val v.re)| ≤
        complexBound c * (|val u.re * val v.im| + |val u.im * val v.re|)) ∧
    (FinWF c (CxE.mulSelf c u).re ∧ FinWF c (CxE.mulSelf c u).im ∧
      |val (CxE.mulSelf c u).re - (val u.re * val u.re - val u.im * val u.im)| ≤
        complexBound c * (|val u.re * val u.re| + |val u.im * val u.im|) ∧
      |val (CxE.mulSelf c u).im - 2 * (val u.re * val u.im)| ≤ complexBound c * (2 * |val u.re * val u.im|)) ∧
    (FinWF c (CxE.norm c u) ∧
      |val (CxE.norm c u) - (val u.re ^ 2 + val u.im ^ 2)| ≤ complexBound c * (val u.re ^ 2 + val u.im ^ 2)) ∧
    (c.elems < 625 → complexBound c ≤ (10 : ℚ) ^ (-((c.digits10 : ℤ) + 5))) := by
  rw [complexBound_eq]
  refine ⟨?_, ?_, ?_, fun h => by rw [← complexBound_eq]; exact complexBound_small h⟩
  · obtain ⟨a1, a2⟩ := diff_products hu.re hv.re hu.im hv.im (by norm_num)
    obtain ⟨b1, _, b2⟩ := sum_products hu.re hv.im hu.im hv.re (by norm_num)
    exact ⟨a1.fin, b1.fin, a2, b2⟩
  · obtain ⟨a1, a2⟩ := diff_products hu.re hu.re hu.im hu.im (by norm_num)
    obtain ⟨p1, p2⟩ := mul_good hu.re hu.im (by norm_num)
    obtain ⟨e1, e2, e3⟩ := epsP_N c
    have hd : FinWF c (mulUnsigned c (mul c u.re u.im) 2) ∧
        |val (mulUnsigned c (mul c u.re u.im) 2) - 2 * val (mul c u.re u.im)| ≤ relU c * (2 * |val (mul c u.re u.im)|) := by
      generalize mul c u.re u.im = m at *
      by_cases h0 : val m = 0
      · have e : mulUnsigned c m 2 = zero c := by
          have hz := (head_zero_iff p1.fin).2 h0
          unfold mulUnsigned
          rw [if_neg (by simp [EFloat.isnan, EFloat.isinf, p1.fin.fin]), if_neg (by simp [EFloat.isinf, p1.fin.fin]), if_pos]
          unfold EFloat.iszero EFloat.front; rw [decide_eq_true p1.fin.fin, decide_eq_true hz]; rfl
        rw [e, val_zero, h0]
        exact ⟨FinWF_zero c, by simp⟩
      · obtain ⟨s1, s2, s3, s4, s5, s6⟩ := mulUnsigned_spec (n := 2) p1.fin (ne_of_val p1.fin h0) (le_refl _) (by norm_num)
        refine ⟨s1, ?_⟩
        have s6' := s6 p1.prec
        have hul := ulp_le_relU s1 s2
        have hup := ulp_pos c (mulUnsigned c m 2)
        obtain ⟨c1, c2⟩ := chop_le (q := mag m * ((2 : ℕ) : ℚ)) hup (by have := mag_nonneg m; positivity)
        rw [← s6'] at c1 c2
        push_cast at c1 c2
        have hv : val (mulUnsigned c m 2) - 2 * val m = sgnQ m.neg * (mag (mulUnsigned c m 2) - 2 * mag m) := by
          rw [val_eq, val_eq m, s3]; ring
        have hsg : |sgnQ m.neg| = 1 := by unfold sgnQ; split <;> simp
        rw [hv, abs_mul, hsg, one_mul, abs_val, abs_le]
        have := relU_pos c
        have h9 : relU c * mag (mulUnsigned c m 2) ≤ relU c * (mag m * 2) := mul_le_mul_of_nonneg_left c1 this.le
        have h10 : 0 ≤ relU c * (2 * mag m) := by have := mag_nonneg m; positivity
        constructor <;> linarith
    refine ⟨a1.fin, hd.1, a2, ?_⟩
    have hd2 := hd.2
    show |val (mulUnsigned c (mul c u.re u.im) 2) - 2 * (val u.re * val u.im)| ≤ _
    have key := two_products (p := val (mul c u.re u.im)) (q := val (mul c u.re u.im)) (s := 2 * val (mul c u.re u.im)) e1 e2 e3 p2 p2
      (r := val (mulUnsigned c (mul c u.re u.im) 2)) (by rw [← two_mul]; exact hd2) (by
        rw [← two_mul, ← two_mul, ← mul_sub, abs_mul]; norm_num)
    rw [← two_mul, ← two_mul] at key
    exact key
  · obtain ⟨a1, _, a2⟩ := sum_products hu.re hu.re hu.im hu.im (by norm_num)
    refine ⟨a1.fin, ?_⟩
    rw [abs_mul_self, abs_mul_self] at a2
    rw [pow_two, pow_two]; exact a2

/-- C57, quotients.  For a non-zero divisor the components of the quotient are finite and their error is at most four times
the error of the reciprocal, relative to the sum of the absolute values of the two terms of the numerator. -/
theorem C57_quotient {c : Cfg} {u v : Cx EFloat} (hu : Moderate c u) (hv : Moderate c v) (h0 : val v.re ≠ 0 ∨ val v.im ≠ 0) :
    FinWF c (CxE.div c u v).re ∧ FinWF c (CxE.div c u v).im ∧
    |val (CxE.div c u v).re - (val u.re * val v.re + val u.im * val v.im) / (val v.re ^ 2 + val v.im ^ 2)| ≤
      4 * recipBound c * ((|val u.re * val v.re| + |val u.im * val v.im|) / (val v.re ^ 2 + val v.im ^ 2)) ∧
    |val (CxE.div c u v).im - (val u.im * val v.re - val u.re * val v.im) / (val v.re ^ 2 + val v.im ^ 2)| ≤
      4 * recipBound c * ((|val u.im * val v.re| + |val u.re * val v.im|) / (val v.re ^ 2 + val v.im ^ 2)) := by
  have hm : maxExp10 = 2147483616 := rfl
  have hm2 : minExp10 = -2147483616 := rfl
  have hN := elems_le c
  obtain ⟨e1, e2, e3⟩ := epsP_N c
  obtain ⟨n1, n3, n2⟩ := sum_products hv.re hv.re hv.im hv.im (by norm_num)
  rw [abs_mul_self, abs_mul_self, ← pow_two, ← pow_two] at n2
  have hn : 0 < val v.re ^ 2 + val v.im ^ 2 := by
    rcases h0 with h | h
    · have := sq_pos_of_ne_zero h; have := sq_nonneg (val v.im); linarith
    · have := sq_pos_of_ne_zero h; have := sq_nonneg (val v.re); linarith
  obtain ⟨n, hnd⟩ : ∃ n, n = val v.re ^ 2 + val v.im ^ 2 := ⟨_, rfl⟩
  have hlow : (10 : ℚ) ^ (-200000000 : ℤ) ≤ n := by
    have key : ∀ {x : EFloat}, Good c 100000000 x → val x ≠ 0 → (10 : ℚ) ^ (-200000000 : ℤ) ≤ val x ^ 2 := by
      intro x hx hx0
      have h1 := mag_ge hx.fin.toWF (ne_of_val hx.fin hx0)
      have h2 : (10 : ℚ) ^ (-100000000 : ℤ) ≤ |val x| := by
        rw [abs_val]; exact le_trans (p10_mono (hx.exp hx0).1) h1
      rw [show (-200000000 : ℤ) = -100000000 + -100000000 by norm_num, p10_add, ← sq_abs, pow_two]
      exact mul_le_mul h2 h2 (p10_pos _).le (abs_nonneg _)
    rw [hnd]
    rcases h0 with h | h
    · have h3 := key hv.re h
      have h4 := sq_nonneg (val v.im)
      exact le_trans h3 (le_add_of_nonneg_right h4)
    · have h3 := key hv.im h
      have h4 := sq_nonneg (val v.re)
      exact le_trans h3 (le_add_of_nonneg_left h4)
  rw [← hnd] at hn n2 ⊢
  unfold CxE.div
  have hnorm : CxE.norm c v = add c (mul c v.re v.re) (mul c v.im v.im) := rfl
  rw [← hnorm] at n1 n2 n3
  generalize CxE.norm c v = nv at *
  have hnv : n / 10 ≤ val nv := by
    have h1 := (abs_le.1 n2).1
    have h2 : 2 * epsP c.elems * n ≤ 9 / 10 * n := mul_le_mul_of_nonneg_right (by
      have : (1 / 10 ^ 23 : ℚ) ≤ 1 / 10 := by norm_num
      linarith) hn.le
    linarith
  have hnv0 : val nv ≠ 0 := by
    intro h; rw [h] at hnv; linarith
  have hexp : -200000016 ≤ nv.exp ∧ nv.exp ≤ 200000024 := by
    refine ⟨?_, by have := n3 hnv0; omega⟩
    have h1 : (10 : ℚ) ^ (-200000001 : ℤ) ≤ |val nv| := by
      have hs : (10 : ℚ) ^ (-200000001 : ℤ) = (10 : ℚ) ^ (-200000000 : ℤ) * (1 / 10) := by
        rw [show (-200000001 : ℤ) = -200000000 + -1 by norm_num, p10_add]; norm_num
      rw [hs]
      have hpos := p10_pos (-200000000)
      generalize (10 : ℚ) ^ (-200000000 : ℤ) = P at *
      rw [abs_of_pos (by linarith)]
      linarith
    have := lt_exp_of_mag n1.fin h1
    omega
  obtain ⟨w1, w2, w3, w4⟩ := calculateInv_spec n1.fin hnv0 ⟨by omega, by omega⟩
  have hfl := floorErr_bounds c
  have hI1 : invErr c ≤ 1 / 100 := by
    unfold invErr
    have hd := (digits10_bounds c).1
    have h1 : (10 : ℚ) ^ (-((c.digits10 : ℤ) + 2)) ≤ (10 : ℚ) ^ (-3 : ℤ) := by apply p10_mono; omega
    rw [show (10 : ℚ) ^ (-3 : ℤ) = 1 / 1000 by norm_num] at h1
    have : (1 / 10 ^ 12 : ℚ) ≤ 1 / 1000 := by norm_num
    linarith [hfl.2]
  have hI2 : 23 / 10 * epsP c.elems ≤ invErr c := by
    unfold invErr floorErr
    have := p10_pos (-((c.digits10 : ℤ) + 2))
    linarith
  have hwe := recip_exp n1.fin w1 w2 (by linarith)
  have hwp : (calculateInv c nv).prec = c.elems := by rcases w4 with h | h <;> simp [h, n1.prec]
  simp only
  generalize calculateInv c nv = w at *
  have fin : ∀ {x : EFloat} {A S : ℚ}, Good c (2 * 100000000 + 8 * (c.elems : ℤ) + 24) x → |A| ≤ S →
      |val x - A| ≤ 2 * epsP c.elems * S →
      FinWF c (mul c x w) ∧ |val (mul c x w) - A / n| ≤ 4 * recipBound c * (S / n) := by
    intro x A S hx hA hxa
    obtain ⟨m1, _, m3⟩ := mul_near_any hx.fin w1 (fun a b => by
      have := hx.exp a
      exact ⟨by omega, by omega⟩)
    rw [hx.prec, hwp, Nat.min_self] at m3
    refine ⟨m1, ?_⟩
    rw [← invErr_eq]
    exact quot_step e1 e2 hI2 hI1 hn hA hxa n2 w3 m3
  obtain ⟨a1, _, a2⟩ := sum_products hu.re hv.re hu.im hv.im (by norm_num)
  obtain ⟨b1, b2⟩ := diff_products hu.im hv.re hu.re hv.im (by norm_num)
  obtain ⟨f1, f2⟩ := fin a1 (abs_add_le _ _) a2
  obtain ⟨g1, g2⟩ := fin b1 (abs_sub _ _) b2
  exact ⟨f1, g1, f2, g2⟩

/-- C57, Gaussian integers: sums, differences, products and the norm are exact within the precision. -/
theorem C57_exact {c : Cfg} {u v : Cx EFloat} (fu : FinWF c u.re ∧ FinWF c u.im) (fv : FinWF c v.re ∧ FinWF c v.im)
    (pu : u.re.prec = c.elems ∧ u.im.prec = c.elems) (pv : v.re.prec = c.elems ∧ v.im.prec = c.elems) {i j k l : ℤ}
    (hi : val u.re = i) (hj : val u.im = j) (hk : val v.re = k) (hl : val v.im = l) {a b : ℕ} (hab : a + b < c.elems)
    (bi : |(i : ℚ)| < (10 : ℚ) ^ (8 * (a : ℤ))) (bj : |(j : ℚ)| < (10 : ℚ) ^ (8 * (a : ℤ)))
    (bk : |(k : ℚ)| < (10 : ℚ) ^ (8 * (b : ℤ))) (bl : |(l : ℚ)| < (10 : ℚ) ^ (8 * (b : ℤ))) :
    (denote (CxE.add c u v).re = .fin ((i + k : ℤ) : ℚ) ∧ denote (CxE.add c u v).im = .fin ((j + l : ℤ) : ℚ)) ∧
    (denote (CxE.sub c u v).re = .fin ((i - k : ℤ) : ℚ) ∧ denote (CxE.sub c u v).im = .fin ((j - l : ℤ) : ℚ)) ∧
    (denote (CxE.mul c u v).re = .fin ((i * k - j * l : ℤ) : ℚ) ∧ denote (CxE.mul c u v).im = .fin ((i * l + j * k : ℤ) : ℚ)) := by
  have unden : ∀ {z : EFloat} {q : ℚ}, denote z = .fin q → z.cls = .finite ∧ val z = q := by
    intro z q h; unfold denote at h; cases hc : z.cls <;> rw [hc] at h <;> simp at h
    exact ⟨rfl, h⟩
  have hN := elems_ge c
  have wa : (10 : ℚ) ^ (8 * (a : ℤ)) ≤ (10 : ℚ) ^ (8 * (c.elems : ℤ) - 8) := p10_mono (by omega)
  have wb : (10 : ℚ) ^ (8 * (b : ℤ)) ≤ (10 : ℚ) ^ (8 * (c.elems : ℤ) - 8) := p10_mono (by omega)
  have wab : (10 : ℚ) ^ (8 * (a : ℤ)) * (10 : ℚ) ^ (8 * (b : ℤ)) ≤ (10 : ℚ) ^ (8 * (c.elems : ℤ) - 8) := by
    rw [← p10_add]; exact p10_mono (by omega)
  have hP : (10 : ℚ) ^ (8 * (c.elems : ℤ)) = 100000000 * (10 : ℚ) ^ (8 * (c.elems : ℤ) - 8) := by
    rw [show 8 * (c.elems : ℤ) = (8 * (c.elems : ℤ) - 8) + 8 by ring, p10_add]; norm_num [mul_comm]
  have hpos := p10_pos (8 * (c.elems : ℤ) - 8)
  have pa := p10_pos (8 * (a : ℤ))
  have pb := p10_pos (8 * (b : ℤ))
  have addsub : ∀ {x y : EFloat} {m n : ℤ}, FinWF c x → FinWF c y → val x = m → val y = n →
      |(m : ℚ)| < (10 : ℚ) ^ (8 * (c.elems : ℤ) - 8) → |(n : ℚ)| < (10 : ℚ) ^ (8 * (c.elems : ℤ) - 8) →
      denote (add c x y) = .fin ((m + n : ℤ) : ℚ) ∧ denote (sub c x y) = .fin ((m - n : ℤ) : ℚ) := by
    intro x y m n fx fy hm hn bm bn
    have k1 := (C51_integer_arithmetic fx fy hm hn).1 (by rw [hP]; linarith) (by rw [hP]; linarith)
    rw [abs_lt] at bm bn
    refine ⟨k1.1 ?_, k1.2 ?_⟩ <;> rw [hP, abs_lt] <;> push_cast <;> constructor <;> linarith
  have prod : ∀ {x y : EFloat} {m n : ℤ}, FinWF c x → FinWF c y → x.prec = c.elems → y.prec = c.elems → val x = m → val y = n →
      |(m : ℚ)| < (10 : ℚ) ^ (8 * (a : ℤ)) → |(n : ℚ)| < (10 : ℚ) ^ (8 * (b : ℤ)) →
      FinWF c (mul c x y) ∧ val (mul c x y) = ((m * n : ℤ) : ℚ) ∧ |((m * n : ℤ) : ℚ)| < (10 : ℚ) ^ (8 * (c.elems : ℤ) - 8) := by
    intro x y m n fx fy px py hm hn bm bn
    obtain ⟨d1, d2⟩ := unden ((C51_integer_arithmetic fx fy hm hn).2 a b bm bn (by omega) (by omega))
    refine ⟨⟨mulAssign_WF fx.toWF fy.toWF, d1⟩, d2, ?_⟩
    push_cast
    rw [abs_mul]
    exact lt_of_lt_of_le (mul_lt_mul'' bm bn (abs_nonneg _) (abs_nonneg _)) wab
  obtain ⟨r1, r2⟩ := addsub fu.1 fv.1 hi hk (lt_of_lt_of_le bi wa) (lt_of_lt_of_le bk wb)
  obtain ⟨s1, s2⟩ := addsub fu.2 fv.2 hj hl (lt_of_lt_of_le bj wa) (lt_of_lt_of_le bl wb)
  obtain ⟨p1, p2, p3⟩ := prod fu.1 fv.1 pu.1 pv.1 hi hk bi bk
  obtain ⟨q1, q2, q3⟩ := prod fu.2 fv.2 pu.2 pv.2 hj hl bj bl
  obtain ⟨t1, t2, t3⟩ := prod fu.1 fv.2 pu.1 pv.2 hi hl bi bl
  obtain ⟨o1, o2, o3⟩ := prod fu.2 fv.1 pu.2 pv.1 hj hk bj bk
  exact ⟨⟨r1, s1⟩, ⟨r2, s2⟩, (addsub p1 q1 p2 q2 p3 q3).2, (addsub t1 o1 t2 o2 t3 o3).1⟩

/-- `exA + i exB` is such a number, and `(2 + 3i)` is a Gaussian integer of one limb. -/
example : Moderate cfg101 ⟨exA, exB⟩ ∧ val (ofSigned cfg101 2) = (2 : ℤ) ∧ val (ofSigned cfg101 (-3)) = (-3 : ℤ) ∧
    (1 + 1 < cfg101.elems) := by
  refine ⟨⟨exA_fin, exB_fin, ?_, ?_, ?_, ?_⟩, ?_, ?_, ?_⟩ <;> decide +kernel

end EFX.Props
