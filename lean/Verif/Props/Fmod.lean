import Verif.Props.Inverse
import Verif.Lemmas.OpNear
import Verif.Props.Floor
/-!
# C60 the remainder `fmod`
-/

namespace EFX.Props
open EFX EFX.Spec

theorem mul_prec (c : Cfg) (x v : EFloat) : (mul c x v).prec = x.prec ∨ (mul c x v).prec = c.elems := by
  have hinf : ∀ b, (infSigned c b).prec = c.elems := by
    intro b; unfold infSigned; split
    · rw [negate_prec]; rfl
    · rfl
  unfold mul mulAssign mulAssignG
  simp only
  repeat' split
  all_goals first | exact Or.inl rfl | exact Or.inr rfl | exact Or.inr (hinf _)

theorem floor_ceil_wf {c : Cfg} {x : EFloat} (hx : FinWF c x) (hp : x.prec = c.elems) (he : val x ≠ 0 → x.exp ≤ maxExp10 - 16) :
    (FinWF c (floor c x) ∧ (floor c x).prec = c.elems) ∧ (FinWF c (ceil c x) ∧ (ceil c x).prec = c.elems) := by
  have hfin : x.isfinite = true := by simp [EFloat.isfinite, hx.fin]
  have pint : ∀ z : EFloat, z.prec = c.elems → (integerPart c z).prec = c.elems := by
    intro z hz
    unfold integerPart
    split
    · exact hz
    split
    · rfl
    split
    · exact hz
    · exact hz
  have h1 : (one c).exp ≤ maxExp10 - 16 := by
    have e : (one c).exp = 0 := rfl
    rw [e]; decide
  have a1 := (add_near hx (FinWF_one c) he (fun _ => h1)).1
  have h2 : (negate (one c)).exp ≤ maxExp10 - 16 := by
    have e : (negate (one c)).exp = (one c).exp := by unfold negate; split <;> rfl
    rw [e]; exact h1
  have a2 := (add_near hx (FinWF_negate (FinWF_one c)) he (fun _ => h2)).1
  have p1 : (addAssign c x (one c)).prec = c.elems := by
    rcases addAssign_prec c x (one c) with h | h | h
    · rw [h, hp]
    · rw [h]; rfl
    · exact h
  have p2 : (addAssign c x (negate (one c))).prec = c.elems := by
    rcases addAssign_prec c x (negate (one c)) with h | h | h
    · rw [h, hp]
    · rw [h, negate_prec]; rfl
    · exact h
  unfold floor ceil sub add
  rw [hfin, subAssign_eq hx (FinWF_one c)]
  cases isint c x <;> cases x.isneg <;> simp only [Bool.not_true, Bool.or_false, Bool.or_true, Bool.false_eq_true, if_false, if_true]
  · exact ⟨⟨(parts_all hx).1, pint _ hp⟩, (parts_all a1).1, pint _ p1⟩
  · exact ⟨⟨(parts_all a2).1, pint _ p2⟩, (parts_all hx).1, pint _ hp⟩
  · exact ⟨⟨hx, hp⟩, hx, hp⟩
  · exact ⟨⟨hx, hp⟩, hx, hp⟩

theorem recipBound_le (c : Cfg) : 2 * recipBound c ≤ (10 : ℚ) ^ (5 - (c.digits10 : ℤ)) := by
  have hd := digits_elems c
  have hN := elems_le c
  have h1 : (10 : ℚ) ^ (16 - 8 * (c.elems : ℤ)) ≤ (10 : ℚ) ^ (-9 - (c.digits10 : ℤ)) := by apply p10_mono; omega
  have e1 : (10 : ℚ) ^ (-9 - (c.digits10 : ℤ)) = (10 : ℚ) ^ (-14 : ℤ) * (10 : ℚ) ^ (5 - (c.digits10 : ℤ)) := by
    rw [← p10_add]; congr 1; ring
  have e2 : (10 : ℚ) ^ (-((c.digits10 : ℤ) + 2)) = (10 : ℚ) ^ (-7 : ℤ) * (10 : ℚ) ^ (5 - (c.digits10 : ℤ)) := by
    rw [← p10_add]; congr 1; ring
  have hp := p10_pos (5 - (c.digits10 : ℤ))
  unfold recipBound
  rw [e2]
  rw [e1] at h1
  have hc : 23 / 10 * ((c.elems : ℚ) * (if c.elems < 625 then 1 else 20000) + 2) ≤ 6300000000000 := by
    have h2 : (c.elems : ℚ) ≤ 134217732 := by exact_mod_cast hN
    have h3 : (0 : ℚ) ≤ c.elems := by positivity
    split <;> linarith
  have h4 : 23 / 10 * ((c.elems : ℚ) * (if c.elems < 625 then 1 else 20000) + 2) * (10 : ℚ) ^ (16 - 8 * (c.elems : ℤ)) ≤
      6300000000000 * ((10 : ℚ) ^ (-14 : ℤ) * (10 : ℚ) ^ (5 - (c.digits10 : ℤ))) :=
    mul_le_mul hc h1 (p10_pos _).le (by norm_num)
  have e3 : (10 : ℚ) ^ (-14 : ℤ) = 1 / 100000000000000 := by norm_num
  have e4 : (10 : ℚ) ^ (-7 : ℤ) = 1 / 10000000 := by norm_num
  rw [e3] at h4
  rw [e4]
  linarith

/-- Numbers nearer to the fraction `m / k` than its distance from the integers have the same floor. -/
theorem floor_near {m k : ℤ} (hk : 0 < k) (hd : ¬ k ∣ m) {v : ℚ} (h : |v - (m : ℚ) / k| * k < 1) :
    ⌊v⌋ = m / k ∧ ⌈v⌉ = m / k + 1 := by
  have hkq : (0 : ℚ) < k := by exact_mod_cast hk
  have h1 := Int.emod_nonneg m hk.ne'
  have h2 := Int.emod_lt_of_pos m hk
  have h3 := Int.mul_ediv_add_emod m k
  have h4 : m % k ≠ 0 := fun h => hd (Int.dvd_of_emod_eq_zero h)
  have h5 : (k : ℚ) * ((m / k : ℤ) : ℚ) + ((m % k : ℤ) : ℚ) = m := by exact_mod_cast h3
  have h6 : (1 : ℚ) ≤ ((m % k : ℤ) : ℚ) := by exact_mod_cast (show 1 ≤ m % k by omega)
  have h7 : ((m % k : ℤ) : ℚ) ≤ k - 1 := by exact_mod_cast (show m % k ≤ k - 1 by omega)
  have e : |v - (m : ℚ) / k| * k = |v * k - m| := by
    rw [show v * k - m = (v - (m : ℚ) / k) * k by field_simp, abs_mul, abs_of_pos hkq]
  rw [e] at h
  obtain ⟨g1, g2⟩ := abs_lt.1 h
  generalize hz : m / k = z at *
  generalize hr : m % k = r at *
  have l1 : (z : ℚ) < v := by
    by_contra hc
    have := mul_le_mul_of_nonneg_right (not_lt.1 hc) hkq.le
    nlinarith
  have l2 : v < z + 1 := by
    by_contra hc
    have := mul_le_mul_of_nonneg_right (not_lt.1 hc) hkq.le
    nlinarith
  constructor
  · rw [Int.floor_eq_iff]; exact ⟨l1.le, l2⟩
  · rw [Int.ceil_eq_iff]; push_cast; exact ⟨by linarith, l2.le⟩

/-- Numbers nearer than one to the integer `z`. -/
theorem floor_near_int {z : ℤ} {v : ℚ} (h : |v - z| < 1) : (⌊v⌋ = z ∨ ⌊v⌋ = z - 1) ∧ (⌈v⌉ = z ∨ ⌈v⌉ = z + 1) := by
  obtain ⟨g1, g2⟩ := abs_lt.1 h
  constructor
  · have a1 : z - 1 ≤ ⌊v⌋ := by rw [Int.le_floor]; push_cast; linarith
    have a2 : ⌊v⌋ < z + 1 := by rw [Int.floor_lt]; push_cast; linarith
    omega
  · have a1 : z - 1 < ⌈v⌉ := by rw [Int.lt_ceil]; push_cast; linarith
    have a2 : ⌈v⌉ ≤ z + 1 := by rw [Int.ceil_le]; push_cast; linarith
    omega

/-- The computed quotient is rounded to an integer `z` between the neighbours of the quotient, and the
remainder is formed with it. -/
theorem fmod_core {c : Cfg} {x y : EFloat} (hx : FinWF c x) (hy : FinWF c y) (px : x.prec = c.elems) (py : y.prec = c.elems)
    {m k : ℤ} (hm : val x = m) (hk : val y = k) (k0 : 0 < k) (m0 : m ≠ 0) (hne : |m| ≠ k) {a : ℕ} (ha : 2 * a ≤ c.elems)
    (ha' : 8 * a + 5 ≤ c.digits10) (bm : |(m : ℚ)| < (10 : ℚ) ^ (8 * (a : ℤ))) (bk : (k : ℚ) < (10 : ℚ) ^ (8 * (a : ℤ))) :
    ∃ v : ℚ, |v - (m : ℚ) / k| * k < 1 ∧ 0 < v * m ∧
      denote (fmod c x y) = .fin ((m - (if m < 0 then ⌈v⌉ else ⌊v⌋) * k : ℤ) : ℚ) := by
  have hN := elems_ge c
  have hN2 := elems_le c
  have hD := digits_elems c
  have kq : (0 : ℚ) < k := by exact_mod_cast k0
  have mq : (m : ℚ) ≠ 0 := by exact_mod_cast m0
  have bk' : |(k : ℚ)| < (10 : ℚ) ^ (8 * (a : ℤ)) := by rw [abs_of_pos kq]; exact bk
  have x0 : val x ≠ 0 := by rw [hm]; exact mq
  have y0 : val y ≠ 0 := by rw [hk]; exact kq.ne'
  obtain ⟨_, ex⟩ := zeroFrom_int hx hm bm
  obtain ⟨_, ey⟩ := zeroFrom_int hy hk bk'
  have ex := ex m0
  have ey := ey k0.ne'
  have emax : maxExp10 = 2147483616 := rfl
  have emin : minExp10 = -2147483616 := rfl
  obtain ⟨q1, q2, q3, -⟩ := C21_quotient_partial hx hy x0 y0
    (by rw [hm, hk, abs_of_pos kq]; intro h; apply hne; exact_mod_cast h) px py
    (by unfold ExpMargin; omega) (by omega)
  have q3 := le_trans q3 (mul_le_mul_of_nonneg_right (recipBound_le c) (abs_nonneg _))
  rw [hm, hk] at q2 q3
  obtain ⟨q, hq⟩ : ∃ q, q = div c x y := ⟨_, rfl⟩
  rw [← hq] at q1 q2 q3
  have hsmall : |val q - (m : ℚ) / k| * k < 1 := by
    have h1 : |(m : ℚ) / k| * k = |(m : ℚ)| := by
      rw [abs_div, abs_of_pos kq]; field_simp
    have h2 := mul_le_mul_of_nonneg_right q3 kq.le
    rw [mul_assoc, h1] at h2
    have h3 : (10 : ℚ) ^ (5 - (c.digits10 : ℤ)) * |(m : ℚ)| < (10 : ℚ) ^ (5 - (c.digits10 : ℤ)) * (10 : ℚ) ^ (8 * (a : ℤ)) :=
      mul_lt_mul_of_pos_left bm (p10_pos _)
    have h4 : (10 : ℚ) ^ (5 - (c.digits10 : ℤ)) * (10 : ℚ) ^ (8 * (a : ℤ)) ≤ 1 := by
      rw [← p10_add]
      calc (10 : ℚ) ^ (5 - (c.digits10 : ℤ) + 8 * (a : ℤ)) ≤ (10 : ℚ) ^ (0 : ℤ) := by apply p10_mono; omega
        _ = 1 := by norm_num
    linarith
  have hsgn : 0 < val q * m := by
    have : val q * m = val q * ((m : ℚ) / k) * k := by field_simp
    rw [this]; exact mul_pos q2 kq
  refine ⟨val q, hsmall, hsgn, ?_⟩
  -- size of the quotient
  have k1 : (1 : ℚ) ≤ k := by exact_mod_cast k0
  have hlt1 : |val q - (m : ℚ) / k| < 1 := lt_of_le_of_lt (le_mul_of_one_le_right (abs_nonneg _) k1) hsmall
  have hmk : |(m : ℚ) / k| ≤ |(m : ℚ)| := by
    rw [abs_div, abs_of_pos kq]; exact div_le_self (abs_nonneg _) k1
  have hqb : |val q| < (10 : ℚ) ^ (8 * (a : ℤ)) + 1 := by
    have := abs_sub_abs_le_abs_sub (val q) ((m : ℚ) / k)
    linarith
  have hgap := p10_succ_gap (e := 8 * (a : ℤ)) (by omega)
  have hqD : |val q| ≤ (10 : ℚ) ^ ((c.digits10 : ℤ) - 2) := by
    have : (10 : ℚ) ^ (8 * (a : ℤ) + 1) ≤ (10 : ℚ) ^ ((c.digits10 : ℤ) - 2) := by apply p10_mono; omega
    linarith
  have hq0 : val q ≠ 0 := fun h => by rw [h, zero_mul] at hsgn; exact lt_irrefl _ hsgn
  have hqe : q.exp < (c.digits10 : ℤ) - 1 := exp_lt_of_mag q1 hq0 (by
    have : (10 : ℚ) ^ ((c.digits10 : ℤ) - 2) < (10 : ℚ) ^ ((c.digits10 : ℤ) - 1) := by
      apply zpow_lt_zpow_right₀ (by norm_num); omega
    linarith)
  have qp : q.prec = c.elems := by
    have hdiv : q = mul c x (calculateInv c y) := by
      rw [hq]
      unfold div divAssign mul
      rw [if_neg]
      intro h
      have := (finiteIdentical_iff hx hy x0).1 h
      rw [hm, hk, abs_of_pos kq] at this
      apply hne; exact_mod_cast this
    rw [hdiv]
    rcases mul_prec c x (calculateInv c y) with h | h
    · rw [h, px]
    · exact h
  obtain ⟨⟨f1, f2⟩, g1, g2⟩ := floor_ceil_wf q1 qp (fun _ => by have := digits10_bounds c; omega)
  obtain ⟨d1, d2⟩ := C25_floor_ceil_partial q1 (Or.inr hqD)
  have dval : ∀ {z : EFloat} {n : ℤ}, FinWF c z → denote z = .fin (n : ℤ) → val z = n := by
    intro z n hz hv; unfold denote at hv; rw [hz.fin] at hv; simpa using hv
  have hxneg : x.isneg = decide (m < 0) := by
    unfold EFloat.isneg
    cases hb : x.neg
    · have := (truncZ_pos hb).2
      rw [hm] at this
      have h2 : (0 : ℚ) ≤ m := by rw [this]; exact mag_nonneg x
      have : 0 ≤ m := by exact_mod_cast h2
      simp; omega
    · obtain ⟨_, t2, t3⟩ := truncZ_neg hx hb
      rw [hm] at t2
      have h2 : (m : ℚ) < 0 := by rw [t2]; linarith
      have : m < 0 := by exact_mod_cast h2
      simp; omega
  unfold fmod
  simp only [← hq, hxneg, decide_eq_true_eq]
  obtain ⟨n, hn⟩ : ∃ n, n = if m < 0 then ceil c q else floor c q := ⟨_, rfl⟩
  obtain ⟨z, hz⟩ : ∃ z : ℤ, z = if m < 0 then ⌈val q⌉ else ⌊val q⌋ := ⟨_, rfl⟩
  rw [← hn, ← hz]
  have hnw : FinWF c n ∧ n.prec = c.elems ∧ val n = z := by
    rw [hn, hz]
    split
    · exact ⟨g1, g2, dval g1 d2⟩
    · exact ⟨f1, f2, dval f1 d1⟩
  obtain ⟨n1, n2, n3⟩ := hnw
  -- the integer is not larger than |m|
  have hzq : |(z : ℚ)| ≤ |(m : ℚ)| ∧ |(z : ℚ) * k| ≤ |(m : ℚ)| + k := by
    have hvk : |val q * k - m| < 1 := by
      rw [show val q * k - m = (val q - (m : ℚ) / k) * k by field_simp, abs_mul, abs_of_pos kq]; exact hsmall
    obtain ⟨b1, b2⟩ := abs_lt.1 hvk
    by_cases hneg : m < 0
    · have hmq : (m : ℚ) < 0 := by exact_mod_cast hneg
      have hv : val q < 0 := by
        by_contra hc
        have := mul_nonpos_of_nonneg_of_nonpos (not_lt.1 hc) hmq.le
        linarith
      rw [if_pos hneg] at hz
      have c1 : (z : ℚ) < val q + 1 := by rw [hz]; exact Int.ceil_lt_add_one _
      have c2 : val q ≤ z := by rw [hz]; exact Int.le_ceil _
      have c3 : z ≤ 0 := by rw [hz, Int.ceil_le]; exact_mod_cast hv.le
      have c3' : (z : ℚ) ≤ 0 := by exact_mod_cast c3
      have c4 : z * k > m - 1 := by
        have : (z : ℚ) * k ≥ val q * k := mul_le_mul_of_nonneg_right c2 kq.le
        have h5 : ((m - 1 : ℤ) : ℚ) < ((z * k : ℤ) : ℚ) := by push_cast; linarith
        exact_mod_cast h5
      have c5 : m ≤ z * k := by omega
      have c6 : m ≤ z := by nlinarith
      have c5' : (m : ℚ) ≤ z * k := by exact_mod_cast c5
      have c6' : (m : ℚ) ≤ z := by exact_mod_cast c6
      rw [abs_of_nonpos c3', abs_of_neg hmq, abs_of_nonpos (mul_nonpos_of_nonpos_of_nonneg c3' kq.le)]
      constructor <;> linarith
    · have hmq : (0 : ℚ) < m := by exact_mod_cast (show 0 < m by omega)
      have hv : 0 < val q := by
        by_contra hc
        have := mul_nonpos_of_nonpos_of_nonneg (not_lt.1 hc) hmq.le
        linarith
      rw [if_neg hneg] at hz
      have c2 : (z : ℚ) ≤ val q := by rw [hz]; exact Int.floor_le _
      have c3 : 0 ≤ z := by rw [hz, Int.le_floor]; exact_mod_cast hv.le
      have c3' : (0 : ℚ) ≤ z := by exact_mod_cast c3
      have c4 : z * k < m + 1 := by
        have : (z : ℚ) * k ≤ val q * k := mul_le_mul_of_nonneg_right c2 kq.le
        have h5 : ((z * k : ℤ) : ℚ) < ((m + 1 : ℤ) : ℚ) := by push_cast; linarith
        exact_mod_cast h5
      have c5 : z * k ≤ m := by omega
      have c6 : z ≤ m := by nlinarith
      have c5' : (z : ℚ) * k ≤ m := by exact_mod_cast c5
      have c6' : (z : ℚ) ≤ m := by exact_mod_cast c6
      rw [abs_of_nonneg c3', abs_of_pos hmq, abs_of_nonneg (mul_nonneg c3' kq.le)]
      constructor <;> linarith
  have bz : |(z : ℚ)| < (10 : ℚ) ^ (8 * (a : ℤ)) := lt_of_le_of_lt hzq.1 bm
  have hmul := (C51_integer_arithmetic n1 hy n3 hk).2 a a bz bk' (by omega) (by omega)
  have hmw : FinWF c (mul c n y) := by
    refine (mul_near_any n1 hy (fun h1 _ => ?_)).1
    have hz0 : z ≠ 0 := by rintro rfl; exact h1 (by rw [n3]; simp)
    have := (zeroFrom_int n1 n3 bz).2 hz0
    unfold ExpInRange; omega
  have hbig : (10 : ℚ) ^ (8 * (a : ℤ) + 1) ≤ (10 : ℚ) ^ (8 * (c.elems : ℤ)) := by apply p10_mono; omega
  have h3 : (10 : ℚ) ^ (8 * (a : ℤ) + 1) = 10 * (10 : ℚ) ^ (8 * (a : ℤ)) := by rw [p10_add]; ring
  have hp := p10_pos (8 * (a : ℤ))
  have bzk : |((z * k : ℤ) : ℚ)| ≤ |(m : ℚ)| + k := by push_cast; exact hzq.2
  refine ((C51_integer_arithmetic hx hmw hm (dval hmw hmul)).1 (by linarith) (by linarith)).2 ?_
  have := abs_sub (m : ℚ) ((z * k : ℤ) : ℚ)
  have e : ((m - z * k : ℤ) : ℚ) = (m : ℚ) - ((z * k : ℤ) : ℚ) := by push_cast; ring
  rw [e]
  linarith

/-- C60.  For integers `m` and `k > 0` of at most half the stored digits, `fmod` is the remainder of the division
cut toward zero when `k` does not divide `m`, and zero or one whole `k` with the sign of `m` when it does.

Missing: dividends that are multiples of the divisor, equal magnitudes, negative divisors
(`C60_fmod_refuted`), and the accuracy for numbers that are not integers. -/
theorem C60_fmod_partial {c : Cfg} {x y : EFloat} (hx : FinWF c x) (hy : FinWF c y) (px : x.prec = c.elems) (py : y.prec = c.elems)
    {m k : ℤ} (hm : val x = m) (hk : val y = k) (k0 : 0 < k) (m0 : m ≠ 0) (hne : |m| ≠ k) {a : ℕ} (ha : 2 * a ≤ c.elems)
    (ha' : 8 * a + 5 ≤ c.digits10) (bm : |(m : ℚ)| < (10 : ℚ) ^ (8 * (a : ℤ))) (bk : (k : ℚ) < (10 : ℚ) ^ (8 * (a : ℤ))) :
    (¬ k ∣ m → denote (fmod c x y) = .fin ((Int.tmod m k : ℤ) : ℚ)) ∧
    (k ∣ m → denote (fmod c x y) = .fin 0 ∨ denote (fmod c x y) = .fin ((m.sign * k : ℤ) : ℚ)) := by
  obtain ⟨v, h1, h2, h3⟩ := fmod_core hx hy px py hm hk k0 m0 hne ha ha' bm bk
  have kq : (0 : ℚ) < k := by exact_mod_cast k0
  constructor
  · intro hd
    obtain ⟨f1, f2⟩ := floor_near k0 hd h1
    rw [h3]
    congr 2
    have e := Int.tmod_add_mul_tdiv m k
    have e2 : Int.tdiv m k = if m < 0 then m / k + 1 else m / k := by
      rw [Int.tdiv_eq_ediv, Int.sign_eq_one_of_pos k0]
      by_cases hneg : m < 0
      · rw [if_pos hneg, if_neg]
        rintro (h | h)
        · omega
        · exact hd h
      · rw [if_neg hneg, if_pos (Or.inl (not_lt.1 hneg))]; ring
    rw [f1, f2, ← e2]
    linarith [mul_comm k (Int.tdiv m k)]
  · rintro ⟨z, rfl⟩
    have hz : ((k * z : ℤ) : ℚ) / k = z := by push_cast; field_simp
    rw [hz] at h1
    have k1 : (1 : ℚ) ≤ k := by exact_mod_cast k0
    have hlt : |v - z| < 1 := lt_of_le_of_lt (le_mul_of_one_le_right (abs_nonneg _) k1) h1
    obtain ⟨f1, f2⟩ := floor_near_int hlt
    rw [h3]
    by_cases hneg : k * z < 0
    · rw [if_pos hneg, Int.sign_eq_neg_one_of_neg hneg]
      rcases f2 with h | h <;> rw [h]
      · left; congr 1; push_cast; ring
      · right; congr 2; ring
    · rw [if_neg hneg, Int.sign_eq_one_of_pos (by omega)]
      rcases f1 with h | h <;> rw [h]
      · left; congr 1; push_cast; ring
      · right; congr 2; ring

/-- `fmod(-7, 3) = -1`. -/
example : FinWF cfg101 (ofSigned cfg101 (-7)) ∧ FinWF cfg101 (ofSigned cfg101 3) ∧ val (ofSigned cfg101 (-7)) = (-7 : ℤ) ∧
    val (ofSigned cfg101 3) = (3 : ℤ) ∧ 2 * 3 ≤ cfg101.elems ∧ 8 * 3 + 5 ≤ cfg101.digits10 ∧ ¬ (3 : ℤ) ∣ -7 ∧ Int.tmod (-7) 3 = -1 ∧
    val (fmod cfg101 (ofSigned cfg101 (-7)) (ofSigned cfg101 3)) = -1 := by
  decide +kernel

/-- C60 fails: `fmod(6, 3) = 3`, `fmod(-9, 9) = -18`, `fmod(-7, -3) = 2` and `fmod(7, -3) = -2`. -/
theorem C60_fmod_refuted :
    denote (fmod cfg101 (ofSigned cfg101 6) (ofSigned cfg101 3)) = .fin 3 ∧
    denote (fmod cfg101 (ofSigned cfg101 (-9)) (ofSigned cfg101 9)) = .fin (-18) ∧
    denote (fmod cfg101 (ofSigned cfg101 (-7)) (ofSigned cfg101 (-3))) = .fin 2 ∧
    denote (fmod cfg101 (ofSigned cfg101 7) (ofSigned cfg101 (-3))) = .fin (-2) := by
  have den : ∀ {z : EFloat} {q : ℚ}, z.cls = .finite ∧ val z = q → denote z = .fin q := by
    rintro z q ⟨h1, h2⟩; unfold denote; rw [h1]; simp only; rw [h2]
  refine ⟨den ?_, den ?_, den ?_, den ?_⟩ <;> decide +kernel

end EFX.Props
