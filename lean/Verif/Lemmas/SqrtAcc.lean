import Verif.Lemmas.SqrtStep
/-!
# Start value, loop and accuracy of `calculate_sqrt`
-/

namespace EFX
open Spec EFX.Props

/-- Accuracy of the modelled `std::sqrt`. -/
theorem dsqrt_spec {q : ℚ} (hq : 0 < q) : 0 < dsqrt q ∧ Near (1 / 10 ^ 15) (dsqrt q * dsqrt q) q ∧ Grid (dsqrt q) := by
  unfold dsqrt
  simp only
  obtain ⟨l1, _⟩ := ilog2_spec hq
  have hk : (120 : ℤ) ≤ ilog2 q + 2 * (60 - ilog2 q / 2) := by omega
  generalize (60 - ilog2 q / 2 : ℤ) = k at *
  have h4 : (4 : ℚ) ^ k = (2 : ℚ) ^ k * (2 : ℚ) ^ k := by
    rw [← mul_zpow]; norm_num
  have hP := p2_pos k
  have hs1 : (2 : ℚ) ^ (120 : ℤ) ≤ q * (4 : ℚ) ^ k := by
    calc (2 : ℚ) ^ (120 : ℤ) ≤ (2 : ℚ) ^ (ilog2 q + (k + k)) := p2_mono (by omega)
      _ = (2 : ℚ) ^ ilog2 q * (4 : ℚ) ^ k := by rw [p2_add, p2_add, h4]
      _ ≤ _ := mul_le_mul_of_nonneg_right l1 (by positivity)
  have hS : q * (4 : ℚ) ^ k = q * ((2 : ℚ) ^ k * (2 : ℚ) ^ k) := by rw [h4]
  generalize hSd : q * (4 : ℚ) ^ k = S at *
  have hS0 : 0 < S := lt_of_lt_of_le (p2_pos _) hs1
  have f1 : ((S.floor.toNat : ℕ) : ℚ) ≤ S := by
    have h0 : 0 ≤ S.floor := Int.floor_nonneg.2 hS0.le
    have h1 : ((S.floor : ℤ) : ℚ) ≤ S := Int.floor_le S
    have : ((S.floor.toNat : ℕ) : ℤ) = S.floor := Int.toNat_of_nonneg h0
    rw [← Int.cast_natCast, this]; exact h1
  have f2 : S < ((S.floor.toNat : ℕ) : ℚ) + 1 := by
    have h0 : 0 ≤ S.floor := Int.floor_nonneg.2 hS0.le
    have h1 : S < ((S.floor : ℤ) : ℚ) + 1 := Int.lt_floor_add_one S
    have : ((S.floor.toNat : ℕ) : ℤ) = S.floor := Int.toNat_of_nonneg h0
    rw [← Int.cast_natCast, this]; exact h1
  have n1 : Nat.sqrt S.floor.toNat * Nat.sqrt S.floor.toNat ≤ S.floor.toNat := Nat.sqrt_le _
  have n2 : S.floor.toNat < (Nat.sqrt S.floor.toNat + 1) * (Nat.sqrt S.floor.toNat + 1) := Nat.lt_succ_sqrt _
  generalize S.floor.toNat = M at *
  generalize Nat.sqrt M = n at *
  have g1 : (n : ℚ) * n ≤ S := le_trans (by exact_mod_cast n1) f1
  have g2 : S < ((n : ℚ) + 1) * ((n : ℚ) + 1) := by
    have : ((M + 1 : ℕ) : ℚ) ≤ (((n + 1) * (n + 1) : ℕ) : ℚ) := by exact_mod_cast n2
    push_cast at this
    linarith
  have hn : (2 : ℚ) ^ 59 ≤ (n : ℚ) := by
    by_contra hc
    rw [not_le] at hc
    have hn0 : (0 : ℚ) ≤ n := Nat.cast_nonneg n
    have : ((n : ℚ) + 1) * ((n : ℚ) + 1) ≤ ((2 : ℚ) ^ 59 + 1) * ((2 : ℚ) ^ 59 + 1) :=
      mul_le_mul (by linarith) (by linarith) (by linarith) (by norm_num)
    have h2 : ((2 : ℚ) ^ 59 + 1) * ((2 : ℚ) ^ 59 + 1) < (2 : ℚ) ^ (120 : ℤ) := by norm_num
    linarith
  have hn0 : (0 : ℚ) < n := lt_of_lt_of_le (by norm_num) hn
  have main : ∀ v : ℚ, 0 < v → |v * v - S| ≤ 2 * (n : ℚ) → 0 < rnd (v / (2 : ℚ) ^ k) ∧
      Near (1 / 10 ^ 15) (rnd (v / (2 : ℚ) ^ k) * rnd (v / (2 : ℚ) ^ k)) q ∧ Grid (rnd (v / (2 : ℚ) ^ k)) := by
    intro v hv hvS
    have hu : 0 < v / (2 : ℚ) ^ k := div_pos hv hP
    refine ⟨rnd_pos hu, ?_, rnd_grid hu.le⟩
    have hr := rnd_err hu.le
    have hnS : 2 * (n : ℚ) ≤ S / 2 ^ 58 := by
      have := mul_le_mul_of_nonneg_right hn hn0.le
      have h58 : (2 : ℚ) ^ 59 * n = (2 * n) * 2 ^ 58 := by ring
      rw [le_div_iff₀ (by norm_num)]
      linarith
    have huu : |v / (2 : ℚ) ^ k * (v / (2 : ℚ) ^ k) - q| ≤ q / 2 ^ 58 := by
      have e1 : v / (2 : ℚ) ^ k * (v / (2 : ℚ) ^ k) - q = (v * v - S) / ((2 : ℚ) ^ k * (2 : ℚ) ^ k) := by
        rw [hS]; field_simp
      have e2 : q = S / ((2 : ℚ) ^ k * (2 : ℚ) ^ k) := by rw [hS]; field_simp
      have hPP : 0 < (2 : ℚ) ^ k * (2 : ℚ) ^ k := mul_pos hP hP
      rw [e1, abs_div, abs_of_pos hPP, div_le_iff₀ hPP]
      calc |v * v - S| ≤ S / 2 ^ 58 := le_trans hvS hnS
        _ = _ := by rw [hS]; ring
    generalize v / (2 : ℚ) ^ k = u at *
    obtain ⟨r1, r2⟩ := abs_le.1 hr
    generalize rnd u = r at *
    have h53 : u / 2 ^ 53 ≤ u * (12 / 10 ^ 17) := by
      rw [div_le_iff₀ (by norm_num)]
      have : (1 : ℚ) ≤ 12 / 10 ^ 17 * 2 ^ 53 := by norm_num
      have := mul_le_mul_of_nonneg_left this hu.le
      linarith
    have hab : |r - u| ≤ u * (12 / 10 ^ 17) := le_trans hr h53
    have hru : |r + u| ≤ u * 3 := by
      have : u * (12 / 10 ^ 17) ≤ u := by
        have : (12 / 10 ^ 17 : ℚ) ≤ 1 := by norm_num
        have := mul_le_mul_of_nonneg_left this hu.le
        linarith
      obtain ⟨a1, a2⟩ := abs_le.1 hab
      rw [abs_le]; constructor <;> linarith
    have h1 : |r * r - u * u| ≤ u * (12 / 10 ^ 17) * (u * 3) := by
      rw [show r * r - u * u = (r - u) * (r + u) by ring]
      exact abs_mul_le hab hru
    have hq58 : q / 2 ^ 58 ≤ q * (1 / 10 ^ 17) := by
      rw [div_le_iff₀ (by norm_num)]
      have : (1 : ℚ) ≤ 1 / 10 ^ 17 * 2 ^ 58 := by norm_num
      have := mul_le_mul_of_nonneg_left this hq.le
      linarith
    have hu2 : u * u ≤ 2 * q := by
      have h17 : q * (1 / 10 ^ 17) ≤ q := by
        have : (1 / 10 ^ 17 : ℚ) ≤ 1 := by norm_num
        have := mul_le_mul_of_nonneg_left this hq.le
        linarith
      have := (abs_le.1 huu).2
      linarith
    unfold Near
    calc |r * r - q| = |(r * r - u * u) + (u * u - q)| := by ring_nf
      _ ≤ |r * r - u * u| + |u * u - q| := abs_add_le _ _
      _ ≤ u * (12 / 10 ^ 17) * (u * 3) + q * (1 / 10 ^ 17) := add_le_add h1 (le_trans huu hq58)
      _ = 36 / 10 ^ 17 * (u * u) + q * (1 / 10 ^ 17) := by ring
      _ ≤ 36 / 10 ^ 17 * (2 * q) + q * (1 / 10 ^ 17) := by
        linarith [mul_le_mul_of_nonneg_left hu2 (show (0 : ℚ) ≤ 36 / 10 ^ 17 by norm_num)]
      _ = 73 / 10 ^ 17 * q := by ring
      _ ≤ _ := mul_le_mul_of_nonneg_right (by norm_num) hq.le
  split
  · rename_i h
    exact main n hn0 (by rw [h, sub_self, abs_zero]; linarith)
  · have h0 : (0 : ℚ) < n + 1 / 2 := by linarith
    refine main _ h0 ?_
    have : (1 : ℚ) ≤ n := le_trans (by norm_num) hn
    rw [abs_le]; constructor <;> linarith

theorem Near.sq {ε a b : ℚ} (h : Near ε a b) (hb : 0 ≤ b) (he : ε ≤ 1 / 100) : Near (3 * ε) (a * a) (b * b) := by
  unfold Near at *
  have h1 : ε * b ≤ 1 / 100 * b := mul_le_mul_of_nonneg_right he hb
  obtain ⟨a1, a2⟩ := abs_le.1 h
  have h2 : |a + b| ≤ 3 * b := by rw [abs_le]; constructor <;> linarith
  rw [show a * a - b * b = (a - b) * (a + b) by ring]
  calc _ ≤ ε * b * (3 * b) := abs_mul_le h h2
    _ = _ := by ring

/-- Mantissa and even exponent used for the start values (efx.cpp 1099-1103). -/
def sqrtParts (x : EFloat) : ℚ × ℤ :=
  if Int.tmod (extractParts x).2 2 ≠ 0 then (rnd ((extractParts x).1 / 10), (extractParts x).2 + 1)
  else ((extractParts x).1, (extractParts x).2)

theorem sqrtParts_spec {c : Cfg} {x : EFloat} (hx : FinWF c x) (px : 0 < val x) :
    Near (1 / 10 ^ 14) ((sqrtParts x).1 * (10 : ℚ) ^ (sqrtParts x).2) (val x) ∧ 9 / 100 ≤ (sqrtParts x).1 ∧
    (sqrtParts x).1 ≤ 11 ∧ ∃ h : ℤ, (sqrtParts x).2 = 2 * h := by
  have nx := neg_of_val_pos px
  have zx := ne_of_val hx px.ne'
  obtain ⟨e1, e2, e3, e4, e5, e6⟩ := extractParts_spec hx zx nx
  rw [val_of_pos nx]
  unfold sqrtParts
  generalize (extractParts x).1 = m at *
  generalize (extractParts x).2 = ne at *
  have hm0 : (0 : ℚ) ≤ mag x := mag_nonneg x
  split
  · rename_i hodd
    have hdd : Near (2 / 10 ^ 16) (rnd (m / 10)) (m / 10) := by
      have := (Near.refl (b := m / 10)).rnd (by linarith) (by linarith) (by norm_num)
      rwa [zero_add] at this
    refine ⟨?_, ?_, ?_, ?_⟩
    · simp only
      have h1 := hdd.mul (p10_pos (ne + 1)).le
      have h2 : m / 10 * (10 : ℚ) ^ (ne + 1) = m * (10 : ℚ) ^ ne := by
        rw [p10_add, show (10 : ℚ) ^ (1 : ℤ) = 10 by norm_num]; ring
      rw [h2] at h1
      exact (h1.trans e1 hm0 (by norm_num) (by norm_num)).weaken hm0 (by norm_num)
    · simp only
      have := hdd.lo
      have h3 : (1 - 2 / 10 ^ 16 : ℚ) * (99 / 1000) ≤ (1 - 2 / 10 ^ 16) * (m / 10) :=
        mul_le_mul_of_nonneg_left (by linarith) (by norm_num)
      have : (9 / 100 : ℚ) ≤ (1 - 2 / 10 ^ 16) * (99 / 1000) := by norm_num
      linarith
    · simp only
      have := hdd.hi
      have h3 : (1 + 2 / 10 ^ 16 : ℚ) * (m / 10) ≤ (1 + 2 / 10 ^ 16) * 2 :=
        mul_le_mul_of_nonneg_left (by linarith) (by norm_num)
      have : (1 + 2 / 10 ^ 16 : ℚ) * 2 ≤ 11 := by norm_num
      linarith
    · refine ⟨(ne + 1) / 2, ?_⟩
      simp only
      have : ne.tmod 2 = 1 ∨ ne.tmod 2 = -1 := by
        have h1 := Int.tmod_lt_of_pos ne (show (0 : ℤ) < 2 by norm_num)
        have h2 := Int.lt_tmod_of_pos ne (show (0 : ℤ) < 2 by norm_num)
        omega
      have h3 := Int.mul_tdiv_add_tmod ne 2
      omega
  · rename_i hev
    refine ⟨e1.weaken hm0 (by norm_num), by simp only; linarith, by simp only; linarith, ne.tdiv 2, ?_⟩
    simp only
    have h3 := Int.mul_tdiv_add_tmod ne 2
    have h4 : ne.tmod 2 = 0 := not_not.1 hev
    omega

theorem Near.mul2 {ε a b a' b' : ℚ} (h : Near ε a b) (h' : Near ε a' b') (hb : 0 ≤ b) (hb' : 0 ≤ b')
    (he : ε ≤ 1 / 100) : Near (3 * ε) (a * a') (b * b') := by
  unfold Near at *
  have h1 : ε * b' ≤ 1 / 100 * b' := mul_le_mul_of_nonneg_right he hb'
  obtain ⟨a1, a2⟩ := abs_le.1 h'
  have h2 : |a'| ≤ 2 * b' := by rw [abs_le]; constructor <;> linarith
  rw [show a * a' - b * b' = (a - b) * a' + b * (a' - b') by ring]
  calc _ ≤ |(a - b) * a'| + |b * (a' - b')| := abs_add_le _ _
    _ ≤ ε * b * (2 * b') + b * (ε * b') := add_le_add (abs_mul_le h h2) (abs_mul_le (by rw [abs_of_nonneg hb]) h')
    _ = _ := by ring

/-- Start values of the square root. -/
theorem sqrt_start {c : Cfg} {x : EFloat} (hx : FinWF c x) (px : 0 < val x) :
    let sqd := dsqrt (sqrtParts x).1
    let y := ofMantExp c sqd (Int.tdiv (sqrtParts x).2 2)
    let w := ofMantExp c (rnd ((1 / 2) / sqd)) (Int.tdiv (-(sqrtParts x).2) 2)
    FinWF c y ∧ 0 < val y ∧ FinWF c w ∧ 0 < val w ∧
    |1 - 2 * (val y * val w)| ≤ 1 / 10 ^ 12 ∧ Near (1 / 10 ^ 12) (val y * val y) (val x) := by
  obtain ⟨s1, s2, s3, h, s4⟩ := sqrtParts_spec hx px
  simp only
  generalize (sqrtParts x).1 = q at *
  generalize (sqrtParts x).2 = ne at *
  subst s4
  obtain ⟨d1, d2, d3⟩ := dsqrt_spec (q := q) (by linarith)
  generalize dsqrt q = r at *
  rw [show Int.tdiv (2 * h) 2 = h by simp, show Int.tdiv (-(2 * h)) 2 = -h by rw [← mul_neg]; simp]
  have hq0 : 0 < q := by linarith
  have r1 : 29 / 100 ≤ r := by
    by_contra hc
    rw [not_le] at hc
    have h1 : r * r ≤ 29 / 100 * (29 / 100) := mul_le_mul hc.le hc.le d1.le (by norm_num)
    have h2 := d2.lo
    have h3 : (1 - 1 / 10 ^ 15 : ℚ) * (9 / 100) ≤ (1 - 1 / 10 ^ 15) * q := mul_le_mul_of_nonneg_left s2 (by norm_num)
    have h4 : (29 / 100 * (29 / 100) : ℚ) < (1 - 1 / 10 ^ 15) * (9 / 100) := by norm_num
    linarith
  have r2 : r ≤ 5 := by
    by_contra hc
    rw [not_le] at hc
    have h1 : 5 * 5 ≤ r * r := mul_le_mul hc.le hc.le (by norm_num) d1.le
    have h2 := d2.hi
    have h3 : (1 + 1 / 10 ^ 15 : ℚ) * q ≤ (1 + 1 / 10 ^ 15) * 11 := mul_le_mul_of_nonneg_left s3 (by norm_num)
    have h4 : (1 + 1 / 10 ^ 15 : ℚ) * 11 < 5 * 5 := by norm_num
    linarith
  have hi1 : 1 / 2 / r ≤ 2 := by rw [div_le_iff₀ d1]; linarith
  have hi2 : 1 / 10 ≤ 1 / 2 / r := by rw [le_div_iff₀ d1]; linarith
  have nr : Near (2 / 10 ^ 16) (rnd (1 / 2 / r)) (1 / 2 / r) := by
    have := (Near.refl (b := 1 / 2 / r)).rnd (by linarith) (by linarith) (by norm_num)
    rwa [zero_add] at this
  have w1 : rnd (1 / 2 / r) ≤ 5 := by
    have := nr.hi
    have h2 : (1 + 2 / 10 ^ 16 : ℚ) * (1 / 2 / r) ≤ (1 + 2 / 10 ^ 16) * 2 := mul_le_mul_of_nonneg_left hi1 (by norm_num)
    have : (1 + 2 / 10 ^ 16 : ℚ) * 2 ≤ 5 := by norm_num
    linarith
  have w2 : 1 / 50 ≤ rnd (1 / 2 / r) := by
    have := nr.lo
    have h2 : (1 - 2 / 10 ^ 16 : ℚ) * (1 / 10) ≤ (1 - 2 / 10 ^ 16) * (1 / 2 / r) := mul_le_mul_of_nonneg_left hi2 (by norm_num)
    have : (1 / 50 : ℚ) ≤ (1 - 2 / 10 ^ 16) * (1 / 10) := by norm_num
    linarith
  obtain ⟨y1, y2, y3, _, _, _, y7⟩ := ofMantExp_spec c (e := h) (d := r) (by linarith) r2 d3
  obtain ⟨o1, o2, o3, _, _, _, o7⟩ := ofMantExp_spec c (e := -h) w2 w1 (rnd_grid (by linarith))
  generalize ofMantExp c r h = y at *
  generalize ofMantExp c (rnd (1 / 2 / r)) (-h) = w at *
  rw [val_of_pos y3, val_of_pos o3]
  have hP := p10_pos h
  have hP' := p10_pos (-h)
  have hPP : (10 : ℚ) ^ h * (10 : ℚ) ^ (-h) = 1 := by rw [← p10_add]; simp
  refine ⟨y1, mag_pos y1.toWF y2, o1, mag_pos o1.toWF o2, ?_, ?_⟩
  · have n3 := nr.mul hP'.le
    have n4 := o7.trans n3 (mul_nonneg (by linarith) hP'.le) (by norm_num) (by norm_num)
    have n5 : Near (3 / 10 ^ 14) (mag w) (1 / 2 / r * (10 : ℚ) ^ (-h)) :=
      n4.weaken (mul_nonneg (by linarith) hP'.le) (by norm_num)
    have n6 : Near (3 / 10 ^ 14) (mag y) (r * (10 : ℚ) ^ h) := y7.weaken (mul_nonneg d1.le hP.le) (by norm_num)
    have n7 := n6.mul2 n5 (mul_nonneg d1.le hP.le) (mul_nonneg (by linarith) hP'.le) (by norm_num)
    have e : r * (10 : ℚ) ^ h * (1 / 2 / r * (10 : ℚ) ^ (-h)) = 1 / 2 := by
      calc _ = (r * (1 / 2 / r)) * ((10 : ℚ) ^ h * (10 : ℚ) ^ (-h)) := by ring
        _ = _ := by rw [hPP]; field_simp
    rw [e] at n7
    unfold Near at n7
    rw [show 1 - 2 * (mag y * mag w) = -2 * (mag y * mag w - 1 / 2) by ring, abs_mul]
    have : |(-2 : ℚ)| = 2 := by norm_num
    rw [this]
    have h9 : (3 * (3 / 10 ^ 14) * (1 / 2) : ℚ) * 2 ≤ 1 / 10 ^ 12 := by norm_num
    linarith
  · have n1 := y7.sq (mul_nonneg d1.le hP.le) (by norm_num)
    have e : r * (10 : ℚ) ^ h * (r * (10 : ℚ) ^ h) = r * r * ((10 : ℚ) ^ (2 * h)) := by
      rw [two_mul, p10_add]; ring
    rw [e] at n1
    have n2 := d2.mul (p10_pos (2 * h)).le
    have n3 := n1.trans n2 (mul_nonneg hq0.le (p10_pos _).le) (by norm_num) (by norm_num)
    have n4 := n3.trans s1 px.le (by norm_num) (by norm_num)
    exact n4.weaken px.le (by norm_num)

/-- Uncapped step: the rounding errors are well below the target. -/
theorem epsP_step7 (k : ℕ) : epsP (3 * 2 ^ k + 2) ≤ 7 / 100 * (10 : ℚ) ^ (-(22 * 2 ^ k : ℤ)) := by
  have hn : 1 ≤ 2 ^ k := Nat.one_le_two_pow
  have hz : ((2 : ℤ) ^ k) = ((2 ^ k : ℕ) : ℤ) := by push_cast; rfl
  rw [hz]
  generalize 2 ^ k = n at *
  have e : (10 : ℚ) ^ (16 - 8 * ((3 * n + 2 : ℕ) : ℤ)) = (10 : ℚ) ^ (-(22 * (n : ℤ))) * (10 : ℚ) ^ (-(2 * (n : ℤ))) := by
    rw [← p10_add]; congr 1; push_cast; ring
  have h100 : (10 : ℚ) ^ (2 * (n : ℤ)) = ((100 ^ n : ℕ) : ℚ) := by
    rw [zpow_mul, zpow_natCast]; norm_num
  have main : ((mulErr (3 * n + 2) : ℚ) + 2) ≤ 7 / 100 * ((100 ^ n : ℕ) : ℚ) := by
    unfold mulErr
    split
    · obtain ⟨m, rfl⟩ := Nat.exists_eq_add_of_le hn
      have : m + 1 ≤ 100 ^ m := Nat.lt_pow_self (by norm_num)
      have h1 : ((m : ℚ) + 1) ≤ ((100 ^ m : ℕ) : ℚ) := by exact_mod_cast this
      rw [show 100 ^ (1 + m) = 100 * 100 ^ m by rw [pow_add]; norm_num]
      push_cast at h1 ⊢
      linarith [Nat.cast_nonneg (α := ℚ) m]
    · rename_i hs
      obtain ⟨m, rfl⟩ := Nat.exists_eq_add_of_le (show 5 ≤ n by omega)
      have : m + 1 ≤ 100 ^ m := Nat.lt_pow_self (by norm_num)
      have h1 : ((m : ℚ) + 1) ≤ ((100 ^ m : ℕ) : ℚ) := by exact_mod_cast this
      rw [show 100 ^ (5 + m) = 10000000000 * 100 ^ m by rw [pow_add]; norm_num]
      push_cast at h1 ⊢
      linarith [Nat.cast_nonneg (α := ℚ) m]
  unfold epsP
  rw [e, zpow_neg, zpow_neg, h100]
  have hp : (0 : ℚ) < ((100 ^ n : ℕ) : ℚ) := by positivity
  have h3 : ((mulErr (3 * n + 2) : ℚ) + 2) * (((100 ^ n : ℕ) : ℚ))⁻¹ ≤ 7 / 100 := by
    rw [← div_eq_mul_inv, div_le_iff₀ hp]; linarith
  have h4 : (0 : ℚ) ≤ ((10 : ℚ) ^ (22 * (n : ℤ)))⁻¹ := inv_nonneg.2 (p10_pos _).le
  calc _ = ((mulErr (3 * n + 2) : ℚ) + 2) * (((100 ^ n : ℕ) : ℚ))⁻¹ * ((10 : ℚ) ^ (22 * (n : ℤ)))⁻¹ := by ring
    _ ≤ _ := mul_le_mul_of_nonneg_right h3 h4

/-- State of the coupled iteration before step `k`. -/
structure SqrtInv (c : Cfg) (x : EFloat) (k : ℕ) (y w : EFloat) : Prop where
  fy : FinWF c y
  py : 0 < val y
  fw : FinWF c w
  pw : 0 < val w
  err : ∃ e, val y * val y = (1 - e) * val x ∧ |e| ≤ 1 / 4 * tgt k + floorErr c
  inv : ∃ v, v ^ 2 ≤ tgt k ∧ v ≤ 1 / 10 ^ 5 ∧ |1 - 2 * (val y * val w)| ≤ 1 / 2 * v + 5 / 2 * floorErr c

/-- Every step doubles the correct digits of both iterates. -/
theorem sqrt_iter {c : Cfg} {x : EFloat} (hx : FinWF c x) (px : 0 < val x) (hxp : x.prec = c.elems) (hr : SqrtRange x)
    {k : ℕ} {y w : EFloat} (h : SqrtInv c x k y w) :
    SqrtInv c x (k + 1)
      (addAssign c (setPrecision c y (((12 * 2 ^ k * 2 + 10 : ℕ) : ℤ))) (sqrtTerm c x (setPrecision c y (((12 * 2 ^ k * 2 + 10 : ℕ) : ℤ)))
        (sqrtVi c (setPrecision c y (((12 * 2 ^ k * 2 + 10 : ℕ) : ℤ))) (setPrecision c w (((12 * 2 ^ k * 2 + 10 : ℕ) : ℤ))))))
      (sqrtVi c (setPrecision c y (((12 * 2 ^ k * 2 + 10 : ℕ) : ℤ))) (setPrecision c w (((12 * 2 ^ k * 2 + 10 : ℕ) : ℤ)))) := by
  obtain ⟨hy, py, hw, pw, ⟨e, he1, he2⟩, ⟨v, hv1, hv2, hf⟩⟩ := h
  have hN := elems_ge c
  obtain ⟨t0, t1⟩ := tgt_bounds k
  obtain ⟨f0, f1⟩ := floorErr_bounds c
  have k1 : (1 / 4 * (1 / 10 ^ 11) + 1 / 10 ^ 12 : ℚ) ≤ 1 / 1000 := by norm_num
  have k2 : (1 / 2 * (1 / 10 ^ 5) + 5 / 2 * (1 / 10 ^ 12) : ℚ) ≤ 1 / 1000 := by norm_num
  have he3 : |e| ≤ 1 / 1000 := by linarith
  have hf3 : |1 - 2 * (val y * val w)| ≤ 1 / 1000 := by linarith
  have hn : 1 ≤ 2 ^ k := Nat.one_le_two_pow
  have hp5 : 5 ≤ stepP c k := by unfold stepP; omega
  have hpN : stepP c k ≤ c.elems := by unfold stepP; omega
  obtain ⟨n1, n2, n3, n4, e', n5, n6, n7⟩ := sqrt_step hx px hxp hr (setPrecision_fin hy (((12 * 2 ^ k * 2 + 10 : ℕ) : ℤ)))
    (setPrecision_fin hw (((12 * 2 ^ k * 2 + 10 : ℕ) : ℤ))) py pw (setPrecision_step c y k) (setPrecision_step c w k) hp5 hpN
    he1 he3 hf3
  have hEE : epsP (stepP c k) ≤ 7 / 100 * tgt k ^ 2 ∨ epsP (stepP c k) ≤ 1 / 2 * floorErr c := by
    rcases Nat.le_total c.elems (3 * 2 ^ k + 2) with h | h
    · right
      have : stepP c k = c.elems := by unfold stepP; omega
      rw [this]; unfold floorErr
      have := epsP_pos c.elems
      linarith
    · left
      have : stepP c k = 3 * 2 ^ k + 2 := by unfold stepP; omega
      rw [this, (tgt_succ k).2]
      exact epsP_step7 k
  obtain ⟨T1, T2⟩ := sqrt_target t0.le t1 f0.le f1 hv1 hv2 rfl he2 hf hEE n6 n7
  rw [← (tgt_succ k).1] at T1
  have hb1 : tgt k ≤ 1 / 10 ^ 5 := le_trans t1 (by norm_num)
  exact ⟨n1, n2, n3, n4, ⟨e', n5, T1⟩, tgt k, by rw [(tgt_succ k).1], hb1, T2⟩

/-- The loop ends after a step for at least a quarter of the tolerance (early exit), or after the last step. -/
theorem sqrtLoop_spec {c : Cfg} {x : EFloat} (hx : FinWF c x) (px : 0 < val x) (hxp : x.prec = c.elems) (hr : SqrtRange x) :
    ∀ (fuel k : ℕ) (y w : EFloat), fuel + k = 32 → SqrtInv c x k y w →
      ∃ K w', c.tolerance < 24 * 2 ^ K ∧ SqrtInv c x K (sqrtLoop c x fuel (12 * 2 ^ k) y w) w'
  | 0, k, y, w, hk, h => by
    have : k = 32 := by omega
    subst this
    exact ⟨32, w, by have := tol_bound c; omega, h⟩
  | fuel + 1, k, y, w, hk, h => by
    rw [sqrtLoop]
    by_cases ht : 12 * 2 ^ k ≤ c.tolerance
    · simp only [if_pos ht]
      have hcast : ((12 * 2 ^ k : ℕ) : ℤ) * 2 + 10 = ((12 * 2 ^ k * 2 + 10 : ℕ) : ℤ) := by push_cast; ring
      rw [hcast]
      have hi := sqrt_iter hx px hxp hr h
      simp only [sqrtTerm, sqrtVi] at hi
      split
      · rename_i hexit
        refine ⟨k + 1, _, ?_, hi⟩
        rw [pow_succ]; omega
      · have := sqrtLoop_spec hx px hxp hr fuel (k + 1) _ _ (by omega) hi
        rw [show 12 * 2 ^ (k + 1) = 12 * 2 ^ k * 2 by rw [pow_succ]; ring] at this
        exact this
    · rw [if_neg ht]
      exact ⟨k, w, by omega, h⟩

/-- The loop of efx.cpp 1137-1163 without the early exit of 1158-1162: the reference for the accuracy that the remaining steps
would reach. -/
def sqrtLoopFull (c : Cfg) (x : EFloat) : Nat → Nat → EFloat → EFloat → EFloat
  | 0, _, y, _ => y
  | fuel + 1, digits, y, vi =>
    if digits ≤ c.tolerance then
      let y := setPrecision c y (digits * 2 + 10)
      let vi := setPrecision c vi (digits * 2 + 10)
      let vi := addAssign c vi (mul c vi (add c (negate (mulSigned c (mul c y vi) 2)) (one c)))
      sqrtLoopFull c x fuel (digits * 2) (addAssign c y (mul c vi (add c (negate (mul c y y)) x))) vi
    else y

theorem sqrtLoopFull_spec {c : Cfg} {x : EFloat} (hx : FinWF c x) (px : 0 < val x) (hxp : x.prec = c.elems) (hr : SqrtRange x) :
    ∀ (fuel k : ℕ) (y w : EFloat), fuel + k = 32 → SqrtInv c x k y w →
      ∃ K w', c.tolerance < 12 * 2 ^ K ∧ SqrtInv c x K (sqrtLoopFull c x fuel (12 * 2 ^ k) y w) w'
  | 0, k, y, w, hk, h => by
    have : k = 32 := by omega
    subst this
    exact ⟨32, w, tol_bound c, h⟩
  | fuel + 1, k, y, w, hk, h => by
    rw [sqrtLoopFull]
    by_cases ht : 12 * 2 ^ k ≤ c.tolerance
    · simp only [if_pos ht]
      have hcast : ((12 * 2 ^ k : ℕ) : ℤ) * 2 + 10 = ((12 * 2 ^ k * 2 + 10 : ℕ) : ℤ) := by push_cast; ring
      rw [hcast]
      have hi := sqrt_iter hx px hxp hr h
      simp only [sqrtTerm, sqrtVi] at hi
      have := sqrtLoopFull_spec hx px hxp hr fuel (k + 1) _ _ (by omega) hi
      rw [show 12 * 2 ^ (k + 1) = 12 * 2 ^ k * 2 by rw [pow_succ]; ring] at this
      exact this
    · rw [if_neg ht]
      exact ⟨k, w, not_le.1 ht, h⟩

/-- Start values of `calculate_sqrt` (efx.cpp 1113-1116). -/
def sqrtStart (c : Cfg) (x : EFloat) : EFloat × EFloat :=
  (ofMantExp c (dsqrt (sqrtParts x).1) (Int.tdiv (sqrtParts x).2 2),
   ofMantExp c (rnd ((1 / 2) / dsqrt (sqrtParts x).1)) (Int.tdiv (-(sqrtParts x).2) 2))

theorem sqrtStart_inv {c : Cfg} {x : EFloat} (hx : FinWF c x) (px : 0 < val x) : SqrtInv c x 0 (sqrtStart c x).1 (sqrtStart c x).2 := by
  obtain ⟨s1, s2, s3, s4, s5, s6⟩ := sqrt_start (c := c) hx px
  have hF := floorErr_bounds c
  unfold sqrtStart
  refine ⟨s1, s2, s3, s4, ?_, ?_⟩
  · simp only
    generalize val (ofMantExp c (dsqrt (sqrtParts x).1) (Int.tdiv (sqrtParts x).2 2)) *
      val (ofMantExp c (dsqrt (sqrtParts x).1) (Int.tdiv (sqrtParts x).2 2)) = Y at *
    refine ⟨1 - Y / val x, by field_simp; ring, ?_⟩
    unfold Near at s6
    rw [show 1 - Y / val x = -((Y - val x) / val x) by field_simp; ring, abs_neg, abs_div, abs_of_pos px, div_le_iff₀ px]
    apply le_trans s6
    apply mul_le_mul_of_nonneg_right _ px.le
    have : (1 / 10 ^ 12 : ℚ) ≤ 1 / 4 * tgt 0 := by unfold tgt; norm_num
    linarith
  · refine ⟨1 / 10 ^ 6, by unfold tgt; norm_num, by norm_num, ?_⟩
    have : (1 / 10 ^ 12 : ℚ) ≤ 1 / 2 * (1 / 10 ^ 6) := by norm_num
    simp only
    linarith

/-- The main branch of `calculate_sqrt`. -/
theorem calculateSqrt_main {c : Cfg} {x : EFloat} (hx : FinWF c x) (px : 0 < val x) (hone : isone x = false) :
    calculateSqrt c x = { sqrtLoop c x 32 12 (sqrtStart c x).1 (sqrtStart c x).2 with prec := x.prec } := by
  have nx := neg_of_val_pos px
  have zx := ne_of_val hx px.ne'
  unfold calculateSqrt
  have hg : (x.isneg || !x.isfinite) = false := by
    simp [EFloat.isneg, EFloat.isfinite, nx, hx.fin]
  have hiz : x.iszero = false := by rw [iszero_false hx.fin]; exact zx
  rw [hg, hiz, hone]
  simp only [Bool.or_self, Bool.false_eq_true, if_false]
  have hps : (if decide (Int.tmod (extractParts x).2 2 ≠ 0) = true then rnd ((extractParts x).1 / 10) else (extractParts x).1) =
      (sqrtParts x).1 ∧ (if decide (Int.tmod (extractParts x).2 2 ≠ 0) = true then (extractParts x).2 + 1 else (extractParts x).2) =
      (sqrtParts x).2 := by
    unfold sqrtParts
    constructor <;> by_cases h : Int.tmod (extractParts x).2 2 = 0 <;> simp [h]
  rw [hps.1, hps.2]
  rfl

/-- Relative error of the square of the computed root. -/
def sqrtErr (c : Cfg) : ℚ := (10 : ℚ) ^ (-(11 * ((c.tolerance : ℤ) + 1) / 24)) + floorErr c

theorem calculateSqrt_spec {c : Cfg} {x : EFloat} (hx : FinWF c x) (px : 0 < val x) (hxp : x.prec = c.elems) (hr : SqrtRange x) :
    FinWF c (calculateSqrt c x) ∧ 0 < val (calculateSqrt c x) ∧ (calculateSqrt c x).prec = x.prec ∧
    |val (calculateSqrt c x) * val (calculateSqrt c x) - val x| ≤ sqrtErr c * val x := by
  have nx := neg_of_val_pos px
  have zx := ne_of_val hx px.ne'
  have hF := floorErr_bounds c
  by_cases hone : isone x = true
  · have he : calculateSqrt c x = x := by
      unfold calculateSqrt
      have hg : (x.isneg || !x.isfinite) = false := by
        simp [EFloat.isneg, EFloat.isfinite, nx, hx.fin]
      rw [hg, hone]
      simp
    rw [he]
    refine ⟨hx, px, rfl, ?_⟩
    obtain ⟨_, h1⟩ := isone_spec hx hone
    rw [← val_of_pos nx] at h1
    rw [show val x * val x - val x = -((1 - val x) * val x) by ring, abs_neg, h1, abs_of_pos (mul_pos (p10_pos _) px)]
    apply mul_le_mul_of_nonneg_right _ px.le
    unfold sqrtErr
    have : (10 : ℚ) ^ (-(8 * (c.elems : ℤ))) ≤ (10 : ℚ) ^ (-(11 * ((c.tolerance : ℤ) + 1) / 24)) := by
      apply p10_mono
      have := digits_elems c
      have hD := (digits10_bounds c).1
      unfold Cfg.tolerance Cfg.maxDigits10
      push_cast
      omega
    linarith
  · rw [calculateSqrt_main hx px (Bool.eq_false_iff.2 hone)]
    obtain ⟨K, w', K1, K2⟩ := sqrtLoop_spec hx px hxp hr 32 0 _ _ rfl (sqrtStart_inv hx px)
    rw [show 12 * 2 ^ 0 = 12 by norm_num] at K2
    generalize sqrtLoop c x 32 12 _ _ = r at *
    obtain ⟨hr1, hr2, _, _, ⟨e, K4, K5⟩, _⟩ := K2
    refine ⟨⟨⟨hr1.len, hr1.limb, hr1.exp8, hx.prec_lo, hx.prec_hi, hr1.norm⟩, hr1.fin⟩, hr2, rfl, ?_⟩
    have hv : val { r with prec := x.prec } = val r := rfl
    rw [hv, K4, show (1 - e) * val x - val x = -(e * val x) by ring, abs_neg, abs_mul, abs_of_pos px]
    apply mul_le_mul_of_nonneg_right _ px.le
    apply le_trans K5
    unfold sqrtErr
    have : tgt K ≤ (10 : ℚ) ^ (-(11 * ((c.tolerance : ℤ) + 1) / 24)) := by
      unfold tgt
      apply p10_mono
      have hz : ((2 : ℤ) ^ K) = ((2 ^ K : ℕ) : ℤ) := by push_cast; rfl
      rw [hz]
      generalize 2 ^ K = n at *
      omega
    linarith [(tgt_bounds K).1]

/-- If the early exit does not change the result, the root has full accuracy. -/
theorem calculateSqrt_full {c : Cfg} {x : EFloat} (hx : FinWF c x) (px : 0 < val x) (hxp : x.prec = c.elems) (hr : SqrtRange x)
    (hone : isone x = false)
    (hfull : sqrtLoop c x 32 12 (sqrtStart c x).1 (sqrtStart c x).2 = sqrtLoopFull c x 32 12 (sqrtStart c x).1 (sqrtStart c x).2) :
    |val (calculateSqrt c x) * val (calculateSqrt c x) - val x| ≤ invErr c * val x := by
  rw [calculateSqrt_main hx px hone, hfull]
  obtain ⟨K, w', K1, K2⟩ := sqrtLoopFull_spec hx px hxp hr 32 0 _ _ rfl (sqrtStart_inv hx px)
  rw [show 12 * 2 ^ 0 = 12 by norm_num] at K2
  generalize sqrtLoopFull c x 32 12 _ _ = r at *
  obtain ⟨hr1, hr2, _, _, ⟨e, K4, K5⟩, _⟩ := K2
  have hv : val { r with prec := x.prec } = val r := rfl
  rw [hv, K4, show (1 - e) * val x - val x = -(e * val x) by ring, abs_neg, abs_mul, abs_of_pos px]
  apply mul_le_mul_of_nonneg_right _ px.le
  apply le_trans K5
  unfold invErr
  have := tgt_final K1
  linarith [(tgt_bounds K).1]

end EFX
