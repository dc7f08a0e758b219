import Verif.Lemmas.RndCxPow
import Verif.Props.CxRnd
/-!
# C114: integer powers of complex numbers with rounding
-/

namespace EFX.Props
open Spec

/-- C114.  `pow(z, p)` for a complex `z` and an `int64` `p` other than `-2^63`: with every rounding of every product the relative error
grows at most in proportion to the exponent.  The zeroth power is exactly one.

Missing: more than 1000 digits, reduced working precision, powers outside `10^±300000000`. -/
theorem C114_complex_powers_partial {c : Cfg} (hc : c.digits10 ≤ 1000) {z : Cx EFloat} (hz : CValid c z) {p : ℤ} (hp : |p| < 2 ^ 63)
    (h0 : (10 : ℝ) ^ (-300000000 : ℤ) ≤ ‖cnum z‖ ^ p.natAbs) (h1 : ‖cnum z‖ ^ p.natAbs ≤ (10 : ℝ) ^ (300000000 : ℤ)) :
    ∃ w, CxE.pown c z p = some w ∧ CValid c w ∧
      (p = 0 → cnum w = 1) ∧
      (0 ≤ p → ‖cnum w - cnum z ^ p‖ ≤ p * ‖cnum z ^ p‖ / 10 ^ (c.digits10 + 4)) ∧
      (p < 0 → ‖cnum w - cnum z ^ p‖ ≤ (|(p : ℝ)| / 1000 + 3) * ‖cnum z ^ p‖ / 10 ^ (c.digits10 + 1)) := by
  have he := elems_small hc
  obtain ⟨n, hn⟩ : ∃ n, n = p.natAbs := ⟨_, rfl⟩
  rw [← hn] at h0 h1
  have k : Sz 300000000 (‖cval z‖ ^ n) := by
    unfold Sz; rw [abs_of_nonneg (by positivity)]; exact ⟨h0, h1⟩
  clear h0 h1
  have hE : eu c = 1 / 10 ^ (c.digits10 + 1) := eu_inv c
  have e0 : 0 < eu c := pw_pos _
  have e1 := eu_small c
  have hnp : n < 2 ^ 63 := by
    have := abs_lt.1 hp
    omega
  by_cases hz0 : n = 0
  · have hp0 : p = 0 := by omega
    subst hp0
    refine ⟨CxE.one c, rfl, (cxOne c).1, fun _ => (cxOne c).2, fun _ => ?_, fun h => absurd h (lt_irrefl _)⟩
    have : cnum (CxE.one c) = 1 := (cxOne c).2
    rw [this]; simp
  obtain ⟨E, hb⟩ := PowEnv.of he k hnp hz0
  obtain ⟨f1, f2⟩ := E.pownNat hz hz0
  have a0 : 0 < ‖cval z‖ ^ n := lt_of_le_of_ne (by positivity) (Ne.symm k.ne)
  have n0 : (0 : ℝ) ≤ n := Nat.cast_nonneg n
  have f3 : ‖cval (CxE.pownNat c z n) - cval z ^ n‖ ≤ n * (eu c / 2000) * ‖cval z‖ ^ n :=
    le_trans f2 (mul_le_mul_of_nonneg_right hb a0.le)
  rcases lt_or_ge p 0 with hs | hs
  · have hpn : p = -(n : ℤ) := by omega
    have n63 : (n : ℝ) ≤ 10 ^ 19 := by
      have : n ≤ 10 ^ 19 := by omega
      exact_mod_cast this
    have hη : n * (eu c / 2000) ≤ 1 / 200 := by
      have : n * (eu c / 2000) ≤ 10 ^ 19 * (1 / 10 ^ 30) := mul_le_mul n63 (by linarith) (by positivity) (by norm_num)
      exact le_trans this (by norm_num)
    obtain ⟨w, hw⟩ : ∃ w, w = CxE.pownNat c z n := ⟨_, rfl⟩
    obtain ⟨A, hA⟩ : ∃ A, A = ‖cval z‖ ^ n := ⟨_, rfl⟩
    rw [← hw, ← hA] at f3
    rw [← hA] at k a0
    have nA : ‖cval z ^ n‖ = A := by rw [norm_pow, hA]
    have ηA : n * (eu c / 2000) * A ≤ 1 / 200 * A := mul_le_mul_of_nonneg_right hη a0.le
    have w1 : 199 / 200 * A ≤ ‖cval w‖ := by
      have := norm_sub_norm_le (cval z ^ n) (cval w)
      rw [norm_sub_rev, nA] at this
      linarith
    have w2 : ‖cval w‖ ≤ 201 / 200 * A := by
      have := norm_sub_norm_le (cval w) (cval z ^ n)
      rw [nA] at this
      linarith
    obtain ⟨k1, k2⟩ := k
    rw [abs_of_pos a0] at k1 k2
    have sw : Sz 400000000 ‖cval w‖ := by
      unfold Sz
      rw [abs_of_nonneg (norm_nonneg _)]
      have g0 : (10 : ℝ) ≤ pw 100000000 := by rw [← pw_one]; exact pw_mono (by omega)
      constructor
      · have g1 : pw (-300000000) = pw 100000000 * pw (-400000000) := by rw [← pw_add]; rfl
        have g2 := mul_le_mul_of_nonneg_right g0 (pw_pos (-400000000)).le
        rw [← g1] at g2
        have := pw_pos (-400000000)
        linarith
      · have g1 : pw 400000000 = pw 100000000 * pw 300000000 := by rw [← pw_add]; rfl
        have g2 := mul_le_mul_of_nonneg_right g0 (pw_pos (300000000)).le
        rw [← g1] at g2
        have := pw_pos (300000000)
        linarith
    have o1 : ‖cval (CxE.one c)‖ ≤ pw 400000000 := by
      rw [(cxOne c).2, norm_one, ← pw_zero]; exact pw_mono (by omega)
    rw [← hw] at f1
    obtain ⟨g1, g2⟩ := cx_div he (cxOne c).1 f1 o1 sw
    rw [(cxOne c).2, norm_one] at g2
    have w0 : 0 < ‖cval w‖ := by linarith
    have iw : 1 / ‖cval w‖ ≤ 101 / 100 * (1 / A) := by
      rw [div_le_iff₀ w0]
      have : 101 / 100 * (1 / A) * (199 / 200 * A) = 101 / 100 * (199 / 200) := by field_simp
      have h3 := mul_le_mul_of_nonneg_left w1 (by positivity : 0 ≤ 101 / 100 * (1 / A))
      rw [this] at h3
      linarith
    have tail : pw (-1000000000) ≤ 1 / 10 * (eu c * (1 / A)) := by
      have i1 : pw (-300000000) ≤ 1 / A := by
        rw [le_div_iff₀ a0]
        have := mul_le_mul_of_nonneg_left k2 (pw_pos (-300000000)).le
        refine le_trans this (le_of_eq ?_)
        rw [← pw_add, ← pw_zero]; rfl
      have t1 : pw (-6000) * pw (-300000000) ≤ eu c * (1 / A) := mul_le_mul (eu_ge he) i1 (pw_pos _).le e0.le
      have t2 : pw (-1000000000) = pw (-699994000) * (pw (-6000) * pw (-300000000)) := by rw [← pw_add, ← pw_add]; rfl
      have t3 : pw (-699994000) ≤ 1 / 10 := by
        refine le_trans (pw_mono (by omega : (-699994000 : ℤ) ≤ -((1 : ℕ) : ℤ))) ?_
        rw [pw_neg, pw_nat]; norm_num
      rw [t2]
      exact mul_le_mul t3 t1 (mul_pos (pw_pos _) (pw_pos _)).le (by norm_num)
    have hwn : cval w ≠ 0 := norm_pos_iff.1 w0
    have han : cval z ^ n ≠ 0 := norm_pos_iff.1 (by rw [nA]; exact a0)
    have inv : ‖1 / cval w - 1 / cval z ^ n‖ ≤ n * (eu c / 2000) * (101 / 100 * (1 / A)) := by
      rw [div_sub_div _ _ hwn han, one_mul, mul_one, norm_div, norm_mul, nA, norm_sub_rev]
      have h4 : n * (eu c / 2000) * A / (‖cval w‖ * A) = n * (eu c / 2000) * (1 / ‖cval w‖) := by field_simp
      refine le_trans (div_le_div_of_nonneg_right f3 (by positivity)) ?_
      rw [h4]
      exact mul_le_mul_of_nonneg_left iw (by positivity)
    refine ⟨CxE.div c (CxE.one c) w, ?_, g1, fun h => by omega, fun h => by omega, fun _ => ?_⟩
    · unfold CxE.pown
      rw [if_pos hs, if_neg (by have := abs_lt.1 hp; omega), hw, hn]
    have pz : cnum z ^ p = 1 / cval z ^ n := by
      rw [hpn, zpow_neg, zpow_natCast, one_div]; rfl
    have pa : |(p : ℝ)| = n := by rw [hpn]; push_cast; rw [abs_neg, abs_of_nonneg n0]
    rw [pz, pa, norm_div, norm_one, nA]
    have tri := norm_sub_le_norm_sub_add_norm_sub (cval (CxE.div c (CxE.one c) w)) (1 / cval w) (1 / cval z ^ n)
    refine le_trans tri ?_
    have fin : (n / 1000 + 3) * (1 / A) / 10 ^ (c.digits10 + 1) = n * (eu c * (1 / A)) / 1000 + 3 * (eu c * (1 / A)) := by rw [hE]; ring
    rw [fin]
    have b1 : 2 * eu c * (1 / ‖cval w‖) ≤ 2 * eu c * (101 / 100 * (1 / A)) := mul_le_mul_of_nonneg_left iw (by positivity)
    have b2 : n * (eu c / 2000) * (101 / 100 * (1 / A)) = 101 / 200000 * (n * (eu c * (1 / A))) := by ring
    have b3 : 2 * eu c * (101 / 100 * (1 / A)) = 202 / 100 * (eu c * (1 / A)) := by ring
    rw [b2] at inv
    rw [b3] at b1
    have b4 : 0 ≤ n * (eu c * (1 / A)) := by positivity
    have b5 : 0 ≤ eu c * (1 / A) := by positivity
    generalize n * (eu c * (1 / A)) = X at *
    generalize eu c * (1 / A) = Y at *
    linarith
  · have hpn : p = (n : ℤ) := by omega
    refine ⟨CxE.pownNat c z n, ?_, f1, fun h => by omega, fun _ => ?_, fun h => by omega⟩
    · unfold CxE.pown
      rw [if_neg (by omega), hn]
    rw [hpn, zpow_natCast, norm_pow]
    have fin : ((n : ℤ) : ℝ) * ‖cnum z‖ ^ n / 10 ^ (c.digits10 + 4) = n * (eu c / 1000) * ‖cval z‖ ^ n := by
      rw [hE, show c.digits10 + 4 = c.digits10 + 1 + 3 by ring, pow_add _ (c.digits10 + 1)]
      push_cast
      show _ = n * _ * ‖cnum z‖ ^ n
      ring
    rw [fin]
    refine le_trans f3 (mul_le_mul_of_nonneg_right (mul_le_mul_of_nonneg_left (by linarith) n0) a0.le)

/-- C114 applies to the power `-1000` of a number that is not real. -/
example : ∃ w, CxE.pown cfg101 ⟨exA, exC⟩ (-1000) = some w ∧
    ‖cnum w - cnum ⟨exA, exC⟩ ^ (-1000 : ℤ)‖ ≤ 4 * ‖cnum ⟨exA, exC⟩ ^ (-1000 : ℤ)‖ / 10 ^ (cfg101.digits10 + 1) := by
  have g1 : |(cnum ⟨exA, exC⟩).re| ≤ 10 ^ 8 := by
    have h : |val exA| ≤ 10 ^ 8 := by decide +kernel
    show |((val exA : ℚ) : ℝ)| ≤ _
    rw [← Rat.cast_abs]; exact_mod_cast h
  have g2 : |(cnum ⟨exA, exC⟩).im| ≤ 10 ^ 8 := by
    have h : |val exC| ≤ 10 ^ 8 := by decide +kernel
    show |((val exC : ℚ) : ℝ)| ≤ _
    rw [← Rat.cast_abs]; exact_mod_cast h
  have g3 : (1 : ℝ) / 10 ^ 3 ≤ |(cnum ⟨exA, exC⟩).re| := by
    have h : (1 : ℚ) / 10 ^ 3 ≤ |val exA| := by decide +kernel
    have := (Rat.cast_le (K := ℝ)).2 h
    push_cast at this; exact this
  have hi : ‖cnum ⟨exA, exC⟩‖ ≤ 10 ^ 9 := le_trans (cx_norm_le g1 g2) (by norm_num)
  have lo : 1 / 10 ^ 3 ≤ ‖cnum ⟨exA, exC⟩‖ := le_trans g3 (Complex.abs_re_le_norm _)
  have hq : (-1000 : ℤ).natAbs = 1000 := by decide
  have l0 : (10 : ℝ) ^ (-300000000 : ℤ) ≤ ‖cnum ⟨exA, exC⟩‖ ^ (1000 : ℕ) := by
    refine le_trans ?_ (pow_le_pow_left₀ (by positivity) lo 1000)
    refine le_trans (pw_mono (by norm_num : (-300000000 : ℤ) ≤ -((3000 : ℕ) : ℤ))) (le_of_eq ?_)
    rw [pw_neg, pw_nat, div_pow, one_pow, ← pow_mul, one_div]
  have l1 : ‖cnum ⟨exA, exC⟩‖ ^ (1000 : ℕ) ≤ (10 : ℝ) ^ (300000000 : ℤ) := by
    refine le_trans (pow_le_pow_left₀ (norm_nonneg _) hi 1000) ?_
    refine le_trans (le_of_eq ?_) (pw_mono (by norm_num : ((9000 : ℕ) : ℤ) ≤ 300000000))
    rw [pw_nat, ← pow_mul]
  obtain ⟨w, h1, -, -, -, h2⟩ := C114_complex_powers_partial (c := cfg101) (by decide) exU_ok.1 (p := -1000) (by norm_num)
    (by rw [hq]; exact l0) (by rw [hq]; exact l1)
  refine ⟨w, h1, le_trans (h2 (by norm_num)) (le_of_eq ?_)⟩
  congr 2
  push_cast
  rw [abs_neg, abs_of_nonneg (by norm_num)]
  norm_num

end EFX.Props
