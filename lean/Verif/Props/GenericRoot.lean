import Verif.Props.Generic
import Verif.Props.Roots
import Mathlib.Analysis.SpecialFunctions.Pow.Real
import Mathlib.Analysis.Complex.ExponentialBounds

/-! # `rootn` of the generic functions (generic_functions_elementary.h 211-276) -/

namespace EFX.Props

open EFX

theorem tmod_iff {a p : ℤ} : Int.tmod a p = 0 ↔ a % p = 0 := by
  rw [← Int.dvd_iff_tmod_eq_zero, Int.dvd_iff_emod_eq_zero]

theorem one_add_exp {τ c : ℝ} (h : |τ| ≤ c) (hc : c ≤ 1 / 100) : ∃ L, |L| ≤ 102 / 100 * c ∧ 1 + τ = Real.exp L := by
  obtain ⟨h1, h2⟩ := abs_le.1 h
  have p : 0 < 1 + τ := by linarith
  refine ⟨Real.log (1 + τ), ?_, (Real.exp_log p).symm⟩
  have c0 := (abs_nonneg τ).trans h
  rw [abs_le]
  constructor
  · have := Real.one_sub_inv_le_log_of_pos p
    have h3 : -(102 / 100 * c) ≤ 1 - (1 + τ)⁻¹ := by
      rw [show 1 - (1 + τ)⁻¹ = τ / (1 + τ) by field_simp; ring, le_div_iff₀ p]
      nlinarith
    linarith
  · have := Real.log_le_sub_one_of_pos p
    linarith

/-- The loop that makes the exponent divisible: after `j` steps the mantissa is divided by `10^j`, each division being off
by at most `12 * 10^-17`. -/
theorem alignRoot_spec {E : GenEnv} (hE : E.Good) {p : ℤ} : ∀ (fuel j : ℕ) (dd : ℚ) (ne : ℤ), j ≤ fuel →
    (∀ i : ℕ, i < j → (ne + i) % p ≠ 0) → (ne + j) % p = 0 → 0 < (dd : ℝ) → 1 / 10 ^ 305 ≤ (dd : ℝ) / 11 ^ j → (dd : ℝ) ≤ 10 →
    ∃ L : ℝ, |L| ≤ j * (13 / 10 ^ 17) ∧ (Gf.alignRoot (realGen E) p fuel dd ne).2 = ne + j ∧
      ((Gf.alignRoot (realGen E) p fuel dd ne).1 : ℝ) = dd / 10 ^ j * Real.exp L ∧
      1 / 10 ^ 305 ≤ ((Gf.alignRoot (realGen E) p fuel dd ne).1 : ℝ) ∧ ((Gf.alignRoot (realGen E) p fuel dd ne).1 : ℝ) ≤ 10
  | 0, 0, dd, ne, _, _, _, _, lo, hi => ⟨0, by simp, by simp [Gf.alignRoot], by simp [Gf.alignRoot], by simpa [Gf.alignRoot] using lo, by simpa [Gf.alignRoot] using hi⟩
  | fuel + 1, 0, dd, ne, _, _, hz, _, lo, hi => by
    have hz' : Int.tmod ne p = 0 := tmod_iff.2 (by simpa using hz)
    unfold Gf.alignRoot
    rw [if_neg (by simpa using hz')]
    exact ⟨0, by simp, by simp, by simp, by simpa using lo, hi⟩
  | fuel + 1, j + 1, dd, ne, hj, hn, hz, d0, lo, hi => by
    have hn0 : Int.tmod ne p ≠ 0 := fun h => hn 0 (by omega) (by simpa using tmod_iff.1 h)
    unfold Gf.alignRoot
    rw [if_pos hn0]
    have q0 : (0 : ℝ) < (dd : ℝ) / ((10 : ℚ) : ℝ) := by push_cast; positivity
    have lo10 : 1 / 10 ^ 305 ≤ (dd : ℝ) / 10 := by
      refine lo.trans (div_le_div_of_nonneg_left d0.le (by norm_num) ?_)
      calc (10 : ℝ) ≤ 11 ^ 1 := by norm_num
        _ ≤ 11 ^ (j + 1) := pow_le_pow_right₀ (by norm_num) (by omega)
    have hd := hE.ddiv_val dd 10 (by
      rw [abs_of_pos q0]
      push_cast
      refine ⟨lo10, ?_⟩
      have h10 : (10 : ℝ) ≤ 10 ^ 305 := le_self_pow₀ (by norm_num) (by norm_num)
      exact (show (dd : ℝ) / 10 ≤ 10 by linarith).trans h10)
    rw [abs_of_pos q0] at hd
    obtain ⟨τ, t1, t2⟩ := grel_of q0 hd
    push_cast at t2
    obtain ⟨L1, l1, l2⟩ := one_add_exp t1 (by norm_num)
    have tb := abs_le.1 t1
    norm_num at tb
    have e0 : (0 : ℝ) < (E.ddiv dd 10 : ℝ) := by rw [t2]; exact mul_pos (by positivity) (by linarith)
    have e1 : (dd : ℝ) / 11 ≤ (E.ddiv dd 10 : ℝ) := by rw [t2]; nlinarith
    obtain ⟨L, k1, k2, k3, k4, k5⟩ := alignRoot_spec hE fuel j (E.ddiv dd 10) (ne + 1) (by omega)
      (fun i hi => by have := hn (i + 1) (by omega); push_cast at this; rwa [show ne + 1 + (i : ℤ) = ne + (i + 1) by ring])
      (by push_cast at hz; rwa [show ne + 1 + (j : ℤ) = ne + (j + 1) by ring]) e0
      (by
        refine lo.trans ?_
        rw [pow_succ', ← div_div]
        exact div_le_div_of_nonneg_right e1 (by positivity))
      (by rw [t2]; nlinarith)
    refine ⟨L1 + L, ?_, ?_, ?_, k4, k5⟩
    · refine (abs_add_le _ _).trans ?_
      push_cast
      norm_num at l1 k1 ⊢
      linarith
    · refine k2.trans ?_
      push_cast; ring
    · refine k3.trans ?_
      rw [t2, l2, Real.exp_add, pow_succ']
      field_simp

theorem exp_near_one {θ c : ℝ} (h : |θ| ≤ c) (hc : c ≤ 1 / 100) : |Real.exp θ - 1| ≤ 102 / 100 * c := by
  obtain ⟨h1, h2⟩ := abs_le.1 h
  have c0 := (abs_nonneg θ).trans h
  have b1 := Real.add_one_le_exp θ
  have b2 := Real.add_one_le_exp (-θ)
  have b3 : Real.exp θ * Real.exp (-θ) = 1 := by rw [← Real.exp_add]; simp
  have e0 := Real.exp_pos θ
  rw [abs_le]
  constructor
  · linarith
  · have h3 : Real.exp θ * (1 - c) ≤ 1 := by nlinarith
    have h4 : Real.exp θ ≤ 1 + 102 / 100 * c := by
      by_contra hn
      push Not at hn
      nlinarith
    linarith

theorem log_ten_le : Real.log 10 ≤ 231 / 100 := by
  rw [show (10 : ℝ) = 2 ^ 3 * (5 / 4) by norm_num, Real.log_mul (by norm_num) (by norm_num), Real.log_pow]
  have h1 := Real.log_two_lt_d9
  have h2 := Real.log_le_sub_one_of_pos (show (0 : ℝ) < 5 / 4 by norm_num)
  have h3 : Real.log (5 / 4) ≤ 23 / 100 := by
    rw [Real.log_le_iff_le_exp (by norm_num)]
    have := Real.quadratic_le_exp_of_nonneg (show (0 : ℝ) ≤ 23 / 100 by norm_num)
    norm_num at this ⊢
    linarith
  push_cast
  linarith

set_option maxHeartbeats 1000000 in
/-- The estimate of the reciprocal root is good to `12 * 10^-16`. -/
theorem rootStart_acc {E : GenEnv} (hE : E.Good) {x : ℝ} (hx : 0 < x) {p : ℕ} (hp : 3 ≤ p) (hp2 : p ≤ 256) :
    |Gf.rootStart (realGen E) x p * x ^ ((1 : ℝ) / p) - 1| ≤ 12 / 10 ^ 16 := by
  obtain ⟨ρ, r1, mp, r2⟩ := frexp_pos hE hx
  have mb := hE.frexp_range x hx.ne'
  rw [abs_of_pos (by exact_mod_cast mp)] at mb
  unfold Gf.rootStart
  change |E.ofText (E.dpow (Gf.alignRoot (realGen E) p p (E.frexp x).1 (E.frexp x).2).1 (E.ddiv (-1) ((p : ℤ) : ℚ)))
    (Int.tdiv (-(Gf.alignRoot (realGen E) p p (E.frexp x).1 (E.frexp x).2).2) p) * x ^ ((1 : ℝ) / p) - 1| ≤ _
  have m0 : (0 : ℝ) < ((E.frexp x).1 : ℝ) := by linarith [mb.1]
  generalize (E.frexp x).1 = m at *
  generalize (E.frexp x).2 = e at *
  have pz : (p : ℤ) ≠ 0 := by omega
  obtain ⟨j, hj⟩ : ∃ j : ℕ, (j : ℤ) = (-e) % p := ⟨((-e) % p).toNat, Int.toNat_of_nonneg (Int.emod_nonneg _ pz)⟩
  have jp : j < p := by
    have := Int.emod_lt_of_pos (-e) (show (0 : ℤ) < p by omega)
    omega
  have hz : (e + j) % (p : ℤ) = 0 := by rw [hj, Int.add_emod_emod, add_neg_cancel, Int.zero_emod]
  have hlo : 1 / 10 ^ 305 ≤ (m : ℝ) / 11 ^ j := by
    refine div_le_div₀ m0.le mb.1 (by positivity) ?_
    calc (11 : ℝ) ^ j ≤ 11 ^ 255 := pow_le_pow_right₀ (by norm_num) (by omega)
      _ ≤ (10 ^ 6) ^ 45 := by
        rw [show (255 : ℕ) = 5 * 51 by norm_num, pow_mul]
        calc ((11 : ℝ) ^ 5) ^ 51 ≤ (162000) ^ 51 := pow_le_pow_left₀ (by norm_num) (by norm_num) _
          _ ≤ _ := by norm_num
      _ ≤ 10 ^ 305 := by rw [← pow_mul]; exact pow_le_pow_right₀ (by norm_num) (by norm_num)
  obtain ⟨L, l1, l2, l3, l4, l5⟩ := alignRoot_spec hE p j m e jp.le (fun i hi h => by
    have d1 : (p : ℤ) ∣ (e + j) - (e + i) := dvd_sub (Int.dvd_of_emod_eq_zero hz) (Int.dvd_of_emod_eq_zero h)
    have := Int.le_of_dvd (by omega) d1
    omega) hz m0 hlo mb.2
  generalize Gf.alignRoot (realGen E) (p : ℤ) p m e = a at *
  obtain ⟨h, hh⟩ := Int.dvd_of_emod_eq_zero hz
  have td : Int.tdiv (-a.2) p = -h := by
    rw [l2, hh, show -((p : ℤ) * h) = -h * p by ring]
    exact Int.mul_tdiv_cancel _ pz
  rw [td]
  have p3 : (3 : ℝ) ≤ p := by exact_mod_cast hp
  have p2 : (p : ℝ) ≤ 256 := by exact_mod_cast hp2
  have pp : (0 : ℝ) < p := by linarith
  have jr : (j : ℝ) + 1 ≤ p := by exact_mod_cast jp
  have j0 : (0 : ℝ) ≤ j := by positivity
  -- the exponent of the power
  have qa : |(((-1 : ℚ) : ℝ) / (((p : ℤ) : ℚ) : ℝ))| = 1 / p := by
    push_cast; rw [abs_div, abs_neg, abs_one, abs_of_pos pp]
  have hd := hE.ddiv_val (-1) ((p : ℤ) : ℚ) (by
    rw [qa]
    refine inDouble_of ?_ ?_
    · exact one_div_le_one_div_of_le pp (by linarith)
    · rw [div_le_iff₀ pp]; linarith)
  rw [qa] at hd
  push_cast at hd
  obtain ⟨β, b1, b2⟩ : ∃ β : ℝ, |β| ≤ 12 / 10 ^ 17 ∧ (E.ddiv (-1) ((p : ℤ) : ℚ) : ℝ) = -(1 / p) * (1 + β) := by
    obtain ⟨β, b1, b2⟩ := grel_of (a := -(E.ddiv (-1) ((p : ℤ) : ℚ) : ℝ)) (b := 1 / (p : ℝ)) (c := 12 / 10 ^ 17) (by positivity) (by
      rw [← abs_neg]
      refine le_trans (le_of_eq ?_) hd
      congr 1
      push_cast
      ring)
    exact ⟨β, b1, by linarith⟩
  -- logarithms
  have a0 : (0 : ℝ) < (a.1 : ℝ) := by rw [l3]; positivity
  have lt0 : (0 : ℝ) ≤ Real.log 10 := Real.log_nonneg (by norm_num)
  have lt1 := log_ten_le
  have lm0 := Real.log_nonneg mb.1
  have lm1 := Real.log_le_log m0 mb.2
  have la : Real.log (a.1 : ℝ) = Real.log m - j * Real.log 10 + L := by
    rw [l3, Real.log_mul (by positivity) (Real.exp_pos L).ne', Real.log_exp, Real.log_div m0.ne' (by positivity), Real.log_pow]
  obtain ⟨L0, z1, z2⟩ := one_add_exp r1 (by norm_num)
  have lx : Real.log m + e * Real.log 10 = Real.log x + L0 := by
    have := congrArg Real.log r2
    rwa [Real.log_mul m0.ne' (by positivity), Real.log_zpow, z2, Real.log_mul hx.ne' (Real.exp_pos _).ne', Real.log_exp] at this
  have hhr : (e : ℝ) + j = p * h := by exact_mod_cast hh
  have la2 : Real.log (a.1 : ℝ) = Real.log x + L0 + L - p * h * Real.log 10 := by
    rw [la, ← hhr]; linarith
  have lab : |Real.log (a.1 : ℝ)| ≤ 231 / 100 * p := by
    have ll := abs_le.1 l1
    norm_num at ll
    have m2 : (p : ℝ) * Real.log 10 ≤ p * (231 / 100) := mul_le_mul_of_nonneg_left lt1 pp.le
    have m3 : ((j : ℝ) + 1) * Real.log 10 ≤ p * Real.log 10 := mul_le_mul_of_nonneg_right jr lt0
    have m5 : 2 ≤ Real.log 10 := by
      rw [Real.le_log_iff_exp_le (by norm_num), show (2 : ℝ) = 1 + 1 by norm_num, Real.exp_add]
      have := Real.exp_one_lt_d9
      nlinarith [Real.exp_pos 1]
    have m6 : (0 : ℝ) ≤ j * Real.log 10 := by positivity
    rw [la, abs_le]
    clear r2 hlo l3 l4 a0 la hd lx hhr
    constructor <;> linarith
  have ypow : (a.1 : ℝ) ^ ((E.ddiv (-1) ((p : ℤ) : ℚ) : ℚ) : ℝ) = Real.exp (-(1 / p) * (1 + β) * Real.log a.1) := by
    rw [Real.rpow_def_of_pos a0, b2]; ring_nf
  have xr : x ^ ((1 : ℝ) / p) = Real.exp (Real.log x / p) := by
    rw [Real.rpow_def_of_pos hx]; ring_nf
  have bb := abs_le.1 b1
  norm_num at bb
  have lp : |Real.log (a.1 : ℝ) / p| ≤ 231 / 100 := by
    rw [abs_div, abs_of_pos pp, div_le_iff₀ pp]; exact lab
  have yb : |-(1 / (p : ℝ)) * (1 + β) * Real.log a.1| ≤ 3 := by
    rw [show -(1 / (p : ℝ)) * (1 + β) * Real.log a.1 = -((1 + β) * (Real.log a.1 / p)) by ring, abs_neg, abs_mul]
    have : |1 + β| ≤ 11 / 10 := by rw [abs_le]; constructor <;> linarith
    nlinarith [abs_nonneg (Real.log (a.1 : ℝ) / p), abs_nonneg (1 + β)]
  have ex3 : Real.exp 3 ≤ 21 := by
    have := Real.exp_one_lt_d9
    rw [show (3 : ℝ) = ((3 : ℕ) : ℝ) * 1 by norm_num, Real.exp_nat_mul]
    exact (pow_le_pow_left₀ (Real.exp_pos 1).le this.le 3).trans (by norm_num)
  have pb : 1 / 21 ≤ (a.1 : ℝ) ^ ((E.ddiv (-1) ((p : ℤ) : ℚ) : ℚ) : ℝ) ∧ (a.1 : ℝ) ^ ((E.ddiv (-1) ((p : ℤ) : ℚ) : ℚ) : ℝ) ≤ 21 := by
    rw [ypow]
    have y1 := Real.exp_le_exp.2 (abs_le.1 yb).1
    have y2 := Real.exp_le_exp.2 (abs_le.1 yb).2
    rw [Real.exp_neg] at y1
    have : (1 : ℝ) / 21 ≤ (Real.exp 3)⁻¹ := by
      rw [← one_div]; exact one_div_le_one_div_of_le (Real.exp_pos 3) ex3
    exact ⟨this.trans y1, y2.trans ex3⟩
  have hpw := hE.dpow_val a.1 (E.ddiv (-1) ((p : ℤ) : ℚ)) ⟨l4, l5.trans (le_self_pow₀ (by norm_num) (by norm_num))⟩ (inDouble_of (le_trans (by norm_num) pb.1) (pb.2.trans (by norm_num)))
  obtain ⟨κ, k1, k2⟩ := grel_of (lt_of_lt_of_le (by norm_num) pb.1) hpw
  have kb := abs_le.1 k1
  norm_num at kb
  have wb : 1 / 100 ≤ (E.dpow a.1 (E.ddiv (-1) ((p : ℤ) : ℚ)) : ℝ) ∧ (E.dpow a.1 (E.ddiv (-1) ((p : ℤ) : ℚ)) : ℝ) ≤ 100 := by
    rw [k2]
    constructor <;> nlinarith [pb.1, pb.2]
  have ht := hE.text_val (E.dpow a.1 (E.ddiv (-1) ((p : ℤ) : ℚ))) (-h) (inDouble_of (le_trans (by norm_num) wb.1) (wb.2.trans (by norm_num)))
  obtain ⟨α, a1, a2⟩ := grel_of (mul_pos (lt_of_lt_of_le (by norm_num) wb.1) (by positivity)) ht
  have t10 : (10 : ℝ) ^ (-h) = Real.exp (-(h * Real.log 10)) := by
    rw [Real.exp_neg, zpow_neg, ← Real.rpow_intCast, Real.rpow_def_of_pos (by norm_num)]; ring_nf
  have main : E.ofText (E.dpow a.1 (E.ddiv (-1) ((p : ℤ) : ℚ))) (-h) * x ^ ((1 : ℝ) / p) =
      Real.exp (-((L0 + L) / p) - β * (Real.log a.1 / p)) * (1 + κ) * (1 + α) := by
    rw [a2, k2, ypow, t10, xr]
    have : Real.exp (-((L0 + L) / p) - β * (Real.log a.1 / p)) =
        Real.exp (-(1 / (p : ℝ)) * (1 + β) * Real.log a.1) * Real.exp (-(h * Real.log 10)) * Real.exp (Real.log x / p) := by
      rw [← Real.exp_add, ← Real.exp_add]
      congr 1
      rw [la2]
      field_simp
      ring
    rw [this]; ring
  rw [main]
  have th : |(-((L0 + L) / p) - β * (Real.log a.1 / p))| ≤ 481 / 10 ^ 18 := by
    have c1 : |(L0 + L) / p| ≤ 20 / 10 ^ 17 := by
      rw [abs_div, abs_of_pos pp, div_le_iff₀ pp]
      refine (abs_add_le _ _).trans ?_
      norm_num at z1 l1 ⊢
      linarith
    have c2 : |β * (Real.log a.1 / p)| ≤ 12 / 10 ^ 17 * (231 / 100) := by
      rw [abs_mul]; exact mul_le_mul b1 lp (abs_nonneg _) (by norm_num)
    have c3 := abs_sub (-((L0 + L) / p)) (β * (Real.log a.1 / p))
    rw [abs_neg] at c3
    norm_num at c1 c2 c3 ⊢
    linarith
  have t2 := exp_near_one th (by norm_num)
  obtain ⟨ω, w1, w2⟩ : ∃ ω : ℝ, |ω| ≤ 102 / 100 * (481 / 10 ^ 18) ∧ Real.exp (-((L0 + L) / p) - β * (Real.log a.1 / p)) = 1 + ω :=
    ⟨_, t2, by ring⟩
  rw [w2]
  have g1 := grel_mul w1 k1
  obtain ⟨η, e1, e2⟩ : ∃ η : ℝ, |η| ≤ _ ∧ (1 + ω) * (1 + κ) = 1 + η := ⟨_, g1, by ring⟩
  rw [e2]
  refine (grel_mul e1 a1).trans ?_
  norm_num

/-- The iteration squares the bound in every round and stops when more digits are promised than asked for. -/
theorem rootLoop_acc (E : GenEnv) {x R : ℝ} (hR : 0 < R) {p s : ℕ} (hp : 3 ≤ p) (RR : R ^ p = x) :
    ∀ (fuel : ℕ) (d : ℤ) (r u : ℝ), 0 < d → E.digits10 < d * 2 ^ fuel → 0 ≤ u → u ≤ 1 / 100 → u ^ 14 ≤ (10 : ℝ) ^ (-(s * d)) →
    2 * p * |r * R - 1| ≤ u →
    ∃ w : ℝ, 0 ≤ w ∧ w ≤ 1 / 100 ∧ w ^ 14 ≤ (10 : ℝ) ^ (-(s * (E.digits10 + 1))) ∧
      2 * p * |Gf.rootLoop (realGen E) x p fuel d r * R - 1| ≤ w
  | 0, d, r, u, _, hd, u0, u1, h14, hr => by
    refine ⟨u, u0, u1, h14.trans (zpow_le_zpow_right₀ (by norm_num) ?_), hr⟩
    norm_num at hd
    nlinarith
  | fuel + 1, d, r, u, d0, hd, u0, u1, h14, hr => by
    unfold Gf.rootLoop
    by_cases h : d ≤ (realGen E).digits10
    · rw [if_pos h]
      refine rootLoop_acc E hR hp RR fuel (d * 2) _ (u ^ 2) (by omega) (by rw [pow_succ'] at hd; linarith) (by positivity) (by nlinarith) ?_ ?_
      · rw [← pow_mul, show 2 * 14 = 14 * 2 by norm_num, pow_mul,
          show (-((s : ℤ) * (d * 2))) = -(s * d) * (2 : ℕ) by push_cast; ring, zpow_mul, zpow_natCast]
        exact pow_le_pow_left₀ (by positivity) h14 2
      · have hpw : Gf.pownNat ((realGen E).ofI 1) (realGen E).mul r (p : ℤ).natAbs = r ^ p := by
          rw [show (realGen E).ofI 1 = 1 by simp [realGen], show (realGen E).mul = (· * ·) from rfl, gpownNat_spec]
          simp
        rw [hpw]
        change 2 * p * |r * ((-r ^ p * x + ((1 : ℤ) : ℝ)) / ((p : ℤ) : ℝ) + ((1 : ℤ) : ℝ)) * R - 1| ≤ u ^ 2
        obtain ⟨e, rfl⟩ : ∃ e, r = (1 + e) / R := ⟨r * R - 1, by field_simp; ring⟩
        have e1 : (1 + e) / R * R - 1 = e := by field_simp; ring
        rw [e1] at hr
        have p0 : (0 : ℝ) < p := by exact_mod_cast (by omega : 0 < p)
        have e2 : ((1 + e) / R) ^ p * x = (1 + e) ^ p := by
          rw [div_pow, RR]
          have : 0 < x := RR ▸ pow_pos hR p
          field_simp
        have h := rootStep_near (e := e) (p := p) (by omega) (by linarith)
        have e3 : (1 + e) / R * ((-((1 + e) / R) ^ p * x + ((1 : ℤ) : ℝ)) / ((p : ℤ) : ℝ) + ((1 : ℤ) : ℝ)) * R - 1 =
            (1 + e) * ((-(1 + e) ^ p + 1) / p + 1) - 1 := by
          rw [neg_mul, e2]
          push_cast
          field_simp
        rw [e3]
        have h2 : (2 * p * |e|) * (2 * p * |e|) ≤ u * u := mul_le_mul hr hr (by positivity) u0
        have h3 := mul_le_mul_of_nonneg_left h (by positivity : (0 : ℝ) ≤ 2 * p)
        rw [← sq_abs e] at h3
        nlinarith
    · rw [if_neg h]
      have h' : E.digits10 < d := not_le.1 h
      refine ⟨u, u0, u1, h14.trans (zpow_le_zpow_right₀ (by norm_num) ?_), hr⟩
      nlinarith

/-- The `p`-th root for positive `x` and `3 ≤ p ≤ 256`.  The estimate has `s` correct digits, with the room lost to `p`
taken off, of the 14 that the loop counts; the result has the same share of the digits asked for. -/
theorem rootnPos_acc {E : GenEnv} (hE : E.Good) (sq : ℝ → ℝ) {x : ℝ} (hx : 0 < x) {p s : ℕ} (hp : 3 ≤ p) (hp2 : p ≤ 256)
    (hs : p * 10 ^ s ≤ 4 * 10 ^ 14) (s1 : 2 ≤ s) :
    ∃ w : ℝ, 0 ≤ w ∧ w ≤ 1 / 100 ∧ w ^ 14 ≤ (10 : ℝ) ^ (-(s * (E.digits10 + 1))) ∧
      |Gf.rootnPos (realGen E) sq x p - x ^ ((1 : ℝ) / p)| ≤ w / p * x ^ ((1 : ℝ) / p) := by
  have R0 : 0 < x ^ ((1 : ℝ) / p) := Real.rpow_pos_of_pos hx _
  have p0 : (0 : ℝ) < p := by exact_mod_cast (by omega : 0 < p)
  have p3 : (3 : ℝ) ≤ p := by exact_mod_cast hp
  have RR : (x ^ ((1 : ℝ) / p)) ^ p = x := by
    rw [← Real.rpow_natCast, ← Real.rpow_mul hx.le]
    field_simp
    exact Real.rpow_one x
  have st := rootStart_acc hE hx hp hp2
  have hs' : (p : ℝ) * 10 ^ s ≤ 4 * 10 ^ 14 := by exact_mod_cast hs
  obtain ⟨w, w0, w1, w14, hw⟩ := rootLoop_acc E R0 hp RR (s := s) 32 14 (Gf.rootStart (realGen E) x p) ((10 : ℝ) ^ (-(s : ℤ)))
    (by norm_num) (by have := hE.dig1; norm_num at this ⊢; omega) (by positivity)
    (by
      refine le_trans (zpow_le_zpow_right₀ (by norm_num) (?_ : _ ≤ (-2 : ℤ))) (by norm_num)
      omega)
    (by rw [← zpow_natCast, ← zpow_mul]; norm_num)
    (by
      rw [zpow_neg, zpow_natCast, ← one_div, le_div_iff₀ (by positivity)]
      calc 2 * (p : ℝ) * |Gf.rootStart (realGen E) x p * x ^ ((1 : ℝ) / p) - 1| * 10 ^ s
          = 2 * ((p : ℝ) * 10 ^ s) * |Gf.rootStart (realGen E) x p * x ^ ((1 : ℝ) / p) - 1| := by ring
        _ ≤ 2 * (4 * 10 ^ 14) * (12 / 10 ^ 16) := by gcongr
        _ ≤ 1 := by norm_num)
  refine ⟨w, w0, w1, w14, ?_⟩
  unfold Gf.rootnPos
  rw [if_neg (by rw [rg_isneg]; push Not; exact ⟨by omega, hx.le⟩), if_neg (by omega), if_neg (by omega)]
  change |((1 : ℤ) : ℝ) / Gf.rootLoop (realGen E) x p 32 14 (Gf.rootStart (realGen E) x p) - x ^ ((1 : ℝ) / p)| ≤ _
  generalize Gf.rootLoop (realGen E) x p 32 14 (Gf.rootStart (realGen E) x p) = v at *
  generalize x ^ ((1 : ℝ) / p) = R at *
  have hv : |v * R - 1| ≤ w / (2 * p) := by
    rw [le_div_iff₀ (by positivity)]; linarith
  have h := (root_of_inv R0 hv (by rw [div_le_iff₀ (by positivity)]; linarith)).2
  rw [abs_sub_comm]
  push_cast
  rw [one_div]
  refine h.trans (mul_le_mul_of_nonneg_right ?_ R0.le)
  rw [← sub_nonneg, show w / p - 102 / 100 * (w / (2 * p)) = 49 / 100 * (w / p) by field_simp; ring]
  positivity

/-- C98.  `rootn` in exact arithmetic: a negative index gives the root of the reciprocal; the index 1 returns the
argument, the index 2 the square root; a negative argument and the index 0 give NaN; an index from 3 to 256 gives the
root with relative error `w / |p|`, where `w^14 ≤ 10^(-s (D + 1))` and `10^s ≤ 4 * 10^14 / |p|`.  For `|p| ≤ 4` take
`s = 14`: then `w ≤ 10^-(D+1)`. -/
theorem C98_rootn_partial {E : GenEnv} (hE : E.Good) {x : ℝ} {p : ℕ} (hx : 0 < x) :
    (∀ sgn : Bool, 3 ≤ p → p ≤ 256 → ∀ s : ℕ, 2 ≤ s → p * 10 ^ s ≤ 4 * 10 ^ 14 →
      ∃ y w : ℝ, Gf.rootn (realGen E) (Gf.sqrt (realGen E)) x (if sgn then -p else p) = some y ∧
        0 ≤ w ∧ w ^ 14 ≤ (10 : ℝ) ^ (-(s * (E.digits10 + 1))) ∧
        |y - x ^ ((if sgn then -1 else 1 : ℝ) / p)| ≤ w / p * x ^ ((if sgn then -1 else 1 : ℝ) / p)) ∧
    (2 * E.minv ≤ x → ∃ y : ℝ, Gf.rootn (realGen E) (Gf.sqrt (realGen E)) x 2 = some y ∧
      |y - x ^ ((1 : ℝ) / 2)| ≤ (10 : ℝ) ^ (-E.digits10 - 1) / 5 * x ^ ((1 : ℝ) / 2)) ∧
    (Gf.rootn (realGen E) (Gf.sqrt (realGen E)) x 1 = some x ∧ Gf.rootn (realGen E) (Gf.sqrt (realGen E)) x (-1) = some x⁻¹ ∧
      Gf.rootn (realGen E) (Gf.sqrt (realGen E)) x 0 = some E.nan) ∧
    ∀ sgn : Bool, p < 2 ^ 31 → Gf.rootn (realGen E) (Gf.sqrt (realGen E)) (-x) (if sgn then -p else p) = some E.nan := by
  refine ⟨fun sgn hp hp2 s s1 hs => ?_, fun h2 => ?_, ⟨?_, ?_, ?_⟩, fun sgn hp => ?_⟩
  · cases sgn with
    | false =>
      obtain ⟨w, w0, _, w14, hw⟩ := rootnPos_acc hE (Gf.sqrt (realGen E)) hx hp hp2 hs s1
      refine ⟨_, w, ?_, w0, w14, hw⟩
      unfold Gf.rootn
      rw [if_neg (by simp)]
      simp
    | true =>
      obtain ⟨w, w0, _, w14, hw⟩ := rootnPos_acc hE (Gf.sqrt (realGen E)) (inv_pos.2 hx) hp hp2 hs s1
      refine ⟨Gf.rootnPos (realGen E) (Gf.sqrt (realGen E)) x⁻¹ p, w, ?_, w0, w14, ?_⟩
      · unfold Gf.rootn
        rw [if_pos (by simp; omega), if_neg (by simp; omega)]
        congr 2
        · change ((1 : ℤ) : ℝ) / x = x⁻¹
          rw [Int.cast_one, one_div]
        · simp
      · simp only [if_true]
        rw [neg_div, Real.rpow_neg hx.le, ← Real.inv_rpow hx.le]
        exact hw
  · refine ⟨Gf.sqrt (realGen E) x, ?_, ?_⟩
    · unfold Gf.rootn Gf.rootnPos
      rw [if_neg (by norm_num), if_neg (by rw [rg_isneg]; push Not; exact ⟨by norm_num, hx.le⟩), if_neg (by norm_num), if_pos rfl]
    · rw [← Real.sqrt_eq_rpow]
      exact (C97_sqrt_partial hE x).1 h2
  · unfold Gf.rootn Gf.rootnPos
    rw [if_neg (by norm_num), if_neg (by rw [rg_isneg]; push Not; exact ⟨by norm_num, hx.le⟩), if_pos rfl]
  · unfold Gf.rootn Gf.rootnPos
    have e : (realGen E).div ((realGen E).ofI 1) x = x⁻¹ := by
      change ((1 : ℤ) : ℝ) / x = x⁻¹
      rw [Int.cast_one, one_div]
    rw [if_pos (by norm_num), if_neg (by norm_num), if_neg (by
      rw [rg_isneg, e]; push Not; exact ⟨by norm_num, (inv_pos.2 hx).le⟩), if_pos (by norm_num), e]
  · unfold Gf.rootn Gf.rootnPos
    rw [if_neg (by norm_num), if_pos (Or.inl rfl)]
    rfl
  · have e : (realGen E).div ((realGen E).ofI 1) (-x) = -x⁻¹ := by
      change ((1 : ℤ) : ℝ) / (-x) = -x⁻¹
      rw [Int.cast_one, one_div, inv_neg]
    have neg1 : Gf.isneg (realGen E) (-x) = true := by rw [rg_isneg]; linarith
    have neg2 : Gf.isneg (realGen E) (-x⁻¹) = true := by rw [rg_isneg]; linarith [inv_pos.2 hx]
    unfold Gf.rootn Gf.rootnPos
    rw [e, neg1, neg2]
    by_cases h : (if sgn then -(p : ℤ) else p) < 0
    · rw [if_pos h, if_neg (by cases sgn <;> simp; omega), if_pos (Or.inr rfl)]
      rfl
    · rw [if_neg h, if_pos (Or.inr rfl)]
      rfl

/-- C98 at the smallest index: the negation overflows. -/
theorem C98_min_refuted (E : GenEnv) (sq : ℝ → ℝ) (x : ℝ) : Gf.rootn (realGen E) sq x (-2 ^ 31) = none := by
  unfold Gf.rootn
  rw [if_pos (by norm_num), if_pos (by norm_num)]

/-- C98 for `float` and `double`: the specialisations return `pow(x, p)`, which for `x > 1` and `p ≥ 2` exceeds `x`, let
alone its root. -/
theorem C98_builtin_refuted {x : ℝ} (hx : 1 < x) {p : ℤ} (hp : 2 ≤ p) :
    x < rootnBuiltin (fun a b : ℝ => a ^ b) (fun n : ℤ => (n : ℝ)) x p ∧ x ^ ((1 : ℝ) / p) < x := by
  have p2 : (2 : ℝ) ≤ p := by exact_mod_cast hp
  unfold rootnBuiltin
  constructor
  · calc x = x ^ (1 : ℝ) := (Real.rpow_one x).symm
      _ < x ^ (p : ℝ) := Real.rpow_lt_rpow_of_exponent_lt hx (by linarith)
  · calc x ^ ((1 : ℝ) / p) < x ^ (1 : ℝ) := Real.rpow_lt_rpow_of_exponent_lt hx (by rw [div_lt_one (by linarith)]; linarith)
      _ = x := Real.rpow_one x

/-- A case: for 100 digits the cube root of two is good to `10^-101 / 3`. -/
example : ∃ E : GenEnv, E.Good ∧ E.digits10 = 100 ∧ ∃ y, Gf.rootn (realGen E) (Gf.sqrt (realGen E)) 2 3 = some y ∧
    |y - 2 ^ ((1 : ℝ) / 3)| ≤ (10 : ℝ) ^ (-101 : ℤ) / 3 * 2 ^ ((1 : ℝ) / 3) := by
  obtain ⟨E, hE, hd⟩ := good_exists 100 (by norm_num) (by norm_num)
  obtain ⟨y, w, h1, w0, w14, h2⟩ := (C98_rootn_partial hE (x := 2) (p := 3) (by norm_num)).1 false (by norm_num) (by norm_num) 14 (by norm_num) (by norm_num)
  refine ⟨E, hE, hd, y, h1, h2.trans (mul_le_mul_of_nonneg_right ?_ (by positivity))⟩
  have : w ≤ (10 : ℝ) ^ (-101 : ℤ) := by
    rw [hd] at w14
    refine le_of_pow_le_pow_left₀ (n := 14) (by norm_num) (by positivity) (w14.trans (le_of_eq ?_))
    rw [← zpow_natCast, ← zpow_mul]
    norm_num
  exact div_le_div_of_nonneg_right this (by norm_num)

end EFX.Props
