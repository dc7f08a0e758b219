import Verif.Lemmas.RndExp2
import Verif.Lemmas.RndTrig3
import Mathlib.Analysis.Complex.Trigonometric
/-!
# Powers, hyperbolic functions and quotients of trigonometric functions in rounded arithmetic
-/

namespace EFX
open Finset

variable {α : Type} {A : Arith α} {v : α → ℝ} {ok : α → Prop} {u : ℝ}

namespace Rnd

/-! ### integer powers -/

/-- `pown` of a number of full precision. -/
theorem pown_acc (R : Rnd A v ok u) {x : α} (hx : ok x) {K : ℤ} (K0 : 0 ≤ K) (hs : Sz K (v x)) {p : ℤ} (hK : |p| * K ≤ 800000000)
    (hp : |p| ≤ 10 ^ 9) :
    ok (Fn.pown A x p) ∧ NearR (u * (2 + |(p : ℝ)| / 1000)) (v (Fn.pown A x p)) (v x ^ p) := by
  have u0 := R.u0
  have u1 := R.u1
  have ha : ((p.natAbs : ℕ) : ℤ) = |p| := Int.natCast_natAbs p
  have har : ((p.natAbs : ℕ) : ℝ) = |(p : ℝ)| := by rw [Nat.cast_natAbs, Int.cast_abs]
  have hpr : |(p : ℝ)| ≤ 10 ^ 9 := by exact_mod_cast hp
  have hp0 : 0 ≤ |(p : ℝ)| := abs_nonneg _
  have hup : u * |(p : ℝ)| ≤ 1 / 10 ^ 30 * 10 ^ 9 := mul_le_mul u1 hpr hp0 (by norm_num)
  have hup0 : 0 ≤ u * |(p : ℝ)| := by positivity
  have hg : (2 * p.natAbs : ℕ) * (u / 10 ^ 4) ≤ 1 / 4 := by
    push_cast
    rw [har]
    linarith
  obtain ⟨o, e⟩ := R.pownNat_acc (le_refl (u / 10 ^ 4)) K0 hs (p := p.natAbs) hg (by rw [ha]; omega) hx (NearR.rfl' (by positivity))
  have e' : NearR (4 * ((p.natAbs : ℕ) : ℝ) * (u / 10 ^ 4)) (v (pownNat (Fn.one A) A.mul x p.natAbs)) (v x ^ p.natAbs) := by
    refine NearR.mono e ?_
    have := pow_sub_le (g := u / 10 ^ 4) (by positivity) (2 * p.natAbs) hg
    push_cast at this ⊢
    linarith
  have hnan : |p| = -p → p ≠ -9223372036854775808 := by intro _ hc; rw [hc] at hp; norm_num at hp
  unfold Fn.pown pown
  by_cases hn : p < 0
  · rw [if_pos hn, if_neg (hnan (abs_of_neg hn)), Option.getD_some]
    have hsz : Sz 900000000 (v x ^ p.natAbs) := (hs.pow p.natAbs).mono (by rw [ha]; omega)
    obtain ⟨o1, e1⟩ := R.recip_acc o (by positivity) (by rw [har]; linarith) hsz.ne e' hsz
    refine ⟨o1, ?_⟩
    have hz : v x ^ p = (v x ^ p.natAbs)⁻¹ := by
      rw [← zpow_natCast, ← zpow_neg, ha, abs_of_neg hn, neg_neg]
    rw [hz]
    refine NearR.mono e1 ?_
    rw [har]; linarith
  · rw [if_neg hn, Option.getD_some]
    refine ⟨o, ?_⟩
    have hz : v x ^ p = v x ^ p.natAbs := by
      rw [← zpow_natCast, ha, abs_of_nonneg (not_lt.1 hn)]
    rw [hz]
    refine NearR.mono e' ?_
    rw [har]; linarith

/-- `pow(e_float, int64)` of a number of full precision. -/
theorem powI_acc (R : Rnd A v ok u) {x : α} (hx : ok x) {K : ℤ} (K0 : 0 ≤ K) (hs : Sz K (v x)) {p : ℤ} (hK : |p| * K ≤ 800000000)
    (hp : |p| ≤ 10 ^ 9) :
    ok (Fn.powI A x p) ∧ NearR (u * (2 + |(p : ℝ)| / 1000)) (v (Fn.powI A x p)) (v x ^ p) := by
  have u0 := R.u0
  have u1 := R.u1
  have ha : ((p.natAbs : ℕ) : ℤ) = |p| := Int.natCast_natAbs p
  have har : ((p.natAbs : ℕ) : ℝ) = |(p : ℝ)| := by rw [Nat.cast_natAbs, Int.cast_abs]
  have hpr : |(p : ℝ)| ≤ 10 ^ 9 := by exact_mod_cast hp
  have hp0 : 0 ≤ |(p : ℝ)| := abs_nonneg _
  have hup : u * |(p : ℝ)| ≤ 1 / 10 ^ 30 * 10 ^ 9 := mul_le_mul u1 hpr hp0 (by norm_num)
  have hup0 : 0 ≤ u * |(p : ℝ)| := by positivity
  have hg : (4 * p.natAbs : ℕ) * (u / 10 ^ 4) ≤ 1 / 4 := by
    push_cast
    rw [har]
    linarith
  obtain ⟨o, e⟩ := R.powNat_acc (le_refl (u / 10 ^ 4)) K0 hs (p := p.natAbs) hg (by push_cast; rw [mul_assoc]; omega) hx (NearR.rfl' (by positivity))
  have hg2 : (2 * p.natAbs : ℕ) * (u / 10 ^ 4) ≤ 1 / 4 := by
    push_cast
    have : 0 ≤ |(p : ℝ)| * (u / 10 ^ 4) := by positivity
    rw [har]
    linarith
  have e' : NearR (4 * ((p.natAbs : ℕ) : ℝ) * (u / 10 ^ 4)) (v (powNat (Fn.one A) A.mul x p.natAbs)) (v x ^ p.natAbs) := by
    refine NearR.mono e ?_
    have := pow_sub_le (g := u / 10 ^ 4) (by positivity) (2 * p.natAbs) hg2
    push_cast at this ⊢
    linarith
  have hnan : |p| = -p → p ≠ -9223372036854775808 := by intro _ hc; rw [hc] at hp; norm_num at hp
  unfold Fn.powI powInt
  by_cases hn : p < 0
  · rw [if_pos hn, if_neg (hnan (abs_of_neg hn)), Option.getD_some]
    have hsz : Sz 900000000 (v x ^ p.natAbs) := (hs.pow p.natAbs).mono (by rw [ha]; omega)
    obtain ⟨o1, e1⟩ := R.recip_acc o (by positivity) (by rw [har]; linarith) hsz.ne e' hsz
    refine ⟨o1, ?_⟩
    have hz : v x ^ p = (v x ^ p.natAbs)⁻¹ := by
      rw [← zpow_natCast, ← zpow_neg, ha, abs_of_neg hn, neg_neg]
    rw [hz]
    refine NearR.mono e1 ?_
    rw [har]; linarith
  · rw [if_neg hn, Option.getD_some]
    refine ⟨o, ?_⟩
    have hz : v x ^ p = v x ^ p.natAbs := by
      rw [← zpow_natCast, ha, abs_of_nonneg (not_lt.1 hn)]
    rw [hz]
    refine NearR.mono e' ?_
    rw [har]; linarith

/-! ### hyperbolic functions -/

/-- Sine and cosine hyperbolic. -/
theorem sinhcosh_acc (R : Rnd A v ok u) (H : ExpEnv A v ok u) {x : α} (hx : ok x) (x1 : |v x| ≤ 10 ^ 8) (old : α × α) :
    ok (Fn.sinhcosh A x old).1 ∧ |v (Fn.sinhcosh A x old).1 - Real.sinh (v x)| ≤ u * (1010 + 2 * |v x|) * Real.cosh (v x) ∧
    (v (Fn.sinhcosh A x old).1 = 0 ∨ Sz 400000000 (v (Fn.sinhcosh A x old).1)) ∧
    ok (Fn.sinhcosh A x old).2 ∧ |v (Fn.sinhcosh A x old).2 - Real.cosh (v x)| ≤ u * (1010 + 2 * |v x|) * Real.cosh (v x) ∧
    Sz 400000000 (Real.cosh (v x)) := by
  have u0 := R.u0
  have u1 := R.u1
  have ch := Real.cosh_pos (v x)
  have ax := abs_nonneg (v x)
  obtain ⟨op, ep, sp⟩ := R.exp_acc H hx x1
  have big : pw 300000001 ≤ pw 2000000000 := pw_mono (by norm_num)
  have e1 : Real.exp (v x) ≤ 2 * Real.cosh (v x) := by
    rw [Real.cosh_eq]; have := Real.exp_pos (-v x); linarith
  have e2 : Real.exp (-v x) ≤ 2 * Real.cosh (v x) := by
    rw [Real.cosh_eq]; have := Real.exp_pos (v x); linarith
  have esum : Real.exp (v x) + Real.exp (-v x) = 2 * Real.cosh (v x) := by rw [Real.cosh_eq]; ring
  have ediff : Real.exp (v x) - Real.exp (-v x) = 2 * Real.sinh (v x) := by rw [Real.sinh_eq]; ring
  have c1 : 1 ≤ Real.cosh (v x) := by
    have := Real.cosh_sq_sub_sinh_sq (v x)
    nlinarith [sq_nonneg (Real.sinh (v x))]
  have sp' : Sz 300000000 (Real.exp (-v x)) := by rw [Real.exp_neg]; exact sp.inv
  have sc : Sz 400000000 (Real.cosh (v x)) := by
    refine ⟨?_, ?_⟩
    · rw [abs_of_pos ch]
      refine le_trans (pw_le_one (by norm_num)) c1
    · rw [abs_of_pos ch]
      have h1 := sp.2
      have h2 := sp'.2
      rw [abs_of_pos (Real.exp_pos _)] at h1 h2
      have : pw 300000000 ≤ pw 400000000 := pw_mono (by norm_num)
      linarith
  unfold Fn.sinhcosh
  rw [R.isfinite_ok hx]
  simp only [Bool.not_true, Bool.false_eq_true, if_false]
  by_cases hz : v x = 0
  · rw [if_pos ((R.iszero _ hx).2 hz)]
    refine ⟨R.zero.1, ?_, Or.inl R.zero.2, R.one.1, ?_, sc⟩
    · rw [R.zero.2, hz]; simp; positivity
    · rw [R.one.2, hz]; simp; positivity
  rw [if_neg (fun h => hz ((R.iszero _ hx).1 h))]
  have ux : u * |v x| ≤ 1 / 10 ^ 30 * 10 ^ 8 := mul_le_mul u1 x1 ax (by norm_num)
  have ux0 : 0 ≤ u * |v x| := by positivity
  have f0 : 0 ≤ u * (500 + |v x|) := by positivity
  have f1 : u * (500 + |v x|) ≤ 1 / 1000 := by linarith
  obtain ⟨om, em⟩ := R.recip_acc op f0 (by linarith) (Real.exp_pos _).ne' ep (sp.mono (by norm_num))
  rw [← Real.exp_neg] at em
  generalize Fn.exp A x = p at *
  generalize A.div (Fn.one A) p = m at *
  unfold NearR at ep em
  rw [abs_of_pos (Real.exp_pos _)] at ep em
  have ppos := Real.exp_pos (v x)
  have mpos := Real.exp_pos (-v x)
  have hp1 : |v p| ≤ 11 / 10 * Real.exp (v x) := by
    have := abs_sub_abs_le_abs_sub (v p) (Real.exp (v x))
    rw [abs_of_pos ppos] at this
    have h2 : u * (500 + |v x|) * Real.exp (v x) ≤ 1 / 10 * Real.exp (v x) := mul_le_mul_of_nonneg_right (by linarith) ppos.le
    linarith
  have hm1 : |v m| ≤ 11 / 10 * Real.exp (-v x) := by
    have := abs_sub_abs_le_abs_sub (v m) (Real.exp (-v x))
    rw [abs_of_pos mpos] at this
    have h2 : (2 * (u * (500 + |v x|)) + u * (11 / 10)) * Real.exp (-v x) ≤ 1 / 10 * Real.exp (-v x) :=
      mul_le_mul_of_nonneg_right (by linarith) mpos.le
    linarith
  have pb : |v p| ≤ pw 2000000000 := by
    have h1 := sp.2
    rw [abs_of_pos ppos] at h1
    have : pw 300000001 = pw 300000000 * 10 := by rw [← pw_one, ← pw_add]; norm_num
    have := pw_pos 300000000
    linarith
  have mb : |v m| ≤ pw 2000000000 := by
    have h1 := sp'.2
    rw [abs_of_pos mpos] at h1
    have : pw 300000001 = pw 300000000 * 10 := by rw [← pw_one, ← pw_add]; norm_num
    have := pw_pos 300000000
    linarith
  obtain ⟨o1, d1, dz, dnz⟩ := R.sub p m op om pb mb
  obtain ⟨o2, d2⟩ := R.add p m op om pb mb
  obtain ⟨o3, d3⟩ := R.divI (A.sub p m) 2 o1 (by norm_num) (by norm_num)
  obtain ⟨o4, d4⟩ := R.divI (A.add p m) 2 o2 (by norm_num) (by norm_num)
  push_cast at d3 d4
  -- the errors of the two halves
  have q1 : u * (500 + |v x|) * Real.exp (v x) + (2 * (u * (500 + |v x|)) + u * (11 / 10)) * Real.exp (-v x) ≤
      (2 * (u * (500 + |v x|)) + u * (11 / 10)) * (2 * Real.cosh (v x)) := by
    rw [← esum, mul_add]
    have : 0 ≤ (u * (500 + |v x|) + u * (11 / 10)) * Real.exp (v x) := by positivity
    linarith
  have q2 : u / 10 ^ 12 * (|v p| + |v m|) ≤ u / 10 ^ 12 * (11 / 10 * (2 * Real.cosh (v x))) :=
    mul_le_mul_of_nonneg_left (by rw [← esum]; linarith) (by positivity)
  have uc : 0 ≤ u * Real.cosh (v x) := by positivity
  have uxc : 0 ≤ u * |v x| * Real.cosh (v x) := by positivity
  have uxc1 : u * (500 + |v x|) * Real.cosh (v x) ≤ 1 / 1000 * Real.cosh (v x) := mul_le_mul_of_nonneg_right f1 ch.le
  have uc1 : u * Real.cosh (v x) ≤ 1 / 1000 * Real.cosh (v x) := mul_le_mul_of_nonneg_right (by linarith) ch.le
  have g1 : |v (A.sub p m) / 2 - Real.sinh (v x)| ≤ u * (2 * (500 + |v x|) + 12 / 10) * Real.cosh (v x) := by
    have h1 := abs_sub_le (v (A.sub p m)) (v p - v m) (2 * Real.sinh (v x))
    rw [← ediff] at h1
    have h2 : |v p - v m - (Real.exp (v x) - Real.exp (-v x))| ≤ |v p - Real.exp (v x)| + |v m - Real.exp (-v x)| := by
      have := abs_sub (v p - Real.exp (v x)) (v m - Real.exp (-v x))
      rwa [show v p - Real.exp (v x) - (v m - Real.exp (-v x)) = v p - v m - (Real.exp (v x) - Real.exp (-v x)) by ring] at this
    have h3 : |v (A.sub p m) / 2 - Real.sinh (v x)| = |v (A.sub p m) - (Real.exp (v x) - Real.exp (-v x))| / 2 := by
      rw [ediff, show v (A.sub p m) / 2 - Real.sinh (v x) = (v (A.sub p m) - 2 * Real.sinh (v x)) / 2 by ring, abs_div,
        abs_of_pos (by norm_num : (0 : ℝ) < 2)]
    rw [h3]
    linarith
  have g2 : |v (A.add p m) / 2 - Real.cosh (v x)| ≤ u * (2 * (500 + |v x|) + 12 / 10) * Real.cosh (v x) := by
    have h1 := abs_sub_le (v (A.add p m)) (v p + v m) (2 * Real.cosh (v x))
    rw [← esum] at h1
    have h2 : |v p + v m - (Real.exp (v x) + Real.exp (-v x))| ≤ |v p - Real.exp (v x)| + |v m - Real.exp (-v x)| := by
      have := abs_add_le (v p - Real.exp (v x)) (v m - Real.exp (-v x))
      rwa [show v p - Real.exp (v x) + (v m - Real.exp (-v x)) = v p + v m - (Real.exp (v x) + Real.exp (-v x)) by ring] at this
    have h3 : |v (A.add p m) / 2 - Real.cosh (v x)| = |v (A.add p m) - (Real.exp (v x) + Real.exp (-v x))| / 2 := by
      rw [esum, show v (A.add p m) / 2 - Real.cosh (v x) = (v (A.add p m) - 2 * Real.cosh (v x)) / 2 by ring, abs_div,
        abs_of_pos (by norm_num : (0 : ℝ) < 2)]
    rw [h3]
    linarith
  have sle : |Real.sinh (v x)| ≤ Real.cosh (v x) := by
    rw [abs_le]
    constructor
    · have := Real.exp_pos (v x); rw [← Real.cosh_add_sinh] at this; linarith
    · exact (Real.sinh_lt_cosh (v x)).le
  have k1 : |v (A.sub p m) / 2| ≤ 11 / 10 * Real.cosh (v x) := by
    have := abs_sub_abs_le_abs_sub (v (A.sub p m) / 2) (Real.sinh (v x))
    linarith
  have k2 : |v (A.add p m) / 2| ≤ 11 / 10 * Real.cosh (v x) := by
    have := abs_sub_abs_le_abs_sub (v (A.add p m) / 2) (Real.cosh (v x))
    rw [abs_of_pos ch] at this
    linarith
  have k3 := mul_le_mul_of_nonneg_left k1 u0.le
  have k4 := mul_le_mul_of_nonneg_left k2 u0.le
  refine ⟨o3, ?_, ?_, o4, ?_, sc⟩
  · have := abs_sub_le (v (A.divI (A.sub p m) 2)) (v (A.sub p m) / 2) (Real.sinh (v x))
    linarith
  · have pne : v p ≠ 0 := by
      intro hc
      rw [hc, zero_sub, abs_neg, abs_of_pos ppos] at ep
      have : u * (500 + |v x|) * Real.exp (v x) ≤ 1 / 1000 * Real.exp (v x) := mul_le_mul_of_nonneg_right f1 ppos.le
      linarith
    have n3 : NearR u (v (A.divI (A.sub p m) 2)) (v (A.sub p m) / 2) := d3
    by_cases hpm : v p = v m
    · left
      have hd := dz hpm
      rw [hd] at d3
      simpa using d3
    · right
      have h1 := dnz pne hpm
      have hlow : pw (-300000000) / 2 ≤ |v p| := by
        have h2 := sp.1
        rw [abs_of_pos ppos] at h2
        have h3 := abs_sub_abs_le_abs_sub (Real.exp (v x)) (v p)
        rw [abs_sub_comm, abs_of_pos ppos] at h3
        have : u * (500 + |v x|) * Real.exp (v x) ≤ 1 / 1000 * Real.exp (v x) := mul_le_mul_of_nonneg_right f1 ppos.le
        linarith
      have hs2 : Sz 300006000 (v (A.sub p m) / 2) := by
        rw [Sz, abs_div, abs_of_pos (by norm_num : (0 : ℝ) < 2)]
        constructor
        · have h4 := mul_le_mul_of_nonneg_left hlow (pw_pos (-5200)).le
          have h5 : pw (-300006000) * 4 ≤ pw (-5200) * pw (-300000000) := by
            rw [← pw_add]
            have h6 : pw (-5200 + -300000000) = pw (-300006000) * pw 800 := by rw [← pw_add]; norm_num
            rw [h6]
            apply mul_le_mul_of_nonneg_left _ (pw_pos _).le
            refine le_trans (show (4 : ℝ) ≤ pw 1 by rw [pw_one]; norm_num) (pw_mono (by norm_num))
          linarith
        · rw [abs_div, abs_of_pos (by norm_num : (0 : ℝ) < 2)] at k1
          have h1 := sp.2
          have h2 := sp'.2
          rw [abs_of_pos ppos] at h1
          rw [abs_of_pos mpos] at h2
          have h3 : pw 300000000 * 10 ≤ pw 300006000 := by
            rw [← pw_one, ← pw_add]; exact pw_mono (by norm_num)
          linarith
      exact (n3.sz (by linarith) hs2).mono (by norm_num)
  · have := abs_sub_le (v (A.divI (A.add p m) 2)) (v (A.add p m) / 2) (Real.cosh (v x))
    linarith

theorem sinh_acc (R : Rnd A v ok u) (H : ExpEnv A v ok u) {x : α} (hx : ok x) (x1 : |v x| ≤ 10 ^ 8) :
    ok (Fn.sinh A x) ∧ |v (Fn.sinh A x) - Real.sinh (v x)| ≤ u * (1010 + 2 * |v x|) * Real.cosh (v x) ∧
    ok (Fn.cosh A x) ∧ |v (Fn.cosh A x) - Real.cosh (v x)| ≤ u * (1010 + 2 * |v x|) * Real.cosh (v x) := by
  obtain ⟨a, b, -, c, d, -⟩ := R.sinhcosh_acc H hx x1 (Fn.zero A, Fn.zero A)
  unfold Fn.sinh Fn.cosh
  rw [R.isfinite_ok hx]
  simp only [Bool.not_true, Bool.false_eq_true, if_false]
  exact ⟨a, b, c, d⟩

theorem tanh_acc (R : Rnd A v ok u) (H : ExpEnv A v ok u) {x : α} (hx : ok x) (x1 : |v x| ≤ 10 ^ 8) :
    ok (Fn.tanh A x) ∧ |v (Fn.tanh A x) - Real.tanh (v x)| ≤ u * (3200 + 7 * |v x|) := by
  have u0 := R.u0
  have u1 := R.u1
  have ch := Real.cosh_pos (v x)
  have ax := abs_nonneg (v x)
  obtain ⟨o1, e1, s1, o2, e2, s2⟩ := R.sinhcosh_acc H hx x1 (Fn.zero A, Fn.zero A)
  unfold Fn.tanh
  generalize Fn.sinhcosh A x (Fn.zero A, Fn.zero A) = r at *
  obtain ⟨s, c⟩ := r
  simp only at *
  have ux : u * |v x| ≤ 1 / 10 ^ 30 * 10 ^ 8 := mul_le_mul u1 x1 ax (by norm_num)
  have ux0 : 0 ≤ u * |v x| := by positivity
  have η1 : u * (1010 + 2 * |v x|) ≤ 1 / 10 ^ 20 := by norm_num at ux u1 ⊢; linarith
  have η0 : 0 ≤ u * (1010 + 2 * |v x|) := by positivity
  have n2 : NearR (u * (1010 + 2 * |v x|)) (v c) (Real.cosh (v x)) := by unfold NearR; rw [abs_of_pos ch]; exact e2
  have sc := n2.sz (by norm_num at η1 ⊢; linarith) s2
  obtain ⟨o3, e3⟩ := R.inv c o2 (sc.mono (by norm_num))
  -- the product with the exact sine
  have n3 : NearR (u * (2022 + 4 * |v x|)) (v (A.inv c)) (Real.cosh (v x))⁻¹ := by
    have h1 := n2.inv η0 (by norm_num at η1 ⊢; linarith) ch.ne'
    rw [← one_div (v c)] at h1
    have h2 := NearR.trans (f := u) u0.le e3 h1
    refine h2.mono ?_
    have : 2 * (u * (1010 + 2 * |v x|)) * u ≤ 1 * u := mul_le_mul_of_nonneg_right (by norm_num at η1 ⊢; linarith) u0.le
    linarith
  have ci := inv_pos.2 ch
  have h4 : |v s * v (A.inv c) - Real.tanh (v x)| ≤ u * (1010 + 2 * |v x|) * (11 / 10) + u * (2022 + 4 * |v x|) := by
    rw [Real.tanh_eq_sinh_div_cosh, div_eq_mul_inv]
    rw [show v s * v (A.inv c) - Real.sinh (v x) * (Real.cosh (v x))⁻¹ =
      (v s - Real.sinh (v x)) * v (A.inv c) + Real.sinh (v x) * (v (A.inv c) - (Real.cosh (v x))⁻¹) by ring]
    refine le_trans (abs_add_le _ _) ?_
    rw [abs_mul, abs_mul]
    have sle : |Real.sinh (v x)| ≤ Real.cosh (v x) := by
      rw [abs_le]
      constructor
      · have := Real.exp_pos (v x); rw [← Real.cosh_add_sinh] at this; linarith
      · exact (Real.sinh_lt_cosh (v x)).le
    unfold NearR at n3
    rw [abs_of_pos ci] at n3
    have a1 : |v (A.inv c)| ≤ 11 / 10 * (Real.cosh (v x))⁻¹ := by
      have := abs_sub_abs_le_abs_sub (v (A.inv c)) (Real.cosh (v x))⁻¹
      rw [abs_of_pos ci] at this
      have h2 : u * (2022 + 4 * |v x|) * (Real.cosh (v x))⁻¹ ≤ 1 / 10 * (Real.cosh (v x))⁻¹ :=
        mul_le_mul_of_nonneg_right (by norm_num at ux u1 ⊢; linarith) ci.le
      linarith
    have a2 := mul_le_mul e1 a1 (abs_nonneg _) (by positivity)
    have a3 := mul_le_mul sle n3 (abs_nonneg _) ch.le
    have a4 : u * (1010 + 2 * |v x|) * Real.cosh (v x) * (11 / 10 * (Real.cosh (v x))⁻¹) = u * (1010 + 2 * |v x|) * (11 / 10) := by
      field_simp
    have a5 : Real.cosh (v x) * (u * (2022 + 4 * |v x|) * (Real.cosh (v x))⁻¹) = u * (2022 + 4 * |v x|) := by field_simp
    linarith
  rcases s1 with hz | hs
  · obtain ⟨o, e⟩ := R.mul0 s (A.inv c) o1 o3 (by rw [hz, zero_mul])
    refine ⟨o, ?_⟩
    rw [e]
    rw [hz, zero_mul] at h4
    linarith
  · have si := n3.sz (by norm_num at ux u1 ⊢; linarith) s2.inv
    obtain ⟨o, e, -⟩ := R.mul s (A.inv c) o1 o3 ((hs.mul si).mono (by norm_num))
    refine ⟨o, ?_⟩
    have ht : |Real.tanh (v x)| ≤ 1 := (Real.abs_tanh_lt_one _).le
    have h5 := abs_sub_abs_le_abs_sub (v s * v (A.inv c)) (Real.tanh (v x))
    have h6 : |v s * v (A.inv c)| ≤ 2 := by linarith
    have h7 := mul_le_mul_of_nonneg_left h6 (show 0 ≤ u / 10 ^ 4 by positivity)
    have := abs_sub_le (v (A.mul s (A.inv c))) (v s * v (A.inv c)) (Real.tanh (v x))
    linarith

/-! ### quotients -/

/-- A quotient of two numbers known up to `d`. -/
theorem quot_acc (R : Rnd A v ok u) {s c : α} {S C d : ℝ} (hs : ok s) (hc : ok c) (es : |v s - S| ≤ d) (ec : |v c - C| ≤ d)
    (S1 : |S| ≤ 1) (C1 : |C| ≤ 1) (S0 : 1 / 10 ^ 10 ≤ |S|) (C0 : 1 / 10 ^ 10 ≤ |C|) (hd : d ≤ 1 / 10 ^ 20) (ud : 4 * u ≤ d)
    (hne : 0 < S ∨ 1 / 10 ^ 10 ≤ |(|S| - |C|)|) :
    ok (A.div s c) ∧ |v (A.div s c) - S / C| ≤ 3 * d / C ^ 2 := by
  have u0 := R.u0
  have u1 := R.u1
  have d0 : 0 ≤ d := le_trans (abs_nonneg _) es
  have bs := abs_sub_abs_le_abs_sub (v s) S
  have bs' := abs_sub_abs_le_abs_sub S (v s)
  have bc := abs_sub_abs_le_abs_sub (v c) C
  have bc' := abs_sub_abs_le_abs_sub C (v c)
  rw [abs_sub_comm S] at bs'
  rw [abs_sub_comm C] at bc'
  have szs : ∀ {t : ℝ}, 1 / 10 ^ 11 ≤ |t| → |t| ≤ 2 → Sz 1000000000 t := by
    intro t h1 h2
    constructor
    · refine le_trans (pw_mono (show (-1000000000 : ℤ) ≤ -((11 : ℕ) : ℤ) by norm_num)) ?_
      rw [pw_neg, pw_nat, ← one_div]; exact h1
    · refine le_trans h2 (le_trans (show (2 : ℝ) ≤ pw 1 by rw [pw_one]; norm_num) (pw_mono (by norm_num)))
  norm_num at S0 C0 hd hne
  obtain ⟨o, e⟩ := R.div s c hs hc (by
    rcases hne with h | h
    · left
      rw [abs_of_pos h] at S0
      obtain ⟨l, -⟩ := abs_le.1 es
      linarith
    · right
      intro hc
      have h1 : |(|S| - |v s|)| ≤ d := by
        have := abs_abs_sub_abs_le S (v s); rw [abs_sub_comm S] at this; linarith
      have h2 : |(|v c| - |C|)| ≤ d := le_trans (abs_abs_sub_abs_le _ _) ec
      have h3 := abs_add_le (|S| - |v s|) (|v c| - |C|)
      rw [hc, sub_add_sub_cancel] at h3
      rw [hc] at h1
      linarith) (szs (by norm_num; linarith) (by linarith)) (szs (by norm_num; linarith) (by linarith))
  refine ⟨o, ?_⟩
  have Cp : 0 < |C| := by linarith
  have C0' : C ≠ 0 := abs_pos.1 Cp
  have cp : 99 / 100 * |C| ≤ |v c| := by linarith
  have c0' : v c ≠ 0 := abs_pos.1 (by linarith)
  have C2 : C ^ 2 = |C| * |C| := by rw [← sq_abs, sq]
  have C2p : 0 < C ^ 2 := by positivity
  have h1 : |v s / v c - S / C| ≤ 21 / 10 * d / C ^ 2 := by
    rw [show v s / v c - S / C = ((v s - S) * C - S * (v c - C)) / (v c * C) by field_simp; ring, abs_div, abs_mul (v c)]
    rw [div_le_div_iff₀ (by positivity) C2p]
    have h2 : |(v s - S) * C - S * (v c - C)| ≤ 2 * d := by
      refine le_trans (abs_sub _ _) ?_
      rw [abs_mul, abs_mul]
      have a := mul_le_mul es C1 (abs_nonneg _) d0
      have b := mul_le_mul S1 ec (abs_nonneg _) (by norm_num)
      linarith
    have h3 : C ^ 2 * (99 / 100) ≤ |v c| * |C| := by
      rw [C2]
      have := mul_le_mul_of_nonneg_right cp Cp.le
      linarith
    have h4 := mul_le_mul_of_nonneg_right h2 C2p.le
    have h5 := mul_le_mul_of_nonneg_left h3 (show 0 ≤ 21 / 10 * d by linarith)
    have h6 : 0 ≤ d * C ^ 2 := by positivity
    linarith
  have h2 : |v s / v c| ≤ 2 / |C| := by
    rw [abs_div, div_le_div_iff₀ (by positivity) Cp]
    have a := mul_le_mul_of_nonneg_right (show |v s| ≤ 11 / 10 by linarith) Cp.le
    linarith
  have h3 : 2 / |C| ≤ 2 / C ^ 2 := by
    apply div_le_div_of_nonneg_left (by norm_num) C2p
    rw [C2]
    have := mul_le_mul_of_nonneg_left C1 Cp.le
    linarith
  have h4 := mul_le_mul_of_nonneg_left (le_trans h2 h3) u0.le
  have h5 : u * (2 / C ^ 2) ≤ 1 / 2 * d / C ^ 2 := by
    rw [← mul_div_assoc]
    exact div_le_div_of_nonneg_right (by linarith) C2p.le
  have h6 := abs_sub_le (v (A.div s c)) (v s / v c) (S / C)
  have h7 : 21 / 10 * d / C ^ 2 + 1 / 2 * d / C ^ 2 ≤ 3 * d / C ^ 2 := by
    rw [← add_div]
    exact div_le_div_of_nonneg_right (by linarith) C2p.le
  linarith

/-- The two values of which the other four functions are quotients. -/
theorem sin_cos_acc (R : Rnd A v ok u) (P : PiEnv A v ok u) {x : α} (hx : ok x) (x1 : |v x| ≤ 10 ^ 8)
    (xs : v x = 0 ∨ Sz 19000000 (v x)) :
    ok (Fn.sin A x) ∧ |v (Fn.sin A x) - Real.sin (v x)| ≤ u * (10000001 + |v x| / 1000) ∧
    ok (Fn.cos A x) ∧ |v (Fn.cos A x) - Real.cos (v x)| ≤ u * (10000001 + |v x| / 1000) ∧
    u * (10000001 + |v x| / 1000) ≤ 1 / 10 ^ 20 ∧ 4 * u ≤ u * (10000001 + |v x| / 1000) := by
  have u0 := R.u0
  have u1 := R.u1
  obtain ⟨a, b, -⟩ := R.sin_acc P hx x1 xs
  obtain ⟨c, d⟩ := R.cos_acc P hx x1 xs
  have ux : u * |v x| ≤ 1 / 10 ^ 30 * 10 ^ 8 := mul_le_mul u1 x1 (abs_nonneg _) (by norm_num)
  have ux0 : 0 ≤ u * |v x| := by positivity
  refine ⟨a, by linarith, c, d, ?_, by linarith⟩
  norm_num at u1 ux ⊢
  linarith

theorem tan_acc (R : Rnd A v ok u) (P : PiEnv A v ok u) {x : α} (hx : ok x) (x1 : |v x| ≤ 10 ^ 8)
    (xs : v x = 0 ∨ Sz 19000000 (v x)) (hc : 1 / 10 ^ 10 ≤ |Real.cos (v x)|) (hs : 1 / 10 ^ 10 ≤ |Real.sin (v x)|) :
    (0 < Real.sin (v x) ∨ 1 / 10 ^ 10 ≤ |(|Real.sin (v x)| - |Real.cos (v x)|)| →
      ok (Fn.tan A x) ∧ |v (Fn.tan A x) - Real.tan (v x)| ≤ 3 * (u * (10000001 + |v x| / 1000)) / Real.cos (v x) ^ 2) ∧
    (0 < Real.cos (v x) ∨ 1 / 10 ^ 10 ≤ |(|Real.cos (v x)| - |Real.sin (v x)|)| →
      ok (Fn.cot A x) ∧ |v (Fn.cot A x) - Real.cos (v x) / Real.sin (v x)| ≤
        3 * (u * (10000001 + |v x| / 1000)) / Real.sin (v x) ^ 2) := by
  obtain ⟨a, b, c, d, e, f⟩ := R.sin_cos_acc P hx x1 xs
  refine ⟨fun h => ?_, fun h => ?_⟩
  · rw [Real.tan_eq_sin_div_cos]
    exact R.quot_acc a c b d (Real.abs_sin_le_one _) (Real.abs_cos_le_one _) hs hc e f h
  · exact R.quot_acc c a d b (Real.abs_cos_le_one _) (Real.abs_sin_le_one _) hc hs e f h

theorem sec_acc (R : Rnd A v ok u) (P : PiEnv A v ok u) {x : α} (hx : ok x) (x1 : |v x| ≤ 10 ^ 8)
    (xs : v x = 0 ∨ Sz 19000000 (v x)) :
    (1 / 10 ^ 10 ≤ |Real.cos (v x)| → ok (Fn.sec A x) ∧
      |v (Fn.sec A x) - 1 / Real.cos (v x)| ≤ 3 * (u * (10000001 + |v x| / 1000)) / Real.cos (v x) ^ 2) ∧
    (1 / 10 ^ 10 ≤ |Real.sin (v x)| → ok (Fn.csc A x) ∧
      |v (Fn.csc A x) - 1 / Real.sin (v x)| ≤ 3 * (u * (10000001 + |v x| / 1000)) / Real.sin (v x) ^ 2) := by
  have u0 := R.u0
  obtain ⟨a, b, c, d, e, f⟩ := R.sin_cos_acc P hx x1 xs
  have h1 : |v (Fn.one A) - 1| ≤ u * (10000001 + |v x| / 1000) := by
    rw [R.one.2, sub_self, abs_zero]; positivity
  refine ⟨fun h => ?_, fun h => ?_⟩
  · exact R.quot_acc R.one.1 c h1 d (by simp) (Real.abs_cos_le_one _) (by norm_num) h e f (Or.inl one_pos)
  · exact R.quot_acc R.one.1 a h1 b (by simp) (Real.abs_sin_le_one _) (by norm_num) h e f (Or.inl one_pos)

end Rnd
end EFX
