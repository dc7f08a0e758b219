import Verif.Props.AsinRnd
/-!
# C95: the angle of a point below the diagonals
-/

namespace EFX.Props
open EFX EFX.Spec

/-- The quotient of numbers of equal magnitude has the sign of the divisor alone. -/
theorem div_same {c : Cfg} {x y : EFloat} (hx : FinWF c x) (hy : FinWF c y) (h0 : val y ≠ 0) (he : |val y| = |val x|) :
    div c y x = if x.neg then negate (one c) else one c := by
  unfold div divAssign
  rw [if_pos ((finiteIdentical_iff hy hx h0).2 he)]
  have e1 : (one c).neg = false := rfl
  rw [e1]
  cases x.neg <;> simp

/-- C95 fails for `atan2` below the diagonals: whenever `y = -x` with `x > 0` the computed angle is about `pi/4` while
the angle of the point is `-pi/4`, and whenever `y = x` with `x < 0` it is about `-5 pi/4`, outside of `(-pi, pi]`,
while the angle is `-3 pi/4`. -/
theorem C95_atan2_refuted {c : Cfg} (hc : c.digits10 ≤ 1000) {T : Tables} (hT : Const.pi c = some T.pi) {x y : EFloat}
    (hx : FinWF c x) (hp : x.prec = c.elems) (hy : FinWF c y) (hq : y.prec = c.elems) (h0 : GoodStart c (T.atan0 (one c)) (Real.pi / 4)) :
    (0 < val x → val y = -val x →
      |((val (Fn.atan2 (efArith c T) y x) : ℚ) : ℝ) - Real.pi / 4| ≤ 80000000 / 10 ^ (c.digits10 + 1) ∧
      Complex.arg ⟨((val x : ℚ) : ℝ), ((val y : ℚ) : ℝ)⟩ = -(Real.pi / 4)) ∧
    (val x < 0 → val y = val x →
      |((val (Fn.atan2 (efArith c T) y x) : ℚ) : ℝ) - -(5 * Real.pi / 4)| ≤ 80000000 / 10 ^ (c.digits10 + 1) ∧
      Complex.arg ⟨((val x : ℚ) : ℝ), ((val y : ℚ) : ℝ)⟩ = -(3 * Real.pi / 4)) := by
  have R := rnd_efloat (elems_small hc) T
  have P := piEnv hc hT
  have u0 := R.u0
  have u1 := R.u1
  norm_num at u1
  have p3 := Real.pi_gt_three
  have p4 := Real.pi_lt_d2
  have b80 : (80000000 : ℝ) / 10 ^ (c.digits10 + 1) = 80000000 * eu c := by rw [mul_comm, eu_mul]
  have b70 : (70000000 : ℝ) / 10 ^ (c.digits10 + 1) = 70000000 * eu c := by rw [mul_comm, eu_mul]
  have lo : (10 : ℝ) ^ (-10000000 : ℤ) ≤ 1 := zpow_le_one_of_nonpos₀ (by norm_num) (by norm_num)
  have li : (1 : ℝ) < (10 : ℝ) ^ ((limE c : ℤ) + 1) := one_lt_zpow₀ (by norm_num) (by omega)
  have fin1 : (one c).prec = c.elems := rfl
  have z1 : (one c).iszero = false := by
    by_contra hcn
    have := (R.iszero (one c) ⟨FinWF_one c, fin1⟩).1 (Bool.not_eq_false _ ▸ hcn : (one c).iszero = true)
    unfold rv at this
    rw [val_one] at this
    norm_num at this
  have n1 : negate (one c) = { one c with neg := true } := by
    unfold negate
    rw [z1]
    rfl
  have a1 : absE (one c) = one c := rfl
  have a2 : absE (negate (one c)) = one c := by
    have e1 : (negate (one c)).isneg = true := by rw [n1]; rfl
    have e2 : (negate (one c)).iszero = false := by
      rw [n1]; exact z1
    unfold absE
    rw [e1, if_pos rfl]
    generalize hm : negate (one c) = m at *
    unfold negate
    rw [e2, n1]
    rfl
  have o1 := (P.pi).1
  have ep := (P.pi).2
  rw [b80]
  have key : ∀ q : EFloat, div c y x = q → val x ≠ 0 → val y ≠ 0 →
      Fn.atan2 (efArith c T) y x = if y.isneg = x.isneg then (if x.isneg then sub c (Fn.atan (efArith c T) q) T.pi else Fn.atan (efArith c T) q)
        else (if x.isneg then add c (Fn.atan (efArith c T) q) T.pi else Fn.atan (efArith c T) q) := by
    intro q hdq x0 y0
    subst hdq
    unfold Fn.atan2
    rw [R.isfinite_ok (x := x) ⟨hx, hp⟩, R.isfinite_ok (x := y) ⟨hy, hq⟩]
    simp only [Bool.not_true, Bool.or_self, Bool.false_eq_true, if_false]
    rw [if_neg (fun h => y0 (by have := (R.iszero y ⟨hy, hq⟩).1 h; unfold rv at this; exact_mod_cast this)),
      if_neg (fun h => x0 (by have := (R.iszero x ⟨hx, hp⟩).1 h; unfold rv at this; exact_mod_cast this))]
    rfl
  have bneg : ∀ {z : EFloat}, Full c z → val z < 0 → z.isneg = true := by
    intro z h1 h2
    exact (R.isneg z h1).2 (by unfold rv; exact_mod_cast h2)
  have bpos : ∀ {z : EFloat}, Full c z → 0 < val z → z.isneg = false := by
    intro z h1 h2
    by_contra hcn
    have := (R.isneg z h1).1 (Bool.not_eq_false _ ▸ hcn : z.isneg = true)
    unfold rv at this
    have h3 : val z < 0 := by exact_mod_cast this
    linarith
  constructor
  · intro px e
    have xn : x.neg = false := by
      by_contra hcn
      have := truncZ_neg hx (by simpa using hcn)
      linarith [this.2.1, this.2.2]
    have yn : val y < 0 := by rw [e]; linarith
    have hdiv := div_same hx hy yn.ne (by rw [e, abs_neg])
    rw [xn] at hdiv
    simp only [Bool.false_eq_true, if_false] at hdiv
    obtain ⟨-, -, at1, -⟩ := C95_atan_partial hc hT (x := one c) (FinWF_one c) fin1 (X := 1) (by rw [val_one]; norm_num)
      (Or.inr (by rw [abs_one]; exact lo)) (Or.inl (by norm_num)) (fun _ _ => by rw [a1, abs_one, Real.arctan_one]; exact h0)
    rw [Real.arctan_one, b70] at at1
    rw [key _ hdiv px.ne' yn.ne, bneg ⟨hy, hq⟩ yn, bpos ⟨hx, hp⟩ px]
    simp only [Bool.true_eq_false, Bool.false_eq_true, if_false]
    have px' : (0 : ℝ) < ((val x : ℚ) : ℝ) := by exact_mod_cast px
    refine ⟨by linarith, ?_⟩
    rw [arg_eq_arctan px'.ne', if_pos px', e, Rat.cast_neg, neg_div, div_self px'.ne', Real.arctan_neg, Real.arctan_one]
  · intro nx e
    have xn : x.neg = true := by
      by_contra hcn
      have := (truncZ_pos (x := x) (by simpa using hcn)).2
      have := mag_nonneg x
      linarith
    have yn : val y < 0 := by rw [e]; exact nx
    have hdiv := div_same hx hy yn.ne (by rw [e])
    rw [xn] at hdiv
    simp only [if_true] at hdiv
    have vm : val (negate (one c)) = -1 := by rw [negate_val (FinWF_one c), val_one]
    obtain ⟨f1, f2, at1, -⟩ := C95_atan_partial hc hT (x := negate (one c)) (FinWF_negate (FinWF_one c)) (by rw [n1]; rfl) (X := -1)
      (by rw [vm]; norm_num) (Or.inr (by rw [abs_neg, abs_one]; exact lo)) (Or.inr (Or.inl (by rw [abs_neg, abs_one]; exact li)))
      (fun _ _ => by rw [a2, abs_neg, abs_one, Real.arctan_one]; exact h0)
    rw [Real.arctan_neg, Real.arctan_one, b70] at at1
    rw [key _ hdiv nx.ne yn.ne, bneg ⟨hy, hq⟩ yn, bneg ⟨hx, hp⟩ nx]
    simp only [if_true]
    have nx' : ((val x : ℚ) : ℝ) < 0 := by exact_mod_cast nx
    constructor
    · generalize Fn.atan (efArith c T) (negate (one c)) = t at *
      have at2 : |rv t - -(Real.pi / 4)| ≤ 70000000 * eu c := at1
      have a4 := abs_le.1 at2
      have a5 := abs_le.1 ep
      have tb : |rv t| ≤ 2 := abs_le.2 ⟨by linarith, by linarith⟩
      have pb : |rv T.pi| ≤ 4 := abs_le.2 ⟨by change _ ≤ rv T.pi; have : rv T.pi = rv (efArith c T).pi := rfl; linarith, by
        have : rv T.pi = rv (efArith c T).pi := rfl
        linarith⟩
      have big : (4 : ℝ) ≤ pw 2000000000 := by
        refine le_trans (show (4 : ℝ) ≤ pw 1 by rw [pw_one]; norm_num) (pw_mono (by norm_num))
      obtain ⟨-, es, -⟩ := R.sub t T.pi ⟨f1, f2⟩ o1 (by linarith) (by linarith)
      have es' : |rv (sub c t T.pi) - (rv t - rv T.pi)| ≤ eu c / 10 ^ 12 * (|rv t| + |rv T.pi|) := es
      have bb : eu c / 10 ^ 12 * (|rv t| + |rv T.pi|) ≤ eu c / 10 ^ 12 * 6 := mul_le_mul_of_nonneg_left (by linarith) (by positivity)
      have ep' : |rv T.pi - Real.pi| ≤ _ := ep
      change |rv (sub c t T.pi) - _| ≤ _
      rw [show rv (sub c t T.pi) - -(5 * Real.pi / 4) = (rv (sub c t T.pi) - (rv t - rv T.pi)) + (rv t - -(Real.pi / 4)) -
        (rv T.pi - Real.pi) by ring]
      have t1 := abs_sub ((rv (sub c t T.pi) - (rv t - rv T.pi)) + (rv t - -(Real.pi / 4))) (rv T.pi - Real.pi)
      have t2 := abs_add_le (rv (sub c t T.pi) - (rv t - rv T.pi)) (rv t - -(Real.pi / 4))
      linarith
    · rw [arg_eq_arctan nx'.ne, if_neg (not_lt.2 nx'.le), e, if_neg (not_le.2 nx'), div_self nx'.ne, Real.arctan_one]
      ring

/-- The points `(1, -1)` and `(-1, -1)` at 101 digits. -/
example : |((val (Fn.atan2 (efArith cfg101 startTables) (negate (one cfg101)) (one cfg101)) : ℚ) : ℝ) - Real.pi / 4| ≤
      80000000 / 10 ^ (cfg101.digits10 + 1) ∧
    |((val (Fn.atan2 (efArith cfg101 startTables) (negate (one cfg101)) (negate (one cfg101))) : ℚ) : ℝ) - -(5 * Real.pi / 4)| ≤
      80000000 / 10 ^ (cfg101.digits10 + 1) := by
  have hf : FinWF cfg101 (negate (one cfg101)) := FinWF_negate one_fin
  constructor
  · exact ((C95_atan2_refuted (c := cfg101) (by decide) startTables_pi one_fin rfl hf rfl piFourth_good).1
      (by decide +kernel) (by decide +kernel)).1
  · exact ((C95_atan2_refuted (c := cfg101) (by decide) startTables_pi hf rfl hf rfl piFourth_good).2
      (by decide +kernel) rfl).1

end EFX.Props
