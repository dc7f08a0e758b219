import Verif.Lemmas.SqrtAcc
import Verif.Props.Inverse
/-!
# C22 square root
-/

namespace EFX.Props
open EFX EFX.Spec

/-- C22, special arguments: NaN for NaN, for both infinities and for every negative number; zero for zero. -/
theorem C22_sqrt_special {c : Cfg} {x : EFloat} (hx : WF c x) :
    (denote x = .nan ∨ (∃ s, denote x = .inf s) → denote (calculateSqrt c x) = .nan) ∧
    (∀ q, denote x = .fin q → q < 0 → denote (calculateSqrt c x) = .nan) ∧
    (denote x = .fin 0 → denote (calculateSqrt c x) = .fin 0) := by
  have hnan : denote (nanV c) = .nan := rfl
  refine ⟨fun h => ?_, fun q h hq => ?_, fun h => ?_⟩
  · have hf : x.isfinite = false := by
      unfold EFloat.isfinite
      unfold denote at h
      cases hc : x.cls <;> rw [hc] at h <;> simp at h ⊢
    unfold calculateSqrt
    rw [hf]; simp [hnan]
  · have hc : x.cls = .finite ∧ val x = q := by
      unfold denote at h
      cases hc : x.cls <;> rw [hc] at h <;> simp at h ⊢
      exact h
    have hn : x.isneg = true := by
      unfold EFloat.isneg
      cases hh : x.neg
      · exfalso
        have h1 := val_of_pos hh
        have h2 := mag_nonneg x
        linarith [hc.2]
      · rfl
    unfold calculateSqrt
    rw [hn]; simp [hnan]
  · have hc : x.cls = .finite ∧ val x = 0 := by
      unfold denote at h
      cases hc : x.cls <;> rw [hc] at h <;> simp at h ⊢
      exact h
    have hF : FinWF c x := ⟨hx, hc.1⟩
    have hz := (head_zero_iff hF).2 hc.2
    have hn := (hx.norm hc.1 hz).2
    have hz' : x.iszero = true := by
      unfold EFloat.iszero EFloat.front
      simp [hc.1]; simpa using hz
    have e : calculateSqrt c x = x := by
      unfold calculateSqrt
      rw [hz']
      simp [EFloat.isneg, EFloat.isfinite, hn, hc.1]
    rw [e]; exact h

example : WF cfg101 exC ∧ (∃ q, denote exC = .fin q ∧ q < 0) := by
  refine ⟨exC_fin.toWF, -12345679.25, ?_, by norm_num⟩
  unfold denote; rw [exC_fin.fin]; simp only; congr 1; decide +kernel

/-- Error bound of the square root that holds for every argument: the iteration ends with at least 11/24 of
the digits of the tolerance, the rest is the error of the products at full precision. -/
def sqrtBound (c : Cfg) : ℚ :=
  (10 : ℚ) ^ (-(11 * ((c.tolerance : ℤ) + 1) / 24)) +
    23 / 10 * ((c.elems : ℚ) * (if c.elems < 625 then 1 else 20000) + 2) * (10 : ℚ) ^ (16 - 8 * (c.elems : ℤ))

theorem sqrtErr_eq (c : Cfg) : sqrtErr c = sqrtBound c := by
  unfold sqrtErr sqrtBound floorErr epsP mulErr
  by_cases h : c.elems < 625
  · rw [if_pos h, if_pos (by omega)]; ring
  · rw [if_neg h, if_neg (by omega)]; push_cast; ring

/-- C22, accuracy for every positive argument of full working precision with `|exponent| ≤ 10^9`: the result is a positive
well-formed number, keeps the working precision, and its square differs from `x` by at most `sqrtBound` (relative).

Missing: the full working precision, which does not hold (`C22_sqrt_refuted`); arguments of reduced working precision; larger
exponents. -/
theorem C22_sqrt_partial {c : Cfg} {x : EFloat} (hx : FinWF c x) (px : 0 < val x) (hp : x.prec = c.elems)
    (he : -1000000000 ≤ x.exp ∧ x.exp ≤ 1000000000) :
    FinWF c (calculateSqrt c x) ∧ 0 < val (calculateSqrt c x) ∧ (calculateSqrt c x).prec = c.elems ∧
    RelErr (val (calculateSqrt c x) ^ 2) (val x) (sqrtBound c) := by
  obtain ⟨s1, s2, s3, s4⟩ := calculateSqrt_spec hx px hp he
  refine ⟨s1, s2, by rw [s3, hp], ?_⟩
  unfold RelErr
  rw [← sqrtErr_eq, sq, abs_of_pos px]; exact s4

example : FinWF cfg101 exA ∧ 0 < val exA ∧ exA.prec = cfg101.elems ∧ (-1000000000 ≤ exA.exp ∧ exA.exp ≤ 1000000000) := by
  refine ⟨exA_fin, ?_, ?_, ?_⟩ <;> decide +kernel

/-- C22, the early exit is the only loss: when leaving the loop early does not change the result, the square of the root differs
from `x` by at most `recipBound` (relative), hence below `10^-digits10` up to 19000 limbs.

Missing: arguments for which the early exit is taken too soon. -/
theorem C22_sqrt_full_partial {c : Cfg} {x : EFloat} (hx : FinWF c x) (px : 0 < val x) (hp : x.prec = c.elems)
    (he : -1000000000 ≤ x.exp ∧ x.exp ≤ 1000000000) (h1 : isone x = false)
    (hfull : sqrtLoop c x 32 12 (sqrtStart c x).1 (sqrtStart c x).2 = sqrtLoopFull c x 32 12 (sqrtStart c x).1 (sqrtStart c x).2) :
    RelErr (val (calculateSqrt c x) ^ 2) (val x) (recipBound c) ∧
    (c.elems ≤ 19000 → |val (calculateSqrt c x) ^ 2 - val x| < (10 : ℚ) ^ (-(c.digits10 : ℤ)) * val x) := by
  have h := calculateSqrt_full hx px hp he h1 hfull
  rw [invErr_eq] at h
  rw [← sq] at h
  refine ⟨by unfold RelErr; rw [abs_of_pos px]; exact h, fun hN => lt_of_le_of_lt h (mul_lt_mul_of_pos_right ?_ px)⟩
  have := recipBound_small hN
  have := p10_pos (-(c.digits10 : ℤ))
  linarith

example : isone exA = false ∧
    sqrtLoop cfg101 exA 32 12 (sqrtStart cfg101 exA).1 (sqrtStart cfg101 exA).2 =
      sqrtLoopFull cfg101 exA 32 12 (sqrtStart cfg101 exA).1 (sqrtStart cfg101 exA).2 := by
  constructor <;> decide +kernel

/-- An argument at 85 digits for which the loop is left too early: the start value is already correct to 47 digits. -/
def exSqrt : EFloat :=
  mkLimbs ⟨85⟩ [1, 68038164, 45638830, 81681068, 49376025, 33333333] 0 false

/-- C22 is false: at 85 digits there is an argument whose computed square root is wrong after less than 55 digits. -/
theorem C22_sqrt_refuted : ∃ (c : Cfg) (x : EFloat), FinWF c x ∧ 0 < val x ∧ x.prec = c.elems ∧ x.exp = 0 ∧ c.digits10 = 85 ∧
    (10 : ℚ) ^ (-55 : ℤ) * val x < |val (calculateSqrt c x) ^ 2 - val x| := by
  refine ⟨⟨85⟩, exSqrt, ⟨⟨?_, ?_, ?_, ?_, ?_, ?_⟩, ?_⟩, ?_, ?_, ?_, ?_, ?_⟩ <;> decide +kernel

end EFX.Props
