import Verif.Props.ExpRnd
/-!
# C111: the working precision of the results of the root functions

Every object carries a working precision `prec` (in limbs); a product is formed with the smaller one of its factors.  A
result is usable in further arithmetic at the requested digits only if it has the full working precision `elems`.
-/

namespace EFX.Props
open EFX EFX.Spec

theorem setPrecision_prec (c : Cfg) (x : EFloat) (n : ℕ) : (setPrecision c x n).prec = min c.elems (max ((n + 7) / 8) 2) := by
  unfold setPrecision
  dsimp only
  have e1 : Int.tdiv (n : ℤ) 8 = ((n / 8 : ℕ) : ℤ) := by rw [Int.tdiv_eq_ediv_of_nonneg (by omega)]; omega
  have e2 : Int.tmod (n : ℤ) 8 = ((n % 8 : ℕ) : ℤ) := by rw [Int.tmod_eq_emod_of_nonneg (by omega)]; omega
  rw [e1, e2]
  split <;> omega

theorem rootnInv_prec (c : Cfg) (T : Tables) (x : EFloat) (p : ℤ) :
    (Fn.rootnInv (efArith c T) x p).prec = min c.elems (max ((c.tolerance + 7) / 8) 2) := setPrecision_prec c _ _

/-- The constants that `calculate_inv` returns. -/
def IsConst (c : Cfg) (y : EFloat) : Prop := y = zero c ∨ y = one c ∨ y = negate (one c) ∨ y = infV c ∨ y = negate (infV c)

theorem IsConst.prec {c : Cfg} {y : EFloat} (h : IsConst c y) : y.prec = c.elems := by
  rcases h with h | h | h | h | h <;> subst h <;> try rw [negate_prec]
  all_goals rfl

theorem calculateInv_prec (c : Cfg) (x : EFloat) : IsConst c (calculateInv c x) ∨ (calculateInv c x).prec = x.prec := by
  unfold calculateInv IsConst
  dsimp only
  split
  · left; unfold infSigned; split <;> simp
  · split
    · right; rfl
    · split
      · simp
      · split
        · left; split <;> simp
        · right; rfl

theorem rootn_pos (c : Cfg) (T : Tables) (x : EFloat) {p : ℤ} (hp : 3 ≤ p) :
    Fn.rootn (efArith c T) x p = nanV c ∨ Fn.rootn (efArith c T) x p = calculateInv c (Fn.rootnInv (efArith c T) x p) := by
  unfold Fn.rootn
  split
  · left; rfl
  · rw [if_neg (by omega)]
    unfold Fn.rootnPos
    split
    · left; rfl
    · split
      · left; rfl
      · rw [if_neg (by omega), if_neg (by omega)]; right; rfl

theorem rootnInverse_pos (c : Cfg) (T : Tables) (x : EFloat) {p : ℤ} (hp : 3 ≤ p) :
    Fn.rootnInverse (efArith c T) x p = nanV c ∨ Fn.rootnInverse (efArith c T) x p = Fn.rootnInv (efArith c T) x p := by
  unfold Fn.rootnInverse
  split
  · left; rfl
  · rw [if_neg (by omega)]
    split
    · left; rfl
    · rw [if_neg (by omega), if_neg (by omega)]; right; rfl

/-- C111 for 239 and more digits: for all arguments and all indices from 3 on, the results of `rootn`, `cbrt` and
`rootn_inverse` have the full working precision. -/
theorem C111_full_partial {c : Cfg} (hc : 239 ≤ c.digits10) (T : Tables) (x : EFloat) {p : ℤ} (hp : 3 ≤ p) :
    (Fn.rootn (efArith c T) x p).prec = c.elems ∧ (Fn.cbrt (efArith c T) x).prec = c.elems ∧
    (Fn.rootnInverse (efArith c T) x p).prec = c.elems := by
  have hi : ∀ p, (Fn.rootnInv (efArith c T) x p).prec = c.elems := by
    intro p
    rw [rootnInv_prec]
    have he : c.elems ≤ (c.tolerance + 7) / 8 := by unfold Cfg.elems Cfg.tolerance Cfg.maxDigits10; split <;> omega
    omega
  have hr : ∀ p, 3 ≤ p → (Fn.rootn (efArith c T) x p).prec = c.elems := by
    intro p hp
    rcases rootn_pos c T x hp with h | h
    · rw [h]; rfl
    · rw [h]
      rcases calculateInv_prec c (Fn.rootnInv (efArith c T) x p) with h' | h'
      · exact h'.prec
      · rw [h', hi]
  refine ⟨hr p hp, hr 3 le_rfl, ?_⟩
  rcases rootnInverse_pos c T x hp with h | h
  · rw [h]; rfl
  · rw [h, hi]

/-- C111 refuted up to 168 digits.  For every finite number that is not negative and every index from 3 on, the result of
`rootn_inverse` has less than the full working precision, and so has that of `rootn` unless it is one of the constants zero,
one and infinity. -/
theorem C111_prec_refuted {c : Cfg} (hc : c.digits10 ≤ 168) (T : Tables) {x : EFloat} (hx : x.cls = .finite) (h0 : x.isneg = false)
    {p : ℤ} (hp : 3 ≤ p) :
    (Fn.rootnInverse (efArith c T) x p).prec < c.elems ∧
    ((Fn.rootn (efArith c T) x p).prec < c.elems ∨ IsConst c (Fn.rootn (efArith c T) x p)) := by
  have hi : (Fn.rootnInv (efArith c T) x p).prec < c.elems := by
    rw [rootnInv_prec]
    have he : (c.tolerance + 7) / 8 < c.elems ∧ 2 < c.elems := by unfold Cfg.elems Cfg.tolerance Cfg.maxDigits10; split <;> omega
    omega
  have hf : (!Fn.isfinite (efArith c T) x) = false := by
    show (!(!x.isnan && !x.isinf)) = false
    unfold EFloat.isnan EFloat.isinf; rw [hx]; rfl
  have hn : (efArith c T).isneg x = false := h0
  constructor
  · unfold Fn.rootnInverse
    rw [hf, hn, if_neg (by simp), if_neg (by omega), if_neg (by simp; omega), if_neg (by omega), if_neg (by omega)]
    exact hi
  · unfold Fn.rootn Fn.rootnPos
    rw [hf, hn, if_neg (by simp), if_neg (by omega), if_neg (by simp), if_neg (by simp; omega), if_neg (by omega), if_neg (by omega)]
    rcases calculateInv_prec c (Fn.rootnInv (efArith c T) x p) with h' | h'
    · exact Or.inr h'
    · left
      show (calculateInv c (Fn.rootnInv (efArith c T) x p)).prec < _
      rw [h']; exact hi

/-- Tables whose estimate of the inverse root of 2 with index 3 is the double nearest to it. -/
def withRoot (T : Tables) (c : Cfg) (r : ℚ) : Tables := { T with rootn0 := fun _ _ => ofMantExp c r 0 }

/-- The double nearest to `2^(-1/3)`. -/
def dcbrt2 : ℚ := 7149018786131517 / 9007199254740992

/-- The computed cube root of 2 at 49 digits. -/
def cbrt2At49 : EFloat :=
  ⟨[1, 25992104, 98948731, 64767210, 60727822, 83505702, 51464701, 50798008, 19751121, 55299677], 0, false, .finite, 7⟩

/-- The computed cube root of 2 at 100 digits. -/
def cbrt2At100 : EFloat :=
  ⟨[1, 25992104, 98948731, 64767210, 60727822, 83505702, 51464701, 50798008, 19751121, 55299676, 51395948, 37293965,
    62436255, 9415431, 2560356, 12920408], 0, false, .finite, 14⟩

theorem cbrt2_49 : Fn.cbrt (efArith ⟨49⟩ (withRoot (stdTables ⟨49⟩) ⟨49⟩ dcbrt2)) (ofUnsigned ⟨49⟩ 2) = cbrt2At49 := by decide +kernel

theorem cbrt2_100 : Fn.cbrt (efArith ⟨100⟩ (withRoot (stdTables ⟨100⟩) ⟨100⟩ dcbrt2)) (ofUnsigned ⟨100⟩ 2) = cbrt2At100 := by decide +kernel

/-- C111 refuted in numbers.  `dcbrt2` is a double next to `2^(-1/3)`.  With it as start value the computed cube root `y` of 2 is
accurate to more than the requested digits, but the product `y * y * y` has the error `5 * 10^-41` at 49 digits and
`8 * 10^-96` at 100 digits. -/
theorem C111_cube_refuted :
    (rnd dcbrt2 = dcbrt2 ∧ |2 * dcbrt2 ^ 3 - 1| ≤ 1 / 10 ^ 15) ∧
    (let c : Cfg := ⟨49⟩
     let y := Fn.cbrt (efArith c (withRoot (stdTables c) c dcbrt2)) (ofUnsigned c 2)
     val (ofUnsigned c 2) = 2 ∧ |val y ^ 3 - 2| ≤ 1 / 10 ^ 70 ∧ 5 / 10 ^ 41 < |val (mul c (mul c y y) y) - 2|) ∧
    (let c : Cfg := ⟨100⟩
     let y := Fn.cbrt (efArith c (withRoot (stdTables c) c dcbrt2)) (ofUnsigned c 2)
     val (ofUnsigned c 2) = 2 ∧ |val y ^ 3 - 2| ≤ 1 / 10 ^ 110 ∧ 8 / 10 ^ 96 < |val (mul c (mul c y y) y) - 2|) := by
  refine ⟨⟨by decide +kernel, by decide +kernel⟩, ?_, ?_⟩
  · dsimp only
    rw [cbrt2_49]
    refine ⟨?_, ?_, ?_⟩ <;> decide +kernel
  · dsimp only
    rw [cbrt2_100]
    refine ⟨?_, ?_, ?_⟩ <;> decide +kernel

/-- The cases are met: 49 digits lie below 169, 300 digits above 238. -/
example (T : Tables) : (Fn.rootnInverse (efArith ⟨49⟩ T) (ofUnsigned ⟨49⟩ 2) 3).prec < (⟨49⟩ : Cfg).elems :=
  (C111_prec_refuted (c := ⟨49⟩) (by decide) T (by decide) (by decide) le_rfl).1

example (T : Tables) : (Fn.cbrt (efArith ⟨300⟩ T) (ofUnsigned ⟨300⟩ 2)).prec = 41 :=
  (C111_full_partial (c := ⟨300⟩) (by decide) T _ (p := 3) le_rfl).2.1.trans (by decide)

end EFX.Props
