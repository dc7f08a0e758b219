import Verif.Model.Util
import Mathlib.Algebra.BigOperators.Fin
import Mathlib.Algebra.Polynomial.Derivative
import Mathlib.Algebra.Polynomial.Eval.Degree
import Mathlib.Tactic.Linarith
import Mathlib.Tactic.FieldSimp
import Mathlib.Tactic.Ring
import Mathlib.Algebra.Order.Field.Rat
import Mathlib.Tactic.NormNum
/-!
# C36, C48, C49, C50, C52, C53, C54: powers, root finding, interpolation, series, quadrature, differences
-/

namespace EFX.Props
open EFX Finset

/-! ## C36 powers -/

theorem pownLoop_spec {α : Type*} [Monoid α] (t : α) (p2 : ℕ) : ∀ a b : ℕ,
    pownLoop (· * ·) p2 (t ^ b) (t ^ a) = t ^ (a + b * (p2 - p2 % 2)) := by
  induction p2 using Nat.strong_induction_on with
  | _ p2 ih =>
    intro a b
    unfold pownLoop
    by_cases h : p2 / 2 = 0
    · rw [dif_pos h]
      congr 1
      have : p2 - p2 % 2 = 0 := by omega
      rw [this, mul_zero, add_zero]
    · rw [dif_neg h]
      simp only
      have h1 : t ^ b * t ^ b = t ^ (2 * b) := by rw [← pow_add]; congr 1; ring
      rw [h1]
      by_cases h2 : p2 / 2 % 2 ≠ 0
      · rw [if_pos h2, ← pow_add, ih (p2 / 2) (by omega)]
        congr 1
        have e1 : p2 / 2 % 2 = 1 := by omega
        have e2 : p2 - p2 % 2 = 2 * (p2 / 2) := by omega
        rw [e1, e2]
        obtain ⟨k, hk⟩ : ∃ k, p2 / 2 = k + 1 := ⟨p2 / 2 - 1, by omega⟩
        rw [hk, Nat.add_sub_cancel]; ring
      · rw [if_neg h2, ih (p2 / 2) (by omega)]
        congr 1
        have e1 : p2 / 2 % 2 = 0 := by omega
        have e2 : p2 - p2 % 2 = 2 * (p2 / 2) := by omega
        rw [e1, e2, Nat.sub_zero]; ring

theorem pownNat_spec {α : Type*} [Monoid α] (t : α) (p : ℕ) : pownNat 1 (· * ·) t p = t ^ p := by
  unfold pownNat
  by_cases h0 : p = 0
  · rw [if_pos h0, h0, pow_zero]
  rw [if_neg h0]
  by_cases h1 : p = 1
  · rw [if_pos h1, h1, pow_one]
  rw [if_neg h1]
  by_cases h2 : p = 2
  · rw [if_pos h2, h2, pow_two]
  rw [if_neg h2]
  by_cases h3 : p = 3
  · rw [if_pos h3, h3, pow_succ, pow_two]
  rw [if_neg h3]
  by_cases h4 : p = 4
  · rw [if_pos h4, h4]
    simp only
    rw [← pow_two, ← pow_two, ← pow_mul]
  rw [if_neg h4]
  by_cases h5 : p % 2 ≠ 0
  · rw [if_pos h5]
    have := pownLoop_spec t p 1 1
    rw [pow_one] at this
    rw [this]; congr 1; omega
  · rw [if_neg h5]
    have := pownLoop_spec t p 0 1
    rw [pow_one, pow_zero] at this
    rw [this]; congr 1; omega

theorem powLoop_spec {α : Type*} [Monoid α] (t : α) (p : ℕ) : ∀ a b : ℕ,
    powLoop (· * ·) p (t ^ b) (t ^ a) = t ^ (a + b * p) := by
  induction p using Nat.strong_induction_on with
  | _ p ih =>
    intro a b
    unfold powLoop
    by_cases h : p = 0
    · rw [dif_pos h, h, mul_zero, add_zero]
    · rw [dif_neg h]
      have h1 : t ^ b * t ^ b = t ^ (2 * b) := by rw [← pow_add]; congr 1; ring
      rw [h1]
      have e : p = 2 * (p / 2) + p % 2 := by omega
      by_cases h2 : p % 2 ≠ 0
      · rw [if_pos h2, ← pow_add, ih (p / 2) (by omega)]
        congr 1
        have e1 : p % 2 = 1 := by omega
        rw [e1] at e
        conv_rhs => rw [e]
        ring
      · rw [if_neg h2, ih (p / 2) (by omega)]
        congr 1
        have e1 : p % 2 = 0 := by omega
        rw [e1] at e
        conv_rhs => rw [e]
        ring

theorem powNat_spec {α : Type*} [Monoid α] (t : α) (p : ℕ) : powNat 1 (· * ·) t p = t ^ p := by
  unfold powNat
  by_cases h0 : p = 0
  · rw [if_pos h0, h0, pow_zero]
  rw [if_neg h0]
  by_cases h1 : p = 1
  · rw [if_pos h1, h1, pow_one]
  rw [if_neg h1]
  by_cases h2 : p = 2
  · rw [if_pos h2, h2, pow_two]
  rw [if_neg h2]
  by_cases h3 : p = 3
  · rw [if_pos h3, h3, pow_succ, pow_two]
  rw [if_neg h3]
  by_cases h4 : p = 4
  · rw [if_pos h4, h4]
    simp only
    rw [← pow_two, ← pow_two, ← pow_mul]
  rw [if_neg h4]
  have := powLoop_spec t p 0 1
  rw [pow_one, pow_zero] at this
  rw [this]; congr 1; omega

/-- C36.  In every type with associative multiplication and a unit, for every 64-bit exponent except the smallest,
both power functions return the product of `|p|` factors, or one divided by it for negative `p`; in a division
monoid (for example a field) this is the integer power. -/
theorem C36_power_partial {α : Type*} [Monoid α] [Div α] (t : α) (p : ℤ) (h1 : -2 ^ 63 < p) :
    pown 1 (· * ·) (· / ·) t p = some (if p < 0 then 1 / (List.replicate p.natAbs t).prod else (List.replicate p.natAbs t).prod) ∧
    powInt 1 (· * ·) (1 / ·) t p = some (if p < 0 then 1 / (List.replicate p.natAbs t).prod else (List.replicate p.natAbs t).prod) := by
  have hne : p ≠ -9223372036854775808 := by intro h; rw [h] at h1; norm_num at h1
  rw [List.prod_replicate]
  unfold pown powInt
  by_cases hp : p < 0
  · rw [if_pos hp, if_pos hp, if_pos hp, if_neg hne, if_neg hne, pownNat_spec, powNat_spec]
    exact ⟨rfl, rfl⟩
  · rw [if_neg hp, if_neg hp, if_neg hp, pownNat_spec, powNat_spec]
    exact ⟨rfl, rfl⟩

/-- C36 in a field: the integer power. -/
theorem C36_field_partial {K : Type*} [Field K] (t : K) (p : ℤ) (h1 : -2 ^ 63 < p) :
    pown 1 (· * ·) (· / ·) t p = some (t ^ p) ∧ powInt 1 (· * ·) (1 / ·) t p = some (t ^ p) := by
  have h := C36_power_partial t p h1
  have e : (if p < 0 then 1 / (List.replicate p.natAbs t).prod else (List.replicate p.natAbs t).prod) = t ^ p := by
    rw [List.prod_replicate]
    by_cases hp : p < 0
    · rw [if_pos hp]
      have hn : p = -(p.natAbs : ℤ) := by omega
      conv_rhs => rw [hn]
      rw [zpow_neg, zpow_natCast, one_div]
    · rw [if_neg hp]
      have hn : p = (p.natAbs : ℤ) := by omega
      conv_rhs => rw [hn]
      rw [zpow_natCast]
  rw [e] at h
  exact h

example : pown (1 : ℚ) (· * ·) (· / ·) (3 / 2) (-13) = some ((3 / 2) ^ (-13 : ℤ)) :=
  (C36_field_partial _ _ (by norm_num)).1

/-- C36 refuted for the smallest exponent, whose negation overflows. -/
theorem C36_min_refuted : pown (1 : ℚ) (· * ·) (· / ·) 2 (-2 ^ 63) = none ∧ powInt (1 : ℚ) (· * ·) (1 / ·) 2 (-2 ^ 63) = none := by
  have e : (-2 ^ 63 : ℤ) = -9223372036854775808 := by norm_num
  rw [e]
  unfold pown powInt
  exact ⟨by rw [if_pos (by norm_num), if_pos rfl], by rw [if_pos (by norm_num), if_pos rfl]⟩

/-! ## C48 bisection -/

section Ordered
set_option linter.unusedSectionVars false
variable {K : Type*} [Field K] [LinearOrder K] [IsStrictOrderedRing K]

/-- `x` lies between `a` and `b`, in either order. -/
def Between (a b x : K) : Prop := min a b ≤ x ∧ x ≤ max a b

theorem between_step {a d x : K} (t : K) (h0 : 0 ≤ t) (h1 : t ≤ 1) (hx : x = a + t * d) : Between a (a + d) x := by
  unfold Between
  rcases le_total 0 d with hd | hd
  · rw [min_eq_left (by linarith), max_eq_right (by linarith), hx]
    constructor
    · have := mul_nonneg h0 hd; linarith
    · have := mul_nonneg (sub_nonneg.2 h1) hd; linarith
  · rw [min_eq_right (by linarith), max_eq_left (by linarith), hx]
    constructor
    · have := mul_nonneg (sub_nonneg.2 h1) (neg_nonneg.2 hd); linarith
    · have := mul_nonneg h0 (neg_nonneg.2 hd); linarith

theorem bisectLoop_spec (f : K → K) (eps : K) (n : ℕ) : ∀ (rt dx : K), f rt < 0 → 0 < f (rt + dx) →
    let r := bisectLoop f eps n rt dx
    (r.ok = true → Between rt (rt + dx) r.value ∧ f r.value ≤ 0 ∧
      (f r.value = 0 ∨ ∃ y, Between rt (rt + dx) y ∧ 0 < f y ∧ |y - r.value| < eps)) ∧
    (|dx| < eps * 2 ^ n → 1 ≤ n → r.ok = true) := by
  induction n with
  | zero => intro rt dx _ _; exact ⟨by simp [bisectLoop], by simp⟩
  | succ n ih =>
    intro rt dx h1 h2
    have habs : ∀ z : K, (if z < 0 then -z else z) = |z| := by
      intro z
      split
      · rw [abs_of_neg ‹_›]
      · rw [abs_of_nonneg (not_lt.1 ‹_›)]
    have hsum : rt + dx / 2 + dx / 2 = rt + dx := by ring
    simp only [bisectLoop, habs]
    have hmid : Between rt (rt + dx) (rt + dx / 2) := between_step (1 / 2) (by norm_num) (by norm_num) (by ring)
    have hrt : Between rt (rt + dx) rt := between_step 0 (le_refl _) (by norm_num) (by ring)
    have hend : Between rt (rt + dx) (rt + dx) := between_step 1 (by norm_num) (le_refl _) (by ring)
    have hsize : |dx| < eps * 2 ^ (n + 1) → |dx / 2| < eps * 2 ^ n := by
      intro h
      rw [abs_div, abs_of_pos (by norm_num : (0 : K) < 2), div_lt_iff₀ (by norm_num)]
      rw [pow_succ] at h; linarith
    by_cases hm : f (rt + dx / 2) ≤ 0
    · simp only [if_pos hm]
      by_cases hz : f (rt + dx / 2) = 0
      · rw [if_pos (Or.inr hz)]
        exact ⟨fun _ => ⟨hmid, hm, Or.inl hz⟩, fun _ _ => rfl⟩
      · by_cases he : |dx / 2| < eps
        · rw [if_pos (Or.inl he)]
          refine ⟨fun _ => ⟨hmid, hm, Or.inr ⟨rt + dx, hend, h2, ?_⟩⟩, fun _ _ => rfl⟩
          rw [← hsum]
          simpa using he
        · rw [if_neg (by tauto)]
          obtain ⟨g1, g2⟩ := ih (rt + dx / 2) (dx / 2) (lt_of_le_of_ne hm hz) (by rw [hsum]; exact h2)
          rw [hsum] at g1
          have sub : ∀ y, Between (rt + dx / 2) (rt + dx) y → Between rt (rt + dx) y := by
            rintro y ⟨y1, y2⟩
            exact ⟨le_trans (le_min hmid.1 hend.1) y1, le_trans y2 (max_le hmid.2 hend.2)⟩
          refine ⟨fun hok => ?_, fun hs hn => ?_⟩
          · obtain ⟨a1, a2, a3⟩ := g1 hok
            refine ⟨sub _ a1, a2, ?_⟩
            rcases a3 with a3 | ⟨y, b1, b2, b3⟩
            · exact Or.inl a3
            · exact Or.inr ⟨y, sub _ b1, b2, b3⟩
          · have hs' := hsize hs
            have : 1 ≤ n := by
              by_contra hc
              have : n = 0 := by omega
              subst this
              rw [pow_zero, mul_one] at hs'
              exact he hs'
            exact g2 hs' this
    · simp only [if_neg hm]
      by_cases he : |dx / 2| < eps
      · rw [if_pos (Or.inl he)]
        refine ⟨fun _ => ⟨hrt, h1.le, Or.inr ⟨rt + dx / 2, hmid, not_le.1 hm, ?_⟩⟩, fun _ _ => rfl⟩
        simpa using he
      · rw [if_neg (by rintro (h | h); exact he h; exact hm h.le)]
        obtain ⟨g1, g2⟩ := ih rt (dx / 2) h1 (not_le.1 hm)
        have sub : ∀ y, Between rt (rt + dx / 2) y → Between rt (rt + dx) y := by
          rintro y ⟨y1, y2⟩
          exact ⟨le_trans (le_min hrt.1 hmid.1) y1, le_trans y2 (max_le hrt.2 hmid.2)⟩
        refine ⟨fun hok => ?_, fun hs hn => ?_⟩
        · obtain ⟨a1, a2, a3⟩ := g1 hok
          refine ⟨sub _ a1, a2, ?_⟩
          rcases a3 with a3 | ⟨y, b1, b2, b3⟩
          · exact Or.inl a3
          · exact Or.inr ⟨y, sub _ b1, b2, b3⟩
        · have hs' := hsize hs
          have : 1 ≤ n := by
            by_contra hc
            have : n = 0 := by omega
            subst this
            rw [pow_zero, mul_one] at hs'
            exact he hs'
          exact g2 hs' this

/-- C48.  If the function has opposite signs at the ends of the interval (given in either order), a successful
bisection returns a point of the interval that is a zero of the function or closer than the tolerance to another
point of the interval with the opposite sign; and it is successful whenever the interval is shorter than
`eps * 2^2048`.

Missing: without a change of sign the code returns zero and reports success (`C48_bracket_refuted`); after 2048
rounds it returns zero and reports failure. -/
theorem C48_bisect_partial (f : K → K) (lo hi eps : K) (hs : f lo * f hi < 0) :
    let r := bisect f lo hi eps
    (r.ok = true → Between lo hi r.value ∧
      (f r.value = 0 ∨ ∃ y, Between lo hi y ∧ |y - r.value| < eps ∧ f r.value * f y < 0)) ∧
    (|hi - lo| < eps * 2 ^ 2048 → r.ok = true) ∧
    (r.ok = false → r.value = 0) := by
  have hfail : ∀ n rt dx, (bisectLoop f eps n rt dx).ok = false → (bisectLoop f eps n rt dx).value = 0 := by
    intro n
    induction n with
    | zero => intro rt dx _; rfl
    | succ n ih =>
      intro rt dx
      rw [bisectLoop]
      by_cases hc : (if dx / 2 < 0 then -(dx / 2) else dx / 2) < eps ∨ f (rt + dx / 2) = 0
      · rw [if_pos hc]; simp
      · rw [if_neg hc]; exact ih _ _
  have fin : ∀ {rt dx : K} {a b : K}, (∀ y, Between rt (rt + dx) y → Between a b y) → f rt < 0 → 0 < f (rt + dx) →
      ((bisectLoop f eps 2048 rt dx).ok = true → Between a b (bisectLoop f eps 2048 rt dx).value ∧
      (f (bisectLoop f eps 2048 rt dx).value = 0 ∨ ∃ y, Between a b y ∧ |y - (bisectLoop f eps 2048 rt dx).value| < eps ∧
        f (bisectLoop f eps 2048 rt dx).value * f y < 0)) := by
    intro rt dx a b hsub h1 h2 hok
    obtain ⟨g1, -⟩ := bisectLoop_spec f eps 2048 rt dx h1 h2
    obtain ⟨a1, a2, a3⟩ := g1 hok
    refine ⟨hsub _ a1, ?_⟩
    rcases a3 with a3 | ⟨y, b1, b2, b3⟩
    · exact Or.inl a3
    · by_cases hz : f (bisectLoop f eps 2048 rt dx).value = 0
      · exact Or.inl hz
      · exact Or.inr ⟨y, hsub _ b1, b3, mul_neg_of_neg_of_pos (lt_of_le_of_ne a2 hz) b2⟩
  unfold bisect
  simp only
  rw [if_neg (not_le.2 hs)]
  by_cases h1 : f lo < 0
  · rw [if_pos h1]
    have h2 : 0 < f (lo + (hi - lo)) := by
      rw [add_sub_cancel]
      by_contra hc
      exact absurd hs (not_lt.2 (mul_nonneg_of_nonpos_of_nonpos h1.le (not_lt.1 hc)))
    refine ⟨fin (by intro y hy; rwa [add_sub_cancel] at hy) h1 h2, ?_, hfail _ _ _⟩
    intro h
    exact (bisectLoop_spec f eps 2048 lo (hi - lo) h1 h2).2 h (by norm_num)
  · rw [if_neg h1]
    have hlo : 0 < f lo := by
      rcases lt_or_eq_of_le (not_lt.1 h1) with h | h
      · exact h
      · rw [← h, zero_mul] at hs; exact absurd hs (lt_irrefl _)
    have hhi : f hi < 0 := by
      by_contra hc
      exact absurd hs (not_lt.2 (mul_nonneg hlo.le (not_lt.1 hc)))
    have h2 : 0 < f (hi + (lo - hi)) := by rw [add_sub_cancel]; exact hlo
    refine ⟨fin (by intro y hy; rw [add_sub_cancel] at hy; unfold Between at hy ⊢; rwa [min_comm, max_comm]) hhi h2, ?_, hfail _ _ _⟩
    intro h
    refine (bisectLoop_spec f eps 2048 hi (lo - hi) hhi h2).2 ?_ (by norm_num)
    rw [abs_sub_comm]; exact h

/-- A decreasing function with a zero inside. -/
example : (bisect (fun x : ℚ => 4 - x * x) 0 3 (1 / 100)).ok = true ∧ Between 0 3 (bisect (fun x : ℚ => 4 - x * x) 0 3 (1 / 100)).value := by
  have h := C48_bisect_partial (fun x : ℚ => 4 - x * x) 0 3 (1 / 100) (by norm_num)
  have hk : (bisect (fun x : ℚ => 4 - x * x) 0 3 (1 / 100)).ok = true := h.2.1 (by
    have h1 : (2 : ℚ) ^ 10 ≤ 2 ^ 2048 := pow_le_pow_right₀ (by norm_num) (by norm_num)
    have h2 : |(3 : ℚ) - 0| = 3 := by norm_num
    rw [h2]
    calc (3 : ℚ) < 1 / 100 * 2 ^ 10 := by norm_num
      _ ≤ _ := mul_le_mul_of_nonneg_left h1 (by norm_num))
  exact ⟨hk, (h.1 hk).1⟩

/-- C48 refuted without a change of sign: the code returns zero, here outside of the interval `[1, 2]`, and reports
success. -/
theorem C48_bracket_refuted : ∃ f : ℚ → ℚ, bisect f 1 2 (1 / 100) = ⟨0, true⟩ ∧ ¬ Between 1 2 (0 : ℚ) ∧ f 0 ≠ 0 := by
  refine ⟨fun _ => 1, ?_, ?_, by norm_num⟩
  · unfold bisect; rw [if_pos (by norm_num)]
  · unfold Between; norm_num

/-! ## C54 Newton iteration -/

theorem newtonLoop_spec (fd : K → K × K) (lo hi eps : K) (hlh : lo ≤ hi) (n : ℕ) : ∀ x : K, n ≠ 0 →
    (newtonLoop fd lo hi eps n x).2 = true → lo ≤ (newtonLoop fd lo hi eps n x).1 ∧ (newtonLoop fd lo hi eps n x).1 ≤ hi := by
  induction n with
  | zero => intro x h; exact absurd rfl h
  | succ n ih =>
    intro x _
    simp only [newtonLoop]
    set y := x - (fd x).1 / (fd x).2
    by_cases h1 : (lo - y) * (y - hi) < 0
    · rw [if_pos h1]; simp
    · rw [if_neg h1]
      have hin : lo ≤ y ∧ y ≤ hi := by
        constructor
        · by_contra hc
          rw [not_le] at hc
          exact h1 (mul_neg_of_pos_of_neg (sub_pos.2 hc) (by linarith))
        · by_contra hc
          rw [not_le] at hc
          exact h1 (mul_neg_of_neg_of_pos (by linarith) (sub_pos.2 hc))
      by_cases h2 : (if (fd x).1 / (fd x).2 < 0 then -((fd x).1 / (fd x).2) else (fd x).1 / (fd x).2) < eps
      · rw [if_pos h2]; intro _; exact hin
      · rw [if_neg h2]
        cases n with
        | zero => intro _; exact hin
        | succ n => exact ih y (by omega)

/-- C54.  On success the Newton iteration returns a point of the interval. -/
theorem C54_newton_interval (fd : K → K × K) (lo hi eps : K) (hlh : lo ≤ hi) (hok : (newton fd lo hi eps).ok = true) :
    lo ≤ (newton fd lo hi eps).value ∧ (newton fd lo hi eps).value ≤ hi := by
  unfold newton at hok ⊢
  simp only at hok ⊢
  rw [if_pos hok]
  exact newtonLoop_spec fd lo hi eps hlh 256 _ (by norm_num) hok

example : (newton (fun x : ℚ => (x - 2, 1)) 0 3 (1 / 100)) = ⟨2, true⟩ := by
  unfold newton
  have : newtonLoop (fun x : ℚ => (x - 2, 1)) 0 3 (1 / 100) 256 ((0 + 3) / 2) = (2, true) := by
    rw [newtonLoop]; norm_num
    rw [newtonLoop]; norm_num
  rw [this]; rfl

/-- C54: success does not mean convergence.  A function without zero, `f = 1` with a claimed derivative that
alternates, keeps the iteration inside the interval for all 256 rounds. -/
theorem C54_convergence_refuted : ∃ fd : ℚ → ℚ × ℚ, (∀ x, (fd x).1 = 1) ∧ (newton fd (-2) 2 (1 / 100)).ok = true := by
  refine ⟨fun x => (1, if x ≤ 0 then -1 else 1), fun _ => rfl, ?_⟩
  have h : ∀ n, (newtonLoop (fun x : ℚ => (1, if x ≤ 0 then -1 else 1)) (-2) 2 (1 / 100) n 0).2 = true ∧
      (newtonLoop (fun x : ℚ => (1, if x ≤ 0 then -1 else 1)) (-2) 2 (1 / 100) n 1).2 = true := by
    intro n
    induction n with
    | zero => exact ⟨rfl, rfl⟩
    | succ n ih =>
      constructor
      · rw [newtonLoop]; norm_num; exact ih.2
      · rw [newtonLoop]; norm_num; exact ih.1
  unfold newton
  simpa using (h 256).1

/-! ## C49 interpolation -/

theorem findIdx_split {p : K × K → Bool} : ∀ (l : List (K × K)) (b : K × K) (r : List (K × K)), (∀ q ∈ l, p q = false) → p b = true →
    (l ++ b :: r).findIdx p = l.length := by
  intro l b r h1 h2
  induction l with
  | nil => simp [List.findIdx_cons, h2]
  | cons a l ih =>
    rw [List.cons_append, List.findIdx_cons, h1 a (by simp), ih (fun q hq => h1 q (by simp [hq]))]
    rfl

/-- Value of the model strictly inside the table. -/
theorem interpolate_inner {l r : List (K × K)} {a b : K × K} {x : K} (hs : (l ++ a :: b :: r).Pairwise (fun p q => p.1 < q.1))
    (h1 : a.1 < x) (h2 : x ≤ b.1) : interpolate x (l ++ a :: b :: r) = some (a.2 + (x - a.1) * (b.2 - a.2) / (b.1 - a.1)) := by
  have hall : ∀ q ∈ l ++ [a], q.1 < x := by
    intro q hq
    rw [List.mem_append, List.mem_singleton] at hq
    rcases hq with hq | rfl
    · have := (List.pairwise_append.1 hs).2.2 q hq a (by simp)
      exact lt_trans this h1
    · exact h1
  have hidx : (l ++ a :: b :: r).findIdx (fun q => !decide (q.1 < x)) = l.length + 1 := by
    have := findIdx_split (p := fun q : K × K => !decide (q.1 < x)) (l ++ [a]) b r (by intro q hq; simp [hall q hq]) (by simp [h2])
    rw [List.append_assoc] at this
    simpa using this
  have hmid : (l ++ a :: b :: r)[l.length]? = some a := by simp
  have hmid2 : (l ++ a :: b :: r)[l.length + 1]? = some b := by simp
  obtain ⟨p, rest, hpr⟩ : ∃ p rest, l ++ a :: b :: r = p :: rest := by cases l <;> simp
  have hrest : rest ≠ [] := by
    intro h
    rw [h] at hpr
    have := congrArg List.length hpr
    simp at this
    omega
  have hp : p.1 < x := by
    apply hall
    cases l with
    | nil => simp at hpr ⊢; exact hpr.1.symm
    | cons q l => simp at hpr ⊢; exact Or.inl hpr.1.symm
  have hval : ∀ z : K × K, (l ++ a :: b :: r).getLast? = some z → b.1 ≤ z.1 := by
    intro z hz
    rw [List.getLast?_append_cons, List.getLast?_cons_cons] at hz
    cases r with
    | nil => simp at hz; rw [hz]
    | cons q r =>
      have hmem : z ∈ q :: r := by
        rw [List.getLast?_cons_cons] at hz
        exact List.mem_of_getLast? hz
      have := (List.pairwise_append.1 hs).2.1
      rw [List.pairwise_cons, List.pairwise_cons] at this
      exact (this.2.1 z hmem).le
  rw [hpr] at hidx hmid hmid2 hval ⊢
  unfold interpolate
  simp only
  rw [if_neg (by rintro (h | h); exact absurd hp (not_lt.2 h); exact hrest h)]
  have hlast := hval ((p :: rest).getLast (List.cons_ne_nil _ _)) (List.getLast?_eq_getLast_of_ne_nil _)
  by_cases hx : x ≥ ((p :: rest).getLast (List.cons_ne_nil _ _)).1
  · -- then x = b is the last point
    rw [if_pos hx]
    have hxb : x = b.1 := le_antisymm h2 (le_trans hlast hx)
    have hb : b = (p :: rest).getLast (List.cons_ne_nil _ _) := by
      cases r with
      | nil =>
        have : (p :: rest).getLast? = some b := by rw [← hpr]; simp
        rw [List.getLast?_eq_getLast_of_ne_nil (List.cons_ne_nil _ _)] at this
        exact (Option.some.inj this).symm
      | cons q r =>
        exfalso
        obtain ⟨w, hw⟩ : ∃ w, w = (p :: rest).getLast (List.cons_ne_nil _ _) := ⟨_, rfl⟩
        have hz : (p :: rest).getLast? = some w := by rw [hw]; exact List.getLast?_eq_getLast_of_ne_nil _
        rw [← hw] at hx
        rw [← hpr, List.getLast?_append_cons, List.getLast?_cons_cons, List.getLast?_cons_cons] at hz
        have hmem := List.mem_of_getLast? hz
        have := (List.pairwise_append.1 hs).2.1
        rw [List.pairwise_cons, List.pairwise_cons] at this
        have := this.2.1 _ hmem
        have h3 : w.1 ≤ x := hx
        linarith
    rw [← hb, hxb]
    have : b.1 - a.1 ≠ 0 := by rw [← hxb]; exact (sub_pos.2 h1).ne'
    rw [mul_comm, mul_div_assoc, div_self this]
    congr 1; ring
  · rw [if_neg hx, hidx, Nat.add_sub_cancel, hmid, hmid2]
    simp

/-- C49.  For every strictly increasing non-empty table: below the first point the first ordinate, above the last
the last ordinate, at a tabulated abscissa its ordinate, and between two consecutive points the value of the chord. -/
theorem C49_interpolate (points : List (K × K)) (hs : points.Pairwise (fun p q => p.1 < q.1)) (x : K) :
    (∀ a l, points = a :: l → x ≤ a.1 → interpolate x points = some a.2) ∧
    (∀ b l, points = l ++ [b] → b.1 ≤ x → interpolate x points = some b.2) ∧
    (∀ p ∈ points, interpolate p.1 points = some p.2) ∧
    (∀ l a b r, points = l ++ a :: b :: r → a.1 ≤ x → x ≤ b.1 →
      interpolate x points = some (a.2 + (x - a.1) / (b.1 - a.1) * (b.2 - a.2))) := by
  have first : ∀ a l, points = a :: l → ∀ x, x ≤ a.1 → interpolate x points = some a.2 := by
    intro a l h x hx
    rw [h]; unfold interpolate
    simp only
    rw [if_pos (Or.inl hx)]
  have at_point : ∀ p ∈ points, interpolate p.1 points = some p.2 := by
    intro p hp
    obtain ⟨l, r, h⟩ := List.append_of_mem hp
    rcases List.eq_nil_or_concat l with rfl | ⟨l, a, rfl⟩
    · exact first p r h _ (le_refl _)
    · rw [List.concat_eq_append, List.append_assoc] at h
      simp only [List.cons_append, List.nil_append] at h
      have hs' := hs
      rw [h] at hs' ⊢
      have hap : a.1 < p.1 := by
        have := (List.pairwise_append.1 hs').2.1
        rw [List.pairwise_cons] at this
        exact this.1 p (by simp)
      rw [interpolate_inner hs' hap (le_refl _)]
      have : p.1 - a.1 ≠ 0 := (sub_pos.2 hap).ne'
      rw [mul_comm, mul_div_assoc, div_self this]
      congr 1; ring
  refine ⟨fun a l h hx => first a l h x hx, ?_, at_point, ?_⟩
  · intro b l h hx
    rcases lt_or_eq_of_le hx with hx | hx
    · obtain ⟨p, rest, hpr⟩ : ∃ p rest, points = p :: rest := by rw [h]; cases l <;> simp
      have hlast : (p :: rest).getLast (List.cons_ne_nil _ _) = b := by
        have : (p :: rest).getLast? = some b := by rw [← hpr, h]; simp
        rw [List.getLast?_eq_getLast_of_ne_nil (List.cons_ne_nil _ _)] at this
        exact Option.some.inj this
      rw [hpr]
      unfold interpolate
      simp only
      by_cases h1 : x ≤ p.1 ∨ rest = []
      · rw [if_pos h1]
        rcases h1 with h1 | h1
        · exfalso
          have hb : b ∈ points := by rw [h]; simp
          rw [hpr, List.mem_cons] at hb
          rw [hpr, List.pairwise_cons] at hs
          rcases hb with hb | hb
          · rw [hb] at hx; linarith
          · have := hs.1 b hb; linarith
        · subst h1
          rw [← hlast]; rfl
      · rw [if_neg h1]
        rw [if_pos (by rw [hlast]; exact hx.le), hlast]
    · rw [← hx]
      exact at_point b (by rw [h]; simp)
  · intro l a b r h h1 h2
    have hab : a.1 < b.1 := by
      rw [h] at hs
      have := (List.pairwise_append.1 hs).2.1
      rw [List.pairwise_cons] at this
      exact this.1 b (by simp)
    rcases lt_or_eq_of_le h1 with h1 | h1
    · rw [h] at hs ⊢
      rw [interpolate_inner hs h1 h2]
      congr 2; ring
    · rw [← h1, at_point a (by rw [h]; simp)]
      simp

example : interpolate (3 / 2 : ℚ) [(0, 1), (1, 2), (2, 6)] = some 4 := by
  rw [(C49_interpolate [(0, 1), (1, 2), (2, 6)] (by norm_num) (3 / 2)).2.2.2 [(0, 1)] (1, 2) (2, 6) [] rfl (by norm_num) (by norm_num)]
  norm_num

/-! ## C52 trapezoid rule -/

/-- The composite trapezoid rule with `n` intervals. -/
def trapRule (f : K → K) (a b : K) (n : ℕ) : K :=
  (b - a) / n * ((f a + f b) / 2 + ∑ i ∈ range (n - 1), f (a + (i + 1 : ℕ) * ((b - a) / n)))

theorem trapSum_eq (f : K → K) (a h : K) (n : ℕ) : trapSum f a h n = ∑ j ∈ range n, f (a + ((2 * j + 1 : ℕ) : K) * h) := by
  unfold trapSum
  induction n with
  | zero => simp
  | succ n ih =>
    rw [List.range_succ, List.foldl_append, ih, Finset.sum_range_succ]
    simp only [List.foldl_cons, List.foldl_nil]
    congr 3
    push_cast; ring

theorem sum_interleave (g : ℕ → K) (n : ℕ) (hn : 1 ≤ n) :
    ∑ i ∈ range (2 * n - 1), g (i + 1) = ∑ i ∈ range (n - 1), g (2 * (i + 1)) + ∑ j ∈ range n, g (2 * j + 1) := by
  induction n with
  | zero => omega
  | succ n ih =>
    rcases Nat.eq_zero_or_pos n with rfl | hp
    · simp
    · have e : 2 * (n + 1) - 1 = (2 * n - 1) + 1 + 1 := by omega
      rw [e, Finset.sum_range_succ, Finset.sum_range_succ, ih hp, Finset.sum_range_succ (fun j => g (2 * j + 1)) n]
      have e2 : n + 1 - 1 = (n - 1) + 1 := by omega
      rw [e2, Finset.sum_range_succ]
      have e3 : 2 * n - 1 + 1 = 2 * n := by omega
      have e4 : n - 1 + 1 = n := by omega
      rw [e3, e4]
      ring

theorem trap_double (f : K → K) (a b : K) (n : ℕ) (hn : 1 ≤ n) :
    trapRule f a b (n * 2) = trapRule f a b n * (1 / 2) + (b - a) / n * (1 / 2) * trapSum f a ((b - a) / n * (1 / 2)) n := by
  have hn0 : (n : K) ≠ 0 := by exact_mod_cast (by omega : n ≠ 0)
  have hh : (b - a) / ((n * 2 : ℕ) : K) = (b - a) / n * (1 / 2) := by push_cast; field_simp
  rw [trapSum_eq]
  unfold trapRule
  rw [hh, show n * 2 - 1 = 2 * n - 1 by omega,
    sum_interleave (fun i => f (a + (i : ℕ) * ((b - a) / n * (1 / 2)))) n hn]
  have e : ∀ i : ℕ, f (a + ((2 * (i + 1) : ℕ) : K) * ((b - a) / n * (1 / 2))) = f (a + (i + 1 : ℕ) * ((b - a) / n)) := by
    intro i; congr 1; push_cast; ring
  simp only [e]
  ring

theorem trapLoop_spec (f : K → K) (a b eps : K) (fuel : ℕ) : ∀ (k : ℕ),
    ∃ m, k ≤ m ∧ m ≤ k + fuel ∧
      (trapLoop f a eps fuel k (2 ^ k) ((b - a) / (2 ^ k : ℕ)) (trapRule f a b (2 ^ k))).1 = trapRule f a b (2 ^ m) ∧
      ((trapLoop f a eps fuel k (2 ^ k) ((b - a) / (2 ^ k : ℕ)) (trapRule f a b (2 ^ k))).2 = true →
        5 ≤ m ∧ |trapRule f a b (2 ^ (m - 1)) / trapRule f a b (2 ^ m) - 1| < eps) ∧
      ((trapLoop f a eps fuel k (2 ^ k) ((b - a) / (2 ^ k : ℕ)) (trapRule f a b (2 ^ k))).2 = false → m = k + fuel) := by
  induction fuel with
  | zero => intro k; exact ⟨k, le_refl _, by omega, rfl, by simp [trapLoop], by simp [trapLoop]⟩
  | succ fuel ih =>
    intro k
    have h1 : 1 ≤ 2 ^ k := Nat.one_le_two_pow
    have hd := trap_double f a b (2 ^ k) h1
    rw [← pow_succ] at hd
    have hh : (b - a) / ((2 ^ (k + 1) : ℕ) : K) = (b - a) / (2 ^ k : ℕ) * (1 / 2) := by
      have : ((2 ^ k : ℕ) : K) ≠ 0 := by exact_mod_cast (by omega : 2 ^ k ≠ 0)
      rw [pow_succ]; push_cast at this ⊢; field_simp
    have habs : ∀ z : K, (if z > 1 then z - 1 else 1 - z) = |z - 1| := by
      intro z
      split
      · rw [abs_of_pos (by linarith)]
      · rw [abs_of_nonpos (by linarith)]; ring
    simp only [trapLoop, habs, ← pow_succ]
    simp only [← hd]
    simp only [← hh]
    by_cases hc : 3 < k ∧ |trapRule f a b (2 ^ k) / trapRule f a b (2 ^ (k + 1)) - 1| < eps
    · rw [if_pos hc]
      exact ⟨k + 1, by omega, by omega, rfl, fun _ => ⟨by omega, by simpa using hc.2⟩, by simp⟩
    · rw [if_neg hc]
      obtain ⟨m, m1, m2, m3, m4, m5⟩ := ih (k + 1)
      exact ⟨m, by omega, by omega, m3, m4, fun h => by rw [m5 h]; omega⟩

/-- C52.  The recursive trapezoid rule returns the composite trapezoid rule with `2^m` intervals, `m <= 31`; success
means `m >= 5` and a relative change below the tolerance against the rule with half as many intervals; failure means
all 31 rounds were made. -/
theorem C52_trapezoid (f : K → K) (a b eps : K) : ∃ m ≤ 31, (trapezoid f a b eps).1 = trapRule f a b (2 ^ m) ∧
    ((trapezoid f a b eps).2 = true → 5 ≤ m ∧ |trapRule f a b (2 ^ (m - 1)) / trapRule f a b (2 ^ m) - 1| < eps) ∧
    ((trapezoid f a b eps).2 = false → m = 31) := by
  have h := trapLoop_spec f a b eps 31 0
  have e0 : trapRule f a b (2 ^ 0) = (f a + f b) * ((b - a) / 1 * (1 / 2)) := by
    unfold trapRule; simp; ring
  rw [e0] at h
  simp only [pow_zero, Nat.cast_one] at h
  obtain ⟨m, m1, m2, m3, m4, m5⟩ := h
  exact ⟨m, by omega, m3, m4, fun h => by have := m5 h; omega⟩

/-- For an affine function every rule gives the integral. -/
theorem trapRule_affine (p q a b : K) (n : ℕ) (hn : 1 ≤ n) : trapRule (fun x => p * x + q) a b n = p * (b ^ 2 - a ^ 2) / 2 + q * (b - a) := by
  have hn0 : (n : K) ≠ 0 := by exact_mod_cast (by omega : n ≠ 0)
  have hs : ∀ m : ℕ, ∑ i ∈ range m, (p * (a + (i + 1 : ℕ) * ((b - a) / n)) + q) = m * (p * a + q) + p * ((b - a) / n) * (m * (m + 1) / 2) := by
    intro m
    induction m with
    | zero => simp
    | succ m ih => rw [Finset.sum_range_succ, ih]; push_cast; ring
  unfold trapRule
  rw [hs]
  obtain ⟨k, rfl⟩ : ∃ k, n = k + 1 := ⟨n - 1, by omega⟩
  rw [Nat.add_sub_cancel]
  push_cast at hn0 ⊢
  field_simp
  ring

/-- The trapezoid rule integrates affine functions exactly. -/
theorem C52_affine (p q a b eps : K) : (trapezoid (fun x => p * x + q) a b eps).1 = p * (b ^ 2 - a ^ 2) / 2 + q * (b - a) := by
  obtain ⟨m, _, h, _⟩ := C52_trapezoid (fun x => p * x + q) a b eps
  rw [h]
  exact trapRule_affine p q a b _ Nat.one_le_two_pow

example : (trapezoid (fun x : ℚ => 3 * x + 1) 0 2 (1 / 1000)).1 = 8 := by rw [C52_affine]; norm_num

/-! ## C53 derivative -/

/-- C53.  The difference formula is exact for polynomials of degree at most six. -/
theorem C53_derivative (p : Polynomial K) (hp : p.natDegree ≤ 6) (x dx : K) (h : dx ≠ 0) :
    derivative (fun y => p.eval y) x dx = p.derivative.eval x := by
  have he : p = ∑ i ∈ range 7, Polynomial.C (p.coeff i) * Polynomial.X ^ i :=
    Polynomial.as_sum_range_C_mul_X_pow' p (by omega)
  generalize p.coeff = c at he
  subst he
  unfold derivative
  simp only [Finset.sum_range_succ, Finset.sum_range_zero, Polynomial.eval_add, Polynomial.eval_mul, Polynomial.eval_C,
    Polynomial.eval_pow, Polynomial.eval_X, Polynomial.derivative_add, Polynomial.derivative_mul, Polynomial.derivative_C,
    Polynomial.derivative_X_pow, zero_mul, zero_add, pow_zero]
  field_simp
  simp
  ring

/-- Degree seven is not exact: the formula is of sixth order. -/
example : derivative (fun y : ℚ => y ^ 7) 0 1 = 36 := by unfold derivative; norm_num

end Ordered

/-! ## C50 series -/

theorem expansion_spec {R : Type*} [CommRing R] (x : R) (c : List R) : ∀ pow sum : R,
    expansion x pow sum c = sum + pow * ∑ i : Fin c.length, c[i] * x ^ (i : ℕ) := by
  induction c with
  | nil => intro pow sum; simp [expansion]
  | cons ck rest ih =>
    intro pow sum
    rw [expansion, ih]
    have e : (∑ i : Fin (ck :: rest).length, (ck :: rest)[i] * x ^ (i : ℕ)) =
        ∑ i : Fin (rest.length + 1), (ck :: rest)[(i : ℕ)]'(by simpa using i.2) * x ^ (i : ℕ) := rfl
    rw [e, Fin.sum_univ_succ]
    simp only [Fin.val_zero, Fin.val_succ, pow_zero, mul_one, Fin.getElem_fin, List.getElem_cons_zero, List.getElem_cons_succ, pow_succ]
    rw [mul_add, Finset.mul_sum, Finset.mul_sum]
    have : ∀ i : Fin rest.length, pow * x * (rest[(i : ℕ)] * x ^ (i : ℕ)) = pow * (rest[(i : ℕ)] * (x ^ (i : ℕ) * x)) := by
      intro i; ring
    simp only [this]
    ring

theorem alternating_spec {R : Type*} [CommRing R] (init : R) (c : List R) : ∀ (neg : Bool) (sum : R),
    alternating init neg sum c = sum + (if neg then -1 else 1) * ∑ i : Fin c.length, (-1) ^ (i : ℕ) * c[i] + c.length * init := by
  induction c with
  | nil => intro neg sum; simp [alternating]
  | cons ck rest ih =>
    intro neg sum
    rw [alternating, ih]
    have e : (∑ i : Fin (ck :: rest).length, (-1) ^ (i : ℕ) * (ck :: rest)[i]) =
        ∑ i : Fin (rest.length + 1), (-1) ^ (i : ℕ) * (ck :: rest)[(i : ℕ)]'(by simpa using i.2) := rfl
    rw [e, Fin.sum_univ_succ]
    simp only [Fin.val_zero, Fin.val_succ, pow_zero, one_mul, Fin.getElem_fin, List.getElem_cons_zero, List.getElem_cons_succ, pow_succ]
    have : ∀ i : Fin rest.length, (-1 : R) ^ (i : ℕ) * -1 * rest[(i : ℕ)] = -((-1) ^ (i : ℕ) * rest[(i : ℕ)]) := by
      intro i; ring
    simp only [this, Finset.sum_neg_distrib, List.length_cons]
    cases neg
    · simp; ring
    · simp; ring

/-- C50.  Accumulating `c` with the default functors over any commutative ring: the power series and the alternating
sum; with a start value of the power its multiple, with a start value of the alternating sum one addition of it per
term. -/
theorem C50_series {R : Type*} [CommRing R] (c : List R) (x sum : R) :
    expansion x 1 sum c = sum + ∑ i : Fin c.length, c[i] * x ^ (i : ℕ) ∧
    (∀ init, expansion x init sum c = sum + init * ∑ i : Fin c.length, c[i] * x ^ (i : ℕ)) ∧
    alternating 0 false sum c = sum + ∑ i : Fin c.length, (-1) ^ (i : ℕ) * c[i] ∧
    alternating 0 true sum c = sum - ∑ i : Fin c.length, (-1) ^ (i : ℕ) * c[i] ∧
    (∀ init, alternating init false sum c = sum + ∑ i : Fin c.length, (-1) ^ (i : ℕ) * c[i] + c.length * init) := by
  refine ⟨?_, fun init => expansion_spec x c init sum, ?_, ?_, ?_⟩
  · rw [expansion_spec, one_mul]
  · rw [alternating_spec]; simp
  · rw [alternating_spec]; simp; ring
  · intro init; rw [alternating_spec]; simp

example : expansion (3 : ℤ) 1 0 [1, 2, 5] = 52 ∧ alternating (0 : ℤ) false 0 [7, 2, 1] = 6 := by decide

end EFX.Props
