import Verif.Lemmas.Rnd
import Verif.Lemmas.Parts
import Verif.Lemmas.AddCore
/-!
# Accuracy of the double-precision start values

`extract_parts` and the constructor from mantissa and exponent, in the range used by the inverse and
the square root.
-/

namespace EFX
open Spec

/-- `a` approximates `b > 0` with relative error `ε`. -/
def Near (ε a b : ℚ) : Prop := |a - b| ≤ ε * b

theorem Near.refl {b : ℚ} : Near 0 b b := by unfold Near; simp

theorem Near.weaken {ε ε' a b : ℚ} (h : Near ε a b) (hb : 0 ≤ b) (he : ε ≤ ε') : Near ε' a b :=
  le_trans h (mul_le_mul_of_nonneg_right he hb)

theorem Near.lo {ε a b : ℚ} (h : Near ε a b) : (1 - ε) * b ≤ a := by
  have := (abs_le.1 h).1; linarith

theorem Near.hi {ε a b : ℚ} (h : Near ε a b) : a ≤ (1 + ε) * b := by
  have := (abs_le.1 h).2; linarith

/-- One rounding adds `2e-16`. -/
theorem Near.rnd {ε a b : ℚ} (h : Near ε a b) (hb : 0 ≤ b) (ha : 0 ≤ a) (he : ε ≤ 1 / 100) :
    Near (ε + 2 / 10 ^ 16) (EFX.rnd a) b := by
  have h1 := rnd_err ha
  have h2 := h.hi
  have h3 : a ≤ 101 / 100 * b := le_trans h2 (mul_le_mul_of_nonneg_right (by linarith) hb)
  unfold Near at *
  calc |EFX.rnd a - b| ≤ |EFX.rnd a - a| + |a - b| := abs_sub_le _ _ _
    _ ≤ a / 2 ^ 53 + ε * b := add_le_add h1 h
    _ ≤ 2 / 10 ^ 16 * b + ε * b := by
      apply add_le_add_left
      calc a / 2 ^ 53 ≤ (101 / 100 * b) / 2 ^ 53 := div_le_div_of_nonneg_right h3 (by positivity)
        _ = (101 / 100 / 2 ^ 53) * b := by ring
        _ ≤ _ := mul_le_mul_of_nonneg_right (by norm_num) hb
    _ = _ := by ring

theorem Near.add {ε a b a' b' : ℚ} (h : Near ε a b) (h' : Near ε a' b') : Near ε (a + a') (b + b') := by
  unfold Near at *
  calc |a + a' - (b + b')| = |(a - b) + (a' - b')| := by ring_nf
    _ ≤ _ := abs_add_le _ _
    _ ≤ _ := by linarith

theorem Near.mul {ε a b k : ℚ} (h : Near ε a b) (hk : 0 ≤ k) : Near ε (a * k) (b * k) := by
  unfold Near at *
  rw [← sub_mul, abs_mul, abs_of_nonneg hk, ← mul_assoc]
  exact mul_le_mul_of_nonneg_right h hk

theorem Near.div {ε a b k : ℚ} (h : Near ε a b) (hk : 0 ≤ k) : Near ε (a / k) (b / k) := by
  rw [div_eq_mul_inv, div_eq_mul_inv]; exact h.mul (inv_nonneg.2 hk)

theorem Near.trans {ε ε' a b d : ℚ} (h : Near ε a b) (h' : Near ε' b d) (hd : 0 ≤ d) (he : 0 ≤ ε) (he' : ε' ≤ 1 / 100) :
    Near (2 * ε + ε') a d := by
  have h1 := h'.hi
  have h2 : b ≤ 2 * d := le_trans h1 (mul_le_mul_of_nonneg_right (by linarith) hd)
  unfold Near at *
  calc |a - d| ≤ |a - b| + |b - d| := abs_sub_le _ _ _
    _ ≤ ε * b + ε' * d := add_le_add h h'
    _ ≤ ε * (2 * d) + ε' * d := add_le_add_left (mul_le_mul_of_nonneg_left h2 he) _
    _ = _ := by ring

theorem partsLoop_spec : ∀ (f n p : Nat) (e : Int), p * 10 ^ digitsMinus1 f n < 4294967296 →
    partsLoop f n p e = (p * 10 ^ digitsMinus1 f n, e + digitsMinus1 f n)
  | 0, n, p, e, _ => by simp [partsLoop, digitsMinus1]
  | f + 1, n, p, e, h => by
    rw [partsLoop]
    rw [digitsMinus1] at h ⊢
    by_cases h0 : n / 10 = 0
    · simp [h0]
    · rw [if_neg h0] at h ⊢
      rw [if_neg h0]
      have hw : w32 (p * 10) = p * 10 := by
        apply Nat.mod_eq_of_lt
        have : 1 ≤ 10 ^ digitsMinus1 f (n / 10) := Nat.one_le_pow _ _ (by norm_num)
        calc p * 10 ≤ p * 10 * 10 ^ digitsMinus1 f (n / 10) := Nat.le_mul_of_pos_right _ this
          _ = p * 10 ^ (digitsMinus1 f (n / 10) + 1) := by ring
          _ < _ := h
      rw [hw, partsLoop_spec f (n / 10) (p * 10) (e + 1) (by
        calc p * 10 * 10 ^ digitsMinus1 f (n / 10) = p * 10 ^ (digitsMinus1 f (n / 10) + 1) := by ring
          _ < _ := h)]
      rw [Prod.mk.injEq]
      constructor
      · ring
      · push_cast; ring

/-- First three limbs against the whole number. -/
theorem mag_three {c : Cfg} {x : EFloat} (hx : WF c x) :
    let M : ℚ := (x.data.getD 0 0 : ℕ) + ((x.data.getD 1 0 : ℕ) : ℚ) / 100000000 + ((x.data.getD 2 0 : ℕ) : ℚ) / 100000000 / 100000000
    M * (10 : ℚ) ^ x.exp ≤ mag x ∧ mag x ≤ (M + 1 / 10 ^ 16) * (10 : ℚ) ^ x.exp := by
  have hN := elems_ge c
  have hl := hx.len
  have hlimb := hx.limb
  unfold mag
  rcases hd : x.data with _ | ⟨a, _ | ⟨b, _ | ⟨d, t⟩⟩⟩
  · rw [hd] at hl; simp at hl; omega
  · rw [hd] at hl; simp at hl; omega
  · rw [hd] at hl; simp at hl; omega
  · rw [hd] at hlimb
    have ht : 0 ≤ digitsValue (x.exp - 8 - 8 - 8) t ∧ digitsValue (x.exp - 8 - 8 - 8) t ≤ (10 : ℚ) ^ (x.exp - 16) := by
      rw [digitsValue_eq]
      have hlt := lv_lt (l := t) (fun y hy => hlimb y (by simp [hy]))
      constructor
      · exact mul_nonneg (by positivity) (p10_pos _).le
      · have h1 : ((lv t : ℕ) : ℚ) ≤ ((100000000 ^ t.length : ℕ) : ℚ) := by exact_mod_cast hlt.le
        calc _ ≤ ((100000000 ^ t.length : ℕ) : ℚ) * (10 : ℚ) ^ (x.exp - 8 - 8 - 8 - 8 * ((t.length : ℤ) - 1)) :=
              mul_le_mul_of_nonneg_right h1 (p10_pos _).le
          _ = _ := by
            rw [← p10_base, ← p10_add]; congr 1; ring
    simp only [digitsValue, List.getD_cons_zero, List.getD_cons_succ]
    have e1 : (10 : ℚ) ^ (x.exp - 8) = (10 : ℚ) ^ x.exp / 100000000 := by
      rw [sub_eq_add_neg, p10_add]; norm_num [div_eq_mul_inv]
    have e2 : (10 : ℚ) ^ (x.exp - 8 - 8) = (10 : ℚ) ^ x.exp / 100000000 / 100000000 := by
      rw [show x.exp - 8 - 8 = x.exp + (-16) by ring, p10_add]; norm_num [div_eq_mul_inv]; ring
    have e3 : (10 : ℚ) ^ (x.exp - 16) = 1 / 10 ^ 16 * (10 : ℚ) ^ x.exp := by
      rw [sub_eq_add_neg, p10_add]; norm_num [div_eq_mul_inv]; ring
    rw [e1, e2]
    rw [e3] at ht
    generalize (10 : ℚ) ^ x.exp = P at *
    generalize digitsValue (x.exp - 8 - 8 - 8) t = R at *
    constructor
    · have : ((a : ℚ) + b / 100000000 + d / 100000000 / 100000000) * P + R =
        a * P + (b * (P / 100000000) + (d * (P / 100000000 / 100000000) + R)) := by ring
      linarith [ht.1]
    · have : ((a : ℚ) + b / 100000000 + d / 100000000 / 100000000) * P + R =
        a * P + (b * (P / 100000000) + (d * (P / 100000000 / 100000000) + R)) := by ring
      linarith [ht.2]

/-- `extract_parts` of a positive number: mantissa and decimal exponent with relative error `2e-15`, and
the mantissa lies in `[0.99, 10.01]`. -/
theorem extractParts_spec {c : Cfg} {x : EFloat} (hx : FinWF c x) (hz : x.data.headD 0 ≠ 0) (hn : x.neg = false) :
    Near (2 / 10 ^ 15) ((extractParts x).1 * (10 : ℚ) ^ (extractParts x).2) (mag x) ∧
    99 / 100 ≤ (extractParts x).1 ∧ (extractParts x).1 ≤ 1001 / 100 ∧
    x.exp ≤ (extractParts x).2 ∧ (extractParts x).2 ≤ x.exp + 7 ∧ Grid (extractParts x).1 := by
  have h3 := mag_three hx.toWF
  have hh : x.data.getD 0 0 = x.data.headD 0 := by cases x.data <;> rfl
  have hlt0 : x.data.getD 0 0 < 100000000 := by
    rw [hh]
    rcases hd : x.data with _ | ⟨a, t⟩
    · rw [hd] at hz; simp at hz
    · exact hx.limb a (by rw [hd]; simp)
  have h1 : 1 ≤ x.data.getD 0 0 := by rw [hh]; omega
  obtain ⟨k1, k2⟩ := digitsMinus1_spec 11 (x.data.getD 0 0) h1 (lt_trans hlt0 (by norm_num))
  have hk7 : digitsMinus1 11 (x.data.getD 0 0) ≤ 7 := by
    by_contra hc
    have : 10 ^ 8 ≤ 10 ^ digitsMinus1 11 (x.data.getD 0 0) := Nat.pow_le_pow_right (by norm_num) (by omega)
    omega
  have hp : partsLoop 11 (x.data.getD 0 0) 1 x.exp =
      (10 ^ digitsMinus1 11 (x.data.getD 0 0), x.exp + digitsMinus1 11 (x.data.getD 0 0)) := by
    rw [partsLoop_spec _ _ _ _ (by
      have : 10 ^ digitsMinus1 11 (x.data.getD 0 0) ≤ 10 ^ 7 := Nat.pow_le_pow_right (by norm_num) hk7
      omega), one_mul]
  unfold extractParts
  simp only [hp, hn, Bool.false_eq_true, if_false]
  generalize hk : digitsMinus1 11 (x.data.getD 0 0) = k at *
  simp only at h3
  generalize hD0 : ((x.data.getD 0 0 : ℕ) : ℚ) = d0 at *
  have hd0 : (1 : ℚ) ≤ d0 := by rw [← hD0]; exact_mod_cast h1
  have hkl : ((10 ^ k : ℕ) : ℚ) ≤ d0 := by rw [← hD0]; exact_mod_cast k1
  have hku : d0 ≤ ((10 ^ (k + 1) : ℕ) : ℚ) - 1 := by
    rw [← hD0]
    have : ((x.data.getD 0 0 + 1 : ℕ) : ℚ) ≤ ((10 ^ (k + 1) : ℕ) : ℚ) := by exact_mod_cast k2
    push_cast at this ⊢; linarith
  have hb1 : ((x.data.getD 1 0 : ℕ) : ℚ) ≤ 99999999 := by
    by_cases hi : 1 < x.data.length
    · rw [List.getD_eq_getElem _ _ hi]
      have := hx.limb _ (List.getElem_mem hi)
      have h' : x.data[1] ≤ 99999999 := by omega
      exact_mod_cast h'
    · rw [List.getD_eq_default _ _ (by omega)]; norm_num
  have hb2 : ((x.data.getD 2 0 : ℕ) : ℚ) ≤ 99999999 := by
    by_cases hi : 2 < x.data.length
    · rw [List.getD_eq_getElem _ _ hi]
      have := hx.limb _ (List.getElem_mem hi)
      have h' : x.data[2] ≤ 99999999 := by omega
      exact_mod_cast h'
    · rw [List.getD_eq_default _ _ (by omega)]; norm_num
  have hd1 : (0 : ℚ) ≤ ((x.data.getD 1 0 : ℕ) : ℚ) := by positivity
  have hd2 : (0 : ℚ) ≤ ((x.data.getD 2 0 : ℕ) : ℚ) := by positivity
  generalize ((x.data.getD 1 0 : ℕ) : ℚ) = d1 at *
  generalize ((x.data.getD 2 0 : ℕ) : ℚ) = d2 at *
  have hK : (1 : ℚ) ≤ ((10 ^ k : ℕ) : ℚ) := by
    have : 1 ≤ 10 ^ k := Nat.one_le_pow _ _ (by norm_num)
    exact_mod_cast this
  have hK1 : ((10 ^ (k + 1) : ℕ) : ℚ) = 10 * ((10 ^ k : ℕ) : ℚ) := by push_cast; ring
  have hKe : (10 : ℚ) ^ (x.exp + (k : ℤ)) = (10 : ℚ) ^ x.exp * ((10 ^ k : ℕ) : ℚ) := by
    rw [p10_add, zpow_natCast]; push_cast; rfl
  rw [hK1] at hku
  rw [hKe]
  generalize ((10 ^ k : ℕ) : ℚ) = K at *
  have hP := p10_pos x.exp
  generalize (10 : ℚ) ^ x.exp = P at *
  -- the chain of roundings
  have nr : ∀ {a : ℚ}, 0 ≤ a → Near (2 / 10 ^ 16) (rnd a) a := by
    intro a ha
    have := (Near.refl (b := a)).rnd ha ha (by norm_num)
    rwa [zero_add] at this
  have s0 : Near (2 / 10 ^ 16) (rnd d0) d0 := nr (by linarith)
  have s1 : Near (2 / 10 ^ 16 + 2 / 10 ^ 16) (rnd (rnd d1 / 100000000)) (d1 / 100000000) :=
    ((nr hd1).div (by norm_num)).rnd (by positivity) (div_nonneg (rnd_nonneg hd1) (by norm_num)) (by norm_num)
  have s2 : Near (2 / 10 ^ 16 + 2 / 10 ^ 16 + 2 / 10 ^ 16) (rnd (rnd (rnd d2 / 100000000) / 100000000)) (d2 / 100000000 / 100000000) := by
    have : Near (2 / 10 ^ 16 + 2 / 10 ^ 16) (rnd (rnd d2 / 100000000)) (d2 / 100000000) :=
      ((nr hd2).div (by norm_num)).rnd (by positivity) (div_nonneg (rnd_nonneg hd2) (by norm_num)) (by norm_num)
    exact (this.div (by norm_num)).rnd (by positivity)
      (div_nonneg (rnd_nonneg (div_nonneg (rnd_nonneg hd2) (by norm_num))) (by norm_num)) (by norm_num)
  have q0 : 0 ≤ rnd d0 := rnd_nonneg (by linarith)
  have q1 : 0 ≤ rnd (rnd d1 / 100000000) := rnd_nonneg (div_nonneg (rnd_nonneg hd1) (by norm_num))
  have q2 : 0 ≤ rnd (rnd (rnd d2 / 100000000) / 100000000) :=
    rnd_nonneg (div_nonneg (rnd_nonneg (div_nonneg (rnd_nonneg hd2) (by norm_num))) (by norm_num))
  have s3 : Near (6 / 10 ^ 16) (rnd (rnd d0 + rnd (rnd d1 / 100000000))) (d0 + d1 / 100000000) := by
    have := ((s0.weaken (by linarith) (by norm_num : (2 / 10 ^ 16 : ℚ) ≤ 2 / 10 ^ 16 + 2 / 10 ^ 16)).add s1).rnd
      (by positivity) (by linarith) (by norm_num)
    exact this.weaken (by positivity) (by norm_num)
  have q3 : 0 ≤ rnd (rnd d0 + rnd (rnd d1 / 100000000)) := rnd_nonneg (by linarith)
  generalize rnd (rnd d0 + rnd (rnd d1 / 100000000)) = r1 at *
  generalize rnd (rnd (rnd d2 / 100000000) / 100000000) = r2 at *
  have s4 : Near (8 / 10 ^ 16) (rnd (r1 + r2)) (d0 + d1 / 100000000 + d2 / 100000000 / 100000000) := by
    have := (s3.add (s2.weaken (by positivity) (by norm_num : (2 / 10 ^ 16 + 2 / 10 ^ 16 + 2 / 10 ^ 16 : ℚ) ≤ 6 / 10 ^ 16))).rnd
      (by positivity) (by linarith) (by norm_num)
    exact this.weaken (by positivity) (by norm_num)
  have q4 : 0 ≤ rnd (r1 + r2) := rnd_nonneg (by linarith)
  have hM1 : d0 + d1 / 100000000 + d2 / 100000000 / 100000000 ≤ 10 * K := by
    have : d1 / 100000000 + d2 / 100000000 / 100000000 ≤ 1 := by
      have e1 : d1 / 100000000 ≤ 99999999 / 100000000 := div_le_div_of_nonneg_right hb1 (by norm_num)
      have e2 : d2 / 100000000 / 100000000 ≤ 99999999 / 100000000 / 100000000 :=
        div_le_div_of_nonneg_right (div_le_div_of_nonneg_right hb2 (by norm_num)) (by norm_num)
      have : (99999999 / 100000000 + 99999999 / 100000000 / 100000000 : ℚ) ≤ 1 := by norm_num
      linarith
    linarith
  have hM0 : d0 ≤ d0 + d1 / 100000000 + d2 / 100000000 / 100000000 := by
    have : 0 ≤ d1 / 100000000 + d2 / 100000000 / 100000000 := by positivity
    linarith
  generalize d0 + d1 / 100000000 + d2 / 100000000 / 100000000 = M at *
  generalize rnd (r1 + r2) = r3 at *
  have hM : 1 ≤ M := by linarith
  have s5 : Near (10 / 10 ^ 16) (rnd (r3 / K)) (M / K) := by
    have := (s4.div (by linarith : (0 : ℚ) ≤ K)).rnd (by positivity) (div_nonneg q4 (by linarith)) (by norm_num)
    exact this.weaken (by positivity) (by norm_num)
  have hMK1 : 1 ≤ M / K := by rw [le_div_iff₀ (by linarith)]; linarith
  have hMK2 : M / K ≤ 10 := by rw [div_le_iff₀ (by linarith)]; linarith
  refine ⟨?_, ?_, ?_, by omega, by omega, rnd_grid (div_nonneg q4 (by linarith))⟩
  · have s6 : Near (10 / 10 ^ 16) (rnd (r3 / K) * (P * K)) (M * P) := by
      have := s5.mul (k := P * K) (by positivity)
      rwa [show M / K * (P * K) = M * P by field_simp] at this
    have s7 : |M * P - mag x| ≤ 1 / 10 ^ 16 * mag x := by
      rw [abs_le]
      have : P ≤ mag x := by
        calc P = 1 * P := (one_mul _).symm
          _ ≤ M * P := mul_le_mul_of_nonneg_right hM hP.le
          _ ≤ _ := h3.1
      constructor
      · have : (M + 1 / 10 ^ 16) * P = M * P + 1 / 10 ^ 16 * P := by ring
        linarith [h3.2]
      · linarith [h3.1]
    have hm0 := mag_nonneg x
    unfold Near at s6 ⊢
    have hMx : M * P ≤ mag x := h3.1
    calc _ ≤ |rnd (r3 / K) * (P * K) - M * P| + |M * P - mag x| := abs_sub_le _ _ _
      _ ≤ 10 / 10 ^ 16 * (M * P) + 1 / 10 ^ 16 * mag x := add_le_add s6 s7
      _ ≤ 10 / 10 ^ 16 * mag x + 1 / 10 ^ 16 * mag x := by
        apply add_le_add_left; exact mul_le_mul_of_nonneg_left hMx (by norm_num)
      _ ≤ _ := by
        rw [← add_mul]; exact mul_le_mul_of_nonneg_right (by norm_num) hm0
  · have := s5.lo
    have h2 : (99 / 100 : ℚ) ≤ (1 - 10 / 10 ^ 16) * 1 := by norm_num
    have h3 : (1 - 10 / 10 ^ 16 : ℚ) * 1 ≤ (1 - 10 / 10 ^ 16) * (M / K) := mul_le_mul_of_nonneg_left hMK1 (by norm_num)
    linarith
  · have := s5.hi
    have h2 : (1 + 10 / 10 ^ 16 : ℚ) * 10 ≤ 1001 / 100 := by norm_num
    have h3 : (1 + 10 / 10 ^ 16 : ℚ) * (M / K) ≤ (1 + 10 / 10 ^ 16) * 10 := mul_le_mul_of_nonneg_left hMK2 (by norm_num)
    linarith

end EFX
