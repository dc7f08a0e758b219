import Mathlib.Analysis.Complex.ExponentialBounds
import Mathlib.NumberTheory.Real.GoldenRatio
import Verif.Lemmas.ConstDigits
import Verif.Lemmas.ConstText
import Verif.Props.Text
import Verif.Props.FnValid
/-!
# C75: the constants
-/

namespace EFX.Props
open EFX EFX.Spec

/-- The `D` digit decimal `V / 10^D` is within half a unit of its last digit from `x`, and at least `10^-3` units away. -/
def Enc (D : ℕ) (x : ℝ) (V : ℕ) : Prop :=
  (10 : ℝ) ^ 7 ≤ |x * 10 ^ (D + 10) - V * 10 ^ 10| ∧ |x * 10 ^ (D + 10) - V * 10 ^ 10| ≤ 5 * 10 ^ 9

theorem Enc.abs {D : ℕ} {x : ℝ} {V : ℕ} (h : Enc D x V) :
    1 / (1000 * 10 ^ D) ≤ |(V : ℝ) / 10 ^ D - x| ∧ |(V : ℝ) / 10 ^ D - x| ≤ 1 / (2 * 10 ^ D) := by
  have hp : (0 : ℝ) < 10 ^ D := by positivity
  have e : x * 10 ^ (D + 10) - V * 10 ^ 10 = -((V : ℝ) / 10 ^ D - x) * (10 ^ D * 10 ^ 10) := by
    rw [pow_add]; field_simp; ring
  obtain ⟨h1, h2⟩ := h
  rw [e, abs_mul, abs_neg, abs_of_pos (by positivity : (0 : ℝ) < 10 ^ D * 10 ^ 10)] at h1 h2
  constructor
  · rw [div_le_iff₀ (by positivity)]; linarith
  · rw [le_div_iff₀ (by positivity)]; linarith

/-- A constant read from a string. -/
theorem const_read {c : Cfg} {txt : List Char} {d D M : ℕ} {x : ℝ} (ht : txt = (decLit d D M).text) (hd : d < 10)
    (hD : 1 ≤ D) (hD2 : D < 100000) (hM : M < 10 ^ D) (h1 : 10 ^ D ≤ 10 * (d * 10 ^ D + M)) (hx : 0 < x)
    (hE : Enc D x (d * 10 ^ D + M)) :
    ∃ r, ofString c txt = some r ∧ FinWF c r ∧
      |((val r : ℚ) : ℝ) - x| ≤ x / 10 ^ (8 * (c.elems - 1)) + 1 / 10 ^ D ∧
      (D ≤ 8 * (c.elems - 1) → 1 / (1000 * 10 ^ D) ≤ |((val r : ℚ) : ℝ) - x|) := by
  have hv := decLit_value d D M hd hM
  have hN := elems_ge c
  obtain ⟨r, r1, r2'⟩ := read_spec (c := c) (decLit_valid d D M hd) (decLit_small d D M (by omega)) (old := mkDefault c)
    (by simp [mkDefault, zeros]) rfl ⟨by simp only [mkDefault]; omega, le_refl _⟩
  have r2 := r2'.trunc
  obtain ⟨V, hV⟩ : ∃ V, V = d * 10 ^ D + M := ⟨_, rfl⟩
  rw [← hV] at hv hE h1
  have hp : (0 : ℚ) < 10 ^ D := by positivity
  have hq : (1 / 10 : ℚ) ≤ (decLit d D M).value := by
    rw [hv, le_div_iff₀ hp]
    have : ((10 ^ D : ℕ) : ℚ) ≤ ((10 * V : ℕ) : ℚ) := by exact_mod_cast h1
    push_cast at this; linarith
  have h3 : V < 10 * 10 ^ D := by
    rw [hV]; nlinarith [Nat.mul_le_mul_right (10 ^ D) (show d ≤ 9 by omega)]
  have hq2 : (decLit d D M).value < 10 := by
    rw [hv, div_lt_iff₀ hp]
    exact_mod_cast h3
  obtain ⟨q, hqd⟩ : ∃ q, q = (decLit d D M).value := ⟨_, rfl⟩
  rw [← hqd] at hv hq hq2 r2
  have q0 : 0 < q := by linarith
  rw [abs_of_pos q0] at r2
  obtain ⟨t1, t2, t4⟩ := r2
    (le_trans (zpow_le_zpow_right₀ (by norm_num) (show -maxExp10 ≤ (-1 : ℤ) by decide)) (by norm_num; linarith))
    (lt_of_lt_of_le hq2 (by
      have := zpow_le_zpow_right₀ (a := (10 : ℚ)) (by norm_num) (show (1 : ℤ) ≤ maxExp10 + 8 by decide)
      simpa using this))
  refine ⟨r, by rw [ht]; exact r1, t1.fin, ?_, ?_⟩
  all_goals
    obtain ⟨hE1, hE2⟩ := hE.abs
    have hqR : ((q : ℚ) : ℝ) = (V : ℝ) / 10 ^ D := by rw [hv]; push_cast; rfl
    rw [← hqR] at hE1 hE2
  · have g : 0 < ulp c r := by unfold ulp; positivity
    obtain ⟨c1, c2⟩ := chop_le g q0.le
    rw [← t2] at c1 c2
    have hs : 0 ≤ val r := by
      by_contra h
      have := t1.sign
      nlinarith
    rw [abs_of_nonneg hs] at c1 c2
    have hw : (10 : ℚ) ^ (8 * (c.elems - 1)) * ulp c r = (10 : ℚ) ^ r.exp := by
      unfold ulp
      rw [← zpow_natCast, ← zpow_add₀ (by norm_num)]
      congr 1
      push_cast [show 1 ≤ c.elems by omega]
      ring
    have hw1 : (1 : ℝ) ≤ 10 ^ (8 * (c.elems - 1)) := one_le_pow₀ (by norm_num)
    have hu : (10 : ℝ) ^ (8 * (c.elems - 1)) * ((ulp c r : ℚ) : ℝ) ≤ (q : ℝ) := by
      rw [← hw] at t4; exact_mod_cast t4
    generalize (10 : ℝ) ^ (8 * (c.elems - 1)) = W at hw1 hu ⊢
    have hu1 : ((ulp c r : ℚ) : ℝ) ≤ x / W + 1 / (2 * 10 ^ D) := by
      have hW : 0 < W := by linarith
      have : ((ulp c r : ℚ) : ℝ) ≤ (x + 1 / (2 * 10 ^ D)) / W := by
        rw [le_div_iff₀ hW]; linarith [(abs_le.1 hE2).2]
      have h5 : (1 / (2 * 10 ^ D) : ℝ) / W ≤ 1 / (2 * 10 ^ D) := div_le_self (by positivity) hw1
      rw [add_div] at this
      linarith
    have hc1 : ((val r : ℚ) : ℝ) ≤ q := by exact_mod_cast c1
    have hc2 : (q : ℝ) < ((val r : ℚ) : ℝ) + ((ulp c r : ℚ) : ℝ) := by exact_mod_cast c2
    have h6 : (1 : ℝ) / 10 ^ D = 1 / (2 * 10 ^ D) + 1 / (2 * 10 ^ D) := by field_simp; norm_num
    have h7 : 0 ≤ x / W := div_nonneg hx.le (by linarith)
    rw [h6, abs_le]
    obtain ⟨e1, e2⟩ := abs_le.1 hE2
    constructor <;> linarith
  · intro hDN
    have : val r = q := trunc_exact t1 (by rw [abs_of_pos q0]; exact t2) (by rw [abs_of_pos q0]; exact t4) ⟨V, -(D : ℤ), ?_, ?_⟩
    · rw [this]; exact hE1
    · calc V < 10 * 10 ^ D := h3
        _ = 10 ^ (D + 1) := by ring
        _ ≤ _ := Nat.pow_le_pow_right (by norm_num) (by omega)
    · rw [abs_of_pos q0, hv, zpow_neg, zpow_natCast]; rfl

/-! ### Enclosures -/

section
set_option maxRecDepth 20000
set_option exponentiation.threshold 2300

/-- Enclosure from above the decimal (the string is cut). -/
theorem enc_cut {D V L U : ℕ} {x : ℝ} (h1 : (L : ℝ) ≤ 10 ^ (D + 10) * x) (h2 : 10 ^ (D + 10) * x ≤ U)
    (c1 : V * 10 ^ 10 + 10 ^ 7 ≤ L) (c2 : U ≤ V * 10 ^ 10 + 5 * 10 ^ 9) : Enc D x V := by
  have c1' : (V : ℝ) * 10 ^ 10 + 10 ^ 7 ≤ L := by exact_mod_cast c1
  have c2' : (U : ℝ) ≤ V * 10 ^ 10 + 5 * 10 ^ 9 := by exact_mod_cast c2
  unfold Enc
  rw [mul_comm x]
  generalize (10 : ℝ) ^ (D + 10) * x = y at *
  rw [abs_of_nonneg (by linarith)]
  constructor <;> linarith

/-- Enclosure from below the decimal (the string is rounded up). -/
theorem enc_up {D V L U : ℕ} {x : ℝ} (h1 : (L : ℝ) ≤ 10 ^ (D + 10) * x) (h2 : 10 ^ (D + 10) * x ≤ U)
    (c1 : U + 10 ^ 7 ≤ V * 10 ^ 10) (c2 : V * 10 ^ 10 ≤ L + 5 * 10 ^ 9) : Enc D x V := by
  have c1' : (U : ℝ) + 10 ^ 7 ≤ V * 10 ^ 10 := by exact_mod_cast c1
  have c2' : (V : ℝ) * 10 ^ 10 ≤ L + 5 * 10 ^ 9 := by exact_mod_cast c2
  unfold Enc
  rw [mul_comm x]
  generalize (10 : ℝ) ^ (D + 10) * x = y at *
  rw [abs_of_nonpos (by linarith)]
  constructor <;> linarith

theorem log2_fix {F K : ℕ} (hF : F ≤ 3 ^ (2 * K + 1)) :
    ((2 * fixSum F 3 2 1 K : ℕ) : ℝ) ≤ F * Real.log 2 ∧ F * Real.log 2 ≤ ((2 * (fixSum F 3 2 1 K + K + 2) : ℕ) : ℝ) := by
  have h := fixSum_near (F := F) (q := 3) (d := 2) (a := 1) (K := K) (by norm_num) (by norm_num) (by norm_num) hF (artanh_sum (by norm_num))
  have e : Real.log (1 + 1 / (3 : ℕ)) - Real.log (1 - 1 / (3 : ℕ)) = Real.log 2 := by
    rw [← Real.log_div (by norm_num) (by norm_num)]; norm_num
  rw [e] at h
  push_cast
  constructor <;> linarith [h.1, h.2]

theorem log10_fix {F K K' : ℕ} (hF : F ≤ 3 ^ (2 * K + 1)) (hF' : F ≤ 9 ^ (2 * K' + 1)) :
    ((6 * fixSum F 3 2 1 K + 2 * fixSum F 9 2 1 K' : ℕ) : ℝ) ≤ F * Real.log 10 ∧
    F * Real.log 10 ≤ ((6 * (fixSum F 3 2 1 K + K + 2) + 2 * (fixSum F 9 2 1 K' + K' + 2) : ℕ) : ℝ) := by
  have h := fixSum_near (F := F) (q := 9) (d := 2) (a := 1) (K := K') (by norm_num) (by norm_num) (by norm_num) hF' (artanh_sum (by norm_num))
  have h2 := log2_fix hF
  have e : Real.log (1 + 1 / (9 : ℕ)) - Real.log (1 - 1 / (9 : ℕ)) = Real.log 10 - 3 * Real.log 2 := by
    rw [← Real.log_div (by norm_num) (by norm_num), show (3 : ℝ) * Real.log 2 = Real.log (2 ^ 3) by rw [Real.log_pow]; norm_num,
      ← Real.log_div (by norm_num) (by norm_num)]
    norm_num
  rw [e] at h
  push_cast at h2 ⊢
  constructor <;> linarith [h.1, h.2, h2.1, h2.2]

theorem pi_fix {F K1 K2 K3 K4 : ℕ} (h1 : F ≤ 5 ^ (4 * K1 + 1)) (h2 : F ≤ 5 ^ (4 * K2 + 3)) (h3 : F ≤ 239 ^ (4 * K3 + 1))
    (h4 : F ≤ 239 ^ (4 * K4 + 3)) {L U : ℕ}
    (hL : L + 16 * (fixSum F 5 4 3 K2 + K2 + 2) + 4 * (fixSum F 239 4 1 K3 + K3 + 2) ≤ 16 * fixSum F 5 4 1 K1 + 4 * fixSum F 239 4 3 K4)
    (hU : 16 * (fixSum F 5 4 1 K1 + K1 + 2) + 4 * (fixSum F 239 4 3 K4 + K4 + 2) ≤ U + 16 * fixSum F 5 4 3 K2 + 4 * fixSum F 239 4 1 K3) :
    (L : ℝ) ≤ F * Real.pi ∧ F * Real.pi ≤ U := by
  obtain ⟨s, t, hs, ht, e1⟩ := arctan_sums (q := 5) (by norm_num)
  obtain ⟨s', t', hs', ht', e2⟩ := arctan_sums (q := 239) (by norm_num)
  have g1 := fixSum_near (by norm_num) (by norm_num) (by norm_num) h1 hs
  have g2 := fixSum_near (by norm_num) (by norm_num) (by norm_num) h2 ht
  have g3 := fixSum_near (by norm_num) (by norm_num) (by norm_num) h3 hs'
  have g4 := fixSum_near (by norm_num) (by norm_num) (by norm_num) h4 ht'
  have hm := Real.four_mul_arctan_inv_5_sub_arctan_inv_239
  push_cast at e1 e2
  rw [e1, e2] at hm
  have hp : Real.pi = 16 * (s - t) - 4 * (s' - t') := by linarith
  have hL' : (L : ℝ) + 16 * (fixSum F 5 4 3 K2 + K2 + 2) + 4 * (fixSum F 239 4 1 K3 + K3 + 2) ≤ 16 * fixSum F 5 4 1 K1 + 4 * fixSum F 239 4 3 K4 := by
    exact_mod_cast hL
  have hU' : (16 : ℝ) * (fixSum F 5 4 1 K1 + K1 + 2) + 4 * (fixSum F 239 4 3 K4 + K4 + 2) ≤ U + 16 * fixSum F 5 4 3 K2 + 4 * fixSum F 239 4 1 K3 := by
    exact_mod_cast hU
  rw [hp]
  have e3 : (F : ℝ) * (16 * (s - t) - 4 * (s' - t')) = 16 * (F * s) - 16 * (F * t) - 4 * (F * s') + 4 * (F * t') := by ring
  rw [e3]
  constructor <;> linarith [g1.1, g1.2, g2.1, g2.2, g3.1, g3.2, g4.1, g4.2]

theorem ln2_enc : Enc 1100 (Real.log 2) (0 * 10 ^ 1100 + ln2Num) := by
  have h := log2_fix (F := 10 ^ 1110) (K := 1170) (by decide +kernel)
  have e : ((10 ^ 1110 : ℕ) : ℝ) = 10 ^ (1100 + 10) := by rw [Nat.cast_pow]; norm_num only
  rw [e] at h
  exact enc_cut h.1 h.2 (by decide +kernel) (by decide +kernel)

theorem ln10_enc : Enc 1100 (Real.log 10) (2 * 10 ^ 1100 + ln10Num) := by
  have h := log10_fix (F := 10 ^ 1110) (K := 1170) (K' := 585) (by decide +kernel) (by decide +kernel)
  have e : ((10 ^ 1110 : ℕ) : ℝ) = 10 ^ (1100 + 10) := by rw [Nat.cast_pow]; norm_num only
  rw [e] at h
  exact enc_cut h.1 h.2 (by decide +kernel) (by decide +kernel)

theorem pi_enc : Enc 1100 Real.pi (3 * 10 ^ 1100 + piNum) := by
  have h := pi_fix (F := 10 ^ 1110) (K1 := 400) (K2 := 400) (K3 := 120) (K4 := 120)
    (L := (3 * 10 ^ 1100 + piNum) * 10 ^ 10 - 5 * 10 ^ 9) (U := (3 * 10 ^ 1100 + piNum) * 10 ^ 10 - 10 ^ 7)
    (by decide +kernel) (by decide +kernel) (by decide +kernel) (by decide +kernel) (by decide +kernel) (by decide +kernel)
  have e : ((10 ^ 1110 : ℕ) : ℝ) = 10 ^ (1100 + 10) := by rw [Nat.cast_pow]; norm_num only
  rw [e] at h
  exact enc_up h.1 h.2 (by decide +kernel) (by decide +kernel)

theorem exp_fix {F n L U : ℕ} (h1 : L * fac n ≤ expNum n * F) (h2 : (expNum n + 2) * F ≤ U * fac n) :
    (L : ℝ) ≤ F * Real.exp 1 ∧ F * Real.exp 1 ≤ U := by
  obtain ⟨g1, g2⟩ := exp_one_bounds n
  have hf : (0 : ℝ) < fac n := by rw [fac_eq]; exact_mod_cast n.factorial_pos
  have h1' : (L : ℝ) * fac n ≤ expNum n * F := by exact_mod_cast h1
  have h2' : ((expNum n : ℝ) + 2) * F ≤ U * fac n := by exact_mod_cast h2
  have hF : (0 : ℝ) ≤ F := Nat.cast_nonneg _
  constructor
  · refine le_of_mul_le_mul_right ?_ hf
    calc (L : ℝ) * fac n ≤ expNum n * F := h1'
      _ ≤ (fac n * Real.exp 1) * F := mul_le_mul_of_nonneg_right g1 hF
      _ = _ := by ring
  · refine le_of_mul_le_mul_right ?_ hf
    calc (F : ℝ) * Real.exp 1 * fac n = (fac n * Real.exp 1) * F := by ring
      _ ≤ (expNum n + 2) * F := mul_le_mul_of_nonneg_right g2 hF
      _ ≤ _ := h2'

theorem sqrt_fix {F n L U : ℕ} (h1 : L * L ≤ n * (F * F)) (h2 : n * (F * F) ≤ U * U) :
    (L : ℝ) ≤ F * Real.sqrt n ∧ F * Real.sqrt n ≤ U := by
  have h1' : (L : ℝ) * L ≤ n * (F * F) := by exact_mod_cast h1
  have h2' : (n : ℝ) * (F * F) ≤ U * U := by exact_mod_cast h2
  have hF : (0 : ℝ) ≤ F := Nat.cast_nonneg _
  have e : (F * Real.sqrt n) * (F * Real.sqrt n) = n * (F * F) := by
    have := Real.mul_self_sqrt (Nat.cast_nonneg (α := ℝ) n)
    calc _ = (Real.sqrt n * Real.sqrt n) * (F * F) := by ring
      _ = _ := by rw [this]
  exact ⟨abs_le_of_sq_le_sq' (by nlinarith) (by positivity) |>.2, abs_le_of_sq_le_sq' (by nlinarith) (Nat.cast_nonneg _) |>.2⟩

theorem e_enc : Enc 1100 (Real.exp 1) (2 * 10 ^ 1100 + eNum) := by
  have h := exp_fix (F := 10 ^ 1110) (n := 500)
    (L := (2 * 10 ^ 1100 + eNum) * 10 ^ 10 - 5 * 10 ^ 9) (U := (2 * 10 ^ 1100 + eNum) * 10 ^ 10 - 10 ^ 7)
    (by decide +kernel) (by decide +kernel)
  have e : ((10 ^ 1110 : ℕ) : ℝ) = 10 ^ (1100 + 10) := by rw [Nat.cast_pow]; norm_num only
  rw [e] at h
  exact enc_up h.1 h.2 (by decide +kernel) (by decide +kernel)

theorem sqrt2_enc : Enc 1100 (Real.sqrt 2) (1 * 10 ^ 1100 + sqrt2Num) := by
  have h := sqrt_fix (F := 10 ^ 1110) (n := 2)
    (L := (1 * 10 ^ 1100 + sqrt2Num) * 10 ^ 10 + 10 ^ 7) (U := (1 * 10 ^ 1100 + sqrt2Num) * 10 ^ 10 + 5 * 10 ^ 9)
    (by decide +kernel) (by decide +kernel)
  have e : ((10 ^ 1110 : ℕ) : ℝ) = 10 ^ (1100 + 10) := by rw [Nat.cast_pow]; norm_num only
  rw [e] at h
  exact enc_cut h.1 h.2 (by decide +kernel) (by decide +kernel)

theorem phi_enc : Enc 1100 ((1 + Real.sqrt 5) / 2) (1 * 10 ^ 1100 + phiNum) := by
  obtain ⟨L, hL⟩ : ∃ L, L = (1 * 10 ^ 1100 + phiNum) * 10 ^ 10 - 5 * 10 ^ 9 := ⟨_, rfl⟩
  obtain ⟨U, hU⟩ : ∃ U, U = (1 * 10 ^ 1100 + phiNum) * 10 ^ 10 - 10 ^ 7 := ⟨_, rfl⟩
  have h := sqrt_fix (F := 10 ^ 1110) (n := 5) (L := 2 * L - 10 ^ 1110) (U := 2 * U - 10 ^ 1110)
    (by rw [hL]; decide +kernel) (by rw [hU]; decide +kernel)
  have hL2 : 10 ^ 1110 ≤ 2 * L := by rw [hL]; decide +kernel
  have hU2 : 10 ^ 1110 ≤ 2 * U := by rw [hU]; decide +kernel
  rw [Nat.cast_sub hL2, Nat.cast_sub hU2] at h
  have e : ((10 ^ 1110 : ℕ) : ℝ) = 10 ^ (1100 + 10) := by rw [Nat.cast_pow]; norm_num only
  rw [e] at h
  push_cast at h
  have h' : (L : ℝ) ≤ 10 ^ (1100 + 10) * ((1 + Real.sqrt 5) / 2) ∧ 10 ^ (1100 + 10) * ((1 + Real.sqrt 5) / 2) ≤ (U : ℝ) := by
    generalize (10 : ℝ) ^ (1100 + 10) = T at *
    have e2 : T * ((1 + Real.sqrt 5) / 2) = (T + T * Real.sqrt 5) / 2 := by ring
    rw [e2]
    constructor <;> linarith [h.1, h.2]
  exact enc_up h'.1 h'.2 (by rw [hU]; decide +kernel) (by rw [hL]; decide +kernel)

end

/-- The number `r` is within one unit of the last storable group plus `10^-1100` of the constant `x`. -/
def Close (c : Cfg) (r : EFloat) (x : ℝ) : Prop :=
  FinWF c r ∧ |((val r : ℚ) : ℝ) - x| ≤ x / 10 ^ (8 * (c.elems - 1)) + 1 / 10 ^ 1100

theorem elems_digits (c : Cfg) : c.digits10 + 17 ≤ 8 * (c.elems - 1) := by
  unfold Cfg.elems Cfg.maxDigits10
  split <;> omega

section
set_option exponentiation.threshold 2300
set_option maxRecDepth 20000

theorem const_close {c : Cfg} {txt : List Char} {d M : ℕ} {x : ℝ} (ht : txt = (decLit d 1100 M).text) (hd : d < 10)
    (hM : M < 10 ^ 1100) (h1 : 10 ^ 1100 ≤ 10 * (d * 10 ^ 1100 + M)) (hx : 0 < x) (hx2 : x < 10)
    (hE : Enc 1100 x (d * 10 ^ 1100 + M)) :
    ∃ r, ofString c txt = some r ∧ Close c r x ∧
      (1104 ≤ c.digits10 → x / 10 ^ c.digits10 < |((val r : ℚ) : ℝ) - x|) := by
  obtain ⟨D, hD⟩ : ∃ D, D = 1100 := ⟨_, rfl⟩
  rw [← hD] at ht hM h1 hE
  obtain ⟨r, r1, r2, r3, r4⟩ := const_read (c := c) ht hd (by omega) (by omega) hM h1 hx hE
  refine ⟨r, r1, ⟨r2, by rw [← hD]; exact r3⟩, fun hc => ?_⟩
  have h2 := elems_digits c
  refine lt_of_lt_of_le ?_ (r4 (by omega))
  have h3 : (10 : ℝ) ^ D * 10 ^ 4 ≤ 10 ^ c.digits10 := by
    rw [← pow_add]; exact pow_le_pow_right₀ (by norm_num) (by omega)
  have hp : (0 : ℝ) < 10 ^ D := by positivity
  rw [div_lt_div_iff₀ (by positivity) (by positivity)]
  generalize (10 : ℝ) ^ D = T at *
  nlinarith

theorem sqrt2_close (c : Cfg) : ∃ r, Const.sqrt2 c = some r ∧ Close c r (Real.sqrt 2) ∧
    (1104 ≤ c.digits10 → Real.sqrt 2 / 10 ^ c.digits10 < |((val r : ℚ) : ℝ) - Real.sqrt 2|) :=
  const_close sqrt2Text_eq (by norm_num) (by decide +kernel) (by decide +kernel) (by positivity)
    (by rw [Real.sqrt_lt' (by norm_num)]; norm_num) sqrt2_enc

theorem e_close (c : Cfg) : ∃ r, Const.e c = some r ∧ Close c r (Real.exp 1) ∧
    (1104 ≤ c.digits10 → Real.exp 1 / 10 ^ c.digits10 < |((val r : ℚ) : ℝ) - Real.exp 1|) :=
  const_close eText_eq (by norm_num) (by decide +kernel) (by decide +kernel) (Real.exp_pos 1)
    (by linarith [Real.exp_one_lt_d9]) e_enc

theorem ln2_close (c : Cfg) : ∃ r, Const.ln2 c = some r ∧ Close c r (Real.log 2) ∧
    (1104 ≤ c.digits10 → Real.log 2 / 10 ^ c.digits10 < |((val r : ℚ) : ℝ) - Real.log 2|) :=
  const_close ln2Text_eq (by norm_num) (by decide +kernel) (by decide +kernel) (Real.log_pos (by norm_num))
    (by linarith [Real.log_two_lt_d9]) ln2_enc

theorem ln10_close (c : Cfg) : ∃ r, Const.ln10 c = some r ∧ Close c r (Real.log 10) ∧
    (1104 ≤ c.digits10 → Real.log 10 / 10 ^ c.digits10 < |((val r : ℚ) : ℝ) - Real.log 10|) :=
  const_close ln10Text_eq (by norm_num) (by decide +kernel) (by decide +kernel) (Real.log_pos (by norm_num))
    (by linarith [Real.log_lt_sub_one_of_pos (x := 10) (by norm_num) (by norm_num)]) ln10_enc

theorem phi_close (c : Cfg) : ∃ r, Const.phi c = some r ∧ Close c r Real.goldenRatio ∧
    (1104 ≤ c.digits10 → Real.goldenRatio / 10 ^ c.digits10 < |((val r : ℚ) : ℝ) - Real.goldenRatio|) :=
  const_close phiText_eq (by norm_num) (by decide +kernel) (by decide +kernel) Real.goldenRatio_pos
    (by linarith [Real.goldenRatio_lt_two]) phi_enc

theorem pi_close (c : Cfg) (h : c.digits10 < 1010) : ∃ r, Const.pi c = some r ∧ Close c r Real.pi := by
  unfold Const.pi
  rw [if_pos h]
  obtain ⟨r, r1, r2, -⟩ := const_close (c := c) piText_eq (by norm_num) (by decide +kernel) (by decide +kernel) Real.pi_pos
    (by linarith [Real.pi_le_four]) pi_enc
  exact ⟨r, r1, r2⟩

/-- A valid literal that is read to a valid number. -/
theorem const_valid {c : Cfg} {txt : List Char} {d M : ℕ} (ht : txt = (decLit d 1100 M).text) (hd : d < 10)
    (hM : M < 10 ^ 1100) (h1 : 10 ^ 1100 ≤ 10 * (d * 10 ^ 1100 + M)) :
    ∃ r, ofString c txt = some r ∧ IsTrunc c r (((d * 10 ^ 1100 + M : ℕ) : ℚ) / 10 ^ 1100) := by
  obtain ⟨D, hD⟩ : ∃ D, D = 1100 := ⟨_, rfl⟩
  rw [← hD] at ht hM h1 ⊢
  have hv := decLit_value d D M hd hM
  obtain ⟨r, r1, -, -, r2⟩ := C29_read_partial (c := c) (decLit_valid d D M hd) (decLit_small d D M (by omega))
  obtain ⟨V, hV⟩ : ∃ V, V = d * 10 ^ D + M := ⟨_, rfl⟩
  rw [← hV] at hv h1 ⊢
  have hp : (0 : ℚ) < 10 ^ D := by positivity
  have hq : (1 / 10 : ℚ) ≤ (decLit d D M).value := by
    rw [hv, le_div_iff₀ hp]
    have : ((10 ^ D : ℕ) : ℚ) ≤ ((10 * V : ℕ) : ℚ) := by exact_mod_cast h1
    push_cast at this; linarith
  have h3 : V < 10 * 10 ^ D := by
    rw [hV]; nlinarith [Nat.mul_le_mul_right (10 ^ D) (show d ≤ 9 by omega)]
  have hq2 : (decLit d D M).value < 10 := by
    rw [hv, div_lt_iff₀ hp]
    exact_mod_cast h3
  rw [← hv]
  rw [abs_of_pos (by linarith : 0 < (decLit d D M).value)] at r2
  exact ⟨r, by rw [ht]; exact r1, (r2
    (le_trans (zpow_le_zpow_right₀ (by norm_num) (show minExp10 ≤ (-1 : ℤ) by decide)) (by norm_num; linarith))
    (lt_of_lt_of_le hq2 (by
      have := zpow_le_zpow_right₀ (a := (10 : ℚ)) (by norm_num) (show (1 : ℤ) ≤ maxExp10 + 8 by decide)
      simpa using this))).1⟩

end

/-- C75.  For every digit count the stored constants `sqrt2`, `e`, `ln2`, `ln10`, the golden ratio, and below 1010 digits
`pi`, are within one unit of the last group plus `10^-1100` of the mathematical constants.

Missing: the constants that Mathlib does not connect to a fast series (Euler, Catalan, Glaisher, Khinchin), and `pi` from
1010 digits on, which is computed.  From 1104 digits on the strings are too short (`C75_constants_refuted`). -/
theorem C75_constants_partial (c : Cfg) :
    (∃ r, Const.sqrt2 c = some r ∧ Close c r (Real.sqrt 2)) ∧
    (∃ r, Const.e c = some r ∧ Close c r (Real.exp 1)) ∧
    (∃ r, Const.ln2 c = some r ∧ Close c r (Real.log 2)) ∧
    (∃ r, Const.ln10 c = some r ∧ Close c r (Real.log 10)) ∧
    (∃ r, Const.phi c = some r ∧ Close c r Real.goldenRatio) ∧
    (c.digits10 < 1010 → ∃ r, Const.pi c = some r ∧ Close c r Real.pi) :=
  have w : ∀ {o : Option EFloat} {x : ℝ} {Q : EFloat → Prop}, (∃ r, o = some r ∧ Close c r x ∧ Q r) → ∃ r, o = some r ∧ Close c r x :=
    fun ⟨r, h1, h2, _⟩ => ⟨r, h1, h2⟩
  ⟨w (sqrt2_close c), w (e_close c), w (ln2_close c), w (ln10_close c), w (phi_close c), pi_close c⟩

/-- C75 refuted: at every setting of 1104 digits or more these constants are not accurate to `digits10` digits. -/
theorem C75_constants_refuted {c : Cfg} (hc : 1104 ≤ c.digits10) :
    (∃ r, Const.sqrt2 c = some r ∧ Real.sqrt 2 / 10 ^ c.digits10 < |((val r : ℚ) : ℝ) - Real.sqrt 2|) ∧
    (∃ r, Const.e c = some r ∧ Real.exp 1 / 10 ^ c.digits10 < |((val r : ℚ) : ℝ) - Real.exp 1|) ∧
    (∃ r, Const.ln2 c = some r ∧ Real.log 2 / 10 ^ c.digits10 < |((val r : ℚ) : ℝ) - Real.log 2|) ∧
    (∃ r, Const.ln10 c = some r ∧ Real.log 10 / 10 ^ c.digits10 < |((val r : ℚ) : ℝ) - Real.log 10|) ∧
    (∃ r, Const.phi c = some r ∧ Real.goldenRatio / 10 ^ c.digits10 < |((val r : ℚ) : ℝ) - Real.goldenRatio|) :=
  have w : ∀ {o : Option EFloat} {Q R : EFloat → Prop}, (∃ r, o = some r ∧ Q r ∧ (1104 ≤ c.digits10 → R r)) → ∃ r, o = some r ∧ R r :=
    fun ⟨r, h1, _, h3⟩ => ⟨r, h1, h3 hc⟩
  ⟨w (sqrt2_close c), w (e_close c), w (ln2_close c), w (ln10_close c), w (phi_close c)⟩

/-- The setting of 1200 digits meets the hypothesis. -/
example : ∃ r, Const.ln2 ⟨1200⟩ = some r ∧ Real.log 2 / 10 ^ (1200 : ℕ) < |((val r : ℚ) : ℝ) - Real.log 2| :=
  (C75_constants_refuted (c := ⟨1200⟩) (by decide)).2.2.1

theorem c_piLoop {α : Type} {A : Arith α} {P : α → Prop} (h : A.Closed P) (fuel : ℕ) : ∀ (k : ℕ) {a b s t v : α}, P a → P b →
    P s → P t → P v → P (Fn.piLoop A fuel k a b s t v).1 ∧ P (Fn.piLoop A fuel k a b s t v).2.1 ∧ P (Fn.piLoop A fuel k a b s t v).2.2 := by
  induction fuel with
  | zero => intro k a b s t v ha hb hs ht hv; exact ⟨hv, hb, hs⟩
  | succ fuel ih =>
    intro k a b s t v ha hb hs ht hv
    unfold Fn.piLoop
    have a1 := h.divI _ 2 (h.add _ _ ha (h.sqrt _ hb))
    have v1 := h.mul _ _ a1 a1
    have b2 := h.mulI _ 2 (h.sub _ _ v1 ht)
    have s1 := fun n => h.add _ _ hs (h.mulI _ n (h.sub _ _ b2 v1))
    simp only
    split
    · exact ⟨v1, b2, s1 _⟩
    · exact ih _ a1 b2 (s1 _) (h.divI _ 4 (h.add _ _ v1 b2)) v1

theorem c_piAgm {α : Type} {A : Arith α} {P : α → Prop} (h : A.Closed P) {t0 : α} (ht : P t0) : P (Fn.piAgm A t0) := by
  obtain ⟨h1, h2, h3⟩ := c_piLoop h 63 1 (h.ofI 1) h.half h.half ht (Fn.c_zero h)
  exact h.mulInv _ _ (h.add _ _ h1 h2) h3

theorem noTables_OK (c : Cfg) : TablesOK c (Const.noTables c) :=
  have z : WF c (zero c) := (ofUnsigned_spec c (u := 0) (by norm_num)).1.toWF
  ⟨z, z, z, z, z, fun _ h => h, fun _ h => h, fun _ _ _ h => by simp [Const.noTables] at h, fun _ _ h => h⟩

theorem read0375 (c : Cfg) : ∃ t, ofString c "0.375".toList = some t ∧ FinWF c t := by
  have h := const_read (c := c) (txt := "0.375".toList) (d := 0) (D := 3) (M := 375) (x := 3 / 8 + 1 / 100000) (by decide +kernel) (by norm_num) (by norm_num)
    (by norm_num) (by norm_num) (by norm_num) (by norm_num) (by unfold Enc; norm_num [abs_of_pos])
  obtain ⟨t, h1, h2, -⟩ := h
  exact ⟨t, h1, h2⟩

theorem const_fin (c : Cfg) {txt : List Char} (d M : ℕ) (ht : txt = (decLit d 1100 M).text) (hd : d < 10)
    (hM : M < 10 ^ 1100) (h1 : 10 ^ 1100 ≤ 10 * (d * 10 ^ 1100 + M)) : ∃ r, ofString c txt = some r ∧ FinWF c r :=
  let ⟨r, h2, h3⟩ := const_valid ht hd hM h1
  ⟨r, h2, h3.fin⟩

/-- C75, validity: at every digit count all constants are valid numbers, so the tables of the elementary functions that are
filled with them meet the condition of C61. -/
theorem C75_valid (c : Cfg) :
    (∃ pi ln2 ln10 e sqrt2, Const.pi c = some pi ∧ Const.ln2 c = some ln2 ∧ Const.ln10 c = some ln10 ∧ Const.e c = some e ∧
      Const.sqrt2 c = some sqrt2 ∧
      ∀ maxExp asin0 atan0 log0 rootn0, (∀ x, WF c x → WF c (asin0 x)) → (∀ x, WF c x → WF c (atan0 x)) →
        (∀ x y, WF c x → log0 x = some y → WF c y) → (∀ x p, WF c x → WF c (rootn0 x p)) →
        TablesOK c ⟨pi, ln2, ln10, e, sqrt2, maxExp, asin0, atan0, log0, rootn0⟩) ∧
    (∃ r, Const.phi c = some r ∧ FinWF c r) ∧ (∃ r, Const.eulerGamma c = some r ∧ FinWF c r) ∧
    (∃ r, Const.catalan c = some r ∧ FinWF c r) ∧ (∃ r, Const.glaisher c = some r ∧ FinWF c r) ∧
    (∃ r, Const.khinchin c = some r ∧ FinWF c r) := by
  obtain ⟨⟨r1, e1, f1, -⟩, ⟨r2, e2, f2, -⟩, ⟨r3, e3, f3, -⟩, ⟨r4, e4, f4, -⟩, ⟨r5, e5, f5, -⟩, hp⟩ := C75_constants_partial c
  have hpi : ∃ r, Const.pi c = some r ∧ WF c r := by
    by_cases h : c.digits10 < 1010
    · obtain ⟨r, h1, h2, -⟩ := hp h
      exact ⟨r, h1, h2.toWF⟩
    · obtain ⟨t, h1, h2⟩ := read0375 c
      unfold Const.pi
      rw [if_neg h, h1]
      exact ⟨_, rfl, c_piAgm (closed_WF (noTables_OK c)) h2.toWF⟩
  obtain ⟨p, e6, f6⟩ := hpi
  refine ⟨⟨p, r3, r4, r2, r1, e6, e3, e4, e2, e1, fun _ _ _ _ _ g1 g2 g3 g4 =>
    ⟨f6, f3.toWF, f4.toWF, f2.toWF, f1.toWF, g1, g2, g3, g4⟩⟩, ⟨r5, e5, f5⟩, ?_, ?_, ?_, ?_⟩
  · exact const_fin c _ _ eulerGammaText_eq (by norm_num) (by decide +kernel) (by decide +kernel)
  · exact const_fin c _ _ catalanText_eq (by norm_num) (by decide +kernel) (by decide +kernel)
  · exact const_fin c _ _ glaisherText_eq (by norm_num) (by decide +kernel) (by decide +kernel)
  · exact const_fin c _ _ khinchinText_eq (by norm_num) (by decide +kernel) (by decide +kernel)

end EFX.Props
