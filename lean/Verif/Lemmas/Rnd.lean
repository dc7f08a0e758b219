import Verif.Model.Double
import Mathlib.Data.Rat.Floor
import Mathlib.Algebra.Order.Field.Power
import Mathlib.Tactic.Linarith
import Mathlib.Tactic.Ring
import Mathlib.Tactic.Positivity
import Mathlib.Tactic.FieldSimp
import Mathlib.Tactic.NormNum
/-!
# Rounding to 53 bits: error, monotonicity, granularity
-/

namespace EFX

theorem p2_pos (e : ℤ) : (0 : ℚ) < (2 : ℚ) ^ e := by positivity

theorem p2_mono {a b : ℤ} (h : a ≤ b) : (2 : ℚ) ^ a ≤ (2 : ℚ) ^ b := zpow_le_zpow_right₀ (by norm_num) h

theorem p2_add (a b : ℤ) : (2 : ℚ) ^ (a + b) = (2 : ℚ) ^ a * (2 : ℚ) ^ b := zpow_add₀ (by norm_num) a b

theorem ilog2_spec {q : ℚ} (hq : 0 < q) : (2 : ℚ) ^ ilog2 q ≤ q ∧ q < (2 : ℚ) ^ (ilog2 q + 1) := by
  have hn0 : q.num.natAbs ≠ 0 := by
    have := Rat.num_pos.2 hq; omega
  have hd0 : q.den ≠ 0 := q.den_nz
  have a1 := Nat.log2_self_le hn0
  have a2 := Nat.lt_log2_self (n := q.num.natAbs)
  have b1 := Nat.log2_self_le hd0
  have b2 := Nat.lt_log2_self (n := q.den)
  generalize ha : Nat.log2 q.num.natAbs = a at *
  generalize hb : Nat.log2 q.den = b at *
  have hq' : q * (q.den : ℚ) = (q.num.natAbs : ℚ) := by
    have h1 : ((q.num.natAbs : ℕ) : ℚ) = ((q.num : ℤ) : ℚ) := by
      rw [← Int.cast_natCast, Int.natAbs_of_nonneg (Rat.num_pos.2 hq).le]
    rw [h1]; exact Rat.mul_den_eq_num q
  have a1' : (2 : ℚ) ^ (a : ℤ) ≤ q * q.den := by rw [hq', zpow_natCast]; exact_mod_cast a1
  have a2' : q * q.den < (2 : ℚ) ^ ((a : ℤ) + 1) := by
    rw [hq', show ((a : ℤ) + 1) = ((a + 1 : ℕ) : ℤ) by push_cast; ring, zpow_natCast]; exact_mod_cast a2
  have b1' : (2 : ℚ) ^ (b : ℤ) ≤ (q.den : ℚ) := by rw [zpow_natCast]; exact_mod_cast b1
  have b2' : (q.den : ℚ) < (2 : ℚ) ^ ((b : ℤ) + 1) := by
    rw [show ((b : ℤ) + 1) = ((b + 1 : ℕ) : ℤ) by push_cast; ring, zpow_natCast]; exact_mod_cast b2
  have hB := p2_pos (b : ℤ)
  have up : q < (2 : ℚ) ^ ((a : ℤ) - b + 1) := by
    have : q * (2 : ℚ) ^ (b : ℤ) < (2 : ℚ) ^ ((a : ℤ) - b + 1) * (2 : ℚ) ^ (b : ℤ) := by
      rw [← p2_add, show (a : ℤ) - b + 1 + b = a + 1 by ring]
      exact lt_of_le_of_lt (mul_le_mul_of_nonneg_left b1' hq.le) a2'
    exact lt_of_mul_lt_mul_right this hB.le
  have lo : (2 : ℚ) ^ ((a : ℤ) - b - 1) < q := by
    have : (2 : ℚ) ^ ((a : ℤ) - b - 1) * (2 : ℚ) ^ ((b : ℤ) + 1) < q * (2 : ℚ) ^ ((b : ℤ) + 1) := by
      rw [← p2_add, show (a : ℤ) - b - 1 + (b + 1) = a by ring]
      exact lt_of_le_of_lt a1' (mul_lt_mul_of_pos_left b2' hq)
    exact lt_of_mul_lt_mul_right this (p2_pos _).le
  unfold ilog2
  simp only [ha, hb]
  split
  · rename_i h; exact ⟨h, up⟩
  · rename_i h
    exact ⟨lo.le, by rw [show (a : ℤ) - b - 1 + 1 = a - b by ring]; exact not_le.1 h⟩

theorem roundEven_near (m : ℚ) : |(roundEven m : ℚ) - m| ≤ 1 / 2 := by
  have h1 : ((m.floor : ℤ) : ℚ) ≤ m := Int.floor_le m
  have h2 : m < ((m.floor : ℤ) : ℚ) + 1 := Int.lt_floor_add_one m
  unfold roundEven
  simp only
  rw [abs_le]
  split_ifs <;> push_cast <;> constructor <;> linarith

theorem roundEven_mono {a b : ℚ} (h : a ≤ b) : roundEven a ≤ roundEven b := by
  have hf : a.floor ≤ b.floor := Int.floor_le_floor h
  rcases hf.lt_or_eq with hl | he
  · have h1 : roundEven a ≤ a.floor + 1 := by
      unfold roundEven; simp only; split_ifs <;> omega
    have h2 : b.floor ≤ roundEven b := by
      unfold roundEven; simp only; split_ifs <;> omega
    omega
  · have h3 : a - ((a.floor : ℤ) : ℚ) ≤ b - ((b.floor : ℤ) : ℚ) := by rw [he]; linarith
    unfold roundEven
    simp only
    split_ifs <;> first | omega | (exfalso; linarith) 

theorem roundEven_int (n : ℤ) : roundEven n = n := by
  have : ((n : ℤ) : ℚ).floor = n := Rat.floor_intCast n
  unfold roundEven
  simp only [this]
  rw [if_pos (by norm_num)]

theorem rnd_pos_eq {q : ℚ} (hq : 0 < q) : rnd q = rndPos q := by
  unfold rnd; rw [if_neg hq.ne', if_neg (not_lt.2 hq.le)]

theorem rnd_zero : rnd 0 = 0 := by unfold rnd; simp

theorem rndPos_bounds {q : ℚ} (hq : 0 < q) : (2 : ℚ) ^ ilog2 q ≤ rndPos q ∧ rndPos q ≤ (2 : ℚ) ^ (ilog2 q + 1) := by
  obtain ⟨h1, h2⟩ := ilog2_spec hq
  have hu := p2_pos (ilog2 q - 52)
  have e1 : (2 : ℚ) ^ ilog2 q = ((2 ^ 52 : ℤ) : ℚ) * (2 : ℚ) ^ (ilog2 q - 52) := by
    rw [show ilog2 q = 52 + (ilog2 q - 52) by ring, p2_add]
    norm_num
  have e2 : (2 : ℚ) ^ (ilog2 q + 1) = ((2 ^ 53 : ℤ) : ℚ) * (2 : ℚ) ^ (ilog2 q - 52) := by
    rw [show ilog2 q + 1 = 53 + (ilog2 q - 52) by ring, p2_add]
    norm_num
  unfold rndPos
  simp only
  constructor
  · rw [e1]
    apply mul_le_mul_of_nonneg_right _ hu.le
    have : roundEven ((2 ^ 52 : ℤ) : ℚ) ≤ roundEven (q / (2 : ℚ) ^ (ilog2 q - 52)) := by
      apply roundEven_mono
      rw [le_div_iff₀ hu, ← e1]; exact h1
    rw [roundEven_int] at this
    exact_mod_cast this
  · rw [e2]
    apply mul_le_mul_of_nonneg_right _ hu.le
    have : roundEven (q / (2 : ℚ) ^ (ilog2 q - 52)) ≤ roundEven ((2 ^ 53 : ℤ) : ℚ) := by
      apply roundEven_mono
      rw [div_le_iff₀ hu, ← e2]; exact h2.le
    rw [roundEven_int] at this
    exact_mod_cast this

theorem rnd_pos {q : ℚ} (hq : 0 < q) : 0 < rnd q := by
  rw [rnd_pos_eq hq]; exact lt_of_lt_of_le (p2_pos _) (rndPos_bounds hq).1

theorem rnd_nonneg {q : ℚ} (hq : 0 ≤ q) : 0 ≤ rnd q := by
  rcases hq.lt_or_eq with h | h
  · exact (rnd_pos h).le
  · rw [← h, rnd_zero]

/-- Relative rounding error `2^-53`. -/
theorem rnd_err {q : ℚ} (hq : 0 ≤ q) : |rnd q - q| ≤ q / 2 ^ 53 := by
  rcases hq.lt_or_eq with h | h
  · rw [rnd_pos_eq h]
    obtain ⟨h1, _⟩ := ilog2_spec h
    have hu := p2_pos (ilog2 q - 52)
    unfold rndPos
    simp only
    have := roundEven_near (q / (2 : ℚ) ^ (ilog2 q - 52))
    have e : (roundEven (q / (2 : ℚ) ^ (ilog2 q - 52)) : ℚ) * (2 : ℚ) ^ (ilog2 q - 52) - q =
        ((roundEven (q / (2 : ℚ) ^ (ilog2 q - 52)) : ℚ) - q / (2 : ℚ) ^ (ilog2 q - 52)) * (2 : ℚ) ^ (ilog2 q - 52) := by
      rw [sub_mul, div_mul_cancel₀ _ hu.ne']
    rw [e, abs_mul, abs_of_pos hu]
    calc _ ≤ 1 / 2 * (2 : ℚ) ^ (ilog2 q - 52) := mul_le_mul_of_nonneg_right this hu.le
      _ = (2 : ℚ) ^ ilog2 q / 2 ^ 53 := by
        rw [show ilog2 q = (ilog2 q - 52) + 52 by ring, p2_add]
        simp only [add_sub_cancel_right]
        norm_num; ring
      _ ≤ _ := by apply div_le_div_of_nonneg_right h1; positivity
  · rw [← h, rnd_zero]; simp

theorem rnd_mono {a b : ℚ} (ha : 0 ≤ a) (h : a ≤ b) : rnd a ≤ rnd b := by
  rcases ha.lt_or_eq with h0 | h0
  · have hb : 0 < b := lt_of_lt_of_le h0 h
    rw [rnd_pos_eq h0, rnd_pos_eq hb]
    obtain ⟨a1, a2⟩ := ilog2_spec h0
    obtain ⟨b1, b2⟩ := ilog2_spec hb
    rcases lt_trichotomy (ilog2 a) (ilog2 b) with hl | he | hg
    · exact le_trans (rndPos_bounds h0).2 (le_trans (p2_mono (by omega)) (rndPos_bounds hb).1)
    · unfold rndPos
      simp only [he]
      apply mul_le_mul_of_nonneg_right _ (p2_pos _).le
      have := roundEven_mono (div_le_div_of_nonneg_right h (p2_pos (ilog2 b - 52)).le)
      exact_mod_cast this
    · exfalso
      have := p2_mono (show ilog2 b + 1 ≤ ilog2 a by omega)
      linarith
  · rw [← h0, rnd_zero]; exact rnd_nonneg (h0 ▸ h)

/-- A number on the grid of 53-bit floating-point numbers, in the weak form needed here: at or above
one it is a multiple of `2^-52`, below one it is at most `1 - 2^-53`. -/
def Grid (q : ℚ) : Prop := (1 ≤ q → ∃ k : ℤ, q = k / 2 ^ 52) ∧ (q < 1 → q ≤ 1 - 1 / 2 ^ 53)

theorem rnd_grid {q : ℚ} (hq : 0 ≤ q) : Grid (rnd q) := by
  rcases hq.lt_or_eq with h | h
  · rw [rnd_pos_eq h]
    obtain ⟨h1, h2⟩ := rndPos_bounds h
    constructor
    · intro hr
      by_cases he : 0 ≤ ilog2 q
      · obtain ⟨n, hn⟩ := Int.eq_ofNat_of_zero_le he
        refine ⟨roundEven (q / (2 : ℚ) ^ (ilog2 q - 52)) * 2 ^ n, ?_⟩
        unfold rndPos
        simp only
        rw [show (2 : ℚ) ^ (ilog2 q - 52) = 2 ^ n / 2 ^ 52 by
          rw [show ilog2 q - 52 = (n : ℤ) + (-52) by rw [hn]; ring, p2_add, zpow_natCast]; norm_num [div_eq_mul_inv]]
        push_cast; ring
      · have : (2 : ℚ) ^ (ilog2 q + 1) ≤ (2 : ℚ) ^ (0 : ℤ) := p2_mono (by omega)
        have h3 : rndPos q = 1 := le_antisymm (by simpa using le_trans h2 this) hr
        exact ⟨2 ^ 52, by rw [h3]; norm_num⟩
    · intro hr
      have he : ilog2 q < 0 := by
        by_contra hc
        have := p2_mono (not_lt.1 hc)
        rw [zpow_zero] at this; linarith
      by_cases he2 : ilog2 q = -1
      · have hu : (2 : ℚ) ^ (ilog2 q - 52) = 1 / 2 ^ 53 := by rw [he2]; norm_num
        unfold rndPos at hr ⊢
        simp only [hu] at hr ⊢
        generalize roundEven (q / (1 / 2 ^ 53)) = k at *
        have h4 : (k : ℚ) < ((2 ^ 53 : ℤ) : ℚ) := by
          push_cast
          rw [mul_one_div, div_lt_one (by positivity)] at hr
          exact hr
        have h5 : k ≤ 2 ^ 53 - 1 := by
          have : k < 2 ^ 53 := by exact_mod_cast h4
          omega
        have h6 : (k : ℚ) ≤ ((2 ^ 53 - 1 : ℤ) : ℚ) := by exact_mod_cast h5
        push_cast at h6
        rw [mul_one_div, div_le_iff₀ (by positivity)]
        have : (1 - 1 / 2 ^ 53 : ℚ) * 2 ^ 53 = 2 ^ 53 - 1 := by norm_num
        rw [this]; norm_num; exact h6
      · have : (2 : ℚ) ^ (ilog2 q + 1) ≤ (2 : ℚ) ^ (-1 : ℤ) := p2_mono (by omega)
        have h7 : (2 : ℚ) ^ (-1 : ℤ) ≤ 1 - 1 / 2 ^ 53 := by norm_num
        exact le_trans h2 (le_trans this h7)
  · rw [← h, rnd_zero]
    exact ⟨fun h => by norm_num at h, fun _ => by norm_num⟩

/-- The fractional part of a grid number stays away from one. -/
theorem Grid.fract {d : ℚ} (h : Grid d) (h0 : 0 ≤ d) : d - ⌊d⌋ ≤ 1 - 1 / 2 ^ 53 := by
  by_cases h1 : 1 ≤ d
  · obtain ⟨k, hk⟩ := h.1 h1
    have h2 := Int.lt_floor_add_one d
    generalize ⌊d⌋ = n at *
    rw [hk] at h2 ⊢
    have h3 : (k : ℚ) < ((n + 1) * 2 ^ 52 : ℤ) := by
      push_cast
      rwa [div_lt_iff₀ (by positivity)] at h2
    have h4 : k ≤ (n + 1) * 2 ^ 52 - 1 := by
      have : k < (n + 1) * 2 ^ 52 := by exact_mod_cast h3
      omega
    have h5 : (k : ℚ) ≤ (((n + 1) * 2 ^ 52 - 1 : ℤ) : ℚ) := by exact_mod_cast h4
    push_cast at h5
    have h6 : (k : ℚ) / 2 ^ 52 ≤ ((n + 1) * 2 ^ 52 - 1) / 2 ^ 52 := div_le_div_of_nonneg_right h5 (by positivity)
    have h7 : ((n : ℚ) + 1) * 2 ^ 52 / 2 ^ 52 = n + 1 := by field_simp
    rw [sub_div, h7] at h6
    have : (1 : ℚ) / 2 ^ 53 ≤ 1 / 2 ^ 52 := by norm_num
    linarith
  · have hf : ⌊d⌋ = 0 := by rw [Int.floor_eq_zero_iff]; exact ⟨h0, not_le.1 h1⟩
    rw [hf]
    have := h.2 (not_le.1 h1)
    simpa using this

end EFX
