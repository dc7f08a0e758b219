import Verif.Lemmas.TabBern
import Verif.Props.Gamma
/-! C78: the tables of the special functions. -/

namespace EFX
open EFX.Stir

/-- The number of an entry. -/
noncomputable def tabVal (p : ℤ × ℕ) : ℝ := (p.1 : ℝ) * 10 ^ p.2

/-- The tables of the source, with a least argument and the coefficients of the series at zero. -/
noncomputable def tabR (m : ℤ) (rg : List ℝ) : Tab ℝ where
  a142 := TabData.a142.map tabVal
  a6882 := TabData.a6882.map tabVal
  a367 := TabData.a367.map tabVal
  a2445 := TabData.a2445.map tabVal
  a7318 := TabData.a7318.map (List.map fun n : ℕ => (n : ℝ))
  rgam := rg
  minArg := m

theorem close_iff {p : ℤ × ℕ} {x : ℕ} (h : TabCheck.close p x = true) :
    |tabVal p - x| ≤ (10 : ℝ) ^ (-419 : ℤ) * x ∧ (x < 10 ^ 419 → tabVal p = x) := by
  have h1 : (p.1 * 10 ^ p.2 - (x : ℤ)).natAbs * 10 ^ 419 ≤ x := by
    unfold TabCheck.close at h; exact Nat.le_of_ble_eq_true h
  have e : tabVal p - x = ((p.1 * 10 ^ p.2 - (x : ℤ) : ℤ) : ℝ) := by unfold tabVal; push_cast; ring
  constructor
  · rw [e, ← Int.cast_abs, Int.abs_eq_natAbs, Int.cast_natCast, zpow_neg, mul_comm (_⁻¹), ← div_eq_mul_inv, le_div_iff₀ (by positivity)]
    exact_mod_cast h1
  · intro hx
    have : (p.1 * 10 ^ p.2 - (x : ℤ)).natAbs = 0 := by
      generalize (p.1 * 10 ^ p.2 - (x : ℤ)).natAbs = d at *
      generalize 10 ^ 419 = N at *
      rcases Nat.eq_zero_or_pos d with h0 | h0
      · exact h0
      · have := Nat.le_mul_of_pos_left N h0
        omega
    have h2 : p.1 * 10 ^ p.2 - (x : ℤ) = 0 := Int.natAbs_eq_zero.1 this
    rw [h2] at e
    push_cast at e
    linarith

theorem bclose_iff {k : ℕ} (hk : 1 ≤ k) {p q : ℤ × ℕ} (h : TabCheck.bclose k (tanCoef (2 * k - 2) 1) p q = true) :
    0 < q.1 ∧ q.2 = 0 ∧
      |tabVal p / tabVal q - (_root_.bernoulli (2 * k) : ℝ)| ≤ (10 : ℝ) ^ (-419 : ℤ) * |(_root_.bernoulli (2 * k) : ℝ)| := by
  unfold TabCheck.bclose at h
  rcases q with ⟨q1, q2⟩
  cases q1 with
  | negSucc d => simp at h
  | ofNat d =>
    simp only [Bool.and_eq_true] at h
    obtain ⟨⟨h1, h2⟩, h3⟩ := h
    have d1 : 1 ≤ d := Nat.le_of_ble_eq_true h1
    have q0 : q2 = 0 := Nat.eq_of_beq_eq_true h2
    have h4 := Nat.le_of_ble_eq_true h3
    subst q0
    refine ⟨by show (0 : ℤ) < (d : ℤ); exact_mod_cast d1, rfl, ?_⟩
    have bt : (_root_.bernoulli (2 * k) : ℝ) * ((4 : ℝ) ^ k * 4 ^ k - 4 ^ k) = (-1) ^ (k - 1) * (tanCoef (2 * k - 2) 1 : ℝ) * (2 * k) := by
      have := bernoulli_tangent k hk
      exact_mod_cast congrArg (fun q : ℚ => (q : ℝ)) this
    generalize tanCoef (2 * k - 2) 1 = t at *
    have D0 : (0 : ℝ) < (4 : ℝ) ^ k * 4 ^ k - 4 ^ k := by
      have : (1 : ℝ) < 4 ^ k := one_lt_pow₀ (by norm_num) (by omega)
      nlinarith
    have Dn : ((4 ^ k * 4 ^ k - 4 ^ k : ℕ) : ℝ) = (4 : ℝ) ^ k * 4 ^ k - 4 ^ k := by
      rw [Nat.cast_sub (Nat.le_mul_of_pos_left _ (by positivity))]; push_cast; ring
    have dr : (0 : ℝ) < d := by exact_mod_cast d1
    have sg : (((if k % 2 = 1 then ((2 * k * t * d : ℕ) : ℤ) else -((2 * k * t * d : ℕ) : ℤ)) : ℤ) : ℝ) = (-1) ^ (k - 1) * (2 * k * t * d) := by
      by_cases hp : k % 2 = 1
      · rw [if_pos hp, (show Even (k - 1) from Nat.even_iff.2 (by omega)).neg_one_pow]; push_cast; ring
      · rw [if_neg hp, (show Odd (k - 1) from Nat.odd_iff.2 (by omega)).neg_one_pow]; push_cast; ring
    generalize (if k % 2 = 1 then ((2 * k * t * d : ℕ) : ℤ) else -((2 * k * t * d : ℕ) : ℤ)) = σ at *
    have h5 : |tabVal p * ((4 : ℝ) ^ k * 4 ^ k - 4 ^ k) - (-1) ^ (k - 1) * (2 * k * t * d)| * 10 ^ 419 ≤ 2 * k * t * d := by
      have e : tabVal p * ((4 : ℝ) ^ k * 4 ^ k - 4 ^ k) - (-1) ^ (k - 1) * (2 * k * t * d) =
          ((p.1 * 10 ^ p.2 * ((4 ^ k * 4 ^ k - 4 ^ k : ℕ) : ℤ) - σ : ℤ) : ℝ) := by
        rw [← sg, ← Dn]; unfold tabVal; push_cast; ring
      rw [e, ← Int.cast_abs, Int.abs_eq_natAbs, Int.cast_natCast]
      exact_mod_cast h4
    generalize hD : (4 : ℝ) ^ k * 4 ^ k - 4 ^ k = D at *
    generalize (_root_.bernoulli (2 * k) : ℝ) = B at *
    have tq : tabVal ((Int.ofNat d : ℤ), 0) = d := by unfold tabVal; simp
    rw [tq]
    have e1 : tabVal p / d - B = (tabVal p * D - (-1) ^ (k - 1) * (2 * k * t * d)) / (D * d) := by
      have : B = (-1) ^ (k - 1) * (t : ℝ) * (2 * k) / D := by rw [eq_div_iff D0.ne']; exact bt
      rw [this]; field_simp
    have e2 : |B| * D = 2 * k * t := by
      have := congrArg abs bt
      rw [abs_mul, abs_of_pos D0, abs_mul, abs_mul, abs_pow, abs_neg, abs_one, one_pow, one_mul, abs_of_nonneg (show (0 : ℝ) ≤ t by positivity),
        abs_of_nonneg (show (0 : ℝ) ≤ 2 * k by positivity)] at this
      linarith
    rw [e1, abs_div, abs_of_pos (mul_pos D0 dr), div_le_iff₀ (mul_pos D0 dr), zpow_neg, mul_comm (_⁻¹), ← div_eq_mul_inv, div_mul_eq_mul_div,
      le_div_iff₀ (by positivity)]
    rw [show |B| * (D * d) = |B| * D * d by ring, e2]
    exact_mod_cast h5

end EFX

namespace EFX.Props
open EFX EFX.Stir

theorem len_a142 : TabData.a142.length = 1001 := by decide +kernel
theorem len_a6882 : TabData.a6882.length = 1001 := by decide +kernel
theorem len_a367 : TabData.a367.length = 1001 ∧ TabData.a2445.length = 1001 := by decide +kernel
theorem len_a7318 : TabData.a7318.length = 161 := by decide +kernel

/-- C78: the table of the factorials holds the factorials of 0 to 1000, to 419 digits, exact below 10^419. -/
theorem C78_factorials (n : ℕ) (hn : n ≤ 1000) :
    ∃ p, TabData.a142[n]? = some p ∧ |tabVal p - n.factorial| ≤ (10 : ℝ) ^ (-419 : ℤ) * n.factorial ∧
      (n.factorial < 10 ^ 419 → tabVal p = n.factorial) := by
  have hl : n < TabData.a142.length := by rw [len_a142]; omega
  have := TabCheck.chkFact_sound TabData.a142 0 TabCheck.check_a142 n _ (List.getElem?_eq_getElem hl)
  rw [zero_add] at this
  exact ⟨_, List.getElem?_eq_getElem hl, close_iff this⟩

/-- C78: the table of the double factorials. -/
theorem C78_double_factorials (n : ℕ) (hn : n ≤ 1000) :
    ∃ p, TabData.a6882[n]? = some p ∧ |tabVal p - n.doubleFactorial| ≤ (10 : ℝ) ^ (-419 : ℤ) * n.doubleFactorial ∧
      (n.doubleFactorial < 10 ^ 419 → tabVal p = n.doubleFactorial) := by
  have hl : n < TabData.a6882.length := by rw [len_a6882]; omega
  have := TabCheck.chkFact2_sound TabData.a6882 0 TabCheck.check_a6882 n _ (List.getElem?_eq_getElem hl)
  rw [zero_add] at this
  exact ⟨_, List.getElem?_eq_getElem hl, close_iff this⟩

/-- C78: the tables of the Bernoulli numbers: positive whole denominators, quotients right to 419 digits. -/
theorem C78_bernoulli (k : ℕ) (h1 : 1 ≤ k) (hk : k ≤ 1000) :
    ∃ p q, TabData.a367[k]? = some p ∧ TabData.a2445[k]? = some q ∧ 0 < q.1 ∧ q.2 = 0 ∧
      |tabVal p / tabVal q - (_root_.bernoulli (2 * k) : ℝ)| ≤ (10 : ℝ) ^ (-419 : ℤ) * |(_root_.bernoulli (2 * k) : ℝ)| := by
  obtain ⟨l, e1, e2, e3⟩ := TabCheck.facts_stage 999 (by norm_num)
  have hr := TabCheck.check_bernoulli
  rw [e1] at hr
  obtain ⟨p, q, hp, hq, hb⟩ := TabCheck.run_sound 1000 1 l _ _ le_rfl (by rw [e2]; norm_num) e3 hr (k - 1) (by omega)
  rw [show 1 + (k - 1) = k by omega] at hb
  obtain ⟨b1, b2, b3⟩ := bclose_iff h1 hb
  refine ⟨p, q, ?_, ?_, b1, b2, b3⟩
  · rw [List.getElem?_tail] at hp; rwa [show k - 1 + 1 = k by omega] at hp
  · rw [List.getElem?_tail] at hq; rwa [show k - 1 + 1 = k by omega] at hq

/-- The twelfth Bernoulli number, -691/2730. -/
example : TabData.a367[6]? = some (-691, 0) ∧ TabData.a2445[6]? = some (2730, 0) := ⟨rfl, rfl⟩

/-- C78: the table of the binomial coefficients is Pascal's triangle down to row 160. -/
theorem C78_binomials (n : ℕ) (hn : n ≤ 160) :
    ∃ r, TabData.a7318[n]? = some r ∧ r.length = n + 1 ∧ ∀ j, j ≤ n → r[j]? = some (n.choose j) := by
  have h0 : TabCheck.IsRow 0 TabData.row0 := ⟨by decide, fun j hj => by
    have : j = 0 := by omega
    subst this; rfl⟩
  have hl : n < TabData.a7318.length := by rw [len_a7318]; omega
  rcases Nat.eq_zero_or_pos n with rfl | h
  · exact ⟨TabData.row0, rfl, h0.1, fun j hj => h0.2 j (by omega)⟩
  · have := TabCheck.chkRows_sound _ 0 TabData.row0 h0 TabCheck.check_a7318 (n - 1) (TabData.a7318[n]'hl) (by
      rw [List.getElem?_tail, show n - 1 + 1 = n by omega]; exact List.getElem?_eq_getElem hl)
    rw [show 0 + 1 + (n - 1) = n by omega] at this
    exact ⟨_, List.getElem?_eq_getElem hl, this.1, fun j hj => this.2 j (by omega)⟩

/-- The condition of C77 on the tables. -/
theorem C78_tabBern (m : ℤ) (rg : List ℝ) : TabBern (tabR m rg) 1001 ((10 : ℝ) ^ (-419 : ℤ)) := by
  intro k h1 h2
  obtain ⟨p, q, hp, hq, -, -, hb⟩ := C78_bernoulli k h1 (by omega)
  exact ⟨tabVal p, tabVal q, by simp [tabR, hp], by simp [tabR, hq], hb⟩

end EFX.Props
