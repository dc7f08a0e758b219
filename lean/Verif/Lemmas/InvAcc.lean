import Verif.Lemmas.Newton
import Verif.Props.DivBasic
import Mathlib.Tactic.LinearCombination
/-!
# Accuracy of the computed inverse
-/

namespace EFX
open Spec EFX.Props

theorem succ_le_ten_pow (j : ℕ) : j + 1 ≤ 10 ^ j := Nat.lt_pow_self (by norm_num)

theorem epsP_small {p : ℕ} (hp : 5 ≤ p) : epsP p ≤ 1 / 10 ^ 23 := by
  obtain ⟨j, rfl⟩ := Nat.exists_eq_add_of_le hp
  have hj : ((j : ℚ) + 1) ≤ (10 : ℚ) ^ (j : ℤ) := by
    rw [zpow_natCast]; exact_mod_cast succ_le_ten_pow j
  unfold epsP mulErr
  split
  · have e : (10 : ℚ) ^ (16 - 8 * ((5 + j : ℕ) : ℤ)) = (10 : ℚ) ^ (-24 - 7 * (j : ℤ)) * (10 : ℚ) ^ (-(j : ℤ)) := by
      rw [← p10_add]; congr 1; push_cast; ring
    rw [e]
    have h1 : (((5 + j : ℕ) : ℚ) + 2) * (10 : ℚ) ^ (-(j : ℤ)) ≤ 7 := by
      rw [zpow_neg, ← div_eq_mul_inv, div_le_iff₀ (p10_pos _)]
      push_cast; linarith [Nat.cast_nonneg (α := ℚ) j]
    have h2 : (10 : ℚ) ^ (-24 - 7 * (j : ℤ)) ≤ (10 : ℚ) ^ (-24 : ℤ) := p10_mono (by omega)
    calc _ = (((5 + j : ℕ) : ℚ) + 2) * (10 : ℚ) ^ (-(j : ℤ)) * (10 : ℚ) ^ (-24 - 7 * (j : ℤ)) := by ring
      _ ≤ 7 * (10 : ℚ) ^ (-24 : ℤ) := mul_le_mul h1 h2 (p10_pos _).le (by norm_num)
      _ ≤ _ := by norm_num
  · rename_i hs
    have e : (10 : ℚ) ^ (16 - 8 * ((5 + j : ℕ) : ℤ)) = (10 : ℚ) ^ (-24 - 7 * (j : ℤ)) * (10 : ℚ) ^ (-(j : ℤ)) := by
      rw [← p10_add]; congr 1; push_cast; ring
    rw [e]
    have h1 : (((20000 * (5 + j) : ℕ) : ℚ) + 2) * (10 : ℚ) ^ (-(j : ℤ)) ≤ 100002 := by
      rw [zpow_neg, ← div_eq_mul_inv, div_le_iff₀ (p10_pos _)]
      push_cast; linarith [Nat.cast_nonneg (α := ℚ) j]
    have h2 : (10 : ℚ) ^ (-24 - 7 * (j : ℤ)) ≤ (10 : ℚ) ^ (-31 : ℤ) := p10_mono (by omega)
    calc _ = (((20000 * (5 + j) : ℕ) : ℚ) + 2) * (10 : ℚ) ^ (-(j : ℤ)) * (10 : ℚ) ^ (-24 - 7 * (j : ℤ)) := by ring
      _ ≤ 100002 * (10 : ℚ) ^ (-31 : ℤ) := mul_le_mul h1 h2 (p10_pos _).le (by norm_num)
      _ ≤ _ := by norm_num

theorem ulp2_small {c : Cfg} {p : ℕ} (hp : p ≤ c.elems) : (10 : ℚ) ^ (8 - 8 * (c.elems : ℤ)) ≤ epsP p / 1000 := by
  have h1 : (10 : ℚ) ^ (8 - 8 * (c.elems : ℤ)) ≤ (10 : ℚ) ^ (16 - 8 * (p : ℤ)) * (10 : ℚ) ^ (-8 : ℤ) := by
    rw [← p10_add]; apply p10_mono; omega
  have h2 : (10 : ℚ) ^ (16 - 8 * (p : ℤ)) ≤ epsP p := by
    unfold epsP
    rw [le_mul_iff_one_le_left (p10_pos _)]
    have : (0 : ℚ) ≤ (mulErr p : ℚ) := by positivity
    linarith
  rw [show (10 : ℚ) ^ (-8 : ℤ) = 1 / 100000000 by norm_num] at h1
  have := epsP_pos p
  linarith

/-- Uncapped step: the rounding errors of the step are below the target of the step. -/
theorem epsP_step (k : ℕ) : 11 / 5 * epsP (3 * 2 ^ k + 2) ≤ 1 / 4 * (10 : ℚ) ^ (-(22 * 2 ^ k : ℤ)) := by
  have hn : 1 ≤ 2 ^ k := Nat.one_le_two_pow
  have hz : ((2 : ℤ) ^ k) = ((2 ^ k : ℕ) : ℤ) := by push_cast; rfl
  rw [hz]
  generalize 2 ^ k = n at *
  have e : (10 : ℚ) ^ (16 - 8 * ((3 * n + 2 : ℕ) : ℤ)) = (10 : ℚ) ^ (-(22 * (n : ℤ))) * (10 : ℚ) ^ (-(2 * (n : ℤ))) := by
    rw [← p10_add]; congr 1; push_cast; ring
  have h100 : (10 : ℚ) ^ (2 * (n : ℤ)) = ((100 ^ n : ℕ) : ℚ) := by
    rw [zpow_mul, zpow_natCast]; norm_num
  have main : 44 / 5 * ((mulErr (3 * n + 2) : ℚ) + 2) ≤ ((100 ^ n : ℕ) : ℚ) := by
    unfold mulErr
    split
    · obtain ⟨m, rfl⟩ := Nat.exists_eq_add_of_le hn
      have : m + 1 ≤ 100 ^ m := Nat.lt_pow_self (by norm_num)
      have h1 : ((m : ℚ) + 1) ≤ ((100 ^ m : ℕ) : ℚ) := by exact_mod_cast this
      rw [show 100 ^ (1 + m) = 100 * 100 ^ m by rw [pow_add]; norm_num]
      push_cast at h1 ⊢
      linarith [Nat.cast_nonneg (α := ℚ) m]
    · rename_i hs
      obtain ⟨m, rfl⟩ := Nat.exists_eq_add_of_le (show 5 ≤ n by omega)
      have : m + 1 ≤ 100 ^ m := Nat.lt_pow_self (by norm_num)
      have h1 : ((m : ℚ) + 1) ≤ ((100 ^ m : ℕ) : ℚ) := by exact_mod_cast this
      rw [show 100 ^ (5 + m) = 10000000000 * 100 ^ m by rw [pow_add]; norm_num]
      push_cast at h1 ⊢
      linarith [Nat.cast_nonneg (α := ℚ) m]
  unfold epsP
  rw [e, zpow_neg, zpow_neg, h100]
  have hp : (0 : ℚ) < ((100 ^ n : ℕ) : ℚ) := by positivity
  have h3 : 11 / 5 * ((mulErr (3 * n + 2) : ℚ) + 2) * (((100 ^ n : ℕ) : ℚ))⁻¹ ≤ 1 / 4 := by
    rw [← div_eq_mul_inv, div_le_iff₀ hp]; linarith
  have h4 : (0 : ℚ) ≤ ((10 : ℚ) ^ (22 * (n : ℤ)))⁻¹ := inv_nonneg.2 (p10_pos _).le
  calc _ = 11 / 5 * ((mulErr (3 * n + 2) : ℚ) + 2) * (((100 ^ n : ℕ) : ℚ))⁻¹ * ((10 : ℚ) ^ (22 * (n : ℤ)))⁻¹ := by ring
    _ ≤ _ := mul_le_mul_of_nonneg_right h3 h4

/-- Floor of the error that the full precision leaves. -/
def floorErr (c : Cfg) : ℚ := 23 / 10 * epsP c.elems

theorem floorErr_bounds (c : Cfg) : 0 < floorErr c ∧ floorErr c ≤ 1 / 10 ^ 12 := by
  have h1 := epsP_pos c.elems
  have h2 := epsP_small (p := c.elems) (by have := elems_ge c; omega)
  unfold floorErr
  constructor
  · linarith
  · have : (23 / 10 : ℚ) * (1 / 10 ^ 23) ≤ 1 / 10 ^ 12 := by norm_num
    linarith

/-- Target of step `k`. -/
def tgt (k : ℕ) : ℚ := (10 : ℚ) ^ (-(11 * 2 ^ k : ℤ))

theorem tgt_succ (k : ℕ) : tgt (k + 1) = tgt k ^ 2 ∧ tgt k ^ 2 = (10 : ℚ) ^ (-(22 * 2 ^ k : ℤ)) := by
  unfold tgt
  constructor
  · rw [sq, ← p10_add]; congr 1; rw [pow_succ]; ring
  · rw [sq, ← p10_add]; congr 1; ring

theorem tgt_bounds (k : ℕ) : 0 < tgt k ∧ tgt k ≤ 1 / 10 ^ 11 := by
  refine ⟨p10_pos _, ?_⟩
  unfold tgt
  have h : (1 : ℤ) ≤ 2 ^ k := by exact_mod_cast (Nat.one_le_two_pow (n := k))
  calc _ ≤ (10 : ℚ) ^ (-11 : ℤ) := p10_mono (by omega)
    _ = _ := by norm_num

theorem step_target {δ δ' A F e G : ℚ} (hA1 : A ≤ 1 / 10 ^ 11) (hF0 : 0 ≤ F) (hF : F ≤ 1 / 10 ^ 12)
    (hd : |δ| ≤ 1 / 2 * A + F) (hd' : |δ'| ≤ δ ^ 2 + e) (he : e ≤ 1 / 4 * A ^ 2 ∨ e ≤ G) (hG : G ≤ 22 / 23 * F) :
    |δ'| ≤ 1 / 2 * A ^ 2 + F := by
  have h1 : δ ^ 2 ≤ (1 / 2 * A + F) ^ 2 := by
    rw [← sq_abs δ]; exact pow_le_pow_left₀ (abs_nonneg _) hd 2
  have h2 : (1 / 2 * A + F) ^ 2 = 1 / 4 * A ^ 2 + F * (A + F) := by ring
  have h3 : F * (A + F) ≤ F * (1 / 100) := by
    apply mul_le_mul_of_nonneg_left _ hF0
    have : (1 / 10 ^ 11 + 1 / 10 ^ 12 : ℚ) ≤ 1 / 100 := by norm_num
    linarith
  have h4 : 0 ≤ A ^ 2 := sq_nonneg A
  rcases he with h | h <;> linarith

theorem tol_bound (c : Cfg) : c.tolerance < 12 * 2 ^ 32 := by
  have := (digits10_bounds c).2
  unfold Cfg.tolerance Cfg.maxDigits10
  omega

/-- The Newton loop doubles the number of correct digits in every step, down to the rounding errors. -/
theorem invLoop_spec {c : Cfg} {x : EFloat} (hx : FinWF c x) (px : 0 < val x) (hr : InvRange x) :
    ∀ (fuel k : ℕ) (y : EFloat), fuel + k = 32 → FinWF c y → 0 < val y →
      |1 - val y * val x| ≤ 1 / 2 * tgt k + floorErr c →
      ∃ K, c.tolerance < 12 * 2 ^ K ∧ FinWF c (invLoop c x fuel (12 * 2 ^ k) y) ∧
        0 < val (invLoop c x fuel (12 * 2 ^ k) y) ∧
        |1 - val (invLoop c x fuel (12 * 2 ^ k) y) * val x| ≤ 1 / 2 * tgt K + floorErr c
  | 0, k, y, hk, hy, py, hd => by
    have : k = 32 := by omega
    subst this
    exact ⟨32, tol_bound c, hy, py, hd⟩
  | fuel + 1, k, y, hk, hy, py, hd => by
    rw [invLoop]
    by_cases ht : 12 * 2 ^ k ≤ c.tolerance
    · simp only [if_pos ht]
      have hN := elems_ge c
      obtain ⟨t0, t1⟩ := tgt_bounds k
      obtain ⟨f0, f1⟩ := floorErr_bounds c
      have hd100 : |1 - val y * val x| ≤ 1 / 100 := by
        have : (1 / 2 * (1 / 10 ^ 11) + 1 / 10 ^ 12 : ℚ) ≤ 1 / 100 := by norm_num
        linarith
      have hcast : ((12 * 2 ^ k : ℕ) : ℤ) * 2 + 10 = ((12 * 2 ^ k * 2 + 10 : ℕ) : ℤ) := by push_cast; ring
      rw [hcast]
      have hn : 1 ≤ 2 ^ k := Nat.one_le_two_pow
      have hp5 : 5 ≤ stepP c k := by unfold stepP; omega
      have hpN : stepP c k ≤ c.elems := by unfold stepP; omega
      have hE := epsP_small hp5
      have hE3 : epsP (stepP c k) ≤ 1 / 1000 := le_trans hE (by norm_num)
      obtain ⟨n1, n2, n3⟩ := inv_step (setPrecision_fin hx (((12 * 2 ^ k * 2 + 10 : ℕ) : ℤ)))
        (setPrecision_fin hy (((12 * 2 ^ k * 2 + 10 : ℕ) : ℤ))) px py hr (setPrecision_step c x k) (setPrecision_step c y k)
        hd100 hE3 (ulp2_small hpN)
      have hnew : |1 - val (mul c (setPrecision c y (((12 * 2 ^ k * 2 + 10 : ℕ) : ℤ))) (sub c (two c)
          (mul c (setPrecision c y (((12 * 2 ^ k * 2 + 10 : ℕ) : ℤ))) (setPrecision c x (((12 * 2 ^ k * 2 + 10 : ℕ) : ℤ)))))) * val x|
          ≤ 1 / 2 * tgt (k + 1) + floorErr c := by
        rw [(tgt_succ k).1]
        refine step_target t1 f0.le f1 hd n3 ?_ (le_refl (22 / 23 * floorErr c))
        rcases Nat.le_total c.elems (3 * 2 ^ k + 2) with h | h
        · right
          have : stepP c k = c.elems := by unfold stepP; omega
          rw [this]; unfold floorErr
          have := epsP_pos c.elems
          linarith
        · left
          have : stepP c k = 3 * 2 ^ k + 2 := by unfold stepP; omega
          rw [this, (tgt_succ k).2]
          exact epsP_step k
      have := invLoop_spec hx px hr fuel (k + 1) _ (by omega) n1 n2 hnew
      rw [show 12 * 2 ^ (k + 1) = 12 * 2 ^ k * 2 by rw [pow_succ]; ring] at this
      exact this
    · rw [if_neg ht]
      exact ⟨k, not_le.1 ht, hy, py, hd⟩

/-- Final target in terms of the advertised digits. -/
theorem tgt_final {c : Cfg} {K : ℕ} (h : c.tolerance < 12 * 2 ^ K) : tgt K ≤ (10 : ℚ) ^ (-((c.digits10 : ℤ) + 2)) := by
  have hD := (digits10_bounds c).1
  unfold tgt
  apply p10_mono
  unfold Cfg.tolerance Cfg.maxDigits10 at h
  have hz : ((2 : ℤ) ^ K) = ((2 ^ K : ℕ) : ℤ) := by push_cast; rfl
  rw [hz]
  generalize 2 ^ K = n at *
  omega

theorem all_nines_lv : ∀ {l : List ℕ}, (∀ d ∈ l, d = 99999999) → lv l + 1 = 100000000 ^ l.length
  | [], _ => by simp
  | a :: l, h => by
    have ih := all_nines_lv (l := l) (fun d hd => h d (by simp [hd]))
    have ha := h a (by simp)
    rw [lv_cons, List.length_cons, pow_succ, ha]
    omega

theorem isone_spec {c : Cfg} {x : EFloat} (hx : FinWF c x) (h : isone x = true) :
    x.neg = false ∧ 1 - mag x = (10 : ℚ) ^ (-(8 * (c.elems : ℤ))) := by
  unfold isone at h
  split at h
  · rename_i h1
    have hn : x.neg = false := by
      cases hx : x.neg
      · rfl
      · rw [hx] at h1; simp at h1
    refine ⟨hn, ?_⟩
    split at h
    · rename_i h2
      exfalso
      rw [List.all_eq_true] at h
      unfold EFloat.front at h2
      rcases hd : x.data with _ | ⟨a, t⟩
      · rw [hd] at h2; simp at h2
      · have := h a (by rw [hd]; simp)
        rw [hd] at h2
        simp at h2 this
        omega
    · split at h
      · rename_i h3
        rw [List.all_eq_true] at h
        have hall : ∀ d ∈ x.data, d = 99999999 := by
          intro d hd
          have := h d hd
          simpa [mask] using this
        have hl := all_nines_lv hall
        have he : (lv x.data : ℚ) = ((100000000 ^ c.elems : ℕ) : ℚ) - 1 := by
          rw [← hx.len, ← hl]; push_cast; ring
        rw [mag_eq hx.toWF, he]
        unfold ulp
        rw [h3.2, ← p10_base, sub_mul, ← p10_add]
        rw [show 8 * (c.elems : ℤ) + (-8 - 8 * ((c.elems : ℤ) - 1)) = 0 by ring,
          show -8 - 8 * ((c.elems : ℤ) - 1) = -(8 * (c.elems : ℤ)) by ring]
        simp
      · simp at h
  · simp at h

/-- Start value of the inverse. -/
theorem inv_start {c : Cfg} {x : EFloat} (hx : FinWF c x) (px : 0 < val x) :
    FinWF c (ofMantExp c (rnd (1 / (extractParts x).1)) (-(extractParts x).2)) ∧
    0 < val (ofMantExp c (rnd (1 / (extractParts x).1)) (-(extractParts x).2)) ∧
    |1 - val (ofMantExp c (rnd (1 / (extractParts x).1)) (-(extractParts x).2)) * val x| ≤ 1 / 10 ^ 13 := by
  have nx := neg_of_val_pos px
  have zx := ne_of_val hx px.ne'
  obtain ⟨e1, e2, e3, e4, e5, e6⟩ := extractParts_spec hx zx nx
  generalize (extractParts x).1 = m at *
  generalize (extractParts x).2 = ne at *
  have hm : 0 < m := by linarith
  have hi1 : 1 / m ≤ 2 := by rw [div_le_iff₀ hm]; linarith
  have hi2 : 1 / 20 ≤ 1 / m := by rw [div_le_div_iff₀ (by norm_num) hm]; linarith
  have nr : Near (2 / 10 ^ 16) (rnd (1 / m)) (1 / m) := by
    have := (Near.refl (b := 1 / m)).rnd (by linarith) (by linarith) (by norm_num)
    rwa [zero_add] at this
  have hr1 : rnd (1 / m) ≤ 5 := by
    have := nr.hi
    have h2 : (1 + 2 / 10 ^ 16 : ℚ) * (1 / m) ≤ (1 + 2 / 10 ^ 16) * 2 := mul_le_mul_of_nonneg_left hi1 (by norm_num)
    have : (1 + 2 / 10 ^ 16 : ℚ) * 2 ≤ 5 := by norm_num
    linarith
  have hr2 : 1 / 50 ≤ rnd (1 / m) := by
    have := nr.lo
    have h2 : (1 - 2 / 10 ^ 16 : ℚ) * (1 / 20) ≤ (1 - 2 / 10 ^ 16) * (1 / m) := mul_le_mul_of_nonneg_left hi2 (by norm_num)
    have : (1 / 50 : ℚ) ≤ (1 - 2 / 10 ^ 16) * (1 / 20) := by norm_num
    linarith
  obtain ⟨o1, o2, o3, o4, o5, o6, o7⟩ := ofMantExp_spec c (e := -ne) hr2 hr1 (rnd_grid (by linarith))
  generalize ofMantExp c (rnd (1 / m)) (-ne) = y at *
  rw [val_of_pos nx] at *
  rw [val_of_pos o3]
  refine ⟨o1, mag_pos o1.toWF o2, ?_⟩
  have hP := p10_pos ne
  have hT : 0 < m * (10 : ℚ) ^ ne := mul_pos hm hP
  have n2 : Near (1 / 10 ^ 14) (mag y) (rnd (1 / m) * (10 : ℚ) ^ (-ne)) := o7
  have n3 := nr.mul (p10_pos (-ne)).le
  have n4 := n2.trans n3 (mul_nonneg (by linarith) (p10_pos _).le) (by norm_num) (by norm_num)
  have hinv : 1 / m * (10 : ℚ) ^ (-ne) = 1 / (m * (10 : ℚ) ^ ne) := by
    rw [zpow_neg]; field_simp
  rw [hinv] at n4
  generalize m * (10 : ℚ) ^ ne = T at *
  -- mag y ≈ 1 / T, T ≈ mag x
  have n5 := n4.mul hT.le
  rw [one_div_mul_cancel hT.ne'] at n5
  have hy0 : 0 ≤ mag y := mag_nonneg y
  unfold Near at n5 e1
  have h1 : |mag y * (T - mag x)| ≤ mag y * (2 / 10 ^ 15 * mag x) := by
    rw [abs_mul, abs_of_nonneg hy0]; exact mul_le_mul_of_nonneg_left e1 hy0
  have hxT : mag x ≤ 2 * T := by
    have := (abs_le.1 e1).1
    linarith
  have h2 : mag y * (2 / 10 ^ 15 * mag x) ≤ 1 / 10 ^ 14 := by
    have h3 : mag y * T ≤ 2 := by
      have := (abs_le.1 n5).2
      have h4 : (2 * (1 / 10 ^ 14) + 2 / 10 ^ 16 : ℚ) * 1 ≤ 1 := by norm_num
      linarith
    have h4 : mag y * mag x ≤ mag y * (2 * T) := mul_le_mul_of_nonneg_left hxT hy0
    have h5 : mag y * (2 / 10 ^ 15 * mag x) = 2 / 10 ^ 15 * (mag y * mag x) := by ring
    rw [h5]
    have h6 : mag y * mag x ≤ 4 := by linarith
    calc _ ≤ 2 / 10 ^ 15 * (4 : ℚ) := mul_le_mul_of_nonneg_left h6 (by norm_num)
      _ ≤ _ := by norm_num
  have key : 1 - mag y * mag x = -(mag y * T - 1) + mag y * (T - mag x) := by ring
  rw [key]
  calc _ ≤ |-(mag y * T - 1)| + |mag y * (T - mag x)| := abs_add_le _ _
    _ ≤ (2 * (1 / 10 ^ 14) + 2 / 10 ^ 16) * 1 + 1 / 10 ^ 14 := by
      rw [abs_neg]; exact add_le_add n5 (le_trans h1 h2)
    _ ≤ _ := by norm_num

/-- Bound for the relative error of the computed inverse. -/
def invErr (c : Cfg) : ℚ := (10 : ℚ) ^ (-((c.digits10 : ℤ) + 2)) + floorErr c

/-- The computed inverse: relative error, sign, precision. -/
theorem calculateInv_spec {c : Cfg} {x : EFloat} (hx : FinWF c x) (h0 : val x ≠ 0) (hr : InvRange x) :
    FinWF c (calculateInv c x) ∧ 0 < val (calculateInv c x) * val x ∧
    |1 - val (calculateInv c x) * val x| ≤ invErr c ∧
    ((calculateInv c x).prec = x.prec ∨ (calculateInv c x).prec = c.elems) := by
  have zx := ne_of_val hx h0
  have hD := p10_pos (-((c.digits10 : ℤ) + 2))
  have hf := floorErr_bounds c
  -- absolute value
  obtain ⟨y, hyd⟩ : ∃ y : EFloat, y = { x with neg := false } := ⟨_, rfl⟩
  have hy : FinWF c y := by
    rw [hyd]
    exact ⟨⟨hx.len, hx.limb, hx.exp8, hx.prec_lo, hx.prec_hi, fun h1 h2 => ⟨(hx.norm h1 h2).1, rfl⟩⟩, hx.fin⟩
  have vy : val y = mag x := by rw [hyd]; rfl
  have py : 0 < val y := by rw [vy]; exact mag_pos hx.toWF zx
  have ry : InvRange y := by rw [hyd]; exact hr
  have vx : val x = sgnQ x.neg * mag x := val_eq x
  have hiz : y.iszero = false := by
    rw [iszero_false hy.fin]; rw [hyd]; exact zx
  have hnan : y.isnan = false := by simp [EFloat.isnan, hy.fin]
  have hinf : y.isinf = false := by simp [EFloat.isinf, hy.fin]
  have hss : sgnQ x.neg * sgnQ x.neg = 1 := by cases x.neg <;> simp [sgnQ]
  have main : ∀ r : EFloat, FinWF c r → 0 < val r → |1 - val r * mag x| ≤ invErr c →
      ∀ r' : EFloat, FinWF c r' → val r' = sgnQ x.neg * val r →
      0 < val r' * val x ∧ |1 - val r' * val x| ≤ invErr c := by
    intro r hr1 hr2 hr3 r' hr1' hv
    have : val r' * val x = val r * mag x := by
      rw [hv, vx]; linear_combination (val r * mag x) * hss
    rw [this]
    exact ⟨mul_pos hr2 (mag_pos hx.toWF zx), hr3⟩
  unfold calculateInv
  simp only
  rw [← hyd]
  simp only [hiz, hnan, hinf, Bool.false_eq_true, if_false]
  by_cases hone : isone y = true
  · rw [if_pos hone]
    obtain ⟨_, h1⟩ := isone_spec hy hone
    have hmy : mag y = mag x := by rw [hyd]; rfl
    rw [hmy] at h1
    have hacc : |1 - val (one c) * mag x| ≤ invErr c := by
      rw [val_one, one_mul, h1, abs_of_pos (p10_pos _)]
      unfold invErr
      have h2 : (10 : ℚ) ^ (-(8 * (c.elems : ℤ))) ≤ (10 : ℚ) ^ (-((c.digits10 : ℤ) + 2)) := by
        apply p10_mono; have := digits_elems c; omega
      linarith
    cases hn : x.neg
    · simp only [Bool.false_eq_true, if_false]
      obtain ⟨g1, g2⟩ := main (one c) (FinWF_one c) (by rw [val_one]; norm_num) hacc (one c) (FinWF_one c) (by rw [hn]; simp [sgnQ])
      exact ⟨FinWF_one c, g1, g2, Or.inr rfl⟩
    · simp only [if_true]
      obtain ⟨g1, g2⟩ := main (one c) (FinWF_one c) (by rw [val_one]; norm_num) hacc (negate (one c))
        (FinWF_negate (FinWF_one c)) (by rw [hn, negate_val (FinWF_one c)]; simp [sgnQ])
      exact ⟨FinWF_negate (FinWF_one c), g1, g2, Or.inr (by rw [negate_prec]; rfl)⟩
  · rw [if_neg hone]
    obtain ⟨s1, s2, s3⟩ := inv_start hy py
    have s3' : |1 - val (ofMantExp c (rnd (1 / (extractParts y).1)) (-(extractParts y).2)) * val y| ≤ 1 / 2 * tgt 0 + floorErr c := by
      have : (1 / 10 ^ 13 : ℚ) ≤ 1 / 2 * tgt 0 := by unfold tgt; norm_num
      linarith
    obtain ⟨K, k1, k2, k3, k4⟩ := invLoop_spec hy py ry 32 0 _ rfl s1 s2 s3'
    rw [show 12 * 2 ^ 0 = 12 by norm_num] at k2 k3 k4
    have hacc : |1 - val (invLoop c y 32 12 (ofMantExp c (rnd (1 / (extractParts y).1)) (-(extractParts y).2))) * mag x| ≤ invErr c := by
      rw [vy] at k4
      apply le_trans k4
      have := tgt_final k1
      unfold invErr
      linarith
    generalize invLoop c y 32 12 (ofMantExp c (rnd (1 / (extractParts y).1)) (-(extractParts y).2)) = r at *
    have nr := neg_of_val_pos k3
    have zr := ne_of_val k2 k3.ne'
    have hr' : FinWF c { r with neg := x.neg, prec := x.prec } :=
      ⟨⟨k2.len, k2.limb, k2.exp8, hx.prec_lo, hx.prec_hi, fun _ h2 => absurd h2 zr⟩, k2.fin⟩
    have hv' : val { r with neg := x.neg, prec := x.prec } = sgnQ x.neg * val r := by
      rw [val_eq, val_of_pos nr]; rfl
    obtain ⟨g1, g2⟩ := main r k2 k3 hacc _ hr' hv'
    exact ⟨hr', g1, g2, Or.inl rfl⟩

end EFX
