import Verif.Model.Elementary
import Mathlib.Data.Real.Basic
import Mathlib.Algebra.Order.Archimedean.Real.Basic
import Mathlib.Algebra.Order.Floor.Ring
import Mathlib.Algebra.BigOperators.Intervals
import Mathlib.Algebra.Order.Field.Power
import Mathlib.Tactic.Linarith
import Mathlib.Tactic.Positivity
import Mathlib.Tactic.FieldSimp
import Mathlib.Tactic.Ring
/-!
# Rounded arithmetic

What the analysis of rounding errors needs to know about the operations: relative errors of products, sums and quotients, exact
integer operations, comparisons that compare values.
-/

namespace EFX

/-- The power `10^k`, opaque to the simplifier. -/
noncomputable def pw (k : ℤ) : ℝ := (10 : ℝ) ^ k

theorem pw_pos (k : ℤ) : 0 < pw k := zpow_pos (by norm_num) k
theorem pw_add (k l : ℤ) : pw (k + l) = pw k * pw l := zpow_add₀ (by norm_num) k l
theorem pw_mono {k l : ℤ} (h : k ≤ l) : pw k ≤ pw l := zpow_le_zpow_right₀ (by norm_num) h
theorem pw_one : pw 1 = 10 := by unfold pw; norm_num
theorem pw_zero : pw 0 = 1 := by unfold pw; norm_num
theorem pw_neg (k : ℤ) : pw (-k) = (pw k)⁻¹ := zpow_neg _ _
theorem pw_nat (k : ℕ) : pw k = 10 ^ k := zpow_natCast _ _
theorem pw_lt {k l : ℤ} (h : pw k < pw l) : k < l := by
  by_contra hc
  exact absurd (pw_mono (not_lt.1 hc)) (not_le.2 h)

/-- `r` lies between `10^-K` and `10^K` in magnitude. -/
def Sz (K : ℤ) (r : ℝ) : Prop := pw (-K) ≤ |r| ∧ |r| ≤ pw K

/-- Operations with rounding errors.  `v` is the value, `ok` the objects of full precision, `u` the bound for quotients; sums are
better by twelve digits and products by four. -/
structure Rnd {α : Type} (A : Arith α) (v : α → ℝ) (ok : α → Prop) (u : ℝ) : Prop where
  u0 : 0 < u
  u1 : u ≤ 1 / 10 ^ 30
  t0 : 30 ≤ A.tol
  t1 : A.tol ≤ 5500
  ut : pw (-A.tol) ≤ u / 1000
  ut2 : u ≤ pw (-(A.tol * 9 / 10))
  ofI : ∀ n : ℤ, |n| < 2 ^ 63 → ok (A.ofI n) ∧ v (A.ofI n) = n
  half : ok A.half ∧ v A.half = 1 / 2
  neg : ∀ x, ok x → ok (A.neg x) ∧ v (A.neg x) = -v x
  isneg : ∀ x, ok x → (A.isneg x = true ↔ v x < 0)
  iszero : ∀ x, ok x → (A.iszero x = true ↔ v x = 0)
  isnan : ∀ x, ok x → A.isnan x = false
  isinf : ∀ x, ok x → A.isinf x = false
  lt : ∀ x y, ok x → ok y → (A.lt x y = true ↔ v x < v y)
  isint : ∀ x, ok x → (A.isint x = true ↔ ∃ k : ℤ, v x = k)
  order : ∀ x, ok x → v x ≠ 0 → pw (A.order x) ≤ |v x| ∧ |v x| < pw (A.order x + 1)
  order0 : ∀ x, ok x → v x = 0 → A.order x = 0
  mul : ∀ x y, ok x → ok y → Sz 2000000000 (v x * v y) → ok (A.mul x y) ∧ |v (A.mul x y) - v x * v y| ≤ u / 10 ^ 4 * |v x * v y| ∧
    |v (A.mul x y)| ≤ |v x * v y|
  mul0 : ∀ x y, ok x → ok y → v x * v y = 0 → ok (A.mul x y) ∧ v (A.mul x y) = 0
  add : ∀ x y, ok x → ok y → |v x| ≤ pw 2000000000 → |v y| ≤ pw 2000000000 → ok (A.add x y) ∧
    |v (A.add x y) - (v x + v y)| ≤ u / 10 ^ 12 * (|v x| + |v y|)
  addz : ∀ x y, ok x → ok y → |v x| ≤ pw 2000000000 → |v y| ≤ pw 2000000000 → (v x = -v y → v (A.add x y) = 0) ∧
    (v x ≠ 0 → v x ≠ -v y → pw (-5200) * |v x| ≤ |v (A.add x y)|)
  sub : ∀ x y, ok x → ok y → |v x| ≤ pw 2000000000 → |v y| ≤ pw 2000000000 → ok (A.sub x y) ∧
    |v (A.sub x y) - (v x - v y)| ≤ u / 10 ^ 12 * (|v x| + |v y|) ∧ (v x = v y → v (A.sub x y) = 0) ∧
    (v x ≠ 0 → v x ≠ v y → pw (-5200) * |v x| ≤ |v (A.sub x y)|)
  incr : ∀ x, ok x → |v x| ≤ pw 2000000000 → ok (A.incr x) ∧ |v (A.incr x) - (v x + 1)| ≤ u / 10 ^ 12 * (|v x| + 1)
  mulI : ∀ x (n : ℤ), ok x → |n| < 100000000 → |v x * n| ≤ pw 2000000000 → ok (A.mulI x n) ∧
    |v (A.mulI x n) - v x * n| ≤ u / 10 ^ 12 * |v x * n|
  divI : ∀ x (n : ℤ), ok x → n ≠ 0 → |n| < 100000000 → ok (A.divI x n) ∧ |v (A.divI x n) - v x / n| ≤ u * |v x / n|
  div : ∀ x y, ok x → ok y → (0 < v x ∨ |v x| ≠ |v y|) → Sz 1000000000 (v x) → Sz 1000000000 (v y) → ok (A.div x y) ∧
    |v (A.div x y) - v x / v y| ≤ u * |v x / v y|
  div0 : ∀ x y, ok x → ok y → v x = 0 → Sz 1000000000 (v y) → ok (A.div x y) ∧ v (A.div x y) = 0
  inv : ∀ x, ok x → Sz 1000000000 (v x) → ok (A.inv x) ∧ |v (A.inv x) - 1 / v x| ≤ u * |1 / v x|
  isone : ∀ x, ok x → A.isone x = true → |v x - 1| ≤ 1 / 1000000
  le : ∀ x y, ok x → ok y → (A.le x y = true ↔ v x ≤ v y)
  intPart : ∀ x, ok x → 0 ≤ v x → v x ≤ 10 ^ 18 → ok (A.intPart x) ∧ v (A.intPart x) = ⌊v x⌋
  toI : ∀ x (k : ℤ), ok x → v x = k → |k| < 2 ^ 63 → A.toI x = k
  par : ∀ x (k : ℕ), ok x → v x = k → k < 100000000 → (A.iszero (A.decPart (A.divI x 2)) = true ↔ Even k)

namespace Sz
theorem ne {K : ℤ} {r : ℝ} (h : Sz K r) : r ≠ 0 := by
  rintro rfl
  have := h.1
  rw [abs_zero] at this
  exact absurd this (not_le.2 (pw_pos _))

theorem mul {K L : ℤ} {a b : ℝ} (ha : Sz K a) (hb : Sz L b) : Sz (K + L) (a * b) := by
  unfold Sz
  rw [abs_mul, neg_add, pw_add, pw_add]
  exact ⟨mul_le_mul ha.1 hb.1 (pw_pos _).le (abs_nonneg _), mul_le_mul ha.2 hb.2 (abs_nonneg _) (pw_pos _).le⟩

theorem mono {K L : ℤ} {a : ℝ} (h : Sz K a) (hl : K ≤ L) : Sz L a :=
  ⟨le_trans (pw_mono (by omega)) h.1, le_trans h.2 (pw_mono hl)⟩

theorem pow {K : ℤ} {a : ℝ} (h : Sz K a) (n : ℕ) : Sz (n * K) (a ^ n) := by
  induction n with
  | zero => simp [Sz, pw]
  | succ n ih =>
    have := ih.mul h
    rw [← pow_succ, show (n : ℤ) * K + K = ((n + 1 : ℕ) : ℤ) * K by push_cast; ring] at this
    exact this

theorem inv {K : ℤ} {a : ℝ} (h : Sz K a) : Sz K a⁻¹ := by
  have a0 := abs_pos.2 h.ne
  unfold Sz
  rw [abs_inv]
  constructor
  · rw [pw_neg]; exact inv_anti₀ a0 h.2
  · have := inv_anti₀ (pw_pos _) h.1
    rwa [pw_neg, inv_inv] at this

theorem div {K L : ℤ} {a b : ℝ} (ha : Sz K a) (hb : Sz L b) : Sz (K + L) (a / b) := by
  rw [div_eq_mul_inv]; exact ha.mul hb.inv

/-- A number near one of known size. -/
theorem near {K : ℤ} {a b : ℝ} (h : Sz K b) (hab : |a - b| ≤ 1 / 2 * |b|) : Sz (K + 1) a := by
  have h1 := abs_sub_abs_le_abs_sub b a
  have h2 := abs_sub_abs_le_abs_sub a b
  rw [abs_sub_comm] at h1
  have b0 := abs_pos.2 h.ne
  obtain ⟨l, r⟩ := h
  unfold Sz
  rw [neg_add, pw_add, pw_add]
  have p := pw_pos (-K)
  have q := pw_pos K
  generalize pw (-K) = P at *
  generalize pw K = Q at *
  rw [pw_neg, pw_one]
  norm_num
  constructor <;> linarith

theorem of_le {K : ℤ} {a : ℝ} (h1 : pw (-K) ≤ |a|) (h2 : |a| ≤ pw K) : Sz K a := ⟨h1, h2⟩

theorem upper {K L : ℤ} {a : ℝ} (h : Sz K a) (hl : K ≤ L) : |a| ≤ pw L := (h.mono hl).2

theorem nat {n : ℕ} (h1 : 1 ≤ n) (h2 : n < 100000000) : Sz 8 (n : ℝ) := by
  have a : (1 : ℝ) ≤ n := by exact_mod_cast h1
  have b : (n : ℝ) ≤ 100000000 := by exact_mod_cast h2.le
  unfold Sz
  rw [abs_of_nonneg (by linarith)]
  constructor
  · refine le_trans ?_ a; unfold pw; norm_num
  · refine le_trans b ?_; unfold pw; norm_num
end Sz

/-! ### relative errors -/

/-- `a` is near `b` with relative error `e`. -/
def NearR (e a b : ℝ) : Prop := |a - b| ≤ e * |b|

namespace NearR
theorem rfl' {e b : ℝ} (h : 0 ≤ e) : NearR e b b := by unfold NearR; rw [sub_self, abs_zero]; positivity

theorem mono {e f a b : ℝ} (h : NearR e a b) (hf : e ≤ f) : NearR f a b := le_trans h (mul_le_mul_of_nonneg_right hf (abs_nonneg _))

theorem trans {e f a b d : ℝ} (f0 : 0 ≤ f) (h : NearR f a b) (g : NearR e b d) : NearR (e + f + e * f) a d := by
  unfold NearR at *
  have h1 : |a - d| ≤ |a - b| + |b - d| := abs_sub_le _ _ _
  have h2 : |b| ≤ (1 + e) * |d| := by
    have := abs_sub_abs_le_abs_sub b d
    linarith
  have h3 := mul_le_mul_of_nonneg_left h2 f0
  have : f * ((1 + e) * |d|) = (f + e * f) * |d| := by ring
  linarith

theorem mul {e f a b p q : ℝ} (e0 : 0 ≤ e) (h : NearR e a b) (g : NearR f p q) : NearR (e + f + e * f) (a * p) (b * q) := by
  unfold NearR at *
  have e1 : a * p - b * q = (a - b) * q + (p - q) * b + (a - b) * (p - q) := by ring
  have h1 : |a * p - b * q| ≤ |a - b| * |q| + |p - q| * |b| + |a - b| * |p - q| := by
    rw [e1]
    refine le_trans (abs_add_le _ _) ?_
    rw [abs_mul (a - b) (p - q)]
    have := abs_add_le ((a - b) * q) ((p - q) * b)
    rw [abs_mul, abs_mul] at this
    linarith
  have h2 := mul_le_mul_of_nonneg_right h (abs_nonneg q)
  have h3 := mul_le_mul_of_nonneg_right g (abs_nonneg b)
  have h4 := mul_le_mul h g (abs_nonneg _) (by positivity)
  rw [abs_mul b q]
  nlinarith [h1, h2, h3, h4]

theorem inv {e a b : ℝ} (e0 : 0 ≤ e) (e1 : e ≤ 1 / 2) (b0 : b ≠ 0) (h : NearR e a b) : NearR (2 * e) a⁻¹ b⁻¹ := by
  unfold NearR at *
  have hb := abs_pos.2 b0
  have h1 := abs_sub_abs_le_abs_sub b a
  rw [abs_sub_comm] at h1
  have ha : 1 / 2 * |b| ≤ |a| := by nlinarith
  have a0 : a ≠ 0 := by rintro rfl; rw [abs_zero] at ha; linarith
  have e2 : a⁻¹ - b⁻¹ = -(a - b) * (a⁻¹ * b⁻¹) := by field_simp; ring
  rw [e2, abs_mul, abs_neg, abs_mul, abs_inv, abs_inv]
  have ha' := abs_pos.2 a0
  have h3 : |a - b| * |a|⁻¹ ≤ 2 * e := by
    rw [← div_eq_mul_inv, div_le_iff₀ ha']
    nlinarith
  rw [← mul_assoc]
  exact mul_le_mul_of_nonneg_right h3 (by positivity)

theorem div {e f a b p q : ℝ} (e0 : 0 ≤ e) (f0 : 0 ≤ f) (f1 : f ≤ 1 / 2) (q0 : q ≠ 0) (h : NearR e a b) (g : NearR f p q) :
    NearR (e + 2 * f + e * (2 * f)) (a / p) (b / q) := by
  rw [div_eq_mul_inv, div_eq_mul_inv]
  exact mul e0 h (g.inv f0 f1 q0)

theorem ne {e a b : ℝ} (h : NearR e a b) (e1 : e < 1) (b0 : b ≠ 0) : a ≠ 0 := by
  rintro rfl
  unfold NearR at h
  rw [zero_sub, abs_neg] at h
  have := abs_pos.2 b0
  nlinarith

theorem sz {e a b : ℝ} {K : ℤ} (h : NearR e a b) (e1 : e ≤ 1 / 2) (hb : Sz K b) : Sz (K + 1) a :=
  hb.near (le_trans h (mul_le_mul_of_nonneg_right e1 (abs_nonneg _)))

theorem neg {e a b : ℝ} (h : NearR e a b) : NearR e (-a) (-b) := by
  unfold NearR at *
  rw [abs_neg, ← neg_sub', abs_neg]; exact h

/-- Powers. -/
theorem pow {e a b : ℝ} (e0 : 0 ≤ e) (h : NearR e a b) : ∀ n : ℕ, n * e ≤ 1 / 4 → NearR (2 * n * e) (a ^ n) (b ^ n) := by
  intro n
  induction n with
  | zero => intro _; simp [NearR]
  | succ n ih =>
    intro hn
    push_cast at hn
    have hn' : n * e ≤ 1 / 4 := by linarith
    have h1 := (ih hn').mul (by positivity) h
    rw [← pow_succ, ← pow_succ] at h1
    refine h1.mono ?_
    push_cast
    have : 2 * (n : ℝ) * e * e ≤ 1 / 2 * e := by
      have := mul_le_mul_of_nonneg_right hn' e0
      linarith
    linarith
end NearR

end EFX
