import Verif.Lemmas.RndArith
import Verif.Model.Util
import Mathlib.Tactic.NormNum
/-!
# Powers and series in rounded arithmetic
-/

namespace EFX
open Finset

variable {α : Type} {A : Arith α} {v : α → ℝ} {ok : α → Prop} {u : ℝ}

namespace Rnd

theorem ofI_small (R : Rnd A v ok u) (n : ℤ) (h : |n| < 1000000000) : ok (A.ofI n) ∧ v (A.ofI n) = n := R.ofI n (by omega)

theorem one (R : Rnd A v ok u) : ok (Fn.one A) ∧ v (Fn.one A) = 1 := by
  have := R.ofI_small 1 (by norm_num)
  simpa [Fn.one] using this

theorem two (R : Rnd A v ok u) : ok (Fn.two A) ∧ v (Fn.two A) = 2 := by
  have := R.ofI_small 2 (by norm_num)
  simpa [Fn.two] using this

theorem zero (R : Rnd A v ok u) : ok (Fn.zero A) ∧ v (Fn.zero A) = 0 := by
  have := R.ofI_small 0 (by norm_num)
  simpa [Fn.zero] using this

/-! ### powers -/

/-- Relative error `(1 + g)^k - 1`. -/
def NE (g : ℝ) (k : ℕ) (a b : ℝ) : Prop := NearR ((1 + g) ^ k - 1) a b

theorem pow_sub_nonneg {g : ℝ} (g0 : 0 ≤ g) (k : ℕ) : 0 ≤ (1 + g) ^ k - 1 := by
  have := one_le_pow₀ (show (1 : ℝ) ≤ 1 + g by linarith) (n := k)
  linarith

theorem pow_sub_le {g : ℝ} (g0 : 0 ≤ g) (k : ℕ) (h : k * g ≤ 1 / 4) : (1 + g) ^ k - 1 ≤ 2 * (k * g) := by
  induction k with
  | zero => simp
  | succ k ih =>
    push_cast at h ⊢
    have h' := ih (by linarith)
    have h2 : (k * g) * g ≤ 1 / 4 * g := mul_le_mul_of_nonneg_right (by linarith) g0
    have h3 : ((1 + g) ^ k - 1) * g ≤ 2 * (k * g) * g := mul_le_mul_of_nonneg_right h' g0
    rw [pow_succ]
    have : (1 + g) ^ k * (1 + g) - 1 = ((1 + g) ^ k - 1) + ((1 + g) ^ k - 1) * g + g := by ring
    linarith

theorem NE.mul {g : ℝ} (g0 : 0 ≤ g) {k l : ℕ} {a b p q : ℝ} (h : NE g k a b) (h' : NE g l p q) : NE g (k + l) (a * p) (b * q) := by
  have := NearR.mul (pow_sub_nonneg g0 k) h h'
  refine this.mono (le_of_eq ?_)
  rw [pow_add]; ring

theorem NE.mono {g : ℝ} (g0 : 0 ≤ g) {k l : ℕ} {a b : ℝ} (h : NE g k a b) (hl : k ≤ l) : NE g l a b :=
  NearR.mono h (by have := pow_le_pow_right₀ (show (1 : ℝ) ≤ 1 + g by linarith) hl; linarith)

/-- One product. -/
theorem ne_mul (R : Rnd A v ok u) {g : ℝ} (hg : u / 10 ^ 4 ≤ g) {k l : ℕ} (hk : (k + l : ℕ) * g ≤ 1 / 4) {x y : α} {p q : ℝ}
    (hx : ok x) (hy : ok y) (h1 : NE g k (v x) p) (h2 : NE g l (v y) q) {K : ℤ} (hs : Sz K (p * q)) (hK : K + 1 ≤ 2000000000) :
    ok (A.mul x y) ∧ NE g (k + l + 1) (v (A.mul x y)) (p * q) := by
  have u0 := R.u0
  have g0 : 0 ≤ g := le_trans (by positivity) hg
  have h3 := h1.mul g0 h2
  have h4 := pow_sub_le g0 (k + l) hk
  have h5 : Sz (K + 1) (v x * v y) := NearR.sz h3 (by linarith) hs
  obtain ⟨o, e, -⟩ := R.mul x y hx hy (h5.mono hK)
  refine ⟨o, ?_⟩
  have h6 : NearR g (v (A.mul x y)) (v x * v y) := le_trans e (mul_le_mul_of_nonneg_right hg (abs_nonneg _))
  have := NearR.trans g0 h6 h3
  refine this.mono (le_of_eq ?_)
  rw [pow_succ]; ring

theorem sz_pow {K : ℤ} {t : ℝ} (hK : 0 ≤ K) (h : Sz K t) {n m : ℕ} (hn : n ≤ m) : Sz (m * K) (t ^ n) :=
  (h.pow n).mono (mul_le_mul_of_nonneg_right (by exact_mod_cast hn) hK)

/-- The loop of the integer power. -/
theorem pownLoop_acc (R : Rnd A v ok u) {g t : ℝ} {K : ℤ} (hg : u / 10 ^ 4 ≤ g) (K0 : 0 ≤ K) (ht : Sz K t) {p : ℕ}
    (hp : (2 * p : ℕ) * g ≤ 1 / 4) (hs : (p : ℤ) * K + 1 ≤ 2000000000) :
    ∀ (p2 a b : ℕ) (y r : α), 1 ≤ a → a * p2 + b ≤ p + a * (p2 % 2) → b + a * (p2 - p2 % 2) = p → ok y → ok r → NE g (2 * a - 1) (v y) (t ^ a) →
      NE g (2 * b) (v r) (t ^ b) → ok (pownLoop A.mul p2 y r) ∧ NE g (2 * p) (v (pownLoop A.mul p2 y r)) (t ^ p) := by
  have u0 := R.u0
  have g0 : 0 ≤ g := le_trans (by positivity) hg
  intro p2
  induction p2 using Nat.strong_induction_on with
  | _ p2 ih =>
    intro a b y r a1 hab he oy or_ hy hr
    rw [pownLoop]
    by_cases h0 : p2 / 2 = 0
    · rw [dif_pos h0]
      have : p2 - p2 % 2 = 0 := by omega
      rw [this, mul_zero, add_zero] at he
      rw [← he]; exact ⟨or_, hr⟩
    · rw [dif_neg h0]
      have e1 : p2 - p2 % 2 = 2 * (p2 / 2) := by omega
      rw [e1] at he
      have hle : 2 * a + b ≤ p := by
        have : a * (2 * (p2 / 2)) = 2 * a * (p2 / 2) := by ring
        have h3 : 2 * a * 1 ≤ 2 * a * (p2 / 2) := Nat.mul_le_mul_left _ (by omega)
        omega
      have hk : ∀ k : ℕ, k ≤ 2 * p → (k : ℝ) * g ≤ 1 / 4 := fun k hk =>
        le_trans (mul_le_mul_of_nonneg_right (by exact_mod_cast hk) g0) hp
      obtain ⟨o1, n1⟩ := R.ne_mul hg (k := 2 * a - 1) (l := 2 * a - 1) (hk _ (by omega)) oy oy hy hy (K := p * K)
        (by rw [← pow_add]; exact sz_pow K0 ht (by omega)) hs
      have n1' : NE g (2 * (2 * a) - 1) (v (A.mul y y)) (t ^ (2 * a)) := by
        rw [← pow_add] at n1
        rw [show 2 * a = a + a by omega, show 2 * (a + a) - 1 = 2 * a - 1 + (2 * a - 1) + 1 by omega]; exact n1
      simp only
      by_cases h2 : p2 / 2 % 2 ≠ 0
      · rw [if_pos h2]
        obtain ⟨o2, n2⟩ := R.ne_mul hg (k := 2 * b) (l := 2 * (2 * a) - 1) (hk _ (by omega)) or_ o1 hr n1' (K := p * K)
          (by rw [← pow_add]; exact sz_pow K0 ht (by omega)) hs
        rw [← pow_add] at n2
        have hf : b + 2 * a + 2 * a * (p2 / 2 - p2 / 2 % 2) = p := by
          have : p2 / 2 - p2 / 2 % 2 + 1 = p2 / 2 := by omega
          calc b + 2 * a + 2 * a * (p2 / 2 - p2 / 2 % 2) = b + 2 * a * (p2 / 2 - p2 / 2 % 2 + 1) := by ring
            _ = p := by rw [this, ← he]; ring
        refine ih (p2 / 2) (by omega) (2 * a) (b + 2 * a) _ _ (by omega) ?_ hf o1 o2 n1' ?_
        · have : p2 / 2 = (p2 / 2 - p2 / 2 % 2) + p2 / 2 % 2 := by omega
          calc 2 * a * (p2 / 2) + (b + 2 * a) = 2 * a * ((p2 / 2 - p2 / 2 % 2) + p2 / 2 % 2) + (b + 2 * a) := by rw [← this]
            _ = b + 2 * a + 2 * a * (p2 / 2 - p2 / 2 % 2) + 2 * a * (p2 / 2 % 2) := by ring
            _ ≤ _ := by rw [hf]
        · rw [show 2 * (b + 2 * a) = 2 * b + (2 * (2 * a) - 1) + 1 by omega]; exact n2
      · rw [if_neg h2]
        have h2' : p2 / 2 % 2 = 0 := by omega
        refine ih (p2 / 2) (by omega) (2 * a) b _ _ (by omega) ?_ ?_ o1 or_ n1' hr
        · rw [h2', mul_zero, add_zero, ← he]; apply le_of_eq; ring
        · rw [h2', Nat.sub_zero, ← he]; ring

/-- The integer power of `pown_template` for a non-negative exponent: the relative error is at most `(1 + g)^(2p) - 1`. -/
theorem pownNat_acc (R : Rnd A v ok u) {g t : ℝ} {K : ℤ} (hg : u / 10 ^ 4 ≤ g) (K0 : 0 ≤ K) (ht : Sz K t) {p : ℕ}
    (hp : (2 * p : ℕ) * g ≤ 1 / 4) (hs : (p : ℤ) * K + 1 ≤ 2000000000) {x : α} (hx : ok x) (h : NearR g (v x) t) :
    ok (pownNat (Fn.one A) A.mul x p) ∧ NE g (2 * p) (v (pownNat (Fn.one A) A.mul x p)) (t ^ p) := by
  have u0 := R.u0
  have g0 : 0 ≤ g := le_trans (by positivity) hg
  have h1 : NE g 1 (v x) (t ^ 1) := by unfold NE; rw [pow_one, pow_one, add_sub_cancel_left]; exact h
  have hk : ∀ k : ℕ, k ≤ 2 * p → (k : ℝ) * g ≤ 1 / 4 := fun k hk =>
    le_trans (mul_le_mul_of_nonneg_right (by exact_mod_cast hk) g0) hp
  have z1 : NE g 0 (v (Fn.one A)) (t ^ 0) := by
    unfold NE; rw [R.one.2]; simp [NearR]
  unfold pownNat
  by_cases p0 : p = 0
  · rw [if_pos p0, p0]; exact ⟨R.one.1, z1⟩
  rw [if_neg p0]
  by_cases p1 : p = 1
  · rw [if_pos p1, p1]; exact ⟨hx, h1.mono g0 (by omega)⟩
  rw [if_neg p1]
  have sq := fun (h2 : 2 ≤ p) => R.ne_mul hg (k := 1) (l := 1) (hk _ (by omega)) hx hx h1 h1 (K := p * K)
    (by rw [← pow_add]; exact sz_pow K0 ht (by omega)) hs
  by_cases p2 : p = 2
  · rw [if_pos p2]
    obtain ⟨o, n⟩ := sq (by omega)
    rw [← pow_add] at n
    rw [p2]; exact ⟨o, n.mono g0 (by omega)⟩
  rw [if_neg p2]
  by_cases p3 : p = 3
  · rw [if_pos p3]
    obtain ⟨o, n⟩ := sq (by omega)
    rw [← pow_add] at n
    obtain ⟨o2, n2⟩ := R.ne_mul hg (hk _ (by omega)) o hx n h1 (K := p * K)
      (by rw [← pow_add]; exact sz_pow K0 ht (by omega)) hs
    rw [← pow_add] at n2
    rw [p3]; exact ⟨o2, n2.mono g0 (by omega)⟩
  rw [if_neg p3]
  by_cases p4 : p = 4
  · rw [if_pos p4]
    obtain ⟨o, n⟩ := sq (by omega)
    rw [← pow_add] at n
    obtain ⟨o2, n2⟩ := R.ne_mul hg (hk _ (by omega)) o o n n (K := p * K)
      (by rw [← pow_add]; exact sz_pow K0 ht (by omega)) hs
    rw [← pow_add] at n2
    simp only
    rw [p4]; exact ⟨o2, n2.mono g0 (by omega)⟩
  rw [if_neg p4]
  by_cases hodd : p % 2 ≠ 0
  · rw [if_pos hodd]
    refine R.pownLoop_acc hg K0 ht hp hs p 1 1 x x (le_refl _) (by omega) (by omega) hx hx (by simpa using h1) (h1.mono g0 (by omega))
  · rw [if_neg hodd]
    refine R.pownLoop_acc hg K0 ht hp hs p 1 0 x _ (le_refl _) (by omega) (by omega) hx R.one.1 (by simpa using h1) (z1.mono g0 (by omega))

/-- The loop of `ef::pow(e_float, int64)`. -/
theorem powLoop_acc (R : Rnd A v ok u) {g t : ℝ} {K : ℤ} (hg : u / 10 ^ 4 ≤ g) (K0 : 0 ≤ K) (ht : Sz K t) {p : ℕ}
    (hp : (4 * p : ℕ) * g ≤ 1 / 4) (hs : ((2 * p : ℕ) : ℤ) * K + 1 ≤ 2000000000) :
    ∀ (p2 a b : ℕ) (y r : α), 1 ≤ a → b + a * p2 = p → ok y → ok r → NE g (2 * a - 1) (v y) (t ^ a) →
      NE g (2 * b) (v r) (t ^ b) → ok (powLoop A.mul p2 y r) ∧ NE g (2 * p) (v (powLoop A.mul p2 y r)) (t ^ p) := by
  have u0 := R.u0
  have g0 : 0 ≤ g := le_trans (by positivity) hg
  intro p2
  induction p2 using Nat.strong_induction_on with
  | _ p2 ih =>
    intro a b y r a1 he oy or_ hy hr
    rw [powLoop]
    by_cases h0 : p2 = 0
    · rw [dif_pos h0]
      rw [h0, mul_zero, add_zero] at he
      rw [← he]; exact ⟨or_, hr⟩
    · rw [dif_neg h0]
      have hle : a + b ≤ p := by
        have h3 : a * 1 ≤ a * p2 := Nat.mul_le_mul_left _ (by omega)
        omega
      have hk : ∀ k : ℕ, k ≤ 4 * p → (k : ℝ) * g ≤ 1 / 4 := fun k hk =>
        le_trans (mul_le_mul_of_nonneg_right (by exact_mod_cast hk) g0) hp
      obtain ⟨o1, n1⟩ := R.ne_mul hg (k := 2 * a - 1) (l := 2 * a - 1) (hk _ (by omega)) oy oy hy hy (K := (2 * p : ℕ) * K)
        (by rw [← pow_add]; exact sz_pow K0 ht (by omega)) hs
      have n1' : NE g (2 * (2 * a) - 1) (v (A.mul y y)) (t ^ (2 * a)) := by
        rw [← pow_add] at n1
        rw [show 2 * a = a + a by omega, show 2 * (a + a) - 1 = 2 * a - 1 + (2 * a - 1) + 1 by omega]; exact n1
      have hd : p2 = 2 * (p2 / 2) + p2 % 2 := by omega
      by_cases h2 : p2 % 2 ≠ 0
      · rw [if_pos h2]
        obtain ⟨o2, n2⟩ := R.ne_mul hg (k := 2 * b) (l := 2 * a - 1) (hk _ (by omega)) or_ oy hr hy (K := (2 * p : ℕ) * K)
          (by rw [← pow_add]; exact sz_pow K0 ht (by omega)) hs
        rw [← pow_add] at n2
        refine ih (p2 / 2) (by omega) (2 * a) (b + a) _ _ (by omega) ?_ o1 o2 n1' ?_
        · have h5 : p2 % 2 = 1 := by omega
          rw [hd, h5] at he
          rw [← he]; ring
        · rw [show 2 * (b + a) = 2 * b + (2 * a - 1) + 1 by omega]; exact n2
      · rw [if_neg h2]
        refine ih (p2 / 2) (by omega) (2 * a) b _ _ (by omega) ?_ o1 or_ n1' hr
        have h5 : p2 % 2 = 0 := by omega
        rw [hd, h5] at he
        rw [← he]; ring

/-- `ef::pow(e_float, int64)` for a non-negative exponent. -/
theorem powNat_acc (R : Rnd A v ok u) {g t : ℝ} {K : ℤ} (hg : u / 10 ^ 4 ≤ g) (K0 : 0 ≤ K) (ht : Sz K t) {p : ℕ}
    (hp : (4 * p : ℕ) * g ≤ 1 / 4) (hs : ((2 * p : ℕ) : ℤ) * K + 1 ≤ 2000000000) {x : α} (hx : ok x) (h : NearR g (v x) t) :
    ok (powNat (Fn.one A) A.mul x p) ∧ NE g (2 * p) (v (powNat (Fn.one A) A.mul x p)) (t ^ p) := by
  have u0 := R.u0
  have g0 : 0 ≤ g := le_trans (by positivity) hg
  have h1 : NE g 1 (v x) (t ^ 1) := by unfold NE; rw [pow_one, pow_one, add_sub_cancel_left]; exact h
  have hk : ∀ k : ℕ, k ≤ 4 * p → (k : ℝ) * g ≤ 1 / 4 := fun k hk =>
    le_trans (mul_le_mul_of_nonneg_right (by exact_mod_cast hk) g0) hp
  have z1 : NE g 0 (v (Fn.one A)) (t ^ 0) := by
    unfold NE; rw [R.one.2]; simp [NearR]
  unfold powNat
  by_cases p0 : p = 0
  · rw [if_pos p0, p0]; exact ⟨R.one.1, z1⟩
  rw [if_neg p0]
  by_cases p1 : p = 1
  · rw [if_pos p1, p1]; exact ⟨hx, h1.mono g0 (by omega)⟩
  rw [if_neg p1]
  have sq := fun (h2 : 2 ≤ p) => R.ne_mul hg (k := 1) (l := 1) (hk _ (by omega)) hx hx h1 h1 (K := (2 * p : ℕ) * K)
    (by rw [← pow_add]; exact sz_pow K0 ht (by omega)) hs
  by_cases p2 : p = 2
  · rw [if_pos p2]
    obtain ⟨o, n⟩ := sq (by omega)
    rw [← pow_add] at n
    rw [p2]; exact ⟨o, n.mono g0 (by omega)⟩
  rw [if_neg p2]
  by_cases p3 : p = 3
  · rw [if_pos p3]
    obtain ⟨o, n⟩ := sq (by omega)
    rw [← pow_add] at n
    obtain ⟨o2, n2⟩ := R.ne_mul hg (hk _ (by omega)) o hx n h1 (K := (2 * p : ℕ) * K)
      (by rw [← pow_add]; exact sz_pow K0 ht (by omega)) hs
    rw [← pow_add] at n2
    rw [p3]; exact ⟨o2, n2.mono g0 (by omega)⟩
  rw [if_neg p3]
  by_cases p4 : p = 4
  · rw [if_pos p4]
    obtain ⟨o, n⟩ := sq (by omega)
    rw [← pow_add] at n
    obtain ⟨o2, n2⟩ := R.ne_mul hg (hk _ (by omega)) o o n n (K := (2 * p : ℕ) * K)
      (by rw [← pow_add]; exact sz_pow K0 ht (by omega)) hs
    rw [← pow_add] at n2
    rw [p4]; exact ⟨o2, n2.mono g0 (by omega)⟩
  rw [if_neg p4]
  exact R.powLoop_acc hg K0 ht hp hs p 1 0 x _ (le_refl _) (by omega) hx R.one.1 (by simpa using h1) (z1.mono g0 (by omega))

/-! ### series -/

theorem order_near_one (R : Rnd A v ok u) {s : α} (hs : ok s) (h : |v s - 1| ≤ 1 / 10) : A.order s = -1 ∨ A.order s = 0 := by
  obtain ⟨l, r⟩ := abs_le.1 h
  have hp : 0 < v s := by linarith
  obtain ⟨a, b⟩ := R.order s hs hp.ne'
  rw [abs_of_pos hp] at a b
  have h1 : A.order s < 1 := by
    by_contra hc
    have := pw_mono (not_lt.1 hc)
    rw [pw_one] at this; linarith
  have h2 : -2 < A.order s := by
    by_contra hc
    have := pw_mono (show A.order s + 1 ≤ -1 by omega)
    rw [pw_neg, pw_one] at this; norm_num at this; linarith
  omega

/-- A series whose terms fall by three digits in every round, computed with term errors `n d |a n|`: the sum that the loop returns. -/
theorem series_acc (R : Rnd A v ok u) {σ : Type} (step : ℤ → σ → σ × α) (a : ℕ → ℝ) (L d : ℝ) (J : ℕ → σ → Prop) (d0 : 0 ≤ d)
    (d1 : 10000 * d ≤ 1 / 2)
    (hstep : ∀ n st, 2 ≤ n → n ≤ 2000 → (n ≤ 21 ∨ pw (-6000) ≤ |a (n - 1)|) → J n st →
      ok (step n st).2 ∧ |v (step n st).2 - a n| ≤ n * d * |a n| ∧ J (n + 1) (step n st).1)
    (a0 : ∀ n, a n ≠ 0) (a1 : ∀ n, |a n| ≤ (1 / 1000) ^ n)
    (tail : ∀ n, 2 ≤ n → |L - ∑ i ∈ range n, a i| ≤ 2 * |a n|) (hL : |L - 1| ≤ 1 / 100)
    {st : σ} {s : α} {e : ℝ} (hJ : J 2 st) (os : ok s) (hs : |v s - (a 0 + a 1)| ≤ e) (he : e ≤ 1 / 100) :
    ok (Fn.seriesLoop A step 9998 2 st s) ∧ |v (Fn.seriesLoop A step 9998 2 st s) - L| ≤ e + d / 10 ^ 5 + u / 100 := by
  have u0 := R.u0
  have u1 := R.u1
  have t0 := R.t0
  have t1 := R.t1
  have ut := R.ut
  have e0 : 0 ≤ e := le_trans (abs_nonneg _) hs
  have key : ∀ (k n : ℕ) (st : σ) (s : α), k + n = 10000 → 2 ≤ n → n ≤ 2000 → (n ≤ 21 ∨ pw (-6000) ≤ |a (n - 1)|) → J n st →
      ok s → |v s - ∑ i ∈ range n, a i| ≤ e + d * (1 / 10 ^ 5 - 1 / 10 ^ 5 * (1 / 100) ^ (n - 2)) + (n - 2 : ℕ) * (3 * u / 10 ^ 12) →
      ok (Fn.seriesLoop A step k n st s) ∧ |v (Fn.seriesLoop A step k n st s) - L| ≤ e + d / 10 ^ 5 + u / 100 := by
    intro k
    induction k with
    | zero => intro n st s hk h2 h3; omega
    | succ k ih =>
      intro n st s hk h2 h3 h4 hJ os hs
      obtain ⟨o1, e1, J1⟩ := hstep n st h2 h3 h4 hJ
      have an := abs_pos.2 (a0 n)
      have hnd : n * d ≤ 1 / 2 := le_trans (mul_le_mul_of_nonneg_right (by exact_mod_cast (show n ≤ 10000 by omega)) d0) d1
      have e2 : |v (step n st).2 - a n| ≤ 1 / 2 * |a n| := le_trans e1 (mul_le_mul_of_nonneg_right hnd an.le)
      have tl := tail n h2
      have an1 : |a n| ≤ 1 / 1000000 := by
        refine le_trans (a1 n) (le_trans (pow_le_pow_of_le_one (by norm_num) (by norm_num) h2) (by norm_num))
      have hq0 : (0 : ℝ) ≤ (1 / 100) ^ (n - 2) := by positivity
      have hn2 : ((n - 2 : ℕ) : ℝ) ≤ 2000 := by exact_mod_cast (show n - 2 ≤ 2000 by omega)
      have hb2 : ((n - 2 : ℕ) : ℝ) * (3 * u / 10 ^ 12) ≤ 2000 * (3 * u / 10 ^ 12) := mul_le_mul_of_nonneg_right hn2 (by positivity)
      have hb1 : d * (1 / 10 ^ 5 - 1 / 10 ^ 5 * (1 / 100) ^ (n - 2)) ≤ d * (1 / 10 ^ 5) :=
        mul_le_mul_of_nonneg_left (by linarith) d0
      have sL : |v s - L| ≤ e + d / 10 ^ 5 + 6000 * u / 10 ^ 12 + 2 * |a n| := by
        have := abs_sub_le (v s) (∑ i ∈ range n, a i) L
        rw [abs_sub_comm (∑ i ∈ range n, a i) L] at this
        linarith
      have s1 : |v s - 1| ≤ 1 / 10 := by
        have := abs_sub_le (v s) L 1
        linarith
      have so := R.order_near_one os s1
      have vt0 : v (step n st).2 ≠ 0 := by
        intro h0
        rw [h0, zero_sub, abs_neg] at e2; linarith
      obtain ⟨q1, q2⟩ := R.order _ o1 vt0
      have ht1 : |v (step n st).2| ≤ 3 / 2 * |a n| := by
        have := abs_sub_abs_le_abs_sub (v (step n st).2) (a n); linarith
      have ht2 : 1 / 2 * |a n| ≤ |v (step n st).2| := by
        have := abs_sub_abs_le_abs_sub (a n) (v (step n st).2); rw [abs_sub_comm] at this; linarith
      rw [Fn.seriesLoop]
      by_cases hstop : (n : ℤ) > 20 ∧ A.order (step n st).2 - A.order s < -A.tol
      · rw [if_pos hstop]
        refine ⟨os, ?_⟩
        have h5 : pw (A.order (step n st).2 + 1) ≤ pw (-A.tol) := pw_mono (by omega)
        have h6 : |a n| ≤ 2 * (u / 1000) := by linarith
        linarith
      · rw [if_neg hstop]
        have hn21 : n + 1 ≤ 21 ∨ pw (-6000) ≤ |a n| ∧ n + 1 ≤ 2000 := by
          by_cases h20 : n ≤ 20
          · exact Or.inl (by omega)
          right
          have h5 : -A.tol ≤ A.order (step n st).2 - A.order s := by
            by_contra hc
            exact hstop ⟨by omega, by omega⟩
          have h6 : pw (-A.tol - 1) ≤ pw (A.order (step n st).2) := pw_mono (by omega)
          have h7 : pw (-A.tol - 1) ≤ 3 / 2 * |a n| := by linarith
          constructor
          · have h8 : pw (-6000) * pw 1 ≤ pw (-A.tol - 1) := by
              rw [← pw_add]; exact pw_mono (by omega)
            rw [pw_one] at h8
            have : (0 : ℝ) < pw (-6000) := pw_pos _
            linarith
          · by_contra hc
            have h8 : |a n| ≤ pw (-(3 * n : ℤ)) := by
              refine le_trans (a1 n) (le_of_eq ?_)
              unfold pw
              rw [zpow_neg, zpow_mul, zpow_natCast, one_div, inv_pow]; norm_num
            have h9 : pw (-(3 * n : ℤ)) * pw 1 ≤ pw (-A.tol - 1) := by
              rw [← pw_add]; exact pw_mono (by omega)
            rw [pw_one] at h9
            have : (0 : ℝ) < pw (-(3 * n : ℤ)) := pw_pos _
            linarith
        have big : (2 : ℝ) ≤ pw 2000000000 := by
          refine le_trans (show (2 : ℝ) ≤ pw 1 by rw [pw_one]; norm_num) (pw_mono (by norm_num))
        obtain ⟨s2, s3⟩ := abs_le.1 s1
        have sabs : |v s| ≤ 3 / 2 := abs_le.2 ⟨by linarith, by linarith⟩
        obtain ⟨o2, e3⟩ := R.add s (step n st).2 os o1 (by linarith) (by linarith)
        have hc : ((n + 1 : ℕ) : ℤ) = (n : ℤ) + 1 := by push_cast; ring
        rw [← hc]
        refine ih (n + 1) _ _ (by omega) (by omega) (by omega) ?_ J1 o2 ?_
        · rw [Nat.add_sub_cancel]
          exact hn21.imp id And.left
        · rw [sum_range_succ, show n + 1 - 2 = (n - 2) + 1 by omega, pow_succ (1 / 100 : ℝ)]
          have e4 : |v (A.add s (step n st).2) - (v s + v (step n st).2)| ≤ 3 * u / 10 ^ 12 := by
            refine le_trans e3 ?_
            have : u / 10 ^ 12 * (|v s| + |v (step n st).2|) ≤ u / 10 ^ 12 * 3 :=
              mul_le_mul_of_nonneg_left (by linarith) (by positivity)
            linarith
          have e5 : n * d * |a n| ≤ d * (1 / 10 ^ 5 * (1 / 100) ^ (n - 2) * (99 / 100)) := by
            obtain ⟨m, rfl⟩ : ∃ m, n = m + 2 := ⟨n - 2, by omega⟩
            have h5 := a1 (m + 2)
            have h6 : ((m + 2 : ℕ) : ℝ) ≤ 2 * 10 ^ m := by
              have : m + 2 ≤ 2 * 10 ^ m := by
                clear * -
                induction m with
                | zero => norm_num
                | succ m ih => rw [pow_succ]; omega
              exact_mod_cast this
            have h7 : ((m + 2 : ℕ) : ℝ) * |a (m + 2)| ≤ 2 * 10 ^ m * (1 / 1000) ^ (m + 2) :=
              mul_le_mul h6 h5 (abs_nonneg _) (by positivity)
            have h8 : (2 : ℝ) * 10 ^ m * (1 / 1000) ^ (m + 2) = 2 / 10 ^ 6 * (1 / 100) ^ m := by
              rw [pow_add, show (1 / 100 : ℝ) = 10 * (1 / 1000) by norm_num, mul_pow]; ring
            rw [h8] at h7
            have h9 : ((m + 2 : ℕ) : ℝ) * d * |a (m + 2)| = d * (((m + 2 : ℕ) : ℝ) * |a (m + 2)|) := by ring
            rw [h9, Nat.add_sub_cancel]
            refine mul_le_mul_of_nonneg_left (le_trans h7 ?_) d0
            have : (0 : ℝ) ≤ (1 / 100) ^ m := by positivity
            generalize ((1 : ℝ) / 100) ^ m = Q at *
            linarith
          have e6 : |v (A.add s (step n st).2) - (∑ i ∈ range n, a i + a n)| ≤
              |v (A.add s (step n st).2) - (v s + v (step n st).2)| + |v s - ∑ i ∈ range n, a i| + |v (step n st).2 - a n| := by
            have h1 := abs_sub_le (v (A.add s (step n st).2)) (v s + v (step n st).2) (∑ i ∈ range n, a i + a n)
            have h2 := abs_add_le (v s - ∑ i ∈ range n, a i) (v (step n st).2 - a n)
            rw [show v s - ∑ i ∈ range n, a i + (v (step n st).2 - a n) = v s + v (step n st).2 - (∑ i ∈ range n, a i + a n) by ring] at h2
            linarith
          have e7 : (((n - 2 + 1 : ℕ)) : ℝ) * (3 * u / 10 ^ 12) = (n - 2 : ℕ) * (3 * u / 10 ^ 12) + 3 * u / 10 ^ 12 := by push_cast; ring
          rw [e7]
          have e8 : d * (1 / 10 ^ 5 - 1 / 10 ^ 5 * ((1 / 100) ^ (n - 2) * (1 / 100))) =
              d * (1 / 10 ^ 5 - 1 / 10 ^ 5 * (1 / 100) ^ (n - 2)) + d * (1 / 10 ^ 5 * (1 / 100) ^ (n - 2) * (99 / 100)) := by ring
          rw [e8]
          linarith
  have := key 9998 2 st s (by norm_num) (le_refl _) (by norm_num) (Or.inl (by norm_num)) hJ os (by
    simp only [sum_range_succ, range_zero, sum_empty, zero_add]
    norm_num
    linarith)
  exact_mod_cast this

end Rnd
end EFX
