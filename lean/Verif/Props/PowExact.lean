import Verif.Props.Fmod
import Verif.Lemmas.RndInst
/-!
# C36: integer powers of integers and of one half are exact while they fit
-/

namespace EFX.Props
open EFX EFX.Spec

theorem shift_fin {c : Cfg} {x : EFloat} (hx : FinWF c x) (j : ℤ) :
    FinWF c { x with exp := x.exp + 8 * j } ∧ val { x with exp := x.exp + 8 * j } = val x * (10 : ℚ) ^ (8 * j) := by
  have hw : WF c { x with exp := x.exp + 8 * j } :=
    ⟨hx.len, hx.limb, dvd_add hx.exp8 (dvd_mul_right 8 j), hx.prec_lo, hx.prec_hi, hx.norm⟩
  refine ⟨⟨hw, hx.fin⟩, ?_⟩
  rw [val_eq, val_eq, mag_eq hw, mag_eq hx.toWF, mul_assoc, mul_assoc]
  unfold ulp
  rw [← p10_add]
  congr 3
  ring

/-- The number of limbs of a positive integer. -/
theorem limbs_of {m : ℤ} (hm : m ≠ 0) : ∃ a : ℕ, |(m : ℚ)| < (10 : ℚ) ^ (8 * ((a + 1 : ℕ) : ℤ)) ∧ 100000000 ^ a ≤ m.natAbs := by
  refine ⟨Nat.log 100000000 m.natAbs, ?_, Nat.pow_log_le_self _ (by omega)⟩
  rw [p10_base]
  have h := Nat.lt_pow_succ_log_self (b := 100000000) (by norm_num) m.natAbs
  have : |(m : ℚ)| = ((m.natAbs : ℕ) : ℚ) := by rw [← Int.cast_abs, Int.abs_eq_natAbs, Int.cast_natCast]
  rw [this]
  exact_mod_cast h

/-- The product of integer multiples of `10^-8j` and `10^-8k` is exact when the product of the integers has one limb less
than the storage. -/
theorem mul_scaled {c : Cfg} {x y : EFloat} (hx : Full c x) (hy : Full c y) {m n : ℤ} {j k : ℕ} (m0 : m ≠ 0) (n0 : n ≠ 0)
    (vx : val x * (10 : ℚ) ^ (8 * (j : ℤ)) = m) (vy : val y * (10 : ℚ) ^ (8 * (k : ℤ)) = n)
    (hb : m.natAbs * n.natAbs < 100000000 ^ (c.elems - 1)) (hjk : 8 * (j + k) < 2147483616) :
    Full c (mul c x y) ∧ val (mul c x y) = val x * val y := by
  obtain ⟨a, a1, a2⟩ := limbs_of m0
  obtain ⟨b, b1, b2⟩ := limbs_of n0
  have hab : a + b < c.elems - 1 := by
    by_contra hc
    have h1 : 100000000 ^ (c.elems - 1) ≤ 100000000 ^ (a + b) := Nat.pow_le_pow_right (by norm_num) (not_lt.1 hc)
    rw [pow_add] at h1
    have h2 := Nat.mul_le_mul a2 b2
    omega
  have hN := elems_le c
  obtain ⟨sx1, sx2⟩ := shift_fin hx.1 j
  obtain ⟨sy1, sy2⟩ := shift_fin hy.1 k
  obtain ⟨zx, ex⟩ := zeroFrom_int sx1 (sx2.trans vx) a1
  obtain ⟨zy, ey⟩ := zeroFrom_int sy1 (sy2.trans vy) b1
  obtain ⟨ex1, ex2⟩ := ex m0
  obtain ⟨ey1, ey2⟩ := ey n0
  dsimp only at ex1 ex2 ey1 ey2
  have hr : ExpInRange x y := by
    unfold ExpInRange minExp10
    have : maxExp10 = 2147483616 := rfl
    push_cast at *
    omega
  obtain ⟨r1, r2⟩ := C14_mul_exact hx.1 hy.1 hr (a := a + 1) (b := b + 1) zx zy (by rw [hx.2, hy.2]; omega)
  refine ⟨⟨r1, ?_⟩, r2⟩
  rcases mul_prec c x y with h | h
  · rw [h, hx.2]
  · exact h

section Loops
variable {α : Type*} {mul : α → α → α} {P : ℕ → α → Prop} {N : ℕ}

theorem powLoop_exact (hm : ∀ a b x y, P a x → P b y → a + b ≤ N → P (a + b) (mul x y)) : ∀ (p k m : ℕ) (y r : α),
    (p ≠ 0 → P k y) → P m r → m + k * p ≤ N → P (m + k * p) (powLoop mul p y r) := by
  intro p
  induction p using Nat.strong_induction_on with
  | _ p ih =>
    intro k m y r hy hr hN
    unfold powLoop
    by_cases h0 : p = 0
    · rw [dif_pos h0, h0]; simpa using hr
    · rw [dif_neg h0]
      have e : p = 2 * (p / 2) + p % 2 := by omega
      have hy' := hy h0
      have hy2 : p / 2 ≠ 0 → P (2 * k) (mul y y) := by
        intro h
        have := hm k k y y hy' hy' (by have : k * 2 ≤ k * p := Nat.mul_le_mul_left k (by omega)
                                       omega)
        rwa [← two_mul] at this
      by_cases h2 : p % 2 ≠ 0
      · rw [if_pos h2]
        have ep : k * p = k + 2 * k * (p / 2) := by
          conv_lhs => rw [e, show p % 2 = 1 by omega]
          ring
        have := ih (p / 2) (by omega) (2 * k) (m + k) _ (mul r y) hy2 (hm m k r y hr hy' (by omega)) (by omega)
        rw [ep, ← add_assoc]; exact this
      · rw [if_neg h2]
        have ep : k * p = 2 * k * (p / 2) := by
          conv_lhs => rw [e, show p % 2 = 0 by omega]
          ring
        have := ih (p / 2) (by omega) (2 * k) m _ r hy2 hr (by omega)
        rw [ep]; exact this

theorem pownLoop_exact (hm : ∀ a b x y, P a x → P b y → a + b ≤ N → P (a + b) (mul x y)) : ∀ (p k m : ℕ) (y r : α),
    P k y → P m r → m + 2 * k * (p / 2) ≤ N → P (m + 2 * k * (p / 2)) (pownLoop mul p y r) := by
  intro p
  induction p using Nat.strong_induction_on with
  | _ p ih =>
    intro k m y r hy hr hN
    unfold pownLoop
    by_cases h0 : p / 2 = 0
    · rw [dif_pos h0, h0]; simpa using hr
    · rw [dif_neg h0]
      dsimp only
      generalize hq : p / 2 = q at *
      have e : q = 2 * (q / 2) + q % 2 := by omega
      have h2k : 2 * k * 1 ≤ 2 * k * q := Nat.mul_le_mul_left _ (by omega)
      have hy2 : P (2 * k) (mul y y) := by
        have := hm k k y y hy hy (by omega)
        rwa [← two_mul] at this
      by_cases h2 : q % 2 ≠ 0
      · rw [if_pos h2]
        have ep : 2 * k * q = 2 * k + 2 * (2 * k) * (q / 2) := by
          conv_lhs => rw [e, show q % 2 = 1 by omega]
          ring
        have := ih q (by omega) (2 * k) (m + 2 * k) _ (mul r (mul y y)) hy2 (hm m (2 * k) r _ hr hy2 (by omega)) (by omega)
        rw [ep, ← add_assoc]; exact this
      · rw [if_neg h2]
        have ep : 2 * k * q = 2 * (2 * k) * (q / 2) := by
          conv_lhs => rw [e, show q % 2 = 0 by omega]
          ring
        have := ih q (by omega) (2 * k) m _ r hy2 hr (by omega)
        rw [ep]; exact this

theorem powNat_exact (hm : ∀ a b x y, P a x → P b y → a + b ≤ N → P (a + b) (mul x y)) {o t : α} (ho : P 0 o) (ht : P 1 t) {p : ℕ}
    (hp : p ≤ N) : P p (powNat o mul t p) ∧ P p (pownNat o mul t p) := by
  have h2 : 2 ≤ N → P 2 (mul t t) := fun h => hm 1 1 t t ht ht h
  unfold powNat pownNat
  by_cases h0 : p = 0
  · subst h0; simp [ho]
  by_cases h1 : p = 1
  · subst h1; simp [ht]
  by_cases h2' : p = 2
  · subst h2'; simp [h2 hp]
  by_cases h3 : p = 3
  · subst h3; simp [hm 2 1 _ _ (h2 (by omega)) ht hp]
  by_cases h4 : p = 4
  · subst h4; simp [hm 2 2 _ _ (h2 (by omega)) (h2 (by omega)) hp]
  simp only [h0, h1, h2', h3, h4, if_false]
  constructor
  · have := powLoop_exact hm p 1 0 t o (fun _ => ht) ho (by omega)
    simpa using this
  · have hr : P (p % 2) (if p % 2 ≠ 0 then t else o) := by
      by_cases h : p % 2 ≠ 0
      · rw [if_pos h, show p % 2 = 1 by omega]; exact ht
      · rw [if_neg h, show p % 2 = 0 by omega]; exact ho
    have := pownLoop_exact hm p 1 (p % 2) t _ ht hr (by omega)
    rwa [show p % 2 + 2 * 1 * (p / 2) = p by omega] at this

end Loops

theorem one_fullv (c : Cfg) (T : Tables) : Full c (Fn.one (efArith c T)) ∧ val (Fn.one (efArith c T)) = 1 := by
  obtain ⟨a1, a2, -, -, a5, -⟩ := ofSigned_spec c (n := 1) (by norm_num) (by norm_num)
  exact ⟨⟨a1, a5⟩, by rw [show Fn.one (efArith c T) = ofSigned c 1 from rfl, a2]; norm_num⟩

theorem two_fullv (c : Cfg) (T : Tables) : Full c (Fn.two (efArith c T)) ∧ val (Fn.two (efArith c T)) = ((2 : ℤ) : ℚ) := by
  obtain ⟨a1, a2, -, -, a5, -⟩ := ofSigned_spec c (n := 2) (by norm_num) (by norm_num)
  exact ⟨⟨a1, a5⟩, a2⟩

/-- C36 for integers: both power functions give the exact power `b^p` of an integer `b` in `e_float` arithmetic while the power has
one group of eight digits less than the storage. -/
theorem C36_integers_exact (c : Cfg) (T : Tables) {x : EFloat} (hx : FinWF c x) (hp : x.prec = c.elems) {b : ℤ} (b0 : b ≠ 0) (hb : val x = b)
    {p : ℕ} (h : b.natAbs ^ p < 10 ^ (8 * (c.elems - 1))) (hp63 : p < 2 ^ 63) :
    (FinWF c (Fn.pown (efArith c T) x p) ∧ val (Fn.pown (efArith c T) x p) = (b : ℚ) ^ p) ∧
    (FinWF c (Fn.powI (efArith c T) x p) ∧ val (Fn.powI (efArith c T) x p) = (b : ℚ) ^ p) := by
  have hm : ∀ a d y z, (Full c y ∧ val y = (b : ℚ) ^ a) → (Full c z ∧ val z = (b : ℚ) ^ d) → a + d ≤ p →
      (Full c (mul c y z) ∧ val (mul c y z) = (b : ℚ) ^ (a + d)) := by
    rintro a d y z ⟨y1, y2⟩ ⟨z1, z2⟩ had
    have := mul_scaled y1 z1 (m := b ^ a) (n := b ^ d) (j := 0) (k := 0) (pow_ne_zero _ b0) (pow_ne_zero _ b0)
      (by rw [y2]; push_cast; simp) (by rw [z2]; push_cast; simp) (by
        rw [Int.natAbs_pow, Int.natAbs_pow, ← pow_add]
        refine lt_of_le_of_lt (Nat.pow_le_pow_right (by omega) had) ?_
        rwa [pow_mul] at h) (by norm_num)
    refine ⟨this.1, ?_⟩
    rw [this.2, y2, z2, pow_add]
  have key := powNat_exact (P := fun n y => Full c y ∧ val y = (b : ℚ) ^ n) hm (o := Fn.one (efArith c T)) (t := x)
    (by rw [pow_zero]; exact one_fullv c T) (by rw [pow_one]; exact ⟨⟨hx, hp⟩, hb⟩) (le_refl p)
  have e1 : Fn.pown (efArith c T) x p = pownNat (Fn.one (efArith c T)) (mul c) x p := by
    unfold Fn.pown EFX.pown
    rw [if_neg (by omega)]; rfl
  have e2 : Fn.powI (efArith c T) x p = powNat (Fn.one (efArith c T)) (mul c) x p := by
    unfold Fn.powI EFX.powInt
    rw [if_neg (by omega)]; rfl
  rw [e1, e2]
  exact ⟨⟨key.2.1.1, key.2.2⟩, key.1.1.1, key.1.2⟩

/-- C36 for powers of two in `e_float` arithmetic: `pow2(p)` is exactly `2^p` while it has one group of eight digits less than the
storage, and `pow2(-p)` is exactly `2^-p` while its digits `5^p` have two more less. -/
theorem C36_pow2_exact (c : Cfg) (T : Tables) (p : ℕ) :
    (2 ^ p < 10 ^ (8 * (c.elems - 1)) → FinWF c (Fn.pow2 (efArith c T) p) ∧ val (Fn.pow2 (efArith c T) p) = 2 ^ p) ∧
    (5 ^ p * 10 ^ 14 < 10 ^ (8 * (c.elems - 1)) → FinWF c (Fn.pow2 (efArith c T) (-p)) ∧ val (Fn.pow2 (efArith c T) (-p)) = 1 / 2 ^ p) := by
  obtain ⟨M, hM⟩ : ∃ M, M = 134217732 := ⟨_, rfl⟩
  have hN : c.elems ≤ M := by rw [hM]; exact elems_le c
  constructor
  · intro h
    obtain ⟨t1, t2⟩ := two_fullv c T
    have hp : p < 2 ^ 63 := by
      by_contra hc
      have h1 : 10 ^ (8 * (c.elems - 1)) ≤ 10 ^ (8 * M) := Nat.pow_le_pow_right (by norm_num) (by omega)
      have h2 : 10 ^ (8 * M) ≤ 16 ^ (8 * M) := Nat.pow_le_pow_left (by norm_num) _
      have h3 : 16 ^ (8 * M) ≤ 2 ^ p := by
        rw [show (16 : ℕ) = 2 ^ 4 from rfl, ← pow_mul]
        exact Nat.pow_le_pow_right (by norm_num) (by omega)
      exact absurd (lt_of_lt_of_le h (h1.trans (h2.trans h3))) (lt_irrefl _)
    obtain ⟨-, k1, k2⟩ := C36_integers_exact c T t1.1 t1.2 (by norm_num) t2 (p := p) h hp
    have k2' : val (Fn.powI (efArith c T) (Fn.two (efArith c T)) p) = 2 ^ p := by rw [k2]; push_cast; rfl
    unfold Fn.pow2
    rw [if_neg (by omega), if_neg (by omega)]
    by_cases h0 : p = 0
    · rw [if_pos (by omega), h0]; exact ⟨(one_fullv c T).1.1, (one_fullv c T).2⟩
    rw [if_neg (by omega)]
    by_cases h1 : p = 1
    · rw [if_pos (by omega), h1]; exact ⟨t1.1, by rw [t2]; norm_num⟩
    rw [if_neg (by omega)]
    exact ⟨k1, k2'⟩
  · intro h
    obtain ⟨t1, t2⟩ := half_full c
    have t2' : val (half c) = 1 / 2 := by
      have : ((val (half c) : ℚ) : ℝ) = ((1 / 2 : ℚ) : ℝ) := by rw [show ((val (half c) : ℚ) : ℝ) = rv (half c) from rfl, t2]; norm_num
      exact_mod_cast this
    have hp : p ≤ 1700000000 := by
      by_contra hc
      have h1 : 10 ^ (8 * (c.elems - 1)) ≤ 10 ^ (8 * M) := Nat.pow_le_pow_right (by norm_num) (by omega)
      have h2 : 10 ^ (8 * M) ≤ 5 ^ p := by
        calc 10 ^ (8 * M) = (10 ^ 2) ^ (4 * M) := by rw [← pow_mul]; congr 1; ring
          _ ≤ (5 ^ 3) ^ (4 * M) := Nat.pow_le_pow_left (by norm_num) _
          _ = 5 ^ (3 * (4 * M)) := by rw [← pow_mul]
          _ ≤ 5 ^ p := Nat.pow_le_pow_right (by norm_num) (by omega)
      have h3 : 5 ^ p * 1 ≤ 5 ^ p * 10 ^ 14 := Nat.mul_le_mul_left _ (by norm_num)
      have h4 := lt_of_lt_of_le h (h1.trans h2)
      rw [mul_one] at h3
      exact absurd (lt_of_lt_of_le h4 h3) (lt_irrefl _)
    have sc : ∀ a, ((1 : ℚ) / 2) ^ a * (10 : ℚ) ^ (8 * (((a + 7) / 8 : ℕ) : ℤ)) = ((5 ^ a * 10 ^ (8 * ((a + 7) / 8) - a) : ℤ) : ℚ) := by
      intro a
      have e : (8 * (((a + 7) / 8 : ℕ) : ℤ)) = ((a + (8 * ((a + 7) / 8) - a) : ℕ) : ℤ) := by omega
      rw [e, zpow_natCast, pow_add, ← mul_assoc, ← mul_pow]
      push_cast
      congr 2
      norm_num
    have hm : ∀ a d y z, (Full c y ∧ val y = ((1 : ℚ) / 2) ^ a) → (Full c z ∧ val z = ((1 : ℚ) / 2) ^ d) → a + d ≤ p →
        (Full c (mul c y z) ∧ val (mul c y z) = ((1 : ℚ) / 2) ^ (a + d)) := by
      rintro a d y z ⟨y1, y2⟩ ⟨z1, z2⟩ had
      have := mul_scaled y1 z1 (m := 5 ^ a * 10 ^ (8 * ((a + 7) / 8) - a)) (n := 5 ^ d * 10 ^ (8 * ((d + 7) / 8) - d)) (j := (a + 7) / 8) (k := (d + 7) / 8)
        (mul_ne_zero (pow_ne_zero _ (by norm_num)) (pow_ne_zero _ (by norm_num)))
        (mul_ne_zero (pow_ne_zero _ (by norm_num)) (pow_ne_zero _ (by norm_num)))
        (by rw [y2]; exact sc a) (by rw [z2]; exact sc d) (by
          have e : ∀ a : ℕ, ((5 : ℤ) ^ a * 10 ^ (8 * ((a + 7) / 8) - a)).natAbs = 5 ^ a * 10 ^ (8 * ((a + 7) / 8) - a) := by
            intro a; rw [Int.natAbs_mul, Int.natAbs_pow, Int.natAbs_pow]; rfl
          rw [e, e]
          have e8 : 100000000 ^ (c.elems - 1) = 10 ^ (8 * (c.elems - 1)) := by rw [pow_mul]; congr 1
          rw [e8]
          refine lt_of_le_of_lt ?_ h
          calc 5 ^ a * 10 ^ (8 * ((a + 7) / 8) - a) * (5 ^ d * 10 ^ (8 * ((d + 7) / 8) - d))
              ≤ 5 ^ a * 10 ^ 7 * (5 ^ d * 10 ^ 7) := by
                gcongr
                · norm_num
                · omega
                · norm_num
                · omega
            _ = 5 ^ (a + d) * 10 ^ 14 := by ring
            _ ≤ 5 ^ p * 10 ^ 14 := Nat.mul_le_mul_right _ (Nat.pow_le_pow_right (by norm_num) had)) (by omega)
      refine ⟨this.1, ?_⟩
      rw [this.2, y2, z2, pow_add]
    have key := (powNat_exact (P := fun n y => Full c y ∧ val y = ((1 : ℚ) / 2) ^ n) hm (o := Fn.one (efArith c T)) (t := half c)
      (by rw [pow_zero]; exact one_fullv c T) (by rw [pow_one]; exact ⟨t1, t2'⟩) (le_refl p)).1
    have e0 : ((1 : ℚ) / 2) ^ p = 1 / 2 ^ p := by rw [div_pow, one_pow]
    rw [e0] at key
    unfold Fn.pow2
    by_cases h1 : p ≤ 1
    · rw [if_neg (by omega)]
      by_cases h2 : p = 1
      · rw [if_pos (by omega), h2]; exact ⟨t1.1, by rw [show (efArith c T).half = half c from rfl, t2']; norm_num⟩
      · rw [if_neg (by omega), if_pos (by omega), show p = 0 by omega]
        exact ⟨(one_fullv c T).1.1, by rw [(one_fullv c T).2]; norm_num⟩
    · rw [if_pos (by omega), neg_neg]
      have e2 : Fn.powI (efArith c T) (efArith c T).half p = powNat (Fn.one (efArith c T)) (mul c) (half c) p := by
        unfold Fn.powI EFX.powInt
        rw [if_neg (by omega)]; rfl
      rw [e2]
      exact ⟨key.1.1, key.2⟩

/-- `2^390` and `2^-140` with 100 digits, `7^130` as a power of an integer. -/
example (T : Tables) : val (Fn.pow2 (efArith ⟨100⟩ T) 390) = 2 ^ 390 ∧ val (Fn.pow2 (efArith ⟨100⟩ T) (-140)) = 1 / 2 ^ 140 :=
  ⟨((C36_pow2_exact ⟨100⟩ T 390).1 (by decide +kernel)).2, ((C36_pow2_exact ⟨100⟩ T 140).2 (by decide +kernel)).2⟩

example (T : Tables) : val (Fn.pown (efArith ⟨100⟩ T) (ofSigned ⟨100⟩ (-7)) (130 : ℕ)) = ((-7 : ℤ) : ℚ) ^ 130 := by
  obtain ⟨a1, a2, -, -, a5, -⟩ := ofSigned_spec ⟨100⟩ (n := -7) (by norm_num) (by norm_num)
  exact (C36_integers_exact ⟨100⟩ T a1 a5 (by norm_num) a2 (p := 130) (by decide +kernel) (by norm_num)).1.2

end EFX.Props
