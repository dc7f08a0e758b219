import Verif.Model.Zeta
import Verif.Lemmas.Borwein
import Verif.Lemmas.Eta
import Verif.Props.Bern
import Verif.Props.Pow
import Verif.Props.Prime
import Verif.Lemmas.Rnd
/-! C84-C88: powers of integers and the zeta function. -/

namespace EFX.Props
open EFX EFX.Stir EFX.Borw

/-- The table of primes of the library (C37). -/
noncomputable def primeTable : List ℕ := (List.range 6550).map (Nat.nth Nat.Prime)

/-- What the map of the powers holds. -/
def MapOk (E : RealEnv) (s : ℝ) (m : List (ℕ × ℝ)) : Prop := ∀ n w, m.lookup n = some w → w = Fn.primePow (realArith E) n s

theorem powExp_real (E : RealEnv) (v : ℝ) {p : ℕ} (hp : 1 ≤ p) : Fn.powExp (realArith E) v p = v ^ p := by
  unfold Fn.powExp
  by_cases h1 : p = 1
  · rw [if_pos h1, h1, pow_one]
  rw [if_neg h1]
  by_cases h2 : p = 2
  · rw [if_pos h2, h2]; ra_simp; ring
  rw [if_neg h2]
  by_cases h3 : p = 3
  · rw [if_pos h3, h3]; ra_simp; ring
  rw [if_neg h3, ra_pown E _ (by omega)]
  ra_simp
  rw [show (p : ℤ) - 1 = ((p - 1 : ℕ) : ℤ) by omega, zpow_natCast, ← pow_succ', show p - 1 + 1 = p by omega]

theorem jPowLoop_real (E : RealEnv) (s : ℝ) : ∀ (l : List (ℕ × ℕ)) (m : List (ℕ × ℝ)) (v : ℝ), (∀ x ∈ l, 1 ≤ x.2) → MapOk E s m →
    ∃ m', Fn.jPowLoop (realArith E) s l m v = (v * (l.map fun x => Fn.primePow (realArith E) x.1 s ^ x.2).prod, m') ∧ MapOk E s m' := by
  intro l
  induction l with
  | nil => intro m v _ hm; exact ⟨m, by simp [Fn.jPowLoop], hm⟩
  | cons x l ih =>
    obtain ⟨n, p⟩ := x
    intro m v hl hm
    have hp : 1 ≤ p := hl (n, p) (by simp)
    unfold Fn.jPowLoop
    cases hk : m.lookup n with
    | some w =>
      simp only
      obtain ⟨m', a, b⟩ := ih m ((realArith E).mul v (Fn.powExp (realArith E) w p)) (fun x hx => hl x (by simp [hx])) hm
      refine ⟨m', ?_, b⟩
      rw [a, powExp_real E w hp, hm n w hk, ra_mul, List.map_cons, List.prod_cons, mul_assoc]
    | none =>
      simp only
      obtain ⟨m', a, b⟩ := ih ((n, Fn.primePow (realArith E) n s) :: m) ((realArith E).mul v (Fn.powExp (realArith E) (Fn.primePow (realArith E) n s) p))
        (fun x hx => hl x (by simp [hx])) (by
          intro k w hw
          rw [List.lookup_cons] at hw
          by_cases h : k = n
          · subst h; simpa [eq_comm] using hw
          · have : (k == n) = false := by simpa using h
            rw [this] at hw
            exact hm k w hw)
      refine ⟨m', ?_, b⟩
      rw [a, powExp_real E _ hp, ra_mul, List.map_cons, List.prod_cons, mul_assoc]

/-- The factorisation used by the power function. -/
theorem factors_ok {Z : ZEnv ℝ} (hd : Z.data = primeTable) {j : ℕ} (h1 : 1 ≤ j) (h2 : j < 2 ^ 32) :
    ∃ l, primeFactors Z.data j = some l ∧ IsFactorisation j l := by
  have := C38_factors 200000 68157 j (by norm_num) (by norm_num) (by norm_num) h1 h2
  rwa [primesData_eq 200000 68157 (by norm_num) (by norm_num) (by norm_num), Option.bind_some, ← primeTable, ← hd] at this

/-- The list of a factorisation: positive exponents, primes or one, at most 33 factors. -/
theorem fact_list {j : ℕ} {l : List (ℕ × ℕ)} (h : IsFactorisation j l) (h1 : 1 ≤ j) (h2 : j < 2 ^ 32) :
    (∀ x ∈ l, 1 ≤ x.2 ∧ (x.1 = 1 ∨ x.1.Prime) ∧ x.1 ≤ j) ∧ (l.map Prod.snd).sum ≤ 33 := by
  obtain ⟨hp, r, hr, hr1, -⟩ := h
  have le : ∀ x ∈ l, x.1 ^ x.2 ∣ j := by
    intro x hx
    rw [← hp]
    exact List.dvd_prod (List.mem_map.2 ⟨x, hx, rfl⟩)
  have all : ∀ x ∈ l, 1 ≤ x.2 ∧ (x.1 = 1 ∨ x.1.Prime) := by
    intro x hx
    rcases hr with rfl | rfl
    · exact ⟨(hr1 x hx).2, Or.inr (hr1 x hx).1⟩
    · rcases List.mem_append.1 hx with h | h
      · exact ⟨(hr1 x h).2, Or.inr (hr1 x h).1⟩
      · simp at h; subst h; simp
  refine ⟨fun x hx => ⟨(all x hx).1, (all x hx).2, ?_⟩, ?_⟩
  · have := Nat.le_of_dvd h1 (le x hx)
    exact (Nat.le_self_pow (by have := (all x hx).1; omega) _).trans this
  · have two : ∀ q : List (ℕ × ℕ), (∀ x ∈ q, x.1.Prime ∧ 1 ≤ x.2) → 2 ^ (q.map Prod.snd).sum ≤ (q.map fun x => x.1 ^ x.2).prod := by
      intro q
      induction q with
      | nil => simp
      | cons x q ih =>
        intro hq
        simp only [List.map_cons, List.sum_cons, List.prod_cons, pow_add]
        exact Nat.mul_le_mul (Nat.pow_le_pow_left (hq x (by simp)).1.two_le _) (ih fun y hy => hq y (by simp [hy]))
    have t := two r hr1
    have pr : (r.map fun x => x.1 ^ x.2).prod = j := by
      rcases hr with rfl | rfl
      · exact hp
      · simpa using hp
    rw [pr] at t
    have : (r.map Prod.snd).sum < 32 := (Nat.pow_lt_pow_iff_right (by norm_num : 1 < 2)).1 (lt_of_le_of_lt t h2)
    rcases hr with rfl | rfl
    · omega
    · simp; omega

/-- Products of powers with small relative errors. -/
theorem prod_near {f g : ℕ → ℝ} {ε : ℝ} (e0 : 0 ≤ ε) : ∀ l : List (ℕ × ℕ), (∀ x ∈ l, 0 < g x.1 ∧ |f x.1 - g x.1| ≤ ε * g x.1) →
    0 < (l.map fun x => g x.1 ^ x.2).prod ∧
      |(l.map fun x => f x.1 ^ x.2).prod - (l.map fun x => g x.1 ^ x.2).prod| ≤ ((1 + ε) ^ (l.map Prod.snd).sum - 1) * (l.map fun x => g x.1 ^ x.2).prod := by
  have step : ∀ {a b A B α β : ℝ}, 0 < A → 0 < B → 0 ≤ α → 0 ≤ β → |a - A| ≤ (α - 1) * A → |b - B| ≤ (β - 1) * B →
      |a * b - A * B| ≤ (α * β - 1) * (A * B) := by
    intro a b A B α β hA hB hα hβ h1 h2
    have e : a * b - A * B = (a - A) * (b - B) + (a - A) * B + A * (b - B) := by ring
    rw [e]
    have t1 : |(a - A) * (b - B)| ≤ ((α - 1) * A) * ((β - 1) * B) := by
      rw [abs_mul]; exact mul_le_mul h1 h2 (abs_nonneg _) ((abs_nonneg _).trans h1)
    have t2 : |(a - A) * B| ≤ ((α - 1) * A) * B := by rw [abs_mul, abs_of_pos hB]; gcongr
    have t3 : |A * (b - B)| ≤ A * ((β - 1) * B) := by rw [abs_mul, abs_of_pos hA]; gcongr
    have := abs_add_le ((a - A) * (b - B) + (a - A) * B) (A * (b - B))
    have := abs_add_le ((a - A) * (b - B)) ((a - A) * B)
    nlinarith
  have pw : ∀ {a A : ℝ}, 0 < A → |a - A| ≤ ε * A → ∀ n : ℕ, |a ^ n - A ^ n| ≤ ((1 + ε) ^ n - 1) * A ^ n := by
    intro a A hA h n
    induction n with
    | zero => simp
    | succ n ih =>
      rw [pow_succ, pow_succ, pow_succ]
      exact step (by positivity) hA (by positivity) (by positivity) ih (by rw [add_sub_cancel_left]; exact h)
  intro l
  induction l with
  | nil => simp
  | cons x l ih =>
    intro hl
    obtain ⟨i1, i2⟩ := ih fun y hy => hl y (by simp [hy])
    obtain ⟨g0, g1⟩ := hl x (by simp)
    simp only [List.map_cons, List.prod_cons, List.sum_cons, pow_add]
    exact ⟨by positivity, step (by positivity) i1 (by positivity) (by positivity) (pw g0 g1 x.2) i2⟩

/-- The value of the power function for an empty map. -/
noncomputable def jpow (E : RealEnv) (Z : ZEnv ℝ) (s : ℝ) (j : ℕ) : ℝ := ((Fn.jPowX (realArith E) Z j s []).map Prod.fst).getD 0

/-- C84: powers of integers through the map of the powers of primes.  Whatever calls filled the map, the result is the same;
it is the exact power for integer exponents, and relative errors of the powers of primes grow at most 35-fold. -/
theorem C84_jpow (E : RealEnv) {Z : ZEnv ℝ} (hd : Z.data = primeTable) (s : ℝ) {j : ℕ} (h1 : 1 ≤ j) (h2 : j < 2 ^ 32) :
    (∀ m, MapOk E s m → ∃ m', Fn.jPowX (realArith E) Z j s m = some (jpow E Z s j, m') ∧ MapOk E s m') ∧
    (∀ ε, 0 ≤ ε → ε ≤ 1 / 1000 → (∀ n : ℕ, n = 1 ∨ n.Prime → n ≤ j → |Fn.primePow (realArith E) n s - (n : ℝ) ^ s| ≤ ε * (n : ℝ) ^ s) →
      |jpow E Z s j - (j : ℝ) ^ s| ≤ 35 * ε * (j : ℝ) ^ s) := by
  obtain ⟨l, hl, hf⟩ := factors_ok hd h1 h2
  obtain ⟨l1, l2⟩ := fact_list hf h1 h2
  have run : ∀ m, MapOk E s m → ∃ m', Fn.jPowX (realArith E) Z j s m = some ((l.map fun x => Fn.primePow (realArith E) x.1 s ^ x.2).prod, m') ∧ MapOk E s m' := by
    intro m hm
    obtain ⟨m', a, b⟩ := jPowLoop_real E s l m (Fn.one (realArith E)) (fun x hx => (l1 x hx).1) hm
    refine ⟨m', ?_, b⟩
    unfold Fn.jPowX
    rw [hl]
    simp only [Option.bind_eq_bind, Option.bind_some]
    rw [a, ra_one, one_mul]
  have e : jpow E Z s j = (l.map fun x => Fn.primePow (realArith E) x.1 s ^ x.2).prod := by
    obtain ⟨m', a, -⟩ := run [] (fun n w h => by simp at h)
    unfold jpow; rw [a]; rfl
  refine ⟨fun m hm => by rw [e]; exact run m hm, fun ε e0 e1 hε => ?_⟩
  have pos : ∀ x ∈ l, 1 ≤ x.1 := fun x hx => by
    rcases (l1 x hx).2.1 with h | h
    · omega
    · exact h.one_lt.le
  obtain ⟨p1, p2⟩ := prod_near (f := fun n => Fn.primePow (realArith E) n s) (g := fun n => (n : ℝ) ^ s) e0 l (fun x hx => by
    have : (0 : ℝ) < x.1 := by exact_mod_cast pos x hx
    exact ⟨by positivity, hε _ (l1 x hx).2.1 (l1 x hx).2.2⟩)
  have pj : ∀ q : List (ℕ × ℕ), (q.map fun x => (((x.1 : ℕ) : ℝ) ^ s) ^ x.2).prod = (((q.map fun x => x.1 ^ x.2).prod : ℕ) : ℝ) ^ s := by
    intro q
    induction q with
    | nil => simp
    | cons x q ih =>
      simp only [List.map_cons, List.prod_cons]
      rw [ih]
      push_cast
      have x0 : (0 : ℝ) ≤ (x.1 : ℝ) := Nat.cast_nonneg _
      have q0 : (0 : ℝ) ≤ ((q.map fun x => (x.1 : ℝ) ^ x.2).prod) := by
        apply List.prod_nonneg
        intro a ha
        obtain ⟨y, -, rfl⟩ := List.mem_map.1 ha
        positivity
      rw [Real.mul_rpow (pow_nonneg x0 _) (by simpa [Function.comp_def] using q0), ← Real.rpow_natCast, ← Real.rpow_natCast, ← Real.rpow_mul x0, ← Real.rpow_mul x0, mul_comm s]
  rw [pj l, hf.1] at p1 p2
  rw [e]
  refine p2.trans (mul_le_mul_of_nonneg_right ?_ p1.le)
  have b1 : (1 + ε) ^ (l.map Prod.snd).sum ≤ (1 + ε) ^ 33 := pow_le_pow_right₀ (by linarith) l2
  have b2 : ∀ k : ℕ, k ≤ 33 → (1 + ε) ^ k ≤ 1 + k * (35 / 33 * ε) := by
    intro k
    induction k with
    | zero => simp
    | succ k ih =>
      intro hk
      have t := ih (by omega)
      have k33 : (k : ℝ) ≤ 32 := by exact_mod_cast (show k ≤ 32 by omega)
      have k0 : (0 : ℝ) ≤ k := by positivity
      have t2 := mul_le_mul_of_nonneg_right t (show (0 : ℝ) ≤ 1 + ε by linarith)
      rw [pow_succ]
      push_cast
      have ke : (k : ℝ) * ε ≤ 32 * (1 / 1000) := mul_le_mul k33 e1 e0 (by norm_num)
      have : (k : ℝ) * ε * ε ≤ 32 * (1 / 1000) * ε := mul_le_mul_of_nonneg_right ke e0
      nlinarith
  have := b2 33 le_rfl
  norm_num at this
  linarith

/-- C84: the powers of primes for exponents that are not integers, from the accuracy of the exponential function (C65) and of the
logarithm (C66). -/
theorem C84_prime_partial {E : RealEnv} (t0 : 10 ≤ E.tol) (ht : E.tol ≤ 29990) (hm : E.maxExp ≤ 2 ^ 62) (hm' : 10000 ≤ E.maxExp)
    {n : ℕ} (n1 : 1 ≤ n) {s : ℝ} (hs : 0 < s) (hi : ∀ k : ℤ, s ≠ k) (hl : LogStart E 14 (newtonArg (n : ℝ)))
    (hδ : 6001 * (10 : ℝ) ^ (-E.tol) * s ≤ 1) (hy : s * Real.log n + 1 ≤ E.maxExp)
    (hx : ∀ k : ℤ, s * Fn.log (realArith E) (n : ℝ) ≠ 0 → s * Fn.log (realArith E) (n : ℝ) ≠ k * Real.log 2) :
    |Fn.primePow (realArith E) n s - (n : ℝ) ^ s| ≤ (12002 * s + 14100) * (10 : ℝ) ^ (-E.tol) * (n : ℝ) ^ s := by
  have n0 : (1 : ℝ) ≤ n := by exact_mod_cast n1
  have e : Fn.primePow (realArith E) n s = Fn.exp (realArith E) (s * Fn.log (realArith E) (n : ℝ)) := by
    unfold Fn.primePow
    simp only [Bool.and_eq_true]
    ra_simp
    rw [if_neg (by rintro ⟨⟨h, -⟩, -⟩; exact hi _ h.symm)]
    push_cast
    rfl
  have log := C66_log14_partial t0 ht hm hm' (x := (n : ℝ)) (by linarith) (by
    rcases Nat.eq_or_lt_of_le n1 with h | h
    · left; rw [← h]; norm_num
    · right
      have : (2 : ℝ) ≤ n := by exact_mod_cast h
      rw [abs_sub_comm, abs_of_nonneg (by linarith)]
      have := le_max_right (E.tol / 10) 6
      refine le_trans (zpow_le_zpow_right₀ (by norm_num) (show _ ≤ (0 : ℤ) by omega)) ?_
      rw [zpow_zero]; linarith) hl
  rw [e]
  generalize Fn.log (realArith E) (n : ℝ) = l at *
  have lg0 : 0 ≤ Real.log n := Real.log_nonneg n0
  have d : |s * l - s * Real.log n| ≤ 6001 * (10 : ℝ) ^ (-E.tol) * s := by
    rw [← mul_sub, abs_mul, abs_of_pos hs, abs_sub_comm, mul_comm]
    exact mul_le_mul_of_nonneg_right log hs.le
  have d' := abs_le.1 d
  have ex := C65_exp_partial t0 ht hm (x := s * l) (by
    have : 0 ≤ s * Real.log n := by positivity
    rw [abs_le]
    constructor <;> linarith) (fun k h => hx k h)
  have pw : (n : ℝ) ^ s = Real.exp (s * Real.log n) := by rw [Real.rpow_def_of_pos (by linarith), mul_comm]
  have ey : Real.exp (s * l) = Real.exp (s * Real.log n) * Real.exp (s * l - s * Real.log n) := by rw [← Real.exp_add]; ring_nf
  have near1 := Real.abs_exp_sub_one_le (x := s * l - s * Real.log n) (by linarith)
  rw [pw]
  have tp : (0 : ℝ) < (10 : ℝ) ^ (-E.tol) := by positivity
  have V0 : 0 < Real.exp (s * Real.log n) := Real.exp_pos _
  rw [ey] at ex
  generalize Fn.exp (realArith E) (s * l) = r at *
  generalize s * l - s * Real.log n = D at *
  generalize Real.exp (s * Real.log n) = V at *
  generalize Real.exp D = x at *
  generalize (10 : ℝ) ^ (-E.tol) = t at *
  have x3 : x ≤ 3 := by have := (abs_le.1 near1).2; linarith
  have a : |V * x - V| ≤ 12002 * s * t * V := by
    rw [show V * x - V = (x - 1) * V by ring, abs_mul, abs_of_pos V0]
    refine mul_le_mul_of_nonneg_right (near1.trans ?_) V0.le
    linarith
  have b : |r - V * x| ≤ 14100 * t * V := by
    rw [abs_sub_comm]
    refine ex.trans ?_
    have := mul_le_mul_of_nonneg_left x3 (show 0 ≤ 4700 * t * V by positivity)
    linarith
  have := abs_sub_le r (V * x) V
  rw [show (12002 * s + 14100) * t * V = 12002 * s * t * V + 14100 * t * V by ring]
  linarith

/-- The hypotheses hold for the powers of two with exponent 1/2 at 101 digits (tolerance 112), with an estimate of 14 digits. -/
example {E : RealEnv} (t0 : E.tol = 112) (hm : E.maxExp = 4944763836) (hl : LogStart E 14 (newtonArg ((2 : ℕ) : ℝ)))
    (hx : ∀ k : ℤ, 1 / 2 * Fn.log (realArith E) ((2 : ℕ) : ℝ) ≠ k * Real.log 2) :
    |Fn.primePow (realArith E) 2 (1 / 2) - ((2 : ℕ) : ℝ) ^ (1 / 2 : ℝ)| ≤ (12002 * (1 / 2) + 14100) * (10 : ℝ) ^ (-112 : ℤ) * ((2 : ℕ) : ℝ) ^ (1 / 2 : ℝ) := by
  have h : ∀ n : ℤ, (1 / 2 : ℝ) ≠ n := fun n h => by
    have : (1 : ℝ) = 2 * n := by linarith
    have : (1 : ℤ) = 2 * n := by exact_mod_cast this
    omega
  have := C84_prime_partial (E := E) (by omega) (by omega) (by rw [hm]; norm_num) (by rw [hm]; norm_num) (n := 2) (by norm_num) (by norm_num) h hl
    (by rw [t0]; norm_num) (by
      rw [hm]
      have : Real.log ((2 : ℕ) : ℝ) ≤ ((2 : ℕ) : ℝ) - 1 := Real.log_le_sub_one_of_pos (by norm_num)
      push_cast at this ⊢
      linarith) (fun k _ => hx k)
  rwa [t0] at this

/-- The coefficients of the series, one from the next. -/
theorem coef_step {N j : ℕ} (hj : j < N) :
    coef N j = coef N (j + 1) * ((2 * (j : ℝ) + 1) * (2 * (if j ≠ 0 then (j : ℝ) else 1))) / (((N : ℝ) + j) * 4 * ((N : ℝ) - j)) ∧ coef N (j + 1) ≠ 0 := by
  have hN : (0 : ℝ) < N := by exact_mod_cast (show 0 < N by omega)
  have hd : (0 : ℝ) < (N : ℝ) - j := by have : (j : ℝ) < N := by exact_mod_cast hj
                                        linarith
  have pos : 0 < coef N (j + 1) := by
    unfold coef
    rw [if_neg (by omega)]
    have : 0 < (N + (j + 1) - 1).choose (2 * (j + 1) - 1) := Nat.choose_pos (by omega)
    have : (0 : ℝ) < ((N + (j + 1) - 1).choose (2 * (j + 1) - 1) : ℝ) := by exact_mod_cast this
    positivity
  refine ⟨?_, pos.ne'⟩
  rcases Nat.eq_zero_or_pos j with rfl | h
  · unfold coef
    norm_num
    field_simp
    try norm_num
  · unfold coef
    rw [if_neg (by omega), if_neg (by omega), if_pos (by omega)]
    obtain ⟨i, rfl⟩ : ∃ i, j = i + 1 := ⟨j - 1, by omega⟩
    have e : ((N + (i + 1 + 1) - 1).choose (2 * (i + 1 + 1) - 1) : ℝ) * ((2 * (i + 1 : ℕ) + 1) * (2 * (i + 1 : ℕ))) =
        ((N + (i + 1) - 1).choose (2 * (i + 1) - 1) : ℝ) * ((N + (i + 1 : ℕ)) * (N - (i + 1 : ℕ))) := by
      have a := Nat.add_one_mul_choose_eq (N + i) (2 * i + 2)
      have b := Nat.choose_succ_right_eq (N + i) (2 * i + 1)
      rw [show N + (i + 1 + 1) - 1 = N + i + 1 by omega, show 2 * (i + 1 + 1) - 1 = 2 * i + 2 + 1 by omega,
        show N + (i + 1) - 1 = N + i by omega, show 2 * (i + 1) - 1 = 2 * i + 1 by omega]
      have sub : ((N + i - (2 * i + 1) : ℕ) : ℝ) = N - (i + 1) := by
        rw [Nat.cast_sub (by omega)]; push_cast; ring
      have a' : ((N : ℝ) + i + 1) * ((N + i).choose (2 * i + 2) : ℝ) = ((N + i + 1).choose (2 * i + 2 + 1) : ℝ) * (2 * i + 2 + 1) := by exact_mod_cast a
      have b' : ((N + i).choose (2 * i + 1 + 1) : ℝ) * (2 * i + 1 + 1) = ((N + i).choose (2 * i + 1) : ℝ) * ((N : ℝ) - (i + 1)) := by
        rw [← sub]; exact_mod_cast b
      push_cast
      rw [show (2 * ((i : ℝ) + 1) + 1) * (2 * (i + 1)) = (2 * i + 2 + 1) * (2 * i + 1 + 1) by ring, ← mul_assoc, ← a',
        show (N : ℝ) + i + 1 = N + (i + 1) by ring, mul_assoc, show (2 * i + 2 : ℕ) = 2 * i + 1 + 1 by rfl, b']
      ring
    rw [eq_div_iff (by push_cast at hd ⊢; positivity), pow_succ (4 : ℝ) (i + 1)]
    have e2 := congrArg (fun t => (4 : ℝ) ^ (i + 1) * 4 / (2 * N) * t) e
    rw [show (4 : ℝ) ^ (i + 1) * 4 * ((N + (i + 1 + 1) - 1).choose (2 * (i + 1 + 1) - 1) : ℝ) / (2 * N) * ((2 * ((i + 1 : ℕ) : ℝ) + 1) * (2 * ((i + 1 : ℕ) : ℝ))) =
      (4 : ℝ) ^ (i + 1) * 4 / (2 * N) * (((N + (i + 1 + 1) - 1).choose (2 * (i + 1 + 1) - 1) : ℝ) * ((2 * ((i + 1 : ℕ) : ℝ) + 1) * (2 * ((i + 1 : ℕ) : ℝ)))) by ring, e2]
    ring

/-- What one term of the series adds. -/
noncomputable def altTerm (N : ℕ) (w : ℕ → ℝ) (j : ℕ) : ℝ := (-1) ^ j * tail (coef N) N (j + 1) * (1 / w (j + 1))

/-- The loop of the alternating series. -/
theorem zetaLoop_real (E : RealEnv) {Z : ZEnv ℝ} (hd : Z.data = primeTable) (s : ℝ) {N : ℕ} (h32 : (2 * (N : ℤ) - 1) * (2 * ((N : ℤ) - 1)) < 2 ^ 31) :
    ∀ (k : ℕ) (nf fp nm tj zs : ℝ) (m : List (ℕ × ℝ)), k ≤ N → 1 ≤ N → nm ≠ 0 → tj ≠ 0 → nf * fp / (nm * tj) = coef N k → MapOk E s m →
      Fn.zetaLoop (realArith E) Z N s k (decide (k % 2 = 0)) nf fp nm tj (tail (coef N) N k) zs m =
        some (tail (coef N) N 0, zs + ∑ j ∈ Finset.range (k - 1), altTerm N (jpow E Z s) j) := by
  intro k
  induction k with
  | zero => intro nf fp nm tj zs m _ _ _ _ _ _; simp [Fn.zetaLoop]
  | succ j ih =>
    intro nf fp nm tj zs m hk hN n0 t0 hc hm
    have hN' : (0 : ℝ) < N := by exact_mod_cast hN
    have hj : (0 : ℝ) < (N : ℝ) - j := by have : (j : ℝ) < N := by exact_mod_cast hk
                                          linarith
    have hcc : (2 * (j : ℤ) + 1) * (2 * (if j ≠ 0 then (j : ℤ) else 1)) < 2 ^ 31 := by
      split
      · have : (2 * (j : ℤ) + 1) * (2 * j) ≤ (2 * (N : ℤ) - 1) * (2 * ((N : ℤ) - 1)) := by
          apply mul_le_mul <;> omega
        omega
      · rename_i h; push Not at h; subst h; norm_num
    have c0 : (0 : ℝ) < (2 * (j : ℝ) + 1) * (2 * (if j ≠ 0 then (j : ℝ) else 1)) := by
      split
      · have : (0 : ℝ) < j := by exact_mod_cast (show 0 < j by omega)
        positivity
      · positivity
    unfold Fn.zetaLoop
    simp only [Option.bind_eq_bind]
    rw [if_neg (by omega)]
    ra_simp
    have cc : ((((2 * (j : ℤ) + 1) * (2 * (if j ≠ 0 then (j : ℤ) else 1)) : ℤ)) : ℝ) = (2 * (j : ℝ) + 1) * (2 * (if j ≠ 0 then (j : ℝ) else 1)) := by
      split <;> push_cast <;> ring
    rw [cc]
    obtain ⟨st, sne⟩ := coef_step (N := N) (j := j) (by omega)
    generalize (2 * (j : ℝ) + 1) * (2 * (if j ≠ 0 then (j : ℝ) else 1)) = c at *
    push_cast
    have q : nf / ((N : ℝ) + j) * (fp / 4) / (nm * ((N : ℝ) - j) * (tj / c)) = coef N j := by
      rw [st, ← hc]
      have : (0 : ℝ) < (N : ℝ) + j := by positivity
      field_simp
    have tl : tail (coef N) N (j + 1) + coef N j = tail (coef N) N j := by
      unfold tail
      rw [Finset.sum_eq_sum_Ico_succ_bot (by omega : j < N + 1), add_comm]
    rw [q, tl]
    by_cases h0 : j = 0
    · subst h0
      simp [Fn.zetaLoop]
    · rw [if_pos h0]
      obtain ⟨m', a, b⟩ := (C84_jpow E hd s (j := j) (by omega) (by
        by_contra hb
        have : (2 : ℤ) ^ 32 ≤ j := by exact_mod_cast not_lt.1 hb
        rw [if_pos h0] at hcc
        nlinarith)).1 m hm
      rw [a]
      simp only [Option.bind_some]
      have en : (!decide ((j + 1) % 2 = 0)) = decide (j % 2 = 0) := by
        rcases Nat.mod_two_eq_zero_or_one j with h | h <;> simp [Nat.add_mod, h]
      rw [en]
      rw [ih _ _ _ _ _ _ (by omega) hN (mul_ne_zero n0 hj.ne') (div_ne_zero t0 c0.ne') q b]
      congr 2
      obtain ⟨i, rfl⟩ : ∃ i, j = i + 1 := ⟨j - 1, by omega⟩
      rw [Finset.sum_range_succ, show i + 1 - 1 = i by omega, add_assoc, add_comm (∑ j ∈ Finset.range i, _)]
      congr 2
      unfold altTerm
      rcases Nat.even_or_odd i with he | ho
      · rw [he.neg_one_pow]
        have : (i + 1) % 2 = 1 := by have := Nat.even_iff.1 he; omega
        simp [this, div_eq_mul_inv]
      · rw [ho.neg_one_pow]
        have : (i + 1) % 2 = 0 := by have := Nat.odd_iff.1 ho; omega
        simp [this, div_eq_mul_inv]

/-- The alternating series as a function of the powers.  The factorial cancels. -/
theorem zetaAlt_real (E : RealEnv) {Z : ZEnv ℝ} (hd : Z.data = primeTable) (s : ℝ) {N : ℕ} (hN : 1 ≤ N)
    (h32 : (2 * (N : ℤ) - 1) * (2 * ((N : ℤ) - 1)) < 2 ^ 31) {f : ℝ} (hf : Fn.factorial (realArith E) Z.tab (2 * N - 1) = some f) (f0 : f ≠ 0) :
    Fn.zetaAlt (realArith E) Z N s = some ((∑ j ∈ Finset.range N, altTerm N (jpow E Z s) j) /
      (tail (coef N) N 0 * (1 - Fn.pow (realArith E) 2 (1 - s)))) := by
  have hN' : (0 : ℝ) < N := by exact_mod_cast hN
  unfold Fn.zetaAlt
  simp only [Option.bind_eq_bind]
  rw [hf]
  simp only [Option.bind_some]
  obtain ⟨m', a, b⟩ := (C84_jpow E hd s (j := N) hN (by
    by_contra hb
    have : (2 : ℤ) ^ 32 ≤ N := by exact_mod_cast not_lt.1 hb
    nlinarith)).1 [] (fun n w h => by simp at h)
  rw [a, ra_pown E _ (by omega)]
  simp only [Option.bind_some]
  ra_simp
  push_cast
  have q : f * (4 : ℝ) ^ (N : ℤ) / (1 * (f * (2 * (N : ℝ)))) = coef N N := by
    unfold coef
    rw [if_neg (by omega), show N + N - 1 = 2 * N - 1 by omega, Nat.choose_self, zpow_natCast]
    field_simp
    push_cast
    ring
  have tl : coef N N = tail (coef N) N N := by simp [tail]
  rw [q, tl]
  have l := zetaLoop_real E hd s h32 N f (4 ^ (N : ℤ)) 1 (f * (2 * (N : ℝ)))
  rw [l _ m' le_rfl hN one_ne_zero (by positivity) q b]
  simp only [Option.bind_some]
  congr 2
  obtain ⟨i, rfl⟩ : ∃ i, N = i + 1 := ⟨N - 1, by omega⟩
  rw [show i + 1 - 1 = i by omega, Finset.sum_range_succ, add_comm]
  congr 1
  unfold altTerm
  rcases Nat.even_or_odd i with he | ho
  · rw [he.neg_one_pow]
    have : (i + 1) % 2 = 1 := by have := Nat.even_iff.1 he; omega
    simp [this, div_eq_mul_inv]
  · rw [ho.neg_one_pow]
    have : (i + 1) % 2 = 0 := by have := Nat.odd_iff.1 ho; omega
    simp [this, div_eq_mul_inv]

/-- The alternating sum is at least one half. -/
theorem eta_half {s η : ℝ} (hs : 0 < s) (hη : Filter.Tendsto (fun M => ∑ j ∈ Finset.range M, (-1) ^ j * (1 / ((j : ℝ) + 1) ^ s)) Filter.atTop (nhds η)) :
    1 / 2 ≤ η := by
  have cv : ∀ j : ℕ, 2 * (1 / (((j + 1 : ℕ) : ℝ) + 1) ^ s) ≤ 1 / ((j : ℝ) + 1) ^ s + 1 / (((j + 2 : ℕ) : ℝ) + 1) ^ s := by
    intro j
    push_cast
    obtain ⟨a, ha⟩ : ∃ a : ℝ, a = (j : ℝ) + 1 := ⟨_, rfl⟩
    have a0 : 0 < a := by rw [ha]; positivity
    rw [show (j : ℝ) + 1 + 1 = a + 1 by rw [ha], show (j : ℝ) + 2 + 1 = a + 2 by rw [ha]; ring, ← ha]
    have e1 : (a * (a + 2)) ^ s ≤ ((a + 1) ^ s) ^ 2 := by
      rw [← Real.rpow_natCast, ← Real.rpow_mul (by positivity), mul_comm s, Real.rpow_mul (by positivity)]
      refine Real.rpow_le_rpow (by positivity) ?_ hs.le
      norm_num
      nlinarith
    rw [Real.mul_rpow (by positivity) (by positivity)] at e1
    have A : 0 < a ^ s := by positivity
    have B : 0 < (a + 1) ^ s := by positivity
    have C : 0 < (a + 2) ^ s := by positivity
    generalize a ^ s = A' at *
    generalize (a + 1) ^ s = B' at *
    generalize (a + 2) ^ s = C' at *
    rw [div_add_div _ _ A.ne' C.ne', mul_one_div, div_le_div_iff₀ B (by positivity)]
    have h2 : 2 * (A' * C') ≤ (A' + C') * B' := by
      have h3 : (A' * C') * 4 ≤ (A' + C') ^ 2 := by nlinarith [sq_nonneg (A' - C')]
      have h4 : (2 * (A' * C')) ^ 2 ≤ ((A' + C') * B') ^ 2 := by
        have : (2 * (A' * C')) ^ 2 = (A' * C') * 4 * (A' * C') := by ring
        rw [this, mul_pow]
        exact mul_le_mul h3 e1 (by positivity) (by positivity)
      exact (sq_le_sq₀ (by positivity) (by positivity)).1 h4
    linarith
  have part : ∀ m : ℕ, 1 / 2 + 1 / 2 * (1 / (((2 * m : ℕ) : ℝ) + 1) ^ s) ≤ ∑ j ∈ Finset.range (2 * m + 1), (-1) ^ j * (1 / ((j : ℝ) + 1) ^ s) := by
    intro m
    induction m with
    | zero => simp; norm_num
    | succ m ih =>
      rw [show 2 * (m + 1) + 1 = 2 * m + 1 + 1 + 1 by ring, Finset.sum_range_succ, Finset.sum_range_succ]
      have := cv (2 * m)
      rw [show (-1 : ℝ) ^ (2 * m + 1) = -1 by rw [pow_succ, pow_mul]; norm_num, show (-1 : ℝ) ^ (2 * m + 1 + 1) = 1 by rw [pow_add, pow_succ, pow_mul]; norm_num]
      rw [show 2 * (m + 1) = 2 * m + 2 by ring, show 2 * m + 1 + 1 = 2 * m + 2 by ring]
      linarith
  have sub : Filter.Tendsto (fun m : ℕ => ∑ j ∈ Finset.range (2 * m + 1), (-1) ^ j * (1 / ((j : ℝ) + 1) ^ s)) Filter.atTop (nhds η) :=
    hη.comp (Filter.tendsto_atTop_mono (fun m => by show m ≤ _; omega) Filter.tendsto_id)
  refine ge_of_tendsto sub (Filter.Eventually.of_forall fun m => le_trans ?_ (part m))
  have : (0 : ℝ) ≤ 1 / 2 * (1 / (((2 * m : ℕ) : ℝ) + 1) ^ s) := by positivity
  linarith

/-- The series with approximate powers. -/
theorem alt_near {s η : ℝ} (hs : 0 < s) (hη : Filter.Tendsto (fun M => ∑ j ∈ Finset.range M, (-1) ^ j * (1 / ((j : ℝ) + 1) ^ s)) Filter.atTop (nhds η))
    {N : ℕ} (hN : 1 ≤ N) {w : ℕ → ℝ} {ε : ℝ} (e0 : 0 ≤ ε) (e1 : ε ≤ 1 / 1000)
    (hw : ∀ j, 1 ≤ j → j ≤ N → |w j - (j : ℝ) ^ s| ≤ 35 * ε * (j : ℝ) ^ s) :
    0 < tail (coef N) N 0 ∧
    |(∑ j ∈ Finset.range N, altTerm N w j) / tail (coef N) N 0 - η| ≤ ((N + 1) / (291 / 50) ^ (N - 1) + 74 * N * ε) * η := by
  obtain ⟨t0, t1⟩ := alt_error hs hη hN
  refine ⟨t0, ?_⟩
  have half := eta_half hs hη
  have c0 : ∀ k, 0 ≤ coef N k := by
    intro k; unfold coef; split <;> positivity
  have tb : ∀ j, 0 ≤ tail (coef N) N j ∧ tail (coef N) N j ≤ tail (coef N) N 0 := by
    intro j
    refine ⟨Finset.sum_nonneg fun k _ => c0 k, Finset.sum_le_sum_of_subset_of_nonneg (Finset.Ico_subset_Ico_left (by omega)) fun k _ _ => c0 k⟩
  have d : |(∑ j ∈ Finset.range N, altTerm N w j) / tail (coef N) N 0 -
      (∑ j ∈ Finset.range N, (-1) ^ j * tail (coef N) N (j + 1) * (1 / ((j : ℝ) + 1) ^ s)) / tail (coef N) N 0| ≤ N * (37 * ε) := by
    rw [← sub_div, ← Finset.sum_sub_distrib, abs_div, abs_of_pos t0, div_le_iff₀ t0]
    refine (Finset.abs_sum_le_sum_abs _ _).trans ?_
    have : ∀ j ∈ Finset.range N, |altTerm N w j - (-1) ^ j * tail (coef N) N (j + 1) * (1 / ((j : ℝ) + 1) ^ s)| ≤ 37 * ε * tail (coef N) N 0 := by
      intro j hj
      have hj' := Finset.mem_range.1 hj
      unfold altTerm
      rw [← mul_sub, abs_mul, abs_mul, abs_pow, abs_neg, abs_one, one_pow, one_mul, abs_of_nonneg (tb (j + 1)).1, mul_comm]
      refine mul_le_mul ?_ (tb (j + 1)).2 (tb (j + 1)).1 (by positivity)
      have h := hw (j + 1) (by omega) (by omega)
      push_cast at h
      have W1 : 1 ≤ ((j : ℝ) + 1) ^ s := Real.one_le_rpow (by have : (0 : ℝ) ≤ j := by positivity
                                                              linarith) hs.le
      generalize ((j : ℝ) + 1) ^ s = W at *
      generalize w (j + 1) = v at *
      have v0 : 965 / 1000 * W ≤ v := by
        have := (abs_le.1 h).1
        nlinarith
      have vp : 0 < v := by linarith
      rw [div_sub_div _ _ vp.ne' (by linarith), abs_div, abs_of_pos (show 0 < v * W by positivity), div_le_iff₀ (by positivity)]
      rw [show 1 * W - v * 1 = -(v - W) by ring, abs_neg]
      refine h.trans ?_
      have b1 : 965 / 1000 ≤ v := by linarith
      have : 35 * ε * W ≤ 37 * ε * (965 / 1000 * W) := by nlinarith [mul_nonneg e0 (by linarith : (0 : ℝ) ≤ W)]
      refine this.trans ?_
      have : 965 / 1000 * W ≤ v * W := mul_le_mul_of_nonneg_right b1 (by linarith)
      exact mul_le_mul_of_nonneg_left this (by positivity)
    refine (Finset.sum_le_sum this).trans ?_
    rw [Finset.sum_const, Finset.card_range, nsmul_eq_mul]
    linarith
  have tri := abs_sub_le ((∑ j ∈ Finset.range N, altTerm N w j) / tail (coef N) N 0)
    ((∑ j ∈ Finset.range N, (-1) ^ j * tail (coef N) N (j + 1) * (1 / ((j : ℝ) + 1) ^ s)) / tail (coef N) N 0) η
  have : (N : ℝ) * (37 * ε) ≤ 74 * N * ε * η := by
    have : 0 ≤ (N : ℝ) * (74 * ε) := by positivity
    nlinarith
  rw [add_mul]
  linarith

/-- A quotient with errors of both. -/
theorem quot_rel {S η D D' B δ : ℝ} (hη : 0 ≤ η) (B0 : 0 ≤ B) (hS : |S - η| ≤ B * η) (hD : D ≠ 0) (d1 : δ ≤ 1 / 2) (d0 : 0 ≤ δ) (hd : |D' - D| ≤ δ * |D|) :
    |S / D' - η / D| ≤ 2 * (B + δ) * |η / D| := by
  have Dp : 0 < |D| := abs_pos.2 hD
  have l : |D| / 2 ≤ |D'| := by
    have := abs_sub_abs_le_abs_sub D D'
    rw [abs_sub_comm] at this
    nlinarith
  have Dp' : 0 < |D'| := by linarith
  have hD' : D' ≠ 0 := abs_pos.1 Dp'
  have e : S / D' - η / D = (S - η) / D' - η * (D' - D) / (D' * D) := by field_simp; ring
  rw [e]
  refine (abs_sub _ _).trans ?_
  rw [abs_div, abs_div, abs_mul, abs_mul, abs_div, abs_of_nonneg hη]
  have a : |S - η| / |D'| ≤ 2 * B * (η / |D|) := by
    rw [div_le_iff₀ Dp']
    refine hS.trans ?_
    have : 2 * B * (η / |D|) * (|D| / 2) = B * η := by field_simp
    rw [← this]
    exact mul_le_mul_of_nonneg_left l (by positivity)
  have b : η * |D' - D| / (|D'| * |D|) ≤ 2 * δ * (η / |D|) := by
    rw [div_le_iff₀ (by positivity)]
    have : 2 * δ * (η / |D|) * (|D'| * |D|) = 2 * (δ * η * |D'|) := by field_simp
    rw [this]
    have := mul_le_mul_of_nonneg_left hd hη
    have := mul_le_mul_of_nonneg_left l (show 0 ≤ δ * η by positivity)
    nlinarith
  linarith

/-- The zeta function. -/
noncomputable def zetaR (s : ℝ) : ℝ := (riemannZeta s).re

/-- The argument is not an integer with a simple form. -/
def NotSimple (Z : ZEnv ℝ) (s : ℝ) : Prop := (∀ n : ℤ, s ≠ n) ∨ Fn.hasSimple Z (min (max (truncR s) (-2147483648)) 2147483647) = false

/-- Which branch is taken for a positive argument. -/
theorem zetaF_pos (E : RealEnv) {Z : ZEnv ℝ} {s : ℝ} (hs : 0 < s) (hn : NotSimple Z s) (k : ℕ) :
    Fn.zetaF (realArith E) Z (k + 1) s = if Fn.usePrimes (realArith E) Z s then Fn.primeProd (realArith E) Z s (Z.data.take 300) [] 1
      else Fn.zetaAlt (realArith E) Z (Fn.zetaN Z) s := by
  unfold Fn.zetaF
  simp only [Bool.and_eq_true]
  have hb : ¬((realArith E).isint s = true ∧ Fn.hasSimple Z (Fn.toI32 (realArith E) s) = true) := by
    rintro ⟨a, b⟩
    rcases hn with h | h
    · have : (truncR s : ℝ) = s := by revert a; ra_simp; exact id
      exact h _ this.symm
    · unfold Fn.toI32 at b
      rw [show (realArith E).toI s = truncR s from rfl, h] at b
      exact absurd b (by simp)
  rw [if_neg hb]
  ra_simp
  rw [if_neg (by linarith)]

/-- C86: the alternating series, for positive arguments.  The relative error is that of the truncated series, of the powers of
the primes (`ε`) and of the power of two, the last one magnified near one. -/
theorem C86_series_partial (E : RealEnv) {Z : ZEnv ℝ} (hd : Z.data = primeTable) {s : ℝ} (hs : 0 < s) (h1 : s ≠ 1) (hn : NotSimple Z s)
    (hp : Fn.usePrimes (realArith E) Z s = false) (hN : 1 ≤ Fn.zetaN Z) (hN2 : Fn.zetaN Z ≤ 23171)
    {f : ℝ} (hf : Fn.factorial (realArith E) Z.tab (2 * Fn.zetaN Z - 1) = some f) (f0 : f ≠ 0) :
    ∃ r, Fn.zeta (realArith E) Z s = some r ∧ ∀ ε, 0 ≤ ε → ε ≤ 1 / 1000 →
      (∀ n : ℕ, n = 1 ∨ n.Prime → n ≤ Fn.zetaN Z → |Fn.primePow (realArith E) n s - (n : ℝ) ^ s| ≤ ε * (n : ℝ) ^ s) →
      |Fn.pow (realArith E) 2 (1 - s) - (2 : ℝ) ^ (1 - s)| ≤ ε * (2 : ℝ) ^ (1 - s) →
      ε * (2 : ℝ) ^ (1 - s) ≤ 1 / 2 * |1 - (2 : ℝ) ^ (1 - s)| →
      |r - zetaR s| ≤ 2 * ((Fn.zetaN Z + 1) / (291 / 50) ^ (Fn.zetaN Z - 1) + 74 * Fn.zetaN Z * ε +
        ε * (2 : ℝ) ^ (1 - s) / |1 - (2 : ℝ) ^ (1 - s)|) * |zetaR s| := by
  unfold Fn.zeta
  rw [zetaF_pos E hs hn, hp, if_neg (by simp)]
  generalize Fn.zetaN Z = N at *
  rw [zetaAlt_real E hd s hN (by
    have : (2 * (N : ℤ) - 1) * (2 * ((N : ℤ) - 1)) ≤ 46341 * 46340 := by
      apply mul_le_mul <;> omega
    refine lt_of_le_of_lt this (by norm_num)) hf f0]
  refine ⟨_, rfl, fun ε e0 e1 hε he2 hδ => ?_⟩
  obtain ⟨hη, -⟩ := eta_real hs h1
  have D0 : 1 - (2 : ℝ) ^ (1 - s) ≠ 0 := by
    intro h
    have : (2 : ℝ) ^ (1 - s) = (2 : ℝ) ^ (0 : ℝ) := by rw [Real.rpow_zero]; linarith
    have := (Real.strictMono_rpow_of_base_gt_one (by norm_num : (1 : ℝ) < 2)).injective this
    exact h1 (by linarith)
  have Dp : 0 < |1 - (2 : ℝ) ^ (1 - s)| := abs_pos.2 D0
  have ez : zetaR s = (1 - (2 : ℝ) ^ (1 - s)) * (riemannZeta s).re / (1 - (2 : ℝ) ^ (1 - s)) := by
    unfold zetaR; field_simp
  have half := eta_half hs hη
  have n32 : N < 2 ^ 32 := by omega
  obtain ⟨T, near⟩ := alt_near hs hη hN (w := jpow E Z s) e0 e1 (fun j j1 j2 =>
    (C84_jpow E hd s j1 (by omega)).2 ε e0 e1 fun n h h' => hε n h (by omega))
  rw [ez, ← div_div]
  refine quot_rel (by linarith) (by positivity) near D0 ?_ (by positivity) ?_
  · rw [div_le_iff₀ Dp]; exact hδ
  · rw [div_mul_cancel₀ _ Dp.ne', show 1 - Fn.pow (realArith E) 2 (1 - s) - (1 - (2 : ℝ) ^ (1 - s)) = -(Fn.pow (realArith E) 2 (1 - s) - (2 : ℝ) ^ (1 - s)) by ring, abs_neg]
    exact he2

/-- Integer powers are exact. -/
theorem primePow_int (E : RealEnv) (n : ℕ) {k : ℤ} (hk : |k| < 2 ^ 63 - 1) : Fn.primePow (realArith E) n (k : ℝ) = (n : ℝ) ^ (k : ℝ) := by
  have := abs_lt.1 hk
  unfold Fn.primePow
  simp only [Bool.and_eq_true]
  ra_simp
  have a : ((k : ℤ) : ℝ) < ((9223372036854775807 : ℤ) : ℝ) := by exact_mod_cast (by omega)
  have b : ((-9223372036854775808 : ℤ) : ℝ) < (k : ℝ) := by exact_mod_cast (by omega)
  rw [truncR_int, if_pos ⟨⟨rfl, a⟩, b⟩, ra_pown E _ (by omega), Real.rpow_intCast]
  push_cast
  rfl

/-- C84 for integer exponents: the power is exact, whatever the map holds from other calls. -/
theorem C84_integer (E : RealEnv) {Z : ZEnv ℝ} (hd : Z.data = primeTable) {k : ℤ} (hk : |k| < 2 ^ 63 - 1) {j : ℕ} (h1 : 1 ≤ j) (h2 : j < 2 ^ 32)
    {m : List (ℕ × ℝ)} (hm : MapOk E (k : ℝ) m) :
    ∃ m', Fn.jPowX (realArith E) Z j (k : ℝ) m = some ((j : ℝ) ^ k, m') ∧ MapOk E (k : ℝ) m' := by
  obtain ⟨a, b⟩ := C84_jpow E hd (k : ℝ) h1 h2
  have h := b 0 le_rfl (by norm_num) (fun n _ _ => by rw [primePow_int E n hk]; simp)
  rw [mul_zero, zero_mul, abs_nonpos_iff, sub_eq_zero, Real.rpow_intCast] at h
  rw [← h]
  exact a m hm

/-- `12^-3`, with the power of two already in the map. -/
example (E : RealEnv) {Z : ZEnv ℝ} (hd : Z.data = primeTable) :
    ∃ m', Fn.jPowX (realArith E) Z 12 ((-3 : ℤ) : ℝ) [(2, 1 / 8)] = some (1 / 1728, m') := by
  obtain ⟨m', h, -⟩ := C84_integer E hd (k := -3) (by norm_num) (j := 12) (by norm_num) (by norm_num) (m := [(2, 1 / 8)]) (by
    intro n w h
    rcases eq_or_ne n 2 with rfl | hn
    · rw [primePow_int E 2 (by norm_num)]
      simp at h
      rw [← h, Real.rpow_intCast]
      norm_num
    · rw [List.lookup, beq_eq_false_iff_ne.2 hn] at h
      simp at h)
  exact ⟨m', by rw [h]; norm_num⟩

/-- C86 for integers without a simple form, as the odd ones: only the error of the truncated series is left. -/
theorem C86_integer {E : RealEnv} (t0 : 20 ≤ E.tol) (ht : E.tol ≤ 29990) (hm : E.maxExp ≤ 2 ^ 62) (hm' : 10000 ≤ E.maxExp)
    {Z : ZEnv ℝ} (hd : Z.data = primeTable) {n : ℕ} (h1 : 2 ≤ n) (hsf : Fn.hasSimple Z n = false) (h31 : n < 2 ^ 31)
    (hz : Fn.zetaIsOne (realArith E) Z n = false)
    (hp : Fn.usePrimes (realArith E) Z (n : ℝ) = false) (hN : 1 ≤ Fn.zetaN Z) (hN2 : Fn.zetaN Z ≤ 23171)
    {f : ℝ} (hf : Fn.factorial (realArith E) Z.tab (2 * Fn.zetaN Z - 1) = some f) (f0 : f ≠ 0) :
    ∃ r, Fn.zetaInt (realArith E) Z n = some r ∧
      |r - zetaR n| ≤ 2 * ((Fn.zetaN Z + 1) / (291 / 50) ^ (Fn.zetaN Z - 1)) * |zetaR n| := by
  have tr : truncR ((n : ℕ) : ℝ) = n := by have := truncR_int n; push_cast at this; exact this
  have hn2 : (1 : ℝ) < (n : ℕ) := by exact_mod_cast (show 1 < n by omega)
  obtain ⟨r, r1, r2⟩ := C86_series_partial E hd (s := (n : ℝ)) (by linarith) (by linarith) (Or.inr (by
    rw [tr, show min (max (n : ℤ) (-2147483648)) 2147483647 = n by omega]; exact hsf)) hp hN hN2 hf f0
  refine ⟨r, ?_, ?_⟩
  · unfold Fn.zetaInt
    rw [hz, hsf]
    simp only [Bool.not_false, if_true, Bool.false_eq_true, if_false]
    ra_simp
    push_cast
    exact r1
  · have h := r2 0 le_rfl (by norm_num) (fun k _ _ => by
      have := primePow_int E k (k := n) (by rw [abs_of_nonneg (by omega)]; omega)
      push_cast at this
      rw [this]; simp) (by
      have := (C71_pow_partial t0 ht hm hm' (x := 2) (by norm_num)).1 (1 - n) (by rw [abs_lt]; omega)
      push_cast at this
      rw [this, ← Real.rpow_intCast]
      push_cast
      simp) (by simp)
    simpa using h

/-- C86: from 15981 digits on the loop multiplies two numbers whose product is not an `int32_t`. -/
theorem C86_digits_refuted {α : Type} (A : Arith α) (Z : ZEnv α) (s : α) {N : ℕ} (hN : 23172 ≤ N) : Fn.zetaAlt A Z N s = none := by
  unfold Fn.zetaAlt
  simp only [Option.bind_eq_bind]
  rcases Fn.factorial A Z.tab (2 * N - 1) with - | f
  · rfl
  simp only [Option.bind_some]
  rcases Fn.jPowX A Z N s [] with - | r
  · rfl
  simp only [Option.bind_some]
  obtain ⟨M, rfl⟩ : ∃ M, N = M + 1 := ⟨N - 1, by omega⟩
  have : Fn.zetaLoop A Z (M + 1) s (M + 1) = fun _ _ _ _ _ _ _ _ => none := by
    funext a b c d e f g h
    unfold Fn.zetaLoop
    simp only
    rw [if_pos (by
      rw [if_pos (by omega)]
      have : (46343 : ℤ) * 46342 ≤ (2 * (M : ℤ) + 1) * (2 * M) := by apply mul_le_mul <;> omega
      omega)]
  rw [this]
  rfl

example : ∃ Z : ZEnv ℝ, Z.digits = 15981 ∧ Fn.zetaN Z = 23172 :=
  ⟨⟨⟨[], [], [], [], [], [], 0⟩, [], 15981, fun _ => 0, 0, 0⟩, rfl, by decide +kernel⟩

theorem fact_pos (E : RealEnv) (m : ℤ) (rg : List ℝ) {n : ℕ} (hn : n ≤ 1000) :
    ∃ f, Fn.factorial (realArith E) (tabR m rg) n = some f ∧ f ≠ 0 := by
  obtain ⟨f, f1, f2, -⟩ := C79_factorial_table E m rg hn
  refine ⟨f, f1, ?_⟩
  rintro rfl
  have F0 : (0 : ℝ) < (n.factorial : ℝ) := by exact_mod_cast Nat.factorial_pos _
  rw [zero_sub, abs_neg, abs_of_pos F0] at f2
  have : (10 : ℝ) ^ (-419 : ℤ) ≤ (10 : ℝ) ^ (-1 : ℤ) := zpow_le_zpow_right₀ (by norm_num) (by norm_num)
  have := mul_le_mul_of_nonneg_right this F0.le
  generalize (10 : ℝ) ^ (-419 : ℤ) = e at *
  norm_num at this f2
  linarith

/-- The zeta function at three with 101 digits (tolerance 112). -/
example {E : RealEnv} (t0 : E.tol = 112) (hm : E.maxExp = 4944763836) (m : ℤ) (rg : List ℝ) {Z : ZEnv ℝ} (hd : Z.data = primeTable)
    (hT : Z.tab = tabR m rg) (hg : Z.digits = 101) (h3 : Z.toD 3 = 3) (l2 : Z.lg2 ≤ 1) (l0 : 0 ≤ Z.lg2) (lp : Z.lgp ≤ 4) :
    ∃ r, Fn.zetaInt (realArith E) Z 3 = some r ∧ |r - zetaR 3| ≤ (10 : ℝ) ^ (-108 : ℤ) * |zetaR 3| := by
  have hN : Fn.zetaN Z = 146 := by
    unfold Fn.zetaN
    rw [hg]
    decide +kernel
  obtain ⟨f, f1, f0⟩ := fact_pos E m rg (n := 291) (by norm_num)
  have r3 : rnd 3 = 3 := by decide +kernel
  have hz : Fn.zetaIsOne (realArith E) Z ((3 : ℕ) : ℤ) = false := by
    unfold Fn.zetaIsOne
    rw [show (realArith E).tol = E.tol from rfl, t0]
    have a : rnd (rnd (((3 : ℕ) : ℤ) : ℚ) * Z.lg2) ≤ 3 := by
      norm_num
      rw [r3]
      refine le_trans (rnd_mono (show (0 : ℚ) ≤ 3 * Z.lg2 by linarith) (show 3 * Z.lg2 ≤ 3 by linarith)) r3.le
    simp
    have b : ((112 : ℤ) : ℚ) = 112 := by norm_num
    norm_num at a ⊢
    linarith
  have hp : Fn.usePrimes (realArith E) Z ((3 : ℕ) : ℝ) = false := by
    unfold Fn.usePrimes
    rw [show (realArith E).tol = E.tol from rfl, t0, show ((3 : ℕ) : ℝ) = 3 by norm_num, h3]
    have : (4 : ℚ) ≤ rnd (((112 : ℤ) : ℚ) / 3) := by decide +kernel
    simp
    norm_num at this ⊢
    linarith
  obtain ⟨r, r1, r2⟩ := C86_integer (E := E) (by omega) (by omega) (by rw [hm]; norm_num) (by rw [hm]; norm_num) hd (n := 3) (by norm_num)
    (by unfold Fn.hasSimple; simp) (by norm_num) hz hp (by omega) (by omega) (f := f) (by rw [hN, hT]; exact f1) f0
  refine ⟨r, r1, ?_⟩
  rw [hN] at r2
  push_cast at r2
  refine r2.trans (mul_le_mul_of_nonneg_right ?_ (abs_nonneg _))
  norm_num

end EFX.Props
