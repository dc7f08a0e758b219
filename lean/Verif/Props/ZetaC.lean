import Verif.Lemmas.BorweinC
import Verif.Props.Zeta
import Verif.Props.GammaC
/-! C105-C106: powers of integers with complex exponents and the zeta function of complex arguments. -/

namespace EFX.Props
open EFX EFX.Stir EFX.Borw

/-- What the map of the complex powers holds. -/
def MapOkC (E : RealEnv) (s : Cx ℝ) (m : List (ℕ × Cx ℝ)) : Prop := ∀ n w, m.lookup n = some w → w = FnC.primePow (realArith E) n s

theorem tc_pownC (E : RealEnv) (z : Cx ℝ) (p : ℕ) : toC (FnC.pown (realArith E) z p) = toC z ^ p := by
  have em : FnC.mul (realArith E) = Cx.mul := by
    funext u v
    simp [FnC.mul, Cx.mul, ra_sub, ra_mul, ra_add]
  have eo : FnC.ofR (realArith E) (Fn.one (realArith E)) = ⟨1, 0⟩ := by simp [FnC.ofR, ra_zero, ra_one]
  unfold FnC.pown EFX.pown
  rw [if_neg (by omega), em, eo, Int.natAbs_natCast, Option.getD_some, toC_pow_nat]

theorem powExpC (E : RealEnv) (v : Cx ℝ) {p : ℕ} (hp : 1 ≤ p) : toC (FnC.powExp (realArith E) v p) = toC v ^ p := by
  unfold FnC.powExp
  by_cases h1 : p = 1
  · rw [if_pos h1, h1, pow_one]
  rw [if_neg h1]
  by_cases h2 : p = 2
  · rw [if_pos h2, h2, FnC.tc_mulSelf]; ring
  rw [if_neg h2]
  by_cases h3 : p = 3
  · rw [if_pos h3, h3, FnC.tc_mul, FnC.tc_mul]; ring
  rw [if_neg h3, FnC.tc_mul, show (p : ℤ) - 1 = ((p - 1 : ℕ) : ℤ) by omega, tc_pownC, ← pow_succ', show p - 1 + 1 = p by omega]

theorem jPowLoopC (E : RealEnv) (s : Cx ℝ) : ∀ (l : List (ℕ × ℕ)) (m : List (ℕ × Cx ℝ)) (v : Cx ℝ), (∀ x ∈ l, 1 ≤ x.2) → MapOkC E s m →
    ∃ r m', FnC.jPowLoop (realArith E) s l m v = (r, m') ∧ (toC r = toC v * (l.map fun x => toC (FnC.primePow (realArith E) x.1 s) ^ x.2).prod) ∧ MapOkC E s m' := by
  intro l
  induction l with
  | nil => intro m v _ hm; exact ⟨v, m, by simp [FnC.jPowLoop], by simp, hm⟩
  | cons x l ih =>
    obtain ⟨n, p⟩ := x
    intro m v hl hm
    have hp : 1 ≤ p := hl (n, p) (by simp)
    unfold FnC.jPowLoop
    cases hk : m.lookup n with
    | some w =>
      simp only
      obtain ⟨r, m', a, e, b⟩ := ih m (FnC.mul (realArith E) v (FnC.powExp (realArith E) w p)) (fun x hx => hl x (by simp [hx])) hm
      refine ⟨r, m', a, ?_, b⟩
      rw [e, FnC.tc_mul, powExpC E w hp, hm n w hk, List.map_cons, List.prod_cons, mul_assoc]
    | none =>
      simp only
      obtain ⟨r, m', a, e, b⟩ := ih ((n, FnC.primePow (realArith E) n s) :: m) (FnC.mul (realArith E) v (FnC.powExp (realArith E) (FnC.primePow (realArith E) n s) p))
        (fun x hx => hl x (by simp [hx])) (by
          intro k w hw
          rw [List.lookup_cons] at hw
          by_cases h : k = n
          · subst h; simpa [eq_comm] using hw
          · have : (k == n) = false := by simpa using h
            rw [this] at hw
            exact hm k w hw)
      refine ⟨r, m', a, ?_, b⟩
      rw [e, FnC.tc_mul, powExpC E _ hp, List.map_cons, List.prod_cons, mul_assoc]

/-- Products of powers with small relative errors. -/
theorem prod_nearC {f g : ℕ → ℂ} {ε : ℝ} (e0 : 0 ≤ ε) : ∀ l : List (ℕ × ℕ), (∀ x ∈ l, ‖f x.1 - g x.1‖ ≤ ε * ‖g x.1‖) →
      ‖(l.map fun x => f x.1 ^ x.2).prod - (l.map fun x => g x.1 ^ x.2).prod‖ ≤ ((1 + ε) ^ (l.map Prod.snd).sum - 1) * ‖(l.map fun x => g x.1 ^ x.2).prod‖ := by
  have step : ∀ {a b A B : ℂ} {α β : ℝ}, 0 ≤ α → 0 ≤ β → ‖a - A‖ ≤ (α - 1) * ‖A‖ → ‖b - B‖ ≤ (β - 1) * ‖B‖ →
      ‖a * b - A * B‖ ≤ (α * β - 1) * ‖A * B‖ := by
    intro a b A B α β hα hβ h1 h2
    have e : a * b - A * B = (a - A) * (b - B) + (a - A) * B + A * (b - B) := by ring
    rw [e, norm_mul]
    have t1 : ‖(a - A) * (b - B)‖ ≤ ((α - 1) * ‖A‖) * ((β - 1) * ‖B‖) := by
      rw [norm_mul]; exact mul_le_mul h1 h2 (norm_nonneg _) ((norm_nonneg _).trans h1)
    have t2 : ‖(a - A) * B‖ ≤ ((α - 1) * ‖A‖) * ‖B‖ := by rw [norm_mul]; gcongr
    have t3 : ‖A * (b - B)‖ ≤ ‖A‖ * ((β - 1) * ‖B‖) := by rw [norm_mul]; gcongr
    have := norm_add_le ((a - A) * (b - B) + (a - A) * B) (A * (b - B))
    have := norm_add_le ((a - A) * (b - B)) ((a - A) * B)
    nlinarith
  have pw : ∀ {a A : ℂ}, ‖a - A‖ ≤ ε * ‖A‖ → ∀ n : ℕ, ‖a ^ n - A ^ n‖ ≤ ((1 + ε) ^ n - 1) * ‖A ^ n‖ := by
    intro a A h n
    induction n with
    | zero => simp
    | succ n ih =>
      rw [pow_succ, pow_succ, pow_succ]
      exact step (by positivity) (by positivity) ih (by rw [add_sub_cancel_left]; exact h)
  intro l
  induction l with
  | nil => simp
  | cons x l ih =>
    intro hl
    have i2 := ih fun y hy => hl y (by simp [hy])
    have g1 := hl x (by simp)
    simp only [List.map_cons, List.prod_cons, List.sum_cons, pow_add]
    exact step (by positivity) (by positivity) (pw g1 x.2) i2

/-- The value of the complex power function for an empty map. -/
noncomputable def jpowC (E : RealEnv) (Z : ZEnv ℝ) (s : Cx ℝ) (j : ℕ) : ℂ := toC (((FnC.jPowX (realArith E) Z j s []).map Prod.fst).getD ⟨0, 0⟩)

/-- C105: powers of integers with complex exponents through the map of the powers of primes.  Whatever calls filled the map, the
result is the same, and relative errors of the powers of primes grow at most 35-fold. -/
theorem C105_jpow (E : RealEnv) {Z : ZEnv ℝ} (hd : Z.data = primeTable) (s : Cx ℝ) {j : ℕ} (h1 : 1 ≤ j) (h2 : j < 2 ^ 32) :
    (∀ m, MapOkC E s m → ∃ r m', FnC.jPowX (realArith E) Z j s m = some (r, m') ∧ toC r = jpowC E Z s j ∧ MapOkC E s m') ∧
    (∀ ε, 0 ≤ ε → ε ≤ 1 / 1000 → (∀ n : ℕ, n = 1 ∨ n.Prime → n ≤ j → ‖toC (FnC.primePow (realArith E) n s) - (n : ℂ) ^ toC s‖ ≤ ε * ‖(n : ℂ) ^ toC s‖) →
      ‖jpowC E Z s j - (j : ℂ) ^ toC s‖ ≤ 35 * ε * (j : ℝ) ^ s.re) := by
  obtain ⟨l, hl, hf⟩ := factors_ok hd h1 h2
  obtain ⟨l1, l2⟩ := fact_list hf h1 h2
  have run : ∀ m, MapOkC E s m → ∃ r m', FnC.jPowX (realArith E) Z j s m = some (r, m') ∧
      toC r = (l.map fun x => toC (FnC.primePow (realArith E) x.1 s) ^ x.2).prod ∧ MapOkC E s m' := by
    intro m hm
    obtain ⟨r, m', a, e, b⟩ := jPowLoopC E s l m (FnC.ofR (realArith E) (Fn.one (realArith E))) (fun x hx => (l1 x hx).1) hm
    refine ⟨r, m', ?_, ?_, b⟩
    · unfold FnC.jPowX
      rw [hl]
      simp only [Option.bind_eq_bind, Option.bind_some]
      rw [a]
    · rw [e, FnC.tc_ofR, ra_one, Complex.ofReal_one, one_mul]
  have e : jpowC E Z s j = (l.map fun x => toC (FnC.primePow (realArith E) x.1 s) ^ x.2).prod := by
    obtain ⟨r, m', a, e, -⟩ := run [] (fun n w h => by simp at h)
    unfold jpowC; rw [a]; exact e
  refine ⟨fun m hm => by rw [e]; exact run m hm, fun ε e0 e1 hε => ?_⟩
  have pos : ∀ x ∈ l, 1 ≤ x.1 := fun x hx => by
    rcases (l1 x hx).2.1 with h | h
    · omega
    · exact h.one_lt.le
  have p2 := prod_nearC (f := fun n => toC (FnC.primePow (realArith E) n s)) (g := fun n => (n : ℂ) ^ toC s) e0 l (fun x hx => hε _ (l1 x hx).2.1 (l1 x hx).2.2)
  have pj : ∀ q : List (ℕ × ℕ), (q.map fun x => (((x.1 : ℕ) : ℂ) ^ toC s) ^ x.2).prod = (((q.map fun x => x.1 ^ x.2).prod : ℕ) : ℂ) ^ toC s := by
    intro q
    induction q with
    | nil => simp
    | cons x q ih =>
      simp only [List.map_cons, List.prod_cons]
      rw [ih, ← Complex.cpow_nat_mul, Complex.natCast_cpow_natCast_mul]
      push_cast
      have := Complex.natCast_mul_natCast_cpow (x.1 ^ x.2) (q.map fun x => x.1 ^ x.2).prod (toC s)
      push_cast at this
      exact this.symm
  rw [pj l, hf.1] at p2
  rw [e]
  have nj : ‖(j : ℂ) ^ toC s‖ = (j : ℝ) ^ s.re := by
    rw [Complex.norm_natCast_cpow_of_pos (by omega)]; rfl
  rw [nj] at p2
  have p1 : 0 ≤ (j : ℝ) ^ s.re := by positivity
  refine p2.trans (mul_le_mul_of_nonneg_right ?_ p1)
  have b1 : (1 + ε) ^ (l.map Prod.snd).sum ≤ (1 + ε) ^ 33 := pow_le_pow_right₀ (by linarith) l2
  have b2 : ∀ k : ℕ, k ≤ 33 → (1 + ε) ^ k ≤ 1 + k * (35 / 33 * ε) := by
    intro k
    induction k with
    | zero => simp
    | succ k ih =>
      intro hk
      have t := ih (by omega)
      have k33 : (k : ℝ) ≤ 32 := by exact_mod_cast (show k ≤ 32 by omega)
      have k0 : (0 : ℝ) ≤ k := by positivity
      have t2 := mul_le_mul_of_nonneg_right t (show (0 : ℝ) ≤ 1 + ε by linarith)
      rw [pow_succ]
      push_cast
      have ke : (k : ℝ) * ε ≤ 32 * (1 / 1000) := mul_le_mul k33 e1 e0 (by norm_num)
      have : (k : ℝ) * ε * ε ≤ 32 * (1 / 1000) * ε := mul_le_mul_of_nonneg_right ke e0
      nlinarith
  have := b2 33 le_rfl
  norm_num at this
  linarith

/-- Division in exact arithmetic, with `u / 0 = 0`. -/
theorem tc_div0 (E : RealEnv) (u v : Cx ℝ) : toC (FnC.div (realArith E) u v) = toC u / toC v := by
  by_cases h : toC v = 0
  · have h1 : v.re = 0 := congrArg Complex.re h
    have h2 : v.im = 0 := congrArg Complex.im h
    rw [h, div_zero]
    apply Complex.ext <;> simp [toC, FnC.div, FnC.norm, ra_sub, ra_mul, ra_add, ra_inv, h1, h2]
  · exact FnC.tc_div E u v h

/-- What one term of the series adds. -/
noncomputable def altTermC (N : ℕ) (w : ℕ → ℂ) (j : ℕ) : ℂ := (-1) ^ j * (tail (coef N) N (j + 1) : ℂ) * (1 / w (j + 1))

/-- The sign and the quotient of one term. -/
theorem term_signC (E : RealEnv) (N i : ℕ) (w : ℕ → ℂ) {r : Cx ℝ} (hr : toC r = w (i + 1)) :
    toC (FnC.div (realArith E) (FnC.ofR (realArith E) (if (!decide ((i + 1) % 2 = 0)) = true then tail (coef N) N (i + 1) else (realArith E).neg (tail (coef N) N (i + 1)))) r) =
      altTermC N w i := by
  rw [tc_div0, FnC.tc_ofR, hr]
  unfold altTermC
  rcases Nat.even_or_odd i with he | ho
  · rw [he.neg_one_pow]
    have : (i + 1) % 2 = 1 := by have := Nat.even_iff.1 he; omega
    simp [this, div_eq_mul_inv]
  · rw [ho.neg_one_pow]
    have : (i + 1) % 2 = 0 := by have := Nat.odd_iff.1 ho; omega
    simp [this, div_eq_mul_inv, ra_neg]

/-- The loop of the alternating series. -/
theorem zetaLoopC (E : RealEnv) {Z : ZEnv ℝ} (hd : Z.data = primeTable) (s : Cx ℝ) {N : ℕ} (h32 : (2 * (N : ℤ) - 1) * (2 * ((N : ℤ) - 1)) < 2 ^ 31) :
    ∀ (k : ℕ) (nf fp nm tj : ℝ) (zs : Cx ℝ) (m : List (ℕ × Cx ℝ)), k ≤ N → 1 ≤ N → nm ≠ 0 → tj ≠ 0 → nf * fp / (nm * tj) = coef N k → MapOkC E s m →
      ∃ z, FnC.zetaLoop (realArith E) Z N s k (decide (k % 2 = 0)) nf fp nm tj (tail (coef N) N k) zs m =
        some (tail (coef N) N 0, z) ∧ toC z = toC zs + ∑ j ∈ Finset.range (k - 1), altTermC N (jpowC E Z s) j := by
  intro k
  induction k with
  | zero => intro nf fp nm tj zs m _ _ _ _ _ _; exact ⟨zs, by simp [FnC.zetaLoop], by simp⟩
  | succ j ih =>
    intro nf fp nm tj zs m hk hN n0 t0 hc hm
    have hN' : (0 : ℝ) < N := by exact_mod_cast hN
    have hj : (0 : ℝ) < (N : ℝ) - j := by have : (j : ℝ) < N := by exact_mod_cast hk
                                          linarith
    have hcc : (2 * (j : ℤ) + 1) * (2 * (if j ≠ 0 then (j : ℤ) else 1)) < 2 ^ 31 := by
      split
      · have : (2 * (j : ℤ) + 1) * (2 * j) ≤ (2 * (N : ℤ) - 1) * (2 * ((N : ℤ) - 1)) := by
          apply mul_le_mul <;> omega
        omega
      · rename_i h; push Not at h; subst h; norm_num
    have c0 : (0 : ℝ) < (2 * (j : ℝ) + 1) * (2 * (if j ≠ 0 then (j : ℝ) else 1)) := by
      split
      · have : (0 : ℝ) < j := by exact_mod_cast (show 0 < j by omega)
        positivity
      · positivity
    unfold FnC.zetaLoop
    simp only [Option.bind_eq_bind]
    rw [if_neg (by omega)]
    simp only [ra_divI, ra_mulI, ra_div, ra_mul, ra_add]
    have cc : ((((2 * (j : ℤ) + 1) * (2 * (if j ≠ 0 then (j : ℤ) else 1)) : ℤ)) : ℝ) = (2 * (j : ℝ) + 1) * (2 * (if j ≠ 0 then (j : ℝ) else 1)) := by
      split <;> push_cast <;> ring
    rw [cc]
    obtain ⟨st, sne⟩ := coef_step (N := N) (j := j) (by omega)
    generalize (2 * (j : ℝ) + 1) * (2 * (if j ≠ 0 then (j : ℝ) else 1)) = c at *
    push_cast
    have q : nf / ((N : ℝ) + j) * (fp / 4) / (nm * ((N : ℝ) - j) * (tj / c)) = coef N j := by
      rw [st, ← hc]
      have : (0 : ℝ) < (N : ℝ) + j := by positivity
      field_simp
    have tl : tail (coef N) N (j + 1) + coef N j = tail (coef N) N j := by
      unfold tail
      rw [Finset.sum_eq_sum_Ico_succ_bot (by omega : j < N + 1), add_comm]
    rw [q, tl]
    by_cases h0 : j = 0
    · subst h0
      exact ⟨zs, by simp [FnC.zetaLoop], by simp⟩
    · rw [if_pos h0]
      obtain ⟨r, m', a, hr, b⟩ := (C105_jpow E hd s (j := j) (by omega) (by
        by_contra hb
        have : (2 : ℤ) ^ 32 ≤ j := by exact_mod_cast not_lt.1 hb
        rw [if_pos h0] at hcc
        nlinarith)).1 m hm
      rw [a]
      simp only [Option.bind_some]
      have en : (!decide ((j + 1) % 2 = 0)) = decide (j % 2 = 0) := by
        rcases Nat.mod_two_eq_zero_or_one j with h | h <;> simp [Nat.add_mod, h]
      rw [en]
      obtain ⟨z, z1, z2⟩ := ih _ _ _ _ (FnC.add (realArith E) zs (FnC.div (realArith E) (FnC.ofR (realArith E)
        (if (!decide (j % 2 = 0)) = true then tail (coef N) N j else (realArith E).neg (tail (coef N) N j))) r)) _ (by omega) hN (mul_ne_zero n0 hj.ne') (div_ne_zero t0 c0.ne') q b
      refine ⟨z, z1, ?_⟩
      obtain ⟨i, rfl⟩ : ∃ i, j = i + 1 := ⟨j - 1, by omega⟩
      rw [z2, FnC.tc_add, term_signC E N i (jpowC E Z s) hr, Finset.sum_range_succ, show i + 1 - 1 = i by omega]
      ring

/-- The alternating series as a function of the powers.  The factorial cancels. -/
theorem zetaAltC (E : RealEnv) {Z : ZEnv ℝ} (hd : Z.data = primeTable) (s : Cx ℝ) {N : ℕ} (hN : 1 ≤ N)
    (h32 : (2 * (N : ℤ) - 1) * (2 * ((N : ℤ) - 1)) < 2 ^ 31) {f : ℝ} (hf : Fn.factorial (realArith E) Z.tab (2 * N - 1) = some f) (f0 : f ≠ 0) :
    ∃ r, FnC.zetaAlt (realArith E) Z N s = some r ∧ toC r = (∑ j ∈ Finset.range N, altTermC N (jpowC E Z s) j) /
      ((tail (coef N) N 0 : ℂ) * (1 - toC (FnC.primePow (realArith E) 2 ⟨1 - s.re, -s.im⟩))) := by
  have hN' : (0 : ℝ) < N := by exact_mod_cast hN
  unfold FnC.zetaAlt
  simp only [Option.bind_eq_bind]
  rw [hf]
  simp only [Option.bind_some]
  obtain ⟨r, m', a, hr, b⟩ := (C105_jpow E hd s (j := N) hN (by
    by_contra hb
    have : (2 : ℤ) ^ 32 ≤ N := by exact_mod_cast not_lt.1 hb
    nlinarith)).1 [] (fun n w h => by simp at h)
  rw [a, ra_pown E _ (by omega)]
  simp only [Option.bind_some]
  simp only [ra_mulI, ra_div, ra_mul, ra_one, ra_ofI]
  push_cast
  have q : f * (4 : ℝ) ^ (N : ℤ) / (1 * (f * (2 * (N : ℝ)))) = coef N N := by
    unfold coef
    rw [if_neg (by omega), show N + N - 1 = 2 * N - 1 by omega, Nat.choose_self, zpow_natCast]
    field_simp
    push_cast
    ring
  have tl : coef N N = tail (coef N) N N := by simp [tail]
  rw [q, tl]
  obtain ⟨z, z1, z2⟩ := zetaLoopC E hd s h32 N f (4 ^ (N : ℤ)) 1 (f * (2 * (N : ℝ))) (FnC.div (realArith E) (FnC.ofR (realArith E)
        (if (!decide (N % 2 = 0)) = true then tail (coef N) N N else (realArith E).neg (tail (coef N) N N))) r) m' le_rfl hN one_ne_zero (by positivity) q b
  rw [z1]
  simp only [Option.bind_some]
  refine ⟨_, rfl, ?_⟩
  obtain ⟨i, rfl⟩ : ∃ i, N = i + 1 := ⟨N - 1, by omega⟩
  rw [tc_div0, FnC.tc_rMul, FnC.tc_rSub, z2, term_signC E (i + 1) i (jpowC E Z s) hr, show i + 1 - 1 = i by omega, Finset.sum_range_succ, add_comm, Complex.ofReal_one]
  rfl

/-- The series with approximate powers. -/
theorem alt_nearC {s : ℂ} (hs : 0 < s.re) (h1 : s ≠ 1) {N : ℕ} (hN : 1 ≤ N) {w : ℕ → ℂ} {ε : ℝ} (e0 : 0 ≤ ε) (e1 : ε ≤ 1 / 1000)
    (hw : ∀ j, 1 ≤ j → j ≤ N → ‖w j - (j : ℂ) ^ s‖ ≤ 35 * ε * (j : ℝ) ^ s.re) :
    0 < tail (coef N) N 0 ∧
    ‖(∑ j ∈ Finset.range N, altTermC N w j) / (tail (coef N) N 0 : ℂ) - (1 - 2 ^ (1 - s)) * riemannZeta s‖ ≤
      (N + 1) / (291 / 50) ^ (N - 1) * (‖s‖ / s.re * Real.exp (Real.pi * |s.im| / 2)) + 37 * N * ε := by
  have c0 : ∀ k, 0 ≤ coef N k := by
    intro k; unfold coef; split <;> positivity
  have tb : ∀ j, 0 ≤ tail (coef N) N j ∧ tail (coef N) N j ≤ tail (coef N) N 0 := by
    intro j
    refine ⟨Finset.sum_nonneg fun k _ => c0 k, Finset.sum_le_sum_of_subset_of_nonneg (Finset.Ico_subset_Ico_left (by omega)) fun k _ _ => c0 k⟩
  have t0 : 0 < tail (coef N) N 0 := by
    obtain ⟨n, rfl⟩ : ∃ n, N = n + 1 := ⟨N - 1, by omega⟩
    have := lt_of_lt_of_le (by positivity) (V_neg_one n).1
    rw [tail_coef]; positivity
  refine ⟨t0, ?_⟩
  have t1 := alt_errorC hs h1 hN
  have d : ‖(∑ j ∈ Finset.range N, altTermC N w j) / (tail (coef N) N 0 : ℂ) -
      (∑ j ∈ Finset.range N, (-1) ^ j * (tail (coef N) N (j + 1) : ℂ) * (1 / ((j : ℂ) + 1) ^ s)) / (tail (coef N) N 0 : ℂ)‖ ≤ N * (37 * ε) := by
    rw [← sub_div, ← Finset.sum_sub_distrib, norm_div, Complex.norm_real, Real.norm_of_nonneg t0.le, div_le_iff₀ t0]
    refine (norm_sum_le _ _).trans ?_
    have : ∀ j ∈ Finset.range N, ‖altTermC N w j - (-1) ^ j * (tail (coef N) N (j + 1) : ℂ) * (1 / ((j : ℂ) + 1) ^ s)‖ ≤ 37 * ε * tail (coef N) N 0 := by
      intro j hj
      have hj' := Finset.mem_range.1 hj
      unfold altTermC
      rw [← mul_sub, norm_mul, norm_mul, norm_pow, norm_neg, norm_one, one_pow, one_mul, Complex.norm_real, Real.norm_of_nonneg (tb (j + 1)).1, mul_comm]
      refine mul_le_mul ?_ (tb (j + 1)).2 (tb (j + 1)).1 (by positivity)
      have h := hw (j + 1) (by omega) (by omega)
      have W1 : 1 ≤ ((j + 1 : ℕ) : ℝ) ^ s.re := Real.one_le_rpow (by push_cast; have : (0 : ℝ) ≤ j := by positivity
                                                                     linarith) hs.le
      have nj : ‖((j + 1 : ℕ) : ℂ) ^ s‖ = ((j + 1 : ℕ) : ℝ) ^ s.re := Complex.norm_natCast_cpow_of_pos (by omega) _
      rw [show ((j : ℂ) + 1) = ((j + 1 : ℕ) : ℂ) by push_cast; rfl]
      generalize ((j + 1 : ℕ) : ℂ) ^ s = V at *
      generalize ((j + 1 : ℕ) : ℝ) ^ s.re = W at *
      generalize w (j + 1) = v at *
      have v0 : 965 / 1000 * W ≤ ‖v‖ := by
        have := norm_sub_norm_le V v
        rw [norm_sub_rev, nj] at this
        nlinarith
      have vp : 0 < ‖v‖ := by linarith
      have Vp : 0 < ‖V‖ := by linarith
      rw [div_sub_div _ _ (norm_pos_iff.1 vp) (norm_pos_iff.1 Vp), norm_div, norm_mul, div_le_iff₀ (by positivity)]
      rw [show 1 * V - v * 1 = -(v - V) by ring, norm_neg, nj]
      refine h.trans ?_
      have b1 : 965 / 1000 ≤ ‖v‖ := by linarith
      have : 35 * ε * W ≤ 37 * ε * (965 / 1000 * W) := by nlinarith [mul_nonneg e0 (by linarith : (0 : ℝ) ≤ W)]
      refine this.trans ?_
      have : 965 / 1000 * W ≤ ‖v‖ * W := mul_le_mul_of_nonneg_right b1 (by linarith)
      exact mul_le_mul_of_nonneg_left this (by positivity)
    refine (Finset.sum_le_sum this).trans ?_
    rw [Finset.sum_const, Finset.card_range, nsmul_eq_mul]
    linarith
  have tri := norm_sub_le_norm_sub_add_norm_sub ((∑ j ∈ Finset.range N, altTermC N w j) / (tail (coef N) N 0 : ℂ))
    ((∑ j ∈ Finset.range N, (-1) ^ j * (tail (coef N) N (j + 1) : ℂ) * (1 / ((j : ℂ) + 1) ^ s)) / (tail (coef N) N 0 : ℂ)) ((1 - 2 ^ (1 - s)) * riemannZeta s)
  linarith

/-- A quotient with errors of both. -/
theorem quot_nearC {S η D D' : ℂ} {B δ : ℝ} (hS : ‖S - η‖ ≤ B) (hD : D ≠ 0) (d1 : δ ≤ 1 / 2 * ‖D‖) (hd : ‖D' - D‖ ≤ δ) :
    ‖S / D' - η / D‖ ≤ 2 * (B + δ * ‖η / D‖) / ‖D‖ := by
  have Dp : 0 < ‖D‖ := norm_pos_iff.2 hD
  have l : ‖D‖ / 2 ≤ ‖D'‖ := by
    have := norm_sub_norm_le D D'
    rw [norm_sub_rev] at this
    linarith
  have Dp' : 0 < ‖D'‖ := by linarith
  have hD' : D' ≠ 0 := norm_pos_iff.1 Dp'
  have e : S / D' - η / D = ((S - η) - (D' - D) * (η / D)) / D' := by field_simp; ring
  rw [e, norm_div, div_le_div_iff₀ Dp' Dp]
  have n := norm_sub_le (S - η) ((D' - D) * (η / D))
  rw [norm_mul] at n
  have n2 := mul_le_mul_of_nonneg_right hd (norm_nonneg (η / D))
  have B0 : 0 ≤ B + δ * ‖η / D‖ := add_nonneg ((norm_nonneg _).trans hS) (mul_nonneg ((norm_nonneg _).trans hd) (norm_nonneg _))
  calc _ ≤ (B + δ * ‖η / D‖) * ‖D‖ := mul_le_mul_of_nonneg_right (by linarith) Dp.le
    _ ≤ (B + δ * ‖η / D‖) * (2 * ‖D'‖) := mul_le_mul_of_nonneg_left (by linarith) B0
    _ = _ := by ring

/-- C105: the alternating series for complex arguments with positive real part.  The error is that of the truncated series, of
the powers of the primes (`ε`) and of the power of two, magnified where `2^(1-s)` is close to one. -/
theorem C105_series_partial (E : RealEnv) {Z : ZEnv ℝ} (hd : Z.data = primeTable) {s : Cx ℝ} (hs : 0 < s.re) (hi : s.im ≠ 0) (hI : |s.im| ≤ 1000100)
    (hN : 1 ≤ FnC.zetaN Z s) (hN2 : FnC.zetaN Z s ≤ 23171)
    {f : ℝ} (hf : Fn.factorial (realArith E) Z.tab (2 * FnC.zetaN Z s - 1) = some f) (f0 : f ≠ 0) :
    ∃ r, FnC.zeta (realArith E) Z s = some r ∧ ∀ ε, 0 ≤ ε → ε ≤ 1 / 1000 →
      (∀ n : ℕ, n = 1 ∨ n.Prime → n ≤ FnC.zetaN Z s → ‖toC (FnC.primePow (realArith E) n s) - (n : ℂ) ^ toC s‖ ≤ ε * ‖(n : ℂ) ^ toC s‖) →
      ‖toC (FnC.primePow (realArith E) 2 ⟨1 - s.re, -s.im⟩) - (2 : ℂ) ^ (1 - toC s)‖ ≤ ε * ‖(2 : ℂ) ^ (1 - toC s)‖ →
      ε * ‖(2 : ℂ) ^ (1 - toC s)‖ ≤ 1 / 2 * ‖1 - (2 : ℂ) ^ (1 - toC s)‖ → 1 - (2 : ℂ) ^ (1 - toC s) ≠ 0 →
      ‖toC r - riemannZeta (toC s)‖ ≤ 2 * ((FnC.zetaN Z s + 1) / (291 / 50) ^ (FnC.zetaN Z s - 1) * (‖toC s‖ / s.re * Real.exp (Real.pi * |s.im| / 2)) +
        37 * FnC.zetaN Z s * ε + ε * ‖(2 : ℂ) ^ (1 - toC s)‖ * ‖riemannZeta (toC s)‖) / ‖1 - (2 : ℂ) ^ (1 - toC s)‖ := by
  have e : FnC.zeta (realArith E) Z s = FnC.zetaAlt (realArith E) Z (FnC.zetaN Z s) s := by
    unfold FnC.zeta
    simp only [ra_iszero]
    rw [if_neg (by simpa using hi)]
    unfold FnC.zetaT
    simp only
    ra_simp
    rw [if_neg (by linarith), if_neg (by push_cast; linarith)]
  rw [e]
  generalize FnC.zetaN Z s = N at *
  obtain ⟨r, r1, r2⟩ := zetaAltC E hd s hN (by
    have : (2 * (N : ℤ) - 1) * (2 * ((N : ℤ) - 1)) ≤ 46341 * 46340 := by
      apply mul_le_mul <;> omega
    refine lt_of_le_of_lt this (by norm_num)) hf f0
  refine ⟨r, r1, fun ε e0 e1 hε he2 hδ D0 => ?_⟩
  have s1 : toC s ≠ 1 := by
    intro h; exact hi (congrArg Complex.im h)
  obtain ⟨T, near⟩ := alt_nearC (s := toC s) hs s1 hN (w := jpowC E Z s) e0 e1 (fun j j1 j2 =>
    (C105_jpow E hd s j1 (by omega)).2 ε e0 e1 fun n h h' => hε n h (by omega))
  have ez : riemannZeta (toC s) = (1 - (2 : ℂ) ^ (1 - toC s)) * riemannZeta (toC s) / (1 - (2 : ℂ) ^ (1 - toC s)) := by field_simp
  rw [r2, ← div_div]
  nth_rw 1 [ez]
  have q := quot_nearC near D0 hδ (D' := 1 - toC (FnC.primePow (realArith E) 2 ⟨1 - s.re, -s.im⟩)) (by
    rw [show ∀ a b : ℂ, 1 - a - (1 - b) = -(a - b) by intros; ring, norm_neg]; exact he2)
  rw [← ez] at q
  rw [← ez]
  exact q

/-- C105: powers of an integer with a complex exponent through the exponential function of C101 and the logarithm of C66. -/
theorem C105_prime_partial {E : RealEnv} (t0 : 12 ≤ E.tol) (ht : E.tol ≤ 29990) (hm : E.maxExp ≤ 2 ^ 62) (hm' : 10000 ≤ E.maxExp)
    {n : ℕ} (n1 : 1 ≤ n) {s : Cx ℝ} (hl : LogFine E (n : ℝ)) (hδ : 6001 * (10 : ℝ) ^ (-E.tol) * ‖toC s‖ ≤ 1) (hy : |s.re| * Real.log n + 1 ≤ E.maxExp)
    (hx : ∀ k : ℤ, s.re * Fn.log (realArith E) (n : ℝ) ≠ 0 → s.re * Fn.log (realArith E) (n : ℝ) ≠ k * Real.log 2) :
    ‖toC (FnC.primePow (realArith E) n s) - (n : ℂ) ^ toC s‖ ≤ (12002 * ‖toC s‖ + 6000000000) * (10 : ℝ) ^ (-E.tol) * ‖(n : ℂ) ^ toC s‖ := by
  have n0 : (1 : ℝ) ≤ n := by exact_mod_cast n1
  have log := log_fine (by omega) ht hm hm' (y := (n : ℝ)) (by linarith) hl
  have e : FnC.primePow (realArith E) n s = FnC.exp (realArith E) ⟨s.re * Fn.log (realArith E) (n : ℝ), s.im * Fn.log (realArith E) (n : ℝ)⟩ := by
    unfold FnC.primePow FnC.mulR
    simp only [ra_ofI, ra_mul]
    push_cast
    rfl
  rw [e]
  generalize Fn.log (realArith E) (n : ℝ) = l at *
  have cl : (n : ℂ) ^ toC s = Complex.exp (toC s * Real.log n) := by
    rw [Complex.cpow_def_of_ne_zero (by exact_mod_cast (show n ≠ 0 by omega)), mul_comm, Complex.ofReal_log (by linarith)]
    push_cast; rfl
  have ty : toC ⟨s.re * l, s.im * l⟩ = toC s * l := by
    apply Complex.ext <;> simp [toC]
  have d : ‖toC s * l - toC s * Real.log n‖ ≤ 6001 * (10 : ℝ) ^ (-E.tol) * ‖toC s‖ := by
    rw [← mul_sub, norm_mul, ← Complex.ofReal_sub, Complex.norm_real, Real.norm_eq_abs, abs_sub_comm, mul_comm]
    exact mul_le_mul_of_nonneg_right log (norm_nonneg _)
  have near := cexp_near d hδ
  have re : |s.re| ≤ ‖toC s‖ := Complex.abs_re_le_norm (toC s)
  have ex := C101_cexp_partial t0 ht hm (z := ⟨s.re * l, s.im * l⟩) (by
    have h1 : |s.re * l - s.re * Real.log n| ≤ 6001 * (10 : ℝ) ^ (-E.tol) * ‖toC s‖ := by
      rw [← mul_sub, abs_mul, abs_sub_comm l, mul_comm]
      exact mul_le_mul log re (abs_nonneg _) (by positivity)
    have h2 := abs_sub_abs_le_abs_sub (s.re * l) (s.re * Real.log n)
    rw [abs_mul s.re (Real.log n), abs_of_nonneg (Real.log_nonneg n0)] at h2
    show |s.re * l| ≤ _
    linarith) hx
  rw [ty] at ex
  rw [cl]
  rw [tol_split] at ex
  have tp : (0 : ℝ) < (10 : ℝ) ^ (-E.tol) := by positivity
  have V0 : 0 ≤ ‖Complex.exp (toC s * Real.log n)‖ := norm_nonneg _
  have x3 : ‖Complex.exp (toC s * l)‖ ≤ 3 * ‖Complex.exp (toC s * Real.log n)‖ := by
    have := norm_sub_norm_le (Complex.exp (toC s * l)) (Complex.exp (toC s * Real.log n))
    have := mul_le_mul_of_nonneg_right hδ V0
    linarith
  rw [norm_sub_rev] at ex
  have tri := norm_sub_le_norm_sub_add_norm_sub (toC (FnC.exp (realArith E) ⟨s.re * l, s.im * l⟩)) (Complex.exp (toC s * l)) (Complex.exp (toC s * Real.log n))
  have := mul_le_mul_of_nonneg_left x3 (show (0 : ℝ) ≤ 2 * (1000000000 * (10 : ℝ) ^ (-E.tol)) by positivity)
  linarith

/-- What the powers need: accurate logarithms (C66) and exponents away from the multiples of `ln 2` (C65). -/
def PowFine (E : RealEnv) (σ : ℝ) (n : ℕ) : Prop :=
  LogFine E (n : ℝ) ∧ ∀ k : ℤ, σ * Fn.log (realArith E) (n : ℝ) ≠ 0 → σ * Fn.log (realArith E) (n : ℝ) ≠ k * Real.log 2

/-- C105: the zeta function for complex arguments with positive real part, computed with the library's own powers. -/
theorem C105_zeta_partial {E : RealEnv} (t0 : 20 ≤ E.tol) (ht : E.tol ≤ 29990) (hm : E.maxExp ≤ 2 ^ 62) (hm' : 10000 ≤ E.maxExp)
    {Z : ZEnv ℝ} (hd : Z.data = primeTable) {s : Cx ℝ} (hs : 0 < s.re) (hi : s.im ≠ 0) (hI : |s.im| ≤ 1000100) (hr : s.re ≤ 100)
    (hN : 1 ≤ FnC.zetaN Z s) (hN2 : FnC.zetaN Z s ≤ 23171) {f : ℝ} (hf : Fn.factorial (realArith E) Z.tab (2 * FnC.zetaN Z s - 1) = some f) (f0 : f ≠ 0)
    (hp : ∀ n : ℕ, n = 1 ∨ n.Prime → n ≤ FnC.zetaN Z s → PowFine E s.re n) (h2 : PowFine E (1 - s.re) 2) {ε : ℝ}
    (hε : ε = (12002 * (‖toC s‖ + 1) + 6000000000) * (10 : ℝ) ^ (-E.tol))
    (h1 : ε * ‖(2 : ℂ) ^ (1 - toC s)‖ ≤ 1 / 2 * ‖1 - (2 : ℂ) ^ (1 - toC s)‖) (D0 : 1 - (2 : ℂ) ^ (1 - toC s) ≠ 0) :
    ∃ r, FnC.zeta (realArith E) Z s = some r ∧
      ‖toC r - riemannZeta (toC s)‖ ≤ 2 * ((FnC.zetaN Z s + 1) / (291 / 50) ^ (FnC.zetaN Z s - 1) * (‖toC s‖ / s.re * Real.exp (Real.pi * |s.im| / 2)) +
        37 * FnC.zetaN Z s * ε + ε * ‖(2 : ℂ) ^ (1 - toC s)‖ * ‖riemannZeta (toC s)‖) / ‖1 - (2 : ℂ) ^ (1 - toC s)‖ := by
  obtain ⟨r, r1, r2⟩ := C105_series_partial E hd hs hi hI hN hN2 hf f0
  have tp : (0 : ℝ) < (10 : ℝ) ^ (-E.tol) := by positivity
  have tl : (10 : ℝ) ^ (-E.tol) ≤ 1 / 100000000000000000000 :=
    (zpow_le_zpow_right₀ (by norm_num) (show -E.tol ≤ -20 by omega)).trans (by norm_num)
  have ns : ‖toC s‖ ≤ 1000200 := by
    have := norm_le_parts (toC s)
    have e : |(toC s).re| = s.re := abs_of_pos hs
    have : |(toC s).im| = |s.im| := rfl
    linarith
  have mR : (10000 : ℝ) ≤ E.maxExp := by exact_mod_cast hm'
  have lg : ∀ n : ℕ, 1 ≤ n → n ≤ 23171 → Real.log n ≤ 12 := by
    intro n a b
    rw [Real.log_le_iff_le_exp (by exact_mod_cast a)]
    have : (n : ℝ) ≤ 23171 := by exact_mod_cast b
    have e12 : Real.exp 12 = Real.exp 1 ^ 12 := by rw [← Real.exp_nat_mul]; norm_num
    have := pow_le_pow_left₀ (by norm_num) Real.exp_one_gt_d9.le 12
    rw [e12]
    norm_num at this
    linarith
  refine ⟨r, r1, r2 ε (by rw [hε]; positivity) ?_ (fun n h h' => ?_) ?_ h1 D0⟩
  · rw [hε]
    have := mul_le_mul (show 12002 * (‖toC s‖ + 1) + 6000000000 ≤ 20000000000 by linarith) tl tp.le (by norm_num)
    linarith
  · have n1 : 1 ≤ n := by rcases h with h | h; omega; exact h.one_lt.le
    have := C105_prime_partial (by omega) ht hm hm' n1 (hp n h h').1 (by
      have := mul_le_mul (show 6001 * (10 : ℝ) ^ (-E.tol) ≤ 6001 * (1 / 100000000000000000000) by linarith) ns (norm_nonneg _) (by norm_num)
      linarith) (by
      rw [abs_of_pos hs]
      have := mul_le_mul hr (lg n n1 (by omega)) (Real.log_nonneg (by exact_mod_cast n1)) (by norm_num)
      linarith) (hp n h h').2
    refine this.trans (mul_le_mul_of_nonneg_right ?_ (norm_nonneg _))
    rw [hε]
    have := mul_le_mul_of_nonneg_right (show 12002 * ‖toC s‖ + 6000000000 ≤ 12002 * (‖toC s‖ + 1) + 6000000000 by linarith) tp.le
    linarith
  · have t1 : toC ⟨1 - s.re, -s.im⟩ = 1 - toC s := by apply Complex.ext <;> simp [toC]
    have n1 : ‖1 - toC s‖ ≤ ‖toC s‖ + 1 := by
      have := norm_sub_le (1 : ℂ) (toC s); rw [norm_one] at this; linarith
    have := C105_prime_partial (by omega) ht hm hm' (n := 2) (s := ⟨1 - s.re, -s.im⟩) (by norm_num) h2.1 (by
      rw [t1]
      have := mul_le_mul (show 6001 * (10 : ℝ) ^ (-E.tol) ≤ 6001 * (1 / 100000000000000000000) by linarith) (n1.trans (by linarith : _ ≤ (1000201 : ℝ))) (norm_nonneg _) (by norm_num)
      linarith) (by
      have a : |1 - s.re| ≤ 100 := by rw [abs_le]; constructor <;> linarith
      have := mul_le_mul a (lg 2 (by norm_num) (by norm_num)) (Real.log_nonneg (by norm_num)) (by norm_num)
      show |1 - s.re| * _ + 1 ≤ _
      linarith) h2.2
    rw [t1] at this
    push_cast at this
    refine this.trans (mul_le_mul_of_nonneg_right ?_ (norm_nonneg _))
    rw [hε]
    have := mul_le_mul_of_nonneg_right (show 12002 * ‖1 - toC s‖ + 6000000000 ≤ 12002 * (‖toC s‖ + 1) + 6000000000 by linarith) tp.le
    linarith

/-- One half times the logarithm of a prime is no multiple of `ln 2`, nor is what the library computes. -/
theorem pow_fine_half {E : RealEnv} (t0 : 30 ≤ E.tol) (ht : E.tol ≤ 29990) (hm : E.maxExp ≤ 2 ^ 62) (hm' : 10000 ≤ E.maxExp)
    {p : ℕ} (hp : p = 1 ∨ p.Prime) (hb : p ≤ 1000) (hl : LogFine E (p : ℝ)) : PowFine E (1 / 2) p := by
  have p1 : (1 : ℝ) ≤ p := by
    rcases hp with rfl | hp
    · norm_num
    · exact_mod_cast hp.one_lt.le
  have p1000 : (p : ℝ) ≤ 1000 := by exact_mod_cast hb
  have log := log_fine (by omega) ht hm hm' (y := (p : ℝ)) (by linarith) hl
  refine ⟨hl, fun k hk h => ?_⟩
  have tl : 6001 * (10 : ℝ) ^ (-E.tol) ≤ 1 / 2000 := by
    have := (zpow_le_zpow_right₀ (by norm_num : (1 : ℝ) ≤ 10) (show -E.tol ≤ -20 by omega))
    norm_num at this ⊢
    linarith
  have d : |Real.log p - 2 * k * Real.log 2| ≤ 1 / 2000 := by
    rw [show 2 * (k : ℝ) * Real.log 2 = Fn.log (realArith E) p by linarith]; linarith
  have d1 := abs_le.1 d
  have l2 := Real.log_two_gt_d9
  rcases hp with rfl | hp
  · have k0 : k ≠ 0 := by rintro rfl; rw [h] at hk; simp at hk
    rw [Nat.cast_one, Real.log_one, zero_sub] at d1
    rcases lt_or_gt_of_ne k0 with h0 | h0
    · have : (k : ℝ) ≤ -1 := by exact_mod_cast (show k ≤ -1 by omega)
      nlinarith
    · have : (1 : ℝ) ≤ k := by exact_mod_cast h0
      nlinarith
  have p2 : (2 : ℝ) ≤ p := by exact_mod_cast hp.two_le
  rcases hp.eq_two_or_odd with rfl | ho
  · push_cast at d1
    have e : Real.log 2 - 2 * k * Real.log 2 = (1 - 2 * k) * Real.log 2 := by ring
    rw [e] at d1
    rcases le_or_gt k 0 with h0 | h0
    · have : (k : ℝ) ≤ 0 := by exact_mod_cast h0
      nlinarith
    · have : (1 : ℝ) ≤ k := by exact_mod_cast h0
      nlinarith
  · rcases le_or_gt k 0 with h0 | h0
    · have : (k : ℝ) ≤ 0 := by exact_mod_cast h0
      have := Real.log_le_log (by norm_num) p2
      nlinarith
    · obtain ⟨j, rfl⟩ : ∃ j : ℕ, k = j := ⟨k.toNat, by omega⟩
      have e : 2 * (((j : ℤ) : ℝ)) * Real.log 2 = Real.log ((4 ^ j : ℕ) : ℝ) := by
        push_cast
        rw [Real.log_pow, show (4 : ℝ) = 2 ^ 2 by norm_num, Real.log_pow]
        push_cast; ring
      rw [e] at d1
      have q0 : (0 : ℝ) < ((4 ^ j : ℕ) : ℝ) := by positivity
      have ne : p ≠ 4 ^ j := by
        rintro rfl
        have := Nat.pow_mod 4 j 2
        rw [ho, show 4 % 2 = 0 by norm_num, Nat.zero_pow (by omega)] at this
        omega
      generalize 4 ^ j = q at *
      rcases lt_or_gt_of_ne ne with hlt | hgt
      · have h1 : (p : ℝ) + 1 ≤ q := by exact_mod_cast hlt
        have := Real.one_sub_inv_le_log_of_pos (show (0 : ℝ) < q / p by positivity)
        rw [Real.log_div q0.ne' (by linarith), inv_div] at this
        have : (p : ℝ) / q ≤ p / (p + 1) := by gcongr
        have e : (p : ℝ) / (p + 1) = 1 - 1 / (p + 1) := by field_simp; ring
        have : (1 : ℝ) / 1001 ≤ 1 / (p + 1) := one_div_le_one_div_of_le (by linarith) (by linarith)
        norm_num at *
        linarith
      · have h1 : (q : ℝ) + 1 ≤ p := by exact_mod_cast hgt
        have := Real.one_sub_inv_le_log_of_pos (show (0 : ℝ) < p / q by positivity)
        rw [Real.log_div (by linarith) q0.ne', inv_div] at this
        have : (q : ℝ) / p ≤ (p - 1) / p := by gcongr; linarith
        have e : ((p : ℝ) - 1) / p = 1 - 1 / p := by field_simp
        have : (1 : ℝ) / 1000 ≤ 1 / p := one_div_le_one_div_of_le (by linarith) (by linarith)
        norm_num at *
        linarith

/-- The zeta function at `1/2 + i` with 101 digits (tolerance 112). -/
example {E : RealEnv} (t0 : E.tol = 112) (hm : E.maxExp = 4944763836) (m : ℤ) (rg : List ℝ) {Z : ZEnv ℝ} (hd : Z.data = primeTable)
    (hT : Z.tab = tabR m rg) (hg : Z.digits = 101) (h1 : Z.toD 1 = 1) (hl : ∀ p : ℕ, p = 1 ∨ p.Prime → p ≤ 147 → LogFine E p) :
    ∃ r, FnC.zeta (realArith E) Z ⟨1 / 2, 1⟩ = some r ∧ ‖toC r - riemannZeta ⟨1 / 2, 1⟩‖ ≤ (10 : ℝ) ^ (-97 : ℤ) * (1 + ‖riemannZeta ⟨1 / 2, 1⟩‖) := by
  have hN : FnC.zetaN Z ⟨1 / 2, 1⟩ = 147 := by
    unfold FnC.zetaN
    rw [hg, h1, abs_one]
    decide +kernel
  obtain ⟨f, f1, f0⟩ := fact_pos E m rg (n := 293) (by norm_num)
  have nrm : ‖(2 : ℂ) ^ (1 - toC ⟨1 / 2, 1⟩)‖ = Real.sqrt 2 := by
    have := Complex.norm_natCast_cpow_of_pos (n := 2) (by norm_num) (1 - toC ⟨1 / 2, 1⟩)
    push_cast at this
    have re : (1 - toC ⟨1 / 2, 1⟩).re = 1 / 2 := by simp [toC]; norm_num
    rw [this, Real.sqrt_eq_rpow, re]
  have s2 : (14 / 10 : ℝ) ≤ Real.sqrt 2 := Real.le_sqrt_of_sq_le (by norm_num)
  have s3 : Real.sqrt 2 ≤ 15 / 10 := Real.sqrt_le_iff.2 (by norm_num)
  have D : 4 / 10 ≤ ‖1 - (2 : ℂ) ^ (1 - toC ⟨1 / 2, 1⟩)‖ := by
    have := norm_sub_norm_le ((2 : ℂ) ^ (1 - toC ⟨1 / 2, 1⟩)) 1
    rw [norm_one, nrm, norm_sub_rev] at this
    linarith
  have ns : ‖toC ⟨1 / 2, 1⟩‖ ≤ 3 / 2 := (norm_le_parts _).trans (by simp [toC]; norm_num)
  obtain ⟨r, r1, r2⟩ := C105_zeta_partial (E := E) (by omega) (by omega) (by rw [hm]; norm_num) (by rw [hm]; norm_num) hd (s := ⟨1 / 2, 1⟩)
    (by norm_num) (by norm_num) (by norm_num) (by norm_num) (by omega) (by omega) (f := f) (by rw [hN, hT]; exact f1) f0
    (fun p hp h => pow_fine_half (by omega) (by omega) (by rw [hm]; norm_num) (by rw [hm]; norm_num) hp (by omega) (hl p hp (by omega)))
    (by
      have := pow_fine_half (by omega) (by omega) (by rw [hm]; norm_num) (by rw [hm]; norm_num) (Or.inr Nat.prime_two) (by norm_num) (hl 2 (Or.inr Nat.prime_two) (by norm_num))
      norm_num
      norm_num at this
      exact this)
    rfl (by
      rw [nrm, t0]
      have : (12002 * (‖toC ⟨1 / 2, 1⟩‖ + 1) + 6000000000) * (10 : ℝ) ^ (-112 : ℤ) ≤ 7000000000 * (10 : ℝ) ^ (-112 : ℤ) := by gcongr; linarith
      have := mul_le_mul this s3 (by positivity) (by positivity)
      refine this.trans (le_trans ?_ (mul_le_mul_of_nonneg_left D (by norm_num)))
      norm_num) (norm_pos_iff.1 (by linarith))
  refine ⟨r, r1, r2.trans ?_⟩
  rw [hN, nrm, t0, div_le_iff₀ (by linarith)]
  have z0 := norm_nonneg (riemannZeta (toC ⟨1 / 2, 1⟩))
  have ez : ‖riemannZeta ⟨1 / 2, 1⟩‖ = ‖riemannZeta (toC ⟨1 / 2, 1⟩)‖ := rfl
  rw [ez]
  generalize ‖riemannZeta (toC ⟨1 / 2, 1⟩)‖ = z at *
  generalize ‖1 - (2 : ℂ) ^ (1 - toC ⟨1 / 2, 1⟩)‖ = d at *
  obtain ⟨ε, hε⟩ : ∃ ε, ε = (12002 * (‖toC ⟨1 / 2, 1⟩‖ + 1) + 6000000000) * (10 : ℝ) ^ (-112 : ℤ) := ⟨_, rfl⟩
  rw [← hε]
  have e0 : 0 ≤ ε := by rw [hε]; positivity
  have e1 : ε ≤ 7 * (10 : ℝ) ^ (-103 : ℤ) := by
    have : (12002 * (‖toC ⟨1 / 2, 1⟩‖ + 1) + 6000000000) * (10 : ℝ) ^ (-112 : ℤ) ≤ 7000000000 * (10 : ℝ) ^ (-112 : ℤ) := by gcongr; linarith
    rw [hε]; refine this.trans (le_of_eq ?_); norm_num
  have pe : Real.exp (Real.pi * |(1 : ℝ)| / 2) ≤ 8 := by
    rw [abs_one, mul_one]
    have e2 : Real.exp 2 = Real.exp 1 ^ 2 := by rw [← Real.exp_nat_mul]; norm_num
    have := Real.exp_one_lt_d9
    have e0 := Real.exp_pos 1
    refine (Real.exp_le_exp.2 (show Real.pi / 2 ≤ 2 by linarith [Real.pi_le_four])).trans ?_
    rw [e2]; nlinarith
  have a1 : (((147 : ℕ) : ℝ) + 1) / (291 / 50) ^ (147 - 1) * (‖toC ⟨1 / 2, 1⟩‖ / (1 / 2) * Real.exp (Real.pi * |(1 : ℝ)| / 2)) ≤ (10 : ℝ) ^ (-106 : ℤ) := by
    have : ‖toC ⟨1 / 2, 1⟩‖ / (1 / 2) * Real.exp (Real.pi * |(1 : ℝ)| / 2) ≤ 3 * 8 := by
      apply mul_le_mul _ pe (Real.exp_pos _).le (by norm_num)
      linarith
    refine (mul_le_mul_of_nonneg_left this (by positivity)).trans ?_
    norm_num
  have t : (0 : ℝ) < (10 : ℝ) ^ (-103 : ℤ) := by positivity
  have t6 : (10 : ℝ) ^ (-106 : ℤ) ≤ (10 : ℝ) ^ (-103 : ℤ) := zpow_le_zpow_right₀ (by norm_num) (by norm_num)
  have t7 : (10 : ℝ) ^ (-97 : ℤ) = 1000000 * (10 : ℝ) ^ (-103 : ℤ) := by norm_num
  rw [t7]
  have a1' := a1.trans t6
  clear t7 a1 t6 hε r2
  generalize (10 : ℝ) ^ (-103 : ℤ) = τ at *
  have a2 : 37 * ((147 : ℕ) : ℝ) * ε ≤ 40000 * τ := by push_cast; linarith
  have a3 : ε * Real.sqrt 2 * z ≤ 11 * τ * z := by
    refine mul_le_mul_of_nonneg_right ?_ z0
    have := mul_le_mul e1 s3 (by positivity) (by positivity)
    linarith
  have : 1000000 * τ * (1 + z) * (4 / 10) ≤ 1000000 * τ * (1 + z) * d := by gcongr
  refine le_trans ?_ this
  refine (mul_le_mul_of_nonneg_left (add_le_add (add_le_add a1' a2) a3) (by norm_num)).trans ?_
  have : 0 ≤ τ * z := by positivity
  linarith

end EFX.Props
