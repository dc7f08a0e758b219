import Verif.Props.GammaC
/-! C104: the Pochhammer symbol of complex arguments. -/

namespace EFX.Props
open EFX EFX.Stir

theorem pochLoopC (E : RealEnv) (z : Cx ℝ) : ∀ (k j : ℕ) (t v : Cx ℝ), toC t = toC z + j → toC v = (ascPochhammer ℂ (j + 1)).eval (toC z) →
    toC (FnC.pochLoop (realArith E) k t v) = (ascPochhammer ℂ (j + 1 + k)).eval (toC z) := by
  intro k
  induction k with
  | zero => intro j t v _ hv; simpa [FnC.pochLoop] using hv
  | succ k ih =>
    intro j t v ht hv
    rw [FnC.pochLoop]
    have h1 : toC (FnC.addR (realArith E) t ((realArith E).ofI 1)) = toC z + ((j + 1 : ℕ) : ℂ) := by
      rw [FnC.tc_addR, ht, ra_ofI]; push_cast; ring
    have := ih (j + 1) _ (FnC.mul (realArith E) v (FnC.addR (realArith E) t ((realArith E).ofI 1))) h1
      (by rw [FnC.tc_mul, h1, hv, ascPochhammer_succ_eval (n := j + 1)])
    rw [this, show j + 1 + 1 + k = j + 1 + (k + 1) by ring]

/-- C104: below 50 factors the symbol is the product, for every complex argument. -/
theorem C104_pochhammer_small (E : RealEnv) (T : Tab ℝ) (z : Cx ℝ) {n : ℕ} (hn : n < 50) :
    ∃ v, FnC.pochhammer (realArith E) T z n = some v ∧ toC v = (ascPochhammer ℂ n).eval (toC z) := by
  unfold FnC.pochhammer
  by_cases h0 : n = 0
  · rw [if_pos h0, h0]; exact ⟨_, rfl, by rw [FnC.tc_ofR, ra_one]; simp⟩
  rw [if_neg h0]
  by_cases h1 : n = 1
  · rw [if_pos h1, h1]; exact ⟨_, rfl, by simp⟩
  rw [if_neg h1, if_pos hn]
  refine ⟨_, rfl, ?_⟩
  have := pochLoopC E z (n - 1) 0 z z (by simp) (by simp)
  rw [show 0 + 1 + (n - 1) = n by omega] at this
  exact this

/-- The symbol as a quotient of gamma functions. -/
theorem asc_gamma {z : ℂ} (hz : ∀ m : ℕ, z ≠ -m) (n : ℕ) : (ascPochhammer ℂ n).eval z * Complex.Gamma z = Complex.Gamma (z + n) := by
  induction n with
  | zero => simp
  | succ n ih =>
    have hne : z + n ≠ 0 := fun h => hz n (eq_neg_of_add_eq_zero_left h)
    rw [ascPochhammer_succ_eval, show z + ((n + 1 : ℕ) : ℂ) = z + n + 1 by push_cast; ring, Complex.Gamma_add_one _ hne, ← ih]; ring

/-- C104: from 50 factors on, relative errors of the two gamma functions carry over. -/
theorem C104_pochhammer_partial (E : RealEnv) (T : Tab ℝ) {z : Cx ℝ} (hz : ∀ m : ℕ, toC z ≠ -m) {n : ℕ} (hn : 50 ≤ n) {p q : Cx ℝ} {ε : ℝ} (e0 : 0 ≤ ε) (e1 : ε ≤ 1 / 100)
    (hp : FnC.gamma (realArith E) T ⟨z.re + n, z.im⟩ = some p) (hq : FnC.gamma (realArith E) T z = some q)
    (hp' : ‖Complex.Gamma (toC z + n) - toC p‖ ≤ ε * ‖Complex.Gamma (toC z + n)‖) (hq' : ‖Complex.Gamma (toC z) - toC q‖ ≤ ε * ‖Complex.Gamma (toC z)‖) :
    ∃ v, FnC.pochhammer (realArith E) T z n = some v ∧ ‖(ascPochhammer ℂ n).eval (toC z) - toC v‖ ≤ 3 * ε * ‖(ascPochhammer ℂ n).eval (toC z)‖ := by
  have Gz := Complex.Gamma_ne_zero hz
  have Gp := norm_pos_iff.2 Gz
  have q1 : 99 / 100 * ‖Complex.Gamma (toC z)‖ ≤ ‖toC q‖ := by
    have := norm_sub_norm_le (Complex.Gamma (toC z)) (toC q)
    have := mul_le_mul_of_nonneg_right e1 Gp.le
    linarith
  have qp : 0 < ‖toC q‖ := by linarith
  have q0 : toC q ≠ 0 := norm_pos_iff.1 qp
  refine ⟨FnC.div (realArith E) p q, ?_, ?_⟩
  · unfold FnC.pochhammer
    rw [if_neg (by omega), if_neg (by omega), if_neg (by omega)]
    have e : FnC.addR (realArith E) z ((realArith E).ofI n) = ⟨z.re + n, z.im⟩ := by
      unfold FnC.addR; ra_simp; norm_cast
    rw [e, hp, hq]
    rfl
  · rw [FnC.tc_div _ _ _ q0]
    have hG := asc_gamma hz n
    rw [← hG] at hp'
    generalize (ascPochhammer ℂ n).eval (toC z) = A at *
    generalize Complex.Gamma (toC z) = G at *
    have e : A - toC p / toC q = ((A * G - toC p) - A * (G - toC q)) / toC q := by field_simp; ring
    rw [e, norm_div, div_le_iff₀ qp]
    have a1 := norm_sub_le (A * G - toC p) (A * (G - toC q))
    rw [norm_mul A (G - toC q)] at a1
    rw [norm_mul] at hp'
    have a2 := mul_le_mul_of_nonneg_left hq' (norm_nonneg A)
    have a3 := mul_le_mul_of_nonneg_left q1 (show 0 ≤ 3 * ε * ‖A‖ by positivity)
    have : 0 ≤ ε * (‖A‖ * ‖G‖) := by positivity
    nlinarith

theorem asc_norm {a n : ℕ} (hn : 1 ≤ n) {y : ℝ} :
    ‖toC ⟨((a + 1 : ℕ) : ℝ), y⟩‖ / (a + 1) * ((a + n).factorial / a.factorial) ≤ ‖(ascPochhammer ℂ n).eval (toC ⟨((a + 1 : ℕ) : ℝ), y⟩)‖ := by
  have fa : (0 : ℝ) < a.factorial := by exact_mod_cast a.factorial_pos
  induction n, hn using Nat.le_induction with
  | base =>
    rw [ascPochhammer_one, Polynomial.eval_X, Nat.factorial_succ]
    push_cast
    refine le_of_eq ?_
    field_simp
  | succ n hn ih =>
    rw [ascPochhammer_succ_eval, norm_mul, show a + (n + 1) = a + n + 1 by ring, Nat.factorial_succ]
    have h1 : ((a + n + 1 : ℕ) : ℝ) ≤ ‖toC ⟨((a + 1 : ℕ) : ℝ), y⟩ + n‖ := by
      have := Complex.abs_re_le_norm (toC ⟨((a + 1 : ℕ) : ℝ), y⟩ + n)
      refine le_trans ?_ this
      refine le_trans (le_of_eq ?_) (le_abs_self _)
      simp [toC]; ring
    calc _ = ‖toC ⟨((a + 1 : ℕ) : ℝ), y⟩‖ / (a + 1) * ((a + n).factorial / a.factorial) * ((a + n + 1 : ℕ) : ℝ) := by push_cast; ring
      _ ≤ _ := mul_le_mul ih h1 (by positivity) (norm_nonneg _)

/-- C104 refuted: for a positive integer real part the quotient within the table of the factorials is that of the real axis,
whatever the imaginary part; the modulus of the symbol is larger. -/
theorem C104_pochhammer_refuted (E : RealEnv) (T : Tab ℝ) {a n : ℕ} (hn : 50 ≤ n) (h1 : a + n + 1 < T.a142.length) (h2 : a + n < 4294967296) {y : ℝ} (hy : y ≠ 0) :
    (∃ f g v, T.a142[a + n]? = some f ∧ T.a142[a]? = some g ∧ FnC.pochhammer (realArith E) T ⟨((a + 1 : ℕ) : ℝ), y⟩ n = some v ∧ (g ≠ 0 → v = ⟨f / g, 0⟩)) ∧
    ((a + n).factorial / a.factorial : ℝ) < ‖(ascPochhammer ℂ n).eval (toC ⟨((a + 1 : ℕ) : ℝ), y⟩)‖ := by
  constructor
  · obtain ⟨⟨f, f1, f2, -⟩, -⟩ := C102_integer_refuted E T (a + n) h1 h2 hy
    obtain ⟨⟨g, g1, g2, -⟩, -⟩ := C102_integer_refuted E T a (by omega) (by omega) hy
    refine ⟨f, g, FnC.div (realArith E) ⟨f, 0⟩ ⟨g, 0⟩, f1, g1, ?_, fun g0 => ?_⟩
    · unfold FnC.pochhammer
      rw [if_neg (by omega), if_neg (by omega), if_neg (by omega)]
      have e : FnC.addR (realArith E) ⟨((a + 1 : ℕ) : ℝ), y⟩ ((realArith E).ofI n) = ⟨((a + n + 1 : ℕ) : ℝ), y⟩ := by
        unfold FnC.addR; ra_simp; push_cast; ring_nf
      rw [e, f2, g2]
      rfl
    · simp only [FnC.div, FnC.norm, ra_mul, ra_add, ra_sub, ra_inv]
      rw [show (⟨f / g, 0⟩ : Cx ℝ) = ⟨(f * g + 0 * 0) * (g * g + 0 * 0)⁻¹, (0 * g - f * 0) * (g * g + 0 * 0)⁻¹⟩ by
        congr 1
        · field_simp; ring
        · simp]
  · refine lt_of_lt_of_le ?_ (asc_norm (by omega))
    have np : (0 : ℝ) < (a : ℝ) + 1 := by positivity
    have q : (0 : ℝ) < (a + n).factorial / a.factorial := div_pos (by exact_mod_cast (a + n).factorial_pos) (by exact_mod_cast a.factorial_pos)
    have hs : (a : ℝ) + 1 < ‖toC ⟨((a + 1 : ℕ) : ℝ), y⟩‖ := by
      have h := norm_eq ⟨((a + 1 : ℕ) : ℝ), y⟩
      simp only [Cx.norm] at h
      rw [show (((a + 1 : ℕ) : ℝ)) * ((a + 1 : ℕ) : ℝ) = (a + 1) * (a + 1) by push_cast; ring] at h
      have y2 : 0 < y * y := mul_self_pos.2 hy
      by_contra hc
      have := mul_self_le_mul_self (norm_nonneg _) (not_lt.1 hc)
      nlinarith
    have : 1 < ‖toC ⟨((a + 1 : ℕ) : ℝ), y⟩‖ / (a + 1) := by rw [one_lt_div np]; exact hs
    nlinarith

/-- A case: with the tables of the source `pochhammer(1 + i, 50)` is a real number. -/
example (E : RealEnv) (m : ℤ) (rg : List ℝ) :
    ∃ f g v, (tabR m rg).a142[50]? = some f ∧ (tabR m rg).a142[0]? = some g ∧ FnC.pochhammer (realArith E) (tabR m rg) ⟨1, 1⟩ 50 = some v ∧ (g ≠ 0 → v = ⟨f / g, 0⟩) := by
  have := (C104_pochhammer_refuted E (tabR m rg) (a := 0) (n := 50) le_rfl (by rw [(tabR_len m rg).1]; norm_num) (by norm_num) (y := 1) (by norm_num)).1
  simpa using this

end EFX.Props
