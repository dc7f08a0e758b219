import Mathlib.Tactic.FieldSimp
import Mathlib.Tactic.Linarith
import Mathlib.Tactic.Ring
import Mathlib.Data.Int.Log
import Verif.Model.GenericR
/-! C96: generic integer powers; C97: the generic square root. -/

namespace EFX.Props
open EFX

/-! ## C96 powers -/

theorem dblLoop_spec {α : Type} [Monoid α] (t : α) (p n : ℕ) (hn : 0 < n) (hp : n ≤ p) :
    ∃ k, n ≤ k ∧ k ≤ p ∧ Gf.dblLoop (· * ·) p n (t ^ n) = (k, t ^ k) := by
  induction h : p - n using Nat.strong_induction_on generalizing n with
  | _ d ih =>
    unfold Gf.dblLoop
    by_cases h2 : 0 < n ∧ n ≤ p / 2
    · rw [dif_pos h2, show t ^ n * t ^ n = t ^ (2 * n) by rw [← pow_add]; congr 1; ring]
      obtain ⟨k, k1, k2, k3⟩ := ih (p - 2 * n) (by omega) (2 * n) (by omega) (by omega) rfl
      exact ⟨k, by omega, k2, k3⟩
    · rw [dif_neg h2]
      exact ⟨n, le_refl _, hp, rfl⟩

theorem gpownNat_spec {α : Type} [Monoid α] (t : α) (p : ℕ) : Gf.pownNat 1 (· * ·) t p = t ^ p := by
  induction p using Nat.strong_induction_on with
  | _ p ih =>
    unfold Gf.pownNat
    by_cases h0 : p = 0
    · rw [if_pos h0, h0, pow_zero]
    rw [if_neg h0]
    by_cases h1 : p = 1
    · rw [if_pos h1, h1, pow_one]
    rw [if_neg h1]
    by_cases h2 : p = 2
    · rw [if_pos h2, h2, pow_two]
    rw [if_neg h2]
    by_cases h3 : p = 3
    · rw [if_pos h3, h3, pow_succ, pow_two]
    rw [if_neg h3]
    by_cases h4 : p = 4
    · rw [if_pos h4, h4]
      simp only
      rw [← pow_two, ← pow_two, ← pow_mul]
    rw [if_neg h4]
    obtain ⟨k, k1, k2, k3⟩ := dblLoop_spec t p 1 one_pos (by omega)
    rw [pow_one] at k3
    simp only [k3]
    by_cases h5 : p - k = 0
    · rw [if_pos h5]; congr 1; omega
    · rw [if_neg h5, ih (p - k) (by omega), ← pow_add]; congr 1; omega

/-- C96: the generic power is `t` multiplied `|p|` times, or the quotient of one by it, for every number type with
associative multiplication and every 64-bit exponent but the smallest. -/
theorem C96_pown_partial {α : Type} [Monoid α] (G : Gen α) (hm : G.mul = (· * ·)) (h1 : G.ofI 1 = 1) (t : α) (p : ℤ)
    (hp : -2 ^ 63 < p) :
    Gf.pown G t p = some (if p < 0 then G.div 1 (t ^ p.natAbs) else t ^ p.natAbs) := by
  unfold Gf.pown
  rw [hm, h1, gpownNat_spec]
  by_cases h : p < 0
  · rw [if_pos h, if_pos h, if_neg (by intro h2; rw [h2] at hp; norm_num at hp)]
  · rw [if_neg h, if_neg h]

/-- C96 at the smallest exponent: the negation overflows, for every number type. -/
theorem C96_min_refuted {α : Type} (G : Gen α) (t : α) : Gf.pown G t (-2 ^ 63) = none := by
  unfold Gf.pown
  rw [if_pos (by norm_num), if_pos (by norm_num)]

example (E : GenEnv) : Gf.pown (realGen E) 3 13 = some ((3 : ℝ) ^ 13) :=
  (C96_pown_partial (realGen E) rfl (by show ((1 : ℤ) : ℝ) = 1; norm_num) 3 13 (by norm_num)).trans (by norm_num)

/-! ## C97 square root -/

theorem rg_lt (E : GenEnv) (x y : ℝ) : ((realGen E).lt x y = true) = (x < y) := by simp [realGen]

/-- The predicates of the generic functions in exact arithmetic. -/
theorem rg_isneg (E : GenEnv) (x : ℝ) : (Gf.isneg (realGen E) x = true) = (x < 0) := by
  unfold Gf.isneg
  rw [rg_lt]
  simp [realGen]

theorem rg_fabs (E : GenEnv) (x : ℝ) : Gf.fabs (realGen E) x = |x| := by
  unfold Gf.fabs
  simp only [rg_isneg]
  split
  · rename_i h; rw [abs_of_neg h]; rfl
  · rename_i h; rw [abs_of_nonneg (not_lt.1 h)]

theorem rg_iszero (E : GenEnv) (x : ℝ) : (Gf.iszero (realGen E) x = true) = (|x| < 2 * E.minv) := by
  unfold Gf.iszero
  rw [rg_lt, rg_fabs]
  simp [realGen, mul_comm]

theorem rg_isone (E : GenEnv) (x : ℝ) : (Gf.isone (realGen E) x = true) = (|1 - x| < 2 * E.minv) := by
  unfold Gf.isone
  rw [rg_iszero]
  simp [realGen]

/-- One round of the coupled iteration, in terms of the relative errors `e` of the root and `f` of `1/(2 root)`. -/
theorem coupled_step {e f W : ℝ} (W0 : 0 ≤ W) (W1 : W ≤ 1 / 10 ^ 10) (he : |e| ≤ W / 5) (hf : f ^ 2 ≤ W / 5) :
    |(1 + f) * (2 - (1 + e) * (1 + f)) - 1| ≤ W * (42 / 100) ∧
    |(1 + e) + (1 + f) * (2 - (1 + e) * (1 + f)) * (1 - (1 + e) ^ 2) / 2 - 1| ≤ W ^ 2 / 5 := by
  have f1 : |f| ≤ 1 / 100 := by
    rw [abs_le]; constructor <;> nlinarith
  have fa := abs_nonneg f
  have ea := abs_nonneg e
  have e1 : (1 + f) * (2 - (1 + e) * (1 + f)) - 1 = -(e + 2 * (e * f) + f ^ 2 + e * f ^ 2) := by ring
  have f2 : |f ^ 2| ≤ W / 5 := by rw [abs_of_nonneg (sq_nonneg f)]; exact hf
  have b1 : |e * f| ≤ W / 5 * (1 / 100) := by rw [abs_mul]; exact mul_le_mul he f1 fa (by linarith)
  have b2 : |e * f ^ 2| ≤ W / 5 * (W / 5) := by rw [abs_mul]; exact mul_le_mul he f2 (abs_nonneg _) (by linarith)
  have b3 : W / 5 * (W / 5) ≤ W / 100 := by nlinarith
  have h1 : |(1 + f) * (2 - (1 + e) * (1 + f)) - 1| ≤ W * (42 / 100) := by
    rw [e1, abs_neg]
    have t1 := abs_add_le (e + 2 * (e * f) + f ^ 2) (e * f ^ 2)
    have t2 := abs_add_le (e + 2 * (e * f)) (f ^ 2)
    have t3 := abs_add_le e (2 * (e * f))
    rw [abs_mul, abs_of_pos (by norm_num : (0 : ℝ) < 2)] at t3
    linarith
  refine ⟨h1, ?_⟩
  obtain ⟨g, hg⟩ : ∃ g, g = (1 + f) * (2 - (1 + e) * (1 + f)) - 1 := ⟨_, rfl⟩
  rw [show (1 + f) * (2 - (1 + e) * (1 + f)) = 1 + g by rw [hg]; ring]
  rw [← hg] at h1
  have e2 : (1 + e) + (1 + g) * (1 - (1 + e) ^ 2) / 2 - 1 = -(e ^ 2 / 2 + g * e + g * e ^ 2 / 2) := by ring
  rw [e2, abs_neg]
  have c1 : |e ^ 2| ≤ (W / 5) ^ 2 := by rw [abs_pow]; exact pow_le_pow_left₀ ea he 2
  have c2 : |g * e| ≤ W * (42 / 100) * (W / 5) := by rw [abs_mul]; exact mul_le_mul h1 he ea (by linarith)
  have c3 : |g * e ^ 2| ≤ W * (42 / 100) * (W / 5) ^ 2 := by rw [abs_mul]; exact mul_le_mul h1 c1 (abs_nonneg _) (by linarith)
  have t1 := abs_add_le (e ^ 2 / 2 + g * e) (g * e ^ 2 / 2)
  have t2 := abs_add_le (e ^ 2 / 2) (g * e)
  rw [abs_div, abs_of_pos (by norm_num : (0 : ℝ) < 2)] at t1 t2
  have c4 : W * (42 / 100) * (W / 5) ^ 2 ≤ W ^ 2 / 100 := by nlinarith [sq_nonneg W]
  nlinarith

theorem sqrtLoop_acc (E : GenEnv) {x s : ℝ} (hs : 0 < s) (hx : x = s ^ 2) : ∀ (fuel : ℕ) (d : ℤ) (r v W : ℝ),
    0 < d → E.digits10 < d * 2 ^ fuel → W = (10 : ℝ) ^ (-d) → 10 ≤ d →
    |r / s - 1| ≤ W / 5 → (2 * s * v - 1) ^ 2 ≤ W / 5 →
    |Gf.sqrtLoop (realGen E) x fuel d r v / s - 1| ≤ (10 : ℝ) ^ (-E.digits10 - 1) / 5
  | 0, d, r, v, W, d0, hd, hW, d10, hr, hv => by
    unfold Gf.sqrtLoop
    refine hr.trans ?_
    rw [hW]
    refine div_le_div_of_nonneg_right (zpow_le_zpow_right₀ (by norm_num) ?_) (by norm_num)
    norm_num at hd; omega
  | fuel + 1, d, r, v, W, d0, hd, hW, d10, hr, hv => by
    unfold Gf.sqrtLoop
    by_cases h : d ≤ (realGen E).digits10
    · rw [if_pos h]
      have W0 : 0 ≤ W := by rw [hW]; positivity
      have W1 : W ≤ 1 / 10 ^ 10 := by
        rw [hW]
        calc (10 : ℝ) ^ (-d) ≤ (10 : ℝ) ^ (-10 : ℤ) := zpow_le_zpow_right₀ (by norm_num) (by omega)
          _ = 1 / 10 ^ 10 := by norm_num
      obtain ⟨e, he⟩ : ∃ e, e = r / s - 1 := ⟨_, rfl⟩
      obtain ⟨f, hf⟩ : ∃ f, f = 2 * s * v - 1 := ⟨_, rfl⟩
      have re : r = s * (1 + e) := by rw [he]; field_simp; ring
      have ve : v = (1 + f) / (2 * s) := by rw [hf]; field_simp; ring
      rw [← he] at hr; rw [← hf] at hv
      obtain ⟨h1, h2⟩ := coupled_step W0 W1 hr hv
      have W2 : W ^ 2 = (10 : ℝ) ^ (-(d * 2)) := by
        rw [hW, ← zpow_natCast, ← zpow_mul]; congr 1; push_cast; ring
      refine sqrtLoop_acc E hs hx fuel (d * 2) _ _ (W ^ 2) (by omega) (by rw [pow_succ] at hd; linarith) W2 (by omega) ?_ ?_
      · refine le_of_eq_of_le (congrArg abs ?_) h2
        simp only [realGen]
        rw [re, ve, hx]
        push_cast
        field_simp
        ring
      · have e1 : 2 * s * ((realGen E).add v ((realGen E).mul v ((realGen E).add ((realGen E).neg ((realGen E).mulI
            ((realGen E).mul r v) 2)) ((realGen E).ofI 1)))) - 1 = (1 + f) * (2 - (1 + e) * (1 + f)) - 1 := by
          simp only [realGen]
          rw [re, ve]
          push_cast
          field_simp
          ring
        rw [e1, ← sq_abs]
        have := pow_le_pow_left₀ (abs_nonneg _) h1 2
        nlinarith [sq_nonneg W]
    · rw [if_neg h]
      refine hr.trans ?_
      rw [hW]
      refine div_le_div_of_nonneg_right (zpow_le_zpow_right₀ (by norm_num) ?_) (by norm_num)
      have : E.digits10 < d := not_le.1 h
      omega

theorem grel_of {a b c : ℝ} (hb : 0 < b) (h : |a - b| ≤ c * b) : ∃ ρ, |ρ| ≤ c ∧ a = b * (1 + ρ) := by
  refine ⟨a / b - 1, ?_, by field_simp; ring⟩
  rw [show a / b - 1 = (a - b) / b by field_simp, abs_div, abs_of_pos hb, div_le_iff₀ hb]
  exact h

theorem grel_mul {a b c d : ℝ} (ha : |a| ≤ c) (hb : |b| ≤ d) : |(1 + a) * (1 + b) - 1| ≤ c + d + c * d := by
  have e : (1 + a) * (1 + b) - 1 = a + b + a * b := by ring
  have h : |a * b| ≤ c * d := by rw [abs_mul]; exact mul_le_mul ha hb (abs_nonneg _) ((abs_nonneg _).trans ha)
  rw [e]
  have a1 := abs_add_le (a + b) (a * b)
  have a2 := abs_add_le a b
  linarith

theorem grel_div {a b c d : ℝ} (ha : |a| ≤ c) (hb : |b| ≤ d) (hd : d < 1) : |(1 + a) / (1 + b) - 1| ≤ (c + d) / (1 - d) := by
  have h := abs_le.1 hb
  have p : 0 < 1 + b := by linarith
  have e : (1 + a) / (1 + b) - 1 = (a - b) / (1 + b) := by field_simp; ring
  rw [e, abs_div, abs_of_pos p]
  have a2 := abs_sub a b
  have c0 := (abs_nonneg a).trans ha
  have d0 := (abs_nonneg b).trans hb
  exact div_le_div₀ (by linarith) (by linarith) (by linarith) (by linarith)

theorem sqrt_one_add {ρ c : ℝ} (h : |ρ| ≤ c) (hc : c ≤ 1) : ∃ σ, |σ| ≤ c ∧ Real.sqrt (1 + ρ) = 1 + σ := by
  obtain ⟨h1, h2⟩ := abs_le.1 h
  have hc0 := (abs_nonneg ρ).trans h
  refine ⟨Real.sqrt (1 + ρ) - 1, ?_, by ring⟩
  rw [abs_le]
  constructor
  · have : 1 - c ≤ Real.sqrt (1 + ρ) := Real.le_sqrt_of_sq_le (by nlinarith)
    linarith
  · have : Real.sqrt (1 + ρ) ≤ 1 + c := Real.sqrt_le_iff.2 ⟨by linarith, by nlinarith⟩
    linarith

/-- The mantissa and the exponent of a positive number. -/
theorem frexp_pos {E : GenEnv} (hE : E.Good) {x : ℝ} (hx : 0 < x) :
    ∃ ρ : ℝ, |ρ| ≤ 2 / 10 ^ 16 ∧ 0 < (E.frexp x).1 ∧ ((E.frexp x).1 : ℝ) * 10 ^ (E.frexp x).2 = x * (1 + ρ) := by
  have h := hE.frexp_val x hx.ne'
  rw [abs_of_pos hx] at h
  obtain ⟨ρ, h1, h2⟩ := grel_of hx h
  refine ⟨ρ, h1, ?_, h2⟩
  have h3 := (abs_le.1 h1).1
  have : (0 : ℝ) < x * (1 + ρ) := mul_pos hx (by norm_num at h3 ⊢; linarith)
  rw [← h2] at this
  have h4 := pos_of_mul_pos_left this (by positivity)
  exact_mod_cast h4

theorem inDouble_of {q : ℝ} (h1 : 1 / 10 ^ 20 ≤ q) (h2 : q ≤ 10 ^ 20) : InDouble q := by
  have : (10 : ℝ) ^ 20 ≤ 10 ^ 305 := pow_le_pow_right₀ (by norm_num) (by norm_num)
  exact ⟨(one_div_le_one_div_of_le (by positivity) this).trans h1, h2.trans this⟩

theorem sqrtStart_acc {E : GenEnv} (hE : E.Good) {x : ℝ} (hx : 0 < x) :
    |(Gf.sqrtStart (realGen E) x).1 / Real.sqrt x - 1| ≤ 11 / 10 ^ 16 ∧
    |2 * Real.sqrt x * (Gf.sqrtStart (realGen E) x).2 - 1| ≤ 2 / 10 ^ 15 := by
  obtain ⟨ρ, r1, mp, r2⟩ := frexp_pos hE hx
  have sp := Real.sqrt_pos.2 hx
  -- after the exponent has been made even
  obtain ⟨dd, h, σ, db, s1, hdd, hst⟩ : ∃ (dd : ℚ) (h : ℤ) (σ : ℝ), (9 / 100 ≤ (dd : ℝ) ∧ (dd : ℝ) ≤ 10) ∧ |σ| ≤ 33 / 10 ^ 17 ∧ (dd : ℝ) * (10 ^ h) ^ 2 = x * (1 + σ) ∧
      Gf.sqrtStart (realGen E) x = (E.ofText (E.dsqrt dd) h, E.ofText (E.ddiv (1 / 2) (E.dsqrt dd)) (-h)) := by
    unfold Gf.sqrtStart
    show ∃ (dd : ℚ) (h : ℤ) (σ : ℝ), (9 / 100 ≤ (dd : ℝ) ∧ (dd : ℝ) ≤ 10) ∧ |σ| ≤ 33 / 10 ^ 17 ∧ (dd : ℝ) * (10 ^ h) ^ 2 = x * (1 + σ) ∧
      (E.ofText (E.dsqrt (if Int.tmod (E.frexp x).2 2 ≠ 0 then E.ddiv (E.frexp x).1 10 else (E.frexp x).1))
        (Int.tdiv (if Int.tmod (E.frexp x).2 2 ≠ 0 then (E.frexp x).2 + 1 else (E.frexp x).2) 2),
       E.ofText (E.ddiv (1 / 2) (E.dsqrt (if Int.tmod (E.frexp x).2 2 ≠ 0 then E.ddiv (E.frexp x).1 10 else (E.frexp x).1)))
        (Int.tdiv (-(if Int.tmod (E.frexp x).2 2 ≠ 0 then (E.frexp x).2 + 1 else (E.frexp x).2)) 2)) = _
    have mb := hE.frexp_range x hx.ne'
    rw [abs_of_pos (by exact_mod_cast mp)] at mb
    generalize (E.frexp x).1 = m at *
    generalize (E.frexp x).2 = e at *
    have even : ∀ n : ℤ, n % 2 = 0 → Int.tdiv n 2 = n / 2 ∧ Int.tdiv (-n) 2 = -(n / 2) := by
      intro n hn
      obtain ⟨k, rfl⟩ : ∃ k, n = 2 * k := ⟨n / 2, by omega⟩
      refine ⟨by rw [Int.mul_tdiv_cancel_left _ (by norm_num)]; omega, ?_⟩
      rw [show -(2 * k) = 2 * -k by ring, Int.mul_tdiv_cancel_left _ (by norm_num)]; omega
    have tm : Int.tmod e 2 ≠ 0 ↔ e % 2 = 1 := by
      rw [Int.tmod_eq_emod]; split <;> omega
    by_cases he : e % 2 = 1
    · simp only [if_pos (tm.2 he)]
      obtain ⟨d1, d2⟩ := even (e + 1) (by omega)
      have q0 : (0 : ℝ) < (m : ℝ) / ((10 : ℚ) : ℝ) := by
        have : (0 : ℝ) < m := by exact_mod_cast mp
        push_cast; positivity
      have qb : 1 / 10 ≤ (m : ℝ) / ((10 : ℚ) : ℝ) ∧ (m : ℝ) / ((10 : ℚ) : ℝ) ≤ 1 := by
        push_cast; constructor <;> linarith [mb.1, mb.2]
      have hd := hE.ddiv_val m 10 (by rw [abs_of_pos q0]; exact inDouble_of (le_trans (by norm_num) qb.1) (qb.2.trans (by norm_num)))
      rw [abs_of_pos q0] at hd
      obtain ⟨τ, t1, t2⟩ := grel_of q0 hd
      have t3 := abs_le.1 t1
      refine ⟨E.ddiv m 10, (e + 1) / 2, (1 + ρ) * (1 + τ) - 1, ?_, ?_, ?_, ?_⟩
      · rw [t2]
        norm_num at t3 qb ⊢
        constructor <;> nlinarith
      · exact (grel_mul r1 t1).trans (by norm_num)
      · rw [t2, ← zpow_natCast, ← zpow_mul, show ((e + 1) / 2 * ((2 : ℕ) : ℤ)) = e + 1 by push_cast; omega,
          zpow_add₀ (by norm_num), zpow_one]
        push_cast
        linear_combination (1 + τ) * r2
      · rw [d1, d2]
    · simp only [if_neg (fun h => he (tm.1 h))]
      obtain ⟨d1, d2⟩ := even e (by omega)
      refine ⟨m, e / 2, ρ, ⟨by linarith [mb.1], mb.2⟩, r1.trans (by norm_num), ?_, ?_⟩
      · rw [← zpow_natCast, ← zpow_mul, show (e / 2 * ((2 : ℕ) : ℤ)) = e by push_cast; omega, r2]
      · rw [d1, d2]
  rw [hst]
  simp only
  have dr : (0 : ℝ) < dd := by linarith [db.1]
  have sb : 3 / 10 ≤ Real.sqrt dd ∧ Real.sqrt dd ≤ 4 := by
    constructor
    · exact Real.le_sqrt_of_sq_le (by linarith [db.1])
    · exact Real.sqrt_le_iff.2 ⟨by norm_num, by linarith [db.2]⟩
  have P : (0 : ℝ) < (10 : ℝ) ^ h := by positivity
  obtain ⟨κ, k1, k2⟩ := grel_of (Real.sqrt_pos.2 dr) (hE.dsqrt_val dd (inDouble_of (le_trans (by norm_num) db.1) (db.2.trans (by norm_num))))
  obtain ⟨ω, w1, w2⟩ := sqrt_one_add s1 (by norm_num)
  have root : Real.sqrt dd * (10 : ℝ) ^ h = Real.sqrt x * (1 + ω) := by
    rw [← w2, ← Real.sqrt_mul hx.le, ← hdd, Real.sqrt_mul dr.le, Real.sqrt_sq P.le]
  have sqb : 2 / 10 ≤ (E.dsqrt dd : ℝ) ∧ (E.dsqrt dd : ℝ) ≤ 5 := by
    rw [k2]
    have h2 := abs_le.1 k1
    norm_num at h2 sb ⊢
    constructor <;> nlinarith
  have sqp : (0 : ℝ) < E.dsqrt dd := by linarith [sqb.1]
  obtain ⟨α, a1, a2⟩ := grel_of (mul_pos sqp P) (hE.text_val (E.dsqrt dd) h (inDouble_of (le_trans (by norm_num) sqb.1) (sqb.2.trans (by norm_num))))
  have q0 : (0 : ℝ) < ((1 / 2 : ℚ) : ℝ) / (E.dsqrt dd : ℝ) := by push_cast; positivity
  have qb : 1 / 10 ≤ ((1 / 2 : ℚ) : ℝ) / (E.dsqrt dd : ℝ) ∧ ((1 / 2 : ℚ) : ℝ) / (E.dsqrt dd : ℝ) ≤ 3 := by
    push_cast
    rw [le_div_iff₀ sqp, div_le_iff₀ sqp]
    constructor <;> linarith [sqb.1, sqb.2]
  have hdv := hE.ddiv_val (1 / 2) (E.dsqrt dd) (by rw [abs_of_pos q0]; exact inDouble_of (le_trans (by norm_num) qb.1) (qb.2.trans (by norm_num)))
  rw [abs_of_pos q0] at hdv
  obtain ⟨β, b1, b2⟩ := grel_of q0 hdv
  have vb : 5 / 100 ≤ (E.ddiv (1 / 2) (E.dsqrt dd) : ℝ) ∧ (E.ddiv (1 / 2) (E.dsqrt dd) : ℝ) ≤ 4 := by
    rw [b2]
    have h2 := abs_le.1 b1
    generalize ((1 / 2 : ℚ) : ℝ) / (E.dsqrt dd : ℝ) = y at qb
    norm_num at h2 ⊢
    constructor <;> nlinarith
  have vp : (0 : ℝ) < E.ddiv (1 / 2) (E.dsqrt dd) := by linarith [vb.1]
  have Pn : (0 : ℝ) < (10 : ℝ) ^ (-h) := by positivity
  obtain ⟨γ, g1, g2⟩ := grel_of (mul_pos vp Pn) (hE.text_val _ (-h) (inDouble_of (le_trans (by norm_num) vb.1) (vb.2.trans (by norm_num))))
  have c1 := abs_le.1 k1
  have c2 := abs_le.1 w1
  have c3 := abs_le.1 a1
  have c4 := abs_le.1 b1
  have c5 := abs_le.1 g1
  constructor
  · have e1 : E.ofText (E.dsqrt dd) h / Real.sqrt x - 1 = (1 + ω) * (1 + κ) * (1 + α) - 1 := by
      rw [a2, k2]
      have : Real.sqrt dd * (1 + κ) * (10 : ℝ) ^ h * (1 + α) = (Real.sqrt dd * (10 : ℝ) ^ h) * (1 + κ) * (1 + α) := by ring
      rw [this, root]; field_simp
    rw [e1]
    obtain ⟨z, hz⟩ : ∃ z, z = (1 + ω) * (1 + κ) - 1 := ⟨_, rfl⟩
    have h1 := grel_mul w1 k1
    rw [← hz] at h1
    rw [show (1 + ω) * (1 + κ) = 1 + z by rw [hz]; ring]
    exact (grel_mul h1 a1).trans (by norm_num)
  · have e1 : 2 * Real.sqrt x * E.ofText (E.ddiv (1 / 2) (E.dsqrt dd)) (-h) - 1 = (1 + β) * (1 + γ) / ((1 + ω) * (1 + κ)) - 1 := by
      have z1 : 1 + ω ≠ 0 := by norm_num at c2 ⊢; linarith
      have z2 : 1 + κ ≠ 0 := by norm_num at c1 ⊢; linarith
      have : Real.sqrt x = Real.sqrt dd * (10 : ℝ) ^ h / (1 + ω) := by rw [root]; field_simp
      rw [g2, b2, k2, zpow_neg, this]
      have := Real.sqrt_pos.2 dr
      push_cast
      field_simp
    rw [e1]
    obtain ⟨z, hz⟩ : ∃ z, z = (1 + ω) * (1 + κ) - 1 := ⟨_, rfl⟩
    obtain ⟨y, hy⟩ : ∃ y, y = (1 + β) * (1 + γ) - 1 := ⟨_, rfl⟩
    have h1 := grel_mul w1 k1
    have h2 := grel_mul b1 g1
    rw [← hz] at h1
    rw [← hy] at h2
    rw [show (1 + ω) * (1 + κ) = 1 + z by rw [hz]; ring, show (1 + β) * (1 + γ) = 1 + y by rw [hy]; ring]
    exact (grel_div h2 h1 (by norm_num)).trans (by norm_num)

/-- C97: for a number type with exact operations the generic square root of every number from `2 min()` on has a relative
error of at most `10^-(digits10 + 1) / 5`, for every digit count up to `2^30`; negative arguments give NaN. -/
theorem C97_sqrt_partial {E : GenEnv} (hE : E.Good) (x : ℝ) :
    (2 * E.minv ≤ x → |Gf.sqrt (realGen E) x - Real.sqrt x| ≤ (10 : ℝ) ^ (-E.digits10 - 1) / 5 * Real.sqrt x) ∧
    (x < 0 → Gf.sqrt (realGen E) x = E.nan) := by
  have mp := hE.min_pos
  unfold Gf.sqrt
  simp only [Bool.or_eq_true, rg_isneg, rg_iszero, rg_isone]
  constructor
  · intro hx
    have x0 : 0 < x := by linarith
    have sp := Real.sqrt_pos.2 x0
    rw [if_neg (by linarith)]
    by_cases h1 : |1 - x| < 2 * E.minv
    · rw [if_pos (Or.inr h1)]
      have e : x - Real.sqrt x = (Real.sqrt x - 1) * Real.sqrt x := by
        have := Real.mul_self_sqrt x0.le
        linear_combination -this
      rw [e, abs_mul, abs_of_pos sp]
      refine mul_le_mul_of_nonneg_right ?_ sp.le
      have h2 : |Real.sqrt x - 1| ≤ |1 - x| := by
        have e2 : 1 - x = -((Real.sqrt x - 1) * (Real.sqrt x + 1)) := by
          have := Real.mul_self_sqrt x0.le
          linear_combination this
        rw [e2, abs_neg, abs_mul, abs_of_pos (by linarith : 0 < Real.sqrt x + 1)]
        exact le_mul_of_one_le_right (abs_nonneg _) (by linarith)
      have h3 := hE.min_le
      have e3 : (10 : ℝ) ^ (-E.digits10 - 1) = 10 * (10 : ℝ) ^ (-E.digits10 - 2) := by
        rw [show -E.digits10 - 1 = (-E.digits10 - 2) + 1 by ring, zpow_add₀ (by norm_num), zpow_one]; ring
      rw [e3]; linarith
    · rw [if_neg (by rintro (h | h) <;> [(rw [abs_of_pos x0] at h; linarith); exact h1 h])]
      obtain ⟨s1, s2⟩ := sqrtStart_acc hE x0
      have d0 := hE.dig0
      have d1 := hE.dig1
      have h := sqrtLoop_acc E sp (Real.sq_sqrt x0.le).symm 32 14 _ _ _ (by norm_num) (by norm_num at d1 ⊢; omega) rfl (by norm_num)
        (s1.trans (by norm_num)) (by
          rw [← sq_abs]
          exact (pow_le_pow_left₀ (abs_nonneg _) s2 2).trans (by norm_num))
      have e : ∀ y : ℝ, y - Real.sqrt x = (y / Real.sqrt x - 1) * Real.sqrt x := fun y => by field_simp
      rw [e, abs_mul, abs_of_pos sp]
      exact mul_le_mul_of_nonneg_right h sp.le
  · intro hx
    rw [if_pos hx]; rfl

/-- C97 below `2 min()`: the code returns the argument itself, which for small positive numbers is far below the root. -/
theorem C97_tiny_refuted {E : GenEnv} (h1 : E.minv < 1 / 8) {x : ℝ} (h0 : 0 < x) (hx : x < 2 * E.minv) :
    Gf.sqrt (realGen E) x = x ∧ x < Real.sqrt x / 2 := by
  unfold Gf.sqrt
  simp only [Bool.or_eq_true, rg_isneg, rg_iszero, rg_isone]
  rw [if_neg (by linarith), if_pos (Or.inl (by rwa [abs_of_pos h0]))]
  refine ⟨rfl, ?_⟩
  have sp := Real.sqrt_pos.2 h0
  have h2 : Real.sqrt x < 1 / 2 := (Real.sqrt_lt' (by norm_num)).2 (by linarith)
  have := Real.mul_self_sqrt h0.le
  nlinarith

/-- Parameters as assumed exist, for every digit count. -/
theorem good_exists_min (D : ℤ) (h0 : 0 ≤ D) (h1 : D ≤ 2 ^ 30) {μ : ℝ} (m0 : 0 < μ) (m1 : μ ≤ (10 : ℝ) ^ (-D - 2)) :
    ∃ E : GenEnv, E.Good ∧ E.digits10 = D ∧ E.minv = μ := by
  have near : ∀ x : ℝ, 0 < x → ∃ q : ℚ, 0 < q ∧ |(q : ℝ) - x| ≤ 1 / 10 ^ 17 * x := by
    intro x hx
    obtain ⟨q, q1, q2⟩ := exists_rat_btwn (show x < x * (1 + 1 / 10 ^ 17) by linarith [show 0 < x * (1 / 10 ^ 17) by positivity])
    refine ⟨q, by exact_mod_cast hx.trans q1, ?_⟩
    rw [abs_le]; constructor <;> nlinarith
  have fr : ∀ x : ℝ, ∃ p : ℚ × ℤ, x ≠ 0 → (1 ≤ |(p.1 : ℝ)| ∧ |(p.1 : ℝ)| ≤ 10) ∧ |(p.1 : ℝ) * 10 ^ p.2 - x| ≤ 2 / 10 ^ 16 * |x| := by
    intro x
    by_cases hx : x = 0
    · exact ⟨(0, 0), fun h => (h hx).elim⟩
    have ax : 0 < |x| := abs_pos.2 hx
    have l1 := Int.zpow_log_le_self (b := 10) (by norm_num) ax
    have l2 := Int.lt_zpow_succ_log_self (b := 10) (by norm_num) |x|
    generalize Int.log 10 |x| = e at *
    push_cast at l1 l2
    have P : (0 : ℝ) < (10 : ℝ) ^ e := by positivity
    obtain ⟨y, hy⟩ : ∃ y, y = |x| / 10 ^ e := ⟨_, rfl⟩
    have y1 : 1 ≤ y := by rw [hy, le_div_iff₀ P]; linarith
    have y2 : y < 10 := by
      rw [hy, div_lt_iff₀ P]
      rw [zpow_add₀ (by norm_num), zpow_one] at l2
      linarith
    have hx2 : |x| = y * 10 ^ e := by rw [hy]; field_simp
    obtain ⟨q, q1, q2⟩ := exists_rat_btwn (show y < min 10 (y * (1 + 1 / 10 ^ 17)) from
      lt_min y2 (by linarith [show 0 < y * (1 / 10 ^ 17) by positivity]))
    obtain ⟨q3, q4⟩ := lt_min_iff.1 q2
    have qn : |((q : ℝ) * 10 ^ e - |x|)| ≤ 2 / 10 ^ 16 * |x| := by
      rw [hx2, ← sub_mul, abs_mul, abs_of_pos P, ← mul_assoc]
      refine mul_le_mul_of_nonneg_right ?_ P.le
      rw [abs_of_pos (by linarith)]
      linarith
    have qa : |(q : ℝ)| = q := abs_of_pos (by linarith)
    rcases abs_cases x with ⟨h, -⟩ | ⟨h, -⟩
    · rw [h] at qn
      exact ⟨(q, e), fun _ => ⟨by simp only [qa]; exact ⟨by linarith, q3.le⟩, by rw [h]; exact qn⟩⟩
    · refine ⟨(-q, e), fun _ => ⟨by push_cast; rw [abs_neg, qa]; exact ⟨by linarith, q3.le⟩, ?_⟩⟩
      push_cast
      rw [show -(q : ℝ) * 10 ^ e - x = -((q : ℝ) * 10 ^ e - |x|) by rw [h]; ring, abs_neg]
      exact qn
  choose fr hfr using fr
  have sq : ∀ q : ℚ, ∃ r : ℚ, 0 < q → |(r : ℝ) - Real.sqrt q| ≤ 2 / 10 ^ 16 * Real.sqrt q := by
    intro q
    by_cases hq : 0 < q
    · have hq' : (0 : ℝ) < q := by exact_mod_cast hq
      obtain ⟨r, -, h⟩ := near (Real.sqrt q) (Real.sqrt_pos.2 hq')
      exact ⟨r, fun _ => h.trans (mul_le_mul_of_nonneg_right (by norm_num) (Real.sqrt_nonneg _))⟩
    · exact ⟨0, fun h => (hq h).elim⟩
  choose sq hsq using sq
  have pw : ∀ a b : ℚ, ∃ r : ℚ, 0 < a → |(r : ℝ) - (a : ℝ) ^ (b : ℝ)| ≤ 2 / 10 ^ 16 * (a : ℝ) ^ (b : ℝ) := by
    intro a b
    by_cases ha : 0 < a
    · have ha' : (0 : ℝ) < a := by exact_mod_cast ha
      obtain ⟨r, -, h⟩ := near _ (Real.rpow_pos_of_pos ha' (b : ℝ))
      exact ⟨r, fun _ => h.trans (mul_le_mul_of_nonneg_right (by norm_num) (Real.rpow_nonneg ha'.le _))⟩
    · exact ⟨0, fun h => (ha h).elim⟩
  choose pw hpw using pw
  refine ⟨⟨μ, 1, 0, D, fr, fun m e => m * 10 ^ e, sq, fun a b => a / b, pw⟩, ⟨m0, m1, h0, h1, ?_, ?_, ?_, ?_, ?_, ?_⟩, rfl, rfl⟩
  · exact fun x hx => (hfr x hx).1
  · exact fun x hx => (hfr x hx).2
  · intro m e hm
    have : (0 : ℝ) < m := lt_of_lt_of_le (by positivity) hm.1
    rw [sub_self, abs_zero]; positivity
  · intro q hq
    exact hsq q (by exact_mod_cast (lt_of_lt_of_le (by positivity) hq.1 : (0 : ℝ) < q))
  · intro a b hb
    push_cast
    rw [sub_self, abs_zero]; positivity
  · intro a b ha _
    exact hpw a b (by exact_mod_cast (lt_of_lt_of_le (by positivity) ha.1 : (0 : ℝ) < a))

theorem good_exists (D : ℤ) (h0 : 0 ≤ D) (h1 : D ≤ 2 ^ 30) : ∃ E : GenEnv, E.Good ∧ E.digits10 = D := by
  obtain ⟨E, h2, h3, -⟩ := good_exists_min D h0 h1 (μ := (10 : ℝ) ^ (-D - 2)) (by positivity) le_rfl
  exact ⟨E, h2, h3⟩

example : ∃ E : GenEnv, |Gf.sqrt (realGen E) 2 - Real.sqrt 2| ≤ 1 / 10 ^ 101 := by
  obtain ⟨E, hE, hD⟩ := good_exists 100 (by norm_num) (by norm_num)
  have hm : E.minv ≤ 1 := hE.min_le.trans (by rw [hD]; norm_num)
  refine ⟨E, ((C97_sqrt_partial hE 2).1 (by linarith)).trans ?_⟩
  have : Real.sqrt 2 ≤ 2 := Real.sqrt_le_iff.2 (by norm_num)
  rw [hD]
  norm_num
  linarith

end EFX.Props
