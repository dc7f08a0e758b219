import Mathlib.NumberTheory.LSeries.RiemannZeta
import Mathlib.Analysis.Complex.RemovableSingularity
import Mathlib.Analysis.Complex.LocallyUniformLimit
import Mathlib.Analysis.Analytic.Uniqueness
import Mathlib.Analysis.PSeriesComplex
/-!
# The alternating series and the zeta function for arguments with positive real part
-/

namespace EFX.Borw
open Finset Filter Topology

/-- Two terms of the alternating series. -/
noncomputable def pair (n : ℕ) (s : ℂ) : ℂ := 1 / ((2 * n + 1 : ℕ) : ℂ) ^ s - 1 / ((2 * n + 2 : ℕ) : ℂ) ^ s

theorem pair_bound (n : ℕ) {s : ℂ} (hs : 0 < s.re) : ‖pair n s‖ ≤ ‖s‖ / ((2 * n + 1 : ℕ) : ℝ) ^ (s.re + 1) := by
  have h : ∀ x ∈ Set.Icc ((2 * n + 1 : ℕ) : ℝ) ((2 * n + 2 : ℕ) : ℝ), HasDerivWithinAt (fun x : ℝ => (x : ℂ) ^ (-s)) (-s * (x : ℂ) ^ (-s - 1)) (Set.Icc ((2 * n + 1 : ℕ) : ℝ) ((2 * n + 2 : ℕ) : ℝ)) x := by
    intro x hx
    have x0 : 0 < x := lt_of_lt_of_le (by positivity) hx.1
    have := hasDerivAt_ofReal_cpow_const' (x := x) x0.ne' (r := -s - 1) (by
      intro h; have := congrArg Complex.re h; simp at this; linarith)
    have h2 := (this.const_mul (-s)).hasDerivWithinAt (s := Set.Icc ((2 * n + 1 : ℕ) : ℝ) ((2 * n + 2 : ℕ) : ℝ))
    refine h2.congr_of_mem (fun y hy => ?_) hx
    have : s ≠ 0 := by rintro rfl; simp at hs
    rw [sub_add_cancel, mul_div_cancel₀ _ (neg_ne_zero.2 this)]
  have b : ∀ x ∈ Set.Icc ((2 * n + 1 : ℕ) : ℝ) ((2 * n + 2 : ℕ) : ℝ), ‖-s * (x : ℂ) ^ (-s - 1)‖ ≤ ‖s‖ / ((2 * n + 1 : ℕ) : ℝ) ^ (s.re + 1) := by
    intro x hx
    have x0 : 0 < x := lt_of_lt_of_le (by positivity) hx.1
    rw [norm_mul, norm_neg, Complex.norm_cpow_eq_rpow_re_of_pos x0, div_eq_mul_inv]
    refine mul_le_mul_of_nonneg_left ?_ (norm_nonneg _)
    rw [← Real.rpow_neg (by positivity)]
    have e : (-s - 1).re = -(s.re + 1) := by simp; ring
    rw [e]
    exact Real.rpow_le_rpow_of_nonpos (by positivity) hx.1 (by linarith)
  have := (convex_Icc _ _).norm_image_sub_le_of_norm_hasDerivWithin_le h b (x := ((2 * n + 2 : ℕ) : ℝ)) (y := ((2 * n + 1 : ℕ) : ℝ))
    ⟨by push_cast; linarith, le_rfl⟩ ⟨le_rfl, by push_cast; linarith⟩
  unfold pair
  rw [one_div, one_div, ← Complex.cpow_neg, ← Complex.cpow_neg]
  refine le_trans ?_ (this.trans (le_of_eq ?_))
  · simp
  · push_cast
    rw [show (2 * (n : ℝ) + 1 - (2 * n + 2)) = -1 by ring]; simp

theorem summable_odd {σ : ℝ} (hσ : 0 < σ) (R : ℝ) : Summable fun n : ℕ => R / ((2 * n + 1 : ℕ) : ℝ) ^ (σ + 1) := by
  have h := (Real.summable_one_div_nat_rpow (p := σ + 1)).2 (by linarith)
  have := (h.comp_injective (i := fun n : ℕ => 2 * n + 1) (fun a b h => by simpa using h)).mul_left R
  refine this.congr fun n => ?_
  simp only [Function.comp_apply]
  push_cast; ring

/-- The series of pairs is differentiable in the right half-plane. -/
theorem eta_diff {s : ℂ} (hs : 0 < s.re) : DifferentiableAt ℂ (fun w => ∑' n, pair n w) s := by
  have hU : IsOpen {w : ℂ | s.re / 2 < w.re ∧ ‖w‖ < ‖s‖ + 1} :=
    (isOpen_lt continuous_const Complex.continuous_re).inter (isOpen_lt continuous_norm continuous_const)
  have d : DifferentiableOn ℂ (fun w => ∑' n, pair n w) {w : ℂ | s.re / 2 < w.re ∧ ‖w‖ < ‖s‖ + 1} := by
    refine Complex.differentiableOn_tsum_of_summable_norm (summable_odd (half_pos hs) (‖s‖ + 1)) (fun n => ?_) hU fun n w hw => ?_
    · intro w _
      apply DifferentiableAt.differentiableWithinAt
      unfold pair
      have h1 : ((2 * n + 1 : ℕ) : ℂ) ≠ 0 := Nat.cast_ne_zero.2 (by omega)
      have h2 : ((2 * n + 2 : ℕ) : ℂ) ≠ 0 := Nat.cast_ne_zero.2 (by omega)
      simp only [one_div, ← Complex.cpow_neg]
      exact (differentiableAt_id.neg.const_cpow (Or.inl h1)).sub (differentiableAt_id.neg.const_cpow (Or.inl h2))
    · refine (pair_bound n (by linarith [hw.1])).trans ?_
      refine div_le_div₀ (by positivity) hw.2.le (by positivity) ?_
      exact Real.rpow_le_rpow_of_exponent_le (by push_cast; linarith [(Nat.cast_nonneg n : (0:ℝ) ≤ n)]) (by linarith [hw.1])
  exact d.differentiableAt (hU.mem_nhds ⟨by linarith, by linarith⟩)

theorem eta_gt_one {s : ℂ} (hs : 1 < s.re) : ∑' n, pair n s = (1 - 2 ^ (1 - s)) * riemannZeta s := by
  have hz := zeta_eq_tsum_one_div_nat_add_one_cpow hs
  have sm : Summable fun n : ℕ => 1 / ((n : ℂ) + 1) ^ s := by
    have := (summable_nat_add_iff 1).2 (Complex.summable_one_div_nat_cpow.2 hs)
    simpa using this
  have i1 : Function.Injective fun n : ℕ => 2 * n := fun a b h => by simpa using h
  have i2 : Function.Injective fun n : ℕ => 2 * n + 1 := fun a b h => by simpa using h
  obtain ⟨f, hf⟩ : ∃ f : ℕ → ℂ, f = fun n : ℕ => 1 / ((n : ℂ) + 1) ^ s := ⟨_, rfl⟩
  rw [← hf] at sm
  have s1 : Summable fun n : ℕ => f (2 * n) := sm.comp_injective i1
  have s2 : Summable fun n : ℕ => f (2 * n + 1) := sm.comp_injective i2
  have eo := tsum_even_add_odd s1 s2
  have ev : ∑' n : ℕ, f (2 * n + 1) = (2 : ℂ) ^ (-s) * riemannZeta s := by
    rw [hz, ← tsum_mul_left]
    refine tsum_congr fun n => ?_
    simp only [hf]
    rw [show (((2 * n + 1 : ℕ) : ℂ) + 1) = ((2 : ℝ) : ℂ) * (((n : ℝ) + 1 : ℝ) : ℂ) by push_cast; ring,
      Complex.mul_cpow_ofReal_nonneg (by norm_num) (by positivity), Complex.cpow_neg]
    push_cast
    field_simp
  have e : ∑' n, pair n s = ∑' n : ℕ, f (2 * n) - ∑' n : ℕ, f (2 * n + 1) := by
    rw [← s1.tsum_sub s2]
    refine tsum_congr fun n => ?_
    unfold pair
    simp only [hf]
    push_cast
    rw [show (2 * (n : ℂ) + 1 + 1) = 2 * n + 2 by ring]
  rw [e, ev, Complex.cpow_sub _ _ (by norm_num), Complex.cpow_one]
  rw [ev, hf, ← hz, ← hf] at eo
  have t : (2 : ℂ) / 2 ^ s = 2 * (2 : ℂ) ^ (-s) := by rw [Complex.cpow_neg]; ring
  rw [t]
  linear_combination eo

/-- The alternating series is `(1 - 2^(1-s)) ζ(s)` in the right half-plane. -/
theorem eta_zeta {s : ℂ} (hs : 0 < s.re) (h1 : s ≠ 1) : ∑' n, pair n s = (1 - 2 ^ (1 - s)) * riemannZeta s := by
  obtain ⟨h, hh⟩ : ∃ h : ℂ → ℂ, h = Function.update (fun s => (s - 1) * riemannZeta s) 1 1 := ⟨_, rfl⟩
  have hd : Differentiable ℂ h := by
    rw [← differentiableOn_univ, ← Complex.differentiableOn_compl_singleton_and_continuousAt_iff (c := 1) Filter.univ_mem]
    refine ⟨?_, ?_⟩
    · intro w hw
      have w1 : w ≠ 1 := by simpa using hw
      apply DifferentiableAt.differentiableWithinAt
      have := ((differentiableAt_id.sub_const 1).mul (differentiableAt_riemannZeta w1))
      refine this.congr_of_eventuallyEq ?_
      filter_upwards [isOpen_ne.mem_nhds w1] with y hy
      rw [hh, Function.update_of_ne hy]; rfl
    · rw [hh, continuousAt_update_same]
      exact riemannZeta_residue_one
  have key : Set.EqOn (fun w => (w - 1) * ∑' n, pair n w) (fun w => (1 - 2 ^ (1 - w)) * h w) {w : ℂ | 0 < w.re} := by
    have hO : IsOpen {w : ℂ | 0 < w.re} := isOpen_lt continuous_const Complex.continuous_re
    refine AnalyticOnNhd.eqOn_of_preconnected_of_eventuallyEq (𝕜 := ℂ) (z₀ := 2) ?_ ?_ (convex_halfSpace_re_gt 0).isPreconnected (by simp) ?_
    · refine DifferentiableOn.analyticOnNhd (fun w hw => ?_) hO
      exact ((differentiableAt_id.sub_const 1).mul (eta_diff hw)).differentiableWithinAt
    · refine DifferentiableOn.analyticOnNhd (fun w hw => ?_) hO
      refine (DifferentiableAt.mul ?_ (hd w)).differentiableWithinAt
      exact (DifferentiableAt.const_cpow (differentiableAt_id.const_sub 1) (Or.inl (by norm_num))).const_sub 1
    · have : {w : ℂ | 1 < w.re} ∈ 𝓝 (2 : ℂ) := (isOpen_lt continuous_const Complex.continuous_re).mem_nhds (by simp)
      filter_upwards [this] with w hw
      have w1 : w ≠ 1 := by rintro rfl; simp at hw
      rw [eta_gt_one hw, hh, Function.update_of_ne w1]; ring
  have := key hs
  simp only [hh, Function.update_of_ne h1] at this
  exact mul_left_cancel₀ (sub_ne_zero.2 h1) (by linear_combination this)

/-- The limit of the real alternating series. -/
theorem eta_real {s : ℝ} (hs : 0 < s) (h1 : s ≠ 1) :
    Tendsto (fun M => ∑ j ∈ range M, (-1) ^ j * (1 / ((j : ℝ) + 1) ^ s)) atTop (𝓝 ((1 - 2 ^ (1 - s)) * (riemannZeta s).re)) ∧
      ((riemannZeta s).re : ℂ) = riemannZeta s := by
  have z : Tendsto (fun M : ℕ => (1 : ℝ) / ((M : ℝ) + 1) ^ s) atTop (𝓝 0) := by
    have h1 : Tendsto (fun M : ℕ => ((M : ℝ) + 1) ^ s) atTop atTop :=
      (tendsto_rpow_atTop hs).comp (tendsto_atTop_add_const_right _ _ tendsto_natCast_atTop_atTop)
    simp only [one_div]; exact h1.inv_tendsto_atTop
  have anti : Antitone fun j : ℕ => (1 : ℝ) / ((j : ℝ) + 1) ^ s := by
    intro a b hab
    simp only
    gcongr
  obtain ⟨l, hl⟩ := anti.tendsto_alternating_series_of_tendsto_zero z
  have ev : Tendsto (fun m => ∑ j ∈ range (2 * m), (-1) ^ j * (1 / ((j : ℝ) + 1) ^ s)) atTop (𝓝 l) :=
    hl.comp (tendsto_id.const_mul_atTop' (by norm_num))
  have pr : ∀ n : ℕ, pair n s = (((1 : ℝ) / (((2 * n : ℕ) : ℝ) + 1) ^ s - 1 / (((2 * n + 1 : ℕ) : ℝ) + 1) ^ s : ℝ) : ℂ) := by
    intro n
    unfold pair
    push_cast
    rw [Complex.ofReal_cpow (by positivity), Complex.ofReal_cpow (by positivity)]
    push_cast
    rw [show (2 * (n : ℂ) + 1 + 1) = 2 * n + 2 by ring]
  have evs : ∀ m, ((∑ j ∈ range (2 * m), (-1) ^ j * (1 / ((j : ℝ) + 1) ^ s) : ℝ) : ℂ) = ∑ n ∈ range m, pair n s := by
    intro m
    induction m with
    | zero => simp
    | succ m ih =>
      rw [show 2 * (m + 1) = 2 * m + 1 + 1 by ring, sum_range_succ, sum_range_succ, sum_range_succ, ← ih, pr]
      rw [pow_succ, pow_mul]
      push_cast
      ring
  have sm : Summable fun n => pair n s :=
    Summable.of_norm_bounded (summable_odd (σ := s) hs ‖(s : ℂ)‖) fun n => by simpa using pair_bound n (s := s) (by simpa using hs)
  have lim := sm.hasSum.tendsto_sum_nat
  have e : ((l : ℝ) : ℂ) = ∑' n, pair n (s : ℂ) := by
    refine tendsto_nhds_unique ?_ lim
    have := (Complex.continuous_ofReal.tendsto l).comp ev
    refine this.congr fun m => ?_
    simp only [Function.comp_apply]
    exact evs m
  rw [eta_zeta (by simpa using hs) (by exact_mod_cast h1)] at e
  have tw : (1 - (2 : ℂ) ^ (1 - (s : ℂ))) = ((1 - 2 ^ (1 - s) : ℝ) : ℂ) := by
    push_cast
    rw [Complex.ofReal_cpow (by norm_num)]; push_cast; rfl
  have tn : (1 - (2 : ℝ) ^ (1 - s)) ≠ 0 := by
    intro h
    have h2 : (2 : ℝ) ^ (1 - s) = 1 := by linarith
    have h3 := Real.log_rpow (show (0 : ℝ) < 2 by norm_num) (1 - s)
    rw [h2, Real.log_one] at h3
    rcases mul_eq_zero.1 h3.symm with h | h
    · exact h1 (by linarith)
    · exact absurd h (Real.log_pos (by norm_num)).ne'
  rw [tw] at e
  have zr : riemannZeta s = ((l / (1 - 2 ^ (1 - s)) : ℝ) : ℂ) := by
    have tc : ((1 - 2 ^ (1 - s) : ℝ) : ℂ) ≠ 0 := by exact_mod_cast tn
    push_cast at *
    rw [eq_div_iff tc]; rw [e]; ring
  refine ⟨?_, ?_⟩
  · rw [zr, Complex.ofReal_re, mul_div_cancel₀ _ tn]; exact hl
  · rw [zr, Complex.ofReal_re]

end EFX.Borw
