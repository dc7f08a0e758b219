import Mathlib.Data.Nat.Factorial.Basic
import Mathlib.Tactic.FieldSimp
import Verif.Lemmas.RealSeries
/-! The hypergeometric functions in exact arithmetic are partial sums of the hypergeometric series. -/

namespace EFX
open Finset

/-- The rising factorial `b (b+1) … (b+n-1)`. -/
noncomputable def poch (b : ℝ) (n : ℕ) : ℝ := ∏ i ∈ range n, (b + i)

theorem poch_zero (b : ℝ) : poch b 0 = 1 := rfl
theorem poch_succ (b : ℝ) (n : ℕ) : poch b (n + 1) = poch b n * (b + n) := Finset.prod_range_succ _ _
theorem poch_one (b : ℝ) : poch b 1 = b := by rw [poch_succ, poch_zero]; simp

/-- `x^n / n!` -/
noncomputable def xn (x : ℝ) (n : ℕ) : ℝ := x ^ n / (n.factorial : ℝ)

theorem xn_zero (x : ℝ) : xn x 0 = 1 := by simp [xn]
theorem xn_one (x : ℝ) : xn x 1 = x := by simp [xn]

theorem xn_step (x : ℝ) (n : ℕ) : xn x n * x / (((n + 1 : ℕ) : ℤ) : ℝ) = xn x (n + 1) := by
  unfold xn
  rw [Nat.factorial_succ]
  have h1 : (n.factorial : ℝ) ≠ 0 := by exact_mod_cast n.factorial_ne_zero
  have h2 : ((n : ℝ) + 1) ≠ 0 := by positivity
  push_cast
  field_simp
  ring

theorem psum_two (a : ℕ → ℝ) : psum a 2 = a 0 + a 1 := by
  rw [psum_succ, psum_succ]; simp [psum]

/-- The terms of the series. -/
noncomputable def t0f0 (x : ℝ) (n : ℕ) : ℝ := xn x n
@[inherit_doc t0f0] noncomputable def t0f1 (b x : ℝ) (n : ℕ) : ℝ := xn x n / poch b n
@[inherit_doc t0f0] noncomputable def t1f0 (a x : ℝ) (n : ℕ) : ℝ := poch a n * xn x n
@[inherit_doc t0f0] noncomputable def t1f1 (a b x : ℝ) (n : ℕ) : ℝ := poch a n / poch b n * xn x n
@[inherit_doc t0f0] noncomputable def t2f0 (a b x : ℝ) (n : ℕ) : ℝ := poch a n * poch b n * xn x n
@[inherit_doc t0f0] noncomputable def t2f1 (a b c x : ℝ) (n : ℕ) : ℝ := poch a n * poch b n / poch c n * xn x n

/-- `r` is the first partial sum, of more than 20 terms, whose next term meets the stop test; if none of the first 9999
does, it is NaN. -/
structure SeriesOf (E : RealEnv) (a : ℕ → ℝ) (r : ℝ) : Prop where
  conv : (∃ m, 20 < m ∧ m < 10000 ∧ Stops E.tol (a m) (psum a m)) →
    ∃ m, 20 < m ∧ Stops E.tol (a m) (psum a m) ∧ r = psum a m
  fail : (∀ m, 20 < m → m < 10000 → ¬ Stops E.tol (a m) (psum a m)) → r = E.nan

theorem seriesOf {E : RealEnv} {σ : Type} {step : ℤ → σ → σ × ℝ} (a : ℕ → ℝ) (J : ℕ → σ → Prop) {s : σ} (h2 : J 1 s)
    (hstep : ∀ (n : ℕ) s, J n s → (step (n + 1 : ℕ) s).2 = a (n + 1) ∧ J (n + 1) (step (n + 1 : ℕ) s).1) :
    SeriesOf E a (Fn.seriesLoop (realArith E) step Fn.rounds 2 s (psum a 2)) := by
  have hs : ∀ (n : ℕ) s, (n ≠ 0 ∧ J (n - 1) s) → (step n s).2 = a n ∧ (n + 1 ≠ 0 ∧ J (n + 1 - 1) (step n s).1) := by
    rintro n s ⟨h0, hj⟩
    obtain ⟨k, rfl⟩ : ∃ k, n = k + 1 := ⟨n - 1, by omega⟩
    obtain ⟨g1, g2⟩ := hstep k s hj
    exact ⟨g1, by omega, g2⟩
  constructor
  · rintro ⟨m, m1, m2, m3⟩
    obtain ⟨m', g1, g2, g3, g4⟩ := series_spec (E := E) a (fun n s => n ≠ 0 ∧ J (n - 1) s) hs Fn.rounds 2 s ⟨by norm_num, h2⟩
      ⟨m, by omega, by unfold Fn.rounds; omega, m1, m3⟩
    exact ⟨m', g2, g3, g4⟩
  · intro hn
    exact series_nan (E := E) a (fun n s => n ≠ 0 ∧ J (n - 1) s) hs Fn.rounds 2 s ⟨by norm_num, h2⟩
      (fun m h1 h2 h3 => hn m h3 (by unfold Fn.rounds at h2; omega))

variable (E : RealEnv)

theorem hyp0f0_real (x : ℝ) : SeriesOf E (t0f0 x) (Fn.hyp0f0 (realArith E) x) := by
  have e : (realArith E).add (Fn.one (realArith E)) x = psum (t0f0 x) 2 := by
    rw [psum_two, t0f0, t0f0, xn_zero, xn_one]
    simp [Fn.one, realArith]
  unfold Fn.hyp0f0
  rw [e]
  refine seriesOf (t0f0 x) (fun n s => s = xn x n) (xn_one x).symm ?_
  rintro n s rfl
  exact ⟨xn_step x n, xn_step x n⟩

theorem hyp0f1_real (b x : ℝ) : SeriesOf E (t0f1 b x) (Fn.hyp0f1 (realArith E) b x) := by
  have e : (realArith E).add (Fn.one (realArith E)) ((realArith E).div x b) = psum (t0f1 b x) 2 := by
    rw [psum_two, t0f1, t0f1, xn_zero, xn_one, poch_zero, poch_one]
    simp [Fn.one, realArith]
  unfold Fn.hyp0f1
  rw [e]
  refine seriesOf (t0f1 b x) (fun n (s : ℝ × ℝ × ℝ) => s.1 = xn x n ∧ s.2.1 = poch b n ∧ s.2.2 = b + (n - 1))
    ⟨(xn_one x).symm, (poch_one b).symm, by simp⟩ ?_
  rintro n ⟨s1, s2, s3⟩ ⟨h1, h2, h3⟩
  simp only at h1 h2 h3
  have e1 : (realArith E).divI ((realArith E).mul s1 x) ((n + 1 : ℕ) : ℤ) = xn x (n + 1) := by
    rw [h1]; exact xn_step x n
  have e2 : (realArith E).incr s3 = b + n := by
    show s3 + 1 = _
    rw [h3]; ring
  have e3 : (realArith E).mul s2 ((realArith E).incr s3) = poch b (n + 1) := by
    rw [e2, h2, poch_succ]; rfl
  refine ⟨?_, e1, e3, ?_⟩
  · show (realArith E).div _ _ = _
    rw [e1, e3]; rfl
  · rw [e2]; push_cast; ring

theorem hyp1f0_real (b x : ℝ) : SeriesOf E (t1f0 b x) (Fn.hyp1f0 (realArith E) b x) := by
  have e : (realArith E).add (Fn.one (realArith E)) ((realArith E).mul b x) = psum (t1f0 b x) 2 := by
    rw [psum_two, t1f0, t1f0, xn_zero, xn_one, poch_zero, poch_one]
    simp [Fn.one, realArith]
  unfold Fn.hyp1f0
  rw [e]
  refine seriesOf (t1f0 b x) (fun n (s : ℝ × ℝ × ℝ) => s.1 = xn x n ∧ s.2.1 = poch b n ∧ s.2.2 = b + (n - 1))
    ⟨(xn_one x).symm, (poch_one b).symm, by simp⟩ ?_
  rintro n ⟨s1, s2, s3⟩ ⟨h1, h2, h3⟩
  simp only at h1 h2 h3
  have e1 : (realArith E).divI ((realArith E).mul s1 x) ((n + 1 : ℕ) : ℤ) = xn x (n + 1) := by
    rw [h1]; exact xn_step x n
  have e2 : (realArith E).incr s3 = b + n := by
    show s3 + 1 = _
    rw [h3]; ring
  have e3 : (realArith E).mul s2 ((realArith E).incr s3) = poch b (n + 1) := by
    rw [e2, h2, poch_succ]; rfl
  refine ⟨?_, e1, e3, ?_⟩
  · show (realArith E).mul _ _ = _
    rw [e1, e3]; rfl
  · rw [e2]; push_cast; ring

theorem hyp1f1_real (a b x : ℝ) : SeriesOf E (t1f1 a b x) (Fn.hyp1f1 (realArith E) a b x) := by
  have e : (realArith E).add (Fn.one (realArith E)) ((realArith E).mul ((realArith E).div a b) x) = psum (t1f1 a b x) 2 := by
    rw [psum_two, t1f1, t1f1, xn_zero, xn_one, poch_zero, poch_one, poch_zero, poch_one]
    simp [Fn.one, realArith]
  unfold Fn.hyp1f1
  rw [e]
  refine seriesOf (t1f1 a b x) (fun n (s : ℝ × (ℝ × ℝ) × (ℝ × ℝ)) => s.1 = xn x n ∧ (s.2.1.1 = poch a n ∧ s.2.1.2 = a + (n - 1)) ∧
    (s.2.2.1 = poch b n ∧ s.2.2.2 = b + (n - 1)))
    ⟨(xn_one x).symm, ⟨(poch_one a).symm, by simp⟩, (poch_one b).symm, by simp⟩ ?_
  rintro n ⟨s1, ⟨s2, s3⟩, ⟨s4, s5⟩⟩ ⟨h1, ⟨h2, h3⟩, ⟨h4, h5⟩⟩
  simp only at h1 h2 h3 h4 h5
  have e1 : (realArith E).divI ((realArith E).mul s1 x) ((n + 1 : ℕ) : ℤ) = xn x (n + 1) := by
    rw [h1]; exact xn_step x n
  have e2 : (realArith E).incr s3 = a + n := by
    show s3 + 1 = _
    rw [h3]; ring
  have e3 : (realArith E).mul s2 ((realArith E).incr s3) = poch a (n + 1) := by
    rw [e2, h2, poch_succ]; rfl
  have e4 : (realArith E).incr s5 = b + n := by
    show s5 + 1 = _
    rw [h5]; ring
  have e5 : (realArith E).mul s4 ((realArith E).incr s5) = poch b (n + 1) := by
    rw [e4, h4, poch_succ]; rfl
  refine ⟨?_, e1, ⟨e3, ?_⟩, ⟨e5, ?_⟩⟩
  · show (realArith E).mul ((realArith E).div _ _) _ = _
    rw [e1, e3, e5]; rfl
  · rw [e2]; push_cast; ring
  · rw [e4]; push_cast; ring

theorem hyp2f0_real (a b x : ℝ) : SeriesOf E (t2f0 a b x) (Fn.hyp2f0 (realArith E) a b x) := by
  have e : (realArith E).add (Fn.one (realArith E)) ((realArith E).mul ((realArith E).mul a b) x) = psum (t2f0 a b x) 2 := by
    rw [psum_two, t2f0, t2f0, xn_zero, xn_one, poch_zero, poch_one, poch_zero, poch_one]
    simp [Fn.one, realArith]
  unfold Fn.hyp2f0
  rw [e]
  refine seriesOf (t2f0 a b x) (fun n (s : ℝ × (ℝ × ℝ) × (ℝ × ℝ)) => s.1 = xn x n ∧ (s.2.1.1 = poch a n ∧ s.2.1.2 = a + (n - 1)) ∧
    (s.2.2.1 = poch b n ∧ s.2.2.2 = b + (n - 1)))
    ⟨(xn_one x).symm, ⟨(poch_one a).symm, by simp⟩, (poch_one b).symm, by simp⟩ ?_
  rintro n ⟨s1, ⟨s2, s3⟩, ⟨s4, s5⟩⟩ ⟨h1, ⟨h2, h3⟩, ⟨h4, h5⟩⟩
  simp only at h1 h2 h3 h4 h5
  have e1 : (realArith E).divI ((realArith E).mul s1 x) ((n + 1 : ℕ) : ℤ) = xn x (n + 1) := by
    rw [h1]; exact xn_step x n
  have e2 : (realArith E).incr s3 = a + n := by
    show s3 + 1 = _
    rw [h3]; ring
  have e3 : (realArith E).mul s2 ((realArith E).incr s3) = poch a (n + 1) := by
    rw [e2, h2, poch_succ]; rfl
  have e4 : (realArith E).incr s5 = b + n := by
    show s5 + 1 = _
    rw [h5]; ring
  have e5 : (realArith E).mul s4 ((realArith E).incr s5) = poch b (n + 1) := by
    rw [e4, h4, poch_succ]; rfl
  refine ⟨?_, e1, ⟨e3, ?_⟩, ⟨e5, ?_⟩⟩
  · show (realArith E).mul ((realArith E).mul _ _) _ = _
    rw [e1, e3, e5]; rfl
  · rw [e2]; push_cast; ring
  · rw [e4]; push_cast; ring

theorem hyp2f1_real (a b c x : ℝ) : SeriesOf E (t2f1 a b c x) (Fn.hyp2f1 (realArith E) a b c x) := by
  have e : (realArith E).add (Fn.one (realArith E)) ((realArith E).mul ((realArith E).div ((realArith E).mul a b) c) x) =
      psum (t2f1 a b c x) 2 := by
    rw [psum_two, t2f1, t2f1, xn_zero, xn_one, poch_zero, poch_one, poch_zero, poch_one, poch_zero, poch_one]
    simp [Fn.one, realArith]
  unfold Fn.hyp2f1
  rw [e]
  refine seriesOf (t2f1 a b c x) (fun n (s : ℝ × (ℝ × ℝ) × (ℝ × ℝ) × (ℝ × ℝ)) => s.1 = xn x n ∧
    (s.2.1.1 = poch a n ∧ s.2.1.2 = a + (n - 1)) ∧ (s.2.2.1.1 = poch b n ∧ s.2.2.1.2 = b + (n - 1)) ∧
    (s.2.2.2.1 = poch c n ∧ s.2.2.2.2 = c + (n - 1)))
    ⟨(xn_one x).symm, ⟨(poch_one a).symm, by simp⟩, ⟨(poch_one b).symm, by simp⟩, (poch_one c).symm, by simp⟩ ?_
  rintro n ⟨s1, ⟨s2, s3⟩, ⟨s4, s5⟩, ⟨s6, s7⟩⟩ ⟨h1, ⟨h2, h3⟩, ⟨h4, h5⟩, ⟨h6, h7⟩⟩
  simp only at h1 h2 h3 h4 h5 h6 h7
  have e1 : (realArith E).divI ((realArith E).mul s1 x) ((n + 1 : ℕ) : ℤ) = xn x (n + 1) := by
    rw [h1]; exact xn_step x n
  have e2 : (realArith E).incr s3 = a + n := by
    show s3 + 1 = _
    rw [h3]; ring
  have e3 : (realArith E).mul s2 ((realArith E).incr s3) = poch a (n + 1) := by
    rw [e2, h2, poch_succ]; rfl
  have e4 : (realArith E).incr s5 = b + n := by
    show s5 + 1 = _
    rw [h5]; ring
  have e5 : (realArith E).mul s4 ((realArith E).incr s5) = poch b (n + 1) := by
    rw [e4, h4, poch_succ]; rfl
  have e6 : (realArith E).incr s7 = c + n := by
    show s7 + 1 = _
    rw [h7]; ring
  have e7 : (realArith E).mul s6 ((realArith E).incr s7) = poch c (n + 1) := by
    rw [e6, h6, poch_succ]; rfl
  refine ⟨?_, e1, ⟨e3, ?_⟩, ⟨e5, ?_⟩, ⟨e7, ?_⟩⟩
  · show (realArith E).mul ((realArith E).div ((realArith E).mul _ _) _) _ = _
    rw [e1, e3, e5, e7]; rfl
  · rw [e2]; push_cast; ring
  · rw [e4]; push_cast; ring
  · rw [e6]; push_cast; ring

/-- Product of the rising factorials of a list. -/
noncomputable def pochL (l : List ℝ) (n : ℕ) : ℝ := (l.map (fun a => poch a n)).prod
@[inherit_doc t0f0] noncomputable def tpfq (a b : List ℝ) (x : ℝ) (n : ℕ) : ℝ := pochL a n / pochL b n * xn x n

theorem prodL_real (l : List ℝ) : Fn.prodL (realArith E) l = l.prod := by
  unfold Fn.prodL
  have : ∀ (l : List ℝ) (v : ℝ), l.foldl (realArith E).mul v = v * l.prod := by
    intro l
    induction l with
    | nil => intro v; simp
    | cons a l ih =>
      intro v
      rw [List.foldl_cons, ih, List.prod_cons]
      show v * a * l.prod = _
      ring
  rw [this]
  simp [Fn.one, realArith]

theorem pochL_one (l : List ℝ) : pochL l 1 = l.prod := by
  unfold pochL
  simp only [poch_one, List.map_id']

theorem pochL_zero (l : List ℝ) : pochL l 0 = 1 := by
  unfold pochL
  simp [poch_zero]

theorem pochL_succ (l : List ℝ) (n : ℕ) : pochL l n * (l.map (fun a => a + (n : ℝ))).prod = pochL l (n + 1) := by
  unfold pochL
  rw [← List.prod_map_mul]
  simp only [poch_succ]

theorem hypPfq_real (a b : List ℝ) (x : ℝ) : SeriesOf E (tpfq a b x) (Fn.hypPfq (realArith E) a b x) := by
  have e : (realArith E).add (Fn.one (realArith E)) ((realArith E).mul ((realArith E).div (Fn.prodL (realArith E) a)
      (Fn.prodL (realArith E) b)) x) = psum (tpfq a b x) 2 := by
    rw [psum_two, tpfq, tpfq, xn_zero, xn_one, pochL_zero, pochL_one, pochL_zero, pochL_one, prodL_real, prodL_real]
    simp [Fn.one, realArith]
  unfold Fn.hypPfq
  rw [e]
  refine seriesOf (tpfq a b x) (fun n (s : ℝ × (ℝ × List ℝ) × (ℝ × List ℝ)) => s.1 = xn x n ∧
    (s.2.1.1 = pochL a n ∧ s.2.1.2 = a.map (fun v => v + ((n : ℝ) - 1))) ∧
    (s.2.2.1 = pochL b n ∧ s.2.2.2 = b.map (fun v => v + ((n : ℝ) - 1))))
    ⟨(xn_one x).symm, ⟨by rw [pochL_one]; exact prodL_real E a, by simp⟩, by rw [pochL_one]; exact prodL_real E b, by simp⟩ ?_
  rintro n ⟨s1, ⟨s2, s3⟩, ⟨s4, s5⟩⟩ ⟨h1, ⟨h2, h3⟩, ⟨h4, h5⟩⟩
  simp only at h1 h2 h3 h4 h5
  have e1 : (realArith E).divI ((realArith E).mul s1 x) ((n + 1 : ℕ) : ℤ) = xn x (n + 1) := by
    rw [h1]; exact xn_step x n
  have em : ∀ l : List ℝ, (l.map (fun v => v + ((n : ℝ) - 1))).map ((realArith E).add (Fn.one (realArith E))) = l.map (fun v => v + (n : ℝ)) := by
    intro l
    rw [List.map_map]
    apply List.map_congr_left
    intro v _
    show ((1 : ℤ) : ℝ) + (v + ((n : ℝ) - 1)) = v + n
    push_cast; ring
  have en : ∀ l : List ℝ, l.map (fun v => v + (n : ℝ)) = l.map (fun v => v + (((n + 1 : ℕ) : ℝ) - 1)) := by
    intro l
    apply List.map_congr_left
    intro v _
    push_cast; ring
  have e3 : (realArith E).mul s2 (Fn.prodL (realArith E) (s3.map ((realArith E).add (Fn.one (realArith E))))) = pochL a (n + 1) := by
    rw [h3, em, prodL_real, h2]
    exact pochL_succ a n
  have e5 : (realArith E).mul s4 (Fn.prodL (realArith E) (s5.map ((realArith E).add (Fn.one (realArith E))))) = pochL b (n + 1) := by
    rw [h5, em, prodL_real, h4]
    exact pochL_succ b n
  refine ⟨?_, e1, ⟨e3, ?_⟩, ⟨e5, ?_⟩⟩
  · show (realArith E).mul ((realArith E).div _ _) _ = _
    rw [e1, e3, e5]; rfl
  · show s3.map ((realArith E).add (Fn.one (realArith E))) = _
    rw [h3, em, en]
  · show s5.map ((realArith E).add (Fn.one (realArith E))) = _
    rw [h5, em, en]

end EFX
