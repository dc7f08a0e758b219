import Verif.Lemmas.RndExp
/-!
# The exponential function in rounded arithmetic: scaling, integers, signs
-/

namespace EFX
variable {α : Type} {A : Arith α} {v : α → ℝ} {ok : α → Prop} {u : ℝ}
namespace Rnd

theorem pw_le_one {k : ℤ} (h : k ≤ 0) : pw k ≤ 1 := by rw [← pw_zero]; exact pw_mono h

/-- The scaled series. -/
theorem expCore_acc (R : Rnd A v ok u) (H : ExpEnv A v ok u) {x : α} (hx : ok x) (x0 : 0 < v x) (x1 : v x ≤ 10 ^ 8)
    (xt : -A.tol ≤ A.order x) :
    ok (Fn.expCore A x) ∧ NearR (u * (210 + v x / 100)) (v (Fn.expCore A x)) (Real.exp (v x)) ∧ Sz 300000000 (Real.exp (v x)) := by
  have u0 := R.u0
  have u1 := R.u1
  have t1 := R.t1
  obtain ⟨oa, ob⟩ := R.order x hx x0.ne'
  rw [abs_of_pos x0] at oa ob
  have hux : 0 ≤ u * v x := by positivity
  have hux1 : u * v x ≤ 1 / 10 ^ 22 := le_trans (mul_le_mul u1 x1 x0.le (by norm_num)) (by norm_num)
  unfold Fn.expCore
  by_cases ho : A.order x > -4
  · rw [if_pos ho]
    have xl : 1 / 1000 ≤ v x := by
      refine le_trans ?_ oa
      have := pw_mono (show (-((3 : ℕ) : ℤ)) ≤ A.order x by omega)
      rw [pw_neg, pw_nat] at this
      norm_num at this ⊢; exact this
    obtain ⟨n, onf, en, nx, oq, sq, q1, r1, r2, eq⟩ := R.expRed_acc H hx xl x1
    simp only
    generalize A.intPart (A.mul x (A.div (Fn.one A) A.ln2)) = nf at *
    generalize A.divI (A.sub x (A.mul nf A.ln2)) 2048 = q at *
    obtain ⟨oh, eh⟩ := R.hyp0f0_acc oq sq q1
    have hn : n ≤ 150000000 := by
      have : (n : ℝ) ≤ 150000000 := by linarith
      exact_mod_cast this
    have hto : A.toI nf = n := R.toI nf n onf (by rw [en]; push_cast; rfl) (by
      rw [abs_of_nonneg (by positivity)]; omega)
    rw [hto]
    set ρ := v x - n * Real.log 2 with hρ
    -- the scaled exponential
    have hE : NearR (2 * (u * (1 + v x / 1000) / 2048)) (Real.exp (v q)) (Real.exp (ρ / 2048)) :=
      exp_shift eq (by
        have : u * (1 + v x / 1000) / 2048 = u / 2048 + u * v x / 2048000 := by ring
        linarith)
    have E0 := Real.exp_pos (ρ / 2048)
    have Elow : 98 / 100 ≤ Real.exp (ρ / 2048) := by
      have := Real.add_one_le_exp (ρ / 2048)
      linarith
    have Eup : Real.exp (ρ / 2048) ≤ 102 / 100 := by
      have := (abs_le.1 (Real.abs_exp_sub_one_le (x := ρ / 2048) (abs_le.2 ⟨by linarith, by linarith⟩))).2
      have h2 : |ρ / 2048| ≤ 1 / 1000 := abs_le.2 ⟨by linarith, by linarith⟩
      linarith
    set g := u / 40 + v x * u / 10 ^ 6 with hg
    have g1 : u / 10 ^ 4 ≤ g := by
      have : 0 ≤ v x * u / 10 ^ 6 := by positivity
      linarith
    have hh : NearR g (v (Fn.hyp0f0 A q)) (Real.exp (ρ / 2048)) := by
      unfold NearR at hE ⊢
      rw [abs_of_pos E0] at hE ⊢
      have h1 := abs_sub_le (v (Fn.hyp0f0 A q)) (Real.exp (v q)) (Real.exp (ρ / 2048))
      have h2 : u / 50 ≤ u / 49 * Real.exp (ρ / 2048) := by
        have := mul_le_mul_of_nonneg_left Elow (show 0 ≤ u / 49 by positivity)
        linarith
      have h3 : (u / 49 + 2 * (u * (1 + v x / 1000) / 2048)) ≤ g := by rw [hg]; linarith
      have h4 := mul_le_mul_of_nonneg_right h3 E0.le
      linarith
    obtain ⟨op, np⟩ := R.pownN_acc g1 (sz_of_bounds (a := Real.exp (ρ / 2048)) (by rw [abs_of_pos E0]; linarith) (by rw [abs_of_pos E0]; linarith))
      (p := 2048) (by rw [hg]; push_cast; linarith) (by norm_num) oh hh
    have hpow : Real.exp (ρ / 2048) ^ 2048 = Real.exp ρ := by
      rw [← Real.exp_nat_mul]; congr 1; push_cast; ring
    rw [hpow] at np
    obtain ⟨o2, n2⟩ := R.pow2_acc (n := n) (by omega)
    push_cast at op np
    generalize Fn.pown A (Fn.hyp0f0 A q) 2048 = w at *
    generalize Fn.pow2 A (n : ℤ) = z at *
    have hfin : Real.exp ρ * 2 ^ n = Real.exp (v x) := by
      rw [hρ, Real.exp_sub, ← Real.log_pow, Real.exp_log (by positivity)]
      field_simp
    have sρ : Sz 1 (Real.exp ρ) := by
      have h1 := Real.add_one_le_exp ρ
      have h2 : Real.exp ρ ≤ Real.exp 1 := Real.exp_le_exp.2 (by linarith)
      have h3 := Real.exp_one_lt_d9
      have h4 := Real.exp_pos ρ
      exact sz_of_bounds (by rw [abs_of_pos h4]; linarith) (by rw [abs_of_pos h4]; linarith)
    have s2n : Sz (n * 1) ((2 : ℝ) ^ n) := (sz_of_bounds (a := (2 : ℝ)) (by norm_num) (by norm_num)).pow n
    have sfin : Sz 200000000 (Real.exp (v x)) := by rw [← hfin]; exact (sρ.mul s2n).mono (by omega)
    have ng : 4 * (n : ℝ) * (u / 10 ^ 4) ≤ u * v x / 1000 := by
      have := mul_le_mul_of_nonneg_right nx (show 0 ≤ u / 10 ^ 4 by positivity)
      linarith
    have ng0 : 0 ≤ 4 * (n : ℝ) * (u / 10 ^ 4) := by positivity
    have a0 : 0 ≤ 4 * 2048 * g := by rw [hg]; positivity
    have a1 : 4 * 2048 * g ≤ 205 * u + u * v x * (9 / 1000) := by rw [hg]; linarith
    have n3 := np.mul a0 n2
    rw [hfin] at n3
    have small : 4 * 2048 * g * (4 * (n : ℝ) * (u / 10 ^ 4)) ≤ 1 / 10 ^ 10 * (u * v x / 1000) := by
      refine mul_le_mul ?_ ng ng0 (by norm_num)
      linarith
    have tot : 4 * 2048 * g + 4 * (n : ℝ) * (u / 10 ^ 4) + 4 * 2048 * g * (4 * (n : ℝ) * (u / 10 ^ 4)) ≤ 205 * u + u * v x * (99 / 10000) * (101 / 100) := by
      linarith
    have n4 := n3.mono tot
    obtain ⟨om, em, -⟩ := R.mul w z op o2 ((n4.sz (by linarith) sfin).mono (by norm_num))
    have n5 := NearR.trans (f := u / 10 ^ 4) (by positivity) em n4
    refine ⟨om, n5.mono ?_, sfin.mono (by norm_num)⟩
    have : (205 * u + u * v x * (99 / 10000) * (101 / 100)) * (u / 10 ^ 4) ≤ 1 * (u / 10 ^ 4) :=
      mul_le_mul_of_nonneg_right (by linarith) (by positivity)
    have e9 : u * (210 + v x / 100) = 210 * u + u * v x / 100 := by ring
    rw [e9]
    linarith
  · rw [if_neg ho]
    have xl : v x ≤ 1 / 1000 := by
      refine le_trans ob.le ?_
      have := pw_mono (show A.order x + 1 ≤ (-((3 : ℕ) : ℤ)) by omega)
      rw [pw_neg, pw_nat] at this
      norm_num at this ⊢; exact this
    have e1 : 1 ≤ Real.exp (v x) := Real.one_le_exp x0.le
    have e2 : Real.exp (v x) ≤ 10 := by
      have := (abs_le.1 (Real.abs_exp_sub_one_le (x := v x) (abs_le.2 ⟨by linarith, by linarith⟩))).2
      rw [abs_of_pos x0] at this
      linarith
    obtain ⟨oh, eh⟩ := R.hyp0f0_acc hx ⟨by
        rw [abs_of_pos x0]; refine le_trans (pw_mono ?_) oa; omega, by
        rw [abs_of_pos x0]; have := pw_mono (show (0 : ℤ) ≤ 40000000 by norm_num); rw [pw_zero] at this; linarith⟩
      (by rw [abs_of_pos x0]; exact xl)
    refine ⟨oh, ?_, (sz_of_bounds (by rw [abs_of_pos (Real.exp_pos _)]; linarith) (by rw [abs_of_pos (Real.exp_pos _)]; linarith)).mono (by norm_num)⟩
    unfold NearR
    rw [abs_of_pos (Real.exp_pos _)]
    have h1 : u * (210 + v x / 100) * 1 ≤ u * (210 + v x / 100) * Real.exp (v x) := mul_le_mul_of_nonneg_left e1 (by positivity)
    have e9 : u * (210 + v x / 100) = 210 * u + u * v x / 100 := by ring
    rw [mul_one, e9] at h1
    rw [e9]
    linarith

/-- Reciprocals. -/
theorem recip_acc (R : Rnd A v ok u) {w : α} {t f : ℝ} (ow : ok w) (f0 : 0 ≤ f) (f1 : f ≤ 1 / 100) (t0 : t ≠ 0) (h : NearR f (v w) t)
    (hs : Sz 900000000 t) : ok (A.div (Fn.one A) w) ∧ NearR (2 * f + u * (11 / 10)) (v (A.div (Fn.one A) w)) t⁻¹ := by
  have u0 := R.u0
  have u1 := R.u1
  obtain ⟨o, e⟩ := R.div (Fn.one A) w R.one.1 ow (Or.inl (by rw [R.one.2]; norm_num))
    (by rw [R.one.2]; exact (sz_of_bounds (by norm_num) (by norm_num)).mono (by norm_num)) ((h.sz (by linarith) hs).mono (by norm_num))
  rw [R.one.2] at e
  have h2 := h.inv f0 (by linarith) t0
  rw [← one_div] at h2
  have h3 := NearR.trans (f := u) u0.le e h2
  refine ⟨o, h3.mono ?_⟩
  have : 2 * f * u ≤ 1 / 50 * u := mul_le_mul_of_nonneg_right (by linarith) u0.le
  linarith

/-- The exponential function: the relative error is at most `(500 + |x|) u`. -/
theorem exp_acc (R : Rnd A v ok u) (H : ExpEnv A v ok u) {x : α} (hx : ok x) (x1 : |v x| ≤ 10 ^ 8) :
    ok (Fn.exp A x) ∧ NearR (u * (500 + |v x|)) (v (Fn.exp A x)) (Real.exp (v x)) ∧ Sz 300000000 (Real.exp (v x)) := by
  have u0 := R.u0
  have u1 := R.u1
  have t0 := R.t0
  have ax0 := abs_nonneg (v x)
  have hux : 0 ≤ u * |v x| := by positivity
  have hux1 : u * |v x| ≤ 1 / 10 ^ 22 := le_trans (mul_le_mul u1 x1 ax0 (by norm_num)) (by norm_num)
  have e9 : u * (500 + |v x|) = 500 * u + u * |v x| := by ring
  rw [e9]
  have sgen : ∀ {y : ℝ}, |y| ≤ 10 ^ 8 → Sz 300000000 (Real.exp y) := by
    have key : ∀ {y : ℝ}, 0 ≤ y → y ≤ 10 ^ 8 → Sz 300000000 (Real.exp y) := by
      intro y y0 y1
      have h1 : 1 ≤ Real.exp y := Real.one_le_exp y0
      have h2 : Real.exp y ≤ Real.exp 1 ^ (10 ^ 8 : ℕ) := by
        rw [← Real.exp_nat_mul]; apply Real.exp_le_exp.2; push_cast; linarith
      have h3 : Sz (((10 ^ 8 : ℕ) : ℤ) * 1) (Real.exp 1 ^ (10 ^ 8 : ℕ)) := by
        have a := Real.exp_one_lt_d9
        have b := Real.exp_pos 1
        have d := Real.add_one_le_exp (1 : ℝ)
        exact (sz_of_bounds (by rw [abs_of_pos b]; linarith) (by rw [abs_of_pos b]; linarith)).pow _
      have h4 := h3.mono (show (((10 ^ 8 : ℕ) : ℤ) * 1) ≤ 300000000 by norm_num)
      refine ⟨?_, ?_⟩
      · rw [abs_of_pos (Real.exp_pos _)]; exact le_trans (pw_le_one (by norm_num)) h1
      · rw [abs_of_pos (Real.exp_pos _)]
        refine le_trans h2 (le_trans (le_abs_self _) h4.2)
    intro y hy
    rcases le_total 0 y with h | h
    · exact key h (by rwa [abs_of_nonneg h] at hy)
    · have := (key (y := -y) (by linarith) (by rwa [abs_of_nonpos h] at hy)).inv
      rwa [Real.exp_neg, inv_inv] at this
  have sfin := sgen x1
  unfold Fn.exp
  rw [R.isnan x hx, R.isinf x hx]
  simp only [Bool.false_eq_true, if_false, Bool.or_eq_true, decide_eq_true_eq]
  by_cases hz : A.iszero x = true ∨ A.order x < -A.tol
  · rw [if_pos hz]
    refine ⟨R.one.1, ?_, sfin⟩
    rw [R.one.2]
    have hsm : |v x| ≤ u / 1000 := by
      rcases hz with h | h
      · rw [(R.iszero x hx).1 h, abs_zero]; positivity
      · by_cases h0 : v x = 0
        · rw [h0, abs_zero]; positivity
        · exact le_trans (R.order x hx h0).2.le (le_trans (pw_mono (by omega)) R.ut)
    have h1 := exp_shift (a := 0) (b := v x) (δ := u / 1000) (by rw [zero_sub, abs_neg]; exact hsm) (by linarith)
    rw [Real.exp_zero] at h1
    exact h1.mono (by linarith)
  rw [if_neg hz]
  have h0 : v x ≠ 0 := fun h => hz (Or.inl ((R.iszero x hx).2 h))
  have hord : -A.tol ≤ A.order x := not_lt.1 fun h => hz (Or.inr h)
  have apos := abs_pos.2 h0
  -- the magnitude
  have hxx : ∃ xx, (if (!A.isneg x) = true then x else A.neg x) = xx ∧ ok xx ∧ v xx = |v x| := by
    by_cases hn : v x < 0
    · have : A.isneg x = true := (R.isneg x hx).2 hn
      refine ⟨A.neg x, by rw [this]; simp, (R.neg x hx).1, by rw [(R.neg x hx).2, abs_of_neg hn]⟩
    · have : A.isneg x = false := by
        by_contra hc
        exact hn ((R.isneg x hx).1 (by simpa using hc))
      exact ⟨x, by rw [this]; simp, hx, by rw [abs_of_nonneg (not_lt.1 hn)]⟩
  obtain ⟨xx, exx, oxx, vxx⟩ := hxx
  rw [exx]
  have hlt : A.lt A.maxExp xx = false := by
    by_contra hc
    have := (R.lt A.maxExp xx H.max.1 oxx).1 (by simpa using hc)
    have := H.max.2
    rw [vxx] at *
    linarith
  rw [hlt]
  simp only [Bool.false_eq_true, if_false]
  by_cases hi : A.isint x = true
  · rw [if_pos hi]
    obtain ⟨k, hk⟩ := (R.isint x hx).1 hi
    have hka : |v x| = (k.natAbs : ℝ) := by
      rw [hk, ← Int.cast_abs, Int.abs_eq_natAbs, Int.cast_natCast]
    have hkn : k.natAbs ≤ 100000000 := by
      rw [hka] at x1
      have : (k.natAbs : ℝ) ≤ (100000000 : ℕ) := by push_cast; linarith
      exact_mod_cast this
    have hto : A.toI x = k := R.toI x k hx hk (by rw [Int.abs_eq_natAbs]; omega)
    rw [hto]
    obtain ⟨oe, ee⟩ := H.e
    have a := Real.exp_one_lt_d9
    have b := Real.exp_pos 1
    have d := Real.add_one_le_exp (1 : ℝ)
    have se : Sz 1 (Real.exp 1) := sz_of_bounds (by rw [abs_of_pos b]; linarith) (by rw [abs_of_pos b]; linarith)
    have hkr : (k.natAbs : ℝ) ≤ 100000000 := by exact_mod_cast hkn
    have hkg : (k.natAbs : ℝ) * (u / 10 ^ 4) ≤ 100000000 * (u / 10 ^ 4) := mul_le_mul_of_nonneg_right hkr (by positivity)
    obtain ⟨op, np⟩ := R.pownN_acc (le_refl _) se (p := k.natAbs) (by push_cast; linarith) (by omega) oe ee
    have hpw : Real.exp 1 ^ k.natAbs = Real.exp |v x| := by rw [← Real.exp_nat_mul, hka, mul_one]
    rw [hpw] at np
    have hb : 4 * (k.natAbs : ℝ) * (u / 10 ^ 4) = u * |v x| / 2500 := by rw [hka]; ring
    rw [hb] at np
    by_cases hneg : k < 0
    · have hkk : k = -(k.natAbs : ℤ) := by omega
      have hp : Fn.pown A A.e k = A.div (Fn.one A) (Fn.pown A A.e (k.natAbs : ℤ)) := by
        unfold Fn.pown pown
        rw [if_pos hneg, if_neg (by omega), if_neg (by omega), Option.getD_some, Option.getD_some, Int.natAbs_natCast]
      rw [hp]
      obtain ⟨o, n⟩ := R.recip_acc op (by positivity) (by linarith) (Real.exp_pos _).ne' np ((sgen (y := |v x|) (by rwa [abs_abs])).mono (by norm_num))
      have hxn : v x ≤ 0 := by rw [hk]; exact_mod_cast hneg.le
      rw [abs_of_nonpos hxn, Real.exp_neg, inv_inv] at n
      rw [abs_of_nonpos hxn] at hux ⊢
      exact ⟨o, n.mono (by linarith), sfin⟩
    · have hkk : k = (k.natAbs : ℤ) := by omega
      have hxn : 0 ≤ v x := by rw [hk]; exact_mod_cast not_lt.1 hneg
      rw [← hkk] at op np
      rw [abs_of_nonneg hxn] at np hux ⊢
      exact ⟨op, np.mono (by linarith), sfin⟩
  · rw [if_neg hi]
    have hordxx : -A.tol ≤ A.order xx := by
      have h1 := (R.order x hx h0)
      have h2 := (R.order xx oxx (by rw [vxx]; exact apos.ne'))
      rw [vxx, abs_abs] at h2
      have := pw_lt (lt_of_le_of_lt h1.1 h2.2)
      omega
    obtain ⟨oc, nc, sc⟩ := R.expCore_acc H oxx (by rw [vxx]; exact apos) (by rw [vxx]; exact x1) hordxx
    rw [vxx] at nc sc
    have e8 : u * (210 + |v x| / 100) = 210 * u + u * |v x| / 100 := by ring
    rw [e8] at nc
    by_cases hn : v x < 0
    · have : A.isneg x = true := (R.isneg x hx).2 hn
      rw [this]
      simp only [Bool.not_true, Bool.false_eq_true, if_false]
      obtain ⟨o, n⟩ := R.recip_acc oc (by positivity) (by linarith) (Real.exp_pos _).ne' nc (sc.mono (by norm_num))
      rw [abs_of_neg hn, Real.exp_neg, inv_inv] at n
      rw [abs_of_neg hn] at hux ⊢
      exact ⟨o, n.mono (by linarith), sfin⟩
    · have : A.isneg x = false := by
        by_contra hc
        exact hn ((R.isneg x hx).1 (by simpa using hc))
      rw [this]
      simp only [Bool.not_false, if_true]
      rw [abs_of_nonneg (not_lt.1 hn)] at nc hux ⊢
      exact ⟨oc, nc.mono (by linarith), sfin⟩

end Rnd
end EFX
