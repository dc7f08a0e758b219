import Verif.Lemmas.MulDivN
import Verif.Props.Mul
/-!
# C18, C19: multiplication and division by a built-in unsigned integer
-/

namespace EFX.Props
open EFX EFX.Spec

theorem val_sgn {y x : EFloat} (h : y.neg = x.neg) : val y = sgnQ x.neg * mag y := by rw [val_eq, h]

theorem mul_val_sgn {y x : EFloat} (h : y.neg = x.neg) : val y * val x = mag y * mag x := by
  rw [val_sgn h, val_eq x]
  have := sgnQ_mul_self x.neg
  calc _ = (sgnQ x.neg * sgnQ x.neg) * (mag y * mag x) := by ring
    _ = _ := by rw [this, one_mul]

/-- C18.  `x * n` at full working precision: for `n < 10^8` the exact product cut toward zero to the
storage format (hence exact if that can hold it); `0`, `1`, infinity and NaN as usual. -/
theorem C18_mul_unsigned {c : Cfg} {x : EFloat} (hx : WF c x) (hp : x.prec = c.elems) (n : Nat)
    (hn : n < 100000000) :
    (x.cls = .finite → IsTrunc c (mulUnsigned c x n) (val x * n)) ∧
    (x.cls = .finite → (∃ w, FinWF c w ∧ val w = val x * n) → val (mulUnsigned c x n) = val x * n) ∧
    mulUnsigned c x 1 = (if x.cls = .nan then nanV c else if x.cls = .inf then infSigned c x.neg else
      if val x = 0 then zero c else x) ∧
    (x.cls = .nan → denote (mulUnsigned c x n) = .nan) ∧
    (x.cls = .inf → denote (mulUnsigned c x n) = if n = 0 then .nan else .inf x.neg) := by
  have main : x.cls = .finite → IsTrunc c (mulUnsigned c x n) (val x * n) := by
    intro hf
    have hF : FinWF c x := ⟨hx, hf⟩
    have h1 : x.isnan = false := by simp [EFloat.isnan, hf]
    have h3 : x.isinf = false := by simp [EFloat.isinf, hf]
    by_cases hz : x.data.headD 0 = 0
    · have e : mulUnsigned c x n = zero c := by
        unfold mulUnsigned
        rw [h1, h3, (iszero_iff hf).2 hz]; simp
      rw [e, (head_zero_iff hF).1 hz, zero_mul, ← val_zero c]
      exact isTrunc_self (FinWF_zero c)
    by_cases h0 : n = 0
    · have e : mulUnsigned c x n = zero c := by
        unfold mulUnsigned
        rw [h1, h3, decide_eq_true h0]; simp
      rw [e, h0, Nat.cast_zero, mul_zero, ← val_zero c]
      exact isTrunc_self (FinWF_zero c)
    by_cases hn1 : n = 1
    · have e : mulUnsigned c x n = x := by
        unfold mulUnsigned
        rw [h1, h3, (iszero_false hf).2 hz, hn1]; simp [mask]
      rw [e, hn1, Nat.cast_one, mul_one]
      exact isTrunc_self hF
    · obtain ⟨s1, s2, s3, s4, s5, s6⟩ := mulUnsigned_spec hF hz (by omega : 2 ≤ n) hn
      have hpos : (0 : ℚ) ≤ n := Nat.cast_nonneg n
      apply isTrunc_of_chop s1 s2
      · rw [s6 hp, abs_mul, abs_val, abs_of_nonneg hpos]
      · rw [← mul_assoc, mul_val_sgn s3]
        exact mul_nonneg (mul_nonneg (mag_nonneg _) (mag_nonneg _)) hpos
  refine ⟨main, ?_, ?_, ?_, ?_⟩
  · rintro hf ⟨w, hw, hwv⟩
    rw [← hwv]
    refine (main hf).unique ?_
    rw [← hwv]; exact isTrunc_self hw
  · unfold mulUnsigned
    cases hcl : x.cls
    · have hF : FinWF c x := ⟨hx, hcl⟩
      by_cases hz : x.data.headD 0 = 0
      · rw [(iszero_iff hcl).2 hz]
        simp [EFloat.isnan, EFloat.isinf, hcl, (head_zero_iff hF).1 hz]
      · rw [(iszero_false hcl).2 hz]
        have : val x ≠ 0 := fun h => hz ((head_zero_iff hF).2 h)
        simp [EFloat.isnan, EFloat.isinf, hcl, this, mask]
    · simp [EFloat.isnan, EFloat.isinf, hcl]
    · simp [EFloat.isnan, EFloat.isinf, hcl]
  · intro h
    unfold mulUnsigned
    simp [EFloat.isnan, h, denote, nanV, mkClass]
  · intro h
    unfold mulUnsigned
    by_cases h0 : n = 0
    · simp [EFloat.isnan, EFloat.isinf, h, h0, denote, nanV, mkClass]
    · simp [EFloat.isnan, EFloat.isinf, h, h0, denote, infSigned_eq]

/-- `12345679.25 * -99999999` carries into a new limb; `inf * 3`. -/
example : WF cfg101 exC ∧ exC.prec = cfg101.elems ∧ exC.cls = .finite ∧
    (mulUnsigned cfg101 exC 99999999).exp = 8 ∧
    val (mulUnsigned cfg101 exC 99999999) = -(49382717 / 4) * 99999999 ∧
    WF cfg101 (infV cfg101) ∧ (infV cfg101).prec = cfg101.elems := by
  refine ⟨exC_fin.toWF, by decide, rfl, by decide +kernel, by decide +kernel, by decide +kernel, by decide⟩

/-! ### division -/

theorem divUnsigned_eq {c : Cfg} {x : EFloat} {n : Nat} (hx : FinWF c x) (hz : x.data.headD 0 ≠ 0)
    (h1 : 1 ≤ n) (hn : n < 100000000) : divUnsigned c x n = divSmall c x n := by
  have h2 : x.isnan = false := by simp [EFloat.isnan, hx.fin]
  have h3 : x.isinf = false := by simp [EFloat.isinf, hx.fin]
  unfold divUnsigned
  rw [h2, h3, (iszero_false hx.fin).2 hz]
  simp only [Bool.false_eq_true, if_false]
  rw [if_neg (by omega), if_neg (by rw [maskN]; omega), w32_id (by omega)]

theorem digits_elems (c : Cfg) : (c.digits10 : ℤ) + 25 ≤ 8 * (c.elems : ℤ) := by
  unfold Cfg.elems Cfg.maxDigits10
  split <;> omega

theorem div_err_noshift {n L Q R g E T : ℚ} (hn : 0 < n) (hnB : n ≤ 100000000) (h : n * Q + R = L) (hR0 : 0 ≤ R)
    (hR : R < n) (hg : 0 < g) (hE : 0 < E) (hT : T ≤ L) (hET : E * T ≥ 10000000000000000) :
    |Q * g - L * g / n| ≤ E * (L * g / n) := by
  have e1 : Q * g - L * g / n = -(R * g / n) := by
    rw [← h]; field_simp; ring
  rw [e1, abs_neg, abs_of_nonneg (by positivity)]
  have e2 : E * (L * g / n) = (E * L) * g / n := by ring
  rw [e2]
  apply div_le_div_of_nonneg_right _ hn.le
  apply mul_le_mul_of_nonneg_right _ hg.le
  have : E * T ≤ E * L := mul_le_mul_of_nonneg_left hT hE.le
  linarith

theorem div_err_shift {n L Q R g E T Y : ℚ} (hn : 0 < n) (hnB : n ≤ 100000000) (h : n * Q + R = L * 100000000)
    (hR0 : 0 ≤ R) (hR : R < n) (hg : 0 < g) (hE : 0 < E) (hT : T ≤ L) (hET : E * T ≥ 10000000000000000)
    (b1 : Y - Q ≤ 9999999900000000) (b2 : Q - Y ≤ 9999999900000000) :
    |Y * g - L * (g * 100000000) / n| ≤ E * (L * (g * 100000000) / n) := by
  have e1 : Y * g - L * (g * 100000000) / n = ((Y - Q) - R / n) * g := by
    rw [show L * (g * 100000000) = (L * 100000000) * g by ring, ← h]; field_simp; ring
  have hR : R / n ≤ 1 := by rw [div_le_one hn]; exact hR.le
  have hR0 : 0 ≤ R / n := div_nonneg hR0 hn.le
  rw [e1, abs_mul, abs_of_pos hg]
  have e2 : E * (L * (g * 100000000) / n) = (E * L) * (100000000 / n) * g := by ring
  rw [e2]
  apply mul_le_mul_of_nonneg_right _ hg.le
  have h3 : (1 : ℚ) ≤ 100000000 / n := by rw [le_div_iff₀ hn]; linarith
  have h4 : E * T ≤ E * L := mul_le_mul_of_nonneg_left hT hE.le
  have h5 : E * L ≤ (E * L) * (100000000 / n) := le_mul_of_one_le_right (by linarith) h3
  rw [abs_le]
  constructor <;> linarith

theorem nat_div_q (a n : ℕ) (hn : 0 < n) : (n : ℚ) * ((a / n : ℕ) : ℚ) + ((a % n : ℕ) : ℚ) = (a : ℚ) ∧
    (0 : ℚ) ≤ ((a % n : ℕ) : ℚ) ∧ ((a % n : ℕ) : ℚ) < n := by
  refine ⟨by exact_mod_cast Nat.div_add_mod a n, Nat.cast_nonneg _, by exact_mod_cast Nat.mod_lt a hn⟩

theorem int_q {a b k : ℕ} (h : (a : ℤ) - b ≤ k) : (a : ℚ) - b ≤ k := by exact_mod_cast h

theorem n99 : (99999999 * 100000000 : ℤ) = ((9999999900000000 : ℕ) : ℤ) := by norm_num

/-- C19.  `x / n` for `1 ≤ n < 10^8` at full working precision: right sign, never zero, relative error
below `10^-(digits10+1)`, and the exact quotient cut to the storage format whenever the leading limb
of `x` is at least `n`; `0/0` is NaN and `x/0` is infinite.

Missing: when the leading limb is below `n` the last limb but one is wrong, so the result is not the
cut quotient (`C19_stale_limb_refuted`), and `x/0` is `+inf` also for negative `x`
(`C19_div_zero_sign_refuted`). -/
theorem C19_div_unsigned_partial {c : Cfg} {x : EFloat} (hx : FinWF c x) (hp : x.prec = c.elems) :
    (∀ n : Nat, 1 ≤ n → n < 100000000 →
      FinWF c (divUnsigned c x n) ∧
      (val x = 0 → val (divUnsigned c x n) = 0) ∧
      (val x ≠ 0 → 0 < val (divUnsigned c x n) * val x) ∧
      RelErr (val (divUnsigned c x n)) (val x / n) ((10 : ℚ) ^ (-((c.digits10 : ℤ) + 1))) ∧
      (n ≤ x.data.headD 0 → IsTrunc c (divUnsigned c x n) (val x / n)) ∧
      (n = 1 → val (divUnsigned c x n) = val x)) ∧
    (val x = 0 → denote (divUnsigned c x 0) = .nan) ∧
    (val x ≠ 0 → ∃ b, denote (divUnsigned c x 0) = .inf b) := by
  have h2 : x.isnan = false := by simp [EFloat.isnan, hx.fin]
  have h3 : x.isinf = false := by simp [EFloat.isinf, hx.fin]
  refine ⟨?_, ?_, ?_⟩
  · intro n h1 hn
    have hnq : (0 : ℚ) < n := by exact_mod_cast h1
    have hnB : (n : ℚ) ≤ 100000000 := by exact_mod_cast hn.le
    by_cases hz : x.data.headD 0 = 0
    · have hv := (head_zero_iff hx).1 hz
      have hng : x.neg = false := (hx.norm hx.fin hz).2
      have e : divUnsigned c x n = x := by
        unfold divUnsigned
        rw [h2, h3, (iszero_iff hx.fin).2 hz]
        simp only [Bool.false_eq_true, if_false, if_true]
        rw [if_neg (by omega)]
        cases x; simp_all
      rw [e, hv]
      refine ⟨hx, fun _ => rfl, fun h => absurd rfl h, ?_, fun h => by omega, fun _ => rfl⟩
      unfold RelErr; simp
    rw [divUnsigned_eq hx hz h1 hn]
    have hvx := fun h => hz ((head_zero_iff hx).2 h)
    by_cases hn1 : n = 1
    · have e : divSmall c x n = x := by
        unfold divSmall
        simp only [if_neg (show ¬ n > 1 by omega)]
        rw [if_neg (by rw [(iszero_false hx.fin).2 hz]; simp)]
      rw [e, hn1]
      simp only [Nat.cast_one, div_one]
      refine ⟨hx, fun h => absurd h hvx, fun h => mul_self_pos.2 h, ?_, fun _ => isTrunc_self hx, fun _ => trivial⟩
      unfold RelErr
      rw [sub_self, abs_zero]
      exact mul_nonneg (p10_pos _).le (abs_nonneg _)
    · have hn2 : 2 ≤ n := by omega
      have h7 := elems_ge c
      have hw := divSmall_WF hx hz hn
      obtain ⟨d1, d2, d3⟩ := divData_spec hx hz hn2 hn
      obtain ⟨l1, l2⟩ := divData_lv hx hz hn2 hn hp
      have hdh : (divData x n).1.headD 0 ≠ 0 := by
        rcases d3 with h | h
        · exact h.2.2
        · exact h.2.2 (by omega)
      have e : divSmall c x n = { x with data := (divData x n).1, exp := x.exp + (divData x n).2 } := by
        rw [divSmall_eq hn2]
        simp only
        rw [if_neg (by
          rw [(iszero_false (x := { x with data := (divData x n).1, exp := x.exp + (divData x n).2 }) hx.fin).2 hdh]
          simp)]
      rw [e] at hw ⊢
      have hneg : ({ x with data := (divData x n).1, exp := x.exp + (divData x n).2 } : EFloat).neg = x.neg := rfl
      have hexp : ({ x with data := (divData x n).1, exp := x.exp + (divData x n).2 } : EFloat).exp = x.exp + (divData x n).2 := rfl
      have hdat : ({ x with data := (divData x n).1, exp := x.exp + (divData x n).2 } : EFloat).data = (divData x n).1 := rfl
      generalize ({ x with data := (divData x n).1, exp := x.exp + (divData x n).2 } : EFloat) = y at *
      have hyh : y.data.headD 0 ≠ 0 := by rw [hdat]; exact hdh
      have hmx := mag_pos hx.toWF hz
      have hmy := mag_pos hw.toWF hyh
      have hdiff : |val y - val x / n| = |mag y - mag x / n| := by
        rw [val_sgn hneg, val_eq x, show sgnQ x.neg * mag y - sgnQ x.neg * mag x / n = sgnQ x.neg * (mag y - mag x / n) by ring,
          abs_mul, sgnQ_abs, one_mul]
      have hq : |val x / n| = mag x / n := by rw [abs_div, abs_val, abs_of_pos hnq]
      have hge := lv_ge_of_head hz
      rw [hx.len] at hge
      have hgeq : (10 : ℚ) ^ (8 * ((c.elems : ℤ) - 1)) ≤ (lv x.data : ℚ) := by
        have : ((100000000 ^ (c.elems - 1) : ℕ) : ℚ) ≤ (lv x.data : ℚ) := by exact_mod_cast hge
        rw [← p10_base] at this
        rw [show ((c.elems - 1 : ℕ) : ℤ) = (c.elems : ℤ) - 1 by omega] at this
        exact this
      have hul := ulp_pos c x
      have hD := digits_elems c
      have hxm := mag_eq hx.toWF
      have hym := mag_eq hw.toWF
      rw [hdat] at hym
      have hbound : (10 : ℚ) ^ (-(c.digits10 + 1 : ℤ)) * (10 : ℚ) ^ (8 * ((c.elems : ℤ) - 1)) ≥ 10000000000000000 := by
        rw [← p10_add]
        calc (10 : ℚ) ^ (-(c.digits10 + 1 : ℤ) + 8 * ((c.elems : ℤ) - 1)) ≥ (10 : ℚ) ^ (16 : ℤ) := p10_mono (by omega)
          _ = 10000000000000000 := by norm_num
      refine ⟨hw, fun h => absurd h hvx, fun _ => ?_, ?_, ?_, fun h => absurd h hn1⟩
      · rw [mul_val_sgn hneg]; exact mul_pos hmy hmx
      · unfold RelErr
        rw [hdiff, hq]
        have hE := p10_pos (-((c.digits10 : ℤ) + 1))
        generalize (10 : ℚ) ^ (-((c.digits10 : ℤ) + 1)) = E at *
        generalize (10 : ℚ) ^ (8 * ((c.elems : ℤ) - 1)) = T at *
        rcases d3 with ⟨h, h8, _⟩ | ⟨h, h8, _⟩
        · -- no shift
          have hu : ulp c y = ulp c x := by unfold ulp; rw [hexp, h8, add_zero]
          rw [hym, hxm, hu, l1 h]
          obtain ⟨r1, r2, r3⟩ := nat_div_q (lv x.data) n (by omega)
          exact div_err_noshift hnq hnB r1 r2 r3 hul hE hgeq hbound
        · have hu : ulp c x = ulp c y * 100000000 := by
            unfold ulp; rw [hexp, h8,
              show x.exp - 8 * ((c.elems : ℤ) - 1) = (x.exp + -8 - 8 * ((c.elems : ℤ) - 1)) + 8 by ring, p10_add]
            norm_num
          obtain ⟨b1, b2⟩ := l2 h
          rw [hym, hxm, hu]
          obtain ⟨r1, r2, r3⟩ := nat_div_q (lv x.data * 100000000) n (by omega)
          rw [n99] at b1 b2
          rw [Nat.cast_mul, Nat.cast_ofNat] at r1
          have q1 := int_q b1
          have q2 := int_q b2
          rw [Nat.cast_ofNat] at q1 q2
          exact div_err_shift hnq hnB r1 r2 r3 (ulp_pos c y) hE hgeq hbound q1 q2
      · intro h
        rcases d3 with ⟨_, h8, _⟩ | ⟨h', _, _⟩
        · have hu : ulp c y = ulp c x := by unfold ulp; rw [hexp, h8, add_zero]
          apply isTrunc_of_chop hw hyh
          · rw [hq, hym, hu, l1 h, hxm]
            have := chop_nat (g := ulp c x / n) (by positivity) (lv x.data) n (by omega)
            rw [div_mul_cancel₀ _ hnq.ne'] at this
            rw [← this]; congr 1; ring
          · rw [show val y * (val x / n) = val y * val x / n by ring, mul_val_sgn hneg]
            positivity
        · omega
  · intro h
    have hz := (head_zero_iff hx).2 h
    unfold divUnsigned
    rw [h2, h3, (iszero_iff hx.fin).2 hz]
    simp [denote, nanV, mkClass]
  · intro h
    have hz : x.data.headD 0 ≠ 0 := fun h' => h ((head_zero_iff hx).1 h')
    unfold divUnsigned
    rw [h2, h3, (iszero_false hx.fin).2 hz]
    exact ⟨false, by simp [denote, infV, mkClass]⟩

/-- `12345678.9 / 1000` has leading limb above the divisor, `-12345679.25 / 99999999` does not. -/
example : FinWF cfg101 exA ∧ exA.prec = cfg101.elems ∧ 1000 ≤ exA.data.headD 0 ∧ val exA ≠ 0 ∧
    FinWF cfg101 exC ∧ exC.data.headD 0 < 99999999 ∧ val exC ≠ 0 :=
  ⟨exA_fin, by decide, by decide, val_of_ne exA_fin (by decide), exC_fin, by decide, val_of_ne exC_fin (by decide)⟩

/-- `1/7`: a valid number lies between the computed and the exact quotient, so the computed one is
not the exact quotient cut to the stored limbs. -/
theorem C19_stale_limb_refuted :
    FinWF cfg101 (one cfg101) ∧ (one cfg101).prec = cfg101.elems ∧
    ∃ w, FinWF cfg101 w ∧ val (divUnsigned cfg101 (one cfg101) 7) < val w ∧ val w < val (one cfg101) / 7 := by
  refine ⟨one_fin, by decide, { divUnsigned cfg101 (one cfg101) 7 with
      data := (divUnsigned cfg101 (one cfg101) 7).data.set 14 42857142 }, by decide +kernel, ?_, ?_⟩ <;>
    decide +kernel

/-- `(-0.00000007) / 0` is `+inf`, not `-inf`. -/
theorem C19_div_zero_sign_refuted :
    FinWF cfg101 exB ∧ val exB < 0 ∧ denote (divUnsigned cfg101 exB 0) = .inf false :=
  ⟨exB_fin, by decide +kernel, by rfl⟩

end EFX.Props
