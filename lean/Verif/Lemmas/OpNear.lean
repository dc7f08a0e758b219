import Verif.Lemmas.InvAcc
/-!
# Relative errors of the operations, for operands of any sign
-/

namespace EFX
open Spec EFX.Props

/-- Relative weight of the last limb. -/
def relU (c : Cfg) : ℚ := (10 : ℚ) ^ (8 - 8 * (c.elems : ℤ))

theorem relU_pos (c : Cfg) : 0 < relU c := p10_pos _

theorem ulp_le_relU {c : Cfg} {x : EFloat} (hx : FinWF c x) (zx : x.data.headD 0 ≠ 0) : ulp c x ≤ relU c * mag x := by
  have h := mag_ge hx.toWF zx
  calc ulp c x = relU c * (10 : ℚ) ^ x.exp := by
        unfold ulp relU; rw [← p10_add]; congr 1; ring
    _ ≤ _ := mul_le_mul_of_nonneg_left h (relU_pos c).le

theorem big_bound {c : Cfg} {x : EFloat} (hx : FinWF c x) (he : x.exp ≤ maxExp10 - 16) : 2 * mag x ≤ (10 : ℚ) ^ maxExp10 := by
  have h1 := (mag_lt hx.toWF).le
  have h2 : (10 : ℚ) ^ (x.exp + 8) * (10 : ℚ) ^ (1 : ℤ) ≤ (10 : ℚ) ^ maxExp10 := by
    rw [← p10_add]; apply p10_mono; omega
  rw [show (10 : ℚ) ^ (1 : ℤ) = 10 by norm_num] at h2
  have h3 : 2 * mag x ≤ (10 : ℚ) ^ (x.exp + 8) * 10 := by linarith [mag_nonneg x]
  exact le_trans h3 h2

theorem half_big {c : Cfg} {x : EFloat} (hx : FinWF c x) (he : x.exp ≤ maxExp10 - 16) : |val x| ≤ (10 : ℚ) ^ maxExp10 := by
  have h := big_bound hx he
  have h2 : |val x| ≤ 2 * mag x := by rw [abs_val]; linarith [mag_nonneg x]
  exact le_trans h2 h

theorem sum_big {c : Cfg} {x v : EFloat} (hx : FinWF c x) (hv : FinWF c v) (ex : x.exp ≤ maxExp10 - 16)
    (ev : v.exp ≤ maxExp10 - 16) : mag x + mag v ≤ (10 : ℚ) ^ maxExp10 := by
  rcases le_total (mag x) (mag v) with h | h
  · have h1 := big_bound hv ev
    have h2 : mag x + mag v ≤ 2 * mag v := by linarith
    exact le_trans h2 h1
  · have h1 := big_bound hx ex
    have h2 : mag x + mag v ≤ 2 * mag x := by linarith
    exact le_trans h2 h1

/-- The sum of two numbers away from the overflow limit: error at most one unit in the last limb of the operands, and
a lower bound for the exponent of the result. -/
theorem add_near {c : Cfg} {x v : EFloat} (hx : FinWF c x) (hv : FinWF c v) (ex : val x ≠ 0 → x.exp ≤ maxExp10 - 16)
    (ev : val v ≠ 0 → v.exp ≤ maxExp10 - 16) :
    FinWF c (addAssign c x v) ∧
    |val (addAssign c x v) - (val x + val v)| ≤ relU c * (|val x| + |val v|) ∧
    (val x ≠ 0 → val (addAssign c x v) ≠ 0 → x.exp - 8 * (c.elems : ℤ) ≤ (addAssign c x v).exp) := by
  have hU := relU_pos c
  have hN := elems_ge c
  by_cases zx : x.data.headD 0 = 0
  · have h0 := (head_zero_iff hx).1 zx
    rw [addAssign_zero_left hx zx, h0]
    refine ⟨hv, ?_, fun h => absurd rfl h⟩
    rw [zero_add, sub_self, abs_zero]; positivity
  by_cases zv : v.data.headD 0 = 0
  · have h0 := (head_zero_iff hv).1 zv
    rw [addAssign_zero_right hv zv zx, h0]
    refine ⟨hx, ?_, fun _ _ => by omega⟩
    rw [add_zero, sub_self, abs_zero]; positivity
  replace ex := ex (val_of_ne hx zx)
  replace ev := ev (val_of_ne hv zv)
  by_cases hs : x.neg = v.neg
  · obtain ⟨y, y1, y2, y3, y4, _, y6, _⟩ := addAssign_same hx hv zx zv hs
    have hc := chop_le (ulp_pos c y) (add_nonneg (mag_nonneg x) (mag_nonneg v))
    rw [← y4] at hc
    have hle : mag y ≤ mag (valueMax c) :=
      le_trans hc.1 (le_trans (sum_big hx hv ex ev) (max_ge c))
    rw [y6 (Or.inr hle)]
    clear hle y6
    refine ⟨y1, ?_, fun _ _ => ?_⟩
    · have e : val y - (val x + val v) = sgnQ x.neg * (mag y - (mag x + mag v)) := by
        rw [val_eq, val_eq x, val_eq v, y3, hs]; ring
      rw [e, abs_mul, sgnQ_abs, one_mul, abs_val, abs_val, abs_le]
      have := ulp_le_relU y1 y2
      have h2 : relU c * mag y ≤ relU c * (mag x + mag v) := mul_le_mul_of_nonneg_left hc.1 hU.le
      constructor <;> linarith [hc.1, hc.2, ulp_pos c y]
    · have hxy : mag x ≤ mag y := by
        by_contra hcon
        rw [not_le] at hcon
        have h1 := exp_le_of_mag_le hx.toWF y1.toWF hcon.le y2
        -- `mag x` is a multiple of the last-limb weight of `y`
        obtain ⟨m, hm8⟩ : (8 : ℤ) ∣ x.exp - y.exp := dvd_sub hx.exp8 y1.exp8
        obtain ⟨k, rfl⟩ : ∃ k : Nat, m = k := ⟨m.toNat, by omega⟩
        have hu := ulp_shift (c := c) (x := x) (v := y) (k := k) (by omega)
        have hlt : mag x < mag y + ulp c y := by linarith [hc.2, mag_nonneg v]
        rw [mag_eq hx.toWF, mag_eq y1.toWF, hu] at hcon hlt
        have hp := ulp_pos c y
        have a1 : (lv y.data : ℚ) < lv x.data * ((100000000 ^ k : Nat) : ℚ) := by
          have : (lv y.data : ℚ) * ulp c y < (lv x.data * ((100000000 ^ k : Nat) : ℚ)) * ulp c y := by linarith
          exact lt_of_mul_lt_mul_right this hp.le
        have a2 : (lv x.data * ((100000000 ^ k : Nat) : ℚ)) < lv y.data + 1 := by
          have : (lv x.data * ((100000000 ^ k : Nat) : ℚ)) * ulp c y < (lv y.data + 1) * ulp c y := by linarith
          exact lt_of_mul_lt_mul_right this hp.le
        have a1' : lv y.data < lv x.data * 100000000 ^ k := by exact_mod_cast a1
        have a2' : lv x.data * 100000000 ^ k < lv y.data + 1 := by exact_mod_cast a2
        omega
      have := exp_le_of_mag_le y1.toWF hx.toWF hxy zx
      omega
  · have hneg := (val_mul_neg_iff hx hv zx zv).2 hs
    obtain ⟨a1, a2, a3⟩ := add_opp hx hv hneg (half_big hx ex) (half_big hv ev)
    have mult : ∀ {a b : EFloat}, FinWF c a → val (addAssign c x v) = val a + chop (ulp c a) (val b) →
        val (addAssign c x v) ≠ 0 → a.exp - 8 * (c.elems : ℤ) ≤ (addAssign c x v).exp := by
      intro a b ha he h0
      have hint : ∃ k : ℤ, val (addAssign c x v) = k * ulp c a := by
        obtain ⟨j, hj⟩ : ∃ j : ℤ, chop (ulp c a) (val b) = j * ulp c a := by
          unfold chop; split
          · exact ⟨-⌊-val b / ulp c a⌋, by push_cast; ring⟩
          · exact ⟨_, rfl⟩
        refine ⟨(if a.neg then -1 else 1) * (lv a.data : ℤ) + j, ?_⟩
        rw [he, hj, val_eq, mag_eq ha.toWF]
        unfold sgnQ
        cases a.neg <;> push_cast <;> simp <;> ring
      obtain ⟨k, hk⟩ := hint
      have hu := ulp_pos c a
      have hk0 : k ≠ 0 := by rintro rfl; rw [hk] at h0; simp at h0
      have h1 : ulp c a ≤ mag (addAssign c x v) := by
        rw [← abs_val, hk, abs_mul, abs_of_pos hu]
        have : (1 : ℚ) ≤ |(k : ℚ)| := by exact_mod_cast Int.one_le_abs hk0
        linarith [mul_le_mul_of_nonneg_right this hu.le]
      by_contra hcon
      have h2 := mag_lt a1.toWF
      have h3 : (10 : ℚ) ^ ((addAssign c x v).exp + 8) ≤ ulp c a := by
        unfold ulp; apply p10_mono; omega
      linarith
    have hcerr := chop_abs_err (ulp_pos c x) (val v)
    have hcerr' := chop_abs_err (ulp_pos c v) (val x)
    have ux := ulp_le_relU hx zx
    have uv := ulp_le_relU hv zv
    rcases le_total |val v| |val x| with h | h
    · have e := a2 h
      refine ⟨a1, ?_, fun _ h0 => mult hx e h0⟩
      rw [e, show val x + chop (ulp c x) (val v) - (val x + val v) = -(val v - chop (ulp c x) (val v)) by ring, abs_neg]
      rw [abs_val, abs_val]
      have : 0 ≤ relU c * mag v := mul_nonneg hU.le (mag_nonneg v)
      linarith [hcerr.1]
    · have e := a3 h
      refine ⟨a1, ?_, fun _ h0 => ?_⟩
      · rw [e, show val v + chop (ulp c v) (val x) - (val x + val v) = -(val x - chop (ulp c v) (val x)) by ring, abs_neg]
        rw [abs_val, abs_val]
        have : 0 ≤ relU c * mag x := mul_nonneg hU.le (mag_nonneg x)
        linarith [hcerr'.1]
      · have h1 := mult hv e h0
        have := exp_le_of_mag_le hv.toWF hx.toWF (by rw [← abs_val, ← abs_val]; exact h) zx
        omega

/-- The product of two finite numbers of any sign. -/
theorem mul_near_any {c : Cfg} {x v : EFloat} (hx : FinWF c x) (hv : FinWF c v)
    (he : val x ≠ 0 → val v ≠ 0 → ExpInRange x v) :
    FinWF c (mul c x v) ∧ ((mul c x v).prec = x.prec ∨ (mul c x v).prec = c.elems) ∧
    |val (mul c x v) - val x * val v| ≤ epsP (min x.prec v.prec) * |val x * val v| := by
  have hz : (x.data.headD 0 = 0 ∨ v.data.headD 0 = 0) → val x * val v = 0 → FinWF c (mul c x v) ∧ ((mul c x v).prec = x.prec ∨ (mul c x v).prec = c.elems) ∧
      |val (mul c x v) - val x * val v| ≤ epsP (min x.prec v.prec) * |val x * val v| := by
    intro h h0
    have e : mul c x v = zero c := mulAssignG_zero hx.fin hv.fin h
    rw [e, h0, val_zero]
    refine ⟨FinWF_zero c, Or.inr rfl, by simp⟩
  by_cases zx : x.data.headD 0 = 0
  · exact hz (Or.inl zx) (by rw [(head_zero_iff hx).1 zx, zero_mul])
  by_cases zv : v.data.headD 0 = 0
  · exact hz (Or.inr zv) (by rw [(head_zero_iff hv).1 zv, mul_zero])
  obtain ⟨ho, hu⟩ := not_over (he (val_of_ne hx zx) (val_of_ne hv zv))
  obtain ⟨s1, s2, s3, s4, s5, s6, s7, s8⟩ := mulAssignG_spec (self := false) hx hv zx zv (by simp) ho hu rfl rfl
  unfold mul mulAssign
  refine ⟨s1, Or.inl s4, ?_⟩
  have e : val (mulAssignG c false x v) - val x * val v =
      sgnQ x.neg * sgnQ v.neg * (mag (mulAssignG c false x v) - mag x * mag v) := by
    rw [val_eq, val_eq x, val_eq v, s3, sgnQ_xor]; ring
  rw [e, abs_mul, abs_mul, sgnQ_abs, sgnQ_abs, one_mul, one_mul, abs_mul, abs_val, abs_val]
  have hm : 0 ≤ mag x * mag v := mul_nonneg (mag_nonneg x) (mag_nonneg v)
  generalize min x.prec v.prec = p at *
  have h2 : 2 * (10 : ℚ) ^ (16 - 8 * (p : ℤ)) ≤ epsP p := by
    unfold epsP
    apply mul_le_mul_of_nonneg_right _ (p10_pos _).le
    have : (0 : ℚ) ≤ (mulErr p : ℚ) := by positivity
    linarith
  rw [abs_le]
  constructor
  · unfold epsP; linarith
  · exact le_trans s7 (mul_le_mul_of_nonneg_right h2 hm)

theorem epsP_anti {p q : ℕ} (hp : 2 ≤ p) (h : p ≤ q) : epsP q ≤ epsP p := by
  have step : ∀ p, 2 ≤ p → epsP (p + 1) ≤ epsP p := by
    intro p hp
    unfold epsP
    have e : (10 : ℚ) ^ (16 - 8 * ((p + 1 : ℕ) : ℤ)) = (10 : ℚ) ^ (16 - 8 * (p : ℤ)) * (1 / 100000000) := by
      rw [show 16 - 8 * ((p + 1 : ℕ) : ℤ) = (16 - 8 * (p : ℤ)) + (-8) by push_cast; ring, p10_add]; norm_num
    rw [e]
    have hq : (mulErr (p + 1) : ℚ) + 2 ≤ 100000000 * ((mulErr p : ℚ) + 2) := by
      have : mulErr (p + 1) + 2 ≤ 100000000 * (mulErr p + 2) := by
        unfold mulErr; split <;> split <;> omega
      exact_mod_cast this
    have := mul_le_mul_of_nonneg_right hq (p10_pos (16 - 8 * (p : ℤ))).le
    linarith
  induction q, h using Nat.le_induction with
  | base => exact le_refl _
  | succ q hq ih => exact le_trans (step q (by omega)) ih

/-- Doubling at any working precision. -/
theorem mulSigned_two {c : Cfg} {m : EFloat} (hm : FinWF c m) (pm : 0 < val m) (he : m.exp ≤ maxExp10 - 64) :
    FinWF c (mulSigned c m 2) ∧ (mulSigned c m 2).prec = m.prec ∧ (mulSigned c m 2).exp ≤ m.exp + 8 ∧ m.exp ≤ (mulSigned c m 2).exp ∧
    |val (mulSigned c m 2) - 2 * val m| ≤ 4 * (10 : ℚ) ^ (8 - 8 * (m.prec : ℤ)) * val m := by
  have zm := ne_of_val hm pm.ne'
  have nm := neg_of_val_pos pm
  obtain ⟨a1, a2, a3, a4, a5, _⟩ := mulUnsigned_spec (n := 2) hm zm (le_refl _) (by norm_num)
  have hfa : fabs (mulUnsigned c m 2) = mulUnsigned c m 2 := by
    unfold fabs EFloat.isneg; rw [a3, nm]; simp
  have hgt : gt (mulUnsigned c m 2) (valueMax c) = false := by
    by_contra hc
    rw [Bool.not_eq_false, gt_iff a1 (valueMax_WF c).1, valueMax_val, val_of_pos (by rw [a3, nm])] at hc
    have := mag_lt_of_exp_lt a1.toWF (valueMax_WF c).1.toWF (valueMax_WF c).2
      (by rw [valueMax_exp]; have : maxExp10 = 2147483616 := rfl; omega)
    exact absurd hc (not_lt.2 this.le)
  have hms : mulSigned c m 2 = mulUnsigned c m 2 := by
    unfold mulSigned
    simp only [Int.natAbs]
    rw [if_neg (show ¬ ((2 : Int) < 0) by norm_num), hfa, hgt]
    simp
  rw [hms]
  refine ⟨a1, a4, by omega, by omega, ?_⟩
  rw [val_of_pos (x := mulUnsigned c m 2) (by rw [a3, nm]), val_of_pos nm]
  -- limbs
  have hp2 := hm.prec_lo
  have hpN := hm.prec_hi
  obtain ⟨m1, m2, m3, m4⟩ := mulLoopN_spec (n := 2) (by omega) (by norm_num) (hm.ok.take m.prec)
  have hlen : (m.data.take m.prec).length = m.prec := by rw [List.length_take, hm.len]; omega
  rw [hlen] at m1 m4
  obtain ⟨b1, b2⟩ := mag_prefix hm.toWF hpN
  have hge := mag_ge hm.toWF zm
  have hun := mulUnsigned_unfold (n := 2) hm zm (le_refl _) (by norm_num)
  simp only at hun
  generalize mulLoopN 2 (m.data.take m.prec) = r at *
  obtain ⟨d1, d2⟩ := mag_prefix a1.toWF (p := m.prec) hpN
  have hu : (10 : ℚ) ^ (m.exp - 8 * ((m.prec : ℤ) - 1)) = (10 : ℚ) ^ (8 - 8 * (m.prec : ℤ)) * (10 : ℚ) ^ m.exp := by
    rw [← p10_add]; congr 1; ring
  have hg0 := p10_pos (m.exp - 8 * ((m.prec : ℤ) - 1))
  have hgle : (10 : ℚ) ^ (m.exp - 8 * ((m.prec : ℤ) - 1)) ≤ (10 : ℚ) ^ (8 - 8 * (m.prec : ℤ)) * mag m := by
    rw [hu]; exact mul_le_mul_of_nonneg_left hge (p10_pos _).le
  by_cases hc : r.2 = 0
  · rw [if_neg (by simpa using hc)] at hun
    rw [hc, zero_mul, add_zero] at m4
    have hd : (mulUnsigned c m 2).data.take m.prec = r.1 := by rw [hun]; exact List.take_left' m1
    have hex : (mulUnsigned c m 2).exp = m.exp := by rw [hun]
    rw [hd, hex, m4] at d1 d2
    push_cast at d1 d2
    generalize (10 : ℚ) ^ (m.exp - 8 * ((m.prec : ℤ) - 1)) = g at *
    generalize (lv (List.take m.prec m.data) : ℚ) = L at *
    rw [abs_le]
    constructor <;> linarith
  · rw [if_pos hc] at hun
    have hdo : OK (r.1 ++ m.data.drop m.prec) := OK.append m2 (hm.ok.drop _)
    have hdl : (r.1 ++ m.data.drop m.prec).length = c.elems := by
      rw [List.length_append, m1, List.length_drop, hm.len]; omega
    obtain ⟨q1, q2, q3⟩ := pushFront_spec hdo (carry := r.2) (p := m.prec) (P := m.prec) (by omega) (by omega) (le_refl _)
      (by omega)
    have hd : lv ((mulUnsigned c m 2).data.take m.prec) = lv (m.data.take m.prec) * 2 / 100000000 := by
      rw [hun]; simp only; rw [q3, List.take_left' m1, m4]
    have hex : (mulUnsigned c m 2).exp = m.exp + 8 := by rw [hun]
    have hB : (10 : ℚ) ^ (m.exp + 8 - 8 * ((m.prec : ℤ) - 1)) = 100000000 * (10 : ℚ) ^ (m.exp - 8 * ((m.prec : ℤ) - 1)) := by
      rw [show m.exp + 8 - 8 * ((m.prec : ℤ) - 1) = 8 + (m.exp - 8 * ((m.prec : ℤ) - 1)) by ring, p10_add]; norm_num
    rw [hd, hex, hB] at d1 d2
    -- the carry shows that the operand is at least half of the next limb
    have hbig : 100000000 ^ m.prec ≤ lv (m.data.take m.prec) * 2 := by
      have : 1 ≤ r.2 := by omega
      have := Nat.mul_le_mul_right (100000000 ^ m.prec) this
      omega
    have hmbig : (10 : ℚ) ^ (m.exp + 8) ≤ 2 * mag m := by
      have e1 : (10 : ℚ) ^ (m.exp + 8) = ((100000000 ^ m.prec : ℕ) : ℚ) * (10 : ℚ) ^ (m.exp - 8 * ((m.prec : ℤ) - 1)) := by
        rw [← p10_base, ← p10_add]; congr 1; ring
      have e2 : ((100000000 ^ m.prec : ℕ) : ℚ) ≤ (lv (m.data.take m.prec) : ℚ) * 2 := by exact_mod_cast hbig
      rw [e1]
      have := mul_le_mul_of_nonneg_right e2 hg0.le
      linarith
    have hgB : 100000000 * (10 : ℚ) ^ (m.exp - 8 * ((m.prec : ℤ) - 1)) ≤ 2 * ((10 : ℚ) ^ (8 - 8 * (m.prec : ℤ)) * mag m) := by
      have : 100000000 * (10 : ℚ) ^ (m.exp - 8 * ((m.prec : ℤ) - 1)) = (10 : ℚ) ^ (8 - 8 * (m.prec : ℤ)) * (10 : ℚ) ^ (m.exp + 8) := by
        rw [← hB, ← p10_add]; congr 1; ring
      rw [this]
      have := mul_le_mul_of_nonneg_left hmbig (p10_pos (8 - 8 * (m.prec : ℤ))).le
      linarith
    have f1 : ((lv (m.data.take m.prec) * 2 / 100000000 : ℕ) : ℚ) * 100000000 ≤ (lv (m.data.take m.prec) : ℚ) * 2 := by
      have : lv (m.data.take m.prec) * 2 / 100000000 * 100000000 ≤ lv (m.data.take m.prec) * 2 := Nat.div_mul_le_self _ _
      exact_mod_cast this
    have f2 : (lv (m.data.take m.prec) : ℚ) * 2 ≤ ((lv (m.data.take m.prec) * 2 / 100000000 : ℕ) : ℚ) * 100000000 + 99999999 := by
      have : lv (m.data.take m.prec) * 2 ≤ lv (m.data.take m.prec) * 2 / 100000000 * 100000000 + 99999999 := by omega
      exact_mod_cast this
    generalize ((lv (m.data.take m.prec) * 2 / 100000000 : ℕ) : ℚ) = Q at *
    generalize (lv (List.take m.prec m.data) : ℚ) = L at *
    generalize (10 : ℚ) ^ (m.exp - 8 * ((m.prec : ℤ) - 1)) = g at *
    have k1 := mul_le_mul_of_nonneg_right f1 hg0.le
    have k2 := mul_le_mul_of_nonneg_right f2 hg0.le
    rw [abs_le]
    constructor <;> linarith

end EFX
