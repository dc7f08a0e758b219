import Verif.Lemmas.MulExact
import Verif.Props.Add
/-!
# C11 (squares), C13-C16, C35: multiplication

`mul c x y` is `x * y`.
-/

namespace EFX.Props
open EFX EFX.Spec

/-- `|r - q| ≤ e |q|` -/
def RelErr (r q e : ℚ) : Prop := |r - q| ≤ e * |q|

theorem ne_of_val {c : Cfg} {x : EFloat} (hx : FinWF c x) (h : val x ≠ 0) : x.data.headD 0 ≠ 0 :=
  fun h0 => h ((head_zero_iff hx).1 h0)

theorem val_of_ne {c : Cfg} {x : EFloat} (hx : FinWF c x) (h : x.data.headD 0 ≠ 0) : val x ≠ 0 :=
  fun h0 => h ((head_zero_iff hx).2 h0)

/-- The exponent sum is inside the advertised range. -/
def ExpInRange (x y : EFloat) : Prop := minExp10 < x.exp + y.exp ∧ x.exp + y.exp < maxExp10

theorem not_over {x y : EFloat} (h : ExpInRange x y) : ¬ MulOver x y ∧ ¬ MulUnder x y := by
  unfold ExpInRange minExp10 at h
  unfold MulOver MulUnder
  have : maxExp10 = 2147483616 := rfl
  omega

theorem sgnQ_xor (a b : Bool) : sgnQ (decide (a ≠ b)) = sgnQ a * sgnQ b := by
  cases a <;> cases b <;> simp [sgnQ]

theorem sgnQ_abs (a : Bool) : |sgnQ a| = 1 := by cases a <;> simp [sgnQ]

theorem mul_sign {r x y : EFloat} (h : r.neg = decide (x.neg ≠ y.neg)) :
    val r * (val x * val y) = mag r * (mag x * mag y) ∧
    |val r - val x * val y| = |mag r - mag x * mag y| := by
  rw [val_eq r, val_eq x, val_eq y, h, sgnQ_xor]
  have h1 := sgnQ_mul_self x.neg
  have h2 := sgnQ_mul_self y.neg
  constructor
  · calc _ = (sgnQ x.neg * sgnQ x.neg) * (sgnQ y.neg * sgnQ y.neg) * (mag r * (mag x * mag y)) := by ring
      _ = _ := by rw [h1, h2]; ring
  · have : sgnQ x.neg * sgnQ y.neg * mag r - sgnQ x.neg * mag x * (sgnQ y.neg * mag y)
        = sgnQ x.neg * sgnQ y.neg * (mag r - mag x * mag y) := by ring
    rw [this, abs_mul, abs_mul, sgnQ_abs, sgnQ_abs]; simp

/-- C13 at full working precision: the product is cut toward zero and its relative error is at most
the weight of the last limb but two times the number of limbs (times 20000 where the half-limb
convolution is used); with the school method this is below `10^-(digits10+5)`.

Missing for the full claim: with the half-limb convolution (at least 625 limbs) the bound
`10^-(digits10+5)` is not reached, and at reduced working precision "never exceeds" is false
(`C13_reduced_exceeds_refuted`). -/
theorem C13_mul_error_partial {c : Cfg} {x y : EFloat} (hx : FinWF c x) (hy : FinWF c y)
    (nx : val x ≠ 0) (ny : val y ≠ 0) (px : x.prec = c.elems) (py : y.prec = c.elems)
    (he : ExpInRange x y) :
    FinWF c (mul c x y) ∧
    0 < val (mul c x y) * (val x * val y) ∧
    |val (mul c x y)| ≤ |val x * val y| ∧
    RelErr (val (mul c x y)) (val x * val y)
      ((c.elems : ℚ) * (if c.elems < 625 then 1 else 20000) * (10 : ℚ) ^ (8 * (2 - (c.elems : ℤ)))) ∧
    (c.elems < 625 →
      RelErr (val (mul c x y)) (val x * val y) ((10 : ℚ) ^ (-((c.digits10 : ℤ) + 5)))) := by
  have zx := ne_of_val hx nx
  have zy := ne_of_val hy ny
  obtain ⟨ho, hu⟩ := not_over he
  have hp : c.elems = min x.prec y.prec := by rw [px, py, Nat.min_self]
  obtain ⟨s1, s2, s3, s4, s5, s6, s7, s8⟩ := mulAssignG_spec (self := false) hx hy zx zy (by simp) ho hu hp rfl
  obtain ⟨t1, t2⟩ := s6 rfl
  unfold mul mulAssign
  generalize mulAssignG c false x y = r at *
  obtain ⟨g1, g2⟩ := mul_sign s3
  have hpos : 0 < mag x * mag y := mul_pos (mag_pos hx.toWF zx) (mag_pos hy.toWF zy)
  have habs : |val x * val y| = mag x * mag y := by rw [abs_mul, abs_val, abs_val]
  have herr : |val r - val x * val y| = mag x * mag y - mag r := by
    rw [g2, abs_sub_comm, abs_of_nonneg (by linarith)]
  have hmain : RelErr (val r) (val x * val y)
      ((c.elems : ℚ) * (if c.elems < 625 then 1 else 20000) * (10 : ℚ) ^ (8 * (2 - (c.elems : ℤ)))) := by
    unfold RelErr
    rw [herr, habs]
    refine le_trans t2 (le_of_eq ?_)
    rw [show 16 - 8 * (c.elems : ℤ) = 8 * (2 - (c.elems : ℤ)) by ring]
    congr 2
    unfold mulErr
    by_cases h : c.elems < 625
    · rw [if_pos (by omega), if_pos h]; simp
    · rw [if_neg (by omega), if_neg h]; push_cast; ring
  refine ⟨s1, ?_, ?_, hmain, ?_⟩
  · rw [g1]; exact mul_pos (mag_pos s1.toWF s2) hpos
  · rw [abs_val, habs]; exact t1
  · intro hN
    unfold RelErr at hmain ⊢
    rw [if_pos hN] at hmain
    refine le_trans hmain (mul_le_mul_of_nonneg_right ?_ (abs_nonneg _))
    have h8 : (c.digits10 : ℤ) + 25 ≤ 8 * (c.elems : ℤ) := by
      unfold Cfg.elems Cfg.maxDigits10
      split <;> omega
    have hN' : (c.elems : ℚ) * 1 ≤ (10 : ℚ) ^ (4 : ℤ) := by
      have : (c.elems : ℚ) ≤ 625 := by exact_mod_cast hN.le
      norm_num; linarith
    calc (c.elems : ℚ) * 1 * (10 : ℚ) ^ (8 * (2 - (c.elems : ℤ)))
        ≤ (10 : ℚ) ^ (4 : ℤ) * (10 : ℚ) ^ (8 * (2 - (c.elems : ℤ))) :=
          mul_le_mul_of_nonneg_right hN' (p10_pos _).le
      _ = (10 : ℚ) ^ (4 + 8 * (2 - (c.elems : ℤ))) := by rw [p10_add]
      _ ≤ _ := p10_mono (by omega)

/-- `12345678.9 * -12345679.25` meets the hypotheses. -/
example : FinWF cfg101 exA ∧ FinWF cfg101 exC ∧ val exA ≠ 0 ∧ val exC ≠ 0 ∧ exA.prec = cfg101.elems ∧
    exC.prec = cfg101.elems ∧ ExpInRange exA exC ∧ cfg101.elems < 625 :=
  ⟨exA_fin, exC_fin, val_of_ne exA_fin (by decide), val_of_ne exC_fin (by decide), by decide, by decide,
    by unfold ExpInRange minExp10 maxExp10 exA exC mkLimbs; simp, by decide⟩

/-- C13 at any working precision `p = min(prec x, prec y)`: both signs of the error are bounded. -/
theorem C13_mul_error_reduced_partial {c : Cfg} {x y : EFloat} (hx : FinWF c x) (hy : FinWF c y)
    (nx : val x ≠ 0) (ny : val y ≠ 0) (he : ExpInRange x y) :
    FinWF c (mul c x y) ∧ (mul c x y).prec = x.prec ∧
    0 < val (mul c x y) * (val x * val y) ∧
    RelErr (val (mul c x y)) (val x * val y)
      (((min x.prec y.prec : Nat) * (if min x.prec y.prec < 625 then 1 else 20000) + 2 : ℚ) *
        (10 : ℚ) ^ (8 * (2 - ((min x.prec y.prec : Nat) : ℤ)))) := by
  have zx := ne_of_val hx nx
  have zy := ne_of_val hy ny
  obtain ⟨ho, hu⟩ := not_over he
  obtain ⟨s1, s2, s3, s4, s5, s6, s7, s8⟩ := mulAssignG_spec (self := false) hx hy zx zy (by simp) ho hu rfl rfl
  unfold mul mulAssign
  generalize mulAssignG c false x y = r at *
  generalize min x.prec y.prec = p at *
  obtain ⟨g1, g2⟩ := mul_sign s3
  have hpos : 0 < mag x * mag y := mul_pos (mag_pos hx.toWF zx) (mag_pos hy.toWF zy)
  have habs : |val x * val y| = mag x * mag y := by rw [abs_mul, abs_val, abs_val]
  refine ⟨s1, s4, by rw [g1]; exact mul_pos (mag_pos s1.toWF s2) hpos, ?_⟩
  have hE : (mulErr p : ℚ) = (p : ℚ) * (if p < 625 then 1 else 20000) := by
    unfold mulErr
    by_cases h : p < 625
    · rw [if_pos (by omega), if_pos h]; simp
    · rw [if_neg (by omega), if_neg h]; push_cast; ring
  rw [hE] at s8
  unfold RelErr
  rw [g2, habs, show 8 * (2 - (p : ℤ)) = 16 - 8 * (p : ℤ) by ring]
  have hP := mul_pos (p10_pos (16 - 8 * (p : ℤ))) hpos
  have hp0 : (0 : ℚ) ≤ (p : ℚ) * (if p < 625 then 1 else 20000) := by split <;> positivity
  rw [abs_le]
  constructor
  · linarith
  · refine le_trans s7 ?_
    rw [mul_assoc, mul_assoc]
    exact mul_le_mul_of_nonneg_right (by linarith) hP.le

/-- `2.000...07` at working precision 2 (the last digits are still stored). -/
def exStale : EFloat := { mkLimbs cfg101 [2, 0, 0, 7] 0 false with prec := 2 }
theorem exStale_fin : FinWF cfg101 exStale := by decide +kernel
theorem half_fin : FinWF cfg101 (half cfg101) := by decide +kernel

/-- At reduced working precision `2.000...07 * 0.5` is larger than the exact product: stale limbs
stay in the array.  The exact product is computed by the same operation at full precision. -/
theorem C13_reduced_exceeds_refuted :
    ∃ x y : EFloat, FinWF cfg101 x ∧ FinWF cfg101 y ∧ 0 < val x ∧ 0 < val y ∧ ExpInRange x y ∧
      val x * val y < val (mul cfg101 x y) := by
  have hr : ExpInRange exStale (half cfg101) := by
    unfold ExpInRange minExp10 maxExp10 exStale half mkLimbs; simp
  refine ⟨exStale, half cfg101, exStale_fin, half_fin, ?_, ?_, hr, ?_⟩
  · have : val exStale = mag exStale := by unfold val; rw [if_neg (by decide)]
    rw [this]; exact mag_pos exStale_fin.toWF (by decide)
  · have : val (half cfg101) = mag (half cfg101) := by unfold val; rw [if_neg (by decide)]
    rw [this]; exact mag_pos half_fin.toWF (by decide)
  · -- the exact product from the full-precision copy of the left operand
    let x' : EFloat := mkLimbs cfg101 [2, 0, 0, 7] 0 false
    have fx' : FinWF cfg101 x' := by decide +kernel
    have hr' : ExpInRange x' (half cfg101) := by
      unfold ExpInRange minExp10 maxExp10 half mkLimbs; simp [x', mkLimbs]
    have hex := mulAssign_exact fx' half_fin (by decide) (by decide) (not_over hr').1 (not_over hr').2
      (a := 4) (b := 1) (zeroFrom_replicate [2, 0, 0, 7] _) (zeroFrom_replicate [50000000] _) (by decide)
    have v1 : val exStale = mag x' := by unfold val; rw [if_neg (by decide)]; rfl
    have v2 : val (half cfg101) = mag (half cfg101) := by unfold val; rw [if_neg (by decide)]
    rw [v1, v2, ← hex]
    have f1 : FinWF cfg101 (mulAssign cfg101 x' (half cfg101)) := by decide +kernel
    have f2 : FinWF cfg101 (mul cfg101 exStale (half cfg101)) := by decide +kernel
    have hlt : lt (mulAssign cfg101 x' (half cfg101)) (mul cfg101 exStale (half cfg101)) = true := by decide +kernel
    have := (lt_iff f1 f2).1 hlt
    have v3 : val (mulAssign cfg101 x' (half cfg101)) = mag (mulAssign cfg101 x' (half cfg101)) := by
      unfold val; rw [if_neg (by decide +kernel)]
    rw [← v3]; exact this

/-- C14. If the non-zero limbs of `x` and `y` are among the first `a` and `b`, and `a + b` is at most
the working precision, the product is exact. -/
theorem C14_mul_exact {c : Cfg} {x y : EFloat} (hx : FinWF c x) (hy : FinWF c y)
    (he : ExpInRange x y) {a b : Nat} (ha : ∀ i, a ≤ i → x.data.getD i 0 = 0)
    (hb : ∀ i, b ≤ i → y.data.getD i 0 = 0) (hab : a + b ≤ min x.prec y.prec) :
    FinWF c (mul c x y) ∧ val (mul c x y) = val x * val y := by
  by_cases nx : val x = 0
  · have := mulAssignG_zero (c := c) (self := false) hx.fin hy.fin (Or.inl ((head_zero_iff hx).2 nx))
    unfold mul mulAssign
    rw [this, val_zero, nx, zero_mul]
    exact ⟨FinWF_zero c, rfl⟩
  by_cases ny : val y = 0
  · have := mulAssignG_zero (c := c) (self := false) hx.fin hy.fin (Or.inr ((head_zero_iff hy).2 ny))
    unfold mul mulAssign
    rw [this, val_zero, ny, mul_zero]
    exact ⟨FinWF_zero c, rfl⟩
  have zx := ne_of_val hx nx
  have zy := ne_of_val hy ny
  obtain ⟨ho, hu⟩ := not_over he
  have hm := mulAssign_exact hx hy zx zy ho hu ha hb hab
  obtain ⟨s1, s2, s3, -⟩ := mulAssignG_spec (self := false) hx hy zx zy (by simp) ho hu rfl rfl
  refine ⟨s1, ?_⟩
  unfold mul
  rw [val_eq, hm]
  unfold mulAssign
  rw [s3, sgnQ_xor, val_eq x, val_eq y]
  ring

example : val (mul cfg101 exA exC) = val exA * val exC :=
  (C14_mul_exact exA_fin exC_fin (by unfold ExpInRange minExp10 maxExp10 exA exC mkLimbs; simp)
    (a := 2) (b := 2) (zeroFrom_replicate [12345678, 90000000] _) (zeroFrom_replicate [12345679, 25000000] _)
    (by decide)).2

/-- C15. Signs and special values of every product. -/
theorem C15_mul_special {c : Cfg} {x y : EFloat} (hx : WF c x) (hy : WF c y) :
    -- NaN times anything, on either side
    (denote x = .nan ∨ denote y = .nan → denote (mul c x y) = .nan) ∧
    -- zero times infinity
    (∀ s, (denote x = .fin 0 ∧ denote y = .inf s) ∨ (denote x = .inf s ∧ denote y = .fin 0) →
      denote (mul c x y) = .nan) ∧
    -- infinity times infinity or a non-zero number
    (∀ s t, denote x = .inf s → denote y = .inf t → denote (mul c x y) = .inf (decide (s ≠ t))) ∧
    (∀ s q, denote x = .inf s → denote y = .fin q → q ≠ 0 →
      denote (mul c x y) = .inf (decide (s ≠ decide (q < 0)))) ∧
    (∀ s q, denote x = .fin q → denote y = .inf s → q ≠ 0 →
      denote (mul c x y) = .inf (decide (s ≠ decide (q < 0)))) ∧
    -- zero times a finite number
    (∀ q r, denote x = .fin q → denote y = .fin r → q = 0 ∨ r = 0 → denote (mul c x y) = .fin 0) ∧
    -- sign of a product of finite numbers
    (∀ q r, denote x = .fin q → denote y = .fin r → q ≠ 0 → r ≠ 0 →
      (denote (mul c x y) = .inf (decide (q * r < 0))) ∨
      (∃ z, denote (mul c x y) = .fin z ∧ (z = 0 ∨ 0 < z * (q * r)))) := by
  have dn : ∀ z : EFloat, denote z = .nan ↔ z.cls = .nan := by
    intro z; unfold denote; cases z.cls <;> simp
  have di : ∀ (z : EFloat) s, denote z = .inf s ↔ z.cls = .inf ∧ z.neg = s := by
    intro z s; unfold denote; cases z.cls <;> simp
  have df : ∀ (z : EFloat) q, denote z = .fin q ↔ z.cls = .finite ∧ val z = q := by
    intro z s; unfold denote; cases z.cls <;> simp
  have hinf : ∀ b, denote (infSigned c b) = .inf b := by intro b; rw [infSigned_eq]; rfl
  have hnan : denote (nanV c) = .nan := rfl
  have hzero : denote (zero c) = .fin 0 := by rw [df]; exact ⟨(FinWF_zero c).fin, val_zero c⟩
  have hneg : ∀ z : EFloat, FinWF c z → val z ≠ 0 → decide (val z < 0) = z.neg := by
    intro z hz h0
    have := mag_pos hz.toWF (ne_of_val hz h0)
    unfold val
    cases hn : z.neg
    · simp; linarith
    · simp; linarith
  unfold mul mulAssign
  refine ⟨?_, ?_, ?_, ?_, ?_, ?_, ?_⟩
  · intro h
    rw [dn, dn] at h
    rw [mulAssignG_nonfin (by rcases h with h | h <;> simp [h]), if_pos (by tauto)]
    exact hnan
  · intro s h
    rw [df, di, di, df] at h
    rcases h with ⟨⟨h1, h2⟩, h3, h4⟩ | ⟨⟨h3, h4⟩, h1, h2⟩
    · have := (head_zero_iff ⟨hx, h1⟩).2 h2
      rw [mulAssignG_nonfin (by simp [h3]), if_pos (by tauto)]; exact hnan
    · have := (head_zero_iff ⟨hy, h1⟩).2 h2
      rw [mulAssignG_nonfin (by simp [h3]), if_pos (by tauto)]; exact hnan
  · intro s t h1 h2
    rw [di] at h1 h2
    rw [mulAssignG_nonfin (by simp [h1.1]), if_neg (by simp [h1.1, h2.1]), hinf, h1.2, h2.2]
  · intro s q h1 h2 h3
    rw [di] at h1; rw [df] at h2
    have fy : FinWF c y := ⟨hy, h2.1⟩
    have := ne_of_val fy (by rw [h2.2]; exact h3)
    rw [mulAssignG_nonfin (by simp [h1.1]), if_neg (by rw [h1.1, h2.1]; simp only [reduceCtorEq, false_and, true_and, false_or]; exact this), hinf, ← h2.2, hneg y fy (by rw [h2.2]; exact h3), h1.2]
  · intro s q h2 h1 h3
    rw [di] at h1; rw [df] at h2
    have fx : FinWF c x := ⟨hx, h2.1⟩
    have := ne_of_val fx (by rw [h2.2]; exact h3)
    rw [mulAssignG_nonfin (by simp [h1.1]), if_neg (by rw [h1.1, h2.1]; simp only [reduceCtorEq, false_and, true_and, false_or, or_false]; exact this), hinf, ← h2.2, hneg x fx (by rw [h2.2]; exact h3), h1.2]
    congr 1
    cases x.neg <;> cases s <;> simp
  · intro q r h1 h2 h
    rw [df] at h1 h2
    rw [mulAssignG_zero h1.1 h2.1, hzero]
    rcases h with h | h
    · left; exact (head_zero_iff ⟨hx, h1.1⟩).2 (by rw [h1.2, h])
    · right; exact (head_zero_iff ⟨hy, h2.1⟩).2 (by rw [h2.2, h])
  · intro q r h1 h2 hq hr
    rw [df] at h1 h2
    have fx : FinWF c x := ⟨hx, h1.1⟩
    have fy : FinWF c y := ⟨hy, h2.1⟩
    have nx : val x ≠ 0 := by rw [h1.2]; exact hq
    have ny : val y ≠ 0 := by rw [h2.2]; exact hr
    have zx := ne_of_val fx nx
    have zy := ne_of_val fy ny
    rw [← h1.2, ← h2.2]
    by_cases ho : MulOver x y
    · left
      rw [(mulAssignG_unfold fx fy zx zy).1 ho, hinf, ← hneg x fx nx, ← hneg y fy ny]
      congr 1
      rcases lt_or_gt_of_ne nx with a | a <;> rcases lt_or_gt_of_ne ny with b | b
      · simp [a, b, not_lt.2 (mul_pos_of_neg_of_neg a b).le]
      · simp [a, not_lt.2 b.le, mul_neg_of_neg_of_pos a b]
      · simp [b, not_lt.2 a.le, mul_neg_of_pos_of_neg a b]
      · simp [not_lt.2 a.le, not_lt.2 b.le, not_lt.2 (mul_pos a b).le]
    by_cases hu : MulUnder x y
    · right
      rw [(mulAssignG_unfold fx fy zx zy).2.1 hu]
      exact ⟨0, hzero, Or.inl rfl⟩
    · right
      obtain ⟨s1, s2, s3, -⟩ := mulAssignG_spec (self := false) fx fy zx zy (by simp) ho hu rfl rfl
      refine ⟨_, (df _ _).2 ⟨s1.fin, rfl⟩, Or.inr ?_⟩
      rw [(mul_sign s3).1]
      exact mul_pos (mag_pos s1.toWF s2) (mul_pos (mag_pos hx zx) (mag_pos hy zy))

example : denote (mul cfg101 exA (infSigned cfg101 true)) = .inf true ∧
    denote (mul cfg101 (zero cfg101) (infV cfg101)) = .nan := ⟨rfl, rfl⟩

/-- C16 at full working precision: `x * y` and `y * x` are the same object, for all numbers including
infinities and NaN; `x * 0 = 0`; and `x * 1 = x` below the range limit when the school method is used
or the last limb is zero.

Missing for the full claim: reduced working precision (`C16_mul_comm_reduced_refuted`), the last limb
with the half-limb convolution (`C16_mul_one_fft_refuted`) and the range limit (`C35_..._refuted`). -/
theorem C16_mul_comm_identities_partial {c : Cfg} {x y : EFloat} (hx : WF c x) (hy : WF c y)
    (px : x.prec = c.elems) (py : y.prec = c.elems) :
    mul c x y = mul c y x ∧
    (x.cls = .finite → val (mul c x (zero c)) = 0 ∧ val (mul c (zero c) x) = 0) ∧
    (x.cls = .finite → minExp10 < x.exp → x.exp < maxExp10 → c.elems < 625 ∨ x.data.getD (c.elems - 1) 0 = 0 →
      val (mul c x (one c)) = val x ∧ val (mul c (one c) x) = val x) := by
  have p1 : (one c).prec = c.elems := by rw [one_def]
  have p0 : (zero c).prec = c.elems := by rw [zero_def]
  refine ⟨mulAssign_comm hx hy px py, ?_, ?_⟩
  · intro hf
    have hz : (zero c).data.headD 0 = 0 := (head_zero_iff (FinWF_zero c)).2 (val_zero c)
    have e : mulAssign c x (zero c) = zero c := mulAssignG_zero hf (FinWF_zero c).fin (Or.inr hz)
    have e2 : mulAssign c (zero c) x = zero c := mulAssignG_zero (FinWF_zero c).fin hf (Or.inl hz)
    unfold mul
    rw [e, e2, val_zero]; exact ⟨rfl, rfl⟩
  · intro hf he1 he2 hl
    have fx : FinWF c x := ⟨hx, hf⟩
    have hcomm : mul c (one c) x = mul c x (one c) := mulAssign_comm (FinWF_one c).toWF hx p1 px
    rw [hcomm, and_self]
    by_cases hN : c.elems < 625
    · by_cases zx : x.data.headD 0 = 0
      · have e : mulAssign c x (one c) = zero c := mulAssignG_zero hf (FinWF_one c).fin (Or.inl zx)
        unfold mul
        rw [e, val_zero, (head_zero_iff fx).1 zx]
      · have := mulAssign_one fx zx he2 (by rw [px]; omega)
        unfold mul
        rw [this]
    · have hlast : x.data.getD (c.elems - 1) 0 = 0 := by
        rcases hl with h | h
        · exact absurd h hN
        · exact h
      have h7 := elems_ge c
      have ha : ∀ i, c.elems - 1 ≤ i → x.data.getD i 0 = 0 := by
        intro i hi
        by_cases h : i = c.elems - 1
        · rw [h]; exact hlast
        · rw [List.getD_eq_default _ _ (by rw [hx.len]; omega)]
      have := (C14_mul_exact fx (FinWF_one c) (by
        unfold ExpInRange
        have : (one c).exp = 0 := by rw [one_def]
        rw [this]; exact ⟨by omega, by omega⟩) (a := c.elems - 1) (b := 1) ha (one_zeroFrom c)
        (by rw [px, p1, Nat.min_self]; omega)).2
      rw [this, val_one, mul_one]

/-- At reduced working precision `x * y` and `y * x` can be different numbers. -/
theorem C16_mul_comm_reduced_refuted :
    ∃ x y : EFloat, FinWF cfg101 x ∧ FinWF cfg101 y ∧ ExpInRange x y ∧ x.prec = y.prec ∧
      val (mul cfg101 x y) ≠ val (mul cfg101 y x) := by
  let y : EFloat := { half cfg101 with prec := 2 }
  have fy : FinWF cfg101 y := by decide +kernel
  refine ⟨exStale, y, exStale_fin, fy, ?_, by decide, ?_⟩
  · unfold ExpInRange minExp10 maxExp10 exStale mkLimbs; simp [y, half, mkLimbs]
  · have f1 : FinWF cfg101 (mul cfg101 exStale y) := by decide +kernel
    have f2 : FinWF cfg101 (mul cfg101 y exStale) := by decide +kernel
    have hlt : lt (mul cfg101 y exStale) (mul cfg101 exStale y) = true := by decide +kernel
    exact ((lt_iff f2 f1).1 hlt).ne'

/-- With the half-limb convolution (625 limbs or more) a product by one always loses the last limb. -/
theorem C16_mul_one_fft_refuted {c : Cfg} (hN : 625 ≤ c.elems) {x : EFloat} (hx : FinWF c x)
    (px : x.prec = c.elems) (hl : x.data.getD (c.elems - 1) 0 ≠ 0) (hz : val x ≠ 0)
    (he : minExp10 < x.exp ∧ x.exp < maxExp10) : val (mul c x (one c)) ≠ val x := by
  have zx := ne_of_val hx hz
  have z1 : (one c).data.headD 0 ≠ 0 := by rw [one_head]; norm_num
  have p1 : (one c).prec = c.elems := by rw [one_def]
  have e1 : (one c).exp = 0 := by rw [one_def]
  have hr : ExpInRange x (one c) := by
    unfold ExpInRange; rw [e1]; exact ⟨by omega, by omega⟩
  obtain ⟨ho, hu⟩ := not_over hr
  have hu3 := (mulAssignG_unfold (self := false) hx (FinWF_one c) zx z1).2.2 ho hu
  have hwf := (mulAssignG_spec (self := false) hx (FinWF_one c) zx z1 (by simp) ho hu rfl rfl).1
  have hNle := elems_le c
  -- the array product has a zero leading limb
  obtain ⟨m1, m2, m3, m4⟩ := mulLoopFFT_spec hx.ok (FinWF_one c).ok (p := c.elems) (by omega) (by omega)
    (by rw [hx.len]) (by rw [(FinWF_one c).len])
  obtain ⟨b1, b2⟩ := colsF_bounds hx.ok (FinWF_one c).ok (p := c.elems) (by omega) (by rw [hx.len]) (by rw [(FinWF_one c).len])
  rw [← m4] at b1
  have hlv1 : lv ((one c).data.take c.elems) = 100000000 ^ (c.elems - 1) := by
    rw [List.take_of_length_le (by rw [(FinWF_one c).len]), one_def, lv_cons]
    simp [lv_replicate]
  have hhead : (mulLoopFFT x.data (one c).data c.elems).headD 0 = 0 := by
    by_contra hne
    have hge := lv_head hne
    rw [m1, hx.len] at hge
    rw [List.take_of_length_le (by rw [m1, hx.len]), hlv1, List.take_of_length_le (by rw [hx.len])] at b1
    have hlt := lv_lt hx.ok
    rw [hx.len] at hlt
    have h1 := Nat.mul_le_mul_right (100000000 ^ c.elems) hge
    have h2 : lv x.data * 100000000 ^ (c.elems - 1) < 100000000 ^ c.elems * 100000000 ^ (c.elems - 1) :=
      Nat.mul_lt_mul_of_pos_right hlt (Bpos _)
    rw [Nat.mul_comm] at h2
    rw [Nat.mul_comm (lv x.data)] at b1
    have := lt_of_le_of_lt (le_trans h1 b1) h2
    rw [Nat.mul_comm] at this
    exact absurd this (lt_irrefl _)
  have hmd : (mulData c false x (one c)).1.getD (c.elems - 1) 0 = 0 := by
    unfold mulData
    simp only [px, p1, Nat.min_self]
    rw [if_neg (by omega), if_pos hhead]
    simp only
    generalize hmv : List.drop 1 (List.take (min c.elems (c.elems + 1)) (mulLoopFFT x.data (one c).data c.elems)) ++
      List.drop (min c.elems (c.elems + 1) - 1) (mulLoopFFT x.data (one c).data c.elems) = moved
    have hml : moved.length = c.elems := by
      rw [← hmv]; simp only [List.length_append, List.length_drop, List.length_take, m1, hx.len]; omega
    rw [hml, List.getD_eq_getElem _ _ (by rw [List.length_set]; omega), List.getElem_set_self]
  have hd : (mulLoopFFT x.data (one c).data c.elems).headD 0 = 0 := hhead
  intro heq
  -- equal value means equal limbs
  unfold mul mulAssign at heq
  have hexp : (mulAssignG c false x (one c)).exp = x.exp := by
    rw [hu3]
    simp only
    have : (mulData c false x (one c)).2 = 0 := by
      unfold mulData
      simp only [px, p1, Nat.min_self]
      rw [if_neg (by omega), if_pos hhead]
    rw [this, e1]; ring
  have hm : mag (mulAssignG c false x (one c)) = mag x := by rw [← abs_val, heq, abs_val]
  rw [mag_eq hwf.toWF, mag_eq hx.toWF] at hm
  unfold ulp at hm
  rw [hexp] at hm
  have hlv := mul_right_cancel₀ (p10_pos _).ne' hm
  have hdata := lv_inj (hwf.len.trans hx.len.symm) hwf.ok hx.ok (by exact_mod_cast hlv)
  apply hl
  rw [← hdata, hu3]
  exact hmd

/-- The hypotheses are met for instance by `1.00...01` in a 5000-digit build. -/
example : ∃ x, FinWF ⟨5000⟩ x ∧ x.prec = Cfg.elems ⟨5000⟩ ∧ x.data.getD (Cfg.elems ⟨5000⟩ - 1) 0 ≠ 0 ∧
    x.exp = 0 ∧ 625 ≤ Cfg.elems ⟨5000⟩ :=
  ⟨mkLimbs ⟨5000⟩ (List.replicate 629 1) 0 false, by decide +kernel, by decide +kernel, by decide +kernel,
    by decide +kernel, by decide +kernel⟩

/-- C35 is false: `1 * max` is infinite (and `max * 1` as well) in every configuration. -/
theorem C35_one_times_max_refuted (c : Cfg) :
    mul c (one c) (valueMax c) = infV c ∧ mul c (valueMax c) (one c) = infV c := by
  have z1 : (one c).data.headD 0 ≠ 0 := by rw [one_head]; norm_num
  have e1 : (one c).exp = 0 := by rw [one_def]
  have n1 : (one c).neg = false := by rw [one_def]
  have hm := valueMax_WF c
  unfold mul mulAssign
  constructor
  · rw [(mulAssignG_unfold (FinWF_one c) hm.1 z1 hm.2).1 (by
      unfold MulOver; rw [e1, valueMax_exp]; exact ⟨le_refl _, by decide, by simp⟩), n1, valueMax_neg]
    rfl
  · rw [(mulAssignG_unfold hm.1 (FinWF_one c) hm.2 z1).1 (by
      unfold MulOver; rw [e1, valueMax_exp]; exact ⟨by decide, le_refl _, by simp⟩), n1, valueMax_neg]
    rfl

/-- C35 below the limb of `max`: with fewer than 625 limbs `x * 1` is `x` itself, at every working
precision, and `1 * x` is `x` at full precision.  Missing: numbers whose leading limb has weight
`10^max_exp10` (refuted above). -/
theorem C35_mul_one_partial {c : Cfg} {x : EFloat} (hx : FinWF c x) (hN : c.elems < 625)
    (hz : val x ≠ 0) (he : x.exp < maxExp10) :
    mul c x (one c) = x ∧ (x.prec = c.elems → mul c (one c) x = x) := by
  have zx := ne_of_val hx hz
  have h1 := mulAssign_one hx zx he (by have := hx.prec_hi; omega)
  refine ⟨h1, fun px => ?_⟩
  have p1 : (one c).prec = c.elems := by rw [one_def]
  have : mul c (one c) x = mul c x (one c) := mulAssign_comm (FinWF_one c).toWF hx.toWF p1 px
  rw [this]; exact h1

example : mul cfg101 (one cfg101) exC = exC :=
  (C35_mul_one_partial exC_fin (by decide) (val_of_ne exC_fin (by decide)) (by decide)).2 (by decide)

/-- C11, squares: `x *= x`, which reads the array it is overwriting, gives `x * x`. -/
theorem C11_square_partial (c : Cfg) (x : EFloat) : mulAssignSelf c x = mul c x x :=
  mulAssignSelf_eq c x

end EFX.Props
