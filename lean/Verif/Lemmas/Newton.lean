import Verif.Lemmas.MantExp
import Verif.Lemmas.IntArith
import Verif.Model.Inv
/-!
# The Newton iteration of the inverse
-/

namespace EFX
open Spec EFX.Props

/-- Relative error bound of a product at working precision `p`. -/
def epsP (p : ℕ) : ℚ := ((mulErr p : ℚ) + 2) * (10 : ℚ) ^ (16 - 8 * (p : ℤ))

theorem epsP_pos (p : ℕ) : 0 < epsP p := mul_pos (by positivity) (p10_pos _)

theorem val_of_pos {x : EFloat} (h : x.neg = false) : val x = mag x := by
  unfold val; rw [h]; simp

theorem neg_of_val_pos {x : EFloat} (h : 0 < val x) : x.neg = false := by
  cases hn : x.neg
  · rfl
  · unfold val at h; rw [hn] at h; simp only [if_true] at h
    have := mag_nonneg x; linarith

theorem setPrecision_fields (c : Cfg) (x : EFloat) (d : ℤ) :
    (setPrecision c x d).data = x.data ∧ (setPrecision c x d).exp = x.exp ∧ (setPrecision c x d).neg = x.neg ∧
    (setPrecision c x d).cls = x.cls ∧ mag (setPrecision c x d) = mag x ∧ val (setPrecision c x d) = val x :=
  ⟨rfl, rfl, rfl, rfl, rfl, rfl⟩

theorem setPrecision_fin {c : Cfg} {x : EFloat} (hx : FinWF c x) (d : ℤ) : FinWF c (setPrecision c x d) := by
  have hN := elems_ge c
  refine ⟨⟨hx.len, hx.limb, hx.exp8, ?_, ?_, hx.norm⟩, hx.fin⟩
  · show 2 ≤ (min (c.elems : ℤ) (max _ 2)).toNat
    omega
  · show (min (c.elems : ℤ) (max _ 2)).toNat ≤ c.elems
    omega

/-- Working precision of step `k` of the Newton loops: `digits = 12 * 2^k`. -/
def stepP (c : Cfg) (k : ℕ) : ℕ := min c.elems (3 * 2 ^ k + 2)

theorem setPrecision_step (c : Cfg) (x : EFloat) (k : ℕ) :
    (setPrecision c x (((12 * 2 ^ k * 2 + 10 : ℕ) : ℤ))).prec = stepP c k := by
  have h1 : Int.tdiv (((12 * 2 ^ k * 2 + 10 : ℕ) : ℤ)) 8 = 3 * 2 ^ k + 1 := by
    rw [Int.tdiv_eq_ediv_of_nonneg (by positivity)]
    push_cast; omega
  have h2 : Int.tmod (((12 * 2 ^ k * 2 + 10 : ℕ) : ℤ)) 8 = 2 := by
    rw [Int.tmod_eq_emod_of_nonneg (by positivity)]
    push_cast; omega
  unfold setPrecision stepP
  simp only [h1, h2]
  rw [if_pos (by norm_num)]
  have : (0 : ℤ) ≤ 2 ^ k := by positivity
  have e : ((3 * 2 ^ k + 2 : ℕ) : ℤ) = 3 * (2 : ℤ) ^ k + 2 := by push_cast; ring
  omega

/-- Product of positive numbers. -/
theorem mul_near {c : Cfg} {x v : EFloat} (hx : FinWF c x) (hv : FinWF c v) (px : 0 < val x) (pv : 0 < val v)
    (he : ExpInRange x v) {p : ℕ} (hp : p = min x.prec v.prec) :
    FinWF c (mul c x v) ∧ 0 < val (mul c x v) ∧ (mul c x v).prec = x.prec ∧
    |val (mul c x v) - val x * val v| ≤ epsP p * (val x * val v) := by
  have nx := neg_of_val_pos px
  have nv := neg_of_val_pos pv
  have zx := ne_of_val hx px.ne'
  have zv := ne_of_val hv pv.ne'
  obtain ⟨ho, hu⟩ := not_over he
  obtain ⟨s1, s2, s3, s4, s5, s6, s7, s8⟩ := mulAssignG_spec (self := false) hx hv zx zv (by simp) ho hu hp rfl
  unfold mul mulAssign
  rw [nx, nv] at s3
  simp only [ne_eq, not_true_eq_false, decide_false] at s3
  rw [val_of_pos nx, val_of_pos nv, val_of_pos s3]
  refine ⟨s1, mag_pos s1.toWF s2, s4, ?_⟩
  have hm : 0 ≤ mag x * mag v := mul_nonneg (mag_nonneg x) (mag_nonneg v)
  have h2 : 2 * (10 : ℚ) ^ (16 - 8 * (p : ℤ)) ≤ epsP p := by
    unfold epsP
    apply mul_le_mul_of_nonneg_right _ (p10_pos _).le
    have : (0 : ℚ) ≤ (mulErr p : ℚ) := by positivity
    linarith
  rw [abs_le]
  constructor
  · unfold epsP; linarith
  · exact le_trans s7 (mul_le_mul_of_nonneg_right h2 hm)

theorem addAssign_prec (c : Cfg) (x v : EFloat) :
    (addAssign c x v).prec = x.prec ∨ (addAssign c x v).prec = v.prec ∨ (addAssign c x v).prec = c.elems := by
  have hsame : ∀ o, (addSame x v o).prec = x.prec := by
    intro o; unfold addSame; simp only; split <;> split <;> rfl
  have hj : ∀ y : EFloat, (justify y).prec = y.prec := by
    intro y; unfold justify; simp only; split
    · split <;> rfl
    · rfl
  have hdiff : ∀ o, (addDiff x v o).prec = x.prec := by
    intro o; unfold addDiff; simp only; split <;> rw [hj]
  have hfin : ∀ y : EFloat, (addFinish c y).prec = y.prec ∨ (addFinish c y).prec = c.elems := by
    intro y; unfold addFinish
    split
    · right; rfl
    · split
      · right; unfold infSigned; split
        · unfold negate; split <;> rfl
        · rfl
      · left; rfl
  unfold addAssign
  split
  · left; rfl
  split
  · split
    · right; right; rfl
    · left; rfl
  split
  · right; left; rfl
  simp only
  split
  · left; rfl
  split
  · right; left; rfl
  · rcases hfin (if x.neg = v.neg then addSame x v (Int.tdiv (x.exp - v.exp) 8) else addDiff x v (Int.tdiv (x.exp - v.exp) 8)) with h | h
    · left; rw [h]; split
      · exact hsame _
      · exact hdiff _
    · right; right; exact h

theorem two_spec (c : Cfg) : FinWF c (two c) ∧ val (two c) = 2 ∧ (two c).prec = c.elems ∧ (two c).exp = 0 := by
  obtain ⟨a1, a2, a3, a4, a5, a6, a7⟩ := ofUnsigned_spec c (u := 2) (by norm_num)
  refine ⟨a1, by rw [two, a2]; norm_num, a5, ?_⟩
  have h := a1.exp8
  have hz : (ofUnsigned c 2).data.headD 0 ≠ 0 := ne_of_val a1 (by rw [a2]; norm_num)
  have h1 := mag_ge a1.toWF hz
  rw [← val_of_pos a4, a2] at h1
  have : (ofUnsigned c 2).exp < 8 := by
    by_contra hc
    have := p10_mono (not_lt.1 hc)
    have h3 : (10 : ℚ) ^ (8 : ℤ) = 100000000 := by norm_num
    rw [h3] at this
    norm_num at h1
    linarith
  unfold two; omega

/-- `2 - m` for `m` near one. -/
theorem two_sub_near {c : Cfg} {m : EFloat} (hm : FinWF c m) (h1 : 1 / 2 ≤ val m) (h2 : val m ≤ 3 / 2) :
    FinWF c (sub c (two c) m) ∧ 0 < val (sub c (two c) m) ∧
    ((sub c (two c) m).prec = c.elems ∨ (sub c (two c) m).prec = m.prec) ∧
    |val (sub c (two c) m) - (2 - val m)| ≤ (10 : ℚ) ^ (8 - 8 * (c.elems : ℤ)) := by
  obtain ⟨t1, t2, t3, t4⟩ := two_spec c
  have hN := elems_ge c
  unfold sub
  have hneg := negate_val hm
  have hpr : (subAssign c (two c) m).prec = c.elems ∨ (subAssign c (two c) m).prec = m.prec := by
    rw [subAssign_eq t1 hm]
    rcases addAssign_prec c (two c) (negate m) with h | h | h
    · left; rw [h, t3]
    · right; rw [h, negate_prec]
    · left; exact h
  rw [subAssign_eq t1 hm] at hpr ⊢
  have hm2 : val m ≤ 2 := by linarith
  have hm0 : 0 < val m := by linarith
  have hs : val (two c) * val (negate m) < 0 := by rw [t2, hneg]; linarith
  have big : (2 : ℚ) ≤ (10 : ℚ) ^ maxExp10 := by
    calc (2 : ℚ) ≤ (10 : ℚ) ^ (1 : ℤ) := by norm_num
      _ ≤ _ := pow_le_max c (by omega)
  obtain ⟨a1, a2, _⟩ := add_opp t1 (FinWF_negate hm) hs
    (by rw [t2, abs_of_pos (by norm_num)]; exact big) (by rw [hneg, abs_neg, abs_of_pos hm0]; exact le_trans hm2 big)
  have hv := a2 (by rw [hneg, abs_neg, abs_of_pos hm0, t2, abs_of_pos (by norm_num)]; exact hm2)
  rw [hneg, t2] at hv
  clear big
  have hu : ulp c (two c) = (10 : ℚ) ^ (8 - 8 * (c.elems : ℤ)) := by
    unfold ulp; rw [t4]; congr 1; ring
  have herr := chop_abs_err (ulp_pos c (two c)) (-val m)
  rw [hu] at herr hv
  have hsm : (10 : ℚ) ^ (8 - 8 * (c.elems : ℤ)) ≤ (10 : ℚ) ^ (-1 : ℤ) := p10_mono (by omega)
  have h10 : (10 : ℚ) ^ (-1 : ℤ) = 1 / 10 := by norm_num
  rw [h10] at hsm
  generalize (10 : ℚ) ^ (8 - 8 * (c.elems : ℤ)) = U at *
  have he := abs_lt.1 herr.1
  refine ⟨a1, ?_, hpr, ?_⟩
  · rw [hv]; linarith [he.1, he.2]
  · rw [hv, abs_le]; constructor <;> linarith [he.1, he.2]

/-- Algebra of one Newton step. -/
theorem newton_alg {w v m s w' E U : ℚ} (hw : 0 < w) (hv : 0 < v) (hd : |1 - w * v| ≤ 1 / 100)
    (hm : |m - w * v| ≤ E * (w * v)) (hs : |s - (2 - m)| ≤ U) (hw' : |w' - w * s| ≤ E * (w * s))
    (hE0 : 0 ≤ E) (hE : E ≤ 1 / 1000) (hU : U ≤ E / 1000) :
    |1 - w' * v| ≤ (1 - w * v) ^ 2 + 11 / 5 * E := by
  have hP : 0 < w * v := mul_pos hw hv
  have key : 1 - w' * v = (1 - w * v) ^ 2 - (w * v) * ((s - (2 - m)) - (m - w * v)) - (w' - w * s) * v := by ring
  obtain ⟨p1, p2⟩ := abs_le.1 hd
  have hm' : |m - w * v| ≤ 101 / 100 * E := by
    apply le_trans hm
    have : E * (w * v) ≤ E * (101 / 100) := mul_le_mul_of_nonneg_left (by linarith) hE0
    linarith
  have hz : |(w' - w * s) * v| ≤ E * (w * v * s) := by
    rw [abs_mul, abs_of_pos hv]
    have := mul_le_mul_of_nonneg_right hw' hv.le
    linarith [show E * (w * s) * v = E * (w * v * s) by ring]
  have ms := abs_le.1 hm'
  have ss := abs_le.1 hs
  have hs2 : s ≤ 102 / 100 := by linarith [ms.1, ss.2]
  have hs0 : 0 ≤ s := by linarith [ms.2, ss.1]
  have hws : w * v * s ≤ 104 / 100 := by
    calc w * v * s ≤ 101 / 100 * (102 / 100) := mul_le_mul (by linarith) hs2 hs0 (by norm_num)
      _ ≤ _ := by norm_num
  have hz' : |(w' - w * s) * v| ≤ 104 / 100 * E := by
    apply le_trans hz
    have := mul_le_mul_of_nonneg_left hws hE0
    linarith
  have hq : |(w * v) * ((s - (2 - m)) - (m - w * v))| ≤ 101 / 100 * (102 / 100 * E) := by
    rw [abs_mul, abs_of_pos hP]
    apply mul_le_mul (by linarith) _ (abs_nonneg _) (by norm_num)
    calc _ ≤ |s - (2 - m)| + |m - w * v| := abs_sub _ _
      _ ≤ _ := by linarith
  rw [key]
  calc _ ≤ |(1 - w * v) ^ 2 - (w * v) * ((s - (2 - m)) - (m - w * v))| + |(w' - w * s) * v| := abs_sub _ _
    _ ≤ |(1 - w * v) ^ 2| + |(w * v) * ((s - (2 - m)) - (m - w * v))| + |(w' - w * s) * v| := by
      linarith [abs_sub ((1 - w * v) ^ 2) ((w * v) * ((s - (2 - m)) - (m - w * v)))]
    _ ≤ _ := by
      rw [abs_of_nonneg (sq_nonneg (1 - w * v))]
      linarith

/-- Sum of the exponents of a number and an approximate inverse. -/
theorem exp_inv {c : Cfg} {x y : EFloat} (hx : FinWF c x) (hy : FinWF c y) (px : 0 < val x) (py : 0 < val y)
    (h1 : 1 / 2 ≤ val y * val x) (h2 : val y * val x ≤ 3 / 2) : -16 ≤ y.exp + x.exp ∧ y.exp + x.exp ≤ 0 := by
  have nx := neg_of_val_pos px
  have ny := neg_of_val_pos py
  rw [val_of_pos nx] at *
  rw [val_of_pos ny] at *
  have gx := mag_ge hx.toWF (ne_of_val hx (by rw [val_of_pos nx]; exact px.ne'))
  have gy := mag_ge hy.toWF (ne_of_val hy (by rw [val_of_pos ny]; exact py.ne'))
  have lx := mag_lt hx.toWF
  have ly := mag_lt hy.toWF
  have lo : (10 : ℚ) ^ (y.exp + x.exp) ≤ mag y * mag x := by
    rw [p10_add]; exact mul_le_mul gy gx (p10_pos _).le (by linarith)
  have hi : mag y * mag x < (10 : ℚ) ^ (y.exp + x.exp + 16) := by
    rw [show y.exp + x.exp + 16 = (y.exp + 8) + (x.exp + 8) by ring, p10_add]
    exact mul_lt_mul ly lx.le px (p10_pos _).le
  constructor
  · by_contra hc
    have := p10_mono (show y.exp + x.exp + 16 ≤ -1 by omega)
    rw [show (10 : ℚ) ^ (-1 : ℤ) = 1 / 10 by norm_num] at this
    linarith
  · by_contra hc
    have := p10_mono (show 1 ≤ y.exp + x.exp by omega)
    rw [show (10 : ℚ) ^ (1 : ℤ) = 10 by norm_num] at this
    linarith

/-- Exponent of a number between one half and three halves. -/
theorem exp_unit {c : Cfg} {s : EFloat} (hs : FinWF c s) (ps : 0 < val s) (h1 : 1 / 2 ≤ val s) (h2 : val s ≤ 2) :
    -8 ≤ s.exp ∧ s.exp ≤ 0 := by
  have ns := neg_of_val_pos ps
  rw [val_of_pos ns] at *
  have gs := mag_ge hs.toWF (ne_of_val hs (by rw [val_of_pos ns]; exact ps.ne'))
  have ls := mag_lt hs.toWF
  constructor
  · by_contra hc
    have := p10_mono (show s.exp + 8 ≤ -1 by omega)
    rw [show (10 : ℚ) ^ (-1 : ℤ) = 1 / 10 by norm_num] at this
    linarith
  · by_contra hc
    have := p10_mono (show 1 ≤ s.exp by omega)
    rw [show (10 : ℚ) ^ (1 : ℤ) = 10 by norm_num] at this
    linarith

/-- `|x.exp|` far enough inside the range for all intermediate products of the inverse. -/
def InvRange (x : EFloat) : Prop := minExp10 + 64 ≤ x.exp ∧ x.exp ≤ maxExp10 - 64

/-- One Newton step of the inverse at working precision `p`. -/
theorem inv_step {c : Cfg} {x y : EFloat} (hx : FinWF c x) (hy : FinWF c y) (px : 0 < val x) (py : 0 < val y)
    (hr : InvRange x) {p : ℕ} (pxp : x.prec = p) (pyp : y.prec = p) (hd : |1 - val y * val x| ≤ 1 / 100)
    (hE : epsP p ≤ 1 / 1000) (hU : (10 : ℚ) ^ (8 - 8 * (c.elems : ℤ)) ≤ epsP p / 1000) :
    FinWF c (mul c y (sub c (two c) (mul c y x))) ∧ 0 < val (mul c y (sub c (two c) (mul c y x))) ∧
    |1 - val (mul c y (sub c (two c) (mul c y x))) * val x| ≤ (1 - val y * val x) ^ 2 + 11 / 5 * epsP p := by
  obtain ⟨q1, q2⟩ := abs_le.1 hd
  have hP := mul_pos py px
  have hmax : maxExp10 = 2147483616 := rfl
  have hmin : minExp10 = -2147483616 := rfl
  unfold InvRange at hr
  have he := exp_inv hx hy px py (by linarith) (by linarith)
  have hr1 : ExpInRange y x := by unfold ExpInRange; omega
  obtain ⟨m1, m2, m3, m4⟩ := mul_near (p := p) hy hx py px hr1 (by rw [pxp, pyp, Nat.min_self])
  have hEp := epsP_pos p
  have hm' : |val (mul c y x) - val y * val x| ≤ 1 / 500 := by
    apply le_trans m4
    have := mul_le_mul hE (show val y * val x ≤ 2 by linarith) hP.le (by norm_num)
    linarith
  obtain ⟨r1, r2⟩ := abs_le.1 hm'
  obtain ⟨s1, s2, s3, s4⟩ := two_sub_near m1 (by linarith) (by linarith)
  have hs4 : |val (sub c (two c) (mul c y x)) - (2 - val (mul c y x))| ≤ 1 / 100 := by linarith
  obtain ⟨t1, t2⟩ := abs_le.1 hs4
  have hes := exp_unit s1 s2 (by linarith) (by linarith)
  have hr2 : ExpInRange y (sub c (two c) (mul c y x)) := by unfold ExpInRange; omega
  have hpp : p = min y.prec (sub c (two c) (mul c y x)).prec := by
    have := hy.prec_hi
    rcases s3 with h | h
    · rw [h]; omega
    · rw [h, m3]; omega
  obtain ⟨n1, n2, n3, n4⟩ := mul_near hy s1 py s2 hr2 hpp
  exact ⟨n1, n2, newton_alg py px hd m4 s4 n4 hEp.le hE hU⟩

end EFX
