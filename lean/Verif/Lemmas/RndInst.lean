import Verif.Lemmas.RndSeries
import Verif.Lemmas.ComplexE
import Verif.Model.ElementaryE
import Verif.Props.FnValid
import Verif.Props.Signed
import Verif.Props.Parts
import Verif.Props.Fmod
import Verif.Props.Integer
/-!
# The operations of `e_float` at full precision are rounded operations
-/

namespace EFX
open Spec Props

/-- The value as a real number. -/
noncomputable def rv (x : EFloat) : ℝ := ((val x : ℚ) : ℝ)

/-- Finite, valid, of full working precision. -/
def Full (c : Cfg) (x : EFloat) : Prop := FinWF c x ∧ x.prec = c.elems

theorem pw_cast (k : ℤ) : (((10 : ℚ) ^ k : ℚ) : ℝ) = pw k := by unfold pw; push_cast; rfl

theorem cast_le_pw {q : ℚ} {k : ℤ} : (q : ℝ) ≤ pw k ↔ q ≤ (10 : ℚ) ^ k := by rw [← pw_cast]; exact Rat.cast_le

theorem pw_le_cast {q : ℚ} {k : ℤ} : pw k ≤ (q : ℝ) ↔ (10 : ℚ) ^ k ≤ q := by rw [← pw_cast]; exact Rat.cast_le

theorem rv_abs (x : EFloat) : |rv x| = ((|val x| : ℚ) : ℝ) := by unfold rv; rw [Rat.cast_abs]

theorem rv_le {x : EFloat} {k : ℤ} (h : |rv x| ≤ pw k) : |val x| ≤ (10 : ℚ) ^ k := by
  rw [rv_abs] at h; exact cast_le_pw.1 h

theorem le_rv {x : EFloat} {k : ℤ} (h : pw k ≤ |rv x|) : (10 : ℚ) ^ k ≤ |val x| := by
  rw [rv_abs] at h; exact pw_le_cast.1 h

theorem rv_ne {x : EFloat} : rv x = 0 ↔ val x = 0 := by unfold rv; exact_mod_cast Iff.rfl

theorem exp_le_of {c : Cfg} {x : EFloat} {k : ℤ} (hx : FinWF c x) (h0 : val x ≠ 0) (h : |val x| ≤ (10 : ℚ) ^ k) : x.exp ≤ k := by
  have h1 := mag_ge hx.toWF (ne_of_val hx h0)
  rw [abs_val] at h
  by_contra hc
  have h2 := p10_mono (show k + 1 ≤ x.exp by omega)
  have h3 : (10 : ℚ) ^ (k + 1) = (10 : ℚ) ^ k * 10 := by rw [p10_add]; norm_num
  have h4 := p10_pos k
  generalize (10 : ℚ) ^ k = K at *
  have h5 : K * 10 ≤ K := by
    rw [← h3]; exact le_trans h2 (le_trans h1 h)
  linarith

theorem i64_id {n : ℤ} (h : |n| < 2 ^ 63) : i64 n = n := by
  unfold i64
  have := abs_lt.1 h
  apply Int.bmod_eq_of_le <;> omega

theorem rel_cast {a : EFloat} {q e : ℚ} {r : ℝ} (hq : (q : ℝ) = r) (h : |val a - q| ≤ e * |q|) : |rv a - r| ≤ e * |r| := by
  rw [← hq]
  unfold rv
  have := (Rat.cast_le (K := ℝ)).2 h
  push_cast at this
  exact this

/-- The error unit `10^-(D+1)`. -/
noncomputable def eu (c : Cfg) : ℝ := pw (-((c.digits10 : ℤ) + 1))

theorem eu_cast (c : Cfg) : (((10 : ℚ) ^ (-((c.digits10 : ℤ) + 1)) : ℚ) : ℝ) = eu c := pw_cast _

theorem pw_shift (c : Cfg) (k : ℤ) : pw (-((c.digits10 : ℤ) + 1) + k) = eu c * pw k := pw_add _ _

/-! ### products -/

theorem rnd_mul {c : Cfg} (hc : c.elems < 625) {x y : EFloat} (hx : Full c x) (hy : Full c y) (hs : Sz 2000000000 (rv x * rv y)) :
    Full c (mul c x y) ∧ |rv (mul c x y) - rv x * rv y| ≤ eu c / 10 ^ 4 * |rv x * rv y| ∧ |rv (mul c x y)| ≤ |rv x * rv y| := by
  have h0 := hs.ne
  have x0 : val x ≠ 0 := fun h => h0 (by rw [rv_ne.2 h, zero_mul])
  have y0 : val y ≠ 0 := fun h => h0 (by rw [rv_ne.2 h, mul_zero])
  have hm : (((val x * val y : ℚ)) : ℝ) = rv x * rv y := by unfold rv; push_cast; rfl
  have s1 : (10 : ℚ) ^ (-2000000000 : ℤ) ≤ |val x * val y| := by
    have := hs.1
    rw [← hm, ← Rat.cast_abs] at this; exact pw_le_cast.1 this
  have s2 : |val x * val y| ≤ (10 : ℚ) ^ (2000000000 : ℤ) := by
    have := hs.2
    rw [← hm, ← Rat.cast_abs] at this; exact cast_le_pw.1 this
  have a1 := mag_ge hx.1.toWF (ne_of_val hx.1 x0)
  have a2 := mag_lt hx.1.toWF
  have b1 := mag_ge hy.1.toWF (ne_of_val hy.1 y0)
  have b2 := mag_lt hy.1.toWF
  rw [abs_mul, abs_val, abs_val] at s1 s2
  have he : ExpInRange x y := by
    have hm : maxExp10 = 2147483616 := rfl
    have hm2 : minExp10 = -2147483616 := rfl
    have l1 : (10 : ℚ) ^ (x.exp + y.exp) ≤ (10 : ℚ) ^ (2000000000 : ℤ) := by
      rw [p10_add]; exact le_trans (mul_le_mul a1 b1 (p10_pos _).le (mag_nonneg _)) s2
    have l2 : (10 : ℚ) ^ (-2000000000 : ℤ) ≤ (10 : ℚ) ^ ((x.exp + 8) + (y.exp + 8)) := by
      rw [p10_add]; exact le_trans s1 (mul_le_mul a2.le b2.le (mag_nonneg _) (p10_pos _).le)
    have m1 := (zpow_le_zpow_iff_right₀ (show (1 : ℚ) < 10 by norm_num)).1 l1
    have m2 := (zpow_le_zpow_iff_right₀ (show (1 : ℚ) < 10 by norm_num)).1 l2
    unfold ExpInRange
    omega
  obtain ⟨f, -, t, -, e⟩ := C13_mul_error_partial hx.1 hy.1 x0 y0 hx.2 hy.2 he
  refine ⟨⟨f, ?_⟩, ?_, ?_⟩
  · rcases mul_prec c x y with h | h
    · rw [h, hx.2]
    · exact h
  · have := rel_cast hm (e hc)
    rw [pw_cast, show -((c.digits10 : ℤ) + 5) = -((c.digits10 : ℤ) + 1) + -((4 : ℕ) : ℤ) by push_cast; ring, pw_shift, pw_neg, pw_nat] at this
    rwa [div_eq_mul_inv]
  · rw [rv_abs, ← hm, ← Rat.cast_abs]; exact_mod_cast t

theorem rnd_mul0 {c : Cfg} {x y : EFloat} (hx : Full c x) (hy : Full c y) (h : rv x * rv y = 0) :
    Full c (mul c x y) ∧ rv (mul c x y) = 0 := by
  have hz : x.data.headD 0 = 0 ∨ y.data.headD 0 = 0 := by
    rcases mul_eq_zero.1 h with h | h
    · exact Or.inl ((head_zero_iff hx.1).2 (rv_ne.1 h))
    · exact Or.inr ((head_zero_iff hy.1).2 (rv_ne.1 h))
  have e : mul c x y = zero c := mulAssignG_zero hx.1.fin hy.1.fin hz
  rw [e]
  exact ⟨⟨FinWF_zero c, rfl⟩, rv_ne.2 (val_zero c)⟩

/-! ### sums -/

theorem relU_le (c : Cfg) : ((relU c : ℚ) : ℝ) ≤ eu c / 10 ^ 12 := by
  have h := digits_elems c
  unfold relU
  rw [pw_cast, div_eq_mul_inv, ← pw_nat, ← pw_neg]
  unfold eu
  rw [← pw_add]
  apply pw_mono
  push_cast
  omega

theorem exp_small2 {c : Cfg} {x : EFloat} (hx : Full c x) (h : |rv x| ≤ pw 2000000000) : val x ≠ 0 → x.exp ≤ maxExp10 - 16 := by
  intro h0
  have := exp_le_of hx.1 h0 (rv_le h)
  have hm : maxExp10 = 2147483616 := rfl
  omega

theorem rnd_add {c : Cfg} {x y : EFloat} (hx : Full c x) (hy : Full c y) (bx : |rv x| ≤ pw 2000000000) (bY : |rv y| ≤ pw 2000000000) :
    Full c (addAssign c x y) ∧ |rv (addAssign c x y) - (rv x + rv y)| ≤ eu c / 10 ^ 12 * (|rv x| + |rv y|) := by
  obtain ⟨f, e, -⟩ := add_near hx.1 hy.1 (exp_small2 hx bx) (exp_small2 hy bY)
  refine ⟨⟨f, ?_⟩, ?_⟩
  · rcases addAssign_prec c x y with h | h | h
    · rw [h, hx.2]
    · rw [h, hy.2]
    · exact h
  · have h1 := (Rat.cast_le (K := ℝ)).2 e
    push_cast at h1
    refine le_trans h1 (mul_le_mul_of_nonneg_right (relU_le c) (by positivity))

theorem Full.neg {c : Cfg} {x : EFloat} (h : Full c x) : Full c (negate x) ∧ rv (negate x) = -rv x :=
  ⟨⟨FinWF_negate h.1, by rw [negate_prec, h.2]⟩, by unfold rv; rw [negate_val h.1]; push_cast; rfl⟩

theorem rnd_sub {c : Cfg} (hc : c.elems < 625) {x y : EFloat} (hx : Full c x) (hy : Full c y) (bx : |rv x| ≤ pw 2000000000)
    (bY : |rv y| ≤ pw 2000000000) :
    Full c (sub c x y) ∧ |rv (sub c x y) - (rv x - rv y)| ≤ eu c / 10 ^ 12 * (|rv x| + |rv y|) ∧ (rv x = rv y → rv (sub c x y) = 0) ∧
    (rv x ≠ 0 → rv x ≠ rv y → pw (-5200) * |rv x| ≤ |rv (sub c x y)|) := by
  have e1 : sub c x y = addAssign c x (negate y) := subAssign_eq hx.1 hy.1
  rw [e1]
  obtain ⟨fy, vy⟩ := hy.neg
  have bY' : |rv (negate y)| ≤ pw 2000000000 := by rw [vy, abs_neg]; exact bY
  obtain ⟨f, e⟩ := rnd_add hx fy bx bY'
  rw [vy, abs_neg] at e
  obtain ⟨-, -, hexp⟩ := add_near hx.1 fy.1 (exp_small2 hx bx) (exp_small2 fy bY')
  have nv : val (negate y) = -val y := negate_val hy.1
  have hb : ∀ {z : EFloat}, Full c z → |rv z| ≤ pw 2000000000 → |val z| ≤ (10 : ℚ) ^ maxExp10 := by
    intro z hz h
    exact le_trans (rv_le h) (p10_mono (by decide))
  have vxy : rv x = rv y ↔ val x = val y := by unfold rv; exact Rat.cast_inj
  refine ⟨f, e, fun h => ?_, fun h0 hne => ?_⟩
  · have hv := vxy.1 h
    by_cases hz : val x = 0
    · have := (head_zero_iff hx.1).2 hz
      rw [addAssign_zero_left hx.1 this, vy, ← h, rv_ne.2 hz, neg_zero]
    · obtain ⟨-, h1, -⟩ := add_opp hx.1 fy.1 (by rw [nv, ← hv]; nlinarith [mul_self_pos.2 hz]) (hb hx bx) (hb fy bY')
      rw [rv_ne, h1 (by rw [nv, abs_neg, hv]), nv, ← hv]
      have hcx : chop (ulp c x) (-val x) = -val x := by
        have h3 : -val x = val (negate x) := (negate_val hx.1).symm
        rw [h3]
        have h4 : ulp c x = ulp c (negate x) := by unfold ulp; rw [negate_exp]
        rw [h4, chop_val, chop_mag (FinWF_negate hx.1).toWF, ← val_eq]
      rw [hcx]; ring
  · have v0 : val x ≠ 0 := fun h => h0 (rv_ne.2 h)
    have vne : val x ≠ val y := fun h => hne (vxy.2 h)
    have rne : val (addAssign c x (negate y)) ≠ 0 := by
      rcases le_or_gt 0 (val x * val (negate y)) with hs | hs
      · have hbb : |val x + val (negate y)| ≤ (10 : ℚ) ^ maxExp10 := by
          have := sum_big hx.1 fy.1
          by_cases y0 : val (negate y) = 0
          · rw [y0, add_zero]; exact hb hx bx
          · refine le_trans (abs_add_le _ _) ?_
            rw [abs_val, abs_val]
            exact this (exp_small2 hx bx v0) (exp_small2 fy bY' y0)
        have ht := add_trunc hx.1 fy.1 hs hbb
        have h5 := ht.greatest x hx.1 (by
          rcases le_total 0 (val x) with h | h
          · have h6 : 0 ≤ val (negate y) := by
              rcases h.lt_or_eq with h' | h'
              · exact nonneg_of_mul_nonneg_right hs h'
              · exact absurd h'.symm v0
            rw [abs_of_nonneg h, abs_of_nonneg (by linarith)]; linarith
          · have h6 : val (negate y) ≤ 0 := by
              by_contra hc
              have := mul_neg_of_neg_of_pos (lt_of_le_of_ne h v0) (not_le.1 hc)
              linarith
            rw [abs_of_nonpos h, abs_of_nonpos (by linarith)]; linarith)
        intro h7
        rw [h7, abs_zero] at h5
        exact v0 (abs_eq_zero.1 (le_antisymm h5 (abs_nonneg _)))
      · obtain ⟨-, h1, h2⟩ := add_opp hx.1 fy.1 hs (hb hx bx) (hb fy bY')
        have hchop : ∀ (g q : ℚ), 0 < g → |chop g q| ≤ |q| := by
          intro g q hg
          unfold chop
          by_cases hq : q < 0
          · rw [if_pos hq, abs_neg, abs_of_nonneg (mul_nonneg (by exact_mod_cast Int.floor_nonneg.2 (div_nonneg (by linarith) hg.le)) hg.le),
              abs_of_neg hq]
            have := Int.floor_le (-q / g)
            rwa [le_div_iff₀ hg] at this
          · have hq' := not_lt.1 hq
            rw [if_neg hq, abs_of_nonneg (mul_nonneg (by exact_mod_cast Int.floor_nonneg.2 (div_nonneg hq' hg.le)) hg.le), abs_of_nonneg hq']
            have := Int.floor_le (q / g)
            rwa [le_div_iff₀ hg] at this
        have hne2 : |val x| ≠ |val (negate y)| := by
          intro h
          rcases abs_eq_abs.1 h with h | h
          · rw [← h] at hs; nlinarith [mul_self_nonneg (val x)]
          · rw [nv, neg_neg] at h; exact vne h
        intro h7
        rcases lt_or_gt_of_ne hne2 with h | h
        · rw [h2 h.le] at h7
          have := hchop (ulp c (negate y)) (val x) (ulp_pos c _)
          rw [show chop (ulp c (negate y)) (val x) = -val (negate y) by linarith, abs_neg] at this
          linarith
        · rw [h1 h.le] at h7
          have := hchop (ulp c x) (val (negate y)) (ulp_pos c _)
          rw [show chop (ulp c x) (val (negate y)) = -val x by linarith, abs_neg] at this
          linarith
    have he := hexp v0 rne
    have g1 := mag_ge f.1.toWF (ne_of_val f.1 rne)
    have g2 := mag_lt hx.1.toWF
    rw [← abs_val] at g1 g2
    have g3 : (10 : ℚ) ^ (-5200 : ℤ) * |val x| ≤ |val (addAssign c x (negate y))| := by
      have h8 : (10 : ℚ) ^ (-5200 : ℤ) * (10 : ℚ) ^ (x.exp + 8) ≤ (10 : ℚ) ^ (addAssign c x (negate y)).exp := by
        rw [← p10_add]; apply p10_mono; omega
      exact le_trans (mul_le_mul_of_nonneg_left g2.le (p10_pos _).le) (le_trans h8 g1)
    have := (Rat.cast_le (K := ℝ)).2 g3
    rw [Rat.cast_mul, pw_cast, ← rv_abs, ← rv_abs] at this
    exact this

/-! ### built-in integers -/

theorem trunc_rel {c : Cfg} {x : EFloat} (hx : Full c x) {n : ℕ} (hn : n < 100000000) :
    Full c (mulUnsigned c x n) ∧ |val (mulUnsigned c x n) - val x * n| ≤ relU c * |val x * n| := by
  have hni : x.isnan = false := by simp [EFloat.isnan, hx.1.fin]
  have hii : x.isinf = false := by simp [EFloat.isinf, hx.1.fin]
  have hU := (relU_pos c).le
  by_cases hz : val x = 0 ∨ n = 0
  · have : mulUnsigned c x n = zero c := by
      unfold mulUnsigned
      rw [if_neg (by simp [hni, hii]), if_neg (by simp [hii]), if_pos]
      rcases hz with h | h
      · have := (head_zero_iff hx.1).2 h
        unfold EFloat.iszero EFloat.front; rw [decide_eq_true hx.1.fin, decide_eq_true this]; rfl
      · simp [h]
    rw [this, val_zero]
    refine ⟨⟨FinWF_zero c, rfl⟩, ?_⟩
    rcases hz with h | h <;> rw [h] <;> simp
  obtain ⟨h0, n0⟩ := not_or.1 hz
  have zx := ne_of_val hx.1 h0
  have hiz : x.iszero = false := by unfold EFloat.iszero EFloat.front; rw [decide_eq_false zx, Bool.and_false]
  by_cases n1 : n = 1
  · have : mulUnsigned c x n = x := by
      unfold mulUnsigned
      rw [if_neg (by simp [hni, hii]), if_neg (by simp [hii]), if_neg (by rw [hiz, decide_eq_false n0]; simp), if_neg (by unfold mask; omega),
        if_pos n1]
    rw [this, n1]
    refine ⟨hx, ?_⟩
    simp; positivity
  obtain ⟨a1, a2, a3, a4, -, a6⟩ := mulUnsigned_spec hx.1 zx (show 2 ≤ n by omega) hn
  have a6' := a6 hx.2
  have b1 := ulp_le_relU a1 a2
  have bp := ulp_pos c (mulUnsigned c x n)
  generalize mulUnsigned c x n = r at *
  refine ⟨⟨a1, by rw [a4, hx.2]⟩, ?_⟩
  have hq : 0 ≤ mag x * n := mul_nonneg (mag_nonneg _) (by positivity)
  have hch : mag r ≤ mag x * n ∧ mag x * n - mag r ≤ ulp c r := by
    rw [a6']
    unfold chop
    rw [if_neg (not_lt.2 hq)]
    have f1 := Int.floor_le (mag x * n / ulp c r)
    have f2 := Int.lt_floor_add_one (mag x * n / ulp c r)
    rw [le_div_iff₀ bp] at f1
    rw [div_lt_iff₀ bp] at f2
    exact ⟨f1, by linarith⟩
  have hv : val r - val x * n = sgnQ x.neg * (mag r - mag x * n) := by rw [val_eq, val_eq, a3]; ring
  have hv2 : val x * n = sgnQ x.neg * (mag x * n) := by rw [val_eq]; ring
  have hs : |sgnQ x.neg| = 1 := by cases x.neg <;> simp [sgnQ]
  rw [hv, abs_mul, hs, one_mul, abs_sub_comm, abs_of_nonneg (by linarith [hch.1]), hv2, abs_mul, hs, one_mul, abs_of_nonneg hq]
  exact le_trans hch.2 (le_trans b1 (mul_le_mul_of_nonneg_left hch.1 hU))

theorem natAbs_cases (n : ℤ) : (n < 0 ∧ (n : ℚ) = -(n.natAbs : ℚ)) ∨ (0 ≤ n ∧ (n : ℚ) = (n.natAbs : ℚ)) := by
  rcases lt_or_ge n 0 with h | h
  · left; refine ⟨h, ?_⟩
    have : n = -(n.natAbs : ℤ) := by omega
    rw [← Int.cast_natCast, ← Int.cast_neg, ← this]
  · right; refine ⟨h, ?_⟩
    have : n = (n.natAbs : ℤ) := by omega
    rw [← Int.cast_natCast, ← this]

theorem rnd_mulI {c : Cfg} {x : EFloat} (hx : Full c x) {n : ℤ} (hn : |n| < 100000000) (hb : |rv x * n| ≤ pw 2000000000) :
    Full c (mulSigned c x n) ∧ |rv (mulSigned c x n) - rv x * n| ≤ eu c / 10 ^ 12 * |rv x * n| := by
  obtain ⟨f, e⟩ := trunc_rel hx (n := n.natAbs) (by rw [Int.abs_eq_natAbs] at hn; omega)
  have hm : (((val x * n : ℚ)) : ℝ) = rv x * n := by unfold rv; push_cast; rfl
  have key : ∃ z, (if n < 0 then negate (mulUnsigned c x n.natAbs) else mulUnsigned c x n.natAbs) = z ∧ Full c z ∧
      |val z - val x * n| ≤ relU c * |val x * n| := by
    rcases natAbs_cases n with ⟨h, hq⟩ | ⟨h, hq⟩
    · refine ⟨_, if_pos h, f.neg.1, ?_⟩
      rw [negate_val f.1, hq, mul_neg, abs_neg, ← neg_sub', abs_neg]; exact e
    · refine ⟨_, if_neg (not_lt.2 h), f, ?_⟩
      rw [hq]; exact e
  obtain ⟨z, ez, fz, nz⟩ := key
  obtain ⟨K, hK⟩ : ∃ K : ℤ, K = 2000000000 := ⟨_, rfl⟩
  rw [← hK] at hb
  have hb' : |val x * n| ≤ (10 : ℚ) ^ K := by
    rw [← hm, ← Rat.cast_abs] at hb; exact cast_le_pw.1 hb
  have hz2 : |val z| ≤ val (valueMax c) := by
    have h1 := abs_sub_abs_le_abs_sub (val z) (val x * n)
    have hu : relU c ≤ 1 := by
      unfold relU
      have := elems_ge c
      have := p10_mono (show 8 - 8 * (c.elems : ℤ) ≤ 0 by omega)
      simpa using this
    have h2 : relU c * |val x * n| ≤ 1 * |val x * n| := mul_le_mul_of_nonneg_right hu (abs_nonneg _)
    have h3 : |val z| ≤ 2 * |val x * n| := by linarith
    have h4 : |val z| ≤ (10 : ℚ) ^ K * (10 : ℚ) ^ (1 : ℤ) := by
      rw [show (10 : ℚ) ^ (1 : ℤ) = 10 by norm_num]
      have := p10_pos K
      generalize (10 : ℚ) ^ K = P at *
      linarith
    rw [← p10_add] at h4
    rw [valueMax_val]
    exact le_trans h4 (le_trans (p10_mono (by rw [hK]; decide)) (max_ge c))
  have hfa : FinWF c (fabs z) ∧ val (fabs z) = |val z| := by
    unfold fabs EFloat.isneg
    by_cases h : z.neg = true
    · rw [if_pos h]
      refine ⟨FinWF_negate fz.1, ?_⟩
      rw [negate_val fz.1, abs_of_nonpos]
      unfold val; rw [if_pos h]; linarith [mag_nonneg z]
    · rw [if_neg h]
      refine ⟨fz.1, ?_⟩
      rw [abs_of_nonneg]
      unfold val; rw [if_neg h]; exact mag_nonneg z
  have hms : mulSigned c x n = z := by
    unfold mulSigned
    simp only
    rw [ez, if_neg (by rw [gt_iff hfa.1 (valueMax_WF c).1, hfa.2]; exact not_lt.2 hz2)]
  rw [hms]
  refine ⟨fz, ?_⟩
  have := rel_cast hm nz
  exact le_trans this (mul_le_mul_of_nonneg_right (relU_le c) (abs_nonneg _))

theorem divUnsigned_prec {c : Cfg} {x : EFloat} (hx : Full c x) {n : ℕ} (h1 : 1 ≤ n) (hn : n < 100000000) : (divUnsigned c x n).prec = c.elems := by
  have hni : x.isnan = false := by simp [EFloat.isnan, hx.1.fin]
  have hii : x.isinf = false := by simp [EFloat.isinf, hx.1.fin]
  unfold divUnsigned
  rw [hni, hii, if_neg (by simp), if_neg (by simp), if_neg (by omega)]
  split
  · exact hx.2
  rw [if_neg (by unfold mask; omega)]
  unfold divSmall
  simp only
  repeat' split
  all_goals first | rfl | exact hx.2

theorem rnd_divI {c : Cfg} {x : EFloat} (hx : Full c x) {n : ℤ} (n0 : n ≠ 0) (hn : |n| < 100000000) :
    Full c (divSigned c x n) ∧ |rv (divSigned c x n) - rv x / n| ≤ eu c * |rv x / n| := by
  rw [Int.abs_eq_natAbs] at hn
  obtain ⟨f, -, e⟩ := (C58_div hx.1 hx.2 (n := n) (by omega) (by omega) n0).1 (by omega)
  refine ⟨⟨f, ?_⟩, ?_⟩
  · unfold divSigned
    simp only
    split
    · rw [negate_prec]; exact divUnsigned_prec hx (by omega) (by omega)
    · exact divUnsigned_prec hx (by omega) (by omega)
  · have := rel_cast (r := rv x / n) (by unfold rv; push_cast; rfl) e
    rwa [eu_cast] at this

/-! ### quotients -/

theorem recip_small {c : Cfg} (hc : c.elems < 625) : ((2 * recipBound c : ℚ) : ℝ) ≤ eu c := by
  have h := digits_elems c
  unfold recipBound
  rw [if_pos hc]
  push_cast
  have e1 : ((10 : ℝ) ^ (-((c.digits10 : ℤ) + 2))) = eu c * (1 / 10) := by
    have := pw_shift c (-1)
    rw [pw_neg, pw_one] at this
    rw [show -((c.digits10 : ℤ) + 2) = -((c.digits10 : ℤ) + 1) + -1 by ring]
    change pw _ = _
    rw [this]; norm_num
  have e2 : ((10 : ℝ) ^ (16 - 8 * (c.elems : ℤ))) ≤ eu c * (1 / 10 ^ 8) := by
    have := pw_shift c (-((8 : ℕ) : ℤ))
    rw [pw_neg, pw_nat, ← one_div] at this
    rw [← this]
    apply pw_mono; push_cast; omega
  rw [e1]
  have e0 : 0 < eu c := pw_pos _
  have hN : ((c.elems : ℕ) : ℝ) ≤ 625 := by exact_mod_cast hc.le
  have h3 : 23 / 10 * (((c.elems : ℕ) : ℝ) * 1 + 2) * (10 : ℝ) ^ (16 - 8 * (c.elems : ℤ)) ≤ 23 / 10 * 627 * (eu c * (1 / 10 ^ 8)) :=
    mul_le_mul (by linarith) e2 (by positivity) (by norm_num)
  linarith

theorem rnd_div {c : Cfg} (hc : c.elems < 625) {x y : EFloat} (hx : Full c x) (hy : Full c y) (hxy : 0 < rv x ∨ |rv x| ≠ |rv y|)
    (sx : Sz 1000000000 (rv x)) (sy : Sz 1000000000 (rv y)) :
    Full c (div c x y) ∧ |rv (div c x y) - rv x / rv y| ≤ eu c * |rv x / rv y| := by
  have x0 : val x ≠ 0 := fun h => sx.ne (rv_ne.2 h)
  have y0 : val y ≠ 0 := fun h => sy.ne (rv_ne.2 h)
  have hpr : (div c x y).prec = c.elems := by
    unfold div divAssign
    split
    · split
      · rw [negate_prec]; rfl
      · rfl
    · rcases mul_prec c x (calculateInv c y) with h | h
      · exact h.trans hx.2
      · exact h
  by_cases hne : |val x| = |val y|
  · have px : 0 < rv x := by
      rcases hxy with h | h
      · exact h
      · exact absurd (by rw [rv_abs, rv_abs, hne]) h
    have px' : 0 < val x := by unfold rv at px; exact_mod_cast px
    have hfi : finiteIdentical x y = true := (finiteIdentical_iff hx.1 hy.1 x0).2 hne
    have hd := (C20_div_partial hx.1 hy.1).1 px' (by rw [← hne, abs_of_pos px'])
    have hfw : FinWF c (div c x y) := by
      unfold div divAssign
      rw [if_pos hfi]
      split
      · exact FinWF_negate (FinWF_one c)
      · exact FinWF_one c
    have hval : val (div c x y) = val y / val x := by
      unfold denote at hd
      rw [hfw.fin] at hd
      simpa using hd
    have hq : val y / val x = val x / val y := by
      have h2 : val x * val x = val y * val y := by rw [← abs_mul_abs_self, hne, abs_mul_abs_self]
      rw [div_eq_div_iff x0 y0, h2]
    refine ⟨⟨hfw, hpr⟩, ?_⟩
    have : rv (div c x y) = rv x / rv y := by unfold rv; rw [hval, hq]; push_cast; rfl
    rw [this, sub_self, abs_zero]
    have : 0 < eu c := pw_pos _
    positivity
  · have a1 := exp_le_of hx.1 x0 (rv_le sx.2)
    have a2 := lt_exp_of_mag hx.1 (le_rv sx.1)
    have b1 := exp_le_of hy.1 y0 (rv_le sy.2)
    have b2 := lt_exp_of_mag hy.1 (le_rv sy.1)
    have hm : maxExp10 = 2147483616 := rfl
    have hm2 : minExp10 = -2147483616 := rfl
    obtain ⟨f, -, e, -⟩ := C21_quotient_partial hx.1 hy.1 x0 y0 hne hx.2 hy.2 ⟨by omega, by omega⟩ ⟨by omega, by omega⟩
    refine ⟨⟨f, hpr⟩, ?_⟩
    have := rel_cast (r := rv x / rv y) (by unfold rv; push_cast; rfl) e
    exact le_trans this (mul_le_mul_of_nonneg_right (recip_small hc) (abs_nonneg _))

theorem rnd_inv {c : Cfg} (hc : c.elems < 625) {y : EFloat} (hy : Full c y) (sy : Sz 1000000000 (rv y)) :
    Full c (calculateInv c y) ∧ |rv (calculateInv c y) - 1 / rv y| ≤ eu c * |1 / rv y| := by
  have y0 : val y ≠ 0 := fun h => sy.ne (rv_ne.2 h)
  have b1 := exp_le_of hy.1 y0 (rv_le sy.2)
  have b2 := lt_exp_of_mag hy.1 (le_rv sy.1)
  have hm : maxExp10 = 2147483616 := rfl
  have hm2 : minExp10 = -2147483616 := rfl
  have hr : InvRange y := ⟨by omega, by omega⟩
  obtain ⟨f, -, -, hp⟩ := calculateInv_spec hy.1 y0 hr
  obtain ⟨-, -, e, -⟩ := C21_inverse_partial hy.1 y0 hr
  refine ⟨⟨f, ?_⟩, ?_⟩
  · rcases hp with h | h
    · rw [h, hy.2]
    · exact h
  · have := rel_cast (r := 1 / rv y) (by unfold rv; push_cast; rfl) e
    refine le_trans this (mul_le_mul_of_nonneg_right ?_ (abs_nonneg _))
    have h1 := recip_small hc
    have h2 : (0 : ℝ) ≤ (recipBound c : ℚ) := by
      have := le_trans (abs_nonneg _) e
      have hp : 0 < |1 / val y| := abs_pos.2 (one_div_ne_zero y0)
      have : 0 ≤ recipBound c := by
        by_contra hn
        have := mul_neg_of_neg_of_pos (not_le.1 hn) hp
        linarith
      exact_mod_cast this
    push_cast at h1
    linarith

theorem rnd_div0 {c : Cfg} {x y : EFloat} (hx : Full c x) (hy : Full c y) (x0 : rv x = 0) (sy : Sz 1000000000 (rv y)) :
    Full c (div c x y) ∧ rv (div c x y) = 0 := by
  have y0 : val y ≠ 0 := fun h => sy.ne (rv_ne.2 h)
  have vx0 : val x = 0 := rv_ne.1 x0
  have b1 := exp_le_of hy.1 y0 (rv_le sy.2)
  have b2 := lt_exp_of_mag hy.1 (le_rv sy.1)
  have hm : maxExp10 = 2147483616 := rfl
  have hm2 : minExp10 = -2147483616 := rfl
  obtain ⟨f, -, -, -⟩ := calculateInv_spec hy.1 y0 ⟨by omega, by omega⟩
  have hh := (head_zero_iff hx.1).2 vx0
  have hz := mulAssignG_zero (c := c) (self := false) hx.1.fin f.fin (Or.inl hh)
  have hd : div c x y = zero c := by
    unfold div divAssign
    rw [if_neg, mulAssign, hz]
    intro hc
    unfold finiteIdentical at hc
    simp only [Bool.and_eq_true, decide_eq_true_eq] at hc
    have h0 := hc.2
    rw [cmpData_eq_zero_iff (by rw [hx.1.len, hy.1.len])] at h0
    have : mag y = mag x := by unfold mag; rw [h0, hc.1.2]
    rw [← abs_val, ← abs_val, vx0, abs_zero, abs_eq_zero] at this
    exact y0 this
  rw [hd]
  exact ⟨⟨FinWF_zero c, rfl⟩, rv_ne.2 (val_zero c)⟩

/-! ### constants, parts -/

theorem half_full (c : Cfg) : Full c (half c) ∧ rv (half c) = 1 / 2 := by
  have hw := WF_half c
  have hf : FinWF c (half c) := ⟨hw, rfl⟩
  refine ⟨⟨hf, rfl⟩, ?_⟩
  have hN := elems_ge c
  have hd : (half c).data = 50000000 :: List.replicate (c.elems - 1) 0 := by
    have : List.take c.elems [50000000] = [50000000] := List.take_of_length_le (by simp; omega)
    unfold half mkLimbs
    simp only [this]
    rfl
  have hm : mag (half c) = 1 / 2 := by
    rw [mag_eq hw, hd]
    have hl : lv (50000000 :: List.replicate (c.elems - 1) 0) = 50000000 * 100000000 ^ (c.elems - 1) := by
      have h0 : ∀ k, lv (List.replicate k 0) = 0 := by
        intro k
        induction k with
        | zero => rfl
        | succ k ih => rw [List.replicate_succ]; simp [lv_cons, ih]
      rw [lv_cons, h0, List.length_replicate]; simp
    rw [hl]
    unfold ulp
    have he : (half c).exp = -8 := rfl
    rw [he]
    have e2 : ((50000000 * 100000000 ^ (c.elems - 1) : ℕ) : ℚ) = 50000000 * (10 : ℚ) ^ (8 * ((c.elems : ℤ) - 1)) := by
      push_cast
      rw [zpow_mul, show ((c.elems : ℤ) - 1) = ((c.elems - 1 : ℕ) : ℤ) by omega, zpow_natCast]; norm_num
    rw [e2, mul_assoc, ← p10_add, show 8 * ((c.elems : ℤ) - 1) + (-8 - 8 * ((c.elems : ℤ) - 1)) = -8 by ring]
    norm_num
  unfold rv val
  rw [if_neg (show ¬(half c).neg = true from Bool.false_ne_true), hm]
  norm_num

theorem intPart_full {c : Cfg} {x : EFloat} (hx : Full c x) (h0 : 0 ≤ rv x) (h1 : rv x ≤ 10 ^ 18) :
    Full c (integerPart c x) ∧ rv (integerPart c x) = ⌊rv x⌋ := by
  obtain ⟨f, -, es, -, -, -, e⟩ := C24_parts_partial hx.1
  have hp : (integerPart c x).prec = c.elems := by
    unfold integerPart
    split
    · exact hx.2
    split
    · rfl
    split
    · exact hx.2
    · exact hx.2
  have q0 : 0 ≤ val x := by unfold rv at h0; exact_mod_cast h0
  by_cases hz : val x = 0
  · have zx := (head_zero_iff hx.1).2 hz
    have hd : decimalPart c x = zero c := by
      unfold decimalPart
      rw [if_neg (by simp [EFloat.isfinite, hx.1.fin]), if_pos]
      unfold EFloat.iszero EFloat.front
      rw [decide_eq_true hx.1.fin, decide_eq_true zx]; rfl
    rw [hd, val_zero, add_zero] at es
    refine ⟨⟨f, hp⟩, ?_⟩
    rw [rv_ne.2 hz, rv_ne.2 (es.trans hz)]; simp
  have hexp : x.exp < (c.digits10 : ℤ) - 1 := by
    have hD := (digits10_bounds c).1
    · have h2 : |val x| ≤ (10 : ℚ) ^ (18 : ℤ) := by
        apply rv_le
        rw [abs_of_nonneg h0, show (18 : ℤ) = ((18 : ℕ) : ℤ) by norm_num, pw_nat]; exact h1
      have := exp_le_of hx.1 hz h2
      omega
  refine ⟨⟨f, hp⟩, ?_⟩
  have e' := e hexp
  unfold truncZ at e'
  rw [if_neg (not_lt.2 q0)] at e'
  unfold rv
  rw [e', Rat.floor_cast]
  push_cast; rfl

theorem toI_full {c : Cfg} {x : EFloat} (hx : Full c x) {k : ℤ} (h : rv x = k) (hk : |k| < 2 ^ 63) : (extractSigned c x).getD 0 = k := by
  have hv : val x = k := by unfold rv at h; exact_mod_cast h
  obtain ⟨a, b⟩ := abs_lt.1 hk
  rw [C06_extract_signed_partial hx.1 (by
    rw [hv]; intro hc
    have : k = -2 ^ 63 := by exact_mod_cast hc
    omega), Option.getD_some, hv]
  have ht : truncZ (k : ℚ) = k := by
    unfold truncZ
    split
    · rw [← Int.cast_neg, Int.floor_intCast]; omega
    · rw [Int.floor_intCast]
  rw [ht]
  unfold clamp
  rw [if_neg (by omega), if_neg (by omega)]

/-- A number is below the successor of its first limb. -/
theorem mag_lt_head {c : Cfg} {x : EFloat} (hx : WF c x) : mag x < (x.data.headD 0 + 1 : ℕ) * (10 : ℚ) ^ x.exp := by
  have hN := elems_ge c
  rw [mag_eq hx]
  have hlen := hx.len
  have hok := hx.ok
  cases hd : x.data with
  | nil => rw [hd] at hlen; simp at hlen; omega
  | cons a t =>
    rw [hd] at hlen hok
    have ht : lv t < 100000000 ^ (c.elems - 1) := by
      have h1 : OK t := fun d h => hok d (List.mem_cons_of_mem _ h)
      have := lv_lt h1
      rwa [show t.length = c.elems - 1 by simp at hlen; omega] at this
    have hl : lv (a :: t) < (a + 1) * 100000000 ^ (c.elems - 1) := by
      rw [lv_cons, show t.length = c.elems - 1 by simp at hlen; omega, add_mul, one_mul]
      exact Nat.add_lt_add_left ht _
    have hl' : ((lv (a :: t) : ℕ) : ℚ) < ((a + 1 : ℕ) : ℚ) * (10 : ℚ) ^ (8 * ((c.elems : ℤ) - 1)) := by
      have h2 : ((lv (a :: t) : ℕ) : ℚ) < (((a + 1) * 100000000 ^ (c.elems - 1) : ℕ) : ℚ) := by exact_mod_cast hl
      refine lt_of_lt_of_eq h2 ?_
      rw [Nat.cast_mul]
      congr 1
      rw [zpow_mul, show ((c.elems : ℤ) - 1) = ((c.elems - 1 : ℕ) : ℤ) by omega, zpow_natCast]; norm_num
    have hu := ulp_pos c x
    have := mul_lt_mul_of_pos_right hl' hu
    refine lt_of_lt_of_eq this ?_
    unfold ulp
    rw [mul_assoc, ← p10_add, show 8 * ((c.elems : ℤ) - 1) + (x.exp - 8 * ((c.elems : ℤ) - 1)) = x.exp by ring]
    rfl

theorem par_full {c : Cfg} {x : EFloat} (hx : Full c x) {k : ℕ} (h : rv x = k) (hk : k < 100000000) :
    (decimalPart c (divSigned c x 2)).iszero = true ↔ Even k := by
  have hv : val x = k := by unfold rv at h; exact_mod_cast h
  have e1 : divSigned c x 2 = divUnsigned c x 2 := rfl
  rw [e1]
  obtain ⟨f, z, -, r, t, -⟩ := (C19_div_unsigned_partial hx.1 hx.2).1 2 (by norm_num) (by norm_num)
  obtain ⟨-, fd, es, ed, -, -, ei⟩ := C24_parts_partial f
  have hz : (decimalPart c (divUnsigned c x 2)).iszero = true ↔ val (decimalPart c (divUnsigned c x 2)) = 0 :=
    (C26_predicates_partial fd).1
  rw [hz]
  have hu : (10 : ℚ) ^ (-((c.digits10 : ℤ) + 1)) ≤ (10 : ℚ) ^ (-20 : ℤ) := p10_mono (by have := (digits10_bounds c).1; omega)
  have hkq : (k : ℚ) < 100000000 := by exact_mod_cast hk
  have k0 : (0 : ℚ) ≤ k := by positivity
  have r' : |val (divUnsigned c x 2) - k / 2| ≤ 1 / 10 := by
    have h1 : |val (divUnsigned c x 2) - val x / 2| ≤ (10 : ℚ) ^ (-((c.digits10 : ℤ) + 1)) * |val x / 2| := r
    rw [hv, abs_of_nonneg (show (0 : ℚ) ≤ (k : ℚ) / 2 by positivity)] at h1
    have h2 : (10 : ℚ) ^ (-((c.digits10 : ℤ) + 1)) * ((k : ℚ) / 2) ≤ (10 : ℚ) ^ (-20 : ℤ) * 100000000 :=
      mul_le_mul hu (by linarith) (by positivity) (by positivity)
    have h3 : (10 : ℚ) ^ (-20 : ℤ) * 100000000 ≤ 1 / 10 := by norm_num
    linarith
  constructor
  · intro h0
    by_contra hodd
    rw [Nat.not_even_iff_odd] at hodd
    obtain ⟨m, hm⟩ := hodd
    by_cases hq : val (divUnsigned c x 2) = 0
    · rw [hq, hm] at r'
      push_cast at r'
      rw [zero_sub, abs_neg, abs_of_nonneg (by positivity)] at r'
      have : (0 : ℚ) ≤ m := by positivity
      linarith
    have hexp : (divUnsigned c x 2).exp < (c.digits10 : ℤ) - 1 := by
      have hD := (digits10_bounds c).1
      have := exp_le_of f hq (k := 18) (by
        have := abs_sub_abs_le_abs_sub (val (divUnsigned c x 2)) (k / 2)
        rw [abs_of_nonneg (show (0 : ℚ) ≤ (k : ℚ) / 2 by positivity)] at this
        norm_num
        linarith)
      omega
    have e2 := ei hexp
    rw [h0, add_zero, e2] at es
    rw [← es, hm] at r'
    generalize truncZ (val (divUnsigned c x 2)) = j at r'
    push_cast at r'
    obtain ⟨a, b⟩ := abs_le.1 r'
    have a' : (2 * (m : ℤ) : ℚ) < 2 * (j : ℚ) := by push_cast; linarith
    have b' : (2 * (j : ℚ)) < 2 * ((m : ℤ) : ℚ) + 2 := by push_cast; linarith
    have a2 : 2 * (m : ℤ) < 2 * j := by exact_mod_cast a'
    have b2 : 2 * j < 2 * (m : ℤ) + 2 := by exact_mod_cast b'
    omega
  · rintro ⟨m, hm⟩
    have hqe : val (divUnsigned c x 2) = (m : ℕ) := by
      by_cases m0 : m = 0
      · rw [z (by rw [hv, hm, m0]; norm_num), m0]; norm_num
      have k2 : (2 : ℚ) ≤ k := by
        have : 2 ≤ k := by omega
        exact_mod_cast this
      have x0 : val x ≠ 0 := by rw [hv]; linarith
      have xm : mag x = k := by rw [← abs_val, hv, abs_of_nonneg k0]
      have hexp : x.exp ≤ 0 := by
        have h1 := mag_ge hx.1.toWF (ne_of_val hx.1 x0)
        rw [xm] at h1
        by_contra hc
        have := p10_mono (show (8 : ℤ) ≤ x.exp by have := hx.1.exp8; omega)
        norm_num at this
        linarith
      have hh : 2 ≤ x.data.headD 0 := by
        have h1 := mag_lt_head hx.1.toWF
        rw [xm] at h1
        by_contra hc
        have h2 : ((x.data.headD 0 + 1 : ℕ) : ℚ) ≤ 2 := by exact_mod_cast (show x.data.headD 0 + 1 ≤ 2 by omega)
        have h3 := p10_mono hexp
        rw [zpow_zero] at h3
        have h4 : ((x.data.headD 0 + 1 : ℕ) : ℚ) * (10 : ℚ) ^ x.exp ≤ 2 * 1 := mul_le_mul h2 h3 (p10_pos _).le (by norm_num)
        linarith
      have ht := t hh
      obtain ⟨fo, vo, -⟩ := ofSigned_spec c (n := (m : ℤ)) (by omega) (by omega)
      have hk2 : (((2 : ℕ)) : ℚ) = 2 := by norm_num
      have hq : val x / ((2 : ℕ) : ℚ) = m := by rw [hv, hm]; push_cast; ring
      rw [hq] at ht
      have mp : (0 : ℚ) < m := by exact_mod_cast Nat.pos_of_ne_zero m0
      have h5 := ht.greatest _ fo (by rw [vo]; push_cast; exact le_refl _)
      have h6 := ht.le
      rw [vo] at h5
      push_cast at h5
      have h7 : |val (divUnsigned c x 2)| = m := by
        rw [abs_of_pos mp] at h5 h6; exact le_antisymm h6 h5
      have h8 := ht.sign
      have h9 : 0 ≤ val (divUnsigned c x 2) := nonneg_of_mul_nonneg_left h8 mp
      rw [abs_of_nonneg h9] at h7; exact h7
    by_cases hq : val (divUnsigned c x 2) = 0
    · have zx := (head_zero_iff f).2 hq
      have hd : decimalPart c (divUnsigned c x 2) = zero c := by
        unfold decimalPart
        rw [if_neg (by simp [EFloat.isfinite, f.fin]), if_pos]
        unfold EFloat.iszero EFloat.front
        rw [decide_eq_true f.fin, decide_eq_true zx]; rfl
      rw [hd, val_zero]
    have hexp : (divUnsigned c x 2).exp < (c.digits10 : ℤ) - 1 := by
      have hD := (digits10_bounds c).1
      have := exp_le_of f hq (k := 18) (by
        rw [hqe, abs_of_nonneg (by positivity)]
        have : ((m : ℕ) : ℚ) ≤ 100000000 := by exact_mod_cast (show m ≤ 100000000 by omega)
        norm_num; linarith)
      omega
    have e2 := ei hexp
    rw [hqe] at e2 es
    have ht : truncZ ((m : ℕ) : ℚ) = m := by
      unfold truncZ
      rw [if_neg (not_lt.2 (by positivity)), ← Int.cast_natCast, Int.floor_intCast]
    rw [e2, ht] at es
    push_cast at es
    linarith

/-- The instance. -/
theorem rnd_efloat {c : Cfg} (hc : c.elems < 625) (T : Tables) : Rnd (efArith c T) rv (Full c) (eu c) where
  u0 := pw_pos _
  u1 := by
    have hD := (digits10_bounds c).1
    have := pw_mono (show -((c.digits10 : ℤ) + 1) ≤ -((30 : ℕ) : ℤ) by push_cast; omega)
    rw [pw_neg ((30 : ℕ) : ℤ), pw_nat, ← one_div] at this
    exact this
  t0 := by
    change (30 : ℤ) ≤ c.tolerance
    have hD := (digits10_bounds c).1
    unfold Cfg.tolerance Cfg.maxDigits10
    omega
  t1 := by
    change (c.tolerance : ℤ) ≤ 5500
    have h := digits_elems c
    unfold Cfg.tolerance Cfg.maxDigits10
    omega
  ut := by
    change pw (-(c.tolerance : ℤ)) ≤ eu c / 1000
    have hD := (digits10_bounds c).1
    have := pw_shift c (-((3 : ℕ) : ℤ))
    rw [pw_neg, pw_nat, ← div_eq_mul_inv] at this
    rw [show (1000 : ℝ) = 10 ^ 3 by norm_num, ← this]
    apply pw_mono
    unfold Cfg.tolerance Cfg.maxDigits10
    push_cast
    omega
  ut2 := by
    change eu c ≤ pw (-((c.tolerance : ℤ) * 9 / 10))
    have hD := (digits10_bounds c).1
    unfold eu
    apply pw_mono
    unfold Cfg.tolerance Cfg.maxDigits10
    push_cast
    omega
  ofI := fun n h => by
    change Full c (ofSigned c (i64 n)) ∧ rv (ofSigned c (i64 n)) = n
    rw [i64_id h]
    obtain ⟨a, b⟩ := abs_lt.1 h
    obtain ⟨f, e, -, -, p, -⟩ := ofSigned_spec c (n := n) (by omega) (by omega)
    exact ⟨⟨f, p⟩, by unfold rv; rw [e]; push_cast; rfl⟩
  half := half_full c
  neg := fun x hx => hx.neg
  isneg := fun x hx => by
    refine Iff.trans (C26_predicates_partial hx.1).2.2.1 ?_
    unfold rv; exact_mod_cast Iff.rfl
  iszero := fun x hx => by
    refine Iff.trans (C26_predicates_partial hx.1).1 ?_
    exact rv_ne.symm
  isnan := fun x hx => by simp [efArith, EFloat.isnan, hx.1.fin]
  isinf := fun x hx => by simp [efArith, EFloat.isinf, hx.1.fin]
  lt := fun x y hx hy => by
    change lt x y = true ↔ _
    obtain ⟨a, b, d⟩ := C02_cmp_is_order hx.1 hy.1
    unfold lt rv
    rw [decide_eq_true_eq, Rat.cast_lt]
    constructor
    · intro h
      rcases lt_trichotomy (val x) (val y) with h' | h' | h'
      · exact h'
      · rw [b.2 h'] at h; omega
      · rw [d.2 h'] at h; omega
    · intro h; rw [a.2 h]; norm_num
  isint := fun x hx => by
    refine Iff.trans (C26_predicates_partial hx.1).2.1 ?_
    unfold IsInt rv
    constructor
    · rintro ⟨k, hk⟩; exact ⟨k, by rw [hk]; push_cast; rfl⟩
    · rintro ⟨k, hk⟩; exact ⟨k, by exact_mod_cast hk⟩
  order := fun x hx h0 => by
    obtain ⟨a, b⟩ := C27_order hx.1 (fun h => h0 (rv_ne.2 h))
    rw [rv_abs, ← pw_cast, ← pw_cast]
    exact ⟨by exact_mod_cast a, by exact_mod_cast b⟩
  order0 := fun x hx h0 => by
    have hz := (C26_predicates_partial hx.1).1.2 (rv_ne.1 h0)
    change EFX.order x = 0
    have hf : x.front = 0 := by
      rw [EFloat.iszero, Bool.and_eq_true, decide_eq_true_eq] at hz
      exact of_decide_eq_true hz.2
    unfold EFX.order
    rw [hf]
    simp
  mul := fun x y hx hy hs => rnd_mul hc hx hy hs
  mul0 := fun x y hx hy h => rnd_mul0 hx hy h
  add := fun x y hx hy bx bY => rnd_add hx hy bx bY
  addz := fun x y hx hy bx bY => by
    obtain ⟨fy, vy⟩ := hy.neg
    have := rnd_sub hc hx fy bx (by rw [vy, abs_neg]; exact bY)
    have e : sub c x (negate y) = addAssign c x y := by
      have := subAssign_eq (c := c) hx.1 fy.1
      rw [negate_negate] at this
      exact this
    rw [e, vy] at this
    exact this.2.2
  sub := fun x y hx hy bx bY => rnd_sub hc hx hy bx bY
  incr := fun x hx bx => by
    have h1 : rv (one c) = 1 := by unfold rv; rw [val_one]; norm_num
    have := rnd_add hx (y := one c) ⟨FinWF_one c, rfl⟩ bx (by
      rw [h1, abs_one, ← pw_zero]; exact pw_mono (by norm_num))
    rw [h1, abs_one] at this
    exact this
  mulI := fun x n hx hn hb => by
    change Full c (mulSigned c x (i64 n)) ∧ |rv (mulSigned c x (i64 n)) - _| ≤ _
    rw [i64_id (by omega)]
    exact rnd_mulI hx hn hb
  divI := fun x n hx n0 hn => by
    change Full c (divSigned c x (i64 n)) ∧ |rv (divSigned c x (i64 n)) - _| ≤ _
    rw [i64_id (by omega)]
    exact rnd_divI hx n0 hn
  div0 := fun x y hx hy h s => rnd_div0 hx hy h s
  inv := fun x hx s => rnd_inv hc hx s
  isone := fun x hx h => by
    obtain ⟨h0, h1⟩ := isone_spec hx.1 h
    have h2 : val x = mag x := by unfold val; rw [h0]; simp
    have h3 : |val x - 1| = (10 : ℚ) ^ (-(8 * (c.elems : ℤ))) := by
      rw [h2, abs_sub_comm, h1, abs_of_pos (p10_pos _)]
    have h4 : (10 : ℚ) ^ (-(8 * (c.elems : ℤ))) ≤ (10 : ℚ) ^ (-6 : ℤ) := by
      apply p10_mono
      have := elems_ge c
      omega
    have h5 : |val x - 1| ≤ 1 / 1000000 := by
      rw [h3]; refine le_trans h4 (by norm_num)
    have := (Rat.cast_le (K := ℝ)).2 h5
    push_cast at this
    exact this
  le := fun x y hx hy => by
    change le x y = true ↔ _
    obtain ⟨a, b, d⟩ := C02_cmp_is_order hx.1 hy.1
    unfold le rv
    rw [decide_eq_true_eq, Rat.cast_le]
    rcases lt_trichotomy (val x) (val y) with h' | h' | h'
    · rw [a.2 h']; exact ⟨fun _ => h'.le, fun _ => by norm_num⟩
    · rw [b.2 h']; exact ⟨fun _ => h'.le, fun _ => by norm_num⟩
    · rw [d.2 h']; exact ⟨fun h => by norm_num at h, fun h => absurd h (not_le.2 h')⟩
  div := fun x y hx hy hxy sx sy => rnd_div hc hx hy hxy sx sy
  intPart := fun x hx h0 h1 => intPart_full hx h0 h1
  toI := fun x k hx h hk => toI_full hx h hk
  par := fun x k hx h hk => par_full hx h hk

end EFX
