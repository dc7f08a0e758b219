import Verif.Lemmas.RndCxSqrt
import Verif.Props.CxRnd
import Verif.Props.Sqrt
/-!
# C116: absolute value and square root of complex numbers with rounding
-/

namespace EFX.Props
open Spec

/-- C116, absolute value: correct up to the error of the real square root (C22).

Missing: more than 1000 digits, reduced working precision, absolute values outside `10^±300000000`. -/
theorem C116_complex_abs_partial {c : Cfg} (hc : c.digits10 ≤ 1000) {z : Cx EFloat} (hz : CValid c z)
    (h0 : (10 : ℝ) ^ (-300000000 : ℤ) ≤ ‖cnum z‖) (h1 : ‖cnum z‖ ≤ (10 : ℝ) ^ (300000000 : ℤ)) :
    FinWF c (CxE.abs c z) ∧ (CxE.abs c z).prec = c.elems ∧ 0 < val (CxE.abs c z) ∧
    |((val (CxE.abs c z) : ℚ) : ℝ) - ‖cnum z‖| ≤ 2 * (((sqrtBound c : ℚ) : ℝ) + 1 / 10 ^ (c.digits10 + 1)) * ‖cnum z‖ := by
  have he := elems_small hc
  have hE : eu c = 1 / 10 ^ (c.digits10 + 1) := eu_inv c
  have e0 : 0 < eu c := pw_pos _
  have k : Sz 300000000 ‖cval z‖ := by
    unfold Sz; rw [abs_of_nonneg (by positivity)]; exact ⟨h0, h1⟩
  clear h0 h1
  have r0 : 0 < ‖cval z‖ := lt_of_le_of_ne (norm_nonneg _) (Ne.symm k.ne)
  obtain ⟨a1, a2, a3⟩ := rnd_cabs he (z := z) hz k
  have a2' : 0 < val (CxE.abs c z) := by unfold rv at a2; exact_mod_cast a2
  refine ⟨a1.1, a1.2, a2', ?_⟩
  rw [← hE, ← sqrtErr_eq]
  have σ0 := (sqrtErr_small c).1
  show |rv (CxE.abs c z) - ‖cval z‖| ≤ 2 * (((sqrtErr c : ℚ) : ℝ) + eu c) * ‖cval z‖
  generalize ((sqrtErr c : ℚ) : ℝ) + eu c = κ at *
  generalize rv (CxE.abs c z) = A at *
  generalize ‖cval z‖ = r at *
  have κr : 0 ≤ κ * r ^ 2 := by
    have := abs_nonneg (A ^ 2 - r ^ 2)
    linarith
  have e : |A - r| * (A + r) ≤ 101 / 100 * κ * r * r := by
    rw [← abs_of_pos (show 0 < A + r by linarith), ← abs_mul, show (A - r) * (A + r) = A ^ 2 - r ^ 2 by ring,
      show 101 / 100 * κ * r * r = 101 / 100 * κ * r ^ 2 by ring]
    exact a3
  have e' : |A - r| * r ≤ |A - r| * (A + r) := mul_le_mul_of_nonneg_left (by linarith) (abs_nonneg _)
  refine le_of_mul_le_mul_right (le_trans e' (le_trans e ?_)) r0
  linarith [κr, show κ * r ^ 2 = κ * r * r by ring]

/-- C116, square root: the square of the result is the argument up to the error of the real square root (C22), and the result lies on the
principal branch.  The exception is the sign of the imaginary part when the e_float division returns `1` for `-a / a` (C20): then the
result is the conjugate of the root (see `C116_sqrt_refuted`).

Missing: that exception, more than 1000 digits, reduced working precision, absolute values outside `10^±300000000`. -/
theorem C116_complex_sqrt_partial {c : Cfg} (hc : c.digits10 ≤ 1000) {z : Cx EFloat} (hz : CValid c z)
    (h0 : (10 : ℝ) ^ (-300000000 : ℤ) ≤ ‖cnum z‖) (h1 : ‖cnum z‖ ≤ (10 : ℝ) ^ (300000000 : ℤ)) :
    CValid c (CxE.sqrt c z) ∧
    (0 ≤ val z.re → 0 < val (CxE.sqrt c z).re) ∧
    (val z.re < 0 → 0 ≤ val z.im → 0 < val (CxE.sqrt c z).im) ∧ (val z.re < 0 → val z.im < 0 → val (CxE.sqrt c z).im < 0) ∧
    (‖cnum (CxE.sqrt c z) ^ 2 - cnum z‖ ≤ 20 * (((sqrtBound c : ℚ) : ℝ) + 1 / 10 ^ (c.digits10 + 1)) * ‖cnum z‖ ∨
     (0 ≤ val z.re ∧ val z.im < 0 ∧ val (CxE.sqrt c z).im = 1 ∧
      ‖(starRingEnd ℂ) (cnum (CxE.sqrt c z)) ^ 2 - cnum z‖ ≤ 20 * (((sqrtBound c : ℚ) : ℝ) + 1 / 10 ^ (c.digits10 + 1)) * ‖cnum z‖)) := by
  have he := elems_small hc
  have hE : eu c = 1 / 10 ^ (c.digits10 + 1) := eu_inv c
  have e0 : 0 < eu c := pw_pos _
  have e1 := eu_small c
  have k : Sz 300000000 ‖cval z‖ := by
    unfold Sz; rw [abs_of_nonneg (by positivity)]; exact ⟨h0, h1⟩
  clear h0 h1
  have r0 : 0 < ‖cval z‖ := lt_of_le_of_ne (norm_nonneg _) (Ne.symm k.ne)
  obtain ⟨σ0, σ1⟩ := sqrtErr_small c
  rw [← hE, ← sqrtErr_eq]
  obtain ⟨κ, hκ⟩ : ∃ κ, κ = ((sqrtErr c : ℚ) : ℝ) + eu c := ⟨_, rfl⟩
  rw [← hκ]
  have κ0 : 0 < κ := by linarith
  have κ1 : κ ≤ 1 / 1000 := by norm_num at e1; linarith
  have uκ : eu c ≤ κ := by linarith
  have z0 : FinWF c (ofUnsigned c 0) ∧ val (ofUnsigned c 0) = 0 := by
    have h := ofUnsigned_spec c (u := 0) (by norm_num)
    exact ⟨h.1, by rw [h.2.1]; simp⟩
  have ltz : ∀ {x : EFloat}, Full c x → (lt x (ofUnsigned c 0) = true ↔ rv x < 0) := by
    intro x hx
    rw [lt_iff hx.1 z0.1, z0.2]
    unfold rv; exact_mod_cast Iff.rfl
  obtain ⟨F, hF⟩ : ∃ F, F = (if lt z.re (ofUnsigned c 0) = false then z.re else negate z.re) := ⟨_, rfl⟩
  have hre : Full c z.re := hz.1
  have him : Full c z.im := hz.2
  have F1 : Full c F ∧ rv F = |rv z.re| := by
    rw [hF]
    split
    · rename_i h
      have : ¬ rv z.re < 0 := fun h' => by rw [(ltz hre).2 h'] at h; exact absurd h (by simp)
      exact ⟨hre, (abs_of_nonneg (not_lt.1 this)).symm⟩
    · rename_i h
      have : rv z.re < 0 := (ltz hre).1 (by simpa using h)
      exact ⟨hre.neg.1, by rw [hre.neg.2, abs_of_neg this]⟩
  obtain ⟨s1, s2, s3⟩ := csqrt_large he (z := z) hz k F1.1 F1.2 hκ
  obtain ⟨s, hs⟩ : ∃ s, s = calculateSqrt c (divUnsigned c (add c F (CxE.abs c z)) 2) := ⟨_, rfl⟩
  rw [← hs] at s1 s2 s3
  have hW : CxE.sqrt c z = if lt z.re (ofUnsigned c 0) = false then ⟨s, div c z.im (mulUnsigned c s 2)⟩
      else ⟨div c (if lt z.im (ofUnsigned c 0) = false then z.im else negate z.im) (mulUnsigned c s 2),
        if lt z.im (ofUnsigned c 0) = false then s else negate s⟩ := by
    unfold CxE.sqrt
    dsimp only
    rw [← hF, ← hs]
  have xr : |rv z.re| ≤ ‖cval z‖ := Complex.abs_re_le_norm (cval z)
  have yr : |rv z.im| ≤ ‖cval z‖ := Complex.abs_im_le_norm (cval z)
  have x0 := abs_nonneg (rv z.re)
  have pyth : ‖cval z‖ ^ 2 = |rv z.re| ^ 2 + rv z.im ^ 2 := by
    rw [Complex.sq_norm, Complex.normSq_apply, sq_abs]
    show rv z.re * rv z.re + rv z.im * rv z.im = _
    ring
  have kl := k.1
  have ku := k.2
  rw [abs_of_pos r0] at kl ku
  obtain ⟨r, hr⟩ : ∃ r, r = ‖cval z‖ := ⟨_, rfl⟩
  have hr' : ‖cnum z‖ = r := hr.symm
  rw [hr']
  rw [← hr] at s3 xr yr pyth kl ku r0
  -- the size of s
  have sb := abs_le.1 s3
  have κS : κ * ((|rv z.re| + r) / 2) ≤ 1 / 1000 * ((|rv z.re| + r) / 2) := mul_le_mul_of_nonneg_right κ1 (by positivity)
  have sl : r / 3 ≤ rv s ^ 2 := by linarith
  have su : rv s ^ 2 ≤ 2 * r := by linarith
  have M1 : 1 ≤ pw 300000000 := by rw [← pw_zero]; exact pw_mono (by omega)
  have m1 : pw (-300000000) ≤ 1 := pw_le1 (by omega)
  have h10 : (10 : ℝ) ≤ pw 50000000 := by rw [← pw_one]; exact pw_mono (by omega)
  have ss : Sz 350000000 (rv s) := by
    unfold Sz
    rw [abs_of_pos s2]
    constructor
    · have e2 : pw (-300000000) = pw 50000000 * pw (-350000000) := by rw [← pw_add]; rfl
      have P := pw_pos (-350000000)
      by_contra hh
      rw [not_le] at hh
      have g1 := mul_le_mul_of_nonneg_right h10 P.le
      rw [← e2] at g1
      have g2 : rv s ^ 2 ≤ rv s := by nlinarith
      linarith
    · have e2 : pw 350000000 = pw 50000000 * pw 300000000 := by rw [← pw_add]; rfl
      have g1 := mul_le_mul_of_nonneg_right h10 (pw_pos 300000000).le
      rw [← e2] at g1
      by_contra hh
      rw [not_le] at hh
      have g2 : rv s ≤ rv s ^ 2 := by nlinarith
      linarith
  have tsz : ∀ B : ℝ, B ≤ 9 * pw 300000000 → pw (-1000000000) * B ≤ eu c * r / 10 := by
    intro B hB
    have t1 : pw (-6000) * pw (-300000000) ≤ eu c * r := mul_le_mul (eu_ge he) kl (pw_pos _).le e0.le
    have t2 : pw (-1000000000) * pw 300000000 = pw (-399994000) * (pw (-6000) * pw (-300000000)) := by
      rw [← pw_add, ← pw_add, ← pw_add]; rfl
    have t3 : pw (-399994000) ≤ 1 / 1000 := by
      refine le_trans (pw_mono (by omega : (-399994000 : ℤ) ≤ -((3 : ℕ) : ℤ))) ?_
      rw [pw_neg, pw_nat]; norm_num
    have t4 : pw (-1000000000) * pw 300000000 ≤ 1 / 1000 * (eu c * r) := by
      rw [t2]; exact mul_le_mul t3 t1 (mul_pos (pw_pos _) (pw_pos _)).le (by norm_num)
    have t5 := mul_le_mul_of_nonneg_left hB (pw_pos (-1000000000)).le
    have := mul_pos e0 r0
    linarith
  have t0 := pw_pos (-1000000000)
  have t1 : pw (-1000000000) ≤ 1 := pw_le1 (by omega)
  have tA : pw (-1000000000) * (4 + 4 * r) + pw (-1000000000) ^ 2 ≤ eu c * r / 10 := by
    have := tsz (4 + 4 * r + pw (-1000000000)) (by linarith)
    linarith
  have tB : 2 * rv s * pw (-1000000000) ≤ eu c * r / 10 := by
    have hs1 : rv s ≤ (1 + rv s ^ 2) / 2 := by nlinarith [sq_nonneg (rv s - 1)]
    have := tsz (2 * rv s) (by linarith)
    linarith
  have y400 : r ≤ pw 400000000 := le_trans ku (pw_mono (by omega))
  have core : ∀ {Y q : ℝ}, Y ^ 2 = rv z.im ^ 2 → |q - Y / (2 * rv s)| ≤ 3 * eu c * |Y / (2 * rv s)| + pw (-1000000000) →
      |rv s ^ 2 - q ^ 2 - (|rv z.re|)| ≤ 12 * κ * r ∧ |2 * rv s * q - Y| ≤ 12 * κ * r := by
    intro Y q hY hq
    exact csqrt_core r0 x0 (by rw [pyth, hY]) s2 e0.le uκ κ1 s3 t0.le hq tA tB
  have κr : 0 ≤ κ * r := by positivity
  have fin : ∀ {a b : ℝ}, |a ^ 2 - b ^ 2 - rv z.re| ≤ 12 * κ * r → |2 * a * b - rv z.im| ≤ 12 * κ * r → ‖(⟨a, b⟩ : ℂ) ^ 2 - cnum z‖ ≤ 20 * κ * r := by
    intro a b ha hb
    have e2 : (⟨a, b⟩ : ℂ) ^ 2 = ⟨a ^ 2 - b ^ 2, 2 * a * b⟩ := by
      rw [sq]; apply Complex.ext <;> simp <;> ring
    rw [e2]
    refine le_trans (cx_norm_sub (x := rv z.re) (y := rv z.im) ha hb) (by linarith)
  have cst : ∀ {x : EFloat}, 0 < rv x → 0 < val x := fun {x} h => by unfold rv at h; exact_mod_cast h
  have csn : ∀ {x : EFloat}, rv x < 0 → val x < 0 := fun {x} h => by unfold rv at h; exact_mod_cast h
  have cneg : ∀ {x : EFloat}, val x < 0 → rv x < 0 := fun {x} h => by unfold rv; exact_mod_cast h
  have cpos : ∀ {x : EFloat}, 0 ≤ val x → 0 ≤ rv x := fun {x} h => by unfold rv; exact_mod_cast h
  by_cases hn : lt z.re (ofUnsigned c 0) = false
  · have xn : 0 ≤ rv z.re := not_lt.1 fun h' => by rw [(ltz hre).2 h'] at hn; exact absurd hn (by simp)
    rw [hW, if_pos hn]
    rw [abs_of_nonneg xn] at core
    obtain ⟨f, g⟩ := csqrt_small he s1 s2 ss him (le_trans yr y400)
    refine ⟨⟨s1, f⟩, fun _ => cst s2, fun h => absurd (cneg h) (not_lt.2 xn), fun h => absurd (cneg h) (not_lt.2 xn), ?_⟩
    rcases g with g | ⟨g1, g2, g3⟩
    · left
      obtain ⟨p1, p2⟩ := core rfl g
      exact fin p1 p2
    · right
      obtain ⟨p1, p2⟩ := core rfl g3
      refine ⟨?_, csn g1, ?_, ?_⟩
      · unfold rv at xn; exact_mod_cast xn
      · unfold rv at g2; exact_mod_cast g2
      · have e3 : (starRingEnd ℂ) (cnum ⟨s, div c z.im (mulUnsigned c s 2)⟩) = ⟨rv s, -1⟩ := by
          apply Complex.ext
          · rfl
          · show -rv (div c z.im (mulUnsigned c s 2)) = -1
            rw [g2]
        rw [e3]
        exact fin p1 p2
  · have xn : rv z.re < 0 := (ltz hre).1 (by simpa using hn)
    rw [hW, if_neg hn]
    rw [abs_of_neg xn] at core
    by_cases hm : lt z.im (ofUnsigned c 0) = false
    · have yn : 0 ≤ rv z.im := not_lt.1 fun h' => by rw [(ltz him).2 h'] at hm; exact absurd hm (by simp)
      rw [if_pos hm, if_pos hm]
      obtain ⟨f, g⟩ := csqrt_small he s1 s2 ss him (le_trans yr y400)
      rcases g with g | ⟨g1, -, -⟩
      · obtain ⟨p1, p2⟩ := core rfl g
        refine ⟨⟨f, s1⟩, fun h => absurd (cpos h) (not_le.2 xn), fun _ _ => cst s2, fun _ h => absurd (cneg h) (not_lt.2 yn), Or.inl (fin ?_ ?_)⟩
        · rw [abs_sub_comm]
          refine le_trans (le_of_eq (congrArg _ ?_)) p1
          show rv z.re - (rv _ ^ 2 - rv _ ^ 2) = _
          ring
        · refine le_trans (le_of_eq (congrArg _ ?_)) p2
          show 2 * rv _ * rv _ - rv z.im = _
          ring
      · exact absurd g1 (not_lt.2 yn)
    · have yn : rv z.im < 0 := (ltz him).1 (by simpa using hm)
      rw [if_neg hm, if_neg hm]
      obtain ⟨f, g⟩ := csqrt_small he s1 s2 ss him.neg.1 (by rw [him.neg.2, abs_neg]; exact le_trans yr y400)
      rw [him.neg.2] at g
      have ns : rv (negate s) = -rv s := s1.neg.2
      rcases g with g | ⟨g1, -, -⟩
      · obtain ⟨p1, p2⟩ := core (Y := -rv z.im) (by ring) g
        refine ⟨⟨f, s1.neg.1⟩, fun h => absurd (cpos h) (not_le.2 xn), fun _ h => absurd (cpos h) (not_le.2 yn), fun _ _ => csn (by
          show rv (negate s) < 0
          rw [ns]; linarith), Or.inl (fin ?_ ?_)⟩
        · rw [abs_sub_comm]
          refine le_trans (le_of_eq (congrArg _ ?_)) p1
          show rv z.re - (rv _ ^ 2 - rv (negate s) ^ 2) = _
          rw [ns]; ring
        · rw [abs_sub_comm]
          refine le_trans (le_of_eq (congrArg _ ?_)) p2
          show rv z.im - 2 * rv _ * rv (negate s) = _
          rw [ns]; ring
      · linarith

/-- C116 refuted for the sign: `sqrt(3 - 4i)` is computed as `2 + i`; the principal root is `2 - i`.  The imaginary part is `-4 / (2 * 2)`,
and the e_float division returns `1` for `-4 / 4` (C20). -/
theorem C116_sqrt_refuted :
    denote (CxE.sqrt cfg101 ⟨ofSigned cfg101 3, ofSigned cfg101 (-4)⟩).re = .fin 2 ∧
    denote (CxE.sqrt cfg101 ⟨ofSigned cfg101 3, ofSigned cfg101 (-4)⟩).im = .fin 1 ∧
    (⟨2, 1⟩ : ℂ) ^ 2 ≠ ⟨3, -4⟩ ∧ (⟨2, -1⟩ : ℂ) ^ 2 = ⟨3, -4⟩ := by
  have den : ∀ {z : EFloat} {q : ℚ}, z.cls = .finite → val z = q → denote z = .fin q := by
    intro z q h1 h2; unfold denote; rw [h1]; simp only; rw [h2]
  refine ⟨den (by decide +kernel) (by decide +kernel), den (by decide +kernel) (by decide +kernel), ?_, ?_⟩
  · intro h
    have := congrArg Complex.im h
    rw [sq, Complex.mul_im] at this
    norm_num at this
  · rw [sq]; apply Complex.ext
    · rw [Complex.mul_re]; norm_num
    · rw [Complex.mul_im]; norm_num

/-- A number that is not real meets the conditions. -/
example : ‖cnum (CxE.sqrt cfg101 ⟨exA, exC⟩) ^ 2 - cnum ⟨exA, exC⟩‖ ≤
    20 * (((sqrtBound cfg101 : ℚ) : ℝ) + 1 / 10 ^ (cfg101.digits10 + 1)) * ‖cnum ⟨exA, exC⟩‖ ∨ val exC < 0 := by
  have g1 : |(cnum ⟨exA, exC⟩).re| ≤ 10 ^ 8 := by
    have h : |val exA| ≤ 10 ^ 8 := by decide +kernel
    show |((val exA : ℚ) : ℝ)| ≤ _
    rw [← Rat.cast_abs]; exact_mod_cast h
  have g2 : |(cnum ⟨exA, exC⟩).im| ≤ 10 ^ 8 := by
    have h : |val exC| ≤ 10 ^ 8 := by decide +kernel
    show |((val exC : ℚ) : ℝ)| ≤ _
    rw [← Rat.cast_abs]; exact_mod_cast h
  have g3 : (1 : ℝ) / 10 ^ 3 ≤ |(cnum ⟨exA, exC⟩).re| := by
    have h : (1 : ℚ) / 10 ^ 3 ≤ |val exA| := by decide +kernel
    have := (Rat.cast_le (K := ℝ)).2 h
    push_cast at this; exact this
  have hi : ‖cnum ⟨exA, exC⟩‖ ≤ 10 ^ 9 := le_trans (cx_norm_le g1 g2) (by norm_num)
  have lo : 1 / 10 ^ 3 ≤ ‖cnum ⟨exA, exC⟩‖ := le_trans g3 (Complex.abs_re_le_norm _)
  have l0 : (10 : ℝ) ^ (-300000000 : ℤ) ≤ ‖cnum ⟨exA, exC⟩‖ := by
    refine le_trans (pw_mono (by norm_num : (-300000000 : ℤ) ≤ -((3 : ℕ) : ℤ))) (le_trans (le_of_eq ?_) lo)
    rw [pw_neg, pw_nat, one_div]
  rcases (C116_complex_sqrt_partial (c := cfg101) (by decide) exU_ok.1 l0 (pw_big hi (by norm_num))).2.2.2.2 with h | h
  · exact Or.inl h
  · exact Or.inr h.2.1

end EFX.Props
