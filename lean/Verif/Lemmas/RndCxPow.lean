import Verif.Lemmas.RndCx
import Verif.Model.ComplexPow
/-!
# Integer powers of complex numbers with rounding
-/

namespace EFX
open Spec Props

theorem cx_mulSelf {c : Cfg} (hc : c.elems < 625) {u : Cx EFloat} (hu : CFull c u) (h : ‖cval u‖ * ‖cval u‖ ≤ pw 1900000000) :
    CFull c (CxE.mulSelf c u) ∧ ‖cval (CxE.mulSelf c u) - cval u * cval u‖ ≤ eu c / 5000 * (‖cval u‖ * ‖cval u‖) + 9 * tau := by
  obtain ⟨q1, q2⟩ := cauchy (cval u) (cval u)
  simp only [cval, ← abs_mul] at q1 q2
  have h' : ‖cval u‖ * ‖cval u‖ ≤ pw 2000000000 := le_trans h (pw_mono (by omega))
  have d1 := (dot_any hc hu.1 hu.1 hu.2 hu.2 (le_trans q1 h')).2
  have q3 : |rv u.re * rv u.im| ≤ ‖cval u‖ * ‖cval u‖ / 2 := by
    rw [mul_comm (rv u.im)] at q2
    have : |rv u.re * rv u.im| + |rv u.re * rv u.im| ≤ ‖cval u‖ * ‖cval u‖ := q2
    linarith
  have nn : 0 ≤ ‖cval u‖ * ‖cval u‖ := mul_self_nonneg _
  obtain ⟨f1, e1, l1⟩ := mul_any hc hu.1 hu.2 (by linarith)
  obtain ⟨f2, e2⟩ := trunc_rel f1 (n := 2) (by norm_num)
  have e2' : |rv (mulUnsigned c (mul c u.re u.im) 2) - rv (mul c u.re u.im) * 2| ≤ eu c / 10 ^ 12 * (|rv (mul c u.re u.im)| * 2) := by
    have h1 := (Rat.cast_le (K := ℝ)).2 e2
    push_cast at h1
    refine le_trans h1 ?_
    rw [abs_mul, abs_of_pos (by norm_num : (0 : ℝ) < 2)]
    exact mul_le_mul_of_nonneg_right (relU_le c) (by positivity)
  refine ⟨⟨d1.1, f2⟩, ?_⟩
  have e0 : 0 < eu c := pw_pos _
  have t0 := tau_pos
  have r2 : |rv (mulUnsigned c (mul c u.re u.im) 2) - (rv u.re * rv u.im + rv u.im * rv u.re)| ≤
      2 * (eu c / 10 ^ 4) * (‖cval u‖ * ‖cval u‖) * (51 / 100) + 4 * tau := by
    rw [show rv u.re * rv u.im + rv u.im * rv u.re = rv u.re * rv u.im * 2 by ring]
    have m1 : eu c / 10 ^ 12 * (|rv (mul c u.re u.im)| * 2) ≤ eu c / 10 ^ 12 * (‖cval u‖ * ‖cval u‖) :=
      mul_le_mul_of_nonneg_left (by linarith) (by positivity)
    have m2 : eu c / 10 ^ 4 * |rv u.re * rv u.im| ≤ eu c / 10 ^ 4 * (‖cval u‖ * ‖cval u‖ / 2) := mul_le_mul_of_nonneg_left q3 (by positivity)
    have m3 : 0 ≤ eu c * (‖cval u‖ * ‖cval u‖) := by positivity
    have m4 : 2 * (eu c / 10 ^ 4) * (‖cval u‖ * ‖cval u‖) * (51 / 100) = 102 / 10 ^ 6 * (eu c * (‖cval u‖ * ‖cval u‖)) := by ring
    have m5 : eu c / 10 ^ 12 * (‖cval u‖ * ‖cval u‖) = 1 / 10 ^ 12 * (eu c * (‖cval u‖ * ‖cval u‖)) := by ring
    have m6 : eu c / 10 ^ 4 * (‖cval u‖ * ‖cval u‖ / 2) = 50 / 10 ^ 6 * (eu c * (‖cval u‖ * ‖cval u‖)) := by ring
    rw [m4]; rw [m5] at m1; rw [m6] at m2
    generalize eu c * (‖cval u‖ * ‖cval u‖) = W at *
    clear q1 q2 d1 h h' e2 q3 l1
    rw [abs_le] at e1 e2' ⊢
    constructor <;> linarith
  have k : ∀ s, s ≤ ‖cval u‖ * ‖cval u‖ → 2 * (eu c / 10 ^ 4) * s * (51 / 100) + 4 * tau ≤ 2 * (eu c / 10 ^ 4) * (‖cval u‖ * ‖cval u‖) * (51 / 100) + 4 * tau := by
    intro s hs; gcongr
  have r1 := le_trans d1.2.1 (k _ q1)
  have hm : cval u * cval u = ⟨rv u.re * rv u.re - rv u.im * rv u.im, rv u.re * rv u.im + rv u.im * rv u.re⟩ := rfl
  have r1' : |rv (CxE.mulSelf c u).re - (rv u.re * rv u.re - rv u.im * rv u.im)| ≤ _ := r1
  have r2' : |rv (CxE.mulSelf c u).im - (rv u.re * rv u.im + rv u.im * rv u.re)| ≤ _ := r2
  rw [hm]
  refine le_trans (cx_norm_sub r1' r2') ?_
  have : 0 ≤ eu c * (‖cval u‖ * ‖cval u‖) := by positivity
  linarith

/-- `w` approximates `z ^ m` with `e` factors `1 + d` of relative error. -/
def Ap (c : Cfg) (z : ℂ) (d : ℝ) (m e : ℕ) (w : Cx EFloat) : Prop :=
  CFull c w ∧ ‖cval w - z ^ m‖ ≤ ((1 + d) ^ e - 1) * ‖z‖ ^ m

/-- One rounded product of two approximations. -/
theorem ap_mul {z W V P : ℂ} {d t : ℝ} {a b e f : ℕ} (d0 : 0 ≤ d) (ht : t ≤ d / 10 * ‖z‖ ^ (a + b))
    (hw : ‖W - z ^ a‖ ≤ ((1 + d) ^ e - 1) * ‖z‖ ^ a) (hv : ‖V - z ^ b‖ ≤ ((1 + d) ^ f - 1) * ‖z‖ ^ b)
    (hp : ‖P - W * V‖ ≤ 9 / 10 * d * (‖W‖ * ‖V‖) + t) :
    ‖P - z ^ (a + b)‖ ≤ ((1 + d) ^ (e + f + 1) - 1) * ‖z‖ ^ (a + b) := by
  have e1 : (1 : ℝ) ≤ (1 + d) ^ e := one_le_pow₀ (by linarith)
  have f1 : (1 : ℝ) ≤ (1 + d) ^ f := one_le_pow₀ (by linarith)
  have nW : ‖W‖ ≤ (1 + d) ^ e * ‖z‖ ^ a := by
    have h1 := norm_sub_norm_le W (z ^ a)
    rw [norm_pow] at h1
    linarith
  have nV : ‖V‖ ≤ (1 + d) ^ f * ‖z‖ ^ b := by
    have h1 := norm_sub_norm_le V (z ^ b)
    rw [norm_pow] at h1
    linarith
  have ra : 0 ≤ ‖z‖ ^ a := by positivity
  have rb : 0 ≤ ‖z‖ ^ b := by positivity
  have split : P - z ^ (a + b) = (P - W * V) + ((W - z ^ a) * V + z ^ a * (V - z ^ b)) := by rw [pow_add]; ring
  rw [split]
  have n1 := norm_add_le (P - W * V) ((W - z ^ a) * V + z ^ a * (V - z ^ b))
  have n2 := norm_add_le ((W - z ^ a) * V) (z ^ a * (V - z ^ b))
  rw [norm_mul, norm_mul, norm_pow] at n2
  rw [pow_add ‖z‖] at ht ⊢
  rw [pow_add (1 + d), pow_add (1 + d), pow_one]
  generalize (1 + d) ^ e = E at *
  generalize (1 + d) ^ f = F at *
  generalize ‖z‖ ^ a = A at *
  generalize ‖z‖ ^ b = B at *
  have m1 : ‖W - z ^ a‖ * ‖V‖ ≤ ((E - 1) * A) * (F * B) := mul_le_mul hw nV (norm_nonneg _) (mul_nonneg (by linarith) ra)
  have m2 : A * ‖V - z ^ b‖ ≤ A * ((F - 1) * B) := mul_le_mul_of_nonneg_left hv ra
  have m3 : ‖W‖ * ‖V‖ ≤ (E * A) * (F * B) := mul_le_mul nW nV (norm_nonneg _) (mul_nonneg (by linarith) ra)
  have m4 : 9 / 10 * d * (‖W‖ * ‖V‖) ≤ 9 / 10 * d * ((E * A) * (F * B)) := mul_le_mul_of_nonneg_left m3 (by positivity)
  have AB : 0 ≤ A * B := mul_nonneg ra rb
  have EF : 1 ≤ E * F := by nlinarith
  have m5 : d / 10 * (A * B) ≤ d / 10 * (E * F * (A * B)) := mul_le_mul_of_nonneg_left (by nlinarith) (by positivity)
  have x1 : (E - 1) * A * (F * B) + A * ((F - 1) * B) = (E * F - 1) * (A * B) := by ring
  have x2 : (E * F * (1 + d) - 1) * (A * B) = (E * F - 1) * (A * B) + d * (E * F * (A * B)) := by ring
  have x3 : 9 / 10 * d * ((E * A) * (F * B)) = 9 / 10 * (d * (E * F * (A * B))) := by ring
  have x4 : d / 10 * (E * F * (A * B)) = 1 / 10 * (d * (E * F * (A * B))) := by ring
  rw [x2]; rw [x3] at m4; rw [x4] at m5
  linarith

/-- What is known about the base, the highest power and the error of one product. -/
structure PowEnv (c : Cfg) (z : ℂ) (n : ℕ) : Prop where
  elems : c.elems < 625
  size : ∀ m ≤ n, Sz 300000000 (‖z‖ ^ m)
  small : (1 + eu c / 4500) ^ n ≤ 2

theorem PowEnv.of {c : Cfg} {z : ℂ} {n : ℕ} (hc : c.elems < 625) (h : Sz 300000000 (‖z‖ ^ n)) (hn : n < 2 ^ 63) (hn0 : n ≠ 0) :
    PowEnv c z n ∧ (1 + eu c / 4500) ^ n - 1 ≤ n * (eu c / 2000) := by
  have e0 : 0 < eu c := pw_pos _
  have e1 := eu_small c
  have n63 : (n : ℝ) ≤ 10 ^ 19 := by
    have : n ≤ 10 ^ 19 := by omega
    exact_mod_cast this
  have nn : (0 : ℝ) ≤ n := Nat.cast_nonneg n
  obtain ⟨d, hd⟩ : ∃ d, d = eu c / 4500 := ⟨_, rfl⟩
  have d0 : 0 < d := by rw [hd]; positivity
  have nd : n * d ≤ 1 / 100 := by
    have : n * d ≤ 10 ^ 19 * (1 / 10 ^ 30) := mul_le_mul n63 (by rw [hd]; linarith) d0.le (by norm_num)
    refine le_trans this (by norm_num)
  have dn : d ≤ 1 := by rw [hd]; norm_num at e1 ⊢; linarith
  have b1 : 1 - n * d ≤ (1 - d) ^ n := by
    have := one_add_mul_le_pow (show (-2 : ℝ) ≤ -d by linarith) n
    rw [mul_neg, ← sub_eq_add_neg, ← sub_eq_add_neg] at this
    exact this
  have b2 : (1 + d) ^ n * (1 - d) ^ n ≤ 1 := by
    rw [← mul_pow]
    exact pow_le_one₀ (by nlinarith) (by nlinarith)
  have b3 : (1 + d) ^ n * (1 - n * d) ≤ 1 := le_trans (mul_le_mul_of_nonneg_left b1 (by positivity)) b2
  have b4 : (1 + d) ^ n ≤ 2 := by
    have : 0 < (1 + d) ^ n := by positivity
    nlinarith
  have b5 : (1 + d) ^ n - 1 ≤ (1 + d) ^ n * (n * d) := by linarith
  have b6 : (1 + d) ^ n * (n * d) ≤ 2 * (n * d) := mul_le_mul_of_nonneg_right b4 (by positivity)
  refine ⟨⟨hc, fun m hm => ?_, by rw [← hd]; exact b4⟩, ?_⟩
  · obtain ⟨h1, h2⟩ := h
    have z0 : 0 ≤ ‖z‖ := norm_nonneg z
    rw [abs_of_nonneg (pow_nonneg z0 _)] at h1 h2
    unfold Sz
    rw [abs_of_nonneg (pow_nonneg z0 _)]
    rcases le_total ‖z‖ 1 with hz | hz
    · refine ⟨le_trans h1 (pow_le_pow_of_le_one z0 hz hm), le_trans (pow_le_one₀ z0 hz) ?_⟩
      rw [← pw_zero]; exact pw_mono (by omega)
    · exact ⟨le_trans (pw_le1 (by omega)) (one_le_pow₀ hz), le_trans (pow_le_pow_right₀ hz hm) h2⟩
  · rw [← hd]
    have : n * (eu c / 2000) = n * (9 / 4 * d) := by rw [hd]; ring
    rw [this]
    have : 0 ≤ n * d := by positivity
    linarith

theorem Ap.mono {c : Cfg} {z : ℂ} {d : ℝ} (d0 : 0 ≤ d) {m e f : ℕ} {w : Cx EFloat} (h : Ap c z d m e w) (hf : e ≤ f) : Ap c z d m f w := by
  refine ⟨h.1, le_trans h.2 (mul_le_mul_of_nonneg_right ?_ (by positivity))⟩
  have := pow_le_pow_right₀ (show (1 : ℝ) ≤ 1 + d by linarith) hf
  linarith

section
variable {c : Cfg} {z : ℂ} {n : ℕ}

theorem PowEnv.tiny (E : PowEnv c z n) {m : ℕ} (hm : m ≤ n) : 9 * tau ≤ eu c / 4500 / 10 * ‖z‖ ^ m := by
  have h := (E.size m hm).1
  rw [abs_of_nonneg (by positivity)] at h
  have e0 : 0 < eu c := pw_pos _
  have t1 : pw (-6000) * pw (-300000000) ≤ eu c * ‖z‖ ^ m := mul_le_mul (eu_ge E.elems) h (pw_pos _).le e0.le
  have t2 : tau = pw (-1699994000) * (pw (-6000) * pw (-300000000)) := by unfold tau; rw [← pw_add, ← pw_add]; rfl
  have t3 : pw (-1699994000) ≤ 1 / 10 ^ 8 := by
    refine le_trans (pw_mono (by omega : (-1699994000 : ℤ) ≤ -((8 : ℕ) : ℤ))) ?_
    rw [pw_neg, pw_nat]; norm_num
  have t4 : tau ≤ 1 / 10 ^ 8 * (eu c * ‖z‖ ^ m) := by
    rw [t2]; exact mul_le_mul t3 t1 (mul_pos (pw_pos _) (pw_pos _)).le (by norm_num)
  have t5 : 0 ≤ eu c * ‖z‖ ^ m := by positivity
  have t6 : eu c / 4500 / 10 * ‖z‖ ^ m = 1 / 45000 * (eu c * ‖z‖ ^ m) := by ring
  rw [t6]
  generalize eu c * ‖z‖ ^ m = W at *
  linarith

theorem PowEnv.big (E : PowEnv c z n) {a b e f : ℕ} {w v : Cx EFloat} (hw : Ap c z (eu c / 4500) a e w) (hv : Ap c z (eu c / 4500) b f v)
    (hab : a + b ≤ n) (hef : e + f ≤ n) : ‖cval w‖ * ‖cval v‖ ≤ pw 1900000000 := by
  have e0 : 0 < eu c := pw_pos _
  have k : ∀ {m g : ℕ} {w : Cx EFloat}, Ap c z (eu c / 4500) m g w → ‖cval w‖ ≤ (1 + eu c / 4500) ^ g * ‖z‖ ^ m := by
    intro m g w h
    have h1 := norm_sub_norm_le (cval w) (z ^ m)
    rw [norm_pow] at h1
    have := h.2
    linarith
  have h1 := mul_le_mul (k hw) (k hv) (norm_nonneg _) (by positivity)
  have h2 : (1 + eu c / 4500) ^ e * ‖z‖ ^ a * ((1 + eu c / 4500) ^ f * ‖z‖ ^ b) = (1 + eu c / 4500) ^ (e + f) * ‖z‖ ^ (a + b) := by
    rw [pow_add, pow_add]; ring
  rw [h2] at h1
  have h3 : (1 + eu c / 4500) ^ (e + f) ≤ 2 :=
    le_trans (pow_le_pow_right₀ (by linarith [div_pos e0 (by norm_num : (0 : ℝ) < 4500)]) hef) E.small
  have h4 := (E.size _ hab).2
  rw [abs_of_nonneg (by positivity)] at h4
  refine le_trans h1 (le_trans (mul_le_mul h3 h4 (by positivity) (by norm_num)) ?_)
  have : pw 1900000000 = pw 1600000000 * pw 300000000 := by rw [← pw_add]; rfl
  rw [this]
  refine mul_le_mul_of_nonneg_right (le_trans (by norm_num : (2 : ℝ) ≤ 10) ?_) (pw_pos _).le
  rw [← pw_one]; exact pw_mono (by omega)

theorem PowEnv.mul (E : PowEnv c z n) {a b e f : ℕ} {w v : Cx EFloat} (hw : Ap c z (eu c / 4500) a e w) (hv : Ap c z (eu c / 4500) b f v)
    (hab : a + b ≤ n) (hef : e + f ≤ n) : Ap c z (eu c / 4500) (a + b) (e + f + 1) (CxE.mul c w v) := by
  have e0 : 0 < eu c := pw_pos _
  obtain ⟨f1, f2⟩ := cx_mul E.elems hw.1 hv.1 (le_trans (E.big hw hv hab hef) (pw_mono (by omega)))
  refine ⟨f1, ap_mul (t := 9 * tau) (by positivity) (E.tiny hab) hw.2 hv.2 (le_trans f2 ?_)⟩
  have := tau_pos
  have x : 9 / 10 * (eu c / 4500) * (‖cval w‖ * ‖cval v‖) = eu c / 5000 * (‖cval w‖ * ‖cval v‖) := by ring
  rw [x]
  linarith

theorem PowEnv.sq (E : PowEnv c z n) {a e : ℕ} {w : Cx EFloat} (hw : Ap c z (eu c / 4500) a e w) (hab : a + a ≤ n) (hef : e + e ≤ n) :
    Ap c z (eu c / 4500) (a + a) (e + e + 1) (CxE.mulSelf c w) := by
  have e0 : 0 < eu c := pw_pos _
  obtain ⟨f1, f2⟩ := cx_mulSelf E.elems hw.1 (E.big hw hw hab hef)
  refine ⟨f1, ap_mul (t := 9 * tau) (by positivity) (E.tiny hab) hw.2 hw.2 (le_trans f2 ?_)⟩
  have x : 9 / 10 * (eu c / 4500) * (‖cval w‖ * ‖cval w‖) = eu c / 5000 * (‖cval w‖ * ‖cval w‖) := by ring
  rw [x]

theorem PowEnv.loop (E : PowEnv c z n) : ∀ (p2 m r : ℕ) (tn res : Cx EFloat), 1 ≤ m → Ap c z (eu c / 4500) m (m - 1) tn →
    Ap c z (eu c / 4500) r r res → r + m * (2 * (p2 / 2)) ≤ n →
    Ap c z (eu c / 4500) (r + m * (2 * (p2 / 2))) (r + m * (2 * (p2 / 2))) (CxE.pownLoop c p2 tn res) := by
  intro p2
  have e0 : 0 ≤ eu c / 4500 := (div_pos (pw_pos _) (by norm_num)).le
  induction p2 using Nat.strong_induction_on with
  | _ p2 ih =>
    intro m r tn res hm ht hr hn
    unfold CxE.pownLoop
    by_cases h : p2 / 2 = 0
    · rw [dif_pos h, h]; simpa using hr
    rw [dif_neg h]
    have h1 : 1 ≤ p2 / 2 := by omega
    have h2 : m * 2 ≤ m * (2 * (p2 / 2)) := Nat.mul_le_mul_left m (by omega)
    have st : Ap c z (eu c / 4500) (m + m) (m + m - 1) (CxE.mulSelf c tn) := by
      have := E.sq ht (by omega) (by omega)
      exact this.mono e0 (by omega)
    by_cases hb : p2 / 2 % 2 = 0
    · rw [if_neg (by simpa using hb)]
      have e : r + (m + m) * (2 * (p2 / 2 / 2)) = r + m * (2 * (p2 / 2)) := by
        have : p2 / 2 = 2 * (p2 / 2 / 2) := by omega
        conv_rhs => rw [this]
        ring
      have := ih (p2 / 2) (by omega) (m + m) r _ res (by omega) st hr (by rw [e]; exact hn)
      rwa [e] at this
    · rw [if_pos hb]
      have e : r + (m + m) + (m + m) * (2 * (p2 / 2 / 2)) = r + m * (2 * (p2 / 2)) := by
        have : p2 / 2 = 2 * (p2 / 2 / 2) + 1 := by omega
        conv_rhs => rw [this]
        ring
      have hr' : Ap c z (eu c / 4500) (r + (m + m)) (r + (m + m)) (CxE.mul c res (CxE.mulSelf c tn)) :=
        (E.mul hr st (by omega) (by omega)).mono e0 (by omega)
      have := ih (p2 / 2) (by omega) (m + m) _ _ _ (by omega) st hr' (by rw [e]; exact hn)
      rwa [e] at this

theorem cxOne (c : Cfg) : CFull c (CxE.one c) ∧ cval (CxE.one c) = 1 := by
  have h1 := ofUnsigned_spec c (u := 1) (by norm_num)
  have h0 := ofUnsigned_spec c (u := 0) (by norm_num)
  refine ⟨⟨⟨h1.1, h1.2.2.2.2.1⟩, h0.1, h0.2.2.2.2.1⟩, ?_⟩
  unfold cval CxE.one rv
  rw [h1.2.1, h0.2.1]
  apply Complex.ext <;> simp

theorem PowEnv.pownNat {t : Cx EFloat} (E : PowEnv c (cval t) n) (ht : CFull c t) (hn : n ≠ 0) :
    Ap c (cval t) (eu c / 4500) n n (CxE.pownNat c t n) := by
  have e0 : 0 ≤ eu c / 4500 := (div_pos (pw_pos _) (by norm_num)).le
  have h1 : Ap c (cval t) (eu c / 4500) 1 0 t := ⟨ht, by simp⟩
  have h0 : Ap c (cval t) (eu c / 4500) 0 0 (CxE.one c) := ⟨(cxOne c).1, by rw [(cxOne c).2]; simp⟩
  unfold CxE.pownNat
  rw [if_neg hn]
  split
  · rename_i h; subst h; exact h1.mono e0 (by omega)
  split
  · rename_i h; subst h; exact (E.mul h1 h1 (by omega) (by omega)).mono e0 (by omega)
  split
  · rename_i h; subst h
    exact (E.mul (E.mul h1 h1 (by omega) (by omega)) h1 (by omega) (by omega)).mono e0 (by omega)
  split
  · rename_i h; subst h
    have h2 := E.mul h1 h1 (by omega) (by omega)
    exact (E.mul h2 h2 (by omega) (by omega)).mono e0 (by omega)
  by_cases hb : n % 2 = 0
  · rw [if_neg (by simpa using hb)]
    have e : 0 + 1 * (2 * (n / 2)) = n := by omega
    have := E.loop n 1 0 t _ le_rfl h1 h0 (by omega)
    rwa [e] at this
  · rw [if_pos hb]
    have e : 1 + 1 * (2 * (n / 2)) = n := by omega
    have := E.loop n 1 1 t _ le_rfl h1 (h1.mono e0 (by omega)) (by omega)
    rwa [e] at this

end

end EFX
