import Verif.Lemmas.RndFn
import Verif.Lemmas.RndCx
import Verif.Props.Parts
import Verif.Props.FnRnd
import Mathlib.Analysis.SpecialFunctions.Pow.Real
/-!
# Powers with real exponents in rounded arithmetic
-/

namespace EFX
open Spec Props

theorem two_tau_le (c : Cfg) (hc : c.digits10 ≤ 1000) : 2 * tau ≤ eu c := by
  have h1 : tau ≤ pw (-1) * eu c := by
    unfold tau eu
    rw [← pw_add]
    exact pw_mono (by have : (c.digits10 : ℤ) ≤ 1000 := by exact_mod_cast hc
                      omega)
  have h2 : pw (-1) = 1 / 10 := by rw [show (-1 : ℤ) = -((1 : ℕ) : ℤ) by norm_num, pw_neg, pw_nat]; norm_num
  have h0 : 0 < eu c := pw_pos _
  rw [h2] at h1
  linarith

/-- The exponential of a rounded product. -/
theorem expMul_acc {c : Cfg} (hc : c.digits10 ≤ 1000) {T : Tables} (H : Rnd.ExpEnv (efArith c T) rv (Full c) (eu c)) {d L : EFloat}
    (hd : Full c d) (hL : Full c L) {f l δ : ℝ} (f1 : |f| ≤ 1) (df : |rv d - f| ≤ eu c / 100) (l1 : |l| ≤ 10 ^ 7)
    (Ll : |rv L - l| ≤ δ) (δ1 : δ ≤ 1 / 100) :
    Full c (Fn.exp (efArith c T) (mul c d L)) ∧
    NearR (201 / 100 * δ + eu c * (510 + 2 * |l|)) (rv (Fn.exp (efArith c T) (mul c d L))) (Real.exp (f * l)) := by
  have R := rnd_efloat (Props.elems_small hc) T
  have u0 := R.u0
  have u1 := R.u1
  have l0 := abs_nonneg l
  have δ0 : 0 ≤ δ := le_trans (abs_nonneg _) Ll
  have ul0 : 0 ≤ eu c * |l| := by positivity
  have ul : eu c * |l| ≤ 1 / 10 ^ 23 := le_trans (mul_le_mul u1 l1 l0 (by norm_num)) (by norm_num)
  have hτ := two_tau_le c hc
  have d1 : |rv d| ≤ 101 / 100 := by
    have := abs_sub_abs_le_abs_sub (rv d) f
    norm_num at u1; linarith
  have L1 : |rv L| ≤ |l| + 1 / 100 := by
    have := abs_sub_abs_le_abs_sub (rv L) l
    linarith
  have p1 : |rv d * rv L| ≤ 101 / 100 * (|l| + 1 / 100) := by
    rw [abs_mul]; exact mul_le_mul d1 L1 (abs_nonneg _) (by norm_num)
  have p2 : |rv d * rv L| ≤ pw 2000000000 := by
    refine le_trans p1 ?_
    have h9 := pw_mono (show ((9 : ℕ) : ℤ) ≤ 2000000000 by norm_num)
    rw [pw_nat] at h9
    generalize pw 2000000000 = P at *
    norm_num at h9 l1; linarith
  obtain ⟨fm, em, -⟩ := mul_any (Props.elems_small hc) hd hL p2
  clear p2
  generalize mul c d L = m at *
  have hη : |rv m - f * l| ≤ δ + eu c * (2 + |l| / 50) := by
    have h1 := abs_sub_le (rv m) (rv d * rv L) (f * l)
    have e1 : rv d * rv L - f * l = (rv d - f) * rv L + f * (rv L - l) := by ring
    have h2 : |rv d * rv L - f * l| ≤ eu c / 100 * (|l| + 1 / 100) + 1 * δ := by
      rw [e1]
      refine le_trans (abs_add_le _ _) ?_
      rw [abs_mul, abs_mul]
      exact add_le_add (mul_le_mul df L1 (abs_nonneg _) (by positivity)) (mul_le_mul f1 Ll (abs_nonneg _) (by norm_num))
    have h3 := mul_le_mul_of_nonneg_left p1 (show 0 ≤ eu c / 10 ^ 4 by positivity)
    have e2 : eu c * (2 + |l| / 50) = 2 * eu c + eu c * |l| / 50 := by ring
    rw [e2]
    linarith
  have e2 : eu c * (2 + |l| / 50) = 2 * eu c + eu c * |l| / 50 := by ring
  rw [e2] at hη
  have fl : |f * l| ≤ |l| := by
    rw [abs_mul]
    have := mul_le_mul_of_nonneg_right f1 l0
    linarith
  have m1 : |rv m| ≤ |l| + 1 := by
    have := abs_sub_abs_le_abs_sub (rv m) (f * l)
    norm_num at u1 ul; linarith
  obtain ⟨fe, ne, -⟩ := R.exp_acc H (x := m) fm (by norm_num at l1 ⊢; linarith)
  refine ⟨fe, ?_⟩
  have n1 : NearR (501 * eu c + eu c * |l|) (rv (Fn.exp (efArith c T) m)) (Real.exp (rv m)) := ne.mono (by
    have := mul_le_mul_of_nonneg_left m1 u0.le
    linarith)
  have n2 := Rnd.exp_shift hη (by norm_num at u1 ul; linarith)
  refine (NearR.trans (by positivity) n1 n2).mono ?_
  have s1 : 2 * (δ + (2 * eu c + eu c * |l| / 50)) * (501 * eu c + eu c * |l|) ≤
      2 * (δ + (2 * eu c + eu c * |l| / 50)) * (1 / 1000) := by
    apply mul_le_mul_of_nonneg_left _ (by positivity)
    norm_num at u1 ul ⊢; linarith
  linarith

/-- Powers with an exponent above `-1`. -/
theorem powF_pos_acc {c : Cfg} (hc : c.digits10 ≤ 1000) {T : Tables} (H : Rnd.ExpEnv (efArith c T) rv (Full c) (eu c)) {x a : EFloat}
    (hx : Full c x) (ha : Full c a) (x0 : 0 < rv x) (x1 : rv x ≤ 9 / 100 ∨ 91 / 100 ≤ rv x) (a0 : rv a ≠ 0) (a1 : -1 < rv a)
    (ho : isone a = false) {K : ℤ} (K0 : 0 ≤ K) (hs : Sz K (rv x)) (hK : rv a * K ≤ 800000000) (a2 : rv a ≤ 10 ^ 9) {δ : ℝ}
    (hL : Full c (Fn.log (efArith c T) x)) (Ll : |rv (Fn.log (efArith c T) x) - Real.log (rv x)| ≤ δ) (δ1 : δ ≤ 1 / 100)
    (l1 : |Real.log (rv x)| ≤ 10 ^ 7) (k : ℕ) :
    Full c (Fn.powF (efArith c T) (k + 1) x a) ∧
    NearR (21 / 10 * δ + eu c * (520 + 2 * |Real.log (rv x)| + |rv a| / 500)) (rv (Fn.powF (efArith c T) (k + 1) x a))
      (rv x ^ rv a) := by
  have R := rnd_efloat (Props.elems_small hc) T
  have u0 := R.u0
  have u1 := R.u1
  have δ0 : 0 ≤ δ := le_trans (abs_nonneg _) Ll
  have hpow : rv x ^ rv a = Real.exp (rv a * Real.log (rv x)) := by rw [Real.rpow_def_of_pos x0, mul_comm]
  have l0 := abs_nonneg (Real.log (rv x))
  have ul0 : 0 ≤ eu c * |Real.log (rv x)| := by positivity
  have ul : eu c * |Real.log (rv x)| ≤ 1 / 10 ^ 23 := le_trans (mul_le_mul u1 l1 l0 (by norm_num)) (by norm_num)
  have hz : (efArith c T).iszero x = false := by
    by_contra hc'
    rw [Bool.not_eq_false] at hc'
    have := (R.iszero x hx).1 hc'
    linarith
  have hza : (efArith c T).iszero a = false := by
    by_contra hc'
    rw [Bool.not_eq_false] at hc'
    exact a0 ((R.iszero a ha).1 hc')
  have hn : (efArith c T).isneg x = false := by
    by_contra hc'
    rw [Bool.not_eq_false] at hc'
    have := (R.isneg x hx).1 hc'
    linarith
  have ho' : (efArith c T).isone a = false := ho
  have om := R.ofI (-1) (by norm_num)
  have hle : (efArith c T).le a (Fn.oneMinus (efArith c T)) = false := by
    by_contra hc'
    rw [Bool.not_eq_false] at hc'
    have := (R.le _ _ ha om.1).1 hc'
    rw [om.2] at this
    push_cast at this
    linarith
  have hmid : ((efArith c T).lt (Fn.tenth (efArith c T)) x && (efArith c T).lt x ((efArith c T).divI ((efArith c T).ofI 9) 10)) = false := by
    by_contra hc'
    rw [Bool.not_eq_false, Bool.and_eq_true] at hc'
    have o1 := R.ofI 1 (by norm_num)
    have o9 := R.ofI 9 (by norm_num)
    have d1 := R.divI _ 10 o1.1 (by norm_num) (by norm_num)
    have d9 := R.divI _ 10 o9.1 (by norm_num) (by norm_num)
    have h1 := (R.lt _ _ d1.1 hx).1 hc'.1
    have h2 := (R.lt _ _ hx d9.1).1 hc'.2
    have e1 := (abs_le.1 d1.2).1
    have e9 := (abs_le.1 d9.2).2
    rw [o1.2] at e1
    rw [o9.2] at e9
    push_cast at e1 e9
    rw [abs_of_pos (by norm_num)] at e1 e9
    norm_num at u1
    rcases x1 with h | h <;> linarith
  unfold Fn.powF Fn.isfinite
  rw [R.isnan x hx, R.isinf x hx, ho', hz, hza, hn, hle]
  simp only [Bool.not_false, Bool.and_self, Bool.not_true, Bool.or_self, Bool.false_eq_true, if_false, Bool.false_and, Bool.true_and]
  by_cases hi : (efArith c T).isint a = true
  · rw [if_pos hi]
    obtain ⟨p, hp⟩ := (R.isint a ha).1 hi
    have p0 : 0 ≤ p := by
      rw [hp] at a1
      have : (-1 : ℤ) < p := by exact_mod_cast a1
      omega
    have p0r : (0 : ℝ) ≤ p := by exact_mod_cast p0
    obtain ⟨oi, ei⟩ := R.intPart a ha (by rw [hp]; exact p0r) (by norm_num at a2 ⊢; linarith)
    rw [hp, Int.floor_intCast] at ei
    have pb : |p| ≤ 10 ^ 9 := by rw [abs_of_nonneg p0]; rw [hp] at a2; exact_mod_cast a2
    have hto := R.toI _ p oi ei (lt_of_le_of_lt pb (by norm_num))
    rw [hto]
    obtain ⟨f, n⟩ := R.pown_acc (x := x) hx K0 hs (p := p) (by
      rw [abs_of_nonneg p0]; rw [hp] at hK; exact_mod_cast hK) pb
    refine ⟨f, ?_⟩
    rw [hp, Real.rpow_intCast]
    refine n.mono ?_
    have h3 : 0 ≤ eu c * |(p : ℝ)| := by positivity
    have e9 : eu c * (2 + |(p : ℝ)| / 1000) = 2 * eu c + eu c * |(p : ℝ)| / 1000 := by ring
    have e8 : eu c * (520 + 2 * |Real.log (rv x)| + |(p : ℝ)| / 500) = 520 * eu c + 2 * (eu c * |Real.log (rv x)|) + eu c * |(p : ℝ)| / 500 := by ring
    rw [e9, e8]
    linarith
  rw [if_neg hi, hmid]
  simp only [Bool.false_eq_true, if_false]
  have ua : 0 ≤ eu c * |rv a| := by positivity
  have e8 : eu c * (520 + 2 * |Real.log (rv x)| + |rv a| / 500) = 520 * eu c + 2 * (eu c * |Real.log (rv x)|) + eu c * |rv a| / 500 := by ring
  by_cases hlt : |rv a| < 1
  · have hexp : a.exp < 0 := by
      have hav : |val a| < 1 := by rw [rv_abs] at hlt; exact_mod_cast hlt
      have h3 := Props.exp_lt_of_mag (e := 0) ha.1 (fun h => a0 (rv_ne.2 h)) (by rw [zpow_zero]; exact hav)
      exact h3
    have h0 : (efArith c T).toI ((efArith c T).intPart a) = 0 := by
      change (efArith c T).toI (integerPart c a) = 0
      rw [integerPart_neg_exp ha.1 hexp]
      exact R.toI (zero c) 0 ⟨FinWF_zero c, rfl⟩ (by rw [rv_ne.2 (val_zero c)]; norm_num) (by norm_num)
    rw [h0]
    simp only [ne_eq, not_true_eq_false, if_false]
    obtain ⟨f, n⟩ := expMul_acc hc H ha hL hlt.le (by rw [sub_self, abs_zero]; positivity) l1 Ll δ1
    refine ⟨f, ?_⟩
    rw [hpow]
    refine n.mono ?_
    rw [e8]
    linarith
  · have a3 : 1 ≤ rv a := by
      rw [not_lt] at hlt
      rcases le_abs.1 hlt with h | h
      · exact h
      · linarith
    obtain ⟨oi, ei⟩ := R.intPart a ha (by linarith) (by norm_num at a2 ⊢; linarith)
    have n1 : 1 ≤ ⌊rv a⌋ := Int.le_floor.2 (by push_cast; exact a3)
    have na : (⌊rv a⌋ : ℝ) ≤ rv a := Int.floor_le _
    have nb := Int.lt_floor_add_one (rv a)
    have n9 : ⌊rv a⌋ ≤ 10 ^ 9 := by
      have : (⌊rv a⌋ : ℝ) ≤ ((10 ^ 9 : ℤ) : ℝ) := by push_cast; linarith
      exact_mod_cast this
    have n0r : (1 : ℝ) ≤ ⌊rv a⌋ := by exact_mod_cast n1
    have hto := R.toI _ ⌊rv a⌋ oi ei (by rw [abs_of_nonneg (by omega)]; omega)
    rw [hto, if_pos (by omega)]
    generalize hN : ⌊rv a⌋ = N at *
    have big : (10 : ℝ) ^ 9 ≤ pw 2000000000 := by
      have h9 := pw_mono (show ((9 : ℕ) : ℤ) ≤ 2000000000 by norm_num)
      rwa [pw_nat] at h9
    have aabs : |rv a| = rv a := abs_of_nonneg (by linarith)
    have nabs : |(N : ℝ)| = N := abs_of_nonneg (by linarith)
    obtain ⟨os, es, -⟩ := R.sub a _ ha oi (by rw [aabs]; exact le_trans a2 big) (by rw [ei, nabs]; linarith)
    clear big
    rw [ei, aabs, nabs] at es
    have es' : |rv ((efArith c T).sub a ((efArith c T).intPart a)) - (rv a - N)| ≤ eu c / 100 := by
      refine le_trans es ?_
      have := mul_le_mul_of_nonneg_left (show rv a + N ≤ 2 * 10 ^ 9 by linarith) (show 0 ≤ eu c / 10 ^ 12 by positivity)
      norm_num at this ⊢
      linarith
    obtain ⟨fE, nE⟩ := expMul_acc hc H os hL (f := rv a - N) (by rw [abs_of_nonneg (by linarith)]; linarith) es' l1 Ll δ1
    have pb : |N| ≤ 10 ^ 9 := by rw [abs_of_nonneg (by omega)]; exact n9
    have hNK : (N : ℝ) * K ≤ 800000000 := by
      have K0r : (0 : ℝ) ≤ K := by exact_mod_cast K0
      exact le_trans (mul_le_mul_of_nonneg_right na K0r) hK
    have hNK' : |N| * K ≤ 800000000 := by rw [abs_of_nonneg (by omega)]; exact_mod_cast hNK
    obtain ⟨fP, nP⟩ := R.pown_acc (x := x) hx K0 hs (p := N) hNK' pb
    have hsplit : Real.exp ((rv a - N) * Real.log (rv x)) * rv x ^ N = rv x ^ rv a := by
      rw [hpow, ← Real.rpow_intCast (rv x), Real.rpow_def_of_pos x0, ← Real.exp_add]
      congr 1; ring
    have nM := nE.mul (by positivity) nP
    rw [hsplit] at nM
    rw [nabs] at nM
    have uN : 0 ≤ eu c * N := by positivity
    have uN1 : eu c * N ≤ eu c * rv a := mul_le_mul_of_nonneg_left na u0.le
    have uA : eu c * rv a ≤ 1 / 10 ^ 21 := le_trans (mul_le_mul u1 a2 (by linarith) (by norm_num)) (by norm_num)
    rw [aabs] at e8 ⊢
    have x1' : 201 / 100 * δ + eu c * (510 + 2 * |Real.log (rv x)|) ≤ 3 / 100 := by
      have : eu c * (510 + 2 * |Real.log (rv x)|) = 510 * eu c + 2 * (eu c * |Real.log (rv x)|) := by ring
      rw [this]
      norm_num at u1 ul; linarith
    have cross := mul_le_mul_of_nonneg_right x1' (show 0 ≤ eu c * (2 + (N : ℝ) / 1000) by positivity)
    have nM' := nM.mono (show _ ≤ 201 / 100 * δ + eu c * (513 + 2 * |Real.log (rv x)| + rv a / 900) by
      have e7 : eu c * (513 + 2 * |Real.log (rv x)| + rv a / 900) = eu c * (510 + 2 * |Real.log (rv x)|) + 3 * eu c + eu c * rv a / 900 := by ring
      have e6 : eu c * (2 + (N : ℝ) / 1000) = 2 * eu c + eu c * N / 1000 := by ring
      rw [e7]
      rw [e6] at cross ⊢
      linarith)
    have e5 : eu c * (513 + 2 * |Real.log (rv x)| + rv a / 900) = 513 * eu c + 2 * (eu c * |Real.log (rv x)|) + eu c * rv a / 900 := by ring
    rw [e5] at nM'
    have sz1 : Sz 100000000 (Real.exp ((rv a - N) * Real.log (rv x))) := by
      have hf : |(rv a - N) * Real.log (rv x)| ≤ 10 ^ 7 := by
        rw [abs_mul, abs_of_nonneg (show 0 ≤ rv a - N by linarith)]
        have := mul_le_mul (show rv a - N ≤ 1 by linarith) l1 l0 (by norm_num)
        linarith
      have hr := abs_le.1 hf
      have key : ∀ t : ℝ, t ≤ 10 ^ 7 → Real.exp t ≤ pw 100000000 := by
        intro t ht
        have h1 : Real.exp t ≤ Real.exp 1 ^ (10 ^ 7 : ℕ) := by
          rw [← Real.exp_nat_mul]; apply Real.exp_le_exp.2; push_cast; linarith
        have h2 : Real.exp 1 ^ (10 ^ 7 : ℕ) ≤ (10 : ℝ) ^ (10 ^ 7 : ℕ) :=
          pow_le_pow_left₀ (Real.exp_pos 1).le (by have := Real.exp_one_lt_d9; linarith) _
        rw [← pw_nat] at h2
        exact le_trans h1 (le_trans h2 (pw_mono (by norm_num)))
      refine ⟨?_, ?_⟩
      · rw [abs_of_pos (Real.exp_pos _), pw_neg]
        have h3 := key (-((rv a - N) * Real.log (rv x))) (by linarith)
        rw [Real.exp_neg] at h3
        exact inv_le_of_inv_le₀ (Real.exp_pos _) h3
      · rw [abs_of_pos (Real.exp_pos _)]
        exact key _ hr.2
    have szp : Sz 800000000 (rv x ^ N) := by
      obtain ⟨q, rfl⟩ : ∃ q : ℕ, N = q := ⟨N.toNat, by omega⟩
      rw [zpow_natCast]
      refine (hs.pow q).mono ?_
      rw [abs_of_nonneg (by omega)] at hNK'
      exact hNK'
    have sfin : Sz 900000000 (rv x ^ rv a) := by rw [← hsplit]; exact (sz1.mul szp).mono (by norm_num)
    clear sz1 szp
    obtain ⟨om', em, -⟩ := R.mul _ _ fE fP ((nM'.sz (by norm_num at u1 ul uA; linarith) sfin).mono (by norm_num))
    clear sfin
    refine ⟨om', (NearR.trans (f := eu c / 10 ^ 4) (by positivity) em nM').mono ?_⟩
    rw [e8]
    have : (201 / 100 * δ + (513 * eu c + 2 * (eu c * |Real.log (rv x)|) + eu c * rv a / 900)) * (eu c / 10 ^ 4) ≤ 1 * (eu c / 10 ^ 4) :=
      mul_le_mul_of_nonneg_right (by norm_num at u1 ul uA; linarith) (by positivity)
    linarith

end EFX
