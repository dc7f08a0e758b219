import Verif.Props.ZetaRefl
import Verif.Props.FnValid
/-! C87: large arguments, where the powers overflow. -/

namespace EFX.Props
open EFX EFX.Stir EFX.Borw

/-- The powers of the table are defined. -/
theorem jPowX_some {α : Type} (A : Arith α) {Z : ZEnv α} (hd : Z.data = primeTable) {j : ℕ} (h1 : 1 ≤ j) (h2 : j < 2 ^ 32) (x : α) (m : List (ℕ × α)) :
    ∃ r, Fn.jPowX A Z j x m = some r := by
  have := C38_factors 200000 68157 j (by norm_num) (by norm_num) (by norm_num) h1 h2
  rw [primesData_eq 200000 68157 (by norm_num) (by norm_num) (by norm_num), Option.bind_some, ← primeTable, ← hd] at this
  obtain ⟨l, hl, -⟩ := this
  exact ⟨_, by unfold Fn.jPowX; rw [hl]; rfl⟩

theorem mul_nan (c : Cfg) {x : EFloat} (h : x.isnan = true) (y : EFloat) : (mul c x y).isnan = true := by
  unfold mul mulAssign mulAssignG
  simp only [h, Bool.true_or, if_true]
  rfl

/-- Once the product is not a number it stays so. -/
theorem primeProd_nan (c : Cfg) (T : Tables) {Z : ZEnv EFloat} (hd : Z.data = primeTable) (s : EFloat) : ∀ (l : List ℕ) (m : List (ℕ × EFloat)) (v : EFloat),
    (∀ p ∈ l, 1 ≤ p ∧ p < 2 ^ 32) → v.isnan = true → ∃ r, Fn.primeProd (efArith c T) Z s l m v = some r ∧ r.isnan = true := by
  intro l
  induction l with
  | nil => intro m v _ h; exact ⟨v, rfl, h⟩
  | cons p l ih =>
    intro m v hl h
    obtain ⟨r, hr⟩ := jPowX_some (efArith c T) hd (hl p (by simp)).1 (hl p (by simp)).2 s m
    unfold Fn.primeProd
    rw [hr]
    simp only [Option.bind_eq_bind, Option.bind_some]
    have hv : ((efArith c T).mul v ((efArith c T).div r.1 ((efArith c T).sub r.1 (Fn.one (efArith c T))))).isnan = true := mul_nan c h _
    split
    · exact ⟨_, rfl, hv⟩
    · exact ih _ _ (fun q hq => hl q (by simp [hq])) hv

/-- The factorisation of two. -/
theorem factors_two {l : List (ℕ × ℕ)} (h : IsFactorisation 2 l) : l = [(2, 1)] ∨ l = [(2, 1), (1, 1)] := by
  obtain ⟨hp, r, hr, hr1, -⟩ := h
  have pr : (r.map fun x => x.1 ^ x.2).prod = 2 := by
    rcases hr with rfl | rfl
    · exact hp
    · simpa using hp
  have key : r = [(2, 1)] := by
    match r, hr1, pr with
    | [], _, pr => simp at pr
    | (p, e) :: t, hr1, pr =>
      obtain ⟨q1, q2⟩ := hr1 (p, e) (by simp)
      simp only at q1 q2
      have p2 := q1.two_le
      simp only [List.map_cons, List.prod_cons] at pr
      have d : p ^ e ≤ 2 := Nat.le_of_dvd (by norm_num) ⟨_, pr.symm⟩
      have e1 : e = 1 := by
        by_contra he
        have : 2 ^ 2 ≤ p ^ e := le_trans (Nat.pow_le_pow_left p2 2) (Nat.pow_le_pow_right (by omega) (by omega))
        omega
      subst e1
      rw [pow_one] at pr d
      have p2' : p = 2 := by omega
      subst p2'
      have t1 : (t.map fun x => x.1 ^ x.2).prod = 1 := by omega
      match t, t1, hr1 with
      | [], _, _ => rfl
      | (q, f) :: u, t1, hr1 =>
        obtain ⟨q1, q2⟩ := hr1 (q, f) (by simp)
        simp only [List.map_cons, List.prod_cons] at t1
        have := Nat.eq_one_of_mul_eq_one_right t1
        have h2 : 2 ≤ q ^ f := le_trans q1.two_le (Nat.le_self_pow (by omega) q)
        omega
  rcases hr with rfl | rfl
  · left; exact key
  · right; rw [key]; rfl

/-- The argument of the witness. -/
def bigS : EFloat := ofSigned cfg101 1000000000000

/-- The first factor of the product at the witness. -/
def bigFac (l : List (ℕ × ℕ)) : EFloat :=
  let A := efArith cfg101 (exTables cfg101)
  let r := Fn.jPowLoop A bigS l [] (Fn.one A)
  A.mul (Fn.one A) (A.div r.1 (A.sub r.1 (Fn.one A)))

theorem bigFac_nan : (bigFac [(2, 1)]).isnan = true ∧ (bigFac [(2, 1), (1, 1)]).isnan = true := by
  decide +kernel

theorem primeTable_head : ∃ l, primeTable.take 300 = 2 :: l ∧ ∀ p ∈ l, 1 ≤ p ∧ p < 2 ^ 32 := by
  refine ⟨(List.range' 1 299).map (Nat.nth Nat.Prime), ?_, ?_⟩
  · rw [primeTable, ← List.map_take, List.take_range, List.range_eq_range', show min 300 6550 = 299 + 1 from rfl, List.range'_succ, List.map_cons,
      Nat.nth_prime_zero_eq_two]
  · intro p hp
    obtain ⟨i, hi, rfl⟩ := List.mem_map.1 hp
    rw [List.mem_range'_1] at hi
    have h : Nat.nth Nat.Prime i ≤ Nat.nth Nat.Prime 299 := (Nat.nth_strictMono Nat.infinite_setOfPred_prime).monotone (show i ≤ 299 by omega)
    have h2 := (Nat.prime_nth_prime i).one_lt
    have h3 := prime300.2
    omega

/-- C87: for large arguments, as ten to the twelve, the powers overflow and the result is not a number, although the zeta function
differs from one by less than `10^-1000`. -/
theorem C87_large_refuted {Z : ZEnv EFloat} (hd : Z.data = primeTable) (hb : Fn.bernMax Z.tab ≤ 1001) (hD : Z.toD bigS = 1000000000000)
    (hl : 3 ≤ Z.lgp) :
    (∃ r, Fn.zeta (efArith cfg101 (exTables cfg101)) Z bigS = some r ∧ r.isnan = true) ∧
    Spec.val bigS = 1000000000000 ∧ |1 - zetaR 1000000000000| ≤ 1 / (10 : ℝ) ^ 1000 := by
  refine ⟨?_, ?_, ?_⟩
  · have f1 : (efArith cfg101 (exTables cfg101)).isneg bigS = false := by decide +kernel
    have f2 : Fn.toI32 (efArith cfg101 (exTables cfg101)) bigS = 2147483647 := by decide +kernel
    have f3 : Fn.hasSimple Z (2147483647 : Int) = false := by
      unfold Fn.hasSimple
      rw [decide_eq_false (by omega)]; rfl
    have f4 : Fn.usePrimes (efArith cfg101 (exTables cfg101)) Z bigS = true := by
      unfold Fn.usePrimes
      rw [hD, Bool.and_eq_true, decide_eq_true_eq, decide_eq_true_eq]
      refine ⟨by norm_num, lt_of_lt_of_le ?_ hl⟩
      decide +kernel
    unfold Fn.zeta Fn.zetaF
    rw [f2, f3, Bool.and_false, if_neg (by decide), f1, if_neg (by decide), f4, if_pos rfl]
    obtain ⟨l, e, hl'⟩ := primeTable_head
    rw [hd, e]
    unfold Fn.primeProd
    have := C38_factors 200000 68157 2 (by norm_num) (by norm_num) (by norm_num) (by norm_num) (by norm_num)
    rw [primesData_eq 200000 68157 (by norm_num) (by norm_num) (by norm_num), Option.bind_some, ← primeTable, ← hd] at this
    obtain ⟨pf, hpf, hf⟩ := this
    have hj : Fn.jPowX (efArith cfg101 (exTables cfg101)) Z 2 bigS [] = some (Fn.jPowLoop (efArith cfg101 (exTables cfg101)) bigS pf [] (Fn.one (efArith cfg101 (exTables cfg101)))) := by
      unfold Fn.jPowX; rw [hpf]; rfl
    rw [hj]
    simp only [Option.bind_eq_bind, Option.bind_some]
    have hn : (bigFac pf).isnan = true := by
      rcases factors_two hf with rfl | rfl
      · exact bigFac_nan.1
      · exact bigFac_nan.2
    split
    · exact ⟨_, rfl, hn⟩
    · exact primeProd_nan _ _ hd _ _ _ _ hl' hn
  · decide +kernel
  · have h := zeta_tail_real (s := 1000000000000) (by norm_num) (le_refl 2)
    have h2 : (2 : ℝ) ^ (4002 : ℕ) ≤ (2 : ℝ) ^ (1000000000000 : ℝ) := by
      rw [← Real.rpow_natCast]
      exact Real.rpow_le_rpow_of_exponent_le (by norm_num) (by norm_num)
    have e : (2 : ℝ) ^ (4002 : ℕ) = 4 * 16 ^ 1000 := by
      rw [show (16 : ℝ) = 2 ^ 4 by norm_num, ← pow_mul, show (4 : ℝ) = 2 ^ 2 by norm_num, ← pow_add]
    have e3 : (10 : ℝ) ^ 1000 ≤ 16 ^ 1000 := pow_le_pow_left₀ (by norm_num) (by norm_num) _
    have e4 : (0 : ℝ) < 10 ^ 1000 := by positivity
    rw [e] at h2
    simp only [Finset.sum_range_succ, Finset.sum_range_zero, Nat.cast_zero, Nat.cast_one, Nat.cast_ofNat, Real.one_rpow] at h
    rw [Real.zero_rpow (by norm_num)] at h
    unfold zetaR
    rw [show ((1000000000000 : ℝ) : ℂ) = 1000000000000 by push_cast; rfl] at *
    generalize (riemannZeta 1000000000000).re = V at *
    generalize (16 : ℝ) ^ 1000 = Q at *
    generalize (10 : ℝ) ^ 1000 = P at *
    generalize (2 : ℝ) ^ (1000000000000 : ℝ) = W at *
    have b : 1 / W ≤ 1 / (4 * P) := one_div_le_one_div_of_le (by linarith) (by linarith)
    have b2 : 1 / (4 * P) = 1 / 4 * (1 / P) := by rw [one_div_mul_one_div]
    norm_num only at h
    rw [abs_le]
    constructor <;> linarith [h.1, h.2]

end EFX.Props
