import Verif.Lemmas.Mul
/-! `operator*=` on finite operands. -/

namespace EFX
open Spec Finset

theorem elems_le (c : Cfg) : c.elems ≤ 134217732 := by
  have := (digits10_bounds c).2
  unfold Cfg.elems Cfg.maxDigits10
  split <;> omega

/-- Error of the limb product in units of `B^p`. -/
def mulErr (p : Nat) : Nat := if p * 8 < 5000 then p else 20000 * p

theorem take_set_ge {l : List Nat} {i p a : Nat} (h : p ≤ i) : (l.set i a).take p = l.take p := by
  rw [List.take_set, List.set_eq_of_length_le (by simp; omega)]

theorem Bpow_pred {p : Nat} (hp : 1 ≤ p) : 100000000 ^ p = 100000000 * 100000000 ^ (p - 1) := by
  rw [← pow_succ']; congr 1; omega

theorem head_ne_of_take {l : List Nat} (ho : OK l) {p : Nat} (hp1 : 1 ≤ p) (hp : p ≤ l.length)
    (h : 100000000 ^ (p - 1) ≤ lv (l.take p)) : l.headD 0 ≠ 0 := by
  have h1 : (l.take p).headD 0 ≠ 0 := by
    apply headD_ne_zero_of_le (ho.take p)
    · intro h0
      have := congrArg List.length h0
      rw [List.length_take, List.length_nil] at this; omega
    · rw [List.length_take, Nat.min_eq_left hp]; exact h
  cases l with
  | nil => simp at hp; omega
  | cons a l =>
    obtain ⟨q, rfl⟩ : ∃ q, p = q + 1 := ⟨p - 1, by omega⟩
    simpa using h1

theorem pushFront_spec {d : List Nat} (hd : OK d) {carry p P : Nat} (hc : carry < 100000000)
    (hp1 : 1 ≤ p) (hpP : p ≤ P) (hP : P ≤ d.length) :
    (pushFront carry P d).length = d.length ∧ OK (pushFront carry P d) ∧
    lv ((pushFront carry P d).take p) = (lv (d.take p) + carry * 100000000 ^ p) / 100000000 := by
  unfold pushFront
  refine ⟨?_, OK.cons hc (OK.append (hd.take _) (hd.drop _)), ?_⟩
  · simp; omega
  · obtain ⟨q, rfl⟩ : ∃ q, p = q + 1 := ⟨p - 1, by omega⟩
    rw [List.take_succ_cons, lv_cons, List.take_append_of_le_length (by simp; omega), List.take_take,
      Nat.min_eq_left (by omega)]
    have h1 : lv (d.take q) = lv (d.take (q + 1)) / 100000000 := by
      have := lv_take (d.take (q + 1)) (hd.take _) 1 (by simp; omega)
      rw [List.take_take, List.length_take] at this
      rw [show min (min (q + 1) d.length - 1) (q + 1) = q by omega] at this
      rw [this]; simp
    rw [h1, List.length_take, Nat.min_eq_left (by omega), pow_succ,
      show lv (d.take (q + 1)) + carry * (100000000 ^ q * 100000000)
        = lv (d.take (q + 1)) + 100000000 * (carry * 100000000 ^ q) by ring,
      Nat.add_mul_div_left _ _ (by norm_num)]
    omega

theorem mulData_spec {c : Cfg} {self : Bool} {x v : EFloat} (hx : WF c x) (hv : WF c v)
    (zx : x.data.headD 0 ≠ 0) (zv : v.data.headD 0 ≠ 0) (hself : self = true → x.data = v.data)
    {p : Nat} (hp : p = min x.prec v.prec) :
    (mulData c self x v).1.length = c.elems ∧ OK (mulData c self x v).1 ∧
    (mulData c self x v).1.headD 0 ≠ 0 ∧
    ∃ δ : Nat, δ ≤ 1 ∧ (mulData c self x v).2 = 8 * (δ : Int) ∧
      (p = c.elems → lv ((mulData c self x v).1.take p) * 100000000 ^ δ * 100000000 ^ (p - 1)
          ≤ lv (x.data.take p) * lv (v.data.take p)) ∧
      lv ((mulData c self x v).1.take p) * 100000000 ^ δ * 100000000 ^ (p - 1)
          ≤ lv (x.data.take p) * lv (v.data.take p) + 100000000 ^ p ∧
      lv (x.data.take p) * lv (v.data.take p)
          ≤ lv ((mulData c self x v).1.take p) * 100000000 ^ δ * 100000000 ^ (p - 1) + mulErr p * 100000000 ^ p := by
  have h2x := hx.prec_lo; have h2v := hv.prec_lo
  have hNx := hx.prec_hi; have hNv := hv.prec_hi
  have hp2 : 2 ≤ p := by omega
  have hpx : p ≤ x.prec := by omega
  have hpN : p ≤ c.elems := by omega
  have hB := Bpow_pred (p := p) (by omega)
  unfold mulData
  simp only [← hp]
  by_cases hsch : p * 8 < 5000
  · -- school
    rw [if_pos hsch]
    have hr : (if self = true then mulLoopSelf x.data p else mulLoopUV x.data v.data p) = mulLoopUV x.data v.data p := by
      split
      · rename_i hs
        rw [mulLoopSelf_eq, ← hself hs]
      · rfl
    rw [hr]
    obtain ⟨m1, m2, m3, m4, m5⟩ := mulLoopUV_spec hx.ok hv.ok (p := p) (by omega) (by omega)
      (by rw [hx.len]; omega) (by rw [hv.len]; omega)
    generalize mulLoopUV x.data v.data p = r at *
    obtain ⟨b1, b2⟩ := colsT_bounds hx.ok hv.ok (p := p) (by rw [hx.len]; omega) (by rw [hv.len]; omega)
    have hge := colsT_ge (p := p) (by omega) zx zv
    have hE : mulErr p = p := by unfold mulErr; rw [if_pos hsch]
    rw [hE]
    have hErr : (p - 1) * 99999999 * 100000000 ^ (p - 1) + 99999999 * 100000000 ^ (p - 1) ≤ p * 100000000 ^ p := by
      rw [hB]
      calc (p - 1) * 99999999 * 100000000 ^ (p - 1) + 99999999 * 100000000 ^ (p - 1)
          = (p - 1 + 1) * 99999999 * 100000000 ^ (p - 1) := by ring
        _ = p * (99999999 * 100000000 ^ (p - 1)) := by rw [show p - 1 + 1 = p by omega]; ring
        _ ≤ p * (100000000 * 100000000 ^ (p - 1)) := Nat.mul_le_mul_left _ (Nat.mul_le_mul_right _ (by norm_num))
    by_cases hc : r.2 = 0
    · rw [if_neg (by simpa using hc)]
      rw [hc] at m5
      have hR : lv (r.1.take p) = colsT x.data v.data p := by rw [zero_mul, add_zero] at m5; exact m5
      refine ⟨by rw [m1, hx.len], m2, ?_, 0, by norm_num, by simp, ?_, ?_, ?_⟩
      · exact head_ne_of_take m2 (p := p) (by omega) (by rw [m1, hx.len]; omega) (by rw [hR]; exact hge)
      · intro _; rw [hR]; simpa using b1
      · rw [hR]; simp only [pow_zero, mul_one]; exact le_trans b1 (Nat.le_add_right _ _)
      · rw [hR]; simp only [pow_zero, mul_one]
        refine le_trans b2 ?_
        rw [add_mul]
        exact Nat.add_le_add_left (le_trans (Nat.le_add_right _ _) hErr) _
    · rw [if_pos (by simpa using hc)]
      obtain ⟨q1, q2, q3⟩ := pushFront_spec m2 m4 (by omega : 1 ≤ p) hpx (by rw [m1, hx.len]; exact hNx)
      rw [m5] at q3
      have hdm := Nat.div_add_mod (colsT x.data v.data p) 100000000
      have hml := Nat.mod_lt (colsT x.data v.data p) (by norm_num : 0 < 100000000)
      have hle : colsT x.data v.data p / 100000000 * 100000000 ≤ colsT x.data v.data p := by omega
      refine ⟨by rw [q1, m1, hx.len], q2, by unfold pushFront; simpa using hc, 1, le_refl _, by simp, ?_, ?_, ?_⟩
      · intro _; rw [q3, pow_one]; exact le_trans (Nat.mul_le_mul_right _ hle) b1
      · rw [q3, pow_one]; exact le_trans (Nat.mul_le_mul_right _ hle) (le_trans b1 (Nat.le_add_right _ _))
      · rw [q3, pow_one]
        refine le_trans b2 ?_
        have h3 : colsT x.data v.data p ≤ colsT x.data v.data p / 100000000 * 100000000 + 99999999 := by omega
        calc (colsT x.data v.data p + (p - 1) * 99999999) * 100000000 ^ (p - 1)
            ≤ (colsT x.data v.data p / 100000000 * 100000000 + 99999999 + (p - 1) * 99999999) * 100000000 ^ (p - 1) :=
              Nat.mul_le_mul_right _ (Nat.add_le_add_right h3 _)
          _ = colsT x.data v.data p / 100000000 * 100000000 * 100000000 ^ (p - 1) +
              ((p - 1) * 99999999 * 100000000 ^ (p - 1) + 99999999 * 100000000 ^ (p - 1)) := by ring
          _ ≤ _ := Nat.add_le_add_left hErr _
  · -- half-limb convolution
    rw [if_neg hsch]
    have hN := elems_le c
    obtain ⟨m1, m2, m3, m4⟩ := mulLoopFFT_spec hx.ok hv.ok (p := p) (by omega) (by omega)
      (by rw [hx.len]; omega) (by rw [hv.len]; omega)
    generalize hd : mulLoopFFT x.data v.data p = d at *
    rw [hx.len] at m1
    obtain ⟨b1, b2⟩ := colsF_bounds hx.ok hv.ok (p := p) (by omega) (by rw [hx.len]; omega) (by rw [hv.len]; omega)
    have hge := colsF_ge (p := p) hp2 zx zv
    have hE : mulErr p = 20000 * p := by unfold mulErr; rw [if_neg hsch]
    rw [hE]
    have hErr : 2 * p * 9999 * 100000000 ^ p ≤ 20000 * p * 100000000 ^ p :=
      Nat.mul_le_mul_right _ (by omega)
    by_cases h0 : d.headD 0 = 0
    · rw [if_pos h0]
      simp only
      generalize hlim : min c.elems (x.prec + 1) = lim
      generalize hmv : (d.take lim).drop 1 ++ d.drop (lim - 1) = moved
      have hml : moved.length = c.elems := by rw [← hmv]; simp; omega
      have hmo : OK moved := by rw [← hmv]; exact OK.append ((m2.take _).drop _) (m2.drop _)
      have hlv : lv (d.drop 1) = lv d := by
        cases hdd : d with
        | nil => rfl
        | cons a l => rw [hdd] at h0; simp at h0; simp [h0, lv_cons]
      rw [hml]
      have hgoal : ∃ s, s ≤ 99999999 ∧ (p = c.elems → s = 0) ∧
          lv ((moved.set (c.elems - 1) 0).take p) = colsF x.data v.data p * 100000000 + s := by
        by_cases hpe : p = c.elems
        · refine ⟨0, by norm_num, fun _ => rfl, ?_⟩
          have hl : lim = c.elems := by omega
          have : moved.set (c.elems - 1) 0 = d.drop 1 ++ [0] := by
            rw [← hmv, hl, List.take_of_length_le (by omega), List.set_append_right _ _ (by simp; omega)]
            congr 1
            rw [List.drop_eq_getElem_cons (by omega), List.drop_eq_nil_of_le (by omega)]
            simp [m1]
          rw [this, List.take_of_length_le (by simp; omega), lv_append, hlv]
          rw [List.take_of_length_le (by omega)] at m4
          rw [m4]; simp [lv_cons]
        · refine ⟨d.getD p 0, by have := m2.getD p; omega, fun h => absurd h hpe, ?_⟩
          rw [take_set_ge (by omega), ← hmv, List.take_append_of_le_length (by simp; omega)]
          have e1 : ((d.take lim).drop 1).take p = (d.take (p + 1)).drop 1 := by
            rw [List.take_drop, List.take_take, Nat.min_eq_left (by omega), add_comm]
          rw [e1]
          have e2 : lv ((d.take (p + 1)).drop 1) = lv (d.take (p + 1)) := by
            cases hdd : d with
            | nil => rfl
            | cons a l => rw [hdd] at h0; simp at h0; simp [h0, lv_cons]
          rw [e2, List.take_succ_eq_append_getElem (by omega), lv_append, m4,
            List.getD_eq_getElem _ _ (by omega)]
          simp [lv_cons]
      obtain ⟨s, s1, s2, s3⟩ := hgoal
      have hB2 : 100000000 ^ (p - 1) = 100000000 ^ (p - 2) * 100000000 := by
        rw [← pow_succ]; congr 1; omega
      have key : (colsF x.data v.data p * 100000000 + s) * 100000000 ^ 0 * 100000000 ^ (p - 1)
          = colsF x.data v.data p * 100000000 ^ p + s * 100000000 ^ (p - 1) := by
        rw [hB]; ring
      refine ⟨by simp [hml], hmo.set _ _ (by norm_num), ?_, 0, by norm_num, by simp, ?_, ?_, ?_⟩
      · apply head_ne_of_take (hmo.set _ _ (by norm_num)) (p := p) (by omega) (by simp; omega)
        rw [s3, hB2]
        exact le_trans (Nat.mul_le_mul_right _ hge) (Nat.le_add_right _ _)
      · intro hpe; rw [s3, key, s2 hpe]; simpa using b1
      · rw [s3, key]
        apply Nat.add_le_add b1
        rw [hB]; exact Nat.mul_le_mul_right _ (by omega)
      · rw [s3, key]
        refine le_trans b2 ?_
        rw [add_mul]
        have := Nat.add_le_add_left hErr (colsF x.data v.data p * 100000000 ^ p)
        omega
    · rw [if_neg h0]
      have key : colsF x.data v.data p * 100000000 ^ 1 * 100000000 ^ (p - 1)
          = colsF x.data v.data p * 100000000 ^ p := by
        rw [hB]; ring
      refine ⟨m1, m2, h0, 1, le_refl _, by simp, ?_, ?_, ?_⟩
      · intro _; rw [m4, key]; exact b1
      · rw [m4, key]; exact le_trans b1 (Nat.le_add_right _ _)
      · rw [m4, key]
        refine le_trans b2 ?_
        rw [add_mul]
        exact Nat.add_le_add_left hErr _


/-! ### from limbs to magnitudes -/

/-- The first `p` limbs determine the magnitude up to one unit of limb `p - 1`. -/
theorem mag_prefix {c : Cfg} {x : EFloat} (hx : WF c x) {p : Nat} (hp : p ≤ c.elems) :
    (lv (x.data.take p) : ℚ) * (10 : ℚ) ^ (x.exp - 8 * ((p : ℤ) - 1)) ≤ mag x ∧
    mag x < ((lv (x.data.take p) : ℚ) + 1) * (10 : ℚ) ^ (x.exp - 8 * ((p : ℤ) - 1)) := by
  have h1 : lv x.data = lv (x.data.take p) * 100000000 ^ (c.elems - p) + lv (x.data.drop p) := by
    conv_lhs => rw [← List.take_append_drop p x.data]
    rw [lv_append, List.length_drop, hx.len]
  have h2 := lv_lt (hx.ok.drop p)
  rw [List.length_drop, hx.len] at h2
  have hu : (10 : ℚ) ^ (x.exp - 8 * ((p : ℤ) - 1)) = ((100000000 ^ (c.elems - p) : Nat) : ℚ) * ulp c x := by
    unfold ulp
    rw [← p10_base, ← p10_add]; congr 1
    push_cast [Nat.cast_sub hp]; ring
  rw [mag_eq hx, hu, ← mul_assoc, ← mul_assoc]
  constructor
  · apply mul_le_mul_of_nonneg_right _ (ulp_pos c x).le
    have : lv (x.data.take p) * 100000000 ^ (c.elems - p) ≤ lv x.data := by omega
    exact_mod_cast this
  · apply mul_lt_mul_of_pos_right _ (ulp_pos c x)
    have : lv x.data < (lv (x.data.take p) + 1) * 100000000 ^ (c.elems - p) := by
      rw [add_mul, one_mul]; omega
    exact_mod_cast this

theorem mag_full {c : Cfg} {x : EFloat} (hx : WF c x) :
    mag x = (lv (x.data.take c.elems) : ℚ) * (10 : ℚ) ^ (x.exp - 8 * ((c.elems : ℤ) - 1)) := by
  rw [List.take_of_length_le (by rw [hx.len]), mag_eq hx]; rfl

/-- Pure arithmetic: bounds on a product from bounds on the leading parts.  `w` is the weight of a
unit, `P = B^(p-1)`. -/
theorem mul_bounds {U V R D P E W a b r : ℚ} (hW : 0 < W) (hU : 0 ≤ U) (hV : 0 ≤ V)
    (hP1 : 0 < P) (hD : D ≤ 100000000)
    (a1 : U * W ≤ a) (a2 : a < (U + 1) * W) (b1 : V ≤ b) (b2 : b < V + 1)
    (r1 : R * (D * P * W) ≤ r) (r2 : r < (R + 1) * (D * P * W))
    (hU2 : U + 1 ≤ 100000000 * P) (hV2 : V + 1 ≤ 100000000 * P)
    (up : R * D * P ≤ U * V + 100000000 * P) (lo : U * V ≤ R * D * P + E * (100000000 * P)) :
    r - a * b ≤ 2 * (100000000 * P * W) ∧ a * b - r ≤ (E + 2) * (100000000 * P * W) := by
  have ha : 0 ≤ a := le_trans (by positivity) a1
  have hab1 : U * W * V ≤ a * b := mul_le_mul a1 b1 hV ha
  have hab2 : a * b ≤ (U + 1) * W * (V + 1) := mul_le_mul a2.le b2.le (by linarith) (by positivity)
  have h1 := mul_le_mul_of_nonneg_right up hW.le
  have h2 := mul_le_mul_of_nonneg_right lo hW.le
  have h3 := mul_le_mul_of_nonneg_right (mul_le_mul_of_nonneg_right hD hP1.le) hW.le
  have h4 := mul_le_mul_of_nonneg_right (add_le_add hU2 hV2) hW.le
  constructor
  · nlinarith
  · nlinarith

/-- Range tests of `operator*=`, in words: the sum of the exponents is at the upper limit and
neither is negative ... -/
def MulOver (x v : EFloat) : Prop := 0 ≤ x.exp ∧ 0 ≤ v.exp ∧ maxExp10 ≤ x.exp + v.exp
/-- ... or at the lower limit and both are negative. -/
def MulUnder (x v : EFloat) : Prop := x.exp < 0 ∧ v.exp < 0 ∧ x.exp + v.exp ≤ -maxExp10

theorem mulAssignG_unfold {c : Cfg} {self : Bool} {x v : EFloat} (hx : FinWF c x) (hv : FinWF c v)
    (zx : x.data.headD 0 ≠ 0) (zv : v.data.headD 0 ≠ 0) :
    (MulOver x v → mulAssignG c self x v = infSigned c (decide (x.neg ≠ v.neg))) ∧
    (MulUnder x v → mulAssignG c self x v = zero c) ∧
    (¬ MulOver x v → ¬ MulUnder x v → mulAssignG c self x v =
      { x with data := (mulData c self x v).1, exp := x.exp + v.exp + (mulData c self x v).2, neg := decide (x.neg ≠ v.neg) }) := by
  have e1 : x.isnan = false := by simp [EFloat.isnan, hx.fin]
  have e2 : v.isnan = false := by simp [EFloat.isnan, hv.fin]
  have e3 : x.isinf = false := by simp [EFloat.isinf, hx.fin]
  have e4 : v.isinf = false := by simp [EFloat.isinf, hv.fin]
  have e5 : x.iszero = false := (iszero_false hx.fin).2 zx
  have e6 : v.iszero = false := (iszero_false hv.fin).2 zv
  have e7 : ∀ (b : Bool), ¬ ((false || false || false && b || false && b) = true) := by simp
  have hu : mulAssignG c self x v =
      (if decide (x.exp < 0) = decide (v.exp < 0) ∧ (if decide (v.exp < 0) = true then -v.exp else v.exp) ≥ maxExp10 - (if decide (x.exp < 0) = true then -x.exp else x.exp) then
      (if decide (x.exp < 0) = true then zero c else infSigned c (decide (x.neg ≠ v.neg)))
    else { x with data := (mulData c self x v).1, exp := x.exp + v.exp + (mulData c self x v).2, neg := decide (x.neg ≠ v.neg) }) := by
    unfold mulAssignG
    simp only [e1, e2, e3, e4, e5, e6, Bool.or_self, Bool.and_self]
    simp only [Bool.false_eq_true, if_false]
  unfold MulOver MulUnder
  rw [hu]
  refine ⟨?_, ?_, ?_⟩
  · rintro ⟨h1, h2, h3⟩
    have a1 : decide (x.exp < 0) = false := decide_eq_false (by omega)
    have a2 : decide (v.exp < 0) = false := decide_eq_false (by omega)
    rw [a1, a2]
    simp only [Bool.false_eq_true, if_false]
    rw [if_pos ⟨trivial, by omega⟩]
  · rintro ⟨h1, h2, h3⟩
    have a1 : decide (x.exp < 0) = true := decide_eq_true (by omega)
    have a2 : decide (v.exp < 0) = true := decide_eq_true (by omega)
    rw [a1, a2]
    simp only [if_true]
    rw [if_pos ⟨trivial, by omega⟩]
  · intro h1 h2
    rw [if_neg]
    rintro ⟨h3, h4⟩
    by_cases hxs : x.exp < 0
    · have a1 : decide (x.exp < 0) = true := decide_eq_true hxs
      have a2 : decide (v.exp < 0) = true := by rw [← h3]; exact a1
      rw [a1, a2] at h4
      simp only [if_true] at h4
      have := of_decide_eq_true a2
      exact h2 ⟨hxs, this, by omega⟩
    · have a1 : decide (x.exp < 0) = false := decide_eq_false hxs
      have a2 : decide (v.exp < 0) = false := by rw [← h3]; exact a1
      rw [a1, a2] at h4
      simp only [Bool.false_eq_true, if_false] at h4
      have := of_decide_eq_false a2
      exact h1 ⟨by omega, by omega, by omega⟩

theorem lv_take_succ_le {l : List Nat} (h : OK l) {p : Nat} (hp : p ≤ l.length) (hp1 : 1 ≤ p) :
    (lv (l.take p) : ℚ) + 1 ≤ 100000000 * ((100000000 ^ (p - 1) : Nat) : ℚ) := by
  have := lv_lt (h.take p)
  rw [List.length_take, Nat.min_eq_left hp, Bpow_pred hp1] at this
  exact_mod_cast this

/-- The product inside the range: fields of the result and the two error bounds. -/
theorem mulAssignG_spec {c : Cfg} {self : Bool} {x v : EFloat} (hx : FinWF c x) (hv : FinWF c v)
    (zx : x.data.headD 0 ≠ 0) (zv : v.data.headD 0 ≠ 0) (hself : self = true → x.data = v.data)
    (ho : ¬ MulOver x v) (hu : ¬ MulUnder x v) {p : Nat} (hp : p = min x.prec v.prec)
    {r : EFloat} (hr : mulAssignG c self x v = r) :
    FinWF c r ∧ r.data.headD 0 ≠ 0 ∧ r.neg = decide (x.neg ≠ v.neg) ∧ r.prec = x.prec ∧
    (r.exp = x.exp + v.exp ∨ r.exp = x.exp + v.exp + 8) ∧
    (p = c.elems → mag r ≤ mag x * mag v ∧
      mag x * mag v - mag r ≤ (mulErr p : ℚ) * (10 : ℚ) ^ (16 - 8 * (p : ℤ)) * (mag x * mag v)) ∧
    mag r - mag x * mag v ≤ 2 * (10 : ℚ) ^ (16 - 8 * (p : ℤ)) * (mag x * mag v) ∧
    mag x * mag v - mag r ≤ ((mulErr p : ℚ) + 2) * (10 : ℚ) ^ (16 - 8 * (p : ℤ)) * (mag x * mag v) := by
  obtain ⟨m1, m2, m3, δ, d1, d2, d3, d4, d5⟩ := mulData_spec hx.toWF hv.toWF zx zv hself hp
  have hr' : r = { x with data := (mulData c self x v).1, exp := x.exp + v.exp + (mulData c self x v).2, neg := decide (x.neg ≠ v.neg) } := by
    rw [← hr]; exact (mulAssignG_unfold hx hv zx zv).2.2 ho hu
  generalize mulData c self x v = md at *
  have rd : r.data = md.1 := by rw [hr']
  have re : r.exp = x.exp + v.exp + 8 * (δ : ℤ) := by rw [hr', ← d2]
  have h2x := hx.prec_lo; have h2v := hv.prec_lo
  have hNx := hx.prec_hi; have hNv := hv.prec_hi
  have hp2 : 2 ≤ p := by omega
  have hpN : p ≤ c.elems := by omega
  have hwf : FinWF c r := by
    refine ⟨⟨by rw [rd]; exact m1, by rw [rd]; exact m2, ?_, by rw [hr']; exact hx.prec_lo, by rw [hr']; exact hx.prec_hi, ?_⟩, by rw [hr']; exact hx.fin⟩
    · rw [re]
      exact dvd_add (dvd_add hx.exp8 hv.exp8) (Dvd.intro _ rfl)
    · intro _ h0
      rw [rd] at h0
      exact absurd h0 m3
  refine ⟨hwf, by rw [rd]; exact m3, by rw [hr'], by rw [hr'], ?_, ?_⟩
  · rw [re]
    rcases Nat.le_one_iff_eq_zero_or_eq_one.1 d1 with h | h <;> subst h
    · left; simp
    · right; simp
  obtain ⟨a1, a2⟩ := mag_prefix hx.toWF (p := p) hpN
  obtain ⟨b1, b2⟩ := mag_prefix hv.toWF (p := p) hpN
  obtain ⟨r1, r2⟩ := mag_prefix hwf.toWF (p := p) hpN
  have fullx : p = c.elems → mag x = (lv (x.data.take p) : ℚ) * (10 : ℚ) ^ (x.exp - 8 * ((p : ℤ) - 1)) := by
    rintro rfl; exact mag_full hx.toWF
  have fullv : p = c.elems → mag v = (lv (v.data.take p) : ℚ) * (10 : ℚ) ^ (v.exp - 8 * ((p : ℤ) - 1)) := by
    rintro rfl; exact mag_full hv.toWF
  have fullr : p = c.elems → mag r = (lv (r.data.take p) : ℚ) * (10 : ℚ) ^ (r.exp - 8 * ((p : ℤ) - 1)) := by
    rintro rfl; exact mag_full hwf.toWF
  rw [← rd] at d3 d4 d5
  have hU2 := lv_take_succ_le hx.ok (p := p) (by rw [hx.len]; exact hpN) (by omega)
  have hV2 := lv_take_succ_le hv.ok (p := p) (by rw [hv.len]; exact hpN) (by omega)
  -- lower bound of the exact product
  have hlow : (10 : ℚ) ^ x.exp * (10 : ℚ) ^ v.exp ≤ mag x * mag v :=
    mul_le_mul (mag_ge hx.toWF zx) (mag_ge hv.toWF zv) (p10_pos _).le (mag_nonneg x)
  rw [Bpow_pred (by omega : 1 ≤ p)] at d4 d5
  generalize hU : lv (x.data.take p) = U at *
  generalize hV : lv (v.data.take p) = V at *
  generalize hR : lv (r.data.take p) = R at *
  have hPz : ((100000000 ^ (p - 1) : Nat) : ℚ) = (10 : ℚ) ^ (8 * ((p : ℤ) - 1)) := by
    rw [← p10_base]; congr 1; push_cast [Nat.cast_sub (by omega : 1 ≤ p)]; ring
  have hDz : ((100000000 ^ δ : Nat) : ℚ) = (10 : ℚ) ^ (8 * (δ : ℤ)) := by rw [← p10_base]
  have hD : ((100000000 ^ δ : Nat) : ℚ) ≤ 100000000 := by
    rcases Nat.le_one_iff_eq_zero_or_eq_one.1 d1 with h | h <;> subst h <;> norm_num
  generalize hP : (100000000 ^ (p - 1) : Nat) = P at *
  generalize hDD : (100000000 ^ δ : Nat) = D at *
  have hPpos : (0 : ℚ) < (P : ℚ) := by rw [hPz]; exact p10_pos _
  have hDpos : (0 : ℚ) < (D : ℚ) := by rw [hDz]; exact p10_pos _
  have q4 : (R : ℚ) * D * P ≤ U * V + 100000000 * P := by exact_mod_cast d4
  have q5 : (U : ℚ) * V ≤ (R : ℚ) * D * P + (mulErr p : ℚ) * (100000000 * P) := by exact_mod_cast d5
  have hwr : (10 : ℚ) ^ (r.exp - 8 * ((p : ℤ) - 1)) =
      (D : ℚ) * P * ((10 : ℚ) ^ (x.exp - 8 * ((p : ℤ) - 1)) * (10 : ℚ) ^ (v.exp - 8 * ((p : ℤ) - 1))) := by
    rw [hPz, hDz, re, ← p10_add, ← p10_add, ← p10_add]; congr 1; ring
  have hgap : (100000000 : ℚ) * P * ((10 : ℚ) ^ (x.exp - 8 * ((p : ℤ) - 1)) * (10 : ℚ) ^ (v.exp - 8 * ((p : ℤ) - 1)))
      ≤ (10 : ℚ) ^ (16 - 8 * (p : ℤ)) * (mag x * mag v) := by
    refine le_trans (le_of_eq ?_) (mul_le_mul_of_nonneg_left hlow (p10_pos _).le)
    rw [hPz, show (100000000 : ℚ) = (10 : ℚ) ^ (8 : ℤ) by norm_num, ← p10_add, ← p10_add, ← p10_add,
      ← p10_add, ← p10_add]
    congr 1; ring
  generalize hw1 : (10 : ℚ) ^ (x.exp - 8 * ((p : ℤ) - 1)) = w1 at *
  generalize hw2 : (10 : ℚ) ^ (v.exp - 8 * ((p : ℤ) - 1)) = w2 at *
  have w1p : 0 < w1 := by rw [← hw1]; exact p10_pos _
  have w2p : 0 < w2 := by rw [← hw2]; exact p10_pos _
  constructor
  · intro hpe
    have t1 : (R : ℚ) * D * P ≤ U * V := by exact_mod_cast d3 hpe
    have t2 := mul_le_mul_of_nonneg_right t1 (mul_pos w1p w2p).le
    have t3 := mul_le_mul_of_nonneg_right q5 (mul_pos w1p w2p).le
    have t4 : mag x * mag v = U * V * (w1 * w2) := by rw [fullx hpe, fullv hpe]; ring
    have t5 : mag r = R * D * P * (w1 * w2) := by rw [fullr hpe, hwr]; ring
    refine ⟨by rw [t4, t5]; exact t2, ?_⟩
    have t6 := mul_le_mul_of_nonneg_left hgap (Nat.cast_nonneg (α := ℚ) (mulErr p))
    rw [mul_assoc (mulErr p : ℚ)]
    refine le_trans ?_ t6
    rw [t4, t5]
    linarith
  · rw [hwr] at r1 r2
    -- write mag v = b * w2
    have hb1 : (V : ℚ) ≤ mag v / w2 := by rw [le_div_iff₀ w2p]; exact b1
    have hb2 : mag v / w2 < (V : ℚ) + 1 := by rw [div_lt_iff₀ w2p]; exact b2
    have key := mul_bounds (W := w1 * w2) (a := mag x * w2) (b := mag v / w2) (r := mag r)
      (mul_pos w1p w2p) (Nat.cast_nonneg U) (Nat.cast_nonneg V) hPpos hD
      (by nlinarith) (by nlinarith) hb1 hb2 r1 r2 hU2 hV2 q4 q5
    have e : mag x * w2 * (mag v / w2) = mag x * mag v := by rw [mul_assoc, mul_div_assoc', mul_div_cancel_left₀ _ w2p.ne']
    rw [e] at key
    have hE : (0 : ℚ) ≤ (mulErr p : ℚ) + 2 := by positivity
    constructor
    · refine le_trans key.1 ?_
      rw [mul_assoc 2 ((10 : ℚ) ^ _)]
      exact mul_le_mul_of_nonneg_left hgap (by norm_num)
    · refine le_trans key.2 ?_
      rw [mul_assoc ((mulErr p : ℚ) + 2) ((10 : ℚ) ^ _)]
      exact mul_le_mul_of_nonneg_left hgap hE


theorem mulAssignG_zero {c : Cfg} {self : Bool} {x v : EFloat} (hx : x.cls = .finite) (hv : v.cls = .finite)
    (h : x.data.headD 0 = 0 ∨ v.data.headD 0 = 0) : mulAssignG c self x v = zero c := by
  have e1 : x.isnan = false := by simp [EFloat.isnan, hx]
  have e2 : v.isnan = false := by simp [EFloat.isnan, hv]
  have e3 : x.isinf = false := by simp [EFloat.isinf, hx]
  have e4 : v.isinf = false := by simp [EFloat.isinf, hv]
  have e5 : (x.iszero || v.iszero) = true := by
    rcases h with h | h
    · rw [(iszero_iff hx).2 h]; simp
    · rw [(iszero_iff hv).2 h]; simp
  unfold mulAssignG
  simp only [e1, e2, e3, e4, e5]
  simp

theorem mulAssignG_nonfin {c : Cfg} {self : Bool} {x v : EFloat} (h : x.cls ≠ .finite ∨ v.cls ≠ .finite) :
    mulAssignG c self x v =
      if x.cls = .nan ∨ v.cls = .nan ∨ (x.cls = .finite ∧ x.data.headD 0 = 0) ∨ (v.cls = .finite ∧ v.data.headD 0 = 0)
      then nanV c else infSigned c (decide (x.neg ≠ v.neg)) := by
  unfold mulAssignG
  simp only [EFloat.isnan, EFloat.isinf, EFloat.iszero, EFloat.front]
  rcases hx : x.cls with _ | _ | _ <;> rcases hv : v.cls with _ | _ | _ <;> simp_all

theorem mulAssignG_WF {c : Cfg} {self : Bool} {x v : EFloat} (hx : WF c x) (hv : WF c v)
    (hself : self = true → x.data = v.data) : WF c (mulAssignG c self x v) := by
  by_cases hfx : x.cls = .finite
  · by_cases hfv : v.cls = .finite
    · have fx : FinWF c x := ⟨hx, hfx⟩
      have fv : FinWF c v := ⟨hv, hfv⟩
      by_cases zx : x.data.headD 0 = 0
      · rw [mulAssignG_zero hfx hfv (Or.inl zx)]; exact (FinWF_zero c).toWF
      by_cases zv : v.data.headD 0 = 0
      · rw [mulAssignG_zero hfx hfv (Or.inr zv)]; exact (FinWF_zero c).toWF
      by_cases ho : MulOver x v
      · rw [(mulAssignG_unfold fx fv zx zv).1 ho]; exact WF_infSigned c _
      by_cases hu : MulUnder x v
      · rw [(mulAssignG_unfold fx fv zx zv).2.1 hu]; exact (FinWF_zero c).toWF
      exact (mulAssignG_spec fx fv zx zv hself ho hu rfl rfl).1.toWF
    · rw [mulAssignG_nonfin (Or.inr hfv)]
      split
      · exact WF_mkClass c _
      · exact WF_infSigned c _
  · rw [mulAssignG_nonfin (Or.inl hfx)]
    split
    · exact WF_mkClass c _
    · exact WF_infSigned c _

theorem mulAssign_WF {c : Cfg} {x v : EFloat} (hx : WF c x) (hv : WF c v) : WF c (mulAssign c x v) :=
  mulAssignG_WF hx hv (by simp)

theorem mulAssignSelf_eq (c : Cfg) (x : EFloat) : mulAssignSelf c x = mulAssign c x x := by
  have h : mulData c true x x = mulData c false x x := by
    unfold mulData
    simp only [mulLoopSelf_eq, if_true, Bool.false_eq_true, if_false]
  unfold mulAssignSelf mulAssign mulAssignG
  simp only [h]

end EFX
