import Verif.Lemmas.Int
/-! `mul_unsigned_long_long`, `div_unsigned_long_long` on finite operands. -/

namespace EFX
open Spec

theorem take_append_left_eq {a b : List Nat} {p : Nat} (h : a.length = p) : (a ++ b).take p = a :=
  List.take_left' h

theorem lv_ge_of_head {l : List Nat} (h : l.headD 0 ≠ 0) : 100000000 ^ (l.length - 1) ≤ lv l := by
  cases l with
  | nil => simp at h
  | cons a l =>
    rw [lv_cons]
    simp only [List.headD_cons, ne_eq] at h
    simp only [List.length_cons, Nat.add_sub_cancel]
    calc 100000000 ^ l.length = 1 * 100000000 ^ l.length := (one_mul _).symm
      _ ≤ a * 100000000 ^ l.length := Nat.mul_le_mul_right _ (Nat.one_le_iff_ne_zero.2 h)
      _ ≤ _ := Nat.le_add_right _ _

theorem head_take_ne {l : List Nat} {p : Nat} (hp : 1 ≤ p) (h : l.headD 0 ≠ 0) : (l.take p).headD 0 ≠ 0 := by
  obtain ⟨q, rfl⟩ : ∃ q, p = q + 1 := ⟨p - 1, by omega⟩
  cases l with
  | nil => simp at h
  | cons a l => simpa using h

theorem mulUnsigned_unfold {c : Cfg} {x : EFloat} {n : Nat} (hx : FinWF c x) (zx : x.data.headD 0 ≠ 0)
    (h2 : 2 ≤ n) (hn : n < 100000000) :
    mulUnsigned c x n =
      (let r := mulLoopN n (x.data.take x.prec)
       let d := r.1 ++ x.data.drop x.prec
       if r.2 ≠ 0 then { x with data := pushFront r.2 x.prec d, exp := x.exp + 8 }
       else { x with data := d }) := by
  have h1 : x.isnan = false := by simp [EFloat.isnan, hx.fin]
  have h3 : x.isinf = false := by simp [EFloat.isinf, hx.fin]
  have h4 : x.iszero = false := (iszero_false hx.fin).2 zx
  unfold mulUnsigned
  have h5 : decide (n = 0) = false := decide_eq_false (by omega)
  rw [h1, h3, h4, h5]
  simp only [Bool.false_and, Bool.or_false, Bool.false_eq_true, if_false]
  have hw : w32 n = n := w32_id (by omega)
  rw [if_neg (by rw [maskN]; omega), if_neg (by omega), hw]
  have hc := (mulLoopN_spec (n := n) (by omega) hn (hx.ok.take x.prec)).2.2.1
  rw [w32_id (by omega)]

/-- `x * n` for `2 ≤ n < 10^8`, any working precision: valid and not zero; at full precision the
exact product cut to the stored limbs. -/
theorem mulUnsigned_spec {c : Cfg} {x : EFloat} {n : Nat} (hx : FinWF c x) (zx : x.data.headD 0 ≠ 0)
    (h2 : 2 ≤ n) (hn : n < 100000000) :
    FinWF c (mulUnsigned c x n) ∧ (mulUnsigned c x n).data.headD 0 ≠ 0 ∧
    (mulUnsigned c x n).neg = x.neg ∧ (mulUnsigned c x n).prec = x.prec ∧
    ((mulUnsigned c x n).exp = x.exp ∨ (mulUnsigned c x n).exp = x.exp + 8) ∧
    (x.prec = c.elems →
      mag (mulUnsigned c x n) = chop (ulp c (mulUnsigned c x n)) (mag x * n)) := by
  rw [mulUnsigned_unfold hx zx h2 hn]
  have hp2 := hx.prec_lo
  have hpN := hx.prec_hi
  obtain ⟨m1, m2, m3, m4⟩ := mulLoopN_spec (n := n) (by omega) hn (hx.ok.take x.prec)
  have hlen : (x.data.take x.prec).length = x.prec := by rw [List.length_take, hx.len]; omega
  rw [hlen] at m1 m4
  generalize hr : mulLoopN n (x.data.take x.prec) = r at *
  have hdl : (r.1 ++ x.data.drop x.prec).length = c.elems := by
    rw [List.length_append, m1, List.length_drop, hx.len]; omega
  have hdo : OK (r.1 ++ x.data.drop x.prec) := OK.append m2 (hx.ok.drop _)
  have hge : 100000000 ^ (x.prec - 1) ≤ lv (x.data.take x.prec) := by
    have := lv_ge_of_head (head_take_ne (p := x.prec) (by omega) zx)
    rwa [hlen] at this
  simp only
  by_cases hc : r.2 = 0
  · rw [if_neg (by simpa using hc)]
    rw [hc, zero_mul, add_zero] at m4
    have hhd : (r.1 ++ x.data.drop x.prec).headD 0 ≠ 0 := by
      apply head_ne_of_take hdo (p := x.prec) (by omega) (by omega)
      rw [List.take_left' m1, m4]
      exact le_trans hge (Nat.le_mul_of_pos_right _ (by omega))
    have hF : FinWF c { x with data := r.1 ++ x.data.drop x.prec } :=
      ⟨⟨hdl, hdo, hx.exp8, hx.prec_lo, hx.prec_hi, fun _ h => absurd h hhd⟩, hx.fin⟩
    refine ⟨hF, hhd, rfl, rfl, Or.inl rfl, ?_⟩
    intro hp
    have hm : mag { x with data := r.1 ++ x.data.drop x.prec } = mag x * n := by
      rw [mag_eq hF.toWF, mag_eq hx.toWF]
      have e1 : lv (r.1 ++ x.data.drop x.prec) = lv x.data * n := by
        rw [List.drop_of_length_le (by rw [hx.len, hp]), List.append_nil, m4, List.take_of_length_le (by rw [hx.len, hp])]
      simp only [e1]
      unfold ulp; push_cast; ring
    rw [← hm]; exact (chop_mag hF.toWF).symm
  · rw [if_pos hc]
    obtain ⟨q1, q2, q3⟩ := pushFront_spec hdo (carry := r.2) (p := x.prec) (P := x.prec) (by omega) (by omega) (le_refl _)
      (by omega)
    have hhd : (pushFront r.2 x.prec (r.1 ++ x.data.drop x.prec)).headD 0 ≠ 0 := by
      unfold pushFront; simpa using hc
    have hF : FinWF c { x with data := pushFront r.2 x.prec (r.1 ++ x.data.drop x.prec), exp := x.exp + 8 } :=
      ⟨⟨by rw [q1, hdl], q2, dvd_add hx.exp8 (dvd_refl _), hx.prec_lo, hx.prec_hi, fun _ h => absurd h hhd⟩, hx.fin⟩
    refine ⟨hF, hhd, rfl, rfl, Or.inr rfl, ?_⟩
    intro hp
    have e0 : lv (pushFront r.2 x.prec (r.1 ++ x.data.drop x.prec)) = lv x.data * n / 100000000 := by
      have e1 : (pushFront r.2 x.prec (r.1 ++ x.data.drop x.prec)).take x.prec
          = pushFront r.2 x.prec (r.1 ++ x.data.drop x.prec) := List.take_of_length_le (by rw [q1, hdl, hp])
      rw [← e1, q3, List.take_left' m1, m4, List.take_of_length_le (by rw [hx.len, hp])]
    have hu : ulp c { x with data := pushFront r.2 x.prec (r.1 ++ x.data.drop x.prec), exp := x.exp + 8 } =
        ulp c x * ((100000000 : ℕ) : ℚ) := by
      unfold ulp
      simp only
      rw [show x.exp + 8 - 8 * ((c.elems : ℤ) - 1) = (x.exp - 8 * ((c.elems : ℤ) - 1)) + 8 by ring, p10_add]
      norm_num
    have := chop_nat (ulp_pos c x) (lv x.data * n) 100000000 (by norm_num)
    rw [mag_eq hF.toWF, hu]
    simp only [e0]
    rw [← this, mag_eq hx.toWF]
    congr 1
    push_cast; ring

/-! ### division -/

/-- The limbs `div_unsigned_long_long` stores. -/
def divData (x : EFloat) (n : Nat) : List Nat × Int :=
  let r := divLoopN n (x.data.take x.prec) 0
  let d := r.1 ++ x.data.drop x.prec
  if d.headD 0 = 0 then
    (((d.take (x.prec - 1)).drop 1 ++ d.drop (x.prec - 2)).set (x.prec - 1) (w32 (w64 (r.2 * mask) / n)), -8)
  else (d, 0)

theorem divSmall_eq {c : Cfg} {x : EFloat} {n : Nat} (h : 2 ≤ n) :
    divSmall c x n =
      (let y : EFloat := { x with data := (divData x n).1, exp := x.exp + (divData x n).2 }
       if y.iszero then zero c else y) := by
  unfold divSmall divData
  have h1 : n > 1 := by omega
  simp only [if_pos h1]
  by_cases h0 : ((divLoopN n (x.data.take x.prec) 0).1 ++ x.data.drop x.prec).headD 0 = 0
  · simp only [if_pos h0]; rfl
  · simp only [if_neg h0, add_zero]

/-- First two limbs of the quotient. -/
theorem divLoop_heads {n a b : Nat} {l : List Nat} (hn1 : 1 ≤ n) (hn : n < 100000000) (ha : a < 100000000)
    (hb : b < 100000000) :
    (divLoopN n (a :: b :: l) 0).1 = a / n :: (b + (a % n) * 100000000) / n :: (divLoopN n l ((b + (a % n) * 100000000) % n)).1 := by
  have step : ∀ u k (l : List Nat), u < 100000000 → k < n → (divLoopN n (u :: l) k).1 =
      (u + k * 100000000) / n :: (divLoopN n l ((u + k * 100000000) % n)).1 := by
    intro u k l hu hk
    obtain ⟨s1, s2, s3, s4⟩ := divN_step hu hn hn1 hk
    rw [divLoopN]
    simp only
    have et : w64 (u + w64 (k * mask)) = u + k * 100000000 := by unfold w64 mask; omega
    rw [et]
    generalize hT : u + k * 100000000 = T at *
    rw [w32_id (by omega : T / n < _)]
    generalize hQ : T / n = Q at *
    have ek : wsub64 T (w64 (n * Q)) = T % n := by
      unfold wsub64 w64
      generalize n * Q = nQ at *
      generalize T % n = R at *
      omega
    rw [ek]
  rw [step a 0 _ ha (by omega), Nat.zero_mul, Nat.add_zero, step b _ _ hb (Nat.mod_lt _ (by omega))]

theorem divTail_lt {r n : Nat} (hn : n < 100000000) (hr : r < n) :
    w32 (w64 (r * mask) / n) = r * 100000000 / n ∧ r * 100000000 / n < 100000000 := by
  have h1 : r * 100000000 / n < 100000000 := by
    apply Nat.div_lt_of_lt_mul; exact Nat.mul_lt_mul_of_pos_right hr (by norm_num)
  refine ⟨?_, h1⟩
  rw [maskN, w64_id (by omega), w32_id (by omega)]

/-- Shape of the limbs stored by the division loop. -/
theorem divData_spec {c : Cfg} {x : EFloat} {n : Nat} (hx : FinWF c x) (zx : x.data.headD 0 ≠ 0)
    (h2 : 2 ≤ n) (hn : n < 100000000) :
    (divData x n).1.length = c.elems ∧ OK (divData x n).1 ∧
    ((n ≤ x.data.headD 0 ∧ (divData x n).2 = 0 ∧ (divData x n).1.headD 0 ≠ 0) ∨
     (x.data.headD 0 < n ∧ (divData x n).2 = -8 ∧ (3 ≤ x.prec → (divData x n).1.headD 0 ≠ 0))) := by
  have hp2 := hx.prec_lo
  have hpN := hx.prec_hi
  have h7 := elems_ge c
  obtain ⟨m1, m2, m3, m4⟩ := divLoopN_spec (n := n) (by omega) hn (hx.ok.take x.prec) (k := 0) (by omega)
  have hlen : (x.data.take x.prec).length = x.prec := by rw [List.length_take, hx.len]; omega
  rw [hlen] at m1
  obtain ⟨t1, t2⟩ := divTail_lt hn m3
  have hdl : ((divLoopN n (x.data.take x.prec) 0).1 ++ x.data.drop x.prec).length = c.elems := by
    rw [List.length_append, m1, List.length_drop, hx.len]; omega
  have hdo : OK ((divLoopN n (x.data.take x.prec) 0).1 ++ x.data.drop x.prec) := OK.append m2 (hx.ok.drop _)
  -- first two limbs
  obtain ⟨a, b, l, hab⟩ : ∃ a b l, x.data = a :: b :: l := by
    have := hx.len
    match h : x.data with
    | [] => rw [h] at this; simp at this; omega
    | [_] => rw [h] at this; simp at this; omega
    | a :: b :: l => exact ⟨a, b, l, rfl⟩
  have ha : a < 100000000 := hx.ok a (by rw [hab]; simp)
  have hb : b < 100000000 := hx.ok b (by rw [hab]; simp)
  have ha0 : a ≠ 0 := by rw [hab] at zx; simpa using zx
  have hheads : (divLoopN n (x.data.take x.prec) 0).1 =
      a / n :: (b + (a % n) * 100000000) / n ::
        (divLoopN n (l.take (x.prec - 2)) ((b + (a % n) * 100000000) % n)).1 := by
    rw [hab]
    obtain ⟨q, hq⟩ : ∃ q, x.prec = q + 2 := ⟨x.prec - 2, by omega⟩
    rw [hq, List.take_succ_cons, List.take_succ_cons, divLoop_heads (by omega) hn ha hb]
    simp
  unfold divData
  simp only
  have hh : ((divLoopN n (x.data.take x.prec) 0).1 ++ x.data.drop x.prec).headD 0 = a / n := by
    rw [hheads]; rfl
  by_cases h0 : a / n = 0
  · rw [if_pos (by rw [hh]; exact h0)]
    have han : a < n := by
      rcases Nat.div_eq_zero_iff.1 h0 with h | h <;> omega
    rw [t1]
    refine ⟨?_, ?_, Or.inr ⟨by rw [hab]; simpa using han, rfl, ?_⟩⟩
    · simp only [List.length_set, List.length_append, List.length_drop, List.length_take, m1, hx.len]; omega
    · refine OK.set (OK.append ((hdo.take _).drop _) (hdo.drop _)) _ _ t2
    · intro h3
      obtain ⟨q, hq⟩ : ∃ q, x.prec = q + 3 := ⟨x.prec - 3, by omega⟩
      rw [hheads, hq]
      simp only [List.cons_append, show q + 3 - 1 = q + 2 by omega, List.take_succ_cons, List.drop_succ_cons,
        List.drop_zero, List.set_cons_succ, List.headD_cons]
      have hlow : n ≤ b + (a % n) * 100000000 := by
        rw [Nat.mod_eq_of_lt han]
        have : 1 * 100000000 ≤ a * 100000000 := Nat.mul_le_mul_right _ (by omega)
        omega
      have := Nat.div_pos hlow (by omega)
      omega
  · rw [if_neg (by rw [hh]; exact h0)]
    refine ⟨hdl, hdo, Or.inl ⟨?_, rfl, by rw [hh]; exact h0⟩⟩
    rw [hab]
    simp only [List.headD_cons]
    by_contra hc
    exact h0 (Nat.div_eq_of_lt (by omega))

theorem divSmall_WF {c : Cfg} {x : EFloat} {n : Nat} (hx : FinWF c x) (zx : x.data.headD 0 ≠ 0)
    (hn : n < 100000000) : FinWF c (divSmall c x n) := by
  by_cases h2 : 2 ≤ n
  · rw [divSmall_eq h2]
    obtain ⟨a1, a2, a3⟩ := divData_spec hx zx h2 hn
    simp only
    by_cases hz : (divData x n).1.headD 0 = 0
    · rw [if_pos ((iszero_iff (x := { x with data := (divData x n).1, exp := x.exp + (divData x n).2 }) hx.fin).2 hz)]
      exact FinWF_zero c
    · rw [if_neg (by
        rw [(iszero_false (x := { x with data := (divData x n).1, exp := x.exp + (divData x n).2 }) hx.fin).2 hz]; simp)]
      refine ⟨⟨a1, a2, ?_, hx.prec_lo, hx.prec_hi, fun _ h => absurd h hz⟩, hx.fin⟩
      have h8 := hx.exp8
      show (8 : ℤ) ∣ x.exp + (divData x n).2
      rcases a3 with h | h <;> (rw [h.2.1]; omega)
  · unfold divSmall
    have h1 : ¬ n > 1 := by omega
    simp only [if_neg h1]
    rw [if_neg (by rw [(iszero_false hx.fin).2 zx]; simp)]
    exact hx

/-- The stored limbs against the exact quotient, at full precision. -/
theorem divData_lv {c : Cfg} {x : EFloat} {n : Nat} (hx : FinWF c x) (zx : x.data.headD 0 ≠ 0)
    (h2 : 2 ≤ n) (hn : n < 100000000) (hp : x.prec = c.elems) :
    (n ≤ x.data.headD 0 → lv (divData x n).1 = lv x.data / n) ∧
    (x.data.headD 0 < n →
      (lv (divData x n).1 : ℤ) - (lv x.data * 100000000 / n : ℕ) ≤ 99999999 * 100000000 ∧
      (lv x.data * 100000000 / n : ℕ) - (lv (divData x n).1 : ℤ) ≤ 99999999 * 100000000) := by
  have h7 := elems_ge c
  have htake : x.data.take x.prec = x.data := List.take_of_length_le (by rw [hx.len, hp])
  have hdrop : x.data.drop x.prec = [] := List.drop_of_length_le (by rw [hx.len, hp])
  obtain ⟨m1, m2, m3, m4⟩ := divLoopN_spec (n := n) (by omega) hn hx.ok (k := 0) (by omega)
  obtain ⟨_, _, a3⟩ := divData_spec hx zx h2 hn
  unfold divData at a3 ⊢
  simp only [htake, hdrop, List.append_nil] at a3 ⊢
  generalize hr : divLoopN n x.data 0 = r at *
  obtain ⟨t1, t2⟩ := divTail_lt hn m3
  rw [t1] at a3 ⊢
  rw [zero_mul, add_zero] at m4
  have hq : lv r.1 = lv x.data / n := by
    rw [m4, Nat.mul_add_div (by omega), Nat.div_eq_of_lt m3, Nat.add_zero]
  by_cases h0 : r.1.headD 0 = 0
  · rw [if_pos h0] at a3 ⊢
    simp only
    rcases a3 with ⟨_, h, _⟩ | ⟨hlt, _, _⟩
    · simp at h
    refine ⟨fun h => by omega, fun _ => ?_⟩
    have hl : r.1.length = c.elems := by rw [m1, hx.len]
    -- r.1 = 0 :: mid ++ [s, t]
    obtain ⟨mid, s, t, hmid, hml⟩ : ∃ mid s t, r.1 = 0 :: (mid ++ [s, t]) ∧ mid.length = c.elems - 3 := by
      cases hd : r.1 with
      | nil => rw [hd] at hl; simp at hl; omega
      | cons a w =>
        rw [hd] at h0 hl
        simp at h0 hl
        subst h0
        have hw : (w.drop (c.elems - 3)).length = 2 := by rw [List.length_drop]; omega
        match hwd : w.drop (c.elems - 3) with
        | [] => rw [hwd] at hw; simp at hw
        | [_] => rw [hwd] at hw; simp at hw
        | _ :: _ :: _ :: _ => rw [hwd] at hw; simp at hw
        | [s, t] =>
          refine ⟨w.take (c.elems - 3), s, t, ?_, by rw [List.length_take]; omega⟩
          rw [← hwd, List.take_append_drop]
    have hs : s < 100000000 := m2 s (by rw [hmid]; simp)
    have ht : t < 100000000 := m2 t (by rw [hmid]; simp)
    -- stored limbs: mid, s, s, q
    obtain ⟨N, hN⟩ : ∃ N, c.elems = N + 3 := ⟨c.elems - 3, by omega⟩
    have hst : ((r.1.take (x.prec - 1)).drop 1 ++ r.1.drop (x.prec - 2)).set (x.prec - 1) (r.2 * 100000000 / n)
        = mid ++ [s, s, r.2 * 100000000 / n] := by
      rw [hp, hmid, hN]
      rw [hN] at hml
      simp only [Nat.add_sub_cancel] at hml
      rw [show N + 3 - 1 = N + 2 by omega, show N + 3 - 2 = N + 1 by omega]
      simp only [List.take_succ_cons, List.drop_succ_cons, List.drop_zero]
      have e1 : (mid ++ [s, t]).take (N + 1) = mid ++ [s] := by
        rw [List.take_append, hml, List.take_of_length_le (by omega)]
        simp [show N + 1 - N = 1 by omega]
      have e2 : (mid ++ [s, t]).drop N = [s, t] := List.drop_left' hml
      rw [e1, e2, List.set_append_right _ _ (by simp [hml])]
      simp [hml, show N + 2 - (N + 1) = 1 by omega]
    rw [hst]
    -- exact quotient
    have hex : lv x.data * 100000000 / n = lv r.1 * 100000000 + r.2 * 100000000 / n := by
      rw [m4, add_mul, mul_assoc, Nat.mul_add_div (by omega)]
    rw [hex, hmid, lv_cons, lv_append, lv_append]
    clear * - hs ht
    generalize r.2 * 100000000 / n = q
    have e3 : lv [s, s, q] = s * 10000000000000000 + s * 100000000 + q := by simp [lv_cons]; ring
    have e4 : lv [s, t] = s * 100000000 + t := by simp [lv_cons]
    rw [e3, e4, List.length_append]
    have e5 : ([s, s, q] : List ℕ).length = 3 := rfl
    have e6 : ([s, t] : List ℕ).length = 2 := rfl
    rw [e5, e6]
    have e7 : 100000000 ^ 3 = 1000000000000000000000000 := by norm_num
    have e8 : 100000000 ^ 2 = 10000000000000000 := by norm_num
    rw [e7, e8, zero_mul, zero_add]
    generalize lv mid = L
    constructor <;> omega
  · rw [if_neg h0] at a3 ⊢
    simp only
    rcases a3 with ⟨h, _, _⟩ | ⟨_, h, _⟩
    · exact ⟨fun _ => hq, fun hlt => by omega⟩
    · simp at h

end EFX
