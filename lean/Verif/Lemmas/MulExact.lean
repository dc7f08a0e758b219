import Verif.Lemmas.MulMain
/-! `operator*=`: exact products, commutativity, multiplication by one. -/

namespace EFX
open Spec Finset

theorem dv_tail_zero {b : Nat} {g : Nat → Nat} {m : Nat} (k : Nat) (h : ∀ i, m ≤ i → g i = 0) :
    dv b g (m + k) = dv b g m * b ^ k := by
  induction k with
  | zero => simp
  | succ k ih => rw [← add_assoc, dv, ih, h _ (by omega), pow_succ]; ring

/-- Truncating the columns loses nothing when the product has few enough digits. -/
theorem dv_mul_exact {b : Nat} {f g : Nat → Nat} {n a a' : Nat} (hf : ∀ i, a ≤ i → f i = 0)
    (hg : ∀ i, a' ≤ i → g i = 0) (h : a + a' ≤ n + 1) :
    dv b f n * dv b g n = dv b (conv f g) n * b ^ (n - 1) := by
  rw [dv_conv, dv_eq_sum b f, sum_mul, sum_mul]
  apply sum_congr rfl
  intro i hi
  have hi' := mem_range.1 hi
  by_cases hfi : f i = 0
  · rw [hfi]; simp
  · have hia : i < a := by by_contra hc; exact hfi (hf i (by omega))
    have e : dv b g n = dv b g (n - i) * b ^ i := by
      obtain ⟨k, hk⟩ : ∃ k, n - i = a' + k := ⟨n - i - a', by omega⟩
      have e1 : n = a' + (k + i) := by omega
      rw [hk, dv_tail_zero k hg]
      conv_lhs => rw [e1, dv_tail_zero _ hg]
      rw [pow_add]; ring
    rw [e, show n - 1 = (n - 1 - i) + i by omega, pow_add]
    simp only [Nat.add_sub_cancel]
    ring

/-- Columns beyond the sum of the lengths vanish. -/
theorem conv_zero {f g : Nat → Nat} {a a' k : Nat} (hf : ∀ i, a ≤ i → f i = 0)
    (hg : ∀ i, a' ≤ i → g i = 0) (h : a + a' ≤ k + 1) : conv f g k = 0 := by
  unfold conv
  apply sum_eq_zero
  intro i hi
  have hi' := mem_range.1 hi
  by_cases hia : a ≤ i
  · rw [hf i hia]; simp
  · rw [hg (k - i) (by omega)]; simp

/-- Limbs from `a` on are zero. -/
def ZeroFrom (a : Nat) (l : List Nat) : Prop := ∀ i, a ≤ i → l.getD i 0 = 0

theorem ZeroFrom.take {a : Nat} {l : List Nat} (h : ZeroFrom a l) (p : Nat) : ZeroFrom a (l.take p) := by
  intro i hi
  have := h i hi
  by_cases hp : i < p
  · rw [List.getD_eq_getElem?_getD, List.getElem?_take_of_lt hp, ← List.getD_eq_getElem?_getD]; exact this
  · rw [List.getD_eq_default _ _ (by simp; omega)]

theorem ZeroFrom.halves {a : Nat} {l : List Nat} (h : ZeroFrom a l) : ZeroFrom (2 * a) (halves l) := by
  intro i hi
  rcases Nat.even_or_odd' i with ⟨k, rfl | rfl⟩
  · rw [halves_even, h k (by omega)]
  · rw [halves_odd, h k (by omega)]

theorem ZeroFrom.lv {a : Nat} {l : List Nat} (h : ZeroFrom a l) (ha : a ≤ l.length) :
    EFX.lv l = EFX.lv (l.take a) * 100000000 ^ (l.length - a) := by
  have e1 := lv_take_eq_dv l l.length (le_refl _)
  rw [List.take_length] at e1
  rw [e1, lv_take_eq_dv l a ha]
  conv_lhs => rw [show l.length = a + (l.length - a) by omega]
  exact dv_tail_zero _ h

theorem colsT_exact {u v : List Nat} {p a b : Nat} (hpu : p ≤ u.length) (hpv : p ≤ v.length)
    (ha : ZeroFrom a u) (hb : ZeroFrom b v) (h : a + b ≤ p + 1) :
    lv (u.take p) * lv (v.take p) = colsT u v p * 100000000 ^ (p - 1) := by
  rw [lv_take_eq_dv u p hpu, lv_take_eq_dv v p hpv, Nat.mul_comm]
  exact dv_mul_exact hb ha (by omega)

theorem colsT_mod {u v : List Nat} {p a b : Nat} (hp : 1 ≤ p) (ha : ZeroFrom a u) (hb : ZeroFrom b v)
    (h : a + b ≤ p) : colsT u v p = colsT u v p / 100000000 * 100000000 := by
  unfold colsT
  obtain ⟨q, rfl⟩ : ∃ q, p = q + 1 := ⟨p - 1, by omega⟩
  rw [dv, conv_zero hb ha (by omega)]
  omega

theorem colsF_exact {u v : List Nat} {p a b : Nat} (hp : 1 ≤ p) (hpu : p ≤ u.length) (hpv : p ≤ v.length)
    (ha : ZeroFrom a u) (hb : ZeroFrom b v) (h : a + b ≤ p) (hap : a + 1 ≤ p) (hbp : b + 1 ≤ p) :
    lv (u.take p) * lv (v.take p) = colsF u v p * 100000000 ^ p := by
  have e1 : lv (u.take p) = dv 10000 (fun i => (halves (u.take p)).getD i 0) (2 * p) := by
    rw [halves_dv, ← lv_take_eq_dv (u.take p) p (by simp [hpu]), List.take_take, Nat.min_self]
  have e2 : lv (v.take p) = dv 10000 (fun i => (halves (v.take p)).getD i 0) (2 * p) := by
    rw [halves_dv, ← lv_take_eq_dv (v.take p) p (by simp [hpv]), List.take_take, Nat.min_self]
  have z1 := (ha.take p).halves
  have z2 := (hb.take p).halves
  have hx := dv_mul_exact (b := 10000) (n := 2 * p - 1) (f := fun i => (halves (u.take p)).getD i 0)
    (g := fun i => (halves (v.take p)).getD i 0) z1 z2 (by omega)
  rw [e1, e2, show 2 * p = 2 * p - 1 + 1 by omega, dv, dv]
  simp only [z1 (2 * p - 1) (by omega), z2 (2 * p - 1) (by omega), add_zero]
  unfold colsF
  rw [← pow_half, show 2 * p = 2 * p - 1 - 1 + 2 by omega, pow_add]
  rw [show 2 * p - 1 - 1 + 2 - 1 = 2 * p - 1 by omega]
  calc _ = 10000 * 10000 * (dv 10000 (fun i => (halves (u.take p)).getD i 0) (2 * p - 1) *
      dv 10000 (fun i => (halves (v.take p)).getD i 0) (2 * p - 1)) := by ring
    _ = _ := by rw [hx]; ring

theorem zero_of_mod {l : List Nat} (hl : OK l) {p : Nat} (hp : 1 ≤ p) (hpl : p ≤ l.length) {T : Nat}
    (h : lv (l.take p) = 100000000 * T) : l.getD (p - 1) 0 = 0 := by
  obtain ⟨q, rfl⟩ : ∃ q, p = q + 1 := ⟨p - 1, by omega⟩
  rw [List.take_succ_eq_append_getElem (by omega), lv_append] at h
  simp [lv_cons] at h
  have := hl.getD q
  rw [List.getD_eq_getElem _ _ (by omega)] at this
  rw [show q + 1 - 1 = q by omega, List.getD_eq_getElem _ _ (by omega)]
  omega

theorem getD_drop_eq {l l' : List Nat} {p i : Nat} (h : l.drop p = l'.drop p) (hi : p ≤ i) :
    l.getD i 0 = l'.getD i 0 := by
  have := congrArg (fun m => List.getD m (i - p) 0) h
  simp only [List.getD_eq_getElem?_getD, List.getElem?_drop] at this
  rw [show p + (i - p) = i by omega] at this
  simpa only [List.getD_eq_getElem?_getD] using this

theorem pushFront_getD {carry P : Nat} {d : List Nat} (hP1 : 1 ≤ P) (hP : P ≤ d.length) (i : Nat) :
    (pushFront carry P d).getD (i + 1) 0 = if i + 1 < P then d.getD i 0 else d.getD (i + 1) 0 := by
  unfold pushFront
  simp only [List.getD_eq_getElem?_getD, List.getElem?_cons_succ]
  split
  · rename_i h
    rw [List.getElem?_append_left (by simp; omega), List.getElem?_take_of_lt (by omega)]
  · rename_i h
    rw [List.getElem?_append_right (by simp; omega), List.getElem?_drop]
    rw [List.length_take, show P + (i - min (P - 1) d.length) = i + 1 by omega]

/-- The limb product is exact when the digits of the operands are few enough. -/
theorem mulData_exact {c : Cfg} {x v : EFloat} (hx : WF c x) (hv : WF c v)
    {p a b : Nat} (hp : p = min x.prec v.prec) (ha : ZeroFrom a x.data) (hb : ZeroFrom b v.data)
    (ha1 : 1 ≤ a) (hb1 : 1 ≤ b) (h : a + b ≤ p) :
    ∃ δ : Nat, δ ≤ 1 ∧ (mulData c false x v).2 = 8 * (δ : Int) ∧
      ZeroFrom p (mulData c false x v).1 ∧
      lv ((mulData c false x v).1.take p) * 100000000 ^ δ * 100000000 ^ (p - 1)
          = lv (x.data.take p) * lv (v.data.take p) := by
  have h2x := hx.prec_lo; have h2v := hv.prec_lo
  have hNx := hx.prec_hi; have hNv := hv.prec_hi
  have hp2 : 2 ≤ p := by omega
  have hpx : p ≤ x.prec := by omega
  have hpN : p ≤ c.elems := by omega
  unfold mulData
  simp only [← hp, Bool.false_eq_true, if_false]
  by_cases hsch : p * 8 < 5000
  · rw [if_pos hsch]
    obtain ⟨m1, m2, m3, m4, m5⟩ := mulLoopUV_spec hx.ok hv.ok (p := p) (by omega) (by omega)
      (by rw [hx.len]; omega) (by rw [hv.len]; omega)
    generalize mulLoopUV x.data v.data p = r at *
    have hex := colsT_exact (u := x.data) (v := v.data) (p := p) (by rw [hx.len]; omega) (by rw [hv.len]; omega) ha hb (by omega)
    have hmod := colsT_mod (u := x.data) (v := v.data) (p := p) (by omega) ha hb h
    have hz : ZeroFrom p r.1 := fun i hi => by rw [getD_drop_eq m3 hi]; exact ha i (by omega)
    by_cases hc : r.2 = 0
    · rw [if_neg (by simpa using hc)]
      rw [hc, zero_mul, add_zero] at m5
      exact ⟨0, by norm_num, by simp, hz, by rw [m5, hex]; ring⟩
    · rw [if_pos (by simpa using hc)]
      obtain ⟨q1, q2, q3⟩ := pushFront_spec m2 m4 (by omega : 1 ≤ p) hpx (by rw [m1, hx.len]; exact hNx)
      rw [m5] at q3
      refine ⟨1, le_refl _, by simp, ?_, ?_⟩
      · have hlast : r.1.getD (p - 1) 0 = 0 := by
          apply zero_of_mod m2 (by omega) (by rw [m1, hx.len]; omega)
            (T := colsT x.data v.data p / 100000000 - r.2 * 100000000 ^ (p - 1))
          rw [Bpow_pred (by omega : 1 ≤ p)] at m5
          have e : r.2 * (100000000 * 100000000 ^ (p - 1)) = 100000000 * (r.2 * 100000000 ^ (p - 1)) := by ring
          rw [e] at m5
          generalize r.2 * 100000000 ^ (p - 1) = Z at *
          omega
        intro i hi
        obtain ⟨k, rfl⟩ : ∃ k, i = k + 1 := ⟨i - 1, by omega⟩
        rw [pushFront_getD (by omega) (by rw [m1, hx.len]; exact hNx)]
        split
        · by_cases hk : k = p - 1
          · rw [hk]; exact hlast
          · exact hz k (by omega)
        · exact hz _ (by omega)
      · simp only [pow_one]
        rw [q3, hex, ← hmod]
  · rw [if_neg hsch]
    have hN := elems_le c
    obtain ⟨m1, m2, m3, m4⟩ := mulLoopFFT_spec hx.ok hv.ok (p := p) (by omega) (by omega)
      (by rw [hx.len]; omega) (by rw [hv.len]; omega)
    generalize hd : mulLoopFFT x.data v.data p = d at *
    rw [hx.len] at m1
    have hex := colsF_exact (u := x.data) (v := v.data) (p := p) (by omega) (by rw [hx.len]; omega) (by rw [hv.len]; omega) ha hb h (by omega) (by omega)
    have hz : ZeroFrom p d := fun i hi => by rw [getD_drop_eq m3 hi]; exact ha i (by omega)
    by_cases h0 : d.headD 0 = 0
    · rw [if_pos h0]
      simp only
      generalize hlim : min c.elems (x.prec + 1) = lim
      generalize hmv : (d.take lim).drop 1 ++ d.drop (lim - 1) = moved
      have hml : moved.length = c.elems := by rw [← hmv]; simp; omega
      rw [hml]
      -- the moved array
      have hget : ∀ i, moved.getD i 0 = if i + 1 < lim then d.getD (i + 1) 0 else d.getD i 0 := by
        intro i
        rw [← hmv]
        simp only [List.getD_eq_getElem?_getD]
        split
        · rename_i hi
          rw [List.getElem?_append_left (by simp; omega), List.getElem?_drop, List.getElem?_take_of_lt (by omega), add_comm]
        · rename_i hi
          rw [List.getElem?_append_right (by simp; omega), List.getElem?_drop]
          congr 2
          simp; omega
      have hset : ∀ i, (moved.set (c.elems - 1) 0).getD i 0 = if i = c.elems - 1 then 0 else moved.getD i 0 := by
        intro i
        simp only [List.getD_eq_getElem?_getD, List.getElem?_set]
        by_cases hi : c.elems - 1 = i
        · rw [if_pos hi, if_pos hi.symm, if_pos (by omega)]; rfl
        · rw [if_neg hi, if_neg (fun e => hi e.symm)]
      have hgetall : ∀ i, i < p → (moved.set (c.elems - 1) 0).getD i 0 = d.getD (i + 1) 0 := by
        intro i hi
        rw [hset]
        by_cases hie : i = c.elems - 1
        · rw [if_pos hie, List.getD_eq_default _ _ (by omega)]
        · rw [if_neg hie, hget, if_pos (by omega)]
      refine ⟨0, by norm_num, by simp, ?_, ?_⟩
      · intro i hi
        rw [hset]
        split
        · rfl
        · rw [hget]
          split
          · exact hz _ (by omega)
          · exact hz _ hi
      · have hlv : lv ((moved.set (c.elems - 1) 0).take p) = lv (d.take p) * 100000000 := by
          rw [lv_take_eq_dv _ p (by simp; omega), lv_take_eq_dv _ p (by omega), dv_congr hgetall]
          have hshift : ∀ n, dv 100000000 (fun i => d.getD (i + 1) 0) n = dv 100000000 (fun i => d.getD i 0) (n + 1) := by
            intro n
            induction n with
            | zero =>
              have : d.getD 0 0 = 0 := by
                clear hz m2 m3 m4 hgetall hget hset hmv m1 hd
                cases d with
                | nil => rfl
                | cons a l => exact h0
              simp only [dv]
              rw [this]
            | succ n ih => rw [dv, ih]; rfl
          rw [hshift, dv]
          simp only [hz p (le_refl _), add_zero]
          ring
        simp only [pow_zero, mul_one]
        rw [hlv, m4, hex, Bpow_pred (by omega : 1 ≤ p)]; ring
    · rw [if_neg h0]
      refine ⟨1, le_refl _, by simp, hz, ?_⟩
      simp only [pow_one]
      rw [m4, hex, Bpow_pred (by omega : 1 ≤ p)]; ring


theorem mag_zeroFrom {c : Cfg} {x : EFloat} (hx : WF c x) {p : Nat} (hp : p ≤ c.elems) (h : ZeroFrom p x.data) :
    mag x = (lv (x.data.take p) : ℚ) * (10 : ℚ) ^ (x.exp - 8 * ((p : ℤ) - 1)) := by
  have hu : (10 : ℚ) ^ (x.exp - 8 * ((p : ℤ) - 1)) = ((100000000 ^ (c.elems - p) : Nat) : ℚ) * ulp c x := by
    unfold ulp
    rw [← p10_base, ← p10_add]; congr 1
    push_cast [Nat.cast_sub hp]; ring
  rw [mag_eq hx, hu, ← mul_assoc]
  congr 1
  rw [h.lv (by rw [hx.len]; exact hp), hx.len]
  push_cast; rfl

/-- Exact products at any working precision. -/
theorem mulAssign_exact {c : Cfg} {x v : EFloat} (hx : FinWF c x) (hv : FinWF c v)
    (zx : x.data.headD 0 ≠ 0) (zv : v.data.headD 0 ≠ 0) (ho : ¬ MulOver x v) (hu : ¬ MulUnder x v)
    {a b : Nat} (ha : ZeroFrom a x.data) (hb : ZeroFrom b v.data) (h : a + b ≤ min x.prec v.prec) :
    mag (mulAssign c x v) = mag x * mag v := by
  have ha1 : 1 ≤ a := by
    by_contra hc
    apply zx
    have := ha 0 (by omega)
    cases hd : x.data with
    | nil => rfl
    | cons d l => rw [hd] at this; exact this
  have hb1 : 1 ≤ b := by
    by_contra hc
    apply zv
    have := hb 0 (by omega)
    cases hd : v.data with
    | nil => rfl
    | cons d l => rw [hd] at this; exact this
  generalize hp : min x.prec v.prec = p at *
  have hpx := hx.prec_hi; have hpv := hv.prec_hi
  have hp2 : 2 ≤ p := by have := hx.prec_lo; have := hv.prec_lo; omega
  obtain ⟨δ, d1, d2, d3, d4⟩ := mulData_exact hx.toWF hv.toWF hp.symm ha hb ha1 hb1 h
  have hr := (mulAssignG_unfold (self := false) hx hv zx zv).2.2 ho hu
  have hwf := (mulAssignG_spec (self := false) hx hv zx zv (by simp) ho hu hp.symm rfl).1
  unfold mulAssign
  have rd : (mulAssignG c false x v).data = (mulData c false x v).1 := by rw [hr]
  have re : (mulAssignG c false x v).exp = x.exp + v.exp + 8 * (δ : ℤ) := by rw [hr, ← d2]
  rw [mag_zeroFrom hwf.toWF (p := p) (by omega) (by rw [rd]; exact d3),
    mag_zeroFrom hx.toWF (p := p) (by omega) (fun i hi => ha i (by omega)),
    mag_zeroFrom hv.toWF (p := p) (by omega) (fun i hi => hb i (by omega)), rd, re]
  have q : (lv ((mulData c false x v).1.take p) : ℚ) * ((100000000 ^ δ : Nat) : ℚ) * ((100000000 ^ (p - 1) : Nat) : ℚ)
      = (lv (x.data.take p) : ℚ) * (lv (v.data.take p) : ℚ) := by exact_mod_cast d4
  rw [← p10_base, ← p10_base] at q
  calc _ = (lv ((mulData c false x v).1.take p) : ℚ) * (10 : ℚ) ^ (8 * (δ : ℤ)) * (10 : ℚ) ^ (8 * ((p - 1 : Nat) : ℤ)) *
        ((10 : ℚ) ^ (x.exp - 8 * ((p : ℤ) - 1)) * (10 : ℚ) ^ (v.exp - 8 * ((p : ℤ) - 1))) := by
        rw [mul_assoc, mul_assoc, ← p10_add, ← p10_add, ← p10_add]
        congr 2
        push_cast [Nat.cast_sub (by omega : 1 ≤ p)]; ring
    _ = _ := by rw [q]; ring

/-! ### commutativity at full precision -/

theorem split_unique {d d' : List Nat} {k k' n : Nat} (hd : OK d) (hd' : OK d') (hl : d.length = n)
    (hl' : d'.length = n) (h : lv d + k * 100000000 ^ n = lv d' + k' * 100000000 ^ n) : d = d' ∧ k = k' := by
  have h1 := lv_lt hd
  have h2 := lv_lt hd'
  rw [hl] at h1
  rw [hl'] at h2
  have hk : k = k' := by
    have e1 : (lv d + k * 100000000 ^ n) / 100000000 ^ n = k := by
      rw [Nat.add_mul_div_right _ _ (Bpos n), Nat.div_eq_of_lt h1]; omega
    have e2 : (lv d' + k' * 100000000 ^ n) / 100000000 ^ n = k' := by
      rw [Nat.add_mul_div_right _ _ (Bpos n), Nat.div_eq_of_lt h2]; omega
    rw [← e1, ← e2, h]
  subst hk
  exact ⟨lv_inj (hl.trans hl'.symm) hd hd' (by omega), rfl⟩

theorem mulData_comm {c : Cfg} {x v : EFloat} (hx : WF c x) (hv : WF c v)
    (px : x.prec = c.elems) (pv : v.prec = c.elems) : mulData c false x v = mulData c false v x := by
  have hN := elems_le c
  have hN7 := elems_ge c
  unfold mulData
  simp only [px, pv, Nat.min_self, Bool.false_eq_true, if_false]
  by_cases hsch : c.elems * 8 < 5000
  · rw [if_pos hsch, if_pos hsch]
    obtain ⟨m1, m2, m3, m4, m5⟩ := mulLoopUV_spec hx.ok hv.ok (p := c.elems) (by omega) (by omega)
      (by rw [hx.len]) (by rw [hv.len])
    obtain ⟨n1, n2, n3, n4, n5⟩ := mulLoopUV_spec hv.ok hx.ok (p := c.elems) (by omega) (by omega)
      (by rw [hv.len]) (by rw [hx.len])
    rw [hx.len] at m1
    rw [hv.len] at n1
    rw [List.take_of_length_le (by omega)] at m5 n5
    rw [colsT_comm, ← m5] at n5
    obtain ⟨e1, e2⟩ := split_unique n2 m2 n1 m1 n5
    rw [e1, e2]
  · rw [if_neg hsch, if_neg hsch]
    obtain ⟨m1, m2, m3, m4⟩ := mulLoopFFT_spec hx.ok hv.ok (p := c.elems) (by omega) (by omega)
      (by rw [hx.len]) (by rw [hv.len])
    obtain ⟨n1, n2, n3, n4⟩ := mulLoopFFT_spec hv.ok hx.ok (p := c.elems) (by omega) (by omega)
      (by rw [hv.len]) (by rw [hx.len])
    rw [hx.len] at m1
    rw [hv.len] at n1
    rw [List.take_of_length_le (by omega)] at m4 n4
    rw [colsF_comm, ← m4] at n4
    have e := lv_inj (n1.trans m1.symm) n2 m2 n4
    rw [e]

theorem MulOver_comm {x v : EFloat} : MulOver x v ↔ MulOver v x := by unfold MulOver; omega
theorem MulUnder_comm {x v : EFloat} : MulUnder x v ↔ MulUnder v x := by unfold MulUnder; omega

theorem mulAssign_comm {c : Cfg} {x v : EFloat} (hx : WF c x) (hv : WF c v)
    (px : x.prec = c.elems) (pv : v.prec = c.elems) : mulAssign c x v = mulAssign c v x := by
  have hneg : decide (x.neg ≠ v.neg) = decide (v.neg ≠ x.neg) := by
    cases x.neg <;> cases v.neg <;> simp
  unfold mulAssign
  by_cases hf : x.cls = .finite ∧ v.cls = .finite
  · obtain ⟨hfx, hfv⟩ := hf
    have fx : FinWF c x := ⟨hx, hfx⟩
    have fv : FinWF c v := ⟨hv, hfv⟩
    by_cases zx : x.data.headD 0 = 0
    · rw [mulAssignG_zero hfx hfv (Or.inl zx), mulAssignG_zero hfv hfx (Or.inr zx)]
    by_cases zv : v.data.headD 0 = 0
    · rw [mulAssignG_zero hfx hfv (Or.inr zv), mulAssignG_zero hfv hfx (Or.inl zv)]
    obtain ⟨a1, a2, a3⟩ := mulAssignG_unfold (self := false) fx fv zx zv
    obtain ⟨b1, b2, b3⟩ := mulAssignG_unfold (self := false) fv fx zv zx
    by_cases ho : MulOver x v
    · rw [a1 ho, b1 (MulOver_comm.1 ho), hneg]
    by_cases hu : MulUnder x v
    · rw [a2 hu, b2 (MulUnder_comm.1 hu)]
    rw [a3 ho hu, b3 (fun h => ho (MulOver_comm.1 h)) (fun h => hu (MulUnder_comm.1 h)),
      mulData_comm hx hv px pv, hneg, px, pv, hfx, hfv, add_comm x.exp]
  · have h' : x.cls ≠ .finite ∨ v.cls ≠ .finite := by tauto
    rw [mulAssignG_nonfin h', mulAssignG_nonfin h'.symm, hneg]
    congr 1
    apply propext
    tauto

/-! ### multiplication by one -/

theorem one_def (c : Cfg) : one c = ⟨1 :: List.replicate (c.elems - 1) 0, 0, false, .finite, c.elems⟩ := by
  obtain ⟨n, hn⟩ : ∃ n, c.elems = n + 1 := ⟨c.elems - 1, by have := elems_ge c; omega⟩
  simp [one, ofUnsigned, fromULL, w64, ullDigits, w32, mask, hn]

theorem FinWF_one (c : Cfg) : FinWF c (one c) := by
  have h7 := elems_ge c
  rw [one_def]
  refine ⟨⟨?_, ?_, ?_, ?_, ?_, ?_⟩, rfl⟩
  · simp; omega
  · exact OK.cons (by norm_num) (OK.replicate _)
  · simp
  · simp only; omega
  · simp
  · intro _ h; simp at h

theorem zeroFrom_replicate (l : List Nat) (k : Nat) : ZeroFrom l.length (l ++ List.replicate k 0) := by
  intro i hi
  rw [List.getD_eq_getElem?_getD, List.getElem?_append_right hi, List.getElem?_replicate]
  split <;> rfl

theorem one_zeroFrom (c : Cfg) : ZeroFrom 1 (one c).data := by
  rw [one_def]; exact zeroFrom_replicate [1] _

theorem one_head (c : Cfg) : (one c).data.headD 0 = 1 := by rw [one_def]; rfl

theorem mag_one (c : Cfg) : mag (one c) = 1 := by
  rw [mag_zeroFrom (FinWF_one c).toWF (p := 1) (by have := elems_ge c; omega) (one_zeroFrom c), one_def]
  simp [lv_cons]

theorem val_one (c : Cfg) : Spec.val (one c) = 1 := by
  unfold Spec.val; rw [mag_one, one_def]; simp

theorem colsT_one {c : Cfg} {u : List Nat} {p : Nat} (hp : p ≤ u.length) :
    colsT u (one c).data p = lv (u.take p) := by
  unfold colsT
  rw [lv_take_eq_dv u p hp]
  apply dv_congr
  intro k _
  unfold conv
  rw [sum_eq_single 0]
  · rw [one_def]; simp
  · intro i _ hi
    have := one_zeroFrom c i (by omega)
    simp only [this, zero_mul]
  · intro h; simp at h

/-- In the school range a product by one is the operand itself, whatever the precisions. -/
theorem mulAssign_one {c : Cfg} {x : EFloat} (hx : FinWF c x) (zx : x.data.headD 0 ≠ 0)
    (he : x.exp < maxExp10) (hp : x.prec * 8 < 5000) : mulAssign c x (one c) = x := by
  have z1 : (one c).data.headD 0 ≠ 0 := by rw [one_head]; norm_num
  have e0 : (one c).exp = 0 := by rw [one_def]
  have n0 : (one c).neg = false := by rw [one_def]
  have p0 : (one c).prec = c.elems := by rw [one_def]
  have ho : ¬ MulOver x (one c) := by unfold MulOver; rw [e0]; omega
  have hu : ¬ MulUnder x (one c) := by unfold MulUnder; rw [e0]; omega
  have h2 := hx.prec_lo
  have hN := hx.prec_hi
  have hmd : mulData c false x (one c) = (x.data, 0) := by
    unfold mulData
    rw [p0, Nat.min_eq_left hN]
    simp only [Bool.false_eq_true, if_false]
    rw [if_pos hp]
    obtain ⟨m1, m2, m3, m4, m5⟩ := mulLoopUV_spec hx.ok (FinWF_one c).ok (p := x.prec) (by omega) (by omega)
      (by rw [hx.len]; exact hN) (by rw [(FinWF_one c).len]; exact hN)
    rw [colsT_one (by rw [hx.len]; exact hN)] at m5
    have hs := split_unique (n := x.prec) (d := (mulLoopUV x.data (one c).data x.prec).1.take x.prec)
      (d' := x.data.take x.prec) (k := (mulLoopUV x.data (one c).data x.prec).2) (k' := 0) (m2.take _) (hx.ok.take _)
      (by rw [List.length_take, m1, hx.len]; omega) (by rw [List.length_take, hx.len]; omega)
      (by rw [m5]; simp)
    have hd : (mulLoopUV x.data (one c).data x.prec).1 = x.data := by
      rw [← List.take_append_drop x.prec (mulLoopUV x.data (one c).data x.prec).1, hs.1, m3,
        List.take_append_drop]
    rw [if_neg (by rw [hs.2]; simp), hd]
  unfold mulAssign
  rw [(mulAssignG_unfold hx (FinWF_one c) zx z1).2.2 ho hu, hmd, e0, n0]
  cases x with
  | mk d e n cl pr => cases n <;> simp

end EFX
