import Verif.Lemmas.Digits
import Verif.Lemmas.AddCore
/-! Loops of the multiplication: school method and half-limb release. -/

namespace EFX
open Spec Finset

/-! ### limb lists as digit functions -/

theorem lv_take_eq_dv (l : List Nat) (n : Nat) (h : n ≤ l.length) :
    lv (l.take n) = dv 100000000 (fun i => l.getD i 0) n := by
  induction n with
  | zero => simp [dv]
  | succ n ih =>
    rw [List.take_succ_eq_append_getElem (by omega), lv_append, ih (by omega), dv]
    simp only [lv_cons, List.length_singleton, List.length_nil, pow_zero, pow_one, lv_nil, mul_one, add_zero]
    rw [List.getD_eq_getElem _ _ (by omega)]
    ring

/-! ### school multiplication -/

theorem mulColumn_eq {u v : List Nat} (hu : OK u) (hv : OK v) (j i s : Nat)
    (h : s + i * (99999999 * 99999999) < 18446744073709551616) :
    mulColumn u v j i s = s + ∑ k ∈ range i, u.getD (j - k) 0 * v.getD k 0 := by
  induction i generalizing s with
  | zero => simp [mulColumn]
  | succ i ih =>
    have h1 := hu.getD (j - i)
    have h2 := hv.getD i
    have hm : u.getD (j - i) 0 * v.getD i 0 ≤ 99999999 * 99999999 :=
      Nat.mul_le_mul (by omega) (by omega)
    rw [mulColumn, w64_id (n := u.getD (j - i) 0 * v.getD i 0) (by omega), w64_id (by omega), ih _ (by omega),
      sum_range_succ]
    omega

theorem mulColumn_conv {u v : List Nat} (hu : OK u) (hv : OK v) (j s : Nat)
    (h : s + (j + 1) * (99999999 * 99999999) < 18446744073709551616) :
    mulColumn u v j (j + 1) s = s + conv (fun i => v.getD i 0) (fun i => u.getD i 0) j := by
  rw [mulColumn_eq hu hv _ _ _ h]
  unfold conv
  congr 1
  apply sum_congr rfl
  intro i _
  rw [mul_comm]

theorem mulRows_spec (v : List Nat) (hv : OK v) (j : Nat) (hj : j ≤ 624) (u : List Nat) (hu : OK u)
    (hl : j ≤ u.length) (carry : Nat) (hc : carry ≤ 62400000000) :
    (mulRows v j u carry).1.length = u.length ∧ OK (mulRows v j u carry).1 ∧
    (mulRows v j u carry).1.drop j = u.drop j ∧
    (mulRows v j u carry).2 ≤ 62400000000 ∧
    lv ((mulRows v j u carry).1.take j) + (mulRows v j u carry).2 * 100000000 ^ j =
      dv 100000000 (conv (fun i => v.getD i 0) (fun i => u.getD i 0)) j + carry := by
  induction j generalizing u carry with
  | zero => simp [mulRows, dv, hu, hc]
  | succ j ih =>
    have hsum := mulColumn_conv hu hv j carry (by omega)
    have hcb := conv_le (b := 100000000) (f := fun i => v.getD i 0) (g := fun i => u.getD i 0) (k := j)
      (fun i _ => hv.getD i) (fun i _ => hu.getD i)
    rw [mulRows]
    simp only [hsum, maskN]
    generalize hS : conv (fun i => v.getD i 0) (fun i => u.getD i 0) j = S at *
    have hSb : S ≤ 624 * (99999999 * 99999999) := by
      refine le_trans hcb (Nat.mul_le_mul_right _ (by omega))
    have hw : w32 ((carry + S) % 100000000) = (carry + S) % 100000000 :=
      w32_id (lt_of_lt_of_le (Nat.mod_lt _ (by norm_num)) (by norm_num))
    rw [hw]
    have hcarry : (carry + S) / 100000000 ≤ 62400000000 := by
      omega
    have hd : (carry + S) % 100000000 < 100000000 := Nat.mod_lt _ (by norm_num)
    obtain ⟨i1, i2, i3, i4, i5⟩ := ih (by omega) (u.set j ((carry + S) % 100000000))
      (hu.set _ _ hd) (by simp; omega) _ hcarry
    generalize hr : mulRows v j (u.set j ((carry + S) % 100000000)) ((carry + S) / 100000000) = r at *
    have hdv : dv 100000000 (conv (fun i => v.getD i 0) (fun i => (u.set j ((carry + S) % 100000000)).getD i 0)) j
        = dv 100000000 (conv (fun i => v.getD i 0) (fun i => u.getD i 0)) j := by
      apply dv_congr
      intro k hk
      apply conv_congr
      · intro i _; rfl
      · intro i hi
        simp only [List.getD_eq_getElem?_getD]
        rw [List.getElem?_set_ne (by omega)]
    rw [hdv] at i5
    have hlen : r.1.length = u.length := by rw [i1]; simp
    have hj' : j < r.1.length := by omega
    have hel : r.1[j] = (carry + S) % 100000000 := by
      have h1 := congrArg (fun l : List Nat => l[0]?) i3
      simp only [List.getElem?_drop, Nat.add_zero] at h1
      rw [List.getElem?_eq_getElem hj', List.getElem?_set_self (by omega)] at h1
      exact Option.some.inj h1
    refine ⟨hlen, i2, ?_, i4, ?_⟩
    · have h1 : (r.1.drop j).drop 1 = ((u.set j ((carry + S) % 100000000)).drop j).drop 1 := by rw [i3]
      rw [List.drop_drop, List.drop_drop] at h1
      rw [h1, List.drop_set]
      simp
    · rw [List.take_succ_eq_append_getElem hj', lv_append, hel, dv, hS]
      simp only [lv_cons, List.length_singleton, List.length_nil, pow_zero, pow_one, lv_nil, mul_one, add_zero]
      have h3 : carry + S = 100000000 * ((carry + S) / 100000000) + (carry + S) % 100000000 :=
        (Nat.div_add_mod _ _).symm
      calc lv (List.take j r.1) * 100000000 + (carry + S) % 100000000 + r.2 * 100000000 ^ (j + 1)
          = 100000000 * (lv (List.take j r.1) + r.2 * 100000000 ^ j) + (carry + S) % 100000000 := by
            rw [pow_succ]; ring
        _ = 100000000 * dv 100000000 (conv (fun i => v.getD i 0) (fun i => u.getD i 0)) j
            + (100000000 * ((carry + S) / 100000000) + (carry + S) % 100000000) := by rw [i5]; ring
        _ = _ := by rw [← h3]; ring

theorem mulColumn_congr {u v v' : List Nat} {j i s : Nat} (h : ∀ k < i, v.getD k 0 = v'.getD k 0) :
    mulColumn u v j i s = mulColumn u v' j i s := by
  induction i generalizing s with
  | zero => rfl
  | succ i ih =>
    rw [mulColumn, mulColumn, h i (by omega), ih (fun k hk => h k (by omega))]

/-- Multiplying an array by itself in place is multiplying by a copy. -/
theorem mulRowsSelf_eq (v : List Nat) (j : Nat) (u : List Nat) (carry : Nat)
    (h : ∀ k < j, u.getD k 0 = v.getD k 0) : mulRowsSelf j u carry = mulRows v j u carry := by
  induction j generalizing u carry with
  | zero => rfl
  | succ j ih =>
    rw [mulRowsSelf, mulRows]
    rw [mulColumn_congr (u := u) (v := u) (v' := v) h]
    apply ih
    intro k hk
    rw [← h k (by omega)]
    simp only [List.getD_eq_getElem?_getD]
    rw [List.getElem?_set_ne (by omega)]

theorem mulLoopSelf_eq (u : List Nat) (p : Nat) : mulLoopSelf u p = mulLoopUV u u p := by
  unfold mulLoopSelf mulLoopUV
  rw [mulRowsSelf_eq u p u 0 (fun _ _ => rfl)]

/-- Truncated product of the first `p` limbs of `u` and `v`. -/
def colsT (u v : List Nat) (p : Nat) : Nat :=
  dv 100000000 (conv (fun i => v.getD i 0) (fun i => u.getD i 0)) p

theorem colsT_comm (u v : List Nat) (p : Nat) : colsT u v p = colsT v u p := by
  unfold colsT
  apply dv_congr
  intro i _
  rw [conv_comm]

theorem mul_limit {p : Nat} (T X : Nat) (hp : 1 ≤ p) (h : T * 100000000 ^ (p - 1) ≤ X)
    (hX : X < 100000000 ^ p * 100000000 ^ p) : T < 100000000 ^ (p + 1) := by
  by_contra hc
  have h1 : 100000000 ^ (p + 1) * 100000000 ^ (p - 1) ≤ T * 100000000 ^ (p - 1) :=
    Nat.mul_le_mul_right _ (by omega)
  have h2 : 100000000 ^ (p + 1) * 100000000 ^ (p - 1) = 100000000 ^ p * 100000000 ^ p := by
    rw [← pow_add, ← pow_add]; congr 1; omega
  omega

theorem colsT_bounds {u v : List Nat} (hu : OK u) (hv : OK v) {p : Nat} (hpu : p ≤ u.length) (hpv : p ≤ v.length) :
    colsT u v p * 100000000 ^ (p - 1) ≤ lv (u.take p) * lv (v.take p) ∧
    lv (u.take p) * lv (v.take p) ≤ (colsT u v p + (p - 1) * 99999999) * 100000000 ^ (p - 1) := by
  have h := dv_mul (b := 100000000) (n := p) (f := fun i => v.getD i 0) (g := fun i => u.getD i 0)
    (fun i _ => hv.getD i) (fun i _ => hu.getD i)
  rw [lv_take_eq_dv u p hpu, lv_take_eq_dv v p hpv, Nat.mul_comm (dv _ _ p)]
  exact h

theorem colsT_ge {u v : List Nat} {p : Nat} (hp : 1 ≤ p) (hu : u.headD 0 ≠ 0) (hv : v.headD 0 ≠ 0) :
    100000000 ^ (p - 1) ≤ colsT u v p := by
  unfold colsT
  rw [dv_eq_sum]
  have h0 : 1 ≤ conv (fun i => v.getD i 0) (fun i => u.getD i 0) 0 := by
    unfold conv
    simp only [Nat.zero_add, range_one, sum_singleton, Nat.sub_zero]
    have a : v.getD 0 0 ≠ 0 := by cases v <;> simp_all
    have b : u.getD 0 0 ≠ 0 := by cases u <;> simp_all
    exact Nat.mul_pos (Nat.pos_of_ne_zero a) (Nat.pos_of_ne_zero b)
  calc 100000000 ^ (p - 1) ≤ conv (fun i => v.getD i 0) (fun i => u.getD i 0) 0 * 100000000 ^ (p - 1 - 0) := by
        simp only [Nat.sub_zero]; exact Nat.le_mul_of_pos_left _ h0
    _ ≤ _ := single_le_sum (f := fun i => conv (fun i => v.getD i 0) (fun i => u.getD i 0) i * 100000000 ^ (p - 1 - i))
        (fun _ _ => Nat.zero_le _) (mem_range.2 (by omega))

/-- School multiplication of the first `p` limbs. -/
theorem mulLoopUV_spec {u v : List Nat} (hu : OK u) (hv : OK v) {p : Nat} (hp1 : 1 ≤ p) (hp : p ≤ 624)
    (hpu : p ≤ u.length) (hpv : p ≤ v.length) :
    (mulLoopUV u v p).1.length = u.length ∧ OK (mulLoopUV u v p).1 ∧
    (mulLoopUV u v p).1.drop p = u.drop p ∧ (mulLoopUV u v p).2 < 100000000 ∧
    lv ((mulLoopUV u v p).1.take p) + (mulLoopUV u v p).2 * 100000000 ^ p = colsT u v p := by
  obtain ⟨h1, h2, h3, h4, h5⟩ := mulRows_spec v hv p hp u hu hpu 0 (by norm_num)
  unfold mulLoopUV
  simp only
  generalize mulRows v p u 0 = r at *
  have hT := (colsT_bounds hu hv hpu hpv).1
  have hU := lv_lt (hu.take p)
  have hV := lv_lt (hv.take p)
  rw [List.length_take, Nat.min_eq_left hpu] at hU
  rw [List.length_take, Nat.min_eq_left hpv] at hV
  have hlim := mul_limit _ _ hp1 hT (Nat.mul_lt_mul'' hU hV)
  have hc : r.2 < 100000000 := by
    by_contra hc
    have : 100000000 * 100000000 ^ p ≤ r.2 * 100000000 ^ p := Nat.mul_le_mul_right _ (by omega)
    rw [pow_succ] at hlim
    unfold colsT at hlim
    omega
  rw [w32_id (by omega)]
  refine ⟨h1, h2, h3, hc, ?_⟩
  rw [h5]; unfold colsT; omega


/-! ### half-limb convolution -/

theorem list_range_sum (f : Nat → Nat) (n : Nat) :
    ((List.range n).map f).sum = ∑ i ∈ range n, f i := by
  induction n with
  | zero => simp
  | succ n ih => rw [List.range_succ, List.map_append, List.sum_append, ih, sum_range_succ]; simp

theorem convAt_eq (a b : List Nat) (k : Nat) :
    convAt a b k = conv (fun i => a.getD i 0) (fun i => b.getD i 0) k := by
  unfold convAt conv
  rw [list_range_sum]

theorem halves_nil : halves [] = [] := rfl
theorem halves_cons (x : Nat) (l : List Nat) : halves (x :: l) = x / 10000 :: x % 10000 :: halves l := by
  simp [halves]

theorem halves_length (l : List Nat) : (halves l).length = 2 * l.length := by
  induction l with
  | nil => rfl
  | cons x l ih => rw [halves_cons]; simp [ih]; omega

theorem halves_lt {l : List Nat} (h : OK l) (i : Nat) : (halves l).getD i 0 < 10000 := by
  have : ∀ d ∈ halves l, d < 10000 := by
    induction l with
    | nil => simp [halves]
    | cons x l ih =>
      rw [halves_cons]
      intro d hd
      simp only [List.mem_cons] at hd
      rcases hd with rfl | rfl | hd
      · have := h.head; omega
      · omega
      · exact ih h.tail d hd
  by_cases hi : i < (halves l).length
  · rw [List.getD_eq_getElem _ _ hi]; exact this _ (List.getElem_mem hi)
  · rw [List.getD_eq_default _ _ (by omega)]; norm_num

theorem halves_even (l : List Nat) (i : Nat) : (halves l).getD (2 * i) 0 = l.getD i 0 / 10000 := by
  induction l generalizing i with
  | nil => simp [halves]
  | cons x l ih =>
    rw [halves_cons]
    cases i with
    | zero => simp
    | succ i => rw [show 2 * (i + 1) = (2 * i + 1) + 1 by ring]; simpa using ih i

theorem halves_odd (l : List Nat) (i : Nat) : (halves l).getD (2 * i + 1) 0 = l.getD i 0 % 10000 := by
  induction l generalizing i with
  | nil => simp [halves]
  | cons x l ih =>
    rw [halves_cons]
    cases i with
    | zero => simp
    | succ i => rw [show 2 * (i + 1) + 1 = (2 * i + 1 + 1) + 1 by ring]; simpa using ih i

theorem halves_dv (l : List Nat) (n : Nat) :
    dv 10000 (fun i => (halves l).getD i 0) (2 * n) = dv 100000000 (fun i => l.getD i 0) n := by
  induction n with
  | zero => rfl
  | succ n ih =>
    rw [show 2 * (n + 1) = 2 * n + 1 + 1 by ring, dv, dv, ih, dv, halves_even, halves_odd]
    omega

theorem fft_step {X Y c : Nat} (hX : X ≤ 100000000000000000) (hY : Y ≤ 100000000000000000)
    (hc : c ≤ 100000000000000000) :
    w64 (X + c) = X + c ∧
    w32 (wsub64 (X + c) (w64 ((X + c) / 10000 * 10000))) = (X + c) % 10000 ∧
    w64 (Y + (X + c) / 10000) = Y + (X + c) / 10000 ∧
    w32 (wsub64 (Y + (X + c) / 10000) (w64 ((Y + (X + c) / 10000) / 10000 * 10000))) =
      (Y + (X + c) / 10000) % 10000 ∧
    (Y + (X + c) / 10000) / 10000 ≤ 100000000000000000 := by
  unfold w64 w32 wsub64 w64
  omega

theorem fft_limb {h l : Nat} (hh : h < 10000) (hl : l < 10000) :
    w32 (w32 (h * 10000) + l) = h * 10000 + l ∧ h * 10000 + l < 100000000 := by
  unfold w32; omega

/-- The release of carries turns the column sums into proper limbs. -/
theorem fftRelease_spec (a b : List Nat) (i : Nat) (acc : List Nat) (carry : Nat)
    (hC : ∀ k < 2 * i, convAt a b k ≤ 100000000000000000) (hc : carry ≤ 100000000000000000) :
    ∃ L cf, fftRelease a b i acc carry = L ++ acc ∧ L.length = i ∧ OK L ∧
      lv L + cf * 100000000 ^ i = dv 10000 (convAt a b) (2 * i - 1) + carry := by
  induction i generalizing acc carry with
  | zero => exact ⟨[], carry, by simp [fftRelease], rfl, OK.nil, by simp [dv]⟩
  | succ i ih =>
    have hX := hC (2 * i) (by omega)
    have hY : (if i ≠ 0 then convAt a b (2 * i - 1) else 0) ≤ 100000000000000000 := by
      split
      · exact hC _ (by omega)
      · norm_num
    obtain ⟨s1, s2, s3, s4, s5⟩ := fft_step hX hY hc
    rw [fftRelease]
    simp only [s1, s2, s3, s4]
    generalize hx : convAt a b (2 * i) = X at *
    generalize hy : (if i ≠ 0 then convAt a b (2 * i - 1) else 0) = Y at *
    obtain ⟨t1, t2⟩ := fft_limb (h := (Y + (X + carry) / 10000) % 10000) (l := (X + carry) % 10000)
      (Nat.mod_lt _ (by norm_num)) (Nat.mod_lt _ (by norm_num))
    rw [t1]
    obtain ⟨L, cf, l1, l2, l3, l4⟩ := ih
      (((Y + (X + carry) / 10000) % 10000 * 10000 + (X + carry) % 10000) :: acc)
      ((Y + (X + carry) / 10000) / 10000) (fun k hk => hC k (by omega)) s5
    refine ⟨L ++ [(Y + (X + carry) / 10000) % 10000 * 10000 + (X + carry) % 10000], cf, ?_, ?_, ?_, ?_⟩
    · rw [l1]; simp
    · simp [l2]
    · exact OK.append l3 (OK.cons t2 OK.nil)
    · rw [lv_append]
      simp only [lv_cons, List.length_singleton, List.length_nil, pow_zero, pow_one, lv_nil, mul_one, add_zero]
      have hdv : dv 10000 (convAt a b) (2 * (i + 1) - 1) =
          100000000 * dv 10000 (convAt a b) (2 * i - 1) + 10000 * Y + X := by
        rw [show 2 * (i + 1) - 1 = 2 * i + 1 by omega, dv, hx]
        cases i with
        | zero => simp [dv] at hy ⊢; omega
        | succ k =>
          rw [show 2 * (k + 1) = 2 * (k + 1) - 1 + 1 by omega, dv]
          simp only [Nat.add_sub_cancel]
          have : Y = convAt a b (2 * (k + 1) - 1) := by rw [← hy]; simp
          rw [← this]; ring
      rw [hdv, pow_succ]
      calc lv L * 100000000 + ((Y + (X + carry) / 10000) % 10000 * 10000 + (X + carry) % 10000) +
            cf * (100000000 ^ i * 100000000)
          = 100000000 * (lv L + cf * 100000000 ^ i) +
            ((Y + (X + carry) / 10000) % 10000 * 10000 + (X + carry) % 10000) := by ring
        _ = _ := by rw [l4]; omega

/-- Truncated half-limb product. -/
def colsF (u v : List Nat) (p : Nat) : Nat :=
  dv 10000 (conv (fun i => (halves (u.take p)).getD i 0) (fun i => (halves (v.take p)).getD i 0)) (2 * p - 1)

theorem colsF_comm (u v : List Nat) (p : Nat) : colsF u v p = colsF v u p := by
  unfold colsF
  apply dv_congr
  intro i _
  rw [conv_comm]

theorem pow_half (n : Nat) : 10000 ^ (2 * n) = 100000000 ^ n := by
  rw [pow_mul]; norm_num

theorem two_digit_bound {b U V u v P : Nat} (hu : u < b) (hv : v < b) (hU : U + 1 ≤ P) (hV : V + 1 ≤ P) :
    b * b * (U * V) ≤ (b * U + u) * (b * V + v) ∧
    (b * U + u) * (b * V + v) ≤ b * b * (U * V) + 2 * (b - 1) * (b * P) := by
  obtain ⟨w, rfl⟩ : ∃ w, b = w + 1 := ⟨b - 1, by omega⟩
  have hu' : u ≤ w := by omega
  have hv' : v ≤ w := by omega
  constructor
  · calc (w + 1) * (w + 1) * (U * V) = ((w + 1) * U) * ((w + 1) * V) := by ring
      _ ≤ _ := Nat.mul_le_mul (Nat.le_add_right _ _) (Nat.le_add_right _ _)
  · have h1 : ((w + 1) * U + u) * ((w + 1) * V + v) ≤ ((w + 1) * U + w) * ((w + 1) * V + w) :=
      Nat.mul_le_mul (by omega) (by omega)
    refine le_trans h1 ?_
    simp only [Nat.add_sub_cancel]
    have h2 : (w + 1) * w * (U + V + 2) ≤ (w + 1) * w * (2 * P) := Nat.mul_le_mul_left _ (by omega)
    have h3 : w * w ≤ (w + 1) * w * 2 := by nlinarith
    calc ((w + 1) * U + w) * ((w + 1) * V + w)
        = (w + 1) * (w + 1) * (U * V) + (w + 1) * w * (U + V) + w * w := by ring
      _ ≤ (w + 1) * (w + 1) * (U * V) + ((w + 1) * w * (U + V) + (w + 1) * w * 2) := by omega
      _ = (w + 1) * (w + 1) * (U * V) + (w + 1) * w * (U + V + 2) := by ring
      _ ≤ (w + 1) * (w + 1) * (U * V) + (w + 1) * w * (2 * P) := by omega
      _ = _ := by ring

theorem colsF_bounds {u v : List Nat} (hu : OK u) (hv : OK v) {p : Nat} (hp : 1 ≤ p) (hpu : p ≤ u.length)
    (hpv : p ≤ v.length) :
    colsF u v p * 100000000 ^ p ≤ lv (u.take p) * lv (v.take p) ∧
    lv (u.take p) * lv (v.take p) ≤ (colsF u v p + 2 * p * 9999) * 100000000 ^ p := by
  have e1 : lv (u.take p) = dv 10000 (fun i => (halves (u.take p)).getD i 0) (2 * p) := by
    rw [halves_dv, ← lv_take_eq_dv (u.take p) p (by simp [hpu]), List.take_take, Nat.min_self]
  have e2 : lv (v.take p) = dv 10000 (fun i => (halves (v.take p)).getD i 0) (2 * p) := by
    rw [halves_dv, ← lv_take_eq_dv (v.take p) p (by simp [hpv]), List.take_take, Nat.min_self]
  have h := dv_mul (b := 10000) (n := 2 * p - 1) (f := fun i => (halves (u.take p)).getD i 0)
    (g := fun i => (halves (v.take p)).getD i 0) (fun i _ => halves_lt (hu.take p) i)
    (fun i _ => halves_lt (hv.take p) i)
  have hU' := dv_lt (b := 10000) (n := 2 * p - 1) (f := fun i => (halves (u.take p)).getD i 0)
    (fun i _ => halves_lt (hu.take p) i)
  have hV' := dv_lt (b := 10000) (n := 2 * p - 1) (f := fun i => (halves (v.take p)).getD i 0)
    (fun i _ => halves_lt (hv.take p) i)
  rw [e1, e2, show 2 * p = 2 * p - 1 + 1 by omega, dv, dv]
  have hb := two_digit_bound (b := 10000) (halves_lt (hu.take p) (2 * p - 1)) (halves_lt (hv.take p) (2 * p - 1)) hU' hV'
  unfold colsF
  generalize dv 10000 (fun i => (halves (u.take p)).getD i 0) (2 * p - 1) = U at *
  generalize dv 10000 (fun i => (halves (v.take p)).getD i 0) (2 * p - 1) = V at *
  generalize dv 10000 (conv _ _) (2 * p - 1) = T at *
  generalize (halves (u.take p)).getD (2 * p - 1) 0 = x at *
  generalize (halves (v.take p)).getD (2 * p - 1) 0 = y at *
  have hB : 100000000 ^ p = 100000000 * 100000000 ^ (p - 1) := by
    rw [← pow_succ']; congr 1; omega
  have hB2 : 10000 ^ (2 * p - 1 - 1) = 100000000 ^ (p - 1) := by
    rw [show 2 * p - 1 - 1 = 2 * (p - 1) by omega, pow_half]
  have hB3 : 10000 * 10000 ^ (2 * p - 1) = 100000000 ^ p := by
    rw [← pow_succ', ← pow_half]; congr 1; omega
  rw [hB2] at h
  rw [hB3] at hb
  constructor
  · refine le_trans ?_ hb.1
    rw [hB]
    calc T * (100000000 * 100000000 ^ (p - 1)) = 100000000 * (T * 100000000 ^ (p - 1)) := by ring
      _ ≤ 100000000 * (U * V) := Nat.mul_le_mul_left _ h.1
      _ = _ := by ring
  · refine le_trans hb.2 ?_
    have h2 : 10000 * 10000 * (U * V) ≤ 100000000 * ((T + (2 * p - 1 - 1) * (10000 - 1)) * 100000000 ^ (p - 1)) := by
      calc 10000 * 10000 * (U * V) = 100000000 * (U * V) := by ring
        _ ≤ _ := Nat.mul_le_mul_left _ h.2
    calc 10000 * 10000 * (U * V) + 2 * (10000 - 1) * 100000000 ^ p
        ≤ 100000000 * ((T + (2 * p - 1 - 1) * (10000 - 1)) * 100000000 ^ (p - 1)) + 2 * (10000 - 1) * 100000000 ^ p :=
          Nat.add_le_add_right h2 _
      _ = (T + (2 * p - 1 - 1) * 9999) * 100000000 ^ p + 2 * 9999 * 100000000 ^ p := by rw [hB]; ring
      _ = (T + (2 * p - 1 - 1 + 2) * 9999) * 100000000 ^ p := by ring
      _ = (T + 2 * p * 9999) * 100000000 ^ p := by rw [show 2 * p - 1 - 1 + 2 = 2 * p by omega]
      _ ≤ _ := by rw [show 2 * p - 1 + 1 = 2 * p by omega]

theorem colsF_ge {u v : List Nat} {p : Nat} (hp : 2 ≤ p) (hu : u.headD 0 ≠ 0) (hv : v.headD 0 ≠ 0) :
    100000000 ^ (p - 2) ≤ colsF u v p := by
  have hhalf : ∀ w : List Nat, w.headD 0 ≠ 0 → ∃ s, s ≤ 1 ∧ 1 ≤ (halves (w.take p)).getD s 0 := by
    intro w hw
    cases w with
    | nil => simp at hw
    | cons a w =>
      simp at hw
      obtain ⟨q, rfl⟩ : ∃ q, p = q + 1 := ⟨p - 1, by omega⟩
      rw [List.take_succ_cons, halves_cons]
      by_cases h : a / 10000 = 0
      · exact ⟨1, le_refl _, by simp; omega⟩
      · exact ⟨0, by norm_num, by simp; omega⟩
  obtain ⟨s, s1, s2⟩ := hhalf u hu
  obtain ⟨t, t1, t2⟩ := hhalf v hv
  unfold colsF
  rw [dv_eq_sum]
  have h0 : 1 ≤ conv (fun i => (halves (u.take p)).getD i 0) (fun i => (halves (v.take p)).getD i 0) (s + t) := by
    unfold conv
    refine le_trans ?_ (single_le_sum (f := fun i => (halves (u.take p)).getD i 0 * (halves (v.take p)).getD (s + t - i) 0)
      (fun _ _ => Nat.zero_le _) (mem_range.2 (by omega : s < s + t + 1)))
    simp only [Nat.add_sub_cancel_left]
    exact Nat.mul_pos s2 t2
  refine le_trans ?_ (single_le_sum (f := fun i => conv (fun i => (halves (u.take p)).getD i 0) (fun i => (halves (v.take p)).getD i 0) i * 10000 ^ (2 * p - 1 - 1 - i))
        (fun _ _ => Nat.zero_le _) (mem_range.2 (by omega : s + t < 2 * p - 1)))
  calc 100000000 ^ (p - 2) = 10000 ^ (2 * (p - 2)) := (pow_half _).symm
    _ ≤ 10000 ^ (2 * p - 1 - 1 - (s + t)) := Nat.pow_le_pow_right (by norm_num) (by omega)
    _ ≤ _ := Nat.le_mul_of_pos_left _ h0

/-- Half-limb multiplication of the first `p` limbs. -/
theorem mulLoopFFT_spec {u v : List Nat} (hu : OK u) (hv : OK v) {p : Nat} (hp1 : 1 ≤ p) (hp : p ≤ 400000000)
    (hpu : p ≤ u.length) (hpv : p ≤ v.length) :
    (mulLoopFFT u v p).length = u.length ∧ OK (mulLoopFFT u v p) ∧
    (mulLoopFFT u v p).drop p = u.drop p ∧
    lv ((mulLoopFFT u v p).take p) = colsF u v p := by
  have hC : ∀ k < 2 * p, convAt (halves (u.take p)) (halves (v.take p)) k ≤ 100000000000000000 := by
    intro k hk
    rw [convAt_eq]
    refine le_trans (conv_le (b := 10000) (fun i _ => halves_lt (hu.take p) i) (fun i _ => halves_lt (hv.take p) i)) ?_
    calc (k + 1) * ((10000 - 1) * (10000 - 1)) ≤ 800000000 * ((10000 - 1) * (10000 - 1)) :=
          Nat.mul_le_mul_right _ (by omega)
      _ ≤ _ := by norm_num
  obtain ⟨L, cf, l1, l2, l3, l4⟩ := fftRelease_spec (halves (u.take p)) (halves (v.take p)) p [] 0 hC (by norm_num)
  have hfun : convAt (halves (u.take p)) (halves (v.take p)) =
      conv (fun i => (halves (u.take p)).getD i 0) (fun i => (halves (v.take p)).getD i 0) := by
    funext k; exact convAt_eq _ _ _
  have hT := (colsF_bounds hu hv hp1 hpu hpv).1
  have hU := lv_lt (hu.take p)
  have hV := lv_lt (hv.take p)
  rw [List.length_take, Nat.min_eq_left hpu] at hU
  rw [List.length_take, Nat.min_eq_left hpv] at hV
  have hlt : colsF u v p < 100000000 ^ p := by
    have h1 := lt_of_le_of_lt hT (Nat.mul_lt_mul'' hU hV)
    exact lt_of_mul_lt_mul_right h1 (Nat.zero_le _)
  rw [hfun] at l4
  have l4' : lv L + cf * 100000000 ^ p = colsF u v p := l4
  have hcf : cf = 0 := by
    by_contra hc
    have : 1 * 100000000 ^ p ≤ cf * 100000000 ^ p := Nat.mul_le_mul_right _ (by omega)
    omega
  unfold mulLoopFFT
  rw [l1, List.append_nil]
  refine ⟨?_, OK.append l3 (hu.drop p), ?_, ?_⟩
  · simp [l2]; omega
  · rw [List.drop_append, l2]; simp [l2]
  · rw [List.take_append, l2]; simp
    rw [List.take_of_length_le (by omega)]
    rw [hcf] at l4'; omega

end EFX
