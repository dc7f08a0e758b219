import Verif.Model.Limbs
import Verif.Spec
import Mathlib.Data.List.GetD
import Mathlib.Tactic.Ring
import Mathlib.Tactic.Linarith
import Mathlib.Tactic.Positivity
import Mathlib.Algebra.BigOperators.Intervals
/-! Helper lemmas on limb lists: big-endian value, addition, subtraction, comparison, shifts. -/

namespace EFX
open Spec

/-- Big-endian value of a limb list. -/
def lv : List Nat → Nat
  | [] => 0
  | d :: ds => d * 100000000 ^ ds.length + lv ds

/-- All limbs below the base. -/
def OK (l : List Nat) : Prop := ∀ d ∈ l, d < 100000000

theorem OK.nil : OK [] := by intro d h; cases h
theorem OK.cons {a : Nat} {l : List Nat} (ha : a < 100000000) (h : OK l) : OK (a :: l) := by
  intro d hd
  rcases List.mem_cons.1 hd with rfl | h'
  · exact ha
  · exact h d h'
theorem OK.head {a : Nat} {l : List Nat} (h : OK (a :: l)) : a < 100000000 := h a (by simp)
theorem OK.tail {a : Nat} {l : List Nat} (h : OK (a :: l)) : OK l := fun d hd => h d (by simp [hd])
theorem OK.append {a b : List Nat} (ha : OK a) (hb : OK b) : OK (a ++ b) := by
  intro d hd
  rcases List.mem_append.1 hd with h | h
  · exact ha d h
  · exact hb d h
theorem OK.take {l : List Nat} (h : OK l) (k : Nat) : OK (l.take k) :=
  fun d hd => h d (List.mem_of_mem_take hd)
theorem OK.drop {l : List Nat} (h : OK l) (k : Nat) : OK (l.drop k) :=
  fun d hd => h d (List.mem_of_mem_drop hd)
theorem OK.replicate (k : Nat) : OK (List.replicate k 0) := by
  intro d hd; rw [List.eq_of_mem_replicate hd]; decide
theorem OK.set {l : List Nat} (h : OK l) (i a : Nat) (ha : a < 100000000) : OK (l.set i a) := by
  intro d hd
  rcases List.mem_or_eq_of_mem_set hd with h' | h'
  · exact h d h'
  · rw [h']; exact ha
theorem OK.dropLast {l : List Nat} (h : OK l) : OK l.dropLast :=
  fun d hd => h d (List.mem_of_mem_dropLast hd)
theorem OK.getD {l : List Nat} (h : OK l) (i : Nat) : l.getD i 0 < 100000000 := by
  by_cases hi : i < l.length
  · rw [List.getD_eq_getElem _ _ hi]; exact h _ (List.getElem_mem hi)
  · rw [List.getD_eq_default _ _ (by omega)]; decide
theorem OK.headD {l : List Nat} (h : OK l) : l.headD 0 < 100000000 := by
  cases l with
  | nil => decide
  | cons a l => exact h.head

@[simp] theorem lv_nil : lv [] = 0 := rfl
theorem lv_cons (d : Nat) (ds : List Nat) : lv (d :: ds) = d * 100000000 ^ ds.length + lv ds := rfl

theorem lv_append (a b : List Nat) : lv (a ++ b) = lv a * 100000000 ^ b.length + lv b := by
  induction a with
  | nil => simp
  | cons x a ih =>
    simp only [List.cons_append, lv_cons, ih, List.length_append, pow_add]; ring

theorem lv_replicate (k : Nat) : lv (List.replicate k 0) = 0 := by
  induction k with
  | zero => rfl
  | succ k ih => rw [List.replicate_succ, lv_cons, ih]; simp

theorem lv_lt {l : List Nat} (h : OK l) : lv l < 100000000 ^ l.length := by
  induction l with
  | nil => simp
  | cons a l ih =>
    have h1 := ih h.tail
    have h2 := h.head
    rw [lv_cons, List.length_cons, pow_succ]
    have : a * 100000000 ^ l.length + 100000000 ^ l.length ≤ 100000000 ^ l.length * 100000000 := by
      have : a + 1 ≤ 100000000 := h2
      calc _ = (a + 1) * 100000000 ^ l.length := by ring
        _ ≤ 100000000 * 100000000 ^ l.length := Nat.mul_le_mul_right _ this
        _ = _ := by ring
    omega

theorem lv_eq_zero {l : List Nat} : lv l = 0 ↔ ∀ d ∈ l, d = 0 := by
  induction l with
  | nil => simp
  | cons a l ih =>
    have hp : 0 < 100000000 ^ l.length := Nat.pos_of_ne_zero (by positivity)
    rw [lv_cons]
    constructor
    · intro h
      have h1 : a * 100000000 ^ l.length = 0 := by omega
      have h2 : lv l = 0 := by omega
      have h3 : a = 0 := by
        rcases Nat.mul_eq_zero.1 h1 with h | h
        · exact h
        · omega
      intro d hd
      rcases List.mem_cons.1 hd with rfl | h'
      · exact h3
      · exact ih.1 h2 d h'
    · intro h
      rw [h a (by simp), ih.2 (fun d hd => h d (by simp [hd]))]; simp

theorem lv_inj {a b : List Nat} (hl : a.length = b.length) (ha : OK a) (hb : OK b)
    (h : lv a = lv b) : a = b := by
  induction a generalizing b with
  | nil => cases b with
    | nil => rfl
    | cons _ _ => simp at hl
  | cons x a ih =>
    cases b with
    | nil => simp at hl
    | cons y b =>
      simp only [List.length_cons, Nat.add_right_cancel_iff] at hl
      rw [lv_cons, lv_cons, hl] at h
      have h1 := lv_lt ha.tail
      have h2 := lv_lt hb.tail
      rw [hl] at h1
      have hp : 0 < 100000000 ^ b.length := Nat.pos_of_ne_zero (by positivity)
      have e1 : x = y := by
        have := congrArg (· / 100000000 ^ b.length) h
        rwa [Nat.mul_comm x, Nat.mul_comm y, Nat.mul_add_div hp, Nat.mul_add_div hp,
          Nat.div_eq_of_lt h1, Nat.div_eq_of_lt h2] at this
      subst e1
      rw [ih hl ha.tail hb.tail (by omega)]

/-- Link between the specification value and the integer value. -/
theorem digitsValue_eq (e : Int) (l : List Nat) :
    digitsValue e l = (lv l : ℚ) * (10 : ℚ) ^ (e - 8 * ((l.length : Int) - 1)) := by
  induction l generalizing e with
  | nil => simp [digitsValue]
  | cons d ds ih =>
    rw [digitsValue, ih, lv_cons, List.length_cons]
    push_cast
    have h10 : (10 : ℚ) ≠ 0 := by norm_num
    have e1 : (e - 8 - 8 * ((ds.length : Int) - 1)) = e - 8 * ((ds.length : Int) + 1 - 1) := by ring
    rw [e1]
    have e2 : (100000000 : ℚ) ^ ds.length = (10 : ℚ) ^ (8 * (ds.length : Int)) := by
      rw [zpow_mul]; norm_num
    rw [add_mul, e2]
    have e3 : (d : ℚ) * (10 : ℚ) ^ (8 * (ds.length : Int)) * (10 : ℚ) ^ (e - 8 * ((ds.length : Int) + 1 - 1))
        = (d : ℚ) * (10 : ℚ) ^ e := by
      rw [mul_assoc, ← zpow_add₀ h10]; congr 2; ring
    rw [e3]

/-! ### words -/

theorem w32_id {n : Nat} (h : n < 4294967296) : w32 n = n := Nat.mod_eq_of_lt h
theorem w64_id {n : Nat} (h : n < 18446744073709551616) : w64 n = n := Nat.mod_eq_of_lt h
theorem i32_id {x : Int} (h1 : -2147483648 ≤ x) (h2 : x < 2147483648) : i32 x = x := by
  unfold i32; omega

theorem maskZ : ((mask : Nat) : Int) = 100000000 := by norm_num [mask]
theorem maskN : mask = 100000000 := rfl

/-! ### addition loop -/

theorem addLoop_spec {u v : List Nat} (hl : u.length = v.length) (hu : OK u) (hv : OK v) :
    (addLoop u v).1.length = u.length ∧ OK (addLoop u v).1 ∧ (addLoop u v).2 ≤ 1 ∧
    lv (addLoop u v).1 + (addLoop u v).2 * 100000000 ^ u.length = lv u + lv v := by
  induction u generalizing v with
  | nil =>
    cases v with
    | nil => simp [addLoop, OK.nil]
    | cons _ _ => simp at hl
  | cons a u ih =>
    cases v with
    | nil => simp at hl
    | cons b v =>
      simp only [List.length_cons, Nat.add_right_cancel_iff] at hl
      obtain ⟨h1, h2, h3, h4⟩ := ih hl hu.tail hv.tail
      have ha := hu.head
      have hb := hv.head
      simp only [addLoop]
      generalize hr : addLoop u v = r at *
      have et : w32 (w32 (a + b) + r.2) = a + b + r.2 := by
        rw [w32_id (by omega : a + b < 4294967296), w32_id (by omega)]
      rw [et]
      have em : (a + b + r.2) / mask ≤ 1 := by unfold mask; omega
      have ew : wsub32 (a + b + r.2) (w32 ((a + b + r.2) / mask * mask)) = (a + b + r.2) % 100000000 := by
        unfold wsub32 w32 mask at *; omega
      rw [ew]
      refine ⟨by simp [h1], OK.cons (by omega) h2, em, ?_⟩
      have key : (a + b + r.2) % 100000000 + (a + b + r.2) / mask * 100000000 = a + b + r.2 := by
        unfold mask; omega
      have : ((a + b + r.2) % 100000000) * 100000000 ^ u.length +
          (a + b + r.2) / mask * 100000000 ^ (u.length + 1) = (a + b + r.2) * 100000000 ^ u.length := by
        rw [pow_succ]
        calc _ = ((a + b + r.2) % 100000000 + (a + b + r.2) / mask * 100000000) * 100000000 ^ u.length := by ring
          _ = _ := by rw [key]
      rw [lv_cons, lv_cons, lv_cons, h1, List.length_cons, ← hl]
      have e : (a + b + r.2) * 100000000 ^ u.length
        = a * 100000000 ^ u.length + b * 100000000 ^ u.length + r.2 * 100000000 ^ u.length := by ring
      omega

/-! ### subtraction loop -/

theorem sub_step1 {a b : Nat} {r : Int} (ha : a < 100000000) (hb : b < 100000000)
    (hr : r = 0 ∨ r = 1) : i32 (i32 (i32 a - i32 b) - r) = (a : Int) - b - r := by
  unfold i32; omega

theorem sub_step2 {a b : Nat} {r : Int} (ha : a < 100000000) (hb : b < 100000000)
    (hr : r = 0 ∨ r = 1) (hneg : (a : Int) - b - r < 0) :
    i32 ((a : Int) - b - r + mask) = (a : Int) - b - r + 100000000 ∧
    u32OfInt ((a : Int) - b - r + 100000000) % mask = ((a : Int) - b - r + 100000000).toNat ∧
    ((a : Int) - b - r + 100000000).toNat < 100000000 ∧
    (((a : Int) - b - r + 100000000).toNat : Int) = (a : Int) - b - r + 100000000 := by
  refine ⟨?_, ?_, ?_, ?_⟩
  · rw [maskZ]; unfold i32; omega
  · unfold u32OfInt mask; omega
  · omega
  · omega

theorem sub_step3 {a b : Nat} {r : Int} (ha : a < 100000000) (hb : b < 100000000)
    (hr : r = 0 ∨ r = 1) (hneg : ¬ (a : Int) - b - r < 0) :
    u32OfInt ((a : Int) - b - r) % mask = ((a : Int) - b - r).toNat ∧
    ((a : Int) - b - r).toNat < 100000000 ∧
    (((a : Int) - b - r).toNat : Int) = (a : Int) - b - r := by
  refine ⟨?_, ?_, ?_⟩
  · unfold u32OfInt mask; omega
  · omega
  · omega

theorem subLoop_spec {u v : List Nat} (hl : u.length = v.length) (hu : OK u) (hv : OK v) :
    (subLoop u v).1.length = u.length ∧ OK (subLoop u v).1 ∧
    ((subLoop u v).2 = 0 ∨ (subLoop u v).2 = 1) ∧
    (lv (subLoop u v).1 : Int) = lv u - lv v + (subLoop u v).2 * 100000000 ^ u.length := by
  induction u generalizing v with
  | nil =>
    cases v with
    | nil => simp [subLoop, OK.nil]
    | cons _ _ => simp at hl
  | cons a u ih =>
    cases v with
    | nil => simp at hl
    | cons b v =>
      simp only [List.length_cons, Nat.add_right_cancel_iff] at hl
      obtain ⟨h1, h2, h3, h4⟩ := ih hl hu.tail hv.tail
      have ha := hu.head
      have hb := hv.head
      simp only [subLoop]
      generalize hr : subLoop u v = r at *
      rw [sub_step1 ha hb h3]
      by_cases hneg : (a : Int) - b - r.2 < 0
      · obtain ⟨e2, e3, e4, e5⟩ := sub_step2 ha hb h3 hneg
        simp only [hneg, if_true, e2, e3]
        refine ⟨by simp [h1], OK.cons e4 h2, Or.inr trivial, ?_⟩
        rw [lv_cons, lv_cons, lv_cons, h1, List.length_cons, ← hl, pow_succ]
        push_cast
        rw [h4]
        rw [e5]; ring
      · obtain ⟨e3, e4, e5⟩ := sub_step3 ha hb h3 hneg
        simp only [hneg, if_false, e3]
        refine ⟨by simp [h1], OK.cons e4 h2, Or.inl trivial, ?_⟩
        rw [lv_cons, lv_cons, lv_cons, h1, List.length_cons, ← hl]
        push_cast
        rw [h4]
        rw [e5]; ring

/-- When the minuend is at least the subtrahend the loop ends without borrow. -/
theorem subLoop_ge {u v : List Nat} (hl : u.length = v.length) (hu : OK u) (hv : OK v)
    (h : lv v ≤ lv u) : lv (subLoop u v).1 = lv u - lv v := by
  obtain ⟨h1, h2, h3, h4⟩ := subLoop_spec hl hu hv
  have hlt := lv_lt h2
  rw [h1] at hlt
  rcases h3 with h3 | h3
  · rw [h3] at h4; omega
  · rw [h3] at h4
    exfalso
    have : ((lv (subLoop u v).1 : Nat) : Int) < ((100000000 ^ u.length : Nat) : Int) := by exact_mod_cast hlt
    push_cast at this
    omega

/-! ### comparison -/

theorem cmpData_spec {u v : List Nat} (hl : u.length = v.length) (hu : OK u) (hv : OK v) :
    cmpData u v = if lv u < lv v then -1 else if lv u = lv v then 0 else 1 := by
  induction u generalizing v with
  | nil =>
    cases v with
    | nil => simp [cmpData]
    | cons _ _ => simp at hl
  | cons a u ih =>
    cases v with
    | nil => simp at hl
    | cons b v =>
      simp only [List.length_cons, Nat.add_right_cancel_iff] at hl
      have h := ih hl hu.tail hv.tail
      have l1 := lv_lt hu.tail
      have l2 := lv_lt hv.tail
      have hL : lv (a :: u) = a * 100000000 ^ v.length + lv u := by rw [lv_cons, hl]
      have hR : lv (b :: v) = b * 100000000 ^ v.length + lv v := lv_cons _ _
      rw [hl] at l1
      rw [cmpData]
      by_cases hab : a = b
      · subst hab
        rw [if_pos rfl, h]
        have e1 : (lv (a :: u) < lv (a :: v)) ↔ lv u < lv v := by rw [hL, hR]; omega
        have e2 : (lv (a :: u) = lv (a :: v)) ↔ lv u = lv v := by rw [hL, hR]; omega
        simp only [e1, e2]
      · by_cases hgt : a > b
        · have : b * 100000000 ^ v.length + 100000000 ^ v.length ≤ a * 100000000 ^ v.length := by
            calc _ = (b + 1) * 100000000 ^ v.length := by ring
              _ ≤ _ := Nat.mul_le_mul_right _ hgt
          rw [if_neg hab, if_pos hgt, if_neg (by rw [hL, hR]; omega), if_neg (by rw [hL, hR]; omega)]
        · have : a * 100000000 ^ v.length + 100000000 ^ v.length ≤ b * 100000000 ^ v.length := by
            calc _ = (a + 1) * 100000000 ^ v.length := by ring
              _ ≤ _ := Nat.mul_le_mul_right _ (by omega)
          rw [if_neg hab, if_neg hgt, if_pos (by rw [hL, hR]; omega)]

/-! ### shifts -/

theorem lv_take (l : List Nat) (hl : OK l) (k : Nat) (hk : k ≤ l.length) :
    lv (l.take (l.length - k)) = lv l / 100000000 ^ k := by
  have h := lv_append (l.take (l.length - k)) (l.drop (l.length - k))
  rw [List.take_append_drop] at h
  have hlen : (l.drop (l.length - k)).length = k := by simp; omega
  have hlt := lv_lt (hl.drop (l.length - k))
  rw [hlen] at h hlt
  rw [h, Nat.mul_comm, Nat.mul_add_div (by positivity), Nat.div_eq_of_lt hlt]; rfl

theorem lv_drop (l : List Nat) (hl : OK l) (k : Nat) (hk : k ≤ l.length) :
    lv (l.drop (l.length - k)) = lv l % 100000000 ^ k := by
  have h := lv_append (l.take (l.length - k)) (l.drop (l.length - k))
  rw [List.take_append_drop] at h
  have hlen : (l.drop (l.length - k)).length = k := by simp; omega
  have hlt := lv_lt (hl.drop (l.length - k))
  rw [hlen] at h hlt
  rw [h, Nat.mul_comm, Nat.mul_add_mod, Nat.mod_eq_of_lt hlt]

@[simp] theorem shiftDown_length (k : Nat) (d : List Nat) : (shiftDown k d).length = d.length := by
  unfold shiftDown; simp; omega

theorem shiftDown_OK (k : Nat) {d : List Nat} (h : OK d) : OK (shiftDown k d) :=
  OK.append (OK.replicate _) (h.take _)

theorem shiftDown_lv (k : Nat) {d : List Nat} (h : OK d) :
    lv (shiftDown k d) = lv d / 100000000 ^ k := by
  unfold shiftDown
  rw [lv_append, lv_replicate]
  by_cases hk : k ≤ d.length
  · rw [lv_take d h k hk]; simp
  · have : d.length - k = 0 := by omega
    rw [this]
    have hlt : lv d < 100000000 ^ k :=
      lt_of_lt_of_le (lv_lt h) (Nat.pow_le_pow_right (by decide) (by omega))
    rw [Nat.div_eq_of_lt hlt]; simp

@[simp] theorem shiftDown_zero (d : List Nat) : shiftDown 0 d = d := by
  simp [shiftDown]

@[simp] theorem shiftUp_length (k : Nat) (d : List Nat) : (shiftUp k d).length = d.length := by
  unfold shiftUp; simp; omega

theorem shiftUp_OK (k : Nat) {d : List Nat} (h : OK d) : OK (shiftUp k d) :=
  OK.append (h.drop _) (OK.replicate _)

theorem shiftUp_lv (k : Nat) {d : List Nat} (h : OK d) (hk : k ≤ d.length) :
    lv (shiftUp k d) = lv d % 100000000 ^ (d.length - k) * 100000000 ^ k := by
  unfold shiftUp
  rw [lv_append, lv_replicate, List.length_replicate, Nat.min_eq_left hk]
  have := lv_drop d h (d.length - k) (by omega)
  rw [show d.length - (d.length - k) = k by omega] at this
  rw [this]; simp

theorem firstNonzero_le (d : List Nat) : firstNonzero d ≤ d.length := by
  induction d with
  | nil => simp [firstNonzero]
  | cons a d ih => unfold firstNonzero; split <;> (simp; try omega)

theorem firstNonzero_eq_length {d : List Nat} : firstNonzero d = d.length ↔ ∀ x ∈ d, x = 0 := by
  induction d with
  | nil => simp [firstNonzero]
  | cons a d ih =>
    unfold firstNonzero
    by_cases ha : a = 0
    · simp [ha, ih]
    · simp [ha]

theorem firstNonzero_eq_zero {d : List Nat} (hd : d ≠ []) :
    firstNonzero d = 0 ↔ d.headD 0 ≠ 0 := by
  cases d with
  | nil => exact absurd rfl hd
  | cons a d => unfold firstNonzero; by_cases ha : a = 0 <;> simp [ha]

/-- Size of a list from the position of its first non-zero limb. -/
theorem lv_firstNonzero {d : List Nat} (h : OK d) :
    lv d < 100000000 ^ (d.length - firstNonzero d) ∧
    (firstNonzero d < d.length → 100000000 ^ (d.length - firstNonzero d - 1) ≤ lv d) := by
  induction d with
  | nil => simp [firstNonzero]
  | cons a d ih =>
    unfold firstNonzero
    by_cases ha : a = 0
    · obtain ⟨h1, h2⟩ := ih h.tail
      simp only [ha, ne_eq, not_true, if_false, List.length_cons, lv_cons, Nat.zero_mul, Nat.zero_add,
        Nat.add_sub_add_right, Nat.add_lt_add_iff_right]
      exact ⟨h1, h2⟩
    · simp only [ne_eq, ha, not_false_iff, if_true]
      refine ⟨lv_lt h, fun _ => ?_⟩
      rw [lv_cons, List.length_cons]
      have : 1 ≤ a := by omega
      calc 100000000 ^ (d.length + 1 - 0 - 1) = 1 * 100000000 ^ d.length := by simp
        _ ≤ a * 100000000 ^ d.length := Nat.mul_le_mul_right _ this
        _ ≤ _ := by omega

theorem shiftUp_first {d : List Nat} (h : OK d) :
    lv (shiftUp (firstNonzero d) d) = lv d * 100000000 ^ firstNonzero d := by
  rw [shiftUp_lv _ h (firstNonzero_le d), Nat.mod_eq_of_lt (lv_firstNonzero h).1]

theorem lv_head {l : List Nat} (h : l.headD 0 ≠ 0) : 100000000 ^ (l.length - 1) ≤ lv l := by
  cases l with
  | nil => simp at h
  | cons a l =>
    simp only [List.headD_cons] at h
    rw [lv_cons]
    calc 100000000 ^ (l.length + 1 - 1) = 1 * 100000000 ^ l.length := by simp
      _ ≤ a * 100000000 ^ l.length := Nat.mul_le_mul_right _ (by omega)
      _ ≤ _ := by omega

theorem headD_ne_zero_of_le {l : List Nat} (hl : OK l) (hne : l ≠ []) (h : 100000000 ^ (l.length - 1) ≤ lv l) :
    l.headD 0 ≠ 0 := by
  cases l with
  | nil => exact absurd rfl hne
  | cons a l =>
    intro h0
    simp only [List.headD_cons] at h0
    rw [lv_cons, h0] at h
    have := lv_lt hl.tail
    simp at h
    omega

theorem shiftUp_first_head {d : List Nat} (h : firstNonzero d < d.length) :
    (shiftUp (firstNonzero d) d).headD 0 ≠ 0 := by
  unfold shiftUp
  induction d with
  | nil => simp at h
  | cons a d ih =>
    unfold firstNonzero at h ⊢
    by_cases ha : a = 0
    · simp only [ha, ne_eq, not_true, if_false, List.length_cons] at h ⊢
      have h' : firstNonzero d < d.length := by omega
      have := ih h'
      rw [List.drop_succ_cons]
      cases hdr : d.drop (firstNonzero d) with
      | nil =>
        have := congrArg List.length hdr
        simp at this; omega
      | cons b t => rw [hdr] at this; simpa using this
    · simp [ha]

end EFX
