import Verif.Model.Text
import Verif.Lemmas.AddMain
/-! Strings of digits and the stages of `rd_string`. -/

namespace EFX
open Spec

/-- Only decimal digits. -/
def Digs (s : Str) : Prop := ∀ ch ∈ s, isDig ch = true

instance (s : Str) : Decidable (Digs s) := by unfold Digs; infer_instance

theorem Digs.append {a b : Str} (ha : Digs a) (hb : Digs b) : Digs (a ++ b) := by
  intro ch h
  rcases List.mem_append.1 h with h | h
  · exact ha ch h
  · exact hb ch h

theorem Digs.left {a b : Str} (h : Digs (a ++ b)) : Digs a := fun ch hc => h ch (List.mem_append_left _ hc)
theorem Digs.right {a b : Str} (h : Digs (a ++ b)) : Digs b := fun ch hc => h ch (List.mem_append_right _ hc)
theorem Digs.take {a : Str} (h : Digs a) (k : ℕ) : Digs (a.take k) := fun ch hc => h ch (List.mem_of_mem_take hc)
theorem Digs.drop {a : Str} (h : Digs a) (k : ℕ) : Digs (a.drop k) := fun ch hc => h ch (List.mem_of_mem_drop hc)
theorem Digs.zeros (k : ℕ) : Digs (List.replicate k '0') := by
  intro ch h; rw [List.eq_of_mem_replicate h]; decide
theorem Digs.nil : Digs [] := by intro ch h; simp at h
theorem Digs.not_mem {a : Str} (h : Digs a) {ch : Char} (hc : isDig ch = false) : ch ∉ a := by
  intro hm; rw [h ch hm] at hc; cases hc

theorem parseNat_foldl (s : Str) (n : ℕ) :
    s.foldl (fun a ch => a * 10 + digVal ch) n = n * 10 ^ s.length + parseNat s := by
  unfold parseNat
  induction s generalizing n with
  | nil => simp
  | cons ch s ih =>
    simp only [List.foldl_cons, List.length_cons]
    rw [ih, ih (0 * 10 + digVal ch)]
    ring

theorem parseNat_append (a b : Str) : parseNat (a ++ b) = parseNat a * 10 ^ b.length + parseNat b := by
  conv_lhs => unfold parseNat
  rw [List.foldl_append, parseNat_foldl]
  rfl

theorem parseNat_cons (ch : Char) (s : Str) : parseNat (ch :: s) = digVal ch * 10 ^ s.length + parseNat s := by
  have := parseNat_append [ch] s
  simpa [parseNat] using this

theorem parseNat_zeros (k : ℕ) : parseNat (List.replicate k '0') = 0 := by
  induction k with
  | zero => rfl
  | succ k ih => rw [List.replicate_succ, parseNat_cons, ih]; simp [digVal]

theorem digVal_lt {ch : Char} (h : isDig ch = true) : digVal ch < 10 := by
  unfold isDig at h
  unfold digVal
  simp only [decide_eq_true_eq] at h
  omega

theorem parseNat_lt {s : Str} (h : Digs s) : parseNat s < 10 ^ s.length := by
  induction s with
  | nil => simp [parseNat]
  | cons ch s ih =>
    rw [parseNat_cons, List.length_cons]
    have h1 := digVal_lt (h ch (by simp))
    have h2 := ih (fun c hc => h c (by simp [hc]))
    calc digVal ch * 10 ^ s.length + parseNat s < digVal ch * 10 ^ s.length + 10 ^ s.length := by omega
      _ = (digVal ch + 1) * 10 ^ s.length := by ring
      _ ≤ 10 * 10 ^ s.length := Nat.mul_le_mul_right _ (by omega)
      _ = 10 ^ (s.length + 1) := by ring

theorem digVal_eq_zero {ch : Char} (h : isDig ch = true) : digVal ch = 0 ↔ ch = '0' := by
  constructor
  · intro h0
    unfold digVal at h0
    unfold isDig at h
    simp only [decide_eq_true_eq] at h
    have : ch.toNat = 48 := by omega
    have h2 : ch.toNat = '0'.toNat := this
    exact Char.toNat_inj.1 h2
  · rintro rfl; rfl

theorem parseNat_pos {s : Str} (h : Digs s) (h0 : s.head? ≠ some '0') (hs : s ≠ []) : 10 ^ (s.length - 1) ≤ parseNat s := by
  cases s with
  | nil => exact absurd rfl hs
  | cons ch s =>
    rw [parseNat_cons]
    have h1 : ch ≠ '0' := by simpa using h0
    have h2 : digVal ch ≠ 0 := fun e => h1 ((digVal_eq_zero (h ch (by simp))).1 e)
    simp only [List.length_cons, Nat.add_sub_cancel]
    have : 1 * 10 ^ s.length ≤ digVal ch * 10 ^ s.length := Nat.mul_le_mul_right _ (by omega)
    omega

theorem takeWhile_digs {s : Str} (h : Digs s) : s.takeWhile isDig = s :=
  by
  induction s with
  | nil => rfl
  | cons a s ih => rw [List.takeWhile_cons, h a (by simp)]; simp only [if_true]; rw [ih (fun c hc => h c (by simp [hc]))]

theorem castU32_digs {s : Str} (h : Digs s) (h0 : s ≠ []) (h8 : s.length ≤ 8) : castU32 s = some (parseNat s) := by
  unfold castU32
  have hs : ∀ ch : Char, isDig ch = false → s.head? ≠ some ch := by
    intro ch hch he
    have : ch ∈ s := List.mem_of_mem_head? he
    rw [h ch this] at hch
    exact Bool.noConfusion hch
  have h1 := hs '-' (by decide)
  have h2 := hs '+' (by decide)
  simp only [h1, h2, or_self, if_false, decide_false, takeWhile_digs h, Bool.false_eq_true]
  rw [if_neg (by simpa using h0), if_pos]
  have h1 := parseNat_lt h
  have h2 : 10 ^ s.length ≤ 10 ^ 8 := Nat.pow_le_pow_right (by norm_num) h8
  omega

theorem strFind_split {A B : Str} {ch : Char} (h : ch ∉ A) : strFind ch (A ++ ch :: B) = some A.length := by
  unfold strFind
  induction A with
  | nil => simp [List.findIdx?_cons]
  | cons a A ih =>
    have h1 : a ≠ ch := by rintro rfl; simp at h
    have h2 : ch ∉ A := fun hm => h (by simp [hm])
    rw [List.cons_append, List.findIdx?_cons]
    simp only [beq_iff_eq, h1, if_false]
    rw [ih h2]
    simp

theorem strFind_none {s : Str} {ch : Char} (h : ch ∉ s) : strFind ch s = none := by
  unfold strFind
  rw [List.findIdx?_eq_none_iff]
  intro x hx
  simp only [beq_eq_false_iff_ne, ne_eq]
  rintro rfl
  exact h hx

theorem Digs.no_dot {A : Str} (h : Digs A) : '.' ∉ A := h.not_mem (by decide)

theorem strInsert_at (A B : Str) (ch : Char) : strInsert A.length ch (A ++ B) = some (A ++ ch :: B) := by
  unfold strInsert
  rw [if_pos (by simp)]
  simp

theorem strErase_at (A B : Str) (ch : Char) : strErase A.length (A ++ ch :: B) = some (A ++ B) := by
  unfold strErase
  rw [if_pos (by simp)]
  simp [List.eraseIdx_append_of_length_le]

/-! ### Normal form -/

/-- `s` is a digit string with a point after `A`, does not start with zero, and denotes `q` together with the
exponent `e`. -/
structure Dec (A B : Str) (e : ℤ) (q : ℚ) : Prop where
  da : Digs A
  db : Digs B
  ne : A ≠ []
  lead : A.head? ≠ some '0'
  value : (parseNat (A ++ B) : ℚ) * (10 : ℚ) ^ (e - B.length) = q

theorem head_append {A B : Str} (h : A ≠ []) : (A ++ B).head? = A.head? := by
  cases A with
  | nil => exact absurd rfl h
  | cons a A => rfl

theorem head_take {A : Str} {k : ℕ} (h : 0 < k) : (A.take k).head? = A.head? := by
  cases A with
  | nil => simp
  | cons a A =>
    obtain ⟨k, rfl⟩ : ∃ j, k = j + 1 := ⟨k - 1, by omega⟩
    rfl

theorem Dec.pad {A B : Str} {e : ℤ} {q : ℚ} (h : Dec A B e q) (k : ℕ) : Dec A (B ++ List.replicate k '0') e q := by
  refine ⟨h.da, h.db.append (Digs.zeros k), h.ne, h.lead, ?_⟩
  rw [← List.append_assoc, parseNat_append, parseNat_zeros, ← h.value]
  simp only [List.length_replicate, List.length_append, Nat.add_zero, Nat.cast_mul, Nat.cast_pow, Nat.cast_ofNat]
  rw [mul_assoc, ← zpow_natCast, ← zpow_add₀ (by norm_num)]
  congr 2
  push_cast
  ring

/-- Moving `k` digits from the right of the point to the left. -/
theorem Dec.moveRight {A B : Str} {e : ℤ} {q : ℚ} (h : Dec A B e q) {k : ℕ} (hk : k ≤ B.length) :
    Dec (A ++ B.take k) (B.drop k) (e - k) q := by
  refine ⟨h.da.append (h.db.take k), h.db.drop k, by simp [h.ne], by rw [head_append h.ne]; exact h.lead, ?_⟩
  rw [List.append_assoc, List.take_append_drop, ← h.value, List.length_drop]
  congr 2
  push_cast [Nat.cast_sub hk]
  ring

/-- Moving the digits from position `k` on from the left of the point to the right. -/
theorem Dec.moveLeft {A B : Str} {e : ℤ} {q : ℚ} (h : Dec A B e q) {k : ℕ} (h1 : 0 < k) (hk : k ≤ A.length) :
    Dec (A.take k) (A.drop k ++ B) (e + (A.length - k : ℕ)) q := by
  refine ⟨h.da.take k, (h.da.drop k).append h.db, ?_, by rw [head_take h1]; exact h.lead, ?_⟩
  · intro h0
    have := congrArg List.length h0
    rw [List.length_take, List.length_nil] at this
    omega
  · rw [← List.append_assoc, List.take_append_drop, ← h.value, List.length_append, List.length_drop]
    congr 2
    push_cast [Nat.cast_sub hk]
    ring

theorem rdShift_spec {A B : Str} {e : ℤ} {q : ℚ} (h : Dec A B e q) :
    ∃ A' B' e', rdShift (A ++ '.' :: B) e = some (A' ++ '.' :: B', e') ∧ Dec A' B' e' q ∧ (8 : ℤ) ∣ e' ∧
      A'.length + B'.length ≤ A.length + B.length + 8 := by
  have hsh : ∃ n : ℕ, (if Int.tmod e 8 ≠ 0 then (if e < 0 then Int.tmod e 8 + 8 else Int.tmod e 8) else 0) = (n : ℤ) ∧ n < 8 ∧
      (8 : ℤ) ∣ e - n := by
    have h1 := Int.mul_tdiv_add_tmod e 8
    have h2 : e.tmod 8 < 8 := Int.tmod_lt_of_pos e (by norm_num)
    rcases lt_or_ge e 0 with h3 | h3
    · have h4 : (-8 : ℤ) < e.tmod 8 ∧ e.tmod 8 ≤ 0 := by
        have a := Int.tmod_eq_emod (a := e) (b := 8)
        have h5 := Int.neg_tmod (-e) 8
        have h6 := Int.tmod_nonneg (a := -e) 8 (by omega)
        have h7 := Int.tmod_lt_of_pos (-e) (b := 8) (by norm_num)
        rw [neg_neg] at h5
        omega
      split
      · refine ⟨(e.tmod 8 + 8).toNat, by (try rw [if_pos h3]); omega, by omega, by omega⟩
      · exact ⟨0, rfl, by norm_num, by omega⟩
    · have h4 := Int.tmod_nonneg 8 h3
      split
      · refine ⟨(e.tmod 8).toNat, by (try rw [if_neg (by omega)]); omega, by omega, by omega⟩
      · exact ⟨0, rfl, by norm_num, by omega⟩
  obtain ⟨n, hn, hn8, hd⟩ := hsh
  unfold rdShift
  simp only [hn, strFind_split h.da.no_dot, Option.bind_eq_bind, Option.bind_some]
  -- padded fraction
  have hpad : ∃ B2, (if ((A ++ '.' :: B).length : ℤ) - ((A.length : ℤ) + 1) < (n : ℤ) then
      (A ++ '.' :: B) ++ List.replicate ((n : ℤ) - (((A ++ '.' :: B).length : ℤ) - ((A.length : ℤ) + 1))).toNat '0'
      else A ++ '.' :: B) = A ++ '.' :: B2 ∧ Dec A B2 e q ∧ n ≤ B2.length ∧ B2.length ≤ B.length + 8 := by
    have hl : ((A ++ '.' :: B).length : ℤ) - ((A.length : ℤ) + 1) = B.length := by
      rw [List.length_append, List.length_cons]; push_cast; ring
    rw [hl]
    split
    · rename_i h1
      refine ⟨B ++ List.replicate ((n : ℤ) - (B.length : ℤ)).toNat '0', by simp, h.pad _, ?_, ?_⟩ <;>
        rw [List.length_append, List.length_replicate] <;> omega
    · exact ⟨B, rfl, h, by omega, by omega⟩
  obtain ⟨B2, e2, d2, l2, l3⟩ := hpad
  rw [e2]
  by_cases h0 : n = 0
  · subst h0
    rw [if_neg (by simp)]
    exact ⟨A, B2, e, rfl, d2, by simpa using hd, by omega⟩
  · rw [if_pos (by exact_mod_cast h0)]
    have e3 : strInsert (A.length + 1 + (n : ℤ).toNat) '.' (A ++ '.' :: B2) = some (A ++ '.' :: (B2.take n ++ '.' :: B2.drop n)) := by
      have := strInsert_at (A ++ '.' :: B2.take n) (B2.drop n) '.'
      have hl : (A ++ '.' :: B2.take n).length = A.length + 1 + (n : ℤ).toNat := by
        rw [List.length_append, List.length_cons, List.length_take]; omega
      rw [hl] at this
      simpa using this
    rw [e3]
    simp only [Option.bind_some]
    rw [strErase_at]
    refine ⟨A ++ B2.take n, B2.drop n, e - n, by simp, d2.moveRight l2, hd, ?_⟩
    rw [List.length_append, List.length_take, List.length_drop]; omega

theorem rdCut_spec {A B : Str} {e : ℤ} {q : ℚ} (h : Dec A B e q) (h8 : (8 : ℤ) ∣ e) (hl : A.length < 2147483648) :
    ∃ A' B' e', rdCut (A ++ '.' :: B) e = some (A' ++ '.' :: B', e') ∧ Dec A' B' e' q ∧ (8 : ℤ) ∣ e' ∧
      A'.length ≤ 8 ∧ A'.length + B'.length = A.length + B.length := by
  unfold rdCut
  simp only [strFind_split h.da.no_dot, Option.bind_eq_bind, Option.bind_some]
  by_cases hp : A.length > 8
  · rw [if_pos hp, i32_id (by omega) (by omega)]
    obtain ⟨n, hn, k1, k2⟩ : ∃ n : ℕ, (Int.tdiv (A.length : ℤ) 8 - if Int.tmod (A.length : ℤ) 8 = 0 then 1 else 0) = (n : ℤ) ∧
        0 < A.length - n * 8 ∧ A.length - n * 8 ≤ 8 ∧ n * 8 ≤ A.length := by
      rw [Int.tdiv_eq_ediv_of_nonneg (by omega), Int.tmod_eq_emod_of_nonneg (by omega)]
      split
      · exact ⟨A.length / 8 - 1, by omega, by omega, by omega, by omega⟩
      · exact ⟨A.length / 8, by omega, by omega, by omega, by omega⟩
    rw [hn, if_neg (by omega)]
    have ek : ((A.length : ℤ) - (n : ℤ) * 8).toNat = A.length - n * 8 := by omega
    rw [ek]
    generalize hk : A.length - n * 8 = k at *
    have e3 : strInsert k '.' (A ++ '.' :: B) = some (A.take k ++ '.' :: (A.drop k ++ '.' :: B)) := by
      have := strInsert_at (A.take k) (A.drop k ++ '.' :: B) '.'
      rw [List.length_take, min_eq_left (by omega)] at this
      rw [← this, ← List.append_assoc, List.take_append_drop]
    rw [e3]
    simp only [Option.bind_some]
    have e4 : strErase (A.length + 1) (A.take k ++ '.' :: (A.drop k ++ '.' :: B)) = some (A.take k ++ '.' :: (A.drop k ++ B)) := by
      have := strErase_at (A.take k ++ '.' :: A.drop k) B '.'
      have hl : (A.take k ++ '.' :: A.drop k).length = A.length + 1 := by
        rw [List.length_append, List.length_cons, List.length_take, List.length_drop]; omega
      rw [hl] at this
      simpa using this
    rw [e4]
    refine ⟨A.take k, A.drop k ++ B, e + (n : ℤ) * 8, rfl, ?_, by omega, by rw [List.length_take]; omega, ?_⟩
    · have := h.moveLeft k1 (by omega)
      have e5 : ((A.length - k : ℕ) : ℤ) = (n : ℤ) * 8 := by omega
      rwa [e5] at this
    · rw [List.length_append, List.length_take, List.length_drop]; omega
  · rw [if_neg hp]
    exact ⟨A, B, e, rfl, h, h8, by omega, rfl⟩

theorem rdPad_spec (c : Cfg) {A B : Str} {e : ℤ} {q : ℚ} (h : Dec A B e q) (hl : A.length + B.length < 2147483648) :
    ∃ B' k, rdPad c (A ++ '.' :: B) = some (A ++ '.' :: B') ∧ Digs B' ∧ B'.length = 8 * k ∧ k ≤ c.elems - 1 ∧
      parseNat (A ++ B') * 10 ^ (8 * (c.elems - 1 - k)) = parseNat (A ++ B) * 10 ^ (8 * (c.elems - 1)) / 10 ^ B.length := by
  unfold rdPad
  simp only [strFind_split h.da.no_dot, Option.bind_eq_bind, Option.bind_some]
  have hlen : (((A ++ '.' :: B).length : ℤ) - 1) = (A.length : ℤ) + B.length := by
    rw [List.length_append, List.length_cons]; push_cast; ring
  rw [hlen, i32_id (x := (A.length : ℤ) + B.length) (by omega) (by omega), i32_id (x := (A.length : ℤ)) (by omega) (by omega), add_sub_cancel_left,
    i32_id (by omega) (by omega), Int.tmod_eq_emod_of_nonneg (by omega)]
  obtain ⟨z, hz, hz8⟩ : ∃ z : ℕ, (if (B.length : ℤ) % 8 ≠ 0 then 8 - (B.length : ℤ) % 8 else 0) = (z : ℤ) ∧ 8 ∣ B.length + z := by
    split
    · exact ⟨(8 - (B.length : ℤ) % 8).toNat, by omega, by omega⟩
    · exact ⟨0, by simp, by omega⟩
  rw [hz]
  simp only [Int.toNat_natCast]
  obtain ⟨m, hm⟩ := hz8
  have dB : Digs (B ++ List.replicate z '0') := h.db.append (Digs.zeros z)
  have lB : (B ++ List.replicate z '0').length = 8 * m := by rw [List.length_append, List.length_replicate]; exact hm
  have pB : parseNat (A ++ (B ++ List.replicate z '0')) = parseNat (A ++ B) * 10 ^ z := by
    rw [← List.append_assoc, parseNat_append, parseNat_zeros]; simp
  have e1 : A ++ '.' :: B ++ List.replicate z '0' = A ++ '.' :: (B ++ List.replicate z '0') := by simp
  rw [e1]
  have e2 : (A ++ '.' :: (B ++ List.replicate z '0')).length - A.length = 8 * m + 1 := by
    rw [List.length_append, List.length_cons, lB]; omega
  rw [e2]
  have hm' : B.length + z = 8 * m := hm
  generalize B ++ List.replicate z '0' = B2 at *
  have hN := elems_ge c
  by_cases hc : 8 * m + 1 > (c.elems - 1) * 8
  · rw [if_pos hc]
    refine ⟨B2.take (8 * (c.elems - 1)), c.elems - 1, ?_, dB.take _, by rw [List.length_take]; omega, le_refl _, ?_⟩
    · congr 1
      have : A.length + 1 + (c.elems - 1) * 8 = (A ++ ['.']).length + 8 * (c.elems - 1) := by
        rw [List.length_append, List.length_singleton]; ring
      rw [this]
      have e3 : A ++ '.' :: B2 = (A ++ ['.']) ++ B2 := by simp
      rw [e3, List.take_length_add_append]
      simp
    · simp only [Nat.sub_self, Nat.mul_zero, Nat.pow_zero, Nat.mul_one]
      have sp : A ++ B2 = (A ++ B2.take (8 * (c.elems - 1))) ++ B2.drop (8 * (c.elems - 1)) := by
        rw [List.append_assoc, List.take_append_drop]
      have pp := parseNat_append (A ++ B2.take (8 * (c.elems - 1))) (B2.drop (8 * (c.elems - 1)))
      rw [← sp, pB, List.length_drop, lB] at pp
      have lt := parseNat_lt (dB.drop (8 * (c.elems - 1)))
      rw [List.length_drop, lB] at lt
      -- p * 10^z = P * 10^(8m - D) + r
      generalize parseNat (A ++ B2.take (8 * (c.elems - 1))) = P at *
      generalize parseNat (B2.drop (8 * (c.elems - 1))) = r at *
      generalize hp : parseNat (A ++ B) = p at *
      generalize hD : 8 * (c.elems - 1) = D at *
      have hDm : D ≤ 8 * m := by omega
      symm
      have h10 : (10 : ℕ) ^ (8 * m) = 10 ^ B.length * 10 ^ z := by rw [← pow_add, hm']
      have h11 : (10 : ℕ) ^ (8 * m) = 10 ^ (8 * m - D) * 10 ^ D := by rw [← pow_add]; congr 1; omega
      apply Nat.div_eq_of_lt_le
      · -- P * 10^|B| ≤ p * 10^D
        have : P * 10 ^ B.length * 10 ^ z ≤ p * 10 ^ D * 10 ^ z := by
          calc P * 10 ^ B.length * 10 ^ z = P * (10 ^ (8 * m - D) * 10 ^ D) := by rw [← h11, h10]; ring
            _ = P * 10 ^ (8 * m - D) * 10 ^ D := by ring
            _ ≤ p * 10 ^ z * 10 ^ D := Nat.mul_le_mul_right _ (by omega)
            _ = p * 10 ^ D * 10 ^ z := by ring
        exact Nat.le_of_mul_le_mul_right this (by positivity)
      · have : p * 10 ^ D * 10 ^ z < (P + 1) * 10 ^ B.length * 10 ^ z := by
          calc p * 10 ^ D * 10 ^ z = p * 10 ^ z * 10 ^ D := by ring
            _ < (P + 1) * 10 ^ (8 * m - D) * 10 ^ D := by
              apply Nat.mul_lt_mul_of_pos_right _ (by positivity)
              have : (P + 1) * 10 ^ (8 * m - D) = P * 10 ^ (8 * m - D) + 10 ^ (8 * m - D) := by ring
              omega
            _ = (P + 1) * (10 ^ (8 * m - D) * 10 ^ D) := by ring
            _ = (P + 1) * 10 ^ B.length * 10 ^ z := by rw [← h11, h10]; ring
        exact Nat.lt_of_mul_lt_mul_right this
  · rw [if_neg hc]
    refine ⟨B2, m, rfl, dB, lB, by omega, ?_⟩
    rw [pB]
    symm
    apply Nat.div_eq_of_eq_mul_left (by positivity)
    have : 8 * (c.elems - 1) = z + 8 * (c.elems - 1 - m) + B.length := by omega
    rw [this, pow_add, pow_add]
    ring

theorem rdGroups_spec (k : ℕ) {s : Str} (h : Digs s) (hl : s.length = 8 * k) :
    ∃ l, rdGroups k s = some l ∧ l.length = k ∧ OK l ∧ lv l = parseNat s := by
  induction k generalizing s with
  | zero =>
    have : s = [] := List.eq_nil_of_length_eq_zero (by omega)
    subst this
    exact ⟨[], rfl, rfl, by intro d hd; simp at hd, rfl⟩
  | succ k ih =>
    obtain ⟨l, h1, h2, h3, h4⟩ := ih (h.drop 8) (by rw [List.length_drop]; omega)
    have ht : (s.take 8).length = 8 := by rw [List.length_take]; omega
    have hc : castU32 (s.take 8) = some (parseNat (s.take 8)) :=
      castU32_digs (h.take 8) (by intro h0; rw [h0] at ht; simp at ht) (by omega)
    refine ⟨parseNat (s.take 8) :: l, ?_, by simp [h2], ?_, ?_⟩
    · unfold rdGroups
      rw [hc, h1]
      rfl
    · intro d hd
      rcases List.mem_cons.1 hd with rfl | hd
      · have := parseNat_lt (h.take 8)
        rw [ht] at this
        exact this
      · exact h3 d hd
    · rw [lv_cons, h4, h2]
      have := parseNat_append (s.take 8) (s.drop 8)
      rw [List.take_append_drop, List.length_drop, hl] at this
      rw [this]
      have e : 8 * (k + 1) - 8 = 8 * k := by omega
      rw [e, pow_mul]
      norm_num

theorem rdLimbs_spec (c : Cfg) {A B : Str} {k : ℕ} (hA : Digs A) (hne : A ≠ []) (hlead : A.head? ≠ some '0') (h8 : A.length ≤ 8)
    (hB : Digs B) (hl : B.length = 8 * k) (hk : k ≤ c.elems - 1) :
    ∃ l, rdLimbs c.elems (A ++ '.' :: B) = some l ∧ l.length = c.elems ∧ OK l ∧ l.headD 0 ≠ 0 ∧
      lv l = parseNat (A ++ B) * 10 ^ (8 * (c.elems - 1 - k)) := by
  have hN := elems_ge c
  have hd : (A ++ '.' :: B).drop (A.length + 1) = B := by
    rw [show A ++ '.' :: B = (A ++ ['.']) ++ B by simp]
    have : A.length + 1 = (A ++ ['.']).length := by simp
    rw [this, List.drop_left]
  have hlen : ((A ++ '.' :: B).length - (A.length + 1)) / 8 = k := by
    rw [List.length_append, List.length_cons, hl]; omega
  obtain ⟨l, h1, h2, h3, h4⟩ := rdGroups_spec k hB hl
  have hc := castU32_digs hA hne h8
  refine ⟨parseNat A :: l ++ List.replicate (c.elems - (k + 1)) 0, ?_, ?_, ?_, ?_, ?_⟩
  · unfold rdLimbs
    simp only [strFind_split hA.no_dot, Option.bind_eq_bind, Option.bind_some]
    rw [List.take_left, hc, hd, hlen, h1]
    simp only [Option.bind_some]
    rw [h2, if_pos (by omega)]
    rfl
  · rw [List.length_append, List.length_cons, List.length_replicate, h2]; omega
  · apply OK.append
    · intro d hd
      rcases List.mem_cons.1 hd with rfl | hd
      · have := parseNat_lt hA
        have h5 : 10 ^ A.length ≤ 10 ^ 8 := Nat.pow_le_pow_right (by norm_num) h8
        omega
      · exact h3 d hd
    · intro d hd
      rw [List.eq_of_mem_replicate hd]; norm_num
  · show parseNat A ≠ 0
    have := parseNat_pos hA hlead hne
    have : 0 < 10 ^ (A.length - 1) := by positivity
    omega
  · rw [lv_append, lv_replicate, lv_cons, h2, h4, parseNat_append, hl, List.length_replicate]
    have e : c.elems - (k + 1) = c.elems - 1 - k := by omega
    rw [e, pow_mul, pow_mul]
    norm_num

end EFX
