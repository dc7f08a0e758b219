import Verif.Lemmas.TextRead
import Verif.Lemmas.Parts
import Verif.Props.Parts
/-! Digits produced by `get_output_string`. -/

namespace EFX
open Spec EFX.Props

theorem digChar_spec {d : ℕ} (h : d < 10) : isDig (digChar d) = true ∧ digVal (digChar d) = d := by
  interval_cases d <;> decide

theorem digVal_inj {a b : Char} (ha : isDig a = true) (hb : isDig b = true) (h : digVal a = digVal b) : a = b := by
  unfold isDig at ha hb
  simp only [decide_eq_true_eq] at ha hb
  unfold digVal at h
  rw [← Char.ofNat_toNat a, ← Char.ofNat_toNat b]
  congr 1
  omega

theorem decStrF_spec (f n : ℕ) (h : n < 10 ^ f) (hf : f ≠ 0) :
    Digs (decStrF f n) ∧ parseNat (decStrF f n) = n ∧ decStrF f n ≠ [] ∧ (n ≠ 0 → (decStrF f n).head? ≠ some '0') := by
  induction f generalizing n with
  | zero => exact absurd rfl hf
  | succ f ih =>
    rw [decStrF]
    by_cases h0 : n / 10 = 0
    · rw [if_pos h0]
      have hn : n < 10 := by omega
      obtain ⟨d1, d2⟩ := digChar_spec hn
      refine ⟨?_, ?_, by simp, ?_⟩
      · intro ch hc; simp only [List.mem_singleton] at hc; rw [hc]; exact d1
      · rw [parseNat_cons, d2]; simp [parseNat]
      · intro hne
        simp only [List.head?_cons, ne_eq, Option.some.injEq]
        intro he
        rw [he] at d2
        exact hne (by rw [← d2]; decide)
    · rw [if_neg h0]
      have h1 : n / 10 < 10 ^ f := by
        apply Nat.div_lt_of_lt_mul; rw [pow_succ] at h; omega
      obtain ⟨i1, i2, i3, i4⟩ := ih _ h1 (by rintro rfl; simp at h1; omega)
      obtain ⟨d1, d2⟩ := digChar_spec (Nat.mod_lt n (show 0 < 10 by norm_num))
      refine ⟨i1.append ?_, ?_, by simp, ?_⟩
      · intro ch hc; simp only [List.mem_singleton] at hc; rw [hc]; exact d1
      · rw [parseNat_append, i2, parseNat_cons, d2]
        simp [parseNat]
        omega
      · intro _
        rw [List.head?_append_of_ne_nil _ i3]
        exact i4 h0

theorem decStr_spec {n : ℕ} (h : n < 10 ^ 20) :
    Digs (decStr n) ∧ parseNat (decStr n) = n ∧ decStr n ≠ [] ∧ (n ≠ 0 → (decStr n).head? ≠ some '0') :=
  decStrF_spec 20 n h (by norm_num)

/-- Length of the text of a positive number. -/
theorem decStr_len {n : ℕ} (h : n < 10 ^ 20) (h0 : n ≠ 0) : 10 ^ ((decStr n).length - 1) ≤ n ∧ n < 10 ^ (decStr n).length := by
  obtain ⟨h1, h2, h3, h4⟩ := decStr_spec h
  refine ⟨?_, ?_⟩
  · have := parseNat_pos h1 (h4 h0) h3; rwa [h2] at this
  · have := parseNat_lt h1; rwa [h2] at this

theorem decStr_len8 {n : ℕ} (h : n < 100000000) : (decStr n).length ≤ 8 := by
  by_cases h0 : n = 0
  · subst h0; decide
  · have h1 := (decStr_len (n := n) (by norm_num; omega) h0).1
    by_contra hlt
    have : 10 ^ 8 ≤ 10 ^ ((decStr n).length - 1) := Nat.pow_le_pow_right (by norm_num) (by omega)
    norm_num at this
    omega

theorem pad8_spec {d : ℕ} (h : d < 100000000) : Digs (pad8 d) ∧ (pad8 d).length = 8 ∧ parseNat (pad8 d) = d := by
  obtain ⟨h1, h2, h3, h4⟩ := decStr_spec (n := d) (by norm_num; omega)
  have h8 := decStr_len8 h
  unfold pad8
  refine ⟨(Digs.zeros _).append h1, ?_, ?_⟩
  · simp; omega
  · rw [parseNat_append, parseNat_zeros, h2]; simp

theorem pads_spec {l : List ℕ} (h : OK l) : Digs (l.flatMap pad8) ∧ (l.flatMap pad8).length = 8 * l.length ∧ parseNat (l.flatMap pad8) = lv l := by
  induction l with
  | nil => exact ⟨Digs.nil, rfl, rfl⟩
  | cons d l ih =>
    obtain ⟨i1, i2, i3⟩ := ih (fun a ha => h a (by simp [ha]))
    obtain ⟨p1, p2, p3⟩ := pad8_spec (h d (by simp))
    rw [List.flatMap_cons]
    refine ⟨p1.append i1, ?_, ?_⟩
    · rw [List.length_append, p2, i2, List.length_cons]; ring
    · rw [parseNat_append, p3, i3, i2, lv_cons, pow_mul]; norm_num

theorem parseNat_take {s : Str} (h : Digs s) (n : ℕ) (hn : n ≤ s.length) : parseNat (s.take n) = parseNat s / 10 ^ (s.length - n) := by
  have h1 : s = s.take n ++ s.drop n := (List.take_append_drop n s).symm
  have h2 := parseNat_lt (h.drop n)
  rw [List.length_drop] at h2
  conv_rhs => rw [h1, parseNat_append, List.length_drop, mul_comm]
  rw [List.length_append, List.length_take, List.length_drop, Nat.min_eq_left hn, show n + (s.length - n) - n = s.length - n by omega]
  rw [Nat.mul_add_div (by positivity), Nat.div_eq_of_lt h2, add_zero]

theorem digit_at {s : Str} (h : Digs s) {n : ℕ} (hn : n < s.length) : digVal (s.getD n '0') = parseNat s / 10 ^ (s.length - n - 1) % 10 := by
  have h1 := parseNat_take h (n + 1) (by omega)
  have h2 : s.take (n + 1) = s.take n ++ [s.getD n '0'] := by
    rw [List.take_succ_eq_append_getElem hn, List.getD_eq_getElem _ _ hn]
  rw [show s.length - n - 1 = s.length - (n + 1) by omega, ← h1, h2, parseNat_append]
  have h3 : isDig (s.getD n '0') = true := h _ (by rw [List.getD_eq_getElem _ _ hn]; exact List.getElem_mem hn)
  have h4 := digVal_lt h3
  have h5 : parseNat [s.getD n '0'] = digVal (s.getD n '0') := by rw [parseNat_cons]; simp [parseNat]
  rw [h5]
  simp only [List.length_singleton, pow_one]
  omega

/-! ### rounding up -/

theorem nine_step (P : Str) (hP : P ≠ []) (k : ℕ) (Z : Str) :
    nineLoop (P.length + k - 1) (P ++ List.replicate k '9' ++ Z) = nineLoop (P.length - 1) (P ++ List.replicate k '0' ++ Z) := by
  induction k generalizing Z with
  | zero => simp
  | succ k ih =>
    have hl : 1 ≤ P.length := List.length_pos_iff.2 hP
    have e1 : P.length + (k + 1) - 1 = (P.length + k - 1) + 1 := by omega
    have e2 : P ++ List.replicate (k + 1) '9' ++ Z = (P ++ List.replicate k '9') ++ '9' :: Z := by
      rw [List.replicate_succ']; simp
    have e3 : (P.length + k - 1) + 1 = (P ++ List.replicate k '9').length := by simp; omega
    rw [e1, nineLoop, e2, e3]
    have g : ((P ++ List.replicate k '9') ++ '9' :: Z).getD (P ++ List.replicate k '9').length '0' = '9' := by
      rw [List.getD_append_right _ _ _ _ (le_refl _)]; simp
    rw [if_pos g]
    have st : ((P ++ List.replicate k '9') ++ '9' :: Z).set (P ++ List.replicate k '9').length '0' = P ++ List.replicate k '9' ++ '0' :: Z := by
      rw [List.set_append_right _ _ (le_refl _)]; simp
    rw [st, ih]
    congr 1
    rw [List.replicate_succ']; simp

theorem nines_split (s : Str) : (∃ T d k, d ≠ '9' ∧ s = T ++ [d] ++ List.replicate k '9') ∨ (∃ k, s = List.replicate k '9') := by
  induction s using List.reverseRecOn with
  | nil => right; exact ⟨0, rfl⟩
  | append_singleton s a ih =>
    by_cases ha : a = '9'
    · subst ha
      rcases ih with ⟨T, d, k, hd, h⟩ | ⟨k, h⟩
      · left
        refine ⟨T, d, k + 1, hd, ?_⟩
        rw [h, List.replicate_succ']; simp
      · right
        exact ⟨k + 1, by rw [h, List.replicate_succ']⟩
    · left
      exact ⟨s, a, 0, ha, by simp⟩

theorem parse_nines (k : ℕ) : parseNat (List.replicate k '9') + 1 = 10 ^ k := by
  induction k with
  | zero => rfl
  | succ k ih =>
    rw [List.replicate_succ, parseNat_cons, List.length_replicate, pow_succ]
    have : digVal '9' = 9 := by decide
    rw [this]; omega

/-- Rounding up adds one in the last digit; a carry out of the first digit goes to the exponent. -/
theorem roundUp_spec {s : Str} (hs : Digs s) (h0 : s ≠ []) (hl : s.head? ≠ some '0') (e : ℤ) :
    ∃ s' e', roundUp s e = some (s', e') ∧ Digs s' ∧ s'.length = s.length ∧ s'.head? ≠ some '0' ∧
      ((e' = e ∧ parseNat s' = parseNat s + 1) ∨
        (e' = e + 1 ∧ parseNat s + 1 = 10 ^ s.length ∧ s' = '1' :: List.replicate (s.length - 1) '0')) := by
  have hlen : s.length ≠ 0 := by simpa using h0
  unfold roundUp
  rw [if_neg hlen]
  rcases nines_split s with ⟨T, d, k, hd, h⟩ | ⟨k, h⟩
  · have e1 : s.length - 1 = (T ++ [d]).length + k - 1 := by rw [h]; simp
    have e2 : nineLoop (s.length - 1) s = nineLoop T.length (T ++ [d] ++ List.replicate k '0') := by
      have := nine_step (T ++ [d]) (by simp) k []
      rw [List.append_nil, List.append_nil, ← h] at this
      rw [e1, this]
      congr 1; simp
    have hget : (T ++ [d] ++ List.replicate k '0').getD T.length '0' = d := by
      rw [List.append_assoc, List.getD_append_right _ _ _ _ (le_refl _)]; simp
    have e3 : nineLoop T.length (T ++ [d] ++ List.replicate k '0') = (T.length, T ++ [d] ++ List.replicate k '0') := by
      cases hT : T.length with
      | zero => rfl
      | succ j =>
        rw [nineLoop]
        rw [← hT, hget, if_neg hd]
    have hset : (T ++ [d] ++ List.replicate k '0').set T.length (digChar (digVal d + 1)) = T ++ [digChar (digVal d + 1)] ++ List.replicate k '0' := by
      rw [List.append_assoc, List.set_append_right _ _ (le_refl _)]; simp
    have hdd : isDig d = true := hs d (by rw [h]; simp)
    have hdv : digVal d + 1 < 10 := by
      have := digVal_lt hdd
      by_contra hh
      apply hd
      exact digVal_inj hdd (by decide) (by have : digVal '9' = 9 := by decide
                                           omega)
    obtain ⟨c1, c2⟩ := digChar_spec hdv
    have dT : Digs T := by rw [h, List.append_assoc] at hs; exact hs.left
    simp only [e2, e3, hget]
    have main : Digs (T ++ [digChar (digVal d + 1)] ++ List.replicate k '0') ∧
        (T ++ [digChar (digVal d + 1)] ++ List.replicate k '0').length = s.length ∧
        (T ++ [digChar (digVal d + 1)] ++ List.replicate k '0').head? ≠ some '0' ∧
        parseNat (T ++ [digChar (digVal d + 1)] ++ List.replicate k '0') = parseNat s + 1 := by
      refine ⟨(dT.append ?_).append (Digs.zeros k), by rw [h]; simp, ?_, ?_⟩
      · intro ch hc; simp only [List.mem_singleton] at hc; rw [hc]; exact c1
      · cases T with
        | nil =>
          simp only [List.nil_append, List.cons_append, List.head?_cons, ne_eq, Option.some.injEq]
          intro he
          rw [he] at c2
          have : digVal '0' = 0 := by decide
          omega
        | cons a T => rw [h] at hl; simpa using hl
      · rw [h, parseNat_append, parseNat_append _ (List.replicate k '9'), parseNat_append T, parseNat_append T, parseNat_zeros]
        have := parse_nines k
        simp only [List.length_replicate, List.length_singleton, pow_one]
        have p1 : parseNat [digChar (digVal d + 1)] = digVal d + 1 := by rw [parseNat_cons, c2]; simp [parseNat]
        have p2 : parseNat [d] = digVal d := by rw [parseNat_cons]; simp [parseNat]
        rw [p1, p2, add_assoc _ _ 1, this]
        ring
    obtain ⟨m1, m2, m3, m4⟩ := main
    by_cases hT : T.length = 0
    · have hT0 : T = [] := by simpa using hT
      rw [if_pos hT, if_neg hd]
      refine ⟨_, _, rfl, ?_⟩
      have hh : (T ++ [d] ++ List.replicate k '0').set 0 (digChar (digVal d + 1)) = T ++ [digChar (digVal d + 1)] ++ List.replicate k '0' := by
        rw [← hset, hT]
      rw [hh]
      exact ⟨m1, m2, m3, Or.inl ⟨rfl, m4⟩⟩
    · rw [if_neg hT, hset]
      exact ⟨_, _, rfl, m1, m2, m3, Or.inl ⟨rfl, m4⟩⟩
  · obtain ⟨j, rfl⟩ : ∃ j, k = j + 1 := ⟨k - 1, by rw [h] at hlen; simp at hlen; omega⟩
    have e2 : nineLoop (s.length - 1) s = (0, '9' :: List.replicate j '0') := by
      have := nine_step ['9'] (by simp) j []
      rw [List.append_nil, List.append_nil] at this
      have hl2 : s.length - 1 = ['9'].length + j - 1 := by rw [h]; simp
      rw [hl2, h]
      exact this
    simp only [e2]
    refine ⟨'1' :: List.replicate j '0', e + 1, ?_, ?_, ?_, ?_, Or.inr ⟨rfl, ?_, ?_⟩⟩
    · simp
    · intro ch hc
      rcases List.mem_cons.1 hc with rfl | hc
      · decide
      · exact Digs.zeros j ch hc
    · rw [h]; simp
    · simp
    · rw [h, parse_nines]; simp
    · rw [h]; simp

/-! ### the digits of an object -/

/-- The text of the first `k + 1` limbs. -/
def limbText (x : EFloat) (k : ℕ) : Str := decStr x.front ++ ((x.data.take (k + 1)).drop 1).flatMap pad8

theorem limbText_spec {c : Cfg} {x : EFloat} (hx : FinWF c x) {k : ℕ} (hk : k + 1 ≤ c.elems) :
    Digs (limbText x k) ∧ parseNat (limbText x k) = lv (x.data.take (k + 1)) ∧ (limbText x k).length = (decStr x.front).length + 8 * k ∧
    (x.front ≠ 0 → (limbText x k).head? ≠ some '0') ∧ limbText x k ≠ [] := by
  have hf : x.front < 100000000 := hx.ok.headD
  obtain ⟨d1, d2, d3, d4⟩ := decStr_spec (n := x.front) (by norm_num; omega)
  have ho : OK ((x.data.take (k + 1)).drop 1) := (hx.ok.take _).drop _
  obtain ⟨p1, p2, p3⟩ := pads_spec ho
  have hl : ((x.data.take (k + 1)).drop 1).length = k := by
    rw [List.length_drop, List.length_take, hx.len, Nat.min_eq_left hk]; rfl
  have hd : x.data.take (k + 1) = x.front :: (x.data.take (k + 1)).drop 1 := by
    unfold EFloat.front
    cases hh : x.data with
    | nil => exact absurd hh hx.ne_nil
    | cons a l => simp
  unfold limbText
  refine ⟨d1.append p1, ?_, ?_, ?_, ?_⟩
  · rw [parseNat_append, d2, p3, p2, hl]
    conv_rhs => rw [hd, lv_cons, hl]
    rw [pow_mul]; norm_num
  · rw [List.length_append, p2, hl]
  · intro h0
    rw [List.head?_append_of_ne_nil _ d3]
    exact d4 h0
  · simp [d3]

theorem order_eq {c : Cfg} {x : EFloat} (hx : FinWF c x) (h0 : x.front ≠ 0) : order x = x.exp + (((decStr x.front).length : ℤ) - 1) := by
  have hf : x.front < 100000000 := hx.ok.headD
  have hfin : x.isfinite = true := by simp [EFloat.isfinite, hx.fin]
  unfold order
  rw [hfin, if_neg (by
    have : decide (x.front = 0) = false := decide_eq_false h0
    rw [this]; simp)]
  obtain ⟨a1, a2⟩ := digitsMinus1_spec 11 x.front (Nat.one_le_iff_ne_zero.2 h0) (by norm_num; omega)
  obtain ⟨b1, b2⟩ := decStr_len (n := x.front) (by norm_num; omega) h0
  have c1 := (Nat.pow_lt_pow_iff_right (a := 10) (by norm_num)).1 (lt_of_le_of_lt a1 b2)
  have c2 := (Nat.pow_lt_pow_iff_right (a := 10) (by norm_num)).1 (lt_of_le_of_lt b1 a2)
  omega

theorem round_digit (D P : ℕ) (hP : 0 < P) : (D + 5 * P) / (P * 10) = D / (P * 10) + if 5 ≤ D / P % 10 then 1 else 0 := by
  have h1 : D / (P * 10) = D / P / 10 := (Nat.div_div_eq_div_mul _ _ _).symm
  have h2 : (D + 5 * P) / (P * 10) = (D + 5 * P) / P / 10 := (Nat.div_div_eq_div_mul _ _ _).symm
  rw [h1, h2, Nat.add_mul_div_right _ _ hP]
  split <;> omega

/-- Rounding of a number known up to its tail. -/
theorem floor_round {D k : ℕ} (hk : 1 ≤ k) {y : ℚ} (h1 : (D : ℚ) ≤ y) (h2 : y < (D : ℚ) + 1) :
    ⌊y * (10 : ℚ) ^ (-(k : ℤ)) + 1 / 2⌋ = ((D / 10 ^ k + if 5 ≤ D / 10 ^ (k - 1) % 10 then 1 else 0 : ℕ) : ℤ) := by
  obtain ⟨j, rfl⟩ : ∃ j, k = j + 1 := ⟨k - 1, by omega⟩
  have hP : 0 < 10 ^ j := by positivity
  rw [show j + 1 - 1 = j by omega, pow_succ, ← round_digit D (10 ^ j) hP]
  have hq : y * (10 : ℚ) ^ (-((j + 1 : ℕ) : ℤ)) + 1 / 2 = (y + 5 * (10 : ℚ) ^ j) / ((10 : ℚ) ^ j * 10) := by
    rw [zpow_neg, zpow_natCast, pow_succ]
    have : (10 : ℚ) ^ j ≠ 0 := by positivity
    field_simp
    ring
  have hpos : (0 : ℚ) < (10 : ℚ) ^ j * 10 := by positivity
  rw [hq, Int.floor_eq_iff]
  have hd := Nat.div_add_mod (D + 5 * 10 ^ j) (10 ^ j * 10)
  have hm := Nat.mod_lt (D + 5 * 10 ^ j) (show 0 < 10 ^ j * 10 by positivity)
  generalize (D + 5 * 10 ^ j) / (10 ^ j * 10) = R at *
  generalize (D + 5 * 10 ^ j) % (10 ^ j * 10) = r at *
  have hd' : ((10 : ℚ) ^ j * 10) * R + r = D + 5 * (10 : ℚ) ^ j := by exact_mod_cast hd
  have hm' : (r : ℚ) + 1 ≤ (10 : ℚ) ^ j * 10 := by exact_mod_cast hm
  have hr0 : (0 : ℚ) ≤ r := Nat.cast_nonneg r
  constructor
  · rw [le_div_iff₀ hpos]; push_cast; linarith
  · rw [div_lt_iff₀ hpos]; push_cast; linarith

/-- `get_output_string`: at least one digit of a non-zero number. -/
theorem outputString_spec {c : Cfg} {x : EFloat} (hx : FinWF c x) (h0 : val x ≠ 0) {n : ℕ} (hn : 1 ≤ n) (hm : n ≤ c.maxDigits10 + 1) :
    ∃ s e', outputString c x (order x) n = some (s, e') ∧ Digs s ∧ s.length = n ∧ s.head? ≠ some '0' ∧
      (parseNat s : ℚ) * (10 : ℚ) ^ (e' - ((n : ℤ) - 1)) = (⌊|val x| * (10 : ℚ) ^ ((n : ℤ) - 1 - order x) + 1 / 2⌋ : ℤ) * (10 : ℚ) ^ (order x - ((n : ℤ) - 1)) ∧
      (e' = order x ∨ (e' = order x + 1 ∧ s = '1' :: List.replicate (n - 1) '0')) := by
  have hN := elems_ge c
  have hfr : x.front ≠ 0 := ne_of_val hx h0
  have hNm : n + 1 ≤ 8 * (c.elems - 1) := by
    have : c.maxDigits10 + 16 ≤ 8 * (c.elems - 1) := by unfold Cfg.elems; split <;> omega
    omega
  obtain ⟨k, hk, hkN, hkn⟩ : ∃ k, min (n / 8 + 2) c.elems = k + 1 ∧ k + 1 ≤ c.elems ∧ n < 8 * k := by
    rcases Nat.le_total (n / 8 + 2) c.elems with h | h
    · exact ⟨n / 8 + 1, by rw [Nat.min_eq_left h], by omega, by omega⟩
    · exact ⟨c.elems - 1, by rw [Nat.min_eq_right h]; omega, by omega, by omega⟩
  obtain ⟨t1, t2, t3, t4, t5⟩ := limbText_spec hx hkN
  have hlen : n < (limbText x k).length := by omega
  obtain ⟨m1, m2⟩ := mag_prefix hx.toWF hkN
  have hou : outputString c x (order x) n = if 5 ≤ digVal ((limbText x k).getD n '0') then roundUp ((limbText x k).take n) (order x)
      else some ((limbText x k).take n, order x) := by
    unfold outputString
    simp only [hk]
    have : decStr x.front ++ ((x.data.take (k + 1)).drop 1).flatMap pad8 = limbText x k := rfl
    rw [this, if_pos hlen]
  rw [hou, digit_at t1 hlen]
  have hpn := parseNat_take t1 n hlen.le
  -- the rounded number
  have hfl : ⌊|val x| * (10 : ℚ) ^ ((n : ℤ) - 1 - order x) + 1 / 2⌋ =
      ((parseNat ((limbText x k).take n) + if 5 ≤ parseNat (limbText x k) / 10 ^ ((limbText x k).length - n - 1) % 10 then 1 else 0 : ℕ) : ℤ) := by
    have hp : (10 : ℚ) ^ (x.exp - 8 * (((k + 1 : ℕ) : ℤ) - 1)) ≠ 0 := by positivity
    have := floor_round (D := lv (x.data.take (k + 1))) (k := (limbText x k).length - n) (by omega)
      (y := mag x / (10 : ℚ) ^ (x.exp - 8 * (((k + 1 : ℕ) : ℤ) - 1)))
      (by rw [le_div_iff₀ (by positivity)]; exact m1) (by rw [div_lt_iff₀ (by positivity)]; exact m2)
    rw [hpn, t2, ← this]
    congr 2
    rw [abs_val, div_mul_eq_mul_div, mul_div_assoc, ← zpow_sub₀ (by norm_num)]
    congr 2
    rw [order_eq hx hfr, Nat.cast_sub hlen.le, t3]
    push_cast
    ring
  rw [hfl]
  have htl : ((limbText x k).take n).length = n := by rw [List.length_take]; omega
  have htn : (limbText x k).take n ≠ [] := by
    intro h; rw [h] at htl; simp at htl; omega
  have hth : ((limbText x k).take n).head? ≠ some '0' := by
    rw [List.head?_take, if_neg (by omega)]
    exact t4 hfr
  by_cases h5 : 5 ≤ parseNat (limbText x k) / 10 ^ ((limbText x k).length - n - 1) % 10
  · rw [if_pos h5, if_pos h5]
    obtain ⟨s', e', r1, r2, r3, r4, r5⟩ := roundUp_spec (t1.take n) htn hth (order x)
    refine ⟨s', e', r1, r2, by rw [r3, htl], r4, ?_, ?_⟩
    · rcases r5 with ⟨rfl, h⟩ | ⟨rfl, h, hs'⟩
      · rw [h]; push_cast; ring
      · rw [h, htl, hs', parseNat_cons, parseNat_zeros, List.length_replicate, htl]
        have d1 : digVal '1' = 1 := by decide
        rw [d1]
        obtain ⟨j, rfl⟩ : ∃ j, n = j + 1 := ⟨n - 1, by omega⟩
        rw [show j + 1 - 1 = j by omega]
        push_cast
        rw [one_mul, add_zero, show order x + 1 - ((j : ℤ) + 1 - 1) = (order x - ((j : ℤ) + 1 - 1)) + 1 by ring, zpow_add_one₀ (by norm_num), pow_succ]
        ring
    · rcases r5 with ⟨rfl, h⟩ | ⟨rfl, h, hs'⟩
      · exact Or.inl rfl
      · right; rw [htl] at hs'; exact ⟨rfl, hs'⟩
  · rw [if_neg h5, if_neg h5]
    refine ⟨_, _, rfl, t1.take n, htl, hth, ?_, Or.inl rfl⟩
    push_cast; ring

theorem parse_zero {s : Str} (hs : Digs s) (h : parseNat s = 0) : s = List.replicate s.length '0' := by
  induction s with
  | nil => rfl
  | cons a s ih =>
    rw [parseNat_cons] at h
    have h1 : digVal a = 0 := by
      have : 0 < 10 ^ s.length := by positivity
      rcases Nat.eq_zero_or_pos (digVal a) with h0 | h0
      · exact h0
      · have := Nat.mul_pos h0 this
        omega
    have ha : a = '0' := digVal_inj (hs a (by simp)) (by decide) (by rw [h1]; decide)
    have := ih (fun ch hc => hs ch (by simp [hc])) (by omega)
    rw [List.length_cons, List.replicate_succ, ← this, ha]

/-- The digits of zero. -/
theorem outputString_zero {c : Cfg} {x : EFloat} (hx : FinWF c x) (h0 : val x = 0) {n : ℕ} (hm : n ≤ c.maxDigits10 + 1) :
    order x = 0 ∧ outputString c x (order x) n = some (List.replicate n '0', 0) := by
  have hN := elems_ge c
  have hfr : x.front = 0 := by
    by_contra h
    have := mag_pos hx.toWF h
    rw [← abs_val, h0] at this; simp at this
  have hord : order x = 0 := by
    unfold order
    rw [if_pos (by simp [hfr])]
  refine ⟨hord, ?_⟩
  have hNm : n + 1 ≤ 8 * (c.elems - 1) := by
    have : c.maxDigits10 + 16 ≤ 8 * (c.elems - 1) := by unfold Cfg.elems; split <;> omega
    omega
  obtain ⟨k, hk, hkN, hkn⟩ : ∃ k, min (n / 8 + 2) c.elems = k + 1 ∧ k + 1 ≤ c.elems ∧ n < 8 * k := by
    rcases Nat.le_total (n / 8 + 2) c.elems with h | h
    · exact ⟨n / 8 + 1, by rw [Nat.min_eq_left h], by omega, by omega⟩
    · exact ⟨c.elems - 1, by rw [Nat.min_eq_right h]; omega, by omega, by omega⟩
  obtain ⟨t1, t2, t3, t4, t5⟩ := limbText_spec hx hkN
  have hlen : n < (limbText x k).length := by omega
  have hz : lv (x.data.take (k + 1)) = 0 := by
    rw [lv_eq_zero]
    intro d hd
    exact (hx.norm hx.fin hfr).1 d (List.mem_of_mem_take hd)
  rw [hz] at t2
  have hall := parse_zero t1 t2
  unfold outputString
  simp only [hk]
  have : decStr x.front ++ ((x.data.take (k + 1)).drop 1).flatMap pad8 = limbText x k := rfl
  rw [this, if_pos hlen, digit_at t1 hlen, t2]
  rw [if_neg (by simp), hord, hall, List.take_replicate, Nat.min_eq_left hlen.le]

end EFX
