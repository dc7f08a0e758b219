import Verif.Props.TextWrite
/-! When the formatting stages of `wr_string` fail. -/

namespace EFX
open Spec EFX.Props

theorem stripTrailing_append_zeros (s : Str) (k : ℕ) : stripTrailing (s ++ List.replicate k '0') = stripTrailing s := by
  unfold stripTrailing
  rw [List.reverse_append, List.reverse_replicate, List.dropWhile_append_of_pos]
  intro a ha
  rw [List.eq_of_mem_replicate ha]; rfl

theorem stripTrailing_length (s : Str) : (stripTrailing s).length ≤ s.length := by
  obtain ⟨k, h, _⟩ := stripTrailing_spec s
  have := congrArg List.length h
  rw [List.length_append] at this
  omega

/-- Zeros in front, then zeros at the end removed: what remains is not longer than the middle. -/
theorem strip_both (z : ℕ) (s : Str) (k : ℕ) :
    ((stripTrailing (List.replicate z '0' ++ s ++ List.replicate k '0')).dropWhile (fun ch => ch == '0')).length ≤ s.length := by
  rw [stripTrailing_append_zeros]
  obtain ⟨j, h, _⟩ := stripTrailing_spec (List.replicate z '0' ++ s)
  generalize stripTrailing (List.replicate z '0' ++ s) = Q at *
  have hQ : Q = (List.replicate z '0' ++ s).take Q.length := by rw [h]; simp
  rw [List.take_append] at hQ
  rw [hQ, List.dropWhile_append_of_pos]
  · refine le_trans (List.dropWhile_suffix _).length_le ?_
    rw [List.length_take]
    exact Nat.min_le_right _ _
  · intro a ha
    rw [List.eq_of_mem_replicate (List.mem_of_mem_take ha)]; rfl

theorem wrFinish_noshow {A B : Str} (p : ℕ) (trim : Bool) : ∃ s, wrFinish (A ++ '.' :: B) p false trim = some s := by
  unfold wrFinish
  simp only [Bool.false_eq_true, if_false]
  have h : (if trim = true then stripTrailing (A ++ '.' :: B) else A ++ '.' :: B) ≠ [] := by
    split
    · rw [stripTrailing_point]; simp
    · simp
  obtain ⟨ch, hch⟩ : ∃ ch, (if trim = true then stripTrailing (A ++ '.' :: B) else A ++ '.' :: B).getLast? = some ch :=
    ⟨_, List.getLast?_eq_getLast_of_ne_nil h⟩
  rw [hch]
  exact ⟨_, rfl⟩

theorem wrFinish_notrim (s : Str) (p : ℕ) : wrFinish s p true false = some s := by
  unfold wrFinish; simp

theorem wrFinish_show (A B : Str) (p : ℕ) : wrFinish (A ++ '.' :: B) p true true = extendToPrecision (A ++ '.' :: stripTrailing B) p := by
  unfold wrFinish
  simp only [if_true]
  rw [stripTrailing_point]

theorem extend_zero (B : Str) (p : ℕ) : extendToPrecision ('0' :: '.' :: B) p = none ↔ p < (B.dropWhile (fun ch => ch == '0')).length := by
  unfold extendToPrecision
  simp only [strAt, List.getElem?_cons_zero, Option.bind_eq_bind, Option.bind_some, if_true, List.getElem?_cons_succ, and_self,
    List.length_cons, List.drop_succ_cons, List.drop_zero]
  by_cases h : B.length + 1 + 1 = 2
  · rw [if_pos h]
    have : B = [] := List.eq_nil_of_length_eq_zero (by omega)
    subst this
    simp
  · rw [if_neg h]
    split <;> simp_all

theorem extend_other {a : Char} (A B : Str) (ha : a ≠ '0') (p : ℕ) :
    extendToPrecision (a :: A ++ '.' :: B) p = none ↔ p < (a :: A).length + B.length := by
  unfold extendToPrecision
  simp only [strAt, List.cons_append, List.getElem?_cons_zero, Option.bind_eq_bind, Option.bind_some, ha, false_and, if_false,
    List.length_cons, List.length_append]
  have e : A.length + (B.length + 1) + 1 - 1 = A.length + 1 + B.length := by omega
  rw [e]
  split <;> simp_all

/-- Scientific format fails only on an empty digit string. -/
theorem wrSci_some {s : Str} (e : ℤ) {p : ℕ} (sp up trim : Bool) (h0 : s ≠ [])
    (hl : trim = true → s.head? ≠ some '0' ∧ s.length ≤ p) : ∃ r, wrScientific s e p sp up trim = some r := by
  obtain ⟨a, t, rfl⟩ : ∃ a t, s = a :: t := by
    cases s with
    | nil => exact absurd rfl h0
    | cons a t => exact ⟨a, t, rfl⟩
  obtain ⟨k, hk⟩ : ∃ k, (if (a :: t).length ≠ 0 ∧ p > (a :: t).length - 1 then a :: t ++ List.replicate (p - ((a :: t).length - 1)) '0' else a :: t) =
      [a] ++ (t ++ List.replicate k '0') := by
    split
    · exact ⟨_, rfl⟩
    · exact ⟨0, by simp⟩
  have hi : strInsert 1 '.' ([a] ++ (t ++ List.replicate k '0')) = some ([a] ++ '.' :: (t ++ List.replicate k '0')) := by
    unfold strInsert; simp
  have hf : ∃ w, wrFinish ([a] ++ '.' :: (t ++ List.replicate k '0')) p sp trim = some w := by
    cases sp
    · exact wrFinish_noshow p trim
    · cases trim
      · exact ⟨_, wrFinish_notrim _ p⟩
      · rw [wrFinish_show, stripTrailing_append_zeros]
        obtain ⟨g1, g2⟩ := hl rfl
        have ha : a ≠ '0' := by simpa using g1
        have := extend_other [] (stripTrailing t) ha p
        cases hx : extendToPrecision ([a] ++ '.' :: stripTrailing t) p with
        | some w => exact ⟨w, rfl⟩
        | none =>
          have h1 := this.1 hx
          have := stripTrailing_length t
          simp only [List.length_cons, List.length_nil] at h1 g2
          omega
  obtain ⟨w, hw⟩ := hf
  refine ⟨w ++ expText e up, ?_⟩
  unfold wrScientific
  simp only [hk, hi, Option.bind_eq_bind, Option.bind_some, hw]
  rfl

/-- Fixed format below one never fails. -/
theorem wrFixed_neg {s : Str} {e : ℤ} {p : ℕ} (sp trim : Bool) (he : e < 0) (hl : trim = true → s.length ≤ p) :
    ∃ r, wrFixed s e p sp trim = some r := by
  unfold wrFixed
  simp only [if_pos he, Option.bind_eq_bind, Option.bind_some, Option.pure_def]
  generalize min (-e - 1).toNat p = z
  generalize ((p : ℤ) - ((s.length + z : ℕ) : ℤ)).toNat = k
  have hb : '0' :: '.' :: (List.replicate z '0' ++ s) ++ List.replicate k '0' = ['0'] ++ '.' :: (List.replicate z '0' ++ s ++ List.replicate k '0') := by simp
  rw [hb]
  cases sp
  · exact wrFinish_noshow p trim
  · cases trim
    · exact ⟨_, wrFinish_notrim _ p⟩
    · rw [wrFinish_show]
      have h1 := extend_zero (stripTrailing (List.replicate z '0' ++ s ++ List.replicate k '0')) p
      cases hx : extendToPrecision (['0'] ++ '.' :: stripTrailing (List.replicate z '0' ++ s ++ List.replicate k '0')) p with
      | some w => exact ⟨w, rfl⟩
      | none =>
        have h2 := h1.1 hx
        have h3 := strip_both z s k
        have := hl rfl
        omega

/-- The text of the fixed format from one on, before trimming. -/
theorem wrFixed_body {s : Str} {e : ℤ} {p : ℕ} (sp trim : Bool) (he : 0 ≤ e) :
    ∃ A B k, wrFixed s e p sp trim = wrFinish (A ++ '.' :: (B ++ List.replicate k '0')) p sp trim ∧ A.length = (e + 1).toNat ∧
      (s.length ≤ (e + 1).toNat ∧ B = [] ∧ A = s ++ List.replicate ((e + 1).toNat - s.length) '0' ∨
       (e + 1).toNat < s.length ∧ A = s.take (e + 1).toNat ∧ B = s.drop (e + 1).toNat) := by
  unfold wrFixed
  simp only [if_neg (not_lt.2 he)]
  generalize (e + 1).toNat = e1
  by_cases hl : s.length < e1
  · refine ⟨s ++ List.replicate (e1 - s.length) '0', [], ?_⟩
    simp only [if_pos hl]
    have hi : strInsert e1 '.' (s ++ List.replicate (e1 - s.length) '0') = some (s ++ List.replicate (e1 - s.length) '0' ++ ['.']) := by
      unfold strInsert
      rw [if_pos (by simp; omega), List.take_of_length_le (by simp; omega), List.drop_of_length_le (by simp; omega)]
    rw [hi]
    simp only [Option.bind_eq_bind, Option.bind_some, Option.pure_def]
    refine ⟨?k, ?a, ?b, ?d⟩
    case a => rw [List.nil_append, List.append_assoc, List.singleton_append]
    case b => simp; omega
    case d => exact Or.inl (by simp [hl.le])
  · simp only [if_neg hl]
    refine ⟨s.take e1, s.drop e1, ?_⟩
    have hi : strInsert e1 '.' s = some (s.take e1 ++ '.' :: s.drop e1) := by
      unfold strInsert
      rw [if_pos (by omega)]
    rw [hi]
    simp only [Option.bind_eq_bind, Option.bind_some, Option.pure_def]
    refine ⟨?k2, ?a, ?b, ?d⟩
    case a => rw [List.append_assoc, List.cons_append]
    case b => rw [List.length_take]; omega
    case d =>
      rcases Nat.lt_or_ge e1 s.length with h | h
      · exact Or.inr (by simp [h])
      · refine Or.inl ⟨h, List.drop_of_length_le h, ?_⟩
        rw [List.take_of_length_le h, show e1 - s.length = 0 by omega]; simp

/-- Fixed format from one on: it fails only when trimming meets `showpoint` and the integer part is longer than the
precision. -/
theorem wrFixed_pos {s : Str} {e : ℤ} {p : ℕ} (sp trim : Bool) (he : 0 ≤ e) (h0 : s.head? ≠ some '0') (hn : s ≠ []) (hl : trim = true → s.length ≤ p) :
    wrFixed s e p sp trim = none ↔ sp = true ∧ trim = true ∧ (p : ℤ) < e + 1 := by
  obtain ⟨A, B, k, h1, h2, h3⟩ := wrFixed_body (s := s) (p := p) sp trim he
  rw [h1]
  cases sp
  · obtain ⟨w, hw⟩ := wrFinish_noshow (A := A) (B := B ++ List.replicate k '0') p trim
    rw [hw]; simp
  · cases trim
    · rw [wrFinish_notrim]; simp
    · rw [wrFinish_show, stripTrailing_append_zeros]
      have hls := hl rfl
      obtain ⟨a, A', hA⟩ : ∃ a A', A = a :: A' := by
        cases A with
        | nil => simp at h2; omega
        | cons a A' => exact ⟨a, A', rfl⟩
      have ha : a ≠ '0' := by
        rintro rfl
        obtain ⟨b, t, rfl⟩ : ∃ b t, s = b :: t := by
          cases s with
          | nil => exact absurd rfl hn
          | cons b t => exact ⟨b, t, rfl⟩
        simp only [List.head?_cons, ne_eq, Option.some.injEq] at h0
        rcases h3 with ⟨_, _, h⟩ | ⟨_, h, _⟩
        · rw [hA] at h
          simp only [List.cons_append, List.cons.injEq] at h
          exact h0 h.1.symm
        · obtain ⟨j, hj⟩ : ∃ j, (e + 1).toNat = j + 1 := ⟨(e + 1).toNat - 1, by omega⟩
          rw [hA, hj, List.take_succ_cons] at h
          simp only [List.cons.injEq] at h
          exact h0 h.1.symm
      have hx := extend_other A' (stripTrailing B) ha p
      rw [← hA, h2] at hx
      rw [hx]
      have hsl := stripTrailing_length B
      simp only [true_and]
      rcases h3 with ⟨g1, g2, _⟩ | ⟨g1, _, g3⟩
      · have : (stripTrailing B).length = 0 := by rw [g2]; rfl
        omega
      · have : B.length = s.length - (e + 1).toNat := by rw [g3, List.length_drop]
        omega

/-- No digits requested: the first digit decides. -/
theorem outputString_nil {c : Cfg} {x : EFloat} (hx : FinWF c x) (h0 : val x ≠ 0) :
    outputString c x (order x) 0 = if 5 * (10 : ℚ) ^ order x ≤ |val x| then none else some ([], order x) := by
  have hN := elems_ge c
  have hfr : x.front ≠ 0 := ne_of_val hx h0
  have hk : min (0 / 8 + 2) c.elems = 1 + 1 := by omega
  obtain ⟨t1, t2, t3, t4, t5⟩ := limbText_spec (k := 1) hx (by omega)
  have hlen : 0 < (limbText x 1).length := by omega
  obtain ⟨m1, m2⟩ := mag_prefix hx.toWF (p := 1 + 1) (by omega)
  have hfl : ⌊|val x| * (10 : ℚ) ^ (-1 - order x) + 1 / 2⌋ =
      ((parseNat (limbText x 1) / 10 ^ (limbText x 1).length + if 5 ≤ parseNat (limbText x 1) / 10 ^ ((limbText x 1).length - 1) % 10 then 1 else 0 : ℕ) : ℤ) := by
    have hp : (10 : ℚ) ^ (x.exp - 8 * (((1 + 1 : ℕ) : ℤ) - 1)) ≠ 0 := by positivity
    have := floor_round (D := lv (x.data.take (1 + 1))) (k := (limbText x 1).length) (by omega)
      (y := mag x / (10 : ℚ) ^ (x.exp - 8 * (((1 + 1 : ℕ) : ℤ) - 1)))
      (by rw [le_div_iff₀ (by positivity)]; exact m1) (by rw [div_lt_iff₀ (by positivity)]; exact m2)
    rw [t2, ← this]
    congr 2
    rw [abs_val, div_mul_eq_mul_div, mul_div_assoc, ← zpow_sub₀ (by norm_num)]
    congr 2
    rw [order_eq hx hfr, t3]
    push_cast
    ring
  have hz : parseNat (limbText x 1) / 10 ^ (limbText x 1).length = 0 := Nat.div_eq_of_lt (parseNat_lt t1)
  rw [hz, zero_add] at hfl
  have hiff : 5 ≤ parseNat (limbText x 1) / 10 ^ ((limbText x 1).length - 1) % 10 ↔ 5 * (10 : ℚ) ^ order x ≤ |val x| := by
    have e1 : (10 : ℚ) ^ (-1 - order x) = 1 / (10 * (10 : ℚ) ^ order x) := by
      rw [show -1 - order x = -(order x + 1) by ring, zpow_neg, zpow_add_one₀ (by norm_num), one_div, mul_comm]
    have hp : (0 : ℚ) < (10 : ℚ) ^ order x := by positivity
    have e2 : (1 : ℤ) ≤ ⌊|val x| * (10 : ℚ) ^ (-1 - order x) + 1 / 2⌋ ↔ 5 * (10 : ℚ) ^ order x ≤ |val x| := by
      rw [Int.le_floor, e1, mul_one_div]
      push_cast
      rw [show ((1 : ℚ) ≤ |val x| / (10 * (10 : ℚ) ^ order x) + 1 / 2) ↔ (1 / 2 ≤ |val x| / (10 * (10 : ℚ) ^ order x)) by
        constructor <;> intro h <;> linarith]
      rw [le_div_iff₀ (by positivity)]
      constructor <;> intro h <;> linarith
    rw [← e2, hfl]
    split
    · rename_i h
      exact ⟨fun _ => by norm_num, fun _ => h⟩
    · rename_i h
      exact ⟨fun h2 => absurd h2 h, fun h2 => by norm_num at h2⟩
  have hou : outputString c x (order x) 0 = if 5 ≤ digVal ((limbText x 1).getD 0 '0') then none else some ([], order x) := by
    unfold outputString
    simp only [hk]
    have : decStr x.front ++ ((x.data.take (1 + 1)).drop 1).flatMap pad8 = limbText x 1 := rfl
    rw [this, if_pos hlen]
    simp only [List.take_zero]
    rfl
  rw [hou, digit_at t1 hlen]
  by_cases h : 5 * (10 : ℚ) ^ order x ≤ |val x|
  · rw [if_pos h, if_pos (by have := hiff.2 h; simpa using this)]
  · rw [if_neg h, if_neg (by intro h2; exact h (hiff.1 (by simpa using h2)))]

/-- The rounded number against a power of ten. -/
theorem rounded_exp {s : Str} {e : ℤ} {p : ℕ} (hs : Digs s) (h0 : s.head? ≠ some '0') (hn : s ≠ []) :
    (p : ℤ) < e + 1 ↔ (10 : ℚ) ^ (p : ℤ) ≤ (parseNat s : ℚ) * (10 : ℚ) ^ (e - ((s.length : ℤ) - 1)) := by
  have h1 := parseNat_pos hs h0 hn
  have h2 := parseNat_lt hs
  have hl : 1 ≤ s.length := List.length_pos_iff.2 hn
  have l : (10 : ℚ) ^ e ≤ (parseNat s : ℚ) * (10 : ℚ) ^ (e - ((s.length : ℤ) - 1)) := by
    calc (10 : ℚ) ^ e = ((10 ^ (s.length - 1) : ℕ) : ℚ) * (10 : ℚ) ^ (e - ((s.length : ℤ) - 1)) := by
          push_cast; rw [← zpow_natCast, ← zpow_add₀ (by norm_num), Nat.cast_sub hl]; congr 1; push_cast; ring
      _ ≤ _ := mul_le_mul_of_nonneg_right (by exact_mod_cast h1) (by positivity)
  have u : (parseNat s : ℚ) * (10 : ℚ) ^ (e - ((s.length : ℤ) - 1)) < (10 : ℚ) ^ (e + 1) := by
    calc _ < ((10 ^ s.length : ℕ) : ℚ) * (10 : ℚ) ^ (e - ((s.length : ℤ) - 1)) := by
          apply mul_lt_mul_of_pos_right _ (by positivity)
          exact_mod_cast h2
      _ = _ := by push_cast; rw [← zpow_natCast, ← zpow_add₀ (by norm_num)]; congr 1; ring
  constructor
  · intro h
    exact le_trans (zpow_le_zpow_right₀ (by norm_num) (by omega)) l
  · intro h
    exact pow_cmp h u

end EFX
