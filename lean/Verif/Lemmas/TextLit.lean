import Verif.Lemmas.TextRead
import Verif.SpecText
/-! `rd_string` on decimal literals. -/

namespace EFX
open Spec

/-- The stages after the sign and the leading zeros, for text in normal form. -/
theorem rdTail_spec (c : Cfg) {A B : Str} {e : ℤ} {q : ℚ} (h : Dec A B e q) (hl : A.length + B.length < 2147483600) :
    ∃ s1 e1 s2 E s3 l, rdShift (A ++ '.' :: B) e = some (s1, e1) ∧ rdCut s1 e1 = some (s2, E) ∧ rdPad c s2 = some s3 ∧
      rdLimbs c.elems s3 = some l ∧ (8 : ℤ) ∣ E ∧ l.length = c.elems ∧ OK l ∧ l.headD 0 ≠ 0 ∧
      (lv l : ℤ) = ⌊q / (10 : ℚ) ^ (E - 8 * ((c.elems : ℤ) - 1))⌋ ∧ (10 : ℚ) ^ E ≤ q ∧ q < (10 : ℚ) ^ (E + 8) := by
  obtain ⟨A1, B1, e1, r1, d1, m1, l1⟩ := rdShift_spec h
  obtain ⟨A2, B2, e2, r2, d2, m2, k2, l2⟩ := rdCut_spec d1 m1 (by omega)
  obtain ⟨B3, k, r3, d3, l3, k3, p3⟩ := rdPad_spec c d2 (by omega)
  obtain ⟨l, r4, l4, o4, h4, v4⟩ := rdLimbs_spec c d2.da d2.ne d2.lead k2 d3 l3 k3
  refine ⟨_, e1, _, e2, _, l, r1, r2, r3, r4, m2, l4, o4, h4, ?_, ?_, ?_⟩
  · rw [v4, p3, ← d2.value]
    have hN := elems_ge c
    have : (parseNat (A2 ++ B2) : ℚ) * (10 : ℚ) ^ (e2 - (B2.length : ℤ)) / (10 : ℚ) ^ (e2 - 8 * ((c.elems : ℤ) - 1)) =
        ((parseNat (A2 ++ B2) * 10 ^ (8 * (c.elems - 1)) : ℕ) : ℚ) / ((10 ^ B2.length : ℕ) : ℚ) := by
      rw [mul_div_assoc, ← zpow_sub₀ (by norm_num)]
      push_cast
      rw [mul_div_assoc, ← zpow_natCast, ← zpow_natCast, ← zpow_sub₀ (by norm_num)]
      congr 2
      push_cast [Nat.cast_sub (show 1 ≤ c.elems by omega)]
      ring
    rw [this, Rat.floor_natCast_div_natCast]
    norm_cast
  · rw [← d2.value, parseNat_append]
    have h1 := parseNat_pos d2.da d2.lead d2.ne
    have h2 : 1 ≤ parseNat A2 := by
      have : 1 ≤ 10 ^ (A2.length - 1) := Nat.one_le_pow _ _ (by norm_num)
      omega
    have h3 : (10 ^ B2.length : ℕ) ≤ parseNat A2 * 10 ^ B2.length + parseNat B2 := by nlinarith [Nat.zero_le (parseNat B2), Nat.one_le_pow B2.length 10 (by norm_num)]
    calc (10 : ℚ) ^ e2 = ((10 ^ B2.length : ℕ) : ℚ) * (10 : ℚ) ^ (e2 - (B2.length : ℤ)) := by
          push_cast; rw [← zpow_natCast, ← zpow_add₀ (by norm_num)]; congr 1; ring
      _ ≤ _ := by
          apply mul_le_mul_of_nonneg_right _ (by positivity)
          exact_mod_cast h3
  · rw [← d2.value]
    have h1 := parseNat_lt (d2.da.append d2.db)
    rw [List.length_append] at h1
    have h2 : parseNat (A2 ++ B2) < 10 ^ (8 + B2.length) := lt_of_lt_of_le h1 (Nat.pow_le_pow_right (by norm_num) (by omega))
    calc (parseNat (A2 ++ B2) : ℚ) * (10 : ℚ) ^ (e2 - (B2.length : ℤ)) < ((10 ^ (8 + B2.length) : ℕ) : ℚ) * (10 : ℚ) ^ (e2 - (B2.length : ℤ)) := by
          apply mul_lt_mul_of_pos_right _ (by positivity)
          exact_mod_cast h2
      _ = (10 : ℚ) ^ (e2 + 8) := by
          push_cast; rw [← zpow_natCast, ← zpow_add₀ (by norm_num)]; congr 1; push_cast; ring

theorem isone_false {y : EFloat} (he : y.exp = 0) : isone y = false := by
  by_contra h
  rw [Bool.not_eq_false] at h
  unfold isone at h
  have h2 : ¬ (y.front = mask - 1 ∧ y.exp = -8) := by omega
  rw [if_neg h2] at h
  split at h
  · split at h
    · rename_i h1
      rw [List.all_eq_true] at h
      have : y.data.headD 0 = 0 := by
        cases hd : y.data with
        | nil => rfl
        | cons a t =>
          have := h a (by rw [hd]; simp)
          simpa using this
      unfold EFloat.front at h1
      omega
    · cases h
  · cases h

theorem rdRange_spec (c : Cfg) (x : EFloat) :
    rdRange c x = if x.exp > maxExp10 then infSigned c x.neg else if x.exp < -maxExp10 then zero c else x := by
  have hm : maxExp10 = 2147483616 := rfl
  have hn : minExp10 = -2147483616 := rfl
  unfold rdRange
  by_cases h1 : x.exp > maxExp10
  · simp only [if_pos h1]
    rw [infSigned_eq]
    simp only
    rw [if_neg (by omega)]
  · simp only [if_neg h1]
    by_cases h2 : x.exp < -maxExp10
    · rw [if_pos h2, if_pos (by omega), if_neg (by omega)]
    · rw [if_neg h2]
      by_cases h3 : x.exp ≤ minExp10
      · rw [if_pos h3, if_pos (by omega), if_neg]
        have := isone_false (y := { x with exp := 0 }) rfl
        rw [this]
        simp
      · rw [if_neg h3]

/-- The object built from a decimal in normal form. -/
theorem build_spec (c : Cfg) {l : List ℕ} {E : ℤ} {q : ℚ} (neg : Bool) {p : ℕ} (hp : 2 ≤ p ∧ p ≤ c.elems) (hE : (8 : ℤ) ∣ E)
    (h1 : l.length = c.elems) (h2 : OK l) (h3 : l.headD 0 ≠ 0)
    (h4 : (lv l : ℤ) = ⌊q / (10 : ℚ) ^ (E - 8 * ((c.elems : ℤ) - 1))⌋) (h5 : (10 : ℚ) ^ E ≤ q) :
    FinWF c ⟨l, E, neg, .finite, p⟩ ∧ mag ⟨l, E, neg, .finite, p⟩ = chop (ulp c ⟨l, E, neg, .finite, p⟩) q ∧
      IsTrunc c ⟨l, E, neg, .finite, p⟩ (if neg then -q else q) := by
  have w : FinWF c ⟨l, E, neg, .finite, p⟩ := ⟨⟨h1, fun d hd => h2 d hd, hE, hp.1, hp.2, fun _ h => absurd h h3⟩, rfl⟩
  have q0 : 0 < q := lt_of_lt_of_le (by positivity) h5
  have hm : mag ⟨l, E, neg, .finite, p⟩ = chop (ulp c ⟨l, E, neg, .finite, p⟩) q := by
    rw [mag_eq w.toWF]
    unfold chop
    rw [if_neg (by linarith)]
    congr 1
    have : ulp c ⟨l, E, neg, .finite, p⟩ = (10 : ℚ) ^ (E - 8 * ((c.elems : ℤ) - 1)) := rfl
    rw [this, ← h4]
    norm_cast
  refine ⟨w, hm, isTrunc_of_chop w h3 ?_ ?_⟩
  · rw [hm]
    congr 1
    cases neg
    · simp [abs_of_pos q0]
    · simp [abs_of_pos q0]
  · have := mag_nonneg ⟨l, E, neg, .finite, p⟩
    unfold val
    cases neg
    · simp only [Bool.false_eq_true, if_false]
      exact mul_nonneg this q0.le
    · simp only [if_true]
      nlinarith [mul_nonneg this q0.le]

/-! ### Literals -/

theorem mem_digitChars {ch : Char} : ch ∈ digitChars ↔ isDig ch = true := by
  constructor
  · intro h
    simp only [digitChars, List.mem_cons, List.not_mem_nil, or_false] at h
    rcases h with rfl | rfl | rfl | rfl | rfl | rfl | rfl | rfl | rfl | rfl <;> decide
  · intro h
    simp only [isDig, decide_eq_true_eq] at h
    have hc : ch = Char.ofNat ch.toNat := (Char.ofNat_toNat ch).symm
    obtain ⟨h1, h2⟩ := h
    generalize ch.toNat = n at *
    rw [hc]
    clear hc
    interval_cases n <;> decide

theorem digits_iff {s : Str} : IsDigits s ↔ Digs s := forall₂_congr fun _ _ => mem_digitChars

theorem idxOf_dig {ch : Char} (h : isDig ch = true) : digitChars.idxOf ch = digVal ch := by
  have := mem_digitChars.2 h
  simp only [digitChars, List.mem_cons, List.not_mem_nil, or_false] at this
  rcases this with rfl | rfl | rfl | rfl | rfl | rfl | rfl | rfl | rfl | rfl <;> decide

theorem number_eq {s : Str} (h : Digs s) : number s = parseNat s := by
  induction s with
  | nil => rfl
  | cons ch s ih =>
    rw [parseNat_cons, number, ih (fun c hc => h c (by simp [hc])), idxOf_dig (h ch (by simp))]

theorem Spec.Lit.Valid.di' {t : Lit} (h : t.Valid) : Digs t.ip := digits_iff.1 h.di
theorem Spec.Lit.Valid.df' {t : Lit} (h : t.Valid) : Digs t.frac := digits_iff.1 h.df

theorem absValue_eq {t : Lit} (h : t.Valid) :
    t.absValue = (parseNat (t.ip ++ t.frac) : ℚ) * (10 : ℚ) ^ (t.expo - t.frac.length) := by
  unfold Lit.absValue
  rw [number_eq h.di', number_eq h.df', parseNat_append, zpow_sub₀ (by norm_num), zpow_natCast]
  have : (10 : ℚ) ^ t.frac.length ≠ 0 := by positivity
  push_cast
  field_simp

theorem expo_eq {t : Lit} (h : t.Valid) {up sg d} (hx : t.ex = some (up, sg, d)) :
    t.expo = if sg = some true then -(parseNat d : ℤ) else parseNat d := by
  unfold Lit.expo
  rw [hx]
  simp only
  rw [number_eq (digits_iff.1 (h.dx _ _ _ hx).1)]

theorem dropWhile_zeros (s : Str) : ∃ k, s = List.replicate k '0' ++ s.dropWhile (fun ch => ch == '0') ∧
    (s.dropWhile (fun ch => ch == '0')).head? ≠ some '0' := by
  induction s with
  | nil => exact ⟨0, by simp, by simp⟩
  | cons a s ih =>
    by_cases h : a = '0'
    · subst h
      obtain ⟨k, h1, h2⟩ := ih
      refine ⟨k + 1, ?_, ?_⟩
      · rw [List.dropWhile_cons, if_pos (by rfl), List.replicate_succ, List.cons_append, ← h1]
      · rw [List.dropWhile_cons, if_pos (by rfl)]; exact h2
    · refine ⟨0, ?_, ?_⟩
      · rw [List.dropWhile_cons, if_neg (by simpa using h)]; rfl
      · rw [List.dropWhile_cons, if_neg (by simpa using h)]; simpa using h

theorem stripTrailing_spec (s : Str) : ∃ k, s = stripTrailing s ++ List.replicate k '0' ∧
    (stripTrailing s).getLast? ≠ some '0' := by
  obtain ⟨k, h1, h2⟩ := dropWhile_zeros s.reverse
  refine ⟨k, ?_, ?_⟩
  · have := congrArg List.reverse h1
    rw [List.reverse_reverse, List.reverse_append, List.reverse_replicate] at this
    exact this
  · unfold stripTrailing
    rw [List.getLast?_reverse]
    exact h2

theorem stripTrailing_point (A B : Str) : stripTrailing (A ++ '.' :: B) = A ++ '.' :: stripTrailing B := by
  obtain ⟨k, h1, h2⟩ := stripTrailing_spec B
  unfold stripTrailing
  rw [List.reverse_append, List.reverse_cons]
  have : ∀ (u v : Str), (u ++ ['.'] ++ v).dropWhile (fun ch => ch == '0') = u.dropWhile (fun ch => ch == '0') ++ ['.'] ++ v := by
    intro u v
    induction u with
    | nil => rfl
    | cons a u ih =>
      rw [List.cons_append, List.cons_append, List.dropWhile_cons, List.dropWhile_cons]
      split
      · exact ih
      · rfl
  rw [this]
  simp

theorem castI64_spec {sg : Option Bool} {d : Str} (hd : Digs d) (h0 : d ≠ []) (hb : parseNat d < 2 ^ 63) :
    castI64 (signText sg ++ d) = some (if sg = some true then -(parseNat d : ℤ) else parseNat d) := by
  have hh : ∀ ch, isDig ch = false → d.head? ≠ some ch := by
    intro ch hc h
    have : ch ∈ d := List.mem_of_mem_head? h
    exact hd.not_mem hc this
  have key : ∀ n : ℤ, (n = (parseNat d : ℤ) ∨ n = -(parseNat d : ℤ)) →
      (if d.length = 0 then none else if -9223372036854775808 ≤ n ∧ n ≤ 9223372036854775807 then some n else none) = some n := by
    intro n hn
    rw [if_neg (by simpa using h0), if_pos (by omega)]
  unfold castI64
  rcases sg with _ | _ | _
  · have e1 : (d.head? = some '-') = False := by simpa using hh '-' (by decide)
    have e2 : (d.head? = some '+') = False := by simpa using hh '+' (by decide)
    simp only [signText, List.nil_append, e1, e2, or_self, if_false, takeWhile_digs hd, decide_false, Bool.false_eq_true, reduceCtorEq]
    exact key _ (Or.inl rfl)
  · have e1 : ((signText (some false) ++ d).head? = some '-') = False := by simp [signText]
    have e2 : ((signText (some false) ++ d).head? = some '+') = True := by simp [signText]
    have e3 : (signText (some false) ++ d).drop 1 = d := by simp [signText]
    simp only [e1, e2, e3, or_true, if_true, takeWhile_digs hd, decide_false, Bool.false_eq_true, if_false, Option.some.injEq]
    exact key _ (Or.inl rfl)
  · simp only [signText, List.singleton_append, List.head?_cons, List.drop_succ_cons, List.drop_zero, true_or, if_true, takeWhile_digs hd, decide_true]
    exact key _ (Or.inr rfl)

/-- Sign, digits and point, without the exponent. -/
def litMant (t : Lit) : Str := t.ip ++ (match t.fp with | none => [] | some f => '.' :: f)

theorem litText_eq (t : Lit) : t.text = (signText t.sign ++ litMant t) ++
    (match t.ex with | none => [] | some (up, sg, d) => (if up then 'E' else 'e') :: (signText sg ++ d)) := by
  unfold Lit.text litMant
  simp only [List.append_assoc]
  rfl

theorem Spec.Lit.Valid.not_mem {t : Lit} (h : t.Valid) {ch : Char} (h1 : isDig ch = false) (h2 : ch ≠ '.') : ch ∉ litMant t := by
  unfold litMant
  intro hm
  rcases List.mem_append.1 hm with hm | hm
  · exact h.di'.not_mem h1 hm
  · have hf := h.df'
    unfold Lit.frac at hf
    cases hfp : t.fp with
    | none => rw [hfp] at hm; simp at hm
    | some f =>
      rw [hfp] at hm hf
      rcases List.mem_cons.1 hm with rfl | hm
      · exact h2 rfl
      · exact Digs.not_mem hf h1 hm

theorem rdExponent_spec {t : Lit} (h : t.Valid) (hb : t.expo.natAbs < 2 ^ 63) :
    rdExponent t.text = some (signText t.sign ++ litMant t, t.expo) := by
  have hs : ∀ {sg : Option Bool} {ch : Char}, ch ≠ '-' → ch ≠ '+' → ch ∉ signText sg := by
    intro sg ch h1 h2 hm
    rcases sg with _ | _ | _ <;> simp [signText] at hm
    · exact h2 hm
    · exact h1 hm
  have ne : 'e' ∉ signText t.sign ++ litMant t := by
    intro hm
    rcases List.mem_append.1 hm with hm | hm
    · exact hs (by decide) (by decide) hm
    · exact h.not_mem (by decide) (by decide) hm
  have nE : 'E' ∉ signText t.sign ++ litMant t := by
    intro hm
    rcases List.mem_append.1 hm with hm | hm
    · exact hs (by decide) (by decide) hm
    · exact h.not_mem (by decide) (by decide) hm
  rw [litText_eq]
  unfold rdExponent
  cases hx : t.ex with
  | none =>
    simp only [List.append_nil]
    rw [strFind_none ne, strFind_none nE]
    simp [Lit.expo, hx]
  | some v =>
    obtain ⟨up, sg, d⟩ := v
    have dd := digits_iff.1 (h.dx up sg d hx).1
    have d0 := (h.dx up sg d hx).2
    have he := expo_eq h hx
    have hpn : parseNat d < 2 ^ 63 := by
      rw [he] at hb; split at hb <;> omega
    generalize signText t.sign ++ litMant t = m at *
    have hdrop : ∀ ch : Char, (m ++ ch :: (signText sg ++ d)).drop (m.length + 1) = signText sg ++ d := by
      intro ch
      rw [show m ++ ch :: (signText sg ++ d) = (m ++ [ch]) ++ (signText sg ++ d) by simp]
      have : m.length + 1 = (m ++ [ch]).length := by simp
      rw [this, List.drop_left]
    cases up
    · simp only [Bool.false_eq_true, if_false]
      rw [strFind_split ne]
      simp only [Option.orElse_some]
      rw [hdrop, castI64_spec dd d0 hpn, List.take_left, ← he]
      rfl
    · simp only [if_true]
      have n2 : 'e' ∉ m ++ 'E' :: (signText sg ++ d) := by
        intro hm
        rcases List.mem_append.1 hm with hm | hm
        · exact ne hm
        · rcases List.mem_cons.1 hm with hm | hm
          · exact absurd hm (by decide)
          · rcases List.mem_append.1 hm with hm | hm
            · exact hs (by decide) (by decide) hm
            · exact dd.not_mem (by decide) hm
      rw [strFind_none n2, strFind_split nE]
      simp only [Option.orElse_none]
      rw [hdrop, castI64_spec dd d0 hpn, List.take_left, ← he]
      rfl

theorem rdSign_spec {t : Lit} (h : t.Valid) : rdSign (signText t.sign ++ litMant t) = (decide (t.sign = some true), litMant t) := by
  have n1 : '-' ∉ litMant t := h.not_mem (by decide) (by decide)
  have n2 : '+' ∉ litMant t := h.not_mem (by decide) (by decide)
  unfold rdSign
  rcases hs : t.sign with _ | _ | _
  · simp only [signText, List.nil_append, strFind_none n1, strFind_none n2]
    simp
  · simp only [signText, List.singleton_append]
    have n3 : '-' ∉ '+' :: litMant t := by
      intro hm
      rcases List.mem_cons.1 hm with hm | hm
      · exact absurd hm (by decide)
      · exact n1 hm
    have f : strFind '+' ('+' :: litMant t) = some 0 := strFind_split (A := []) (by simp)
    rw [strFind_none n3]
    simp only [f]
    simp
  · simp only [signText, List.singleton_append]
    have f : strFind '-' ('-' :: litMant t) = some 0 := strFind_split (A := []) (by simp)
    rw [f]
    simp only [List.eraseIdx_zero, List.tail_cons, strFind_none n2]
    simp

theorem parse_drop (A B : Str) (k : ℕ) (h : A = List.replicate k '0' ++ B) : parseNat A = parseNat B := by
  rw [h, parseNat_append, parseNat_zeros]; simp

/-- Leading zeros and the point: either the number is zero, or normal form is reached. -/
theorem rdPoint_spec {t : Lit} (h : t.Valid) :
    (t.absValue = 0 ∧ (((litMant t).dropWhile (fun ch => ch == '0')).length ≠ (litMant t).length ∧ (litMant t).dropWhile (fun ch => ch == '0') = [] ∨
      (litMant t).dropWhile (fun ch => ch == '0') ≠ [] ∧ rdPoint ((litMant t).dropWhile (fun ch => ch == '0')) t.expo = some none)) ∨
    ((litMant t).dropWhile (fun ch => ch == '0') ≠ [] ∧ ∃ A B e, rdPoint ((litMant t).dropWhile (fun ch => ch == '0')) t.expo = some (some (A ++ '.' :: B, e)) ∧
      Dec A B e t.absValue ∧ A.length + B.length ≤ (litMant t).length) := by
  obtain ⟨k, h1, h2⟩ := dropWhile_zeros t.ip
  generalize hA : t.ip.dropWhile (fun ch => ch == '0') = A at *
  have dA : Digs A := by have := h.di'; rw [h1] at this; exact this.right
  have hv : t.absValue = (parseNat (A ++ t.frac) : ℚ) * (10 : ℚ) ^ (t.expo - t.frac.length) := by
    rw [absValue_eq h, parse_drop (t.ip ++ t.frac) (A ++ t.frac) k (by rw [← List.append_assoc, ← h1])]
  cases hfp : t.fp with
  | none =>
    have hm : litMant t = t.ip := by unfold litMant; rw [hfp]; simp
    have hf : t.frac = [] := by unfold Lit.frac; rw [hfp]; rfl
    rw [hm, hA]
    rw [hf] at hv
    by_cases h0 : A = []
    · left
      subst h0
      refine ⟨by rw [hv]; simp [parseNat], Or.inl ⟨?_, rfl⟩⟩
      intro he
      apply h.some_digit
      rw [hf, List.append_nil]
      exact List.eq_nil_of_length_eq_zero (by simpa using he.symm)
    · right
      refine ⟨h0, A, [], t.expo, ?_, ⟨dA, Digs.nil, h0, h2, hv.symm⟩, ?_⟩
      · unfold rdPoint
        rw [strFind_none dA.no_dot]
      · rw [h1]; simp
  | some f =>
    have hm : litMant t = t.ip ++ '.' :: f := by unfold litMant; rw [hfp]
    have hf : t.frac = f := by unfold Lit.frac; rw [hfp]; rfl
    have df : Digs f := by have := h.df'; rwa [hf] at this
    have hd : (litMant t).dropWhile (fun ch => ch == '0') = A ++ '.' :: f := by
      rw [hm, h1]
      rw [List.append_assoc, List.dropWhile_append_of_pos (by intro a ha; rw [List.eq_of_mem_replicate ha]; rfl)]
      cases A with
      | nil => rfl
      | cons a A =>
        rw [List.cons_append, List.dropWhile_cons, if_neg]
        simpa using h2
    rw [hd]
    rw [hf] at hv
    obtain ⟨j, s1, s2⟩ := stripTrailing_spec f
    have hne : A ++ '.' :: f ≠ [] := by simp
    have hlen : A.length + f.length ≤ (litMant t).length := by
      rw [hm, h1]; simp only [List.length_append, List.length_cons]; omega
    generalize hS : stripTrailing f = S at *
    have dS : Digs S := by rw [s1] at df; exact df.left
    have hvS : t.absValue = (parseNat (A ++ S) : ℚ) * (10 : ℚ) ^ (t.expo - S.length) := by
      rw [hv, s1, ← List.append_assoc, parseNat_append, parseNat_zeros]
      simp only [List.length_replicate, List.length_append, Nat.add_zero, Nat.cast_mul, Nat.cast_pow, Nat.cast_ofNat]
      rw [mul_assoc, ← zpow_natCast, ← zpow_add₀ (by norm_num)]
      congr 2
      push_cast; ring
    have hSl : S.length ≤ f.length := by rw [s1]; simp
    have hp : rdPoint (A ++ '.' :: f) t.expo = (if A ++ '.' :: S = ['.'] then some none
      else do
        let ch ← strAt 0 (A ++ '.' :: S)
        if ch = '.' then
          let rest := (A ++ '.' :: S).drop 1
          let nz := (rest.takeWhile (fun ch => ch == '0')).length
          let ch1 ← strAt 1 (A ++ '.' :: S)
          let delta : Nat := if ch1 = '0' then nz else 0
          let t' ← strInsert 1 '.' (rest.drop nz)
          pure (some (t', t.expo - ((delta : Int) + 1)))
        else pure (some (A ++ '.' :: S, t.expo))) := by
      unfold rdPoint
      rw [strFind_split dA.no_dot]
      simp only [stripTrailing_point, hS]
    rw [hp]
    by_cases hA0 : A = []
    · subst hA0
      by_cases hS0 : S = []
      · subst hS0
        left
        refine ⟨by rw [hvS]; simp [parseNat], Or.inr ⟨hne, by simp⟩⟩
      · right
        refine ⟨hne, ?_⟩
        rw [if_neg (by simpa using hS0)]
        obtain ⟨k2, g1, g2⟩ := dropWhile_zeros S
        have tw : (S.takeWhile (fun ch => ch == '0')).length = k2 := by
          have e1 := List.takeWhile_append_dropWhile (p := fun ch => ch == '0') (l := S)
          have e2 := congrArg List.length e1
          have e3 := congrArg List.length g1
          rw [List.length_append] at e2 e3
          rw [List.length_replicate] at e3
          omega
        have hdne : S.dropWhile (fun ch => ch == '0') ≠ [] := by
          intro h0
          rw [h0, List.append_nil] at g1
          have : S.getLast? = some '0' := by
            rw [g1]
            have : k2 ≠ 0 := by rintro rfl; simp at g1; exact hS0 g1
            obtain ⟨m, rfl⟩ : ∃ m, k2 = m + 1 := ⟨k2 - 1, by omega⟩
            rw [List.replicate_succ', List.getLast?_append]; simp
          exact s2 this
        have hdrop : S.drop k2 = S.dropWhile (fun ch => ch == '0') := by
          conv_lhs => rw [g1]
          have : k2 = (List.replicate k2 '0').length := by simp
          rw [List.drop_left' (by simp)]
        obtain ⟨d, R, hdR⟩ : ∃ d R, S.dropWhile (fun ch => ch == '0') = d :: R := by
          cases hq : S.dropWhile (fun ch => ch == '0') with
          | nil => exact absurd hq hdne
          | cons d R => exact ⟨d, R, rfl⟩
        rw [hdR] at g1 g2 hdrop
        have hch1 : ∃ ch1, S[0]? = some ch1 ∧ (if ch1 = '0' then k2 else 0) = k2 := by
          rw [g1]
          cases k2 with
          | zero => exact ⟨d, by simp, by split <;> rfl⟩
          | succ m => exact ⟨'0', by simp [List.replicate_succ], by simp⟩
        obtain ⟨ch1, c1, c2⟩ := hch1
        refine ⟨[d], R, t.expo - ((k2 : ℤ) + 1), ?_, ⟨?_, ?_, by simp, ?_, ?_⟩, ?_⟩
        · simp only [strAt, List.nil_append, List.getElem?_cons_zero, Option.bind_eq_bind, Option.bind_some, if_true,
            List.drop_succ_cons, List.drop_zero, tw, List.getElem?_cons_succ, c1, c2, hdrop]
          rfl
        · intro ch hc
          apply dS ch
          rw [g1]; simp at hc; simp [hc]
        · intro ch hc
          apply dS ch
          rw [g1]; simp [hc]
        · simpa using g2
        · rw [hvS, List.nil_append, parse_drop S (d :: R) k2 g1]
          congr 2
          rw [g1]
          simp only [List.length_append, List.length_replicate, List.length_cons]
          push_cast; ring
        · have := congrArg List.length g1
          simp only [List.length_append, List.length_replicate, List.length_cons] at this
          simp only [List.length_singleton, List.length_nil] at hlen ⊢
          omega
    · right
      refine ⟨hne, A, S, t.expo, ?_, ⟨dA, dS, hA0, h2, hvS.symm⟩, by omega⟩
      rw [if_neg (by
        intro he
        have := congrArg List.length he
        simp only [List.length_append, List.length_cons, List.length_nil] at this
        exact hA0 (List.eq_nil_of_length_eq_zero (by omega)))]
      obtain ⟨a, A', rfl⟩ : ∃ a A', A = a :: A' := by
        cases A with
        | nil => exact absurd rfl hA0
        | cons a A' => exact ⟨a, A', rfl⟩
      have : a ≠ '.' := by
        rintro rfl
        exact dA.no_dot (by simp)
      simp [strAt, this]

/-- Reading a literal. -/
theorem rdString_spec (c : Cfg) {t : Lit} (h : t.Valid) (hl : t.text.length < 2147483600) (hb : t.expo.natAbs < 2 ^ 63)
    {old : EFloat} (ho : old.data.length = c.elems) :
    (t.absValue = 0 ∧ rdString c old t.text = some (zero c)) ∨
    ∃ l E, rdString c old t.text = some (if E > maxExp10 then infSigned c (decide (t.sign = some true))
        else if E < -maxExp10 then zero c else { old with data := l, exp := E, neg := decide (t.sign = some true) }) ∧
      (8 : ℤ) ∣ E ∧ l.length = c.elems ∧ OK l ∧ l.headD 0 ≠ 0 ∧
      (lv l : ℤ) = ⌊t.absValue / (10 : ℚ) ^ (E - 8 * ((c.elems : ℤ) - 1))⌋ ∧ (10 : ℚ) ^ E ≤ t.absValue ∧ t.absValue < (10 : ℚ) ^ (E + 8) := by
  have hml : (litMant t).length < 2147483600 := by
    have := litText_eq t
    rw [this] at hl
    simp only [List.length_append] at hl
    omega
  have e1 := rdExponent_spec h hb
  have e2 := rdSign_spec h
  have hr : rdString c old t.text = (if ((litMant t).dropWhile (fun ch => ch == '0')).length ≠ (litMant t).length ∧ (litMant t).dropWhile (fun ch => ch == '0') = [] then some (zero c)
      else do
        match ← rdPoint ((litMant t).dropWhile (fun ch => ch == '0')) t.expo with
        | none => pure (zero c)
        | some (s, e) => do
          let (s, e) ← rdShift s e
          let (s, e) ← rdCut s e
          let s ← rdPad c s
          let d ← rdLimbs old.data.length s
          pure (rdRange c { old with data := d, exp := e, neg := decide (t.sign = some true) })) := by
    unfold rdString
    rw [e1]
    simp only [Option.bind_eq_bind, Option.bind_some, e2]
    rfl
  rw [hr]
  rcases rdPoint_spec h with ⟨h0, hz | ⟨hz, hp⟩⟩ | ⟨hz, A, B, e, hp, hd, hab⟩
  · left
    rw [if_pos hz]
    exact ⟨h0, rfl⟩
  · left
    rw [if_neg (fun hh => hz hh.2), hp]
    exact ⟨h0, rfl⟩
  · right
    rw [if_neg (fun hh => hz hh.2), hp]
    obtain ⟨s1, e1, s2, E, s3, l, r1, r2, r3, r4, hE, hl4, o4, h4, v4, b1, b2⟩ := rdTail_spec c hd (by omega)
    refine ⟨l, E, ?_, hE, hl4, o4, h4, v4, b1, b2⟩
    simp only [Option.bind_eq_bind, Option.bind_some, r1, r2, r3, ho, r4]
    rw [rdRange_spec]
    rfl

end EFX
