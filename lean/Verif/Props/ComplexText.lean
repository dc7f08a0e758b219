import Verif.Lemmas.ComplexText
import Verif.Props.TextWrite
/-!
# C108 reading complex numbers, C109 writing complex numbers
-/

namespace EFX.Props
open EFX EFX.Spec EFX.CTxt

/-! ### Specification -/

/-- The texts of a complex number: `u`, `(u)`, `(u,v)`. -/
def CForm (s : Str) : Prop :=
  Loose s ∨ (∃ u, Loose u ∧ s = '(' :: u ++ [')']) ∨ ∃ u v, Loose u ∧ Loose v ∧ s = '(' :: u ++ ',' :: v ++ [')']

/-- A stream without error flag. -/
def Good (st : IStr) : Prop := st.eof = false ∧ st.fail = false ∧ st.bad = false

/-- The stream holds white space, then the word `w`, then `tail`, which is empty or starts with white space. -/
structure Holds (st : IStr) (ws w tail : Str) : Prop where
  rest : st.rest = ws ++ (w ++ tail)
  ws : ∀ ch ∈ ws, isSpace ch = true
  word : ∀ ch ∈ w, isSpace ch = false
  ne : w ≠ []
  tail : ∀ ch ∈ tail.head?, isSpace ch = true

/-! ### The stream -/

theorem dropWhile_stop (f : Char → Bool) {a s : Str} (ha : ∀ ch ∈ a, f ch = true) (hs : ∀ ch ∈ s.head?, f ch = false) :
    (a ++ s).dropWhile f = s := by
  induction a with
  | nil =>
    cases s with
    | nil => rfl
    | cons x t => simp [hs x (by simp)]
  | cons x a ih =>
    rw [List.cons_append, List.dropWhile_cons, if_pos (ha x (by simp)), ih (fun ch h => ha ch (by simp [h]))]

theorem extract_word {st : IStr} (hg : Good st) {ws w tail : Str} (h : Holds st ws w tail) :
    extractWord st = (w, { st with done := w.reverse ++ (ws.reverse ++ st.done), rest := tail, eof := decide (tail = []) }) := by
  obtain ⟨h1, h2, h3, h4, h5⟩ := h
  have hh : ∀ ch ∈ (w ++ tail).head?, isSpace ch = false := by
    cases w with
    | nil => exact absurd rfl h4
    | cons x w =>
      intro ch hc
      simp only [List.cons_append, List.head?_cons, Option.mem_def, Option.some.injEq] at hc
      rw [← hc]; exact h3 x (by simp)
  have e1 : st.rest.takeWhile isSpace = ws := by rw [h1]; exact takeWhile_stop _ h2 hh
  have e2 : st.rest.dropWhile isSpace = w ++ tail := by rw [h1]; exact dropWhile_stop _ h2 hh
  have h3' : ∀ ch ∈ w, (fun ch => !isSpace ch) ch = true := fun ch hc => by simp [h3 ch hc]
  have h5' : ∀ ch ∈ tail.head?, (fun ch => !isSpace ch) ch = false := fun ch hc => by simp [h5 ch hc]
  have e3 := takeWhile_stop _ h3' h5'
  have e4 := dropWhile_stop _ h3' h5'
  unfold extractWord
  rw [if_neg (by simp [hg.1, hg.2.1, hg.2.2])]
  simp only [e1, e2, e3, e4]
  rw [if_neg (by simp [h4])]

theorem foldl_bad {st : IStr} (hb : st.bad = true) (s : Str) : (s.foldl putback st).bad = true := by
  induction s generalizing st with
  | nil => exact hb
  | cons x s ih =>
    refine ih ?_
    unfold putback
    simp [hb]

theorem putback_all {st : IStr} (hf : st.fail = false) (hb : st.bad = false) {s t d0 : Str} (hd : st.done = t ++ d0) (hl : t.length = s.length)
    (hw : st.writable = true ∨ s = t) :
    s.foldl putback st = { st with done := d0, rest := s.reverse ++ st.rest, eof := if s = [] then st.eof else false } := by
  induction s generalizing st t with
  | nil =>
    have : t = [] := by simpa using hl
    subst this
    cases st
    simp at hd
    simp [hd]
  | cons x s ih =>
    rcases t with _ | ⟨y, t⟩
    · simp at hl
    · have hp : putback st x = { st with done := t ++ d0, rest := x :: st.rest, eof := false } := by
        unfold putback
        simp only [hf, hb, Bool.or_self, Bool.false_eq_true, if_false, hd, List.cons_append]
        rw [if_pos]
        rcases hw with h | h
        · exact .inr h
        · simp only [List.cons.injEq] at h
          exact .inl h.1.symm
      rw [List.foldl_cons, hp, ih (st := { st with done := t ++ d0, rest := x :: st.rest, eof := false }) (t := t) hf hb rfl (by simpa using hl)]
      · simp
      · rcases hw with h | h
        · exact .inl h
        · simp only [List.cons.injEq] at h
          exact .inr h.2

theorem putback_bad {st : IStr} (hf : st.fail = false) (hb : st.bad = false) (hw : st.writable = false) {s t d0 : Str} (hd : st.done = t ++ d0)
    (hl : t.length = s.length) (hne : s ≠ t) : (s.foldl putback st).bad = true := by
  induction s generalizing st t with
  | nil => exact absurd (List.length_eq_zero_iff.1 hl).symm hne
  | cons x s ih =>
    rcases t with _ | ⟨y, t⟩
    · simp at hl
    · by_cases hxy : y = x
      · have hp : putback st x = { st with done := t ++ d0, rest := x :: st.rest, eof := false } := by
          unfold putback
          simp only [hf, hb, Bool.or_self, Bool.false_eq_true, if_false, hd, List.cons_append]
          rw [if_pos (.inl hxy)]
        rw [List.foldl_cons, hp]
        exact ih hf hb hw rfl (by simpa using hl) (by rintro rfl; exact hne (by rw [hxy]))
      · rw [List.foldl_cons]
        apply foldl_bad
        unfold putback
        simp only [hf, hb, Bool.or_self, Bool.false_eq_true, if_false, hd, List.cons_append]
        rw [if_neg]
        simp [hxy, hw]

/-! ### C108 -/

theorem accept_none_iff (s : Str) : accept s = none ↔ ¬CForm s := by
  constructor
  · rintro h (h1 | ⟨u, h1, rfl⟩ | ⟨u, v, h1, h2, rfl⟩)
    · rw [accept_plain h1] at h; cases h
    · rw [accept_paren h1] at h; cases h
    · rw [accept_pair h1 h2] at h; cases h
  · intro h
    cases ha : accept s with
    | none => rfl
    | some p =>
      obtain ⟨u, v⟩ := p
      obtain ⟨h1, ⟨w, rfl, h2, h3⟩ | ⟨rfl, h3 | h3⟩⟩ := accept_sound ha
      · exact absurd (.inr (.inr ⟨u, w, h1, h2, h3⟩)) h
      · exact absurd (.inr (.inl ⟨u, h1, h3⟩)) h
      · exact absurd (.inl (h3 ▸ h1)) h

/-- C108, errors.  A word that is not of the form `u`, `(u)` or `(u,v)` leaves the variable unchanged and sets
`failbit`.  The word goes back to the stream in reversed order: a writable stream then holds the reversed word, a
read-only stream gets `badbit`.  Only words equal to their own reversal are restored.

Missing: the restoration of the other words (`C108_restore_refuted`). -/
theorem C108_error_partial {c : Cfg} {st : IStr} (hg : Good st) {ws w tail : Str} (h : Holds st ws w tail) (hw : ¬CForm w) (z : Cx EFloat) :
    ∃ st', readComplex c st z = some (z, st') ∧ st'.fail = true ∧
      (st.writable = true → st'.bad = false ∧ st'.done = ws.reverse ++ st.done ∧ st'.rest = w.reverse ++ tail) ∧
      (st.writable = true → (st'.rest = w ++ tail ↔ w.reverse = w)) ∧
      (st.writable = false → w.reverse = w → st'.bad = false ∧ st'.done = ws.reverse ++ st.done ∧ st'.rest = w ++ tail) ∧
      (st.writable = false → w.reverse ≠ w → st'.bad = true) := by
  unfold readComplex
  rw [extract_word hg h]
  simp only [(accept_none_iff w).2 hw]
  set st1 : IStr := { st with done := w.reverse ++ (ws.reverse ++ st.done), rest := tail, eof := decide (tail = []) } with hst1
  refine ⟨_, rfl, rfl, ?_, ?_, ?_, ?_⟩
  · intro hwr
    rw [putback_all (st := st1) (t := w.reverse) (d0 := ws.reverse ++ st.done) hg.2.1 hg.2.2 rfl (by simp) (.inl hwr)]
    exact ⟨hg.2.2, rfl, rfl⟩
  · intro hwr
    rw [putback_all (st := st1) (t := w.reverse) (d0 := ws.reverse ++ st.done) hg.2.1 hg.2.2 rfl (by simp) (.inl hwr)]
    exact List.append_left_inj tail
  · intro hwr hrev
    rw [putback_all (st := st1) (t := w.reverse) (d0 := ws.reverse ++ st.done) hg.2.1 hg.2.2 rfl (by simp) (.inr hrev.symm)]
    exact ⟨hg.2.2, rfl, by simp only [hst1, hrev]⟩
  · intro hwr hrev
    exact putback_bad (st := st1) (t := w.reverse) (d0 := ws.reverse ++ st.done) hg.2.1 hg.2.2 hwr rfl (by simp) (Ne.symm hrev)

/-- C108, the exact condition.  If the reading comes to an end, the stream has failed exactly for the words that are
not of the form `u`, `(u)`, `(u,v)`; for the others it stands behind the word. -/
theorem C108_accepts {c : Cfg} {st : IStr} (hg : Good st) {ws w tail : Str} (h : Holds st ws w tail) {z z' : Cx EFloat} {st' : IStr}
    (hr : readComplex c st z = some (z', st')) : (st'.fail = false ↔ CForm w) ∧ (CForm w → st'.rest = tail) := by
  by_cases hw : CForm w
  · have ha : accept w ≠ none := fun h => (accept_none_iff w).1 h hw
    unfold readComplex at hr
    rw [extract_word hg h] at hr
    simp only at hr
    cases hacc : accept w with
    | none => exact absurd hacc ha
    | some p =>
      obtain ⟨u, v⟩ := p
      rw [hacc] at hr
      simp only [Option.bind_eq_bind, Option.bind_eq_some_iff] at hr
      obtain ⟨re, -, hr⟩ := hr
      have hq : st' = { st with done := w.reverse ++ (ws.reverse ++ st.done), rest := tail, eof := decide (tail = []) } := by
        cases v with
        | none =>
          simp only [Option.bind_some, Option.pure_def, Option.some.injEq, Prod.mk.injEq] at hr
          exact hr.2.symm
        | some v =>
          simp only [Option.bind_eq_some_iff, Option.pure_def, Option.some.injEq, Prod.mk.injEq] at hr
          obtain ⟨im, -, -, hq⟩ := hr
          exact hq.symm
      rw [hq]
      exact ⟨⟨fun _ => hw, fun _ => hg.2.1⟩, fun _ => rfl⟩
  · obtain ⟨st2, h1, h2, -⟩ := C108_error_partial (c := c) hg h hw z
    rw [h1] at hr
    simp only [Option.some.injEq, Prod.mk.injEq] at hr
    rw [← hr.2]
    exact ⟨⟨fun hf => absurd h2 (by rw [hf]; simp), fun hc => absurd hc hw⟩, fun hc => absurd hc hw⟩

theorem lit_loose {t : Lit} (ht : t.Valid) : Loose t.text := by
  obtain ⟨sg, ip, fp, ex⟩ := t
  obtain ⟨h1, h2, h3, h4⟩ := ht
  simp only [Lit.frac] at h1 h2 h3 h4
  have nil : IsDigits [] := by intro ch h; cases h
  rcases ex with _ | ⟨up, sg', d⟩
  · cases fp with
    | none =>
      refine ⟨⟨sg, ip, 0, [], none, none, []⟩, ⟨h1, nil, nil, fun _ => by simpa using h3, fun h => absurd rfl h⟩, ?_⟩
      simp [LooseNum.text, LooseNum.mant, LooseNum.expo, letterText, signText, Lit.text]
    | some f =>
      refine ⟨⟨sg, ip, 1, f, none, none, []⟩, ⟨h1, h2, nil, fun _ => by simpa using h3, fun h => absurd rfl h⟩, ?_⟩
      simp [LooseNum.text, LooseNum.mant, LooseNum.expo, letterText, signText, Lit.text]
  · obtain ⟨d1, d2⟩ := h4 up sg' d rfl
    cases fp with
    | none =>
      refine ⟨⟨sg, ip, 0, [], some up, sg', d⟩, ⟨h1, nil, d1, fun _ => by simpa using h3, fun _ => d2⟩, ?_⟩
      cases up <;> simp [LooseNum.text, LooseNum.mant, LooseNum.expo, letterText, Lit.text]
    | some f =>
      refine ⟨⟨sg, ip, 1, f, some up, sg', d⟩, ⟨h1, h2, d1, fun _ => by simpa using h3, fun _ => d2⟩, ?_⟩
      cases up <;> simp [LooseNum.text, LooseNum.mant, LooseNum.expo, letterText, Lit.text]

/-- C108, valid input.  Decimal literals `u` and `v` in the three forms are read as in C29: both parts get the value
of their literal, the imaginary part of the forms `u` and `(u)` is zero, no error flag is set, and the stream stands
behind the word. -/
theorem C108_read {c : Cfg} {st : IStr} (hg : Good st) {u v : Lit} (hu : u.Valid) (hv : v.Valid) (su : u.Small) (sv : v.Small)
    {ws tail : Str} (z : Cx EFloat) :
    ∃ re im zr, ReadSpec c maxExp10 u.value re ∧ ReadSpec c maxExp10 v.value im ∧ denote zr = .fin 0 ∧
      (Holds st ws ('(' :: u.text ++ ',' :: v.text ++ [')']) tail →
        ∃ st', readComplex c st z = some (⟨re, im⟩, st') ∧ st'.rest = tail ∧ st'.fail = false ∧ st'.bad = false) ∧
      (Holds st ws ('(' :: u.text ++ [')']) tail →
        ∃ st', readComplex c st z = some (⟨re, zr⟩, st') ∧ st'.rest = tail ∧ st'.fail = false ∧ st'.bad = false) ∧
      (Holds st ws u.text tail →
        ∃ st', readComplex c st z = some (⟨re, zr⟩, st') ∧ st'.rest = tail ∧ st'.fail = false ∧ st'.bad = false) := by
  have hN := elems_ge c
  have hl : (ofUnsigned c 0).data.length = c.elems := by simp [ofUnsigned, fromULL, w64, ullDigits]
  obtain ⟨re, r1, r2⟩ := read_spec (c := c) hu su (old := ofUnsigned c 0) hl rfl ⟨by simp only [ofUnsigned, fromULL]; omega, le_refl _⟩
  obtain ⟨im, i1, i2⟩ := read_spec (c := c) hv sv (old := ofUnsigned c 0) hl rfl ⟨by simp only [ofUnsigned, fromULL]; omega, le_refl _⟩
  refine ⟨re, im, ofUnsigned c 0, r2, i2, ?_, ?_, ?_, ?_⟩
  · have : val (ofUnsigned c 0) = 0 := by simpa using (ofUnsigned_spec c (u := 0) (by norm_num)).2.1
    unfold denote
    simp only [ofUnsigned, fromULL] at this ⊢
    rw [this]
  · intro h
    unfold readComplex
    rw [extract_word hg h]
    simp only [accept_pair (lit_loose hu) (lit_loose hv), r1, i1]
    exact ⟨_, rfl, rfl, hg.2.1, hg.2.2⟩
  · intro h
    unfold readComplex
    rw [extract_word hg h]
    simp only [accept_paren (lit_loose hu), r1]
    exact ⟨_, rfl, rfl, hg.2.1, hg.2.2⟩
  · intro h
    unfold readComplex
    rw [extract_word hg h]
    simp only [accept_plain (lit_loose hu), r1]
    exact ⟨_, rfl, rfl, hg.2.1, hg.2.2⟩

/-! ### C108, what is accepted beyond literals -/

/-- A loosely written number with a mantissa, at most one point and no exponent without letter is a decimal literal. -/
theorem loose_literal {t : LooseNum} (ht : t.Valid) (h1 : t.mant ≠ []) (h2 : t.points ≤ 1) (h3 : t.letter = none → t.expo = []) :
    ∃ u : Lit, u.Valid ∧ u.text = t.text := by
  obtain ⟨sg, a, k, b, l, sg', d⟩ := t
  obtain ⟨v1, v2, v3, v4, v5⟩ := ht
  simp only [LooseNum.text, LooseNum.mant, LooseNum.expo] at *
  have hab := v4 h1
  have app : ∀ {x y : Str}, IsDigits x → IsDigits y → IsDigits (x ++ y) := by
    intro x y hx hy ch h
    rcases List.mem_append.1 h with h | h
    · exact hx ch h
    · exact hy ch h
  have nil : IsDigits [] := by intro ch h; cases h
  have hk : k = 0 ∨ k = 1 := by omega
  rcases l with _ | up
  · have he := h3 rfl
    rcases hk with rfl | rfl
    · exact ⟨⟨sg, a ++ b, none, none⟩, ⟨app v1 v2, nil, by simpa [Lit.frac] using hab, fun _ _ _ h => by cases h⟩, by rw [he]; simp [Lit.text]⟩
    · exact ⟨⟨sg, a, some b, none⟩, ⟨v1, v2, by simpa [Lit.frac] using hab, fun _ _ _ h => by cases h⟩, by rw [he]; simp [Lit.text]⟩
  · have hd : d ≠ [] := v5 (by cases up <;> simp [letterText])
    rcases hk with rfl | rfl
    · refine ⟨⟨sg, a ++ b, none, some (up, sg', d)⟩, ⟨app v1 v2, nil, by simpa [Lit.frac] using hab, ?_⟩, by cases up <;> simp [Lit.text, letterText]⟩
      rintro _ _ _ ⟨⟩
      exact ⟨v3, hd⟩
    · refine ⟨⟨sg, a, some b, some (up, sg', d)⟩, ⟨v1, v2, by simpa [Lit.frac] using hab, ?_⟩, by cases up <;> simp [Lit.text, letterText]⟩
      rintro _ _ _ ⟨⟩
      exact ⟨v3, hd⟩

theorem rd_empty (c : Cfg) (old : EFloat) : rdString c old [] = none := by
  have hN := elems_ge c
  have h0 : ¬ (1 > (c.elems - 1) * 8) := by omega
  have hp : rdPad c ['.'] = some ['.'] := by
    unfold rdPad
    simp only [strFind, List.findIdx?_cons, beq_self_eq_true, if_true, Option.bind_eq_bind, Option.bind_some]
    have e1 : i32 (i32 (((['.'] : Str).length : ℤ) - 1) - i32 ((0 : ℕ) : ℤ)) = 0 := by decide
    rw [e1]
    simp only [Int.zero_tmod, ne_eq, not_true_eq_false, if_false, Int.toNat_zero, List.replicate_zero, List.append_nil]
    rw [if_neg (by simpa using h0)]
    rfl
  have h1 : rdExponent [] = some ([], 0) := rfl
  have h2 : rdSign [] = (false, []) := rfl
  have h3 : rdPoint [] 0 = some (some (['.'], 0)) := rfl
  have h4 : rdShift ['.'] 0 = some (['.'], 0) := by decide
  have h5 : rdCut ['.'] 0 = some (['.'], 0) := by decide
  have h6 : ∀ n, rdLimbs n ['.'] = none := by intro n; rfl
  unfold rdString
  simp only [h1, Option.bind_eq_bind, Option.bind_some, h2, List.dropWhile_nil, ne_eq, not_true_eq_false, false_and, if_false, h3, h4, h5, hp, h6]
  rfl

/-- C108 refuted, end of input: reading from a stream with an error flag, or from one with nothing but white space
left, does not just report the failure.  The empty text is accepted as a number, and the reader of numbers then works
with a variable that was never written. -/
theorem C108_end_refuted (c : Cfg) (st : IStr) (z : Cx EFloat) (h : ¬Good st ∨ ∀ ch ∈ st.rest, isSpace ch = true) :
    readComplex c st z = none := by
  have hw : (extractWord st).1 = [] := by
    unfold extractWord
    by_cases hg : st.eof || st.fail || st.bad
    · rw [if_pos hg]
    · rw [if_neg hg]
      rcases h with h | h
      · refine absurd ?_ h
        simp only [Bool.or_eq_true, not_or, Bool.not_eq_true] at hg
        exact ⟨hg.1.1, hg.1.2, hg.2⟩
      · have : st.rest.dropWhile isSpace = [] := List.dropWhile_eq_nil_iff.2 h
        simp only [this, if_true]
  unfold readComplex
  rw [show extractWord st = ((extractWord st).1, (extractWord st).2) from rfl, hw]
  have ha : accept [] = some ([], none) := rfl
  simp only [ha, rd_empty]
  rfl

theorem digits_no {a : Str} (h : IsDigits a) {ch : Char} (hc : isDig ch = false) : ch ∉ a := fun hm => by
  rw [isDig_of h ch hm] at hc; cases hc

theorem strFind_none {ch : Char} {s : Str} (h : ch ∉ s) : strFind ch s = none := by
  unfold strFind
  rw [List.findIdx?_eq_none_iff]
  intro x hx
  simp only [beq_eq_false_iff_ne, ne_eq]
  rintro rfl
  exact h hx

theorem strFind_at {ch : Char} {a s : Str} (h : ch ∉ a) : strFind ch (a ++ ch :: s) = some a.length := by
  unfold strFind
  rw [List.findIdx?_append]
  have : List.findIdx? (fun x => x == ch) a = none := strFind_none h
  have h2 : List.findIdx? (fun x => x == ch) (ch :: s) = some 0 := by rw [List.findIdx?_cons]; simp
  rw [this, h2]
  simp

/-- C108 refuted, exponent without letter: two groups of digits joined by a sign are accepted as one number.  The
value read is the one of all digits together, with that sign: `1-5` is minus fifteen. -/
theorem C108_joined_refuted {c : Cfg} {a b : Str} (ha : IsDigits a) (hb : IsDigits b) (na : a ≠ []) (nb : b ≠ []) (neg : Bool)
    (hl : a.length + b.length < 2147483599) {st : IStr} (hg : Good st) {ws tail : Str} (h : Holds st ws (a ++ signText (some neg) ++ b) tail) (z : Cx EFloat) :
    (¬∃ u : Lit, u.Valid ∧ u.text = a ++ signText (some neg) ++ b) ∧
    ∃ re im st', readComplex c st z = some (⟨re, im⟩, st') ∧ st'.fail = false ∧
      ReadSpec c maxExp10 (if neg then -(number (a ++ b) : ℚ) else number (a ++ b)) re := by
  have app : IsDigits (a ++ b) := by
    intro ch h
    rcases List.mem_append.1 h with h | h
    · exact ha ch h
    · exact hb ch h
  have nil : IsDigits [] := by intro ch h; cases h
  have hLoose : Loose (a ++ signText (some neg) ++ b) := by
    refine ⟨⟨none, a, 0, [], none, some neg, b⟩, ⟨ha, nil, hb, fun _ => by simpa using na, fun _ => nb⟩, ?_⟩
    simp [LooseNum.text, LooseNum.mant, LooseNum.expo, letterText, signText]
  have hN := elems_ge c
  have hlen : (ofUnsigned c 0).data.length = c.elems := by simp [ofUnsigned, fromULL, w64, ullDigits]
  have hv : (⟨some neg, a ++ b, none, none⟩ : Lit).Valid := ⟨app, nil, by simp [na], fun _ _ _ h => by cases h⟩
  have hs : (⟨some neg, a ++ b, none, none⟩ : Lit).Small := by
    refine ⟨?_, by simp [Lit.expo]⟩
    cases neg <;> simp [Lit.text, signText] <;> omega
  obtain ⟨re, r1, r2⟩ := read_spec (c := c) hv hs (old := ofUnsigned c 0) hlen rfl ⟨by simp only [ofUnsigned, fromULL]; omega, le_refl _⟩
  have htext : (⟨some neg, a ++ b, none, none⟩ : Lit).text = signText (some neg) ++ (a ++ b) := by simp [Lit.text]
  have hval : (⟨some neg, a ++ b, none, none⟩ : Lit).value = if neg then -(number (a ++ b) : ℚ) else number (a ++ b) := by
    unfold Lit.value Lit.absValue
    cases neg <;> simp [Lit.frac, Lit.expo, number]
  have hsame : rdString c (ofUnsigned c 0) (a ++ signText (some neg) ++ b) = rdString c (ofUnsigned c 0) (signText (some neg) ++ (a ++ b)) := by
    have hno : ∀ {ch : Char} {s1 s2 s3 : Str}, ch ∉ s1 → ch ∉ s2 → ch ∉ s3 → ch ∉ s1 ++ (s2 ++ s3) := by
      intro ch s1 s2 s3 h1 h2 h3 h
      simp only [List.mem_append] at h
      tauto
    have nda : ∀ {ch : Char}, isDig ch = false → ch ∉ a := fun hc => digits_no ha hc
    have ndb : ∀ {ch : Char}, isDig ch = false → ch ∉ b := fun hc => digits_no hb hc
    have x1 : rdExponent (a ++ signText (some neg) ++ b) = some (a ++ signText (some neg) ++ b, 0) := by
      unfold rdExponent
      rw [strFind_none (by rw [List.append_assoc]; exact hno (nda (by decide)) (by cases neg <;> decide) (ndb (by decide))),
        Option.orElse_none, strFind_none (by rw [List.append_assoc]; exact hno (nda (by decide)) (by cases neg <;> decide) (ndb (by decide)))]
    have x2 : rdExponent (signText (some neg) ++ (a ++ b)) = some (signText (some neg) ++ (a ++ b), 0) := by
      unfold rdExponent
      rw [strFind_none (hno (by cases neg <;> decide) (nda (by decide)) (ndb (by decide))),
        Option.orElse_none, strFind_none (hno (by cases neg <;> decide) (nda (by decide)) (ndb (by decide)))]
    have nm : '-' ∉ a ++ b := by simp [nda (ch := '-') (by decide), ndb (ch := '-') (by decide)]
    have np : '+' ∉ a ++ b := by simp [nda (ch := '+') (by decide), ndb (ch := '+') (by decide)]
    have y1 : rdSign (a ++ signText (some neg) ++ b) = (neg, a ++ b) := by
      unfold rdSign
      cases neg
      · have : '-' ∉ a ++ signText (some false) ++ b := by
          rw [List.append_assoc]; exact hno (nda (by decide)) (by decide) (ndb (by decide))
        rw [strFind_none this]
        simp only [signText, List.append_assoc, List.singleton_append]
        rw [strFind_at (nda (by decide))]
        simp [List.eraseIdx_append_of_length_le]
      · simp only [signText, List.append_assoc, List.singleton_append]
        rw [strFind_at (nda (by decide))]
        have : (a ++ '-' :: b).eraseIdx a.length = a ++ b := by simp [List.eraseIdx_append_of_length_le]
        simp only [this, strFind_none np]
    have y2 : rdSign (signText (some neg) ++ (a ++ b)) = (neg, a ++ b) := by
      unfold rdSign
      cases neg
      · have : '-' ∉ signText (some false) ++ (a ++ b) := hno (by decide) (nda (by decide)) (ndb (by decide))
        rw [strFind_none this]
        have h0 : strFind '+' (signText (some false) ++ (a ++ b)) = some 0 := strFind_at (a := []) (by simp)
        simp only [h0]
        rfl
      · have h0 : strFind '-' (signText (some true) ++ (a ++ b)) = some 0 := strFind_at (a := []) (by simp)
        have : (signText (some true) ++ (a ++ b)).eraseIdx 0 = a ++ b := rfl
        simp only [h0, this, strFind_none np]
    unfold rdString
    simp only [x1, x2, Option.bind_eq_bind, Option.bind_some, y1, y2]
  rw [hval] at r2
  refine ⟨?_, re, ofUnsigned c 0, { st with done := (a ++ signText (some neg) ++ b).reverse ++ (ws.reverse ++ st.done), rest := tail, eof := decide (tail = []) }, ?_, ?_, r2⟩
  · rintro ⟨⟨sg, ip, fp, ex⟩, ⟨d1, d2, d3, d4⟩, ht⟩
    obtain ⟨x, a', rfl⟩ := List.exists_cons_of_ne_nil na
    simp only [Lit.frac] at d1 d2 d3 d4
    have hmem : ∀ ch, ch ∈ Lit.text ⟨sg, ip, fp, ex⟩ → isDig ch = true ∨ ch = '+' ∨ ch = '-' := by
      intro ch hc
      rw [ht] at hc
      simp only [List.mem_append] at hc
      rcases hc with (hc | hc) | hc
      · exact .inl (isDig_of ha ch hc)
      · right; cases neg <;> simp [signText] at hc <;> simp [hc]
      · exact .inl (isDig_of hb ch hc)
    have hex : ex = none := by
      rcases ex with _ | ⟨up, sg', d⟩
      · rfl
      · have := hmem (if up then 'E' else 'e') (by simp [Lit.text])
        cases up <;> exact absurd this (by decide)
    have hfp : fp = none := by
      rcases fp with _ | f
      · rfl
      · have := hmem '.' (by simp [Lit.text])
        exact absurd this (by decide)
    subst hex hfp
    simp only [Lit.text, List.append_nil] at ht
    have hx := isDig_of ha x (by simp)
    have hsg : sg = none := by
      rcases sg with _ | _ | _
      · rfl
      · simp only [signText, List.cons_append, List.cons.injEq] at ht
        rw [← ht.1] at hx; exact absurd hx (by decide)
      · simp only [signText, List.cons_append, List.cons.injEq] at ht
        rw [← ht.1] at hx; exact absurd hx (by decide)
    subst hsg
    simp only [signText, List.nil_append] at ht
    cases neg
    · exact digits_no d1 (ch := '+') (by decide) (by rw [ht]; simp)
    · exact digits_no d1 (ch := '-') (by decide) (by rw [ht]; simp)
  · unfold readComplex
    rw [extract_word hg h]
    simp only [accept_plain hLoose, hsame, ← htext, r1]
    rfl
  · exact hg.2.1

/-- A fresh read-only stream. -/
def streamOf (s : String) (writable : Bool) : IStr := ⟨[], s.toList, false, false, false, writable⟩

/-- A complex number, `12345678.9 + i`. -/
def exZ : Cx EFloat := ⟨exA, one cfg101⟩

/-- C108, hypotheses of `C108_error_partial` and `C108_read`: a comma is missing, and a valid pair. -/
example : Good (streamOf " (1;2) 3" true) ∧ Holds (streamOf " (1;2) 3" true) [' '] "(1;2)".toList " 3".toList ∧ ¬CForm "(1;2)".toList ∧
    Holds (streamOf "(-0012.3450E-11,-0012.3450E-11)" false) [] ('(' :: exLit.text ++ ',' :: exLit.text ++ [')']) [] := by
  refine ⟨⟨rfl, rfl, rfl⟩, ⟨by decide, by decide, by decide, by decide, by decide⟩, (accept_none_iff _).1 (by decide +kernel), ⟨by decide, by decide, by decide, by decide, by decide⟩⟩

/-- C108 refuted, restoration: after the word `(1;2)` is rejected, a writable stream holds `)2;1(`, and a read-only
stream is bad. -/
theorem C108_restore_refuted :
    (readComplex cfg101 (streamOf " (1;2) 3" true) exZ).map (fun r => (r.2.rest, r.2.fail, r.2.bad)) = some (")2;1( 3".toList, true, false) ∧
    (readComplex cfg101 (streamOf " (1;2) 3" false) exZ).map (fun r => (r.2.rest, r.2.fail, r.2.bad)) = some (" 3".toList, true, true) := by
  decide +kernel

/-- C108 refuted, further texts that are no literals: two points, an exponent alone and an empty part are accepted, and
the reader of numbers then works with a variable that was never written. -/
theorem C108_loose_refuted : ∀ s ∈ ["1..5", "e8", "(e8)", "()", "(1,)", "(,1)", "(,)", "(1,2..5)"],
    CForm s.toList ∧ readComplex cfg101 (streamOf s false) exZ = none := by
  have h : ∀ s ∈ ["1..5", "e8", "(e8)", "()", "(1,)", "(,1)", "(,)", "(1,2..5)"],
      accept s.toList ≠ none ∧ readComplex cfg101 (streamOf s false) exZ = none := by decide +kernel
  intro s hs
  refine ⟨?_, (h s hs).2⟩
  by_contra hn
  exact (h s hs).1 ((accept_none_iff _).2 hn)

/-- C108, `1-5` is read as minus fifteen. -/
example : IsDigits ['1'] ∧ IsDigits ['5'] ∧ Holds (streamOf "1-5" false) [] (['1'] ++ signText (some true) ++ ['5']) [] ∧
    (readComplex cfg101 (streamOf "1-5" false) exZ).map (fun r => (r.1.re.data.head?, r.1.re.neg, r.2.fail)) = some (some 15, true, false) := by
  refine ⟨by decide, by decide, ⟨by decide, by decide, by decide, by decide, by decide⟩, by decide +kernel⟩

/-! ### C109 -/

theorem loose_mem {u : Str} (h : Loose u) : ∀ ch ∈ u, ch ∈ digitChars ∨ ch ∈ ['+', '-', '.', 'e', 'E'] := by
  obtain ⟨⟨sg, a, k, b, l, sg', d⟩, ⟨v1, v2, v3, -, -⟩, hu⟩ := h
  simp only [LooseNum.text, LooseNum.mant, LooseNum.expo] at v1 v2 v3 hu
  have hs : ∀ s : Option Bool, ∀ ch ∈ signText s, ch ∈ ['+', '-', '.', 'e', 'E'] := by
    rintro (_ | _ | _) ch h <;> simp [signText] at h <;> rw [h] <;> decide
  have hl : ∀ s : Option Bool, ∀ ch ∈ letterText s, ch ∈ ['+', '-', '.', 'e', 'E'] := by
    rintro (_ | _ | _) ch h <;> simp [letterText] at h <;> rw [h] <;> decide
  intro ch hc
  rw [← hu] at hc
  simp only [List.mem_append] at hc
  rcases hc with (((h | h) | h) | h) | ((h | h) | h)
  · exact .inr (hs _ _ h)
  · exact .inl (v1 _ h)
  · rw [List.eq_of_mem_replicate h]; decide
  · exact .inl (v2 _ h)
  · exact .inr (hl _ _ h)
  · exact .inr (hs _ _ h)
  · exact .inl (v3 _ h)

theorem loose_space {u : Str} (h : Loose u) : ∀ ch ∈ u, isSpace ch = false := by
  have hd : ∀ ch ∈ digitChars, isSpace ch = false := by decide
  have hs : ∀ ch ∈ ['+', '-', '.', 'e', 'E'], isSpace ch = false := by decide
  intro ch hc
  rcases loose_mem h ch hc with h | h
  · exact hd _ h
  · exact hs _ h

/-- A text of a complex number has no letter `n`. -/
theorem cform_n {s : Str} (h : CForm s) {ch : Char} (hc : ch = 'n' ∨ ch = 'N') : ch ∉ s := by
  have key : ∀ {u}, Loose u → ch ∉ u := by
    intro u hu hm
    rcases loose_mem hu ch hm with h | h
    · rcases hc with rfl | rfl <;> exact absurd h (by decide)
    · rcases hc with rfl | rfl <;> exact absurd h (by decide)
  have h1 : ch ≠ '(' ∧ ch ≠ ')' ∧ ch ≠ ',' := by rcases hc with rfl | rfl <;> decide
  rcases h with h | ⟨u, hu, rfl⟩ | ⟨u, v, hu, hv, rfl⟩
  · exact key h
  · simp [key hu, h1]
  · simp [key hu, key hv, h1]

/-- The text of a finite number in scientific format is a literal. -/
theorem wrSci_loose {c : Cfg} {x : EFloat} (hx : FinWF c x) {f : Fmt} (hs : f.scientific = true) (hw : f.width ≤ 0)
    (hp : f.p ≤ c.maxDigits10) (hr : val x = 0 ∨ ((10 : ℚ) ^ minExp10 ≤ |val x| ∧ |val x| ≤ val (valueMax c))) :
    ∃ txt, wrString c x f = some txt ∧ Loose txt := by
  by_cases h0 : val x = 0
  · have hne : List.replicate (f.p + 1) '0' ≠ [] := by simp
    obtain ⟨v1, -, -⟩ := sciLit_valid (f := f) (neg := x.neg) (e := 0) (Digs.zeros (f.p + 1)) hne (by norm_num)
    exact ⟨_, wrSci_zero hx h0 hs hw hp, lit_loose v1⟩
  · obtain ⟨m1, m2⟩ := hr.resolve_left h0
    obtain ⟨s, e, w1, w2, w3, w4, w5⟩ := wrSci_spec hx h0 hs hw hp
    have hne : s ≠ [] := by intro h; rw [h] at w3; simp at w3
    obtain ⟨o1, o2⟩ := C27_order hx h0
    have mlt := lt_of_le_of_lt m2 (valueMax_lt c _ (valueMax_exp c))
    clear m2
    have oM := pow_cmp o1 mlt
    have oM2 := pow_cmp m1 o2
    have hmin : minExp10 = -maxExp10 := rfl
    have hmax : maxExp10 = 2147483616 := rfl
    have he : e.natAbs < 4611686018427387904 := by
      clear m1 mlt
      omega
    obtain ⟨v1, -, -⟩ := sciLit_valid (f := f) (neg := x.neg) (e := e) w2 hne (by norm_num; omega)
    exact ⟨_, w1, lit_loose v1⟩

/-- A text padded with white space, in a stream. -/
theorem holds_pad {f : Fmt} (hf : f.width ≤ 0 ∨ isSpace f.fill = true) {w : Str} (hne : w ≠ []) (hw : ∀ ch ∈ w, isSpace ch = false)
    {st : IStr} (hst : st.rest = putString f w) :
    ∃ ws tail, Holds st ws w tail ∧ (∀ ch ∈ tail, isSpace ch = true) := by
  unfold putString at hst
  simp only at hst
  have nil : ∀ ch ∈ ([] : Str), isSpace ch = true := by intro ch h; cases h
  have hd : ∀ t : Str, (∀ ch ∈ t, isSpace ch = true) → ∀ ch ∈ t.head?, isSpace ch = true := by
    intro t ht ch hc
    exact ht ch (List.mem_of_mem_head? hc)
  by_cases hlt : f.width.toNat > w.length
  · have hsp : isSpace f.fill = true := by
      rcases hf with h | h
      · have : f.width.toNat = 0 := by omega
        omega
      · exact h
    have hall : ∀ k, ∀ ch ∈ List.replicate k f.fill, isSpace ch = true := by
      intro k ch h
      rw [List.eq_of_mem_replicate h]; exact hsp
    rw [if_pos hlt] at hst
    cases hl : f.left
    · rw [hl] at hst
      exact ⟨List.replicate (f.width.toNat - w.length) f.fill, [], ⟨by simpa using hst, hall _, hw, hne, hd _ nil⟩, nil⟩
    · rw [hl] at hst
      exact ⟨[], List.replicate (f.width.toNat - w.length) f.fill, ⟨by simpa using hst, nil, hw, hne, hd _ (hall _)⟩, hall _⟩
  · rw [if_neg hlt] at hst
    exact ⟨[], [], ⟨by simpa using hst, nil, hw, hne, hd _ nil⟩, nil⟩

/-- What reading back a part must deliver: a finite number within half a unit of the last written digit, and the part
itself if it has at most `p + 1` significant digits. -/
def ReadBack (p : ℕ) (x r : EFloat) : Prop :=
  r.cls = .finite ∧
  (∀ o : ℤ, (10 : ℚ) ^ o ≤ |val x| → |val x| < (10 : ℚ) ^ (o + 1) → |val r - val x| ≤ 1 / 2 * (10 : ℚ) ^ (o - (p : ℤ))) ∧
  (SigDigits (p + 1) (val x) → val r = val x)

/-- A finite number of the documented range. -/
def PartOk (c : Cfg) (x : EFloat) : Prop :=
  FinWF c x ∧ (val x = 0 ∨ ((10 : ℚ) ^ minExp10 ≤ |val x| ∧ |val x| ≤ val (valueMax c)))

/-- C109, write then read.  A complex number with finite parts of the documented range, written in scientific format
with a precision up to `max_digits10`, any field width and a white fill character, is read back from the text without
error: both parts as in C32, and only white space is left in the stream.

Missing: the other formats and precisions (C32), and parts that are infinite or NaN (`C109_special_refuted`). -/
theorem C109_roundtrip_partial {c : Cfg} {z : Cx EFloat} (hre : PartOk c z.re) (him : PartOk c z.im) {f : Fmt} (hs : f.scientific = true)
    (hf : f.width ≤ 0 ∨ isSpace f.fill = true) (hp : f.p ≤ c.maxDigits10) :
    ∃ txt, writeComplex c z f = some txt ∧ ∀ (st : IStr) (z0 : Cx EFloat), Good st → st.rest = txt →
      ∃ z' st', readComplex c st z0 = some (z', st') ∧ ReadBack f.p z.re z'.re ∧ ReadBack f.p z.im z'.im ∧
        st'.fail = false ∧ st'.bad = false ∧ ∀ ch ∈ st'.rest, isSpace ch = true := by
  have hlen : (ofUnsigned c 0).data.length = c.elems := by simp [ofUnsigned, fromULL, w64, ullDigits]
  set f0 : Fmt := { f with width := 0, fill := ' ' } with hf0
  have hp0 : f0.p = f.p := rfl
  have part : ∀ x, PartOk c x → ∃ txt r, wrString c x f0 = some txt ∧ Loose txt ∧ rdString c (ofUnsigned c 0) txt = some r ∧ ReadBack f.p x r := by
    intro x hx
    obtain ⟨txt, r, a1, a2, a3, a4, a5⟩ := C32_roundtrip_partial (f := f0) hx.1 hs (le_refl _) hp hx.2
    obtain ⟨t2, b1, b2⟩ := wrSci_loose (f := f0) hx.1 hs (le_refl _) hp hx.2
    have : t2 = txt := by rw [a1] at b1; exact (Option.some.inj b1).symm
    subst this
    exact ⟨t2, r, a1, b2, by rw [(C30_state_partial hlen t2).2.1 rfl rfl]; exact a2, a3, a4, a5⟩
  obtain ⟨u, re, u1, u2, u3, u4⟩ := part _ hre
  obtain ⟨v, im, v1, v2, v3, v4⟩ := part _ him
  refine ⟨putString f ('(' :: u ++ ',' :: v ++ [')']), ?_, ?_⟩
  · unfold writeComplex
    rw [← hf0, u1, v1]
    rfl
  · intro st z0 hg hst
    have hw : ∀ ch ∈ '(' :: u ++ ',' :: v ++ [')'], isSpace ch = false := by
      intro ch h
      simp only [List.cons_append, List.mem_cons, List.mem_append, List.not_mem_nil, or_false] at h
      rcases h with h | (h | h | h) | h
      · rw [h]; decide
      · exact loose_space u2 _ h
      · rw [h]; decide
      · exact loose_space v2 _ h
      · rw [h]; decide
    obtain ⟨ws, tail, hh, ht⟩ := holds_pad hf (by simp) hw hst
    refine ⟨⟨re, im⟩, { st with done := ('(' :: u ++ ',' :: v ++ [')']).reverse ++ (ws.reverse ++ st.done), rest := tail, eof := decide (tail = []) }, ?_, u4, v4, hg.2.1, hg.2.2, ht⟩
    unfold readComplex
    rw [extract_word hg hh]
    simp only [accept_pair u2 v2, u3, v3]
    rfl

/-- The text of a number that is not finite: no white space, and a letter `n`. -/
theorem wrNotFinite_text (x : EFloat) (p u : Bool) :
    (∀ ch ∈ wrNotFinite x p u, isSpace ch = false) ∧ ((if u then 'N' else 'n') ∈ wrNotFinite x p u) := by
  unfold wrNotFinite
  cases x.isinf <;> cases x.isneg <;> cases p <;> cases u <;> decide

/-- C109 refuted, infinity and NaN: if a part is infinite or NaN, the text written is rejected by the reader (the other
part infinite, NaN or as in `C109_roundtrip_partial`). -/
theorem C109_special_refuted {c : Cfg} {z : Cx EFloat} (hz : z.re.isfinite = false ∨ z.im.isfinite = false)
    (hre : z.re.isfinite = false ∨ PartOk c z.re) (him : z.im.isfinite = false ∨ PartOk c z.im) {f : Fmt} (hs : f.scientific = true)
    (hf : f.width ≤ 0 ∨ isSpace f.fill = true) (hp : f.p ≤ c.maxDigits10) :
    ∃ txt, writeComplex c z f = some txt ∧ ∀ (st : IStr) (z0 : Cx EFloat), Good st → st.rest = txt →
      ∃ st', readComplex c st z0 = some (z0, st') ∧ st'.fail = true := by
  set f0 : Fmt := { f with width := 0, fill := ' ' } with hf0
  have part : ∀ x, (x.isfinite = false ∨ PartOk c x) → ∃ txt, wrString c x f0 = some txt ∧ (∀ ch ∈ txt, isSpace ch = false) ∧
      (x.isfinite = false → (if f.uppercase then 'N' else 'n') ∈ txt) := by
    intro x hx
    by_cases hfin : x.isfinite = false
    · refine ⟨wrNotFinite x f0.showpos f0.uppercase, ?_, (wrNotFinite_text _ _ _).1, fun _ => (wrNotFinite_text x f0.showpos f0.uppercase).2⟩
      unfold wrString
      rw [hfin]
      rfl
    · obtain ⟨t, b1, b2⟩ := wrSci_loose (f := f0) (hx.resolve_left hfin).1 hs (le_refl _) hp (hx.resolve_left hfin).2
      exact ⟨t, b1, loose_space b2, fun h => absurd h hfin⟩
  obtain ⟨u, u1, u2, u3⟩ := part _ hre
  obtain ⟨v, v1, v2, v3⟩ := part _ him
  refine ⟨putString f ('(' :: u ++ ',' :: v ++ [')']), ?_, ?_⟩
  · unfold writeComplex
    rw [← hf0, u1, v1]
    rfl
  · intro st z0 hg hst
    have hw : ∀ ch ∈ '(' :: u ++ ',' :: v ++ [')'], isSpace ch = false := by
      intro ch h
      simp only [List.cons_append, List.mem_cons, List.mem_append, List.not_mem_nil, or_false] at h
      rcases h with h | (h | h | h) | h
      · rw [h]; decide
      · exact u2 _ h
      · rw [h]; decide
      · exact v2 _ h
      · rw [h]; decide
    obtain ⟨ws, tail, hh, ht⟩ := holds_pad hf (by simp) hw hst
    obtain ⟨st', a1, a2, -⟩ := C108_error_partial (c := c) hg hh (z := z0) (by
      intro hform
      have hn : (if f.uppercase then 'N' else 'n') = 'n' ∨ (if f.uppercase then 'N' else 'n') = 'N' := by cases f.uppercase <;> simp
      refine cform_n hform hn ?_
      rcases hz with h | h
      · simp [u3 h]
      · simp [v3 h])
    exact ⟨st', a1, a2⟩

/-- C109, a case: `(12345678.9, 1)` with 20 digits in a field of width 90 is read back exactly; infinity is rejected. -/
example : PartOk cfg101 exZ.re ∧ PartOk cfg101 exZ.im ∧
    (writeComplex cfg101 exZ { sciFmt 20 with width := 90 }).bind (fun t => (readComplex cfg101 ⟨[], t, false, false, false, false⟩ ⟨zero cfg101, zero cfg101⟩).map
      (fun r => (r.1.re.data, r.1.im.data, r.2.fail))) = some (exA.data, (one cfg101).data, false) ∧
    (writeComplex cfg101 ⟨infV cfg101, exA⟩ (sciFmt 5)) = some "(inf,1.23457e+007)".toList := by
  have hle : (10 : ℚ) ^ minExp10 ≤ 1 := zpow_le_one_of_nonpos₀ (by norm_num) (by decide)
  have one_fin : FinWF cfg101 (one cfg101) := by decide +kernel
  have a1 : (1 : ℚ) ≤ |val exA| := by decide +kernel
  have a2 : (1 : ℚ) ≤ |val (one cfg101)| := by decide +kernel
  refine ⟨⟨exA_fin, .inr ⟨hle.trans a1, inRange_of_exp exA_fin (by decide)⟩⟩, ⟨one_fin, .inr ⟨hle.trans a2, inRange_of_exp one_fin (by decide)⟩⟩, ?_, ?_⟩
  · decide +kernel
  · decide +kernel

end EFX.Props
