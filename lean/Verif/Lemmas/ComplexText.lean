import Verif.Model.ComplexText
import Verif.SpecCText
import Mathlib.Data.List.Forall2
import Mathlib.Data.List.TakeWhile
import Mathlib.Tactic.Linarith
import Mathlib.Tactic.IntervalCases
/-! The matcher of the complex reader. -/

namespace EFX.CTxt
open Spec

/-- A text that a class may match. -/
def Fit (p : Piece) (a : Str) : Prop := (∀ ch ∈ a, p.cls ch = true) ∧ p.lo ≤ a.length ∧ ∀ m, p.hi = some m → a.length ≤ m

theorem takeWhile_stop (f : Char → Bool) {a s : Str} (ha : ∀ ch ∈ a, f ch = true) (hs : ∀ ch ∈ s.head?, f ch = false) :
    (a ++ s).takeWhile f = a := by
  induction a with
  | nil =>
    cases s with
    | nil => rfl
    | cons x t => simp [hs x (by simp)]
  | cons x a ih =>
    rw [List.cons_append, List.takeWhile_cons, if_pos (ha x (by simp)), ih (fun ch h => ha ch (by simp [h]))]

theorem takeWhile_ge (f : Char → Bool) {a s : Str} (ha : ∀ ch ∈ a, f ch = true) : a.length ≤ ((a ++ s).takeWhile f).length := by
  induction a with
  | nil => simp
  | cons x a ih =>
    rw [List.cons_append, List.takeWhile_cons, if_pos (ha x (by simp)), List.length_cons, List.length_cons]
    have := ih (fun ch h => ha ch (by simp [h]))
    omega

theorem run_greedy {p : Piece} {a s : Str} (ha : Fit p a) (hs : p.hi = some a.length ∨ ∀ ch ∈ s.head?, p.cls ch = false) :
    p.run (a ++ s) = a.length := by
  unfold Piece.run
  rcases hs with h | h
  · rw [h]
    simp only
    exact min_eq_right (takeWhile_ge _ ha.1)
  · rw [takeWhile_stop _ ha.1 h]
    cases hh : p.hi with
    | none => rfl
    | some m => exact min_eq_left (ha.2.2 m hh)

theorem tryDown_top {β : Type} {f : Nat → Option β} {lo n : Nat} {b : β} (h : lo ≤ n) (hf : f n = some b) : tryDown f lo n = some b := by
  cases n with
  | zero => simp [tryDown, Nat.le_zero.1 h, hf]
  | succ n => simp [tryDown, h, hf]

theorem tryDown_some {β : Type} {f : Nat → Option β} {lo n : Nat} {b : β} (h : tryDown f lo n = some b) :
    ∃ k, lo ≤ k ∧ k ≤ n ∧ f k = some b := by
  induction n with
  | zero =>
    unfold tryDown at h
    split at h
    · exact ⟨0, by omega, le_refl _, h⟩
    · cases h
  | succ n ih =>
    unfold tryDown at h
    split at h
    · cases hf : f (n + 1) with
      | some v =>
        rw [hf] at h
        exact ⟨n + 1, by assumption, le_refl _, by rw [hf]; exact h⟩
      | none =>
        rw [hf] at h
        obtain ⟨k, a, b, d⟩ := ih h
        exact ⟨k, a, by omega, d⟩
    · cases h

/-- The class takes all it can, and the rest matches: this is the match found. -/
theorem matchSeq_greedy {p : Piece} {ps : List Piece} {a s : Str} {g : List Str} (ha : Fit p a)
    (hs : p.hi = some a.length ∨ ∀ ch ∈ s.head?, p.cls ch = false) (hm : matchSeq ps s = some g) :
    matchSeq (p :: ps) (a ++ s) = some (a :: g) := by
  unfold matchSeq
  rw [run_greedy ha hs]
  refine tryDown_top ha.2.1 ?_
  rw [List.drop_left, List.take_left, hm]
  rfl

/-- A match is a decomposition of the text. -/
theorem matchSeq_sound {ps : List Piece} {s : Str} {g : List Str} (h : matchSeq ps s = some g) :
    s = g.flatten ∧ List.Forall₂ Fit ps g := by
  induction ps generalizing s g with
  | nil =>
    unfold matchSeq at h
    split at h
    · rename_i hs
      cases h
      exact ⟨by rw [hs]; rfl, .nil⟩
    · cases h
  | cons p ps ih =>
    unfold matchSeq at h
    obtain ⟨k, k1, k2, k3⟩ := tryDown_some h
    cases hm : matchSeq ps (s.drop k) with
    | none => rw [hm] at k3; cases k3
    | some g' =>
      rw [hm] at k3
      simp only [Option.map_some, Option.some.injEq] at k3
      subst k3
      obtain ⟨h1, h2⟩ := ih hm
      have hk : k ≤ (s.takeWhile p.cls).length := by
        refine le_trans k2 ?_
        unfold Piece.run
        cases p.hi with
        | none => exact le_refl _
        | some m => exact min_le_left _ _
      have hle : k ≤ s.length := le_trans hk ((List.takeWhile_prefix _).length_le)
      refine ⟨?_, .cons ⟨?_, ?_, ?_⟩ h2⟩
      · rw [List.flatten_cons, ← h1, List.take_append_drop]
      · intro ch hc
        have : s.take k = (s.takeWhile p.cls).take k := by
          conv_lhs => rw [← List.takeWhile_append_dropWhile (p := p.cls) (l := s)]
          rw [List.take_append_of_le_length hk]
        rw [this] at hc
        exact List.mem_takeWhile_imp (List.mem_of_mem_take hc)
      · rw [List.length_take]; omega
      · intro m hm'
        rw [List.length_take]
        have : k ≤ m := by
          refine le_trans k2 ?_
          unfold Piece.run
          rw [hm']
          exact min_le_right _ _
        omega

/-! ### Numbers -/

/-- Digits of the specification are digits of the model. -/
theorem isDig_of {s : Str} (h : IsDigits s) : ∀ ch ∈ s, isDig ch = true := by
  intro ch hc
  have := h ch hc
  unfold digitChars at this
  simp only [List.mem_cons, List.not_mem_nil, or_false] at this
  rcases this with h | h | h | h | h | h | h | h | h | h <;> rw [h] <;> decide

theorem digits_of {s : Str} (h : ∀ ch ∈ s, isDig ch = true) : IsDigits s := by
  intro ch hc
  have h1 := h ch hc
  unfold isDig at h1
  have h2 := of_decide_eq_true h1
  have : ch = Char.ofNat ch.toNat := (Char.ofNat_toNat ch).symm
  rw [this]
  obtain ⟨a, b⟩ := h2
  generalize ch.toNat = n at a b
  interval_cases n <;> decide

/-- A character at which every class of a number stops. -/
def Stops (t : Str) : Prop := ∀ ch ∈ t.head?, ch = ',' ∨ ch = ')'

theorem fit_sign (sg : Option Bool) : Fit pSign (signText sg) := by
  rcases sg with _ | _ | _ <;> refine ⟨?_, ?_, ?_⟩ <;> simp [signText, pSign]

theorem fit_letter (l : Option Bool) : Fit pExp (letterText l) := by
  rcases l with _ | _ | _ <;> refine ⟨?_, ?_, ?_⟩ <;> simp [letterText, pExp]

theorem fit_digits {a : Str} (h : IsDigits a) : Fit pDigits a := ⟨isDig_of h, Nat.zero_le _, by simp [pDigits]⟩

theorem fit_dots (k : ℕ) : Fit pDots (List.replicate k '.') := by
  refine ⟨?_, Nat.zero_le _, by simp [pDots]⟩
  intro ch h
  rw [List.eq_of_mem_replicate h]; rfl

/-- The first character of a concatenation. -/
theorem head_app {f : Char → Bool} {a s : Str} (ha : ∀ ch ∈ a, f ch = false) (hs : a = [] → ∀ ch ∈ s.head?, f ch = false) :
    ∀ ch ∈ (a ++ s).head?, f ch = false := by
  cases a with
  | nil => simpa using hs rfl
  | cons x a =>
    intro ch h
    simp only [List.cons_append, List.head?_cons, Option.mem_def, Option.some.injEq] at h
    rw [← h]
    exact ha x (by simp)

theorem digit_mem {a : Str} (h : IsDigits a) {ch : Char} (hc : ch ∈ a) : pSign.cls ch = false ∧ pDots.cls ch = false ∧ pExp.cls ch = false := by
  have := h ch hc
  unfold digitChars at this
  simp only [List.mem_cons, List.not_mem_nil, or_false] at this
  rcases this with h | h | h | h | h | h | h | h | h | h <;> rw [h] <;> decide

theorem sign_mem {sg : Option Bool} {ch : Char} (hc : ch ∈ signText sg) : pDigits.cls ch = false ∧ pDots.cls ch = false ∧ pExp.cls ch = false := by
  rcases sg with _ | _ | _ <;> simp [signText] at hc <;> rw [hc] <;> decide

theorem letter_mem {l : Option Bool} {ch : Char} (hc : ch ∈ letterText l) : pDigits.cls ch = false ∧ pDots.cls ch = false ∧ pSign.cls ch = false := by
  rcases l with _ | _ | _ <;> simp [letterText] at hc <;> rw [hc] <;> decide

theorem dot_mem {k : ℕ} {ch : Char} (hc : ch ∈ List.replicate k '.') : pDigits.cls ch = false ∧ pSign.cls ch = false ∧ pExp.cls ch = false := by
  rw [List.eq_of_mem_replicate hc]; decide

theorem stops_cls {t : Str} (h : Stops t) : ∀ ch ∈ t.head?, pDigits.cls ch = false ∧ pSign.cls ch = false ∧ pExp.cls ch = false ∧ pDots.cls ch = false := by
  intro ch hc
  rcases h ch hc with h | h <;> rw [h] <;> decide

/-- The seven classes of a number take a text in greedy form. -/
theorem num_greedy {sg l sg' : Option Bool} {a b d : Str} {k : ℕ} (ha : IsDigits a) (hb : IsDigits b) (hd : IsDigits d)
    (h34 : k = 0 → b = []) (h7 : l = none → sg' = none → d = []) (h6 : l = none → sg' ≠ none → a ++ b ≠ [])
    {ps : List Piece} {t : Str} {g : List Str} (ht : Stops t) (hm : matchSeq ps t = some g) :
    matchSeq (num ++ ps) (signText sg ++ (a ++ (List.replicate k '.' ++ (b ++ (letterText l ++ (signText sg' ++ (d ++ t))))))) =
      some (signText sg :: a :: List.replicate k '.' :: b :: letterText l :: signText sg' :: d :: g) := by
  have hst := stops_cls ht
  have sgn : ∀ s : Option Bool, signText s = [] → s = none := by rintro (_ | _ | _) <;> simp [signText]
  have ltn : ∀ s : Option Bool, letterText s = [] → s = none := by rintro (_ | _ | _) <;> simp [letterText]
  have e7 : matchSeq (pDigits :: ps) (d ++ t) = some (d :: g) :=
    matchSeq_greedy (fit_digits hd) (.inr fun ch h => (hst ch h).1) hm
  have e6 : matchSeq (pSign :: pDigits :: ps) (signText sg' ++ (d ++ t)) = some (signText sg' :: d :: g) := by
    refine matchSeq_greedy (fit_sign _) ?_ e7
    right
    exact head_app (fun ch h => (digit_mem hd h).1) fun _ ch h => (hst ch h).2.1
  have e5 : matchSeq (pExp :: pSign :: pDigits :: ps) (letterText l ++ (signText sg' ++ (d ++ t))) = some (letterText l :: signText sg' :: d :: g) := by
    refine matchSeq_greedy (fit_letter _) ?_ e6
    right
    exact head_app (fun ch h => (sign_mem h).2.2) fun _ => head_app (fun ch h => (digit_mem hd h).2.2) fun _ ch h => (hst ch h).2.2.1
  have hx : ∀ ch ∈ (letterText l ++ (signText sg' ++ (d ++ t))).head?, pDigits.cls ch = false := by
    refine head_app (fun ch h => (letter_mem h).1) fun hl => head_app (fun ch h => (sign_mem h).1) fun hs => ?_
    rw [h7 (ltn _ hl) (sgn _ hs)]
    exact fun ch h => (hst ch h).1
  have e4 : matchSeq (pDigits :: pExp :: pSign :: pDigits :: ps) (b ++ (letterText l ++ (signText sg' ++ (d ++ t)))) = some (b :: letterText l :: signText sg' :: d :: g) :=
    matchSeq_greedy (fit_digits hb) (.inr hx) e5
  have e3 : matchSeq (pDots :: pDigits :: pExp :: pSign :: pDigits :: ps) (List.replicate k '.' ++ (b ++ (letterText l ++ (signText sg' ++ (d ++ t))))) =
      some (List.replicate k '.' :: b :: letterText l :: signText sg' :: d :: g) := by
    refine matchSeq_greedy (fit_dots _) (.inr ?_) e4
    exact head_app (fun ch h => (digit_mem hb h).2.1) fun _ => head_app (fun ch h => (letter_mem h).2.1) fun _ =>
      head_app (fun ch h => (sign_mem h).2.1) fun _ => head_app (fun ch h => (digit_mem hd h).2.1) fun _ ch h => (hst ch h).2.2.2
  have e2 : matchSeq (pDigits :: pDots :: pDigits :: pExp :: pSign :: pDigits :: ps) (a ++ (List.replicate k '.' ++ (b ++ (letterText l ++ (signText sg' ++ (d ++ t)))))) =
      some (a :: List.replicate k '.' :: b :: letterText l :: signText sg' :: d :: g) := by
    refine matchSeq_greedy (fit_digits ha) (.inr ?_) e3
    refine head_app (fun ch h => (dot_mem h).1) fun hk => ?_
    rw [h34 (by simpa using hk)]
    exact hx
  refine matchSeq_greedy (fit_sign _) ?_ e2
  cases hsg : sg with
  | some v => left; cases v <;> rfl
  | none =>
    right
    refine head_app (fun ch h => (digit_mem ha h).1) fun h1 => head_app (fun ch h => (dot_mem h).2.1) fun h2 =>
      head_app (fun ch h => (digit_mem hb h).1) fun h3 => head_app (fun ch h => (letter_mem h).2.2) fun h4 => ?_
    by_cases hs : sg' = none
    · rw [hs]
      exact head_app (a := []) (by simp) fun _ => head_app (fun ch h => (digit_mem hd h).1) fun _ ch h => (hst ch h).2.1
    · exact absurd (by rw [h1, h3]; rfl) (h6 (ltn _ h4) hs)


/-- Every loosely written number is taken by the seven classes, with a digit in each group that is present. -/
theorem num_loose {u : Str} (hu : Loose u) {ps : List Piece} {t : Str} {g : List Str} (ht : Stops t) (hm : matchSeq ps t = some g) :
    ∃ g1 g2 g3 g4 g5 g6 g7, matchSeq (num ++ ps) (u ++ t) = some (g1 :: g2 :: g3 :: g4 :: g5 :: g6 :: g7 :: g) ∧
      g1 ++ g2 ++ g3 ++ g4 ++ (g5 ++ g6 ++ g7) = u ∧ hasError (g1 ++ g2 ++ g3 ++ g4) = false ∧ hasError (g5 ++ g6 ++ g7) = false := by
  have key : ∀ (sg l sg' : Option Bool) (a b d : Str) (k : ℕ), IsDigits a → IsDigits b → IsDigits d →
      (k = 0 → b = []) → (l = none → sg' = none → d = []) → (l = none → sg' ≠ none → a ++ b ≠ []) →
      (signText sg ++ a ++ List.replicate k '.' ++ b ≠ [] → a ++ b ≠ []) → (letterText l ++ signText sg' ++ d ≠ [] → d ≠ []) →
      signText sg ++ a ++ List.replicate k '.' ++ b ++ (letterText l ++ signText sg' ++ d) = u → 
      ∃ g1 g2 g3 g4 g5 g6 g7, matchSeq (num ++ ps) (u ++ t) = some (g1 :: g2 :: g3 :: g4 :: g5 :: g6 :: g7 :: g) ∧
      g1 ++ g2 ++ g3 ++ g4 ++ (g5 ++ g6 ++ g7) = u ∧ hasError (g1 ++ g2 ++ g3 ++ g4) = false ∧ hasError (g5 ++ g6 ++ g7) = false := by
    intro sg l sg' a b d k ha hb hd h34 h7 h6 hm1 hx1 hu
    refine ⟨_, _, _, _, _, _, _, ?_, hu, ?_, ?_⟩
    · have := num_greedy (sg := sg) ha hb hd h34 h7 h6 ht hm
      rw [← hu]
      simpa only [List.append_assoc] using this
    · unfold hasError
      by_cases he : signText sg ++ a ++ List.replicate k '.' ++ b = []
      · rw [he]; rfl
      · have h := hm1 he
        have : (signText sg ++ a ++ List.replicate k '.' ++ b).any isDig = true := by
          rw [List.any_eq_true]
          rcases hab : a with _ | ⟨x, a'⟩
          · rcases hbb : b with _ | ⟨x, b'⟩
            · rw [hab, hbb] at h; exact absurd rfl h
            · exact ⟨x, by simp, isDig_of hb x (by rw [hbb]; simp)⟩
          · exact ⟨x, by simp, isDig_of ha x (by rw [hab]; simp)⟩
        rw [this]; simp
    · unfold hasError
      by_cases he : letterText l ++ signText sg' ++ d = []
      · rw [he]; rfl
      · have h := hx1 he
        have : (letterText l ++ signText sg' ++ d).any isDig = true := by
          rw [List.any_eq_true]
          rcases hbb : d with _ | ⟨x, b'⟩
          · exact absurd hbb h
          · exact ⟨x, by simp, isDig_of hd x (by rw [hbb]; simp)⟩
        rw [this]; simp
  obtain ⟨⟨sg, a, k, b, l, sg', d⟩, ⟨v1, v2, v3, v4, v5⟩, hu⟩ := hu
  simp only [LooseNum.text, LooseNum.mant, LooseNum.expo] at v1 v2 v3 v4 v5 hu
  have app : ∀ {x y : Str}, IsDigits x → IsDigits y → IsDigits (x ++ y) := by
    intro x y hx hy ch h
    rcases List.mem_append.1 h with h | h
    · exact hx ch h
    · exact hy ch h
  have nil : IsDigits [] := by intro ch h; cases h
  by_cases hl : l = none ∧ sg' = none
  · obtain ⟨rfl, rfl⟩ := hl
    by_cases hk : k = 0
    · subst hk
      refine key sg none none (a ++ (b ++ d)) [] [] 0 (app v1 (app v2 v3)) nil nil (by simp) (by simp) (by simp) ?_ (by simp [letterText, signText]) (by rw [← hu]; simp [letterText, signText])
      intro h hn
      simp only [List.append_nil, List.append_eq_nil_iff] at hn
      obtain ⟨h1, h2, h3⟩ := hn
      subst h1; subst h2; subst h3
      exact v4 (by simpa using h) rfl
    · refine key sg none none a (b ++ d) [] k v1 (app v2 v3) nil (by omega) (by simp) (by simp) ?_ (by simp [letterText, signText]) (by rw [← hu]; simp [letterText, signText])
      intro h hn
      have : a ++ b ≠ [] := v4 (by simp [hk])
      simp only [List.append_eq_nil_iff] at hn
      exact this (by simp [hn.1, hn.2.1])
  · by_cases hm0 : signText sg ++ a ++ List.replicate k '.' ++ b = []
    · simp only [List.append_eq_nil_iff] at hm0
      obtain ⟨⟨⟨h1, rfl⟩, h2⟩, rfl⟩ := hm0
      have hk : k = 0 := by simpa using h2
      subst hk
      by_cases hl' : l = none
      · subst hl'
        have hd : d ≠ [] := v5 (by
          rcases sg' with _ | _ | _
          · exact absurd ⟨rfl, rfl⟩ hl
          · simp [signText]
          · simp [signText])
        refine key sg' none none d [] [] 0 v3 nil nil (by simp) (by simp) (by simp) (by simpa using fun _ => hd) (by simp [letterText, signText]) ?_
        rw [← hu, h1]; simp [letterText, signText]
      · refine key none l sg' [] [] d 0 nil nil v3 (by simp) (fun h => absurd h hl') (fun h => absurd h hl') (by simp [signText]) v5 ?_
        rw [← hu, h1]; simp [signText]
    · by_cases hk : k = 0
      · subst hk
        refine key sg l sg' (a ++ b) [] d 0 (app v1 v2) nil v3 (by simp) (fun h1 h2 => absurd ⟨h1, h2⟩ hl) (fun _ _ => by simpa using v4 hm0) (fun _ => by simpa using v4 hm0) v5 ?_
        rw [← hu]; simp
      · exact key sg l sg' a b d k v1 v2 v3 (by omega) (fun h1 h2 => absurd ⟨h1, h2⟩ hl) (fun _ _ => v4 hm0) (fun _ => v4 hm0) v5 hu

/-! ### What a match means -/

theorem fit_sign_inv {a : Str} (h : Fit pSign a) : ∃ sg, a = signText sg := by
  obtain ⟨h1, _, h3⟩ := h
  have h4 := h3 1 rfl
  rcases a with _ | ⟨x, _ | ⟨y, a⟩⟩
  · exact ⟨none, rfl⟩
  · have := h1 x (by simp)
    simp only [pSign, Bool.or_eq_true, beq_iff_eq] at this
    rcases this with h | h
    · exact ⟨some false, by rw [h]; rfl⟩
    · exact ⟨some true, by rw [h]; rfl⟩
  · simp at h4

theorem fit_letter_inv {a : Str} (h : Fit pExp a) : ∃ l, a = letterText l := by
  obtain ⟨h1, _, h3⟩ := h
  have h4 := h3 1 rfl
  rcases a with _ | ⟨x, _ | ⟨y, a⟩⟩
  · exact ⟨none, rfl⟩
  · have := h1 x (by simp)
    simp only [pExp, Bool.or_eq_true, beq_iff_eq] at this
    rcases this with h | h
    · exact ⟨some false, by rw [h]; rfl⟩
    · exact ⟨some true, by rw [h]; rfl⟩
  · simp at h4

theorem fit_dots_inv {a : Str} (h : Fit pDots a) : ∃ k, a = List.replicate k '.' := by
  refine ⟨a.length, List.eq_replicate_iff.2 ⟨rfl, fun x hx => ?_⟩⟩
  have := h.1 x hx
  simpa [pDots] using this

theorem fit_char_inv {k : Char} {a : Str} (h : Fit (pChar k) a) : a = [k] := by
  obtain ⟨h1, h2, h3⟩ := h
  have h4 := h3 1 rfl
  have h5 : 1 ≤ a.length := h2
  rcases a with _ | ⟨x, _ | ⟨y, a⟩⟩
  · simp at h5
  · have := h1 x (by simp)
    simp only [pChar, beq_iff_eq] at this
    rw [this]
  · simp at h4

/-- No character of a number is a parenthesis or a comma. -/
theorem loose_chars {u : Str} (h : Loose u) : ∀ ch ∈ u, ch ≠ ',' ∧ ch ≠ '(' ∧ ch ≠ ')' := by
  obtain ⟨⟨sg, a, k, b, l, sg', d⟩, ⟨v1, v2, v3, -, -⟩, hu⟩ := h
  simp only [LooseNum.text, LooseNum.mant, LooseNum.expo] at v1 v2 v3 hu
  have hs : ∀ s : Option Bool, ∀ ch ∈ signText s, ch ≠ ',' ∧ ch ≠ '(' ∧ ch ≠ ')' := by
    rintro (_ | _ | _) ch h <;> simp [signText] at h <;> rw [h] <;> decide
  have hl : ∀ s : Option Bool, ∀ ch ∈ letterText s, ch ≠ ',' ∧ ch ≠ '(' ∧ ch ≠ ')' := by
    rintro (_ | _ | _) ch h <;> simp [letterText] at h <;> rw [h] <;> decide
  have hd : ∀ s : Str, IsDigits s → ∀ ch ∈ s, ch ≠ ',' ∧ ch ≠ '(' ∧ ch ≠ ')' := by
    intro s hs ch hc
    have := hs ch hc
    unfold digitChars at this
    simp only [List.mem_cons, List.not_mem_nil, or_false] at this
    rcases this with h | h | h | h | h | h | h | h | h | h <;> rw [h] <;> decide
  intro ch hc
  rw [← hu] at hc
  simp only [List.mem_append] at hc
  rcases hc with (((h | h) | h) | h) | ((h | h) | h)
  · exact hs _ _ h
  · exact hd _ v1 _ h
  · rw [List.eq_of_mem_replicate h]; decide
  · exact hd _ v2 _ h
  · exact hl _ _ h
  · exact hs _ _ h
  · exact hd _ v3 _ h

theorem notError {s : Str} (h : hasError s = false) : s = [] ∨ ∃ ch ∈ s, isDig ch = true := by
  unfold hasError at h
  by_cases hs : s = []
  · exact .inl hs
  · right
    have h1 : s.length ≠ 0 := by simpa using hs
    simp only [h1, ne_eq, not_false_eq_true, decide_true, Bool.true_and, Bool.not_eq_false'] at h
    simpa using h

/-- A match of the seven classes followed by others. -/
theorem num_sound {ps : List Piece} {g : List Str} (h : List.Forall₂ Fit (num ++ ps) g) :
    ∃ g1 g2 g3 g4 g5 g6 g7 g', g = g1 :: g2 :: g3 :: g4 :: g5 :: g6 :: g7 :: g' ∧ List.Forall₂ Fit ps g' ∧
      (∀ ch ∈ g1 ++ g2 ++ g3 ++ g4 ++ (g5 ++ g6 ++ g7), ch ≠ ',' ∧ ch ≠ '(' ∧ ch ≠ ')') ∧
      (hasError (g1 ++ g2 ++ g3 ++ g4) = false → hasError (g5 ++ g6 ++ g7) = false →
        Loose (g1 ++ g2 ++ g3 ++ g4 ++ (g5 ++ g6 ++ g7))) := by
  unfold num at h
  simp only [List.cons_append, List.nil_append] at h
  rcases h with _ | ⟨f1, h⟩
  rcases h with _ | ⟨f2, h⟩
  rcases h with _ | ⟨f3, h⟩
  rcases h with _ | ⟨f4, h⟩
  rcases h with _ | ⟨f5, h⟩
  rcases h with _ | ⟨f6, h⟩
  rcases h with _ | ⟨f7, h⟩
  obtain ⟨sg, rfl⟩ := fit_sign_inv f1
  obtain ⟨k, rfl⟩ := fit_dots_inv f3
  obtain ⟨l, rfl⟩ := fit_letter_inv f5
  obtain ⟨sg', rfl⟩ := fit_sign_inv f6
  rename_i a b d g'
  refine ⟨_, _, _, _, _, _, _, _, rfl, h, ?_, ?_⟩
  · have sgn : ∀ s : Option Bool, ∀ ch ∈ signText s, ch ≠ ',' ∧ ch ≠ '(' ∧ ch ≠ ')' := by
      rintro (_ | _ | _) ch h <;> simp [signText] at h <;> rw [h] <;> decide
    have ltr : ∀ s : Option Bool, ∀ ch ∈ letterText s, ch ≠ ',' ∧ ch ≠ '(' ∧ ch ≠ ')' := by
      rintro (_ | _ | _) ch h <;> simp [letterText] at h <;> rw [h] <;> decide
    have dig : ∀ {s : Str}, Fit pDigits s → ∀ ch ∈ s, ch ≠ ',' ∧ ch ≠ '(' ∧ ch ≠ ')' := by
      intro s hs ch hc
      have := hs.1 ch hc
      refine ⟨?_, ?_, ?_⟩ <;> rintro rfl <;> exact absurd this (by decide)
    intro ch hc
    simp only [List.mem_append] at hc
    rcases hc with (((h | h) | h) | h) | ((h | h) | h)
    · exact sgn _ _ h
    · exact dig f2 _ h
    · rw [List.eq_of_mem_replicate h]; decide
    · exact dig f4 _ h
    · exact ltr _ _ h
    · exact sgn _ _ h
    · exact dig f7 _ h
  · intro e1 e2
    refine ⟨⟨sg, a, k, b, l, sg', d⟩, ⟨digits_of f2.1, digits_of f4.1, digits_of f7.1, ?_, ?_⟩, rfl⟩
    · intro hne
      rcases notError e1 with h | ⟨ch, h, hd⟩
      · exact absurd h hne
      · simp only [List.mem_append] at h
        simp only
        intro hn
        simp only [List.append_eq_nil_iff] at hn
        obtain ⟨rfl, rfl⟩ := hn
        rcases h with ((h | h) | h) | h
        · exact absurd hd (by rw [show isDig ch = false from (sign_mem h).1]; simp)
        · cases h
        · exact absurd hd (by rw [show isDig ch = false from (dot_mem h).1]; simp)
        · cases h
    · intro hne
      rcases notError e2 with h | ⟨ch, h, hd⟩
      · exact absurd h hne
      · simp only [List.mem_append] at h
        simp only
        rintro rfl
        rcases h with (h | h) | h
        · exact absurd hd (by rw [show isDig ch = false from (letter_mem h).1]; simp)
        · exact absurd hd (by rw [show isDig ch = false from (sign_mem h).1]; simp)
        · cases h

theorem fit_char (k : Char) : Fit (pChar k) [k] := by
  refine ⟨?_, ?_, ?_⟩ <;> simp [pChar]

theorem match_char {k : Char} {ps : List Piece} {s : Str} {g : List Str} (h : matchSeq ps s = some g) :
    matchSeq (pChar k :: ps) (k :: s) = some ([k] :: g) :=
  matchSeq_greedy (a := [k]) (fit_char k) (.inl rfl) h

/-- What a match of the first expression looks like. -/
theorem pair_sound {s : Str} {g : List Str} (h : matchSeq rxPair s = some g) :
    ∃ u v, s = '(' :: u ++ ',' :: v ++ [')'] ∧ u = group g 1 4 ++ group g 5 3 ∧ v = group g 9 4 ++ group g 13 3 ∧
      (hasError (group g 1 4) = false → hasError (group g 5 3) = false → Loose u) ∧
      (hasError (group g 9 4) = false → hasError (group g 13 3) = false → Loose v) := by
  obtain ⟨h1, h2⟩ := matchSeq_sound h
  unfold rxPair at h2
  rcases h2 with _ | ⟨f0, h2⟩
  have e0 := fit_char_inv f0
  subst e0
  simp only [List.append_eq, List.append_assoc] at h2
  obtain ⟨a1, a2, a3, a4, a5, a6, a7, g', rfl, h3, -, l1⟩ := num_sound h2
  rcases h3 with _ | ⟨f8, h3⟩
  have e8 := fit_char_inv f8
  subst e8
  obtain ⟨b1, b2, b3, b4, b5, b6, b7, g', rfl, h4, -, l2⟩ := num_sound h3
  rcases h4 with _ | ⟨f16, h4⟩
  have e16 := fit_char_inv f16
  subst e16
  rcases h4 with _ | _
  refine ⟨a1 ++ a2 ++ a3 ++ a4 ++ (a5 ++ a6 ++ a7), b1 ++ b2 ++ b3 ++ b4 ++ (b5 ++ b6 ++ b7), ?_, ?_, ?_, ?_, ?_⟩
  · rw [h1]; simp
  · simp [group]
  · simp [group]
  · intro x y
    refine l1 ?_ ?_
    · simpa [group] using x
    · simpa [group] using y
  · intro x y
    refine l2 ?_ ?_
    · simpa [group] using x
    · simpa [group] using y

theorem paren_sound {s : Str} {g : List Str} (h : matchSeq rxParen s = some g) :
    ∃ u, s = '(' :: u ++ [')'] ∧ u = group g 1 4 ++ group g 5 3 ∧
      (hasError (group g 1 4) = false → hasError (group g 5 3) = false → Loose u) := by
  obtain ⟨h1, h2⟩ := matchSeq_sound h
  unfold rxParen at h2
  rcases h2 with _ | ⟨f0, h2⟩
  have e0 := fit_char_inv f0
  subst e0
  simp only [List.append_eq] at h2
  obtain ⟨a1, a2, a3, a4, a5, a6, a7, g', rfl, h3, -, l1⟩ := num_sound h2
  rcases h3 with _ | ⟨f8, h3⟩
  have e8 := fit_char_inv f8
  subst e8
  rcases h3 with _ | _
  refine ⟨a1 ++ a2 ++ a3 ++ a4 ++ (a5 ++ a6 ++ a7), ?_, ?_, ?_⟩
  · rw [h1]; simp
  · simp [group]
  · intro x y
    refine l1 ?_ ?_
    · simpa [group] using x
    · simpa [group] using y

theorem plain_sound {s : Str} {g : List Str} (h : matchSeq rxPlain s = some g) :
    s = group g 0 4 ++ group g 4 3 ∧
      (hasError (group g 0 4) = false → hasError (group g 4 3) = false → Loose s) := by
  obtain ⟨h1, h2⟩ := matchSeq_sound h
  unfold rxPlain at h2
  rw [← List.append_nil num] at h2
  obtain ⟨a1, a2, a3, a4, a5, a6, a7, g', rfl, h3, -, l1⟩ := num_sound h2
  rcases h3 with _ | _
  refine ⟨?_, ?_⟩
  · rw [h1]; simp [group]
  · intro x y
    have := l1 (by simpa [group] using x) (by simpa [group] using y)
    rw [h1]
    simpa using this

theorem stops_nil : Stops [] := by intro ch h; cases h
theorem stops_comma (t : Str) : Stops (',' :: t) := by intro ch h; simp at h; exact .inl h.symm
theorem stops_paren (t : Str) : Stops (')' :: t) := by intro ch h; simp at h; exact .inr h.symm

/-- The form `(u,v)` is accepted. -/
theorem accept_pair {u v : Str} (hu : Loose u) (hv : Loose v) : accept ('(' :: u ++ ',' :: v ++ [')']) = some (u, some v) := by
  have e0 : matchSeq [pChar ')'] [')'] = some [[')']] := match_char (ps := []) (s := []) rfl
  obtain ⟨b1, b2, b3, b4, b5, b6, b7, m2, s2, x2, y2⟩ := num_loose hv (stops_paren []) e0
  have e1 := match_char (k := ',') m2
  obtain ⟨a1, a2, a3, a4, a5, a6, a7, m1, s1, x1, y1⟩ := num_loose hu (stops_comma _) e1
  have e2 := match_char (k := '(') m1
  have hs : '(' :: u ++ ',' :: v ++ [')'] = '(' :: (u ++ ',' :: (v ++ [')'])) := by simp
  have hr : rxPair = pChar '(' :: (num ++ pChar ',' :: (num ++ [pChar ')'])) := rfl
  unfold accept
  rw [hs, hr, e2]
  simp only [group, List.drop_succ_cons, List.drop_zero, List.take_succ_cons, List.take_zero, List.flatten_cons, List.flatten_nil, List.append_nil]
  simp only [List.append_assoc] at x1 x2 y1 y2 s1 s2
  rw [x1, x2, y1, y2]
  simp [s1, s2]

theorem pair_none {s : Str} (h : ',' ∉ s) : matchSeq rxPair s = none := by
  cases hm : matchSeq rxPair s with
  | none => rfl
  | some g =>
    obtain ⟨u, v, hs, -⟩ := pair_sound hm
    exact absurd (by rw [hs]; simp) h

theorem paren_none {s : Str} (h : '(' ∉ s) : matchSeq rxParen s = none := by
  cases hm : matchSeq rxParen s with
  | none => rfl
  | some g =>
    obtain ⟨u, hs, -⟩ := paren_sound hm
    exact absurd (by rw [hs]; simp) h

/-- The form `(u)` is accepted. -/
theorem accept_paren {u : Str} (hu : Loose u) : accept ('(' :: u ++ [')']) = some (u, none) := by
  have e0 : matchSeq [pChar ')'] [')'] = some [[')']] := match_char (ps := []) (s := []) rfl
  obtain ⟨a1, a2, a3, a4, a5, a6, a7, m1, s1, x1, y1⟩ := num_loose hu (stops_paren []) e0
  have e2 := match_char (k := '(') m1
  have hc := loose_chars hu
  have hn : matchSeq rxPair ('(' :: u ++ [')']) = none := pair_none (by
    intro h
    simp only [List.cons_append, List.mem_cons, List.mem_append, List.not_mem_nil, or_false] at h
    rcases h with h | h | h
    · exact absurd h (by decide)
    · exact (hc _ h).1 rfl
    · exact absurd h (by decide))
  unfold accept
  rw [hn, show rxParen = pChar '(' :: (num ++ [pChar ')']) from rfl, List.cons_append, e2]
  simp only [group, List.drop_succ_cons, List.drop_zero, List.take_succ_cons, List.take_zero, List.flatten_cons, List.flatten_nil, List.append_nil]
  simp only [List.append_assoc] at x1 y1 s1
  rw [x1, y1]
  simp [s1]

/-- The form `u` is accepted. -/
theorem accept_plain {u : Str} (hu : Loose u) : accept u = some (u, none) := by
  have e0 : matchSeq [] [] = some [] := rfl
  obtain ⟨a1, a2, a3, a4, a5, a6, a7, m1, s1, x1, y1⟩ := num_loose hu stops_nil e0
  rw [List.append_nil, List.append_nil] at m1
  have hc := loose_chars hu
  unfold accept
  rw [pair_none (fun h => (hc _ h).1 rfl), paren_none (fun h => (hc _ h).2.1 rfl), show rxPlain = num from rfl, m1]
  simp only [group, List.drop_succ_cons, List.drop_zero, List.take_succ_cons, List.take_zero, List.flatten_cons, List.flatten_nil, List.append_nil]
  simp only [List.append_assoc] at x1 y1 s1
  rw [x1, y1]
  simp [s1]

/-- What is accepted. -/
theorem accept_sound {s u : Str} {v : Option Str} (h : accept s = some (u, v)) :
    Loose u ∧ ((∃ w, v = some w ∧ Loose w ∧ s = '(' :: u ++ ',' :: w ++ [')']) ∨ (v = none ∧ (s = '(' :: u ++ [')'] ∨ s = u))) := by
  unfold accept at h
  cases hm : matchSeq rxPair s with
  | some g =>
    rw [hm] at h
    simp only at h
    split at h
    · cases h
    · rename_i he
      simp only [Bool.or_eq_true, not_or, Bool.not_eq_true] at he
      obtain ⟨a, b, hs, ha, hb, la, lb⟩ := pair_sound hm
      simp only [Option.some.injEq, Prod.mk.injEq] at h
      rw [← ha, ← hb] at h
      obtain ⟨rfl, rfl⟩ := h
      exact ⟨la he.1.1.1 he.1.1.2, .inl ⟨_, rfl, lb he.1.2 he.2, hs⟩⟩
  | none =>
    rw [hm] at h
    simp only at h
    cases hm : matchSeq rxParen s with
    | some g =>
      rw [hm] at h
      simp only at h
      split at h
      · cases h
      · rename_i he
        simp only [Bool.or_eq_true, not_or, Bool.not_eq_true] at he
        obtain ⟨a, hs, ha, la⟩ := paren_sound hm
        simp only [Option.some.injEq, Prod.mk.injEq] at h
        rw [← ha] at h
        obtain ⟨rfl, rfl⟩ := h
        exact ⟨la he.1 he.2, .inr ⟨rfl, .inl hs⟩⟩
    | none =>
      rw [hm] at h
      simp only at h
      cases hm : matchSeq rxPlain s with
      | some g =>
        rw [hm] at h
        simp only at h
        split at h
        · cases h
        · rename_i he
          simp only [Bool.or_eq_true, not_or, Bool.not_eq_true] at he
          obtain ⟨hs, la⟩ := plain_sound hm
          simp only [Option.some.injEq, Prod.mk.injEq] at h
          rw [← hs] at h
          obtain ⟨rfl, rfl⟩ := h
          exact ⟨la he.1 he.2, .inr ⟨rfl, .inr rfl⟩⟩
      | none => rw [hm] at h; cases h

end EFX.CTxt
