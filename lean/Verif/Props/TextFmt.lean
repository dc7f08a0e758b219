import Verif.Lemmas.TextFmt
/-!
# C33 when writing fails
-/

namespace EFX.Props
open EFX EFX.Spec

/-- The number is written without exponent: `fixed`, or no format chosen and `o`, the weight of the leading digit
(zero for zero), between -4 and the bound of the precision. -/
def Plain (c : Cfg) (f : Fmt) (o : ℤ) : Prop :=
  f.scientific = false ∧ (f.fixed = true ∨ (-4 ≤ o ∧ o < c.digits10 ∧ (o < f.p ∨ o < 6)))

/-- The numbers that cannot be written: a leading digit five to nine just beyond the requested places, or (no
format chosen, `showpoint`) a rounded integer part of more digits than the precision. -/
def Unwritable (c : Cfg) (f : Fmt) (q : ℚ) (o : ℤ) : Prop :=
  Plain c f o ∧ q ≠ 0 ∧ ((o + 1 + f.p ≤ 0 ∧ 5 * (10 : ℚ) ^ o ≤ |q|) ∨
    (f.fixed = false ∧ f.showpoint = true ∧ 0 ≤ o ∧ (10 : ℚ) ^ (f.p : ℤ) ≤ roundSig (min f.p c.maxDigits10) o |q|))

theorem fmt_p (f : Fmt) : 1 ≤ f.p := by unfold Fmt.p; split <;> omega

theorem maxDigits_ge (c : Cfg) : 30 ≤ c.digits10 ∧ c.maxDigits10 = c.digits10 + 1 := by
  refine ⟨?_, rfl⟩
  unfold Cfg.digits10
  split
  · omega
  · split
    · norm_num
    · omega

theorem useScientific_iff (c : Cfg) (f : Fmt) (o : ℤ) : useScientific c f o = false ↔ Plain c f o := by
  unfold useScientific Plain
  cases f.scientific <;> cases f.fixed <;> simp
  intro _ _
  constructor
  · intro h; by_cases g : o < f.p
    · exact Or.inl g
    · exact Or.inr (h (not_lt.1 g))
  · rintro (h | h) g
    · omega
    · exact h

/-- The stages of the writer for finite numbers. -/
theorem wrString_stages {c : Cfg} {x : EFloat} (hf : x.cls = .finite) (f : Fmt) {r : Option (Str × ℤ)}
    (hr : outputString c x (order x) (wantedDigits c f (order x)) = r) :
    wrString c x f = none ↔ r = none ∨ ∃ s e, r = some (s, e) ∧
      (if useScientific c f (order x) then wrScientific s e f.p f.showpoint f.uppercase (!f.scientific && !f.fixed)
        else wrFixed s e f.p f.showpoint (!f.scientific && !f.fixed)) = none := by
  have hfin : x.isfinite = true := by simp [EFloat.isfinite, hf]
  unfold wrString
  rw [hfin]
  simp only [Bool.not_true, Bool.false_eq_true, if_false, hr]
  cases r with
  | none => simp
  | some v =>
    obtain ⟨s, e⟩ := v
    simp only [Option.bind_eq_bind, Option.bind_some, reduceCtorEq, false_or, Option.some.injEq, Prod.mk.injEq]
    have hb : ∀ (o : Option Str) (g : Str → Option Str), (∀ s, g s ≠ none) → (o.bind g = none ↔ o = none) := by
      intro o g hg
      cases o with
      | none => simp
      | some v => simp [hg v]
    have hg : ∀ s : Str, (pure (wrField f x.neg s) : Option Str) ≠ none := by intro s; simp [pure]
    constructor
    · intro h
      refine ⟨s, e, ⟨rfl, rfl⟩, ?_⟩
      split at h
      · rw [if_pos ‹_›]; exact (hb _ _ hg).1 h
      · rw [if_neg ‹_›]; exact (hb _ _ hg).1 h
    · rintro ⟨s', e', ⟨rfl, rfl⟩, h⟩
      split at h
      · rw [if_pos ‹_›]; exact (hb _ _ hg).2 h
      · rw [if_neg ‹_›]; exact (hb _ _ hg).2 h

theorem wanted_le (c : Cfg) (f : Fmt) (o : ℤ) : wantedDigits c f o ≤ c.maxDigits10 + 1 ∧
    ((!f.scientific && !f.fixed) = true → wantedDigits c f o ≤ f.p) := by
  unfold wantedDigits
  cases (!f.scientific && !f.fixed)
  · simp only [Bool.false_eq_true, if_false, false_imp_iff, and_true]
    split
    · omega
    · split <;> omega
  · simp only [if_true, true_imp_iff]
    constructor
    · omega
    · omega

theorem wanted_sci {c : Cfg} {f : Fmt} {o : ℤ} (h : useScientific c f o = true) : 1 ≤ wantedDigits c f o := by
  have := fmt_p f
  have := maxDigits_ge c
  unfold wantedDigits
  simp only [h, if_true]
  cases (!f.scientific && !f.fixed) <;> simp only [Bool.false_eq_true, if_false, if_true] <;> omega

theorem wanted_pos {c : Cfg} {f : Fmt} {o : ℤ} (h : useScientific c f o = false) (ho : 0 ≤ o) : 1 ≤ wantedDigits c f o ∧
    ((!f.scientific && !f.fixed) = true → wantedDigits c f o = min f.p c.maxDigits10) := by
  have := fmt_p f
  have := maxDigits_ge c
  unfold wantedDigits
  simp only [h, Bool.false_eq_true, if_false, if_pos ho]
  cases (!f.scientific && !f.fixed)
  · simp; omega
  · simp only [if_true, true_imp_iff]
    omega

theorem wanted_neg {c : Cfg} {f : Fmt} {o : ℤ} (h : useScientific c f o = false) (ho : o < 0) :
    wantedDigits c f o = 0 ↔ o + 1 + f.p ≤ 0 := by
  have := fmt_p f
  have := maxDigits_ge c
  unfold wantedDigits
  simp only [h, Bool.false_eq_true, if_false, if_neg (not_le.2 ho), ge_iff_le]
  cases (!f.scientific && !f.fixed)
  · simp only [Bool.false_eq_true, if_false]
    omega
  · simp only [if_true]
    omega

theorem wrFixed_zeros {n p : ℕ} (sp trim : Bool) (hn : 1 ≤ n) : ∃ r, wrFixed (List.replicate n '0') 0 p sp trim = some r := by
  obtain ⟨A, B, k, h1, h2, h3⟩ := wrFixed_body (s := List.replicate n '0') (e := 0) (p := p) sp trim (le_refl _)
  have hAB : A = ['0'] ∧ ∃ j, B = List.replicate j '0' := by
    have e1 : ((0 : ℤ) + 1).toNat = 1 := rfl
    rw [e1] at h3
    rcases h3 with ⟨g1, g2, g3⟩ | ⟨g1, g2, g3⟩
    · rw [List.length_replicate] at g1 g3
      have : n = 1 := by omega
      subst this
      exact ⟨by rw [g3]; rfl, 0, by rw [g2]; rfl⟩
    · obtain ⟨j, rfl⟩ : ∃ j, n = j + 1 := ⟨n - 1, by omega⟩
      rw [List.replicate_succ] at g2 g3
      exact ⟨by rw [g2]; rfl, j, by rw [g3]; rfl⟩
  obtain ⟨rfl, j, rfl⟩ := hAB
  rw [h1]
  cases sp
  · exact wrFinish_noshow p trim
  · cases trim
    · exact ⟨_, wrFinish_notrim _ p⟩
    · rw [wrFinish_show, stripTrailing_append_zeros]
      have hz : stripTrailing (List.replicate j '0') = [] := by
        have := stripTrailing_append_zeros [] j
        rw [List.nil_append] at this
        rw [this]; rfl
      rw [hz]
      have := extend_zero [] p
      cases hx : extendToPrecision (['0'] ++ '.' :: []) p with
      | some w => exact ⟨w, rfl⟩
      | none =>
        have := this.1 hx
        simp at this

/-- C33.  Which objects can be written with which format: infinities and NaN always, every number in scientific
format, and every number that is not `Unwritable` (here `o` is the weight of the leading digit); an `Unwritable`
number makes the writer throw.

Missing: the property itself, since unwritable numbers exist (`C33_writes_refuted`). -/
theorem C33_writes_partial {c : Cfg} {x : EFloat} (hx : WF c x) (f : Fmt) :
    (x.cls ≠ .finite → ∃ txt, wrString c x f = some txt) ∧
    (x.cls = .finite → f.scientific = true → ∃ txt, wrString c x f = some txt) ∧
    (x.cls = .finite → val x = 0 → ∃ txt, wrString c x f = some txt) ∧
    (∀ o : ℤ, x.cls = .finite → (10 : ℚ) ^ o ≤ |val x| → |val x| < (10 : ℚ) ^ (o + 1) → (wrString c x f = none ↔ Unwritable c f (val x) o)) := by
  have hm := maxDigits_ge c
  have hp := fmt_p f
  obtain ⟨wl, wp⟩ := wanted_le c f (order x)
  have key : x.cls = .finite → val x ≠ 0 → (wrString c x f = none ↔ Unwritable c f (val x) (order x)) := by
    intro hf h0
    have hw : FinWF c x := ⟨hx, hf⟩
    by_cases hs : useScientific c f (order x) = true
    · -- scientific
      have h1 := wanted_sci hs
      obtain ⟨s, e', r1, r2, r3, r4, _, _⟩ := outputString_spec hw h0 h1 wl
      rw [wrString_stages hf f r1]
      have hne : s ≠ [] := by rintro rfl; simp at r3; omega
      constructor
      · rintro (h | ⟨s', e'', h, h2⟩)
        · cases h
        · exfalso
          simp only [Option.some.injEq, Prod.mk.injEq] at h
          obtain ⟨rfl, rfl⟩ := h
          rw [if_pos hs] at h2
          obtain ⟨w, hw⟩ := wrSci_some e' (p := f.p) f.showpoint f.uppercase (!f.scientific && !f.fixed) hne (fun ht => ⟨r4, by rw [r3]; exact wp ht⟩)
          rw [hw] at h2; cases h2
      · rintro ⟨h, _⟩
        exfalso
        rw [← useScientific_iff] at h
        rw [h] at hs; cases hs
    · have hs2 : useScientific c f (order x) = false := by simpa using hs
      have hpl : Plain c f (order x) := (useScientific_iff c f _).1 hs2
      have hauto : (!f.scientific && !f.fixed) = true ↔ f.fixed = false := by rw [hpl.1]; simp
      by_cases ho : 0 ≤ order x
      · obtain ⟨h1, h2⟩ := wanted_pos hs2 ho
        obtain ⟨s, e', r1, r2, r3, r4, r5, r6⟩ := outputString_spec hw h0 h1 wl
        rw [wrString_stages hf f r1]
        have hne : s ≠ [] := by rintro rfl; simp at r3; omega
        have he' : 0 ≤ e' := by omega
        have h3 := wrFixed_pos (p := f.p) f.showpoint (!f.scientific && !f.fixed) he' r4 hne (fun ht => by rw [r3]; exact wp ht)
        have h4 := rounded_exp (e := e') (p := f.p) r2 r4 hne
        rw [r3, r5] at h4
        constructor
        · rintro (h | ⟨s', e'', h, h5⟩)
          · cases h
          · simp only [Option.some.injEq, Prod.mk.injEq] at h
            obtain ⟨rfl, rfl⟩ := h
            rw [if_neg hs] at h5
            obtain ⟨g1, g2, g3⟩ := h3.1 h5
            refine ⟨hpl, h0, Or.inr ⟨hauto.1 g2, g1, ho, ?_⟩⟩
            have := h4.1 g3
            rw [h2 g2] at this
            exact this
        · rintro ⟨_, _, ⟨h, _⟩ | ⟨g1, g2, _, g3⟩⟩
          · omega
          · right
            refine ⟨s, e', rfl, ?_⟩
            rw [if_neg hs, h3]
            refine ⟨g2, hauto.2 g1, h4.2 ?_⟩
            rw [h2 (hauto.2 g1)]
            exact g3
      · have ho' : order x < 0 := by omega
        have hn := wanted_neg hs2 ho'
        by_cases hz : wantedDigits c f (order x) = 0
        · have hz2 := hn.1 hz
          have hou := outputString_nil hw h0
          rw [← hz] at hou
          rw [wrString_stages hf f hou]
          by_cases h5 : 5 * (10 : ℚ) ^ order x ≤ |val x|
          · rw [if_pos h5]
            exact ⟨fun _ => ⟨hpl, h0, Or.inl ⟨hz2, h5⟩⟩, fun _ => Or.inl rfl⟩
          · rw [if_neg h5]
            constructor
            · rintro (h | ⟨s', e'', h, h2⟩)
              · cases h
              · exfalso
                simp only [Option.some.injEq, Prod.mk.injEq] at h
                obtain ⟨rfl, rfl⟩ := h
                rw [if_neg hs] at h2
                obtain ⟨w, hw⟩ := wrFixed_neg (s := []) (p := f.p) f.showpoint (!f.scientific && !f.fixed) ho' (by simp)
                rw [hw] at h2; cases h2
            · rintro ⟨_, _, ⟨_, h⟩ | ⟨_, _, h, _⟩⟩
              · exact absurd h h5
              · omega
        · have hz2 : ¬ (order x + 1 + f.p ≤ 0) := fun h => hz (hn.2 h)
          obtain ⟨s, e', r1, r2, r3, r4, r5, r6⟩ := outputString_spec hw h0 (Nat.one_le_iff_ne_zero.2 hz) wl
          rw [wrString_stages hf f r1]
          have hne : s ≠ [] := by rintro rfl; simp at r3; omega
          constructor
          · rintro (h | ⟨s', e'', h, h5⟩)
            · cases h
            · exfalso
              simp only [Option.some.injEq, Prod.mk.injEq] at h
              obtain ⟨rfl, rfl⟩ := h
              rw [if_neg hs] at h5
              by_cases he' : e' < 0
              · obtain ⟨w, hw⟩ := wrFixed_neg (s := s) (p := f.p) f.showpoint (!f.scientific && !f.fixed) he' (fun ht => by rw [r3]; exact wp ht)
                rw [hw] at h5; cases h5
              · obtain ⟨_, _, g3⟩ := (wrFixed_pos (p := f.p) f.showpoint (!f.scientific && !f.fixed) (not_lt.1 he') r4 hne (fun ht => by rw [r3]; exact wp ht)).1 h5
                omega
          · rintro ⟨_, _, ⟨h, _⟩ | ⟨_, _, h, _⟩⟩
            · exact absurd h hz2
            · omega
  have zkey : x.cls = .finite → val x = 0 → ∃ txt, wrString c x f = some txt := by
    intro hf h0
    have hw : FinWF c x := ⟨hx, hf⟩
    obtain ⟨ho, hou⟩ := outputString_zero hw h0 wl
    rw [← Option.ne_none_iff_exists']
    intro hnone
    rw [wrString_stages hf f hou] at hnone
    rcases hnone with h | ⟨s, e, h, h2⟩
    · cases h
    · simp only [Option.some.injEq, Prod.mk.injEq] at h
      obtain ⟨rfl, rfl⟩ := h
      by_cases hs : useScientific c f (order x) = true
      · rw [if_pos hs] at h2
        have h1 := wanted_sci hs
        have hsc : f.scientific = true := by
          by_contra hsc
          have hsc2 : f.scientific = false := by simpa using hsc
          have : Plain c f (order x) := by
            refine ⟨hsc2, ?_⟩
            cases hfx : f.fixed
            · right; rw [ho]; omega
            · left; rfl
          rw [← useScientific_iff] at this
          rw [this] at hs; cases hs
        obtain ⟨w, hw⟩ := wrSci_some (s := List.replicate (wantedDigits c f (order x)) '0') 0 (p := f.p) f.showpoint f.uppercase (!f.scientific && !f.fixed)
          (by simp; omega) (by rw [hsc]; simp)
        rw [hw] at h2; cases h2
      · rw [if_neg hs] at h2
        have hs2 : useScientific c f (order x) = false := by simpa using hs
        obtain ⟨h1, _⟩ := wanted_pos hs2 (by omega)
        obtain ⟨w, hw⟩ := wrFixed_zeros (p := f.p) f.showpoint (!f.scientific && !f.fixed) h1
        rw [hw] at h2; cases h2
  refine ⟨?_, ?_, zkey, ?_⟩
  · intro hf
    unfold wrString
    rw [if_pos (by unfold EFloat.isfinite; cases h : x.cls <;> simp_all)]
    exact ⟨_, rfl⟩
  · intro hf hs
    by_cases h0 : val x = 0
    · exact zkey hf h0
    · rw [← Option.ne_none_iff_exists']
      intro h
      have := ((key hf h0).1 h).1.1
      rw [this] at hs; cases hs
  · intro o hf o1 o2
    have h0 : val x ≠ 0 := by
      intro h
      rw [h, abs_zero] at o1
      exact absurd o1 (not_le.2 (by positivity))
    obtain ⟨p1, p2⟩ := C27_order ⟨hx, hf⟩ h0
    have a1 := pow_cmp o1 p2
    have a2 := pow_cmp p1 o2
    have : o = order x := by omega
    rw [this]
    exact key hf h0

/-- Fixed format with precision `p`. -/
def fixFmt (p : ℤ) : Fmt := ⟨false, false, false, false, true, false, p, 0, ' '⟩
/-- No format chosen, precision `p`. -/
def autoFmt (p : ℤ) (showpoint : Bool) : Fmt := ⟨false, false, showpoint, false, false, false, p, 0, ' '⟩

/-- C33 refuted: 0.06 with `fixed` and precision 1; 0.0006 with precision 1; 12345 with `showpoint` and precision 3;
999999.9 with `showpoint` and the default precision 6. -/
theorem C33_writes_refuted :
    (ofString cfg101 "0.06".toList).map (fun x => wrString cfg101 x (fixFmt 1)) = some none ∧
    (ofString cfg101 "0.0006".toList).map (fun x => wrString cfg101 x (autoFmt 1 false)) = some none ∧
    (ofString cfg101 "12345".toList).map (fun x => wrString cfg101 x (autoFmt 3 true)) = some none ∧
    (ofString cfg101 "999999.9".toList).map (fun x => wrString cfg101 x (autoFmt 6 true)) = some none := by
  decide +kernel

/-- The neighbours of the failing cases are written. -/
example :
    (ofString cfg101 "0.04".toList).map (fun x => wrString cfg101 x (fixFmt 1)) = some (some "0.0".toList) ∧
    (ofString cfg101 "0.06".toList).map (fun x => wrString cfg101 x (fixFmt 2)) = some (some "0.06".toList) ∧
    (ofString cfg101 "999999.9".toList).map (fun x => wrString cfg101 x (autoFmt 6 false)) = some (some "1000000".toList) := by
  decide +kernel

/-- `t` set in a field of `w` characters. -/
def Field (left : Bool) (fill : Char) (w : ℕ) (t out : Str) : Prop :=
  out.length = max w t.length ∧ ∃ pad : Str, (∀ ch ∈ pad, ch = fill) ∧ out = if left then t ++ pad else pad ++ t

/-- The sign that the format asks for. -/
def signStr (showpos neg : Bool) : Str := if neg then ['-'] else if showpos then ['+'] else []

/-- C59, numbers.  The text of a finite number is its unsigned text behind the sign, set in the field: the width and
the sign flags change nothing else, and never make the writer fail. -/
theorem C59_field {c : Cfg} {x : EFloat} (hf : x.cls = .finite) (f : Fmt) :
    (∀ out, wrString c x f = some out → ∃ body,
      wrString c { x with neg := false } { f with width := 0, showpos := false } = some body ∧
      Field f.left f.fill f.width.toNat (signStr f.showpos x.neg ++ body) out) ∧
    (wrString c x f = none ↔ wrString c { x with neg := false } { f with width := 0, showpos := false } = none) := by
  have hfin : x.isfinite = true := by simp [EFloat.isfinite, hf]
  have hfin' : ({ x with neg := false } : EFloat).isfinite = true := by simp [EFloat.isfinite, hf]
  have ho : order { x with neg := false } = order x := rfl
  have hout : ∀ e n, outputString c { x with neg := false } e n = outputString c x e n := fun _ _ => rfl
  have hw : ∀ e, wantedDigits c { f with width := 0, showpos := false } e = wantedDigits c f e := fun _ => rfl
  have hs : ∀ e, useScientific c { f with width := 0, showpos := false } e = useScientific c f e := fun _ => rfl
  have hp : Fmt.p { f with width := 0, showpos := false } = f.p := rfl
  have key : ∃ r : Option Str, wrString c x f = r.map (wrField f x.neg) ∧
      wrString c { x with neg := false } { f with width := 0, showpos := false } = r := by
    refine ⟨wrString c { x with neg := false } { f with width := 0, showpos := false }, ?_, rfl⟩
    unfold wrString
    rw [hfin, hfin']
    simp only [Bool.not_true, Bool.false_eq_true, if_false, ho, hout, hw, hs, hp]
    cases outputString c x (order x) (wantedDigits c f (order x)) with
    | none => rfl
    | some v =>
      simp only [Option.bind_eq_bind, Option.bind_some]
      have hwf : ∀ s, wrField { f with width := 0, showpos := false } false s = s := by
        intro s; unfold wrField; simp
      split
      · cases wrScientific v.1 v.2 f.p f.showpoint f.uppercase (!f.scientific && !f.fixed) with
        | none => rfl
        | some s => simp only [Option.bind_some, hwf]; rfl
      · cases wrFixed v.1 v.2 f.p f.showpoint (!f.scientific && !f.fixed) with
        | none => rfl
        | some s => simp only [Option.bind_some, hwf]; rfl
  obtain ⟨r, h1, h2⟩ := key
  rw [h1, h2]
  cases r with
  | none => simp
  | some body =>
    refine ⟨?_, by simp⟩
    intro out ho
    simp only [Option.map_some, Option.some.injEq] at ho
    refine ⟨body, rfl, ?_⟩
    have hsg : (if x.neg then '-' :: body else if f.showpos then '+' :: body else body) = signStr f.showpos x.neg ++ body := by
      unfold signStr; cases x.neg <;> cases f.showpos <;> rfl
    unfold wrField at ho
    simp only [hsg] at ho
    generalize signStr f.showpos x.neg ++ body = t at *
    unfold Field
    by_cases hlen : f.width.toNat > t.length
    · rw [if_pos hlen] at ho
      subst ho
      refine ⟨?_, List.replicate (f.width.toNat - t.length) f.fill, fun ch h => (List.mem_replicate.1 h).2, rfl⟩
      split <;> simp <;> omega
    · rw [if_neg hlen] at ho
      subst ho
      refine ⟨by omega, [], by simp, by simp⟩

/-- C59, infinities and NaN: `inf` behind the sign, `nan` without sign, in capitals on request; the field width is ignored. -/
theorem C59_special {c : Cfg} {x : EFloat} (f : Fmt) :
    (∀ s, denote x = .inf s → wrString c x f = some (signStr f.showpos s ++ if f.uppercase then ['I', 'N', 'F'] else ['i', 'n', 'f'])) ∧
    (denote x = .nan → wrString c x f = some (if f.uppercase then ['N', 'A', 'N'] else ['n', 'a', 'n'])) := by
  constructor
  · intro s h
    unfold denote at h
    cases hc : x.cls <;> rw [hc] at h <;> simp at h
    subst h
    have h1 : x.isfinite = false := by simp [EFloat.isfinite, hc]
    have h2 : x.isinf = true := by simp [EFloat.isinf, hc]
    unfold wrString wrNotFinite signStr
    rw [h1, h2]
    unfold EFloat.isneg
    cases x.neg <;> cases f.showpos <;> cases f.uppercase <;> rfl
  · intro h
    unfold denote at h
    cases hc : x.cls <;> rw [hc] at h <;> simp at h
    have h1 : x.isfinite = false := by simp [EFloat.isfinite, hc]
    have h2 : x.isinf = false := by simp [EFloat.isinf, hc]
    unfold wrString wrNotFinite
    rw [h1, h2]
    cases f.uppercase <;> rfl

/-- `-12345679.25` with precision 2, `fixed`, width 16, filled with stars on either side. -/
example : exC.cls = .finite ∧
    wrString cfg101 exC ⟨true, false, false, false, true, true, 2, 16, '*'⟩ = some "-12345679.25****".toList ∧
    wrString cfg101 exC ⟨true, false, false, false, true, false, 2, 16, '*'⟩ = some "****-12345679.25".toList ∧
    wrString cfg101 (infV cfg101) ⟨true, false, false, false, true, false, 2, 16, '*'⟩ = some "+inf".toList := by
  decide +kernel

end EFX.Props
