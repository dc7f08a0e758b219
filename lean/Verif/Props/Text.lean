import Verif.Lemmas.TextLit
import Verif.Lemmas.Concrete
import Verif.Lemmas.Int
import Verif.Props.Add
/-!
# C29 reading a decimal literal, C30 reading replaces the previous value
-/

namespace EFX.Props
open EFX EFX.Spec

theorem pow_cmp {M E : ℤ} {q : ℚ} (h1 : (10 : ℚ) ^ M ≤ q) (h2 : q < (10 : ℚ) ^ E) : M < E :=
  (zpow_lt_zpow_iff_right₀ (by norm_num)).1 (lt_of_le_of_lt h1 h2)

/-- What reading a literal of value `v` must deliver, with `M` the largest stored exponent. -/
structure ReadSpec (c : Cfg) (M : ℤ) (v : ℚ) (r : EFloat) : Prop where
  small : |v| < (10 : ℚ) ^ (-M) → denote r = .fin 0
  large : (10 : ℚ) ^ (M + 8) ≤ |v| → denote r = .inf (decide (v < 0))
  trunc : (10 : ℚ) ^ (-M) ≤ |v| → |v| < (10 : ℚ) ^ (M + 8) → IsTrunc c r v ∧ |val r| = chop (ulp c r) |v| ∧ (10 : ℚ) ^ r.exp ≤ |v|

theorem readSpec_of {c : Cfg} {M : ℤ} (hM : (8 : ℤ) ∣ M) (hM0 : 0 ≤ M) {v q : ℚ} {neg : Bool} (hv : v = if neg then -q else q) {l : List ℕ} {E : ℤ} {p : ℕ}
    (hp : 2 ≤ p ∧ p ≤ c.elems) (hE : (8 : ℤ) ∣ E) (h1 : l.length = c.elems) (h2 : OK l) (h3 : l.headD 0 ≠ 0)
    (h4 : (lv l : ℤ) = ⌊q / (10 : ℚ) ^ (E - 8 * ((c.elems : ℤ) - 1))⌋) (h5 : (10 : ℚ) ^ E ≤ q) (h6 : q < (10 : ℚ) ^ (E + 8)) :
    ReadSpec c M v (if E > M then infSigned c neg else if E < -M then zero c else ⟨l, E, neg, .finite, p⟩) := by
  have q0 : 0 < q := lt_of_lt_of_le (by positivity) h5
  have ha : |v| = q := by
    rw [hv]; cases neg
    · simp [abs_of_pos q0]
    · simp [abs_of_pos q0]
  have hneg : decide (v < 0) = neg := by
    rw [hv]; cases neg
    · simp [q0.le]
    · simp [q0]
  refine ⟨?_, ?_, ?_⟩
  · intro h
    rw [ha] at h
    have := pow_cmp h5 h
    by_cases hE1 : E > M
    · exfalso
      omega
    · rw [if_neg hE1, if_pos this]
      unfold denote
      rw [(FinWF_zero c).fin]
      simp only [val_zero]
  · intro h
    rw [ha] at h
    have := pow_cmp h h6
    rw [if_pos (by omega), infSigned_eq, hneg]
    rfl
  · intro g1 g2
    rw [ha] at g1 g2
    have c1 := pow_cmp g1 h6
    have c2 := pow_cmp h5 g2
    rw [if_neg (by omega), if_neg (by omega)]
    obtain ⟨w, m, tr⟩ := build_spec c neg hp hE h1 h2 h3 h4 h5
    rw [ha, abs_val]
    refine ⟨?_, m, h5⟩
    rw [hv]; exact tr

theorem value_eq (t : Lit) : t.value = if decide (t.sign = some true) then -t.absValue else t.absValue := by
  unfold Lit.value; simp

theorem readSpec_zero {c : Cfg} {M : ℤ} : ReadSpec c M 0 (zero c) := by
  refine ⟨fun _ => ?_, fun h => ?_, fun h => ?_⟩
  · unfold denote
    rw [(FinWF_zero c).fin]
    simp only [val_zero]
  · exfalso
    rw [abs_zero] at h
    exact absurd h (not_le.2 (zpow_pos (by norm_num) _))
  · exfalso
    rw [abs_zero] at h
    exact absurd h (not_le.2 (zpow_pos (by norm_num) _))

theorem max_dvd : (8 : ℤ) ∣ maxExp10 := ⟨268435452, rfl⟩
theorem max_nonneg : 0 ≤ maxExp10 := by
  have hm : maxExp10 = 2147483616 := rfl
  omega

/-- Reading into a finite object. -/
theorem read_spec {c : Cfg} {t : Lit} (ht : t.Valid) (hs : t.Small) {old : EFloat} (ho : old.data.length = c.elems)
    (hf : old.cls = .finite) (hp : 2 ≤ old.prec ∧ old.prec ≤ c.elems) :
    ∃ r, rdString c old t.text = some r ∧ ReadSpec c maxExp10 t.value r := by
  have hb : t.expo.natAbs < 2 ^ 63 := by
    have := hs.exp
    rw [Int.abs_eq_natAbs] at this
    omega
  rcases rdString_spec c ht hs.len hb ho with ⟨h0, hr⟩ | ⟨l, E, hr, h1, h2, h3, h4, h5, h6, h7⟩
  · refine ⟨_, hr, ?_⟩
    have : t.value = 0 := by rw [value_eq, h0]; simp
    rw [this]
    exact readSpec_zero
  · refine ⟨_, hr, ?_⟩
    have := readSpec_of (c := c) max_dvd max_nonneg (value_eq t) hp h1 h2 h3 h4 h5 h6 h7
    rw [hf]
    exact this

/-- A number with few digits is not changed by the cut. -/
theorem trunc_exact {c : Cfg} {v : ℚ} {r : EFloat} (h1 : IsTrunc c r v) (h2 : |val r| = chop (ulp c r) |v|) (h3 : (10 : ℚ) ^ r.exp ≤ |v|)
    (hd : SigDigits (8 * (c.elems - 1) + 1) v) : val r = v := by
  obtain ⟨m, k, hm, hv⟩ := hd
  have hN := elems_ge c
  have hk : r.exp - 8 * ((c.elems : ℤ) - 1) ≤ k := by
    by_contra hlt
    have hlt2 : |v| < (10 : ℚ) ^ ((8 * (c.elems - 1) + 1 : ℕ) + k : ℤ) := by
      rw [hv, zpow_add₀ (by norm_num), zpow_natCast]
      apply mul_lt_mul_of_pos_right _ (by positivity)
      exact_mod_cast hm
    have := pow_cmp h3 hlt2
    push_cast [Nat.cast_sub (show 1 ≤ c.elems by omega)] at this
    omega
  have hmul : |v| / ulp c r = ((m * 10 ^ (k - (r.exp - 8 * ((c.elems : ℤ) - 1))).toNat : ℕ) : ℤ) := by
    rw [hv]
    unfold ulp
    rw [mul_div_assoc, ← zpow_sub₀ (by norm_num)]
    push_cast
    rw [← zpow_natCast, Int.toNat_of_nonneg (by omega)]
  have he : |val r| = |v| := by
    rw [h2]
    unfold chop
    rw [if_neg (not_lt.2 (abs_nonneg v)), hmul, Int.floor_intCast, ← hmul]
    have := ulp_pos c r
    field_simp
  have hs := h1.sign
  have hvp : 0 < |v| := lt_of_lt_of_le (by positivity) h3
  rcases abs_eq_abs.1 he with h | h
  · exact h
  · rw [h] at hs
    have h7 : 0 < v * v := by rw [← abs_mul_abs_self v]; exact mul_pos hvp hvp
    exact absurd hs (not_le.2 (by rw [neg_mul]; exact neg_neg_of_pos h7))

/-- C29.  Every valid literal (shorter than 2^31 characters, exponent below 2^62) is read without failure.
From `10^min_exp10` to below `10^(max_exp10 + 8)` the result is the number cut to the stored digit groups, and the
number itself if it has at most `8 (groups - 1) + 1` significant digits.  Below it is zero, above it is infinity.

Missing: numbers above the largest `e_float` but below `10^(max_exp10 + 8)` are stored as finite objects instead of
becoming infinity (`C29_range_refuted`). -/
theorem C29_read_partial {c : Cfg} {t : Lit} (ht : t.Valid) (hs : t.Small) :
    ∃ r, ofString c t.text = some r ∧
      (|t.value| < (10 : ℚ) ^ minExp10 → denote r = .fin 0) ∧
      ((10 : ℚ) ^ (maxExp10 + 8) ≤ |t.value| → denote r = .inf (decide (t.value < 0))) ∧
      ((10 : ℚ) ^ minExp10 ≤ |t.value| → |t.value| < (10 : ℚ) ^ (maxExp10 + 8) →
        IsTrunc c r t.value ∧ |val r| = chop (ulp c r) |t.value| ∧
        (SigDigits (8 * (c.elems - 1) + 1) t.value → val r = t.value)) := by
  have hN := elems_ge c
  obtain ⟨r, h1, h2⟩ := read_spec (c := c) ht hs (old := mkDefault c) (by simp [mkDefault, zeros]) rfl ⟨by simp only [mkDefault]; omega, le_refl _⟩
  refine ⟨r, h1, h2.small, h2.large, fun a b => ?_⟩
  obtain ⟨g1, g2, g3⟩ := h2.trunc a b
  exact ⟨g1, g2, fun hd => trunc_exact g1 g2 g3 hd⟩

/-- A literal: `-0012.3450E-11`. -/
def exLit : Lit := ⟨some true, "0012".toList, some "3450".toList, some (true, some true, "11".toList)⟩

theorem exLit_valid : exLit.Valid ∧ exLit.Small ∧ exLit.text = "-0012.3450E-11".toList ∧ exLit.value = -(12345 / 100000000000000) := by
  refine ⟨⟨by decide, by decide, by decide, ?_⟩, ⟨by decide, by decide⟩, by decide, ?_⟩
  · intro up sg d h
    simp only [exLit, Option.some.injEq, Prod.mk.injEq] at h
    obtain ⟨_, _, rfl⟩ := h
    exact ⟨by decide, by decide⟩
  · have e1 : exLit.expo = -11 := by decide
    have e2 : number exLit.ip = 12 := by decide
    have e3 : number exLit.frac = 3450 := by decide
    have e4 : exLit.frac.length = 4 := by decide
    unfold Lit.value Lit.absValue
    rw [e1, e2, e3, e4]
    norm_num [exLit, zpow_neg]

/-- `12345678e2147483616`. -/
def exHuge : Lit := ⟨none, "12345678".toList, none, some (false, none, "2147483616".toList)⟩

/-- C29 refuted at the upper end: the literal `12345678e2147483616` lies above the largest `e_float` and is read as
a finite object above the largest `e_float`. -/
theorem C29_range_refuted : exHuge.Valid ∧ exHuge.Small ∧ ∃ r, ofString cfg101 exHuge.text = some r ∧
    r.cls = .finite ∧ val (valueMax cfg101) < val r := by
  refine ⟨⟨by decide, by decide, by decide, ?_⟩, ⟨by decide, by decide +kernel⟩, ⟨12345678 :: List.replicate 15 0, 2147483616, false, .finite, 16⟩, by decide +kernel, rfl, ?_⟩
  · intro up sg d h
    simp only [exHuge, Option.some.injEq, Prod.mk.injEq] at h
    obtain ⟨_, _, rfl⟩ := h
    exact ⟨by decide, by decide⟩
  · have w : FinWF cfg101 ⟨12345678 :: List.replicate 15 0, 2147483616, false, .finite, 16⟩ :=
      ⟨⟨by decide, by decide, ⟨268435452, rfl⟩, by decide, by decide, by intro _ h; exact absurd h (by decide)⟩, rfl⟩
    exact (gt_iff w (valueMax_WF cfg101).1).1 (by decide +kernel)

/-! ### C30 -/

/-- C30.  The text alone decides the number read into a finite variable, for every text: same failure, same number,
and the same object if the variable has full working precision.  The stored digits, exponent and sign never depend
on the previous state.

Missing: a variable that held infinity or NaN stays infinite or NaN unless zero or an overflow is read
(`C30_state_refuted`); the working precision is kept too. -/
theorem C30_state_partial {c : Cfg} {old : EFloat} (ho : old.data.length = c.elems) (s : Str) :
    (old.cls = .finite → (rdString c old s).map denote = (ofString c s).map denote) ∧
    (old.cls = .finite → old.prec = c.elems → rdString c old s = ofString c s) ∧
    (rdString c old s).map (fun r => (r.data, r.exp, r.neg)) = (ofString c s).map (fun r => (r.data, r.exp, r.neg)) := by
  have key : ∀ {α : Type} (g : EFloat → α),
      (∀ d e n, g (rdRange c { old with data := d, exp := e, neg := n }) = g (rdRange c { mkDefault c with data := d, exp := e, neg := n })) →
      (rdString c old s).map g = (ofString c s).map g := by
    intro α g hg
    unfold ofString rdString
    have hl : (mkDefault c).data.length = c.elems := by simp [mkDefault, zeros]
    rw [hl, ho]
    cases rdExponent s with
    | none => rfl
    | some v =>
      simp only [Option.bind_eq_bind, Option.bind_some]
      split
      · rfl
      · cases rdPoint _ _ with
        | none => rfl
        | some w =>
          simp only [Option.bind_some]
          cases w with
          | none => rfl
          | some w =>
            simp only
            cases rdShift _ _ with
            | none => rfl
            | some w =>
              simp only [Option.bind_some]
              cases rdCut _ _ with
              | none => rfl
              | some w =>
                simp only [Option.bind_some]
                cases rdPad _ _ with
                | none => rfl
                | some w =>
                  simp only [Option.bind_some]
                  cases rdLimbs _ _ with
                  | none => rfl
                  | some w =>
                    simp only [Option.bind_some]
                    exact congrArg some (hg _ _ _)
  refine ⟨fun hf => key denote ?_, fun hf hp => ?_, key _ ?_⟩
  · intro d e n
    rw [rdRange_spec, rdRange_spec]
    simp only
    split
    · rfl
    · split
      · rfl
      · unfold denote
        simp only [hf, mkDefault]
        rfl
  · have := key id (by
      intro d e n
      rw [rdRange_spec, rdRange_spec]
      simp only [hf, hp, mkDefault])
    simpa using this
  · intro d e n
    rw [rdRange_spec, rdRange_spec]
    simp only
    split
    · rfl
    · split <;> rfl

/-- C30 refuted: reading `1` into a NaN leaves a NaN, into an infinity leaves an infinity, and reading into a variable
of reduced precision keeps the reduced precision. -/
theorem C30_state_refuted :
    (rdString cfg101 (nanV cfg101) "1".toList).map denote = some .nan ∧
    (rdString cfg101 (infV cfg101) "1".toList).map denote = some (.inf false) ∧
    (ofString cfg101 "1".toList).map (fun r => r.cls) = some .finite ∧
    (rdString cfg101 (setPrecision cfg101 (one cfg101) 30) "1".toList).map (fun r => r.prec) ≠ (ofString cfg101 "1".toList).map (fun r => r.prec) := by
  have h1 : rdString cfg101 (nanV cfg101) "1".toList = some ⟨1 :: List.replicate 15 0, 0, false, .nan, 16⟩ := by decide +kernel
  have h2 : rdString cfg101 (infV cfg101) "1".toList = some ⟨1 :: List.replicate 15 0, 0, false, .inf, 16⟩ := by decide +kernel
  rw [h1, h2]
  exact ⟨rfl, rfl, by decide +kernel, by decide +kernel⟩

/-- C30, the hypotheses of `C30_state_partial`: reading `-0012.3450E-11` into a number of the machine. -/
example : (setPrecision cfg101 exA 30).data.length = cfg101.elems ∧ (setPrecision cfg101 exA 30).cls = .finite ∧
    (rdString cfg101 (setPrecision cfg101 exA 30) exLit.text).map (fun r => (r.data, r.exp, r.neg)) =
      some (1234500 :: List.replicate 15 0, -16, true) := by
  decide +kernel

/-! ### The literals behind `my_value_max` and `my_value_min` -/

/-- The text `9.99...9e+2147483616` built by `my_value_max` (base.cpp 83-84). -/
def maxLit (c : Cfg) : Lit := ⟨none, ['9'], some (List.replicate c.maxDigits10 '9'), some (false, some false, "2147483616".toList)⟩

theorem number_nines (k : ℕ) : number (List.replicate k '9') + 1 = 10 ^ k := by
  induction k with
  | zero => rfl
  | succ k ih =>
    rw [List.replicate_succ, number, pow_succ, List.length_replicate]
    have : digitChars.idxOf '9' = 9 := by decide
    rw [this]
    omega

theorem maxLit_valid (c : Cfg) : (maxLit c).Valid ∧ (maxLit c).Small := by
  refine ⟨⟨by show IsDigits ['9']; decide, ?_, by simp [maxLit], ?_⟩, ⟨?_, ?_⟩⟩
  · intro ch h
    rw [List.eq_of_mem_replicate h]
    decide
  · intro up sg d h
    simp only [maxLit, Option.some.injEq, Prod.mk.injEq] at h
    obtain ⟨_, _, rfl⟩ := h
    exact ⟨by decide, by decide⟩
  · have := elems_le c
    have h2 : c.maxDigits10 ≤ 8 * c.elems := by unfold Cfg.elems; omega
    simp only [Lit.text, maxLit, signText, List.length_append, List.length_cons, List.length_nil, List.length_replicate]
    have : "2147483616".toList.length = 10 := by decide
    omega
  · show |((number "2147483616".toList : ℕ) : ℤ)| < _
    have : number "2147483616".toList = 2147483616 := by decide +kernel
    rw [this]
    norm_num

theorem lv_nines (k : ℕ) : lv (List.replicate k (mask - 1)) + 1 = 100000000 ^ k := by
  induction k with
  | zero => rfl
  | succ k ih =>
    rw [List.replicate_succ, lv_cons, List.length_replicate, pow_succ]
    have : mask - 1 = 99999999 := rfl
    rw [this]
    rw [this] at ih
    omega

theorem lv_valueMax (c : Cfg) : lv (valueMax c).data + 10 ^ (8 * (c.elems - 1) - c.maxDigits10) = 10 ^ (8 * (c.elems - 1) + 1) := by
  have hdata : (valueMax c).data = (9 :: (List.replicate (c.maxDigits10 / 8) (mask - 1) ++
    (if c.maxDigits10 % 8 ≠ 0 then [(10 ^ (c.maxDigits10 % 8) - 1) * 10 ^ (8 - c.maxDigits10 % 8)] else []))) ++ List.replicate 2 0 := by
    unfold valueMax mkLimbs
    simp only
    rw [List.take_of_length_le]
    · congr 2
      unfold Cfg.elems
      split <;> simp
    · unfold Cfg.elems
      split <;> simp
  rw [hdata, lv_append, lv_replicate, List.length_replicate, lv_cons, lv_append]
  unfold Cfg.elems
  have h8 := Nat.div_add_mod c.maxDigits10 8
  have hr := Nat.mod_lt c.maxDigits10 (show 0 < 8 by norm_num)
  have hn := lv_nines (c.maxDigits10 / 8)
  generalize c.maxDigits10 / 8 = k at *
  generalize c.maxDigits10 % 8 = r at *
  rw [← h8]
  have e1 : (100000000 : ℕ) ^ k = 10 ^ (8 * k) := by rw [pow_mul]; norm_num
  by_cases h0 : r = 0
  · subst h0
    simp only [ne_eq, not_true_eq_false, if_false, List.append_nil, List.length_replicate, List.length_nil, pow_zero, lv_nil]
    rw [show 8 * (k + 0 + 3 - 1) - (8 * k + 0) = 16 by omega, show 8 * (k + 0 + 3 - 1) + 1 = 8 * k + 17 by omega, pow_add, e1]
    rw [e1] at hn
    generalize (10 : ℕ) ^ (8 * k) = P at *
    norm_num
    omega
  · simp only [ne_eq, h0, not_false_eq_true, if_true, List.length_append, List.length_replicate, List.length_cons, List.length_nil]
    rw [show 8 * (k + 1 + 3 - 1) - (8 * k + r) = (8 - r) + 16 by omega, show 8 * (k + 1 + 3 - 1) + 1 = 8 * k + 25 by omega, pow_add _ (8 * k), pow_succ, e1]
    rw [e1] at hn
    generalize (10 : ℕ) ^ (8 * k) = P at *
    generalize hL : lv (List.replicate k (mask - 1)) = L at *
    subst hn
    simp only [lv_cons, lv_nil, List.length_nil]
    interval_cases r <;> first | exact absurd rfl h0 | (norm_num; ring)

/-- Digits and exponent found by the reader are those of the object with the same value. -/
theorem build_unique {c : Cfg} {M E : ℤ} {l d : List ℕ} {q : ℚ} (hM : (8 : ℤ) ∣ M) (hE : (8 : ℤ) ∣ E) (hl : l.length = c.elems)
    (hd : d.length = c.elems) (ol : OK l) (od : OK d) (h0 : d.headD 0 ≠ 0)
    (hq : q = (lv d : ℚ) * (10 : ℚ) ^ (M - 8 * ((c.elems : ℤ) - 1)))
    (hv : (lv l : ℤ) = ⌊q / (10 : ℚ) ^ (E - 8 * ((c.elems : ℤ) - 1))⌋) (h1 : (10 : ℚ) ^ E ≤ q) (h2 : q < (10 : ℚ) ^ (E + 8)) :
    E = M ∧ l = d := by
  have hN := elems_ge c
  have w : FinWF c ⟨d, M, false, .finite, c.elems⟩ :=
    ⟨⟨hd, fun a ha => od a ha, hM, by show 2 ≤ c.elems; omega, le_refl _, fun _ h => absurd h h0⟩, rfl⟩
  have hm : mag ⟨d, M, false, .finite, c.elems⟩ = q := by rw [mag_eq w.toWF, hq]; rfl
  have g1 := mag_ge w.toWF h0
  have g2 := mag_lt w.toWF
  rw [hm] at g1 g2
  have c1 := pow_cmp g1 h2
  have c2 := pow_cmp h1 g2
  simp only at c1 c2
  have he : E = M := by omega
  refine ⟨he, lv_inj (by rw [hl, hd]) ol od ?_⟩
  rw [hq, he, mul_div_assoc, div_self (by positivity), mul_one] at hv
  have : ⌊(lv d : ℚ)⌋ = (lv d : ℤ) := by exact_mod_cast Int.floor_natCast (R := ℚ) (lv d)
  rw [this] at hv
  exact_mod_cast hv

theorem maxLit_abs (c : Cfg) (M : ℤ) : ((9 : ℚ) + (number (List.replicate c.maxDigits10 '9') : ℚ) / (10 : ℚ) ^ c.maxDigits10) * (10 : ℚ) ^ M =
    (lv (valueMax c).data : ℚ) * (10 : ℚ) ^ (M - 8 * ((c.elems : ℤ) - 1)) := by
  have h1 : (number (List.replicate c.maxDigits10 '9') : ℚ) = (10 : ℚ) ^ c.maxDigits10 - 1 := by
    have := number_nines c.maxDigits10
    rw [eq_sub_iff_add_eq]
    exact_mod_cast this
  have hN := elems_ge c
  have hle : c.maxDigits10 ≤ 8 * (c.elems - 1) := by unfold Cfg.elems; split <;> omega
  have h2 : (lv (valueMax c).data : ℚ) = (10 : ℚ) ^ (8 * (c.elems - 1) + 1) - (10 : ℚ) ^ (8 * (c.elems - 1) - c.maxDigits10) := by
    have := lv_valueMax c
    rw [eq_sub_iff_add_eq]
    exact_mod_cast this
  rw [h1, h2]
  have e1 : M - 8 * ((c.elems : ℤ) - 1) = M - ((8 * (c.elems - 1) : ℕ) : ℤ) := by
    push_cast [Nat.cast_sub (show 1 ≤ c.elems by omega)]; ring
  rw [e1]
  generalize 8 * (c.elems - 1) = D at *
  obtain ⟨k, rfl⟩ : ∃ k, D = c.maxDigits10 + k := ⟨D - c.maxDigits10, by omega⟩
  rw [show c.maxDigits10 + k - c.maxDigits10 = k by omega, zpow_sub₀ (by norm_num), zpow_natCast]
  have p1 : (10 : ℚ) ^ c.maxDigits10 ≠ 0 := by positivity
  have p2 : (10 : ℚ) ^ k ≠ 0 := by positivity
  rw [pow_succ, pow_add]
  field_simp
  ring

/-- The literal of the largest number is read as the object used in all range tests. -/
theorem C29_max_literal (c : Cfg) : ofString c (maxLit c).text = some (valueMax c) := by
  have hN := elems_ge c
  obtain ⟨hv, hs⟩ := maxLit_valid c
  have he : (maxLit c).expo = maxExp10 := by
    show ((number "2147483616".toList : ℕ) : ℤ) = _
    have : number "2147483616".toList = 2147483616 := by decide +kernel
    rw [this]; rfl
  have ha : (maxLit c).absValue = (lv (valueMax c).data : ℚ) * (10 : ℚ) ^ ((maxLit c).expo - 8 * ((c.elems : ℤ) - 1)) := by
    rw [← maxLit_abs]
    unfold Lit.absValue
    have e1 : number (maxLit c).ip = 9 := by show number ['9'] = 9; decide
    have e2 : (maxLit c).frac = List.replicate c.maxDigits10 '9' := rfl
    rw [e1, e2, List.length_replicate]
    norm_cast
  obtain ⟨w, h0⟩ := valueMax_WF c
  have hb : (maxLit c).expo.natAbs < 2 ^ 63 := by
    have := hs.exp
    rw [Int.abs_eq_natAbs] at this
    omega
  have hpos : (maxLit c).absValue ≠ 0 := by
    rw [ha]
    have : lv (valueMax c).data ≠ 0 := by
      intro h
      have := lv_eq_zero.1 h
      apply h0
      cases hd : (valueMax c).data with
      | nil => rfl
      | cons a t => exact this a (by rw [hd]; simp)
    exact mul_ne_zero (by exact_mod_cast this) (zpow_ne_zero _ (by norm_num))
  rcases rdString_spec c hv hs.len hb (old := mkDefault c) (by simp [mkDefault, zeros]) with ⟨hz, _⟩ | ⟨l, E, hr, h1, h2, h3, h4, h5, h6, h7⟩
  · exact absurd hz hpos
  · obtain ⟨g1, g2⟩ := build_unique (by rw [he]; exact max_dvd) h1 h2 w.len h3 w.limb h0 ha h5 h6 h7
    unfold ofString
    rw [hr, g1, he, if_neg (by omega), if_neg (by have := max_nonneg; omega), g2]
    have hm : valueMax c = ⟨(valueMax c).data, (valueMax c).exp, (valueMax c).neg, (valueMax c).cls, (valueMax c).prec⟩ := rfl
    rw [hm, valueMax_exp, valueMax_neg]
    rfl

end EFX.Props
