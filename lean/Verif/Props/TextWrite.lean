import Verif.Lemmas.TextWrite
import Verif.Props.Text
/-!
# C31 digits written, C32 write then read, C33 failures of the writer
-/

namespace EFX.Props
open EFX EFX.Spec

/-! ### C31 -/

/-- C31.  For one to `max_digits10 + 1` requested digits, the digit string and the exponent delivered for a finite
non-zero number denote that number rounded to so many significant digits, ties away from zero; the string has
exactly that many digits and does not begin with a zero. -/
theorem C31_digits {c : Cfg} {x : EFloat} (hx : FinWF c x) (h0 : val x ≠ 0) {n : ℕ} (hn : 1 ≤ n) (hm : n ≤ c.maxDigits10 + 1) :
    ∃ o s e, (10 : ℚ) ^ o ≤ |val x| ∧ |val x| < (10 : ℚ) ^ (o + 1) ∧
      outputString c x (order x) n = some (s, e) ∧ IsDigits s ∧ s.length = n ∧ s.head? ≠ some '0' ∧
      (number s : ℚ) * (10 : ℚ) ^ (e - ((n : ℤ) - 1)) = roundSig n o |val x| := by
  obtain ⟨s, e, h1, h2, h3, h4, h5, _⟩ := outputString_spec hx h0 hn hm
  obtain ⟨o1, o2⟩ := C27_order hx h0
  refine ⟨order x, s, e, o1, o2, h1, digits_iff.2 h2, h3, h4, ?_⟩
  rw [number_eq h2, h5]
  rfl

/-- A run of nines: 16 limbs of nines written with ten digits give `1000000000` and the next exponent. -/
example : FinWF cfg101 exNines ∧ val exNines ≠ 0 ∧
    outputString cfg101 exNines (order exNines) 10 = some ("1000000000".toList, 8) := by
  refine ⟨?_, ?_, ?_⟩ <;> decide +kernel

/-! ### C32 -/

theorem roundSig_near (n : ℕ) (o : ℤ) (q : ℚ) : |roundSig n o q - q| ≤ 1 / 2 * (10 : ℚ) ^ (o - ((n : ℤ) - 1)) := by
  have hp : (0 : ℚ) < (10 : ℚ) ^ (o - ((n : ℤ) - 1)) := by positivity
  have hq : q = (q * (10 : ℚ) ^ ((n : ℤ) - 1 - o)) * (10 : ℚ) ^ (o - ((n : ℤ) - 1)) := by
    rw [mul_assoc, ← zpow_add₀ (by norm_num)]
    simp
  unfold roundSig
  generalize hy : q * (10 : ℚ) ^ ((n : ℤ) - 1 - o) = y at *
  rw [hq, ← sub_mul, abs_mul, abs_of_pos hp]
  apply mul_le_mul_of_nonneg_right _ hp.le
  have h1 := Int.floor_le (y + 1 / 2)
  have h2 := Int.lt_floor_add_one (y + 1 / 2)
  rw [abs_le]
  constructor <;> linarith

theorem roundSig_exact {n : ℕ} {o : ℤ} {q : ℚ} (h1 : (10 : ℚ) ^ o ≤ |q|) (hd : SigDigits n q) : roundSig n o |q| = |q| := by
  obtain ⟨m, k, hm, hv⟩ := hd
  have hk : o - ((n : ℤ) - 1) ≤ k := by
    by_contra hlt
    have hlt2 : |q| < (10 : ℚ) ^ ((n : ℤ) + k) := by
      rw [hv, zpow_add₀ (by norm_num), zpow_natCast]
      apply mul_lt_mul_of_pos_right _ (by positivity)
      exact_mod_cast hm
    have := pow_cmp h1 hlt2
    omega
  have hi : |q| * (10 : ℚ) ^ ((n : ℤ) - 1 - o) = ((m * 10 ^ (k + ((n : ℤ) - 1 - o)).toNat : ℕ) : ℤ) := by
    rw [hv, mul_assoc, ← zpow_add₀ (by norm_num)]
    push_cast
    rw [← zpow_natCast, Int.toNat_of_nonneg (by omega)]
  have hf : ⌊|q| * (10 : ℚ) ^ ((n : ℤ) - 1 - o) + 1 / 2⌋ = ((m * 10 ^ (k + ((n : ℤ) - 1 - o)).toNat : ℕ) : ℤ) := by
    rw [hi, Int.floor_eq_iff]
    constructor <;> linarith
  unfold roundSig
  rw [hf, ← hi, mul_assoc, ← zpow_add₀ (by norm_num)]
  simp

/-- The literal written in scientific format. -/
def sciLit (f : Fmt) (neg : Bool) (s : Str) (e : ℤ) : Lit :=
  ⟨if neg then some true else if f.showpos then some false else none, s.take 1, some (s.drop 1),
    some (f.uppercase, some (decide (e < 0)), (expText e f.uppercase).drop 2)⟩

theorem expText_eq (e : ℤ) (u : Bool) : expText e u = (if u then 'E' else 'e') :: (signText (some (decide (e < 0))) ++ (expText e u).drop 2) := by
  unfold expText
  by_cases h : e < 0 <;> simp [h, signText]

theorem expText_digits {e : ℤ} (he : e.natAbs < 10 ^ 20) (u : Bool) : Digs ((expText e u).drop 2) ∧ (expText e u).drop 2 ≠ [] ∧
    parseNat ((expText e u).drop 2) = e.natAbs ∧ ((expText e u).drop 2).length ≤ (decStr e.natAbs).length + 2 := by
  obtain ⟨d1, d2, d3, d4⟩ := decStr_spec he
  have hd : (expText e u).drop 2 = List.replicate (if (decStr e.natAbs).length % 3 ≠ 0 then 3 - (decStr e.natAbs).length % 3 else 0) '0' ++ decStr e.natAbs := by
    unfold expText; simp
  rw [hd]
  refine ⟨(Digs.zeros _).append d1, by simp [d3], ?_, ?_⟩
  · rw [parseNat_append, parseNat_zeros, d2]; simp
  · rw [List.length_append, List.length_replicate]
    split <;> omega

theorem sciLit_valid {f : Fmt} {neg : Bool} {s : Str} {e : ℤ} (hs : Digs s) (h0 : s ≠ []) (he : e.natAbs < 10 ^ 20) :
    (sciLit f neg s e).Valid ∧ (sciLit f neg s e).expo = e ∧ (sciLit f neg s e).absValue = (parseNat s : ℚ) * (10 : ℚ) ^ (e - ((s.length : ℤ) - 1)) := by
  obtain ⟨x1, x2, x3, x4⟩ := expText_digits he f.uppercase
  have hv : (sciLit f neg s e).Valid := by
    refine ⟨digits_iff.2 (hs.take 1), digits_iff.2 (hs.drop 1), ?_, ?_⟩
    · show s.take 1 ++ s.drop 1 ≠ []
      rw [List.take_append_drop]; exact h0
    · intro up sg d h
      simp only [sciLit, Option.some.injEq, Prod.mk.injEq] at h
      obtain ⟨_, _, rfl⟩ := h
      exact ⟨digits_iff.2 x1, x2⟩
  have hex : (sciLit f neg s e).expo = e := by
    rw [expo_eq hv (up := f.uppercase) (sg := some (decide (e < 0))) (d := (expText e f.uppercase).drop 2) rfl, x3]
    by_cases h : e < 0
    · rw [decide_eq_true h, if_pos rfl]; omega
    · rw [decide_eq_false h, if_neg (by simp)]; omega
  refine ⟨hv, hex, ?_⟩
  rw [absValue_eq hv, hex]
  have e1 : (sciLit f neg s e).ip ++ (sciLit f neg s e).frac = s := List.take_append_drop 1 s
  have e2 : (sciLit f neg s e).frac.length = s.length - 1 := List.length_drop
  have e3 : 1 ≤ s.length := List.length_pos_iff.2 h0
  rw [e1, e2, Nat.cast_sub e3]
  rfl

theorem wrScientific_eq {f : Fmt} {s : Str} {e : ℤ} {p : ℕ} (hs : Digs s) (hl : s.length = p + 1) (hp : 1 ≤ p) (neg : Bool) (hw : f.width ≤ 0) :
    (wrScientific s e p f.showpoint f.uppercase false).map (wrField f neg) = some (sciLit f neg s e).text := by
  obtain ⟨a, b, t, rfl⟩ : ∃ a b t, s = a :: b :: t := by
    match s, hl with
    | a :: b :: t, _ => exact ⟨a, b, t, rfl⟩
    | [a], h => simp at h; omega
    | [], h => simp at h
  have h1 : wrFinish (a :: '.' :: b :: t) p f.showpoint false = some (a :: '.' :: b :: t) := by
    unfold wrFinish
    simp only [Bool.false_eq_true, if_false]
    split
    · rfl
    · have : (a :: '.' :: b :: t).getLast? = (b :: t).getLast? := by simp
      rw [this]
      obtain ⟨ch, hch⟩ : ∃ ch, (b :: t).getLast? = some ch := ⟨_, List.getLast?_eq_getLast_of_ne_nil (by simp)⟩
      rw [hch]
      simp only
      have hm : ch ∈ b :: t := List.mem_of_getLast? hch
      have : ch ≠ '.' := by
        rintro rfl
        exact (hs.drop 1).no_dot hm
      rw [if_neg this]
  have h2 : wrScientific (a :: b :: t) e p f.showpoint f.uppercase false = some (a :: '.' :: b :: t ++ expText e f.uppercase) := by
    unfold wrScientific
    rw [if_neg (by simp at hl ⊢; omega)]
    have : strInsert 1 '.' (a :: b :: t) = some (a :: '.' :: b :: t) := by
      unfold strInsert; simp
    simp only [this, Option.bind_eq_bind, Option.bind_some, h1]
    rfl
  rw [h2]
  simp only [Option.map_some, Option.some.injEq]
  have hw2 : f.width.toNat = 0 := by omega
  unfold wrField
  simp only [hw2]
  rw [if_neg (by simp)]
  unfold Lit.text sciLit
  simp only [List.take_succ_cons, List.take_zero, List.drop_succ_cons, List.drop_zero]
  conv_lhs => rw [expText_eq]
  cases neg <;> cases f.showpos <;> simp [signText]

theorem valueMax_lt (c : Cfg) (M : ℤ) (hM : (valueMax c).exp = M) : val (valueMax c) < (10 : ℚ) ^ (M + 1) := by
  have hN := elems_ge c
  rw [valueMax_val, mag_eq (valueMax_WF c).1.toWF]
  unfold ulp
  rw [hM]
  have h := lv_valueMax c
  have hlt : lv (valueMax c).data < 10 ^ (8 * (c.elems - 1) + 1) := by
    have : 0 < 10 ^ (8 * (c.elems - 1) - c.maxDigits10) := by positivity
    omega
  calc (lv (valueMax c).data : ℚ) * (10 : ℚ) ^ (M - 8 * ((c.elems : ℤ) - 1))
      < ((10 ^ (8 * (c.elems - 1) + 1) : ℕ) : ℚ) * (10 : ℚ) ^ (M - 8 * ((c.elems : ℤ) - 1)) := by
        apply mul_lt_mul_of_pos_right _ (by positivity)
        exact_mod_cast hlt
    _ = _ := by
        push_cast
        rw [← zpow_natCast, ← zpow_add₀ (by norm_num)]
        congr 1
        push_cast [Nat.cast_sub (show 1 ≤ c.elems by omega)]
        ring

/-- Writing in scientific format with the digits that the format can hold. -/
theorem wrSci_spec {c : Cfg} {x : EFloat} (hx : FinWF c x) (h0 : val x ≠ 0) {f : Fmt} (hs : f.scientific = true) (hw : f.width ≤ 0)
    (hp : f.p ≤ c.maxDigits10) :
    ∃ s e, wrString c x f = some (sciLit f x.neg s e).text ∧ Digs s ∧ s.length = f.p + 1 ∧
      (parseNat s : ℚ) * (10 : ℚ) ^ (e - (f.p : ℤ)) = roundSig (f.p + 1) (order x) |val x| ∧
      (e = order x ∨ (e = order x + 1 ∧ s = '1' :: List.replicate f.p '0')) := by
  have hp1 : 1 ≤ f.p := by unfold Fmt.p; split <;> omega
  obtain ⟨s, e, h1, h2, h3, h4, h5, h6⟩ := outputString_spec hx h0 (n := f.p + 1) (by omega) (by omega)
  refine ⟨s, e, ?_, h2, h3, ?_, ?_⟩
  · unfold wrString
    have hfin : x.isfinite = true := by simp [EFloat.isfinite, hx.fin]
    rw [hfin]
    simp only [Bool.not_true, Bool.false_eq_true, if_false]
    have hu : useScientific c f (order x) = true := by unfold useScientific; rw [if_pos hs]
    have hn : wantedDigits c f (order x) = f.p + 1 := by
      unfold wantedDigits
      simp only [hu, if_true, hs, Bool.not_true, Bool.false_and, Bool.false_eq_true, if_false]
      omega
    rw [hn, h1]
    simp only [Option.bind_eq_bind, Option.bind_some, hu, if_true, hs, Bool.not_true, Bool.false_and]
    have := wrScientific_eq (e := e) h2 h3 hp1 x.neg hw
    rw [← this]
    cases wrScientific s e f.p f.showpoint f.uppercase false <;> rfl
  · unfold roundSig
    rw [show e - (f.p : ℤ) = e - (((f.p + 1 : ℕ) : ℤ) - 1) by push_cast; ring]
    exact h5
  · simpa using h6

theorem roundSig_ge {n : ℕ} {o : ℤ} {q : ℚ} (h : (10 : ℚ) ^ o ≤ q) (hn : 1 ≤ n) : (10 : ℚ) ^ o ≤ roundSig n o q := by
  have hp : (0 : ℚ) < (10 : ℚ) ^ (o - ((n : ℤ) - 1)) := by positivity
  have h1 : (10 : ℚ) ^ (n - 1) ≤ q * (10 : ℚ) ^ ((n : ℤ) - 1 - o) := by
    have : (10 : ℚ) ^ (n - 1) = (10 : ℚ) ^ o * (10 : ℚ) ^ ((n : ℤ) - 1 - o) := by
      rw [← zpow_add₀ (by norm_num), ← zpow_natCast, Nat.cast_sub hn]
      congr 1; push_cast; ring
    rw [this]
    exact mul_le_mul_of_nonneg_right h (by positivity)
  have h2 : ((10 ^ (n - 1) : ℕ) : ℤ) ≤ ⌊q * (10 : ℚ) ^ ((n : ℤ) - 1 - o) + 1 / 2⌋ := by
    rw [Int.le_floor]
    push_cast
    linarith
  have h3 : ((10 ^ (n - 1) : ℕ) : ℚ) ≤ (⌊q * (10 : ℚ) ^ ((n : ℤ) - 1 - o) + 1 / 2⌋ : ℤ) := by exact_mod_cast h2
  unfold roundSig
  calc (10 : ℚ) ^ o = ((10 ^ (n - 1) : ℕ) : ℚ) * (10 : ℚ) ^ (o - ((n : ℤ) - 1)) := by
        push_cast
        rw [← zpow_natCast, ← zpow_add₀ (by norm_num), Nat.cast_sub hn]
        congr 1; push_cast; ring
    _ ≤ _ := mul_le_mul_of_nonneg_right h3 hp.le

/-- Reading back what was written; `M` stands for the largest exponent. -/
theorem readBack {c : Cfg} {M o e : ℤ} {p : ℕ} {q v : ℚ} {s : Str} {r : EFloat} (hr : ReadSpec c M v r)
    (hs : Digs s) (hl : s.length = p + 1) (hp : p ≤ c.maxDigits10) (hv : |v| = (parseNat s : ℚ) * (10 : ℚ) ^ (e - (p : ℤ)))
    (hq : |v| = roundSig (p + 1) o q) (o1 : (10 : ℚ) ^ o ≤ q) (o2 : q < (10 : ℚ) ^ (o + 1)) (he : e ≤ o + 1)
    (r1 : (10 : ℚ) ^ (-M) ≤ q) (r2 : q < (10 : ℚ) ^ (M + 1)) : r.cls = .finite ∧ val r = v := by
  have oM := pow_cmp o1 r2
  have oM2 := pow_cmp r1 o2
  have hlt : parseNat s < 10 ^ (p + 1) := by have := parseNat_lt hs; rwa [hl] at this
  have u : |v| < (10 : ℚ) ^ (M + 8) := by
    calc |v| < ((10 ^ (p + 1) : ℕ) : ℚ) * (10 : ℚ) ^ (e - (p : ℤ)) := by
          rw [hv]
          apply mul_lt_mul_of_pos_right _ (by positivity)
          exact_mod_cast hlt
      _ = (10 : ℚ) ^ (e + 1) := by
          push_cast; rw [← zpow_natCast, ← zpow_add₀ (by norm_num)]; congr 1; push_cast; ring
      _ ≤ _ := zpow_le_zpow_right₀ (by norm_num) (by omega)
  have l : (10 : ℚ) ^ (-M) ≤ |v| := by
    rw [hq]
    exact le_trans (zpow_le_zpow_right₀ (by norm_num) (by omega)) (roundSig_ge o1 (by omega))
  obtain ⟨t1, t2, t3⟩ := hr.trunc l u
  refine ⟨t1.fin.fin, trunc_exact t1 t2 t3 ⟨parseNat s, e - p, lt_of_lt_of_le hlt (Nat.pow_le_pow_right (by norm_num) ?_), hv⟩⟩
  have : c.maxDigits10 + 16 ≤ 8 * (c.elems - 1) := by unfold Cfg.elems; split <;> omega
  omega

theorem sciLit_small {f : Fmt} {neg : Bool} {s : Str} {e : ℤ} {c : Cfg} (hs : Digs s) (hl : s.length ≤ c.maxDigits10 + 1) (h0 : s ≠ [])
    (he : e.natAbs < 4611686018427387904) : (sciLit f neg s e).Small := by
  have he2 : e.natAbs < 10 ^ 20 := by norm_num; omega
  obtain ⟨hv, hx, _⟩ := sciLit_valid (f := f) (neg := neg) hs h0 he2
  refine ⟨?_, by rw [hx, Int.abs_eq_natAbs]; exact_mod_cast he⟩
  obtain ⟨x1, x2, x3, x4⟩ := expText_digits he2 f.uppercase
  have hdl : (decStr e.natAbs).length ≤ 20 := by
    by_cases hz : e.natAbs = 0
    · rw [hz]; decide
    · have h1 := (decStr_len he2 hz).1
      have := (Nat.pow_lt_pow_iff_right (a := 10) (by norm_num)).1 (lt_of_le_of_lt h1 he2)
      omega
  have hN := elems_le c
  have hm : c.maxDigits10 + 16 ≤ 8 * (c.elems - 1) := by unfold Cfg.elems; split <;> omega
  have sg : ∀ g : Option Bool, (signText g).length ≤ 1 := by intro g; rcases g with _ | _ | _ <;> decide
  have tl : (sciLit f neg s e).text.length = (signText (sciLit f neg s e).sign).length + (s.take 1).length + ((s.drop 1).length + 1) +
      (((signText (some (decide (e < 0)))).length + ((expText e f.uppercase).drop 2).length) + 1) := by
    simp only [Lit.text, sciLit, List.length_append, List.length_cons]
  rw [tl]
  have g1 := sg (sciLit f neg s e).sign
  have g2 := sg (some (decide (e < 0)))
  have g3 : (s.take 1).length + (s.drop 1).length = s.length := by rw [← List.length_append, List.take_append_drop]
  omega

theorem zero_of_val {c : Cfg} {x : EFloat} (hx : FinWF c x) (h0 : val x = 0) : x.front = 0 ∧ x.neg = false := by
  have hfr : x.front = 0 := by
    by_contra h
    have := mag_pos hx.toWF h
    rw [← abs_val, h0] at this; simp at this
  exact ⟨hfr, (hx.norm hx.fin hfr).2⟩

theorem wrSci_zero {c : Cfg} {x : EFloat} (hx : FinWF c x) (h0 : val x = 0) {f : Fmt} (hs : f.scientific = true) (hw : f.width ≤ 0)
    (hp : f.p ≤ c.maxDigits10) : wrString c x f = some (sciLit f x.neg (List.replicate (f.p + 1) '0') 0).text := by
  have hp1 : 1 ≤ f.p := by unfold Fmt.p; split <;> omega
  obtain ⟨ho, h1⟩ := outputString_zero hx h0 (n := f.p + 1) (by omega)
  unfold wrString
  have hfin : x.isfinite = true := by simp [EFloat.isfinite, hx.fin]
  rw [hfin]
  simp only [Bool.not_true, Bool.false_eq_true, if_false]
  have hu : useScientific c f (order x) = true := by unfold useScientific; rw [if_pos hs]
  have hn : wantedDigits c f (order x) = f.p + 1 := by
    unfold wantedDigits
    simp only [hu, if_true, hs, Bool.not_true, Bool.false_and, Bool.false_eq_true, if_false]
    omega
  rw [hn, h1]
  simp only [Option.bind_eq_bind, Option.bind_some, hu, if_true, hs, Bool.not_true, Bool.false_and]
  have := wrScientific_eq (e := 0) (f := f) (Digs.zeros (f.p + 1)) (p := f.p) (by simp) hp1 x.neg hw
  rw [← this]
  cases wrScientific (List.replicate (f.p + 1) '0') 0 f.p f.showpoint f.uppercase false <;> rfl

/-- C32.  A finite number of the documented range (zero, or from `10^min_exp10` to the largest number) written in
scientific format without padding, with a precision `p` up to `max_digits10`, is read back as a finite number that
differs by at most half a unit of the last written digit, and as the number itself if it has at most `p + 1`
significant digits.  All other format flags are free.

Missing: precisions beyond `max_digits10`, where the writer fills up with zeros instead of digits
(`C32_precision_refuted`). -/
theorem C32_roundtrip_partial {c : Cfg} {x : EFloat} (hx : FinWF c x) {f : Fmt} (hs : f.scientific = true) (hw : f.width ≤ 0)
    (hp : f.p ≤ c.maxDigits10) (hr : val x = 0 ∨ ((10 : ℚ) ^ minExp10 ≤ |val x| ∧ |val x| ≤ val (valueMax c))) :
    ∃ txt r, wrString c x f = some txt ∧ ofString c txt = some r ∧ r.cls = .finite ∧
      (∀ o : ℤ, (10 : ℚ) ^ o ≤ |val x| → |val x| < (10 : ℚ) ^ (o + 1) → |val r - val x| ≤ 1 / 2 * (10 : ℚ) ^ (o - (f.p : ℤ))) ∧
      (SigDigits (f.p + 1) (val x) → val r = val x) := by
  have hN := elems_ge c
  have hmax : maxExp10 = 2147483616 := rfl
  by_cases h0 : val x = 0
  · have hd := Digs.zeros (f.p + 1)
    have hne : List.replicate (f.p + 1) '0' ≠ [] := by simp
    obtain ⟨v1, v2, v3⟩ := sciLit_valid (f := f) (neg := x.neg) (e := 0) hd hne (by norm_num)
    have vs := sciLit_small (f := f) (neg := x.neg) (e := 0) (c := c) hd (by simpa using hp) hne (by norm_num)
    obtain ⟨r, r1, r2⟩ := read_spec (c := c) v1 vs (old := mkDefault c) (by simp [mkDefault, zeros]) rfl ⟨by simp only [mkDefault]; omega, le_refl _⟩
    have hz : (sciLit f x.neg (List.replicate (f.p + 1) '0') 0).value = 0 := by
      unfold Lit.value; rw [v3, parseNat_zeros]; simp
    have hden := r2.small (by rw [hz, abs_zero]; positivity)
    have hc : r.cls = .finite := by
      unfold denote at hden
      cases h : r.cls <;> rw [h] at hden <;> simp at hden
    have hval : val r = val x := by
      unfold denote at hden
      rw [hc] at hden
      simp only [Ext.fin.injEq] at hden
      rw [hden, h0]
    refine ⟨_, r, wrSci_zero hx h0 hs hw hp, r1, hc, ?_, fun _ => hval⟩
    intro o _ _
    rw [hval, sub_self, abs_zero]
    positivity
  · obtain ⟨m1, m2⟩ := hr.resolve_left h0
    obtain ⟨s, e, w1, w2, w3, w4, w5⟩ := wrSci_spec hx h0 hs hw hp
    have hne : s ≠ [] := by intro h; rw [h] at w3; simp at w3
    obtain ⟨o1, o2⟩ := C27_order hx h0
    have mlt := lt_of_le_of_lt m2 (valueMax_lt c _ (valueMax_exp c))
    clear m2
    have oM := pow_cmp o1 mlt
    have oM2 := pow_cmp m1 o2
    have hmin : minExp10 = -maxExp10 := rfl
    have he1 : e ≤ order x + 1 := by omega
    have he : e.natAbs < 4611686018427387904 := by
      clear m1 mlt
      omega
    obtain ⟨v1, v2, v3⟩ := sciLit_valid (f := f) (neg := x.neg) (e := e) w2 hne (by norm_num; omega)
    have vs := sciLit_small (f := f) (neg := x.neg) (e := e) (c := c) w2 (by omega) hne he
    obtain ⟨r, r1, r2⟩ := read_spec (c := c) v1 vs (old := mkDefault c) (by simp [mkDefault, zeros]) rfl ⟨by simp only [mkDefault]; omega, le_refl _⟩
    have hva : (sciLit f x.neg s e).value = if x.neg then -roundSig (f.p + 1) (order x) |val x| else roundSig (f.p + 1) (order x) |val x| := by
      unfold Lit.value
      rw [v3, w3, show e - (((f.p + 1 : ℕ) : ℤ) - 1) = e - (f.p : ℤ) by push_cast; ring, w4]
      cases hneg : x.neg
      · have : (sciLit f false s e).sign ≠ some true := by simp only [sciLit, Bool.false_eq_true, if_false]; split <;> simp
        rw [if_neg this]; simp
      · have : (sciLit f true s e).sign = some true := by simp [sciLit]
        rw [if_pos this]; simp
    have hge : 0 < roundSig (f.p + 1) (order x) |val x| := lt_of_lt_of_le (by positivity) (roundSig_ge o1 (by omega))
    have hab : |(sciLit f x.neg s e).value| = roundSig (f.p + 1) (order x) |val x| := by
      rw [hva]
      cases x.neg
      · simp [abs_of_pos hge]
      · simp [abs_of_pos hge]
    obtain ⟨f1, f2⟩ := readBack r2 w2 w3 hp (by rw [hab, w4]) hab o1 o2 he1 m1 mlt
    have hvx : val x = if x.neg then -|val x| else |val x| := by
      rw [abs_val]; rfl
    have hdiff : val r - val x = if x.neg then -(roundSig (f.p + 1) (order x) |val x| - |val x|) else roundSig (f.p + 1) (order x) |val x| - |val x| := by
      rw [f2, hva]
      conv_lhs => rhs; rw [hvx]
      cases x.neg
      · simp
      · simp; ring
    have habs : |val r - val x| = abs (roundSig (f.p + 1) (order x) |val x| - |val x|) := by
      rw [hdiff]
      cases x.neg
      · simp
      · simp only [if_true]; rw [abs_neg]
    refine ⟨_, r, w1, r1, f1, ?_, ?_⟩
    · intro o g1 g2
      have a1 := pow_cmp g1 o2
      have a2 := pow_cmp o1 g2
      have : o = order x := by omega
      rw [this, habs]
      have := roundSig_near (f.p + 1) (order x) |val x|
      rw [show order x - (f.p : ℤ) = order x - (((f.p + 1 : ℕ) : ℤ) - 1) by push_cast; ring]
      exact this
    · intro hd
      have := roundSig_exact o1 hd
      rw [this, sub_self, abs_zero] at habs
      exact sub_eq_zero.1 (abs_eq_zero.1 habs)

/-- Scientific format with precision `p`, no other flag. -/
def sciFmt (p : ℤ) : Fmt := ⟨false, false, false, true, false, false, p, 0, ' '⟩

/-- 12345678.9 written with 20 digits is read back exactly, 128 nines are rounded to ten million. -/
example : FinWF cfg101 exA ∧ FinWF cfg101 exNines ∧ (sciFmt 20).p ≤ cfg101.maxDigits10 ∧ (sciFmt 20).width ≤ 0 ∧
    (wrString cfg101 exA (sciFmt 20)).bind (ofString cfg101) = some exA ∧
    wrString cfg101 exNines (sciFmt 20) = some "1.00000000000000000000e+008".toList := by
  refine ⟨exA_fin, ?_, ?_, ?_, ?_, ?_⟩ <;> decide +kernel

/-- `1 + 44e-104`, with 105 significant digits. -/
def exLong : EFloat := mkLimbs cfg101 [1, 0, 0, 0, 0, 0, 0, 0, 0, 0, 0, 0, 0, 44] 0 false

/-- C32 refuted for precisions beyond `max_digits10` (here 102): `1 + 44e-104` written with 120 digits is read back as
one, although it has fewer than 121 significant digits, and the error exceeds half a unit of the last written digit. -/
theorem C32_precision_refuted : FinWF cfg101 exLong ∧ SigDigits 121 (val exLong) ∧
    ∃ txt, wrString cfg101 exLong (sciFmt 120) = some txt ∧ txt.length = 127 ∧
    ∃ r, ofString cfg101 txt = some r ∧ r.cls = .finite ∧ (10 : ℚ) ^ (0 : ℤ) ≤ |val exLong| ∧ |val exLong| < (10 : ℚ) ^ (0 + 1 : ℤ) ∧
      val r ≠ val exLong ∧ 1 / 2 * (10 : ℚ) ^ (0 - 120 : ℤ) < |val r - val exLong| := by
  have hv : val exLong = 1 + 44 / 10 ^ 104 := by
    have : exLong = ⟨[1, 0, 0, 0, 0, 0, 0, 0, 0, 0, 0, 0, 0, 44, 0, 0], 0, false, .finite, 16⟩ := by decide +kernel
    rw [this]
    simp only [val, mag, digitsValue]
    norm_num
  refine ⟨by decide +kernel, ⟨10 ^ 104 + 44, -104, by norm_num, ?_⟩, '1' :: '.' :: (List.replicate 120 '0' ++ "e+000".toList), by decide +kernel, by decide +kernel,
    one cfg101, by decide +kernel, by decide, ?_, ?_, ?_, ?_⟩
  · rw [hv]; norm_num
  · rw [hv]; norm_num
  · rw [hv]; norm_num
  · rw [hv, val_one]; norm_num
  · rw [hv, val_one]; norm_num

end EFX.Props
