import Verif.Lemmas.MulExact
import Verif.Lemmas.SmallInt
import Verif.Lemmas.Concrete
/-! Integer construction, integer and decimal part, integer extraction. -/

namespace EFX
open Spec

theorem zeroFrom_take_append {l : List Nat} {n : Nat} (h : l.length ≤ n) :
    l.take n ++ List.replicate (n - l.length) 0 = l ++ List.replicate (n - l.length) 0 := by
  rw [List.take_of_length_le h]

/-! ### construction -/

theorem ullDigits_spec (f u : Nat) (h : u < 100000000 ^ f) :
    (ullDigits f u).length ≤ f ∧ OK (ullDigits f u) ∧ lv (ullDigits f u).reverse = u ∧
    (u ≠ 0 → (ullDigits f u).reverse.headD 0 ≠ 0) ∧ (u = 0 → ullDigits f u = []) := by
  induction f generalizing u with
  | zero =>
    have : u = 0 := by simpa using h
    subst this
    simp [ullDigits, OK.nil]
  | succ f ih =>
    rw [ullDigits]
    by_cases h0 : u = 0
    · rw [if_pos h0]; subst h0; simp [OK.nil]
    · rw [if_neg h0, maskN]
      have hq : u / 100000000 < 100000000 ^ f := by
        apply Nat.div_lt_of_lt_mul; rw [pow_succ] at h; rw [Nat.mul_comm]; exact h
      obtain ⟨i1, i2, i3, i4, i5⟩ := ih _ hq
      have hw : w32 (u % 100000000) = u % 100000000 := w32_id (by omega)
      rw [hw]
      refine ⟨by simp; omega, OK.cons (by omega) i2, ?_, ?_, fun h => absurd h h0⟩
      · rw [List.reverse_cons, lv_append, i3]; simp [lv_cons]; omega
      · intro _
        rw [List.reverse_cons]
        by_cases hq0 : u / 100000000 = 0
        · rw [i5 hq0]; simp; omega
        · have := i4 hq0
          cases hr : (ullDigits f (u / 100000000)).reverse with
          | nil => rw [hr] at this; simp at this
          | cons a l => rw [hr] at this; simpa using this

theorem lt3 {u : Nat} (h : u < 18446744073709551616) : u < 100000000 ^ 3 := by norm_num; omega

theorem ullDigits_le3 {u : Nat} (h : u < 18446744073709551616) : (ullDigits 5 u).length ≤ 3 := by
  have key : ∀ f k u, u < 100000000 ^ k → (ullDigits f u).length ≤ k := by
    intro f
    induction f with
    | zero => intro k u _; simp [ullDigits]
    | succ f ih =>
      intro k u hu
      rw [ullDigits]
      by_cases h0 : u = 0
      · rw [if_pos h0]; simp
      · rw [if_neg h0, maskN]
        cases k with
        | zero => simp at hu; exact absurd hu h0
        | succ k =>
          have := ih k (u / 100000000) (by
            apply Nat.div_lt_of_lt_mul; rw [pow_succ] at hu; rw [Nat.mul_comm]; exact hu)
          simp; omega
  exact key 5 3 u (lt3 h)

/-- Everything about `from_unsigned_long_long`. -/
theorem fromULL_spec (c : Cfg) (b : Bool) (u : Nat) (h : u < 18446744073709551616) (hb : u = 0 → b = false) :
    FinWF c (fromULL c b u) ∧ mag (fromULL c b u) = u ∧ ZeroFrom 3 (fromULL c b u).data ∧
    (fromULL c b u).neg = b ∧ (fromULL c b u).prec = c.elems ∧
    0 ≤ (fromULL c b u).exp ∧ (fromULL c b u).exp ≤ 16 := by
  obtain ⟨i1, i2, i3, i4, i5⟩ := ullDigits_spec 5 u (lt_of_lt_of_le (lt3 h) (by norm_num))
  have i6 := ullDigits_le3 h
  have h7 := elems_ge c
  have hd : (fromULL c b u).data = (ullDigits 5 u).reverse ++ List.replicate (c.elems - (ullDigits 5 u).length) 0 := by
    unfold fromULL
    simp only
    rw [List.take_of_length_le (by simp; omega)]
  have hz : ZeroFrom (ullDigits 5 u).length (fromULL c b u).data := by
    rw [hd]
    have := zeroFrom_replicate (ullDigits 5 u).reverse (c.elems - (ullDigits 5 u).length)
    rwa [List.length_reverse] at this
  have he : (fromULL c b u).exp = if (ullDigits 5 u).length > 1 then (((ullDigits 5 u).length : Int) - 1) * 8 else 0 := rfl
  have hok : OK (fromULL c b u).data := by
    rw [hd]
    refine OK.append ?_ (OK.replicate _)
    intro d hd; exact i2 d (List.mem_reverse.1 hd)
  have hwf : FinWF c (fromULL c b u) := by
    refine ⟨⟨by rw [hd]; simp; omega, hok, ?_, ?_, ?_, ?_⟩, rfl⟩
    · rw [he]; split
      · exact Dvd.intro_left _ rfl
      · exact dvd_zero _
    · show 2 ≤ c.elems; omega
    · exact le_refl _
    · intro _ h0
      by_cases hu : u = 0
      · refine ⟨?_, hb hu⟩
        rw [hd, i5 hu]
        intro d hd
        simp at hd; exact hd.2
      · exfalso
        have := i4 hu
        apply this
        rw [hd] at h0
        cases hr : (ullDigits 5 u).reverse with
        | nil => rfl
        | cons a l => rw [hr] at h0; simpa using h0
  refine ⟨hwf, ?_, fun i hi => hz i (by omega), rfl, rfl, ?_, ?_⟩
  · rw [mag_zeroFrom hwf.toWF (p := (ullDigits 5 u).length) (by omega) hz, hd,
      List.take_left' (by simp), i3, he]
    by_cases hl : (ullDigits 5 u).length > 1
    · rw [if_pos hl, show (((ullDigits 5 u).length : Int) - 1) * 8 - 8 * (((ullDigits 5 u).length : Int) - 1) = 0 by ring]
      simp
    · rw [if_neg hl]
      by_cases hu : u = 0
      · rw [hu]; simp
      · have : (ullDigits 5 u).length ≠ 0 := by
          intro h0
          have := List.length_eq_zero_iff.1 h0
          rw [this] at i3; simp at i3; omega
        rw [show (ullDigits 5 u).length = 1 by omega]; simp
  · rw [he]; split <;> omega
  · rw [he]; split <;> omega

theorem ofUnsigned_spec (c : Cfg) {u : Nat} (h : u < 18446744073709551616) :
    FinWF c (ofUnsigned c u) ∧ val (ofUnsigned c u) = u ∧ ZeroFrom 3 (ofUnsigned c u).data ∧
    (ofUnsigned c u).neg = false ∧ (ofUnsigned c u).prec = c.elems ∧
    0 ≤ (ofUnsigned c u).exp ∧ (ofUnsigned c u).exp ≤ 16 := by
  unfold ofUnsigned
  rw [w64_id h]
  obtain ⟨a1, a2, a3, a4, a5, a6, a7⟩ := fromULL_spec c false u h (fun _ => rfl)
  exact ⟨a1, by unfold val; rw [a4, a2]; simp, a3, a4, a5, a6, a7⟩

theorem ofSigned_spec (c : Cfg) {n : Int} (h1 : -9223372036854775808 ≤ n) (h2 : n < 9223372036854775808) :
    FinWF c (ofSigned c n) ∧ val (ofSigned c n) = n ∧ ZeroFrom 3 (ofSigned c n).data ∧
    (ofSigned c n).neg = decide (n < 0) ∧ (ofSigned c n).prec = c.elems ∧
    0 ≤ (ofSigned c n).exp ∧ (ofSigned c n).exp ≤ 16 := by
  unfold ofSigned
  have hu : (if n < 0 then ((-(n % 18446744073709551616)) % 18446744073709551616).toNat
     else (n % 18446744073709551616).toNat) = n.natAbs := by
    split <;> omega
  rw [hu]
  obtain ⟨a1, a2, a3, a4, a5, a6, a7⟩ := fromULL_spec c (decide (n < 0)) n.natAbs (by omega)
    (fun h => decide_eq_false (by omega))
  refine ⟨a1, ?_, a3, a4, a5, a6, a7⟩
  unfold val
  rw [a4, a2]
  by_cases hn : n < 0
  · rw [if_pos (decide_eq_true hn)]
    have : (n.natAbs : Int) = -n := by omega
    have e : ((n.natAbs : Nat) : ℚ) = -(n : ℚ) := by
      rw [← Int.cast_natCast, this, Int.cast_neg]
    rw [e]; ring
  · rw [if_neg (by simpa using hn)]
    have : (n.natAbs : Int) = n := by omega
    rw [← Int.cast_natCast, this]

/-! ### integer part -/

theorem exp_div {c : Cfg} {x : EFloat} (hx : WF c x) (h : 0 ≤ x.exp) :
    ∃ k : Nat, x.exp = 8 * (k : Int) ∧ (Int.tdiv x.exp 8).toNat = k := by
  obtain ⟨m, hm⟩ := hx.exp8
  have : 0 ≤ m := by omega
  obtain ⟨k, rfl⟩ := Int.eq_ofNat_of_zero_le this
  refine ⟨k, hm, ?_⟩
  rw [hm, Int.mul_comm, Int.mul_tdiv_cancel _ (by norm_num)]; simp

/-- The limbs up to weight one are the integer part of the magnitude. -/
theorem floor_mag {c : Cfg} {x : EFloat} (hx : WF c x) {k : Nat} (hk : x.exp = 8 * (k : Int)) (hkN : k < c.elems) :
    ⌊mag x⌋ = (lv (x.data.take (k + 1)) : ℤ) := by
  obtain ⟨h1, h2⟩ := mag_prefix hx (p := k + 1) (by omega)
  rw [show x.exp - 8 * (((k + 1 : Nat) : ℤ) - 1) = 0 by push_cast; omega] at h1 h2
  simp only [zpow_zero, mul_one] at h1 h2
  rw [Int.floor_eq_iff]
  exact ⟨by exact_mod_cast h1, by exact_mod_cast h2⟩

theorem headD_take {l : List Nat} (k : Nat) (r : List Nat) (hne : l ≠ []) :
    (l.take (k + 1) ++ r).headD 0 = l.headD 0 := by
  cases l with
  | nil => exact absurd rfl hne
  | cons a l => simp

/-- `extract_integer_part` where it cuts. -/
theorem integerPart_spec {c : Cfg} {x : EFloat} (hx : FinWF c x) (h0 : 0 ≤ x.exp)
    (h1 : x.exp < (c.digits10 : Int) - 1) :
    FinWF c (integerPart c x) ∧ (integerPart c x).exp = x.exp ∧ (integerPart c x).neg = x.neg ∧
    (integerPart c x).prec = x.prec ∧
    mag (integerPart c x) = (⌊mag x⌋ : ℚ) ∧
    (∀ k : Nat, x.exp = 8 * (k : Int) → (integerPart c x).data.take (k + 1) = x.data.take (k + 1)) := by
  obtain ⟨k, hk, hkd⟩ := exp_div hx.toWF h0
  have hkN : k + 1 ≤ c.elems := by
    have : (c.digits10 : ℤ) + 25 ≤ 8 * (c.elems : ℤ) := by
      unfold Cfg.elems Cfg.maxDigits10
      split <;> omega
    omega
  have he : integerPart c x = { x with data := x.data.take (k + 1) ++ List.replicate (c.elems - (k + 1)) 0 } := by
    unfold integerPart
    have : x.isfinite = true := by simp [EFloat.isfinite, hx.fin]
    rw [this]
    simp only [Bool.not_true, Bool.false_eq_true, if_false]
    rw [if_neg (by omega), if_neg (by omega), hkd]
  have hzf : ZeroFrom (k + 1) (integerPart c x).data := by
    have := zeroFrom_replicate (x.data.take (k + 1)) (c.elems - (k + 1))
    rw [List.length_take, hx.len, Nat.min_eq_left hkN] at this
    rw [he]; exact this
  have hwf : FinWF c (integerPart c x) := by
    rw [he]
    refine ⟨⟨?_, ?_, hx.exp8, hx.prec_lo, hx.prec_hi, ?_⟩, hx.fin⟩
    · simp [hx.len]; omega
    · exact OK.append (hx.ok.take _) (OK.replicate _)
    · intro hf hd
      simp only at hd
      rw [headD_take k _ hx.ne_nil] at hd
      obtain ⟨n1, n2⟩ := hx.norm hx.fin hd
      refine ⟨?_, n2⟩
      intro d hd
      rcases List.mem_append.1 hd with h | h
      · exact n1 d (List.mem_of_mem_take h)
      · exact List.eq_of_mem_replicate h
  refine ⟨hwf, by rw [he], by rw [he], by rw [he], ?_, ?_⟩
  · rw [mag_zeroFrom hwf.toWF (p := k + 1) hkN hzf, floor_mag hx.toWF hk (by omega)]
    rw [he]
    simp only
    rw [show x.exp - 8 * (((k + 1 : Nat) : ℤ) - 1) = 0 by push_cast; omega, zpow_zero, mul_one,
      List.take_left' (by simp [hx.len]; omega)]
    norm_cast
  · intro k' hk'
    have : k' = k := by omega
    subst this
    rw [he]
    simp only
    rw [List.take_left' (by simp [hx.len]; omega)]

/-! ### extraction -/

theorem accLimbs_spec (v : Nat) (l : List Nat) (h : v * 100000000 ^ l.length + lv l < 18446744073709551616) :
    accLimbs v l = v * 100000000 ^ l.length + lv l := by
  induction l generalizing v with
  | nil => simp [accLimbs]
  | cons d l ih =>
    have e : v * 100000000 ^ (l.length + 1) + (d * 100000000 ^ l.length + lv l) =
        (v * 100000000 + d) * 100000000 ^ l.length + lv l := by rw [pow_succ]; ring
    rw [List.length_cons, lv_cons, e] at h
    have hle : v * 100000000 + d ≤ (v * 100000000 + d) * 100000000 ^ l.length :=
      Nat.le_mul_of_pos_right _ (Bpos _)
    have e2 : w64 (w64 (v * mask) + d) = v * 100000000 + d := by
      rw [maskN, w64_id (by omega : v * 100000000 < _), w64_id (by omega)]
    unfold accLimbs at ih ⊢
    rw [List.foldl_cons, e2, ih _ h, List.length_cons, lv_cons, e]

theorem limbsToULL_spec {c : Cfg} {x : EFloat} (hx : WF c x) {k : Nat} (hk : x.exp = 8 * (k : Int)) (hk2 : k ≤ 2)
    (hv : lv (x.data.take (k + 1)) < 18446744073709551616) :
    limbsToULL c x = lv (x.data.take (k + 1)) := by
  have h7 := elems_ge c
  unfold limbsToULL
  have e1 : i32 x.exp = 8 * (k : Int) := by rw [hk, i32_id (by omega) (by omega)]
  have e2 : (min (Int.tdiv (i32 x.exp) 8) ((c.elems : Int) - 1)).toNat = k := by
    rw [e1, Int.mul_comm, Int.mul_tdiv_cancel _ (by norm_num)]; omega
  simp only [e2]
  cases hd : x.data with
  | nil => exact absurd hd hx.ne_nil
  | cons a l =>
    rw [hd] at hv
    simp only [List.headD_cons, List.drop_succ_cons, List.drop_zero]
    rw [List.take_succ_cons, lv_cons] at hv ⊢
    exact accLimbs_spec _ _ hv

/-- A number below `2^64` has at most three limbs before the point. -/
theorem exp_small {c : Cfg} {x : EFloat} (hx : WF c x) (hz : x.data.headD 0 ≠ 0) (h : mag x < 10 ^ 24) : x.exp ≤ 16 := by
  by_contra hc
  have h8 := hx.exp8
  have : (24 : ℤ) ≤ x.exp := by omega
  have h1 := le_trans (p10_mono this) (mag_ge hx hz)
  have : (10 : ℚ) ^ (24 : ℤ) = 10 ^ 24 := by norm_num
  linarith

end EFX

namespace EFX
open Spec

theorem fabs_data (x : EFloat) : (fabs x).data = x.data := by
  unfold fabs; split
  · exact negate_data x
  · rfl

theorem fabs_exp (x : EFloat) : (fabs x).exp = x.exp := by
  unfold fabs; split
  · exact negate_exp x
  · rfl

theorem fabs_neg {c : Cfg} {x : EFloat} (h : FinWF c x) : (fabs x).neg = false := by
  unfold fabs EFloat.isneg
  cases hb : x.neg
  · simp [hb]
  · rw [if_pos rfl]
    have hz : x.data.headD 0 ≠ 0 := by
      intro h0; have := (h.norm h.fin h0).2; rw [hb] at this; simp at this
    unfold negate
    rw [(iszero_false h.fin).2 hz]
    simp [hb]

theorem limbsToULL_congr {c : Cfg} {x y : EFloat} (h1 : x.data = y.data) (h2 : x.exp = y.exp) :
    limbsToULL c x = limbsToULL c y := by unfold limbsToULL; rw [h1, h2]

theorem limbsToULL_zero {c : Cfg} {x : EFloat} (h : ∀ d ∈ x.data, d = 0) : limbsToULL c x = 0 := by
  have key : ∀ l : List Nat, (∀ d ∈ l, d = 0) → accLimbs 0 l = 0 := by
    intro l
    induction l with
    | nil => intro _; rfl
    | cons a l ih =>
      intro h
      have ha := h a (by simp)
      subst ha
      unfold accLimbs at ih ⊢
      rw [List.foldl_cons]
      exact ih (fun d hd => h d (by simp [hd]))
  unfold limbsToULL
  simp only
  have h0 : x.data.headD 0 = 0 := by
    cases hd : x.data with
    | nil => rfl
    | cons a l => exact h a (by rw [hd]; simp)
  rw [h0]
  exact key _ (fun d hd => h d (List.mem_of_mem_drop (List.mem_of_mem_take hd)))

theorem integerPart_zero_data {c : Cfg} {x : EFloat} (hx : FinWF c x) (h : x.data.headD 0 = 0) :
    ∀ d ∈ (integerPart c x).data, d = 0 := by
  have h0 := (hx.norm hx.fin h).1
  unfold integerPart
  split
  · exact h0
  · split
    · exact ((FinWF_zero c).norm (FinWF_zero c).fin ((head_zero_iff (FinWF_zero c)).2 (val_zero c))).1
    · split
      · exact h0
      · intro d hd
        rcases List.mem_append.1 hd with h' | h'
        · exact h0 d (List.mem_of_mem_take h')
        · exact List.eq_of_mem_replicate h'

/-- The limb accumulation on the integer part computes the integer part. -/
theorem limbs_integerPart {c : Cfg} {x : EFloat} (hx : FinWF c x) (h0 : 0 ≤ x.exp)
    (hm : ⌊mag x⌋ < 18446744073709551616) :
    (limbsToULL c (integerPart c x) : ℤ) = ⌊mag x⌋ := by
  by_cases hz : x.data.headD 0 = 0
  · rw [limbsToULL_zero (integerPart_zero_data hx hz), mag_zero_of_iszero hx hz]; simp
  · have hml : mag x < 10 ^ 24 := by
      have h1 := Int.lt_floor_add_one (mag x)
      have h2 : ((⌊mag x⌋ : ℤ) : ℚ) < 18446744073709551616 := by exact_mod_cast hm
      linarith
    have he := exp_small hx.toWF hz hml
    obtain ⟨k, hk, _⟩ := exp_div hx.toWF h0
    have hD := (digits10_bounds c).1
    have h7 := elems_ge c
    obtain ⟨i1, i2, i3, i4, i5, i6⟩ := integerPart_spec hx h0 (by omega)
    have hf := floor_mag hx.toWF hk (by omega)
    rw [hf] at hm ⊢
    have h64 : lv (x.data.take (k + 1)) < 18446744073709551616 := by exact_mod_cast hm
    rw [limbsToULL_spec i1.toWF (k := k) (by rw [i2, hk]) (by omega) (by rw [i6 k hk]; exact h64), i6 k hk]

end EFX
