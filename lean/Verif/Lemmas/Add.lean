import Verif.Lemmas.Compare
/-! Helper lemmas for `operator+=`. -/

namespace EFX
open Spec

/-- `g_x = g_v * B^k` when the exponents differ by `8 k`. -/
theorem ulp_shift {c : Cfg} {x v : EFloat} {k : Nat} (h : x.exp = v.exp + 8 * (k : Int)) :
    ulp c x = ulp c v * ((100000000 ^ k : Nat) : ℚ) := by
  unfold ulp
  rw [← p10_base, ← p10_add, h]; congr 1; ring

/-- Result of the same-sign branch, `k` limbs offset, `x` the operand with the larger exponent:
everything about the limbs. -/
theorem addLoop_res {n k : Nat} {xd vd : List Nat} (hx : xd.length = n) (hv : vd.length = n)
    (ox : OK xd) (ov : OK vd) :
    (addLoop xd (shiftDown k vd)).1.length = n ∧ OK (addLoop xd (shiftDown k vd)).1 ∧
    (addLoop xd (shiftDown k vd)).2 ≤ 1 ∧
    lv (addLoop xd (shiftDown k vd)).1 + (addLoop xd (shiftDown k vd)).2 * 100000000 ^ n
      = lv xd + lv vd / 100000000 ^ k := by
  have h := addLoop_spec (u := xd) (v := shiftDown k vd) (by simp [hx, hv]) ox (shiftDown_OK k ov)
  rw [shiftDown_lv k ov, hx] at h
  exact h

theorem addLoop_res' {n k : Nat} {xd vd : List Nat} (hx : xd.length = n) (hv : vd.length = n)
    (ox : OK xd) (ov : OK vd) :
    (addLoop (shiftDown k xd) vd).1.length = n ∧ OK (addLoop (shiftDown k xd) vd).1 ∧
    (addLoop (shiftDown k xd) vd).2 ≤ 1 ∧
    lv (addLoop (shiftDown k xd) vd).1 + (addLoop (shiftDown k xd) vd).2 * 100000000 ^ n
      = lv vd + lv xd / 100000000 ^ k := by
  have h := addLoop_spec (u := shiftDown k xd) (v := vd) (by simp [hx, hv]) (shiftDown_OK k ox) ov
  rw [shiftDown_lv k ox, shiftDown_length, hx] at h
  refine ⟨h.1, h.2.1, h.2.2.1, ?_⟩
  rw [h.2.2.2]; omega

/-- From the limbs of the sum to the object: `e` the exponent of the larger operand, `S` the sum
in units `g` of the smaller operand, `T = S / B^k`. -/
theorem addSame_fin {c : Cfg} (x : EFloat) {r : List Nat × Nat} {e : Int} {T : Nat}
    (hl : r.1.length = c.elems) (ho : OK r.1) (hc : r.2 ≤ 1)
    (hT : lv r.1 + r.2 * 100000000 ^ c.elems = T) (he : (8 : Int) ∣ e)
    (hTlo : 100000000 ^ (c.elems - 1) ≤ T) (hxf : x.cls = .finite)
    (hp : 2 ≤ x.prec) (hp2 : x.prec ≤ c.elems) (y : EFloat)
    (hy : y = if r.2 ≠ 0 then { x with data := r.2 :: r.1.dropLast, exp := e + 8 }
          else { x with data := r.1, exp := e }) :
    FinWF c y ∧ y.data.headD 0 ≠ 0 ∧ y.neg = x.neg ∧ y.prec = x.prec ∧
    ((y.exp = e ∧ lv y.data = T) ∨ (y.exp = e + 8 ∧ lv y.data = T / 100000000)) := by
  have hN := elems_ge c
  by_cases h : r.2 = 0
  · rw [if_neg (by simpa using h)] at hy
    subst hy
    rw [h] at hT
    have hlv : lv r.1 = T := by omega
    have hhead : r.1.headD 0 ≠ 0 := by
      apply headD_ne_zero_of_le ho
      · intro h0; rw [h0] at hl; simp at hl; omega
      · rw [hl, hlv]; exact hTlo
    refine ⟨⟨⟨hl, ho, he, hp, hp2, ?_⟩, hxf⟩, hhead, rfl, rfl, Or.inl ⟨rfl, hlv⟩⟩
    intro _ h0; exact absurd h0 hhead
  · rw [if_pos h] at hy
    subst hy
    have h1 : r.2 = 1 := by omega
    have hhead : (r.2 :: r.1.dropLast).headD 0 ≠ 0 := by simpa using h
    refine ⟨⟨⟨?_, OK.cons (by omega) ho.dropLast, ?_, hp, hp2, ?_⟩, hxf⟩, hhead, rfl, rfl,
      Or.inr ⟨rfl, ?_⟩⟩
    · simp [hl]; omega
    · exact dvd_add he (by norm_num)
    · intro _ h0; exact absurd h0 hhead
    · have hd : lv r.1.dropLast = lv r.1 / 100000000 := by
        rw [List.dropLast_eq_take]
        have := lv_take r.1 ho 1 (by omega)
        rw [this]; simp
      show lv (r.2 :: r.1.dropLast) = _
      rw [lv_cons, hd, List.length_dropLast, hl, ← hT]
      have : 100000000 ^ c.elems = 100000000 * 100000000 ^ (c.elems - 1) := by
        rw [← pow_succ']; congr 1
      rw [this, show lv r.1 + r.2 * (100000000 * 100000000 ^ (c.elems - 1))
        = lv r.1 + 100000000 * (r.2 * 100000000 ^ (c.elems - 1)) by ring,
        Nat.add_mul_div_left _ _ (by norm_num)]
      omega

/-- Value of such a result: the exact sum chopped at the weight of its last limb. -/
theorem mag_of_limbs {c : Cfg} {y : EFloat} {e : Int} {S k : Nat} {g : ℚ} (hg : 0 < g) (hy : WF c y)
    (hge : (10 : ℚ) ^ (e - 8 * ((c.elems : Int) - 1)) = g * ((100000000 ^ k : Nat) : ℚ))
    (h : (y.exp = e ∧ lv y.data = S / 100000000 ^ k) ∨
         (y.exp = e + 8 ∧ lv y.data = S / 100000000 ^ k / 100000000)) :
    mag y = chop (ulp c y) (S * g) := by
  rw [mag_eq hy]
  rcases h with ⟨h1, h2⟩ | ⟨h1, h2⟩
  · have hu : ulp c y = g * ((100000000 ^ k : Nat) : ℚ) := by unfold ulp; rw [h1, hge]
    rw [hu, chop_nat hg S _ (Bpos k), h2]
  · have hu : ulp c y = g * ((100000000 ^ (k + 1) : Nat) : ℚ) := by
      unfold ulp
      rw [h1, show e + 8 - 8 * ((c.elems : Int) - 1) = e - 8 * ((c.elems : Int) - 1) + 8 * ((1 : Nat) : ℤ) by
        push_cast; ring, p10_add, hge, p10_base, pow_succ]
      push_cast; ring
    rw [hu, chop_nat hg S _ (Bpos _), h2, Nat.div_div_eq_div_mul, ← pow_succ]

/-- Same-sign addition of two non-zero numbers. -/
theorem addSame_spec {c : Cfg} {x v : EFloat} (hx : FinWF c x) (hv : FinWF c v)
    (zx : x.data.headD 0 ≠ 0) (zv : v.data.headD 0 ≠ 0) :
    FinWF c (addSame x v (Int.tdiv (x.exp - v.exp) 8)) ∧
    (addSame x v (Int.tdiv (x.exp - v.exp) 8)).data.headD 0 ≠ 0 ∧
    (addSame x v (Int.tdiv (x.exp - v.exp) 8)).neg = x.neg ∧
    (addSame x v (Int.tdiv (x.exp - v.exp) 8)).prec = x.prec ∧
    mag (addSame x v (Int.tdiv (x.exp - v.exp) 8)) =
      chop (ulp c (addSame x v (Int.tdiv (x.exp - v.exp) 8))) (mag x + mag v) := by
  obtain ⟨m, hm⟩ : ∃ m : Int, x.exp - v.exp = 8 * m := by
    have := dvd_sub hx.exp8 hv.exp8; exact this
  have hofs : Int.tdiv (x.exp - v.exp) 8 = m := by
    rw [hm, Int.mul_tdiv_cancel_left _ (by norm_num)]
  rw [hofs]
  by_cases hpos : m ≥ 0
  · obtain ⟨k, rfl⟩ : ∃ k : Nat, m = k := ⟨m.toNat, by omega⟩
    have hk : x.exp = v.exp + 8 * (k : Int) := by omega
    obtain ⟨r1, r2, r3, r4⟩ := addLoop_res (k := k) hx.len hv.len hx.ok hv.ok
    have hlo : 100000000 ^ (c.elems - 1) ≤ lv x.data + lv v.data / 100000000 ^ k := by
      have := lv_head zx; rw [hx.len] at this; exact le_trans this (Nat.le_add_right _ _)
    obtain ⟨a1, a2, a3, a4, a5⟩ := addSame_fin (c := c) x r1 r2 r3 r4 hx.exp8 hlo hx.fin hx.prec_lo
      hx.prec_hi (addSame x v k) (by simp [addSame])
    refine ⟨a1, a2, a3, a4, ?_⟩
    have hS : mag x + mag v = ((lv x.data * 100000000 ^ k + lv v.data : Nat) : ℚ) * ulp c v := by
      rw [mag_eq hx.toWF, mag_eq hv.toWF, ulp_shift hk]; push_cast; ring
    rw [hS]
    refine mag_of_limbs (e := x.exp) (k := k) (ulp_pos c v) a1.toWF (ulp_shift hk) ?_
    rw [Nat.mul_comm (lv x.data), Nat.mul_add_div (Bpos k)]
    exact a5
  · obtain ⟨k, rfl⟩ : ∃ k : Nat, m = -(k : Int) := ⟨(-m).toNat, by omega⟩
    have hk : v.exp = x.exp + 8 * (k : Int) := by omega
    obtain ⟨r1, r2, r3, r4⟩ := addLoop_res' (k := k) hx.len hv.len hx.ok hv.ok
    have hlo : 100000000 ^ (c.elems - 1) ≤ lv v.data + lv x.data / 100000000 ^ k := by
      have := lv_head zv; rw [hv.len] at this; exact le_trans this (Nat.le_add_right _ _)
    obtain ⟨a1, a2, a3, a4, a5⟩ := addSame_fin (c := c) x r1 r2 r3 r4 hv.exp8 hlo hx.fin hx.prec_lo
      hx.prec_hi (addSame x v (-(k : Int))) (by
        have hneg : ¬ (-(k : Int) ≥ 0) := hpos
        simp only [addSame, if_neg hneg, neg_neg, Int.toNat_natCast])
    refine ⟨a1, a2, a3, a4, ?_⟩
    have hS : mag x + mag v = ((lv v.data * 100000000 ^ k + lv x.data : Nat) : ℚ) * ulp c x := by
      rw [mag_eq hx.toWF, mag_eq hv.toWF, ulp_shift hk]; push_cast; ring
    rw [hS]
    refine mag_of_limbs (e := v.exp) (k := k) (ulp_pos c x) a1.toWF (ulp_shift hk) ?_
    rw [Nat.mul_comm (lv v.data), Nat.mul_add_div (Bpos k)]
    exact a5

/-- Justification keeps the value. -/
theorem justify_spec {c : Cfg} {x : EFloat} (hl : x.data.length = c.elems) (ho : OK x.data)
    (he : (8 : Int) ∣ x.exp) (hp : 2 ≤ x.prec) (hp2 : x.prec ≤ c.elems) (hf : x.cls = .finite) :
    FinWF c (justify x) ∧ (justify x).prec = x.prec ∧
    mag (justify x) = mag x ∧ (lv x.data ≠ 0 → (justify x).neg = x.neg ∧ (justify x).data.headD 0 ≠ 0) := by
  have hN := elems_ge c
  have hne : x.data ≠ [] := by intro h0; rw [h0] at hl; simp at hl; omega
  unfold justify
  by_cases h0 : firstNonzero x.data = 0
  · have hh := (firstNonzero_eq_zero hne).1 h0
    simp only [h0, ne_eq, not_true, if_false]
    refine ⟨⟨⟨hl, ho, he, hp, hp2, ?_⟩, hf⟩, trivial, trivial, fun _ => ⟨trivial, hh⟩⟩
    intro _ h1; exact absurd h1 hh
  · simp only [ne_eq, h0, not_false_iff, if_true]
    by_cases hall : firstNonzero x.data = x.data.length
    · have hz := firstNonzero_eq_length.1 hall
      simp only [hall, if_true]
      refine ⟨⟨⟨hl, ho, by simp, hp, hp2, ?_⟩, hf⟩, trivial, ?_, ?_⟩
      · intro _ _; exact ⟨hz, rfl⟩
      · have := lv_eq_zero.2 hz
        unfold mag; rw [digitsValue_eq, digitsValue_eq]; simp [this]
      · intro h; exact absurd (lv_eq_zero.2 hz) h
    · have hlt : firstNonzero x.data < x.data.length :=
        lt_of_le_of_ne (firstNonzero_le _) hall
      have hh := shiftUp_first_head hlt
      simp only [hall, if_false]
      refine ⟨⟨⟨by simp [hl], shiftUp_OK _ ho, ?_, hp, hp2, ?_⟩, hf⟩, trivial, ?_, fun _ => ⟨trivial, hh⟩⟩
      · exact dvd_sub he (Dvd.intro_left _ rfl)
      · intro _ h1; exact absurd h1 hh
      · unfold mag
        rw [digitsValue_eq, digitsValue_eq]
        simp only [shiftUp_first ho, shiftUp_length]
        push_cast
        have hb := p10_base (firstNonzero x.data)
        push_cast at hb
        rw [← hb, mul_assoc, ← p10_add]
        congr 2; ring

theorem headroom {c : Cfg} {v : EFloat} (hv : WF c v) {k : Nat} (hk : 0 < k) :
    lv v.data / 100000000 ^ k < 100000000 ^ (c.elems - 1) := by
  have hN := elems_ge c
  have h := lv_lt hv.ok
  rw [hv.len] at h
  rw [Nat.div_lt_iff_lt_mul (Bpos k)]
  calc lv v.data < 100000000 ^ c.elems := h
    _ ≤ 100000000 ^ (c.elems - 1 + k) := Nat.pow_le_pow_right (by norm_num) (by omega)
    _ = _ := by rw [pow_add]

/-- The larger operand minus the smaller one, cut at the last limb of the larger. -/
theorem subCore_spec {c : Cfg} {x u v : EFloat} {k : Nat} (hu : FinWF c u) (hv : FinWF c v)
    (hp : 2 ≤ x.prec) (hp2 : x.prec ≤ c.elems) (hxf : x.cls = .finite)
    (zu : u.data.headD 0 ≠ 0) (hk : u.exp = v.exp + 8 * (k : Int))
    (hbig : 0 < k ∨ (k = 0 ∧ lv v.data ≤ lv u.data))
    (y : EFloat) (hy : y = { x with data := (subLoop u.data (shiftDown k v.data)).1,
                                    exp := u.exp, neg := u.neg }) :
    FinWF c (justify y) ∧ (justify y).prec = x.prec ∧
    mag (justify y) = mag u - chop (ulp c u) (mag v) ∧
    chop (ulp c u) (mag v) ≤ mag u ∧
    (lv v.data / 100000000 ^ k < lv u.data → (justify y).neg = u.neg ∧ (justify y).data.headD 0 ≠ 0) := by
  have hle : lv v.data / 100000000 ^ k ≤ lv u.data := by
    rcases hbig with h | ⟨h, h'⟩
    · have h1 := headroom hv.toWF h
      have h2 := lv_head zu
      rw [hu.len] at h2
      omega
    · subst h; simpa using h'
  have hlen : u.data.length = (shiftDown k v.data).length := by simp [hu.len, hv.len]
  have hs := subLoop_spec hlen hu.ok (shiftDown_OK k hv.ok)
  have hg := subLoop_ge hlen hu.ok (shiftDown_OK k hv.ok) (by rw [shiftDown_lv k hv.ok]; exact hle)
  rw [shiftDown_lv k hv.ok] at hg
  obtain ⟨j1, j2, j3, j4⟩ := justify_spec (c := c) (x := y) (by rw [hy]; simp [hs.1, hu.len])
    (by rw [hy]; exact hs.2.1) (by rw [hy]; exact hu.exp8) (by rw [hy]; exact hp)
    (by rw [hy]; exact hp2) (by rw [hy]; exact hxf)
  have hchop : chop (ulp c u) (mag v) = ((lv v.data / 100000000 ^ k : Nat) : ℚ) * ulp c u := by
    rw [mag_eq hv.toWF, ulp_shift hk, chop_nat (ulp_pos c v) _ _ (Bpos k)]
  have hmy : mag y = mag u - chop (ulp c u) (mag v) := by
    rw [hchop, mag_eq hu.toWF, ← sub_mul, ← Nat.cast_sub hle, ← hg]
    unfold mag; rw [digitsValue_eq, hy]
    simp only [hs.1, hu.len]; rfl
  refine ⟨j1, by rw [j2, hy], by rw [j3, hmy], ?_, ?_⟩
  · rw [hchop, mag_eq hu.toWF]
    exact mul_le_mul_of_nonneg_right (by exact_mod_cast hle) (ulp_pos c u).le
  · intro h
    have hn : lv y.data ≠ 0 := by rw [hy]; simp only [hg]; omega
    have := j4 hn
    rw [this.1, hy]; exact ⟨rfl, by rw [← hy]; exact this.2⟩


end EFX
