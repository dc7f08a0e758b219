import Verif.Lemmas.Start
/-!
# The constructor from mantissa and exponent
-/

namespace EFX
open Spec

/-- Largest values the scaled mantissa can take after `0, 1, ..., 7` multiplications by ten. -/
def capAt : ℕ → ℚ
  | 0 => 10 - 1 / 2 ^ 49
  | k + 1 => rnd (capAt k * 10)

theorem capAt_seven : capAt 7 = 100000000 - 1 / 2 ^ 26 := by decide +kernel

theorem capAt_mono_le {k : ℕ} (hk : k ≤ 7) : capAt k ≤ 100000000 - 1 / 2 ^ 26 := by
  interval_cases k <;> decide +kernel

/-- Result of the scaling loops for mantissas in `[1/50, 5]`. -/
theorem scale_spec {d : ℚ} {e : ℤ} (h1 : 1 / 50 ≤ d) (h2 : d ≤ 5) (hg : Grid d) :
    ∃ d' e', scaleUp 320 (scaleDown 320 d e).1 (scaleDown 320 d e).2 = (d', e') ∧
      1 ≤ d' ∧ d' ≤ capAt 0 ∧ Grid d' ∧ e - 2 ≤ e' ∧ e' ≤ e ∧
      Near (4 / 10 ^ 16) (d' * (10 : ℚ) ^ e') (d * (10 : ℚ) ^ e) := by
  have hc0 : capAt 0 = 10 - 1 / 2 ^ 49 := rfl
  have hsd : scaleDown 320 d e = (d, e) := by
    rw [show (320 : ℕ) = 319 + 1 from rfl, scaleDown, if_neg (by linarith)]
  rw [hsd]
  simp only
  have tens : ∀ a : ℚ, ∀ f : ℤ, a * 10 * (10 : ℚ) ^ (f - 1) = a * (10 : ℚ) ^ f := by
    intro a f
    rw [show f = (f - 1) + 1 by ring, p10_add]; simp; ring
  have step : ∀ {a : ℚ}, a < 1 → 0 ≤ a → Grid a → rnd (a * 10) ≤ capAt 0 := by
    intro a ha h0 hga
    have := hga.2 ha
    have h3 : rnd (a * 10) ≤ rnd ((1 - 1 / 2 ^ 53) * 10) := rnd_mono (by linarith) (by linarith)
    have h4 : rnd ((1 - 1 / 2 ^ 53) * 10) = capAt 0 := by decide +kernel
    linarith
  rw [show (320 : ℕ) = 319 + 1 from rfl, scaleUp]
  by_cases hd : d < 1
  · rw [if_pos hd]
    have n1 : Near (2 / 10 ^ 16) (rnd (d * 10)) (d * 10) := by
      have := (Near.refl (b := d * 10)).rnd (by linarith) (by linarith) (by norm_num)
      rwa [zero_add] at this
    have g1 := rnd_grid (q := d * 10) (by linarith)
    have c1 := step hd (by linarith) hg
    have l1 := n1.lo
    have l1' : (19 / 100 : ℚ) ≤ rnd (d * 10) := by
      have : (19 / 100 : ℚ) ≤ (1 - 2 / 10 ^ 16) * (1 / 5) := by norm_num
      have h3 : (1 - 2 / 10 ^ 16 : ℚ) * (1 / 5) ≤ (1 - 2 / 10 ^ 16) * (d * 10) :=
        mul_le_mul_of_nonneg_left (by linarith) (by norm_num)
      linarith
    rw [show (319 : ℕ) = 318 + 1 from rfl, scaleUp]
    by_cases hd1 : rnd (d * 10) < 1
    · rw [if_pos hd1]
      have n2 := (n1.mul (k := 10) (by norm_num)).rnd (by linarith) (by linarith) (by norm_num)
      have g2 := rnd_grid (q := rnd (d * 10) * 10) (by linarith)
      have c2 := step hd1 (by linarith) g1
      have l2 := (Near.refl (b := rnd (d * 10) * 10)).rnd (by linarith) (by linarith) (by norm_num)
      have l2' : (1 : ℚ) ≤ rnd (rnd (d * 10) * 10) := by
        have := l2.lo
        have h3 : (1 - (0 + 2 / 10 ^ 16) : ℚ) * (19 / 10) ≤ (1 - (0 + 2 / 10 ^ 16)) * (rnd (d * 10) * 10) :=
          mul_le_mul_of_nonneg_left (by linarith) (by norm_num)
        have h4 : (1 : ℚ) ≤ (1 - (0 + 2 / 10 ^ 16)) * (19 / 10) := by norm_num
        linarith
      rw [show (318 : ℕ) = 317 + 1 from rfl, scaleUp, if_neg (not_lt.2 l2')]
      refine ⟨_, _, rfl, l2', c2, g2, by omega, by omega, ?_⟩
      have := n2.mul (k := (10 : ℚ) ^ (e - 1 - 1)) (p10_pos _).le
      rw [tens, tens] at this
      exact this.weaken (mul_nonneg (by linarith) (p10_pos _).le) (by norm_num)
    · rw [if_neg hd1]
      refine ⟨_, _, rfl, not_lt.1 hd1, c1, g1, by omega, by omega, ?_⟩
      have := n1.mul (k := (10 : ℚ) ^ (e - 1)) (p10_pos _).le
      rw [tens] at this
      exact this.weaken (mul_nonneg (by linarith) (p10_pos _).le) (by norm_num)
  · rw [if_neg hd]
    refine ⟨_, _, rfl, not_lt.1 hd, ?_, hg, by omega, le_refl _, ?_⟩
    · rw [hc0]
      have : (5 : ℚ) ≤ 10 - 1 / 2 ^ 49 := by norm_num
      linarith
    · exact (Near.refl).weaken (mul_nonneg (by linarith) (p10_pos _).le) (by norm_num)

/-- The alignment loop. -/
theorem align_spec : ∀ (k i : ℕ) (d : ℚ) (e : ℤ), 1 ≤ d → d ≤ capAt i → Grid d →
    ∃ d', alignLoop k d e = (d', e - k) ∧ 1 ≤ d' ∧ d' ≤ capAt (i + k) ∧ Grid d' ∧
      Near (4 / 10 ^ 16 * k) (d' * (10 : ℚ) ^ (e - k)) (d * (10 : ℚ) ^ e) ∨ 8 ≤ k
  | 0, i, d, e, h1, h2, hg => ⟨d, Or.inl ⟨by simp [alignLoop], h1, h2, hg, by
      simp only [Nat.cast_zero, mul_zero, sub_zero]; exact Near.refl⟩⟩
  | k + 1, i, d, e, h1, h2, hg => by
    by_cases hk8 : 8 ≤ k + 1
    · exact ⟨0, Or.inr hk8⟩
    have n1 : Near (2 / 10 ^ 16) (rnd (d * 10)) (d * 10) := by
      have := (Near.refl (b := d * 10)).rnd (by linarith) (by linarith) (by norm_num)
      rwa [zero_add] at this
    have l1 : (1 : ℚ) ≤ rnd (d * 10) := by
      have := n1.lo
      have h3 : (1 - 2 / 10 ^ 16 : ℚ) * 10 ≤ (1 - 2 / 10 ^ 16) * (d * 10) := mul_le_mul_of_nonneg_left (by linarith) (by norm_num)
      have h4 : (1 : ℚ) ≤ (1 - 2 / 10 ^ 16) * 10 := by norm_num
      linarith
    have c1 : rnd (d * 10) ≤ capAt (i + 1) := by
      rw [capAt]; exact rnd_mono (by linarith) (by linarith)
    obtain ⟨d', hd'⟩ := align_spec k (i + 1) (rnd (d * 10)) (e - 1) l1 c1 (rnd_grid (by linarith))
    rcases hd' with ⟨a1, a2, a3, a4, a5⟩ | hbad
    · refine ⟨d', Or.inl ⟨?_, a2, ?_, a4, ?_⟩⟩
      · rw [alignLoop, a1]; push_cast; ring_nf
      · rw [show i + (k + 1) = i + 1 + k by ring]; exact a3
      · have e1 : e - ((k + 1 : ℕ) : ℤ) = e - 1 - (k : ℤ) := by push_cast; ring
        rw [e1]
        have n2 := n1.mul (k := (10 : ℚ) ^ (e - 1)) (p10_pos _).le
        rw [show d * 10 * (10 : ℚ) ^ (e - 1) = d * (10 : ℚ) ^ e by
          rw [show e = (e - 1) + 1 by ring, p10_add]; simp; ring] at n2
        have hb : 0 ≤ d * (10 : ℚ) ^ e := mul_nonneg (by linarith) (p10_pos _).le
        have hk : (k : ℚ) ≤ 7 := by
          have : k ≤ 7 := by omega
          exact_mod_cast this
        -- combine
        unfold Near at *
        have hi : rnd (d * 10) * (10 : ℚ) ^ (e - 1) ≤ (1 + 2 / 10 ^ 16) * (d * (10 : ℚ) ^ e) := by
          have := (abs_le.1 n2).2; linarith
        calc _ ≤ |d' * (10 : ℚ) ^ (e - 1 - (k : ℤ)) - rnd (d * 10) * (10 : ℚ) ^ (e - 1)| +
              |rnd (d * 10) * (10 : ℚ) ^ (e - 1) - d * (10 : ℚ) ^ e| := abs_sub_le _ _ _
          _ ≤ 4 / 10 ^ 16 * k * (rnd (d * 10) * (10 : ℚ) ^ (e - 1)) + 2 / 10 ^ 16 * (d * (10 : ℚ) ^ e) := add_le_add a5 n2
          _ ≤ 4 / 10 ^ 16 * k * ((1 + 2 / 10 ^ 16) * (d * (10 : ℚ) ^ e)) + 2 / 10 ^ 16 * (d * (10 : ℚ) ^ e) := by
            apply add_le_add_left
            exact mul_le_mul_of_nonneg_left hi (by positivity)
          _ = (4 / 10 ^ 16 * k * (1 + 2 / 10 ^ 16) + 2 / 10 ^ 16) * (d * (10 : ℚ) ^ e) := by ring
          _ ≤ _ := by
            apply mul_le_mul_of_nonneg_right _ hb
            push_cast
            have : 4 / 10 ^ 16 * (k : ℚ) * (2 / 10 ^ 16) ≤ 4 / 10 ^ 16 * 7 * (2 / 10 ^ 16) := by
              apply mul_le_mul_of_nonneg_right _ (by norm_num)
              exact mul_le_mul_of_nonneg_left hk (by norm_num)
            have h5 : (4 / 10 ^ 16 * 7 * (2 / 10 ^ 16) : ℚ) ≤ 2 / 10 ^ 16 := by norm_num
            linarith
    · exfalso; omega

/-- One limb of the extraction loop. -/
theorem mant_step {d : ℚ} (h0 : 0 ≤ d) (hc : d ≤ 100000000 - 1 / 2 ^ 26) (hg : Grid d) :
    ∃ n : ℕ, w32 (w64 d.floor.toNat) = n ∧ n < 100000000 ∧ (n : ℚ) ≤ d ∧ d < n + 1 ∧ (1 ≤ d → 1 ≤ n) ∧
      0 ≤ rnd (rnd (d - n) * 100000000) ∧ rnd (rnd (d - n) * 100000000) ≤ 100000000 - 1 / 2 ^ 26 ∧
      Grid (rnd (rnd (d - n) * 100000000)) ∧
      |n + rnd (rnd (d - n) * 100000000) / 100000000 - d| ≤ 4 / 10 ^ 16 := by
  have hf0 : 0 ≤ ⌊d⌋ := Int.floor_nonneg.2 h0
  have hfl := Int.floor_le d
  have hfu := Int.lt_floor_add_one d
  obtain ⟨n, hn⟩ := Int.eq_ofNat_of_zero_le hf0
  have hgf := hg.fract h0
  have hdf : d.floor = (n : ℤ) := hn
  rw [hn] at hfl hfu hgf
  simp only [Int.cast_natCast] at hfl hfu hgf
  have hlt : n < 100000000 := by
    have : (n : ℚ) < 100000000 := by
      have : (0 : ℚ) < 1 / 2 ^ 26 := by norm_num
      linarith
    exact_mod_cast this
  have hfr : 0 ≤ d - n := by linarith
  have hr : rnd (d - n) ≤ 1 - 1 / 2 ^ 53 := by
    calc rnd (d - n) ≤ rnd (1 - 1 / 2 ^ 53) := rnd_mono hfr hgf
      _ = _ := by decide +kernel
  have hr0 := rnd_nonneg hfr
  have hr2 : rnd (rnd (d - n) * 100000000) ≤ 100000000 - 1 / 2 ^ 26 := by
    calc _ ≤ rnd ((1 - 1 / 2 ^ 53) * 100000000) := rnd_mono (by linarith) (by linarith)
      _ = _ := by decide +kernel
  refine ⟨n, ?_, hlt, hfl, hfu, ?_, rnd_nonneg (by linarith), hr2, rnd_grid (by linarith), ?_⟩
  · rw [hdf, Int.toNat_natCast]
    unfold w32 w64; omega
  · intro h1
    have : (1 : ℚ) < n + 1 := by linarith
    have : (0 : ℚ) < n := by linarith
    have : 0 < n := by exact_mod_cast this
    omega
  · have e1 := rnd_err hfr
    have e2 := rnd_err (q := rnd (d - n) * 100000000) (by linarith)
    have e3 : |rnd (rnd (d - n) * 100000000) / 100000000 - rnd (d - n)| ≤ rnd (d - n) / 2 ^ 53 := by
      rw [show rnd (rnd (d - n) * 100000000) / 100000000 - rnd (d - n) =
        (rnd (rnd (d - n) * 100000000) - rnd (d - n) * 100000000) / 100000000 by ring, abs_div]
      rw [abs_of_pos (show (0 : ℚ) < 100000000 by norm_num), div_le_iff₀ (by norm_num)]
      calc _ ≤ _ := e2
        _ = _ := by ring
    have e4 : rnd (d - n) / 2 ^ 53 ≤ 1 / 2 ^ 53 := by
      apply div_le_div_of_nonneg_right _ (by positivity)
      have : (0 : ℚ) < 1 / 2 ^ 53 := by norm_num
      linarith
    have e5 : (d - n) / 2 ^ 53 ≤ 1 / 2 ^ 53 := div_le_div_of_nonneg_right (by linarith) (by positivity)
    have e6 : (1 / 2 ^ 53 : ℚ) ≤ 2 / 10 ^ 16 := by norm_num
    rw [abs_le] at *
    constructor <;> linarith [e1.1, e1.2, e3.1, e3.2]

theorem mag_mk3 (c : Cfg) (a b d : ℕ) (e : ℤ) (s : Bool) :
    mag (mkLimbs c [a, b, d] e s) =
      ((a : ℚ) + (b : ℚ) / 100000000 + (d : ℚ) / 100000000 / 100000000) * (10 : ℚ) ^ e := by
  have hN := elems_ge c
  unfold mag mkLimbs
  obtain ⟨n, hn⟩ : ∃ n, c.elems = n + 3 := ⟨c.elems - 3, by omega⟩
  simp only [hn, List.length_cons, List.length_nil]
  have ht : List.take (n + 3) [a, b, d] = [a, b, d] := by simp
  rw [ht]
  have hz : ∀ e' : ℤ, ∀ m, digitsValue e' (List.replicate m 0) = 0 := by
    intro e' m
    rw [digitsValue_eq, lv_replicate]; simp
  simp only [List.cons_append, List.nil_append, digitsValue, hz]
  have e1 : (10 : ℚ) ^ (e - 8) = (10 : ℚ) ^ e / 100000000 := by
    rw [sub_eq_add_neg, p10_add]; norm_num [div_eq_mul_inv]
  have e2 : (10 : ℚ) ^ (e - 8 - 8) = (10 : ℚ) ^ e / 100000000 / 100000000 := by
    rw [show e - 8 - 8 = e + (-16) by ring, p10_add]; norm_num [div_eq_mul_inv]; ring
  rw [e1, e2]; ring

/-- The constructor from a positive mantissa in `[1/50, 5]`. -/
theorem ofMantExp_spec (c : Cfg) {d : ℚ} {e : ℤ} (h1 : 1 / 50 ≤ d) (h2 : d ≤ 5) (hg : Grid d) :
    FinWF c (ofMantExp c d e) ∧ (ofMantExp c d e).data.headD 0 ≠ 0 ∧ (ofMantExp c d e).neg = false ∧
    (ofMantExp c d e).prec = c.elems ∧ e - 9 ≤ (ofMantExp c d e).exp ∧ (ofMantExp c d e).exp ≤ e ∧
    Near (1 / 10 ^ 14) (mag (ofMantExp c d e)) (d * (10 : ℚ) ^ e) := by
  have hsmall : ¬ ((if d < 0 then -d else d) < (1 / 2 : ℚ) ^ 1022 * (1 + (1 / 2 : ℚ) ^ 52)) := by
    rw [if_neg (by linarith)]
    have : (1 / 2 : ℚ) ^ 1022 ≤ (1 / 2 : ℚ) ^ 10 := pow_le_pow_of_le_one (by norm_num) (by norm_num) (by norm_num)
    have h3 : (1 / 2 : ℚ) ^ 1022 * (1 + (1 / 2 : ℚ) ^ 52) ≤ (1 / 2 : ℚ) ^ 10 * (1 + (1 / 2 : ℚ) ^ 52) :=
      mul_le_mul_of_nonneg_right this (by positivity)
    have h4 : (1 / 2 : ℚ) ^ 10 * (1 + (1 / 2 : ℚ) ^ 52) < 1 / 50 := by norm_num
    exact not_lt.2 (le_trans h3 (le_trans h4.le h1))
  obtain ⟨d1, e1, hs, s1, s2, s3, s4, s5, s6⟩ := scale_spec (e := e) h1 h2 hg
  have hk7 : (e1 % 8).toNat ≤ 7 := by omega
  obtain ⟨d2, ha⟩ := align_spec (e1 % 8).toNat 0 d1 e1 s1 s2 s3
  obtain ⟨a1, a2, a3, a4, a5⟩ := ha.resolve_right (by omega)
  rw [zero_add] at a3
  have a3' := le_trans a3 (capAt_mono_le hk7)
  obtain ⟨n1, m1, m2, m3, m4, m5, m6, m7, m8, m9⟩ := mant_step (by linarith) a3' a4
  obtain ⟨n2, k1, k2, k3, k4, k5, k6, k7, k8, k9⟩ := mant_step m6 m7 m8
  obtain ⟨n3, j1, j2, j3, j4, _⟩ := mant_step k6 k7 k8
  have hlimbs : mantLimbs 3 d2 = [n1, n2, n3] := by
    simp only [mantLimbs, m1, k1, j1]
  have hmk : ofMantExp c d e = mkLimbs c [n1, n2, n3] (e1 - ((e1 % 8).toNat : ℤ)) false := by
    unfold ofMantExp
    rw [if_neg hsmall]
    have hb : decide (d < 0) = false := decide_eq_false (by linarith)
    simp only [hb, Bool.false_eq_true, if_false, hs, a1, hlimbs]
  have hexp : (8 : ℤ) ∣ e1 - ((e1 % 8).toNat : ℤ) := by omega
  have hwf := mkLimbs_WF (c := c) (l := [n1, n2, n3]) (e := e1 - ((e1 % 8).toNat : ℤ)) (b := false)
    (by intro y hy; simp at hy; rcases hy with rfl | rfl | rfl <;> assumption) hexp
    (by simp; have := m5 a2; omega)
  rw [hmk]
  refine ⟨hwf.1, hwf.2, rfl, rfl, ?_, ?_, ?_⟩
  · rw [mkLimbs_exp]; omega
  · rw [mkLimbs_exp]; omega
  · rw [mag_mk3]
    generalize e1 - ((e1 % 8).toNat : ℤ) = e2 at *
    generalize ((e1 % 8).toNat) = kk at *
    have hkk : (kk : ℚ) ≤ 7 := by exact_mod_cast hk7
    generalize rnd (rnd (d2 - n1) * 100000000) = f1 at *
    generalize rnd (rnd (f1 - n2) * 100000000) = f2 at *
    have hP := p10_pos e2
    have near1 : Near (7 / 10 ^ 16) ((n1 : ℚ) + (n2 : ℚ) / 100000000 + (n3 : ℚ) / 100000000 / 100000000) d2 := by
      unfold Near
      have : 7 / 10 ^ 16 ≤ 7 / 10 ^ 16 * d2 := by
        rw [le_mul_iff_one_le_right (by norm_num)]; exact a2
      apply le_trans _ this
      rw [abs_le] at *
      constructor <;> linarith [m9.1, m9.2, k9.1, k9.2]
    have near2 := near1.mul hP.le
    have hB : 0 ≤ d * (10 : ℚ) ^ e := mul_nonneg (by linarith) (p10_pos _).le
    have near3 := a5.trans s6 hB (by positivity) (by norm_num)
    have near4 : Near (61 / 10 ^ 16) (d2 * (10 : ℚ) ^ e2) (d * (10 : ℚ) ^ e) := near3.weaken hB (by linarith)
    exact (near2.trans near4 hB (by norm_num) (by norm_num)).weaken hB (by norm_num)

end EFX
