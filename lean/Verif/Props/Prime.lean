import Verif.Lemmas.Prime
import Verif.Lemmas.PrimeCount
import Mathlib.Algebra.BigOperators.Group.List.Lemmas
import Mathlib.Data.Nat.PrimeFin
/-!
# C37, C38: generation of primes and factorisation
-/

namespace EFX.Props
open EFX

/-! ## C37 -/

/-- C37.  For every count `n` and every limit up to `65535^2` the generator ends, without access outside of the sieve,
and returns `n` numbers: the primes below the limit in increasing order, then zeros. -/
theorem C37_sieve (fuel n nlim : ℕ) (h1 : 2 ≤ max n nlim) (h2 : max n nlim ≤ 65535 ^ 2) (hf : max n nlim + 65536 ≤ fuel) :
    generator fuel n nlim = some ((List.range n).map (fun i => if i < Nat.count Nat.Prime (max n nlim) then Nat.nth Nat.Prime i else 0)) := by
  obtain ⟨limit, hlim⟩ : ∃ limit, limit = max n nlim := ⟨_, rfl⟩
  unfold generator
  simp only
  rw [← hlim] at h1 h2 hf ⊢
  rw [if_neg (by omega)]
  obtain ⟨s, e, i, hi, hs⟩ := sieveLoop_spec (limit := limit) (f := fuel) (by omega) (by omega) fuel 2 (fun _ => false)
    (le_refl _) (by norm_num) (by omega) (by
      intro k _
      constructor
      · intro h; simp at h
      · rintro ⟨d, a, b, _⟩; omega)
  rw [e, Option.map_some, filter_primes limit h1 _ (by
    intro k k1 k2
    have := (hs k k2).trans (marked_iff k1 (by omega))
    cases hk : s k <;> simp_all)]
  congr 1
  have hlen : ((List.range limit).filter (fun k => k.Prime)).length = Nat.count Nat.Prime limit := by
    rw [Nat.count_eq_card_filter_range]; rfl
  unfold resizeZero
  rw [hlen]
  rcases le_total n (Nat.count Nat.Prime limit) with hn | hn
  · rw [primes_take limit n (by rw [hlen]; exact hn), Nat.sub_eq_zero_of_le hn, List.replicate_zero, List.append_nil]
    apply List.map_congr_left
    intro k hk
    rw [List.mem_range] at hk
    rw [if_pos (by omega)]
  · have hall := primes_take limit (Nat.count Nat.Prime limit) (by rw [hlen])
    rw [List.take_of_length_le (by rw [hlen])] at hall
    rw [List.take_of_length_le (by rw [hlen]; exact hn), hall]
    have e2 : List.range n = List.range (Nat.count Nat.Prime limit) ++ List.range' (Nat.count Nat.Prime limit) (n - Nat.count Nat.Prime limit) := by
      obtain ⟨m, hm⟩ : ∃ m, n = Nat.count Nat.Prime limit + m := ⟨n - Nat.count Nat.Prime limit, by omega⟩
      generalize Nat.count Nat.Prime limit = c at hm
      subst hm
      rw [Nat.add_sub_cancel_left, List.range_eq_range', List.range_eq_range', ← List.range'_append_1, Nat.zero_add]
    rw [e2, List.map_append]
    congr 1
    · apply List.map_congr_left
      intro k hk
      rw [List.mem_range] at hk
      rw [if_pos hk]
    · symm
      rw [List.eq_replicate_iff]
      refine ⟨by simp, ?_⟩
      intro b hb
      rw [List.mem_map] at hb
      obtain ⟨k, hk, rfl⟩ := hb
      rw [List.mem_range'_1] at hk
      rw [if_neg (by omega)]

/-- The table of primes of the library: the first 6550 primes, for every limit from 65582 on (the code computes
68157). -/
theorem primesData_eq (fuel nlim : ℕ) (h1 : 65582 ≤ nlim) (h2 : nlim ≤ 65535 ^ 2) (hf : nlim + 65536 ≤ fuel) :
    primesData fuel nlim = some ((List.range 6550).map (Nat.nth Nat.Prime)) := by
  have hc : 6550 ≤ Nat.count Nat.Prime nlim := by rw [← count_65582]; exact Nat.count_monotone _ h1
  have h6 : 6550 ≤ nlim := by omega
  unfold primesData
  generalize 6550 = N at hc h6 ⊢
  have hm : max N nlim = nlim := max_eq_right h6
  rw [C37_sieve fuel N nlim (by omega) (by omega) (by omega), hm]
  congr 1
  apply List.map_congr_left
  intro k hk
  rw [List.mem_range] at hk
  rw [if_pos (by omega)]

/-- C37.  `prime(n)` returns the first `n` primes whenever there are `n` primes below the limit it computes and the
limit is at most `65535^2`. -/
theorem C37_prime (fuel nlimD nlim n : ℕ) (h1 : 65582 ≤ nlimD) (h2 : nlimD ≤ 65535 ^ 2) (h3 : max n nlim ≤ 65535 ^ 2)
    (hf : nlimD + 65536 ≤ fuel) (hf' : max n nlim + 65536 ≤ fuel) (hn : 6550 ≤ n → n ≤ Nat.count Nat.Prime (max n nlim)) :
    primeFn fuel nlimD nlim n = some ((List.range n).map (Nat.nth Nat.Prime)) := by
  unfold primeFn
  rw [primesData_eq fuel nlimD h1 h2 hf, Option.bind_some, List.length_map, List.length_range]
  by_cases h : n < 6550
  · rw [if_pos h, ← List.map_take, List.take_range, min_eq_left h.le]
  · rw [if_neg h, C37_sieve fuel n nlim (by have := le_max_left n nlim; omega) h3 hf']
    congr 1
    apply List.map_congr_left
    intro k hk
    rw [List.mem_range] at hk
    rw [if_pos (by have := hn (by omega); omega)]

/-- The first 100 primes with the limit of the code for this count, 572. -/
example : generator 70000 100 572 = some ((List.range 100).map (fun i => if i < Nat.count Nat.Prime 572 then Nat.nth Nat.Prime i else 0)) :=
  C37_sieve 70000 100 572 (by norm_num) (by norm_num) (by norm_num)

theorem crossLoop_never (fuel : ℕ) : ∀ (j : ℕ) (s : ℕ → Bool), j % 2 = 0 → j < 4294967296 →
    crossLoop 4294967295 2 fuel j s = none := by
  induction fuel with
  | zero => intro j s _ _; rfl
  | succ fuel ih =>
    intro j s h1 h2
    rw [crossLoop, if_pos (by omega)]
    refine ih _ _ ?_ (Nat.mod_lt _ (by norm_num))
    unfold u32; omega

/-- C37 refuted for the largest limit: the index of the inner loop wraps around and the sieve never ends.  The limit is
reached for every `n` whose estimate exceeds the range of `uint32_t`. -/
theorem C37_limit_refuted (fuel n : ℕ) (hn : n ≤ 4294967295) : generator fuel n 4294967295 = none := by
  unfold generator
  have hm : max n 4294967295 = 4294967295 := max_eq_right hn
  simp only [hm]
  rw [if_neg (by norm_num)]
  cases fuel with
  | zero => rfl
  | succ f =>
    rw [sieveLoop, if_pos (by unfold u32; norm_num), if_pos (by norm_num), if_pos rfl,
      crossLoop_never (f + 1) _ _ (by unfold u32; norm_num) (by unfold u32; norm_num)]
    rfl

/-! ## C38 -/

/-- Division by `p` while possible. -/
theorem divideOut_spec {p : ℕ} (hp : 2 ≤ p) (fuel : ℕ) : ∀ np e, 1 ≤ np → np < 2 ^ fuel → np < 4294967296 →
    ∃ np' k, divideOut p fuel np e = some (np', e + k) ∧ np = p ^ k * np' ∧ 1 ≤ np' ∧ ¬ p ∣ np' := by
  induction fuel with
  | zero => intro np e h1 h2; omega
  | succ fuel ih =>
    intro np e h1 h2 h3
    rw [divideOut, if_neg (by omega)]
    simp only
    have hq : np / p * p ≤ np := Nat.div_mul_le_self np p
    rw [u32_id (by omega)]
    have hdm := Nat.div_add_mod np p
    rw [mul_comm] at hdm
    by_cases h : np - np / p * p = 0
    · rw [if_pos h]
      have hnp : np = np / p * p := by omega
      have hq1 : 1 ≤ np / p := by
        by_contra hc
        have h0 : np / p = 0 := Nat.lt_one_iff.1 (Nat.lt_of_not_le hc)
        rw [h0] at hnp; omega
      have hq2 : np / p * 2 ≤ np := le_trans (Nat.mul_le_mul_left _ hp) hq
      obtain ⟨np', k, e1, e2, e3, e4⟩ := ih (np / p) (e + 1) hq1 (by rw [pow_succ] at h2; omega) (by omega)
      refine ⟨np', k + 1, by rw [e1]; congr 2; omega, ?_, e3, e4⟩
      rw [pow_succ, mul_right_comm, ← e2, ← hnp]
    · rw [if_neg h]
      refine ⟨np, 0, rfl, by simp, h1, ?_⟩
      intro hd
      have := Nat.div_mul_cancel hd
      omega

theorem roundSqrt_le {n p : ℕ} (h : roundSqrt n ≤ p) : n ≤ p * p + p := by
  unfold roundSqrt at h
  have h1 : Nat.sqrt (4 * n) ≤ 2 * p := by omega
  have h2 := Nat.lt_succ_sqrt (4 * n)
  have h3 : (Nat.sqrt (4 * n)).succ * (Nat.sqrt (4 * n)).succ ≤ (2 * p + 1) * (2 * p + 1) := Nat.mul_le_mul (by omega) (by omega)
  have h4 : (2 * p + 1) * (2 * p + 1) = 4 * (p * p + p) + 1 := by ring
  omega

theorem nth_mono : StrictMono (Nat.nth Nat.Prime) := Nat.nth_strictMono Nat.infinite_setOfPred_prime

theorem prime_nth (k : ℕ) : (Nat.nth Nat.Prime k).Prime := Nat.nth_mem_of_infinite Nat.infinite_setOfPred_prime k

/-- What a factorisation is: pairs of a prime and a positive exponent with increasing primes, possibly followed by
the pair `(1, 1)`, with product `n`. -/
def IsFactorisation (n : ℕ) (l : List (ℕ × ℕ)) : Prop :=
  (l.map (fun x => x.1 ^ x.2)).prod = n ∧
  ∃ r, (l = r ∨ l = r ++ [(1, 1)]) ∧ (∀ x ∈ r, x.1.Prime ∧ 1 ≤ x.2) ∧ r.Pairwise (fun x y => x.1 < y.1)

theorem prime_of_no_small {m p : ℕ} (h1 : m / p ≤ p) (hp : 1 ≤ p) (hm : m ≠ 1) (hm0 : 1 ≤ m) (h : ∀ q, q.Prime → q ≤ p → ¬ q ∣ m) :
    m.Prime ∧ p < m := by
  have hlt : m < p * (p + 1) := by
    have := Nat.lt_mul_div_succ m (by omega : 0 < p)
    exact lt_of_lt_of_le this (Nat.mul_le_mul_left _ (by omega))
  have hmf : p < m.minFac := by
    by_contra hc
    exact h _ (Nat.minFac_prime hm) (by omega) (Nat.minFac_dvd m)
  constructor
  · by_contra hp'
    have := Nat.minFac_sq_le_self (by omega : 0 < m) hp'
    have h3 : (p + 1) * (p + 1) ≤ m.minFac * m.minFac := Nat.mul_le_mul (by omega) (by omega)
    nlinarith
  · exact lt_of_lt_of_le hmf (Nat.minFac_le (by omega))

theorem factorsLoop_spec {n sq : ℕ} (hn : n < 4294967296) (hsq : ∀ p, p ≥ sq → n ≤ p * p + p) (m : ℕ) : ∀ (k np : ℕ) (pf : List (ℕ × ℕ)),
    65536 ≤ Nat.nth Nat.Prime (k + m) → 1 ≤ np → np ≤ n → (∀ q, q.Prime → q < Nat.nth Nat.Prime k → ¬ q ∣ np) →
    ∃ r np', factorsLoop sq ((List.range' k (m + 1)).map (Nat.nth Nat.Prime)) np pf = some (pf ++ r ++ [(np', 1)]) ∧
      np = (r.map (fun x => x.1 ^ x.2)).prod * np' ∧ (∀ x ∈ r, x.1.Prime ∧ 1 ≤ x.2 ∧ Nat.nth Nat.Prime k ≤ x.1) ∧
      r.Pairwise (fun x y => x.1 < y.1) ∧ (np' = 1 ∨ np'.Prime ∧ Nat.nth Nat.Prime k < np' ∧ ∀ x ∈ r, x.1 < np') := by
  induction m with
  | zero => ?_
  | succ m ih => ?_
  all_goals
    intro k np pf hlast h1 h2 hq
    obtain ⟨p, hpdef⟩ : ∃ p, p = Nat.nth Nat.Prime k := ⟨_, rfl⟩
    have hpp : p.Prime := by rw [hpdef]; exact prime_nth k
    have hp2 := hpp.two_le
    rw [List.range'_succ, List.map_cons, factorsLoop, ← hpdef]
    obtain ⟨np1, e, d1, d2, d3, d4⟩ := divideOut_spec hp2 33 np 0 h1 (by omega) (by omega)
    rw [d1, Option.bind_some]
    simp only
    have hle : np1 ≤ np := by rw [d2]; exact Nat.le_mul_of_pos_left _ (by positivity)
    have hnone : ∀ q, q.Prime → q ≤ p → ¬ q ∣ np1 := by
      intro q q1 q2 q3
      rcases Nat.lt_or_eq_of_le q2 with h | h
      · exact hq q q1 (by rw [← hpdef]; exact h) (by rw [d2]; exact dvd_mul_of_dvd_right q3 _)
      · exact d4 (h ▸ q3)
    obtain ⟨r0, hr0⟩ : ∃ r0, r0 = (if e = 0 then ([] : List (ℕ × ℕ)) else [(p, e)]) := ⟨_, rfl⟩
    have hpf : (if 0 + e = 0 then pf else pf ++ [(p, 0 + e)]) = pf ++ r0 := by
      rw [hr0, Nat.zero_add]; split <;> simp
    have hprod : (r0.map (fun x => x.1 ^ x.2)).prod = p ^ e := by
      rw [hr0]; split
      · rename_i h; simp [h]
      · simp
    have hr0p : ∀ x ∈ r0, x.1.Prime ∧ 1 ≤ x.2 ∧ x.1 = p := by
      intro x hx
      rw [hr0] at hx
      split at hx
      · simp at hx
      · rw [List.mem_singleton] at hx; subst hx; exact ⟨hpp, by simp; omega, rfl⟩
    have hr0w : r0.Pairwise (fun x y => x.1 < y.1) := by
      rw [hr0]; split <;> simp
    rw [hpf]
    have stop : np1 / p ≤ p → ∃ r np', some (pf ++ r0 ++ [(np1, 1)]) = some (pf ++ r ++ [(np', 1)]) ∧
        np = (r.map (fun x => x.1 ^ x.2)).prod * np' ∧ (∀ x ∈ r, x.1.Prime ∧ 1 ≤ x.2 ∧ p ≤ x.1) ∧
        r.Pairwise (fun x y => x.1 < y.1) ∧ (np' = 1 ∨ np'.Prime ∧ p < np' ∧ ∀ x ∈ r, x.1 < np') := by
      intro hc
      refine ⟨r0, np1, rfl, by rw [hprod]; exact d2, fun x hx => ⟨(hr0p x hx).1, (hr0p x hx).2.1, (hr0p x hx).2.2.ge⟩, hr0w, ?_⟩
      by_cases h1' : np1 = 1
      · exact Or.inl h1'
      · obtain ⟨g1, g2⟩ := prime_of_no_small hc (by omega) h1' d3 hnone
        exact Or.inr ⟨g1, g2, fun x hx => by rw [(hr0p x hx).2.2]; exact g2⟩
  · have hc : np1 / p ≤ p := by
      rw [Nat.add_zero, ← hpdef] at hlast
      have : np1 / p < p + 1 := by
        rw [Nat.div_lt_iff_lt_mul (by omega)]
        nlinarith
      omega
    rw [if_pos hc]
    exact stop hc
  · by_cases hc : np1 / p ≤ p
    · rw [if_pos hc]; exact stop hc
    · rw [if_neg hc]
      have hbig : p * (p + 1) ≤ np1 := by
        rw [mul_comm]
        exact (Nat.le_div_iff_mul_le (by omega)).1 (by omega)
      rw [if_neg (by
        rintro (h | h)
        · rw [h] at hbig; nlinarith
        · have h5 := hsq p h
          have : np1 = p * (p + 1) := by nlinarith
          exact d4 ⟨p + 1, this⟩)]
      have hmono : Nat.nth Nat.Prime k < Nat.nth Nat.Prime (k + 1) := nth_mono (by omega)
      obtain ⟨r, np', a1, a2, a3, a4, a5⟩ := ih (k + 1) np1 (pf ++ r0) (by rw [show k + 1 + m = k + (m + 1) by omega]; exact hlast) d3
        (by omega) (by
          intro q q1 q2
          apply hnone q q1
          by_contra hcon
          rw [not_le, hpdef] at hcon
          have h6 : Nat.nth Nat.Prime (Nat.count Nat.Prime q) = q := Nat.nth_count q1
          rcases Nat.lt_or_ge k (Nat.count Nat.Prime q) with h7 | h7
          · have h8 := nth_mono.monotone h7
            simp only [Nat.succ_eq_add_one] at h8
            omega
          · have h8 := nth_mono.monotone h7
            omega)
      refine ⟨r0 ++ r, np', by rw [a1]; simp, ?_, ?_, ?_, ?_⟩
      · rw [List.map_append, List.prod_append, hprod, mul_assoc, ← a2]; exact d2
      · intro x hx
        rw [List.mem_append] at hx
        rcases hx with hx | hx
        · exact ⟨(hr0p x hx).1, (hr0p x hx).2.1, (hr0p x hx).2.2.ge⟩
        · obtain ⟨b1, b2, b3⟩ := a3 x hx
          exact ⟨b1, b2, by omega⟩
      · rw [List.pairwise_append]
        refine ⟨hr0w, a4, ?_⟩
        intro x hx y hy
        have := (a3 y hy).2.2
        rw [(hr0p x hx).2.2]; omega
      · rcases a5 with a5 | ⟨b1, b2, b3⟩
        · exact Or.inl a5
        · refine Or.inr ⟨b1, by omega, fun x hx => ?_⟩
          rw [List.mem_append] at hx
          rcases hx with hx | hx
          · rw [(hr0p x hx).2.2]; omega
          · exact b3 x hx

theorem nth_6549 : 65536 ≤ Nat.nth Nat.Prime 6549 := by
  exact (Nat.count_le_iff_le_nth Nat.infinite_setOfPred_prime).1 (by rw [count_65536]; omega)

theorem factors_spec {n : ℕ} (h1 : 1 ≤ n) (h2 : n < 4294967296) :
    ∃ l, factors ((List.range 6550).map (Nat.nth Nat.Prime)) n = some l ∧ IsFactorisation n l := by
  unfold factors
  rw [List.range_eq_range']
  obtain ⟨r, np', a1, a2, a3, a4, a5⟩ := factorsLoop_spec (n := n) (sq := roundSqrt n) h2 (fun p hp => roundSqrt_le hp) 6549 0 n []
    (by rw [Nat.zero_add]; exact nth_6549) h1 (le_refl _) (by
      intro q q1 q2
      rw [Nat.nth_prime_zero_eq_two] at q2
      have := q1.two_le
      omega)
  refine ⟨_, a1, ?_, ?_⟩
  · simp only [List.nil_append, List.map_append, List.prod_append]
    simp
    exact a2.symm
  · rcases a5 with a5 | ⟨b1, b2, b3⟩
    · exact ⟨r, Or.inr (by rw [a5]; rfl), fun x hx => ⟨(a3 x hx).1, (a3 x hx).2.1⟩, a4⟩
    · refine ⟨r ++ [(np', 1)], Or.inl rfl, ?_, ?_⟩
      · intro x hx
        rw [List.mem_append, List.mem_singleton] at hx
        rcases hx with hx | rfl
        · exact ⟨(a3 x hx).1, (a3 x hx).2.1⟩
        · exact ⟨b1, le_refl _⟩
      · rw [List.pairwise_append]
        refine ⟨a4, by simp, ?_⟩
        intro x hx y hy
        rw [List.mem_singleton] at hy
        subst hy
        exact b3 x hx

/-- Entries of the table of small factorisations. -/
theorem factorsTable_spec (m : ℕ) (count : ℕ) : ∀ (i k : ℕ), i + count ≤ Nat.nth Nat.Prime (k + m) → 1 ≤ i → i + count ≤ 4294967296 →
    (∀ q, q.Prime → i ≤ q → Nat.nth Nat.Prime k ≤ q) → i ≤ Nat.nth Nat.Prime k → k + m = 6549 →
    ∃ t, factorsTable ((List.range 6550).map (Nat.nth Nat.Prime)) count i ((List.range' k (m + 1)).map (Nat.nth Nat.Prime)) = some t ∧
      t.length = count ∧ ∀ j (h : j < t.length), IsFactorisation (i + j) t[j] := by
  induction count generalizing m with
  | zero => intro i k _ _ _ _ _ _; exact ⟨[], rfl, rfl, fun j h => absurd h (by simp)⟩
  | succ count ih =>
    intro i k h1 h2 h3 h4 h5 h6
    rw [factorsTable, List.range'_succ, List.map_cons, List.head?_cons]
    by_cases hi : Nat.nth Nat.Prime k = i
    · rw [if_pos (by rw [hi])]
      have hip : i.Prime := by rw [← hi]; exact prime_nth k
      have hm : m ≠ 0 := by
        rintro rfl
        have e0 : k + 0 = k := rfl
        rw [e0] at h1; omega
      obtain ⟨m', rfl⟩ := Nat.exists_eq_succ_of_ne_zero hm
      have hstep : Nat.nth Nat.Prime k < Nat.nth Nat.Prime (k + 1) := nth_mono (by omega)
      obtain ⟨t, e, e1, e2⟩ := ih m' (i + 1) (k + 1) (by rw [show k + 1 + m' = k + m'.succ by omega]; omega) (by omega) (by omega) (by
        intro q q1 q2
        have h6 : Nat.nth Nat.Prime (Nat.count Nat.Prime q) = q := Nat.nth_count q1
        rw [← h6]
        apply nth_mono.monotone
        by_contra hc
        have h8 := nth_mono.monotone (by omega : Nat.count Nat.Prime q ≤ k)
        omega) (by omega) (by omega)
      rw [List.tail_cons, e]
      refine ⟨[(i, 1)] :: t, rfl, by simp [e1], ?_⟩
      intro j hj
      cases j with
      | zero =>
        simp only [List.getElem_cons_zero, Nat.add_zero]
        exact ⟨by simp, [(i, 1)], Or.inl rfl, by simp [hip], by simp⟩
      | succ j =>
        simp only [List.getElem_cons_succ]
        have := e2 j (by simpa using hj)
        rwa [show i + 1 + j = i + (j + 1) by omega] at this
    · rw [if_neg (by simpa using hi)]
      obtain ⟨l, el, hl⟩ := factors_spec (n := i) (by omega) (by omega)
      rw [el, Option.bind_some]
      obtain ⟨t, e, e1, e2⟩ := ih m (i + 1) k (by omega) (by omega) (by omega) (by
        intro q q1 q2
        exact h4 q q1 (by omega)) (by omega) h6
      rw [List.range'_succ, List.map_cons] at e
      rw [e]
      refine ⟨l :: t, rfl, by simp [e1], ?_⟩
      intro j hj
      cases j with
      | zero => simpa using hl
      | succ j =>
        simp only [List.getElem_cons_succ]
        have := e2 j (by simpa using hj)
        rwa [show i + 1 + j = i + (j + 1) by omega] at this

/-- C38.  For every `n` from 1 to `2^32 - 1` and every table limit from 65582 to `65535^2` the factorisation ends
without division by zero and returns the prime factors of `n` in increasing order with their exponents, possibly
followed by the pair `(1, 1)`; the product is `n`. -/
theorem C38_factors (fuel nlim n : ℕ) (hl : 65582 ≤ nlim) (hl' : nlim ≤ 65535 ^ 2) (hf : nlim + 65536 ≤ fuel)
    (h1 : 1 ≤ n) (h2 : n < 2 ^ 32) :
    ∃ l, (primesData fuel nlim).bind (fun data => primeFactors data n) = some l ∧ IsFactorisation n l := by
  rw [primesData_eq fuel nlim hl hl' hf, Option.bind_some]
  unfold primeFactors
  by_cases h : n < 10000
  · rw [if_pos h]
    have n0 : Nat.nth Nat.Prime 0 = 2 := Nat.nth_prime_zero_eq_two
    have n1 : Nat.nth Nat.Prime 1 = 3 := by
      have := Nat.nth_count (p := Nat.Prime) (show Nat.Prime 3 by norm_num)
      rwa [show Nat.count Nat.Prime 3 = 1 by decide +kernel] at this
    have n2 : Nat.nth Nat.Prime 2 = 5 := by
      have := Nat.nth_count (p := Nat.Prime) (show Nat.Prime 5 by norm_num)
      rwa [show Nat.count Nat.Prime 5 = 2 by decide +kernel] at this
    have hdrop : ((List.range 6550).map (Nat.nth Nat.Prime)).dropWhile (· ≠ 5) = (List.range' 2 (6547 + 1)).map (Nat.nth Nat.Prime) := by
      rw [List.range_eq_range', show (6550 : ℕ) = 6547 + 1 + 1 + 1 by norm_num, List.range'_succ, List.range'_succ, List.range'_succ]
      simp only [List.map_cons, List.dropWhile_cons, n0, n1, n2, Nat.zero_add, Nat.reduceAdd]
      simp
    rw [hdrop]
    have h49 := nth_6549
    obtain ⟨t, e, e1, e2⟩ := factorsTable_spec 6547 9996 4 2 (by norm_num; omega) (by omega) (by omega) (by
      intro q q1 q2
      rw [n2]
      by_contra hc
      have : q = 4 := by omega
      rw [this] at q1
      exact absurd q1 (by norm_num)) (by rw [n2]; omega) (by omega)
    rw [e, Option.bind_some]
    have hlen : n < ([[(0, 1)], [(1, 1)], [(2, 1)], [(3, 1)]] ++ t).length := by simp [e1]; omega
    refine ⟨([[(0, 1)], [(1, 1)], [(2, 1)], [(3, 1)]] ++ t)[n], List.getElem?_eq_getElem hlen, ?_⟩
    by_cases h4 : 4 ≤ n
    · rw [List.getElem_append_right (by simpa using h4)]
      have := e2 (n - 4) (by omega)
      rw [show 4 + (n - 4) = n by omega] at this
      simpa using this
    · have hn : n = 1 ∨ n = 2 ∨ n = 3 := by omega
      rcases hn with rfl | rfl | rfl
      · exact ⟨by simp, [], Or.inr rfl, by simp, by simp⟩
      · exact ⟨by simp, [(2, 1)], Or.inl rfl, by simp [Nat.prime_two], by simp⟩
      · exact ⟨by simp, [(3, 1)], Or.inl rfl, by simp [Nat.prime_three], by simp⟩
  · rw [if_neg h]
    exact factors_spec h1 (by omega)

/-- `720720 = 2^4 3^2 5 7 11 13`, with the limit of the code. -/
example : ∃ l, (primesData 200000 68157).bind (fun data => primeFactors data 720720) = some l ∧ IsFactorisation 720720 l :=
  C38_factors 200000 68157 720720 (by norm_num) (by norm_num) (by norm_num) (by norm_num) (by norm_num)

/-- The specification determines the factors. -/
example : IsFactorisation 12 [(2, 2), (3, 1)] ∧ IsFactorisation 4 [(2, 2), (1, 1)] ∧ ¬ IsFactorisation 12 [(4, 1), (3, 1)] := by
  refine ⟨⟨by norm_num, [(2, 2), (3, 1)], Or.inl rfl, by simp [Nat.prime_two, Nat.prime_three], by simp⟩,
    ⟨by norm_num, [(2, 2)], Or.inr rfl, by simp [Nat.prime_two], by simp⟩, ?_⟩
  rintro ⟨_, r, hr, hp, _⟩
  rcases hr with hr | hr
  · have := (hp (4, 1) (by rw [← hr]; simp)).1
    exact absurd this (by norm_num)
  · have h2 := congrArg List.reverse hr
    simp at h2

end EFX.Props
