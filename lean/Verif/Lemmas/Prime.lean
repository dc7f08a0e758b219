import Verif.Model.Prime
import Mathlib.Data.Nat.Prime.Basic
import Mathlib.Data.Nat.Nth
import Mathlib.Data.Nat.Prime.Nth
import Mathlib.Tactic.Linarith
import Mathlib.Tactic.Ring
/-!
# The sieve
-/

namespace EFX

theorem u32_id {x : ℕ} (h : x < 4294967296) : u32 x = x := Nat.mod_eq_of_lt h

/-- The inner loop marks the multiples of `i` from `j` on. -/
theorem crossLoop_spec {limit i : ℕ} (hi : 1 ≤ i) (hl : limit + i ≤ 4294967296) (fuel : ℕ) :
    ∀ (j : ℕ) (s : ℕ → Bool), i ∣ j → 1 ≤ fuel → limit < j + fuel →
    ∃ s', crossLoop limit i fuel j s = some s' ∧
      ∀ k, k < limit → (s' k = true ↔ s k = true ∨ (j ≤ k ∧ i ∣ k)) := by
  induction fuel with
  | zero =>
    intro j s _ h
    omega
  | succ fuel ih =>
    intro j s hd _ hf
    rw [crossLoop]
    by_cases h : j < limit
    · rw [if_pos h, u32_id (by omega)]
      obtain ⟨s', e, hs⟩ := ih (j + i) (fun k => if k = j then true else s k) ((Nat.dvd_add_right hd).2 (dvd_refl i)) (by omega) (by omega)
      refine ⟨s', e, fun k hk => ?_⟩
      rw [hs k hk]
      constructor
      · rintro (h1 | ⟨h1, h2⟩)
        · by_cases hkj : k = j
          · exact Or.inr ⟨hkj.ge, hkj ▸ hd⟩
          · simp only [if_neg hkj] at h1; exact Or.inl h1
        · exact Or.inr ⟨by omega, h2⟩
      · rintro (h1 | ⟨h1, h2⟩)
        · left; simp [h1]
        · by_cases hkj : k = j
          · left; simp [hkj]
          · right
            refine ⟨?_, h2⟩
            obtain ⟨d, hd2⟩ : i ∣ k - j := Nat.dvd_sub h2 hd
            have : d ≠ 0 := by rintro rfl; omega
            have : i ≤ i * d := Nat.le_mul_of_pos_right i (by omega)
            omega
    · rw [if_neg h]
      exact ⟨s, rfl, fun k hk => ⟨Or.inl, fun h' => h'.elim id (fun h'' => absurd h''.1 (by omega))⟩⟩

/-- Numbers with a divisor `d` with `2 <= d < i` and `d * d <= k`. -/
def Marked (i k : ℕ) : Prop := ∃ d, 2 ≤ d ∧ d < i ∧ d ∣ k ∧ d * d ≤ k

theorem sieveLoop_spec {limit f : ℕ} (hl : limit ≤ 65535 * 65535) (hf : limit < f) (fuel : ℕ) :
    ∀ (i : ℕ) (s : ℕ → Bool), 2 ≤ i → i ≤ 65535 → 65535 < i + fuel → (∀ k, k < limit → (s k = true ↔ Marked i k)) →
    ∃ s', sieveLoop limit f fuel i s = some s' ∧ ∃ i', limit ≤ i' * i' ∧ 
      ∀ k, k < limit → (s' k = true ↔ Marked i' k) := by
  induction fuel with
  | zero => intro i s _ h1 h2; omega
  | succ fuel ih =>
    intro i s h2 h3 hfu hs
    have hii : i * i ≤ 65535 * 65535 := Nat.mul_le_mul h3 h3
    rw [sieveLoop, u32_id (by omega), u32_id (by omega : i + 1 < 4294967296)]
    by_cases h : i * i < limit
    · rw [if_pos h]
      have hi : i < limit := lt_of_le_of_lt (Nat.le_mul_self i) h
      rw [if_pos hi]
      have hi65 : i + 1 ≤ 65535 := by
        by_contra hc
        have : i = 65535 := by omega
        rw [this] at h; omega
      by_cases hsi : s i = false
      · rw [if_pos hsi]
        obtain ⟨s1, e1, hs1⟩ := crossLoop_spec (limit := limit) (i := i) (by omega) (by omega) f (i * i) s ⟨i, rfl⟩ (by omega) (by omega)
        rw [e1, Option.bind_some]
        refine ih (i + 1) s1 (by omega) hi65 (by omega) (fun k hk => ?_)
        rw [hs1 k hk, hs k hk]
        constructor
        · rintro (⟨d, a, b, c, e⟩ | ⟨a, b⟩)
          · exact ⟨d, a, by omega, c, e⟩
          · exact ⟨i, h2, by omega, b, a⟩
        · rintro ⟨d, a, b, c, e⟩
          by_cases hd : d = i
          · subst hd; exact Or.inr ⟨e, c⟩
          · exact Or.inl ⟨d, a, by omega, c, e⟩
      · rw [if_neg hsi, Option.bind_some]
        refine ih (i + 1) s (by omega) hi65 (by omega) (fun k hk => ?_)
        rw [hs k hk]
        constructor
        · rintro ⟨d, a, b, c, e⟩
          exact ⟨d, a, by omega, c, e⟩
        · rintro ⟨d, a, b, c, e⟩
          by_cases hd : d = i
          · subst hd
            have hm : s d = true := by simpa using hsi
            obtain ⟨g, g1, g2, g3, g4⟩ := (hs d hi).1 hm
            exact ⟨g, g1, g2, dvd_trans g3 c, le_trans g4 (le_trans (Nat.le_mul_self d) e)⟩
          · exact ⟨d, a, by omega, c, e⟩
    · rw [if_neg h]
      exact ⟨s, rfl, i, by omega, hs⟩

theorem marked_iff {i k : ℕ} (hk : 2 ≤ k) (h : k < i * i) : Marked i k ↔ ¬ k.Prime := by
  constructor
  · rintro ⟨d, a, _, c, e⟩ hp
    rcases (Nat.dvd_prime hp).1 c with h1 | h1
    · omega
    · rw [h1] at e; nlinarith
  · intro hp
    have h1 := Nat.minFac_sq_le_self (by omega : 0 < k) hp
    have h2 : 2 ≤ k.minFac := (Nat.minFac_prime (by omega)).two_le
    refine ⟨k.minFac, h2, ?_, Nat.minFac_dvd k, by nlinarith⟩
    by_contra hc
    have : i * i ≤ k.minFac * k.minFac := Nat.mul_le_mul (by omega) (by omega)
    nlinarith

theorem filter_primes (limit : ℕ) (h : 2 ≤ limit) (q : ℕ → Bool) (hq : ∀ k, 2 ≤ k → k < limit → (q k = true ↔ k.Prime)) :
    (List.range' 2 (limit - 2)).filter q = (List.range limit).filter (fun k => k.Prime) := by
  have e : List.range limit = [0, 1] ++ List.range' 2 (limit - 2) := by
    obtain ⟨m, rfl⟩ : ∃ m, limit = 2 + m := ⟨limit - 2, by omega⟩
    rw [List.range_eq_range', Nat.add_sub_cancel_left, List.range'_append_1 |>.symm]
    rfl
  rw [e, List.filter_append]
  have e0 : [0, 1].filter (fun k => decide (Nat.Prime k)) = [] := by
    simp [Nat.not_prime_zero, Nat.not_prime_one]
  rw [e0, List.nil_append]
  apply List.filter_congr
  intro k hk
  rw [List.mem_range'_1] at hk
  have := hq k hk.1 (by omega)
  by_cases hp : k.Prime
  · simp [hp, this.2 hp]
  · simp only [hp, decide_false]
    by_contra hc
    exact hp (this.1 (by simpa using hc))

/-- The first `n` primes below a limit are the first `n` primes. -/
theorem primes_take (limit n : ℕ) (h : n ≤ ((List.range limit).filter (fun k => k.Prime)).length) :
    ((List.range limit).filter (fun k => k.Prime)).take n = (List.range n).map (Nat.nth Nat.Prime) := by
  have hlen : ∀ m : ℕ, ((List.range m).filter (fun k => k.Prime)).length = Nat.count Nat.Prime m := by
    intro m; rw [Nat.count_eq_card_filter_range]; rfl
  have main : ∀ m : ℕ, (List.range m).filter (fun k => k.Prime) = (List.range (Nat.count Nat.Prime m)).map (Nat.nth Nat.Prime) := by
    intro m
    induction m with
    | zero => simp
    | succ m ih =>
      rw [List.range_succ, List.filter_append, ih, Nat.count_succ]
      by_cases hp : m.Prime
      · rw [if_pos hp, List.range_succ, List.map_append]
        simp [hp, Nat.nth_count hp]
      · rw [if_neg hp]; simp [hp]
  rw [hlen] at h
  rw [main, ← List.map_take, List.take_range, min_eq_left h]

end EFX
