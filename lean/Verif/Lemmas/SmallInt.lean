import Verif.Lemmas.Limbs
/-! Loops with a built-in integer operand: `mul_loop_n`, `div_loop_n`. -/

namespace EFX
open Spec

theorem mulN_step {u n k : Nat} (hu : u < 100000000) (hn : n < 100000000) (hn1 : 1 ≤ n) (hk : k ≤ n - 1) :
    u * n ≤ 9999999900000000 ∧ k + u * n ≤ 9999999999999999 ∧ (k + u * n) / 100000000 ≤ n - 1 := by
  have h1 : u * n ≤ 99999999 * n := Nat.mul_le_mul_right _ (by omega)
  refine ⟨by omega, by omega, ?_⟩
  have : k + u * n < 100000000 * n := by omega
  have := Nat.div_lt_of_lt_mul this
  omega

theorem mulLoopN_spec {n : Nat} (hn1 : 1 ≤ n) (hn : n < 100000000) {l : List Nat} (hl : OK l) :
    (mulLoopN n l).1.length = l.length ∧ OK (mulLoopN n l).1 ∧ (mulLoopN n l).2 ≤ n - 1 ∧
    lv (mulLoopN n l).1 + (mulLoopN n l).2 * 100000000 ^ l.length = lv l * n := by
  induction l with
  | nil => simp [mulLoopN, OK.nil]
  | cons u l ih =>
    obtain ⟨h1, h2, h3, h4⟩ := ih hl.tail
    obtain ⟨s1, s2, s3⟩ := mulN_step hl.head hn hn1 h3
    rw [mulLoopN]
    simp only
    generalize mulLoopN n l = r at *
    have et : w64 (r.2 + w64 (u * n)) = r.2 + u * n := by
      rw [w64_id (by omega : u * n < _), w64_id (by omega)]
    rw [et]
    generalize hT : r.2 + u * n = T at *
    have ew : w32 (wsub64 T (w64 (mask * (T / mask)))) = T % 100000000 := by
      unfold w32 wsub64 w64 mask; omega
    rw [ew]
    refine ⟨by simp [h1], OK.cons (Nat.mod_lt _ (by norm_num)) h2, by unfold mask; exact s3, ?_⟩
    rw [lv_cons, lv_cons, h1, List.length_cons, pow_succ, maskN, add_mul]
    calc T % 100000000 * 100000000 ^ l.length + lv r.1 + T / 100000000 * (100000000 ^ l.length * 100000000)
        = (100000000 * (T / 100000000) + T % 100000000) * 100000000 ^ l.length + lv r.1 := by ring
      _ = (r.2 + u * n) * 100000000 ^ l.length + lv r.1 := by rw [Nat.div_add_mod, hT]
      _ = u * 100000000 ^ l.length * n + (lv r.1 + r.2 * 100000000 ^ l.length) := by ring
      _ = _ := by rw [h4]

theorem divN_step {u n k : Nat} (hu : u < 100000000) (hn : n < 100000000) (hn1 : 1 ≤ n) (hk : k < n) :
    u + k * 100000000 < 10000000000000000 ∧ (u + k * 100000000) / n < 100000000 ∧
    (u + k * 100000000) = n * ((u + k * 100000000) / n) + (u + k * 100000000) % n ∧
    (u + k * 100000000) % n < n := by
  refine ⟨by omega, ?_, (Nat.div_add_mod _ _).symm, Nat.mod_lt _ (by omega)⟩
  apply Nat.div_lt_of_lt_mul
  have : (k + 1) * 100000000 ≤ n * 100000000 := Nat.mul_le_mul_right _ hk
  omega

theorem divLoopN_spec {n : Nat} (hn1 : 1 ≤ n) (hn : n < 100000000) {l : List Nat} (hl : OK l)
    {k : Nat} (hk : k < n) :
    (divLoopN n l k).1.length = l.length ∧ OK (divLoopN n l k).1 ∧ (divLoopN n l k).2 < n ∧
    lv l + k * 100000000 ^ l.length = n * lv (divLoopN n l k).1 + (divLoopN n l k).2 := by
  induction l generalizing k with
  | nil =>
    have : w32 k = k := w32_id (by omega)
    simp [divLoopN, OK.nil, this, hk]
  | cons u l ih =>
    obtain ⟨s1, s2, s3, s4⟩ := divN_step hl.head hn hn1 hk
    rw [divLoopN]
    simp only
    have et : w64 (u + w64 (k * mask)) = u + k * 100000000 := by
      unfold w64 mask; omega
    rw [et]
    generalize hT : u + k * 100000000 = T at *
    have eq : w32 (T / n) = T / n := w32_id (by omega)
    rw [eq]
    generalize hQ : T / n = Q at *
    have ek : wsub64 T (w64 (n * Q)) = T % n := by
      unfold wsub64 w64
      generalize n * Q = nQ at *
      generalize T % n = R at *
      omega
    rw [ek]
    obtain ⟨h1, h2, h3, h4⟩ := ih hl.tail s4
    generalize divLoopN n l (T % n) = r at *
    refine ⟨by simp [h1], OK.cons s2 h2, h3, ?_⟩
    rw [lv_cons, lv_cons, h1, List.length_cons, pow_succ]
    calc u * 100000000 ^ l.length + lv l + k * (100000000 ^ l.length * 100000000)
        = (u + k * 100000000) * 100000000 ^ l.length + lv l := by ring
      _ = (n * Q + T % n) * 100000000 ^ l.length + lv l := by rw [hT, ← s3]
      _ = n * (Q * 100000000 ^ l.length) + (lv l + T % n * 100000000 ^ l.length) := by ring
      _ = _ := by rw [h4]; ring

end EFX
