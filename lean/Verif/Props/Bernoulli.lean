import Verif.Model.Special
import Verif.Lemmas.RealArith
import Verif.Lemmas.Tangent
import Verif.Props.FnValid
/-! C74: the table of Bernoulli numbers. -/

namespace EFX

theorem loopUp_inv {σ : Type} {f : ℕ → σ → Option σ} (P : ℕ → σ → Prop) :
    ∀ (cnt k : ℕ) (s : σ), P k s → (∀ i s, k ≤ i → i < k + cnt → P i s → ∃ s', f i s = some s' ∧ P (i + 1) s') →
      ∃ s', Fn.loopUp f cnt k s = some s' ∧ P (k + cnt) s'
  | 0, k, s, h, _ => ⟨s, rfl, h⟩
  | cnt + 1, k, s, h, hf => by
    obtain ⟨s1, h1, h2⟩ := hf k s (le_refl _) (by omega) h
    obtain ⟨s2, h3, h4⟩ := loopUp_inv P cnt (k + 1) s1 h2 (fun i s a b c => hf i s (by omega) (by omega) c)
    refine ⟨s2, ?_, by rwa [show k + (cnt + 1) = k + 1 + cnt by omega]⟩
    rw [Fn.loopUp, h1]
    exact h3

/-- `v` holds the values of `g` at `0 … n - 1`. -/
def Holds {α : Type} (v : List α) (n : ℕ) (g : ℕ → α) : Prop := v.length = n ∧ ∀ i, i < n → v[i]? = some (g i)

theorem Holds.put {α : Type} {v : List α} {n : ℕ} {g : ℕ → α} (h : Holds v n g) {i : ℕ} (hi : i < n) (x : α) :
    ∃ w, Fn.put v i x = some w ∧ Holds w n (fun j => if j = i then x else g j) := by
  refine ⟨v.set i x, by rw [Fn.put, if_pos (by rw [h.1]; exact hi)], by rw [List.length_set, h.1], ?_⟩
  intro j hj
  rw [List.getElem?_set]
  show _ = some (if j = i then x else g j)
  by_cases e : i = j
  · rw [if_pos e, if_pos (by rw [h.1]; omega), if_pos e.symm]
  · rw [if_neg e, if_neg (Ne.symm e)]
    exact h.2 j hj

theorem Holds.congr {α : Type} {v : List α} {n : ℕ} {g g' : ℕ → α} (h : Holds v n g) (e : ∀ i, i < n → g i = g' i) : Holds v n g' :=
  ⟨h.1, fun i hi => by rw [h.2 i hi, e i hi]⟩

theorem holds_replicate {α : Type} (n : ℕ) (x : α) : Holds (List.replicate n x) n (fun _ => x) :=
  ⟨List.length_replicate, fun i hi => by rw [List.getElem?_replicate, if_pos hi]⟩

/-- Contents of the vector of tangent numbers after stage `k`. -/
noncomputable def tanStage (k j : ℕ) : ℝ := if j = 0 then 0 else (tanCoef (j + min k j - 2) (j - min k j + 1) : ℝ)

theorem tanStage_rec {k j : ℕ} (hk : 2 ≤ k) (hj : k ≤ j) :
    tanStage k j = tanStage k (j - 1) * ((j : ℝ) - k) + tanStage (k - 1) j * ((j : ℝ) - k + 2) := by
  unfold tanStage
  rw [if_neg (by omega), if_neg (by omega), if_neg (by omega), min_eq_left hj, min_eq_left (by omega : k - 1 ≤ j)]
  obtain ⟨d, rfl⟩ : ∃ d, j = k + d := ⟨j - k, by omega⟩
  rw [show k + d + k - 2 = (k + d + k - 3) + 1 by omega, tanCoef, show k + d - k + 1 = d + 1 by omega, show d + 1 - 1 = d by omega,
    show k + d + (k - 1) - 2 = k + d + k - 3 by omega, show k + d - (k - 1) + 1 = d + 1 + 1 by omega]
  rcases Nat.eq_zero_or_pos d with rfl | hd
  · push_cast
    ring
  · rw [min_eq_left (by omega : k ≤ k + d - 1), show k + d - 1 + k - 2 = k + d + k - 3 by omega,
      show k + d - 1 - k + 1 = d by omega]
    push_cast
    ring

end EFX

namespace EFX.Props
open EFX

/-- The vector of tangent numbers after the first two loops. -/
theorem tangent_loops (E : RealEnv) {m : ℕ} (hm : 1 ≤ m) {t : List ℝ} (ht : Holds t (m + 1) (fun j => if j = 1 then 1 else 0)) :
    ∃ t1 t2, Fn.loopUp (Fn.tanInit (realArith E)) (m - 1) 2 t = some t1 ∧
      Fn.loopUp (fun k t => Fn.loopUp (Fn.tanStep (realArith E) k) (m + 1 - k) k t) (m - 1) 2 t1 = some t2 ∧
      Holds t2 (m + 1) (tanStage m) := by
  obtain ⟨t1, e1, h1⟩ := loopUp_inv (f := Fn.tanInit (realArith E))
    (fun k t => Holds t (m + 1) (fun j => if j < k then tanStage 1 j else 0)) (m - 1) 2 t
    (ht.congr (fun i _ => by
      unfold tanStage
      rcases (by omega : i = 0 ∨ i = 1 ∨ 2 ≤ i) with rfl | rfl | h
      · simp
      · simp [tanCoef]
      · rw [if_neg (by omega), if_neg (by omega)]))
    (by
      intro k s hk hk2 hs
      unfold Fn.tanInit
      have r := hs.2 (k - 1) (by omega)
      rw [r]
      simp only [Option.bind_eq_bind, Option.bind_some, ra_mulI]
      obtain ⟨w, hw, hw2⟩ := hs.put (i := k) (by omega) ((if k - 1 < k then tanStage 1 (k - 1) else 0) * (((k : ℤ) - 1 : ℤ) : ℝ))
      refine ⟨w, hw, hw2.congr (fun i _ => ?_)⟩
      rw [if_pos (by omega : k - 1 < k)]
      by_cases hi : i = k
      · rw [if_pos hi, if_pos (by omega), hi]
        unfold tanStage
        rw [if_neg (by omega), if_neg (by omega), min_eq_left (by omega : 1 ≤ k), min_eq_left (by omega : 1 ≤ k - 1),
          show k + 1 - 2 = k - 1 by omega, show k - 1 + 1 - 2 = k - 2 by omega,
          show k - 1 - 1 + 1 = (k - 2) + 1 by omega, (tanCoef_top _).2, (tanCoef_top _).2]
        obtain ⟨d, rfl⟩ : ∃ d, k = d + 2 := ⟨k - 2, by omega⟩
        rw [show d + 2 - 1 = d + 1 by omega, show d + 2 - 2 = d by omega, Nat.factorial_succ]
        push_cast
        ring
      · rw [if_neg hi]
        by_cases h2 : i < k
        · rw [if_pos h2, if_pos (by omega)]
        · rw [if_neg h2, if_neg (by omega)])
  have h1' : Holds t1 (m + 1) (tanStage 1) := h1.congr (fun i hi => by rw [if_pos (by omega)])
  obtain ⟨t2, e2, h2⟩ := loopUp_inv (f := fun k t => Fn.loopUp (Fn.tanStep (realArith E) k) (m + 1 - k) k t)
    (fun k t => Holds t (m + 1) (tanStage (k - 1))) (m - 1) 2 t1 h1'
    (by
      intro k s hk hk2 hs
      obtain ⟨w, hw, hw2⟩ := loopUp_inv (f := Fn.tanStep (realArith E) k)
        (fun j t => Holds t (m + 1) (fun i => if i < j then tanStage k i else tanStage (k - 1) i)) (m + 1 - k) k s
        (hs.congr (fun i _ => by
          by_cases h : i < k
          · rw [if_pos h]
            unfold tanStage
            rw [min_eq_right (by omega : i ≤ k - 1), min_eq_right (by omega : i ≤ k)]
          · rw [if_neg h]))
        (by
          intro j s hj hj2 hs
          unfold Fn.tanStep
          rw [hs.2 (j - 1) (by omega), hs.2 j (by omega)]
          simp only [Option.bind_eq_bind, Option.bind_some, ra_mulI, ra_add]
          rw [if_pos (by omega), if_neg (by omega)]
          obtain ⟨w, hw, hw2⟩ := hs.put (i := j) (by omega) (tanStage k (j - 1) * (((j : ℤ) - k : ℤ) : ℝ) +
            tanStage (k - 1) j * (((j : ℤ) - k + 2 : ℤ) : ℝ))
          refine ⟨w, hw, hw2.congr (fun i _ => ?_)⟩
          by_cases hi : i = j
          · rw [if_pos hi, if_pos (by omega), hi, tanStage_rec hk hj]
            push_cast
            ring
          · rw [if_neg hi]
            by_cases h2 : i < j
            · rw [if_pos h2, if_pos (by omega)]
            · rw [if_neg h2, if_neg (by omega)])
      exact ⟨w, hw, hw2.congr (fun i hi => by rw [if_pos (by omega), show k + 1 - 1 = k by omega])⟩)
  exact ⟨t1, t2, e1, e2, h2.congr (fun i _ => by rw [show 2 + (m - 1) - 1 = m by omega])⟩

theorem tanStage_final {m i : ℕ} (hi : 1 ≤ i) (hm : i ≤ m) : tanStage m i = tanCoef (2 * i - 2) 1 := by
  unfold tanStage
  rw [if_neg (by omega), min_eq_right hm, show i + i - 2 = 2 * i - 2 by omega, show i - i + 1 = 1 by omega]

/-- C74: in exact arithmetic `bernoulli_table` yields the Bernoulli numbers `B_0 … B_n` (and one more for odd `n`), for
every `n` from one on within the range of the indices. -/
theorem C74_bernoulli_table (E : RealEnv) {n : ℕ} (h1 : 1 ≤ n) (h2 : n < 2147483647) :
    ∃ bn, Fn.bernoulliTable (realArith E) n = some bn ∧ bn.length = n + n % 2 + 1 ∧
      ∀ i, i < bn.length → bn[i]? = some ((bernoulli i : ℚ) : ℝ) := by
  unfold Fn.bernoulliTable
  have hnn : (if n % 2 ≠ 0 then (n + 1) % 4294967296 else n) = n + n % 2 := by
    split <;> omega
  simp only [hnn]
  obtain ⟨m, hm⟩ : ∃ m, n + n % 2 = 2 * m := ⟨(n + n % 2) / 2, by omega⟩
  have m1 : 1 ≤ m := by omega
  rw [hm, show 2 * m / 2 = m by omega, if_neg (by omega)]
  simp only [Option.bind_eq_bind]
  obtain ⟨t0, e0, g0⟩ := (holds_replicate (m + 1) (Fn.zero (realArith E))).put (i := 0) (by omega) (Fn.zero (realArith E))
  obtain ⟨t1, e1, g1⟩ := g0.put (i := 1) (by omega) (Fn.one (realArith E))
  obtain ⟨t2, t3, e2, e3, g3⟩ := tangent_loops E m1 (t := t1) (g1.congr (fun i _ => by simp only [ra_one, ra_zero, ite_self]))
  rw [e0, Option.bind_some, e1, Option.bind_some, e2, Option.bind_some, e3, Option.bind_some, g3.1]
  obtain ⟨s, e4, g4⟩ := loopUp_inv (f := Fn.bernStep (realArith E) t3)
    (fun i (s : List ℝ × ℝ) => Holds s.1 (2 * m + 1) (fun j => if 1 < j ∧ j < 2 * i then ((bernoulli j : ℚ) : ℝ) else 0) ∧ s.2 = (4 : ℝ) ^ i)
    (m + 1 - 1) 1 (List.replicate (2 * m + 1) (Fn.zero (realArith E)), (realArith E).ofI 4)
    ⟨(holds_replicate _ _).congr (fun i _ => by rw [if_neg (by omega), ra_zero]), by rw [ra_ofI]; norm_num⟩
    (by
      rintro i ⟨v, q⟩ hi hi2 ⟨hv, hq⟩
      have hq : q = (4 : ℝ) ^ i := hq
      unfold Fn.bernStep
      rw [if_neg (by omega), g3.2 i (by omega)]
      simp only [Option.bind_eq_bind, Option.bind_some]
      ra_simp
      rw [tanStage_final hi (by omega)]
      -- the value
      have val : (if 2 * i % 4 = 0 then -((tanCoef (2 * i - 2) 1 : ℝ) * (((2 * (i : ℤ)) : ℤ) : ℝ) / (q * q - q))
          else (tanCoef (2 * i - 2) 1 : ℝ) * (((2 * (i : ℤ)) : ℤ) : ℝ) / (q * q - q)) = ((bernoulli (2 * i) : ℚ) : ℝ) := by
        have hb := congrArg (fun x : ℚ => (x : ℝ)) (bernoulli_tangent i hi)
        push_cast at hb
        have q4 : (4 : ℝ) ≤ q := by
          rw [hq]
          calc (4 : ℝ) = 4 ^ 1 := by norm_num
            _ ≤ _ := pow_le_pow_right₀ (by norm_num) hi
        have d0 : q * q - q ≠ 0 := by
          have : 0 < q * (q - 1) := mul_pos (by linarith) (by linarith)
          nlinarith
        rw [← hq] at hb
        by_cases hp : 2 * i % 4 = 0
        · rw [if_pos hp]
          have : ((-1 : ℝ)) ^ (i - 1) = -1 := Odd.neg_one_pow ⟨i / 2 - 1, by omega⟩
          rw [this] at hb
          rw [← neg_div, div_eq_iff d0, hb]
          push_cast
          ring
        · rw [if_neg hp]
          have : ((-1 : ℝ)) ^ (i - 1) = 1 := Even.neg_one_pow ⟨i / 2, by omega⟩
          rw [this] at hb
          rw [div_eq_iff d0, hb]
          push_cast
          ring
      obtain ⟨w, hw, hw2⟩ := hv.put (i := 2 * i) (by omega) ((bernoulli (2 * i) : ℚ) : ℝ)
      refine ⟨(w, q * ((4 : ℤ) : ℝ)), ?_, hw2.congr (fun j hj => ?_), ?_⟩
      · rw [val, hw, Option.bind_some]
      · by_cases h : j = 2 * i
        · rw [if_pos h, if_pos (by omega), h]
        · rw [if_neg h]
          by_cases h3 : 1 < j ∧ j < 2 * i
          · rw [if_pos h3, if_pos (by omega)]
          · rw [if_neg h3]
            by_cases h4 : 1 < j ∧ j < 2 * (i + 1)
            · rw [if_pos h4, bernoulli_eq_zero_of_odd ⟨i, by omega⟩ (by omega), Rat.cast_zero]
            · rw [if_neg h4]
      · show q * ((4 : ℤ) : ℝ) = 4 ^ (i + 1)
        rw [hq, pow_succ]; norm_num)
  rw [e4, Option.bind_some]
  obtain ⟨w, e5, g5⟩ := g4.1.put (i := 0) (by omega) (Fn.one (realArith E))
  obtain ⟨u, e6, g6⟩ := g5.put (i := 1) (by omega) ((realArith E).neg (realArith E).half)
  rw [e5, Option.bind_some, e6]
  refine ⟨u, rfl, g6.1, fun i hi => ?_⟩
  rw [g6.1] at hi
  rw [g6.2 i hi]
  congr 1
  show (if i = 1 then (realArith E).neg (realArith E).half
        else if i = 0 then Fn.one (realArith E) else if 1 < i ∧ i < 2 * (1 + (m + 1 - 1)) then ((bernoulli i : ℚ) : ℝ) else 0) = _
  rcases (by omega : i = 0 ∨ i = 1 ∨ 1 < i) with rfl | rfl | h
  · rw [if_neg (by omega), if_pos rfl, ra_one, bernoulli_zero]; norm_num
  · rw [if_pos rfl, ra_neg, ra_half, bernoulli_one]; norm_num
  · rw [if_neg (by omega), if_neg (by omega), if_pos ⟨h, by omega⟩]

/-- A case: the entries 2 and 4 of the table for `n = 5`. -/
example (E : RealEnv) : ∃ bn, Fn.bernoulliTable (realArith E) 5 = some bn ∧ bn.length = 7 ∧ bn[2]? = some (1 / 6 : ℝ) ∧ bn[4]? = some (-1 / 30 : ℝ) := by
  obtain ⟨bn, h1, h2, h3⟩ := C74_bernoulli_table E (n := 5) (by norm_num) (by norm_num)
  refine ⟨bn, h1, h2, ?_, ?_⟩
  · rw [h3 2 (by omega), bernoulli_two]; norm_num
  · rw [h3 4 (by omega), bernoulli_eq_bernoulli'_of_ne_one (by norm_num), bernoulli'_four]; norm_num

/-- All entries of a vector of length `n` are in `P`. -/
def AllP {α : Type} (P : α → Prop) (n : ℕ) (v : List α) : Prop := v.length = n ∧ ∀ x ∈ v, P x

theorem AllP.put {α : Type} {P : α → Prop} {n : ℕ} {v : List α} (h : AllP P n v) {i : ℕ} (hi : i < n) {x : α} (hx : P x) :
    ∃ w, Fn.put v i x = some w ∧ AllP P n w :=
  ⟨v.set i x, by rw [Fn.put, if_pos (by rw [h.1]; exact hi)], by rw [List.length_set, h.1], fun y hy => by
    rcases List.mem_or_eq_of_mem_set hy with h1 | h1
    · exact h.2 y h1
    · rw [h1]; exact hx⟩

theorem AllP.get {α : Type} {P : α → Prop} {n : ℕ} {v : List α} (h : AllP P n v) {i : ℕ} (hi : i < n) : ∃ x, v[i]? = some x ∧ P x :=
  ⟨v[i]'(by rw [h.1]; exact hi), List.getElem?_eq_getElem _, h.2 _ (List.getElem_mem _)⟩

/-- In every arithmetic the table is defined, has its length, and the entries stay in a set that is closed under the
operations. -/
theorem bernoulliTable_closed {α : Type} {A : Arith α} {P : α → Prop} (h : A.Closed P) {n : ℕ} (h1 : 1 ≤ n) (h2 : n < 2147483647) :
    ∃ bn, Fn.bernoulliTable A n = some bn ∧ AllP P (n + n % 2 + 1) bn := by
  unfold Fn.bernoulliTable
  have hnn : (if n % 2 ≠ 0 then (n + 1) % 4294967296 else n) = n + n % 2 := by
    split <;> omega
  simp only [hnn]
  obtain ⟨m, hm⟩ : ∃ m, n + n % 2 = 2 * m := ⟨(n + n % 2) / 2, by omega⟩
  have m1 : 1 ≤ m := by omega
  rw [hm, show 2 * m / 2 = m by omega, if_neg (by omega)]
  simp only [Option.bind_eq_bind]
  have rep : ∀ k, AllP P k (List.replicate k (Fn.zero A)) := fun k =>
    ⟨List.length_replicate, fun x hx => by rw [List.eq_of_mem_replicate hx]; exact Fn.c_zero h⟩
  obtain ⟨t0, e0, g0⟩ := (rep (m + 1)).put (i := 0) (by omega) (Fn.c_zero h)
  obtain ⟨t1, e1, g1⟩ := g0.put (i := 1) (by omega) (Fn.c_one h)
  obtain ⟨t2, e2, g2⟩ := loopUp_inv (f := Fn.tanInit A) (fun _ t => AllP P (m + 1) t) (m - 1) 2 t1 g1 (by
    intro k s hk hk2 hs
    obtain ⟨x, hx, px⟩ := hs.get (i := k - 1) (by omega)
    unfold Fn.tanInit
    rw [hx]
    exact hs.put (by omega) (h.mulI _ _ px))
  obtain ⟨t3, e3, g3⟩ := loopUp_inv (f := fun k t => Fn.loopUp (Fn.tanStep A k) (m + 1 - k) k t) (fun _ t => AllP P (m + 1) t)
    (m - 1) 2 t2 g2 (by
    intro k s hk hk2 hs
    obtain ⟨w, e, g⟩ := loopUp_inv (f := Fn.tanStep A k) (fun _ t => AllP P (m + 1) t) (m + 1 - k) k s hs (by
      intro j s hj hj2 hs
      obtain ⟨x, hx, px⟩ := hs.get (i := j - 1) (by omega)
      obtain ⟨y, hy, py⟩ := hs.get (i := j) (by omega)
      unfold Fn.tanStep
      rw [hx, hy]
      exact hs.put (by omega) (h.add _ _ (h.mulI _ _ px) (h.mulI _ _ py)))
    exact ⟨w, e, g⟩)
  obtain ⟨s, e4, g4⟩ := loopUp_inv (f := Fn.bernStep A t3) (fun _ (s : List α × α) => AllP P (2 * m + 1) s.1 ∧ P s.2)
    (m + 1 - 1) 1 (List.replicate (2 * m + 1) (Fn.zero A), A.ofI 4) ⟨rep _, h.ofI 4⟩ (by
    rintro i ⟨v, q⟩ hi hi2 ⟨hv, hq⟩
    obtain ⟨x, hx, px⟩ := g3.get (i := i) (by omega)
    unfold Fn.bernStep
    rw [if_neg (by omega), hx]
    simp only [Option.bind_eq_bind, Option.bind_some]
    have hb : P (A.div (A.mulI x (2 * (i : ℤ))) (A.sub (A.mul q q) q)) := h.div _ _ (h.mulI _ _ px) (h.sub _ _ (h.mul _ _ hq hq) hq)
    obtain ⟨w, hw, hw2⟩ := hv.put (i := 2 * i) (by omega) (Fn.c_ite h (p := 2 * i % 4 = 0) (h.neg _ hb) hb)
    exact ⟨(w, A.mulI q 4), by rw [hw]; rfl, hw2, h.mulI _ _ hq⟩)
  obtain ⟨w, e5, g5⟩ := g4.1.put (i := 0) (by omega) (Fn.c_one h)
  obtain ⟨u, e6, g6⟩ := g5.put (i := 1) (by omega) (h.neg _ h.half)
  rw [e0, Option.bind_some, e1, Option.bind_some, e2, Option.bind_some, e3, Option.bind_some, g3.1, e4, Option.bind_some, e5,
    Option.bind_some, e6]
  exact ⟨u, rfl, g6⟩

/-- C74 for e_float: the table is defined, has its length and holds valid numbers. -/
theorem C74_valid {c : Cfg} {T : Tables} (hT : TablesOK c T) {n : ℕ} (h1 : 1 ≤ n) (h2 : n < 2147483647) :
    ∃ bn, Fn.bernoulliTable (efArith c T) n = some bn ∧ bn.length = n + n % 2 + 1 ∧ ∀ x ∈ bn, Spec.WF c x :=
  bernoulliTable_closed (closed_WF hT) h1 h2

/-- C74 refuted at the ends: for `n = 0` (and for `n = 2^32 - 1`, which wraps around to zero) the code writes behind the
vectors, in every arithmetic. -/
theorem C74_bernoulli_table_refuted {α : Type} (A : Arith α) :
    Fn.bernoulliTable A 0 = none ∧ Fn.bernoulliTable A 4294967295 = none := by
  constructor <;> rfl

end EFX.Props
