import Verif.Model.Elementary
/-! A set of numbers closed under the operations is closed under the elementary functions. -/

namespace EFX
variable {α : Type}

/-- Loops of the integer powers stay in a set closed under multiplication. -/
theorem pownLoop_closed {mul : α → α → α} {P : α → Prop} (hm : ∀ x y, P x → P y → P (mul x y)) :
    ∀ (p : ℕ) (t r : α), P t → P r → P (pownLoop mul p t r) := by
  intro p
  induction p using Nat.strong_induction_on with
  | _ p ih =>
    intro t r ht hr
    rw [pownLoop]
    by_cases h : p / 2 = 0
    · rw [dif_pos h]; exact hr
    · rw [dif_neg h]
      simp only
      apply ih (p / 2) (by omega) _ _ (hm _ _ ht ht)
      by_cases h2 : p / 2 % 2 ≠ 0
      · rw [if_pos h2]; exact hm _ _ hr (hm _ _ ht ht)
      · rw [if_neg h2]; exact hr

theorem pownNat_closed {one : α} {mul : α → α → α} {P : α → Prop} (h1 : P one) (hm : ∀ x y, P x → P y → P (mul x y))
    {t : α} (ht : P t) (p : ℕ) : P (pownNat one mul t p) := by
  unfold pownNat
  split_ifs
  · exact h1
  · exact ht
  · exact hm _ _ ht ht
  · exact hm _ _ (hm _ _ ht ht) ht
  · exact hm _ _ (hm _ _ ht ht) (hm _ _ ht ht)
  · exact pownLoop_closed hm _ _ _ ht ht
  · exact pownLoop_closed hm _ _ _ ht h1

theorem powLoop_closed {mul : α → α → α} {P : α → Prop} (hm : ∀ x y, P x → P y → P (mul x y)) :
    ∀ (p : ℕ) (t r : α), P t → P r → P (powLoop mul p t r) := by
  intro p
  induction p using Nat.strong_induction_on with
  | _ p ih =>
    intro t r ht hr
    rw [powLoop]
    by_cases h : p = 0
    · rw [dif_pos h]; exact hr
    · rw [dif_neg h]
      apply ih (p / 2) (by omega) _ _ (hm _ _ ht ht)
      by_cases h2 : p % 2 ≠ 0
      · rw [if_pos h2]; exact hm _ _ hr ht
      · rw [if_neg h2]; exact hr

theorem powNat_closed {one : α} {mul : α → α → α} {P : α → Prop} (h1 : P one) (hm : ∀ x y, P x → P y → P (mul x y))
    {t : α} (ht : P t) (p : ℕ) : P (powNat one mul t p) := by
  unfold powNat
  split_ifs
  · exact h1
  · exact ht
  · exact hm _ _ ht ht
  · exact hm _ _ (hm _ _ ht ht) ht
  · exact hm _ _ (hm _ _ ht ht) (hm _ _ ht ht)
  · exact powLoop_closed hm _ _ _ ht h1

/-- A set of numbers that contains the constants and is closed under the operations.  The result of `inv` may lie
outside, but not its product with a number of the set. -/
structure Arith.Closed (A : Arith α) (P : α → Prop) : Prop where
  add : ∀ x y, P x → P y → P (A.add x y)
  sub : ∀ x y, P x → P y → P (A.sub x y)
  mul : ∀ x y, P x → P y → P (A.mul x y)
  div : ∀ x y, P x → P y → P (A.div x y)
  neg : ∀ x, P x → P (A.neg x)
  mulI : ∀ x n, P x → P (A.mulI x n)
  divI : ∀ x n, P x → P (A.divI x n)
  intPart : ∀ x, P x → P (A.intPart x)
  decPart : ∀ x, P x → P (A.decPart x)
  mulInv : ∀ x y, P x → P y → P (A.mul x (A.inv y))
  sqrt : ∀ x, P x → P (A.sqrt x)
  incr : ∀ x, P x → P (A.incr x)
  setPrec : ∀ x d, P x → P (A.setPrec x d)
  ofI : ∀ n, P (A.ofI n)
  ten : ∀ n, P (A.ten n)
  half : P A.half
  pi : P A.pi
  ln2 : P A.ln2
  ln10 : P A.ln10
  e : P A.e
  sqrt2 : P A.sqrt2
  nan : P A.nan
  inf : P A.inf
  asin0 : ∀ x, P x → P (A.asin0 x)
  atan0 : ∀ x, P x → P (A.atan0 x)
  log0 : ∀ x y, P x → A.log0 x = some y → P y
  rootn0 : ∀ x p, P x → P (A.rootn0 x p)

namespace Fn
variable {A : Arith α} {P : α → Prop} (h : A.Closed P)
include h

theorem c_one : P (one A) := h.ofI 1
theorem c_zero : P (zero A) := h.ofI 0
theorem c_two : P (two A) := h.ofI 2
theorem c_oneMinus : P (oneMinus A) := h.ofI (-1)
theorem c_threeHalf : P (threeHalf A) := h.add _ _ (h.ofI 1) h.half
theorem c_piHalf : P (piHalf A) := h.divI _ _ h.pi

theorem c_fabs {x : α} (hx : P x) : P (fabs A x) := by
  unfold fabs; split
  · exact h.neg _ hx
  · exact hx

theorem c_pown {x : α} (hx : P x) (p : ℤ) : P (pown A x p) := by
  unfold pown EFX.pown
  split_ifs
  · exact h.nan
  · exact h.div _ _ (c_one h) (pownNat_closed (c_one h) h.mul hx _)
  · exact pownNat_closed (c_one h) h.mul hx _

theorem c_powI {x : α} (hx : P x) (p : ℤ) : P (powI A x p) := by
  unfold powI EFX.powInt
  split_ifs
  · exact h.nan
  · exact h.div _ _ (c_one h) (powNat_closed (c_one h) h.mul hx _)
  · exact powNat_closed (c_one h) h.mul hx _

theorem c_pow2 (p : ℤ) : P (pow2 A p) := by
  unfold pow2
  split_ifs
  · exact c_powI h h.half _
  · exact h.half
  · exact c_one h
  · exact c_two h
  · exact c_powI h (c_two h) _

theorem c_series {σ : Type} {step : ℤ → σ → σ × α} {Q : σ → Prop} (hs : ∀ n s, Q s → Q (step n s).1 ∧ P (step n s).2) :
    ∀ (k : ℕ) (n : ℤ) (s : σ) (v : α), Q s → P v → P (seriesLoop A step k n s v)
  | 0, _, _, _, _, _ => h.nan
  | k + 1, n, s, v, hq, hv => by
    rw [seriesLoop]
    split_ifs
    · exact hv
    · exact c_series hs k (n + 1) _ _ (hs n s hq).1 (h.add _ _ hv (hs n s hq).2)

theorem c_hyp0f0 {x : α} (hx : P x) : P (hyp0f0 A x) := by
  unfold hyp0f0
  refine c_series h (Q := P) (fun n s hs => ?_) _ _ _ _ hx (h.add _ _ (c_one h) hx)
  exact ⟨h.divI _ _ (h.mul _ _ hs hx), h.divI _ _ (h.mul _ _ hs hx)⟩

theorem c_hyp0f1 {b x : α} (hb : P b) (hx : P x) : P (hyp0f1 A b x) := by
  unfold hyp0f1
  refine c_series h (Q := fun s : α × α × α => P s.1 ∧ P s.2.1 ∧ P s.2.2) (fun n s hs => ?_) _ _ _ _ ⟨hx, hb, hb⟩
    (h.add _ _ (c_one h) (h.div _ _ hx hb))
  obtain ⟨a1, a2, a3⟩ := hs
  have p1 := h.divI _ n (h.mul _ _ a1 hx)
  have p2 := h.incr _ a3
  have p3 := h.mul _ _ a2 p2
  exact ⟨⟨p1, p3, p2⟩, h.div _ _ p1 p3⟩

theorem c_hyp1f0 {a x : α} (ha : P a) (hx : P x) : P (hyp1f0 A a x) := by
  unfold hyp1f0
  refine c_series h (Q := fun s : α × α × α => P s.1 ∧ P s.2.1 ∧ P s.2.2) (fun n s hs => ?_) _ _ _ _ ⟨hx, ha, ha⟩
    (h.add _ _ (c_one h) (h.mul _ _ ha hx))
  obtain ⟨a1, a2, a3⟩ := hs
  have p1 := h.divI _ n (h.mul _ _ a1 hx)
  have p2 := h.incr _ a3
  have p3 := h.mul _ _ a2 p2
  exact ⟨⟨p1, p3, p2⟩, h.mul _ _ p3 p1⟩

theorem c_hyp2f1 {a b c x : α} (ha : P a) (hb : P b) (hc : P c) (hx : P x) : P (hyp2f1 A a b c x) := by
  unfold hyp2f1
  refine c_series h (Q := fun s : α × (α × α) × (α × α) × (α × α) => P s.1 ∧ (P s.2.1.1 ∧ P s.2.1.2) ∧
    (P s.2.2.1.1 ∧ P s.2.2.1.2) ∧ (P s.2.2.2.1 ∧ P s.2.2.2.2)) (fun n s hs => ?_) _ _ _ _
    ⟨hx, ⟨ha, ha⟩, ⟨hb, hb⟩, ⟨hc, hc⟩⟩ (h.add _ _ (c_one h) (h.mul _ _ (h.div _ _ (h.mul _ _ ha hb) hc) hx))
  obtain ⟨a1, ⟨a2, a3⟩, ⟨a4, a5⟩, ⟨a6, a7⟩⟩ := hs
  have p1 := h.divI _ n (h.mul _ _ a1 hx)
  have p2 := h.incr _ a3
  have p3 := h.mul _ _ a2 p2
  have p4 := h.incr _ a5
  have p5 := h.mul _ _ a4 p4
  have p6 := h.incr _ a7
  have p7 := h.mul _ _ a6 p6
  exact ⟨⟨p1, ⟨p3, p2⟩, ⟨p5, p4⟩, ⟨p7, p6⟩⟩, h.mul _ _ (h.div _ _ (h.mul _ _ p3 p5) p7) p1⟩

theorem c_hyp1f1 {a b x : α} (ha : P a) (hb : P b) (hx : P x) : P (hyp1f1 A a b x) := by
  unfold hyp1f1
  refine c_series h (Q := fun s : α × (α × α) × (α × α) => P s.1 ∧ (P s.2.1.1 ∧ P s.2.1.2) ∧
    (P s.2.2.1 ∧ P s.2.2.2)) (fun n s hs => ?_) _ _ _ _
    ⟨hx, ⟨ha, ha⟩, ⟨hb, hb⟩⟩ (h.add _ _ (c_one h) (h.mul _ _ (h.div _ _ ha hb) hx))
  obtain ⟨a1, ⟨a2, a3⟩, ⟨a4, a5⟩⟩ := hs
  have p1 := h.divI _ n (h.mul _ _ a1 hx)
  have p2 := h.incr _ a3
  have p3 := h.mul _ _ a2 p2
  have p4 := h.incr _ a5
  have p5 := h.mul _ _ a4 p4
  exact ⟨⟨p1, ⟨p3, p2⟩, ⟨p5, p4⟩⟩, h.mul _ _ (h.div _ _ p3 p5) p1⟩

theorem c_hyp2f0 {a b x : α} (ha : P a) (hb : P b) (hx : P x) : P (hyp2f0 A a b x) := by
  unfold hyp2f0
  refine c_series h (Q := fun s : α × (α × α) × (α × α) => P s.1 ∧ (P s.2.1.1 ∧ P s.2.1.2) ∧
    (P s.2.2.1 ∧ P s.2.2.2)) (fun n s hs => ?_) _ _ _ _
    ⟨hx, ⟨ha, ha⟩, ⟨hb, hb⟩⟩ (h.add _ _ (c_one h) (h.mul _ _ (h.mul _ _ ha hb) hx))
  obtain ⟨a1, ⟨a2, a3⟩, ⟨a4, a5⟩⟩ := hs
  have p1 := h.divI _ n (h.mul _ _ a1 hx)
  have p2 := h.incr _ a3
  have p3 := h.mul _ _ a2 p2
  have p4 := h.incr _ a5
  have p5 := h.mul _ _ a4 p4
  exact ⟨⟨p1, ⟨p3, p2⟩, ⟨p5, p4⟩⟩, h.mul _ _ (h.mul _ _ p3 p5) p1⟩

theorem c_foldl : ∀ (l : List α) (v : α), P v → (∀ x ∈ l, P x) → P (l.foldl A.mul v)
  | [], _, hv, _ => hv
  | a :: l, v, hv, hl => c_foldl l _ (h.mul _ _ hv (hl a (by simp))) (fun x hx => hl x (by simp [hx]))

theorem c_prodL {l : List α} (hl : ∀ x ∈ l, P x) : P (prodL A l) := c_foldl h l _ (c_one h) hl

theorem c_hypPfq {a b : List α} {x : α} (ha : ∀ y ∈ a, P y) (hb : ∀ y ∈ b, P y) (hx : P x) : P (hypPfq A a b x) := by
  unfold hypPfq
  have hmap : ∀ l : List α, (∀ y ∈ l, P y) → ∀ y ∈ l.map (A.add (one A)), P y := by
    intro l hl y hy
    obtain ⟨z, hz, rfl⟩ := List.mem_map.1 hy
    exact h.add _ _ (c_one h) (hl z hz)
  refine c_series h (Q := fun s : α × (α × List α) × (α × List α) => P s.1 ∧ (P s.2.1.1 ∧ ∀ y ∈ s.2.1.2, P y) ∧
    (P s.2.2.1 ∧ ∀ y ∈ s.2.2.2, P y)) (fun n s hs => ?_) _ _ _ _
    ⟨hx, ⟨c_prodL h ha, ha⟩, ⟨c_prodL h hb, hb⟩⟩
    (h.add _ _ (c_one h) (h.mul _ _ (h.div _ _ (c_prodL h ha) (c_prodL h hb)) hx))
  obtain ⟨a1, ⟨a2, a3⟩, ⟨a4, a5⟩⟩ := hs
  have p1 := h.divI _ n (h.mul _ _ a1 hx)
  have p2 := hmap _ a3
  have p3 := h.mul _ _ a2 (c_prodL h p2)
  have p4 := hmap _ a5
  have p5 := h.mul _ _ a4 (c_prodL h p4)
  exact ⟨⟨p1, ⟨p3, p2⟩, ⟨p5, p4⟩⟩, h.mul _ _ (h.div _ _ p3 p5) p1⟩

theorem c_tripleSin : ∀ (k : ℕ) {x : α}, P x → P (tripleSin A k x)
  | 0, _, hx => hx
  | k + 1, _, hx => c_tripleSin k (h.add _ _ (h.neg _ (h.mulI _ _ (h.mul _ _ hx (h.mul _ _ hx hx)))) (h.mulI _ _ hx))

theorem c_tripleCos : ∀ (k : ℕ) {x : α}, P x → P (tripleCos A k x)
  | 0, _, hx => hx
  | k + 1, _, hx => c_tripleCos k (h.sub _ _ (h.mulI _ _ (h.mul _ _ hx (h.mul _ _ hx hx))) (h.mulI _ _ hx))

theorem c_reducePi {x : α} (hx : P x) : P (reducePi A x).1 := by
  unfold reducePi
  split
  · exact h.sub _ _ hx (h.mul _ _ (h.intPart _ (h.div _ _ hx h.pi)) h.pi)
  · exact hx

/-- The argument of the series of sine and cosine. -/
theorem c_sq4 {x : α} (hx : P x) : P (A.divI (A.neg (A.mul x x)) 4) := h.divI _ _ (h.neg _ (h.mul _ _ hx hx))

theorem c_sinCore {x : α} (hx : P x) : P (sinCore A x) := by
  have hd := h.sub _ _ (c_piHalf h) hx
  have hs : ∀ y, P y → P (A.mul y (hyp0f1 A (threeHalf A) (A.divI (A.neg (A.mul y y)) 4))) := fun y hy =>
    h.mul _ _ hy (c_hyp0f1 h (c_threeHalf h) (c_sq4 h hy))
  unfold sinCore
  simp only
  split_ifs
  · exact c_zero h
  · exact c_one h
  · exact hs _ hx
  · exact c_hyp0f1 h h.half (c_sq4 h hd)
  · exact c_tripleSin h 9 (hs _ (h.divI _ _ hx))
  · exact hs _ hx

theorem c_cosCore {x : α} (hx : P x) : P (cosCore A x) := by
  have hd := h.sub _ _ (c_piHalf h) hx
  unfold cosCore
  simp only
  split_ifs
  · exact c_one h
  · exact c_zero h
  · exact c_hyp0f1 h h.half (c_sq4 h hx)
  · exact h.mul _ _ hd (c_hyp0f1 h (c_threeHalf h) (c_sq4 h hd))
  · exact c_tripleCos h 9 (c_hyp0f1 h h.half (c_sq4 h (h.divI _ _ hx)))
  · exact c_hyp0f1 h h.half (c_sq4 h hx)

omit h in
theorem c_ite (_ : A.Closed P) {p : Prop} [Decidable p] {a b : α} (ha : P a) (hb : P b) : P (if p then a else b) := by
  split
  · exact ha
  · exact hb

theorem c_sin {x : α} (hx : P x) : P (sin A x) := by
  have hr := c_reducePi h (c_fabs h hx)
  have hv := c_sinCore h (c_ite h (p := A.lt (piHalf A) (reducePi A (fabs A x)).1 = true) (h.sub _ _ h.pi hr) hr)
  unfold sin
  simp only
  exact c_ite h h.nan (c_ite h (h.neg _ hv) hv)

theorem c_cos {x : α} (hx : P x) : P (cos A x) := by
  have hr := c_reducePi h (c_fabs h hx)
  have hv := c_cosCore h (c_ite h (p := A.lt (piHalf A) (reducePi A (fabs A x)).1 = true) (h.sub _ _ h.pi hr) hr)
  unfold cos
  simp only
  exact c_ite h h.nan (c_ite h (h.neg _ hv) hv)

theorem c_digitLoop {f : ℤ → α → α} (hf : ∀ d v, P v → P (f d v)) : ∀ (k : ℕ) (d : ℤ) (v : α), P v → P (digitLoop A f k d v)
  | 0, _, _, hv => hv
  | k + 1, d, v, hv => by
    rw [digitLoop]
    exact c_ite h (c_digitLoop hf k _ _ (hf d v hv)) hv

theorem c_asin {x : α} (hx : P x) : P (asin A x) := by
  have hn := h.neg _ hx
  have hxx := c_ite h (p := (!A.isneg x) = true) hx hn
  have hd := h.sub _ _ (c_one h) hxx
  have hy : ∀ z, P z → P (hyp2f1 A A.half A.half (threeHalf A) z) := fun z hz => c_hyp2f1 h h.half h.half (c_threeHalf h) hz
  have hl := c_digitLoop h (f := fun _ v => asinStep A (if (!A.isneg x) = true then x else A.neg x) v)
    (fun d v hv => h.sub _ _ hv (h.div _ _ (h.sub _ _ (c_sin h hv) hxx) (c_cos h hv))) 32 12 _ (h.asin0 _ hxx)
  have hs := h.mul _ _ hx (hy _ (h.mul _ _ hx hx))
  have ho := h.sub _ _ (c_piHalf h) (h.mul _ _ (h.sqrt _ (h.mulI _ 2 hd)) (hy _ (h.divI _ 2 hd)))
  unfold asin
  simp only
  exact c_ite h h.nan (c_ite h h.nan (c_ite h (c_zero h) (c_ite h (c_ite h (c_piHalf h) (h.neg _ (c_piHalf h)))
    (c_ite h (c_ite h hs (h.neg _ hs)) (c_ite h (c_ite h ho (h.neg _ ho)) (c_ite h hl (h.neg _ hl)))))))

theorem c_acos {x : α} (hx : P x) : P (acos A x) := by
  unfold acos
  simp only
  exact c_ite h h.nan (c_ite h h.nan (c_ite h (c_ite h (c_piHalf h) (h.sub _ _ (c_piHalf h) (c_asin h hx)))
    (c_ite h (c_zero h) h.pi)))

theorem c_atanZero {x : α} (hx : P x) : P (atanZero A x) :=
  h.mul _ _ hx (c_hyp2f1 h (c_one h) h.half (c_threeHalf h) (h.neg _ (h.mul _ _ hx hx)))

theorem c_atanInf {x : α} (hx : P x) : P (atanInf A x) :=
  h.sub _ _ (c_piHalf h) (h.div _ _ (c_hyp2f1 h h.half (c_one h) (c_threeHalf h) (h.div _ _ (h.neg _ (c_one h)) (h.mul _ _ hx hx))) hx)

theorem c_atan {x : α} (hx : P x) : P (atan A x) := by
  have hxx := c_ite h (p := (!A.isneg x) = true) hx (h.neg _ hx)
  have hl := c_digitLoop h (f := fun _ v => atanStep A (if (!A.isneg x) = true then x else A.neg x) v)
    (fun d v hv => h.add _ _ hv (h.mul _ _ (c_cos h hv) (h.sub _ _ (h.mul _ _ hxx (c_cos h hv)) (c_sin h hv)))) 32 12 _
    (c_ite h (p := A.order x < 2) (h.atan0 _ hxx) (c_atanInf h hxx))
  unfold atan
  simp only
  exact c_ite h h.nan (c_ite h (c_ite h (c_piHalf h) (h.neg _ (c_piHalf h))) (c_ite h (c_zero h) (c_ite h (c_atanZero h hx)
    (c_ite h (c_atanInf h hx) (c_ite h hl (h.neg _ hl))))))

theorem c_atan2 {y x : α} (hy : P y) (hx : P x) : P (atan2 A y x) := by
  have ht := c_atan h (h.div _ _ hy hx)
  unfold atan2
  simp only
  exact c_ite h hx (c_ite h (c_ite h h.pi (c_zero h)) (c_ite h (h.mulI _ _ (c_piHalf h))
    (c_ite h (c_ite h (h.sub _ _ ht h.pi) ht) (c_ite h (h.add _ _ ht h.pi) ht))))

theorem c_expCore {x : α} (hx : P x) : P (expCore A x) := by
  have hn := h.intPart _ (h.mul _ _ hx (h.div _ _ (c_one h) h.ln2))
  unfold expCore
  simp only
  exact c_ite h (h.mul _ _ (c_pown h (c_hyp0f0 h (h.divI _ _ (h.sub _ _ hx (h.mul _ _ hn h.ln2)))) _) (c_pow2 h _))
    (c_hyp0f0 h hx)

theorem c_exp {x : α} (hx : P x) : P (exp A x) := by
  have hv := c_expCore h (c_ite h (p := (!A.isneg x) = true) hx (h.neg _ hx))
  unfold exp
  simp only
  exact c_ite h h.nan (c_ite h (c_ite h h.inf (c_zero h)) (c_ite h (c_one h) (c_ite h (c_ite h h.inf (c_zero h))
    (c_ite h (c_pown h h.e _) (c_ite h hv (h.div _ _ (c_one h) hv))))))

theorem c_logAtOne {x : α} (hx : P x) : P (logAtOne A x) :=
  h.mul _ _ hx (c_hyp2f1 h (c_one h) (c_one h) (c_two h) (h.neg _ hx))

theorem c_logNewton {x m : α} (hx : P x) (hm : P m) : P (logNewton A x m) := by
  unfold logNewton
  apply c_digitLoop h
  · intro d v hv
    have := h.setPrec _ (d * 2) hv
    exact h.add _ _ this (h.sub _ _ (h.mul _ _ (h.setPrec _ _ hx) (c_exp h (h.neg _ this))) (c_one h))
  · cases h0 : A.log0 x with
    | none => exact hm
    | some y => exact h.log0 _ _ hx h0

theorem c_log {x : α} (hx : P x) : P (log A x) := by
  have hm := h.sub _ _ hx (c_one h)
  unfold log
  simp only
  refine c_ite h h.nan (c_ite h (h.neg _ h.inf) (c_ite h (c_zero h) (c_ite h (c_logAtOne h hm) (c_ite h ?_ (c_logNewton h hx hm)))))
  have hc := h.mul _ _ h.ln10 (h.ofI ((if (!decide (A.order x < 0)) = true then A.order x else -A.order x) - 8))
  exact h.add _ _ (c_logNewton h (c_ite h (h.div _ _ hx (h.ten _)) (h.mul _ _ hx (h.ten _))) hm) (c_ite h (h.neg _ hc) hc)

theorem c_log1p1m2Loop {x2 : α} (h2 : P x2) : ∀ (k : ℕ) (n : ℤ) (a s : α), P a → P s → P (log1p1m2Loop A x2 k n a s)
  | 0, _, _, _, _, hs => hs
  | k + 1, n, a, s, ha, hs => by
    rw [log1p1m2Loop]
    have := h.mul _ _ ha h2
    exact c_ite h hs (c_log1p1m2Loop h2 k _ _ _ this (h.add _ _ hs (h.divI _ _ this)))

theorem c_log1p1m2 {x : α} (hx : P x) : P (log1p1m2 A x) := by
  unfold log1p1m2
  exact c_ite h hx (c_ite h h.nan (c_log1p1m2Loop h (h.mul _ _ hx hx) _ _ _ _ hx hx))

theorem c_powF : ∀ (k : ℕ) {x a : α}, P x → P a → P (powF A k x a)
  | 0, _, _, _, _ => h.nan
  | k + 1, x, a, hx, ha => by
    have hda := h.sub _ _ ha (h.intPart _ ha)
    have h1x := h.sub _ _ (c_one h) hx
    have hl := c_log h hx
    rw [powF]
    simp only
    exact c_ite h hx (c_ite h (c_one h) (c_ite h (c_one h) (c_ite h h.nan (c_ite h
      (h.div _ _ (c_one h) (c_powF k hx (h.neg _ ha))) (c_ite h (c_pown h hx _) (c_ite h
        (c_ite h (c_hyp0f0 h (h.mul _ _ ha hl)) (c_ite h (h.mul _ _ (c_hyp1f0 h (h.neg _ hda) h1x) (c_pown h hx _))
          (c_hyp1f0 h (h.neg _ ha) h1x)))
        (c_ite h (h.mul _ _ (c_exp h (h.mul _ _ hda hl)) (c_pown h hx _)) (c_exp h (h.mul _ _ ha hl)))))))))

theorem c_rootnInv {x : α} (hx : P x) (p : ℤ) : P (rootnInv A x p) := by
  unfold rootnInv
  refine h.setPrec _ _ (c_digitLoop h (fun d v hv => ?_) _ _ _ (h.rootn0 _ _ hx))
  have hr := h.setPrec _ (d * 2 + 10) hv
  exact h.mul _ _ hr (h.setPrec _ _ (h.add _ _ (h.divI _ _ (h.add _ _ (h.mul _ _ (h.neg _ (c_pown h hr p)) hx) (c_one h))) (c_one h)))

theorem c_rootnInverse {x : α} (hx : P x) (p : ℤ) : P (rootnInverse A x p) := by
  unfold rootnInverse
  exact c_ite h h.nan (c_ite h (c_pown h hx _) (c_ite h h.nan (c_ite h hx (c_ite h (h.div _ _ (c_one h) (h.sqrt _ hx))
    (c_rootnInv h hx p)))))

/-- `rootn` ends with `inv`, so its results are in any larger set `Q` that contains the inverses. -/
theorem c_rootn {Q : α → Prop} (hQ : ∀ x, P x → Q x) (hi : ∀ x, P x → Q (A.inv x)) {x : α} (hx : P x) (p : ℤ) : Q (rootn A x p) := by
  have key : ∀ y q, P y → Q (rootnPos A y q) := by
    intro y q hy
    unfold rootnPos
    split_ifs
    · exact hQ _ h.nan
    · exact hQ _ h.nan
    · exact hQ _ hy
    · exact hQ _ (h.sqrt _ hy)
    · exact hi _ (c_rootnInv h hy q)
  unfold rootn
  split_ifs
  · exact hQ _ h.nan
  · exact key _ _ (h.div _ _ (c_one h) hx)
  · exact key _ _ hx

theorem c_sinhcosh {x : α} (hx : P x) {o : α × α} (ho : P o.1 ∧ P o.2) : P (sinhcosh A x o).1 ∧ P (sinhcosh A x o).2 := by
  have he := c_exp h hx
  have hm := h.div _ _ (c_one h) he
  unfold sinhcosh
  simp only
  split_ifs
  · exact ho
  · exact ⟨c_zero h, c_one h⟩
  · exact ⟨h.divI _ _ (h.sub _ _ he hm), h.divI _ _ (h.add _ _ he hm)⟩

theorem c_sinh {x : α} (hx : P x) : P (sinh A x) := c_ite h hx (c_sinhcosh h hx ⟨c_zero h, c_zero h⟩).1
theorem c_cosh {x : α} (hx : P x) : P (cosh A x) := c_ite h hx (c_sinhcosh h hx ⟨c_zero h, c_zero h⟩).2
theorem c_tanh {x : α} (hx : P x) : P (tanh A x) :=
  h.mulInv _ _ (c_sinhcosh h hx ⟨c_zero h, c_zero h⟩).1 (c_sinhcosh h hx ⟨c_zero h, c_zero h⟩).2

theorem c_asinh {x : α} (hx : P x) : P (asinh A x) := by
  have hv := c_log h (h.add _ _ (c_fabs h hx) (h.sqrt _ (h.add _ _ (h.mul _ _ hx hx) (c_one h))))
  unfold asinh
  simp only
  exact c_ite h h.nan (c_ite h (c_zero h) (c_ite h hv (h.neg _ hv)))

theorem c_acosh {x : α} (hx : P x) : P (acosh A x) := by
  have hd := h.sub _ _ hx (c_one h)
  unfold acosh
  simp only
  exact c_ite h h.nan (c_ite h h.nan (c_ite h (c_one h) (c_ite h
    (h.mul _ _ (h.mul _ _ h.sqrt2 (h.sqrt _ hd)) (c_hyp2f1 h h.half h.half (c_threeHalf h) (h.divI _ _ (h.neg _ hd))))
    (c_log h (h.add _ _ hx (h.sqrt _ (h.sub _ _ (h.mul _ _ hx hx) (c_one h))))))))

theorem c_atanh {x : α} (hx : P x) : P (atanh A x) := by
  have hv := c_ite h (p := smallArg A x = true) (c_log1p1m2 h hx)
    (h.divI _ 2 (c_log h (h.div _ _ (h.add _ _ (c_one h) hx) (h.sub _ _ (c_one h) hx))))
  unfold atanh
  simp only
  exact c_ite h hx (c_ite h h.nan (c_ite h hv (h.neg _ hv)))

end Fn
end EFX
