import Verif.Lemmas.Tangent
import Verif.Model.TabData
import Mathlib.Data.Nat.Factorial.DoubleFactorial
import Mathlib.Data.Nat.Choose.Basic
/-!
# Checking the tables in the kernel

Plain recursions over the tables, each step forced to a literal.  The tangent numbers are carried as `x * 2^32 + salt`: the
numbers end in many zero bits and the kernel's hash of a literal sees the low bits only.
-/

namespace EFX.TabCheck
open EFX

/-- Evaluates a number before it is used. -/
noncomputable def force {α : Type} (n : Nat) (f : Nat → α) : α := Nat.rec (f 0) (fun k _ => f (Nat.succ k)) n

theorem force_eq {α : Type} (n : Nat) (f : Nat → α) : force n f = f n := by cases n <;> rfl

/-- Conjunction that stops at a false first part. -/
noncomputable def sel (b x : Bool) : Bool := Bool.rec false x b

theorem sel_eq (b x : Bool) : sel b x = (b && x) := by cases b <;> rfl

/-- `|m * 10^e - x| ≤ 10^-419 * x`, in integers. -/
def close (p : Int × Nat) (x : Nat) : Bool := Nat.ble ((p.1 * 10 ^ p.2 - (x : Int)).natAbs * 10 ^ 419) x

/-! ## Factorials -/

/-- Checks a table of factorials from the index `n` on, `f` being the factorial of `n`. -/
noncomputable def chkFact (l : List (Int × Nat)) : Nat → Nat → Bool :=
  List.rec (fun _ _ => true) (fun p _ ih n f =>
    sel (close p f) (force (Nat.succ n) fun n' => force (Nat.mul f n') fun f' => ih n' f')) l

theorem chkFact_cons (p : Int × Nat) (l : List (Int × Nat)) (n f : Nat) :
    chkFact (p :: l) n f = (close p f && chkFact l (n + 1) (f * (n + 1))) := by
  show sel (close p f) (force (Nat.succ n) fun n' => force (Nat.mul f n') fun f' => chkFact l n' f') = _
  rw [force_eq, force_eq, sel_eq]
  rfl

theorem chkFact_sound : ∀ (l : List (Int × Nat)) (n : Nat), chkFact l n n.factorial = true →
    ∀ i p, l[i]? = some p → close p (n + i).factorial = true := by
  intro l
  induction l with
  | nil => intro n _ i p h; simp at h
  | cons q l ih =>
    intro n h i p hp
    rw [chkFact_cons, Bool.and_eq_true] at h
    cases i with
    | zero => simp at hp; subst hp; exact h.1
    | succ i =>
      have := ih (n + 1) (by rw [Nat.factorial_succ, mul_comm]; exact h.2) i p (by simpa using hp)
      rwa [show n + (i + 1) = n + 1 + i by ring]

theorem check_a142 : chkFact TabData.a142 0 1 = true := by decide +kernel

/-! ## Double factorials -/

/-- Checks a table of double factorials from the index `n` on, `f` and `g` being those of `n` and `n + 1`. -/
noncomputable def chkFact2 (l : List (Int × Nat)) : Nat → Nat → Nat → Bool :=
  List.rec (fun _ _ _ => true) (fun p _ ih n f g =>
    sel (close p f) (force (Nat.succ n) fun n' => force (Nat.mul f (Nat.succ n')) fun f' => ih n' g f')) l

theorem chkFact2_cons (p : Int × Nat) (l : List (Int × Nat)) (n f g : Nat) :
    chkFact2 (p :: l) n f g = (close p f && chkFact2 l (n + 1) g (f * (n + 2))) := by
  show sel (close p f) (force (Nat.succ n) fun n' => force (Nat.mul f (Nat.succ n')) fun f' => chkFact2 l n' g f') = _
  rw [force_eq, force_eq, sel_eq]
  rfl

theorem chkFact2_sound : ∀ (l : List (Int × Nat)) (n : Nat), chkFact2 l n n.doubleFactorial (n + 1).doubleFactorial = true →
    ∀ i p, l[i]? = some p → close p (n + i).doubleFactorial = true := by
  intro l
  induction l with
  | nil => intro n _ i p h; simp at h
  | cons q l ih =>
    intro n h i p hp
    rw [chkFact2_cons, Bool.and_eq_true] at h
    cases i with
    | zero => simp at hp; subst hp; exact h.1
    | succ i =>
      have := ih (n + 1) (by rw [show n + 1 + 1 = n + 2 by ring, Nat.doubleFactorial_add_two, mul_comm]; exact h.2) i p (by simpa using hp)
      rwa [show n + (i + 1) = n + 1 + i by ring]

theorem check_a6882 : chkFact2 TabData.a6882 0 1 1 = true := by decide +kernel

/-! ## Pascal's triangle -/

/-- The next row, from the row above and its left neighbour. -/
noncomputable def nextRow (l : List Nat) : Nat → List Nat :=
  List.rec (fun a => [a]) (fun x _ ih a => force (Nat.add a x) fun y => y :: ih x) l

/-- Every row is made from the one before. -/
noncomputable def chkRows (l : List (List Nat)) : List Nat → Bool :=
  List.rec (fun _ => true) (fun r _ ih prev => sel (decide (r = nextRow prev 0)) (ih r)) l

theorem nextRow_cons (x : Nat) (l : List Nat) (a : Nat) : nextRow (x :: l) a = (a + x) :: nextRow l x := by
  show (force (Nat.add a x) fun y => y :: nextRow l x) = _
  rw [force_eq]; rfl

theorem nextRow_choose : ∀ (l : List Nat) (n i : Nat), l.length = n + 1 - i → i ≤ n + 1 → (∀ j, j < l.length → l[j]? = some (n.choose (i + j))) →
    (nextRow l (if i = 0 then 0 else n.choose (i - 1))).length = n + 2 - i ∧
      ∀ j, j < n + 2 - i → (nextRow l (if i = 0 then 0 else n.choose (i - 1)))[j]? = some ((n + 1).choose (i + j)) := by
  intro l
  induction l with
  | nil =>
    intro n i hl hi _
    have : i = n + 1 := by simp at hl; omega
    subst this
    rw [if_neg (by omega)]
    refine ⟨by show 1 = _; omega, fun j hj => ?_⟩
    have : j = 0 := by omega
    subst this
    show some (n.choose (n + 1 - 1)) = _
    simp
  | cons x l ih =>
    intro n i hl hi h
    simp only [List.length_cons] at hl
    have hx : x = n.choose i := by
      have := h 0 (by simp)
      simpa using this
    have ih' := ih n (i + 1) (by omega) (by omega) (fun j hj => by
      have := h (j + 1) (by simpa using hj)
      rw [List.getElem?_cons_succ] at this
      rw [this, show i + (j + 1) = i + 1 + j by ring])
    rw [if_neg (by omega), show i + 1 - 1 = i by omega, ← hx] at ih'
    rw [nextRow_cons]
    refine ⟨by rw [List.length_cons, ih'.1]; omega, fun j hj => ?_⟩
    cases j with
    | zero =>
      rw [List.getElem?_cons_zero, hx]
      congr 1
      rcases Nat.eq_zero_or_pos i with rfl | h0
      · simp
      · obtain ⟨m, rfl⟩ : ∃ m, i = m + 1 := ⟨i - 1, by omega⟩
        rw [if_neg (by omega), show m + 1 - 1 = m by omega, Nat.add_zero, Nat.choose_succ_succ]
    | succ j =>
      rw [List.getElem?_cons_succ, ih'.2 j (by omega), show i + 1 + j = i + (j + 1) by ring]

/-- A row of Pascal's triangle. -/
def IsRow (n : Nat) (r : List Nat) : Prop := r.length = n + 1 ∧ ∀ j, j < n + 1 → r[j]? = some (n.choose j)

theorem chkRows_sound : ∀ (l : List (List Nat)) (n : Nat) (prev : List Nat), IsRow n prev → chkRows l prev = true →
    ∀ i r, l[i]? = some r → IsRow (n + 1 + i) r := by
  intro l
  induction l with
  | nil => intro n _ _ _ i p h; simp at h
  | cons q l ih =>
    intro n prev hp h i r hr
    have h' : (decide (q = nextRow prev 0) && chkRows l q) = true := by
      rw [← h]
      show _ = sel (decide (q = nextRow prev 0)) (chkRows l q)
      rw [sel_eq]
    rw [Bool.and_eq_true, decide_eq_true_eq] at h'
    have hq : IsRow (n + 1) q := by
      have := nextRow_choose prev n 0 (by rw [hp.1]; omega) (by omega) (fun j hj => by rw [hp.2 j (by rw [hp.1] at hj; exact hj)]; simp)
      rw [if_pos rfl] at this
      rw [h'.1]
      exact ⟨by rw [this.1]; omega, fun j hj => by rw [this.2 j (by omega)]; simp⟩
    cases i with
    | zero => simp at hr; subst hr; exact hq
    | succ i =>
      have := ih (n + 1) q hq h'.2 i r (by simpa using hr)
      rwa [show n + 1 + (i + 1) = n + 1 + 1 + i by ring]

theorem check_a7318 : chkRows (TabData.a7318.tail) TabData.row0 = true := by decide +kernel

/-! ## Bernoulli numbers -/

/-- One stage of the tangent numbers: from the list of stage `k` without its head to the reverse of the list of stage `k + 1`. -/
noncomputable def step (xs : List Nat) : Nat → Nat → Nat → List Nat → List Nat :=
  List.rec (fun _ _ _ acc => acc) (fun x _ ih s d prev acc =>
    force (Nat.add (Nat.mul (Nat.add (Nat.mul d (Nat.div prev 4294967296)) (Nat.mul (Nat.add d 2) (Nat.div x 4294967296))) 4294967296) (Nat.add s d)) fun y =>
      force (Nat.succ d) fun d' => ih s d' y (y :: acc)) xs

/-- Reverses a list. -/
noncomputable def rev (xs : List Nat) : List Nat → List Nat :=
  List.rec (fun acc => acc) (fun x _ ih acc => ih (x :: acc)) xs

/-- The factorials, in reverse order. -/
noncomputable def facts (n : Nat) : Nat → Nat → List Nat → List Nat :=
  Nat.rec (fun _ _ acc => acc) (fun _ ih d f acc =>
    force (Nat.add (Nat.mul (Nat.mul (Nat.div f 4294967296) (Nat.succ d)) 4294967296) d) fun g => force (Nat.succ d) fun d' => ih d' g (g :: acc)) n

/-- The quotient of two entries against the Bernoulli number of index `2 * k`, by the tangent number `t`. -/
def bclose (k t : Nat) (p q : Int × Nat) : Bool :=
  match q.1 with
  | .negSucc _ => false
  | .ofNat d => Nat.ble 1 d && Nat.beq q.2 0 &&
    (Nat.ble ((p.1 * 10 ^ p.2 * ((4 ^ k * 4 ^ k - 4 ^ k : Nat) : Int) - (if k % 2 = 1 then ((2 * k * t * d : Nat) : Int) else -((2 * k * t * d : Nat) : Int))).natAbs * 10 ^ 419)
      (2 * k * t * d))

/-- Checks the tables of the Bernoulli numbers from the index `k` on, `l` being the list of stage `k`. -/
noncomputable def run (n : Nat) : Nat → List Nat → List (Int × Nat) → List (Int × Nat) → Bool :=
  Nat.rec (fun _ _ _ _ => true) (fun _ ih k l ps qs =>
    List.rec false (fun t ts _ => List.rec false (fun p ps' _ => List.rec false (fun q qs' _ =>
      sel (bclose k (Nat.div t 4294967296) p q) (force (Nat.succ k) fun k' => ih k' (rev (step ts (Nat.mul k 2048) 0 0 []) []) ps' qs')) qs) ps) l) n

theorem step_cons (x : Nat) (xs : List Nat) (s d prev : Nat) (acc : List Nat) :
    step (x :: xs) s d prev acc =
      step xs s (d + 1) ((d * (prev / 4294967296) + (d + 2) * (x / 4294967296)) * 4294967296 + (s + d))
        (((d * (prev / 4294967296) + (d + 2) * (x / 4294967296)) * 4294967296 + (s + d)) :: acc) := by
  show (force (Nat.add (Nat.mul (Nat.add (Nat.mul d (Nat.div prev 4294967296)) (Nat.mul (Nat.add d 2) (Nat.div x 4294967296))) 4294967296) (Nat.add s d)) fun y =>
      force (Nat.succ d) fun d' => step xs s d' y (y :: acc)) = _
  rw [force_eq, force_eq]; rfl

theorem rev_eq : ∀ xs acc : List Nat, rev xs acc = xs.reverse ++ acc := by
  intro xs
  induction xs with
  | nil => intro acc; rfl
  | cons x xs ih => intro acc; show rev xs (x :: acc) = _; rw [ih]; simp

/-- The list of stage `k` from the index `d` on. -/
def Stage (k d : Nat) (l : List Nat) : Prop := ∀ i z, l[i]? = some z → z / 4294967296 = tanCoef (2 * k + (d + i) - 2) (d + i + 1)

theorem decode {x s : Nat} (h : s < 4294967296) : (x * 4294967296 + s) / 4294967296 = x := by omega

theorem step_spec {k s : Nat} (hk : 1 ≤ k) : ∀ (xs : List Nat) (d prev : Nat) (acc : List Nat), s + d + xs.length < 4294967296 →
    Stage k (d + 1) xs → (0 < d → prev / 4294967296 = tanCoef (2 * (k + 1) + (d - 1) - 2) d) →
    ∃ ys : List Nat, step xs s d prev acc = ys.reverse ++ acc ∧ ys.length = xs.length ∧ Stage (k + 1) d ys := by
  intro xs
  induction xs with
  | nil => intro d prev acc _ _ _; exact ⟨[], rfl, rfl, fun i z h => by simp at h⟩
  | cons x xs ih =>
    intro d prev acc hs hx hp
    rw [List.length_cons] at hs
    rw [step_cons]
    obtain ⟨y, hy⟩ : ∃ y, y = (d * (prev / 4294967296) + (d + 2) * (x / 4294967296)) * 4294967296 + (s + d) := ⟨_, rfl⟩
    rw [← hy]
    have x0 := hx 0 x rfl
    have y0 : y / 4294967296 = tanCoef (2 * (k + 1) + d - 2) (d + 1) := by
      rw [hy, decode (by omega), x0, show 2 * (k + 1) + d - 2 = (2 * k + d - 1) + 1 by omega, tanCoef, show d + 1 - 1 = d by omega,
        show 2 * k + (d + 1 + 0) - 2 = 2 * k + d - 1 by omega, show d + 1 + 0 + 1 = d + 1 + 1 by omega]
      rcases Nat.eq_zero_or_pos d with rfl | h0
      · simp
      · rw [hp h0, show 2 * (k + 1) + (d - 1) - 2 = 2 * k + d - 1 by omega]
    obtain ⟨ys, e1, e2, e3⟩ := ih (d + 1) y (y :: acc) (by omega) (fun i z h => by
      have := hx (i + 1) z (by simpa using h)
      rwa [show d + 1 + (i + 1) = d + 1 + 1 + i by ring] at this) (fun _ => by rw [y0, show d + 1 - 1 = d by omega])
    refine ⟨y :: ys, by rw [e1]; simp, by simp [e2], fun i z h => ?_⟩
    cases i with
    | zero => simp at h; subst h; rw [y0]; rfl
    | succ i =>
      have := e3 i z (by simpa using h)
      rwa [show d + (i + 1) = d + 1 + i by ring]

theorem facts_spec : ∀ (n d f : Nat) (acc : List Nat), d + n < 4294967296 → f / 4294967296 = d.factorial →
    ∃ ys : List Nat, facts n d f acc = ys.reverse ++ acc ∧ ys.length = n ∧ ∀ i z, ys[i]? = some z → z / 4294967296 = (d + 1 + i).factorial := by
  intro n
  induction n with
  | zero => intro d f acc _ _; exact ⟨[], rfl, rfl, fun i z h => by simp at h⟩
  | succ n ih =>
    intro d f acc hd hf
    have e : facts (n + 1) d f acc = facts n (d + 1) (f / 4294967296 * (d + 1) * 4294967296 + d) ((f / 4294967296 * (d + 1) * 4294967296 + d) :: acc) := by
      show (force (Nat.add (Nat.mul (Nat.mul (Nat.div f 4294967296) (Nat.succ d)) 4294967296) d) fun g => force (Nat.succ d) fun d' => facts n d' g (g :: acc)) = _
      rw [force_eq, force_eq]; rfl
    rw [e]
    obtain ⟨y, hy⟩ : ∃ y, y = f / 4294967296 * (d + 1) * 4294967296 + d := ⟨_, rfl⟩
    rw [← hy]
    have y0 : y / 4294967296 = (d + 1).factorial := by rw [hy, decode (by omega), hf, Nat.factorial_succ, mul_comm]
    obtain ⟨ys, e1, e2, e3⟩ := ih (d + 1) y (y :: acc) (by omega) y0
    refine ⟨y :: ys, by rw [e1]; simp, by simp [e2], fun i z h => ?_⟩
    cases i with
    | zero => simp at h; subst h; rw [y0]
    | succ i =>
      have := e3 i z (by simpa using h)
      rwa [show d + 1 + (i + 1) = d + 1 + 1 + i by ring]

theorem facts_stage (n : Nat) (hn : n < 4294967296) :
    ∃ l, rev (facts n 0 4294967296 [4294967296]) [] = l ∧ l.length = n + 1 ∧ Stage 1 0 l := by
  obtain ⟨ys, e1, e2, e3⟩ := facts_spec n 0 4294967296 [4294967296] (by omega) rfl
  refine ⟨4294967296 :: ys, by rw [e1, rev_eq]; simp, by simp [e2], fun i z h => ?_⟩
  cases i with
  | zero => simp at h; subst h; rfl
  | succ i =>
    rw [e3 i z (by simpa using h), show 2 * 1 + (0 + (i + 1)) - 2 = i + 1 by omega, show 0 + (i + 1) + 1 = i + 1 + 1 by omega,
      (tanCoef_top (i + 1)).2, show 0 + 1 + i = i + 1 by ring]

theorem run_cons (n k : Nat) (t : Nat) (ts : List Nat) (p q : Int × Nat) (ps qs : List (Int × Nat)) :
    run (n + 1) k (t :: ts) (p :: ps) (q :: qs) =
      (bclose k (t / 4294967296) p q && run n (k + 1) (rev (step ts (k * 2048) 0 0 []) []) ps qs) := by
  show sel (bclose k (Nat.div t 4294967296) p q) (force (Nat.succ k) fun k' => run n k' (rev (step ts (Nat.mul k 2048) 0 0 []) []) ps qs) = _
  rw [sel_eq, force_eq]; rfl

theorem run_sound : ∀ (n k : Nat) (l : List Nat) (ps qs : List (Int × Nat)), 1 ≤ k → (k + n) * 2048 + l.length < 4294967296 → Stage k 0 l →
    run n k l ps qs = true → ∀ i, i < n → ∃ p q, ps[i]? = some p ∧ qs[i]? = some q ∧ bclose (k + i) (tanCoef (2 * (k + i) - 2) 1) p q = true := by
  intro n
  induction n with
  | zero => intro k l ps qs _ _ _ _ i hi; omega
  | succ n ih =>
    intro k l ps qs hk hl hst h i hi
    cases l with
    | nil => exact absurd h (by show ¬false = true; simp)
    | cons t ts =>
    cases ps with
    | nil => exact absurd h (by show ¬false = true; simp)
    | cons p ps =>
    cases qs with
    | nil => exact absurd h (by show ¬false = true; simp)
    | cons q qs =>
    rw [run_cons, Bool.and_eq_true] at h
    rw [List.length_cons] at hl
    have ht := hst 0 t rfl
    rw [show 2 * k + (0 + 0) - 2 = 2 * k - 2 by omega, show 0 + 0 + 1 = 1 by omega] at ht
    cases i with
    | zero => exact ⟨p, q, rfl, rfl, by rw [Nat.add_zero, ← ht]; exact h.1⟩
    | succ i =>
      obtain ⟨ys, e1, e2, e3⟩ := step_spec (k := k) (s := k * 2048) hk ts 0 0 [] (by omega) (fun i z hz => by
        have := hst (i + 1) z (by simpa using hz)
        rwa [show 0 + (i + 1) = 0 + 1 + i by ring] at this) (fun h => by omega)
      have e4 : rev (step ts (k * 2048) 0 0 []) [] = ys := by rw [e1, rev_eq]; simp
      rw [e4] at h
      have hb : (k + 1 + n) * 2048 + ys.length < 4294967296 := by
        rw [e2, show k + 1 + n = k + (n + 1) from Nat.add_right_comm k 1 n]
        exact Nat.lt_of_le_of_lt (Nat.add_le_add_left (Nat.le_succ _) _) hl
      have hn : i < n := by omega
      obtain ⟨p', q', h1, h2, h3⟩ := ih (k + 1) ys ps qs (Nat.le_add_left 1 k) hb e3 h.2 i hn
      exact ⟨p', q', by simpa using h1, by simpa using h2, by rwa [show k + (i + 1) = k + 1 + i by ring]⟩

end EFX.TabCheck
