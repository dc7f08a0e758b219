import Verif.Lemmas.Heap
/-!
# C39 digit storage is owned exactly once
-/

namespace EFX.Props
open EFX.Heap

/-- C39: in every history of constructions, copies, moves, assignments, swaps, writes and destructions, in any order
and with any number of variables, no memory error happens (no block is freed twice or with a wrong size, nothing is
read or written outside a live block); in every reachable state each living variable is empty or has its own live
block of its size; and when no variable is alive any more, no block is. -/
theorem C39_ownership (p : List Cmd) :
    run St.empty p ≠ .error .memory ∧
    ∀ s, run St.empty p = .ok s →
      (∀ i a, s.vars i = some a → (a.ptr = none ∧ a.count = 0) ∨ ∃ b l, a.ptr = some b ∧ s.live b = some l ∧ l.length = a.count) ∧
      (∀ i j a a' b, s.vars i = some a → s.vars j = some a' → a.ptr = some b → a'.ptr = some b → i = j) ∧
      ((∀ i, s.vars i = none) → ∀ b, s.live b = none) := by
  have h := run_ok Inv_empty p
  cases hs : specRun St.empty.view p with
  | none =>
    rw [hs] at h
    simp only at h
    rw [h]
    exact ⟨by simp, fun s e => by simp at e⟩
  | some w =>
    rw [hs] at h
    obtain ⟨s', e1, e2, e3⟩ := h
    rw [e1]
    refine ⟨by simp, fun s e => ?_⟩
    cases e
    refine ⟨e2.own, e2.inj, fun h0 b => ?_⟩
    cases hb : s'.live b with
    | none => rfl
    | some l =>
      obtain ⟨i, a, hi, -⟩ := e2.used b l hb
      rw [h0 i] at hi
      cases hi

/-- C39, what the caller sees: every history computes what it computes on plain list values, and fails exactly when
the caller uses a dead variable, constructs a living one or indexes out of range. -/
theorem C39_values (p : List Cmd) :
    (∀ w, specRun (fun _ => none) p = some w → ∃ s, run St.empty p = .ok s ∧ s.view = w) ∧
    (specRun (fun _ => none) p = none → run St.empty p = .error .misuse) := by
  have h := run_ok Inv_empty p
  have e : St.empty.view = fun _ => none := rfl
  rw [e] at h
  constructor
  · intro w hw
    rw [hw] at h
    obtain ⟨s', e1, e2, e3⟩ := h
    exact ⟨s', e1, e3⟩
  · intro hw
    rw [hw] at h
    exact h

/-- A history with copies, moves, a self-move, a self-assignment, swaps and destructions. -/
def exHeap : List Cmd :=
  [.ctorFill 0 3 7, .ctorList 1 [1, 2, 3, 4], .ctorCopy 2 1, .ctorMove 3 2, .assign 0 1, .assign 1 0, .moveAssign 2 0,
   .moveAssign 3 3, .swap 1 2, .swap 1 1, .assign 2 2, .set 2 1 9, .ctorFill 4 0 5, .assign 4 1, .fill 1 8]

example : ((run St.empty exHeap).toOption.map fun s => [0, 1, 2, 3, 4].map s.view) =
    some [some [], some [8, 8, 8], some [1, 9, 3, 4], some [], some []] := by decide

example : ((run St.empty (exHeap ++ [.dtor 0, .dtor 1, .dtor 2, .dtor 3, .dtor 4])).toOption.map fun s =>
    ((List.range 5).map s.vars, (List.range s.next).map s.live)) =
    some ([none, none, none, none, none], [none, none, none]) := by decide

/-- C40 at the level of the storage: copy assignment to a moved-from array leaves it empty, for every length and
contents. -/
theorem C40_storage_refuted (l m : List ℕ) :
    ∃ s, run St.empty [.ctorList 0 l, .ctorList 1 m, .ctorMove 2 0, .assign 0 1] = .ok s ∧
      s.view 0 = some [] ∧ s.view 1 = some m ∧ s.view 2 = some l := by
  obtain ⟨s, h1, h2⟩ := (C39_values [.ctorList 0 l, .ctorList 1 m, .ctorMove 2 0, .assign 0 1]).1 _ rfl
  exact ⟨s, h1, by rw [h2]; simp [upd], by rw [h2]; simp [upd], by rw [h2]; simp [upd]⟩

end EFX.Props
