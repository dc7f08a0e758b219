import Verif.Model.Heap
import Mathlib.Tactic.Common
import Mathlib.Data.List.TakeDrop
/-! Ownership invariant of the array storage and its simulation by plain lists. -/

namespace EFX.Heap

/-- Ownership: unused blocks are not live; a variable is empty or owns a live block of its size; no block has two
owners; every live block has an owner. -/
structure Inv (s : St) : Prop where
  fresh : ∀ b, s.next ≤ b → s.live b = none
  own : ∀ i a, s.vars i = some a → (a.ptr = none ∧ a.count = 0) ∨ ∃ b l, a.ptr = some b ∧ s.live b = some l ∧ l.length = a.count
  inj : ∀ i j a a' b, s.vars i = some a → s.vars j = some a' → a.ptr = some b → a'.ptr = some b → i = j
  used : ∀ b l, s.live b = some l → ∃ i a, s.vars i = some a ∧ a.ptr = some b

@[simp] theorem upd_self {α : Type} (f : Nat → α) (i : Nat) (a : α) : upd f i a i = a := by simp [upd]
theorem upd_ne {α : Type} (f : Nat → α) {i k : Nat} (a : α) (h : k ≠ i) : upd f i a k = f k := by simp [upd, h]

theorem Inv_empty : Inv St.empty := by
  constructor <;> simp [St.empty]

theorem view_eq (s : St) (i : Nat) : s.view i = (s.vars i).map fun a => match a.ptr with
    | none => []
    | some b => ((s.live b).getD []) := rfl

theorem view_none {s : St} {i : Nat} : s.view i = none ↔ s.vars i = none := by
  rw [view_eq]; simp

theorem view_none' {s : St} {i : Nat} (h : s.vars i = none) : s.view i = none := view_none.2 h

theorem view_length {s : St} (h : Inv s) {i : Nat} {a : Arr} (hi : s.vars i = some a) :
    ∃ l, s.view i = some l ∧ l.length = a.count := by
  rw [view_eq, hi]
  rcases h.own i a hi with ⟨h1, h2⟩ | ⟨b, l, h1, h2, h3⟩
  · exact ⟨[], by simp [h1], by simp [h2]⟩
  · exact ⟨l, by simp [h1, h2], h3⟩

/-- A new variable with fresh storage. -/
theorem alloc_ok {s : St} (h : Inv s) {i : Nat} (hi : s.vars i = none) (l : List Nat) :
    Inv (born (alloc s l).1 i (alloc s l).2) ∧ (born (alloc s l).1 i (alloc s l).2).view = upd s.view i (some l) := by
  unfold alloc
  split
  · rename_i hl
    have hne : ∀ k a b, s.vars k = some a → a.ptr = some b → b ≠ s.next := by
      intro k a b hk hp hb
      rcases h.own k a hk with ⟨h1, h2⟩ | ⟨b', l', h1, h2, h3⟩
      · rw [h1] at hp; cases hp
      · rw [h1] at hp; cases hp
        have := h.fresh b (by omega)
        rw [this] at h2; cases h2
    refine ⟨⟨?_, ?_, ?_, ?_⟩, ?_⟩
    · intro b hb
      simp only [born] at hb ⊢
      rw [upd_ne _ _ (by omega)]
      exact h.fresh b (by omega)
    · intro k a hk
      simp only [born] at hk ⊢
      by_cases e : k = i
      · subst e
        rw [upd_self] at hk
        cases hk
        exact Or.inr ⟨s.next, l, rfl, upd_self _ _ _, rfl⟩
      · rw [upd_ne _ _ e] at hk
        rcases h.own k a hk with h1 | ⟨b, m, h1, h2, h3⟩
        · exact Or.inl h1
        · exact Or.inr ⟨b, m, h1, by rw [upd_ne _ _ (hne k a b hk h1)]; exact h2, h3⟩
    · intro k j a a' b hk hj hp hp'
      simp only [born] at hk hj
      by_cases e : k = i <;> by_cases e' : j = i
      · omega
      · subst e
        rw [upd_self] at hk; cases hk
        rw [upd_ne _ _ e'] at hj
        cases hp
        exact absurd rfl (hne j a' _ hj hp')
      · subst e'
        rw [upd_self] at hj; cases hj
        rw [upd_ne _ _ e] at hk
        cases hp'
        exact absurd rfl (hne k a _ hk hp)
      · rw [upd_ne _ _ e] at hk
        rw [upd_ne _ _ e'] at hj
        exact h.inj k j a a' b hk hj hp hp'
    · intro b m hb
      simp only [born] at hb ⊢
      by_cases e : b = s.next
      · subst e
        exact ⟨i, _, upd_self _ _ _, rfl⟩
      · rw [upd_ne _ _ e] at hb
        obtain ⟨k, a, hk, hp⟩ := h.used b m hb
        refine ⟨k, a, ?_, hp⟩
        rw [upd_ne _ _ (by rintro rfl; rw [hi] at hk; cases hk)]
        exact hk
    · funext k
      rw [view_eq]
      simp only [born]
      by_cases e : k = i
      · subst e; simp
      · rw [upd_ne _ _ e, upd_ne _ _ e, view_eq]
        cases hk : s.vars k with
        | none => rfl
        | some a =>
          simp only [Option.map_some]
          cases hp : a.ptr with
          | none => rfl
          | some b => simp only; rw [upd_ne _ _ (hne k a b hk hp)]
  · rename_i hl
    have l0 : l = [] := by
      cases l with
      | nil => rfl
      | cons a t => simp at hl
    subst l0
    refine ⟨⟨h.fresh, ?_, ?_, ?_⟩, ?_⟩
    · intro k a hk
      simp only [born] at hk ⊢
      by_cases e : k = i
      · subst e
        rw [upd_self] at hk
        cases hk
        exact Or.inl ⟨rfl, rfl⟩
      · rw [upd_ne _ _ e] at hk
        exact h.own k a hk
    · intro k j a a' b hk hj hp hp'
      simp only [born] at hk hj
      by_cases e : k = i
      · subst e
        rw [upd_self] at hk; cases hk; cases hp
      by_cases e' : j = i
      · subst e'
        rw [upd_self] at hj; cases hj; cases hp'
      rw [upd_ne _ _ e] at hk
      rw [upd_ne _ _ e'] at hj
      exact h.inj k j a a' b hk hj hp hp'
    · intro b m hb
      obtain ⟨k, a, hk, hp⟩ := h.used b m hb
      refine ⟨k, a, ?_, hp⟩
      simp only [born]
      rw [upd_ne _ _ (by rintro rfl; rw [hi] at hk; cases hk)]
      exact hk
    · funext k
      rw [view_eq]
      simp only [born]
      by_cases e : k = i
      · subst e; simp
      · rw [upd_ne _ _ e, upd_ne _ _ e, view_eq]

/-- Reading a prefix of a variable. -/
theorem read_ok {s : St} (h : Inv s) {i n : Nat} {a : Arr} {l : List Nat} (hi : s.vars i = some a) (hl : s.view i = some l)
    (hn : n ≤ a.count) : readN s a n = .ok (l.take n) := by
  rw [view_eq, hi] at hl
  unfold readN
  split
  · rename_i h0; subst h0; simp
  rename_i h0
  rcases h.own i a hi with ⟨h1, h2⟩ | ⟨b, m, h1, h2, h3⟩
  · omega
  · simp only [h1, h2, Option.map_some, Option.getD_some, Option.some.injEq] at hl ⊢
    subst hl
    rw [if_pos (by omega)]

/-- Changing the contents of the block of one variable, keeping the length. -/
theorem put_ok {s : St} (h : Inv s) {i b : Nat} {a : Arr} {m m' : List Nat} (hi : s.vars i = some a) (hp : a.ptr = some b)
    (hb : s.live b = some m) (hm : m'.length = m.length) :
    Inv { s with live := upd s.live b (some m') } ∧ St.view { s with live := upd s.live b (some m') } = upd s.view i (some m') := by
  refine ⟨⟨?_, ?_, h.inj, ?_⟩, ?_⟩
  · intro k hk
    simp only at hk ⊢
    have : k ≠ b := by
      rintro rfl
      rw [h.fresh _ hk] at hb; cases hb
    rw [upd_ne _ _ this]
    exact h.fresh k hk
  · intro k a' hk
    simp only at hk ⊢
    rcases h.own k a' hk with h1 | ⟨b', l, h1, h2, h3⟩
    · exact Or.inl h1
    · right
      by_cases e : b' = b
      · subst e
        rw [hb] at h2; cases h2
        exact ⟨b', m', h1, upd_self _ _ _, by omega⟩
      · exact ⟨b', l, h1, by rw [upd_ne _ _ e]; exact h2, h3⟩
  · intro k l hk
    simp only at hk ⊢
    by_cases e : k = b
    · subst e; exact ⟨i, a, hi, hp⟩
    · rw [upd_ne _ _ e] at hk
      exact h.used k l hk
  · funext k
    rw [view_eq]
    simp only
    by_cases e : k = i
    · subst e; rw [hi, upd_self]; simp [hp]
    · rw [upd_ne _ _ e, view_eq]
      cases hk : s.vars k with
      | none => rfl
      | some a' =>
        simp only [Option.map_some]
        cases hp' : a'.ptr with
        | none => rfl
        | some b' =>
          simp only
          rw [upd_ne]
          rintro rfl
          exact e (h.inj k i a' a b' hk hi hp' hp)

theorem upd_eq {α : Type} {f : Nat → α} {i : Nat} {a : α} (h : f i = a) : upd f i a = f := by
  funext k
  unfold upd
  split
  · rename_i e; subst e; exact h.symm
  · rfl

/-- Writing inside a variable. -/
theorem write_ok {s : St} (h : Inv s) {i k : Nat} {a : Arr} {l w : List Nat} (hi : s.vars i = some a) (hl : s.view i = some l)
    (hk : k + w.length ≤ a.count) :
    ∃ s', writeAt s a k w = .ok s' ∧ Inv s' ∧ s'.view = upd s.view i (some (l.take k ++ w ++ l.drop (k + w.length))) := by
  unfold writeAt
  split
  · rename_i h0
    refine ⟨s, rfl, h, ?_⟩
    have : w = [] := List.eq_nil_of_length_eq_zero h0
    subst this
    simp only [List.append_nil, List.length_nil, Nat.add_zero, List.take_append_drop]
    exact (upd_eq hl).symm
  rename_i h0
  rcases h.own i a hi with ⟨h1, h2⟩ | ⟨b, m, h1, h2, h3⟩
  · omega
  · have e : m = l := by
      rw [view_eq, hi] at hl
      simpa [h1, h2] using hl
    subst e
    simp only [h1, h2]
    rw [if_pos (by omega)]
    refine ⟨_, rfl, put_ok h hi h1 h2 ?_⟩
    simp only [List.length_append, List.length_take, List.length_drop]
    omega

/-- Freeing the block of variable `i` succeeds. -/
theorem dealloc_ok {s : St} (h : Inv s) {i : Nat} {a : Arr} (hi : s.vars i = some a) :
    dealloc s a = .ok { s with live := fun k => if a.ptr = some k then none else s.live k } := by
  unfold dealloc
  rcases h.own i a hi with ⟨h1, h2⟩ | ⟨b, m, h1, h2, h3⟩
  · simp only [h1, h2, if_true]
    congr
  · simp only [h1, h2, h3, if_true]
    congr
    funext k
    unfold upd
    by_cases e : k = b
    · subst e; simp
    · rw [if_neg e, if_neg]
      intro e'; cases e'; exact e rfl

/-- Rearranging ownership: the pointers of the new variables come from distinct old variables. -/
theorem rearrange {s : St} (h : Inv s) {live' : Nat → Option (List Nat)} {vars' : Nat → Option Arr} (src : Nat → Option Nat)
    (hv : ∀ k a, vars' k = some a → (src k = none ∧ a = ⟨0, none⟩) ∨ ∃ j, src k = some j ∧ s.vars j = some a)
    (hs : ∀ k k' j, src k = some j → src k' = some j → k = k')
    (hl : ∀ b, live' b = s.live b ∨ live' b = none)
    (hk : ∀ k j a b, src k = some j → s.vars j = some a → a.ptr = some b → live' b = s.live b)
    (hu : ∀ j a b l, s.vars j = some a → a.ptr = some b → live' b = some l → ∃ k, src k = some j ∧ vars' k = some a) :
    Inv ⟨s.next, live', vars'⟩ := by
  refine ⟨?_, ?_, ?_, ?_⟩
  · intro b hb
    simp only at hb ⊢
    rcases hl b with e | e
    · rw [e]; exact h.fresh b hb
    · exact e
  · intro k a hka
    simp only at hka ⊢
    rcases hv k a hka with ⟨h1, h2⟩ | ⟨j, h1, h2⟩
    · left; rw [h2]; exact ⟨rfl, rfl⟩
    · rcases h.own j a h2 with h3 | ⟨b, l, h3, h4, h5⟩
      · exact Or.inl h3
      · exact Or.inr ⟨b, l, h3, by rw [hk k j a b h1 h2 h3]; exact h4, h5⟩
  · intro k k' a a' b ha ha' hp hp'
    simp only at ha ha'
    rcases hv k a ha with ⟨h1, h2⟩ | ⟨j, h1, h2⟩
    · rw [h2] at hp; cases hp
    rcases hv k' a' ha' with ⟨h1', h2'⟩ | ⟨j', h1', h2'⟩
    · rw [h2'] at hp'; cases hp'
    have := h.inj j j' a a' b h2 h2' hp hp'
    subst this
    exact hs k k' j h1 h1'
  · intro b l hb
    simp only at hb ⊢
    have : s.live b = some l := by
      rcases hl b with e | e
      · rw [← e]; exact hb
      · rw [e] at hb; cases hb
    obtain ⟨j, a, hj, hp⟩ := h.used b l this
    obtain ⟨k, hk1, hk2⟩ := hu j a b l hj hp hb
    exact ⟨k, a, hk2, hp⟩

theorem view_of_vars {s : St} {live' : Nat → Option (List Nat)} {vars' : Nat → Option Arr} {n k j : Nat} {a : Arr}
    (h1 : vars' k = some a) (h2 : s.vars j = some a) (h3 : ∀ b, a.ptr = some b → live' b = s.live b) :
    St.view ⟨n, live', vars'⟩ k = s.view j := by
  rw [view_eq, view_eq, h2]
  simp only [h1, Option.map_some]
  cases hp : a.ptr with
  | none => rfl
  | some b => simp only; rw [h3 b hp]

/-- Every operation does what the value semantics says, or is misuse in both. -/
theorem exec_ok {s : St} (h : Inv s) (I : Cmd) :
    match spec s.view I with
    | some w => ∃ s', exec s I = .ok s' ∧ Inv s' ∧ s'.view = w
    | none => exec s I = .error .misuse := by
  cases I with
  | ctorFill i n v =>
    simp only [spec, exec]
    cases hi : s.vars i with
    | none =>
      rw [if_pos (view_none.2 hi)]
      exact ⟨_, rfl, alloc_ok h hi _⟩
    | some a =>
      rw [if_neg (by rw [view_none, hi]; simp)]
  | ctorList i l =>
    simp only [spec, exec]
    cases hi : s.vars i with
    | none =>
      rw [if_pos (view_none.2 hi)]
      exact ⟨_, rfl, alloc_ok h hi _⟩
    | some a =>
      rw [if_neg (by rw [view_none, hi]; simp)]
  | ctorCopy i j =>
    simp only [spec, exec]
    cases hi : s.vars i with
    | some a =>
      obtain ⟨l, hl, -⟩ := view_length h hi
      simp only [hl]
    | none =>
      rw [view_none' hi]
      cases hj : s.vars j with
      | none => rw [view_none' hj]
      | some b =>
        obtain ⟨l, hl, hc⟩ := view_length h hj
        simp only [hl, read_ok h hj hl (Nat.le_refl _)]
        rw [List.take_of_length_le (by omega)]
        exact ⟨_, rfl, alloc_ok h hi _⟩
  | ctorMove i j =>
    simp only [spec, exec]
    cases hi : s.vars i with
    | some a =>
      obtain ⟨l, hl, -⟩ := view_length h hi
      simp only [hl]
    | none =>
      rw [view_none' hi]
      cases hj : s.vars j with
      | none => rw [view_none' hj]
      | some b =>
        obtain ⟨l, hl, hc⟩ := view_length h hj
        simp only [hl]
        have hij : i ≠ j := by rintro rfl; rw [hi] at hj; cases hj
        refine ⟨_, rfl, ?_, ?_⟩
        · refine rearrange h (fun k => if k = j then none else if k = i then some j else some k) ?_ ?_ (fun _ => Or.inl rfl) (fun _ _ _ _ _ _ _ => rfl) ?_
          · intro k a hk
            simp only [born, upd] at hk
            by_cases e : k = j
            · subst e
              simp only [if_true, Option.some.injEq] at hk
              exact Or.inl ⟨by simp, hk.symm⟩
            · rw [if_neg e] at hk
              right
              by_cases e' : k = i
              · rw [if_pos e'] at hk; cases hk
                exact ⟨j, by rw [if_neg e, if_pos e'], hj⟩
              · rw [if_neg e'] at hk
                exact ⟨k, by rw [if_neg e, if_neg e'], hk⟩
          · intro k k' m h1 h2
            split_ifs at h1 h2 <;> simp_all
          · intro m a b' l' h1 h2 h3
            simp only [born, upd]
            by_cases e : m = j
            · subst e; rw [hj] at h1; cases h1
              exact ⟨i, by simp [hij], by simp [hij]⟩
            · have e' : m ≠ i := by rintro rfl; rw [hi] at h1; cases h1
              exact ⟨m, by simp [e, e'], by simp [e, e', h1]⟩
        · funext k
          by_cases e : k = j
          · subst e; rw [upd_self, view_eq]; simp [born]
          · rw [upd_ne _ _ e]
            by_cases e' : k = i
            · subst e'
              rw [upd_self, ← hl]
              exact view_of_vars (a := b) (by simp [born, upd, hij]) hj (fun _ _ => rfl)
            · rw [upd_ne _ _ e', view_eq, view_eq]
              simp [born, upd, e, e']
  | dtor i =>
    simp only [spec, exec]
    cases hi : s.vars i with
    | none => rw [view_none' hi]; simp
    | some a =>
      obtain ⟨l, hl, hc⟩ := view_length h hi
      rw [hl]
      simp only [Option.isSome_some, if_true, dealloc_ok h hi]
      refine ⟨_, rfl, ?_, ?_⟩
      · refine rearrange h (fun k => if k = i then none else some k) ?_ ?_ ?_ ?_ ?_
        · intro k a' hk
          simp only [upd] at hk
          by_cases e : k = i
          · rw [if_pos e] at hk; cases hk
          · rw [if_neg e] at hk
            exact Or.inr ⟨k, by simp [e], hk⟩
        · intro k k' m h1 h2
          split_ifs at h1 h2; simp_all
        · intro b
          simp only
          split
          · exact Or.inr rfl
          · exact Or.inl rfl
        · intro k j a' b h1 h2 h3
          simp only
          rw [if_neg]
          intro e
          have := h.inj i j a a' b hi h2 e h3
          split_ifs at h1
          simp_all
        · intro j a' b l' h1 h2 h3
          have e : j ≠ i := by
            rintro rfl
            rw [hi] at h1; cases h1
            simp only at h3
            rw [if_pos h2] at h3; cases h3
          exact ⟨j, by simp [e], by simp [upd, e, h1]⟩
      · funext k
        by_cases e : k = i
        · subst e; rw [upd_self, view_eq]; simp
        · rw [upd_ne _ _ e]
          cases hk : s.vars k with
          | none => rw [view_none' hk, view_none]; simp [upd, e, hk]
          | some a' =>
            refine view_of_vars (a := a') (by simp [upd, e, hk]) hk ?_
            intro b hb
            simp only
            rw [if_neg]
            intro e'
            exact e (h.inj k i a' a b hk hi hb e')
  | assign i j =>
    simp only [spec, exec]
    cases hi : s.vars i with
    | none => rw [view_none' hi]
    | some a =>
      obtain ⟨l, hl, hc⟩ := view_length h hi
      rw [hl]
      cases hj : s.vars j with
      | none => rw [view_none' hj]
      | some b =>
        obtain ⟨m, hm, hd⟩ := view_length h hj
        rw [hm]
        simp only
        by_cases e : i = j
        · subst e
          rw [hl] at hm; cases hm
          rw [if_pos rfl]
          refine ⟨s, rfl, h, ?_⟩
          rw [List.take_of_length_le (Nat.le_refl _), List.drop_of_length_le (Nat.le_refl _), List.append_nil]
          exact (upd_eq hl).symm
        · rw [if_neg e, read_ok h hj hm (by omega)]
          obtain ⟨s', e1, e2, e3⟩ := write_ok h (k := 0) (w := m.take (min a.count b.count)) hi hl
            (by rw [List.length_take]; omega)
          refine ⟨s', e1, e2, ?_⟩
          rw [e3]
          congr 2
          simp only [List.take_zero, List.nil_append, Nat.zero_add, List.length_take]
          rw [← hc, ← hd]
          congr 1
          · rw [List.take_eq_take_iff]; omega
          · by_cases q : l.length ≤ m.length
            · rw [List.drop_of_length_le q, List.drop_of_length_le (by omega)]
            · congr 1; omega
  | moveAssign i j =>
    simp only [spec, exec]
    cases hi : s.vars i with
    | none => rw [view_none' hi]
    | some a =>
      obtain ⟨l, hl, hc⟩ := view_length h hi
      rw [hl]
      cases hj : s.vars j with
      | none => rw [view_none' hj]
      | some b =>
        obtain ⟨m, hm, hd⟩ := view_length h hj
        rw [hm]
        simp only [dealloc_ok h hi]
        refine ⟨born (born { s with live := fun k => if a.ptr = some k then none else s.live k } i b) j ⟨0, none⟩, ?_, ?_, ?_⟩
        · show (match s.vars j with | some b => _ | none => _) = _
          rw [hj]
        · refine rearrange h (fun k => if k = j then none else if k = i then some j else some k) ?_ ?_ ?_ ?_ ?_
          · intro k a' hk
            simp only [born, upd] at hk
            by_cases e : k = j
            · subst e
              simp only [if_true, Option.some.injEq] at hk
              exact Or.inl ⟨by simp, hk.symm⟩
            · rw [if_neg e] at hk
              right
              by_cases e' : k = i
              · rw [if_pos e'] at hk; cases hk
                exact ⟨j, by rw [if_neg e, if_pos e'], hj⟩
              · rw [if_neg e'] at hk
                exact ⟨k, by rw [if_neg e, if_neg e'], hk⟩
          · intro k k' m h1 h2
            split_ifs at h1 h2 <;> simp_all
          · intro b
            simp only [born]
            split
            · exact Or.inr rfl
            · exact Or.inl rfl
          · intro k j' a' b' h1 h2 h3
            simp only [born]
            rw [if_neg]
            intro e
            have := h.inj i j' a a' b' hi h2 e h3
            split_ifs at h1 <;> simp_all
          · intro j' a' b' l' h1 h2 h3
            simp only [born] at h3 ⊢
            have e : j' ≠ i := by
              rintro rfl
              rw [hi] at h1; cases h1
              rw [if_pos h2] at h3; cases h3
            by_cases e2 : j' = j
            · subst e2; rw [hj] at h1; cases h1
              exact ⟨i, by simp [e.symm], by simp [upd, e.symm]⟩
            · exact ⟨j', by simp [e, e2], by simp [upd, e, e2, h1]⟩
        · funext k
          by_cases e : k = j
          · subst e; rw [upd_self, view_eq]; simp [born]
          · rw [upd_ne _ _ e]
            have nd : ∀ k' a' b', k' ≠ i → s.vars k' = some a' → a'.ptr = some b' → (if a.ptr = some b' then none else s.live b') = s.live b' := by
              intro k' a' b' h1 h2 h3
              rw [if_neg]
              intro e'
              exact h1 (h.inj k' i a' a b' h2 hi h3 e')
            by_cases e' : k = i
            · subst e'
              rw [upd_self, ← hm]
              exact view_of_vars (a := b) (by simp [born, upd, e]) hj (fun b' hb => nd j b b' (Ne.symm e) hj hb)
            · rw [upd_ne _ _ e']
              cases hk : s.vars k with
              | none => rw [view_none' hk, view_none]; simp [born, upd, e, e', hk]
              | some a' =>
                exact view_of_vars (a := a') (by simp [born, upd, e, e', hk]) hk (fun b' hb => nd k a' b' e' hk hb)
  | swap i j =>
    simp only [spec, exec]
    cases hi : s.vars i with
    | none => rw [view_none' hi]
    | some a =>
      obtain ⟨l, hl, hc⟩ := view_length h hi
      rw [hl]
      cases hj : s.vars j with
      | none => rw [view_none' hj]
      | some b =>
        obtain ⟨m, hm, hd⟩ := view_length h hj
        rw [hm]
        simp only
        refine ⟨_, rfl, ?_, ?_⟩
        · refine rearrange h (fun k => if k = j then some i else if k = i then some j else some k) ?_ ?_ (fun _ => Or.inl rfl) (fun _ _ _ _ _ _ _ => rfl) ?_
          · intro k a' hk
            simp only [born, upd] at hk
            right
            by_cases e : k = j
            · rw [if_pos e] at hk; cases hk
              exact ⟨i, by simp [e], hi⟩
            · rw [if_neg e] at hk
              by_cases e' : k = i
              · rw [if_pos e'] at hk; cases hk
                exact ⟨j, by rw [if_neg e, if_pos e'], hj⟩
              · rw [if_neg e'] at hk
                exact ⟨k, by rw [if_neg e, if_neg e'], hk⟩
          · intro k k' m h1 h2
            split_ifs at h1 h2 <;> simp_all
          · intro j' a' b' l' h1 h2 h3
            simp only [born, upd]
            by_cases e : j' = i
            · subst e; rw [hi] at h1; cases h1
              exact ⟨j, by simp, by simp⟩
            · by_cases e2 : j' = j
              · subst e2; rw [hj] at h1; cases h1
                exact ⟨i, by simp [Ne.symm e], by simp [Ne.symm e]⟩
              · exact ⟨j', by simp [e, e2], by simp [e, e2, h1]⟩
        · funext k
          by_cases e : k = j
          · subst e
            rw [upd_self, ← hl]
            exact view_of_vars (a := a) (by simp [upd]) hi (fun _ _ => rfl)
          · rw [upd_ne _ _ e]
            by_cases e' : k = i
            · subst e'
              rw [upd_self, ← hm]
              exact view_of_vars (a := b) (by simp [born, upd, e]) hj (fun _ _ => rfl)
            · rw [upd_ne _ _ e', view_eq, view_eq]
              simp [born, upd, e, e']
  | fill i v =>
    simp only [spec, exec]
    cases hi : s.vars i with
    | none => rw [view_none' hi]
    | some a =>
      obtain ⟨l, hl, hc⟩ := view_length h hi
      rw [hl]
      simp only
      obtain ⟨s', e1, e2, e3⟩ := write_ok h (k := 0) (w := List.replicate a.count v) hi hl (by simp)
      refine ⟨s', e1, e2, ?_⟩
      rw [e3, hc]
      simp [List.drop_of_length_le (Nat.le_of_eq hc)]
  | set i k v =>
    simp only [spec, exec]
    cases hi : s.vars i with
    | none => rw [view_none' hi]
    | some a =>
      obtain ⟨l, hl, hc⟩ := view_length h hi
      rw [hl]
      simp only
      rw [hc]
      by_cases hk : k < a.count
      · rw [if_pos hk, if_pos hk]
        obtain ⟨s', e1, e2, e3⟩ := write_ok h (k := k) (w := [v]) hi hl (by simp; omega)
        refine ⟨s', e1, e2, ?_⟩
        rw [e3, List.set_eq_take_append_cons_drop, if_pos (by omega)]
        simp
      · rw [if_neg hk, if_neg hk]

/-- Histories. -/
theorem run_ok {s : St} (h : Inv s) (p : List Cmd) :
    match specRun s.view p with
    | some w => ∃ s', run s p = .ok s' ∧ Inv s' ∧ s'.view = w
    | none => run s p = .error .misuse := by
  induction p generalizing s with
  | nil => exact ⟨s, rfl, h, rfl⟩
  | cons I p ih =>
    have hI := exec_ok h I
    simp only [specRun, run]
    cases hs : spec s.view I with
    | none =>
      rw [hs] at hI
      simp only at hI
      rw [hI]
      rfl
    | some w =>
      rw [hs] at hI
      obtain ⟨s', e1, e2, e3⟩ := hI
      rw [e1]
      have := ih e2
      rw [e3] at this
      exact this

end EFX.Heap
