/-!
# The digit storage: `util::dynamic_array`

Model of /repo/libs/e_float/src/utility/util_dynamic_array.h.  A store of blocks with contents, and
variables that hold a count and a pointer.  Freeing or touching a block that is not live, freeing with a
wrong size, and dereferencing a null pointer are memory errors.  Using a variable outside its life time and
indexing beyond the count are misuse by the caller.
Simplifications: allocation never fails; element types are numbers (trivial destructors, so the destroy loops
of lines 121-128 and 153-160 have no effect); `std::allocator` accepts a null pointer with count zero.
-/

namespace EFX.Heap

/-- The two members `elem_count` and `elems` (util_dynamic_array.h 240-241). -/
structure Arr where
  count : Nat
  ptr : Option Nat
deriving DecidableEq

/-- Errors: a memory error inside the class, or misuse by the caller. -/
inductive Err where
  | memory
  | misuse
deriving DecidableEq

/-- The whole state: the next fresh block, the contents of the live blocks, the living variables. -/
structure St where
  next : Nat
  live : Nat → Option (List Nat)
  vars : Nat → Option Arr

/-- No variable, no block. -/
def St.empty : St := ⟨0, fun _ => none, fun _ => none⟩

/-- Update of a function at a point. -/
def upd {α : Type} (f : Nat → α) (i : Nat) (a : α) : Nat → α := fun k => if k = i then a else f k

/-- `allocate` followed by writing all elements; only for a positive count, otherwise the pointer stays null
(39-60, 62-75, 78-93, 95-105). -/
def alloc (s : St) (l : List Nat) : St × Arr :=
  if l.length > 0 then
    ({ s with next := s.next + 1, live := upd s.live s.next (some l) }, ⟨l.length, some s.next⟩)
  else (s, ⟨0, none⟩)

/-- `deallocate(my_a, elems, elem_count)` (131, 162). -/
def dealloc (s : St) (a : Arr) : Except Err St :=
  match a.ptr with
  | none => if a.count = 0 then .ok s else .error .memory
  | some b =>
    match s.live b with
    | none => .error .memory
    | some l => if l.length = a.count then .ok { s with live := upd s.live b none } else .error .memory

/-- Reading the range `[elems, elems + n)`. -/
def readN (s : St) (a : Arr) (n : Nat) : Except Err (List Nat) :=
  if n = 0 then .ok [] else
  match a.ptr with
  | none => .error .memory
  | some b =>
    match s.live b with
    | none => .error .memory
    | some l => if n ≤ l.length then .ok (l.take n) else .error .memory

/-- Writing the elements `l` to the range that starts at `elems + k`. -/
def writeAt (s : St) (a : Arr) (k : Nat) (l : List Nat) : Except Err St :=
  if l.length = 0 then .ok s else
  match a.ptr with
  | none => .error .memory
  | some b =>
    match s.live b with
    | none => .error .memory
    | some m =>
      if k + l.length ≤ m.length then .ok { s with live := upd s.live b (some (m.take k ++ l ++ m.drop (k + l.length))) }
      else .error .memory

/-- Operations on array variables. -/
inductive Cmd where
  /-- constructor from count and value, 39-60 -/
  | ctorFill (i n v : Nat)
  /-- constructors from a range and from an initializer list, 77-105 -/
  | ctorList (i : Nat) (l : List Nat)
  /-- copy constructor, 62-75 -/
  | ctorCopy (i j : Nat)
  /-- move constructor, 108-114 -/
  | ctorMove (i j : Nat)
  /-- destructor, 117-132 -/
  | dtor (i : Nat)
  /-- copy assignment, 135-145 -/
  | assign (i j : Nat)
  /-- move assignment, 148-171 -/
  | moveAssign (i j : Nat)
  /-- `swap`, 215-237 -/
  | swap (i j : Nat)
  /-- `fill`, 210-213 -/
  | fill (i v : Nat)
  /-- `a[k] = v`, 197 -/
  | set (i k v : Nat)

/-- Start the life of variable `i`. -/
def born (s : St) (i : Nat) (a : Arr) : St := { s with vars := upd s.vars i (some a) }

/-- One operation. -/
def exec (s : St) : Cmd → Except Err St
  | .ctorFill i n v =>
    match s.vars i with
    | some _ => .error .misuse
    | none => let r := alloc s (List.replicate n v); .ok (born r.1 i r.2)
  | .ctorList i l =>
    match s.vars i with
    | some _ => .error .misuse
    | none => let r := alloc s l; .ok (born r.1 i r.2)
  | .ctorCopy i j =>
    match s.vars i, s.vars j with
    | none, some b => do
      let l ← readN s b b.count
      let r := alloc s l
      .ok (born r.1 i r.2)
    | _, _ => .error .misuse
  | .ctorMove i j =>
    match s.vars i, s.vars j with
    | none, some b => .ok (born (born s i b) j ⟨0, none⟩)
    | _, _ => .error .misuse
  | .dtor i =>
    match s.vars i with
    | none => .error .misuse
    | some a => do
      let s ← dealloc s a
      .ok { s with vars := upd s.vars i none }
  | .assign i j =>
    match s.vars i, s.vars j with
    | some a, some b =>
      if i = j then .ok s else do
        let l ← readN s b (min a.count b.count)
        writeAt s a 0 l
    | _, _ => .error .misuse
  | .moveAssign i j =>
    match s.vars i, s.vars j with
    | some a, some _ => do
      let s ← dealloc s a
      -- the members of `other` are read after the block of `*this` is gone
      match s.vars j with
      | some b => .ok (born (born s i b) j ⟨0, none⟩)
      | none => .error .misuse
    | _, _ => .error .misuse
  | .swap i j =>
    match s.vars i, s.vars j with
    | some a, some b => .ok (born (born s i b) j a)
    | _, _ => .error .misuse
  | .fill i v =>
    match s.vars i with
    | none => .error .misuse
    | some a => writeAt s a 0 (List.replicate a.count v)
  | .set i k v =>
    match s.vars i with
    | none => .error .misuse
    | some a => if k < a.count then writeAt s a k [v] else .error .misuse

/-- A history. -/
def run (s : St) : List Cmd → Except Err St
  | [] => .ok s
  | I :: p => do
    let s ← exec s I
    run s p

/-! ### Specification: arrays as plain values -/

/-- What a caller sees: each living variable is a list. -/
abbrev View := Nat → Option (List Nat)

/-- The intended meaning of the operations on values.  Copy assignment never changes the length: it copies the
common prefix only. -/
def spec (w : View) : Cmd → Option View
  | .ctorFill i n v => if w i = none then some (upd w i (some (List.replicate n v))) else none
  | .ctorList i l => if w i = none then some (upd w i (some l)) else none
  | .ctorCopy i j =>
    match w i, w j with
    | none, some l => some (upd w i (some l))
    | _, _ => none
  | .ctorMove i j =>
    match w i, w j with
    | none, some l => some (upd (upd w i (some l)) j (some []))
    | _, _ => none
  | .dtor i => if (w i).isSome then some (upd w i none) else none
  | .assign i j =>
    match w i, w j with
    | some l, some m => some (upd w i (some (m.take l.length ++ l.drop m.length)))
    | _, _ => none
  | .moveAssign i j =>
    match w i, w j with
    | some _, some m => some (upd (upd w i (some m)) j (some []))
    | _, _ => none
  | .swap i j =>
    match w i, w j with
    | some l, some m => some (upd (upd w i (some m)) j (some l))
    | _, _ => none
  | .fill i v =>
    match w i with
    | some l => some (upd w i (some (List.replicate l.length v)))
    | none => none
  | .set i k v =>
    match w i with
    | some l => if k < l.length then some (upd w i (some (l.set k v))) else none
    | none => none

/-- A history of values. -/
def specRun (w : View) : List Cmd → Option View
  | [] => some w
  | I :: p => (spec w I).bind fun w => specRun w p

/-- The value of a variable in a state: the contents of its block. -/
def St.view (s : St) : View := fun i =>
  (s.vars i).map fun a => match a.ptr with
    | none => []
    | some b => ((s.live b).getD [])

end EFX.Heap
