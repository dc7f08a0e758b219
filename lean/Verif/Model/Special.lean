import Verif.Model.Elementary
/-!
# Special functions of integers (functions/integer/bernoulli_b.cpp, functions/gamma)

The functions are written over the record `Arith`, like the elementary functions.  `none` is an undefined operation: an index
outside a vector or a signed overflow.
-/

namespace EFX.Fn
variable {α : Type} (A : Arith α)

/-- A `for` loop: `cnt` rounds from index `k`. -/
def loopUp {σ : Type} (f : Nat → σ → Option σ) : Nat → Nat → σ → Option σ
  | 0, _, s => some s
  | cnt + 1, k, s => (f k s).bind (loopUp f cnt (k + 1))

/-- `v[i] = x` with the bounds that the standard requires. -/
def put (v : List α) (i : Nat) (x : α) : Option (List α) := if i < v.length then some (v.set i x) else none

/-- First loop of `bernoulli_table`: `t[k] = t[k-1] * (k-1)` (bernoulli_b.cpp 85-88). -/
def tanInit (k : Nat) (t : List α) : Option (List α) := do
  let a ← t[k - 1]?
  put t k (A.mulI a ((k : Int) - 1))

/-- Body of the inner loop: `t[j] = t[j-1] * (j-k) + t[j] * (j-k+2)` (bernoulli_b.cpp 92-98). -/
def tanStep (k j : Nat) (t : List α) : Option (List α) := do
  let a ← t[j - 1]?
  let b ← t[j]?
  put t j (A.add (A.mulI a ((j : Int) - k)) (A.mulI b ((j : Int) - k + 2)))

/-- Body of the third loop (bernoulli_b.cpp 106-117), with the vector and `two_pow_two_m`. -/
def bernStep (t : List α) (i : Nat) (s : List α × α) : Option (List α × α) := do
  if 2147483648 ≤ 2 * i then none
  else
    let a ← t[i]?
    let b := A.div (A.mulI a (2 * (i : Int))) (A.sub (A.mul s.2 s.2) s.2)
    let bn ← put s.1 (2 * i) (if (2 * i) % 4 = 0 then A.neg b else b)
    some (bn, A.mulI s.2 4)

/-- `ef::bernoulli_table(bn, n)` (bernoulli_b.cpp 68-121); the vector that is left in `bn`.  `n` and `nn` have 32 bits
without sign, `m`, the indices and `2 * i` have 32 bits with sign; a new `e_float` is zero. -/
def bernoulliTable (n : Nat) : Option (List α) := do
  let nn := if n % 2 ≠ 0 then (n + 1) % 4294967296 else n
  let m := nn / 2
  if 2147483648 ≤ m + 1 then none
  else
    let t ← put (List.replicate (m + 1) (zero A)) 0 (zero A)
    let t ← put t 1 (one A)
    let t ← loopUp (tanInit A) (m - 1) 2 t
    let t ← loopUp (fun k t => loopUp (tanStep A k) (m + 1 - k) k t) (m - 1) 2 t
    let s ← loopUp (bernStep A t) (t.length - 1) 1 (List.replicate (nn + 1) (zero A), A.ofI 4)
    let bn ← put s.1 0 (one A)
    put bn 1 (A.neg A.half)

/-- Loop of `ef::pi` (constants.cpp 120-151) with the variables `a`, `bB`, `s`, `t`; the result is `val_pi`, `bB`, `s` after
the loop.  `1UL << k` is reduced to 32 bits with sign, as is the negative order. -/
def piLoop (fuel k : Nat) (a b s t v : α) : α × α × α :=
  match fuel with
  | 0 => (v, b, s)
  | fuel + 1 =>
    let b1 := A.sqrt b
    let a1 := A.divI (A.add a b1) 2
    let v1 := A.mul a1 a1
    let b2 := A.mulI (A.sub v1 t) 2
    let it := A.mulI (A.sub b2 v1) (Int.bmod ((2 ^ k : Nat) : Int) 4294967296)
    let s1 := A.add s it
    if Int.bmod (-(A.order it)) 4294967296 ≥ Int.tdiv A.tol 2 + 10 then (v1, b2, s1)
    else piLoop fuel (k + 1) a1 b2 s1 (A.divI (A.add v1 b2) 4) v1

/-- `ef::pi` for 1010 digits and more (constants.cpp 102-158).  `t0` is the number read from `"0.375"`; the number read
from `"0.5"` is `ef::half()`; a new `e_float` is zero. -/
def piAgm (t0 : α) : α :=
  let r := piLoop A 63 1 (A.ofI 1) A.half A.half t0 (zero A)
  A.mul (A.add r.1 r.2.1) (A.inv r.2.2)

end EFX.Fn
