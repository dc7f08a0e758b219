import Verif.Model.Limbs
/-!
# Limb loops with range checks

The loops of `Model/Limbs` once more, over unbounded integers: instead of wrapping, every
intermediate quantity is checked against the range of its C++ type, and the loop fails (`none`)
as soon as one leaves it.  Property C17 says that they never fail and agree with the wrapping
loops.
-/

namespace EFX

/-- The value, if it is a `std::uint32_t`. -/
def chk32 (n : Int) : Option Nat := if 0 ≤ n ∧ n ≤ 4294967295 then some n.toNat else none
/-- The value, if it is a `std::uint64_t`. -/
def chk64 (n : Int) : Option Nat := if 0 ≤ n ∧ n ≤ 18446744073709551615 then some n.toNat else none
/-- The value, if it is a `std::int32_t`. -/
def chkI32 (n : Int) : Option Int := if -2147483648 ≤ n ∧ n ≤ 2147483647 then some n else none

/-- Addition loop (efx.cpp 496-508), checked. -/
def addLoopC : List Nat → List Nat → Option (List Nat × Nat)
  | u :: us, v :: vs => do
    let r ← addLoopC us vs
    let s ← chk32 ((u : Int) + v)
    let t ← chk32 ((s : Int) + r.2)
    let carry := t / mask
    let cm ← chk32 ((carry : Int) * mask)
    let d ← chk32 ((t : Int) - cm)
    pure (d :: r.1, carry)
  | _, _ => some ([], 0)

/-- Subtraction loop (efx.cpp 578-598), checked. -/
def subLoopC : List Nat → List Nat → Option (List Nat × Int)
  | u :: us, v :: vs => do
    let r ← subLoopC us vs
    let a ← chkI32 u
    let b ← chkI32 v
    let t0 ← chkI32 (a - b)
    let t ← chkI32 (t0 - r.2)
    let t' ← if t < 0 then chkI32 (t + mask) else some t
    let d ← chk32 t'
    pure (d % mask :: r.1, if t < 0 then 1 else 0)
  | _, _ => some ([], 0)

/-- Inner loop of `mul_loop_uv` (efx.cpp 196-201), checked. -/
def mulColumnC (u v : List Nat) (j : Nat) : Nat → Nat → Option Nat
  | 0, sum => some sum
  | i + 1, sum => do
    let m ← chk64 ((u.getD (j - i) 0 : Int) * (v.getD i 0 : Nat))
    let s ← chk64 ((sum : Int) + m)
    mulColumnC u v j i s

/-- Outer loop of `mul_loop_uv` (efx.cpp 192-205), checked. -/
def mulRowsC (v : List Nat) : Nat → List Nat → Nat → Option (List Nat × Nat)
  | 0, u, carry => some (u, carry)
  | j + 1, u, carry => do
    let sum ← mulColumnC u v j (j + 1) carry
    let d ← chk32 ((sum % mask : Nat) : Int)
    mulRowsC v j (u.set j d) (sum / mask)

/-- `mul_loop_uv` (efx.cpp 188-208), checked; the final carry is narrowed to 32 bits. -/
def mulLoopUVC (u v : List Nat) (p : Nat) : Option (List Nat × Nat) := do
  let r ← mulRowsC v p u 0
  let k ← chk32 (r.2 : Int)
  pure (r.1, k)

/-- Carry release of `mul_loop_fft` (efx.cpp 328-343), checked. -/
def fftReleaseC (a b : List Nat) : Nat → List Nat → Nat → Option (List Nat)
  | 0, acc, _ => some acc
  | i + 1, acc, carry => do
    let xlo ← chk64 ((convAt a b (2 * i) : Int) + carry)
    let carry1 := xlo / 10000
    let m1 ← chk64 ((carry1 : Int) * 10000)
    let l1 ← chk64 ((xlo : Int) - m1)
    let nlo ← chk32 (l1 : Int)
    let xhi ← chk64 (((if i ≠ 0 then convAt a b (2 * i - 1) else 0 : Nat) : Int) + carry1)
    let carry2 := xhi / 10000
    let m2 ← chk64 ((carry2 : Int) * 10000)
    let l2 ← chk64 ((xhi : Int) - m2)
    let nhi ← chk32 (l2 : Int)
    let h ← chk32 ((nhi : Int) * 10000)
    let d ← chk32 ((h : Int) + nlo)
    fftReleaseC a b i (d :: acc) carry2

/-- `mul_loop_fft` (efx.cpp 210-348), checked. -/
def mulLoopFFTC (u v : List Nat) (p : Nat) : Option (List Nat) := do
  let d ← fftReleaseC (halves (u.take p)) (halves (v.take p)) p [] 0
  pure (d ++ u.drop p)

/-- `mul_loop_n` (efx.cpp 350-363), checked. -/
def mulLoopNC (n : Nat) : List Nat → Option (List Nat × Nat)
  | [] => some ([], 0)
  | u :: us => do
    let r ← mulLoopNC n us
    let m ← chk64 ((u : Int) * n)
    let t ← chk64 ((r.2 : Int) + m)
    let carry := t / mask
    let k ← chk64 ((mask : Int) * carry)
    let d ← chk64 ((t : Int) - k)
    let d ← chk32 (d : Int)
    pure (d :: r.1, carry)

/-- `div_loop_n` (efx.cpp 365-377), checked. -/
def divLoopNC (n : Nat) : List Nat → Nat → Option (List Nat × Nat)
  | [], prev => do
    let r ← chk32 (prev : Int)
    pure ([], r)
  | u :: us, prev => do
    let m ← chk64 ((prev : Int) * mask)
    let t ← chk64 ((u : Int) + m)
    let q ← chk32 ((t / n : Nat) : Int)
    let k ← chk64 ((n : Int) * q)
    let p ← chk64 ((t : Int) - k)
    let r ← divLoopNC n us p
    pure (q :: r.1, r.2)

end EFX
