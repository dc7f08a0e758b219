import Verif.Model.Basic
/-!
# Limb loops

Each loop of the C++ code that runs from the last limb to the first one is a structural
recursion on the limb list (the tail is processed first, as in the C++ code, and hands its
carry to the head).  All word operations wrap.
-/

namespace EFX

/-- Shift down by `k` limbs into a zero-filled array of the same length: the `std::copy` /
`std::fill` pairs of efx.cpp 471-477, 483-489, 540-546 and the `copy_backward` / `fill` pair
556-562. -/
def shiftDown (k : Nat) (d : List Nat) : List Nat :=
  List.replicate (min k d.length) 0 ++ d.take (d.length - k)

/-- Shift up by `k` limbs, zero fill: efx.cpp 630-636, 1661-1670, 1697-1703. -/
def shiftUp (k : Nat) (d : List Nat) : List Nat :=
  d.drop k ++ List.replicate (min k d.length) 0

/-- Distance from `begin()` to the first non-zero limb (`std::find_if`, efx.cpp 608-614). -/
def firstNonzero : List Nat → Nat
  | [] => 0
  | a :: as => if a ≠ 0 then 0 else firstNonzero as + 1

/-- Addition loop (efx.cpp 496-508): new limbs and final carry. -/
def addLoop : List Nat → List Nat → List Nat × Nat
  | u :: us, v :: vs =>
    let r := addLoop us vs
    let t := w32 (w32 (u + v) + r.2)
    let carry := t / mask
    (wsub32 t (w32 (carry * mask)) :: r.1, carry)
  | _, _ => ([], 0)

/-- Subtraction loop (efx.cpp 578-598): new limbs and final borrow. -/
def subLoop : List Nat → List Nat → List Nat × Int
  | u :: us, v :: vs =>
    let r := subLoop us vs
    let t := i32 (i32 (i32 u - i32 v) - r.2)
    let t' := if t < 0 then i32 (t + mask) else t
    let borrow : Int := if t < 0 then 1 else 0
    (u32OfInt t' % mask :: r.1, borrow)
  | _, _ => ([], 0)

/-- `cmp_data` (efx.cpp 1180-1201): first mismatch decides. -/
def cmpData : List Nat → List Nat → Int
  | a :: as, b :: bs => if a = b then cmpData as bs else if a > b then 1 else -1
  | _, _ => 0

/-- Inner loop of `mul_loop_uv` (efx.cpp 196-201): column `j`; the first argument counts the
remaining values `i = k-1, ..., 0` of the loop variable. -/
def mulColumn (u v : List Nat) (j : Nat) : Nat → Nat → Nat
  | 0, sum => sum
  | i + 1, sum => mulColumn u v j i (w64 (sum + w64 (u.getD (j - i) 0 * v.getD i 0)))

/-- Outer loop of `mul_loop_uv` (efx.cpp 192-205), `v` a different array than `u`. -/
def mulRows (v : List Nat) : Nat → List Nat → Nat → List Nat × Nat
  | 0, u, carry => (u, carry)
  | j + 1, u, carry =>
    let sum := mulColumn u v j (j + 1) carry
    mulRows v j (u.set j (w32 (sum % mask))) (sum / mask)

/-- `mul_loop_uv` (efx.cpp 188-208). -/
def mulLoopUV (u v : List Nat) (p : Nat) : List Nat × Nat :=
  let r := mulRows v p u 0
  (r.1, w32 r.2)

/-- Outer loop of `mul_loop_uv` when `v` and `u` are the same array (`x *= x`): every column is
computed from the partially overwritten array. -/
def mulRowsSelf : Nat → List Nat → Nat → List Nat × Nat
  | 0, u, carry => (u, carry)
  | j + 1, u, carry =>
    let sum := mulColumn u u j (j + 1) carry
    mulRowsSelf j (u.set j (w32 (sum % mask))) (sum / mask)

/-- `mul_loop_uv(my_data, my_data, p)`. -/
def mulLoopSelf (u : List Nat) (p : Nat) : List Nat × Nat :=
  let r := mulRowsSelf p u 0
  (r.1, w32 r.2)

/-- Splitting into half-limbs (efx.cpp 244-251). -/
def halves (l : List Nat) : List Nat := l.flatMap fun x => [x / 10000, x % 10000]

/-- Column `k` of the product of two digit sequences. -/
def convAt (a b : List Nat) (k : Nat) : Nat :=
  ((List.range (k + 1)).map fun i => a.getD i 0 * b.getD (k - i) 0).sum

/-- Carry release of `mul_loop_fft` (efx.cpp 328-343) for limbs `i-1, ..., 0`.
Simplification: the double-precision transform, convolution and rounding of efx.cpp 256-323
are replaced by the exact convolution they approximate (assumption A-FFT in DESIGN.md). -/
def fftRelease (a b : List Nat) : Nat → List Nat → Nat → List Nat
  | 0, acc, _ => acc
  | i + 1, acc, carry =>
    let xlo := w64 (convAt a b (2 * i) + carry)
    let carry1 := xlo / 10000
    let nlo := w32 (wsub64 xlo (w64 (carry1 * 10000)))
    let xhi := w64 ((if i ≠ 0 then convAt a b (2 * i - 1) else 0) + carry1)
    let carry2 := xhi / 10000
    let nhi := w32 (wsub64 xhi (w64 (carry2 * 10000)))
    fftRelease a b i (w32 (w32 (nhi * 10000) + nlo) :: acc) carry2

/-- `mul_loop_fft` (efx.cpp 210-348), see `fftRelease`.  Limbs from `p` on are untouched. -/
def mulLoopFFT (u v : List Nat) (p : Nat) : List Nat :=
  fftRelease (halves (u.take p)) (halves (v.take p)) p [] 0 ++ u.drop p

/-- `mul_loop_n` (efx.cpp 350-363) on the first `p` limbs (the caller passes `u.take p`). -/
def mulLoopN (n : Nat) : List Nat → List Nat × Nat
  | [] => ([], 0)
  | u :: us =>
    let r := mulLoopN n us
    let t := w64 (r.2 + w64 (u * n))
    let carry := t / mask
    (w32 (wsub64 t (w64 (mask * carry))) :: r.1, carry)

/-- `div_loop_n` (efx.cpp 365-377): new limbs and final remainder. -/
def divLoopN (n : Nat) : List Nat → Nat → List Nat × Nat
  | [], prev => ([], w32 prev)
  | u :: us, prev =>
    let t := w64 (u + w64 (prev * mask))
    let q := w32 (t / n)
    let r := divLoopN n us (wsub64 t (w64 (n * q)))
    (q :: r.1, r.2)

/-- Shift the first `p` limbs right by one and store `carry` in front; limbs from `p` on stay
(`copy_backward`, efx.cpp 750-754 and 885-889). -/
def pushFront (carry p : Nat) (d : List Nat) : List Nat :=
  carry :: (d.take (p - 1) ++ d.drop p)

end EFX
