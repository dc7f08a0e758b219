import Verif.Model.Limbs
import Mathlib.Analysis.SpecialFunctions.Trigonometric.Basic

/-!
# The real Fourier transform behind `mul_loop_fft`

`/repo/libs/e_float/src/e_float/detail/e_float_detail_fft.h` ("fft.h") and the transform part of
`mul_loop_fft` (`efx.cpp` 210-348).

Simplifications: `double` is the field of real numbers (no rounding), and the decimal constants of
`template_sin` (fft.h 18-100) are the sines they stand for.  The pointer `float_type* data` is a
function from indices to reals together with an offset; the array accesses are those of the code,
index by index.  Indices are natural numbers (all of them are below 2^28).
-/

namespace EFX.FFT

open Real

/-- A `double` array seen through a pointer. -/
abbrev Arr := Nat → ℝ

/-- `data[i] = x`. -/
noncomputable def put (d : Arr) (i : Nat) (x : ℝ) : Arr := Function.update d i x

/-- `template_sin<N, 1>` (fft.h 33-67). -/
noncomputable def sin1 (N : Nat) : ℝ := Real.sin (π / N)

/-- `template_sin<N, 2>` (fft.h 69-100). -/
noncomputable def sin2 (N : Nat) : ℝ := Real.sin (2 * π / N)

/-- `const_unique_wp_real_init` (fft.h 103-107). -/
noncomputable def wpRealInit (N : Nat) (fwd : Bool) : ℝ := if fwd then sin1 N else -sin1 N

/-- `const_unique_wp_imag` (fft.h 109-113). -/
noncomputable def wpImag (N : Nat) (fwd : Bool) : ℝ := if fwd then sin2 N else -sin2 N

/-- `const_unique_wp_real` (fft.h 115-119). -/
noncomputable def wpReal (N : Nat) (fwd : Bool) : ℝ := -2 * (wpRealInit N fwd * wpRealInit N fwd)

/-- One round of the butterfly loop of `danielson_lanczos` (fft.h 136-143); `o` is the offset of
the pointer. -/
noncomputable def butterfly (N o i : Nat) (wr wi : ℝ) (d : Arr) : Arr :=
  let tr := wr * d (o + (i + N)) - wi * d (o + (i + (N + 1)))
  let ti := wr * d (o + (i + (N + 1))) + wi * d (o + (i + N))
  let d := put d (o + (i + N)) (d (o + i) - tr)
  let d := put d (o + (i + (N + 1))) (d (o + (i + 1)) - ti)
  let d := put d (o + i) (d (o + i) + tr)
  put d (o + (i + 1)) (d (o + (i + 1)) + ti)

/-- The update of the root of unity (fft.h 145-148, also 278-281). -/
noncomputable def nextW (N : Nat) (fwd : Bool) (w : ℝ × ℝ) : ℝ × ℝ :=
  (w.1 + (w.1 * wpReal N fwd - w.2 * wpImag N fwd), w.2 + (w.2 * wpReal N fwd + w.1 * wpImag N fwd))

/-- The loop of `danielson_lanczos` (fft.h 131-149) with `n` rounds left. -/
noncomputable def dlLoop (N o : Nat) (fwd : Bool) : Nat → Nat → ℝ × ℝ → Arr → Arr
  | 0, _, _, d => d
  | n + 1, i, w, d => dlLoop N o fwd n (i + 2) (nextW N fwd w) (butterfly N o i w.1 w.2 d)

/-- `danielson_lanczos<2>` (fft.h 153-168). -/
noncomputable def dl2 (o : Nat) (d : Arr) : Arr :=
  let tr := d (o + 2)
  let ti := d (o + 3)
  let d := put d (o + 2) (d o - tr)
  let d := put d (o + 3) (d (o + 1) - ti)
  let d := put d o (d o + tr)
  put d (o + 1) (d (o + 1) + ti)

/-- `danielson_lanczos<4>` (fft.h 169-199). -/
noncomputable def dl4 (fwd : Bool) (o : Nat) (d : Arr) : Arr :=
  let d := dl2 o d
  let d := dl2 (o + 4) d
  let tr := d (o + 4)
  let ti := d (o + 5)
  let d := put d (o + 4) (d o - tr)
  let d := put d (o + 5) (d (o + 1) - ti)
  let d := put d o (d o + tr)
  let d := put d (o + 1) (d (o + 1) + ti)
  let wr := wpReal 4 fwd + 1
  let wi := wpImag 4 fwd
  let tr := wr * d (o + 6) - wi * d (o + 7)
  let ti := wr * d (o + 7) + wi * d (o + 6)
  let d := put d (o + 6) (d (o + 2) - tr)
  let d := put d (o + 7) (d (o + 3) - ti)
  let d := put d (o + 2) (d (o + 2) + tr)
  put d (o + 3) (d (o + 3) + ti)

/-- `danielson_lanczos<2^m>::apply(data + o)` (fft.h 121-199).  The case `m = 0` is never
instantiated. -/
noncomputable def dl (fwd : Bool) : Nat → Nat → Arr → Arr
  | 0, _, d => d
  | 1, o, d => dl2 o d
  | 2, o, d => dl4 fwd o d
  | m + 3, o, d =>
    let d := dl fwd (m + 2) o d
    let d := dl fwd (m + 2) (o + 2 ^ (m + 3)) d
    dlLoop (2 ^ (m + 3)) o fwd (2 ^ (m + 2)) 0 (1, 0) d

/-- The inner loop of `bit_twiddle` (fft.h 230-239): `j` is reduced while `m > 1` and `j > m`; then
`j += m`. -/
def twiddleStep (m j : Nat) : Nat :=
  if _h : m > 1 ∧ j > m then twiddleStep (m / 2) (j - m) else j + m
termination_by m
decreasing_by omega

/-- The two swaps (fft.h 226-227). -/
noncomputable def swapAt (d : Arr) (i j : Nat) : Arr :=
  let x := d i
  let d := put d i (d j)
  put d j x

/-- The outer loop of `bit_twiddle` (fft.h 222-240) with `n` rounds left. -/
noncomputable def twiddleLoop (N : Nat) : Nat → Nat → Nat → Arr → Arr
  | 0, _, _, d => d
  | n + 1, i, j, d =>
    let d := if j > i then swapAt (swapAt d (j - 1) (i - 1)) j i else d
    twiddleLoop N n (i + 2) (twiddleStep N j) d

/-- `bit_twiddle` (fft.h 215-241): `i` runs over `1, 3, ..., 2 N - 1`. -/
noncomputable def bitTwiddle (N : Nat) (d : Arr) : Arr := twiddleLoop N N 1 1 d

/-- `fft_lanczos<2^m>::fft` (fft.h 207-212). -/
noncomputable def fft (fwd : Bool) (m : Nat) (d : Arr) : Arr := dl fwd m 0 (bitTwiddle (2 ^ m) d)

/-- One round of the loop of `rfft` (fft.h 261-276). -/
noncomputable def unpack (N : Nat) (fwd : Bool) (i : Nat) (wr wi : ℝ) (d : Arr) : Arr :=
  let i1 := i + i
  let i3 := N - i1
  let i2 := 1 + i1
  let i4 := 1 + i3
  let h1r := (1 / 2) * (d i1 + d i3)
  let h1i := (1 / 2) * (d i2 - d i4)
  let h2r := -(d i2 + d i4) * (if fwd then -(1 / 2) else 1 / 2)
  let h2i := (d i1 - d i3) * (if fwd then -(1 / 2) else 1 / 2)
  let d := put d i1 (h1r + wr * h2r - wi * h2i)
  let d := put d i2 (h1i + wr * h2i + wi * h2r)
  let d := put d i3 (h1r - wr * h2r + wi * h2i)
  put d i4 (-h1i + wr * h2i + wi * h2r)

/-- The loop of `rfft` (fft.h 259-282) with `n` rounds left. -/
noncomputable def unpackLoop (N : Nat) (fwd : Bool) : Nat → Nat → ℝ × ℝ → Arr → Arr
  | 0, _, _, d => d
  | n + 1, i, w, d => unpackLoop N fwd n (i + 1) (nextW N fwd w) (unpack N fwd i w.1 w.2 d)

/-- `rfft_lanczos_template<2^(m+1)>::rfft` (fft.h 249-298).  `i` runs over `1, ..., N/4 - 1`. -/
noncomputable def rfft (fwd : Bool) (m : Nat) (d : Arr) : Arr :=
  let N := 2 ^ (m + 1)
  let d := if fwd then fft true m d else d
  let d := unpackLoop N fwd (N / 4 - 1) 1 (1 + wpReal N fwd, wpImag N fwd) d
  let f0 := d 0
  if fwd then
    let d := put d 0 (f0 + d 1)
    put d 1 (f0 - d 1)
  else
    let d := put d 0 ((1 / 2) * (f0 + d 1))
    let d := put d 1 ((1 / 2) * (f0 - d 1))
    fft false m d

/-- The product in the transform space (efx.cpp 289-295), rounds `j, j + 2, ...` with `n` left. -/
noncomputable def pointLoop (bf : Arr) : Nat → Nat → Arr → Arr
  | 0, _, af => af
  | n + 1, j, af =>
    let t := af j
    let af := put af j (t * bf j - af (j + 1) * bf (j + 1))
    let af := put af (j + 1) (t * bf (j + 1) + af (j + 1) * bf j)
    pointLoop bf n (j + 2) af

/-- Loop for the transform length (efx.cpp 216-229), `k` rounds left; `p2` is `p * 2`. -/
def sizeLoop (p2 : Nat) : Nat → Nat → Nat
  | 0, n => n
  | k + 1, n => if n * 2 ≥ p2 then n * 2 else sizeLoop p2 k (n * 2)

/-- `n_fft` (efx.cpp 214-238): exponent-of-two length of the arrays. -/
def fftSize (p : Nat) : Nat := sizeLoop (p * 2) 30 1 * 2

/-- The size used by the `switch` statements (efx.cpp 257-283, 298-323), as a power of two `2^(m+1)`
with `m` returned: the cases are 2^6 to 2^27, every other length takes the `default` label, that is
the transform of 64 points. -/
def dispatch (n : Nat) : Nat := if 64 ≤ n ∧ n ≤ 2 ^ 27 then Nat.log2 n - 1 else 5

/-- The input arrays (efx.cpp 244-254): half-limbs of the first `p` limbs, then zeros.  Entries from
`n_fft` on do not exist in the code; here they are zero and never used. -/
noncomputable def spread (l : List Nat) : Arr := fun i => ((halves l).getD i 0 : ℝ)

/-- The transforms and the product (efx.cpp 256-323): the array `af` before the release of carries. -/
noncomputable def transformed (u v : List Nat) (p : Nat) : Arr :=
  let n := fftSize p
  let af := rfft true (dispatch n) (spread (u.take p))
  let bf := rfft true (dispatch n) (spread (v.take p))
  let af := put af 0 (af 0 * bf 0)
  let af := put af 1 (af 1 * bf 1)
  let af := pointLoop bf (n / 2 - 1) 2 af
  rfft false (dispatch n) af

/-- `static_cast<uint64_t>(af[j] / (n_fft / 2) + 0.5)` (efx.cpp 331-332, 336-337). -/
noncomputable def column (n : Nat) (af : Arr) (j : Nat) : Nat := ⌊af j / ((n / 2 : Nat) : ℝ) + 1 / 2⌋₊

/-- Release of the carries (efx.cpp 328-343) from a given array of columns; compare `fftRelease`. -/
def releaseCols (col : Nat → Nat) : Nat → List Nat → Nat → List Nat
  | 0, acc, _ => acc
  | i + 1, acc, carry =>
    let xlo := w64 (col (2 * i) + carry)
    let carry1 := xlo / 10000
    let nlo := w32 (wsub64 xlo (w64 (carry1 * 10000)))
    let xhi := w64 ((if i ≠ 0 then col (2 * i - 1) else 0) + carry1)
    let carry2 := xhi / 10000
    let nhi := w32 (wsub64 xhi (w64 (carry2 * 10000)))
    releaseCols col i (w32 (w32 (nhi * 10000) + nlo) :: acc) carry2

/-- `mul_loop_fft` (efx.cpp 210-348) with an array `af` in place of the transformed product. -/
noncomputable def mulWith (af : Arr) (u : List Nat) (p : Nat) : List Nat :=
  releaseCols (column (fftSize p) af) p [] 0 ++ u.drop p

/-- `mul_loop_fft` (efx.cpp 210-348) in real arithmetic.  For `j = 0` the code takes `0.0` for the
high part: `static_cast<uint64_t>(0.0 + 0.5)` is 0, as in `releaseCols`. -/
noncomputable def mulLoopReal (u v : List Nat) (p : Nat) : List Nat := mulWith (transformed u v p) u p

end EFX.FFT
