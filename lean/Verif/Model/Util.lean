import Mathlib.Algebra.Order.Field.Basic
/-!
# Generic helpers of the library: powers, root finding, interpolation, series functors

The C++ code of this file is written as templates over a number type.  The model is written over an arbitrary type
with the operations the template uses; arithmetic of the type itself is a parameter.
-/

namespace EFX

/-! ## Integer powers -/

section Pow
variable {α : Type*} (one : α) (mul : α → α → α)

/-- Loop of `pown_template` (detail/e_float_detail_pown_template.h 45-63): `p2 /= 2` is done in the loop condition.
Simplification: `tn *= tn` and `t * t` are the same operation `mul` (for `e_float` see `C11_square_partial`). -/
def pownLoop (p2 : ℕ) (tn result : α) : α :=
  if _h : p2 / 2 = 0 then result
  else
    let tn' := mul tn tn
    pownLoop (p2 / 2) tn' (if p2 / 2 % 2 ≠ 0 then mul result tn' else result)
termination_by p2
decreasing_by omega

/-- `pown_template` for non-negative exponents (detail/e_float_detail_pown_template.h 33-64). -/
def pownNat (t : α) (p : ℕ) : α :=
  if p = 0 then one
  else if p = 1 then t
  else if p = 2 then mul t t
  else if p = 3 then mul (mul t t) t
  else if p = 4 then let t2 := mul t t; mul t2 t2
  else pownLoop mul p t (if p % 2 ≠ 0 then t else one)

/-- `pown_template` (detail/e_float_detail_pown_template.h 26-65) for a 64-bit exponent; `none` is the signed
overflow of `-p`. -/
def pown (div : α → α → α) (t : α) (p : ℤ) : Option α :=
  if p < 0 then (if p = -9223372036854775808 then none else some (div one (pownNat one mul t p.natAbs)))
  else some (pownNat one mul t p.natAbs)

/-- Loop of `ef::pow(e_float, int64)` (functions/elementary/elementary_trans.cpp 494-502): the exponent is shifted
right until it is zero, the base is squared in every round. -/
def powLoop (p : ℕ) (y result : α) : α :=
  if _h : p = 0 then result
  else powLoop (p / 2) (mul y y) (if p % 2 ≠ 0 then mul result y else result)
termination_by p
decreasing_by omega

/-- `ef::pow(e_float, int64)` for non-negative exponents (functions/elementary/elementary_trans.cpp 483-505). -/
def powNat (b : α) (p : ℕ) : α :=
  if p = 0 then one
  else if p = 1 then b
  else if p = 2 then mul b b
  else if p = 3 then mul (mul b b) b
  else if p = 4 then mul (mul b b) (mul b b)
  else powLoop mul p b one

/-- `ef::pow(e_float, int64)` (functions/elementary/elementary_trans.cpp 474-505); `inv` is `1 / x`. -/
def powInt (inv : α → α) (b : α) (p : ℤ) : Option α :=
  if p < 0 then (if p = -9223372036854775808 then none else some (inv (powNat one mul b p.natAbs)))
  else some (powNat one mul b p.natAbs)

end Pow

/-! ## Root finding -/

section Root
variable {K : Type*} [Field K] [LinearOrder K]

/-- Result of `operation()` together with `success()` (utility/util_function_operation.h 24-25). -/
structure OpResult (K : Type*) where
  /-- value returned -/
  value : K
  /-- `op_ok` -/
  ok : Bool
deriving DecidableEq

/-- Loop of `FindRootBisect::my_operation` (utility/util_find_root_bisect.h 66-89) with `n` rounds left. -/
def bisectLoop (f : K → K) (eps : K) : ℕ → K → K → OpResult K
  | 0, _, _ => ⟨0, false⟩
  | n + 1, rt, dx =>
    let dx := dx / 2
    let xMid := rt + dx
    let fMid := f xMid
    let rt := if fMid ≤ 0 then xMid else rt
    let dxAbs := if dx < 0 then -dx else dx
    if dxAbs < eps ∨ fMid = 0 then ⟨rt, true⟩ else bisectLoop f eps n rt dx

/-- `FindRootBisect::my_operation` (utility/util_find_root_bisect.h 31-95).  Exact arithmetic of the number type is
assumed. -/
def bisect (f : K → K) (xlo xhi eps : K) : OpResult K :=
  let fv := f xlo
  if fv * f xhi ≥ 0 then ⟨0, true⟩
  else if fv < 0 then bisectLoop f eps 2048 xlo (xhi - xlo)
  else bisectLoop f eps 2048 xhi (xlo - xhi)

/-- Loop of `FindRootNewtonRaphson::my_operation` (utility/util_find_root_newton_raphson.h 44-66) with `n` rounds
left; `fd` is `my_function_derivative`.  The result is the value of `x` and `op_ok` after the loop. -/
def newtonLoop (fd : K → K × K) (xlo xhi eps : K) : ℕ → K → K × Bool
  | 0, x => (x, true)
  | n + 1, x =>
    let dx := (fd x).1 / (fd x).2
    let x := x - dx
    if (xlo - x) * (x - xhi) < 0 then (x, false)
    else if (if dx < 0 then -dx else dx) < eps then (x, true)
    else newtonLoop fd xlo xhi eps n x

/-- `FindRootNewtonRaphson::my_operation` (utility/util_find_root_newton_raphson.h 38-69). -/
def newton (fd : K → K × K) (xlo xhi eps : K) : OpResult K :=
  let r := newtonLoop fd xlo xhi eps 256 ((xlo + xhi) / 2)
  ⟨if r.2 then r.1 else 0, r.2⟩

end Root

/-! ## Interpolation -/

section Interp
variable {K : Type*} [Field K] [LinearOrder K]

/-- `linear_interpolate::interpolate` (utility/util_interpolate.h 24-56) on a vector of points (abscissa, ordinate).
Simplification: `std::lower_bound` is its specification on a sorted range, the first point whose abscissa is not
smaller (`operator<` of points compares the abscissas, utility/util_point.h 29-33).  `none` is a dereferenced
iterator outside of the vector. -/
def interpolate (x : K) (points : List (K × K)) : Option K :=
  match points with
  | [] => some 0
  | p :: rest =>
    if x ≤ p.1 ∨ rest = [] then some p.2
    else
      let b := (p :: rest).getLast (List.cons_ne_nil _ _)
      if x ≥ b.1 then some b.2
      else
        let i := (p :: rest).findIdx (fun q => !decide (q.1 < x))
        match (p :: rest)[i - 1]?, (p :: rest)[i]? with
        | some a, some q => if i = 0 then none else some (a.2 + (x - a.1) * (q.2 - a.2) / (q.1 - a.1))
        | _, _ => none

end Interp

/-! ## Functors for `std::accumulate` -/

section Series
variable {R : Type*} [CommRing R]

/-- `std::accumulate(c.begin(), c.end(), sum, coefficient_expansion(x, init))`: one step is
`coefficient_expansion::operator()` (utility/util_coefficient_expansion.h 25-32); `pow` is `x_expand_pow_k`. -/
def expansion (x : R) : R → R → List R → R
  | _, sum, [] => sum
  | pow, sum, ck :: rest => expansion x (pow * x) (sum + ck * pow) rest

/-- `std::accumulate(c.begin(), c.end(), sum, alternating_sum(neg, initial))`: one step is
`alternating_sum::operator()` (utility/util_alternating_sum.h 24-29). -/
def alternating (initial : R) : Bool → R → List R → R
  | _, sum, [] => sum
  | neg, sum, ck :: rest => alternating initial (!neg) ((if !neg then sum + ck else sum - ck) + initial) rest

end Series

/-! ## Quadrature and differences -/

section Quad
variable {K : Type*} [Field K] [LinearOrder K]

/-- Inner loop of the trapezoid rule: `sum += f(a + (2j - 1) h)` for `j = 1 .. n`
(utility/util_trapezoid.h 58-63). -/
def trapSum (f : K → K) (a h : K) (n : ℕ) : K :=
  (List.range n).foldl (fun sum (j : ℕ) => sum + f (a + ((2 * ((j : ℤ) + 1) - 1 : ℤ) : K) * h)) 0

/-- Loop of `RecursiveTrapezoidRule::my_operation` (utility/util_trapezoid.h 52-78); `fuel` rounds left, `k` the
round.  The result is `(I, op_ok)`.  Simplification: `n * 2` is taken without overflow of `int32_t`: in the last
round, `k = 30`, the product `2^31` overflows but is not used any more. -/
def trapLoop (f : K → K) (a eps : K) : ℕ → ℕ → ℕ → K → K → K × Bool
  | 0, _, _, _, I => (I, false)
  | fuel + 1, k, n, h, I0 =>
    let h := h * (1 / 2)
    let I := I0 * (1 / 2) + h * trapSum f a h n
    let ratio := I0 / I
    let delta := if ratio > 1 then ratio - 1 else 1 - ratio
    if 3 < k ∧ delta < eps then (I, true) else trapLoop f a eps fuel (k + 1) (n * 2) h I

/-- `RecursiveTrapezoidRule::my_operation` (utility/util_trapezoid.h 39-81). -/
def trapezoid (f : K → K) (a b eps : K) : K × Bool :=
  let h := (b - a) / 1
  trapLoop f a eps 31 0 1 h ((f a + f b) * (h * (1 / 2)))

/-- `FunctionDerivative::my_operation` (utility/util_function_derivative.h 33-53). -/
def derivative (f : K → K) (x dx : K) : K :=
  let dx1 := dx
  let dx2 := dx1 * 2
  let dx3 := dx1 * 3
  let m1 := (f (x + dx1) - f (x - dx1)) / 2
  let m2 := (f (x + dx2) - f (x - dx2)) / 4
  let m3 := (f (x + dx3) - f (x - dx3)) / 6
  ((15 * m1 - 6 * m2) + m3) / (10 * dx1)

end Quad

end EFX
