import Verif.Model.Double
/-!
# Division, inverse, square root, operations with built-in integers
-/

namespace EFX

/-- `isone` (efx.cpp 1294-1329).  Note that the first search tests all limbs, including the
leading 1, for being zero. -/
def isone (x : EFloat) : Bool :=
  if !x.neg && x.isfinite then
    if x.front = 1 ∧ x.exp = 0 then x.data.all (fun d => d == 0)
    else if x.front = mask - 1 ∧ x.exp = -8 then x.data.all (fun d => d == mask - 1)
    else false
  else false

/-- The Newton loop of `calculate_inv` (efx.cpp 1057-1067); `digits` doubles each time.
32 steps are more than the doublings of 12 below 2^31. -/
def invLoop (c : Cfg) (x : EFloat) : Nat → Nat → EFloat → EFloat
  | 0, _, y => y
  | fuel + 1, digits, y =>
    if digits ≤ c.tolerance then
      let y1 := setPrecision c y (digits * 2 + 10)
      let x1 := setPrecision c x (digits * 2 + 10)
      invLoop c x fuel (digits * 2) (mul c y1 (sub c (two c) (mul c y1 x1)))
    else y

/-- `calculate_inv` (efx.cpp 998-1074). -/
def calculateInv (c : Cfg) (x : EFloat) : EFloat :=
  let y := { x with neg := false }
  if y.iszero then infSigned c x.neg
  else if y.isnan then y
  else if y.isinf then zero c
  else if isone y then (if x.neg then negate (one c) else one c)
  else
    let pe := extractParts y
    let est := ofMantExp c (rnd (1 / pe.1)) (-pe.2)
    { invLoop c y 32 12 est with neg := x.neg, prec := x.prec }

/-- The identity test of `operator/=` (efx.cpp 791-795). -/
def finiteIdentical (x v : EFloat) : Bool :=
  x.isfinite && decide (x.cls = v.cls) && decide (x.exp = v.exp) &&
    decide (cmpData x.data v.data = 0)

/-- `operator/=` for distinct objects (efx.cpp 789-814).  The sign of `*this` has already been
overwritten by `one()` when it is compared with the sign of `v`. -/
def divAssign (c : Cfg) (x v : EFloat) : EFloat :=
  if finiteIdentical x v then
    (if (one c).neg ≠ v.neg then negate (one c) else one c)
  else mulAssign c x (calculateInv c v)

/-- `x /= x`: `v` is `*this`, hence after `*this = one()` both signs agree. -/
def divAssignSelf (c : Cfg) (x : EFloat) : EFloat :=
  if finiteIdentical x x then one c else mulAssign c x (calculateInv c x)

/-- `operator/` (e_float.cpp 22). -/
def div (c : Cfg) (x y : EFloat) : EFloat := divAssign c x y

/-- `div_unsigned_long_long` (efx.cpp 898-984). -/
def divUnsigned (c : Cfg) (x : EFloat) (n : Nat) : EFloat :=
  if x.isnan then { x with neg := false }
  else if x.isinf then infSigned c x.neg
  else if n = 0 then (if x.iszero then nanV c else infV c)
  else if x.iszero then { x with neg := false }
  else if n ≥ mask then divAssign c x (ofUnsigned c n)
  else divSmall c x (w32 n)

/-- `add_unsigned_long_long` (efx.cpp 816-820). -/
def addUnsigned (c : Cfg) (x : EFloat) (n : Nat) : EFloat := addAssign c x (ofUnsigned c n)
/-- `sub_unsigned_long_long` (efx.cpp 822-826). -/
def subUnsigned (c : Cfg) (x : EFloat) (n : Nat) : EFloat := subAssign c x (ofUnsigned c n)

/-- `add_signed_long_long` (base.cpp 98-112).  `-n` is undefined for `n = -2^63`; the machine
in `Model/Machine` rejects that argument, this function uses the absolute value. -/
def addSigned (c : Cfg) (x : EFloat) (n : Int) : EFloat :=
  if n < 0 then negate (addUnsigned c (negate x) n.natAbs) else addUnsigned c x n.natAbs
/-- `sub_signed_long_long` (base.cpp 114-117). -/
def subSigned (c : Cfg) (x : EFloat) (n : Int) : EFloat := addSigned c x (-n)
/-- `mul_signed_long_long` (base.cpp 119-138), with the overflow check of 131-135. -/
def mulSigned (c : Cfg) (x : EFloat) (n : Int) : EFloat :=
  let y := mulUnsigned c x n.natAbs
  let y := if n < 0 then negate y else y
  if gt (fabs y) (valueMax c) then infSigned c y.neg else y
/-- `div_signed_long_long` (base.cpp 140-152). -/
def divSigned (c : Cfg) (x : EFloat) (n : Int) : EFloat :=
  let y := divUnsigned c x n.natAbs
  if n < 0 then negate y else y

/-- Number of decimal digits of the leading limb minus one; stands for
`(int32_t)(log10((double)my_data[0]) + 0.9 * epsilon)` in `get_order_fast`.
Simplification: `log10` of an integer below 2^32 is assumed accurate to half an ulp
(assumption A-LOG in DESIGN.md). -/
def digitsMinus1 : Nat → Nat → Nat
  | 0, _ => 0
  | fuel + 1, n => if n / 10 = 0 then 0 else digitsMinus1 fuel (n / 10) + 1

/-- `get_order_fast` (efx.cpp 1726-1740), `order()` (base.h 111). -/
def order (x : EFloat) : Int :=
  if !x.isfinite || decide (x.front = 0) then 0 else x.exp + digitsMinus1 11 x.front

/-- The coupled Newton loop of `calculate_sqrt` (efx.cpp 1137-1163). -/
def sqrtLoop (c : Cfg) (x : EFloat) : Nat → Nat → EFloat → EFloat → EFloat
  | 0, _, y, _ => y
  | fuel + 1, digits, y, vi =>
    if digits ≤ c.tolerance then
      let y := setPrecision c y (digits * 2 + 10)
      let vi := setPrecision c vi (digits * 2 + 10)
      let vi := addAssign c vi (mul c vi (add c (negate (mulSigned c (mul c y vi) 2)) (one c)))
      let term := mul c vi (add c (negate (mul c y y)) x)
      let y := addAssign c y term
      if digits > c.tolerance / 4 ∧ order y - order term > ((c.tolerance / 2 : Nat) : Int) then y
      else sqrtLoop c x fuel (digits * 2) y vi
    else y

/-- `calculate_sqrt` (efx.cpp 1076-1168). -/
def calculateSqrt (c : Cfg) (x : EFloat) : EFloat :=
  if x.isneg || !x.isfinite then nanV c
  else if x.iszero || isone x then x
  else
    let pe := extractParts x
    let odd := decide (Int.tmod pe.2 2 ≠ 0)
    let ne := if odd then pe.2 + 1 else pe.2
    let dd := if odd then rnd (pe.1 / 10) else pe.1
    let sqd := dsqrt dd
    let y := ofMantExp c sqd (Int.tdiv ne 2)
    let vi := ofMantExp c (rnd ((1 / 2) / sqd)) (Int.tdiv (-ne) 2)
    { sqrtLoop c x 32 12 y vi with prec := x.prec }

end EFX
