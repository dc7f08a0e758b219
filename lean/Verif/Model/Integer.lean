import Verif.Model.Inv
/-!
# Integer and decimal parts, predicates, conversion to integers, floor, ceil
-/

namespace EFX

/-- `isint` (efx.cpp 1331-1364). -/
def isint (c : Cfg) (x : EFloat) : Bool :=
  if x.cls ≠ .finite then false
  else if x.iszero then true
  else if x.exp < 0 then false
  else
    let off := (Int.tdiv x.exp 8).toNat + 1
    if off ≥ c.elems then true
    else (x.data.drop off).all (fun d => d == 0)

/-- `extract_integer_part` (efx.cpp 1593-1627). -/
def integerPart (c : Cfg) (x : EFloat) : EFloat :=
  if !x.isfinite then x
  else if x.exp < 0 then zero c
  else if x.exp ≥ (c.digits10 : Int) - 1 then x
  else
    let first := (Int.tdiv x.exp 8).toNat + 1
    { x with data := x.data.take first ++ List.replicate (c.elems - first) 0 }

/-- `extract_decimal_part` (efx.cpp 1629-1710). -/
def decimalPart (c : Cfg) (x : EFloat) : EFloat :=
  if !x.isfinite then x
  else if x.iszero then zero c
  else if x.exp < 0 then x
  else if x.exp ≥ (c.digits10 : Int) - 1 then zero c
  else
    let first := (Int.tdiv x.exp 8).toNat + 1
    let d := shiftUp first x.data
    let sj := firstNonzero d
    if sj ≠ 0 then
      if sj = d.length then { x with data := d, neg := false, exp := 0 - (first : Int) * 8 }
      else { x with data := shiftUp sj d, exp := x.exp - ((first : Int) + sj) * 8 }
    else { x with data := d, exp := x.exp - (first : Int) * 8 }

/-- The limb accumulation loop of the integer extractions (efx.cpp 1539-1543, 1583-1587). -/
def accLimbs (val : Nat) (l : List Nat) : Nat :=
  l.foldl (fun v d => w64 (w64 (v * mask) + d)) val

/-- Limbs `0 .. imax` of a number as an `unsigned long long` (efx.cpp 1535-1543, 1578-1587). -/
def limbsToULL (c : Cfg) (xn : EFloat) : Nat :=
  let imax := min (Int.tdiv (i32 xn.exp) 8) ((c.elems : Int) - 1)
  accLimbs (xn.data.headD 0) ((xn.data.drop 1).take imax.toNat)

/-- Outcome of converting to `signed long long`: `none` when the C++ expression
`-static_cast<signed long long>(val)` overflows, which is undefined behaviour. -/
def extractSigned (c : Cfg) (x : EFloat) : Option Int :=
  if x.exp < 0 then some 0
  else if !x.isneg && gt x (ofSigned c (2 ^ 63 - 1)) then some (2 ^ 63 - 1)
  else if x.isneg && lt x (ofSigned c (-2 ^ 63)) then some (-2 ^ 63)
  else
    let val := limbsToULL c (fabs (integerPart c x))
    let s : Int := if val < 2 ^ 63 then val else (val : Int) - 2 ^ 64
    if !x.isneg then some s
    else if s = -2 ^ 63 then none else some (-s)

/-- `extract_unsigned_long_long` (efx.cpp 1549-1591). -/
def extractUnsigned (c : Cfg) (x : EFloat) : Option Nat :=
  if x.isneg then (extractSigned c x).map fun s => (s % 2 ^ 64).toNat
  else if x.exp < 0 then some 0
  else
    let xn := integerPart c x
    if gt xn (ofUnsigned c (2 ^ 64 - 1)) then some (2 ^ 64 - 1)
    else some (limbsToULL c xn)

/-- `ef::floor` (functions/elementary/elementary_math.cpp 43-49). -/
def floor (c : Cfg) (x : EFloat) : EFloat :=
  if !x.isfinite || isint c x then x
  else if x.isneg then integerPart c (sub c x (one c)) else integerPart c x

/-- `ef::ceil` (functions/elementary/elementary_math.cpp 51-57). -/
def ceil (c : Cfg) (x : EFloat) : EFloat :=
  if !x.isfinite || isint c x then x
  else if x.isneg then integerPart c x else integerPart c (add c x (one c))

/-- `ef::sgn` (functions/elementary/elementary_math.cpp 59-69). -/
def sgn (x : EFloat) : Int := if x.iszero then 0 else if x.isneg then -1 else 1

/-- `ef::fmod` (functions/elementary/elementary_math.cpp 88-93). -/
def fmod (c : Cfg) (x y : EFloat) : EFloat :=
  let n := if x.isneg then ceil c (div c x y) else floor c (div c x y)
  sub c x (mul c n y)

/-- `ef::to_int32` (functions/elementary/elementary_math.cpp 144-152). -/
def toInt32 (c : Cfg) (x : EFloat) : Option Int :=
  (extractSigned c x).map fun n => min (max n (-2147483648)) 2147483647

/-- `operator++` / `operator--`, prefix (efx.cpp 1372-1373). -/
def incr (c : Cfg) (x : EFloat) : EFloat := addAssign c x (one c)
@[inherit_doc incr] def decr (c : Cfg) (x : EFloat) : EFloat := subAssign c x (one c)

end EFX
