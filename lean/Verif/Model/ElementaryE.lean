import Verif.Model.Integer
import Verif.Model.Text
import Verif.Model.Elementary
/-!
# The elementary functions with `e_float` operations

The record of `Model/Elementary` filled with the operations of the code.  The constants `pi`, `ln2`, `ln10`, `e`,
`sqrt2` (constants.cpp 56-230) and the estimates of the standard library are parameters.
-/

namespace EFX

/-- The constants and the double precision estimates. -/
structure Tables where
  /-- `ef::pi()` -/
  pi : EFloat
  /-- `ef::ln2()` -/
  ln2 : EFloat
  /-- `ef::ln10()` -/
  ln10 : EFloat
  /-- `ef::e()` -/
  e : EFloat
  /-- `ef::sqrt2()` -/
  sqrt2 : EFloat
  /-- `std::numeric_limits<e_float>::max_exponent` -/
  maxExp : EFloat
  /-- estimate of `asin` -/
  asin0 : EFloat → EFloat
  /-- estimate of `atan` -/
  atan0 : EFloat → EFloat
  /-- estimate of `log` -/
  log0 : EFloat → Option EFloat
  /-- estimate of the inverse root -/
  rootn0 : EFloat → Int → EFloat

/-- The built-in integers have 64 bits. -/
def i64 (n : Int) : Int := Int.bmod n 18446744073709551616

/-- `e_float("1E" + Util::lexical_cast(n))` (elementary_trans.cpp 288-296) through `rd_string`.  Simplification: the
number is reduced to 63 bits before it is printed; it is an order less 8, below `2^32` in magnitude. -/
def tenText (c : Cfg) (n : Int) : EFloat :=
  let m := Int.bmod n 9223372036854775808
  (ofString c ('1' :: 'E' :: (if m < 0 then '-' :: decStr m.natAbs else decStr m.natAbs))).getD (nanV c)

/-- The operations of `e_float`.  A negative integer given to the constructor is negated after construction
(`ofSigned`); an extraction that is undefined (`-2^63`) is not reached by the functions and set to zero. -/
def efArith (c : Cfg) (T : Tables) : Arith EFloat where
  add := EFX.add c
  sub := EFX.sub c
  mul := EFX.mul c
  div := EFX.div c
  neg := negate
  mulI := fun x n => mulSigned c x (i64 n)
  divI := fun x n => divSigned c x (i64 n)
  lt := EFX.lt
  le := EFX.le
  isneg := EFloat.isneg
  iszero := EFloat.iszero
  isone := EFX.isone
  isint := EFX.isint c
  isnan := EFloat.isnan
  isinf := EFloat.isinf
  order := EFX.order
  intPart := integerPart c
  decPart := decimalPart c
  inv := calculateInv c
  sqrt := calculateSqrt c
  incr := EFX.incr c
  toI := fun x => (extractSigned c x).getD 0
  setPrec := setPrecision c
  ofI := fun n => ofSigned c (i64 n)
  ten := tenText c
  half := EFX.half c
  pi := T.pi
  ln2 := T.ln2
  ln10 := T.ln10
  e := T.e
  sqrt2 := T.sqrt2
  nan := nanV c
  inf := infV c
  maxExp := T.maxExp
  asin0 := T.asin0
  atan0 := T.atan0
  log0 := T.log0
  rootn0 := T.rootn0
  tol := c.tolerance

end EFX
