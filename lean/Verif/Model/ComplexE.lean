import Verif.Model.Integer
import Verif.Model.Complex
/-!
# Complex numbers with `e_float` components

The operations of `complex<e_float>` written with the component arithmetic of the code (chopped sums and products,
Newton inverse and square root) instead of the exact arithmetic of `Model/Complex`.
-/

namespace EFX.CxE

/-- `operator+=` with a distinct object (e_float/e_float_complex.h 1486-1492, 1646-1652). -/
def add (c : Cfg) (u v : Cx EFloat) : Cx EFloat := ⟨addAssign c u.re v.re, addAssign c u.im v.im⟩

/-- `operator-=` with a distinct object (e_float/e_float_complex.h 1494-1509). -/
def sub (c : Cfg) (u v : Cx EFloat) : Cx EFloat := ⟨subAssign c u.re v.re, subAssign c u.im v.im⟩

/-- `operator*=` with a distinct object (e_float/e_float_complex.h 1511-1529). -/
def mul (c : Cfg) (u v : Cx EFloat) : Cx EFloat :=
  ⟨EFX.sub c (EFX.mul c u.re v.re) (EFX.mul c u.im v.im), EFX.add c (EFX.mul c u.re v.im) (EFX.mul c u.im v.re)⟩

/-- `z *= z` (e_float/e_float_complex.h 1516-1520).  Simplification: `__tmp_re * __tmp_re` copies the left operand and
multiplies by the right one, hence `mul`, not `mulAssignSelf`. -/
def mulSelf (c : Cfg) (u : Cx EFloat) : Cx EFloat :=
  ⟨EFX.sub c (EFX.mul c u.re u.re) (EFX.mul c u.im u.im), mulUnsigned c (EFX.mul c u.re u.im) 2⟩

/-- `norm` (e_float/e_float_complex.h 1686). -/
def norm (c : Cfg) (z : Cx EFloat) : EFloat := EFX.add c (EFX.mul c z.re z.re) (EFX.mul c z.im z.im)

/-- `operator/=` with a distinct object (e_float/e_float_complex.h 1531-1551). -/
def div (c : Cfg) (u v : Cx EFloat) : Cx EFloat :=
  let w := calculateInv c (norm c v)
  ⟨EFX.mul c (EFX.add c (EFX.mul c u.re v.re) (EFX.mul c u.im v.im)) w,
   EFX.mul c (EFX.sub c (EFX.mul c u.im v.re) (EFX.mul c u.re v.im)) w⟩

/-- `abs` (e_float/e_float_complex.h 1684). -/
def abs (c : Cfg) (z : Cx EFloat) : EFloat := calculateSqrt c (norm c z)

/-- `sqrt` (e_float/e_float_complex.h 1835-1864). -/
def sqrt (c : Cfg) (z : Cx EFloat) : Cx EFloat :=
  let neg := lt z.re (ofUnsigned c 0)
  let fabsRe := if neg = false then z.re else negate z.re
  let s := calculateSqrt c (divUnsigned c (EFX.add c fabsRe (abs c z)) 2)
  if neg = false then ⟨s, EFX.div c z.im (mulUnsigned c s 2)⟩
  else
    let imNeg := lt z.im (ofUnsigned c 0)
    let fabsIm := if imNeg = false then z.im else negate z.im
    ⟨EFX.div c fabsIm (mulUnsigned c s 2), if imNeg = false then s else negate s⟩

end EFX.CxE
