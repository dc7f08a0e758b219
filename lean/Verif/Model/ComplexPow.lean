import Verif.Model.ComplexE
/-!
# Integer powers of complex numbers (e_float/e_float_complex.h, detail/e_float_detail_pown_template.h)

`pow(complex<e_float>, int64)` calls `pown_template<complex<e_float>>`.  Other than in the generic model `pownLoop`, the squaring
`tn *= tn` takes the branch of `operator*=` for the same object.
-/

namespace EFX.CxE

/-- The complex number one, `T(1)` and `T(1U)` (e_float_complex.h, constructors from integers). -/
def one (c : Cfg) : Cx EFloat := ⟨ofUnsigned c 1, ofUnsigned c 0⟩

/-- Loop of `pown_template` (detail/e_float_detail_pown_template.h 49-63): `tn *= tn` is `mulSelf`, `result *= tn` is `mul`. -/
def pownLoop (c : Cfg) (p2 : ℕ) (tn result : Cx EFloat) : Cx EFloat :=
  if _h : p2 / 2 = 0 then result
  else pownLoop c (p2 / 2) (mulSelf c tn) (if p2 / 2 % 2 ≠ 0 then mul c result (mulSelf c tn) else result)
termination_by p2
decreasing_by omega

/-- `pown_template` for non-negative exponents (detail/e_float_detail_pown_template.h 34-64); `t * t` copies the left operand first. -/
def pownNat (c : Cfg) (t : Cx EFloat) (p : ℕ) : Cx EFloat :=
  if p = 0 then one c
  else if p = 1 then t
  else if p = 2 then mul c t t
  else if p = 3 then mul c (mul c t t) t
  else if p = 4 then mul c (mul c t t) (mul c t t)
  else pownLoop c p t (if p % 2 ≠ 0 then t else one c)

/-- `pow(complex<e_float>, int64)` (e_float_complex.h 1795-1798, detail/e_float_detail_pown_template.h 33); `none` is the signed overflow of
`-p`. -/
def pown (c : Cfg) (t : Cx EFloat) (p : ℤ) : Option (Cx EFloat) :=
  if p < 0 then (if p = -9223372036854775808 then none else some (div c (one c) (pownNat c t p.natAbs)))
  else some (pownNat c t p.natAbs)

end EFX.CxE
