import Verif.Model.ComplexFn
/-!
# More complex functions (e_float/e_float_complex.h)

Cosine, hyperbolic functions and the polar form of `complex<e_float>` over the record `Arith`, next to `exp`, `log` and `sin` of
`Model/ComplexFn`.
-/

namespace EFX.FnC
variable {α : Type} (A : Arith α)

/-- `polar` (e_float_complex.h 1701-1707). -/
def polar (rho theta : α) : Cx α := ⟨A.mul rho (Fn.cos A theta), A.mul rho (Fn.sin A theta)⟩

/-- `cos` (e_float_complex.h 1751-1759). -/
def cos (z : Cx α) : Cx α :=
  ⟨A.mul (Fn.cos A z.re) (Fn.cosh A z.im), A.neg (A.mul (Fn.sin A z.re) (Fn.sinh A z.im))⟩

/-- `cosh` (e_float_complex.h 1761-1769). -/
def cosh (z : Cx α) : Cx α :=
  ⟨A.mul (Fn.cos A z.im) (Fn.cosh A z.re), A.mul (Fn.sin A z.im) (Fn.sinh A z.re)⟩

/-- `sinh` (e_float_complex.h 1825-1833). -/
def sinh (z : Cx α) : Cx α :=
  ⟨A.mul (Fn.cos A z.im) (Fn.sinh A z.re), A.mul (Fn.cosh A z.re) (Fn.sin A z.im)⟩

/-- `tan` (e_float_complex.h 1866-1877). -/
def tan (z : Cx α) : Cx α :=
  div A ⟨A.mul (Fn.sin A z.re) (Fn.cosh A z.im), A.mul (Fn.cos A z.re) (Fn.sinh A z.im)⟩
    ⟨A.mul (Fn.cos A z.re) (Fn.cosh A z.im), A.neg (A.mul (Fn.sin A z.re) (Fn.sinh A z.im))⟩

/-- `tanh` (e_float_complex.h 1879-1890). -/
def tanh (z : Cx α) : Cx α :=
  div A ⟨A.mul (Fn.cos A z.im) (Fn.sinh A z.re), A.mul (Fn.cosh A z.re) (Fn.sin A z.im)⟩
    ⟨A.mul (Fn.cos A z.im) (Fn.cosh A z.re), A.mul (Fn.sin A z.im) (Fn.sinh A z.re)⟩

end EFX.FnC
