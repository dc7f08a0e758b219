import Verif.Model.ComplexFn
/-!
# Powers of complex numbers with real and complex exponents (e_float/e_float_complex.h)
-/

namespace EFX.FnC
variable {α : Type} (A : Arith α)

/-- `pow` with a real exponent (e_float_complex.h 1800-1803). -/
def powR (z : Cx α) (a : α) : Cx α := exp A (rMul A a (log A z))

/-- `pow` with a complex exponent (e_float_complex.h 1805-1808). -/
def pow (z a : Cx α) : Cx α := exp A (mul A a (log A z))

end EFX.FnC
