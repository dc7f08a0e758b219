import Verif.Model.Util
import Mathlib.Analysis.SpecialFunctions.Complex.Log
import Mathlib.Analysis.SpecialFunctions.Complex.Arg
import Mathlib.Analysis.SpecialFunctions.Log.Basic
import Mathlib.Analysis.Real.Sqrt
/-!
# Complex numbers (e_float/e_float_complex.h)

The class template `ef::complex<T>` and its specialisation for `e_float`.  The arithmetic part is written over an
ordered field, the elementary functions over the real numbers with the exact real functions as component functions:
rounding of the component type is not part of this model.
-/

namespace EFX

/-- `ef::complex<T>`: real and imaginary part (e_float/e_float_complex.h 303-305). -/
structure Cx (K : Type*) where
  /-- `c__my_re` -/
  re : K
  /-- `c__my_im` -/
  im : K
deriving DecidableEq

namespace Cx

section Arith
variable {K : Type*} [Field K] [LinearOrder K]

/-- Unary minus (e_float/e_float_complex.h 814, 1648). -/
def neg (u : Cx K) : Cx K := ⟨-u.re, -u.im⟩

/-- `operator+` (e_float/e_float_complex.h 817, 1651 with 1487-1493). -/
def add (u v : Cx K) : Cx K := ⟨u.re + v.re, u.im + v.im⟩

/-- `operator-` (e_float/e_float_complex.h 818, 1652 with 1495-1511, different objects). -/
def sub (u v : Cx K) : Cx K := ⟨u.re - v.re, u.im - v.im⟩

/-- `operator*` (e_float/e_float_complex.h 820-824, 1653 with 1524-1528, different objects). -/
def mul (u v : Cx K) : Cx K := ⟨u.re * v.re - u.im * v.im, u.re * v.im + u.im * v.re⟩

/-- `z *= z` (e_float/e_float_complex.h 255-259, 1518-1522). -/
def mulSelf (u : Cx K) : Cx K := ⟨u.re * u.re - u.im * u.im, u.re * u.im * 2⟩

/-- `operator/` of the template (e_float/e_float_complex.h 826-852; `operator/=` 280-299 computes the same). -/
def div (u v : Cx K) : Cx K :=
  if |v.re| < |v.im| then
    let q := v.re / v.im
    let d := v.re * q + v.im
    ⟨(u.re * q + u.im) / d, (u.im * q - u.re) / d⟩
  else
    let q := v.im / v.re
    let d := v.im * q + v.re
    ⟨(u.im * q + u.re) / d, (-u.re * q + u.im) / d⟩

/-- `norm` of the specialisation for `e_float` (e_float/e_float_complex.h 1686). -/
def norm (z : Cx K) : K := z.re * z.re + z.im * z.im

/-- `norm` of the template (e_float/e_float_complex.h 1074-1094). -/
def normT (z : Cx K) : K :=
  if |z.re| < |z.im| then
    let q := z.re / z.im
    z.im * z.im * (1 + q * q)
  else
    let q := z.im / z.re
    z.re * z.re * (1 + q * q)

/-- `operator/=` of the specialisation (e_float/e_float_complex.h 1533-1551, different objects); `calculate_inv` is the
reciprocal. -/
def divE (u v : Cx K) : Cx K :=
  let d := (norm v)⁻¹
  ⟨(u.re * v.re + u.im * v.im) * d, (u.im * v.re - u.re * v.im) * d⟩

/-- Operators with a real number on the right (e_float/e_float_complex.h 854-857, 1657-1660). -/
def addR (u : Cx K) (x : K) : Cx K := ⟨u.re + x, u.im⟩
@[inherit_doc addR] def subR (u : Cx K) (x : K) : Cx K := ⟨u.re - x, u.im⟩
@[inherit_doc addR] def mulR (u : Cx K) (x : K) : Cx K := ⟨u.re * x, u.im * x⟩
@[inherit_doc addR] def divR (u : Cx K) (x : K) : Cx K := ⟨u.re / x, u.im / x⟩

/-- Operators with a real number on the left (e_float/e_float_complex.h 859-861, 1663-1665). -/
def rAdd (x : K) (v : Cx K) : Cx K := ⟨x + v.re, v.im⟩
@[inherit_doc rAdd] def rSub (x : K) (v : Cx K) : Cx K := ⟨x - v.re, -v.im⟩
@[inherit_doc rAdd] def rMul (x : K) (v : Cx K) : Cx K := ⟨x * v.re, x * v.im⟩

/-- Real number divided by a complex number, template (e_float/e_float_complex.h 863-889). -/
def rDiv (x : K) (v : Cx K) : Cx K :=
  if |v.re| < |v.im| then
    let q := v.re / v.im
    let d := v.re * q + v.im
    ⟨x * q / d, -x / d⟩
  else
    let q := v.im / v.re
    let d := v.im * q + v.re
    ⟨x / d, -x * q / d⟩

/-- Real number divided by a complex number, specialisation (e_float/e_float_complex.h 1666-1672). -/
def rDivE (x : K) (v : Cx K) : Cx K := ⟨x * v.re / norm v, -(x * v.im) / norm v⟩

/-- `conj` as it is in the code (e_float/e_float_complex.h 1096-1099, 1688-1691). -/
def conj (z : Cx K) : Cx K := ⟨-z.im, z.re⟩

/-- `proj` of the template and of the specialisation (e_float/e_float_complex.h 1101-1107, 1693-1699; the latter with
`norm` and a reciprocal). -/
def proj (z : Cx K) : Cx K :=
  let d := (normT z + 1) / 2
  ⟨z.re / d, z.im / d⟩

/-- `pow(z, int)` of the template and `pow(z, int64)` of the specialisation (e_float/e_float_complex.h 1216-1247,
1795-1798).  The two functions use the loop of `pown_template`; `c__my_xn *= c__my_xn` is `mulSelf`, which is shown equal
to `mul`. -/
def powInt (rdiv : Cx K → Cx K) (z : Cx K) (p : ℤ) : Cx K :=
  if p < 0 then rdiv (pownNat ⟨1, 0⟩ mul z p.natAbs) else pownNat ⟨1, 0⟩ mul z p.natAbs

end Arith

/-! ## Elementary functions -/

noncomputable section

/-- `atan2(y, x)`, the angle of the point; the component function is taken as exact. -/
def atan2 (y x : ℝ) : ℝ := Complex.arg ⟨x, y⟩

/-- `abs` (e_float/e_float_complex.h 1071, 1684). -/
def abs (z : Cx ℝ) : ℝ := Real.sqrt (norm z)

/-- `arg` (e_float/e_float_complex.h 1072, 1685). -/
def arg (z : Cx ℝ) : ℝ := atan2 z.im z.re

/-- `polar` (e_float/e_float_complex.h 1109-1115, 1701-1707). -/
def polar (rho theta : ℝ) : Cx ℝ := ⟨rho * Real.cos theta, rho * Real.sin theta⟩

/-- `cos` (e_float/e_float_complex.h 1167-1176, 1751-1759). -/
def cos (z : Cx ℝ) : Cx ℝ := ⟨Real.cos z.re * Real.cosh z.im, -(Real.sin z.re * Real.sinh z.im)⟩

/-- `cosh` (e_float/e_float_complex.h 1178-1187, 1761-1769). -/
def cosh (z : Cx ℝ) : Cx ℝ := ⟨Real.cos z.im * Real.cosh z.re, Real.sin z.im * Real.sinh z.re⟩

/-- `exp` (e_float/e_float_complex.h 1189-1196, 1771-1777). -/
def exp (z : Cx ℝ) : Cx ℝ := mulR ⟨Real.cos z.im, Real.sin z.im⟩ (Real.exp z.re)

/-- `log` (e_float/e_float_complex.h 1198-1207, 1779-1788). -/
def log (z : Cx ℝ) : Cx ℝ := ⟨Real.log (norm z) / 2, atan2 z.im z.re⟩

/-- `log10` (e_float/e_float_complex.h 1209-1214, 1790-1793). -/
def log10 (z : Cx ℝ) : Cx ℝ := divR (log z) (Real.log 10)

/-- `pow(complex, complex)` (e_float/e_float_complex.h 1254-1257, 1805-1808). -/
def pow (z a : Cx ℝ) : Cx ℝ := exp (mul a (log z))

/-- `pow(complex, real)` (e_float/e_float_complex.h 1249-1252, 1800-1803). -/
def powR (z : Cx ℝ) (a : ℝ) : Cx ℝ := exp (rMul a (log z))

/-- `pow(real, complex)` (e_float/e_float_complex.h 1259-1264, 1810-1813). -/
def rPow (x : ℝ) (a : Cx ℝ) : Cx ℝ := exp (mulR a (Real.log x))

/-- `sin` (e_float/e_float_complex.h 1267-1276, 1815-1823). -/
def sin (z : Cx ℝ) : Cx ℝ := ⟨Real.sin z.re * Real.cosh z.im, Real.cos z.re * Real.sinh z.im⟩

/-- `sinh` (e_float/e_float_complex.h 1278-1287, 1825-1833). -/
def sinh (z : Cx ℝ) : Cx ℝ := ⟨Real.cos z.im * Real.sinh z.re, Real.cosh z.re * Real.sin z.im⟩

/-- `sqrt` (e_float/e_float_complex.h 1289-1317, 1835-1864). -/
def sqrt (z : Cx ℝ) : Cx ℝ :=
  let neg := z.re < 0
  let fabsRe := open scoped Classical in if ¬ neg then z.re else -z.re
  let s := Real.sqrt ((fabsRe + abs z) / 2)
  open scoped Classical in
  if ¬ neg then ⟨s, z.im / (s * 2)⟩
  else
    let fabsIm := if ¬ z.im < 0 then z.im else -z.im
    ⟨fabsIm / (s * 2), if ¬ z.im < 0 then s else -s⟩

/-- `tan` (e_float/e_float_complex.h 1319-1322, 1866-1877). -/
def tan (z : Cx ℝ) : Cx ℝ := div (sin z) (cos z)

/-- `tanh` (e_float/e_float_complex.h 1324-1327, 1879-1890). -/
def tanh (z : Cx ℝ) : Cx ℝ := div (sinh z) (cosh z)

/-- `asin` (e_float/e_float_complex.h 1127-1130, 1714-1717); `conj` is the function of the code. -/
def asin (z : Cx ℝ) : Cx ℝ := neg (conj (log (add (conj z) (sqrt (rSub 1 (mul z z))))))

/-- `acos` (e_float/e_float_complex.h 1120-1125, 1709-1712); `pi_half` is `asin(1)`. -/
def acos (z : Cx ℝ) : Cx ℝ := rSub (Real.pi / 2) (asin z)

/-- `atan` (e_float/e_float_complex.h 1132-1142, 1719-1727). -/
def atan (z : Cx ℝ) : Cx ℝ :=
  let w := conj z
  divR (conj (sub (log (rSub 1 w)) (log (rAdd 1 w)))) 2

/-- `acosh` (e_float/e_float_complex.h 1144-1150, 1729-1735). -/
def acosh (z : Cx ℝ) : Cx ℝ :=
  let zp := addR z 1
  let zm := subR z 1
  log (add z (mul zp (sqrt (div zm zp))))

/-- `asinh` (e_float/e_float_complex.h 1152-1155, 1737-1740). -/
def asinh (z : Cx ℝ) : Cx ℝ := log (add z (sqrt (rAdd 1 (mul z z))))

/-- `atanh` (e_float/e_float_complex.h 1157-1165, 1742-1749). -/
def atanh (z : Cx ℝ) : Cx ℝ := divR (sub (log (rAdd 1 z)) (log (rSub 1 z))) 2

end

end Cx
end EFX
