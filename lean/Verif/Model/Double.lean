import Verif.Model.Core
import Mathlib.Data.Nat.Sqrt
/-!
# The double-precision steps

`double` values are rationals, every `double` operation is the exact result rounded to 53
significant bits, ties to even (IEEE 754 binary64, round to nearest).  Simplification: the
exponent range of binary64 is not modelled; the quantities computed here lie between 1e-2 and
1e16, or (in `ofMantExp`) between the given mantissa and 10^8.
-/

namespace EFX

/-- Floor of the base-2 logarithm of a positive rational. -/
def ilog2 (q : Rat) : Int :=
  let k : Int := (Nat.log2 q.num.natAbs : Int) - (Nat.log2 q.den : Int)
  if (2 : Rat) ^ k ≤ q then k else k - 1

/-- Nearest integer, ties to even. -/
def roundEven (m : Rat) : Int :=
  let f := m.floor
  let r := m - f
  if r < 1 / 2 then f else if r > 1 / 2 then f + 1 else if f % 2 = 0 then f else f + 1

/-- Rounding of a positive rational to 53 bits. -/
def rndPos (q : Rat) : Rat :=
  let ulp := (2 : Rat) ^ (ilog2 q - 52)
  roundEven (q / ulp) * ulp

/-- Rounding of a rational to 53 bits: the result of a binary64 operation. -/
def rnd (q : Rat) : Rat := if q = 0 then 0 else if q < 0 then -rndPos (-q) else rndPos q

/-- Correctly rounded square root (`std::sqrt(double)`), argument positive: the integer square
root of `q*4^k` has at least 58 bits; a sticky half records inexactness. -/
def dsqrt (q : Rat) : Rat :=
  let k : Int := 60 - ilog2 q / 2
  let s := q * (4 : Rat) ^ k
  let n := Nat.sqrt s.floor.toNat
  if (n : Rat) * n = s then rnd ((n : Rat) / (2 : Rat) ^ k)
  else rnd (((n : Rat) + 1 / 2) / (2 : Rat) ^ k)

/-- The digit-count loop of `extract_parts` (efx.cpp 1386-1401): final `p10` and `exponent`.
The fuel exceeds the number of decimal digits of a `uint32_t`. -/
def partsLoop : Nat → Nat → Nat → Int → Nat × Int
  | 0, _, p10, e => (p10, e)
  | fuel + 1, test, p10, e =>
    if test / 10 = 0 then (p10, e) else partsLoop fuel (test / 10) (w32 (p10 * 10)) (e + 1)

/-- `extract_parts` (efx.cpp 1379-1413). -/
def extractParts (x : EFloat) : Rat × Int :=
  let d0 : Rat := (x.data.getD 0 0 : Nat)
  let d1 : Rat := (x.data.getD 1 0 : Nat)
  let d2 : Rat := (x.data.getD 2 0 : Nat)
  let pe := partsLoop 11 (x.data.getD 0 0) 1 x.exp
  let m := rnd (rnd (rnd d0 + rnd (rnd d1 / 100000000)) + rnd (rnd (rnd d2 / 100000000) / 100000000))
  let m := rnd (m / (pe.1 : Nat))
  (if x.neg then -m else m, pe.2)

/-- `while(d > 10.0) { d /= 10.0; ++e; }` (efx.cpp 56). -/
def scaleDown : Nat → Rat → Int → Rat × Int
  | 0, d, e => (d, e)
  | fuel + 1, d, e => if d > 10 then scaleDown fuel (rnd (d / 10)) (e + 1) else (d, e)

/-- `while(d < 1.0) { d *= 10.0; --e; }` (efx.cpp 57). -/
def scaleUp : Nat → Rat → Int → Rat × Int
  | 0, d, e => (d, e)
  | fuel + 1, d, e => if d < 1 then scaleUp fuel (rnd (d * 10)) (e - 1) else (d, e)

/-- The exponent alignment loop (efx.cpp 59-65), `k` iterations. -/
def alignLoop : Nat → Rat → Int → Rat × Int
  | 0, d, e => (d, e)
  | k + 1, d, e => alignLoop k (rnd (d * 10)) (e - 1)

/-- The limb extraction loop (efx.cpp 75-84). -/
def mantLimbs : Nat → Rat → List Nat
  | 0, _ => []
  | k + 1, d =>
    let n := w32 (w64 d.floor.toNat)
    n :: mantLimbs k (rnd (rnd (d - (n : Nat)) * 100000000))

/-- Constructor from mantissa and exponent (efx.cpp 33-85).  The loop `shift-- % 8 != 0`
runs `e mod 8` (non-negative remainder) times. -/
def ofMantExp (c : Cfg) (mantissa : Rat) (exponent : Int) : EFloat :=
  if (if mantissa < 0 then -mantissa else mantissa) < (1 / 2 : Rat) ^ 1022 * (1 + (1 / 2 : Rat) ^ 52) then
    (if exponent = 0 then one c else zero c)
  else
    let bneg := decide (mantissa < 0)
    let d := if bneg then -mantissa else mantissa
    let r1 := scaleDown 320 d exponent
    let r2 := scaleUp 320 r1.1 r1.2
    let r3 := alignLoop (r2.2 % 8).toNat r2.1 r2.2
    mkLimbs c (mantLimbs 3 r3.1) r3.2 bneg

end EFX
