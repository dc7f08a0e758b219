/-!
# Configuration, machine words and the `e_float` object

Paths are relative to `/repo/libs/e_float/src`.
`efx.h` = `e_float/efx/e_float_efx.h`, `efx.cpp` = `e_float/efx/e_float_efx.cpp`,
`base.h` = `e_float/e_float_base.h`, `base.cpp` = `e_float/e_float_base.cpp`.
-/

namespace EFX

/-- Compile-time configuration of the library: the macro `E_FLOAT_DIGITS10`
(base.h 28-34, `ef_digits10_setting` base.h 53). Every theorem ranges over all settings. -/
structure Cfg where
  setting : Int
deriving Repr, DecidableEq

/-- `ef_digits10` (base.h 52-54): the setting clamped to `[30, 2^30]`. -/
def Cfg.digits10 (c : Cfg) : Nat :=
  if c.setting < 30 then 30 else if c.setting > 2 ^ 30 then 2 ^ 30 else c.setting.toNat

/-- `ef_max_digits10` (base.h 55). -/
def Cfg.maxDigits10 (c : Cfg) : Nat := c.digits10 + 1

/-- `ef_elem_number` (efx.h 62-63): number of base-10^8 limbs of a number. -/
def Cfg.elems (c : Cfg) : Nat :=
  (c.maxDigits10 / 8 + (if c.maxDigits10 % 8 ≠ 0 then 1 else 0)) + 3

/-- `ef_elem_mask` (efx.h 82): the limb base. -/
def mask : Nat := 100000000

/-- `ef_max_exp10` (efx.h 68): `((INT_MAX - 31) / 8) * 8`. -/
def maxExp10 : Int := 2147483616

/-- `ef_min_exp10` (efx.h 69): `((INT_MIN + 31) / 8) * 8`. -/
def minExp10 : Int := -2147483616

/-- `ef::tolerance()` (functions/elementary/elementary_math.cpp 17):
`max_digits10 + max_digits10 / 10`. -/
def Cfg.tolerance (c : Cfg) : Nat := c.maxDigits10 + c.maxDigits10 / 10

/-! ## Machine words.  `std::uint32_t`, `std::uint64_t` arithmetic wraps, so every arithmetic
result in the limb loops goes through these functions; `std::int32_t` is used only in the
subtraction loop (efx.cpp 578-598). -/

/-- Conversion to `std::uint32_t`. -/
def w32 (n : Nat) : Nat := n % 4294967296

/-- Conversion to `std::uint64_t`. -/
def w64 (n : Nat) : Nat := n % 18446744073709551616

/-- `uint32_t` subtraction (wraps). -/
def wsub32 (a b : Nat) : Nat := (a + 4294967296 - w32 b) % 4294967296

/-- `uint64_t` subtraction (wraps). -/
def wsub64 (a b : Nat) : Nat := (a + 18446744073709551616 - w64 b) % 18446744073709551616

/-- Conversion to `std::int32_t` (two's complement; signed overflow itself would be undefined,
and the word-safety theorems show that no operand ever leaves the range). -/
def i32 (x : Int) : Int := (x + 2147483648) % 4294967296 - 2147483648

/-- Conversion of an `int32_t` to `uint32_t`. -/
def u32OfInt (x : Int) : Nat := (x % 4294967296).toNat

/-! ## The object -/

/-- `fpclass_type` (efx.h 74-80). -/
inductive FpClass where
  | finite | inf | nan
deriving Repr, DecidableEq

/-- The five data members of `efx::e_float` (efx.h 242-246).  `my_exp` is an `int64_t`; it is
modelled by an unbounded integer (theorem family C43 bounds it). `data = []` models the state
of `my_data` after it has been moved from (`util_dynamic_array.h` 108-114, 148-171). -/
structure EFloat where
  data : List Nat
  exp  : Int
  neg  : Bool
  cls  : FpClass
  prec : Nat
deriving Repr, DecidableEq

/-- `fixed_dynamic_array()`: `ef_elem_number` value-initialised limbs
(detail/e_float_detail_dynamic_array.h 27-28). -/
def zeros (c : Cfg) : List Nat := List.replicate c.elems 0

/-- Default constructor (efx.h 90-94). -/
def mkDefault (c : Cfg) : EFloat := ⟨zeros c, 0, false, .finite, c.elems⟩

/-- Constructor from a floating-point class (efx.h 163-167). -/
def mkClass (c : Cfg) (k : FpClass) : EFloat := ⟨zeros c, 0, false, k, c.elems⟩

/-- Constructor from a limb list (efx.h 169-176 and
detail/e_float_detail_dynamic_array.h 42-49: surplus limbs dropped, rest zero). -/
def mkLimbs (c : Cfg) (l : List Nat) (e : Int) (neg : Bool) : EFloat :=
  ⟨l.take c.elems ++ List.replicate (c.elems - l.length) 0, e, neg, .finite, c.elems⟩

/-- `my_value_nan()` (efx.cpp 1712-1717). -/
def nanV (c : Cfg) : EFloat := mkClass c .nan

/-- `my_value_inf()` (efx.cpp 1719-1724). -/
def infV (c : Cfg) : EFloat := mkClass c .inf

/-- `my_data[0]`. -/
def EFloat.front (x : EFloat) : Nat := x.data.headD 0

/-- `isnan` (efx.cpp 1285). -/
def EFloat.isnan (x : EFloat) : Bool := decide (x.cls = .nan)
/-- `isinf` (efx.cpp 1286). -/
def EFloat.isinf (x : EFloat) : Bool := decide (x.cls = .inf)
/-- `isfinite` (efx.cpp 1287). -/
def EFloat.isfinite (x : EFloat) : Bool := decide (x.cls = .finite)
/-- `iszero` (efx.cpp 1289-1292). -/
def EFloat.iszero (x : EFloat) : Bool := decide (x.cls = .finite) && decide (x.front = 0)
/-- `isneg` (efx.cpp 1366-1369). -/
def EFloat.isneg (x : EFloat) : Bool := x.neg

/-- `negate` (efx.cpp 1170-1178). -/
def negate (x : EFloat) : EFloat := if x.iszero then x else { x with neg := !x.neg }

/-- `ef::fabs` (functions/elementary/elementary_math.cpp 38-41). -/
def fabs (x : EFloat) : EFloat := if x.isneg then negate x else x

/-- Selecting `infinity()` or `-infinity()` from a sign (e.g. efx.cpp 653-654). -/
def infSigned (c : Cfg) (neg : Bool) : EFloat := if neg then negate (infV c) else infV c

/-- Extraction of base-10^8 digits, least significant first: the `while(uu != 0)` loop of
`from_unsigned_long_long` (efx.cpp 131-138).  The fuel is the size of `temp` plus one
(efx.cpp 129: 19/8 + 3 = 5 slots, and 2^64 < 10^24 so at most three are used). -/
def ullDigits : Nat → Nat → List Nat
  | 0, _ => []
  | fuel + 1, uu => if uu = 0 then [] else w32 (uu % mask) :: ullDigits fuel (uu / mask)

/-- `from_unsigned_long_long` on a freshly constructed object (efx.cpp 119-148); `u` is the
`unsigned long long` argument.  `neg` is the sign the signed constructor has already stored. -/
def fromULL (c : Cfg) (neg : Bool) (u : Nat) : EFloat :=
  let temp := ullDigits 5 u
  let i := temp.length
  { data := (temp.reverse.take c.elems) ++ List.replicate (c.elems - temp.length) 0
    exp  := if i > 1 then ((i : Int) - 1) * 8 else 0
    neg  := neg
    cls  := .finite
    prec := c.elems }

/-- Constructors from unsigned integers (efx.h 97-107). -/
def ofUnsigned (c : Cfg) (u : Nat) : EFloat := fromULL c false (w64 u)

/-- Constructors from signed integers (efx.h 110-127): two's complement negation of the
`unsigned long long` image of `n`. -/
def ofSigned (c : Cfg) (n : Int) : EFloat :=
  fromULL c (decide (n < 0))
    (if n < 0 then ((-(n % 18446744073709551616)) % 18446744073709551616).toNat
     else (n % 18446744073709551616).toNat)

/-- `ef::zero()` (e_float.cpp 44). -/
def zero (c : Cfg) : EFloat := ofUnsigned c 0
/-- `ef::one()` (e_float.cpp 45). -/
def one (c : Cfg) : EFloat := ofUnsigned c 1
/-- `ef::two()` (functions/constants/constants.cpp 17). -/
def two (c : Cfg) : EFloat := ofUnsigned c 2
/-- `ef::half()` (e_float.cpp 46). -/
def half (c : Cfg) : EFloat := mkLimbs c [50000000] (-8) false

/-- Copy assignment (efx.cpp 389-401) for two distinct, not moved-from objects: every field is
copied.  (`this == &v` leaves the object unchanged, which is the same result.) -/
def assign (_old v : EFloat) : EFloat := v

/-- `precision(int)` (efx.cpp 379-386); C division truncates toward zero. -/
def setPrecision (c : Cfg) (x : EFloat) (digits : Int) : EFloat :=
  let elems := Int.tdiv digits 8 + (if Int.tmod digits 8 ≠ 0 then 1 else 0)
  { x with prec := (min (c.elems : Int) (max elems 2)).toNat }

end EFX
