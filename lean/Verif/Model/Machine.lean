import Verif.Model.Text
/-!
# Histories of public operations on a set of variables

A program is a list of operations on numbered variables.  Executing an operation either gives the
new contents of all variables or is undefined behaviour (`none`).
-/

namespace EFX

/-- Contents of all variables. -/
abbrev Regs := Nat → EFloat

/-- Storing into one variable. -/
def Regs.put (s : Regs) (i : Nat) (x : EFloat) : Regs := fun j => if j = i then x else s j

/-- `my_data` has been moved away (`dynamic_array` move constructor and move assignment,
util_dynamic_array.h 108-114 and 148-171, leave a null pointer and a zero count). -/
def EFloat.hollow (x : EFloat) : Bool := x.data.isEmpty

/-- `dynamic_array::operator=` (util_dynamic_array.h 135-145): copies as many elements as both
arrays have, never changes the size of the destination. -/
def copyData (dst src : List Nat) : List Nat :=
  src.take (min dst.length src.length) ++ dst.drop (min dst.length src.length)

/-- Copy assignment of `e_float` (efx.cpp 389-401), distinct objects. -/
def copyAssign (dst src : EFloat) : EFloat := { src with data := copyData dst.data src.data }

/-- The four arithmetic operations. -/
inductive Op where
  | add | sub | mul | div
deriving Repr, DecidableEq

/-- A public operation on numbered variables.  `new...` declares (or re-declares) variable `i`. -/
inductive Instr where
  /-- default constructor (efx.h 90-94) -/
  | newDefault (i : Nat)
  /-- constructor from a floating-point class (efx.h 163-167) -/
  | newClass (i : Nat) (k : FpClass)
  /-- constructors from unsigned integers (efx.h 97-107) -/
  | newUnsigned (i : Nat) (u : Nat)
  /-- constructors from signed integers (efx.h 110-127) -/
  | newSigned (i : Nat) (n : Int)
  /-- constructor from limbs (efx.h 169-176) -/
  | newLimbs (i : Nat) (l : List Nat) (e : Int) (neg : Bool)
  /-- constructor from a `double` mantissa and a decimal exponent (efx.cpp 33-85) -/
  | newMantExp (i : Nat) (d : Rat) (e : Int)
  /-- copy constructor (efx.h 146-150) -/
  | newCopy (i j : Nat)
  /-- copy assignment `i = j` (efx.cpp 389-401) -/
  | copy (i j : Nat)
  /-- move assignment `i = std::move(j)` (efx.cpp 404-413) -/
  | move (i j : Nat)
  /-- `i.swap(j)` (efx.cpp 986-996) -/
  | swap (i j : Nat)
  /-- `i op= j` (efx.cpp 415-814) -/
  | bin (o : Op) (i j : Nat)
  /-- `i op= n`, unsigned (efx.cpp 816-984) -/
  | uns (o : Op) (i : Nat) (n : Nat)
  /-- `i op= n`, signed (base.cpp 98-152) -/
  | sig (o : Op) (i : Nat) (n : Int)
  /-- `++i`, `--i` (efx.cpp 1372-1373) -/
  | inc (i : Nat) | dec (i : Nat)
  /-- `i.negate()` (efx.cpp 1170-1178) -/
  | neg (i : Nat)
  /-- `i.precision(d)` (efx.cpp 379-386) -/
  | prec (i : Nat) (d : Int)
  /-- `i.calculate_inv()` (efx.cpp 998-1074) -/
  | inv (i : Nat)
  /-- `i.calculate_sqrt()` (efx.cpp 1076-1168) -/
  | sqrt (i : Nat)
  /-- `i = f(j)` for a function returning a new object -/
  | intPart (i j : Nat) | decPart (i j : Nat) | floor (i j : Nat) | ceil (i j : Nat) | fabs (i j : Nat)
  /-- `i = numeric_limits<e_float>::max()` (base.cpp 81-89) -/
  | newMax (i : Nat)
  /-- constructor from a string (efx.cpp 87-117) -/
  | newString (i : Nat) (t : List Char)
  /-- `rd_string` into an existing variable, as `operator>>` does (efx.cpp 1807-2070, base.cpp 61-70) -/
  | read (i : Nat) (t : List Char)
deriving Repr, DecidableEq

/-- `x op= y`, distinct objects. -/
def execBin (c : Cfg) : Op → EFloat → EFloat → EFloat
  | .add, x, y => addAssign c x y
  | .sub, x, y => subAssign c x y
  | .mul, x, y => mulAssign c x y
  | .div, x, y => divAssign c x y

/-- `x op= x`. -/
def execSelf (c : Cfg) : Op → EFloat → EFloat
  | .add, x => addAssign c x x
  | .sub, x => subAssignSelf c x
  | .mul, x => mulAssignSelf c x
  | .div, x => divAssignSelf c x

/-- `x op= n` for `unsigned long long`. -/
def execUns (c : Cfg) : Op → EFloat → Nat → EFloat
  | .add, x, n => addUnsigned c x n
  | .sub, x, n => subUnsigned c x n
  | .mul, x, n => mulUnsigned c x n
  | .div, x, n => divUnsigned c x n

/-- `x op= n` for `signed long long`. -/
def execSig (c : Cfg) : Op → EFloat → Int → EFloat
  | .add, x, n => addSigned c x n
  | .sub, x, n => subSigned c x n
  | .mul, x, n => mulSigned c x n
  | .div, x, n => divSigned c x n

/-- Run `k` unless one of the listed variables is hollow: every arithmetic operation reads
`my_data[0]`, which is a null pointer access on a moved-from object.
Simplification: an operation that would leave early (for instance because the class is not finite)
counts as undefined as well. -/
def need (s : Regs) (l : List Nat) (k : Regs) : Option Regs :=
  if l.any (fun i => (s i).hollow) then none else some k

/-- One operation.  Values returned by functions initialise or move-assign the destination. -/
def exec (c : Cfg) (s : Regs) : Instr → Option Regs
  | .newDefault i => some (s.put i (mkDefault c))
  | .newClass i k => some (s.put i (mkClass c k))
  | .newUnsigned i u => some (s.put i (ofUnsigned c u))
  | .newSigned i n => some (s.put i (ofSigned c n))
  | .newLimbs i l e b => some (s.put i (mkLimbs c l e b))
  | .newMantExp i d e => some (s.put i (ofMantExp c d e))
  | .newCopy i j => some (s.put i (s j))
  | .copy i j => some (if i = j then s else s.put i (copyAssign (s i) (s j)))
  | .move i j =>
    some (if i = j then s.put i { s i with data := [] }
          else (s.put i (s j)).put j { s j with data := [] })
  | .swap i j =>
    some (if i = j then s
          else (s.put i (copyAssign (s i) (s j))).put j (copyAssign (s j) (s i)))
  | .bin o i j =>
    need s [i, j] (s.put i (if i = j then execSelf c o (s i) else execBin c o (s i) (s j)))
  | .uns o i n => need s [i] (s.put i (execUns c o (s i) n))
  | .sig o i n => if n = -2 ^ 63 then none else need s [i] (s.put i (execSig c o (s i) n))
  | .inc i => need s [i] (s.put i (incr c (s i)))
  | .dec i => need s [i] (s.put i (decr c (s i)))
  | .neg i => need s [i] (s.put i (negate (s i)))
  | .prec i d => some (s.put i (setPrecision c (s i) d))
  | .inv i => need s [i] (s.put i (calculateInv c (s i)))
  | .sqrt i => need s [i] (s.put i (calculateSqrt c (s i)))
  | .intPart i j => need s [j] (s.put i (integerPart c (s j)))
  | .decPart i j => need s [j] (s.put i (decimalPart c (s j)))
  | .floor i j => need s [j] (s.put i (EFX.floor c (s j)))
  | .ceil i j => need s [j] (s.put i (EFX.ceil c (s j)))
  | .fabs i j => need s [j] (s.put i (EFX.fabs (s j)))
  | .newMax i => some (s.put i (valueMax c))
  | .newString i t => (ofString c t).map (s.put i)
  | .read i t => if (s i).hollow then none else (rdString c (s i) t).map (s.put i)

/-- A whole history. -/
def run (c : Cfg) : Regs → List Instr → Option Regs
  | s, [] => some s
  | s, i :: p => (exec c s i).bind fun s' => run c s' p

end EFX
