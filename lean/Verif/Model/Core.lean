import Verif.Model.Limbs
/-!
# Comparison, addition, subtraction, multiplication, division by an integer
-/

namespace EFX

/-- `cmp` (efx.cpp 1203-1283). -/
def cmp (x v : EFloat) : Int :=
  if !x.isfinite || !v.isfinite then
    if x.isnan || v.isnan then (if x.isnan then 1 else -1)
    else if x.isinf && v.isinf then
      (if x.neg = v.neg then 0 else if x.neg then -1 else 1)
    else if x.isinf then (if x.isneg then -1 else 1)
    else (if v.neg then 1 else -1)
  else if x.iszero then
    (if v.iszero then 0 else if v.neg then 1 else -1)
  else if v.iszero then (if x.neg then -1 else 1)
  else if x.neg ≠ v.neg then (if x.neg then -1 else 1)
  else if x.exp ≠ v.exp then
    let valCmpExp : Int := if x.exp < v.exp then 1 else -1
    (if x.neg then valCmpExp else -valCmpExp)
  else
    let valCmpData := cmpData x.data v.data
    (if !x.neg then valCmpData else -valCmpData)

/-- `operator<` (e_float.cpp 25). -/
def lt (x y : EFloat) : Bool := decide (cmp x y < 0)
/-- `operator<=` (e_float.cpp 26). -/
def le (x y : EFloat) : Bool := decide (cmp x y ≤ 0)
/-- `operator==` (e_float.cpp 27). -/
def eq (x y : EFloat) : Bool := decide (cmp x y = 0)
/-- `operator!=` (e_float.cpp 28). -/
def ne (x y : EFloat) : Bool := decide (cmp x y ≠ 0)
/-- `operator>=` (e_float.cpp 29). -/
def ge (x y : EFloat) : Bool := decide (cmp x y ≥ 0)
/-- `operator>` (e_float.cpp 30). -/
def gt (x y : EFloat) : Bool := decide (cmp x y > 0)

/-- `my_value_max()` (base.cpp 81-89): the literal `9.99...9e<max_exp10>` with `max_digits10`
digits `9` after the point, as limbs: a leading 9, then the nines in groups of eight.
`Props/Text` proves that reading the literal gives this object. -/
def valueMax (c : Cfg) : EFloat :=
  let q := c.maxDigits10 / 8
  let r := c.maxDigits10 % 8
  mkLimbs c (9 :: (List.replicate q (mask - 1) ++
    (if r ≠ 0 then [(10 ^ r - 1) * 10 ^ (8 - r)] else []))) maxExp10 false

/-- The same-sign branch of `operator+=` (efx.cpp 463-527). -/
def addSame (x v : EFloat) (ofs : Int) : EFloat :=
  let r := if ofs ≥ 0 then addLoop x.data (shiftDown ofs.toNat v.data)
           else addLoop (shiftDown (-ofs).toNat x.data) v.data
  let e := if ofs ≥ 0 then x.exp else v.exp
  if r.2 ≠ 0 then { x with data := r.2 :: r.1.dropLast, exp := e + 8 }
  else { x with data := r.1, exp := e }

/-- Justification after subtraction (efx.cpp 607-640). -/
def justify (x : EFloat) : EFloat :=
  let sj := firstNonzero x.data
  if sj ≠ 0 then
    if sj = x.data.length then { x with neg := false, exp := 0 }
    else { x with data := shiftUp sj x.data, exp := x.exp - (sj : Int) * 8 }
  else x

/-- The different-sign branch of `operator+=` (efx.cpp 528-641). -/
def addDiff (x v : EFloat) (ofs : Int) : EFloat :=
  if ofs > 0 ∨ (ofs = 0 ∧ cmpData x.data v.data > 0) then
    justify { x with data := (subLoop x.data (shiftDown ofs.toNat v.data)).1 }
  else
    let xd := if ofs ≠ 0 then shiftDown (-ofs).toNat x.data else x.data
    justify { x with data := (subLoop v.data xd).1, exp := v.exp, neg := v.neg }

/-- Underflow and overflow check at the end of `operator+=` (efx.cpp 643-657). -/
def addFinish (c : Cfg) (x : EFloat) : EFloat :=
  if x.iszero then zero c
  else if x.exp ≥ maxExp10 ∧ gt (fabs x) (valueMax c) = true then infSigned c x.neg
  else x

/-- `operator+=` (efx.cpp 415-658).  `x` is `*this`, `v` the argument (the C++ code never
reads `v` after writing `*this` in a way that matters when both are the same object). -/
def addAssign (c : Cfg) (x v : EFloat) : EFloat :=
  if x.isnan then x
  else if x.isinf then
    (if v.isinf && decide (x.isneg ≠ v.isneg) then nanV c else x)
  else if x.iszero then v
  else
    let maxDelta : Int := ((c.elems : Int) - 1) * 8
    let ofsExp := x.exp - v.exp
    if v.iszero ∨ ofsExp > maxDelta then x
    else if ofsExp < -maxDelta then v
    else
      let ofs := Int.tdiv ofsExp 8
      addFinish c (if x.neg = v.neg then addSame x v ofs else addDiff x v ofs)

/-- `operator-=` for distinct objects (efx.cpp 660-664). -/
def subAssign (c : Cfg) (x v : EFloat) : EFloat := negate (addAssign c (negate x) v)

/-- `x -= x`: `negate()` changes the argument as well (efx.cpp 660-664). -/
def subAssignSelf (c : Cfg) (x : EFloat) : EFloat :=
  negate (addAssign c (negate x) (negate x))

/-- `operator+` / `operator-` on two numbers (e_float.cpp 19-20). -/
def add (c : Cfg) (x y : EFloat) : EFloat := addAssign c x y
@[inherit_doc add] def sub (c : Cfg) (x y : EFloat) : EFloat := subAssign c x y

/-- The product of the limb arrays inside `operator*=` (efx.cpp 730-781): new limbs and the
amount added to the exponent.  `self` says whether both operands are the same object. -/
def mulData (c : Cfg) (self : Bool) (x v : EFloat) : List Nat × Int :=
  let p := min x.prec v.prec
  if p * 8 < 5000 then
    let r := if self then mulLoopSelf x.data p else mulLoopUV x.data v.data p
    if r.2 ≠ 0 then (pushFront r.2 x.prec r.1, 8) else (r.1, 0)
  else
    let d := mulLoopFFT x.data v.data p
    if d.headD 0 = 0 then
      let lim := min c.elems (x.prec + 1)
      let moved := (d.take lim).drop 1 ++ d.drop (lim - 1)
      (moved.set (moved.length - 1) 0, 0)
    else (d, 8)

/-- `operator*=` (efx.cpp 666-787). -/
def mulAssignG (c : Cfg) (self : Bool) (x v : EFloat) : EFloat :=
  let resNeg := decide (x.neg ≠ v.neg)
  if (x.isnan || v.isnan) || (x.isinf && v.iszero) || (v.isinf && x.iszero) then nanV c
  else if x.isinf || v.isinf then infSigned c resNeg
  else if x.iszero || v.iszero then zero c
  else
    let uNeg := decide (x.exp < 0)
    let vNeg := decide (v.exp < 0)
    let uExp := if uNeg then -x.exp else x.exp
    let vExp := if vNeg then -v.exp else v.exp
    if uNeg = vNeg ∧ vExp ≥ maxExp10 - uExp then
      (if uNeg then zero c else infSigned c resNeg)
    else
      let r := mulData c self x v
      { x with data := r.1, exp := x.exp + v.exp + r.2, neg := resNeg }

/-- `operator*=` for distinct objects. -/
def mulAssign (c : Cfg) (x v : EFloat) : EFloat := mulAssignG c false x v

/-- `x *= x`. -/
def mulAssignSelf (c : Cfg) (x : EFloat) : EFloat := mulAssignG c true x x

/-- `operator*` (e_float.cpp 21): the left operand is copied first. -/
def mul (c : Cfg) (x y : EFloat) : EFloat := mulAssign c x y

/-- `mul_unsigned_long_long` (efx.cpp 828-896); `n` is the `unsigned long long`. -/
def mulUnsigned (c : Cfg) (x : EFloat) (n : Nat) : EFloat :=
  if x.isnan || (x.isinf && decide (n = 0)) then nanV c
  else if x.isinf then infSigned c x.neg
  else if x.iszero || decide (n = 0) then zero c
  else if n ≥ mask then mulAssign c x (ofUnsigned c n)
  else if n = 1 then x
  else
    let r := mulLoopN (w32 n) (x.data.take x.prec)
    let carry := w32 r.2
    let d := r.1 ++ x.data.drop x.prec
    if carry ≠ 0 then { x with data := pushFront carry x.prec d, exp := x.exp + 8 }
    else { x with data := d }

/-- The `n < 10^8` part of `div_unsigned_long_long` (efx.cpp 950-983).  The left shift copies
limbs `1 .. prec-2` to `0 .. prec-3` and stores one new limb at `prec-1`; limb `prec-2` keeps
its old value. -/
def divSmall (c : Cfg) (x : EFloat) (n : Nat) : EFloat :=
  let y :=
    if n > 1 then
      let r := divLoopN n (x.data.take x.prec) 0
      let d := r.1 ++ x.data.drop x.prec
      if d.headD 0 = 0 then
        let shifted := (d.take (x.prec - 1)).drop 1 ++ d.drop (x.prec - 2)
        { x with data := shifted.set (x.prec - 1) (w32 (w64 (r.2 * mask) / n)), exp := x.exp - 8 }
      else { x with data := d }
    else x
  if y.iszero then zero c else y

end EFX
