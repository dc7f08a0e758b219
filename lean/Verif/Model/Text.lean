import Verif.Model.Integer
/-!
# Reading and writing decimal text

Strings are lists of characters.  `none` is any failure: an exception of `std::string`, an access outside a string
or the digit storage, or a stream conversion that does not deliver a number (`Util::numeric_cast` then returns an
uninitialised or saturated variable, util_numeric_cast.h 32-35).
Simplifications: the global locale is "C"; white space at the start of a stream conversion is not modelled (it counts
as failure); memory is unlimited; strings are shorter than 2^64.
-/

namespace EFX

/-- `std::string`. -/
abbrev Str := List Char

/-- Decimal digit. -/
def isDig (ch : Char) : Bool := decide (48 ≤ ch.toNat ∧ ch.toNat ≤ 57)
/-- `ch - '0'`. -/
def digVal (ch : Char) : Nat := ch.toNat - 48
/-- `'0' + d`. -/
def digChar (d : Nat) : Char := Char.ofNat (48 + d)

/-- The number written by a digit string. -/
def parseNat (s : Str) : Nat := s.foldl (fun a ch => a * 10 + digVal ch) 0

/-- `str.find(ch)`, `none` for `npos`. -/
def strFind (ch : Char) (s : Str) : Option Nat := s.findIdx? (fun x => x == ch)
/-- `str.insert(p, ch)`; throws beyond the end. -/
def strInsert (p : Nat) (ch : Char) (s : Str) : Option Str :=
  if p ≤ s.length then some (s.take p ++ ch :: s.drop p) else none
/-- `str.erase(p, 1)`; throws beyond the end. -/
def strErase (p : Nat) (s : Str) : Option Str := if p ≤ s.length then some (s.eraseIdx p) else none
/-- `str.at(p)`; throws outside. -/
def strAt (p : Nat) (s : Str) : Option Char := s[p]?

/-- `Util::numeric_cast<std::uint32_t>` (util_numeric_cast.h 16-37): optional sign and digits at the start of the text.  The
stream accepts a minus sign for unsigned types too and stores the negated number modulo 2^32 (libstdc++; a strict reading of the
standard gives 2^32-1 and failbit, which the function ignores; both agree for "-1"). -/
def castU32 (s : Str) : Option Nat :=
  let neg := decide (s.head? = some '-')
  let s := if s.head? = some '-' ∨ s.head? = some '+' then s.drop 1 else s
  let d := s.takeWhile isDig
  if d.length = 0 then none
  else if parseNat d < 4294967296 then some (if neg then (4294967296 - parseNat d) % 4294967296 else parseNat d)
  else none

/-- `Util::numeric_cast<std::int64_t>` (util_numeric_cast.h 16-37): optional sign and digits at the start. -/
def castI64 (s : Str) : Option Int :=
  let neg := decide (s.head? = some '-')
  let s := if s.head? = some '-' ∨ s.head? = some '+' then s.drop 1 else s
  let d := s.takeWhile isDig
  if d.length = 0 then none
  else
    let n : Int := if neg then -(parseNat d : Int) else parseNat d
    if -9223372036854775808 ≤ n ∧ n ≤ 9223372036854775807 then some n else none

/-! ### `rd_string` (efx.cpp 1807-2070) -/

/-- Exponent part (efx.cpp 1811-1826). -/
def rdExponent (s : Str) : Option (Str × Int) :=
  match (strFind 'e' s).orElse fun _ => strFind 'E' s with
  | some pos => (castI64 (s.drop (pos + 1))).map fun e => (s.take pos, e)
  | none => some (s, 0)

/-- Signs (efx.cpp 1828-1841): the first minus and the first plus, wherever they are. -/
def rdSign (s : Str) : Bool × Str :=
  let r := match strFind '-' s with
    | some pos => (true, s.eraseIdx pos)
    | none => (false, s)
  match strFind '+' r.2 with
  | some pos => (r.1, r.2.eraseIdx pos)
  | none => r

/-- Removal of trailing zeros (efx.cpp 1882-1896). -/
def stripTrailing (s : Str) : Str := (s.reverse.dropWhile (fun ch => ch == '0')).reverse

/-- Decimal point and leading zeros of the fraction (efx.cpp 1876-1939).  Outer `none`: exception; inner `none`: the
text denotes zero. -/
def rdPoint (s : Str) (e : Int) : Option (Option (Str × Int)) :=
  match strFind '.' s with
  | some _ =>
    let t := stripTrailing s
    if t = ['.'] then some none
    else do
      let ch ← strAt 0 t
      if ch = '.' then
        let rest := t.drop 1
        let nz := (rest.takeWhile (fun ch => ch == '0')).length
        let ch1 ← strAt 1 t
        let delta : Nat := if ch1 = '0' then nz else 0
        let t ← strInsert 1 '.' (rest.drop nz)
        pure (some (t, e - ((delta : Int) + 1)))
      else pure (some (t, e))
  | none => some (some (s ++ ['.'], e))

/-- Shift of the decimal point such that the exponent is a multiple of eight (efx.cpp 1941-1977). -/
def rdShift (s : Str) (e : Int) : Option (Str × Int) := do
  let nShift : Int := if Int.tmod e 8 ≠ 0 then (if e < 0 then Int.tmod e 8 + 8 else Int.tmod e 8) else 0
  let pos ← strFind '.' s
  let s := if (s.length : Int) - (pos + 1) < nShift then
      s ++ List.replicate (nShift - ((s.length : Int) - (pos + 1))).toNat '0' else s
  if nShift ≠ 0 then
    let s ← strInsert (pos + 1 + nShift.toNat) '.' s
    let s ← strErase pos s
    pure (s, e - nShift)
  else pure (s, e)

/-- At most eight digits before the point (efx.cpp 1979-1995). -/
def rdCut (s : Str) (e : Int) : Option (Str × Int) := do
  let pos ← strFind '.' s
  if pos > 8 then
    let nPos := i32 pos
    let n := Int.tdiv nPos 8 - (if Int.tmod nPos 8 = 0 then 1 else 0)
    if nPos - n * 8 < 0 then none
    else
      let s ← strInsert (nPos - n * 8).toNat '.' s
      let s ← strErase (pos + 1) s
      pure (s, e + n * 8)
  else pure (s, e)

/-- Fraction padded to groups of eight and cut to the storage (efx.cpp 1997-2024).  A negative pad count would be a
huge `size_type`. -/
def rdPad (c : Cfg) (s : Str) : Option Str := do
  let pos ← strFind '.' s
  let nDec := i32 (i32 ((s.length : Int) - 1) - i32 pos)
  let nRem := Int.tmod nDec 8
  let nCnt := if nRem ≠ 0 then 8 - nRem else 0
  let s := s ++ List.replicate nCnt.toNat '0'
  let maxDec := (c.elems - 1) * 8
  pure (if s.length - pos > maxDec then s.take (pos + 1 + maxDec) else s)

/-- The groups of eight digits after the point (efx.cpp 2036-2052). -/
def rdGroups : Nat → Str → Option (List Nat)
  | 0, _ => some []
  | k + 1, s => do
    let d ← castU32 (s.take 8)
    let r ← rdGroups k (s.drop 8)
    pure (d :: r)

/-- All limbs (efx.cpp 2029-2052) for a storage of `size` limbs. -/
def rdLimbs (size : Nat) (s : Str) : Option (List Nat) := do
  let pos ← strFind '.' s
  let d ← castU32 (s.take pos)
  let r ← rdGroups ((s.length - (pos + 1)) / 8) (s.drop (pos + 1))
  if r.length + 1 ≤ size then pure (d :: r ++ List.replicate (size - (r.length + 1)) 0) else none

/-- Range checks (efx.cpp 2054-2067), in sequence. -/
def rdRange (c : Cfg) (x : EFloat) : EFloat :=
  let x := if x.exp > maxExp10 then infSigned c x.neg else x
  if x.exp ≤ minExp10 then
    if x.exp = minExp10 then (if isone { x with exp := 0 } then zero c else x) else zero c
  else x

/-- `rd_string` into the object `old` (efx.cpp 1807-2070).  Class and working precision of the object are kept
unless zero or infinity is assigned. -/
def rdString (c : Cfg) (old : EFloat) (s : Str) : Option EFloat := do
  let (s, e) ← rdExponent s
  let (neg, s) := rdSign s
  let t := s.dropWhile (fun ch => ch == '0')
  if t.length ≠ s.length ∧ t = [] then pure (zero c)
  else
    match ← rdPoint t e with
    | none => pure (zero c)
    | some (s, e) => do
      let (s, e) ← rdShift s e
      let (s, e) ← rdCut s e
      let s ← rdPad c s
      let d ← rdLimbs old.data.length s
      pure (rdRange c { old with data := d, exp := e, neg := neg })

/-- Constructor from a string (efx.cpp 87-117); `rd_string` never returns false. -/
def ofString (c : Cfg) (s : Str) : Option EFloat := rdString c (mkDefault c) s

/-! ### `wr_string` (base.cpp 154-289) -/

/-- Decimal digits of a number, as written by a stream (at most 20 digits). -/
def decStrF : Nat → Nat → Str
  | 0, _ => []
  | f + 1, n => if n / 10 = 0 then [digChar n] else decStrF f (n / 10) ++ [digChar (n % 10)]
/-- `Util::lexical_cast` of an unsigned number (util_lexical_cast.h 16-23). -/
def decStr (n : Nat) : Str := decStrF 20 n

/-- `setw(8) << setfill('0')` (efx.cpp 1755-1757). -/
def pad8 (d : Nat) : Str := List.replicate (8 - (decStr d).length) '0' ++ decStr d

/-- The loop over trailing nines (efx.cpp 1778-1783). -/
def nineLoop : Nat → Str → Nat × Str
  | 0, s => (0, s)
  | ix + 1, s => if s.getD (ix + 1) '0' = '9' then nineLoop ix (s.set (ix + 1) '0') else (ix + 1, s)

/-- Rounding up the last digit (efx.cpp 1776-1802).  For the empty string the index wraps and `at` throws. -/
def roundUp (s : Str) (e : Int) : Option (Str × Int) :=
  if s.length = 0 then none
  else
    let r := nineLoop (s.length - 1) s
    let ch := r.2.getD r.1 '0'
    if r.1 = 0 then
      if ch = '9' then some (r.2.set 0 '1', e + 1) else some (r.2.set 0 (digChar (digVal ch + 1)), e)
    else some (r.2.set r.1 (digChar (digVal ch + 1)), e)

/-- `get_output_string` (efx.cpp 1742-1805). -/
def outputString (c : Cfg) (x : EFloat) (e : Int) (n : Nat) : Option (Str × Int) :=
  let elems := min (n / 8 + 2) c.elems
  let s := decStr x.front ++ ((x.data.take elems).drop 1).flatMap pad8
  if s.length > n then
    let rnd := digVal (s.getD n '0')
    if rnd ≥ 5 then roundUp (s.take n) e else some (s.take n, e)
  else some (s, e)

/-- Stream state used by `wr_string`: format flags, precision, width, fill character. -/
structure Fmt where
  showpos : Bool
  uppercase : Bool
  showpoint : Bool
  scientific : Bool
  fixed : Bool
  left : Bool
  prec : Int
  width : Int
  fill : Char
deriving Repr, DecidableEq

/-- `special_handle_string_not_finite` (base.cpp 291-312). -/
def wrNotFinite (x : EFloat) (showpos uppercase : Bool) : Str :=
  if x.isinf then
    (if uppercase then (if !x.isneg then (if showpos then "+INF".toList else "INF".toList) else "-INF".toList)
     else (if !x.isneg then (if showpos then "+inf".toList else "inf".toList) else "-inf".toList))
  else (if uppercase then "NAN".toList else "nan".toList)

/-- `special_extend_string_to_precision` (base.cpp 471-513).  A negative difference wraps to a huge count, and
`insert` throws. -/
def extendToPrecision (s : Str) (p : Nat) : Option Str := do
  let c0 ← strAt 0 s
  let c1 ← if c0 = '0' then strAt 1 s else some ' '
  if c0 = '0' ∧ c1 = '.' then
    if s.length = 2 then pure (s ++ List.replicate p '0')
    else
      let len := ((s.drop 2).dropWhile (fun ch => ch == '0')).length
      if p < len then none else pure (s ++ List.replicate (p - len) '0')
  else if p < s.length - 1 then none else pure (s ++ List.replicate (p - (s.length - 1)) '0')

/-- The common end of both writers (base.cpp 333-362, 436-468): trailing zeros, show point, trailing point. -/
def wrFinish (s : Str) (p : Nat) (showpoint trim : Bool) : Option Str :=
  let s := if trim then stripTrailing s else s
  if showpoint then (if trim then extendToPrecision s p else some s)
  else
    match s.getLast? with
    | none => none
    | some ch => some (if ch = '.' then s.dropLast else s)

/-- The exponent text (base.cpp 364-382). -/
def expText (e : Int) (uppercase : Bool) : Str :=
  let d := decStr e.natAbs
  (if uppercase then 'E' else 'e') :: (if e < 0 then '-' else '+') ::
    (List.replicate (if d.length % 3 ≠ 0 then 3 - d.length % 3 else 0) '0' ++ d)

/-- `wr_string_scientific` (base.cpp 314-383).  For an empty string `length() - 1` wraps. -/
def wrScientific (s : Str) (e : Int) (p : Nat) (showpoint uppercase trim : Bool) : Option Str := do
  let s := if s.length ≠ 0 ∧ p > s.length - 1 then s ++ List.replicate (p - (s.length - 1)) '0' else s
  let s ← strInsert 1 '.' s
  let s ← wrFinish s p showpoint trim
  pure (s ++ expText e uppercase)

/-- `wr_string_fixed` (base.cpp 385-469). -/
def wrFixed (s : Str) (e : Int) (p : Nat) (showpoint trim : Bool) : Option Str := do
  let s ←
    if e < 0 then
      let z := min (-e - 1).toNat p
      let nPad : Int := (p : Int) - ((s.length + z : Nat) : Int)
      pure ('0' :: '.' :: (List.replicate z '0' ++ s) ++ List.replicate nPad.toNat '0')
    else
      let e1 := (e + 1).toNat
      let s := if s.length < e1 then s ++ List.replicate (e1 - s.length) '0' else s
      let s ← strInsert e1 '.' s
      let nPad : Int := (p : Int) - (((s.length - 1 : Nat) : Int) - (e + 1))
      pure (s ++ List.replicate nPad.toNat '0')
  wrFinish s p showpoint trim

/-- `os.precision()`, with the default 6 for values that are not positive (base.cpp 172-175). -/
def Fmt.p (f : Fmt) : Nat := if f.prec ≤ 0 then 6 else f.prec.toNat

/-- Use of scientific notation (base.cpp 177-210). -/
def useScientific (c : Cfg) (f : Fmt) (e : Int) : Bool :=
  if f.scientific then true
  else if f.fixed then false
  else decide (e < -4 ∨ e ≥ min (c.digits10 : Int) (max (f.p : Int) 6))

/-- Number of digits requested (base.cpp 212-257). -/
def wantedDigits (c : Cfg) (f : Fmt) (e : Int) : Nat :=
  let m := c.maxDigits10 + 1
  let n := if useScientific c f e then min m (1 + f.p)
    else if e ≥ 0 then min ((e + 1).toNat + f.p) m
    else min (max (e + 1 + f.p) 0).toNat m
  if !f.scientific && !f.fixed then min n (min f.p c.maxDigits10) else n

/-- Sign and field width (base.cpp 273-288). -/
def wrField (f : Fmt) (neg : Bool) (s : Str) : Str :=
  let s := if neg then '-' :: s else if f.showpos then '+' :: s else s
  let w := f.width.toNat
  if w > s.length then
    (if f.left then s ++ List.replicate (w - s.length) f.fill else List.replicate (w - s.length) f.fill ++ s)
  else s

/-- `wr_string` (base.cpp 154-289); `get_order_exact` is `get_order_fast` (efx.h 258). -/
def wrString (c : Cfg) (x : EFloat) (f : Fmt) : Option Str :=
  if !x.isfinite then some (wrNotFinite x f.showpos f.uppercase)
  else do
    let e := order x
    let r ← outputString c x e (wantedDigits c f e)
    let auto := !f.scientific && !f.fixed
    let s ← if useScientific c f e then wrScientific r.1 r.2 f.p f.showpoint f.uppercase auto
      else wrFixed r.1 r.2 f.p f.showpoint auto
    pure (wrField f x.neg s)

end EFX
