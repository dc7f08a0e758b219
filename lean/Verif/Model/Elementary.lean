import Verif.Model.Util
/-!
# Elementary functions (functions/elementary)

The functions are written over a record `Arith` of the operations they use, so that one transcription serves twice:
with the operations of `e_float` (`Model/ElementaryE`), and with exact real operations.  The double precision
estimates of the standard library (`std::asin`, `std::atan`, `std::log`, `std::pow`) are fields of the record.
The hooks `i_have_my_own_…` are all false (base.h 177-199) and left out.
-/

namespace EFX

/-- The operations used by the elementary functions. -/
structure Arith (α : Type) where
  /-- `operator+` -/
  add : α → α → α
  /-- `operator-` -/
  sub : α → α → α
  /-- `operator*` -/
  mul : α → α → α
  /-- `operator/` -/
  div : α → α → α
  /-- unary minus -/
  neg : α → α
  /-- product with a built-in integer -/
  mulI : α → Int → α
  /-- quotient by a built-in integer -/
  divI : α → Int → α
  /-- `operator<` -/
  lt : α → α → Bool
  /-- `operator<=` -/
  le : α → α → Bool
  /-- `isneg` -/
  isneg : α → Bool
  /-- `iszero` -/
  iszero : α → Bool
  /-- `isone` -/
  isone : α → Bool
  /-- `isint` -/
  isint : α → Bool
  /-- `isnan` -/
  isnan : α → Bool
  /-- `isinf` -/
  isinf : α → Bool
  /-- `order` -/
  order : α → Int
  /-- `integer_part` -/
  intPart : α → α
  /-- `decimal_part` -/
  decPart : α → α
  /-- `calculate_inv` -/
  inv : α → α
  /-- `calculate_sqrt` -/
  sqrt : α → α
  /-- prefix `++` -/
  incr : α → α
  /-- `to_int64` -/
  toI : α → Int
  /-- `precision(int)` -/
  setPrec : α → Int → α
  /-- constructor from a built-in integer -/
  ofI : Int → α
  /-- constructor from the text `"1E" + n` -/
  ten : Int → α
  /-- `ef::half()` -/
  half : α
  /-- `ef::pi()` -/
  pi : α
  /-- `ef::ln2()` -/
  ln2 : α
  /-- `ef::ln10()` -/
  ln10 : α
  /-- `ef::e()` -/
  e : α
  /-- `ef::sqrt2()` -/
  sqrt2 : α
  /-- quiet NaN -/
  nan : α
  /-- positive infinity -/
  inf : α
  /-- `std::numeric_limits<e_float>::max_exponent` as an object -/
  maxExp : α
  /-- the estimate `e_float(::asin(…))` (elementary_trig.cpp 323-335) -/
  asin0 : α → α
  /-- the estimate `e_float(atan(…))` (elementary_trig.cpp 443-460) -/
  atan0 : α → α
  /-- the estimate from `std::log` (elementary_trans.cpp 312-341); `none` when it is zero -/
  log0 : α → Option α
  /-- the estimate from `std::pow(dd, -1/p)` (elementary_trans.cpp 38-59) -/
  rootn0 : α → Int → α
  /-- `ef::tolerance()` -/
  tol : Int

namespace Fn
variable {α : Type} (A : Arith α)

/-- `ef::zero()`, `ef::one()`, `ef::two()` (e_float.cpp 44-45, constants.cpp 17). -/
def zero : α := A.ofI 0
@[inherit_doc zero] def one : α := A.ofI 1
@[inherit_doc zero] def two : α := A.ofI 2
/-- `ef::one_minus()` (constants.cpp 46). -/
def oneMinus : α := A.ofI (-1)
/-- `ef::tenth()` (constants.cpp 48). -/
def tenth : α := A.divI (one A) 10
/-- `ef::three_half()` (constants.cpp 54). -/
def threeHalf : α := A.add (one A) A.half
/-- `ef::pi_half()` (constants.cpp 159). -/
def piHalf : α := A.divI A.pi 2

/-- `isfinite` (efx.h 240-242). -/
def isfinite (x : α) : Bool := !A.isnan x && !A.isinf x
/-- `ef::fabs` (elementary_math.cpp 37-40). -/
def fabs (x : α) : α := if A.isneg x then A.neg x else x
/-- `ef::sgn` (elementary_math.cpp 59-69). -/
def sgn (x : α) : Int := if A.iszero x then 0 else if A.isneg x then -1 else 1

/-- The limit of `small_arg` and `large_arg` (elementary_math.cpp 182-183, 203-204). -/
def argLim : Int := max (A.tol / 10) 6
/-- `ef::small_arg` (elementary_math.cpp 180-186). -/
def smallArg (x : α) : Bool := decide (A.order x < -argLim A)
/-- `ef::large_arg` (elementary_math.cpp 201-207). -/
def largeArg (x : α) : Bool := decide (argLim A < A.order x)
/-- `ef::near_one` (elementary_math.cpp 212). -/
def nearOne (x : α) : Bool := smallArg A (fabs A (A.sub (one A) x))

/-- The integer power `pown_template` (detail/e_float_detail_pown_template.h 26-65). -/
def pown (x : α) (p : Int) : α := (EFX.pown (one A) A.mul A.div x p).getD A.nan

/-! ## Hypergeometric series (elementary_hyper_g.cpp) -/

/-- The loop shared by the series (elementary_hyper_g.cpp 28-46, 67-86, …): `step` updates the running products and
gives the next term.  From `n = 21` on the loop ends when the order of the term is more than `tolerance()` below the
order of the sum.  The fuel is `max_iteration() - n`; when it is used up the result is NaN. -/
def seriesLoop {σ : Type} (step : Int → σ → σ × α) : Nat → Int → σ → α → α
  | 0, _, _, _ => A.nan
  | k + 1, n, st, sum =>
    let r := step n st
    if n > 20 ∧ A.order r.2 - A.order sum < -A.tol then sum
    else seriesLoop step k (n + 1) r.1 (A.add sum r.2)

/-- `max_iteration() - 2` (elementary_math.cpp 16), the number of rounds of a loop that starts with `n = 2`. -/
def rounds : Nat := 9998

/-- `hypergeometric_0f0` (elementary_hyper_g.cpp 17-49). -/
def hyp0f0 (x : α) : α :=
  seriesLoop A (fun n p => let p := A.divI (A.mul p x) n; (p, p)) rounds 2 x (A.add (one A) x)

/-- `hypergeometric_0f1` (elementary_hyper_g.cpp 51-89). -/
def hyp0f1 (b x : α) : α :=
  seriesLoop A (fun n (s : α × α × α) =>
      let p := A.divI (A.mul s.1 x) n
      let bp := A.incr s.2.2
      let pb := A.mul s.2.1 bp
      ((p, pb, bp), A.div p pb))
    rounds 2 (x, b, b) (A.add (one A) (A.div x b))

/-- `hypergeometric_1f0` (elementary_hyper_g.cpp 91-130). -/
def hyp1f0 (a x : α) : α :=
  seriesLoop A (fun n (s : α × α × α) =>
      let p := A.divI (A.mul s.1 x) n
      let ap := A.incr s.2.2
      let pa := A.mul s.2.1 ap
      ((p, pa, ap), A.mul pa p))
    rounds 2 (x, a, a) (A.add (one A) (A.mul a x))

/-- `hypergeometric_2f1` (elementary_hyper_g.cpp 217-261). -/
def hyp2f1 (a b c x : α) : α :=
  seriesLoop A (fun n (s : α × (α × α) × (α × α) × (α × α)) =>
      let p := A.divI (A.mul s.1 x) n
      let ap := A.incr s.2.1.2
      let pa := A.mul s.2.1.1 ap
      let bp := A.incr s.2.2.1.2
      let pb := A.mul s.2.2.1.1 bp
      let cp := A.incr s.2.2.2.2
      let pc := A.mul s.2.2.2.1 cp
      ((p, (pa, ap), (pb, bp), (pc, cp)), A.mul (A.div (A.mul pa pb) pc) p))
    rounds 2 (x, (a, a), (b, b), (c, c)) (A.add (one A) (A.mul (A.div (A.mul a b) c) x))

/-- `hypergeometric_1f1` (elementary_hyper_g.cpp 132-173). -/
def hyp1f1 (a b x : α) : α :=
  seriesLoop A (fun n (s : α × (α × α) × (α × α)) =>
      let p := A.divI (A.mul s.1 x) n
      let ap := A.incr s.2.1.2
      let pa := A.mul s.2.1.1 ap
      let bp := A.incr s.2.2.2
      let pb := A.mul s.2.2.1 bp
      ((p, (pa, ap), (pb, bp)), A.mul (A.div pa pb) p))
    rounds 2 (x, (a, a), (b, b)) (A.add (one A) (A.mul (A.div a b) x))

/-- `hypergeometric_2f0` (elementary_hyper_g.cpp 175-215). -/
def hyp2f0 (a b x : α) : α :=
  seriesLoop A (fun n (s : α × (α × α) × (α × α)) =>
      let p := A.divI (A.mul s.1 x) n
      let ap := A.incr s.2.1.2
      let pa := A.mul s.2.1.1 ap
      let bp := A.incr s.2.2.2
      let pb := A.mul s.2.2.1 bp
      ((p, (pa, ap), (pb, bp)), A.mul (A.mul pa pb) p))
    rounds 2 (x, (a, a), (b, b)) (A.add (one A) (A.mul (A.mul a b) x))

/-- `std::accumulate(…, one(), multiplies)` (elementary_hyper_g.cpp 277-278, 297-298). -/
def prodL (l : List α) : α := l.foldl A.mul (one A)

/-- `hypergeometric_pfq` (elementary_hyper_g.cpp 263-316). -/
def hypPfq (a b : List α) (x : α) : α :=
  seriesLoop A (fun n (s : α × (α × List α) × (α × List α)) =>
      let p := A.divI (A.mul s.1 x) n
      let ap := s.2.1.2.map (A.add (one A))
      let bp := s.2.2.2.map (A.add (one A))
      let pa := A.mul s.2.1.1 (prodL A ap)
      let pb := A.mul s.2.2.1 (prodL A bp)
      ((p, (pa, ap), (pb, bp)), A.mul (A.div pa pb) p))
    rounds 2 (x, (prodL A a, a), (prodL A b, b)) (A.add (one A) (A.mul (A.div (prodL A a) (prodL A b)) x))

/-! ## Sine and cosine (elementary_trig.cpp) -/

/-- Removal of multiples of pi from a non-negative argument (elementary_trig.cpp 51-64, 160-174): the reduced
argument, and whether an odd multiple was removed. -/
def reducePi (x : α) : α × Bool :=
  if A.lt A.pi x then
    let n := A.intPart (A.div x A.pi)
    (A.sub x (A.mul n A.pi), !A.iszero (A.decPart (A.divI n 2)))
  else (x, false)

/-- `3^9` (elementary_trig.cpp 110, 221); the double `pow(3.0, 9.0) + 0.5` is cut to the integer. -/
def threePow9 : Int := 19683

/-- `k` rounds of the triple angle formula of the sine (elementary_trig.cpp 121-130). -/
def tripleSin : Nat → α → α
  | 0, s => s
  | k + 1, s => tripleSin k (A.add (A.neg (A.mulI (A.mul s (A.mul s s)) 4)) (A.mulI s 3))

/-- `k` rounds of the triple angle formula of the cosine (elementary_trig.cpp 232-241). -/
def tripleCos : Nat → α → α
  | 0, c => c
  | k + 1, c => tripleCos k (A.sub (A.mulI (A.mul c (A.mul c c)) 4) (A.mulI c 3))

/-- Sine of the reduced argument (elementary_trig.cpp 72-131). -/
def sinCore (x : α) : α :=
  let delta := A.sub (piHalf A) x
  if A.iszero x then zero A
  else if A.iszero (A.sub x (piHalf A)) then one A
  else if smallArg A x then A.mul x (hyp0f1 A (threeHalf A) (A.divI (A.neg (A.mul x x)) 4))
  else if smallArg A delta then hyp0f1 A A.half (A.divI (A.neg (A.mul delta delta)) 4)
  else
    let scale := decide (A.order x > -4)
    let y := if scale then A.divI x threePow9 else x
    let s := A.mul y (hyp0f1 A (threeHalf A) (A.divI (A.neg (A.mul y y)) 4))
    if scale then tripleSin A 9 s else s

/-- Cosine of the reduced argument (elementary_trig.cpp 183-242). -/
def cosCore (x : α) : α :=
  let delta := A.sub (piHalf A) x
  if A.iszero x then one A
  else if A.iszero (A.sub x (piHalf A)) then zero A
  else if smallArg A x then hyp0f1 A A.half (A.divI (A.neg (A.mul x x)) 4)
  else if smallArg A delta then A.mul delta (hyp0f1 A (threeHalf A) (A.divI (A.neg (A.mul delta delta)) 4))
  else
    let scale := decide (A.order x > -4)
    let y := if scale then A.divI x threePow9 else x
    let s := hyp0f1 A A.half (A.divI (A.neg (A.mul y y)) 4)
    if scale then tripleCos A 9 s else s

/-- `ef::sin` (elementary_trig.cpp 26-134). -/
def sin (x : α) : α :=
  if !isfinite A x then A.nan
  else
    let r := reducePi A (fabs A x)
    let y := if A.lt (piHalf A) r.1 then A.sub A.pi r.1 else r.1
    let v := sinCore A y
    if xor (A.isneg x) r.2 then A.neg v else v

/-- `ef::cos` (elementary_trig.cpp 136-245). -/
def cos (x : α) : α :=
  if !isfinite A x then A.nan
  else
    let r := reducePi A (fabs A x)
    let big := A.lt (piHalf A) r.1
    let y := if big then A.sub A.pi r.1 else r.1
    let v := cosCore A y
    if xor r.2 big then A.neg v else v

/-- `ef::tan`, `ef::csc`, `ef::sec`, `ef::cot` (elementary_trig.cpp 253-267). -/
def tan (x : α) : α := A.div (sin A x) (cos A x)
@[inherit_doc tan] def csc (x : α) : α := A.div (one A) (sin A x)
@[inherit_doc tan] def sec (x : α) : α := A.div (one A) (cos A x)
@[inherit_doc tan] def cot (x : α) : α := A.div (cos A x) (sin A x)

/-! ## Inverse trigonometric functions (elementary_trig.cpp) -/

/-- The Newton loops: `digits` starts at `d0` and doubles while it does not exceed `tolerance()`
(elementary_trig.cpp 341-346, 465-470, elementary_trans.cpp 346-355, 62-76).  32 rounds are more than the doublings
of 12 below `2^31`. -/
def digitLoop (f : Int → α → α) : Nat → Int → α → α
  | 0, _, v => v
  | k + 1, d, v => if d ≤ A.tol then digitLoop f k (d * 2) (f d v) else v

/-- Newton step of `asin` (elementary_trig.cpp 343-345). -/
def asinStep (x v : α) : α := A.sub v (A.div (A.sub (sin A v) x) (cos A v))

/-- `ef::asin` (elementary_trig.cpp 269-349). -/
def asin (x : α) : α :=
  if !isfinite A x then A.nan
  else
    let neg := A.isneg x
    let xx := if !neg then x else A.neg x
    if A.lt (one A) xx then A.nan
    else if A.iszero x then zero A
    else if A.isone xx then (if !neg then piHalf A else A.neg (piHalf A))
    else if smallArg A xx then
      let v := A.mul x (hyp2f1 A A.half A.half (threeHalf A) (A.mul x x))
      if !neg then v else A.neg v
    else if nearOne A xx then
      let d := A.sub (one A) xx
      let v := A.sub (piHalf A) (A.mul (A.sqrt (A.mulI d 2)) (hyp2f1 A A.half A.half (threeHalf A) (A.divI d 2)))
      if !neg then v else A.neg v
    else
      let v := digitLoop A (fun _ v => asinStep A xx v) 32 12 (A.asin0 xx)
      if !neg then v else A.neg v

/-- `ef::acos` (elementary_trig.cpp 351-379). -/
def acos (x : α) : α :=
  if !isfinite A x then A.nan
  else
    let neg := A.lt x (zero A)
    let xx := if !neg then x else A.neg x
    if A.lt (one A) xx then A.nan
    else if A.lt xx (one A) then (if A.iszero x then piHalf A else A.sub (piHalf A) (asin A x))
    else (if !neg then zero A else A.pi)

/-- `Atan_Series::AtZero` (elementary_trig.cpp 387-394). -/
def atanZero (x : α) : α := A.mul x (hyp2f1 A (one A) A.half (threeHalf A) (A.neg (A.mul x x)))

/-- `Atan_Series::AtInfinity` (elementary_trig.cpp 396-403). -/
def atanInf (x : α) : α :=
  A.sub (piHalf A) (A.div (hyp2f1 A A.half (one A) (threeHalf A) (A.div (A.neg (one A)) (A.mul x x))) x)

/-- Newton step of `atan` (elementary_trig.cpp 467-469). -/
def atanStep (x v : α) : α := A.add v (A.mul (cos A v) (A.sub (A.mul x (cos A v)) (sin A v)))

/-- `ef::atan` (elementary_trig.cpp 405-473). -/
def atan (x : α) : α :=
  if !isfinite A x then A.nan
  else if A.order x > A.tol then (if !A.isneg x then piHalf A else A.neg (piHalf A))
  else if A.iszero x then zero A
  else if smallArg A x then atanZero A x
  else if largeArg A x then atanInf A x
  else
    let neg := A.isneg x
    let xx := if !neg then x else A.neg x
    let v0 := if A.order x < 2 then A.atan0 xx else atanInf A xx
    let v := digitLoop A (fun _ v => atanStep A xx v) 32 12 v0
    if !neg then v else A.neg v

/-- `ef::atan2` (elementary_trig.cpp 475-520).  Infinite arguments have already been returned. -/
def atan2 (y x : α) : α :=
  if !isfinite A x || !isfinite A y then x
  else if A.iszero y then (if A.isneg x then A.pi else zero A)
  else if A.iszero x then A.mulI (piHalf A) (sgn A y)
  else
    let t := atan A (A.div y x)
    if A.isneg y = A.isneg x then (if A.isneg x then A.sub t A.pi else t)
    else (if A.isneg x then A.add t A.pi else t)

/-! ## Exponential function and logarithm (elementary_trans.cpp) -/

/-- `ef::pow(e_float, int64)` (elementary_trans.cpp 474-505). -/
def powI (b : α) (p : Int) : α := (EFX.powInt (one A) A.mul (fun x => A.div (one A) x) b p).getD A.nan

/-- `ef::pow2` (elementary_trans.cpp 26-33). -/
def pow2 (p : Int) : α :=
  if p < -1 then powI A A.half (-p)
  else if p = -1 then A.half
  else if p = 0 then one A
  else if p = 1 then two A
  else powI A (two A) p

/-- The scaled series of `exp` (elementary_trans.cpp 206-228) for a positive argument. -/
def expCore (x : α) : α :=
  if A.order x > -4 then
    let nf := A.intPart (A.mul x (A.div (one A) A.ln2))
    A.mul (pown A (hyp0f0 A (A.divI (A.sub x (A.mul nf A.ln2)) 2048)) 2048) (pow2 A (A.toI nf))
  else hyp0f0 A x

/-- `ef::exp` (elementary_trans.cpp 157-231). -/
def exp (x : α) : α :=
  if A.isnan x then A.nan
  else if A.isinf x then (if !A.isneg x then A.inf else zero A)
  else if A.iszero x || decide (A.order x < -A.tol) then one A
  else
    let neg := A.isneg x
    let xx := if !neg then x else A.neg x
    if A.lt A.maxExp xx then (if !neg then A.inf else zero A)
    else if A.isint x then pown A A.e (A.toI x)
    else
      let v := expCore A xx
      if !neg then v else A.div (one A) v

/-- `Log_Series::AtOne` (elementary_trans.cpp 235-243), the value of `log(1 + x)`. -/
def logAtOne (x : α) : α := A.mul x (hyp2f1 A (one A) (one A) (two A) (A.neg x))

/-- Newton step of `log` (elementary_trans.cpp 348-354): both numbers get the working precision `2 * digits`. -/
def logStep (x : α) (d : Int) (v : α) : α :=
  let v := A.setPrec v (d * 2)
  let x := A.setPrec x (d * 2)
  A.add v (A.sub (A.mul x (exp A (A.neg v))) (one A))

/-- The Newton part of `log` (elementary_trans.cpp 302-357) for the argument `x`. -/
def logNewton (x xm1 : α) : α :=
  digitLoop A (fun d v => logStep A x d v) 32 14 ((A.log0 x).getD xm1)

/-- `ef::log` (elementary_trans.cpp 246-358). -/
def log (x : α) : α :=
  if A.isnan x || A.isneg x || A.isinf x then A.nan
  else if A.iszero x then A.neg A.inf
  else if A.isone x then zero A
  else
    let xm1 := A.sub x (one A)
    if nearOne A x then logAtOne A xm1
    else if A.order x > 1000 ∨ A.order x < -1000 then
      let negExp := decide (A.order x < 0)
      let delta := (if !negExp then A.order x else -A.order x) - 8
      let xx := if !negExp then A.div x (A.ten delta) else A.mul x (A.ten delta)
      let corr := A.mul A.ln10 (A.ofI delta)
      A.add (logNewton A xx xm1) (if negExp then A.neg corr else corr)
    else logNewton A x xm1

/-- `ef::log10`, `ef::loga`, `ef::log1p` (elementary_trans.cpp 360-362). -/
def log10 (x : α) : α := A.div (log A x) A.ln10
@[inherit_doc log10] def loga (a x : α) : α := A.div (log A x) (log A a)
@[inherit_doc log10] def log1p (x : α) : α := logAtOne A x

/-- The loop of `log1p1m2` (elementary_trans.cpp 388-405): `n` takes the odd numbers below `max_iteration()`. -/
def log1p1m2Loop (x2 : α) : Nat → Int → α → α → α
  | 0, _, _, sum => sum
  | k + 1, n, xn, sum =>
    let xn := A.mul xn x2
    let t := A.divI xn n
    if n > 20 ∧ A.order t - A.order sum < -A.tol then sum
    else log1p1m2Loop x2 k (n + 2) xn (A.add sum t)

/-- `ef::log1p1m2` (elementary_trans.cpp 364-408); 4999 odd numbers from 3 to 9999. -/
def log1p1m2 (x : α) : α :=
  if !isfinite A x then x
  else if A.le x (oneMinus A) || A.le (one A) x then A.nan
  else log1p1m2Loop A (A.mul x x) 4999 3 x x

/-! ## Powers and roots (elementary_trans.cpp) -/

/-- `ef::pow(e_float, e_float)` (elementary_trans.cpp 410-472); the call with the opposite exponent happens at most
once, the fuel counts it. -/
def powF : Nat → α → α → α
  | 0, _, _ => A.nan
  | k + 1, x, a =>
    if !isfinite A x || A.isone a then x
    else if A.iszero x then one A
    else if A.iszero a then one A
    else
      let aint := A.isint a
      if A.isneg x && !aint then A.nan
      else if A.le a (oneMinus A) then A.div (one A) (powF k x (A.neg a))
      else
        let ai := A.intPart a
        let an := A.toI ai
        let da := A.sub a ai
        if aint then pown A x an
        else if !A.isneg x && A.lt (tenth A) x && A.lt x (A.divI (A.ofI 9) 10) then
          if smallArg A a then hyp0f0 A (A.mul a (log A x))
          else if an ≠ 0 then A.mul (hyp1f0 A (A.neg da) (A.sub (one A) x)) (pown A x an)
          else hyp1f0 A (A.neg a) (A.sub (one A) x)
        else if an ≠ 0 then A.mul (exp A (A.mul da (log A x))) (pown A x an)
        else exp A (A.mul a (log A x))

@[inherit_doc powF] def pow (x a : α) : α := powF A 2 x a

/-- `ElementaryTrans_Series::rootn_inv` (elementary_trans.cpp 35-81). -/
def rootnInv (x : α) (p : Int) : α :=
  A.setPrec (digitLoop A (fun d r =>
    let r := A.setPrec r (d * 2 + 10)
    let t := A.add (A.divI (A.add (A.mul (A.neg (pown A r p)) x) (one A)) p) (one A)
    A.mul r (A.setPrec t (d * 2 + 10))) 32 12 (A.rootn0 x p)) A.tol

/-- `ef::rootn` (elementary_trans.cpp 91-124) for `p ≥ 0`. -/
def rootnPos (x : α) (p : Int) : α :=
  if !isfinite A x then A.nan
  else if p = 0 ∨ A.isneg x then A.nan
  else if p = 1 then x
  else if p = 2 then A.sqrt x
  else A.inv (rootnInv A x p)

/-- `ef::rootn` (elementary_trans.cpp 91-124). -/
def rootn (x : α) (p : Int) : α :=
  if !isfinite A x then A.nan
  else if p < 0 then rootnPos A (A.div (one A) x) (-p)
  else rootnPos A x p

/-- `ef::cbrt` (elementary_trans.cpp 86-89). -/
def cbrt (x : α) : α := rootn A x 3

/-- `ef::rootn_inverse` (elementary_trans.cpp 126-155). -/
def rootnInverse (x : α) (p : Int) : α :=
  if !isfinite A x then A.nan
  else if p < 0 then pown A x (-p)
  else if p = 0 ∨ A.isneg x then A.nan
  else if p = 1 then x
  else if p = 2 then A.div (one A) (A.sqrt x)
  else rootnInv A x p

/-! ## Hyperbolic functions (elementary_trans.cpp) -/

/-- `ef::sinhcosh` (elementary_trans.cpp 542-569) with both pointers given, for finite arguments; otherwise the
targets keep their old values. -/
def sinhcosh (x : α) (old : α × α) : α × α :=
  if !isfinite A x then old
  else if A.iszero x then (zero A, one A)
  else
    let p := exp A x
    let m := A.div (one A) p
    (A.divI (A.sub p m) 2, A.divI (A.add p m) 2)

/-- `ef::sinh`, `ef::cosh` (elementary_trans.cpp 508-540); a new `e_float` is zero. -/
def sinh (x : α) : α := if !isfinite A x then x else (sinhcosh A x (zero A, zero A)).1
@[inherit_doc sinh] def cosh (x : α) : α := if !isfinite A x then x else (sinhcosh A x (zero A, zero A)).2

/-- `ef::tanh` (elementary_trans.cpp 571-581). -/
def tanh (x : α) : α := let r := sinhcosh A x (zero A, zero A); A.mul r.1 (A.inv r.2)

/-- `ef::asinh` (elementary_trans.cpp 583-605). -/
def asinh (x : α) : α :=
  if !isfinite A x then A.nan
  else if A.iszero x then zero A
  else
    let v := log A (A.add (fabs A x) (A.sqrt (A.add (A.mul x x) (one A))))
    if !A.isneg x then v else A.neg v

/-- `ef::acosh` (elementary_trans.cpp 607-643). -/
def acosh (x : α) : α :=
  if !isfinite A x then A.nan
  else if A.isneg x || A.lt x (one A) then A.nan
  else if A.isone x then one A
  else
    let d := A.sub x (one A)
    if smallArg A d then
      A.mul (A.mul A.sqrt2 (A.sqrt d)) (hyp2f1 A A.half A.half (threeHalf A) (A.divI (A.neg d) 2))
    else log A (A.add x (A.sqrt (A.sub (A.mul x x) (one A))))

/-- `ef::atanh` (elementary_trans.cpp 645-668); the last sign is taken from the absolute value. -/
def atanh (x : α) : α :=
  if !isfinite A x then x
  else
    let xx := fabs A x
    if A.le (one A) xx then A.nan
    else
      let v := if smallArg A x then log1p1m2 A x
        else A.divI (log A (A.div (A.add (one A) x) (A.sub (one A) x))) 2
      if !A.isneg xx then v else A.neg v

end Fn
end EFX
