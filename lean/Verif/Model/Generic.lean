import Verif.Model.Double
/-!
# The generic elementary functions (generic_functions/elementary, generic_functions/constants)

Templates over a number type `T`.  The model is written over a record `Gen` of the operations of `T` and of the
operations on `double` and on streams that the templates use.  The specialisations for `float`, `double` and `e_float`
forward to other functions; where a template calls another one that has specialisations (`sqrt<T>`, `rootn<T>`, `pi<T>`,
`ln2<T>`), the callee is a parameter.
-/

namespace EFX

/-- The operations used by the generic functions. -/
structure Gen (α : Type) where
  /-- `operator+`, `operator-`, `operator*`, `operator/` of `T` -/
  add : α → α → α
  sub : α → α → α
  mul : α → α → α
  div : α → α → α
  /-- unary minus -/
  neg : α → α
  /-- product with and quotient by a `std::int32_t` -/
  mulI : α → Int → α
  divI : α → Int → α
  /-- conversion from a built-in integer -/
  ofI : Int → α
  /-- `operator<` -/
  lt : α → α → Bool
  /-- `std::numeric_limits<T>::min()`, `epsilon()`, `quiet_NaN()`, `digits10` -/
  minv : α
  eps : α
  nan : α
  digits10 : Int
  /-- `frexp10` for nonzero arguments (generic_functions_elementary.h 56-98): text with 17 digits, cut into mantissa and
  exponent, the mantissa read as a `double` -/
  frexp : α → Rat × Int
  /-- the constructor of `T` from the text of a `double` with 16 digits, `'E'` and an exponent -/
  ofText : Rat → Int → α
  /-- `sqrt(double)`, quotient of doubles, `pow(double, double)` -/
  dsqrt : Rat → Rat
  ddiv : Rat → Rat → Rat
  dpow : Rat → Rat → Rat

namespace Gf
variable {α : Type} (G : Gen α)

/-- `isneg` (generic_functions_elementary.h 34). -/
def isneg (x : α) : Bool := G.lt x (G.ofI 0)
/-- `fabs` (generic_functions_elementary.h 35). -/
def fabs (x : α) : α := if isneg G x then G.neg x else x
/-- `iszero` (generic_functions_elementary.h 36). -/
def iszero (x : α) : Bool := G.lt (fabs G x) (G.mulI G.minv 2)
/-- `isone` (generic_functions_elementary.h 37). -/
def isone (x : α) : Bool := iszero G (G.sub (G.ofI 1) x)

/-- Squaring loop of `pown` (generic_functions_elementary.h 133-136) from the state `n`, `value`. -/
def dblLoop (mul : α → α → α) (p n : ℕ) (v : α) : ℕ × α :=
  if _h : 0 < n ∧ n ≤ p / 2 then dblLoop mul p (2 * n) (mul v v) else (n, v)
termination_by p - n
decreasing_by omega

theorem le_dblLoop (mul : α → α → α) (p n : ℕ) (v : α) : n ≤ (dblLoop mul p n v).1 := by
  unfold dblLoop
  split
  · rename_i h
    have := le_dblLoop mul p (2 * n) (mul v v)
    omega
  · exact le_refl _
termination_by p - n
decreasing_by omega

/-- `pown` for non-negative exponents (generic_functions_elementary.h 111-147). -/
def pownNat (one : α) (mul : α → α → α) (t : α) (p : ℕ) : α :=
  if p = 0 then one
  else if p = 1 then t
  else if p = 2 then mul t t
  else if p = 3 then mul (mul t t) t
  else if p = 4 then let t2 := mul t t; mul t2 t2
  else
    let r := dblLoop mul p 1 t
    if p - r.1 = 0 then r.2 else mul r.2 (pownNat one mul t (p - r.1))
termination_by p
decreasing_by
  have := le_dblLoop mul p 1 t
  omega

/-- `pown` (generic_functions_elementary.h 100-148) for a 64-bit exponent; `none` is the overflow of `-p`. -/
def pown (t : α) (p : Int) : Option α :=
  if p < 0 then
    if p = -9223372036854775808 then none else some (G.div (G.ofI 1) (pownNat (G.ofI 1) G.mul t p.natAbs))
  else some (pownNat (G.ofI 1) G.mul t p.natAbs)

/-- The estimates of the square root `s` and of `1/(2 s)` (generic_functions_elementary.h 162-195). -/
def sqrtStart (x : α) : α × α :=
  let f := G.frexp x
  let ne := if Int.tmod f.2 2 ≠ 0 then f.2 + 1 else f.2
  let dd := if Int.tmod f.2 2 ≠ 0 then G.ddiv f.1 10 else f.1
  let sqd := G.dsqrt dd
  (G.ofText sqd (Int.tdiv ne 2), G.ofText (G.ddiv (1 / 2) sqd) (Int.tdiv (-ne) 2))

/-- The coupled iteration (generic_functions_elementary.h 199-206) from the state `digits`, `result`, `vi`.  The fuel 32
exceeds the number of rounds, `digits` doubles and `digits10` is an `int`. -/
def sqrtLoop (x : α) : Nat → Int → α → α → α
  | 0, _, r, _ => r
  | fuel + 1, digits, r, v =>
    if digits ≤ G.digits10 then
      let v1 := G.add v (G.mul v (G.add (G.neg (G.mulI (G.mul r v) 2)) (G.ofI 1)))
      let r1 := G.add r (G.mul v1 (G.add (G.neg (G.mul r r)) x))
      sqrtLoop x fuel (digits * 2) r1 v1
    else r

/-- `sqrt<T>` (generic_functions_elementary.h 150-209); `isfinite` is always true (38). -/
def sqrt (x : α) : α :=
  if isneg G x then G.nan
  else if iszero G x || isone G x then x
  else
    let s := sqrtStart G x
    sqrtLoop G x 32 14 s.1 s.2

/-- `while(ne % p) { ++ne; dd /= 10.0; }` (generic_functions_elementary.h 246-250); it ends before `p` rounds. -/
def alignRoot (p : Int) : Nat → Rat → Int → Rat × Int
  | 0, dd, ne => (dd, ne)
  | fuel + 1, dd, ne => if Int.tmod ne p ≠ 0 then alignRoot p fuel (G.ddiv dd 10) (ne + 1) else (dd, ne)

/-- The estimate of the reciprocal root (generic_functions_elementary.h 242-264). -/
def rootStart (x : α) (p : Int) : α :=
  let f := G.frexp x
  let a := alignRoot G p p.toNat f.1 f.2
  G.ofText (G.dpow a.1 (G.ddiv (-1) p)) (Int.tdiv (-a.2) p)

/-- The iteration for the reciprocal root (generic_functions_elementary.h 268-273). -/
def rootLoop (x : α) (p : Int) : Nat → Int → α → α
  | 0, _, r => r
  | fuel + 1, digits, r =>
    if digits ≤ G.digits10 then
      let w := pownNat (G.ofI 1) G.mul r p.natAbs
      let term := G.add (G.divI (G.add (G.mul (G.neg w) x) (G.ofI 1)) p) (G.ofI 1)
      rootLoop x p fuel (digits * 2) (G.mul r term)
    else r

/-- `rootn<T>` for non-negative index (generic_functions_elementary.h 224-276); `sq` is `sqrt<T>`. -/
def rootnPos (sq : α → α) (x : α) (p : Int) : α :=
  if p = 0 ∨ isneg G x = true then G.nan
  else if p = 1 then x
  else if p = 2 then sq x
  else G.div (G.ofI 1) (rootLoop G x p 32 14 (rootStart G x p))

/-- `rootn<T>` (generic_functions_elementary.h 211-276); `none` is the overflow of `-p`. -/
def rootn (sq : α → α) (x : α) (p : Int) : Option α :=
  if p < 0 then
    if p = -2147483648 then none else some (rootnPos G sq (G.div (G.ofI 1) x) (-p))
  else some (rootnPos G sq x p)

/-- `small_arg` (generic_functions_elementary.h 278-284); `rt` is `rootn<T>`. -/
def smallArg (rt : α → Int → α) (x : α) : Bool := G.lt (fabs G x) (rt G.eps 6)

/-- `static_cast<std::int32_t>(1.7 * static_cast<double>(digits10))` (generic_functions_elementary.h 306,
generic_functions_constants.h 112). -/
def bits : Int := (rnd (rnd (17 / 10) * rnd (G.digits10 : Rat))).floor

/-- The loop of the arithmetic-geometric mean (generic_functions_elementary.h 311-327, generic_functions_constants.h
119-136) with the variables `ak`, `bk`; the result is `ak` after the loop. -/
def agmLoop (sq : α → α) : Nat → Nat → α → α → α
  | 0, _, a, _ => a
  | fuel + 1, k, a, b =>
    let a1 := G.divI (G.add a b) 2
    let b1 := sq (G.mul b a)
    if 4 < k ∧ G.lt (fabs G (G.sub a1 b1)) G.minv = true then a1 else agmLoop sq fuel (k + 1) a1 b1

/-- `log<T>` (generic_functions_elementary.h 286-345); `sq`, `pi`, `ln2` are `sqrt<T>`, `pi<T>()`, `ln2<T>()`. -/
def log (sq : α → α) (pi ln2 x : α) : α :=
  if iszero G x || isneg G x then G.nan
  else if isone G x then G.ofI 0
  else
    let bneg := G.lt x (G.ofI 1)
    let xx := if bneg then G.div (G.ofI 1) x else x
    let b0 := G.div (G.ofI 4) (G.mul xx (pownNat (G.ofI 1) G.mul (G.ofI 2) (bits G).toNat))
    let ak := agmLoop G sq 64 0 (G.ofI 1) b0
    let val := G.sub (G.div pi (G.mulI ak 2)) (G.mulI ln2 (bits G))
    if bneg then G.neg val else val

/-- `ln2<T>()` (generic_functions_constants.h 95-150); `none` is the overflow of `2 * m`. -/
def ln2 (sq : α → α) (pi : α) : Option α :=
  let b0 := G.div (G.ofI 4) (pownNat (G.ofI 1) G.mul (G.ofI 2) (bits G).toNat)
  let ak := agmLoop G sq 64 0 (G.ofI 1) b0
  if 2 * bits G > 2147483647 then none else some (G.div pi (G.mulI ak (2 * bits G)))

/-- The exponent that `frexp10` delivers (generic_functions_elementary.h 56-98): the text of zero does not match the
regular expression, and the exponent stays zero. -/
def frexpExp (isz : α → Bool) (x : α) : Int := if isz x then 0 else (G.frexp x).2

/-- The loop of `pi<T>()` (generic_functions_constants.h 56-89) with the variables `a`, `bB`, `s`, `t`; the result is
`val`, `bB`, `s` after the loop; `none` is the shift `1U << k` by 32 and more.  The conversion of `1U << 31` to
`std::int32_t` and of the exponent to `int` wrap. -/
def piLoop (sq : α → α) (isz : α → Bool) : Nat → Nat → α → α → α → α → α → Option (α × α × α)
  | 0, _, _, b, s, _, v => some (v, b, s)
  | fuel + 1, k, a, b, s, t, _ =>
    if 32 ≤ k then none
    else
      let b1 := sq b
      let a1 := G.divI (G.add a b1) 2
      let v1 := G.mul a1 a1
      let b2 := G.mulI (G.sub v1 t) 2
      let it := G.mulI (G.sub b2 v1) (Int.bmod ((2 ^ k : Nat) : Int) 4294967296)
      let s1 := G.add s it
      if Int.bmod (frexpExp G isz it) 4294967296 < Int.tdiv (-G.digits10) 2 then some (v1, b2, s1)
      else piLoop sq isz fuel (k + 1) a1 b2 s1 (G.divI (G.add v1 b2) 4) v1

/-- `pi<T>()` (generic_functions_constants.h 39-93).  A new `T` is zero. -/
def pi (sq : α → α) (isz : α → Bool) : Option α :=
  let b := G.divI (G.ofI 1) 2
  (piLoop G sq isz 63 1 (G.ofI 1) b b (G.divI (G.ofI 3) 8) (G.ofI 0)).map fun r => G.div (G.add r.1 r.2.1) r.2.2

end Gf

/-- `rootn<float>`, `rootn<double>`, `rootn<long double>` (generic_functions_elementary.h 45-47): they call `pow(x, p)`;
`pw` is the function of the C library. -/
def rootnBuiltin {α : Type} (pw : α → α → α) (ofI : Int → α) (x : α) (p : Int) : α := pw x (ofI p)

end EFX
