import Verif.Model.Gamma
import Verif.Model.Prime
import Verif.Model.Double
/-!
# The zeta function of real arguments (functions/zeta/zeta.cpp, utility/util_power_j_pow_x.cpp)

Written over the record `Arith`, as the gamma function.  Simplifications: the map of the integer logarithms
(util_power_j_pow_x.cpp 20-38) holds what `ef::log` gives, so `logn(n)` is `log(n)`; `std::map` is a list of pairs; the values of
`std::log10` and `to_double` are fields of the record `ZEnv`, the other operations of type `double` are rounded by `rnd`.
`none` is an undefined operation: a signed overflow or an index outside a table.
-/

namespace EFX

/-- What the zeta function takes from outside. -/
structure ZEnv (α : Type) where
  /-- the tables -/
  tab : Tab α
  /-- the table of primes (`Primes::Data`, prime.cpp 94-113) -/
  data : List Nat
  /-- `std::numeric_limits<e_float>::digits10` -/
  digits : Nat
  /-- `to_double` -/
  toD : α → Rat
  /-- `log10(2.0)` (zeta.cpp 249) -/
  lg2 : Rat
  /-- `log10` of the last of 300 primes (zeta.cpp 140) -/
  lgp : Rat

namespace Fn
variable {α : Type} (A : Arith α) (Z : ZEnv α)

/-- Power of a prime, not in the map (util_power_j_pow_x.cpp 64-86). -/
def primePow (n : Nat) (x : α) : α :=
  if A.isint x && A.lt x (A.ofI 9223372036854775807) && A.lt (A.ofI (-9223372036854775808)) x then pown A (A.ofI n) (A.toI x)
  else exp A (A.mul x (log A (A.ofI n)))

/-- Power expansion (util_power_j_pow_x.cpp 93-100). -/
def powExp (v : α) (p : Nat) : α :=
  if p = 1 then v
  else if p = 2 then A.mul v v
  else if p = 3 then A.mul v (A.mul v v)
  else A.mul v (pown A v ((p : Int) - 1))

/-- Loop over the factors (util_power_j_pow_x.cpp 54-103): the power and the map. -/
def jPowLoop (x : α) : List (Nat × Nat) → List (Nat × α) → α → α × List (Nat × α)
  | [], m, v => (v, m)
  | (n, p) :: l, m, v =>
    match m.lookup n with
    | some w => jPowLoop x l m (A.mul v (powExp A w p))
    | none => let w := primePow A n x; jPowLoop x l ((n, w) :: m) (A.mul v (powExp A w p))

/-- `Util::j_pow_x` (util_power_j_pow_x.cpp 40-106). -/
def jPowX (j : Nat) (x : α) (m : List (Nat × α)) : Option (α × List (Nat × α)) := do
  let pf ← primeFactors Z.data j
  some (jPowLoop A x pf m (one A))

/-- `has_simple_form_for_zeta_n` (zeta.cpp 23-44). -/
def hasSimple (n : Int) : Bool :=
  decide (n < 2 * (bernMax Z.tab : Int)) && ((decide (0 ≤ n) && decide (n % 2 = 0)) || decide (n < 0))

/-- The test whether zeta differs from one (zeta.cpp 244-259). -/
def zetaIsOne (n : Int) : Bool := decide (1 < n) && decide (rnd (rnd n * Z.lg2) > A.tol)

/-- The representation by Bernoulli numbers (zeta.cpp 267-292).  The branch for `n = 1` is never taken. -/
def zetaSimple (n : Int) : Option α :=
  if n = 0 then some (A.neg A.half)
  else if n = 1 then some A.inf
  else if n = 2 then some (A.divI (A.mul A.pi A.pi) 6)
  else if n = 4 then some (A.divI (A.mul (A.mul A.pi A.pi) (A.mul A.pi A.pi)) 90)
  else if n < 0 then
    if n ≤ -2147483647 then none
    else if n % 2 = 0 then some (zero A)
    else do
      let b ← bernoulli A Z.tab (-n + 1).toNat
      some (A.divI (A.neg b) (-n + 1))
  else do
    let b ← bernoulli A Z.tab n.toNat
    let f ← factorial A Z.tab n.toNat
    some (A.divI (A.div (A.mul (pown A (twoPi A) n) (fabs A b)) f) 2)

/-- The product over the primes (zeta.cpp 146-161). -/
def primeProd (s : α) : List Nat → List (Nat × α) → α → Option α
  | [], _, v => some v
  | p :: l, m, v => do
    let r ← jPowX A Z p s m
    let v := A.mul v (A.div r.1 (A.sub r.1 (one A)))
    if A.order (fabs A r.1) > A.tol then some v else primeProd s l r.2 v

/-- `N` for a real argument (zeta.cpp 187-191). -/
def zetaN : Nat := (rnd (rnd (Z.digits : Nat) * rnd (29 / 20))).floor.toNat

/-- Loop of the alternating series (zeta.cpp 207-233), `j` from `k - 1` to zero: `dn` and `zs`. -/
def zetaLoop (N : Nat) (s : α) : Nat → Bool → α → α → α → α → α → α → List (Nat × α) → Option (α × α)
  | 0, _, _, _, _, _, dn, zs, _ => some (dn, zs)
  | j + 1, neg, nf, fp, nm, tj, dn, zs, m => do
    let c : Int := (2 * (j : Int) + 1) * (2 * (if j ≠ 0 then (j : Int) else 1))
    if c ≥ 2147483648 then none
    else
      let nf := A.divI nf ((N : Int) + j)
      let fp := A.divI fp 4
      let nm := A.mulI nm ((N : Int) - j)
      let tj := A.divI tj c
      let dn := A.add dn (A.div (A.mul nf fp) (A.mul nm tj))
      if j ≠ 0 then do
        let r ← jPowX A Z j s m
        let neg := !neg
        zetaLoop N s j neg nf fp nm tj dn (A.add zs (A.div (if !neg then dn else A.neg dn) r.1)) r.2
      else zetaLoop N s j neg nf fp nm tj dn zs m

/-- The alternating series (zeta.cpp 192-237) after `N` is known. -/
def zetaAlt (N : Nat) (s : α) : Option α := do
  let neg := decide (N % 2 = 0)
  let nf ← factorial A Z.tab (2 * N - 1)
  let fp := pown A (A.ofI 4) N
  let nm := one A
  let tj := A.mulI nf (2 * (N : Int))
  let dn := A.div (A.mul nf fp) (A.mul nm tj)
  let r ← jPowX A Z N s []
  let d ← zetaLoop A Z N s N neg nf fp nm tj dn (A.div (if !neg then dn else A.neg dn) r.1) r.2
  some (A.div d.2 (A.mul d.1 (A.sub (one A) (pow A (two A) (A.sub (one A) s)))))

/-- The test for the product over the primes (zeta.cpp 140-144); a quotient by zero is infinite. -/
def usePrimes (s : α) : Bool := decide (Z.toD s ≠ 0) && decide (rnd (A.tol / Z.toD s) < Z.lgp)

/-- `to_int32` (elementary_math.cpp 144-152). -/
def toI32 (x : α) : Int := min (max (A.toI x) (-2147483648)) 2147483647

/-- `ZetaTemplate` (zeta.cpp 68-239) and `Reflection` (zeta.cpp 47-66) for real arguments.  The reflection calls the function
once more, with a positive argument. -/
def zetaF : Nat → α → Option α
  | 0, _ => none
  | k + 1, s =>
    if A.isint s && hasSimple Z (toI32 A s) then
      if zetaIsOne A Z (toI32 A s) then some (one A) else zetaSimple A Z (toI32 A s)
    else if A.isneg s then do
      let t := A.div (pow A (twoPi A) s) A.pi
      let g ← gamma A Z.tab (A.sub (one A) s)
      let chi := A.mul (A.mul t (sin A (A.mul (A.divI A.pi 2) s))) g
      let z ← zetaF k (A.sub (one A) s)
      some (A.mul chi z)
    else if usePrimes A Z s then primeProd A Z s (Z.data.take 300) [] (one A)
    else zetaAlt A Z (zetaN Z) s

/-- `ef::riemann_zeta(const e_float&)` (zeta.cpp 296-306). -/
def zeta (s : α) : Option α := zetaF A Z 2 s

/-- `ef::riemann_zeta(std::int32_t)` (zeta.cpp 242-294). -/
def zetaInt (n : Int) : Option α :=
  if zetaIsOne A Z n then some (one A)
  else if !hasSimple Z n then zeta A Z (A.ofI n)
  else zetaSimple A Z n

end Fn
end EFX
