import Verif.Model.Special
/-!
# Gamma function and relatives (functions/gamma, functions/integer/bernoulli_b.cpp)

The functions are written over the record `Arith`.  The tables of functions/tables and the coefficients of gamma.cpp are
fields of the record `Tab`, with their entries as numbers; they are called by their number in the encyclopedia of sequences,
as in the code.  The hooks `i_have_my_own_…` are all false (base.h 177-199) and left out.  `none` is an undefined operation:
an index outside a table or a signed overflow.
-/

namespace EFX

/-- The tables of the special functions. -/
structure Tab (α : Type) where
  /-- factorials (A000142.cpp) -/
  a142 : List α
  /-- double factorials (A006882.cpp) -/
  a6882 : List α
  /-- numerators of the Bernoulli numbers of even index (A000367.cpp) -/
  a367 : List α
  /-- denominators of the Bernoulli numbers of even index (A002445.cpp) -/
  a2445 : List α
  /-- rows of Pascal's triangle (A007318.cpp) -/
  a7318 : List (List α)
  /-- coefficients of `1 / gamma` at zero (gamma.cpp 26-61) -/
  rgam : List α
  /-- `min_arg_n` (gamma.cpp 138) -/
  minArg : Int

namespace Fn
variable {α : Type} (A : Arith α) (T : Tab α)

/-- `ef::two_pi()` (constants.cpp 161). -/
def twoPi : α := A.mulI A.pi 2

/-- `half_ln_two_pi` (factorial.cpp 61, gamma.cpp 171). -/
def halfLnTwoPi : α := A.divI (log A (twoPi A)) 2

/-- The smaller size of the two tables of the Bernoulli numbers (factorial.cpp 33-35, bernoulli_b.cpp 26-28). -/
def bernMax : Nat := min T.a367.length T.a2445.length

/-- Bernoulli number of index `2 * k` from the tables (factorial.cpp 28-29, 48-49, bernoulli_b.cpp 34). -/
def bernTab (k : Nat) : Option α := do
  let p ← T.a367[k]?
  let q ← T.a2445[k]?
  some (A.div p q)

/-- Loop of `Factorial_Series::AtInfinity` (factorial.cpp 41-59), with the fuel `sz_max - k`. -/
def factLoop (r2 : α) : Nat → Nat → α → α → Option α
  | 0, _, _, sum => some sum
  | fuel + 1, k, r, sum => do
    let r := A.mul r r2
    let b ← bernTab A T k
    let term := A.divI (A.divI (A.mul b r) (2 * (k : Int))) (2 * (k : Int) - 1)
    if A.order term < -A.tol then some sum else factLoop r2 fuel (k + 1) r (A.add sum term)

/-- The part of the logarithm of the gamma function that has a closed form, plus a sum (factorial.cpp 63, gamma.cpp 173). -/
def stirArg (x sum : α) : α :=
  A.add (A.add (A.sub (A.mul (A.sub x A.half) (log A x)) x) (halfLnTwoPi A)) sum

/-- `Factorial_Series::AtInfinity` (factorial.cpp 22-64). -/
def factInf (n : Nat) : Option α := do
  let x := A.ofI n
  let r := A.div (one A) x
  let r2 := A.mul r r
  let b2 ← bernTab A T 1
  let sum ← factLoop A T r2 (bernMax T - 2) 2 r (A.divI (A.mul b2 r) 2)
  some (exp A (stirArg A x sum))

/-- `ef::factorial` (factorial.cpp 66-70); `n` and `n + 1` have 32 bits without sign. -/
def factorial (n : Nat) : Option α :=
  if n < T.a142.length then T.a142[n]? else factInf A T ((n + 1) % 4294967296)

/-- `ef::binomial(n, k)` (factorial.cpp 72-93). -/
def binomial (n k : Nat) : Option α :=
  if k > n then some A.nan
  else if k = n then some (one A)
  else if n < T.a7318.length then T.a7318[n]?.bind fun row => row[k]?
  else do
    let a ← factorial A T n
    let b ← factorial A T k
    let c ← factorial A T (n - k)
    some (A.div a (A.mul b c))

/-- Loop of `ef::bernoulli` (bernoulli_b.cpp 47-58), with the fuel `max_iteration() - k`. -/
def bernLoop (n : Nat) : Nat → Nat → α → α
  | 0, _, sum => sum
  | fuel + 1, k, sum =>
    let term := pown A (A.divI (one A) k) n
    if A.order term < -A.tol then sum else bernLoop n fuel (k + 1) (A.add sum term)

/-- `ef::bernoulli` (bernoulli_b.cpp 18-68). -/
def bernoulli (n : Nat) : Option α :=
  if n % 2 ≠ 0 then some (if n = 1 then A.neg A.half else zero A)
  else if n / 2 < bernMax T then bernTab A T (n / 2)
  else do
    let sum := bernLoop A n 9998 2 (one A)
    let f ← factorial A T n
    let b := A.mul sum (A.mulI (A.div f (pown A (twoPi A) n)) 2)
    some (if n / 2 % 2 = 0 then A.neg b else b)

/-- `std::accumulate` with `coefficient_expansion(x, x)` (gamma.cpp 130-133, util_coefficient_expansion.h 19-34). -/
def coefSum (x : α) : List α → α → α → α
  | [], _, sum => sum
  | c :: l, p, sum => coefSum x l (A.mul p x) (A.add sum (A.mul c p))

/-- Loop of the Bernoulli series (gamma.cpp 155-169), with the fuel for `n2 < max_iteration()`. -/
def gammaLoop (r2 : α) : Nat → Nat → α → α → Option α
  | 0, _, _, sum => some sum
  | fuel + 1, n2, r, sum => do
    let r := A.mul r r2
    let b ← bernoulli A T n2
    let term := A.div (A.mul b r) (A.ofI ((n2 : Int) * ((n2 : Int) - 1)))
    if n2 > 20 ∧ A.order (fabs A term) - A.order (fabs A sum) < -A.tol then some sum
    else gammaLoop r2 fuel (n2 + 2) r (A.add sum term)

/-- Downward recursion (gamma.cpp 176-181). -/
def gammaDown : Nat → α → α → α × α
  | 0, x, g => (x, g)
  | k + 1, x, g => let x := A.sub x (A.ofI 1); gammaDown k x (A.div g x)

/-- `n_recur` (gamma.cpp 143-145). -/
def nRecur (x : α) : Int := if A.lt x (A.ofI T.minArg) then T.minArg - A.toI x + 1 else 0

/-- The expansion for a scaled argument (gamma.cpp 151-173). -/
def gammaStir (x : α) : Option α := do
  let r := A.div (one A) x
  let r2 := A.mul r r
  let b ← bernoulli A T 2
  let sum ← gammaLoop A T r2 4998 4 r (A.mul (A.divI b 2) r)
  some (exp A (stirArg A x sum))

/-- Gamma function of a positive argument: the argument and the value, as the variables `xx` and `G` (gamma.cpp 122-182). -/
def gammaPos (x : α) : Option (α × α) :=
  if smallArg A (fabs A x) then some (x, A.div (one A) (coefSum A x T.rgam x (zero A)))
  else do
    let n := nRecur A T x
    let xx := A.add x (A.ofI n)
    let g ← gammaStir A T xx
    some (gammaDown A n.toNat xx g)

/-- The reflection (gamma.cpp 185, gamma_util.cpp 23). -/
def gammaRefl (x g : α) : α := A.div (A.neg A.pi) (A.mul (A.mul x g) (sin A (A.mul A.pi x)))

/-- `ef::gamma` for `e_float` (gamma.cpp 66-186, 215-225).  `to_int64` of a positive integer is not negative. -/
def gamma (x : α) : Option α :=
  if !isfinite A x then some x
  else
    let neg := A.isneg x
    if A.isint x && (neg || A.iszero x) then some A.nan
    else if A.isint x && decide ((A.toI x).toNat < T.a142.length) then
      factorial A T ((A.toI x - 1) % 4294967296).toNat
    else do
      let r ← gammaPos A T (if !neg then x else A.neg x)
      some (if !neg then r.2 else gammaRefl A r.1 r.2)

/-- `ef::gamma_near_n` (gamma.cpp 188-212, 239-242). -/
def gammaNearN (n : Int) (x : α) : Option α :=
  if n ≥ 0 then gamma A T (A.add (A.ofI n) x)
  else if n = -2147483648 then none
  else do
    let nn := -n
    let g ← gamma A T (A.add (A.sub (A.ofI nn) x) (one A))
    let r := A.div A.pi (A.mul g (sin A (A.mul A.pi x)))
    some (if nn % 2 ≠ 0 then A.neg r else r)

/-- `GammaUtil::GammaOfPlusXMinusX` (gamma_util.cpp 15-27): `gamma_plus_x` and `gamma_minus_x`. -/
def gammaPM (x : α) : Option (α × α) := do
  let a := fabs A x
  let g ← gamma A T a
  let h := gammaRefl A a g
  some (if A.isneg x then (h, g) else (g, h))

/-- Loop of `Pochhammer_Template` (pochhammer.cpp 42-47). -/
def pochLoop : Nat → α → α → α
  | 0, _, val => val
  | k + 1, term, val => let term := A.add term (A.ofI 1); pochLoop k term (A.mul val term)

/-- `ef::pochhammer(x, n)` (pochhammer.cpp 17-64). -/
def pochhammer (x : α) (n : Nat) : Option α :=
  if n = 0 then some (one A)
  else if n = 1 then some x
  else if n < 50 then some (pochLoop A (n - 1) x x)
  else do
    let p ← gamma A T (A.add x (A.ofI n))
    let q ← gamma A T x
    some (A.div p q)

/-- `ef::pochhammer(x, a)` (pochhammer.cpp 71-74). -/
def pochhammerR (x a : α) : Option α := do
  let p ← gamma A T (A.add x a)
  let q ← gamma A T x
  some (A.div p q)

/-- `ef::binomial(n, y)` (factorial.cpp 95-98). -/
def binomialNR (n : Nat) (y : α) : Option α := do
  let a ← factorial A T n
  let b ← gamma A T (A.add y (one A))
  let c ← gamma A T (A.add (A.sub (A.ofI n) y) (one A))
  some (A.div a (A.mul b c))

/-- `ef::binomial(x, k)` (factorial.cpp 100-103). -/
def binomialRN (x : α) (k : Nat) : Option α := do
  let a ← gamma A T (A.add x (one A))
  let b ← factorial A T k
  let c ← gamma A T (A.add (A.sub x (A.ofI k)) (one A))
  some (A.div a (A.mul b c))

/-- `ef::binomial(x, y)` (factorial.cpp 105-108). -/
def binomialRR (x y : α) : Option α := do
  let a ← gamma A T (A.add x (one A))
  let b ← gamma A T (A.add y (one A))
  let c ← gamma A T (A.add (A.sub x y) (one A))
  some (A.div a (A.mul b c))

/-- `ef::factorial2` for an argument that is not negative (factorial2.cpp 42-46), with `AtInfinity` (factorial2.cpp 20-36).
The odd case calls the even case once. -/
def factorial2Even (n : Nat) : Option α :=
  if n < T.a6882.length then T.a6882[n]?
  else do
    let f ← factorial A T (n / 2)
    some (A.mul (pow2 A (n / 2 : Nat)) f)

@[inherit_doc factorial2Even]
def factorial2Pos (n : Nat) : Option α :=
  if n < T.a6882.length then T.a6882[n]?
  else if n % 2 = 0 then factorial2Even A T n
  else if 2147483648 ≤ n + 1 then none
  else do
    let f ← factorial A T (n + 1)
    let g ← factorial2Even A T (n + 1)
    some (A.div f g)

/-- `ef::factorial2` (factorial2.cpp 38-72); `n` has 32 bits with sign. -/
def factorial2 (n : Int) : Option α :=
  if n ≥ 0 then factorial2Pos A T n.toNat
  else if n = -1 then some (one A)
  else if n = -2147483648 then none
  else
    let nn := -n
    if nn % 2 = 0 then some A.nan
    else do
      let f ← factorial2Pos A T (nn - 2).toNat
      let f2 := A.div (one A) f
      some (if (nn - 1) / 2 % 2 ≠ 0 then A.neg f2 else f2)

end Fn
end EFX
