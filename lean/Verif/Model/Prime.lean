import Mathlib.Data.Nat.Sqrt
/-!
# Generation of primes and factorisation (functions/integer/prime.cpp, functions/integer/prime_factor.cpp)

`std::uint32_t` arithmetic is arithmetic modulo `2^32`.  A `std::vector<bool>` is a function on indices together with
its length; an access outside of the vector is `none`.  Loops without a bound take `fuel` rounds; `none` also stands
for a loop that is not finished after `fuel` rounds, the theorems about non-termination are for every `fuel`.
-/

namespace EFX

/-- Wrap-around of `std::uint32_t`. -/
def u32 (x : Nat) : Nat := x % 4294967296

/-- Inner loop of the sieve (functions/integer/prime.cpp 73-76):
`for(j = i2; j < limit; j = (uint32_t)(j + i)) sieve[j] = true`. -/
def crossLoop (limit i : Nat) : Nat → Nat → (Nat → Bool) → Option (Nat → Bool)
  | 0, _, _ => none
  | fuel + 1, j, s =>
    if j < limit then crossLoop limit i fuel (u32 (j + i)) (fun k => if k = j then true else s k) else some s

/-- Outer loop of the sieve (functions/integer/prime.cpp 69-80); `f` is the fuel of the inner loop. -/
def sieveLoop (limit f : Nat) : Nat → Nat → (Nat → Bool) → Option (Nat → Bool)
  | 0, _, _ => none
  | fuel + 1, i, s =>
    if u32 (i * i) < limit then
      if i < limit then
        (if s i = false then crossLoop limit i f (u32 (i * i)) s else some s).bind (sieveLoop limit f fuel (u32 (i + 1)))
      else none
    else some s

/-- `std::deque::resize(n, 0)`. -/
def resizeZero (n : Nat) (l : List Nat) : List Nat := l.take n ++ List.replicate (n - l.length) 0

/-- `Primes::Generator` (functions/integer/prime.cpp 45-92).  `nlim` is the limit computed in `double` arithmetic with
two logarithms (lines 55-61), a parameter here.  The insertion (lines 84-89) visits the vector from index 2 on. -/
def generator (fuel n nlim : Nat) : Option (List Nat) :=
  let limit := max n nlim
  if limit < 2 then none
  else (sieveLoop limit fuel fuel 2 (fun _ => false)).map
    fun s => resizeZero n ((List.range' 2 (limit - 2)).filter (fun k => !s k))

/-- `Primes::Data` (functions/integer/prime.cpp 94-113). -/
def primesData (fuel nlim : Nat) : Option (List Nat) := generator fuel 6550 nlim

/-- `ef::prime` (functions/integer/prime.cpp 116-132); `nlimD` and `nlim` are the limits used for the table and for
`n`. -/
def primeFn (fuel nlimD nlim n : Nat) : Option (List Nat) :=
  (primesData fuel nlimD).bind fun d => if n < d.length then some (d.take n) else generator fuel n nlim

/-- `IsPrimeFactor` in a loop (functions/integer/prime_factor.cpp 21-35, 56-59): divides `np` by `p` while it is
divisible and counts.  `none`: division by zero, or more than `fuel` rounds. -/
def divideOut (p : Nat) : Nat → Nat → Nat → Option (Nat × Nat)
  | 0, _, _ => none
  | fuel + 1, np, e =>
    if p = 0 then none
    else
      let q := np / p
      let r := np - u32 (q * p)
      if r = 0 then divideOut p fuel q (e + 1) else some (np, e)

/-- `sqrt_n = (uint32_t)(uint64_t)(::sqrt((double)n) + 0.5)` (functions/integer/prime_factor.cpp 44): the square root
rounded to the nearest integer.  Simplification: in exact arithmetic, `floor(sqrt n + 1/2) = floor((floor(sqrt(4n)) + 1) / 2)`;
for an integer below `2^32` the square root differs from a number with half by at least `2^-19`, `double` arithmetic
gives the same integer. -/
def roundSqrt (n : Nat) : Nat := (Nat.sqrt (4 * n) + 1) / 2

/-- Loop of `Primes::Factors` over the table (functions/integer/prime_factor.cpp 48-83); `pf` is the list filled so
far. -/
def factorsLoop (sqrtN : Nat) : List Nat → Nat → List (Nat × Nat) → Option (List (Nat × Nat))
  | [], _, pf => some pf
  | p :: rest, np, pf =>
    (divideOut p 33 np 0).bind fun (np, e) =>
      let pf := if e = 0 then pf else pf ++ [(p, e)]
      if np / p ≤ p then some (pf ++ [(np, 1)])
      else if np = 1 ∨ p ≥ sqrtN then some pf
      else factorsLoop sqrtN rest np pf

/-- `Primes::Factors` (functions/integer/prime_factor.cpp 37-84). -/
def factors (data : List Nat) (n : Nat) : Option (List (Nat × Nat)) := factorsLoop (roundSqrt n) data n []

/-- The table of the first 10000 factorisations (functions/integer/prime_factor.cpp 97-123): entries `i ..` for the
remaining part `next` of the table of primes, starting with `it_next_prime`; the table is given as a list of `count`
entries. -/
def factorsTable (data : List Nat) : Nat → Nat → List Nat → Option (List (List (Nat × Nat)))
  | 0, _, _ => some []
  | count + 1, i, next =>
    if next.head? = some i then (factorsTable data count (i + 1) next.tail).map ([(i, 1)] :: ·)
    else (factors data i).bind fun l => (factorsTable data count (i + 1) next).map (l :: ·)

/-- `ef::prime_factors` (functions/integer/prime_factor.cpp 87-130). -/
def primeFactors (data : List Nat) (n : Nat) : Option (List (Nat × Nat)) :=
  if n < 10000 then
    (factorsTable data 9996 4 (data.dropWhile (· ≠ 5))).bind fun t =>
      ([[(0, 1)], [(1, 1)], [(2, 1)], [(3, 1)]] ++ t)[n]?
  else factors data n

end EFX
