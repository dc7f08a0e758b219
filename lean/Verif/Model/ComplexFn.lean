import Verif.Model.Zeta
import Verif.Model.Complex
/-!
# Complex functions (e_float/e_float_complex.h, functions/gamma, functions/zeta)

The operations of `ef::complex<e_float>` that the special functions use, and the gamma and zeta functions of complex
arguments, over the record `Arith` like the real versions.  A real value returned as a complex one has the imaginary part zero
(e_float_complex.h 1425-1427).  `none` is an undefined operation, as in `Model/Gamma` and `Model/Zeta`.
-/

namespace EFX.FnC
variable {α : Type} (A : Arith α)

/-- The real number as a complex one (e_float_complex.h, constructor from `e_float`). -/
def ofR (x : α) : Cx α := ⟨x, Fn.zero A⟩

/-- Unary minus (e_float_complex.h 1648). -/
def neg (z : Cx α) : Cx α := ⟨A.neg z.re, A.neg z.im⟩

/-- `operator+`, `operator+=` (e_float_complex.h 1487-1493, 1651). -/
def add (u v : Cx α) : Cx α := ⟨A.add u.re v.re, A.add u.im v.im⟩

/-- `operator-`, `operator-=` (e_float_complex.h 1495-1511, 1652), different objects. -/
def sub (u v : Cx α) : Cx α := ⟨A.sub u.re v.re, A.sub u.im v.im⟩

/-- `operator*`, `operator*=` (e_float_complex.h 1513-1530, 1653), different objects. -/
def mul (u v : Cx α) : Cx α :=
  ⟨A.sub (A.mul u.re v.re) (A.mul u.im v.im), A.add (A.mul u.re v.im) (A.mul u.im v.re)⟩

/-- `z *= z` (e_float_complex.h 1518-1522). -/
def mulSelf (u : Cx α) : Cx α := ⟨A.sub (A.mul u.re u.re) (A.mul u.im u.im), A.mulI (A.mul u.re u.im) 2⟩

/-- `norm` (e_float_complex.h 1686). -/
def norm (z : Cx α) : α := A.add (A.mul z.re z.re) (A.mul z.im z.im)

/-- `abs` (e_float_complex.h 1684). -/
def abs (z : Cx α) : α := A.sqrt (norm A z)

/-- `operator/`, `operator/=` (e_float_complex.h 1532-1553, 1654), different objects. -/
def div (u v : Cx α) : Cx α :=
  let d := A.inv (norm A v)
  ⟨A.mul (A.add (A.mul u.re v.re) (A.mul u.im v.im)) d, A.mul (A.sub (A.mul u.im v.re) (A.mul u.re v.im)) d⟩

/-- Operations with a real number on the right (e_float_complex.h 1446-1474, 1657-1660). -/
def addR (u : Cx α) (x : α) : Cx α := ⟨A.add u.re x, u.im⟩
@[inherit_doc addR] def subR (u : Cx α) (x : α) : Cx α := ⟨A.sub u.re x, u.im⟩
@[inherit_doc addR] def mulR (u : Cx α) (x : α) : Cx α := ⟨A.mul u.re x, A.mul u.im x⟩
@[inherit_doc addR] def divR (u : Cx α) (x : α) : Cx α := ⟨A.div u.re x, A.div u.im x⟩

/-- Operations with a real number on the left (e_float_complex.h 1663-1672). -/
def rSub (x : α) (v : Cx α) : Cx α := ⟨A.sub x v.re, A.neg v.im⟩
@[inherit_doc rSub] def rMul (x : α) (v : Cx α) : Cx α := ⟨A.mul v.re x, A.mul v.im x⟩
@[inherit_doc rSub] def rDiv (x : α) (v : Cx α) : Cx α :=
  let n := norm A v
  ⟨A.div (A.mul x v.re) n, A.div (A.neg (A.mul x v.im)) n⟩

/-- `exp` (e_float_complex.h 1771-1777). -/
def exp (z : Cx α) : Cx α := mulR A ⟨Fn.cos A z.im, Fn.sin A z.im⟩ (Fn.exp A z.re)

/-- `log` (e_float_complex.h 1779-1788). -/
def log (z : Cx α) : Cx α := ⟨A.divI (Fn.log A (norm A z)) 2, Fn.atan2 A z.im z.re⟩

/-- `sin` (e_float_complex.h 1815-1823). -/
def sin (z : Cx α) : Cx α :=
  ⟨A.mul (Fn.sin A z.re) (Fn.cosh A z.im), A.mul (Fn.cos A z.re) (Fn.sinh A z.im)⟩

/-- `pow` of a real base and a complex exponent (e_float_complex.h 1810-1813). -/
def rPow (x : α) (a : Cx α) : Cx α := exp A (mulR A a (Fn.log A x))

/-! ## Gamma function -/

variable (T : Tab α)

/-- `std::accumulate` with `coefficient_expansion(xx, xx)` (gamma.cpp 130-133, util_coefficient_expansion.h 19-34). -/
def coefSum (x : Cx α) : List α → Cx α → Cx α → Cx α
  | [], _, sum => sum
  | c :: l, p, sum => coefSum x l (mul A p x) (add A sum (rMul A c p))

/-- Loop of the Bernoulli series (gamma.cpp 155-169) with complex terms, with the fuel for `n2 < max_iteration()`. -/
def gammaLoop (r2 : Cx α) : Nat → Nat → Cx α → Cx α → Option (Cx α)
  | 0, _, _, sum => some sum
  | fuel + 1, n2, r, sum => do
    let r := mul A r r2
    let b ← Fn.bernoulli A T n2
    let term := divR A (rMul A b r) (A.ofI ((n2 : Int) * ((n2 : Int) - 1)))
    if n2 > 20 ∧ A.order (abs A term) - A.order (abs A sum) < -A.tol then some sum
    else gammaLoop r2 fuel (n2 + 2) r (add A sum term)

/-- Downward recursion (gamma.cpp 176-181). -/
def gammaDown : Nat → Cx α → Cx α → Cx α × Cx α
  | 0, x, g => (x, g)
  | k + 1, x, g => let x := subR A x (A.ofI 1); gammaDown k x (div A g x)

/-- The exponent of the expansion (gamma.cpp 173). -/
def stirArg (x sum : Cx α) : Cx α :=
  add A (addR A (sub A (mul A (subR A x A.half) (log A x)) x) (Fn.halfLnTwoPi A)) sum

/-- The expansion for a scaled argument (gamma.cpp 151-173). -/
def gammaStir (x : Cx α) : Option (Cx α) := do
  let r := rDiv A (Fn.one A) x
  let r2 := mul A r r
  let b ← Fn.bernoulli A T 2
  let sum ← gammaLoop A T r2 4998 4 r (rMul A (A.divI b 2) r)
  some (exp A (stirArg A x sum))

/-- An argument with a real part that is not negative: the argument and the value, as the variables `xx` and `G`
(gamma.cpp 122-182). -/
def gammaPos (x : Cx α) : Option (Cx α × Cx α) :=
  if Fn.smallArg A (abs A x) then some (x, rDiv A (Fn.one A) (coefSum A x T.rgam x (ofR A (Fn.zero A))))
  else do
    let n := Fn.nRecur A T x.re
    let xx := addR A x (A.ofI n)
    let g ← gammaStir A T xx
    some (gammaDown A n.toNat xx g)

/-- The reflection (gamma.cpp 185). -/
def gammaRefl (x g : Cx α) : Cx α := rDiv A (A.neg A.pi) (mul A (mul A x g) (sin A (rMul A A.pi x)))

/-- `GammaTemplate::gamma` for complex arguments (gamma.cpp 66-186). -/
def gammaT (z : Cx α) : Option (Cx α) :=
  if !Fn.isfinite A z.re then some z
  else
    let neg' := A.isneg z.re
    if A.isint z.re && (neg' || A.iszero z.re) then some (ofR A A.nan)
    else if A.isint z.re && decide ((A.toI z.re).toNat < T.a142.length) then do
      let f ← Fn.factorial A T ((A.toI z.re - 1) % 4294967296).toNat
      some (ofR A f)
    else do
      let r ← gammaPos A T (if !neg' then z else neg A z)
      some (if !neg' then r.2 else gammaRefl A r.1 r.2)

/-- `ef::gamma` for complex arguments (gamma.cpp 227-237). -/
def gamma (z : Cx α) : Option (Cx α) :=
  if A.iszero z.im then do let g ← Fn.gamma A T z.re; some (ofR A g) else gammaT A T z

/-- Loop of `Pochhammer_Template` (pochhammer.cpp 42-47). -/
def pochLoop : Nat → Cx α → Cx α → Cx α
  | 0, _, val => val
  | k + 1, term, val => let term := addR A term (A.ofI 1); pochLoop k term (mul A val term)

/-- `ef::pochhammer(z, n)` (pochhammer.cpp 17-59, 66-69). -/
def pochhammer (z : Cx α) (n : Nat) : Option (Cx α) :=
  if n = 0 then some (ofR A (Fn.one A))
  else if n = 1 then some z
  else if n < 50 then some (pochLoop A (n - 1) z z)
  else do
    let p ← gamma A T (addR A z (A.ofI n))
    let q ← gamma A T z
    some (div A p q)

/-- `ef::pochhammer(z, a)` (pochhammer.cpp 76-79). -/
def pochhammerR (z a : Cx α) : Option (Cx α) := do
  let p ← gamma A T (add A z a)
  let q ← gamma A T z
  some (div A p q)

/-! ## Zeta function -/

variable (Z : ZEnv α)

/-- The integer power of a complex number (detail/e_float_detail_pown_template.h 26-65).  Simplification: `tn *= tn` is
written with `mul`, the same number in exact arithmetic. -/
def pown (z : Cx α) (p : Int) : Cx α := (EFX.pown (ofR A (Fn.one A)) (mul A) (div A) z p).getD (ofR A A.nan)

/-- Power of a prime, not in the map (util_power_j_pow_x.cpp 64-86), for an exponent that is not real. -/
def primePow (n : Nat) (s : Cx α) : Cx α := exp A (mulR A s (Fn.log A (A.ofI n)))

/-- Power expansion (util_power_j_pow_x.cpp 93-100). -/
def powExp (v : Cx α) (p : Nat) : Cx α :=
  if p = 1 then v
  else if p = 2 then mulSelf A v
  else if p = 3 then mul A v (mul A v v)
  else mul A v (pown A v ((p : Int) - 1))

/-- Loop over the factors (util_power_j_pow_x.cpp 54-103): the power and the map. -/
def jPowLoop (s : Cx α) : List (Nat × Nat) → List (Nat × Cx α) → Cx α → Cx α × List (Nat × Cx α)
  | [], m, v => (v, m)
  | (n, p) :: l, m, v =>
    match m.lookup n with
    | some w => jPowLoop s l m (mul A v (powExp A w p))
    | none => let w := primePow A n s; jPowLoop s l ((n, w) :: m) (mul A v (powExp A w p))

/-- `Util::j_pow_x` (util_power_j_pow_x.cpp 40-106). -/
def jPowX (j : Nat) (s : Cx α) (m : List (Nat × Cx α)) : Option (Cx α × List (Nat × Cx α)) := do
  let pf ← primeFactors Z.data j
  some (jPowLoop A s pf m (ofR A (Fn.one A)))

/-- `N` (zeta.cpp 187-191). -/
def zetaN (s : Cx α) : Nat :=
  (rnd (rnd (rnd (Z.digits : Nat) * rnd (29 / 20)) + rnd (rnd (11 / 10) * |Z.toD s.im|))).floor.toNat

/-- Loop of the alternating series (zeta.cpp 207-233), `j` from `k - 1` to zero: `dn` and `zs`. -/
def zetaLoop (N : Nat) (s : Cx α) : Nat → Bool → α → α → α → α → α → Cx α → List (Nat × Cx α) → Option (α × Cx α)
  | 0, _, _, _, _, _, dn, zs, _ => some (dn, zs)
  | j + 1, neg', nf, fp, nm, tj, dn, zs, m => do
    let c : Int := (2 * (j : Int) + 1) * (2 * (if j ≠ 0 then (j : Int) else 1))
    if c ≥ 2147483648 then none
    else
      let nf := A.divI nf ((N : Int) + j)
      let fp := A.divI fp 4
      let nm := A.mulI nm ((N : Int) - j)
      let tj := A.divI tj c
      let dn := A.add dn (A.div (A.mul nf fp) (A.mul nm tj))
      if j ≠ 0 then do
        let r ← jPowX A Z j s m
        let neg' := !neg'
        zetaLoop N s j neg' nf fp nm tj dn (add A zs (div A (ofR A (if !neg' then dn else A.neg dn)) r.1)) r.2
      else zetaLoop N s j neg' nf fp nm tj dn zs m

/-- The alternating series (zeta.cpp 192-237) after `N` is known. -/
def zetaAlt (N : Nat) (s : Cx α) : Option (Cx α) := do
  let neg' := decide (N % 2 = 0)
  let nf ← Fn.factorial A Z.tab (2 * N - 1)
  let fp := Fn.pown A (A.ofI 4) N
  let nm := Fn.one A
  let tj := A.mulI nf (2 * (N : Int))
  let dn := A.div (A.mul nf fp) (A.mul nm tj)
  let r ← jPowX A Z N s []
  let d ← zetaLoop A Z N s N neg' nf fp nm tj dn (div A (ofR A (if !neg' then dn else A.neg dn)) r.1) r.2
  some (div A d.2 (rMul A d.1 (rSub A (Fn.one A) (rPow A (Fn.two A) (rSub A (Fn.one A) s)))))

/-- `ZetaTemplate` (zeta.cpp 68-239) and `Reflection` (zeta.cpp 47-66) for arguments that are not real.  The reflection calls
the function once more, with a positive real part. -/
def zetaT : Nat → Cx α → Option (Cx α)
  | 0, _ => none
  | k + 1, s =>
    if A.isneg s.re then do
      let t := divR A (rPow A (Fn.twoPi A) s) A.pi
      let g ← gamma A Z.tab (rSub A (Fn.one A) s)
      let chi := mul A (mul A t (sin A (rMul A (A.divI A.pi 2) s))) g
      let z ← zetaT k (rSub A (Fn.one A) s)
      some (mul A chi z)
    else if A.lt (A.ofI 1000100) (Fn.fabs A s.im) then some (ofR A A.nan)
    else zetaAlt A Z (zetaN Z s) s

/-- `ef::riemann_zeta` for complex arguments (zeta.cpp 308-318). -/
def zeta (s : Cx α) : Option (Cx α) :=
  if A.iszero s.im then do let z ← Fn.zeta A Z s.re; some (ofR A z) else zetaT A Z 2 s

end EFX.FnC
