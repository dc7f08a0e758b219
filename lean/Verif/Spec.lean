import Verif.Model.Basic
import Mathlib.Algebra.Order.Field.Rat
import Mathlib.Algebra.Order.Field.Power
import Mathlib.Data.Rat.Floor
/-!
# Specification vocabulary

What an `e_float` object *means*, independently of how any operation computes.
-/

namespace EFX.Spec

open EFX

/-- The number written by base-10^8 digits `d₀ d₁ d₂ ...` whose first digit has weight `10^e`:
`Σ dᵢ * 10^(e - 8 i)`. -/
def digitsValue : Int → List Nat → ℚ
  | _, [] => 0
  | e, d :: ds => (d : ℚ) * (10 : ℚ) ^ e + digitsValue (e - 8) ds

/-- Magnitude of the number stored in the fields of an object. -/
def mag (x : EFloat) : ℚ := digitsValue x.exp x.data

/-- The rational number stored in the fields of an object (meaningful when it is finite). -/
def val (x : EFloat) : ℚ := if x.neg then -mag x else mag x

/-- Extended numbers. -/
inductive Ext where
  | nan
  | inf (neg : Bool)
  | fin (q : ℚ)

/-- The extended number an object denotes. -/
def denote (x : EFloat) : Ext :=
  match x.cls with
  | .nan => .nan
  | .inf => .inf x.neg
  | .finite => .fin (val x)

/-- Well-formed objects: the representation every public operation keeps.
A finite object with a zero leading limb is zero, has only zero limbs and is not negative. -/
structure WF (c : Cfg) (x : EFloat) : Prop where
  len : x.data.length = c.elems
  limb : ∀ d ∈ x.data, d < 100000000
  exp8 : (8 : Int) ∣ x.exp
  prec_lo : 2 ≤ x.prec
  prec_hi : x.prec ≤ c.elems
  norm : x.cls = .finite → x.data.headD 0 = 0 → (∀ d ∈ x.data, d = 0) ∧ x.neg = false

/-- A finite well-formed object. -/
structure FinWF (c : Cfg) (x : EFloat) : Prop extends WF c x where
  fin : x.cls = .finite

/-- Weight of the last limb of an object: `10^(exp - 8 (N - 1))`. -/
def ulp (c : Cfg) (x : EFloat) : ℚ := (10 : ℚ) ^ (x.exp - 8 * ((c.elems : Int) - 1))

/-- Cutting a rational toward zero to a multiple of `g`. -/
def chop (g q : ℚ) : ℚ := if q < 0 then -((⌊-q / g⌋ : ℤ) * g) else (⌊q / g⌋ : ℤ) * g

/-- `z` is the rational `q` cut toward zero to the storage format of configuration `c`: `z` has the
sign of `q`, does not exceed it in magnitude, and no valid finite object lies strictly between. -/
structure IsTrunc (c : Cfg) (z : EFloat) (q : ℚ) : Prop where
  fin : FinWF c z
  sign : 0 ≤ val z * q
  le : |val z| ≤ |q|
  greatest : ∀ w, FinWF c w → |val w| ≤ |q| → |val w| ≤ |val z|

/-- `(-1)^neg`. -/
def sgnQ (neg : Bool) : ℚ := if neg then -1 else 1

end EFX.Spec
