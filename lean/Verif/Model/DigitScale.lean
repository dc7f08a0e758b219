import Verif.Model.Double
/-!
# The scale of the digits (utility/util_digit_scale.cpp, functions/gamma/gamma.cpp 138)

`digits10` is the number of decimal digits of the configuration.  All numbers here are doubles.
-/

namespace EFX

/-- `linear_interpolate<double>::interpolate` (utility/util_interpolate.h 24-56) with the rounding of double.  The model of
C49 (`interpolate`) is the same function in exact arithmetic; the same simplification of `std::lower_bound`. -/
def interpD (x : Rat) (points : List (Rat × Rat)) : Option Rat :=
  match points with
  | [] => some 0
  | p :: rest =>
    if x ≤ p.1 ∨ rest = [] then some p.2
    else
      let b := (p :: rest).getLast (List.cons_ne_nil _ _)
      if x ≥ b.1 then some b.2
      else
        let i := (p :: rest).findIdx (fun q => !decide (q.1 < x))
        match (p :: rest)[i - 1]?, (p :: rest)[i]? with
        | some a, some q =>
          if i = 0 then none
          else
            let dx := rnd (x - a.1)
            let dy := rnd (q.2 - a.2)
            let w := rnd (q.1 - a.1)
            some (rnd (a.2 + rnd (rnd (dx * dy) / w)))
        | _, _ => none

/-- `scale_data` (utility/util_digit_scale.cpp 19-25). -/
def scaleData : List (Rat × Rat) := [(50, rnd (1 / 6)), (100, rnd (1 / 3)), (200, rnd (1 / 2)), (300, 1)]

/-- `Util::DigitScale` (utility/util_digit_scale.cpp 17-33) for a number of digits. -/
def digitScale (digits10 : Nat) : Option Rat := interpD (rnd digits10) scaleData

/-- `min_arg_n` (functions/gamma/gamma.cpp 138). -/
def minArgN (digits10 : Nat) : Option Int := (digitScale digits10).map fun s => (rnd (240 * s)).floor

end EFX
