import Verif.SpecText
/-!
# Specification vocabulary for the text of complex numbers

The texts that the complex reader takes for a number: optional sign, digits, any number of points, digits, then an
exponent field made of an optional letter, an optional sign and digits.  A mantissa or an exponent that is present
has a digit.
-/

namespace EFX.Spec

/-- Text of an optional exponent letter (`true` for the capital). -/
def letterText : Option Bool → List Char
  | none => []
  | some true => ['E']
  | some false => ['e']

/-- The parts of a loosely written number. -/
structure LooseNum where
  sign : Option Bool
  ip : List Char
  points : ℕ
  fp : List Char
  letter : Option Bool
  esign : Option Bool
  ed : List Char

/-- The mantissa text. -/
def LooseNum.mant (t : LooseNum) : List Char := signText t.sign ++ t.ip ++ List.replicate t.points '.' ++ t.fp
/-- The exponent text. -/
def LooseNum.expo (t : LooseNum) : List Char := letterText t.letter ++ signText t.esign ++ t.ed
/-- The text. -/
def LooseNum.text (t : LooseNum) : List Char := t.mant ++ t.expo

/-- Only digits where digits belong, and a digit in every part that is present. -/
structure LooseNum.Valid (t : LooseNum) : Prop where
  di : IsDigits t.ip
  df : IsDigits t.fp
  de : IsDigits t.ed
  md : t.mant ≠ [] → t.ip ++ t.fp ≠ []
  xd : t.expo ≠ [] → t.ed ≠ []

/-- A loosely written number. -/
def Loose (u : List Char) : Prop := ∃ t : LooseNum, t.Valid ∧ t.text = u

end EFX.Spec
