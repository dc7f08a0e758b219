import Verif.Spec
/-!
# Specification vocabulary for decimal text

Decimal literals, their text and the number they denote, independently of how the reader and the writer work.
-/

namespace EFX.Spec

/-- The ten digits. -/
def digitChars : List Char := ['0', '1', '2', '3', '4', '5', '6', '7', '8', '9']

/-- Only decimal digits. -/
def IsDigits (s : List Char) : Prop := ∀ ch ∈ s, ch ∈ digitChars

instance (s : List Char) : Decidable (IsDigits s) := by unfold IsDigits; infer_instance

/-- The natural number written by a string of digits, first digit most significant. -/
def number : List Char → ℕ
  | [] => 0
  | ch :: s => digitChars.idxOf ch * 10 ^ s.length + number s

/-- Text of an optional sign. -/
def signText : Option Bool → List Char
  | none => []
  | some true => ['-']
  | some false => ['+']

/-- A decimal literal: optional sign (`true` for minus), digits, optional point and fraction, optional exponent
(capital letter or not, optional sign, digits). -/
structure Lit where
  sign : Option Bool
  ip : List Char
  fp : Option (List Char)
  ex : Option (Bool × Option Bool × List Char)

/-- The text of a literal. -/
def Lit.text (t : Lit) : List Char :=
  signText t.sign ++ t.ip ++ (match t.fp with | none => [] | some f => '.' :: f) ++
    (match t.ex with | none => [] | some (up, sg, d) => (if up then 'E' else 'e') :: (signText sg ++ d))

/-- The fraction digits. -/
def Lit.frac (t : Lit) : List Char := t.fp.getD []

/-- The exponent. -/
def Lit.expo (t : Lit) : ℤ :=
  match t.ex with
  | none => 0
  | some (_, sg, d) => if sg = some true then -(number d : ℤ) else number d

/-- The number denoted, without the sign. -/
def Lit.absValue (t : Lit) : ℚ :=
  ((number t.ip : ℚ) + (number t.frac : ℚ) / (10 : ℚ) ^ t.frac.length) * (10 : ℚ) ^ t.expo

/-- The number denoted. -/
def Lit.value (t : Lit) : ℚ := if t.sign = some true then -t.absValue else t.absValue

/-- Valid literals: only digits, at least one digit before or after the point, at least one exponent digit. -/
structure Lit.Valid (t : Lit) : Prop where
  di : IsDigits t.ip
  df : IsDigits t.frac
  some_digit : t.ip ++ t.frac ≠ []
  dx : ∀ up sg d, t.ex = some (up, sg, d) → IsDigits d ∧ d ≠ []

/-- The limits of the text handled: shorter than 2^31 characters less a margin (the reader counts positions with 32
bits), exponent below 2^62 (the reader counts exponents with 64 bits). -/
structure Lit.Small (t : Lit) : Prop where
  len : t.text.length < 2147483600
  exp : |t.expo| < 4611686018427387904

/-- A number with at most `n` significant decimal digits. -/
def SigDigits (n : ℕ) (q : ℚ) : Prop := ∃ (m : ℕ) (k : ℤ), m < 10 ^ n ∧ |q| = (m : ℚ) * (10 : ℚ) ^ k

/-- `q > 0` with leading digit of weight `10^o`, rounded to `n` significant digits, ties away from zero. -/
def roundSig (n : ℕ) (o : ℤ) (q : ℚ) : ℚ := (⌊q * (10 : ℚ) ^ ((n : ℤ) - 1 - o) + 1 / 2⌋ : ℤ) * (10 : ℚ) ^ (o - ((n : ℤ) - 1))

end EFX.Spec
