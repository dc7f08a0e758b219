import Verif.Model.Text
import Verif.Model.Complex
/-!
# Reading and writing complex numbers as text

`operator>>` and `operator<<` of `complex<e_float>` (e_float/e_float_complex.h 1892-2053).

The regular expressions of the code are sequences of character classes with a least and a greatest count; the matcher
below is the backtracking matcher of the C++ standard for such sequences: at every class the greatest count is tried
first, and `regex_match` must reach the end of the text.

The input stream is a string stream (modelled part of the C++ library): the characters already read, the characters
to come, the three error flags, and whether the buffer may be written (`std::stringstream`) or not
(`std::istringstream`).  Simplifications: no exception mask, field width of the input stream is zero, `skipws` is set,
the locale is "C", and the stream that receives the two parts works.
-/

namespace EFX.CTxt

/-- One class of characters with its least and its greatest count. -/
structure Piece where
  cls : Char → Bool
  lo : Nat
  hi : Option Nat

/-- White space of the "C" locale. -/
def isSpace (ch : Char) : Bool :=
  ch == ' ' || ch == '\t' || ch == '\n' || ch == '\r' || ch == '\x0b' || ch == '\x0c'

/-- The classes of e_float_complex.h 1898-1919: `[\+\-]{0,1}`. -/
def pSign : Piece := ⟨fun ch => ch == '+' || ch == '-', 0, some 1⟩
/-- `[0-9]*`. -/
def pDigits : Piece := ⟨isDig, 0, none⟩
/-- `\.*`. -/
def pDots : Piece := ⟨fun ch => ch == '.', 0, none⟩
/-- `[eE]{0,1}`. -/
def pExp : Piece := ⟨fun ch => ch == 'e' || ch == 'E', 0, some 1⟩
/-- One given character, `\({1}`, `\,{1}`, `\){1}`. -/
def pChar (k : Char) : Piece := ⟨fun ch => ch == k, 1, some 1⟩

/-- Tries the counts `n`, `n - 1`, … down to `lo`. -/
def tryDown {β : Type} (f : Nat → Option β) (lo : Nat) : Nat → Option β
  | 0 => if lo = 0 then f 0 else none
  | n + 1 => if lo ≤ n + 1 then (f (n + 1)).orElse (fun _ => tryDown f lo n) else none

/-- The greatest count of a class at the start of a text. -/
def Piece.run (p : Piece) (s : Str) : Nat :=
  let n := (s.takeWhile p.cls).length
  match p.hi with
  | none => n
  | some m => min n m

/-- `std::regex_match` for a sequence of classes: the texts matched by the classes, in the order of priority of the
backtracking matcher. -/
def matchSeq : List Piece → Str → Option (List Str)
  | [], s => if s = [] then some [] else none
  | p :: ps, s => tryDown (fun k => (matchSeq ps (s.drop k)).map (fun g => s.take k :: g)) p.lo (p.run s)

/-- The mantissa group (four classes) and the exponent group (three classes). -/
def num : List Piece := [pSign, pDigits, pDots, pDigits, pExp, pSign, pDigits]

/-- The expression of the form `(u,v)` (e_float_complex.h 1900-1907). -/
def rxPair : List Piece := pChar '(' :: num ++ pChar ',' :: num ++ [pChar ')']
/-- The expression of the form `(u)` (e_float_complex.h 1909-1914). -/
def rxParen : List Piece := pChar '(' :: num ++ [pChar ')']
/-- The expression of the form `u` (e_float_complex.h 1916-1918). -/
def rxPlain : List Piece := num

/-- The group that consists of the classes `i, …, i + n - 1`. -/
def group (g : List Str) (i n : Nat) : Str := ((g.drop i).take n).flatten

/-- A group that is not empty and has no digit (e_float_complex.h 1959-1962, 1999-2000). -/
def hasError (s : Str) : Bool := s.length ≠ 0 && !(s.any isDig)

/-- The two texts handed to the reader of numbers, if the input is accepted (e_float_complex.h 1929-2013): search of
the first expression that matches, check of the groups.  `none` for the imaginary part: no text, the part is zero. -/
def accept (s : Str) : Option (Str × Option Str) :=
  match matchSeq rxPair s with
  | some g =>
    let s1 := group g 1 4
    let s2 := group g 5 3
    let s3 := group g 9 4
    let s4 := group g 13 3
    if hasError s1 || hasError s2 || hasError s3 || hasError s4 then none else some (s1 ++ s2, some (s3 ++ s4))
  | none =>
    match matchSeq rxParen s with
    | some g =>
      let s1 := group g 1 4
      let s2 := group g 5 3
      if hasError s1 || hasError s2 then none else some (s1 ++ s2, none)
    | none =>
      match matchSeq rxPlain s with
      | some g =>
        let s1 := group g 0 4
        let s2 := group g 4 3
        if hasError s1 || hasError s2 then none else some (s1 ++ s2, none)
      | none => none

/-- A string stream: characters already read (last one first), characters to come, flags. -/
structure IStr where
  done : Str
  rest : Str
  eof : Bool
  fail : Bool
  bad : Bool
  writable : Bool
deriving Repr, DecidableEq

/-- `stream >> string` of the C++ library: the sentry skips white space, then a word is read. -/
def extractWord (st : IStr) : Str × IStr :=
  if st.eof || st.fail || st.bad then ([], { st with fail := true })
  else
    let ws := st.rest.takeWhile isSpace
    let r := st.rest.dropWhile isSpace
    if r = [] then ([], { st with done := ws.reverse ++ st.done, rest := [], eof := true, fail := true })
    else
      let w := r.takeWhile (fun ch => !isSpace ch)
      let r' := r.dropWhile (fun ch => !isSpace ch)
      (w, { st with done := w.reverse ++ (ws.reverse ++ st.done), rest := r', eof := decide (r' = []) })

/-- `stream.putback(ch)` of the C++ library: clears `eofbit`; does nothing but set `failbit` if another flag is set;
steps back if `ch` is the character read last, overwrites that character if the buffer is writable, and sets `badbit`
otherwise. -/
def putback (st : IStr) (ch : Char) : IStr :=
  let st := { st with eof := false }
  if st.fail || st.bad then { st with fail := true }
  else
    match st.done with
    | [] => { st with bad := true }
    | d :: ds => if d = ch ∨ st.writable = true then { st with done := ds, rest := ch :: st.rest } else { st with bad := true }

/-- `operator>>` (e_float_complex.h 1893-2035): new value of the complex variable and new state of the stream.  Outer
`none`: reading one of the numbers fails (see `Model/Text`). -/
def readComplex (c : Cfg) (st : IStr) (z : Cx EFloat) : Option (Cx EFloat × IStr) :=
  let (s, st) := extractWord st
  match accept s with
  | none => some (z, { s.foldl putback st with fail := true })
  | some (u, v) => do
    let re ← rdString c (ofUnsigned c 0) u
    let im ← match v with
      | some v => rdString c (ofUnsigned c 0) v
      | none => some (ofUnsigned c 0)
    pure (⟨re, im⟩, st)

/-- `ostream << string` of the C++ library: padding to the field width. -/
def putString (f : Fmt) (s : Str) : Str :=
  let w := f.width.toNat
  if w > s.length then
    (if f.left then s ++ List.replicate (w - s.length) f.fill else List.replicate (w - s.length) f.fill ++ s)
  else s

/-- `operator<<` (e_float_complex.h 2037-2053): the parts are written to a stream with the same flags and precision,
without field width. -/
def writeComplex (c : Cfg) (z : Cx EFloat) (f : Fmt) : Option Str := do
  let a ← wrString c z.re { f with width := 0, fill := ' ' }
  let b ← wrString c z.im { f with width := 0, fill := ' ' }
  pure (putString f ('(' :: a ++ ',' :: b ++ [')']))

end EFX.CTxt
