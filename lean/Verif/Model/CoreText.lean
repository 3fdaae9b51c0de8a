import Verif.Model.SoftText
/-!
# Floats as text: core's `Display` and `FromStr`
What `self.0.fmt(f)` (codegen/debug_trait.rs:64) prints for `f32`/`f64`, and what `str::parse` (codegen/serde.rs:167, 249) reads. The code is
core's (`core::fmt::float`, `core::num::flt2dec`, `core::num::dec2flt`), not diman's: this models its documented result (shortest digits
that read back, correctly rounded reading), not Grisu and Eisel-Lemire.
-/
namespace Diman

/-- `10^e` as a rational (kernel-friendly). -/
def pow10 (e : Int) : ℚ := if 0 ≤ e then ((10 ^ e.toNat : Nat) : ℚ) else mkRat 1 (10 ^ (-e).toNat)

/-! ## `FromStr` (core::num::dec2flt) -/

/-- The leading ASCII digits and the rest (dec2flt/parse.rs `try_parse_digits`). -/
def spanDigits : Str → List Nat × Str
  | [] => ([], [])
  | c :: cs => match digitVal c with
    | some d => (d :: (spanDigits cs).1, (spanDigits cs).2)
    | none => ([], c :: cs)

/-- The number with the given digits, most significant first. -/
def digitsVal (ds : List Nat) : Nat := ds.foldl (fun a d => a * 10 + d) 0

/-- The exponent's digits, as dec2flt/parse.rs `parse_scientific` accumulates them: no more once the number is `0x10000` or larger. -/
def expDigits (ds : List Nat) : Nat := ds.foldl (fun a d => if a < 0x10000 then a * 10 + d else a) 0

/-- dec2flt/parse.rs `parse_scientific`: what follows `e` or `E`, an optional sign and at least one digit (and nothing else). -/
def readScientific (s : Str) : Option Int :=
  match spanDigits (splitSign s).2 with
  | (d :: ds, []) => some (if (splitSign s).1 then -(expDigits (d :: ds) : Int) else expDigits (d :: ds))
  | _ => none

/-- The fraction: the digits after a point, if there is one, and the rest. -/
def readFraction : Str → List Nat × Str
  | '.' :: cs => spanDigits cs
  | s => ([], s)

/-- The exponent, if there is one. -/
def readExponent : Str → Option Int
  | [] => some 0
  | c :: cs => if c = 'e' ∨ c = 'E' then readScientific cs else none

/-- dec2flt/parse.rs `parse_number`: digits with an optional point, at least one digit, an optional exponent. The exact decimal value. -/
def readNumber (s : Str) : Option ℚ :=
  let i := spanDigits s
  let f := readFraction i.2
  if i.1 ++ f.1 = [] then none
  else (readExponent f.2).map fun e => (digitsVal (i.1 ++ f.1) : ℚ) * pow10 (e - f.1.length)

/-- dec2flt/parse.rs `parse_inf_nan`, without regard to case (`Char.toLower` maps ASCII letters only). -/
def readInfNan (f : Fmt) (neg : Bool) (s : Str) : Option Fl :=
  let l := s.map Char.toLower
  if l = "nan".toList then some .nan
  else if l = "inf".toList ∨ l = "infinity".toList then some (.num neg f.infBits)
  else none

/-- dec2flt/mod.rs `dec2flt`: an optional sign; a number, rounded to the nearest float, or the name of an infinity or NaN. -/
def parseFloat (f : Fmt) (s : Str) : Option Fl :=
  match readNumber (splitSign s).2 with
  | some q => some (.num (splitSign s).1 (f.round q))
  | none => readInfNan f (splitSign s).1 (splitSign s).2

/-! ## `Display` (core::fmt::float, core::num::flt2dec) -/

/-- flt2dec/strategy/dragon.rs `format_shortest`: digit by digit, from decimal position `e` downwards, until the digits generated so far, or
these plus one in the last place, lie in the interval of the numbers that read as the float with bits `n`. If both do, the closer one
(a tie goes up). The `Nat` bounds the number of positions. Result: digits (as a number) and position of the last digit. -/
def shortestFrom (f : Fmt) (n : Nat) : Nat → Int → Nat × Int
  | 0, e => ((f.mag n * pow10 (-e)).floor.toNat, e)
  | fuel + 1, e =>
    let lo := (f.mag n * pow10 (-e)).floor.toNat
    let down := f.round ((lo : ℚ) * pow10 e) = n
    let up := f.round (((lo + 1 : Nat) : ℚ) * pow10 e) = n
    if down ∧ up then (if f.mag n * pow10 (-e) - lo < 1 / 2 then lo else lo + 1, e)
    else if down then (lo, e)
    else if up then (lo + 1, e)
    else shortestFrom f n fuel (e - 1)

/-- The shortest decimal `m · 10^e` that reads as the (finite) float with bits `n`; the search starts left of the integer part. -/
def shortest (f : Fmt) (n : Nat) : Nat × Int :=
  let e := (showNat (f.mag n).floor.toNat).length
  shortestFrom f n ((e : Int) - f.emin).toNat e

/-- flt2dec/mod.rs `digits_to_dec_str` (no minimum number of fractional digits): `m · 10^e` written out without exponent. -/
def decimalText (m : Nat) (e : Int) : Str :=
  let digits := showNat m
  if 0 ≤ e then digits ++ List.replicate e.toNat '0'
  else
    let k := (-e).toNat
    if k < digits.length then digits.take (digits.length - k) ++ '.' :: digits.drop (digits.length - k)
    else '0' :: '.' :: (List.replicate (k - digits.length) '0' ++ digits)

/-- fmt/float.rs `Display for f32/f64` without flags; flt2dec/mod.rs `determine_sign` (`Sign::Minus`: a minus for negative numbers and
negative zero, none for NaN). -/
def showFloat (f : Fmt) : Fl → Str
  | .nan => "NaN".toList
  | .num neg n =>
    (if neg then ['-'] else []) ++
      (if f.isInf n then "inf".toList else if n = 0 then ['0'] else decimalText (shortest f n).1 (shortest f n).2)

/-- core's text of floats. -/
def coreText : FloatText where
  showF t := showFloat t.fmt
  parseF t := parseFloat t.fmt

end Diman
