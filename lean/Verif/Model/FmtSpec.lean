import Verif.Model.CoreText
/-!
# Debug output with format options
`{:.2?}`, `{:10?}`, `{:+?}` and so on. The generated `Debug` hands its formatter to the `Display` of the stored number
(crates/diman_unit_system/src/codegen/debug_trait.rs:64 `self.0.fmt(f)?`), which obeys the options, and writes the unit with a format string of its own
(debug_trait.rs:66, 83, 86 `write!(f, " {}", ...)`), which does not. What core does with the options (`core::fmt::Formatter::pad_formatted_parts`,
`core::fmt::float`, `core::num::flt2dec`) is modelled by its documented result. Left out: the flags `0`, `#` and `x?`. glam 0.24's vectors write their
components with `write!(f, "[{}, {}]", ...)`, ignoring all options.
-/
namespace Diman

/-- `<`, `^`, `>` -/
inductive FmtAlign where
  | left | center | right
deriving DecidableEq, Repr

/-- The options of a format directive. -/
structure FmtSpec where
  fill : Char := ' '
  align : Option FmtAlign := none
  plus : Bool := false
  width : Option Nat := none
  precision : Option Nat := none
deriving DecidableEq, Repr

/-- flt2dec/mod.rs `determine_sign`: `-` for negative numbers and negative zero; with the option `+` a `+` for the others; none for NaN. -/
def FmtSpec.sign (o : FmtSpec) : Fl → Str
  | .nan => []
  | .num true _ => ['-']
  | .num false _ => if o.plus then ['+'] else []

/-- flt2dec/mod.rs `to_exact_fixed_str`: the (finite) float with bits `n` rounded to `p` decimals, ties to even, and all of them written. -/
def exactText (f : Fmt) (p : Nat) (n : Nat) : Str := decimalText (rne (f.mag n * pow10 p)).toNat (-(p : Int))

/-- fmt/float.rs `float_to_decimal_display`: the number without its sign. -/
def FmtSpec.body (o : FmtSpec) (f : Fmt) : Fl → Str
  | .nan => "NaN".toList
  | .num _ n =>
    if f.isInf n then "inf".toList
    else match o.precision with
      | some p => exactText f p n
      | none => if n = 0 then ['0'] else decimalText (shortest f n).1 (shortest f n).2

/-- fmt/mod.rs `pad_formatted_parts`, `padding`: text filled up to the width; numbers are put to the right if no alignment is given. -/
def FmtSpec.pad (o : FmtSpec) (s : Str) : Str :=
  let k := o.width.getD 0 - s.length
  match o.align.getD .right with
  | .left => s ++ List.replicate k o.fill
  | .right => List.replicate k o.fill ++ s
  | .center => List.replicate (k / 2) o.fill ++ s ++ List.replicate (k - k / 2) o.fill

/-- fmt/float.rs `Display for f32/f64` with options. -/
def FmtSpec.showFloat (o : FmtSpec) (f : Fmt) (x : Fl) : Str := o.pad (o.sign x ++ o.body f x)

/-- `Display` of the stored value with options: a float obeys them, glam 0.24's vectors do not. -/
def FmtSpec.showRaw (o : FmtSpec) (s : Storage) (r : Raw Fl) : Str :=
  if s.isFloat then (r.map (o.showFloat s.base.fmt)).flatten
  else '[' :: ((r.map (Diman.showFloat s.base.fmt)).intersperse [',', ' ']).flatten ++ [']']

section
variable {E : Type} [Exponent E] [FieldOps E] [ShowExponent E] [MagOps E Magnitude] [Prims Fl Magnitude] [TextPrims Fl Magnitude]

/-- debug_trait.rs:45-75 with options: `{:o?}` of a quantity. -/
def debugWith (o : FmtSpec) (defs : Defs E Magnitude) (s : Storage) (d : DimVal E) (r : Raw Fl) : Option Str := debugFmt Fl defs d (o.showRaw s r)
end

end Diman
