import Verif.Model.SoftFloat
import Verif.Model.Text
/-!
# Text of IEEE-754 floats
-/
namespace Diman

/-- core's `Display` and `FromStr` of `f32` and `f64`, parameters of the model. -/
structure FloatText where
  showF : FloatTy → Fl → Str
  parseF : FloatTy → Str → Option Fl

/-- The text functions on core's floats: `as` conversions are correctly rounded; magnitude.rs:37-44 (`fromF64`);
`Literal::f64_suffixed` (proc_macro2) asserts `is_finite`. -/
@[reducible] def softText (T : FloatText) : TextPrims Fl Magnitude where
  showF := T.showF
  parseF := T.parseF
  ofInt t i := t.fmt.ofInt i
  ofF64 t x := Fmt.convert f64Fmt t.fmt x
  fromF64 := Magnitude.fromF64
  finite x := match x with
    | .nan => false
    | .num _ n => !f64Fmt.isInf n

end Diman
