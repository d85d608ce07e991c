import Verif.Model.FloatDecimals

/-
A real number of the API on its way through a document: assigned to a decimal of the core, written, read and got again.
-/
namespace Mx
open Fl

/-- A new decimal of the class that is given the value `v` (private/mx/core/Decimals.cpp 279-283, 400-406: the constructor clamps and assigns as `setValue` does), its text (116-188), and the value
that is got (50-53, 291-294) of another new decimal that parses the text (301-311).  Used so for example for the width of a measure, private/mx/impl/MeasureWriter.cpp 188-192, MeasureReader.cpp 129.
Simplification: the escaping and parsing of the document between (C72, C73) carries the text as it is. -/
def throughText (prec : Nat) (k : DecimalKind) (v : ℚ) : Option ℚ :=
  ((DecimalRange.make k k.defaultValue).bind (fun d => d.setValueF prec v)).bind fun d =>
    ((DecimalRange.make k k.defaultValue).bind (fun d0 => d0.parseF prec d.toStr)).map (fun r => r.2.getValueF prec)

end Mx
