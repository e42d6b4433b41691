/- Model of fr_from_string on arbitrary strings, /repo/fr.go:101-104. -/
import Verif.Model.Fr
import Verif.Model.Strings

namespace Verif

/-- `new(big.Int).SetString(s, 10)` of the Go library with its sign handling; `none` is failure. In base 10 neither a prefix nor
underscores are allowed. Called at /repo/fr.go:102. -/
def setString10 : List Char → Option ℤ
  | '+' :: s => (parseDec s).map fun n : ℕ => (n : ℤ)
  | '-' :: s => (parseDec s).map fun n : ℕ => -(n : ℤ)
  | s => (parseDec s).map fun n : ℕ => (n : ℤ)

/-- `fr_from_string`, /repo/fr.go:101-104. The failure flag is ignored: for a string that is not a number the result is a nil
`*big.Int`, modelled as the nil variable (every use of either panics). -/
def frFromString (str : String) : Var :=
  match setString10 str.toList with
  | some z => .big z
  | none => .nil

end Verif
