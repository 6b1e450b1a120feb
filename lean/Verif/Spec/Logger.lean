import Verif.Model.Logger

/-! # Specification: the default logger -/

namespace Goidc.Spec

/-- The levels in ascending order, as numbers. -/
def rank : LogLevel → Int
  | .debug => 0
  | .info => 1
  | .warn => 2
  | .error => 3
  | .fatal => 4

/-- The threshold in effect after a history of calls: 0 if none was set, and otherwise the last one set that is not
above `fatal`. -/
inductive Threshold : List LoggerOp → Int → Prop
  | start : Threshold [] 0
  | set {ops n} (level : Int64) : Threshold ops n → level.toInt ≤ 4 → Threshold (ops ++ [.setLevel level]) level.toInt
  | refused {ops n} (level : Int64) : Threshold ops n → 4 < level.toInt → Threshold (ops ++ [.setLevel level]) n
  | print {ops n} (l args) : Threshold ops n → Threshold (ops ++ [.print l args]) n
  | printf {ops n} (l f args) : Threshold ops n → Threshold (ops ++ [.printf l f args]) n

/-- The ANSI colour a level is shown in. -/
def colour : LogLevel → GoStr
  | .debug => b!"37"
  | .info => b!"32"
  | .warn => b!"35"
  | .error => b!"33"
  | .fatal => b!"31"

/-- What is in front of a message: `ESC [ colour m` `[` name `]` `ESC [m` and a blank. -/
def labelled (l : LogLevel) (name : GoStr) (text : GoStr) : GoStr :=
  [27, 91] ++ colour l ++ b!"m[" ++ name ++ b!"]" ++ [27, 91] ++ b!"m " ++ text

/-- `fmt.Sprintf` copies text up to the first percent sign. -/
def CopiesText (sprintf : GoStr → List LogArg → GoStr) : Prop :=
  ∀ text rest args, 37 ∉ text → sprintf (text ++ rest) args = text ++ sprintf rest args

end Goidc.Spec
