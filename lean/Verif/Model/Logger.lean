import Verif.Model.Log

/-! # The default logger as an object with a history (log/logger.go) -/

namespace Goidc

/-- An argument of a logger method: `interface{}`, of which only strings are looked at by the methods
themselves. -/
inductive LogArg
  | str (s : GoStr)
  | other (n : Nat)

/-- A call on package log (log/logger.go:65-152). -/
inductive LoggerOp
  /-- `SetLevelForDefaultLogger(level)`; `LogLevel` is an `int`, so any value can be passed. -/
  | setLevel (level : Int64)
  /-- `Debug`, `Info`, `Warn`, `Error`, `Fatal` -/
  | print (level : LogLevel) (args : List LogArg)
  /-- `Debugf`, `Infof`, `Warnf`, `Errorf`, `Fatalf` -/
  | printf (level : LogLevel) (format : GoStr) (args : List LogArg)

/-- What a call does visibly: the text that goes to standard output, or a panic. -/
inductive LoggerEffect
  | out (text : GoStr)
  | panic

namespace Logger

/-- log/logger.go:15: `defaultLoggerLevel` at start. -/
def initialLevel : Int64 := 0

/-- The value of a level constant (log/logger.go:7-13). -/
def levelValue (l : LogLevel) : Int64 := Int64.ofNat (Log.levelNum l)

/-- log/logger.go:65-70 `SetLevelForDefaultLogger` -/
def setLevel (current level : Int64) : Int64 × LoggerEffect :=
  if level > levelValue .fatal then (current, .panic) else (level, .out [])

/-- log/logger.go:78-111: `args[0].(string)` panics when there is no argument or it is no string; with
the level suppressed the arguments are not looked at.  `fmt.Println` adds the newline. -/
def print (current : Int64) (level : LogLevel) (args : List LogArg) : LoggerEffect :=
  if current ≤ levelValue level then
    match args with
    | .str s :: _ => .out (Log.insertLevelLabel level s ++ [10])
    | _ => .panic
  else .out []

/-- log/logger.go:113-152; `sprintf` is `fmt.Sprintf`. -/
def printf (sprintf : GoStr → List LogArg → GoStr) (current : Int64) (level : LogLevel) (format : GoStr)
    (args : List LogArg) : LoggerEffect :=
  if current ≤ levelValue level then .out (sprintf (Log.insertLevelLabel level format) args ++ [10])
  else .out []

/-- One call: the level afterwards and the effect. -/
def step (sprintf : GoStr → List LogArg → GoStr) (current : Int64) : LoggerOp → Int64 × LoggerEffect
  | .setLevel n => setLevel current n
  | .print l args => (current, print current l args)
  | .printf l f args => (current, printf sprintf current l f args)

/-- The level after a history of calls (panics being recovered by the caller). -/
def levelAfter (sprintf : GoStr → List LogArg → GoStr) (ops : List LoggerOp) : Int64 :=
  ops.foldl (fun l op => (step sprintf l op).1) initialLevel

/-- What a call does after a history of calls. -/
def effect (sprintf : GoStr → List LogArg → GoStr) (ops : List LoggerOp) (op : LoggerOp) : LoggerEffect :=
  (step sprintf (levelAfter sprintf ops) op).2

end Logger
end Goidc
