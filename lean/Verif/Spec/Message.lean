import Verif.Model.Message

/-!
# Specification: what a message object or builder is told
-/

namespace Pyogp.Spec

/-- A message as a caller declares it: blocks in order, each with its variables in order. -/
abbrev Declaration := List (String × List (String × PyVal))

/-- The instances of a block, in order. -/
def Declaration.instances (d : Declaration) (block : String) : List (List (String × PyVal)) :=
  (d.filter (fun b => b.1 = block)).map (·.2)

/-- The value of a variable: the last one given. -/
def lastValue (vars : List (String × PyVal)) (name : String) : Option PyVal :=
  ((vars.filter (fun v => v.1 = name)).getLast?).map (·.2)

/-- The blocks passed to a message, lists flattened. -/
def flatArgs : List BlockArg → List BlockData
  | [] => []
  | .one b :: rest => b :: flatArgs rest
  | .many l :: rest => l ++ flatArgs rest

end Pyogp.Spec
