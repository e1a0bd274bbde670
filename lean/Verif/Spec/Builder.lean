import Verif.Spec.Message
import Verif.Model.MessageApi

/-!
# Specification: what has been declared with the calls of a builder
-/

namespace Pyogp.Spec

/-- One more value for the block declared last. -/
def Declaration.addValue (d : Declaration) (var : String) (v : PyVal) : Declaration :=
  match d.getLast? with
  | none => d
  | some b => d.dropLast ++ [(b.1, b.2 ++ [(var, v)])]

/-- The blocks declared for the current message, after one more call. -/
def declareCall : Option Declaration → BuilderOp → Option Declaration
  | _, .newMessage _ => some []
  | d, .nextBlock n => d.map (· ++ [(n, [])])
  | d, .addData n v => d.map (·.addValue n v)
  | d, .build => d

/-- The blocks declared for the current message, in order, with the values given for them; `none` if there is no message. -/
def declared (ops : List BuilderOp) : Option Declaration := ops.foldl declareCall none

/-- Some block was begun, for this message or an earlier one. -/
def BlockBegun (ops : List BuilderOp) : Prop := ∃ pre n post, ops = pre ++ .nextBlock n :: post ∧ declared pre ≠ none

/-- A map of lists of maps that shows a declaration: for every block name one map per declared instance, in order, with the values given last. -/
def Shows (d : Dict String (List VarMap)) (bs : Declaration) : Prop :=
  ∀ block, (bs.instances block = [] → d.get? block = none) ∧
    (bs.instances block ≠ [] → ∃ l, d.get? block = some l ∧ l.length = (bs.instances block).length ∧
      ∀ (i : Nat) (m : VarMap) (vs : List (String × PyVal)), l[i]? = some m → (bs.instances block)[i]? = some vs →
        ∀ var, m.get? var = lastValue vs var)

end Pyogp.Spec
