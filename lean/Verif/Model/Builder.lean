import Verif.Model.MessageApi

/-!
# Every use of a `LLSDMessageBuilder`

`message/llsd_builder.py` with calls that raise and are caught: an exception does not end the history here.
-/

namespace Pyogp

/-- A call: its result (`build_message` returns a map and its length, the others `None`) and the builder afterwards.  `next_block` and `add_data` clear
`has_been_built` before they raise (`llsd_builder.py:69`, `76`); `build_message` sets it at its end (line 60). -/
def Builder.call (b : Builder) (op : BuilderOp) : Py (Option (Dict String (List VarMap) × Nat)) × Builder :=
  match op with
  | .newMessage n => (.ok none, b.newMessage n)
  | .nextBlock n =>
    match b.nextBlock n with
    | .error e => (.error e, { b with built := false })
    | .ok b' => (.ok none, b')
  | .addData n d =>
    match b.addData n d with
    | .error e => (.error e, { b with built := false })
    | .ok b' => (.ok none, b')
  | .build =>
    match b.buildMessage with
    | .error e => (.error e, b)
    | .ok r => (.ok (some r.1), r.2)

/-- A history of calls. -/
def Builder.calls (b : Builder) (ops : List BuilderOp) : Builder := ops.foldl (fun b op => (b.call op).2) b

/-- `llsd_builder.py:33-34` (`is_built`). -/
def Builder.isBuilt (b : Builder) : Bool := b.built

end Pyogp
