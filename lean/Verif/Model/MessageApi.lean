import Verif.Model.Message

/-!
# Dictionaries made from messages, and the LLSD message builder

Models `message/message.py:126-148` and `message/llsd_builder.py`.
-/

namespace Pyogp

/-- Variable name to value. -/
abbrev VarMap := Dict String PyVal

/-- `message.py:138-142`: the map of one instance. -/
def instanceMap (b : BlockData) : List String → VarMap → Py VarMap
  | [], acc => .ok acc
  | n :: ns, acc => do
    let v ← b.getVariable n
    instanceMap b ns (acc.set v.name v.data)

/-- `message.py:137-142`: the loop over the instances; `new_vars` is rebound by each of them. -/
def instancesLoop : List BlockData → Option VarMap → Py (Option VarMap)
  | [], acc => .ok acc
  | b :: bs, _ => do
    let m ← instanceMap b b.varList []
    instancesLoop bs (some m)

/-- `message.py:136-147`: the loop over the blocks.  `new_vars` keeps its value from one block to the next. -/
def toDictLoop : Dict String (List BlockData) → Option VarMap → Dict String (List VarMap) → Py (Dict String (List VarMap))
  | [], _, body => .ok body
  | (n, bs) :: rest, newVars, body => do
    let newVars ← instancesLoop bs newVars
    match newVars with
    | none => .error .unboundLocalError
    | some m =>
      match body.get? n with
      | some l => toDictLoop rest (some m) (body.set n (l ++ [m]))
      | none => toDictLoop rest (some m) (body.set n [m])

/-- `message.py:126-149` (`to_dict`): the values of `'message'` and `'body'`. -/
def Message.toDict (m : Message) : Py (String × Dict String (List VarMap)) := do
  let body ← toDictLoop m.blocks none []
  .ok (m.name, body)

/-- `message.py:118-120` (`get_var`): `self.blocks[block]` is a list, which has no `vars`. -/
def Message.getVar (m : Message) (block _variable : String) : Py VarData := do
  let _ ← m.blocks.get block
  .error .attributeError

/-! ## `LLSDMessageBuilder` -/

/-- Which block object `current_block` is: none, the last instance of a name in the current message, or an instance in an abandoned message. -/
inductive CurBlock
  | none
  | live (name : String)
  | stale
  deriving DecidableEq, Repr

/-- `llsd_builder.py:24-31` (`__init__`).  `msg` is `current_msg` (name and blocks).  The unused `current_template` is omitted. -/
structure Builder where
  msg : Option (String × Dict String (List BlockData)) := none
  cur : CurBlock := .none
  curMsgName : String := ""
  curBlockName : String := ""
  built : Bool := false
  deriving DecidableEq, Repr

/-- `llsd_builder.py:63-66` (`new_message`): `current_block` stays what it was. -/
def Builder.newMessage (b : Builder) (name : String) : Builder :=
  { b with built := false, msg := some (name, []), curMsgName := name, cur := match b.cur with | .none => .none | _ => .stale }

/-- `llsd_builder.py:68-73` (`next_block`). -/
def Builder.nextBlock (b : Builder) (name : String) : Py Builder :=
  match b.msg with
  | none => .error .attributeError
  | some (n, blocks) =>
    .ok { b with built := false, msg := some (n, addBlock blocks (BlockData.new name)), cur := .live name, curBlockName := name }

/-- The block object `current_block` of the current message, mutated. -/
def onLast (f : BlockData → BlockData) (l : List BlockData) : List BlockData :=
  match l.getLast? with
  | none => l
  | some b => l.dropLast ++ [f b]

/-- `llsd_builder.py:75-78` (`add_data`). -/
def Builder.addData (b : Builder) (name : String) (data : PyVal) : Py Builder :=
  match b.cur with
  | .none => .error .attributeError
  | .stale => .ok { b with built := false }
  | .live bn =>
    match b.msg with
    | none => .ok { b with built := false }
    | some (n, blocks) =>
      match blocks.get? bn with
      | none => .ok { b with built := false }
      | some l =>
        .ok { b with built := false, msg := some (n, blocks.set bn (onLast (fun x => x.addVariable { name := name, data := data }) l)) }

/-- `llsd_builder.py:52-58`: one instance as a map. -/
def blockMap (b : BlockData) : VarMap := b.vars.values.foldl (fun d v => d.set v.name v.data) []

/-- `llsd_builder.py:47-58`: one instance. -/
def buildInstance (msg : Dict String (List VarMap)) (b : BlockData) : Dict String (List VarMap) :=
  match msg.get? b.name with
  | none => msg.set b.name [blockMap b]
  | some l => msg.set b.name (l ++ [blockMap b])

/-- `llsd_builder.py:36-61` (`build_message`): the message map and its length, and the builder afterwards. -/
def Builder.buildMessage (b : Builder) : Py ((Dict String (List VarMap) × Nat) × Builder) :=
  match b.msg with
  | none => .error .attributeError
  | some (_, blocks) =>
    let msg := (blocks.map (·.2)).flatten.foldl buildInstance []
    .ok ((msg, msg.length), { b with built := true })

/-- Calls of the builder. -/
inductive BuilderOp
  | newMessage (name : String)
  | nextBlock (name : String)
  | addData (name : String) (data : PyVal)
  | build
  deriving Repr

/-- One call. -/
def Builder.step (b : Builder) : BuilderOp → Py Builder
  | .newMessage n => .ok (b.newMessage n)
  | .nextBlock n => b.nextBlock n
  | .addData n d => b.addData n d
  | .build => do
    let r ← b.buildMessage
    .ok r.2

/-- A sequence of calls. -/
def Builder.run (b : Builder) : List BuilderOp → Py Builder
  | [] => .ok b
  | op :: ops => do
    let b ← b.step op
    b.run ops

end Pyogp
