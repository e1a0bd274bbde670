import Verif.Model.Serializer

/-!
# What the exceptions of `serialize` are about

`udpserializer.py` again, with the first argument of the exceptions: the missing key of a `KeyError` and the label of a
`MessageSerializationError` (`exc.py:205-217`).  Of the exceptions of `struct` only the kind is modelled.
-/

namespace Pyogp

/-- An exception and its first argument, if that is modelled. -/
structure Raised where
  exc : Exc
  about : Option String
  deriving DecidableEq, Repr

abbrev PyL (α : Type) := Except Raised α

/-- Attach a first argument. -/
def about {α : Type} (l : Option String) : Py α → PyL α
  | .ok a => .ok a
  | .error e => .error ⟨e, l⟩

/-- `udpserializer.py:148-163`. -/
def packVarLenL (rt : Runtime) (size len : Nat) : PyL Bytes :=
  if size = 1 then about none (packData rt (.num (.int len)) .u8)
  else if size = 2 then about none (packData rt (.num (.int len)) .u16)
  else if size = 4 then about none (packData rt (.num (.int len)) .u32)
  else .error ⟨.messageSerialization, some "variable size"⟩

/-- `udpserializer.py:136-166`; `template.py:62-63`: `KeyError` carries the name of the variable. -/
def serializeVarL (rt : Runtime) (block : BlockData) (v : TVar) : PyL Bytes := do
  let var ← about (some v.name) (block.getVariable v.name)
  let data ← about none (packData rt var.data v.type)
  if v.type = .variable then
    let len ← packVarLenL rt v.size data.length
    .ok (len ++ data)
  else .ok data

/-- `udpserializer.py:136`. -/
def serializeVarsL (rt : Runtime) (block : BlockData) : List TVar → PyL Bytes
  | [] => .ok []
  | v :: vs => do
    let a ← serializeVarL rt block v
    let b ← serializeVarsL rt block vs
    .ok (a ++ b)

/-- `udpserializer.py:134`. -/
def serializeInstancesL (rt : Runtime) (vs : List TVar) : List BlockData → PyL Bytes
  | [] => .ok []
  | b :: bs => do
    let a ← serializeVarsL rt b vs
    let r ← serializeInstancesL rt vs bs
    .ok (a ++ r)

/-- `udpserializer.py:109-168` (`build_block`); `template.py:36-38`: `KeyError` carries the name of the block. -/
def buildBlockL (rt : Runtime) (tb : TBlock) (m : Message) : PyL Bytes := do
  let blockList ← about (some tb.name) (m.getBlock tb.name)
  if tb.blockType = .multiple ∧ tb.number ≠ blockList.length then .error ⟨.messageSerialization, some tb.name⟩
  else
    let count ← (if tb.blockType = .variable then about none (structPack rt.ver .big .B blockList.length) else .ok [] : PyL Bytes)
    let body ← serializeInstancesL rt tb.vars blockList
    .ok (count ++ body)

/-- `udpserializer.py:96-99`. -/
def buildBlocksL (rt : Runtime) (m : Message) : List TBlock → PyL Bytes
  | [] => .ok []
  | tb :: tbs => do
    let a ← buildBlockL rt tb m
    let b ← buildBlocksL rt m tbs
    .ok (a ++ b)

/-- `udpserializer.py:57-107` (`serialize`); `message_dot_xml.py:44-61`: an entry without a flavor gives `KeyError('flavor')`. -/
def serializeL (env : SerEnv) (m : Message) : PyL (Option Bytes) :=
  match env.dict.getTemplate m.name with
  | none => .error ⟨.attributeError, none⟩
  | some t => do
    let allowed ← about (some "flavor") (validateUdpMsg env.xml t.name)
    if !allowed then .ok none
    else
      let flags ← about none (packData env.rt (.num (.int m.sendFlags)) .u8)
      let pid ← about none (packData env.rt (.num (.int m.packetId)) .s32 (some .big))
      let off ← about none (packData env.rt (.num (.int 0)) .u8)
      let body ← buildBlocksL env.rt m t.blocks
      let extra : Bytes := if t.name = "RegionHandshakeReply" then [0, 0, 0, 0] else []
      .ok (some (flags ++ pid ++ off ++ t.msgNumHex ++ body ++ extra))

end Pyogp
