import Verif.Model.Message

/-!
# `UDPMessageSerializer`  (`message/udpserializer.py`)
-/

namespace Pyogp

/-- What a serializer object is configured with (`udpserializer.py:39-50`). -/
structure SerEnv where
  rt : Runtime
  dict : TemplateDict
  xml : DotXml

/-- `udpserializer.py:148-163`: the length prefix of a variable-length field. -/
def packVarLen (rt : Runtime) (size len : Nat) : Py Bytes :=
  if size = 1 then packData rt (.num (.int len)) .u8
  else if size = 2 then packData rt (.num (.int len)) .u16
  else if size = 4 then packData rt (.num (.int len)) .u32
  else .error .messageSerialization

/-- `udpserializer.py:136-166`: one variable of one block.  (`variable == None` on line 144 cannot hold: line 140
has already read `variable.data`.) -/
def serializeVar (rt : Runtime) (block : BlockData) (v : TVar) : Py Bytes := do
  let var ← block.getVariable v.name
  let data ← packData rt var.data v.type
  if v.type = .variable then
    let len ← packVarLen rt v.size data.length
    .ok (len ++ data)
  else .ok data

/-- `udpserializer.py:136`: the variables of a block instance, in template order. -/
def serializeVars (rt : Runtime) (block : BlockData) : List TVar → Py Bytes
  | [] => .ok []
  | v :: vs => do
    let a ← serializeVar rt block v
    let b ← serializeVars rt block vs
    .ok (a ++ b)

/-- `udpserializer.py:134`: all instances of a block. -/
def serializeInstances (rt : Runtime) (vs : List TVar) : List BlockData → Py Bytes
  | [] => .ok []
  | b :: bs => do
    let a ← serializeVars rt b vs
    let r ← serializeInstances rt vs bs
    .ok (a ++ r)

/-- `udpserializer.py:109-168` (`build_block`); the byte count it also returns is ignored by its caller. -/
def buildBlock (rt : Runtime) (tb : TBlock) (m : Message) : Py Bytes := do
  let blockList ← m.getBlock tb.name
  if tb.blockType = .multiple ∧ tb.number ≠ blockList.length then .error .messageSerialization
  else
    let count ← if tb.blockType = .variable then structPack rt.ver .big .B blockList.length else .ok []
    let body ← serializeInstances rt tb.vars blockList
    .ok (count ++ body)

/-- `udpserializer.py:96-99`. -/
def buildBlocks (rt : Runtime) (m : Message) : List TBlock → Py Bytes
  | [] => .ok []
  | tb :: tbs => do
    let a ← buildBlock rt tb m
    let b ← buildBlocks rt m tbs
    .ok (a ++ b)

/-- `udpserializer.py:57-107` (`serialize`); `.ok none` is a returned `None`.  `self.context`,
`self.current_template` and `self.message_buffer` are always overwritten before being read, so the object state is
not threaded. -/
def serialize (env : SerEnv) (m : Message) : Py (Option Bytes) :=
  match env.dict.getTemplate m.name with
  | none => .error .attributeError            -- line 66: None.name
  | some t => do
    let allowed ← validateUdpMsg env.xml t.name
    if !allowed then .ok none
    else
      let flags ← packData env.rt (.num (.int m.sendFlags)) .u8
      let pid ← packData env.rt (.num (.int m.packetId)) .s32 (some .big)
      let off ← packData env.rt (.num (.int 0)) .u8
      let body ← buildBlocks env.rt m t.blocks
      let extra : Bytes := if t.name = "RegionHandshakeReply" then [0, 0, 0, 0] else []
      .ok (some (flags ++ pid ++ off ++ t.msgNumHex ++ body ++ extra))

end Pyogp
