import Verif.Model.Deserializer

/-!
# What the exceptions of `deserialize` are about

`udpdeserializer.py` and `data_unpacker.py` again, with the attributes of the exceptions of `exc.py` they raise.
-/

namespace Pyogp

/-- The exceptions, with their attributes: `exc.py:218-229` (`MessageDeserializationError`: label and reason; the reason may itself be an
exception, `udpdeserializer.py:130`), `exc.py:231-242` (`DataUnpackingError`: the bytes; the `struct.error` it carries is not modelled),
`exc.py:153-164` (`MessageTemplateNotFound`: the context), and others, without attributes. -/
inductive DeserExc
  | deserialization (label reason : String)
  | deserializationOf (label : String) (reason : DeserExc)
  | unpacking (data : Bytes)
  | templateNotFound (context : String)
  | other (e : Exc)
  deriving DecidableEq, Repr

/-- The class of an exception. -/
def DeserExc.kind : DeserExc → Exc
  | .deserialization .. => .messageDeserialization
  | .deserializationOf .. => .messageDeserialization
  | .unpacking _ => .dataUnpacking
  | .templateNotFound _ => .messageTemplateNotFound
  | .other e => e

/-- `str` of a `MessageDeserializationError` whose reason is a text (`exc.py:228-229`). -/
def DeserExc.text : DeserExc → Option String
  | .deserialization l r => some ("Error deserializing '" ++ l ++ "' due to reason: '" ++ r ++ "'")
  | _ => none

/-- How the body of `__decode_data` can stop early. -/
inductive StopE | retNone | exc (e : DeserExc)
  deriving DecidableEq, Repr

abbrev DecE (α : Type) := Except StopE α

/-- An exception without attributes. -/
def plainE {α : Type} : Py α → Except DeserExc α
  | .ok a => .ok a
  | .error e => .error (.other e)

/-- An exception inside `__decode_data`. -/
def liftE {α : Type} : Except DeserExc α → DecE α
  | .ok a => .ok a
  | .error e => .error (.exc e)

/-- `data_unpacker.py:56-85` (`unpack_data`): `DataUnpackingError` carries the selected bytes. -/
def unpackDataE (rt : Runtime) (data : Bytes) (ty : MsgType) (start? : Option Nat := none) (size? : Option Nat := none)
    (en? : Option Endian := none) : Except DeserExc PyVal :=
  match (unpackerTable ty).2.unpack rt (en?.getD (unpackerTable ty).1) (selectBytes data ty start? size?) with
  | .ok v => .ok v
  | .error .structError => .error (.unpacking (selectBytes data ty start? size?))
  | .error e => .error (.other e)

/-- `unpack_data` of an integer type, as the integer it returns. -/
def unpackIntE (rt : Runtime) (data : Bytes) (ty : MsgType) (start : Nat) (en? : Option Endian := none) : Except DeserExc Int := do
  match ← unpackDataE rt data ty (some start) none en? with
  | .num (.int i) => .ok i
  | _ => .error (.other .typeError)

/-- `udpdeserializer.py:304-335`. -/
def decodeSizeE (rt : Runtime) (data : Bytes) (v : TVar) (pos : Nat) : DecE (Nat × Nat) :=
  if v.type = .variable then
    if data.length < pos + v.size then .error .retNone
    else if v.size = 1 then do
      let n ← liftE (unpackIntE rt data .u8 pos)
      .ok (n.toNat, pos + v.size)
    else if v.size = 2 then do
      let n ← liftE (unpackIntE rt data .u16 pos)
      .ok (n.toNat, pos + v.size)
    else if v.size = 4 then do
      let n ← liftE (unpackIntE rt data .u32 pos)
      .ok (n.toNat, pos + v.size)
    else .error (.exc (.deserialization "variable" "unknown data size"))
  else .ok (v.size, pos)

/-- `udpdeserializer.py:302-355`: one variable. -/
def decodeVarE (rt : Runtime) (data : Bytes) (v : TVar) (pos : Nat) : DecE (VarData × Nat) := do
  let sp ← decodeSizeE rt data v pos
  if data.length < sp.2 + sp.1 then .error .retNone
  else
    let x ← liftE (unpackDataE rt data v.type (some sp.2) (some sp.1))
    .ok ({ name := v.name, data := normaliseVar v x, varType := some v.type }, sp.2 + sp.1)

/-- `udpdeserializer.py:302`. -/
def decodeVarsE (rt : Runtime) (data : Bytes) : List TVar → Nat → BlockData → DecE (BlockData × Nat)
  | [], pos, blk => .ok (blk, pos)
  | v :: vs, pos, blk => do
    let r ← decodeVarE rt data v pos
    decodeVarsE rt data vs r.2 (blk.addVariable r.1)

/-- `udpdeserializer.py:295-300`. -/
def decodeInstancesE (rt : Runtime) (data : Bytes) (tb : TBlock) :
    Nat → Nat → Nat → Dict String (List BlockData) → DecE (Dict String (List BlockData) × Nat)
  | 0, _, pos, blocks => .ok (blocks, pos)
  | n + 1, i, pos, blocks => do
    let r ← decodeVarsE rt data tb.vars pos { BlockData.new tb.name with number := i }
    decodeInstancesE rt data tb n (i + 1) r.2 (addBlock blocks r.1)

/-- `udpdeserializer.py:273-293`. -/
def decodeCountE (rt : Runtime) (data : Bytes) (tb : TBlock) (pos : Nat) : DecE (Nat × Nat) :=
  match tb.blockType with
  | .single => .ok (1, pos)
  | .multiple => .ok (tb.number, pos)
  | .variable => do
    let n ← liftE (unpackIntE rt data .u8 pos)
    .ok (n.toNat, pos + 1)
  | .unknown => .error .retNone

/-- `udpdeserializer.py:272-355`. -/
def decodeBlocksE (rt : Runtime) (data : Bytes) :
    List TBlock → Nat → Dict String (List BlockData) → DecE (Dict String (List BlockData) × Nat)
  | [], pos, blocks => .ok (blocks, pos)
  | tb :: tbs, pos, blocks => do
    let c ← decodeCountE rt data tb pos
    let r ← decodeInstancesE rt data tb c.1 0 c.2 blocks
    decodeBlocksE rt data tbs r.2 r.1

/-- `udpdeserializer.py:240-246`. -/
def decodeAcksE (rt : Runtime) (ackData : Bytes) : Nat → Nat → Message → DecE Message
  | 0, _, m => .ok m
  | n + 1, pos, m => do
    let a ← liftE (unpackIntE rt ackData .u32 pos)
    decodeAcksE rt ackData n (pos + 4) (m.addAck a.toNat)

/-- `udpdeserializer.py:235-246`. -/
def decodeAckPartE (rt : Runtime) (data : Bytes) (m : Message) : DecE Message :=
  if m.sendFlags &&& flagAck ≠ 0 then do
    let acks ← liftE (unpackIntE rt data .u8 (data.length - 1))
    let n := acks.toNat
    let ackData := sliceFrom data (((data.length - 1 : Nat) : Int) - ((n * 4 : Nat) : Int))
    decodeAcksE rt ackData n 0 m
  else .ok m

/-- `udpdeserializer.py:211-362` (`__decode_data`). -/
def decodeDataE (rt : Runtime) (t? : Option Template) (data : Bytes) : DecE Message := do
  let t ← match t? with
    | none => .error (.exc (.templateNotFound "deserializing data"))
    | some t => .ok t
  let flags ← liftE (plainE (index data 0))
  let pid ← liftE (unpackIntE rt data .u32 1 (some .big))
  let m : Message := { name := t.name, sendFlags := flags.toNat, packetId := pid.toNat }
  let m ← decodeAckPartE rt data m
  let m := if m.sendFlags &&& flagReliable ≠ 0 then { m with reliable := true } else m
  let off ← liftE (unpackIntE rt data .u8 5)
  let r ← decodeBlocksE rt data t.blocks (6 + freqBytes t.freq + off.toNat) []
  if r.1.length = 0 ∧ 0 < t.blocks.length then .error (.exc (.deserialization "message" "message is empty"))
  else .ok { m with blocks := r.1 }

/-- `udpdeserializer.py:143-163`. -/
def decodeTemplateE (env : DeserEnv) (st : DeserState) (buf : Bytes) : Except DeserExc Bool × DeserState :=
  if buf.length ≤ 6 then (.error (.deserialization "packet length" "template mismatch"), st)
  else match decodeHeader env.dict (slice buf 6 12) with
    | .error e => (.error (.other e), st)
    | .ok t? => (.ok t?.isSome, { st with currentTemplate := t? })

/-- `udpdeserializer.py:126-131`: a `DataUnpackingError` becomes the reason of a `MessageDeserializationError` about the template. -/
def runDecodeE (rt : Runtime) (name : String) (t? : Option Template) (data : Bytes) : Except DeserExc (Option Message) :=
  match decodeDataE rt t? data with
  | .ok m => .ok (some m)
  | .error .retNone => .ok none
  | .error (.exc e) => if e.kind = .dataUnpacking then .error (.deserializationOf name e) else .error e

/-- `udpdeserializer.py:112-141`. -/
def deserializeRestE (env : DeserEnv) (st : DeserState) (buf acks : Bytes) : Except DeserExc (Option Message) × DeserState :=
  match decodeTemplateE env st buf with
  | (.error e, st') => (.error e, st')
  | (.ok false, st') => (.ok none, st')
  | (.ok true, st') =>
    (do
      let name ← plainE (currentName st')
      let allowed ← plainE (validateUdpMsg env.xml name)
      if !allowed then .ok none
      else
        let want ← plainE (wantsParse env name)
        if want then runDecodeE env.rt name st'.currentTemplate (buf ++ acks)
        else .ok none, st')

/-- `udpdeserializer.py:68-141` (`deserialize`). -/
def deserializeE (env : DeserEnv) (st : DeserState) (context : Bytes) : Except DeserExc (Option Message) × DeserState :=
  match stripAcks context with
  | .error e => (.error (.other e), st)
  | .ok (buf, acks) =>
    match expandPacket buf with
    | .error e => (.error (.other e), st)
    | .ok buf => deserializeRestE env st buf acks

end Pyogp
