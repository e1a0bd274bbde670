import Verif.Model.Message

/-!
# `UDPMessageDeserializer`  (`message/udpdeserializer.py`)
-/

namespace Pyogp

/-- `udpdeserializer.py:372-390` (`zero_code_expand`), one loop iteration over the state `(newstring, in_zero)`. -/
def zeroStep (s : Bytes × Bool) (c : UInt8) : Bytes × Bool :=
  if c ≠ 0 then
    if s.2 then (s.1 ++ List.replicate (c.toNat - 1) 0, false)
    else (s.1 ++ [c], false)
  else (s.1 ++ [c], true)

/-- `udpdeserializer.py:364-390` (`zero_code_expand`). -/
def zeroCodeExpand (b : Bytes) : Bytes := (b.foldl zeroStep ([], false)).1

/-- How the body of `__decode_data` can stop early: `return None` or an exception. -/
inductive Stop | retNone | exc (e : Exc)
  deriving DecidableEq, Repr

/-- A computation inside `__decode_data`. -/
abbrev Dec (α : Type) := Except Stop α

/-- Propagate a Python exception. -/
def liftPy {α : Type} : Py α → Dec α
  | .ok a => .ok a
  | .error e => .error (.exc e)

/-- `udpdeserializer.py:304-335`: the size of a field and the position of its first byte. -/
def decodeSize (rt : Runtime) (data : Bytes) (v : TVar) (pos : Nat) : Dec (Nat × Nat) :=
  if v.type = .variable then
    if data.length < pos + v.size then .error .retNone
    else if v.size = 1 then do
      let n ← liftPy (unpackInt rt data .u8 pos)
      .ok (n.toNat, pos + v.size)
    else if v.size = 2 then do
      let n ← liftPy (unpackInt rt data .u16 pos)
      .ok (n.toNat, pos + v.size)
    else if v.size = 4 then do
      let n ← liftPy (unpackInt rt data .u32 pos)
      .ok (n.toNat, pos + v.size)
    else .error (.exc .messageDeserialization)
  else .ok (v.size, pos)

/-- `udpdeserializer.py:351-352`: `rstrip('\x00')` of a variable-length field not called `Data`. -/
def normaliseVar (v : TVar) (x : PyVal) : PyVal :=
  if v.type = .variable ∧ v.name ≠ "Data" then
    match x with
    | .str b => .str (rstrip0 b)
    | x => x
  else x

/-- `udpdeserializer.py:302-355`: one variable; returns it and the next position. -/
def decodeVar (rt : Runtime) (data : Bytes) (v : TVar) (pos : Nat) : Dec (VarData × Nat) := do
  let sp ← decodeSize rt data v pos
  if data.length < sp.2 + sp.1 then .error .retNone
  else
    let x ← liftPy (unpackData rt data v.type (some sp.2) (some sp.1))
    .ok ({ name := v.name, data := normaliseVar v x, varType := some v.type }, sp.2 + sp.1)

/-- `udpdeserializer.py:302`: all variables of one block instance. -/
def decodeVars (rt : Runtime) (data : Bytes) : List TVar → Nat → BlockData → Dec (BlockData × Nat)
  | [], pos, blk => .ok (blk, pos)
  | v :: vs, pos, blk => do
    let r ← decodeVar rt data v pos
    decodeVars rt data vs r.2 (blk.addVariable r.1)

/-- `udpdeserializer.py:295-300`: `n` instances numbered from `i`.  The block object is added to the message before
its variables are filled in; since nothing reads the message meanwhile and any early stop discards it, it is added
afterwards here.  `self.current_block` is only an alias for the local block. -/
def decodeInstances (rt : Runtime) (data : Bytes) (tb : TBlock) :
    Nat → Nat → Nat → Dict String (List BlockData) → Dec (Dict String (List BlockData) × Nat)
  | 0, _, pos, blocks => .ok (blocks, pos)
  | n + 1, i, pos, blocks => do
    let r ← decodeVars rt data tb.vars pos { BlockData.new tb.name with number := i }
    decodeInstances rt data tb n (i + 1) r.2 (addBlock blocks r.1)

/-- `udpdeserializer.py:273-293`: the repeat count and the position after it. -/
def decodeCount (rt : Runtime) (data : Bytes) (tb : TBlock) (pos : Nat) : Dec (Nat × Nat) :=
  match tb.blockType with
  | .single => .ok (1, pos)
  | .multiple => .ok (tb.number, pos)
  | .variable => do
    let n ← liftPy (unpackInt rt data .u8 pos)
    .ok (n.toNat, pos + 1)
  | .unknown => .error .retNone

/-- `udpdeserializer.py:272-355`: all blocks. -/
def decodeBlocks (rt : Runtime) (data : Bytes) :
    List TBlock → Nat → Dict String (List BlockData) → Dec (Dict String (List BlockData) × Nat)
  | [], pos, blocks => .ok (blocks, pos)
  | tb :: tbs, pos, blocks => do
    let c ← decodeCount rt data tb pos
    let r ← decodeInstances rt data tb c.1 0 c.2 blocks
    decodeBlocks rt data tbs r.2 r.1

/-- `udpdeserializer.py:240-246`: read `n` appended acks from `ackData` starting at `pos` (little-endian). -/
def decodeAcks (rt : Runtime) (ackData : Bytes) : Nat → Nat → Message → Dec Message
  | 0, _, m => .ok m
  | n + 1, pos, m => do
    let a ← liftPy (unpackInt rt ackData .u32 pos)
    decodeAcks rt ackData n (pos + 4) (m.addAck a.toNat)

/-- `udpdeserializer.py:263-266`: header bytes of a frequency class. -/
def freqBytes : Frequency → Nat
  | .fixed => 4
  | .low => 4
  | .medium => 2
  | .high => 1

/-- `udpdeserializer.py:235-246`: the appended acks, if the flag is set. `data[msg_size-ack_start:]` may have a
negative index. -/
def decodeAckPart (rt : Runtime) (data : Bytes) (m : Message) : Dec Message :=
  if m.sendFlags &&& flagAck ≠ 0 then do
    let acks ← liftPy (unpackInt rt data .u8 (data.length - 1))
    let n := acks.toNat
    let ackData := sliceFrom data (((data.length - 1 : Nat) : Int) - ((n * 4 : Nat) : Int))
    decodeAcks rt ackData n 0 m
  else .ok m

/-- `udpdeserializer.py:211-362` (`__decode_data`). -/
def decodeData (rt : Runtime) (t? : Option Template) (data : Bytes) : Dec Message := do
  let t ← match t? with
    | none => .error (.exc .messageTemplateNotFound)
    | some t => .ok t
  let flags ← liftPy (index data 0)
  let pid ← liftPy (unpackInt rt data .u32 1 (some .big))
  let m : Message := { name := t.name, sendFlags := flags.toNat, packetId := pid.toNat }
  let m ← decodeAckPart rt data m
  let m := if m.sendFlags &&& flagReliable ≠ 0 then { m with reliable := true } else m
  let off ← liftPy (unpackInt rt data .u8 5)
  let r ← decodeBlocks rt data t.blocks (6 + freqBytes t.freq + off.toNat) []
  if r.1.length = 0 ∧ 0 < t.blocks.length then .error (.exc .messageDeserialization)
  else .ok { m with blocks := r.1 }

/-- `udpdeserializer.py:173-191` (`__decode_frequency`). -/
def decodeFrequency (header : Bytes) : Py Frequency := do
  if (← index header 0) = 0xff then
    if (← index header 1) = 0xff then
      if (← index header 2) = 0xff then .ok .fixed else .ok .low
    else .ok .medium
  else .ok .high

/-- `udpdeserializer.py:193-209` (`__decode_num`). -/
def decodeNum (header : Bytes) : Py Int := do
  match ← decodeFrequency header with
  | .low => structUnpack .big .H (slice header 2 4)
  | .medium => structUnpack .big .B (slice header 1 2)
  | .high => structUnpack .big .B (slice header 0 1)
  | .fixed => structUnpack .big .B (slice header 3 4)

/-- `udpdeserializer.py:165-171` (`__decode_header`). -/
def decodeHeader (dict : TemplateDict) (header : Bytes) : Py (Option Template) := do
  let f ← decodeFrequency header
  let n ← decodeNum header
  .ok (dict.getTemplateByPair f n.toNat)

/-- What a deserializer object is configured with (`udpdeserializer.py:39-66`).  `handled? = none`: no handler object
was set (`HANDLE_PACKETS` off and none passed); otherwise the names registered with it
(`message_handler.py:87-95`). -/
structure DeserEnv where
  rt : Runtime
  dict : TemplateDict
  xml : DotXml
  handled? : Option (List String)
  deferred : Bool

/-- The part of the deserializer object that survives between calls (`udpdeserializer.py:41-44`). -/
structure DeserState where
  currentTemplate : Option Template := none
  deriving DecidableEq, Repr

/-- `udpdeserializer.py:143-163` (`__validate_message`, `__decode_template`): sets `self.current_template`. -/
def decodeTemplate (env : DeserEnv) (st : DeserState) (buf : Bytes) : Py Bool × DeserState :=
  if buf.length ≤ 6 then (.error .messageDeserialization, st)
  else match decodeHeader env.dict (slice buf 6 12) with
    | .error e => (.error e, st)
    | .ok t? => (.ok t?.isSome, { st with currentTemplate := t? })

/-- `udpdeserializer.py:124`: `is_message_handled(...) or not ENABLE_DEFERRED_PACKET_PARSING`. -/
def wantsParse (env : DeserEnv) (name : String) : Py Bool :=
  match env.handled? with
  | none => .error .attributeError
  | some names => .ok (names.contains name || !env.deferred)

/-- `udpdeserializer.py:126-131`: run `__decode_data`, turning `DataUnpackingError` into
`MessageDeserializationError`. -/
def runDecode (rt : Runtime) (t? : Option Template) (data : Bytes) : Py (Option Message) :=
  match decodeData rt t? data with
  | .ok m => .ok (some m)
  | .error .retNone => .ok none
  | .error (.exc .dataUnpacking) => .error .messageDeserialization
  | .error (.exc e) => .error e

/-- `udpdeserializer.py:119`: `self.current_template.name`. -/
def currentName (st : DeserState) : Py String :=
  match st.currentTemplate with
  | none => .error .attributeError
  | some t => .ok t.name

/-- `udpdeserializer.py:80-85`: split off the appended acks: `(message, acks)`. -/
def stripAcks (buf : Bytes) : Py (Bytes × Bytes) := do
  let b0 ← index buf 0
  if b0.toNat &&& flagAck ≠ 0 then
    let n ← index buf (buf.length - 1)
    let k := 1 + 4 * n.toNat
    .ok (dropLastN buf k, lastN buf k)
  else .ok (buf, [])

/-- `udpdeserializer.py:89-110`: zero-decode everything after the header and its extra bytes. -/
def expandPacket (buf : Bytes) : Py Bytes := do
  let b0 ← index buf 0
  if b0.toNat &&& flagZeroCode ≠ 0 then
    let off ← index buf 5
    .ok (buf.take (6 + off.toNat) ++ zeroCodeExpand (buf.drop (6 + off.toNat)))
  else .ok buf

/-- `udpdeserializer.py:112-141`: the rest of `deserialize`, after zero-decoding. -/
def deserializeRest (env : DeserEnv) (st : DeserState) (buf acks : Bytes) : Py (Option Message) × DeserState :=
  match decodeTemplate env st buf with
  | (.error e, st') => (.error e, st')
  | (.ok false, st') => (.ok none, st')
  | (.ok true, st') =>
    (do
      let name ← currentName st'
      let allowed ← validateUdpMsg env.xml name
      if !allowed then .ok none
      else
        let want ← wantsParse env name
        if want then runDecode env.rt st'.currentTemplate (buf ++ acks)
        else .ok none, st')

/-- `udpdeserializer.py:68-141` (`deserialize`). -/
def deserialize (env : DeserEnv) (st : DeserState) (context : Bytes) : Py (Option Message) × DeserState :=
  match stripAcks context with
  | .error e => (.error e, st)
  | .ok (buf, acks) =>
    match expandPacket buf with
    | .error e => (.error e, st)
    | .ok buf => deserializeRest env st buf acks

end Pyogp
