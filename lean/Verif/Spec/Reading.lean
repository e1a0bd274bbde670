import Verif.Spec.Parse

/-!
# Specification: what a receiver makes of a datagram

With no reference to positions or to the decoder: how a datagram is divided up (`Framed`), where reading its body stops (`Short`, `NoCount`), and what the
outcome is (`Result`).
-/

namespace Pyogp.Spec

/-- The parts of a datagram: flags, number of extra header bytes, packet id, appended acks, the packet without the acks and zero-decoded, frequency class
and message number. -/
structure Frame where
  flags : UInt8
  off : UInt8
  pid : Nat
  acks : List Nat
  packet : Bytes
  freq : Frequency
  num : Nat

/-- The datagram has these parts. -/
structure Framed (dg : Bytes) (x : Frame) : Prop where
  flags : dg.head? = some x.flags
  acks : AcksOk x.flags x.acks
  pid : slice dg 1 5 = idBytes x.pid ∧ x.pid < 2 ^ 32
  packet : ∃ buf, dg = buf ++ ackTrailer x.flags x.acks ∧ buf[5]? = some x.off ∧ Expanded x.flags x.off.toNat buf x.packet
  number : InClass x.freq x.num ∧ numPrefix x.freq x.num <+: x.packet.drop 6

/-- The datagrams whose packet (without acks, zero-decoded) is not longer than a header. -/
def OnlyHeader (dg : Bytes) : Prop :=
  ∃ flags off buf packet, BeforeAcks flags dg buf ∧ buf ≠ [] ∧ (flags.toNat &&& 0x80 ≠ 0 → buf[5]? = some off) ∧ Expanded flags off.toNat buf packet ∧
    packet.length ≤ 6

/-- The bytes from which the blocks of a template are read: those after header, message number and as many bytes as there are extra header bytes; the
appended acks count as bytes of the body. -/
def bodyOf (x : Frame) (t : Template) : Bytes := (x.packet ++ ackTrailer x.flags x.acks).drop (6 + (numPrefix t.freq 0).length + x.off.toNat)

/-- `rest` is too short for the field. -/
def FieldShort (v : TVar) (rest : Bytes) : Prop :=
  rest.length < v.size ∨ (v.type = .variable ∧ ∃ len tail, rest = len ++ tail ∧ len.length = v.size ∧ tail.length < littleEndian len)

/-- `rest` ends within one of the variables. -/
def VarsShort (rt : Runtime) (vs : List TVar) (rest : Bytes) : Prop :=
  ∃ vs₁ v vs₂ raw tail ds, vs = vs₁ ++ v :: vs₂ ∧ rest = raw ++ tail ∧ VarsBytes rt vs₁ raw ds ∧ FieldShort v tail

/-- `rest` ends within one of `n` instances (numbered from `i`) of a block. -/
def InstancesShort (rt : Runtime) (tb : TBlock) (i n : Nat) (rest : Bytes) : Prop :=
  ∃ raw tail bs, bs.length < n ∧ rest = raw ++ tail ∧ InstancesBytes rt tb i raw bs ∧ VarsShort rt tb.vars tail

/-- `rest` ends within the instances of the block, or the template does not say how many there are. -/
def BlockShort (rt : Runtime) (tb : TBlock) (rest : Bytes) : Prop :=
  tb.blockType = .unknown ∨ ∃ cnt body n, rest = cnt ++ body ∧ CountOk tb n ∧ cnt = (if tb.blockType = .variable then [UInt8.ofNat n] else []) ∧
    InstancesShort rt tb 0 n body

/-- Some blocks are complete, and the next one with what is left has property `P`. -/
def AtBlock (rt : Runtime) (P : TBlock → Bytes → Prop) (tbs : List TBlock) (rest : Bytes) : Prop :=
  ∃ tbs₁ tb tbs₂ raw tail bss, tbs = tbs₁ ++ tb :: tbs₂ ∧ rest = raw ++ tail ∧ BlocksBytes rt tbs₁ raw bss ∧ P tb tail

/-- `rest` ends within a block. -/
def Short (rt : Runtime) : List TBlock → Bytes → Prop := AtBlock rt (BlockShort rt)

/-- `rest` ends where the number of instances of a Variable block should be. -/
def NoCount (rt : Runtime) : List TBlock → Bytes → Prop := AtBlock rt fun tb tail => tb.blockType = .variable ∧ tail = []

/-- The message with these parts and these blocks. -/
def messageOf (x : Frame) (t : Template) (bss : List (List BlockData)) : Message :=
  { name := t.name, sendFlags := x.flags.toNat, packetId := x.pid, acks := x.acks, numAcks := x.acks.length,
    reliable := decide (x.flags.toNat &&& 0x40 ≠ 0), blocks := bss.flatten.foldl addBlock [] }

/-- Messages that are parsed: message.xml allows them on UDP, and there is a handler or everything is parsed. -/
def Parsed (env : DeserEnv) (name : String) : Prop :=
  (env.xml.get? name = none ∨ env.xml.get? name = some (some "template")) ∧ ∃ names, env.handled? = some names ∧ (name ∈ names ∨ env.deferred = false)

/-- What becomes of a datagram with these parts. -/
inductive Result (env : DeserEnv) (x : Frame) : Py (Option Message) → Prop
  /-- No template has the number: ignored. -/
  | unknown : env.dict.getTemplateByPair x.freq x.num = none → Result env x (.ok none)
  /-- Not allowed on UDP, or not handled: ignored. -/
  | skipped (t) : env.dict.getTemplateByPair x.freq x.num = some t → ¬ Parsed env t.name → Result env x (.ok none)
  /-- Too short: ignored. -/
  | short (t) : env.dict.getTemplateByPair x.freq x.num = some t → Parsed env t.name → Short env.rt t.blocks (bodyOf x t) → Result env x (.ok none)
  /-- Ends before the number of instances of a Variable block: an exception. -/
  | noCount (t) : env.dict.getTemplateByPair x.freq x.num = some t → Parsed env t.name → NoCount env.rt t.blocks (bodyOf x t) →
      Result env x (.error .messageDeserialization)
  /-- No instance of any block, though the template has blocks: an exception. -/
  | empty (t raw post bss) : env.dict.getTemplateByPair x.freq x.num = some t → Parsed env t.name → bodyOf x t = raw ++ post →
      BlocksBytes env.rt t.blocks raw bss → t.blocks ≠ [] → (∀ bs ∈ bss, bs = []) → Result env x (.error .messageDeserialization)
  /-- Otherwise: the message. -/
  | message (t raw post bss) : env.dict.getTemplateByPair x.freq x.num = some t → Parsed env t.name → bodyOf x t = raw ++ post →
      BlocksBytes env.rt t.blocks raw bss → (t.blocks = [] ∨ ∃ bs ∈ bss, bs ≠ []) → Result env x (.ok (some (messageOf x t bss)))

end Pyogp.Spec
