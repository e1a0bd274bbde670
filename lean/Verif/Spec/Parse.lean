import Verif.Spec.Transmit
import Verif.Model.Struct
import Verif.Model.Deserializer

/-!
# Specification: which bytes a decoded message was read from

A relation between a piece of a datagram and the decoded content, with no reference to positions or to the decoder.
-/

namespace Pyogp.Spec

/-- The value of bytes written least significant first. -/
def littleEndian : Bytes → Nat
  | [] => 0
  | b :: bs => b.toNat + 256 * littleEndian bs

/-- `raw` is exactly the bytes of one field, and `x` its value: a variable-length field is a length (as many bytes as the
template says) followed by exactly that many bytes of content; any other field is as many bytes as the template
says, and its value is the value of those bytes alone. -/
def FieldBytes (rt : Runtime) (v : TVar) (raw : Bytes) (x : PyVal) : Prop :=
  if v.type = .variable then
    ∃ len content, raw = len ++ content ∧ len.length = v.size ∧ littleEndian len = content.length ∧
      (if v.name = "Data" then x = .str content else ∃ s, IsStripped content s ∧ x = .str s)
  else raw.length = v.size ∧ unpackData rt raw v.type = .ok x

/-- `raw` is the fields of the variables, one after the other. -/
def VarsBytes (rt : Runtime) : List TVar → Bytes → List VarData → Prop
  | [], raw, ds => raw = [] ∧ ds = []
  | v :: vs, raw, ds => ∃ r₁ r₂ d ds', raw = r₁ ++ r₂ ∧ ds = d :: ds' ∧ d.name = v.name ∧ d.varType = some v.type ∧
      FieldBytes rt v r₁ d.data ∧ VarsBytes rt vs r₂ ds'

/-- A block holding these variables, in this order. -/
def blockOf (name : String) (i : Nat) (ds : List VarData) : BlockData :=
  ds.foldl BlockData.addVariable { BlockData.new name with number := i }

/-- `raw` is the given instances of a block, numbered from `i`, one after the other. -/
def InstancesBytes (rt : Runtime) (tb : TBlock) : Nat → Bytes → List BlockData → Prop
  | _, raw, [] => raw = []
  | i, raw, b :: bs => ∃ r₁ r₂ ds, raw = r₁ ++ r₂ ∧ VarsBytes rt tb.vars r₁ ds ∧ b = blockOf tb.name i ds ∧
      InstancesBytes rt tb (i + 1) r₂ bs

/-- `raw` is all blocks of a template, one after the other; a Variable block starts with the number of its instances. -/
def BlocksBytes (rt : Runtime) : List TBlock → Bytes → List (List BlockData) → Prop
  | [], raw, bss => raw = [] ∧ bss = []
  | tb :: tbs, raw, bss => ∃ cnt r₁ r₂ bs bss', raw = cnt ++ r₁ ++ r₂ ∧ bss = bs :: bss' ∧ CountOk tb bs.length ∧
      cnt = (if tb.blockType = .variable then [UInt8.ofNat bs.length] else []) ∧
      InstancesBytes rt tb 0 r₁ bs ∧ BlocksBytes rt tbs r₂ bss'

/-- The payload after zero-decoding, if the flag says so; `off` extra header bytes are not coded. -/
def Expanded (flags : UInt8) (off : Nat) (buf buf' : Bytes) : Prop :=
  if flags.toNat &&& 0x80 ≠ 0 then
    ∃ header payload payload', buf = header ++ payload ∧ buf' = header ++ payload' ∧ payload' = zeroCodeExpand payload ∧
      (payload ≠ [] → header.length = 6 + off) ∧ header.length ≤ 6 + off
  else buf' = buf

/-- The part of a datagram that is left when the acks it announces are taken off its end. -/
def BeforeAcks (flags : UInt8) (dg buf : Bytes) : Prop :=
  dg.head? = some flags ∧ buf = dg.take (dg.length - (if flags.toNat &&& 0x10 ≠ 0 then 1 + 4 * (dg.getLast?.getD 0).toNat else 0))

/-- The datagrams that end before the end of their message number, with the exception they cause: empty ones; those that consist only of acks;
zero-coded ones without complete header; and those whose (decoded) message number is cut off after `FF`, `FF FF` or `FF FF x`. -/
inductive Truncated : Bytes → Exc → Prop
  | empty : Truncated [] .indexError
  | onlyAcks {flags dg} : BeforeAcks flags dg [] → Truncated dg .indexError
  | zeroCodedHeader {flags dg buf} : BeforeAcks flags dg buf → flags.toNat &&& 0x80 ≠ 0 → buf.length < 6 → Truncated dg .indexError
  | number {flags off dg buf buf' header num} : BeforeAcks flags dg buf → buf ≠ [] → (flags.toNat &&& 0x80 ≠ 0 → buf[5]? = some off) →
      Expanded flags off.toNat buf buf' → buf' = header ++ num → header.length = 6 → num = [0xff] ∨ num = [0xff, 0xff] → Truncated dg .indexError
  | longNumber {flags off dg buf buf' header x} : BeforeAcks flags dg buf → buf ≠ [] → (flags.toNat &&& 0x80 ≠ 0 → buf[5]? = some off) →
      Expanded flags off.toNat buf buf' → buf' = header ++ [0xff, 0xff, x] → header.length = 6 → Truncated dg .structError

end Pyogp.Spec
