import Verif.Spec.Parse

/-!
# Specification: the bytes of a sent message

What a datagram looks like for a message, written down from the protocol: a relation between a template, a message and bytes, block by block,
instance by instance, field by field.
-/

namespace Pyogp.Spec

/-- The bytes of one field holding the value `x`.  A variable-length field is a length (1, 2 or 4 bytes, least significant first) followed by the
text and a NUL; the length counts the NUL, and is cut to the width of the prefix by Python 2.6 and refused by 2.7 if it does not fit.
The values of the other types are those of `pack_data`, see C01–C07. -/
def SentField (rt : Runtime) (v : TVar) (x : PyVal) (raw : Bytes) : Prop :=
  if v.type = .variable then
    (v.size = 1 ∨ v.size = 2 ∨ v.size = 4) ∧ ∃ len s, textBytes x = some s ∧ raw = len ++ (s ++ [0]) ∧ len.length = v.size ∧
      littleEndian len = (s.length + 1) % 256 ^ v.size ∧ (rt.ver = .v27 → s.length + 1 < 256 ^ v.size)
  else packData rt x v.type = .ok raw

/-- The fields of one block instance, in template order. -/
def SentVars (rt : Runtime) (b : BlockData) : List TVar → Bytes → Prop
  | [], raw => raw = []
  | v :: vs, raw => ∃ x r₁ r₂, raw = r₁ ++ r₂ ∧ b.getItem v.name = .ok x ∧ SentField rt v x r₁ ∧ SentVars rt b vs r₂

/-- The instances of a block, in the order of the message. -/
def SentInstances (rt : Runtime) (vs : List TVar) : List BlockData → Bytes → Prop
  | [], raw => raw = []
  | b :: bs, raw => ∃ r₁ r₂, raw = r₁ ++ r₂ ∧ SentVars rt b vs r₁ ∧ SentInstances rt vs bs r₂

/-- The blocks of a template, in its order.  A Variable block starts with a byte that counts its instances (modulo 256 on Python 2.6, which
accepts more than 255); a Multiple block must be there exactly as often as the template says; a Single block must be there, and *every*
instance given is written. -/
def SentBlocks (rt : Runtime) (m : Message) : List TBlock → Bytes → Prop
  | [], raw => raw = []
  | tb :: tbs, raw => ∃ l r₁ r₂, m.getBlock tb.name = .ok l ∧
      raw = (if tb.blockType = .variable then [UInt8.ofNat l.length] else []) ++ r₁ ++ r₂ ∧
      (tb.blockType = .multiple → l.length = tb.number) ∧ (tb.blockType = .variable → rt.ver = .v27 → l.length < 256) ∧
      SentInstances rt tb.vars l r₁ ∧ SentBlocks rt m tbs r₂

/-- A whole datagram: flags, packet id, no extra header bytes, the message number, the blocks; RegionHandshakeReply is followed by four zero
bytes. -/
def SentDatagram (rt : Runtime) (t : Template) (m : Message) (dg : Bytes) : Prop :=
  ∃ body, SentBlocks rt m t.blocks body ∧ dg = [UInt8.ofNat m.sendFlags] ++ idBytes m.packetId ++ [0] ++ t.msgNumHex ++ body ++
    (if t.name = "RegionHandshakeReply" then [0, 0, 0, 0] else [])

end Pyogp.Spec
