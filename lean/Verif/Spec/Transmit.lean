import Verif.Spec.Field
import Verif.Spec.Header
import Verif.Spec.ZeroCode

/-!
# Specification: messages that fill a template, and what their receiver sees
-/

namespace Pyogp.Spec

/-- The number of instances the template allows for a block (a Variable block has a one-byte count). -/
def CountOk (tb : TBlock) (n : Nat) : Prop :=
  match tb.blockType with
  | .single => n = 1
  | .multiple => n = tb.number
  | .variable => n ≤ 255
  | .unknown => False

instance (tb n) : Decidable (CountOk tb n) := by unfold CountOk; split <;> infer_instance

/-- A well-formed template: sizes fit the types, names are unique, the number fits the frequency class, and the id bytes
are those of the message format. -/
structure WFTemplate (t : Template) : Prop where
  vars : ∀ tb ∈ t.blocks, ∀ v ∈ tb.vars, WFVar v
  blockNames : (t.blocks.map (·.name)).Nodup
  varNames : ∀ tb ∈ t.blocks, (tb.vars.map (·.name)).Nodup
  inClass : InClass t.freq t.msgNum
  hex : t.msgNumHex = numPrefix t.freq t.msgNum

/-- `m` fills template `t`: it has every block the right number of times, every instance has every variable with a value
representable in its field, and the message is not empty. -/
structure Fills (rt : Runtime) (t : Template) (m : Message) : Prop where
  name : m.name = t.name
  blocks : ∀ tb ∈ t.blocks, ∃ l, m.getBlock tb.name = .ok l ∧ CountOk tb l.length ∧
    ∀ b ∈ l, ∀ v ∈ tb.vars, ∃ x y, b.getItem v.name = .ok x ∧ receivedAs rt v x = some y
  nonempty : t.blocks = [] ∨ ∃ tb ∈ t.blocks, ∃ l, m.getBlock tb.name = .ok l ∧ l ≠ []

/-- `m'` is `m` as its receiver is meant to see it: for every block of the template the same number of instances in the
same order, every variable of the template with the value `receivedAs` gives, variables in template order, and no
other block.  (A block sent zero times does not appear.) -/
structure SameContent (rt : Runtime) (t : Template) (m m' : Message) : Prop where
  name : m'.name = m.name
  absent : ∀ tb ∈ t.blocks, m.getBlock tb.name = .ok [] → m'.getBlock tb.name = .error .keyError
  present : ∀ tb ∈ t.blocks, ∀ l, m.getBlock tb.name = .ok l → l ≠ [] →
    ∃ l', m'.getBlock tb.name = .ok l' ∧ l'.length = l.length ∧
      ∀ (i : Nat) (b : BlockData), l[i]? = some b → ∃ b' : BlockData, l'[i]? = some b' ∧ b'.name = tb.name ∧ b'.number = i ∧
        b'.varList = tb.vars.map (·.name) ∧
        ∀ v ∈ tb.vars, ∀ x, b.getItem v.name = .ok x → ∃ y, receivedAs rt v x = some y ∧ b'.getItem v.name = .ok y
  others : ∀ n, (∀ tb ∈ t.blocks, tb.name ≠ n) → m'.getBlock n = .error .keyError

/-- Bytes of a packet id in the header (4 bytes, most significant first) and of an appended ack (4 bytes, least
significant first). -/
def idBytes (pid : Nat) : Bytes := [UInt8.ofNat (pid / 2 ^ 24), UInt8.ofNat (pid / 2 ^ 16), UInt8.ofNat (pid / 2 ^ 8), UInt8.ofNat pid]
def ackBytes (pid : Nat) : Bytes := [UInt8.ofNat pid, UInt8.ofNat (pid / 2 ^ 8), UInt8.ofNat (pid / 2 ^ 16), UInt8.ofNat (pid / 2 ^ 24)]

/-- The payload as it travels: zero-coded if the flags say so (`0x80`). -/
def Encoded (flags : UInt8) (payload e : Bytes) : Prop :=
  if flags.toNat &&& 0x80 ≠ 0 then ZeroCoded payload e else e = payload

/-- What a peer appends when it sets the ACK flag (`0x10`): the ids, then their number. -/
def ackTrailer (flags : UInt8) (acks : List Nat) : Bytes :=
  if flags.toNat &&& 0x10 ≠ 0 then acks.flatMap ackBytes ++ [UInt8.ofNat acks.length] else []

/-- A list of ids that can be appended to a datagram with these flags. -/
structure AcksOk (flags : UInt8) (acks : List Nat) : Prop where
  count : acks.length ≤ 255
  ids : ∀ a ∈ acks, a < 2 ^ 32
  flag : flags.toNat &&& 0x10 = 0 → acks = []

end Pyogp.Spec
