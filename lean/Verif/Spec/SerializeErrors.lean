import Verif.Model.SerializeErrors

/-!
# Specification: the first thing wrong with a message
-/

namespace Pyogp.Spec

/-- `P` holds for some element of the list, and `ok` for all elements before it. -/
def First {α : Type} (ok P : α → Prop) (l : List α) : Prop := ∃ pre x post, l = pre ++ x :: post ∧ (∀ y ∈ pre, ok y) ∧ P x

/-- The type of the length of a variable-length field with a length of `n` bytes. -/
def lenType : Nat → Option MsgType
  | 1 => some .u8
  | 2 => some .u16
  | 4 => some .u32
  | _ => none

/-- What can be wrong with a variable of a block: it is missing; its value cannot be packed; the template declares an unknown size of length; the
length cannot be packed. -/
inductive VarFault (rt : Runtime) (b : BlockData) (v : TVar) : Exc → Option String → Prop
  | missing : (∀ x, b.getItem v.name ≠ .ok x) → VarFault rt b v .keyError (some v.name)
  | value (x e) : b.getItem v.name = .ok x → packData rt x v.type = .error e → VarFault rt b v e none
  | size (x data) : b.getItem v.name = .ok x → packData rt x v.type = .ok data → v.type = .variable → lenType v.size = none →
      VarFault rt b v .messageSerialization (some "variable size")
  | length (x data ty e) : b.getItem v.name = .ok x → packData rt x v.type = .ok data → v.type = .variable → lenType v.size = some ty →
      packData rt (.num (.int data.length)) ty = .error e → VarFault rt b v e none

def VarFine (rt : Runtime) (b : BlockData) (v : TVar) : Prop := ∀ e l, ¬ VarFault rt b v e l

/-- What can be wrong with a block: it is missing; there are not as many instances as a Multiple block has; there are more than can be counted; or something is
wrong with a variable of an instance. -/
inductive BlockFault (rt : Runtime) (m : Message) (tb : TBlock) : Exc → Option String → Prop
  | missing : (∀ l, m.getBlock tb.name ≠ .ok l) → BlockFault rt m tb .keyError (some tb.name)
  | count (l) : m.getBlock tb.name = .ok l → tb.blockType = .multiple → l.length ≠ tb.number → BlockFault rt m tb .messageSerialization (some tb.name)
  | many (l) : m.getBlock tb.name = .ok l → tb.blockType = .variable → rt.ver = .v27 → 255 < l.length → BlockFault rt m tb .structError none
  | var (l e w) : m.getBlock tb.name = .ok l → (tb.blockType = .multiple → l.length = tb.number) →
      (tb.blockType = .variable → rt.ver = .v27 → l.length ≤ 255) →
      First (fun b => ∀ v ∈ tb.vars, VarFine rt b v) (fun b => First (VarFine rt b) (fun v => VarFault rt b v e w) tb.vars) l → BlockFault rt m tb e w

def BlockFine (rt : Runtime) (m : Message) (tb : TBlock) : Prop := ∀ e l, ¬ BlockFault rt m tb e l

/-- What is wrong with a message: its name; message.xml; flags or id that do not fit; or its first block with something wrong. -/
inductive MessageFault (env : SerEnv) (m : Message) : Exc → Option String → Prop
  | name : env.dict.getTemplate m.name = none → MessageFault env m .attributeError none
  | xml (t) : env.dict.getTemplate m.name = some t → env.xml.get? t.name = some none → MessageFault env m .keyError (some "flavor")
  | flags (t e) : env.dict.getTemplate m.name = some t → validateUdpMsg env.xml t.name = .ok true →
      packData env.rt (.num (.int m.sendFlags)) .u8 = .error e → MessageFault env m e none
  | id (t b e) : env.dict.getTemplate m.name = some t → validateUdpMsg env.xml t.name = .ok true →
      packData env.rt (.num (.int m.sendFlags)) .u8 = .ok b → packData env.rt (.num (.int m.packetId)) .s32 (some .big) = .error e →
      MessageFault env m e none
  | block (t e l b b') : env.dict.getTemplate m.name = some t → validateUdpMsg env.xml t.name = .ok true →
      packData env.rt (.num (.int m.sendFlags)) .u8 = .ok b → packData env.rt (.num (.int m.packetId)) .s32 (some .big) = .ok b' →
      First (BlockFine env.rt m) (fun tb => BlockFault env.rt m tb e l) t.blocks → MessageFault env m e l

end Pyogp.Spec
