import Verif.Proofs.SerializeErrors
import Verif.Props.Serialize

/-! # C87: what an exception of `serialize` is about -/

namespace Pyogp
open Spec

/-- **C87** (same program). Without the arguments of the exceptions, the labelled `serialize` is `serialize`. -/
theorem C87_same_outcome (env : SerEnv) (m : Message) :
    serialize env m = match serializeL env m with
      | .ok r => .ok r
      | .error r => .error r.exc := by
  rw [← serialize_forget]
  cases serializeL env m <;> rfl

/-- **C87** (first fault). `serialize` raises an exception about the first thing wrong with the message, in the order of the template, and raises nothing
else. -/
theorem C87_first_fault (env : SerEnv) (m : Message) (e : Exc) (l : Option String) :
    serializeL env m = .error ⟨e, l⟩ ↔ MessageFault env m e l := serializeL_iff env m e l

/-- **C87** (fine). `serialize` returns normally exactly when nothing is wrong. -/
theorem C87_returns (env : SerEnv) (m : Message) : (∃ r, serialize env m = .ok r) ↔ ∀ e l, ¬ MessageFault env m e l := by
  rw [C87_same_outcome]
  constructor
  · rintro ⟨r, h⟩ e l hf
    rw [(serializeL_iff env m e l).mpr hf] at h
    cases h
  · intro h
    cases hs : serializeL env m with
    | ok r => exact ⟨r, rfl⟩
    | error r => exact absurd ((serializeL_iff env m r.exc r.about).mp hs) (h _ _)

/-- **C87** (a missing block). If the blocks before it are fine, the `KeyError` for a missing block carries its name. -/
theorem C87_missing_block (env : SerEnv) (m : Message) (t : Template) (ht : env.dict.getTemplate m.name = some t)
    (hx : validateUdpMsg env.xml t.name = .ok true) (hf : m.sendFlags < 256) (hp : m.packetId < 2 ^ 31)
    (pre post : List TBlock) (tb : TBlock) (hb : t.blocks = pre ++ tb :: post) (hpre : ∀ b ∈ pre, BlockFine env.rt m b)
    (hm : ∀ l, m.getBlock tb.name ≠ .ok l) : serializeL env m = .error ⟨.keyError, some tb.name⟩ := by
  obtain ⟨b, h1⟩ := u8_packs env.rt m.sendFlags hf
  obtain ⟨b', h2⟩ := s32_packs env.rt m.packetId hp
  exact (serializeL_iff env m _ _).mpr (.block t _ _ b b' ht hx h1 h2 ⟨pre, tb, post, hb, hpre, .missing hm⟩)

/-- **C87** (a missing variable). If everything before it is fine, the `KeyError` for a missing variable carries its name. -/
theorem C87_missing_variable (env : SerEnv) (m : Message) (t : Template) (ht : env.dict.getTemplate m.name = some t)
    (hx : validateUdpMsg env.xml t.name = .ok true) (hf : m.sendFlags < 256) (hp : m.packetId < 2 ^ 31)
    (pre post : List TBlock) (tb : TBlock) (hb : t.blocks = pre ++ tb :: post) (hpre : ∀ b ∈ pre, BlockFine env.rt m b)
    (l l₁ l₂ : List BlockData) (b : BlockData) (hl : m.getBlock tb.name = .ok l) (hn : tb.blockType = .multiple → l.length = tb.number)
    (hc : tb.blockType = .variable → l.length ≤ 255) (hs : l = l₁ ++ b :: l₂) (hfine : ∀ x ∈ l₁, ∀ v ∈ tb.vars, VarFine env.rt x v)
    (v₁ v₂ : List TVar) (v : TVar) (hv : tb.vars = v₁ ++ v :: v₂) (hvf : ∀ w ∈ v₁, VarFine env.rt b w)
    (hm : ∀ x, b.getItem v.name ≠ .ok x) : serializeL env m = .error ⟨.keyError, some v.name⟩ := by
  obtain ⟨b1, h1⟩ := u8_packs env.rt m.sendFlags hf
  obtain ⟨b2, h2⟩ := s32_packs env.rt m.packetId hp
  exact (serializeL_iff env m _ _).mpr (.block t _ _ b1 b2 ht hx h1 h2 ⟨pre, tb, post, hb, hpre,
    .var l _ _ hl hn (fun h _ => hc h) ⟨l₁, b, l₂, hs, hfine, v₁, v, v₂, hv, hvf, .missing hm⟩⟩)

/-- A template with a `Multiple` block. -/
def pairTemplate : Template :=
  { name := "Two", freq := .low, msgNum := 301, msgNumHex := [0xff, 0xff, 1, 45],
    blocks := [{ name := "Pair", blockType := .multiple, number := 2, vars := [⟨"N", .u16, 2⟩, ⟨"S", .variable, 3⟩] }] }

def pairSer : SerEnv := ⟨demoRt, { byName := [("Two", pairTemplate)], byPair := [] }, []⟩

instance : DecidableEq (PyL (Option Bytes))
  | .ok a, .ok b => if h : a = b then .isTrue (by rw [h]) else .isFalse (fun h' => h (by cases h'; rfl))
  | .error a, .error b => if h : a = b then .isTrue (by rw [h]) else .isFalse (fun h' => h (by cases h'; rfl))
  | .ok _, .error _ => .isFalse (fun h => by cases h)
  | .error _, .ok _ => .isFalse (fun h => by cases h)

/-! Concrete cases: a missing block, a missing variable, and a `Multiple` block with the wrong number of instances. -/

example : serializeL demoSer (Message.new "Demo" [.one (Block.mk' "Head" [("Id", .num (.int 77)), ("Name", .str [])])])
    = .error ⟨.keyError, some "Items"⟩ := by decide +kernel
example : serializeL demoSer (Message.new "Demo" [.one (Block.mk' "Head" [("Id", .num (.int 77))]), .one (Block.mk' "Items" [("N", .num (.int 1))])])
    = .error ⟨.keyError, some "Name"⟩ := by decide +kernel
example : serializeL demoSer (Message.new "Nothing" []) = .error ⟨.attributeError, none⟩ := by decide +kernel
example : serializeL pairSer (Message.new "Two" [.one (Block.mk' "Pair" [("N", .num (.int 1)), ("S", .str [])])])
    = .error ⟨.messageSerialization, some "Pair"⟩ := by decide +kernel
example : serializeL pairSer (Message.new "Two" [.many [Block.mk' "Pair" [("N", .num (.int 1)), ("S", .str [])], Block.mk' "Pair" []]])
    = .error ⟨.messageSerialization, some "variable size"⟩ := by decide +kernel
example : serializeL pairSer (Message.new "Two" [.many [Block.mk' "Pair" [("N", .num (.int 65536)), ("S", .str [])], Block.mk' "Pair" []]])
    = .error ⟨.structError, none⟩ := by decide +kernel
/-- The hypotheses of `C87_missing_variable` are met by a message without `Name`: `Id` can be packed. -/
example : (∀ b ∈ ([] : List TBlock), BlockFine demoSer.rt (Message.new "Demo" []) b) ∧
    VarFine demoSer.rt (Block.mk' "Head" [("Id", .num (.int 77))]) ⟨"Id", .u32, 4⟩ ∧
    ∀ x, (Block.mk' "Head" [("Id", .num (.int 77))]).getItem "Name" ≠ .ok x := by
  refine ⟨fun _ h => (nomatch h), ?_, ?_⟩
  · exact (serializeVarL_ok _ _ _).mp ⟨[77, 0, 0, 0], rfl⟩
  · exact (getItem_iff _ _).mpr rfl

end Pyogp
