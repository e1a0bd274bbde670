import Verif.Model.Message

/-!
# Specification: which messages can be shown as text
-/

namespace Pyogp.Spec

/-- The message was put together from `Block`s (which do not say of what type a variable is): all its variables are there, without a type. -/
def BuiltFromBlocks (m : Message) : Prop :=
  ∀ p ∈ m.blocks, ∀ b ∈ p.2, ∀ n ∈ b.varList, ∃ v, b.vars.get? n = some v ∧ v.varType = none

/-- Some variable of the message is a `unicode` object with a character that is not ASCII. -/
def HasNonAsciiText (m : Message) : Prop :=
  ∃ p ∈ m.blocks, ∃ b ∈ p.2, ∃ n ∈ b.varList, ∃ v u x, b.vars.get? n = some v ∧ v.data = .unicode u ∧ x ∈ u ∧ 128 ≤ x.toNat

/-- `v` is a variable of the message. -/
def HasVariable (m : Message) (v : VarData) : Prop := ∃ p ∈ m.blocks, ∃ b ∈ p.2, ∃ n ∈ b.varList, b.vars.get? n = some v

/-- The variable can be shown by itself: one marked as Variable must hold text, one marked as Fixed a `str` of even length, any other anything but `unicode`
text that is not ASCII. -/
def Showable (v : VarData) : Prop :=
  (v.varType = some .variable → ∃ s, v.data = .str s ∨ v.data = .unicode s) ∧
  (v.varType = some .fixed → ∃ s, v.data = .str s ∧ s.length % 2 = 0) ∧
  (v.varType ≠ some .variable → ∀ u x, v.data = .unicode u → x ∈ u → x.toNat < 128)

/-- It is shown as `unicode` text. -/
def ShownAsUnicode (v : VarData) : Prop := v.varType = some .variable ∧ ∃ u, v.data = .unicode u

/-- It is shown as a `str` with a byte over 127. -/
def ShownAsHighBytes (v : VarData) : Prop := v.varType ≠ some .fixed ∧ ∃ s x, v.data = .str s ∧ x ∈ s ∧ 128 ≤ x.toNat

end Pyogp.Spec
