import Verif.Model.Message

/-! # Specification: which part of a message a template looks at -/

namespace Pyogp.Spec

/-- Two messages agree on what template `t` mentions: for every block of the template both lack it, or both have it the
same number of times with, instance by instance, the same values (or the same absence) for the template's variables. -/
def AgreeOn (t : Template) (m₁ m₂ : Message) : Prop :=
  ∀ tb ∈ t.blocks,
    (m₁.getBlock tb.name = .error .keyError ∧ m₂.getBlock tb.name = .error .keyError) ∨
    ∃ l₁ l₂, m₁.getBlock tb.name = .ok l₁ ∧ m₂.getBlock tb.name = .ok l₂ ∧ l₁.length = l₂.length ∧
      ∀ (i : Nat) (b₁ b₂ : BlockData), l₁[i]? = some b₁ → l₂[i]? = some b₂ →
        ∀ v ∈ tb.vars, b₁.getItem v.name = b₂.getItem v.name

/-- The blocks among the arguments of `Message(name, …)`, lists flattened. -/
def argBlocks : List BlockArg → List BlockData
  | [] => []
  | .one b :: rest => b :: argBlocks rest
  | .many l :: rest => l ++ argBlocks rest

/-- The blocks with a given name, in order. -/
def named (n : String) (l : List BlockData) : List BlockData := l.filter (fun b => b.name = n)

end Pyogp.Spec
