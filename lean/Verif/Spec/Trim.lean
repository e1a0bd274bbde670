/-!
# Specification: white space around a text
-/

namespace Pyogp.Spec

/-- White space for `str.strip`: blank, tab, newline, carriage return, vertical tab, form feed. -/
def White (c : Char) : Prop := c ∈ [' ', '\t', '\n', '\r', '\x0b', '\x0c']

/-- `t` is `s` without the white space at the start and at the end. -/
def Trimmed (s t : List Char) : Prop :=
  ∃ pre post, s = pre ++ t ++ post ∧ (∀ c ∈ pre, White c) ∧ (∀ c ∈ post, White c) ∧
    (∀ c, t.head? = some c → ¬ White c) ∧ (∀ c, t.getLast? = some c → ¬ White c)

end Pyogp.Spec
