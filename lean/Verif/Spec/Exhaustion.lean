import Verif.Spec.Network

/-!
# The life of a circuit

What a trace says about an address since its circuit was last removed.
-/

namespace Pyogp.Spec

/-- The part of a trace after the last removal of the circuit of `a`. -/
def sinceRemoval (a : Addr) (tr : List Ev) : List Ev :=
  tr.foldl (fun h e => match e with
    | .removed b => if b = a then [] else h ++ [e]
    | _ => h ++ [e]) []

end Pyogp.Spec
