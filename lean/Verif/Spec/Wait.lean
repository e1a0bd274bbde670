import Verif.Model.Wait

/-! # Specification of waiting -/

namespace Pyogp.Spec

/-- The last clock reading after some passes. -/
def lastReading (start : ℚ) : List WaitPass → ℚ
  | [] => start
  | p :: ps => match p.sleep with
    | .ok t => lastReading t ps
    | _ => lastReading start ps

/-- `stop` was called during one of the passes. -/
def StoppedIn (ps : List WaitPass) : Prop := ∃ p ∈ ps, p.stopped = true

/-- No pass raised anything but `AssertionError`. -/
def Quiet (ps : List WaitPass) : Prop := ∀ p ∈ ps, ∀ e, p.sleep ≠ .exc e

/-- A wait of `n` seconds from `start` is over after the passes: the clock shows it, or it was stopped. -/
def Over (start : ℚ) (n : Int) (ps : List WaitPass) : Prop := start + n ≤ lastReading start ps ∨ StoppedIn ps

end Pyogp.Spec
