import Verif.Model.Base
import Mathlib.Data.Rat.Defs
import Mathlib.Algebra.Order.Ring.Rat

/-!
# `helpers.Wait`

Models `helpers.py:278-312`.  The clock readings, what `api.sleep()` does and calls of `stop` by other coroutines while it sleeps are given by a list of
passes.
-/

namespace Pyogp

/-- What `api.sleep()` followed by `time.time()` does (`helpers.py:302-305`). -/
inductive SleepResult
  | ok (now : ℚ)
  | assertion
  | exc (e : Exc)
  deriving DecidableEq, Repr

/-- One pass of the loop: the outcome of the sleep, and whether `stop` (`helpers.py:310-312`) was called meanwhile. -/
structure WaitPass where
  sleep : SleepResult
  stopped : Bool
  deriving DecidableEq, Repr

/-- `int(duration)` (`helpers.py:287`): truncation towards zero. -/
def pyTrunc (q : ℚ) : Int := q.num.tdiv q.den

/-- `helpers.py:300-308`: the loop, with the passes not used; `none` if it still runs after the given passes. -/
def waitLoop (start : ℚ) (duration : Int) : ℚ → Bool → List WaitPass → Option (Py Bool × List WaitPass)
  | now, enabled, [] => if enabled = true ∧ now - start < duration then none else some (.ok true, [])
  | now, enabled, p :: ps =>
    if enabled = true ∧ now - start < duration then
      match p.sleep with
      | .ok t => waitLoop start duration t (enabled && !p.stopped) ps
      | .assertion => waitLoop start duration now (enabled && !p.stopped) ps
      | .exc e => some (.error e, ps)
    else some (.ok true, p :: ps)

/-- `helpers.py:285-298`: `Wait(duration)` constructs and runs; `start` is the first clock reading. -/
def waitNew (duration start : ℚ) (passes : List WaitPass) : Option (Py Bool × List WaitPass) :=
  waitLoop start (pyTrunc duration) start true passes

end Pyogp
