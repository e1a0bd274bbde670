/-!
# Python primitives used by the model

Byte strings, exceptions, slices and dictionaries.  Nothing here models a function of `/repo` by itself;
these are the Python 2 built-ins the modelled code uses.
-/

namespace Pyogp

/-- A byte of a Python 2 `str`. -/
abbrev Byte := UInt8

/-- A Python 2 `str`. -/
abbrev Bytes := List UInt8

/-- Python exceptions that the modelled code can raise.  `exc.py` defines the pyogp ones
(`exc.py:153-242,66-94,115-145,292-317,337-348`); the rest are Python built-ins.  Messages carried by exceptions
are not modelled except the HTTP status of `ResourceError`. -/
inductive Exc
  | indexError | structError | keyError | attributeError | nameError | valueError | typeError
  | overflowError | unboundLocalError | genericException | runtimeError
  | dataUnpacking | messageDeserialization | messageSerialization | messageTemplateNotFound
  | circuitNotFound | resourceNotFound | resourceError (code : Int)
  | deserializerNotFound | deserializationFailed | dataParsing | regionCapNotAvailable
  | httpError (code : Int)
  | user (n : Nat)
  deriving DecidableEq, Repr

/-- A Python computation: a value or a raised exception. -/
abbrev Py (α : Type) := Except Exc α

instance {α : Type} [DecidableEq α] : DecidableEq (Py α)
  | .ok a, .ok b => if h : a = b then isTrue (by rw [h]) else isFalse (by intro h'; cases h'; exact h rfl)
  | .error a, .error b =>
      if h : a = b then isTrue (by rw [h]) else isFalse (by intro h'; cases h'; exact h rfl)
  | .ok _, .error _ => isFalse (by intro h; cases h)
  | .error _, .ok _ => isFalse (by intro h; cases h)

/-- `b[i:j]` for non-negative `i`, `j` (Python clamps both to the length). -/
def slice {α : Type} (b : List α) (i j : Nat) : List α := (b.drop i).take (j - i)

/-- `b[-k:]` for `k ≥ 1` (clamped). -/
def lastN {α : Type} (b : List α) (k : Nat) : List α := b.drop (b.length - k)

/-- `b[:-k]` for `k ≥ 1` (clamped). -/
def dropLastN {α : Type} (b : List α) (k : Nat) : List α := b.take (b.length - k)

/-- `b[i:]` for an arbitrary Python integer index: negative indices count from the end and are clamped. -/
def sliceFrom {α : Type} (b : List α) (i : Int) : List α :=
  if 0 ≤ i then b.drop i.toNat else b.drop (b.length - (-i).toNat)

/-- `b[i]` for a non-negative index; raises `IndexError`. -/
def index {α : Type} (b : List α) (i : Nat) : Py α :=
  match b[i]? with
  | some x => .ok x
  | none => .error .indexError

/-- `s.rstrip('\x00')`. -/
def rstrip0 (b : Bytes) : Bytes := (b.reverse.dropWhile (· == 0)).reverse

/-- A Python dict, as an association list in iteration order. -/
abbrev Dict (κ α : Type) := List (κ × α)

namespace Dict
variable {κ α : Type} [DecidableEq κ]

/-- `d.get(k)` / membership and lookup. -/
def get? : Dict κ α → κ → Option α
  | [], _ => none
  | (k', v) :: d, k => if k' = k then some v else get? d k

/-- `d[k]`; raises `KeyError`. -/
def get (d : Dict κ α) (k : κ) : Py α :=
  match get? d k with
  | some v => .ok v
  | none => .error .keyError

/-- `k in d`. -/
def has (d : Dict κ α) (k : κ) : Bool := (get? d k).isSome

/-- `d[k] = v`: replaces the value of an existing key in place, otherwise adds the key. -/
def set : Dict κ α → κ → α → Dict κ α
  | [], k, v => [(k, v)]
  | (k', v') :: d, k, v => if k' = k then (k, v) :: d else (k', v') :: set d k v

/-- `del d[k]` (for a dict without duplicate keys). -/
def del (d : Dict κ α) (k : κ) : Dict κ α := d.filter (fun p => p.1 ≠ k)

/-- `d.keys()`. -/
def keys (d : Dict κ α) : List κ := d.map (·.1)

/-- `d.values()`. -/
def values (d : Dict κ α) : List α := d.map (·.2)

end Dict
end Pyogp
