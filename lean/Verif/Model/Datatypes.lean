import Verif.Model.Types
import Verif.Model.Helpers

/-!
# `datatypes.Vector3`, `datatypes.Quaternion` and comparison of `datatypes.UUID`

Models `datatypes.py:33-180,233-238`.  `float(text)` is an oracle `pf` (`none`: `ValueError`).  `str(x)` of a float is an oracle too.
-/

namespace Pyogp

/-- A `Vector3` object. -/
structure Vec3 where
  X : F64
  Y : F64
  Z : F64
  deriving DecidableEq, Repr

/-- A `Quaternion` object (`W = 0`, an int, of `datatypes.py:157` is the double 0: `struct.pack` does not distinguish them). -/
structure Quat where
  X : F64
  Y : F64
  Z : F64
  W : F64
  deriving DecidableEq, Repr

/-- `if type(X) != float: float(X) else X` (`datatypes.py:44-55,118-133`). -/
def pyFloat (pf : Bytes → Option F64) : PyVal → Py F64
  | .num (.flt x) => .ok x
  | .num (.int i) => match intToF64 i with
    | some x => .ok x
    | none => .error .overflowError
  | .str s => match pf s with
    | some x => .ok x
    | none => .error .valueError
  | .unicode s => match pf s with
    | some x => .ok x
    | none => .error .valueError
  | _ => .error .typeError

/-- `datatypes.py:57-63`, the components read. -/
def vec3Read (b : Bytes) (off : Nat) : Py Vec3 := do
  let x ← unpackF32 .little (slice b off (off + 4))
  let y ← unpackF32 .little (slice b (off + 4) (off + 8))
  let z ← unpackF32 .little (slice b (off + 8) (off + 12))
  .ok ⟨x, y, z⟩

/-- `datatypes.py:36-55` (`Vector3.__init__`). -/
def vec3New (pf : Bytes → Option F64) (bytes : Option Bytes) (offset : Nat) (X Y Z : PyVal) : Py Vec3 :=
  match bytes with
  | some b => vec3Read b offset
  | none => do .ok ⟨← pyFloat pf X, ← pyFloat pf Y, ← pyFloat pf Z⟩

/-- `datatypes.py:65-68` (`get_bytes`): `struct.pack("<3f", …)`. -/
def Vec3.getBytes (v : Vec3) : Py Bytes := packTuple .little .f [.flt v.X, .flt v.Y, .flt v.Z]

/-- `datatypes.py:74-75` (`copy`). -/
def Vec3.copy (pf : Bytes → Option F64) (v : Vec3) : Py Vec3 := vec3New pf none 0 (.num (.flt v.X)) (.num (.flt v.Y)) (.num (.flt v.Z))

/-- `datatypes.py:77-80` (`__repr__`): `'<%s, %s, %s>'`; `fmt` is `str` of a float. -/
def Vec3.repr (fmt : F64 → List Char) (v : Vec3) : List Char :=
  ['<'] ++ fmt v.X ++ [',', ' '] ++ fmt v.Y ++ [',', ' '] ++ fmt v.Z ++ ['>']

/-- `s.split(c)`. -/
def splitChar (c : Char) : List Char → List (List Char)
  | [] => [[]]
  | x :: s =>
    if x = c then [] :: splitChar c s
    else match splitChar c s with
      | [] => [[x]]
      | f :: fs => (x :: f) :: fs

/-- `[float(d.strip()) for d in dims]` (`datatypes.py:105`); `pf` is `float` on text. -/
def floatsOf (pf : List Char → Option F64) : List (List Char) → Py (List F64)
  | [] => .ok []
  | d :: ds => match pf (strip d) with
    | none => .error .valueError
    | some x => do .ok (x :: (← floatsOf pf ds))

/-- `datatypes.py:94-106` (`Vector3.parse`). -/
def vec3Parse (pf : List Char → Option F64) (s : List Char) : Py Vec3 :=
  let s := (s.filter (· ≠ '<')).filter (· ≠ '>')
  let dims := splitChar ',' s
  if dims.length ≠ 3 then .error .valueError
  else do
    match ← floatsOf pf dims with
    | [x, y, z] => .ok ⟨x, y, z⟩
    | _ => .error .valueError

/-- `datatypes.py:135-157` (`Quaternion.unpack_from_bytes`), with the unused argument `length`. -/
def quatRead (rt : Runtime) (b : Bytes) (off : Nat) (_length : Int := 4) : Py Quat := do
  let x ← unpackF32 .little (slice b off (off + 4))
  let y ← unpackF32 .little (slice b (off + 4) (off + 8))
  let z ← unpackF32 .little (slice b (off + 8) (off + 12))
  match unpackF32 .little (slice b (off + 12) (off + 16)) with
  | .ok w => .ok ⟨x, y, z, w⟩
  | .error _ => .ok ⟨x, y, z, rt.quatW x y z⟩

/-- `datatypes.py:110-133` (`Quaternion.__init__`). -/
def quatNew (rt : Runtime) (pf : Bytes → Option F64) (bytes : Option Bytes) (offset : Nat) (length : Int) (X Y Z W : PyVal) : Py Quat :=
  match bytes with
  | some b => quatRead rt b offset length
  | none => do .ok ⟨← pyFloat pf X, ← pyFloat pf Y, ← pyFloat pf Z, ← pyFloat pf W⟩

/-- `datatypes.py:159-162` (`get_bytes`): `struct.pack("<4f", …)`. -/
def Quat.getBytes (q : Quat) : Py Bytes := packTuple .little .f [.flt q.X, .flt q.Y, .flt q.Z, .flt q.W]

/-- `datatypes.py:168-169` (`copy`). -/
def Quat.copy (rt : Runtime) (pf : Bytes → Option F64) (q : Quat) : Py Quat :=
  quatNew rt pf none 0 4 (.num (.flt q.X)) (.num (.flt q.Y)) (.num (.flt q.Z)) (.num (.flt q.W))

/-- An operand of a comparison with a `datatypes.UUID`: such an object (its identity and value), a standard `uuid.UUID`, or anything else without an
attribute `uuid`. -/
inductive UuidOperand
  | obj (id : Nat) (value : BitVec 128)
  | std (id : Nat) (value : BitVec 128)
  | other (id : Nat)
  deriving DecidableEq, Repr

/-- Identity of the operand. -/
def UuidOperand.id : UuidOperand → Nat
  | .obj i _ | .std i _ | .other i => i

/-- `datatypes.py:233-238` (`UUID.__eq__`): `hasattr(other, 'uuid')` holds for `datatypes.UUID` only. -/
def uuidEq (value : BitVec 128) : UuidOperand → Bool
  | .obj _ v => value == v
  | _ => false

/-- `a != b`: the class defines no `__ne__` (`datatypes.py:181-249`), so Python 2 compares identities. -/
def uuidNe (id : Nat) (o : UuidOperand) : Bool := id != o.id

/-- `hash(u)`: the class defines `__eq__` but no `__hash__` (`datatypes.py:181-249`), so Python 2 uses that of `object`, an injective function `h` of the identity. -/
def uuidHash (h : Nat → Nat) (id : Nat) : Nat := h id

/-- `u in l` for a list of `datatypes.UUID` objects (identity, value): an element that is `u` or equal to it. -/
def uuidInList (l : List (Nat × BitVec 128)) (id : Nat) (value : BitVec 128) : Bool :=
  l.any fun k => k.1 == id || uuidEq value (.obj k.1 k.2)

/-- `d.get(u)` for a dict with `datatypes.UUID` objects as keys: a key that is `u`, or has the same hash and is equal to it. -/
def uuidDictGet {α : Type} (h : Nat → Nat) (d : List ((Nat × BitVec 128) × α)) (id : Nat) (value : BitVec 128) : Option α :=
  (d.find? fun k => k.1.1 == id || (uuidHash h k.1.1 == uuidHash h id && uuidEq value (.obj k.1.1 k.1.2))).map (·.2)

end Pyogp
