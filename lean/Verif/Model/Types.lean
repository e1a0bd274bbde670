import Verif.Model.Float
import Verif.Model.Llsd

/-!
# Message types, runtime values, `DataPacker`, `DataUnpacker`

Models `message/msgtypes.py`, `message/data_packer.py`, `message/data_unpacker.py` and the byte-level parts of
`datatypes.py`.
-/

namespace Pyogp

/-- `msgtypes.py:83-110` (`MsgType`). -/
inductive MsgType
  | fixed | variable | u8 | u16 | u32 | u64 | s8 | s16 | s32 | s64 | f32 | f64
  | vector3 | vector3d | vector4 | quaternion | uuid | bool | ipaddr | ipport
  deriving DecidableEq, Repr

/-- `msgtypes.py:37-40` (`MsgBlockType`); `unknown` stands for the `None` that `template_parser.py:186-198` leaves
when the keyword is not recognised. -/
inductive BlockType | single | multiple | variable | unknown
  deriving DecidableEq, Repr

/-- `msgtypes.py:62-66` (`MsgFrequency`); the numeric value is the number of header bytes, `-1` for fixed. -/
inductive Frequency | fixed | low | medium | high
  deriving DecidableEq, Repr

/-- `msgtypes.py:50-55` (`PackFlags`). -/
def flagZeroCode : Nat := 0x80
def flagReliable : Nat := 0x40
def flagResent : Nat := 0x20
def flagAck : Nat := 0x10

/-- `msgtypes.py:123-163` (`sizeof`); `none` for the `-1` of `MVT_FIXED` and `MVT_VARIABLE`. -/
def sizeof : MsgType → Option Nat
  | .fixed => none
  | .variable => none
  | .u8 => some 1
  | .u16 => some 2
  | .u32 => some 4
  | .u64 => some 8
  | .s8 => some 1
  | .s16 => some 2
  | .s32 => some 4
  | .s64 => some 8
  | .f32 => some 4
  | .f64 => some 8
  | .vector3 => some 12
  | .vector3d => some 24
  | .vector4 => some 16
  | .quaternion => some 12
  | .uuid => some 16
  | .bool => some 1
  | .ipaddr => some 4
  | .ipport => some 2

/-- What the model does not fix about the Python runtime: the version (see `PyVersion`) and the double-precision
arithmetic `sqrt(1.0 - (x*x + y*y + z*z))` (or `0`) of `datatypes.py:152-157`. -/
structure Runtime where
  ver : PyVersion
  quatW : F64 → F64 → F64 → F64

/-- A Python number. -/
inductive Num | int (i : Int) | flt (x : F64)
  deriving DecidableEq, Repr

/-- Values that variables of a message can hold.  `unicode` carries its UTF-8 encoding (the codec is not modelled);
`uuid` stands for both `datatypes.UUID` and the standard `uuid.UUID` (the packer treats them alike,
`data_packer.py:89-94`), by its 128-bit integer; `vec3`/`quat` are `datatypes.Vector3`/`Quaternion` objects;
`tuple` is a tuple of numbers; booleans are the integers 0 and 1; `llsd` is a value of an event-queue message
(such messages are never packed; packing one is modelled as an error). -/
inductive PyVal
  | none
  | num (n : Num)
  | str (b : Bytes)
  | unicode (utf8 : Bytes)
  | uuid (u : BitVec 128)
  | tuple (ns : List Num)
  | vec3 (x y z : F64)
  | quat (x y z w : F64)
  | llsd (v : Llsd)
  deriving DecidableEq, Repr

/-- `uuid.UUID.bytes`: 16 bytes, most significant first (used by `datatypes.py:213-216`). -/
def uuidBytes (u : BitVec 128) : Bytes := (leBytes 16 u.toNat).reverse

/-- `uuid.UUID(bytes = b)`: raises `ValueError` unless 16 bytes (used by `datatypes.py:207-211`). -/
def uuidOfBytes (b : Bytes) : Py (BitVec 128) :=
  if b.length = 16 then .ok (BitVec.ofNat 128 (leVal b.reverse)) else .error .valueError

/-- Conversion of a `struct` argument of a float format to a double. -/
def Num.toF64 : Num → Py F64
  | .int i => match intToF64 i with
    | some x => .ok x
    | none => .error .structError
  | .flt x => .ok x

/-- `-n`. -/
def Num.neg : Num → Num
  | .int i => .int (-i)
  | .flt x => .flt x.neg

/-- `n >= 0`. -/
def Num.nonneg : Num → Bool
  | .int i => 0 ≤ i
  | .flt x => x.nonneg

/-- The two kinds of float slots. -/
inductive FloatFmt | f | d
  deriving DecidableEq, Repr

def FloatFmt.size : FloatFmt → Nat
  | .f => 4
  | .d => 8

/-- `struct.pack(endian + tp, x)` for one float slot. -/
def packNum (en : Endian) (tp : FloatFmt) (n : Num) : Py Bytes := do
  let x ← n.toF64
  match tp with
  | .f => packF32 en x
  | .d => packF64 en x

/-- `data_packer.py:68-70` (`__pack_tuple`): packs however many components there are. -/
def packTuple (en : Endian) (tp : FloatFmt) : List Num → Py Bytes
  | [] => .ok []
  | n :: ns => do
    let b ← packNum en tp n
    let bs ← packTuple en tp ns
    .ok (b ++ bs)

/-- `helpers.py:122-129` (`pack_quaternion_to_vector3`) on a tuple; `quaternion[3]` raises `IndexError`. -/
def packQuatToVec3 (q : List Num) : Py (List Num) := do
  let x3 ← index q 3
  let x0 ← index q 0
  let x1 ← index q 1
  let x2 ← index q 2
  if x3.nonneg then .ok [x0, x1, x2] else .ok [x0.neg, x1.neg, x2.neg]

/-- The two components of an entry of the dispatch tables `data_packer.py:31-51` and `data_unpacker.py:34-54`. -/
inductive Codec
  | int (f : IntFmt) | flt (t : FloatFmt) | string | uuid | vector3 | vector3d | vector4 | quat | raw
  deriving DecidableEq, Repr

/-- `data_packer.py:30-51`: the packer table. -/
def packerTable : MsgType → Endian × Codec
  | .fixed => (.big, .string)
  | .variable => (.big, .string)
  | .s8 => (.big, .int .b)
  | .u8 => (.big, .int .B)
  | .bool => (.big, .int .B)
  | .uuid => (.big, .uuid)
  | .ipaddr => (.big, .string)
  | .ipport => (.big, .int .H)
  | .u16 => (.little, .int .H)
  | .u32 => (.little, .int .I)
  | .u64 => (.little, .int .Q)
  | .s16 => (.little, .int .h)
  | .s32 => (.little, .int .i)
  | .s64 => (.little, .int .q)
  | .f32 => (.little, .flt .f)
  | .f64 => (.little, .flt .d)
  | .vector3 => (.little, .vector3)
  | .vector3d => (.little, .vector3d)
  | .vector4 => (.little, .vector4)
  | .quaternion => (.little, .quat)

/-- `data_packer.py:96-103` (`__pack_string`): always appends a NUL. -/
def packString : PyVal → Py Bytes
  | .none => .ok [0]
  | .unicode u => .ok (u ++ [0])
  | .str b => .ok (b ++ [0])
  | _ => .error .typeError

/-- A float as the argument of `struct.pack` for an integer slot: truncated towards zero with a `DeprecationWarning`.  Python 2.7 reports a number out of range
and infinity as `struct.error`; Python 2.6 (with a 64-bit C `long`) lets the `OverflowError` of the conversion through and masks as for integers. -/
def packTruncated (v : PyVersion) (en : Endian) (f : IntFmt) (x : F64) : Py Bytes :=
  match truncF64 x with
  | none => if x.isNaN then .error .valueError else match v with
    | .v27 => .error .structError
    | .v26 => .error .overflowError
  | some n =>
    match v with
    | .v27 => structPack .v27 en f n
    | .v26 =>
      if (f.size = 8 ∧ ¬ (f.lo ≤ n ∧ n < f.hi)) ∨ (f.size < 8 ∧ f.signed = true ∧ ¬ (IntFmt.q.lo ≤ n ∧ n < IntFmt.q.hi)) then .error .overflowError
      else structPack .v26 en f n

/-- Arguments of `struct.pack` for an integer slot.  Simplified: an object that is no number has no `__int__` (a standard `uuid.UUID` has one, but its 128 bits
fit no slot unless it is tiny). -/
def packIntVal (v : PyVersion) (en : Endian) (f : IntFmt) : PyVal → Py Bytes
  | .num (.int i) => structPack v en f i
  | .num (.flt x) => packTruncated v en f x
  | _ => .error .structError

/-- `len(tup)`/iteration over a tuple argument; other objects raise `TypeError` (`len` of an object without
`__len__`); a `str` argument has a length but its characters are not floats. -/
def tupleArg : PyVal → Py (List Num)
  | .tuple ns => .ok ns
  | .str [] => .ok []
  | .unicode [] => .ok []
  | .str _ => .error .structError
  | .unicode _ => .error .structError
  | _ => .error .typeError

/-- `data_packer.py:61-66,72-94`: apply one packer. -/
def Codec.pack (rt : Runtime) (en : Endian) : Codec → PyVal → Py Bytes
  | .int f, v => packIntVal rt.ver en f v
  | .flt t, v => match v with
    | .num n => packNum en t n
    | _ => .error .structError
  | .string, v => packString v
  | .raw, v => packString v
  | .uuid, v => match v with
    | .uuid u => .ok (uuidBytes u)
    | _ => .error .attributeError
  | .vector3, v => match v with
    | .vec3 x y z => packTuple en .f [.flt x, .flt y, .flt z]
    | v => do packTuple en .f (← tupleArg v)
  | .vector3d, v => do packTuple en .d (← tupleArg v)
  | .vector4, v => do packTuple en .f (← tupleArg v)
  | .quat, v => match v with
    | .quat x y z w => do packTuple en .f (← packQuatToVec3 [.flt x, .flt y, .flt z, .flt w])
    | .tuple q => do packTuple en .f (← packQuatToVec3 q)
    | .str s => if s.length < 4 then .error .indexError else .error .structError
    | .unicode s => if s.length < 4 then .error .indexError else .error .structError
    | .vec3 .. | .none | .num _ | .uuid _ | .llsd _ => .error .typeError

/-- `data_packer.py:53-66` (`pack_data`); `en? = none` is `EndianType.NONE`. -/
def packData (rt : Runtime) (v : PyVal) (ty : MsgType) (en? : Option Endian := none) : Py Bytes :=
  let (en, c) := packerTable ty
  c.pack rt (en?.getD en) v

/-- `data_unpacker.py:33-54`: the unpacker table (`raw`: `__unpack_fixed`/`__unpack_string` return the data). -/
def unpackerTable : MsgType → Endian × Codec
  | .fixed => (.little, .raw)
  | .variable => (.big, .raw)
  | .s8 => (.big, .int .b)
  | .u8 => (.big, .int .B)
  | .bool => (.big, .int .B)
  | .uuid => (.big, .uuid)
  | .ipaddr => (.big, .raw)
  | .ipport => (.big, .int .H)
  | .u16 => (.little, .int .H)
  | .u32 => (.little, .int .I)
  | .u64 => (.little, .int .Q)
  | .s16 => (.little, .int .h)
  | .s32 => (.little, .int .i)
  | .s64 => (.little, .int .q)
  | .f32 => (.little, .flt .f)
  | .f64 => (.little, .flt .d)
  | .vector3 => (.little, .vector3)
  | .vector3d => (.little, .vector3d)
  | .vector4 => (.little, .vector4)
  | .quaternion => (.little, .quat)

/-- One float slot of `struct.unpack`. -/
def unpackNum (en : Endian) (tp : FloatFmt) (b : Bytes) : Py F64 :=
  match tp with
  | .f => unpackF32 en b
  | .d => unpackF64 en b

/-- `struct.unpack(endian + str(n) + tp, b)` for `n` slots. -/
def unpackNums (en : Endian) (tp : FloatFmt) : Nat → Bytes → Py (List Num)
  | 0, [] => .ok []
  | 0, _ :: _ => .error .structError
  | n + 1, b => do
    let x ← unpackNum en tp (b.take tp.size)
    let xs ← unpackNums en tp n (b.drop tp.size)
    .ok (.flt x :: xs)

/-- `data_unpacker.py:87-89` (`__unpack_tuple`). -/
def unpackTuple (en : Endian) (tp : FloatFmt) (b : Bytes) : Py (List Num) :=
  unpackNums en tp (b.length / tp.size) b

/-- `datatypes.py:57-63` (`Vector3.unpack_from_bytes`): always little-endian. -/
def vector3OfBytes (b : Bytes) (off : Nat) : Py PyVal := do
  let x ← unpackF32 .little (slice b off (off + 4))
  let y ← unpackF32 .little (slice b (off + 4) (off + 8))
  let z ← unpackF32 .little (slice b (off + 8) (off + 12))
  .ok (.vec3 x y z)

/-- `datatypes.py:135-157` (`Quaternion.unpack_from_bytes`): `W` is read if there are four more bytes, otherwise
reconstructed (any exception of the fourth read is swallowed). -/
def quaternionOfBytes (rt : Runtime) (b : Bytes) (off : Nat) : Py PyVal := do
  let x ← unpackF32 .little (slice b off (off + 4))
  let y ← unpackF32 .little (slice b (off + 4) (off + 8))
  let z ← unpackF32 .little (slice b (off + 8) (off + 12))
  match unpackF32 .little (slice b (off + 12) (off + 16)) with
  | .ok w => .ok (.quat x y z w)
  | .error _ => .ok (.quat x y z (rt.quatW x y z))

/-- `data_unpacker.py:71-85`: a `struct.error` becomes `DataUnpackingError`, other exceptions pass. -/
def wrapStructError {α : Type} : Py α → Py α
  | .error .structError => .error .dataUnpacking
  | r => r

/-- `data_unpacker.py:71-83,91-116`: apply one unpacker to the selected bytes. -/
def Codec.unpack (rt : Runtime) (en : Endian) : Codec → Bytes → Py PyVal
  | .int f, b => do .ok (.num (.int (← structUnpack en f b)))
  | .flt t, b => do .ok (.num (.flt (← unpackNum en t b)))
  | .string, b => .ok (.str b)
  | .raw, b => .ok (.str b)
  | .uuid, b => do .ok (.uuid (← uuidOfBytes (slice b 0 16)))
  | .vector3, b => vector3OfBytes b 0
  | .vector3d, b => do .ok (.tuple (← unpackTuple en .d b))
  | .vector4, b => do .ok (.tuple (← unpackTuple en .f b))
  | .quat, b => quaternionOfBytes rt b 0

/-- The bytes `unpack_data` selects, `data_unpacker.py:58-62`; `start? = none`/`size? = none` are the defaults `-1`.
With `sizeof = -1` the slice is `data[start:start-1]`. -/
def selectBytes (data : Bytes) (ty : MsgType) (start? size? : Option Nat) : Bytes :=
  match start? with
  | none => data
  | some s =>
    match size? with
    | some n => slice data s (s + n)
    | none =>
      match sizeof ty with
      | some n => slice data s (s + n)
      | none => if s = 0 then dropLastN data 1 else slice data s (s - 1)

/-- `data_unpacker.py:56-85` (`unpack_data`). -/
def unpackData (rt : Runtime) (data : Bytes) (ty : MsgType) (start? : Option Nat := none)
    (size? : Option Nat := none) (en? : Option Endian := none) : Py PyVal :=
  let (en, c) := unpackerTable ty
  wrapStructError (c.unpack rt (en?.getD en) (selectBytes data ty start? size?))

/-- `unpack_data` of an integer type, as the integer it returns. -/
def unpackInt (rt : Runtime) (data : Bytes) (ty : MsgType) (start : Nat) (en? : Option Endian := none) : Py Int := do
  match ← unpackData rt data ty (some start) none en? with
  | .num (.int i) => .ok i
  | _ => .error .typeError

end Pyogp
