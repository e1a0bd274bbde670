import Verif.Model.TemplateParser
import Verif.Model.Helpers

/-!
# Describing templates

The display functions of `template.py`, `msgtypes.py` and `template_parser.py`.
-/

namespace Pyogp

/-- `str(n)` of an integer that is not negative. -/
def strNat (n : Nat) : List Char := Nat.toDigits 10 n

/-- `template.py:163, 198-199` (`get_frequency_as_string`); the parser sets no other frequencies. -/
def Frequency.asString : Frequency → List Char
  | .fixed => ['f', 'i', 'x', 'e', 'd']
  | .high => ['h', 'i', 'g', 'h']
  | .medium => ['m', 'e', 'd', 'i', 'u', 'm']
  | .low => ['l', 'o', 'w']

/-- `template.py:166, 210-211` (`get_message_trust_as_string`): a list indexed with `None` raises `TypeError`. -/
def trustAsString : Option Trust → Py (List Char)
  | some .trusted => .ok "Trusted".toList
  | some .notTrusted => .ok "NotTrusted".toList
  | none => .error .typeError

/-- `template.py:165, 216-217` (`get_message_encoding_as_string`). -/
def encodingAsString : Option Encoding → Py (List Char)
  | some .unencoded => .ok "Unencoded".toList
  | some .zerocoded => .ok "Zerocoded".toList
  | none => .error .typeError

/-- `template.py:164, 222-223` (`get_deprecation_as_string`). -/
def deprecationAsString : Option Deprecation → Py (List Char)
  | some .deprecated => .ok "Deprecated".toList
  | some .udpDeprecated => .ok "UDPDeprecated".toList
  | some .udpBlackListed => .ok "UDPBlackListed".toList
  | some .notDeprecated => .ok "NotDeprecated".toList
  | none => .error .typeError

/-- `msgtypes.py:38-47` (`MBT_as_string`), `template.py:156-157`; an unknown type is `None`, which has a name here. -/
def BlockType.asString : BlockType → List Char
  | .single => "Single".toList
  | .multiple => "Multiple".toList
  | .variable => "Variable".toList
  | .unknown => "None".toList

/-- `msgtypes.py:112-118` (`MVT_as_string`). -/
def MsgType.asString : MsgType → List Char
  | .fixed => "MVT_FIXED".toList
  | .variable => "MVT_VARIABLE".toList
  | .u8 => "MVT_U8".toList
  | .u16 => "MVT_U16".toList
  | .u32 => "MVT_U32".toList
  | .u64 => "MVT_U64".toList
  | .s8 => "MVT_S8".toList
  | .s16 => "MVT_S16".toList
  | .s32 => "MVT_S32".toList
  | .s64 => "MVT_S64".toList
  | .f32 => "MVT_F32".toList
  | .f64 => "MVT_F64".toList
  | .vector3 => "MVT_LLVector3".toList
  | .vector3d => "MVT_LLVector3d".toList
  | .vector4 => "MVT_LLVector4".toList
  | .quaternion => "MVT_LLQuaternion".toList
  | .uuid => "MVT_LLUUID".toList
  | .bool => "MVT_BOOL".toList
  | .ipaddr => "MVT_IP_ADDR".toList
  | .ipport => "MVT_IP_PORT".toList

/-- `template.py:126-127` (`get_type_as_string`): `TypeError` for the type `None`. -/
def RawVar.typeAsString (x : RawVar) : Py (List Char) :=
  match x.type with
  | some t => .ok t.asString
  | none => .error .typeError

/-- `template.py:204-205` (`get_message_hex_num`): `"%02X"` of each byte. -/
def messageHexNum (hex : Bytes) : List Char :=
  strip (hex.flatMap (fun x => List.replicate (2 - (hexU x.toNat).length) '0' ++ hexU x.toNat))

/-- `str.ljust(n)`. -/
def ljust (n : Nat) (s : List Char) : List Char := s ++ List.replicate (n - s.length) ' '

/-- The line between messages (`template_parser.py:269, 274, 282`). -/
def ruleLine : List Char := List.replicate 81 '='

/-- `template_parser.py:292-294`: the line of a variable. -/
def printVar (x : RawVar) : Py (List Char) := do
  let ty ← x.typeAsString
  .ok ("\t\t".toList ++ ljust 20 x.name.toList ++ ['\t'] ++ ty)

/-- `template_parser.py:288-294`: the lines of a block. -/
def printBlock (b : RawBlock) : Py (List (List Char)) := do
  let vs ← b.vars.reverse.mapM printVar
  .ok ((['\t'] ++ b.name.toList ++ [' '] ++ b.blockType.asString ++ [' '] ++ strNat b.number) :: vs)

/-- `template_parser.py:282-294`: the lines of a message.  (Lines printed before an exception are not kept.) -/
def printPacket (t : RawTemplate) : Py (List (List Char)) := do
  let tr ← trustAsString t.trust
  let en ← encodingAsString t.encoding
  let de ← deprecationAsString t.deprecation
  let bs ← t.blocks.reverse.mapM printBlock
  .ok (ruleLine ::
    (t.name.toList ++ [' '] ++ t.freq.asString ++ [' '] ++ strNat t.msgNum ++ [' '] ++ messageHexNum t.msgNumHex ++ [' '] ++ tr ++ [' '] ++ en ++
      [' '] ++ de) :: bs.flatten)

/-- `template_parser.py:280-294` (`print_packet_list`): the lines printed. -/
def printPacketList (ts : List RawTemplate) : Py (List (List Char)) := do
  let ls ← ts.mapM printPacket
  .ok ls.flatten

/-- `template_parser.py:271`: `frequency_counter[…] += 1`. -/
def countOf (ts : List RawTemplate) (f : Frequency) : Nat := ts.foldl (fun n t => if t.freq = f then n + 1 else n) 0

/-- `template_parser.py:268-274`: three lines for each message. -/
def namesFrom : Nat → List RawTemplate → List (List Char)
  | _, [] => []
  | n, t :: ts => ruleLine :: (strNat (n + 1) ++ [' '] ++ t.name.toList ++ [' '] ++ t.freq.asString) :: ruleLine :: namesFrom (n + 1) ts

/-- `template_parser.py:265-278` (`print_packet_names`); `order` is the order of the dictionary of counters. -/
def printPacketNames (order : List Frequency) (ts : List RawTemplate) : List (List Char) :=
  namesFrom 0 ts ++ [[]] ++ order.map (fun f => f.asString ++ [' '] ++ strNat (countOf ts f)) ++ [[]]

/-- Order of `str` objects. -/
def strLt : List Char → List Char → Bool
  | [], [] => false
  | [], _ :: _ => true
  | _ :: _, [] => false
  | a :: as, b :: bs => if a.toNat < b.toNat then true else if b.toNat < a.toNat then false else strLt as bs

/-- A set kept as a sorted list: `set.add`, `list`, `sort` (`template_parser.py:297-304`). -/
def insertStr (s : List Char) : List (List Char) → List (List Char)
  | [] => [s]
  | x :: xs => if strLt s x then s :: x :: xs else if strLt x s then x :: insertStr s xs else x :: xs

/-- `template_parser.py:296-305` (`get_all_types`). -/
def getAllTypes (ts : List RawTemplate) : Py (List (List Char)) := do
  let names ← ((ts.flatMap fun t => t.blocks.reverse).flatMap fun b => b.vars.reverse).mapM RawVar.typeAsString
  .ok (names.foldl (fun l s => insertStr s l) [])

/-- `template_dict.py:53-57` (`get_template_list`). -/
def templateNames (ts : List RawTemplate) : List String := ts.map (·.name)

end Pyogp
