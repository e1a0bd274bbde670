import Verif.Spec.TemplateFile
import Verif.Spec.Header

/-!
# What the listing of a template file looks like
-/

namespace Pyogp.Spec

/-- Bytes as upper-case hexadecimal digits. -/
def hexText (b : Bytes) : List Char :=
  b.flatMap fun x => ["0123456789ABCDEF".toList.getD (x.toNat / 16) ' ', "0123456789ABCDEF".toList.getD (x.toNat % 16) ' ']

/-- The frequency in lower case. -/
def shownFreq : Frequency → String
  | .low => "low" | .medium => "medium" | .high => "high" | .fixed => "fixed"

def shownBlockType : BlockType → String
  | .single => "Single" | .multiple => "Multiple" | .variable => "Variable" | .unknown => "None"

/-- The type as in the file after `MVT_`, except for four. -/
def shownType (t : MsgType) : String :=
  match t with
  | .fixed => "MVT_FIXED" | .variable => "MVT_VARIABLE" | .ipaddr => "MVT_IP_ADDR" | .ipport => "MVT_IP_PORT"
  | t => "MVT_" ++ ((plainType t).map (·.1)).getD ""

/-- Words with a blank between them. -/
def line (ws : List String) : List Char := [' '].intercalate (ws.map String.toList)

/-- Name, padded to twenty characters, tab, type. -/
def varText (v : TVar) : List Char :=
  '\t' :: '\t' :: v.name.toList ++ List.replicate (20 - v.name.toList.length) ' ' ++ '\t' :: (shownType v.type).toList

def blockText (b : TBlock) : List (List Char) :=
  ('\t' :: line [b.name, shownBlockType b.blockType, b.number.repr]) :: b.vars.map varText

/-- One message, shown with the id bytes `id`. -/
def MessageText (t : Template) (id : Bytes) (lines : List (List Char)) : Prop :=
  ∃ tr en de, t.trust = some tr ∧ t.encoding = some en ∧ t.deprecation = some de ∧
    lines = List.replicate 81 '=' ::
      line [t.name, shownFreq t.freq, t.msgNum.repr, String.ofList (hexText id), trustWord tr, encodingWord en, deprecationWord de] ::
      t.blocks.flatMap blockText

/-- The listing of messages with the id bytes shown. -/
inductive Listing : List (List Char) → List (Template × Bytes) → Prop
  | nil : Listing [] []
  | cons (ls ls' t id ts) : MessageText t id ls → Listing ls' ts → Listing (ls ++ ls') ((t, id) :: ts)

/-- The id bytes the parser itself makes: of the number of a Low message only the last byte. -/
def ParserId (f : Frequency) (n : Nat) (id : Bytes) : Prop :=
  match f with
  | .high => id = [UInt8.ofNat n]
  | .medium => id = [255, UInt8.ofNat n]
  | .low => id = [255, 255, UInt8.ofNat n]
  | .fixed => ∃ a b c, id = [a, b, c, UInt8.ofNat n]

/-- A template without what the listing does not show: the sizes of variables. -/
def withoutSizes (t : Template) : Template :=
  { t with msgNumHex := [], blocks := t.blocks.map fun b => { b with vars := b.vars.map fun v => { v with size := 0 } } }

/-- Names are words. -/
def WordNames (t : Template) : Prop :=
  Word t.name.toList ∧ ∀ b ∈ t.blocks, Word b.name.toList ∧ ∀ v ∈ b.vars, Word v.name.toList

end Pyogp.Spec
