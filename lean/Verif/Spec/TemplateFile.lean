import Verif.Model.Message

/-!
# Specification: the layout of a message template file

A file is a list of lines.  `Layout file ts` says that the file declares exactly the templates `ts`, in this order, written the way
`message_template.msg` is: braces on lines of their own (variables: on one line), indented headers, blank lines and comment lines anywhere.
-/

namespace Pyogp.Spec

/-- White space. -/
def SpaceChar (c : Char) : Prop := c = ' ' ∨ c = '\t' ∨ c = '\n' ∨ c = '\x0b' ∨ c = '\x0c' ∨ c = '\r'

/-- Letters, digits and the underscore. -/
def WordChar (c : Char) : Prop := ('a' ≤ c ∧ c ≤ 'z') ∨ ('A' ≤ c ∧ c ≤ 'Z') ∨ ('0' ≤ c ∧ c ≤ '9') ∨ c = '_'

def Margin (s : List Char) : Prop := ∀ c ∈ s, SpaceChar c
def Gap (s : List Char) : Prop := s ≠ [] ∧ Margin s
def Word (w : List Char) : Prop := w ≠ [] ∧ ∀ c ∈ w, WordChar c

/-- The text does not go on with such a character. -/
def NotNext (p : Char → Prop) (s : List Char) : Prop := ∀ c r, s = c :: r → ¬ p c

/-- No further word follows. -/
def NoWord (s : List Char) : Prop := ∀ m r, Margin m → s = m ++ r → NotNext WordChar r

def NoBrace (s : List Char) : Prop := '{' ∉ s ∧ '}' ∉ s

/-- A decimal digit string and its value. -/
def decimal (ds : List Char) : Nat := ds.foldl (fun n c => 10 * n + (c.toNat - '0'.toNat)) 0
def Decimal (ds : List Char) (n : Nat) : Prop := ds ≠ [] ∧ (∀ c ∈ ds, '0' ≤ c ∧ c ≤ '9') ∧ n = decimal ds

/-- Value of a hexadecimal digit. -/
def hexDigit (c : Char) : Nat :=
  if '0' ≤ c ∧ c ≤ '9' then c.toNat - '0'.toNat else if 'a' ≤ c ∧ c ≤ 'f' then c.toNat - 'a'.toNat + 10 else c.toNat - 'A'.toNat + 10
def HexDigit (c : Char) : Prop := ('0' ≤ c ∧ c ≤ '9') ∨ ('a' ≤ c ∧ c ≤ 'f') ∨ ('A' ≤ c ∧ c ≤ 'F')

/-- The value of a string of digits in a base up to 10. -/
def digitsValue (base : Nat) (ds : List Char) : Nat := ds.foldl (fun n c => base * n + (c.toNat - '0'.toNat)) 0

/-- A number with the base given by its prefix, as in C (with `0o` and `0b`): hexadecimal after `0x`, octal after `0o` or `0`, binary after `0b`, otherwise
decimal. -/
inductive Numeral : List Char → Nat → Prop
  | zero : Numeral ['0'] 0
  | dec (ds : List Char) (n : Nat) : Decimal ds n → ds.head? ≠ some '0' → Numeral ds n
  | hex (x : Char) (ds : List Char) : x = 'x' ∨ x = 'X' → ds ≠ [] → (∀ c ∈ ds, HexDigit c) →
      Numeral ('0' :: x :: ds) (ds.foldl (fun n c => 16 * n + hexDigit c) 0)
  | oct (ds : List Char) : ds ≠ [] → (∀ c ∈ ds, '0' ≤ c ∧ c ≤ '7') → Numeral ('0' :: ds) (digitsValue 8 ds)
  | oct' (x : Char) (ds : List Char) : x = 'o' ∨ x = 'O' → ds ≠ [] → (∀ c ∈ ds, '0' ≤ c ∧ c ≤ '7') → Numeral ('0' :: x :: ds) (digitsValue 8 ds)
  | bin (x : Char) (ds : List Char) : x = 'b' ∨ x = 'B' → ds ≠ [] → (∀ c ∈ ds, c = '0' ∨ c = '1') → Numeral ('0' :: x :: ds) (digitsValue 2 ds)

def freqWord : Frequency → String
  | .low => "Low" | .medium => "Medium" | .high => "High" | .fixed => "Fixed"
def trustWord : Trust → String
  | .trusted => "Trusted" | .notTrusted => "NotTrusted"
def encodingWord : Encoding → String
  | .unencoded => "Unencoded" | .zerocoded => "Zerocoded"
def deprecationWord : Deprecation → String
  | .deprecated => "Deprecated" | .udpDeprecated => "UDPDeprecated" | .udpBlackListed => "UDPBlackListed" | .notDeprecated => "NotDeprecated"

/-- The type names of the file, with the width of the types that have one. -/
def plainType : MsgType → Option (String × Nat)
  | .u8 => some ("U8", 1) | .u16 => some ("U16", 2) | .u32 => some ("U32", 4) | .u64 => some ("U64", 8)
  | .s8 => some ("S8", 1) | .s16 => some ("S16", 2) | .s32 => some ("S32", 4) | .s64 => some ("S64", 8)
  | .f32 => some ("F32", 4) | .f64 => some ("F64", 8)
  | .vector3 => some ("LLVector3", 12) | .vector3d => some ("LLVector3d", 24) | .vector4 => some ("LLVector4", 16)
  | .quaternion => some ("LLQuaternion", 12) | .uuid => some ("LLUUID", 16) | .bool => some ("BOOL", 1)
  | .ipaddr => some ("IPADDR", 4) | .ipport => some ("IPPORT", 2)
  | .fixed | .variable => none

def sizedType : MsgType → Option String
  | .fixed => some "Fixed" | .variable => some "Variable" | _ => none

/-- A blank line or a comment line. -/
def Filler (l : List Char) : Prop := Margin l ∨ ∃ m r, Margin m ∧ l = m ++ '/' :: '/' :: r

def OpenLine (l : List Char) : Prop := ∃ m m', Margin m ∧ Margin m' ∧ l = m ++ '{' :: m'
def CloseLine (l : List Char) : Prop := ∃ m m', Margin m ∧ Margin m' ∧ l = m ++ '}' :: m'

/-- The number `k` written in the file and the number the message gets: of Fixed messages, which are written with all four bytes, the last
byte. -/
def DeclaredNumber : Frequency → Nat → Nat → Prop
  | .fixed, k, n => k < 2 ^ 32 ∧ n = k % 256
  | _, k, n => n = k

/-- `Name Frequency number Trust Encoding [Deprecation]`, indented; other text may follow. -/
def HeaderLine (l : List Char) (t : Template) : Prop :=
  ∃ m name s₁ s₂ num k s₃ tr s₄ en rest,
    Gap m ∧ Word name ∧ Gap s₁ ∧ Gap s₂ ∧ Numeral num k ∧ Gap s₃ ∧ Gap s₄ ∧
    l = m ++ name ++ s₁ ++ (freqWord t.freq).toList ++ s₂ ++ num ++ s₃ ++ (trustWord tr).toList ++ s₄ ++ (encodingWord en).toList ++ rest ∧
    NoBrace l ∧ t.name = String.ofList name ∧ DeclaredNumber t.freq k t.msgNum ∧ t.trust = some tr ∧ t.encoding = some en ∧ t.msgNumHex = [] ∧
    ((NoWord rest ∧ t.deprecation = some .notDeprecated) ∨
      ∃ s₅ dep rest', Gap s₅ ∧ rest = s₅ ++ (deprecationWord dep).toList ++ rest' ∧ NotNext WordChar rest' ∧ t.deprecation = some dep)

/-- `Name Single`, `Name Variable` or `Name Multiple count`, indented; other text may follow. -/
def BlockLine (l : List Char) (tb : TBlock) : Prop :=
  ∃ m name s₁ rest, Gap m ∧ Word name ∧ Gap s₁ ∧ tb.name = String.ofList name ∧ NoBrace l ∧
    ((l = m ++ name ++ s₁ ++ "Single".toList ++ rest ∧ NotNext WordChar rest ∧ tb.blockType = .single ∧ tb.number = 0) ∨
     (l = m ++ name ++ s₁ ++ "Variable".toList ++ rest ∧ NotNext WordChar rest ∧ tb.blockType = .variable ∧ tb.number = 0) ∨
     ∃ s₂ ds, Gap s₂ ∧ Decimal ds tb.number ∧ l = m ++ name ++ s₁ ++ "Multiple".toList ++ s₂ ++ ds ++ rest ∧
       NotNext (fun c => '0' ≤ c ∧ c ≤ '9') rest ∧ tb.blockType = .multiple)

/-- `{ Name Type }` or `{ Name Type size }`; other text may follow. -/
def VarLine (l : List Char) (v : TVar) : Prop :=
  ∃ m m' name s₁ rest, Margin m ∧ Margin m' ∧ Word name ∧ Gap s₁ ∧ v.name = String.ofList name ∧ '}' ∈ rest ∧
    ((∃ ty n, plainType v.type = some (ty, n) ∧ v.size = n ∧ NotNext WordChar rest ∧ l = m ++ '{' :: m' ++ name ++ s₁ ++ ty.toList ++ rest) ∨
     ∃ ty s₂ ds, sizedType v.type = some ty ∧ Gap s₂ ∧ Decimal ds v.size ∧ 0 < v.size ∧ NotNext (fun c => '0' ≤ c ∧ c ≤ '9') rest ∧
       l = m ++ '{' :: m' ++ name ++ s₁ ++ ty.toList ++ s₂ ++ ds ++ rest)

inductive VarLines : List (List Char) → List TVar → Prop
  | nil : VarLines [] []
  | filler (l ls vs) : Filler l → VarLines ls vs → VarLines (l :: ls) vs
  | var (l ls v vs) : VarLine l v → VarLines ls vs → VarLines (l :: ls) (v :: vs)

inductive BlockLines : List (List Char) → List TBlock → Prop
  | nil : BlockLines [] []
  | filler (l ls tbs) : Filler l → BlockLines ls tbs → BlockLines (l :: ls) tbs
  | block (o fs h vs c ls tb tbs) : OpenLine o → (∀ f ∈ fs, Filler f) → BlockLine h tb → VarLines vs tb.vars → CloseLine c →
      BlockLines ls tbs → BlockLines (o :: (fs ++ h :: (vs ++ c :: ls))) (tb :: tbs)

def Sign (s : List Char) : Prop := s = [] ∨ s = ['+'] ∨ s = ['-']
def Digits (s : List Char) : Prop := ∀ c ∈ s, '0' ≤ c ∧ c ≤ '9'

/-- Digits, at least one, with at most one decimal point anywhere. -/
def Mantissa (m : List Char) : Prop := (m ≠ [] ∧ Digits m) ∨ ∃ a b, Digits a ∧ Digits b ∧ (a ≠ [] ∨ b ≠ []) ∧ m = a ++ '.' :: b

/-- Nothing, or `e` and a number. -/
def Exponent (e : List Char) : Prop := e = [] ∨ ∃ c s ds, (c = 'e' ∨ c = 'E') ∧ Sign s ∧ ds ≠ [] ∧ Digits ds ∧ e = c :: (s ++ ds)

/-- A version number, which is what `float` reads: a sign (or none), then a decimal number, an infinity or `nan`. -/
def VersionNumber (w : List Char) : Prop :=
  ∃ s t, Sign s ∧ w = s ++ t ∧ ((∃ m e, Mantissa m ∧ Exponent e ∧ t = m ++ e) ∨ t.map Char.toLower ∈ ["inf".toList, "infinity".toList, "nan".toList])

/-- A line outside messages: blank, a comment, the version, or any text without braces. -/
def Idle (l : List Char) : Prop :=
  Filler l ∨ (NoBrace l ∧ ¬ "version".toList <+: l) ∨
    ∃ c g w r, NoBrace l ∧ Margin g ∧ VersionNumber w ∧ NotNext (fun c => ¬ SpaceChar c) r ∧ l = "version".toList ++ c :: (g ++ (w ++ r))

/-- **The layout.** -/
inductive Layout : List (List Char) → List Template → Prop
  | nil : Layout [] []
  | idle (l ls ts) : Idle l → Layout ls ts → Layout (l :: ls) ts
  | message (o fs h bs c ls t ts) : OpenLine o → (∀ f ∈ fs, Filler f) → HeaderLine h t → BlockLines bs t.blocks → CloseLine c →
      Layout ls ts → Layout (o :: (fs ++ h :: (bs ++ c :: ls))) (t :: ts)

end Pyogp.Spec
