import Verif.Model.Message

/-!
# The message template parser

Models `message/template_parser.py`.  A file is the list of its lines without their final newlines (no regular expression of the parser can
match across or at that newline, except as trailing white space).  The `re` module is not modelled in general: each pattern is given by the
function it computes, which is simple because `\w+` and `\s+` match disjoint characters (see the comments).
-/

namespace Pyogp

/-- `\w` (ASCII: the patterns are compiled without flags). -/
def reWord (c : Char) : Bool :=
  let n := c.toNat
  (Nat.ble 97 n && Nat.ble n 122) || (Nat.ble 65 n && Nat.ble n 90) || (Nat.ble 48 n && Nat.ble n 57) || Nat.beq n 95

/-- `\s`. -/
def reSpace (c : Char) : Bool := let n := c.toNat; Nat.beq n 32 || (Nat.ble 9 n && Nat.ble n 13)

/-- `\d`. -/
def reDigit (c : Char) : Bool := let n := c.toNat; Nat.ble 48 n && Nat.ble n 57

/-- `(\w+)`, greedy.  Giving back characters never helps: what follows in the patterns is `\s+` or the end. -/
def reWordAt (l : List Char) : Option (List Char × List Char) :=
  match l.takeWhile reWord with
  | [] => none
  | w => some (w, l.dropWhile reWord)

/-- `\s+`, greedy; what follows is `\w+` or `\d+`. -/
def reSpacesAt (l : List Char) : Option (List Char) :=
  match l.takeWhile reSpace with
  | [] => none
  | _ => some (l.dropWhile reSpace)

/-- `(\w+)\s+(\w+)\s+…`: `n + 1` words separated by white space, and what follows them. -/
def reWordsAt : Nat → List Char → Option (List (List Char) × List Char)
  | 0, l => (reWordAt l).map (fun r => ([r.1], r.2))
  | n + 1, l => do
    let (w, l) ← reWordAt l
    let l ← reSpacesAt l
    let (ws, l) ← reWordsAt n l
    some (w :: ws, l)

/-- `.*?` followed by `n + 1` words: the leftmost position where they match. -/
def reSearch (n : Nat) : List Char → Option (List (List Char) × List Char)
  | [] => none
  | c :: l =>
    match reWordsAt n (c :: l) with
    | some r => some r
    | none => reSearch n l

/-- `(\s+(\w+))?`: the inner group. -/
def reOptWord (l : List Char) : Option (List Char) := do
  let l ← reSpacesAt l
  (reWordAt l).map (·.1)

/-- `(\s+(\d+))?`: the inner group. -/
def reOptDigits (l : List Char) : Option (List Char) := do
  let l ← reSpacesAt l
  match l.takeWhile reDigit with
  | [] => none
  | d => some d

/-- `template_parser.py:65`, `message_header_re`: groups 1 to 5, and 7. -/
def matchMessageHeader (l : List Char) : Option (List (List Char) × Option (List Char)) :=
  (reSearch 4 l).map (fun r => (r.1, reOptWord r.2))

/-- `template_parser.py:63-64`, `block_data_re` and `block_header_re`: groups 1 and 2, and 4. -/
def matchPair (l : List Char) : Option (List (List Char) × Option (List Char)) :=
  (reSearch 1 l).map (fun r => (r.1, reOptDigits r.2))

/-- `template_parser.py:67,78`, `comment_re` (`^\s*//.*$`). -/
def isComment (l : List Char) : Bool :=
  match l.dropWhile reSpace with
  | a :: b :: _ => Nat.beq a.toNat 47 && Nat.beq b.toNat 47
  | _ => false

/-- `template_parser.py:61-62,81-82`, `start_re` and `end_re`: the line contains the brace. -/
def hasOpen (l : List Char) : Bool := l.any (fun c => Nat.beq c.toNat 123)
def hasClose (l : List Char) : Bool := l.any (fun c => Nat.beq c.toNat 125)

/-- An optional sign. -/
def dropSign : List Char → List Char
  | [] => []
  | c :: r => if Nat.beq c.toNat 43 || Nat.beq c.toNat 45 then r else c :: r

/-- The exponent of a number, or nothing. -/
def isExponent : List Char → Bool
  | [] => true
  | c :: r => (Nat.beq c.toNat 101 || Nat.beq c.toNat 69) && !(dropSign r).isEmpty && (dropSign r).all reDigit

/-- A letter, in lower case. -/
def lowerChar (c : Char) : Char := if Nat.ble 65 c.toNat && Nat.ble c.toNat 90 then Char.ofNat (c.toNat + 32) else c

/-- Whether Python's `float()` (`template_parser.py:89`) reads a word without white space: a decimal number with an optional sign, point and exponent,
or `inf`, `infinity`, `nan`. -/
def isFloatWord (w : List Char) : Bool :=
  let w := dropSign w
  let rest := w.dropWhile reDigit
  (match rest with
    | [] => !w.isEmpty
    | c :: r =>
      if Nat.beq c.toNat 46 then !(w.takeWhile reDigit ++ r.takeWhile reDigit).isEmpty && isExponent (r.dropWhile reDigit)
      else !(w.takeWhile reDigit).isEmpty && isExponent rest) ||
    (let l := w.map lowerChar; l == "inf".toList || l == "infinity".toList || l == "nan".toList)

/-- `template_parser.py:66,84-89`: `version.(.+)`, then `float` of `.split()[0]`.  `none`: no match; an empty split raises `IndexError`, a word that is no
number `ValueError`.  The word is kept in place of its value, which nothing reads. -/
def matchVersion (l : List Char) : Option (Py (List Char)) :=
  if "version".toList.isPrefixOf l then
    match l.drop 7 with
    | _ :: c :: r =>
      match ((c :: r).dropWhile reSpace).takeWhile (fun c => !reSpace c) with
      | [] => some (.error .indexError)
      | w => some (if isFloatWord w then .ok w else .error .valueError)
    | _ => none
  else none

/-- Value of a digit in bases up to 16. -/
def digitVal (c : Char) : Nat :=
  let n := c.toNat
  if Nat.ble 48 n && Nat.ble n 57 then n - 48
  else if Nat.ble 97 n && Nat.ble n 102 then n - 87
  else if Nat.ble 65 n && Nat.ble n 70 then n - 55
  else 99

/-- Value of a digit string in a base, left to right; `none` if a character is no digit. -/
def ofDigits (base : Nat) : List Char → Nat → Option Nat
  | [], acc => some acc
  | c :: l, acc => if digitVal c < base then ofDigits base l (acc * base + digitVal c) else none

/-- As `ofDigits`, but an empty string is an error. -/
def ofDigits1 (base : Nat) (l : List Char) : Option Nat := if l.isEmpty then none else ofDigits base l 0

/-- `string.atoi(w, 0)` on a word: base by prefix as in C, with Python 2.6's `0o` and `0b`; `ValueError` otherwise. -/
def atoi0 (w : List Char) : Py Nat :=
  let r := match w with
    | [c] => ofDigits1 10 [c]
    | c :: x :: l =>
      if Nat.beq c.toNat 48 then
        if Nat.beq x.toNat 120 || Nat.beq x.toNat 88 then ofDigits1 16 l
        else if Nat.beq x.toNat 111 || Nat.beq x.toNat 79 then ofDigits1 8 l
        else if Nat.beq x.toNat 98 || Nat.beq x.toNat 66 then ofDigits1 2 l
        else ofDigits1 8 (x :: l)
      else ofDigits1 10 w
    | [] => none
  match r with
  | some n => .ok n
  | none => .error .valueError

/-- `template.py:113-119`: a variable as the parser creates it; an unknown type is `None` and has size `None`. -/
structure RawVar where
  name : String
  type : Option MsgType
  size : Option Nat
  deriving DecidableEq, Repr

/-- `template.py:129-142`: a block as the parser creates it.  `vars` is newest first. -/
structure RawBlock where
  name : String
  blockType : BlockType
  number : Nat
  vars : List RawVar
  deriving DecidableEq, Repr

/-- `template.py:162-180`: a template as the parser creates it.  `blocks` is newest first. -/
structure RawTemplate where
  name : String
  freq : Frequency
  msgNum : Nat
  msgNumHex : Bytes
  trust : Option Trust
  encoding : Option Encoding
  deprecation : Option Deprecation
  blocks : List RawBlock
  deriving DecidableEq, Repr

/-- Equality of words with a keyword. -/
def isWord (w : List Char) (kw : List Char) : Bool := w == kw

/-- `template_parser.py:120-128`. -/
def freqOfWord (w : List Char) : Option Frequency :=
  if isWord w ['L', 'o', 'w'] then some .low
  else if isWord w ['M', 'e', 'd', 'i', 'u', 'm'] then some .medium
  else if isWord w ['H', 'i', 'g', 'h'] then some .high
  else if isWord w ['F', 'i', 'x', 'e', 'd'] then some .fixed
  else none

/-- `template_parser.py:132-146`: number and bytes.  An unknown frequency leaves `msg_num_hex` unbound. -/
def numOfFreq (v : PyVersion) (f : Option Frequency) (n : Nat) : Py (Frequency × Nat × Bytes) :=
  match f with
  | some .fixed => do
    let b ← structPack v .big .I n
    .ok (.fixed, ((b.getLastD 0).toNat), b)
  | some .low => do
    let b ← structPack v .big .B n
    .ok (.low, n, [0xff, 0xff] ++ b)
  | some .medium => do
    let b ← structPack v .big .B n
    .ok (.medium, n, [0xff] ++ b)
  | some .high => do
    let b ← structPack v .big .B n
    .ok (.high, n, b)
  | none => .error .unboundLocalError

/-- `template_parser.py:148-152`. -/
def trustOfWord (w : List Char) : Option Trust :=
  if isWord w ['T', 'r', 'u', 's', 't', 'e', 'd'] then some .trusted
  else if isWord w ['N', 'o', 't', 'T', 'r', 'u', 's', 't', 'e', 'd'] then some .notTrusted
  else none

/-- `template_parser.py:156-160`. -/
def encodingOfWord (w : List Char) : Option Encoding :=
  if isWord w ['U', 'n', 'e', 'n', 'c', 'o', 'd', 'e', 'd'] then some .unencoded
  else if isWord w ['Z', 'e', 'r', 'o', 'c', 'o', 'd', 'e', 'd'] then some .zerocoded
  else none

/-- `template_parser.py:164-178`. -/
def deprecationOfWord : Option (List Char) → Option Deprecation
  | none => some .notDeprecated
  | some w =>
    if isWord w ['D', 'e', 'p', 'r', 'e', 'c', 'a', 't', 'e', 'd'] then some .deprecated
    else if isWord w ['U', 'D', 'P', 'D', 'e', 'p', 'r', 'e', 'c', 'a', 't', 'e', 'd'] then some .udpDeprecated
    else if isWord w ['U', 'D', 'P', 'B', 'l', 'a', 'c', 'k', 'L', 'i', 's', 't', 'e', 'd'] then some .udpBlackListed
    else if isWord w ['N', 'o', 't', 'D', 'e', 'p', 'r', 'e', 'c', 'a', 't', 'e', 'd'] then some .notDeprecated
    else none

/-- `template_parser.py:116-180` (`_start_new_template`). -/
def startNewTemplate (v : PyVersion) (m : List (List Char) × Option (List Char)) : Py RawTemplate :=
  match m.1 with
  | [g1, g2, g3, g4, g5] => do
    let n ← atoi0 g3
    let (f, num, hex) ← numOfFreq v (freqOfWord g2) n
    .ok ⟨String.ofList g1, f, num, hex, trustOfWord g4, encodingOfWord g5, deprecationOfWord m.2, []⟩
  | _ => .error .typeError

/-- `int(match.group(4))`: `TypeError` on `None`. -/
def intOfGroup : Option (List Char) → Py Nat
  | none => .error .typeError
  | some d => match ofDigits1 10 d with
    | some n => .ok n
    | none => .error .valueError

/-- `template_parser.py:182-201` (`_start_new_block`). -/
def startNewBlock (m : List (List Char) × Option (List Char)) : Py RawBlock :=
  match m.1 with
  | [g1, g2] =>
    if isWord g2 ['S', 'i', 'n', 'g', 'l', 'e'] then .ok ⟨String.ofList g1, .single, 0, []⟩
    else if isWord g2 ['M', 'u', 'l', 't', 'i', 'p', 'l', 'e'] then do
      let n ← intOfGroup m.2
      .ok ⟨String.ofList g1, .multiple, n, []⟩
    else if isWord g2 ['V', 'a', 'r', 'i', 'a', 'b', 'l', 'e'] then .ok ⟨String.ofList g1, .variable, 0, []⟩
    else .ok ⟨String.ofList g1, .unknown, 0, []⟩
  | _ => .error .typeError

/-- `template_parser.py:208-248`: the type names. -/
def typeOfWord (w : List Char) : Option MsgType :=
  if isWord w ['U', '8'] then some .u8
  else if isWord w ['U', '1', '6'] then some .u16
  else if isWord w ['U', '3', '2'] then some .u32
  else if isWord w ['U', '6', '4'] then some .u64
  else if isWord w ['S', '8'] then some .s8
  else if isWord w ['S', '1', '6'] then some .s16
  else if isWord w ['S', '3', '2'] then some .s32
  else if isWord w ['S', '6', '4'] then some .s64
  else if isWord w ['F', '3', '2'] then some .f32
  else if isWord w ['F', '6', '4'] then some .f64
  else if isWord w ['L', 'L', 'V', 'e', 'c', 't', 'o', 'r', '3'] then some .vector3
  else if isWord w ['L', 'L', 'V', 'e', 'c', 't', 'o', 'r', '3', 'd'] then some .vector3d
  else if isWord w ['L', 'L', 'V', 'e', 'c', 't', 'o', 'r', '4'] then some .vector4
  else if isWord w ['L', 'L', 'Q', 'u', 'a', 't', 'e', 'r', 'n', 'i', 'o', 'n'] then some .quaternion
  else if isWord w ['L', 'L', 'U', 'U', 'I', 'D'] then some .uuid
  else if isWord w ['B', 'O', 'O', 'L'] then some .bool
  else if isWord w ['I', 'P', 'A', 'D', 'D', 'R'] then some .ipaddr
  else if isWord w ['I', 'P', 'P', 'O', 'R', 'T'] then some .ipport
  else if isWord w ['F', 'i', 'x', 'e', 'd'] then some .fixed
  else if isWord w ['V', 'a', 'r', 'i', 'a', 'b', 'l', 'e'] then some .variable
  else none

/-- `template_parser.py:203-261` (`_start_new_var`).  A size of zero reaches `raise exc…`, but the module never imports `exc`:
`NameError`. -/
def startNewVar (m : List (List Char) × Option (List Char)) : Py RawVar :=
  match m.1 with
  | [g1, g2] =>
    match typeOfWord g2 with
    | some .fixed => do
      let n ← intOfGroup m.2
      if n = 0 then .error .nameError else .ok ⟨String.ofList g1, some .fixed, some n⟩
    | some .variable => do
      let n ← intOfGroup m.2
      if n = 0 then .error .nameError else .ok ⟨String.ofList g1, some .variable, some n⟩
    | some t => .ok ⟨String.ofList g1, some t, sizeof t⟩
    | none => .ok ⟨String.ofList g1, none, none⟩
  | _ => .error .typeError

/-- `template_parser.py:44-49,69-70`: the parser object; `templates` is `message_templates`, newest first.  `current_template` is the newest one,
`current_block` the newest block of the newest template that has one. -/
structure ParserState where
  version : Option (List Char)
  state : Int
  templates : List RawTemplate
  deriving DecidableEq, Repr

/-- `current_template.add_block(b)`: `AttributeError` while it is `None`. -/
def addBlockCur (b : RawBlock) : List RawTemplate → Py (List RawTemplate)
  | [] => .error .attributeError
  | t :: ts => .ok ({ t with blocks := b :: t.blocks } :: ts)

/-- `current_block.add_variable(v)`: `AttributeError` while it is `None`. -/
def addVarCur (v : RawVar) : List RawTemplate → Py (List RawTemplate)
  | [] => .error .attributeError
  | t :: ts =>
    match t.blocks with
    | b :: bs => .ok ({ t with blocks := { b with vars := v :: b.vars } :: bs } :: ts)
    | [] => do
      let ts ← addVarCur v ts
      .ok (t :: ts)

/-- `template_parser.py:84-89`. -/
def readVersion (l : List Char) (st : ParserState) : Py ParserState :=
  match st.version with
  | some _ => .ok st
  | none =>
    match matchVersion l with
    | none => .ok st
    | some (.ok w) => .ok { st with version := some w }
    | some (.error e) => .error e

/-- `template_parser.py:95-99`. -/
def stepMessage (v : PyVersion) (l : List Char) (st : ParserState) : Py ParserState :=
  if st.state = 1 then
    match matchMessageHeader l with
    | none => .ok st
    | some m => do
      let t ← startNewTemplate v m
      .ok { st with templates := t :: st.templates }
  else .ok st

/-- `template_parser.py:101-105`. -/
def stepBlock (l : List Char) (st : ParserState) : Py ParserState :=
  if st.state = 2 then
    match matchPair l with
    | none => .ok st
    | some m => do
      let b ← startNewBlock m
      let ts ← addBlockCur b st.templates
      .ok { st with templates := ts }
  else .ok st

/-- `template_parser.py:107-110`. -/
def stepData (l : List Char) (st : ParserState) : Py ParserState :=
  if st.state = 3 then
    match matchPair l with
    | none => .ok st
    | some m => do
      let x ← startNewVar m
      let ts ← addVarCur x st.templates
      .ok { st with templates := ts }
  else .ok st

/-- `template_parser.py:92-93,112-113`: braces move the state. -/
def openBrace (l : List Char) (st : ParserState) : ParserState := if hasOpen l then { st with state := st.state + 1 } else st
def closeBrace (l : List Char) (st : ParserState) : ParserState := if hasClose l then { st with state := st.state - 1 } else st

/-- `template_parser.py:73-113`: one line. -/
def parseLine (v : PyVersion) (st : ParserState) (l : List Char) : Py ParserState :=
  if isComment l then .ok st
  else do
    let st ← readVersion l st
    let st ← stepMessage v l (openBrace l st)
    let st ← stepBlock l st
    let st ← stepData l st
    .ok (closeBrace l st)

/-- `template_parser.py:73-113`: the loop over the lines. -/
def parseLines (v : PyVersion) (st : ParserState) : List (List Char) → Py ParserState
  | [] => .ok st
  | l :: ls => do
    let st ← parseLine v st l
    parseLines v st ls

/-- `template_parser.py:40-54` (`MessageTemplateParser(file).message_templates`), in file order. -/
def parseTemplateFile (v : PyVersion) (lines : List (List Char)) : Py (List RawTemplate) := do
  let st ← parseLines v ⟨none, 0, []⟩ lines
  .ok st.templates.reverse

/-- A variable with a known type. -/
def RawVar.known (x : RawVar) : Option TVar := do
  let t ← x.type
  let n ← x.size
  some ⟨x.name, t, n⟩

/-- A block whose variables all have known types. -/
def RawBlock.known (b : RawBlock) : Option TBlock := do
  let vs ← b.vars.reverse.mapM RawVar.known
  some ⟨b.name, b.blockType, b.number, vs⟩

/-- A template whose variables all have known types, in the form the rest of the model uses (`msg_num_hex` is set by `template_dict.py`). -/
def RawTemplate.known (t : RawTemplate) : Option Template := do
  let bs ← t.blocks.reverse.mapM RawBlock.known
  some ⟨t.name, t.freq, t.msgNum, [], t.trust, t.encoding, t.deprecation, bs⟩

/-- `template_dict.py:30-51` (`TemplateDictionary(message_template = file)`).  Simplified: a variable of unknown type, which only fails when it
is used, is reported here (`TypeError`). -/
def templateDictOfFile (rt : Runtime) (lines : List (List Char)) : Py TemplateDict := do
  let raws ← parseTemplateFile rt.ver lines
  match raws.mapM RawTemplate.known with
  | some ts => TemplateDict.build rt ts
  | none => .error .typeError

end Pyogp
