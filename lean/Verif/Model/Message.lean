import Verif.Model.Types

/-!
# Message objects and message templates

Models `message/template.py`, `message/message.py` and `message/template_dict.py`.
-/

namespace Pyogp

/-- `template.py:79-88` (`MsgVariableData`), `message.py:75-83` (`Variable`). The unused `size` is omitted. -/
structure VarData where
  name : String
  data : PyVal
  varType : Option MsgType := none
  deriving DecidableEq, Repr

/-- `template.py:51-60` (`MsgBlockData`): `vars` dict, `var_list` in insertion order, `block_number`. -/
structure BlockData where
  name : String
  vars : Dict String VarData := []
  varList : List String := []
  number : Nat := 0
  deriving DecidableEq, Repr

/-- `template.py:55-60` (`MsgBlockData.__init__`). -/
def BlockData.new (name : String) : BlockData := { name := name }

/-- `template.py:71-73` (`add_variable`). -/
def BlockData.addVariable (b : BlockData) (v : VarData) : BlockData :=
  { b with vars := b.vars.set v.name v, varList := b.varList ++ [v.name] }

/-- `template.py:62-63` (`get_variable`). -/
def BlockData.getVariable (b : BlockData) (n : String) : Py VarData := b.vars.get n

/-- `template.py:65-66` (`__getitem__`). -/
def BlockData.getItem (b : BlockData) (n : String) : Py PyVal := do
  let v ← b.getVariable n
  .ok v.data

/-- `message.py:62-73` (`Block(name, **kwargs)`): the keyword dictionary in its iteration order. -/
def Block.mk' (name : String) (kwargs : List (String × PyVal)) : BlockData :=
  kwargs.foldl (fun b kv => b.addVariable { name := kv.1, data := kv.2 }) (BlockData.new name)

/-- `message.py:88-111` (`Message.__init__`), `template.py:31-34` (`MsgData.__init__`).  `host` is kept by the
dispatcher model; `socket`, `expiration_time` and `original_args` are not modelled (never read by modelled code). -/
structure Message where
  name : String
  blocks : Dict String (List BlockData) := []
  sendFlags : Nat := 0
  packetId : Nat := 0
  eventQueueId : Llsd := .int 0
  acks : List Nat := []
  numAcks : Nat := 0
  trusted : Bool := false
  reliable : Bool := false
  resent : Bool := false
  retries : Int := 1
  deriving DecidableEq, Repr

/-- `template.py:36-40` (`MsgData.add_block`) on the block dictionary. -/
def addBlock (blocks : Dict String (List BlockData)) (b : BlockData) : Dict String (List BlockData) :=
  match blocks.get? b.name with
  | none => blocks.set b.name [b]
  | some l => blocks.set b.name (l ++ [b])

/-- `template.py:36-40`. -/
def Message.addBlock (m : Message) (b : BlockData) : Message := { m with blocks := Pyogp.addBlock m.blocks b }

/-- One positional argument of `Message(name, *args)`: a block or a list of blocks. -/
inductive BlockArg
  | one (b : BlockData)
  | many (l : List BlockData)
  deriving Repr

/-- `message.py:45-54` (`parse_blocks`). -/
def Message.parseBlocks (m : Message) : List BlockArg → Message
  | [] => m
  | .one b :: rest => (m.addBlock b).parseBlocks rest
  | .many l :: rest => (l.foldl Message.addBlock m).parseBlocks rest

/-- `message.py:88-111` (`Message(name, *args)`). -/
def Message.new (name : String) (args : List BlockArg) : Message :=
  ({ name := name } : Message).parseBlocks args

/-- `template.py:42-46` (`get_block`, `__getitem__`). -/
def Message.getBlock (m : Message) (n : String) : Py (List BlockData) := m.blocks.get n

/-- `message.py:113-116` (`add_ack`). -/
def Message.addAck (m : Message) (pid : Nat) : Message :=
  { m with acks := m.acks ++ [pid], numAcks := m.numAcks + 1 }

/-! ## Rendering a message as text -/

/-- What is known of a piece of text while it is put together: is it a `unicode` object (rather than a `str`), and does it
contain something that is not ASCII? -/
structure Text where
  unicode : Bool := false
  high : Bool := false
  deriving DecidableEq, Repr

/-- Is there a byte over 127? (In UTF-8: a character that is not ASCII.) -/
def hasHigh (b : Bytes) : Bool := b.any (fun x => 0x80 ≤ x)

/-- Python's `+` and `%` for two texts: a `str` that meets a `unicode` object is decoded as ASCII, which raises
`UnicodeDecodeError` (a `ValueError`) when it is not. -/
def Text.append (x y : Text) : Py Text :=
  if x.unicode == y.unicode then .ok ⟨x.unicode, x.high || y.high⟩
  else if (if x.unicode then y.high else x.high) then .error .valueError
  else .ok ⟨true, x.high || y.high⟩

/-- `template.py:92-98` (`get_data_as_string`), which is `__str__` and `__repr__` (`template.py:100-107`).  Of the three
branches the last, `str(self.data)`, raises `UnicodeEncodeError` (a `ValueError`) for a `unicode` object that is not ASCII;
the middle one `struct.unpack('h'*(len(self.data)/2), self.data)` raises `struct.error` when the length is odd.  Data that
is no text where text is needed raises; which exception that is is simplified to `TypeError`. -/
def VarData.render (v : VarData) : Py Text :=
  match v.varType with
  | some .variable =>
    match v.data with
    | .str b => .ok ⟨false, hasHigh b⟩
    | .unicode b => .ok ⟨true, hasHigh b⟩
    | _ => .error .typeError
  | some .fixed =>
    match v.data with
    | .str b => if b.length % 2 = 0 then .ok {} else .error .structError
    | _ => .error .typeError
  | _ =>
    match v.data with
    | .str b => .ok ⟨false, hasHigh b⟩
    | .unicode b => if hasHigh b then .error .valueError else .ok {}
    | _ => .ok {}

/-- `message.py:196-204`: the loop over `var_list` of one block. -/
def BlockData.render (b : BlockData) : List String → Text → Py Text
  | [], t => .ok t
  | n :: ns, t => do
    let v ← b.getVariable n
    let s ← v.render
    let t ← t.append s
    b.render ns t

/-- `message.py:194-204`: the loop over the blocks of one name. -/
def renderBlocks : List BlockData → Text → Py Text
  | [], t => .ok t
  | b :: bs, t => do
    let t ← b.render b.varList t
    renderBlocks bs t

/-- `message.py:192-204`: the loop over the block dictionary. -/
def renderDict : Dict String (List BlockData) → Text → Py Text
  | [], t => .ok t
  | (_, bs) :: rest, t => do
    let t ← renderBlocks bs t
    renderDict rest t

/-- `message.py:179-211` (`Message.data`, `Message.__repr__`): whether the text can be produced at all.  The text itself is
not kept; the names in the message are taken to be ASCII `str` objects; the dictionary is iterated in the model's order,
which decides which exception is raised if several would be. -/
def Message.render (m : Message) : Py Text := renderDict m.blocks {}

/-! ## Templates -/

/-- `template.py:113-119` (`MessageTemplateVariable`). -/
structure TVar where
  name : String
  type : MsgType
  size : Nat
  deriving DecidableEq, Repr

/-- `template.py:129-142` (`MessageTemplateBlock`); `variable_map` is not used by the modelled code. -/
structure TBlock where
  name : String
  blockType : BlockType
  number : Nat := 0
  vars : List TVar
  deriving DecidableEq, Repr

/-- `msgtypes.py:69-71` (`MsgTrust`). -/
inductive Trust | trusted | notTrusted
  deriving DecidableEq, Repr
/-- `msgtypes.py:73-75` (`MsgEncoding`). -/
inductive Encoding | unencoded | zerocoded
  deriving DecidableEq, Repr
/-- `msgtypes.py:77-81` (`MsgDeprecation`). -/
inductive Deprecation | deprecated | udpDeprecated | udpBlackListed | notDeprecated
  deriving DecidableEq, Repr

/-- `template.py:162-180` (`MessageTemplate`); trust, encoding and deprecation are `none` when the parser did not
recognise the word.  `msgNumHex` is what `template_dict.py:77-99` computes (see `TemplateDict.build`). -/
structure Template where
  name : String
  freq : Frequency
  msgNum : Nat
  msgNumHex : Bytes := []
  trust : Option Trust := none
  encoding : Option Encoding := none
  deprecation : Option Deprecation := none
  blocks : List TBlock
  deriving DecidableEq, Repr

/-- `template_dict.py:27-51` (`TemplateDictionary`): the two dictionaries. -/
structure TemplateDict where
  byName : Dict String Template
  byPair : Dict (Frequency × Nat) Template
  deriving DecidableEq, Repr

/-- `template_dict.py:77-99` (`build_message_ids`): the header bytes of one template. -/
def messageId (rt : Runtime) (f : Frequency) (num : Nat) : Py Bytes :=
  match f with
  | .fixed => do .ok ([0xff, 0xff, 0xff] ++ (← packData rt (.num (.int num)) .u8))
  | .low => do .ok ([0xff, 0xff] ++ (← packData rt (.num (.int num)) .u16 (some .big)))
  | .medium => do .ok ([0xff] ++ (← packData rt (.num (.int num)) .u8 (some .big)))
  | .high => packData rt (.num (.int num)) .u8 (some .big)

/-- `template_dict.py:59-75` (`build_dictionaries`): later entries overwrite earlier ones.  The frequency strings
`"Fixed"`, `"Low"`, `"Medium"`, `"High"` are represented by `Frequency`. -/
def buildDictionaries (ts : List Template) : TemplateDict :=
  ts.foldl (fun d t => { byName := d.byName.set t.name t, byPair := d.byPair.set (t.freq, t.msgNum) t })
    { byName := [], byPair := [] }

/-- `template_dict.py:77-99` for one template object. -/
def withMessageId (rt : Runtime) (t : Template) : Py Template := do
  let hex ← messageId rt t.freq t.msgNum
  .ok { t with msgNumHex := hex }

/-- `template_dict.py:77-99` for the values of `message_templates`. -/
def buildMessageIds (rt : Runtime) : Dict String Template → Py (Dict String Template)
  | [] => .ok []
  | (k, t) :: rest => do
    let t' ← withMessageId rt t
    let rest' ← buildMessageIds rt rest
    .ok ((k, t') :: rest')

/-- `template_dict.py:30-51` (`TemplateDictionary(template_list)`).  `build_message_ids` mutates the objects that
`message_templates` holds; an object that is also in `message_dict` is the same object, so it changes there too. -/
def TemplateDict.build (rt : Runtime) (ts : List Template) : Py TemplateDict := do
  let d := buildDictionaries ts
  let names ← buildMessageIds rt d.byName
  let upd (p : (Frequency × Nat) × Template) : (Frequency × Nat) × Template :=
    if d.byName.get? p.2.name = some p.2 then
      match names.get? p.2.name with
      | some t' => (p.1, t')
      | none => p
    else p
  .ok { byName := names, byPair := d.byPair.map upd }

/-- `template_dict.py:101-105` (`get_template`). -/
def TemplateDict.getTemplate (d : TemplateDict) (n : String) : Option Template := d.byName.get? n

/-- `template_dict.py:107-111` (`get_template_by_pair`). -/
def TemplateDict.getTemplateByPair (d : TemplateDict) (f : Frequency) (num : Nat) : Option Template :=
  d.byPair.get? (f, num)

/-! ## message.xml -/

/-- `message_dot_xml.py:48`: for each name in `messages`, the value of its `flavor` key if it has one. -/
abbrev DotXml := Dict String (Option String)

/-- `message_dot_xml.py:53-62` (`validate_udp_msg`). -/
def validateUdpMsg (x : DotXml) (name : String) : Py Bool :=
  match x.get? name with
  | none => .ok true
  | some none => .error .keyError
  | some (some fl) => if fl = "template" then .ok true else .ok false

end Pyogp
