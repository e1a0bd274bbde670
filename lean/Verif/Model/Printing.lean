import Verif.Model.Base

/-!
# Objects and exceptions as text

`exc.py`, and the `__repr__` methods of `circuit.py`, `udpdispatcher.py`, `net.py` and `caps.py`, with the two kinds of text of Python 2:
`str` (bytes) and `unicode`.
-/

namespace Pyogp

/-- The two kinds of text. -/
inductive PStr
  | bytes (b : Bytes)
  | uni (cs : List Char)
  deriving DecidableEq, Repr

/-- Some types, for `DeserializerNotFound(type(payload))` (`caps.py:109`). -/
inductive TypeName
  | dict | list | tuple | str | unicode | int | long | float | bool | noneType
  deriving DecidableEq, Repr

def TypeName.name : TypeName → String
  | .dict => "dict" | .list => "list" | .tuple => "tuple" | .str => "str" | .unicode => "unicode" | .int => "int"
  | .long => "long" | .float => "float" | .bool => "bool" | .noneType => "NoneType"

/-- Values of attributes.  (Simplified: no tuples, for which `'%s' % (x)` means something else, and no objects with an `__str__` of
their own other than types.) -/
inductive Val
  | bytes (b : Bytes)
  | uni (cs : List Char)
  | int (i : Int)
  | none
  /-- a type such as `dict` -/
  | type (t : TypeName)
  deriving DecidableEq, Repr

/-- The bytes of an ASCII literal. -/
def lit (s : String) : Bytes := s.toList.map (fun c => UInt8.ofNat c.toNat)

/-- What `%s` makes of a value: a `unicode` object stays one. -/
def Val.shown : Val → PStr
  | .bytes b => .bytes b
  | .uni cs => .uni cs
  | .int i => .bytes (lit (toString i))
  | .none => .bytes (lit "None")
  | .type t => .bytes (lit ("<type '" ++ t.name ++ "'>"))

/-- Is this `unicode`? -/
def PStr.isUni : PStr → Bool
  | .uni _ => true
  | .bytes _ => false

/-- `str` to `unicode`, by the ASCII codec; raises `UnicodeDecodeError` (a `ValueError`). -/
def PStr.decode : PStr → Py (List Char)
  | .uni cs => .ok cs
  | .bytes b => if b.all (· < 128) then .ok (b.map (fun x => Char.ofNat x.toNat)) else .error .valueError

/-- The bytes of a `str`. -/
def PStr.raw : PStr → Bytes
  | .bytes b => b
  | .uni _ => []

/-- `''.join` of pieces: of `str` a `str`; with one `unicode` object among them everything is decoded. -/
def joinText (ps : List PStr) : Py PStr :=
  if ps.any PStr.isUni then do
    let l ← ps.mapM PStr.decode
    .ok (.uni l.flatten)
  else .ok (.bytes (ps.map PStr.raw).flatten)

/-- The pieces of a format string between its `%s`. -/
def formatPieces : List Char → List (List Char)
  | [] => [[]]
  | '%' :: 's' :: cs => [] :: formatPieces cs
  | c :: cs =>
    match formatPieces cs with
    | [] => [[c]]
    | p :: ps => (c :: p) :: ps

/-- A piece of a format string (ASCII). -/
def litChars (cs : List Char) : PStr := .bytes (cs.map (fun c => UInt8.ofNat c.toNat))

/-- Pieces and arguments by turns; `TypeError` if there are too many or too few. -/
def weave : List (List Char) → List Val → Py (List PStr)
  | [p], [] => .ok [litChars p]
  | p :: ps, v :: vs => do
    let rest ← weave ps vs
    .ok (litChars p :: v.shown :: rest)
  | _, _ => .error .typeError

/-- `fmt % args` for a `str` `fmt` with no conversion but `%s`. -/
def percent (fmt : String) (args : List Val) : Py PStr := do
  joinText (← weave (formatPieces fmt.toList) args)

/-- `str(x)` and `repr(x)` of an object whose method returned this value: `unicode` is encoded by the ASCII codec (`UnicodeEncodeError`, a
`ValueError`), anything but text is a `TypeError`. -/
def returned : Val → Py Bytes
  | .bytes b => .ok b
  | .uni cs => if cs.all (fun c => c.toNat < 128) then .ok (cs.map (fun c => UInt8.ofNat c.toNat)) else .error .valueError
  | _ => .error .typeError

/-- A text as a value. -/
def PStr.val : PStr → Val
  | .bytes b => .bytes b
  | .uni cs => .uni cs

/-- `str` of an object whose `__str__` is `return fmt % args`. -/
def strPercent (fmt : String) (args : List Val) : Py Bytes := do
  returned (← percent fmt args).val

/-- The exceptions of `exc.py` that have a `__str__`, with the attributes it shows. -/
inductive LibExc
  | loginError (error : Val)
  | parseStartLoc (error : Val)
  | httpError (code msg : Val)
  | resourceNotFound (url : Val)
  | resourceError (url code message method : Val)
  | deserializerNotFound (contentType : Val)
  | credentialDeserializerNotFound (payload : Val)
  | deserializationFailed (payload reason : Val)
  | messageTemplateNotFound (context : Val)
  | messageTemplateParsing (context : Val)
  | circuitNotFound (host reason : Val)
  | messageBuilding (label reason : Val)
  | messageSerialization (label reason : Val)
  | messageDeserialization (label reason : Val)
  | dataUnpacking (data reason : Val)
  | regionSeedCap (reason : Val)
  | regionMessage (region : Val)
  | dataParsing (error : Val)
  | notImplemented (error : Val)
  | deprecated (thing : Val)
  deriving DecidableEq, Repr

/-- `str(e)`: the `__str__` methods of `exc.py:27-372`, in their order. -/
def LibExc.str : LibExc → Py Bytes
  | .loginError e => strPercent "Agent login error: %s" [e]
  | .parseStartLoc _ => returned (.bytes (lit "Invalid start location specified, using defaults in settings"))
  | .httpError c m => strPercent "%s %s" [c, m]
  | .resourceNotFound u => returned u
  | .resourceError u c m me => strPercent "Error using '%s' on resource '%s': %s (%s)" [me, u, m, c]
  | .deserializerNotFound c => strPercent "deserialization for '%s' not supported" [c]
  | .credentialDeserializerNotFound p => strPercent "deserialization for payload '%s' not supported" [p]
  | .deserializationFailed p r => strPercent "deserialization failed for '%s', reason: '%s'" [p, r]
  | .messageTemplateNotFound c => strPercent "No message template found, context: '%s'" [c]
  | .messageTemplateParsing c => strPercent "Error parsing message template, context: '%s'" [c]
  | .circuitNotFound h r => strPercent "No circuit to '%s' found, reason: '%s'" [h, r]
  | .messageBuilding l r => strPercent "Error serializing '%s' due to reason: '%s'" [l, r]
  | .messageSerialization l r => strPercent "Error serializing '%s' due to reason: '%s'" [l, r]
  | .messageDeserialization l r => strPercent "Error deserializing '%s' due to reason: '%s'" [l, r]
  | .dataUnpacking d r => strPercent "Error serializing '%s' due to reason: '%s'" [d, r]
  | .regionSeedCap r => strPercent "Region seed capability not found when %s'" [r]
  | .regionMessage r => strPercent "Agent has no udp connection enabled for: %s'" [r]
  | .dataParsing e => strPercent "Data parsing error: %s'" [e]
  | .notImplemented e => strPercent "This method has to be implemented here: %s" [e]
  | .deprecated t => strPercent "This thing is deprecated: %s" [t]

/-- `circuit.py:27-29` (`Host.__repr__`): `str` around the format, so the encoding happens inside. -/
def hostRepr (ip port : Val) : Py Bytes := strPercent "Host: '%s:%s'" [ip, port]

/-- `udpdispatcher.py:324-326` (`UDPDispatcher.__repr__`): shows the host the last datagram came from. -/
def dispatcherRepr (ip port : Val) : Py Bytes := do
  strPercent "UDPDispatcher to %s" [.bytes (← hostRepr ip port)]

/-- `net.py:68-70` (`NetUDPClient.__repr__`): returns the method `__repr__` of the host instead of calling it, which is no text. -/
def netClientRepr (_ip _port : Val) : Py Bytes := .error .typeError

/-- `caps.py:171-172` (`Capability.__repr__`). -/
def capRepr (name url : Val) : Py Bytes := strPercent "<Capability '%s' for %s>" [name, url]

/-- `caps.py:194-195` (`SeedCapability.__repr__`). -/
def seedCapRepr (url : Val) : Py Bytes := strPercent "<SeedCapability for %s>" [url]

/-- The exception classes of `exc.py`. -/
inductive ExcClass
  | error | agentError | loginError | parseStartLocError | networkError | httpError | resourceNotFound | resourceError
  | serializationError | deserializationError | deserializerNotFound | credentialDeserializerNotFound | deserializationFailed
  | messageSystemError | messageTemplateNotFound | messageTemplateParsingError | circuitNotFound | messageBuildingError
  | messageSerializationError | messageDeserializationError | dataUnpackingError | agentDomainError | userNotFound
  | userNotAuthorized | userRezFailed | regionDomainError | regionSeedCapNotAvailable | regionCapNotAvailable
  | regionMessageError | dataParsingError | notImplemented | deprecated
  deriving DecidableEq, Repr

/-- The base class (`exc.py`, the `class` lines); `none` for `Error`, whose base is `Exception`. -/
def ExcClass.base : ExcClass → Option ExcClass
  | .error => none
  | .agentError => some .error
  | .loginError => some .error
  | .parseStartLocError => some .loginError
  | .networkError => some .error
  | .httpError => some .networkError
  | .resourceNotFound => some .networkError
  | .resourceError => some .networkError
  | .serializationError => some .error
  | .deserializationError => some .error
  | .deserializerNotFound => some .deserializationError
  | .credentialDeserializerNotFound => some .deserializationError
  | .deserializationFailed => some .deserializationError
  | .messageSystemError => some .error
  | .messageTemplateNotFound => some .messageSystemError
  | .messageTemplateParsingError => some .messageSystemError
  | .circuitNotFound => some .messageSystemError
  | .messageBuildingError => some .messageSystemError
  | .messageSerializationError => some .messageSystemError
  | .messageDeserializationError => some .messageSystemError
  | .dataUnpackingError => some .messageSystemError
  | .agentDomainError => some .error
  | .userNotFound => some .agentDomainError
  | .userNotAuthorized => some .agentDomainError
  | .userRezFailed => some .agentDomainError
  | .regionDomainError => some .error
  | .regionSeedCapNotAvailable => some .regionDomainError
  | .regionCapNotAvailable => some .regionDomainError
  | .regionMessageError => some .regionDomainError
  | .dataParsingError => some .error
  | .notImplemented => some .error
  | .deprecated => some .error

/-- `except h:` catches an exception of class `c`: going up the base classes from `c` one meets `h`. -/
inductive ExcClass.CaughtBy : ExcClass → ExcClass → Prop
  | self (c : ExcClass) : CaughtBy c c
  | up {c b h : ExcClass} : c.base = some b → CaughtBy b h → CaughtBy c h

end Pyogp
