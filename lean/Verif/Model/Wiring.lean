import Verif.Model.TemplateParser
import Verif.Model.Serializer
import Verif.Model.Deserializer
import Verif.Model.Settings

/-!
# How the UDP objects are put together

Models the constructors of `UDPMessageSerializer`, `UDPMessageDeserializer`, `UDPDispatcher` and `MessageManager`, as far as templates,
`message.xml` and settings are concerned.
-/

namespace Pyogp

/-- An open text file: its lines and how many of them have been read by iterating over it. -/
structure FileHandle where
  lines : List (List Char)
  read : Nat := 0
  deriving DecidableEq, Repr

/-- What a Python process starts with: the interpreter, the embedded files (`message/data/__init__.py:19-22`). -/
structure Installation where
  rt : Runtime
  template : List (List Char)
  xml : DotXml

/-- `template_dict.py:30-51` (`TemplateDictionary(template_list)` with a file as `template_list`): the loop runs over the lines that are left,
and `str` has no attribute `name` (line 61). -/
def templateDictOfLines (f : FileHandle) : Py TemplateDict × FileHandle :=
  if f.read < f.lines.length then (.error .attributeError, { f with read := f.read + 1 })
  else (.ok { byName := [], byPair := [] }, f)

/-- `template_dict.py:32-41`, `template_parser.py:57-113`: parse from the beginning; the file is at its end afterwards.  (If parsing raises, the
position does not matter: the constructor fails.) -/
def templateDictParsed (rt : Runtime) (f : FileHandle) : Py TemplateDict × FileHandle :=
  (templateDictOfFile rt f.lines, { f with read := f.lines.length })

/-- `udpserializer.py:42-45`: the dictionary of a serializer; line 43 passes the file as `template_list`. -/
def serializerDict (i : Installation) : Option FileHandle → Py TemplateDict
  | none => templateDictOfFile i.rt i.template
  | some f => (templateDictOfLines f).1

/-- `udpserializer.py:39-51` (`UDPMessageSerializer(message_template, message_xml)`). -/
def serializerInit (i : Installation) (template : Option FileHandle) (xml : Option DotXml) : Py SerEnv := do
  let d ← serializerDict i template
  .ok ⟨i.rt, d, xml.getD i.xml⟩

/-- `udpdispatcher.py:92-97`, `message_manager.py:59-64`: the names registered with the message handler; without one and with `HANDLE_PACKETS` off
the attribute is missing, and reading it raises `AttributeError`. -/
def handlerNames (s : Settings) : Option (List String) → Py (List String)
  | some names => .ok names
  | none => if s.HANDLE_PACKETS then .ok [] else .error .attributeError

/-- `udpdeserializer.py:39-66` (`UDPMessageDeserializer(message_handler, settings, message_template, message_xml)`).
`handler`: the names registered with the handler passed in, if one is. -/
def deserializerInit (i : Installation) (handler : Option (List String)) (settings : Settings) (template : Option FileHandle)
    (xml : Option DotXml) : Py DeserEnv × Option FileHandle :=
  let (d, f) := match template with
    | none => (templateDictOfFile i.rt i.template, none)
    | some f => let r := templateDictParsed i.rt f; (r.1, some r.2)
  (do
    let d ← d
    .ok ⟨i.rt, d, xml.getD i.xml, match handler with
      | some names => some names
      | none => if settings.HANDLE_PACKETS then some [] else none, settings.ENABLE_DEFERRED_PACKET_PARSING⟩, f)

/-- A dispatcher's parsers and its own copy of `message.xml`. -/
structure Parsers where
  ser : SerEnv
  deser : DeserEnv
  xml : DotXml

/-- `udpdispatcher.py:45-104` (`UDPDispatcher(udp_client, settings, message_handler, message_template, message_xml)`), with a file or nothing as
template.  Lines 100-104: `message_xml` is not passed on.  Without handler and with `HANDLE_PACKETS` off, line 100 raises `AttributeError`. -/
def dispatcherInit (i : Installation) (settings : Option Settings) (handler : Option (List String)) (template : Option FileHandle)
    (xml : Option DotXml) : Py Parsers := do
  let s := settings.getD Settings.new
  let names ← handlerNames s handler
  let r := deserializerInit i (some names) s template none
  let deser ← r.1
  let ser ← serializerInit i r.2 none
  .ok ⟨ser, deser, xml.getD i.xml⟩

/-- `message_manager.py:41-116` (`MessageManager(host, message_handler, capabilities, settings, start_monitors, message_template, message_xml)`), with
files or nothing as template and `message.xml`: the dispatcher's parsers and the manager's own copy of `message.xml`, which is not passed on. -/
def managerParsers (i : Installation) (settings : Option Settings) (handler : Option (List String)) (template : Option FileHandle)
    (xml : Option DotXml) : Py (Parsers × DotXml) := do
  let s := settings.getD Settings.new
  let names ← handlerNames s handler
  let p ← dispatcherInit i (some s) (some names) template none
  .ok (p, xml.getD i.xml)

end Pyogp
