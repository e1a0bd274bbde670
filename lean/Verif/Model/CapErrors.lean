import Verif.Model.Caps

/-!
# What the exceptions of capabilities carry

`caps.py` again, with the attributes of the exceptions of `exc.py` it raises, and the texts those exceptions have as strings.  The server's message
and body are part of the outcome of a request.
-/

namespace Pyogp

/-- An `HTTPError` (`exc.py:50-64`): code, message, and what reading its file gives (`caps.py:79,125,141-142`). -/
structure HttpFailure where
  code : Int
  msg : String
  body : Bytes
  deriving DecidableEq, Repr

/-- What the rest client does with a request (`stdlib_client.py:28-58`). -/
inductive HttpReply
  | response (contentType : Option String) (body : Bytes)
  | failure (f : HttpFailure)
  | otherError (e : Exc)
  deriving DecidableEq, Repr

/-- What can be told about a reply from its code alone. -/
def HttpReply.outcome : HttpReply → HttpOutcome
  | .response ct b => .response ct b
  | .failure f => .httpError f.code
  | .otherError e => .otherError e

/-- The exceptions a capability raises, with their attributes: `exc.py:66-77` (`ResourceNotFound`), `exc.py:79-97` (`ResourceError`),
`exc.py:113-124` (`DeserializerNotFound`, whose `content_type` may be a type), `exc.py:139-152` (`DeserializationFailed`), and others. -/
inductive CapExc
  | resourceNotFound (url : String)
  | resourceError (url : String) (code : Int) (message : String) (body : Bytes) (method : String)
  | deserializerNotFound (contentType : String)
  | noSerializer (type : String)
  | deserializationFailed (payload : Bytes) (reason : String)
  | other (e : Exc)
  deriving DecidableEq, Repr

/-- The class of the exception (with the code of a `ResourceError`). -/
def CapExc.kind : CapExc → Exc
  | .resourceNotFound _ => .resourceNotFound
  | .resourceError _ c _ _ _ => .resourceError c
  | .deserializerNotFound _ => .deserializerNotFound
  | .noSerializer _ => .deserializerNotFound
  | .deserializationFailed _ _ => .deserializationFailed
  | .other e => e

/-- `str` of the exceptions of `exc.py` (lines 76-77, 95-97, 123-124); `none` where it is not modelled.  The texts of `DeserializationFailed`
contain the payload, and so are bytes. -/
def CapExc.text : CapExc → Option String
  | .resourceNotFound url => some url
  | .resourceError url code message _ method =>
    some ("Error using '" ++ method ++ "' on resource '" ++ url ++ "': " ++ message ++ " (" ++ toString code ++ ")")
  | .deserializerNotFound ct => some ("deserialization for '" ++ ct ++ "' not supported")
  | .noSerializer t => some ("deserialization for '" ++ t ++ "' not supported")
  | .deserializationFailed _ _ => none
  | .other _ => none

/-- `str(type(payload))` (`caps.py:109`).  Simplified: integers are `int` (not `long`), texts are `str` (not `unicode`), and a binary is an instance
of `llbase.llsd.binary`. -/
def Llsd.typeText : Llsd → String
  | .undef => "<type 'NoneType'>"
  | .bool _ => "<type 'bool'>"
  | .int _ => "<type 'int'>"
  | .real _ => "<type 'float'>"
  | .str _ => "<type 'str'>"
  | .arr _ => "<type 'list'>"
  | .map _ => "<type 'dict'>"
  | .uuid _ => "<class 'uuid.UUID'>"
  | .binary _ => "<class 'llbase.llsd.binary'>"

/-- `helpers.py:262-271` (`deserialize_string`); `parse` gives the text of the `LLSDParseError`. -/
def llsdDeserializeE (parse : Bytes → Except String Llsd) (body : Bytes) : Except CapExc Llsd :=
  match parse body with
  | .error reason => .error (.deserializationFailed body reason)
  | .ok v => if isFalse v then .error (.deserializationFailed body "result was False") else .ok v

/-- `caps.py:146-168` (`_response_handler`). -/
def responseHandlerE (parse : Bytes → Except String Llsd) (contentType : Option String) (body : Bytes) : Except CapExc Llsd :=
  match contentType with
  | none => .error (.other .keyError)
  | some ct =>
    let ct := beforeSemicolon ct
    if ct = "application/llsd+xml" ∨ ct = "application/xml" ∨ (ct = "text/html" ∧ looksLikeLlsd body = true) then llsdDeserializeE parse body
    else .error (.deserializerNotFound ct)

/-- `caps.py:75-79,121-125,137-142`. -/
def restErrorE (url method : String) (f : HttpFailure) : CapExc :=
  if f.code = 404 then .resourceNotFound url else .resourceError url f.code f.msg f.body method

/-- `caps.py:68-96` (`GET`). -/
def capGetE (parse : Bytes → Except String Llsd) (server : HttpRequest → HttpReply) (url : String) (_customHeaders : Dict String String) :
    Except CapExc Llsd × List HttpRequest :=
  let req : HttpRequest := ⟨url, .empty, wireHeaders []⟩
  match server req with
  | .failure f => (.error (restErrorE url "GET" f), [req])
  | .otherError e => (.error (.other e), [req])
  | .response none _ => (.error (.other .keyError), [req])
  | .response (some ct) body =>
    if beforeSemicolon ct = "application/llsd+xml" then (llsdDeserializeE parse body, [req])
    else (.error (.deserializerNotFound (beforeSemicolon ct)), [req])

/-- `caps.py:98-127` (`POST`). -/
def capPostE (parse : Bytes → Except String Llsd) (server : HttpRequest → HttpReply) (order : Dict String String → Dict String String) (url : String)
    (payload : Llsd) (custom : Dict String String) : Except CapExc Llsd × List HttpRequest :=
  match payload with
  | .arr _ | .map _ =>
    let req : HttpRequest := ⟨url, .llsd payload, wireHeaders (order (postHeaders custom))⟩
    match server req with
    | .failure f => (.error (restErrorE url "POST" f), [req])
    | .otherError e => (.error (.other e), [req])
    | .response ct body => (responseHandlerE parse ct body, [req])
  | _ => (.error (.noSerializer payload.typeText), [])

/-- `caps.py:129-144` (`POST_CUSTOM`). -/
def capPostCustomE (parse : Bytes → Except String Llsd) (server : HttpRequest → HttpReply) (order : Dict String String → Dict String String)
    (url : String) (headers : Dict String String) (payload : Bytes) : Except CapExc Llsd × List HttpRequest :=
  let req : HttpRequest := ⟨url, .raw payload, wireHeaders (order headers)⟩
  match server req with
  | .failure f => (.error (restErrorE url "POST" f), [req])
  | .otherError e => (.error (.other e), [req])
  | .response ct body => (responseHandlerE parse ct body, [req])

/-- `caps.py:177-192` (`SeedCapability.get`): exceptions of `POST` pass through. -/
def seedGetE (parse : Bytes → Except String Llsd) (server : HttpRequest → HttpReply) (order : Dict String String → Dict String String) (url : String)
    (names : List String) : Except CapExc (Dict String Capability) × List HttpRequest :=
  match capPostE parse server order url (.map [("capabilities", .arr (names.map .str))]) [] with
  | (.error e, reqs) => (.error e, reqs)
  | (.ok v, reqs) =>
    match (do
      let granted ← llsdItem v "capabilities"
      grantedCaps granted names []) with
    | .error e => (.error (.other e), reqs)
    | .ok d => (.ok d, reqs)

end Pyogp
