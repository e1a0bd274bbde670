import Verif.Model.EventQueue

/-!
# Capabilities

Models `caps.py`, the serializer classes of `helpers.py` and `network/stdlib_client.py`.  The server is an oracle; LLSD-XML text is produced
and parsed by `llbase`, which is represented by its result.
-/

namespace Pyogp

/-- What the rest client does with a request: a response (content type header if there is one, body), an `HTTPError` with its code
(`stdlib_client.py:35-36,50-51`), or any other exception. -/
inductive HttpOutcome
  | response (contentType : Option String) (body : Bytes)
  | httpError (code : Int)
  | otherError (e : Exc)
  deriving DecidableEq, Repr

/-- What a request carries: nothing (GET), an LLSD document (POST), or the caller's bytes (POST_CUSTOM). -/
inductive Payload
  | empty
  | llsd (v : Llsd)
  | raw (b : Bytes)
  deriving DecidableEq, Repr

/-- A request as the rest client makes it: URL, payload and headers (without those that `urllib2` adds; redirects are in `Model/Http`). -/
structure HttpRequest where
  url : String
  payload : Payload
  headers : Dict String String
  deriving DecidableEq, Repr

/-- `content_type.split(";")[0]` (`caps.py:83,150`). -/
def beforeSemicolon (s : String) : String := String.ofList (s.toList.takeWhile (· ≠ ';'))

/-- `str.capitalize` on ASCII, which `urllib2.Request` applies to every header name. -/
def capitalize (s : String) : String :=
  match s.toList with
  | [] => ""
  | c :: cs => String.ofList (c.toUpper :: cs.map Char.toLower)

/-- `stdlib_client.py:32,47`: `urllib2.Request` adds the headers in the iteration order of the dictionary, under their capitalised names. -/
def wireHeaders (h : Dict String String) : Dict String String := h.foldl (fun d p => d.set (capitalize p.1) p.2) []

/-- `r == False` (`helpers.py:269`): the boolean and the numbers zero. -/
def isFalse : Llsd → Bool
  | .bool b => !b
  | .int i => i = 0
  | .real b => b = 0#64 || b = 0x8000000000000000#64
  | _ => false

/-- `helpers.py:262-271` (`LLSDDeserializer.deserialize_string`), `parse` being `llsd.parse` (`none`: `LLSDParseError`). -/
def llsdDeserialize (parse : Bytes → Option Llsd) (body : Bytes) : Py Llsd :=
  match parse body with
  | none => .error .deserializationFailed
  | some v => if isFalse v then .error .deserializationFailed else .ok v

def asciiBytes (s : String) : Bytes := s.toList.map (fun c => UInt8.ofNat c.toNat)

/-- `\s` in a byte regular expression. -/
def isSpace (b : UInt8) : Bool := b = 32 || (9 ≤ b.toNat && b.toNat ≤ 13)

/-- `.*?</llsd>`: the closing tag occurs with no newline before it. -/
def closingTag : Bytes → Bool
  | [] => false
  | b :: l => (asciiBytes "</llsd>").isPrefixOf (b :: l) || (b ≠ 10 && closingTag l)

/-- Remove a literal from the front. -/
def dropLit (lit : String) (b : Bytes) : Option Bytes :=
  if (asciiBytes lit).isPrefixOf b then some (b.drop (asciiBytes lit).length) else none

/-- Remove a white-space character from the front. -/
def dropSpace : Bytes → Option Bytes
  | [] => none
  | b :: l => if isSpace b then some l else none

/-- `caps.py:152`: the body matches the regular expression `<\?xml\sversion="1.0"\s\?><llsd>.*?</llsd>.*`.
Simplified: the `.` in `1.0` (any character but a newline) is modelled as such. -/
def looksLikeLlsd (body : Bytes) : Bool :=
  match (do
    let b ← dropLit "<?xml" body
    let b ← dropSpace b
    let b ← dropLit "version=\"1" b
    let b ← (match b with | [] => none | c :: l => if c = 10 then none else some l)
    let b ← dropLit "0\"" b
    let b ← dropSpace b
    dropLit "?><llsd>" b) with
  | none => false
  | some b => closingTag b

/-- `caps.py:146-168` (`_response_handler`). -/
def responseHandler (parse : Bytes → Option Llsd) (contentType : Option String) (body : Bytes) : Py Llsd :=
  match contentType with
  | none => .error .keyError
  | some ct =>
    let ct := beforeSemicolon ct
    if ct = "application/llsd+xml" ∨ ct = "application/xml" ∨ (ct = "text/html" ∧ looksLikeLlsd body = true) then llsdDeserialize parse body
    else .error .deserializerNotFound

/-- `caps.py:75-79,121-125`: errors of the rest client. -/
def restError (code : Int) : Exc := if code = 404 then .resourceNotFound else .resourceError code

/-- `caps.py:68-96` (`GET`): the result and the requests made. -/
def capGet (parse : Bytes → Option Llsd) (server : HttpRequest → HttpOutcome) (url : String) (_customHeaders : Dict String String) :
    Py Llsd × List HttpRequest :=
  let req : HttpRequest := ⟨url, .empty, wireHeaders []⟩
  match server req with
  | .httpError code => (.error (restError code), [req])
  | .otherError e => (.error e, [req])
  | .response none _ => (.error .keyError, [req])
  | .response (some ct) body =>
    if beforeSemicolon ct = "application/llsd+xml" then (llsdDeserialize parse body, [req]) else (.error .deserializerNotFound, [req])

/-- `caps.py:116-117`: `headers.update(custom_headers)`. -/
def postHeaders (custom : Dict String String) : Dict String String :=
  custom.foldl (fun d p => d.set p.1 p.2) [("Content-type", "application/llsd+xml")]

/-- `caps.py:98-127` (`POST`): only lists and dictionaries can be sent.  `order` rearranges a dictionary into its iteration order. -/
def capPost (parse : Bytes → Option Llsd) (server : HttpRequest → HttpOutcome) (order : Dict String String → Dict String String) (url : String)
    (payload : Llsd) (custom : Dict String String) : Py Llsd × List HttpRequest :=
  match payload with
  | .arr _ | .map _ =>
    let req : HttpRequest := ⟨url, .llsd payload, wireHeaders (order (postHeaders custom))⟩
    match server req with
    | .httpError code => (.error (restError code), [req])
    | .otherError e => (.error e, [req])
    | .response ct body => (responseHandler parse ct body, [req])
  | _ => (.error .deserializerNotFound, [])

/-- `caps.py:129-144` (`POST_CUSTOM`): the caller's headers and bytes. -/
def capPostCustom (parse : Bytes → Option Llsd) (server : HttpRequest → HttpOutcome) (order : Dict String String → Dict String String)
    (url : String) (headers : Dict String String) (payload : Bytes) : Py Llsd × List HttpRequest :=
  let req : HttpRequest := ⟨url, .raw payload, wireHeaders (order headers)⟩
  match server req with
  | .httpError code => (.error (restError code), [req])
  | .otherError e => (.error e, [req])
  | .response ct body => (responseHandler parse ct body, [req])

/-- `caps.py:35-66` (`Capability`): the name and the URL. -/
structure Capability where
  name : String
  url : Llsd
  deriving DecidableEq, Repr

/-- `caps.py:187-190`: the loop over the names. -/
def grantedCaps (granted : Llsd) : List String → Dict String Capability → Py (Dict String Capability)
  | [], d => .ok d
  | n :: ns, d => do
    let u ← llsdItem granted n
    grantedCaps granted ns (d.set n ⟨n, u⟩)

/-- `caps.py:177-192` (`SeedCapability.get`). -/
def seedGet (parse : Bytes → Option Llsd) (server : HttpRequest → HttpOutcome) (order : Dict String String → Dict String String) (url : String)
    (names : List String) : Py (Dict String Capability) × List HttpRequest :=
  let r := capPost parse server order url (.map [("capabilities", .arr (names.map .str))]) []
  (do
    let v ← r.1
    let granted ← llsdItem v "capabilities"
    grantedCaps granted names [], r.2)

end Pyogp
