import Verif.Model.CapErrors

/-!
# The HTTP client

`network/stdlib_client.py`, on top of `urllib2` of Python 2.6 and 2.7 as recalled: which requests a server gets, redirects included, and what
becomes of its replies.  The server is an oracle that may depend on all earlier requests.
-/

namespace Pyogp

/-- A request as the server gets it.  `urllib2.Request.get_method`: with data it is a POST, without a GET.  Simplified: without the headers `Host`,
`User-agent`, `Content-length`, `Connection` and `Accept-encoding` that `urllib2` and `httplib` add. -/
structure RawRequest where
  url : String
  data : Option Bytes
  headers : Dict String String
  deriving DecidableEq, Repr

/-- What the server does: a reply (code, reason, header lines, body), or a failure of the connection. -/
inductive RawReply
  | reply (code : Int) (msg : String) (headers : List (String × String)) (body : Bytes)
  | failed (e : Exc)
  deriving DecidableEq, Repr

/-- `str.lower` on ASCII. -/
def lower (s : String) : String := String.ofList (s.toList.map Char.toLower)

/-- `AbstractHTTPHandler.do_request_`: a POST without a content type gets one. -/
def RawRequest.onWire (r : RawRequest) : RawRequest :=
  if r.data.isSome ∧ r.headers.get? "Content-type" = none then
    { r with headers := r.headers.set "Content-type" "application/x-www-form-urlencoded" }
  else r

/-- `headers.getheaders(name)[0]`, if there is one. -/
def firstHeader (name : String) (hs : List (String × String)) : Option String :=
  (hs.find? (fun p => lower p.1 = name)).map (·.2)

/-- `HTTPRedirectHandler.http_error_302`: the header `location`, or else `uri`. -/
def redirectHeader (hs : List (String × String)) : Option String :=
  match firstHeader "location" hs with
  | some l => some l
  | none => firstHeader "uri" hs

/-- `newurl.replace(' ', '%20')`. -/
def quoteSpaces (s : String) : String := String.ofList (s.toList.flatMap (fun c => if c = ' ' then ['%', '2', '0'] else [c]))

/-- `HTTPRedirectHandler.redirect_request`: the new request has no data, and all headers but those about the data. -/
def redirected (r : RawRequest) (newurl : String) : RawRequest :=
  ⟨quoteSpaces newurl, none, r.headers.filter (fun p => lower p.1 ≠ "content-length" ∧ lower p.1 ≠ "content-type")⟩

/-- `HTTPRedirectHandler.inf_msg`. -/
def infMsg : String :=
  "The HTTP server returned a redirect error that would lead to an infinite loop.\nThe last 30x error message was:\n"

/-- What `urllib2.urlopen` comes to. -/
inductive UrlResult
  | response (code : Int) (msg : String) (headers : List (String × String)) (body : Bytes)
  | httpError (code : Int) (msg : String) (body : Bytes)
  | otherError (e : Exc)
  deriving DecidableEq, Repr

/-- `urllib2.urlopen` (`HTTPErrorProcessor.http_response`, `HTTPRedirectHandler.http_error_302`, `HTTPDefaultErrorHandler`), called from
`stdlib_client.py:34,49`: the result and the requests made.  `resolve` is `urlparse.urljoin`.  `visited` counts the redirects to each URL, `done` are the requests made
before.  The first argument bounds the number of requests (`none`: the bound was too small; C104 proves that 38 is always enough). -/
def openUrl (resolve : String → String → String) (server : List RawRequest → RawRequest → RawReply) :
    Nat → Dict String Nat → List RawRequest → RawRequest → Option UrlResult × List RawRequest
  | 0, _, done, _ => (none, done)
  | n + 1, visited, done, req =>
    let wire := req.onWire
    match server done wire with
    | .failed e => (some (.otherError e), done ++ [wire])
    | .reply code msg hs body =>
      if 200 ≤ code ∧ code < 300 then (some (.response code msg hs body), done ++ [wire])
      else if code ∈ [301, 302, 303, 307] then
        match redirectHeader hs with
        | none => (some (.httpError code msg body), done ++ [wire])
        | some l =>
          let newurl := resolve req.url l
          if req.data.isSome ∧ code = 307 then (some (.httpError code msg body), done ++ [wire])
          else if 4 ≤ (visited.get? newurl).getD 0 ∨ 10 ≤ visited.length then (some (.httpError code (infMsg ++ msg) body), done ++ [wire])
          else openUrl resolve server n (visited.set newurl ((visited.get? newurl).getD 0 + 1)) (done ++ [wire]) (redirected req newurl)
      else (some (.httpError code msg body), done ++ [wire])

/-- `httplib.HTTPMessage.addheader`: a line with a name that was there before is joined to it. -/
def joinHeader (d : Dict String String) (p : String × String) : Dict String String :=
  match d.get? (lower p.1) with
  | none => d.set (lower p.1) p.2
  | some prev => d.set (lower p.1) (prev ++ ", " ++ p.2)

/-- The response headers as `webob` gets them, `result.headers.items()` (`stdlib_client.py:39,54`). -/
def joinHeaders (hs : List (String × String)) : Dict String String := hs.foldl joinHeader []

/-- A `webob.Response` (`stdlib_client.py:38-42,53-57`). -/
structure WebResponse where
  status : String
  headers : Dict String String
  body : Bytes
  deriving DecidableEq, Repr

/-- What a call of the client returns or raises: a response, the library's `HTTPError` (code, message, what its file contains; `stdlib_client.py:35-36,50-51`),
or an exception of the connection. -/
inductive ClientResult
  | response (r : WebResponse)
  | httpError (f : HttpFailure)
  | otherError (e : Exc)
  deriving DecidableEq, Repr

/-- `stdlib_client.py:33-42,48-57`. -/
def UrlResult.toClient : UrlResult → ClientResult
  | .response code msg hs body => .response ⟨toString code ++ " " ++ msg, joinHeaders hs, body⟩
  | .httpError code msg body => .httpError ⟨code, msg, body⟩
  | .otherError e => .otherError e

/-- `stdlib_client.py:44-58` (`POST`) with data, `stdlib_client.py:28-42` (`GET`) and `POST` with `None` without. -/
def httpCall (resolve : String → String → String) (server : List RawRequest → RawRequest → RawReply) (url : String) (data : Option Bytes)
    (headers : Dict String String) : ClientResult × List RawRequest :=
  let r := openUrl resolve server 38 [] [] ⟨url, data, wireHeaders headers⟩
  match r.1 with
  | some u => (u.toClient, r.2)
  | none => (.otherError .runtimeError, r.2)

/-- What `caps.py:82,149` looks at: `response.headers['Content-Type']` (names in any case) and the body. -/
def ClientResult.seen : ClientResult → HttpReply
  | .response r => .response (r.headers.get? "content-type") r.body
  | .httpError f => .failure f
  | .otherError e => .otherError e

/-- A request of a capability (whose headers `urllib2.Request` has capitalised already) carried out by the client; `format` is `llsd.format_xml`. -/
def carryOut (format : Llsd → Bytes) (resolve : String → String → String) (server : List RawRequest → RawRequest → RawReply) (req : HttpRequest) :
    HttpReply × List RawRequest :=
  let r := httpCall resolve server req.url (match req.payload with | .empty => none | .llsd v => some (format v) | .raw b => some b) req.headers
  (r.1.seen, r.2)

/-- `Capability.GET` (`caps.py:68-96`) with a `StdLibClient`: the result, and what the server gets. -/
def capGetHttp (parse : Bytes → Except String Llsd) (format : Llsd → Bytes) (resolve : String → String → String)
    (server : List RawRequest → RawRequest → RawReply) (url : String) : Except CapExc Llsd × List RawRequest :=
  let r := capGetE parse (fun q => (carryOut format resolve server q).1) url []
  (r.1, r.2.flatMap (fun q => (carryOut format resolve server q).2))

/-- `Capability.POST` (`caps.py:98-127`) with a `StdLibClient`. -/
def capPostHttp (parse : Bytes → Except String Llsd) (format : Llsd → Bytes) (resolve : String → String → String)
    (server : List RawRequest → RawRequest → RawReply) (order : Dict String String → Dict String String) (url : String) (payload : Llsd)
    (custom : Dict String String) : Except CapExc Llsd × List RawRequest :=
  let r := capPostE parse (fun q => (carryOut format resolve server q).1) order url payload custom
  (r.1, r.2.flatMap (fun q => (carryOut format resolve server q).2))

end Pyogp
