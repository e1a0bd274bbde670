import Verif.Model.Http
import Verif.Spec.Caps

/-!
# What an HTTP client should do

Stated about the list of the requests a server got during one call, and the server's replies to them.
-/

namespace Pyogp
namespace Spec

/-- What the library puts before the message of a redirect it does not follow. -/
def loopMsg : String :=
  "The HTTP server returned a redirect error that would lead to an infinite loop.\nThe last 30x error message was:\n"

/-- A server: its reply to a request may depend on all earlier ones. -/
abbrev Server := List RawRequest → RawRequest → RawReply

/-- The reply to the request with this index. -/
def replyTo (server : Server) (reqs : List RawRequest) (i : Nat) : Option RawReply := reqs[i]?.map (server (reqs.take i))

instance (a b : String) : Decidable (SameLetters a b) := inferInstanceAs (Decidable (_ = _))

/-- The values of the header lines with this name, in whatever case. -/
def linesNamed (name : String) (hs : List (String × String)) : List String := (hs.filter (fun p => SameLetters p.1 name)).map (·.2)

/-- The second text is the first with `%20` for every space. -/
inductive Quoted : List Char → List Char → Prop
  | nil : Quoted [] []
  | space {a b} : Quoted a b → Quoted (' ' :: a) ('%' :: '2' :: '0' :: b)
  | char {c a b} : c ≠ ' ' → Quoted a b → Quoted (c :: a) (c :: b)

/-- A reply that sends the client to another place, given as it stands in the reply. -/
def SendsTo (r : RawReply) (place : String) : Prop :=
  ∃ code msg hs body, r = .reply code msg hs body ∧ (code = 301 ∨ code = 302 ∨ code = 303 ∨ code = 307) ∧
    (linesNamed "location" hs ++ linesNamed "uri" hs).head? = some place

/-- Every request but the first went where the reply to the one before sent the client. -/
def FollowsRedirects (resolve : String → String → String) (server : Server) (reqs : List RawRequest) : Prop :=
  ∀ i a b, reqs[i]? = some a → reqs[i + 1]? = some b →
    ∃ r place, replyTo server reqs i = some r ∧ SendsTo r place ∧ Quoted (resolve a.url place).toList b.url.toList

/-- The places the client was sent to and has gone to, in order. -/
def wentTo (resolve : String → String → String) (server : Server) (reqs : List RawRequest) : List String :=
  (List.range (reqs.length - 1)).map fun i =>
    match reqs[i]?, replyTo server reqs i with
    | some a, some (.reply _ _ hs _) => resolve a.url ((linesNamed "location" hs ++ linesNamed "uri" hs).head?.getD "")
    | _, _ => ""

/-- When a redirect is not followed: a POST with code 307, a place the client has been sent to four times, or ten different places. -/
def Refuses (resolve : String → String → String) (server : Server) (reqs : List RawRequest) (last : RawRequest) (code : Int) (place : String) : Prop :=
  (last.data.isSome ∧ code = 307) ∨ 4 ≤ (wentTo resolve server reqs).count (resolve last.url place) ∨
    ∃ l : List String, l.Nodup ∧ l.length = 10 ∧ ∀ u ∈ l, u ∈ wentTo resolve server reqs

/-- How the reply to the last request becomes the result of `urlopen`. -/
def ResultOf : RawReply → UrlResult → Prop
  | .failed e, .otherError e' => e' = e
  | .reply code msg hs body, .response code' msg' hs' body' =>
    (200 ≤ code ∧ code < 300) ∧ code' = code ∧ msg' = msg ∧ hs' = hs ∧ body' = body
  | .reply code msg _ body, .httpError code' msg' body' =>
    ¬ (200 ≤ code ∧ code < 300) ∧ code' = code ∧ (msg' = msg ∨ msg' = loopMsg ++ msg) ∧ body' = body
  | _, _ => False

/-- The value of a header of a reply: those of all lines with this name, with commas between. -/
def headerValue (hs : List (String × String)) (name : String) : Option String :=
  match linesNamed name hs with
  | [] => none
  | v :: vs => some (vs.foldl (fun text w => text ++ ", " ++ w) v)

/-- How the reply to the last request becomes what the client returns or raises. -/
def CallResult : RawReply → ClientResult → Prop
  | .failed e, .otherError e' => e' = e
  | .reply code msg hs body, .response r =>
    (200 ≤ code ∧ code < 300) ∧ r.status = toString code ++ " " ++ msg ∧ 
      (∀ name : String, name.toList.map Char.toLower = name.toList → r.headers.get? name = headerValue hs name) ∧ r.body = body
  | .reply code msg _ body, .httpError f =>
    ¬ (200 ≤ code ∧ code < 300) ∧ f.code = code ∧ (f.msg = msg ∨ f.msg = loopMsg ++ msg) ∧ f.body = body
  | _, _ => False

/-- How the reply to the last request becomes the result of a call of a capability; `decode` is what the call does with the content type and the body. -/
def CapResultOf (decode : Option String → Bytes → Except CapExc Llsd) (url method : String) : RawReply → Except CapExc Llsd → Prop
  | .failed e, r => r = .error (.other e)
  | .reply code msg hs body, r =>
    (200 ≤ code ∧ code < 300 → r = decode (headerValue hs "content-type") body) ∧
    (code = 404 → r = .error (.resourceNotFound url)) ∧
    (¬ (200 ≤ code ∧ code < 300) → code ≠ 404 →
      ∃ msg', (msg' = msg ∨ msg' = loopMsg ++ msg) ∧ r = .error (.resourceError url code msg' body method))

/-- A header about the data of a request. -/
def AboutData (name : String) : Prop := SameLetters name "content-length" ∨ SameLetters name "content-type"

end Spec
end Pyogp
