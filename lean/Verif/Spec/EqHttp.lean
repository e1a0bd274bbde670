import Verif.Spec.EventServer
import Verif.Spec.Http
import Verif.Model.EqHttp

/-!
# Specification: the event queue as its server sees it
-/

namespace Pyogp.Spec

/-- How a poll ends, told from the server's reply to the last request it needed. -/
inductive PollEnds (parse : Bytes → Except String Llsd) : RawReply → PollOutcome → Prop
  | response (code : Int) (msg : String) (hs : List (String × String)) (body : Bytes) (ct : String) (v : Llsd) : 200 ≤ code ∧ code < 300 →
      headerValue hs "content-type" = some ct → PostAccepts ct body → parse body = .ok v → ¬ EqualsFalse v → PollEnds parse (.reply code msg hs body) (.response v)
  | untyped (code : Int) (msg : String) (hs : List (String × String)) (body : Bytes) : 200 ≤ code ∧ code < 300 →
      headerValue hs "content-type" = none → PollEnds parse (.reply code msg hs body) (.failure .keyError)
  | unsupported (code : Int) (msg : String) (hs : List (String × String)) (body : Bytes) (ct : String) : 200 ≤ code ∧ code < 300 →
      headerValue hs "content-type" = some ct → ¬ PostAccepts ct body → PollEnds parse (.reply code msg hs body) (.failure .deserializerNotFound)
  | malformed (code : Int) (msg : String) (hs : List (String × String)) (body : Bytes) (ct : String) : 200 ≤ code ∧ code < 300 →
      headerValue hs "content-type" = some ct → PostAccepts ct body → (∀ v, parse body = .ok v → EqualsFalse v) →
      PollEnds parse (.reply code msg hs body) (.failure .deserializationFailed)
  | notFound (msg : String) (hs : List (String × String)) (body : Bytes) : PollEnds parse (.reply 404 msg hs body) (.failure .resourceNotFound)
  | refused (code : Int) (msg : String) (hs : List (String × String)) (body : Bytes) : ¬ (200 ≤ code ∧ code < 300) → code ≠ 404 →
      PollEnds parse (.reply code msg hs body) (.failure (.resourceError code))
  | connection (e : Exc) : PollEnds parse (.failed e) (.failure e)

/-- One POST of the event queue as the server sees it, after these earlier requests: a POST of the data to the capability, labelled as LLSD, and then at most redirects, without
data and without headers; the reply to the last request is the outcome. -/
structure PostExchange (w : EqNet) (earlier : List RawRequest) (post : Llsd) (requests : List RawRequest) (o : PollOutcome) : Prop where
  first : ∃ rest, requests = ⟨w.url, some (w.format post), [("Content-type", "application/llsd+xml")]⟩ :: rest ∧ ∀ r ∈ rest, r.data = none ∧ r.headers = []
  bound : requests.length ≤ 38
  follows : FollowsRedirects w.resolve (fun done r => w.server (earlier ++ done) r) requests
  ends : ∃ init last, requests = init ++ [last] ∧ PollEnds w.parse (w.server (earlier ++ init) last) o

/-- One POST after the other: what was posted, the outcomes, and all requests. -/
inductive PostExchanges (w : EqNet) : List RawRequest → List Llsd → List PollOutcome → List RawRequest → Prop
  | nil (earlier : List RawRequest) : PostExchanges w earlier [] [] []
  | cons {earlier requests wire : List RawRequest} {post : Llsd} {posts : List Llsd} {o : PollOutcome} {os : List PollOutcome} :
      PostExchange w earlier post requests o → PostExchanges w (earlier ++ requests) posts os wire → PostExchanges w earlier (post :: posts) (o :: os) (requests ++ wire)

/-- The bodies of the requests that have one. -/
def bodies (wire : List RawRequest) : List Bytes := wire.filterMap (·.data)

/-- The body is the text of this value, and of no other: what the simulator reads in it. -/
def Means (w : EqNet) (body : Bytes) (post : Llsd) : Prop := w.format post = body ∧ ∀ p, w.format p = body → p = post

/-- A simulator in state `sv` gets a POST with this body, and replies; the flag tells whether the client gets a response.  The request may not reach it; it may register the acknowledgement
and report an error (a timeout, say); it may answer and the answer may get lost, or not be accepted as LLSD by the client on its way (an error page of a proxy). -/
inductive SimReplies (w : EqNet) (d : TemplateDict) (sv : EqServer) (body : Bytes) : RawReply → EqServer → Bool → Prop
  | lost (reply : RawReply) : (∀ place, ¬ SendsTo reply place) → (∀ v, ¬ PollEnds w.parse reply (.response v)) → SimReplies w d sv body reply sv false
  | error (reply : RawReply) (post : Llsd) : Means w body post → (∀ place, ¬ SendsTo reply place) → (∀ v, ¬ PollEnds w.parse reply (.response v)) →
      SimReplies w d sv body reply (sv.register post) false
  | answerLost (reply : RawReply) (post : Llsd) (r : Llsd × List Event) (sv' : EqServer) : Means w body post → (sv.register post).Answers r sv' →
      (∀ place, ¬ SendsTo reply place) → (∀ v, ¬ PollEnds w.parse reply (.response v)) → SimReplies w d sv body reply sv' false
  | answered (code : Int) (msg : String) (hs : List (String × String)) (answer : Bytes) (ct : String) (v post : Llsd) (r : Llsd × List Event) (sv' : EqServer) :
      Means w body post → (sv.register post).Answers r sv' → 200 ≤ code ∧ code < 300 → headerValue hs "content-type" = some ct →
      MediaType "application/llsd+xml" ct → w.parse answer = .ok v → IsResponse (Known d) v r.1 r.2 →
      SimReplies w d sv body (.reply code msg hs answer) sv' true

/-- A new client polls a simulator over HTTP: events that have happened since, polls that have failed, the client and its requests, the simulator. -/
inductive HttpPolling (w : EqNet) (d : TemplateDict) (h : EqHandler) (sv0 : EqServer) : List Event → Nat → EqHttpState → EqServer → Prop
  | start : HttpPolling w d h sv0 [] 0 { eq := { running := true } } sv0
  | happens {evs f st sv} (e : Event) : HttpPolling w d h sv0 evs f st sv → HttpPolling w d h sv0 (evs ++ [e]) f st { sv with waiting := sv.waiting ++ [e] }
  | poll {evs f st sv sv' ok} (server : Server) (body : Bytes) (reply : RawReply) : HttpPolling w d h sv0 evs f st sv →
      bodies (eqPollHttp d h { w with server := server } st).wire = bodies st.wire ++ [body] →
      (∀ r : RawRequest, r.url = w.url → r.data = some body → server st.wire r = reply) → SimReplies w d sv body reply sv' ok →
      HttpPolling w d h sv0 evs (if ok then f else f + 1) (eqPollHttp d h { w with server := server } st) sv'

/-- A simulator and its clients, one after the other; what they handed over, and how many polls failed or clients ended without their final POST reaching the simulator. -/
inductive HttpClients (w : EqNet) (d : TemplateDict) (h : EqHandler) (sv0 : EqServer) : List Event → List Message → Nat → EqServer → Prop
  | none : HttpClients w d h sv0 [] [] 0 sv0
  | stopped {es ms n sv evs f st sv' body post} (server : Server) : HttpClients w d h sv0 es ms n sv → HttpPolling w d h sv evs f st sv' →
      bodies (processRegionHttp d h { w with server := server } 0 st).2.wire = bodies st.wire ++ [body] → Means w body post →
      HttpClients w d h sv0 (es ++ evs) (ms ++ st.eq.delivered) (n + f) (sv'.register post)
  | idle {es ms n sv evs f st sv'} (server : Server) : HttpClients w d h sv0 es ms n sv → HttpPolling w d h sv evs f st sv' →
      (processRegionHttp d h { w with server := server } 0 st).2.wire = st.wire → HttpClients w d h sv0 (es ++ evs) (ms ++ st.eq.delivered) (n + f) sv'
  | crashed {es ms n sv evs f st sv'} : HttpClients w d h sv0 es ms n sv → HttpPolling w d h sv evs f st sv' →
      HttpClients w d h sv0 (es ++ evs) (ms ++ st.eq.delivered) (n + f + 1) sv'

end Pyogp.Spec
