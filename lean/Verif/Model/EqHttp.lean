import Verif.Model.EventQueue
import Verif.Model.Http

/-!
# The event queue over HTTP

`event_queue.py:164-216` with the capability of `caps.py` and the client of `network/stdlib_client.py` in place of an oracle for what a POST does.
-/

namespace Pyogp

/-- What the event queue's capability depends on: the LLSD parser and formatter, `urljoin`, the server (which has seen all earlier requests), the iteration order of
dictionaries, and the URL of the capability (`caps.py:58-66`). -/
structure EqNet where
  parse : Bytes → Except String Llsd
  format : Llsd → Bytes
  resolve : String → String → String
  server : List RawRequest → RawRequest → RawReply
  order : Dict String String → Dict String String
  url : String

/-- The client, and all requests the server has got from it. -/
structure EqHttpState where
  eq : EqState := {}
  wire : List RawRequest := []
  deriving DecidableEq, Repr

/-- `self.cap.POST(data)` (`event_queue.py:190,212`; `caps.py:98-127`, no custom headers) after these requests. -/
def EqNet.post (w : EqNet) (wire : List RawRequest) (data : Llsd) : Except CapExc Llsd × List RawRequest :=
  capPostHttp w.parse w.format w.resolve (fun done r => w.server (wire ++ done) r) w.order w.url data []

/-- What the event queue makes of it (`event_queue.py:189-196`): the class of an exception is not looked at. -/
def pollOutcome : Except CapExc Llsd → PollOutcome
  | .ok v => .response v
  | .error e => .failure e.kind

/-- `event_queue.py:173-206`: one round of the loop. -/
def eqPollHttp (d : TemplateDict) (h : EqHandler) (w : EqNet) (st : EqHttpState) : EqHttpState :=
  let r := w.post st.wire (pollData st.eq.lastId)
  { eq := eqPoll d h st.eq (pollOutcome r.1), wire := st.wire ++ r.2 }

/-- `event_queue.py:171-206`: the rounds of the loop until `stopped` is seen. -/
def eqRounds (d : TemplateDict) (h : EqHandler) (w : EqNet) : Nat → EqHttpState → EqHttpState
  | 0, st => st
  | n + 1, st => eqRounds d h w n (eqPollHttp d h w st)

/-- `event_queue.py:164-216` (`_processRegionEventQueue`): so many rounds before `stopped` is seen, then the final POST, whose exception is not caught. -/
def processRegionHttp (d : TemplateDict) (h : EqHandler) (w : EqNet) (rounds : Nat) (st : EqHttpState) : Py Unit × EqHttpState :=
  let st := eqRounds d h w rounds { st with eq := { st.eq with running := true } }
  if isMinusOne st.eq.lastId then (.ok (), { st with eq := { st.eq with running := false } })
  else
    let data := Llsd.map [("ack", st.eq.lastId), ("done", .bool true)]
    let r := w.post st.wire data
    let eq := { st.eq with posts := st.eq.posts ++ [data] }
    match r.1 with
    | .ok _ => (.ok (), { eq := { eq with running := false }, wire := st.wire ++ r.2 })
    | .error e => (.error e.kind, { eq := eq, wire := st.wire ++ r.2 })

end Pyogp
