import Mathlib.Data.List.Forall2
import Verif.Model.EventQueue

/-!
# Specification: event-queue responses and polls
-/

namespace Pyogp.Spec

/-- The body of an event: for a message of the template, per block name the instances, each a list of named values; for other events a
list of named values. -/
inductive EventBody
  | blocks (l : List (String × List (List (String × Llsd))))
  | vars (l : List (String × Llsd))

/-- An event as its sender means it. -/
structure Event where
  name : String
  body : EventBody

def EventBody.llsd : EventBody → Llsd
  | .blocks l => .map (l.map (fun b => (b.1, .arr (b.2.map .map))))
  | .vars l => .map l

/-- All names of a list of named things are different. -/
def NamesNodup {α : Type} (l : List (String × α)) : Prop := (l.map (·.1)).Nodup

def EventBody.NamesOk : EventBody → Prop
  | .blocks l => NamesNodup l ∧ ∀ b ∈ l, ∀ i ∈ b.2, NamesNodup i
  | .vars l => NamesNodup l

/-- The LLSD value `v` is the event `e`: a map whose `message` is the name and whose `body` is the body (other entries are allowed);
names known to the template come with blocks, others with plain values. -/
structure IsEvent (known : String → Prop) (v : Llsd) (e : Event) : Prop where
  isMap : ∃ m : List (String × Llsd), v = .map m ∧ Dict.get? m "message" = some (.str e.name) ∧ Dict.get? m "body" = some e.body.llsd
  names : e.body.NamesOk
  shape : known e.name ↔ ∃ l, e.body = .blocks l

/-- `v` is a response with this id and these events, and nothing else. -/
structure IsResponse (known : String → Prop) (v : Llsd) (id : Llsd) (evs : List Event) : Prop where
  ex : ∃ vs : List Llsd, List.Forall₂ (IsEvent known) vs evs ∧
    (v = .map [("id", id), ("events", .arr vs)] ∨ v = .map [("events", .arr vs), ("id", id)])

/-- A block with this name and these named values. -/
def blockWith (name : String) (vars : List (String × Llsd)) : BlockData :=
  { name := name
    vars := vars.map (fun p => (p.1, { name := p.1, data := .llsd p.2 }))
    varList := vars.map (·.1) }

/-- The blocks a message object must have: one list of instances per block name, in order (a block without instances does not appear);
or the single block `Message_Data`. -/
def EventBody.expectedBlocks : EventBody → List (String × List BlockData)
  | .blocks l => (l.filter (fun b => !b.2.isEmpty)).map (fun b => (b.1, b.2.map (blockWith b.1)))
  | .vars l => [("Message_Data", [blockWith "Message_Data" l])]

/-- The message object an event must become: its name, the id of the response, its blocks; everything else as in a new message. -/
def Event.message (id : Llsd) (e : Event) : Message :=
  { name := e.name, eventQueueId := id, blocks := e.body.expectedBlocks }

/-- The id the client has to acknowledge after these polls: that of the most recent response that has one, unless there was an empty
response since. -/
def knownId : List PollOutcome → Option Llsd
  | [] => none
  | o :: earlier =>
    match o with
    | .failure _ => knownId earlier
    | .response .undef => none
    | .response (.map m) => match Dict.get? m "id" with
      | some i => some i
      | none => knownId earlier
    | .response _ => knownId earlier

/-- The polls made before poll `k`, most recent first. -/
def before (polls : List PollOutcome) (k : Nat) : List PollOutcome := (polls.take k).reverse

/-- What a poll has to post. -/
def ackPost : Option Llsd → Llsd
  | none => .map []
  | some i => .map [("ack", i)]

/-- What has to be posted when the client stops: one more acknowledgement if there is something to acknowledge. -/
def donePosts : Option Llsd → List Llsd
  | none => []
  | some i => [.map [("ack", i), ("done", .bool true)]]

/-- The most recent response (`undef` if there is none). -/
def lastResponse : List PollOutcome → Llsd
  | [] => .undef
  | .response v :: _ => v
  | .failure _ :: earlier => lastResponse earlier

/-- `-1` stands for "no id" in the client, so a server must not use it. -/
def SaneIds (polls : List PollOutcome) : Prop :=
  ∀ m i, PollOutcome.response (.map m) ∈ polls → Dict.get? m "id" = some i → i ≠ .int (-1) ∧ i ≠ .real 0xBFF0000000000000#64

/-- Names the client's template knows. -/
abbrev Known (d : TemplateDict) (n : String) : Prop := (d.getTemplate n).isSome

/-- What the polls mean: a response with its id and events, or a failure. -/
def IsPoll (d : TemplateDict) : PollOutcome → Option (Llsd × List Event) → Prop
  | .response v, some (id, evs) => IsResponse (Known d) v id evs
  | .failure _, none => True
  | _, _ => False

/-- The messages of one response. -/
def responseMessages (r : Llsd × List Event) : List Message := r.2.map (Event.message r.1)

/-- What is delivered: the messages of every response, and again those of the last response for every failed poll. -/
def withRedelivery : Option (Llsd × List Event) → List (Option (Llsd × List Event)) → List Message
  | _, [] => []
  | _, some r :: l => responseMessages r ++ withRedelivery (some r) l
  | some r, none :: l => responseMessages r ++ withRedelivery (some r) l
  | none, none :: l => withRedelivery none l

/-- The first `k` of these messages are handed to the handler, which had been given `done` before: it returned normally for each of them but
possibly the last, and messages are left out only if it raised on the last. -/
def HandedOver (h : EqHandler) (done msgs : List Message) (k : Nat) : Prop :=
  k ≤ msgs.length ∧ (∀ j, j + 1 < k → h (done ++ msgs.take (j + 1)) = .ok ()) ∧
    (k < msgs.length → 0 < k ∧ ∃ e, h (done ++ msgs.take k) = .error e)

/-- What a handler that may raise is given: after a response its messages, up to the first one it raises on; after a failed poll
those of the last response once more, in the same way. -/
def HandedAll (h : EqHandler) : Option (Llsd × List Event) → List (Option (Llsd × List Event)) → List Message → List Message → Prop
  | _, [], done, all => all = done
  | _, some r :: l, done, all => ∃ k, HandedOver h done (responseMessages r) k ∧ HandedAll h (some r) l (done ++ (responseMessages r).take k) all
  | some r, none :: l, done, all => ∃ k, HandedOver h done (responseMessages r) k ∧ HandedAll h (some r) l (done ++ (responseMessages r).take k) all
  | none, none :: l, done, all => HandedAll h none l done all

end Pyogp.Spec
