import Verif.Proofs.EventQueue
import Verif.Props.Circuit

/-!
# The event queue (C38, C39, C40, C62, C63)
-/

namespace Pyogp
open Spec

/-! ## Demonstration data -/

/-- An event of the template with two instances of one block, and one outside the template. -/
def demoAckEvent : Event := ⟨"PacketAck", .blocks [("Packets", [[("ID", .int 7)], [("ID", .int 9)]])]⟩
def demoChatEvent : Event := ⟨"ChatterBoxInvitation", .vars [("from", .str "a"), ("count", .int 2)]⟩

def demoEvents : List Llsd :=
  [.map [("message", .str "PacketAck"), ("body", .map [("Packets", .arr [.map [("ID", .int 7)], .map [("ID", .int 9)]])])],
   .map [("body", .map [("from", .str "a"), ("count", .int 2)]), ("message", .str "ChatterBoxInvitation")]]

def demoResponse (id : Int) : Llsd := .map [("id", .int id), ("events", .arr demoEvents)]

theorem demo_isResponse (id : Int) : IsResponse (Known dispDict) (demoResponse id) (.int id) [demoAckEvent, demoChatEvent] := by
  refine ⟨⟨demoEvents, .cons ⟨⟨_, rfl, by decide +kernel, by decide +kernel⟩, ?_, ?_⟩ (.cons ⟨⟨_, rfl, by decide +kernel, by decide +kernel⟩, ?_, ?_⟩ .nil), .inl rfl⟩⟩
  · refine ⟨by unfold NamesNodup; decide, ?_⟩
    intro b hb i hi
    simp only [List.mem_singleton] at hb
    subst hb
    simp only [List.mem_cons, List.not_mem_nil, or_false] at hi
    rcases hi with rfl | rfl <;> (unfold NamesNodup; decide)
  · exact ⟨fun _ => ⟨_, rfl⟩, fun _ => by decide +kernel⟩
  · exact (by unfold NamesNodup; decide : NamesNodup [("from", Llsd.str "a"), ("count", .int 2)])
  · refine ⟨fun h => ?_, fun ⟨l, hl⟩ => by cases hl⟩
    exact absurd h (by decide +kernel)

/-! ## C38 -/

/-- **C38.** Whatever the polls return, poll `k` posts an acknowledgement of the id known before it (`{}` if none is known), and on stop a
final `{'ack': id, 'done': True}` is posted exactly if an id is known. -/
theorem C38_posts (d : TemplateDict) (h : EqHandler) (polls : List PollOutcome) (final : PollOutcome) (hs : SaneIds polls) :
    (processRegion d h polls final {}).2.posts =
      (List.range polls.length).map (fun k => ackPost (knownId (before polls k))) ++ donePosts (knownId polls.reverse) := by
  have hp := polled_posts d h polls hs
  have hid := (polled_inv d h polls).id
  have hsane := knownId_sane (polls := polls.reverse) (fun m i hm => hs m i (List.mem_reverse.mp hm))
  rw [processRegion_fresh]
  cases hk : knownId polls.reverse with
  | none =>
    rw [hk] at hid
    simp only [hid, Option.getD_none, isMinusOne, donePosts, List.append_nil, decide_true, if_true]
    exact hp.1
  | some i =>
    rw [hk] at hid
    have hi := hsane i hk
    have hm : isMinusOne i = false := by
      cases i <;> simp_all [isMinusOne]
    simp only [Option.getD_some] at hid
    simp only [hid, hm, Bool.false_eq_true, if_false, donePosts]
    rw [← hp.1]
    cases final <;> rfl

/-- Example: a response with id 5, a failed poll, an empty response, a response with id 8. -/
example : (processRegion dispDict (fun _ => .ok ()) [.response (demoResponse 5), .failure (.httpError 502), .response .undef,
      .response (demoResponse 8)] (.response .undef) {}).2.posts =
    [.map [], .map [("ack", .int 5)], .map [("ack", .int 5)], .map [], .map [("ack", .int 8), ("done", .bool true)]] := by
  decide +kernel

example : SaneIds [.response (demoResponse 5), .failure (.httpError 502), .response .undef, .response (demoResponse 8)] := by
  intro m i hm hi
  simp only [List.mem_cons, PollOutcome.response.injEq, reduceCtorEq, List.not_mem_nil, or_false, false_or, demoResponse, Llsd.map.injEq] at hm
  rcases hm with rfl | rfl <;> (simp [Dict.get?] at hi; subst hi; simp)

/-- An id of `-1` is taken for "no id": why `SaneIds` is needed. -/
theorem C38_minus_one_is_not_acknowledged :
    (processRegion dispDict (fun _ => .ok ()) [.response (demoResponse (-1))] (.response .undef) {}).2.posts = [.map []] := by decide +kernel

/-! ## C40 -/

/-- **C40.** A response consisting of an id and events becomes one message per event, with its name, the response's id and its
contents.  (Any further entry of the response is read as a list of events, see `C40_extra_entry`.) -/
theorem C40_decoding (d : TemplateDict) (v id : Llsd) (evs : List Event) (h : IsResponse (Known d) v id evs) :
    decodeEqResult d id v = .ok (evs.map (Event.message id)) := decodeEqResult_ok d id v id evs h

example : decodeEqResult dispDict (.int 5) (demoResponse 5) = .ok
    [{ name := "PacketAck", eventQueueId := .int 5
       blocks := [("Packets",
         [{ name := "Packets", vars := [("ID", ⟨"ID", .llsd (.int 7), none⟩)], varList := ["ID"] },
          { name := "Packets", vars := [("ID", ⟨"ID", .llsd (.int 9), none⟩)], varList := ["ID"] }])] },
     { name := "ChatterBoxInvitation", eventQueueId := .int 5
       blocks := [("Message_Data", [{ name := "Message_Data", vars := [("from", ⟨"from", .llsd (.str "a"), none⟩), ("count", ⟨"count", .llsd (.int 2), none⟩)], varList := ["from", "count"] }])] }] := by
  decide +kernel

/-- A decoded message can be read back: every value of the body is found under its block, instance and name. -/
theorem C40_values_readable (id : Llsd) (name : String) (l : List (String × List (List (String × Llsd)))) (hn : (EventBody.blocks l).NamesOk)
    {block : String} {insts : List (List (String × Llsd))} (hb : (block, insts) ∈ l) (hne : insts ≠ []) :
    ∃ bs : List BlockData, (Event.message id ⟨name, .blocks l⟩).getBlock block = .ok bs ∧ bs.length = insts.length ∧
      ∀ (i : Nat) (vars : List (String × Llsd)), insts[i]? = some vars → ∃ b : BlockData, bs[i]? = some b ∧ b.varList = vars.map (·.1) ∧
        ∀ k v, (k, v) ∈ vars → b.getItem k = .ok (.llsd v) := by
  refine ⟨insts.map (blockWith block), ?_, by simp, ?_⟩
  · have hmem : (block, insts.map (blockWith block)) ∈ (EventBody.blocks l).expectedBlocks := by
      refine List.mem_map.mpr ⟨(block, insts), List.mem_filter.mpr ⟨hb, by simpa using hne⟩, rfl⟩
    have hnd : Dict.keys (EventBody.blocks l).expectedBlocks |>.Nodup := by
      have : Dict.keys (EventBody.blocks l).expectedBlocks = (l.filter (fun b => !b.2.isEmpty)).map (·.1) := by
        simp [Dict.keys, EventBody.expectedBlocks, Function.comp_def]
      rw [this]
      exact hn.1.sublist (List.Sublist.map _ List.filter_sublist)
    simp only [Message.getBlock, Event.message, Dict.get]
    rw [Dict.get?_eq_some_of_mem hnd hmem]
  · intro i vars hi
    refine ⟨blockWith block vars, by simp [hi], rfl, ?_⟩
    intro k v hkv
    have hvn : NamesNodup vars := hn.2 _ hb _ (List.mem_of_getElem? hi)
    have hmem : (k, ({ name := k, data := .llsd v } : VarData)) ∈ (blockWith block vars).vars :=
      List.mem_map.mpr ⟨(k, v), hkv, rfl⟩
    have hnd : (Dict.keys (blockWith block vars).vars).Nodup := by
      have : Dict.keys (blockWith block vars).vars = vars.map (·.1) := by simp [Dict.keys, blockWith, Function.comp_def]
      rw [this]; exact hvn
    simp [BlockData.getItem, BlockData.getVariable, Dict.get, Dict.get?_eq_some_of_mem hnd hmem, bind, Except.bind]

/-- **C40, further entries.** With one more entry, which is not a list, the response cannot be decoded, whatever its
events are. -/
theorem C40_extra_entry (d : TemplateDict) (id : Llsd) (vs : List Llsd) (n : Int) (msgs : List Message)
    (hv : decodeEvents d id vs = .ok msgs) :
    decodeEqResult d id (.map [("id", id), ("events", .arr vs), ("wait", .int n)]) = .error .typeError := by
  simp [decodeEqResult, Dict.has, Dict.get?, decodeEntries, llsdIter, hv, bind, Except.bind]

/-- **C40, malformed events.** One event without a body makes the whole response undecodable. -/
theorem C40_bodyless_event (d : TemplateDict) (id : Llsd) (vs vs' : List Llsd) (name : String) (msgs : List Message)
    (hv : decodeEvents d id vs = .ok msgs) :
    decodeEqResult d id (.map [("id", id), ("events", .arr (vs ++ [.map [("message", .str name)]] ++ vs'))]) = .error .keyError := by
  have key : ∀ (vs : List Llsd) (msgs : List Message), decodeEvents d id vs = .ok msgs →
      decodeEvents d id (vs ++ [.map [("message", .str name)]] ++ vs') = .error .keyError := by
    intro vs
    induction vs with
    | nil => intro _ _; simp [decodeEvents, decodeEvent, llsdItem, Dict.get, Dict.get?, bind, Except.bind]
    | cons v vs ih =>
      intro msgs hv
      simp only [decodeEvents, bind, Except.bind] at hv
      split at hv
      · cases hv
      · rename_i m hm
        split at hv
        · cases hv
        · rename_i ms hms
          have := ih ms hms
          simp only [List.cons_append, decodeEvents, hm, bind, Except.bind, this]
  simp [decodeEqResult, Dict.has, Dict.get?, decodeEntries, llsdIter, bind, Except.bind]
  have := key vs msgs hv
  simp only [List.append_assoc, List.cons_append, List.nil_append] at this
  rw [this]

/-- **C40, several lists.** Every entry of a response other than its id is read as a list of events: with any number of them all their events become messages, list after list. -/
theorem C40_all_lists (d : TemplateDict) (id : Llsd) (m : List (String × Llsd)) (meant : List (String × List Event)) (hev : "events" ∈ m.map (·.1))
    (h : List.Forall₂ (fun entry g => entry.1 = g.1 ∧ (entry.1 ≠ "id" → ∃ vs, entry.2 = .arr vs ∧ List.Forall₂ (IsEvent (Known d)) vs g.2)) m meant) :
    decodeEqResult d id (.map m) = .ok ((meant.filter (fun g => g.1 ≠ "id")).flatMap (fun g => g.2.map (Event.message id))) := by
  have hhas : Dict.has m "events" = true := by
    obtain ⟨x, hx, he⟩ := List.mem_map.mp hev
    cases hg : Dict.get? m "events" with
    | some y => simp [Dict.has, hg]
    | none => exact absurd (List.mem_map_of_mem (f := Prod.fst) hx) (by rw [he]; exact (Dict.get?_eq_none_iff _ _).mp hg)
  simp only [decodeEqResult, hhas, if_true]
  clear hhas hev
  induction h with
  | nil => rfl
  | @cons entry g m meant hd _ ih =>
    obtain ⟨k, v⟩ := entry
    obtain ⟨k', evs⟩ := g
    obtain ⟨hk, hd⟩ := hd
    simp only at hk hd
    subst hk
    unfold decodeEntries
    by_cases hid : k = "id"
    · simp [hid, ih]
    · obtain ⟨vs, rfl, hvs⟩ := hd hid
      simp [hid, llsdIter, decodeEvents_ok d id hvs, ih, bind, Except.bind]

/-- Example: two lists of events around the id. -/
example : "events" ∈ [("more", Llsd.arr demoEvents), ("id", .int 5), ("events", .arr demoEvents)].map (·.1) ∧
    List.Forall₂ (fun (entry : String × Llsd) (g : String × List Event) =>
      entry.1 = g.1 ∧ (entry.1 ≠ "id" → ∃ vs, entry.2 = .arr vs ∧ List.Forall₂ (IsEvent (Known dispDict)) vs g.2))
      [("more", .arr demoEvents), ("id", .int 5), ("events", .arr demoEvents)]
      [("more", [demoAckEvent, demoChatEvent]), ("id", []), ("events", [demoAckEvent, demoChatEvent])] := by
  have he : List.Forall₂ (IsEvent (Known dispDict)) demoEvents [demoAckEvent, demoChatEvent] := by
    obtain ⟨vs, hvs, h | h⟩ := (demo_isResponse 5).ex
    · simp only [demoResponse, Llsd.map.injEq, List.cons.injEq, Prod.mk.injEq, true_and, Llsd.arr.injEq, and_true] at h
      rw [h]; exact hvs
    · simp [demoResponse] at h
  exact ⟨by simp, .cons ⟨rfl, fun _ => ⟨_, rfl, he⟩⟩ (.cons ⟨rfl, fun h => absurd rfl h⟩ (.cons ⟨rfl, fun _ => ⟨_, rfl, he⟩⟩ .nil))⟩

/-- **C40, other bodies.** An empty list, string or binary is a body without entries; any other string or binary, and any value that is neither map nor list, makes the whole response undecodable. -/
theorem C40_other_bodies (d : TemplateDict) (id : Llsd) (name : String) (body : Llsd) :
    ((body = .arr [] ∨ body = .str "" ∨ body = .binary []) →
      decodeEqResult d id (.map [("id", id), ("events", .arr [.map [("message", .str name), ("body", body)]])]) =
        .ok [Event.message id ⟨name, if (d.getTemplate name).isSome then .blocks [] else .vars []⟩]) ∧
    ((∀ m, body ≠ .map m) → (∀ l, body ≠ .arr l) → body ≠ .str "" → body ≠ .binary [] →
      decodeEqResult d id (.map [("id", id), ("events", .arr [.map [("message", .str name), ("body", body)]])]) = .error .typeError) := by
  constructor
  · intro hb
    have hp : llsdPairs body = .ok [] := by rcases hb with rfl | rfl | rfl <;> simp [llsdPairs]
    cases ht : d.getTemplate name with
    | some t =>
      simp [decodeEqResult, Dict.has, Dict.get?, decodeEntries, llsdIter, decodeEvents, decodeEvent, llsdItem, Dict.get, hp, ht, bind, Except.bind, eqBlocks, Event.message,
        EventBody.expectedBlocks, Message.new, Message.parseBlocks]
    | none =>
      simp [decodeEqResult, Dict.has, Dict.get?, decodeEntries, llsdIter, decodeEvents, decodeEvent, llsdItem, Dict.get, hp, ht, bind, Except.bind, Event.message,
        EventBody.expectedBlocks, Message.new, Message.parseBlocks, Message.addBlock, addBlock, Dict.set, blockWith, eqBlock, Block.mk', BlockData.new]
  · intro h1 h2 h3 h4
    have hp : llsdPairs body = .error .typeError := by
      cases body <;> simp_all [llsdPairs]
    cases ht : d.getTemplate name with
    | some t => simp [decodeEqResult, Dict.has, Dict.get?, decodeEntries, llsdIter, decodeEvents, decodeEvent, llsdItem, Dict.get, hp, ht, bind, Except.bind]
    | none => simp [decodeEqResult, Dict.has, Dict.get?, decodeEntries, llsdIter, decodeEvents, decodeEvent, llsdItem, Dict.get, hp, ht, bind, Except.bind]

/-- **C40, responses without events.** Whatever else a response is (empty, not a map, a map without `events`, with whatever else in it), a poll that gets it hands over nothing. -/
theorem C40_no_events (d : TemplateDict) (h : EqHandler) (st : EqState) (v : Llsd) (hv : ∀ m, v = .map m → ∀ x, ("events", x) ∉ m) :
    (eqPoll d h st (.response v)).delivered = st.delivered := by
  have key : ∀ st' : EqState, (parseResult d h st' v).delivered = st'.delivered := by
    intro st'
    unfold parseResult
    split
    · rfl
    · cases v with
      | map m =>
        have : Dict.has m "events" = false := by
          cases hg : Dict.get? m "events" with
          | none => simp [Dict.has, hg]
          | some x => exact absurd (Dict.mem_of_get? hg) (hv m rfl x)
        simp [decodeEqResult, this, deliverAll]
      | _ => rfl
  unfold eqPoll
  simp only
  split
  · exact key _
  · split
    · exact key _
    · rfl

/-- Example: a list under another name than `events` is not read as events. -/
example : (eqPoll dispDict (fun _ => .ok ()) {} (.response (.map [("id", .int 5), ("other", .arr demoEvents)]))).delivered = [] ∧
    (eqPoll dispDict (fun _ => .ok ()) {} (.response (.map [("id", .int 5), ("other", .arr demoEvents)]))).lastId = .int 5 := by decide +kernel

/-! ## C39 -/

theorem Spec.IsResponse.item {known : String → Prop} {v id : Llsd} {evs : List Event} (h : IsResponse known v id evs) :
    v ≠ .undef ∧ llsdItem v "id" = .ok id := by
  obtain ⟨vs, _, rfl | rfl⟩ := h.ex <;> simp [llsdItem, Dict.get, Dict.get?]

theorem poll_delivers (d : TemplateDict) (h : EqHandler) (hh : ∀ l, h l = .ok ()) (st : EqState) (o : PollOutcome) (v id : Llsd) (evs : List Event)
    (hv : (match o with | .response v => v | .failure _ => st.result) = v) (hr : IsResponse (Known d) v id evs) :
    (eqPoll d h st o).delivered = st.delivered ++ responseMessages (id, evs) := by
  have hi := hr.item
  have hd := decodeEqResult_ok d id v id evs hr
  cases o with
  | failure e =>
    simp only at hv
    simp only [eqPoll, hv, hi.1, if_false, hi.2, parseResult, hd]
    exact deliverAll_ok h _ _ (fun _ _ => hh _)
  | response w =>
    simp only at hv
    subst hv
    simp only [eqPoll, hi.1, if_false, hi.2, parseResult, hd]
    exact deliverAll_ok h _ _ (fun _ _ => hh _)

theorem polls_deliver (d : TemplateDict) (h : EqHandler) (hh : ∀ l, h l = .ok ()) {polls : List PollOutcome} {meant : List (Option (Llsd × List Event))}
    (hp : List.Forall₂ (IsPoll d) polls meant) : ∀ (st : EqState) (cur : Option (Llsd × List Event)),
    (match cur with | none => st.result = .undef | some (id, evs) => IsResponse (Known d) st.result id evs) →
    (polls.foldl (eqPoll d h) st).delivered = st.delivered ++ withRedelivery cur meant := by
  induction hp with
  | nil => intro st cur _; cases cur <;> simp [withRedelivery]
  | @cons o m polls meant hom _ ih =>
    intro st cur hc
    rw [List.foldl_cons]
    cases o with
    | response v =>
      cases m with
      | none => exact hom.elim
      | some r =>
        obtain ⟨id, evs⟩ := r
        have hr : IsResponse (Known d) v id evs := hom
        rw [ih _ (some (id, evs)) (by rw [eqPoll_result]; exact hr), poll_delivers d h hh st _ v id evs rfl hr]
        cases cur <;> simp [withRedelivery]
    | failure e =>
      cases m with
      | some r => exact hom.elim
      | none =>
        cases cur with
        | none =>
          rw [ih _ none (by rw [eqPoll_result]; exact hc)]
          have : (eqPoll d h st (.failure e)).delivered = st.delivered := by simp [eqPoll, hc, parseResult]
          rw [this]; rfl
        | some r =>
          obtain ⟨id, evs⟩ := r
          have hr : IsResponse (Known d) st.result id evs := hc
          rw [ih _ (some (id, evs)) (by rw [eqPoll_result]; exact hr), poll_delivers d h hh st _ st.result id evs rfl hr]
          simp [withRedelivery]

/-- What is delivered over a whole run. -/
theorem run_delivers (d : TemplateDict) (h : EqHandler) (hh : ∀ l, h l = .ok ()) (final : PollOutcome) {polls : List PollOutcome}
    {meant : List (Option (Llsd × List Event))} (hp : List.Forall₂ (IsPoll d) polls meant) :
    (processRegion d h polls final {}).2.delivered = withRedelivery none meant := by
  have := polls_deliver d h hh hp { running := true } none rfl
  unfold processRegion
  simp only
  split
  · simpa using this
  · cases final <;> simpa using this

/-- **C39, quiet handlers.** The exact behaviour for handlers that do not raise: every response is delivered in order, and delivered once more for every failed poll
that follows it. -/
theorem C39_exact (d : TemplateDict) (h : EqHandler) (hh : ∀ l, h l = .ok ()) (final : PollOutcome) (polls : List PollOutcome)
    (meant : List (Option (Llsd × List Event))) (hp : List.Forall₂ (IsPoll d) polls meant) :
    (processRegion d h polls final {}).2.delivered = withRedelivery none meant := run_delivers d h hh final hp

theorem deliverAll_handed (h : EqHandler) : ∀ (msgs done : List Message), ∃ k, HandedOver h done msgs k ∧ deliverAll h msgs done = done ++ msgs.take k := by
  intro msgs
  induction msgs with
  | nil => intro done; exact ⟨0, ⟨by simp, by intro j hj; omega, by simp⟩, by simp [deliverAll]⟩
  | cons m msgs ih =>
    intro done
    unfold deliverAll
    split
    · rename_i hok
      obtain ⟨k, ⟨h1, h2, h3⟩, h4⟩ := ih (done ++ [m])
      refine ⟨k + 1, ⟨by simp only [List.length_cons]; omega, ?_, ?_⟩, by rw [h4]; simp⟩
      · intro j hj
        cases j with
        | zero => simpa using hok
        | succ j => simpa using h2 j (by omega)
      · intro hk
        obtain ⟨h5, e, h6⟩ := h3 (by simpa using hk)
        exact ⟨by omega, e, by simpa using h6⟩
    · rename_i e he
      exact ⟨1, ⟨by simp, by intro j hj; omega, fun _ => ⟨by omega, e, by simpa using he⟩⟩, by simp⟩

/-- **C39, any handler.** The exact behaviour for all sequences of responses and failures, and all handlers: every response is handed over in
order, up to the first message the handler raises on; after every failed poll the last response is handed over again, in the same way. -/
theorem C39_any_handler (d : TemplateDict) (h : EqHandler) (final : PollOutcome) (polls : List PollOutcome)
    (meant : List (Option (Llsd × List Event))) (hp : List.Forall₂ (IsPoll d) polls meant) :
    HandedAll h none meant [] (processRegion d h polls final {}).2.delivered := by
  have hpoll : ∀ (st : EqState) (o : PollOutcome) (v id : Llsd) (evs : List Event), (match o with | .response v => v | .failure _ => st.result) = v →
      IsResponse (Known d) v id evs → ∃ k, HandedOver h st.delivered (responseMessages (id, evs)) k ∧
        (eqPoll d h st o).delivered = st.delivered ++ (responseMessages (id, evs)).take k := by
    intro st o v id evs hv hr
    have hi := hr.item
    have hd := decodeEqResult_ok d id v id evs hr
    cases o with
    | failure e =>
      simp only at hv
      simp only [eqPoll, hv, hi.1, if_false, hi.2, parseResult, hd]
      exact deliverAll_handed h _ _
    | response w =>
      simp only at hv
      subst hv
      simp only [eqPoll, hi.1, if_false, hi.2, parseResult, hd]
      exact deliverAll_handed h _ _
  have key : ∀ (st : EqState) (cur : Option (Llsd × List Event)),
      (match cur with | none => st.result = .undef | some (id, evs) => IsResponse (Known d) st.result id evs) →
      HandedAll h cur meant st.delivered (polls.foldl (eqPoll d h) st).delivered := by
    induction hp with
    | nil => intro st cur _; cases cur <;> rfl
    | @cons o m polls meant hom _ ih =>
      intro st cur hc
      rw [List.foldl_cons]
      cases o with
      | response v =>
        cases m with
        | none => exact hom.elim
        | some r =>
          obtain ⟨id, evs⟩ := r
          have hr : IsResponse (Known d) v id evs := hom
          obtain ⟨k, h1, h2⟩ := hpoll st (.response v) v id evs rfl hr
          have := ih (eqPoll d h st (.response v)) (some (id, evs)) (by rw [eqPoll_result]; exact hr)
          rw [h2] at this
          cases cur <;> exact ⟨k, h1, this⟩
      | failure e =>
        cases m with
        | some r => exact hom.elim
        | none =>
          cases cur with
          | none =>
            have := ih (eqPoll d h st (.failure e)) none (by rw [eqPoll_result]; exact hc)
            have e' : (eqPoll d h st (.failure e)).delivered = st.delivered := by simp [eqPoll, hc, parseResult]
            rw [e'] at this
            exact this
          | some r =>
            obtain ⟨id, evs⟩ := r
            have hr : IsResponse (Known d) st.result id evs := hc
            obtain ⟨k, h1, h2⟩ := hpoll st (.failure e) st.result id evs rfl hr
            have := ih (eqPoll d h st (.failure e)) (some (id, evs)) (by rw [eqPoll_result]; exact hr)
            rw [h2] at this
            exact ⟨k, h1, this⟩
  have := key { running := true } none rfl
  unfold processRegion
  simp only
  split
  · simpa using this
  · cases final <;> simpa using this

/-- **C39, nothing goes wrong.** If no poll fails and no handler raises, the messages handed to the message handler are exactly the events of the
responses, once each, in order. -/
theorem C39_once_in_order (d : TemplateDict) (h : EqHandler) (hh : ∀ l, h l = .ok ()) (final : PollOutcome)
    (polls : List PollOutcome) (responses : List (Llsd × List Event))
    (hp : List.Forall₂ (IsPoll d) polls (responses.map some)) :
    (processRegion d h polls final {}).2.delivered = responses.flatMap (fun r => r.2.map (Event.message r.1)) := by
  rw [run_delivers d h hh final hp]
  have : ∀ (l : List (Llsd × List Event)) cur, withRedelivery cur (l.map some) = l.flatMap responseMessages := by
    intro l
    induction l with
    | nil => intro cur; cases cur <;> rfl
    | cons r l ih => intro cur; cases cur <;> simp [withRedelivery, ih]
  exact this responses none

example : List.Forall₂ (IsPoll dispDict) [.response (demoResponse 5), .response (demoResponse 6)]
    ([(.int 5, [demoAckEvent, demoChatEvent]), (.int 6, [demoAckEvent, demoChatEvent])].map some) :=
  .cons (demo_isResponse 5) (.cons (demo_isResponse 6) .nil)

/-- **C39, consequence:** after `n` failed polls the events of a response have been delivered `n + 1` times. -/
theorem C39_failed_polls_redeliver (d : TemplateDict) (h : EqHandler) (hh : ∀ l, h l = .ok ()) (final : PollOutcome) (v id : Llsd)
    (evs : List Event) (hr : IsResponse (Known d) v id evs) (errors : List Exc) :
    (processRegion d h (.response v :: errors.map .failure) final {}).2.delivered =
      (List.replicate (errors.length + 1) (evs.map (Event.message id))).flatten := by
  have hp : List.Forall₂ (IsPoll d) (.response v :: errors.map .failure) (some (id, evs) :: errors.map (fun _ => none)) := by
    refine .cons hr ?_
    induction errors with
    | nil => exact .nil
    | cons e l ih => exact .cons trivial ih
  rw [run_delivers d h hh final hp]
  have : ∀ l : List Exc, withRedelivery (some (id, evs)) (l.map (fun _ => none)) = (List.replicate l.length (evs.map (Event.message id))).flatten := by
    intro l
    induction l with
    | nil => rfl
    | cons e l ih =>
      rw [List.map_cons, withRedelivery, ih, List.length_cons, List.replicate_succ, List.flatten_cons]; rfl
  rw [withRedelivery, this, List.replicate_succ, List.flatten_cons]; rfl

theorem deliverAll_stop (h : EqHandler) (m : Message) (after : List Message) : ∀ (ms done : List Message),
    (∀ k, k < ms.length → h (done ++ ms.take (k + 1)) = .ok ()) → (∃ e, h (done ++ ms ++ [m]) = .error e) →
    deliverAll h (ms ++ m :: after) done = done ++ ms ++ [m] := by
  intro ms
  induction ms with
  | nil =>
    intro done _ ⟨e, he⟩
    simp only [List.append_nil] at he
    simp [deliverAll, he]
  | cons x ms ih =>
    intro done hh he
    have h0 : h (done ++ [x]) = .ok () := by simpa using hh 0 (by simp)
    simp only [List.cons_append, deliverAll, h0]
    rw [ih]
    · simp
    · intro k hk
      have := hh (k + 1) (by simp; omega)
      simpa using this
    · simpa using he

/-- **C39, consequence:** when a handler raises, the rest of the response is not delivered, yet the response is acknowledged. -/
theorem C39_raising_handler_loses_events (d : TemplateDict) (h : EqHandler) (final : PollOutcome) (v id : Llsd) (evs evs' : List Event) (e : Event)
    (hr : IsResponse (Known d) v id (evs ++ e :: evs'))
    (hok : ∀ k, k < evs.length → h ((evs.take (k + 1)).map (Event.message id)) = .ok ())
    (hraise : ∃ x, h ((evs ++ [e]).map (Event.message id)) = .error x) (hid : isMinusOne id = false) :
    (processRegion d h [.response v] final {}).2.delivered = (evs ++ [e]).map (Event.message id) ∧
    (processRegion d h [.response v] final {}).2.posts = [.map [], .map [("ack", id), ("done", .bool true)]] := by
  have hi := hr.item
  have hd := decodeEqResult_ok d id v id _ hr
  have hdel : (eqPoll d h { running := true } (.response v)).delivered = (evs ++ [e]).map (Event.message id) := by
    simp only [eqPoll, hi.1, if_false, hi.2, parseResult, hd, List.map_append, List.map_cons]
    rw [deliverAll_stop h _ _ _ []]
    · simp
    · intro k hk
      have := hok k (by simpa using hk)
      simpa [List.map_take] using this
    · simpa using hraise
  have hlast : (eqPoll d h { running := true } (.response v)).lastId = id := by
    rw [eqPoll_lastId]; simp [resultId, hi.1, hi.2]
  have hposts := (eqPoll_posts d h { running := true } (.response v)).1
  unfold processRegion
  simp only [List.foldl_cons, List.foldl_nil, hlast, hid, Bool.false_eq_true, if_false]
  cases final <;> simp [hdel, hposts, pollData, isMinusOne]

/-- Example: the first of two events raises, the second is lost. -/
example : (processRegion dispDict (fun l => if l.length = 1 then .error .keyError else .ok ()) [.response (demoResponse 5)] (.response .undef) {}).2.delivered.map (·.name) =
    ["PacketAck"] := by decide +kernel

/-! ## C62, C63 -/

/-- **C62.** If the final POST succeeds or nothing has to be acknowledged, `start` returns `True` and the client is no longer
running. -/
theorem C62_stops (d : TemplateDict) (h : EqHandler) (stopped : Bool) (polls : List PollOutcome) (final : PollOutcome)
    (hf : (∃ v, final = .response v) ∨ stopped = true ∨ knownId polls.reverse = none) :
    (eqStart d h (some "EventQueueGet") stopped polls final {}).1 = true ∧
    (eqStart d h (some "EventQueueGet") stopped polls final {}).2.running = false := by
  have h1 : ("EventQueueGet" = "event_queue") = False := by simp
  simp only [eqStart, h1, if_false, if_true, processRegion_fresh]
  rcases hf with ⟨v, rfl⟩ | rfl | hk
  · cases isMinusOne (polled d h (if stopped then [] else polls)).lastId <;> simp
  · simp [polled, isMinusOne]
  · have : isMinusOne (polled d h (if stopped then [] else polls)).lastId = true := by
      cases stopped with
      | true => simp [polled, isMinusOne]
      | false =>
        have hid := (polled_inv d h polls).id
        rw [hk, Option.getD_none] at hid
        simp [hid, isMinusOne]
    simp [this]

/-- **C62, the exception:** whenever something has to be acknowledged and the final POST fails, `start` returns `False` and the client counts
as running for ever. -/
theorem C62_final_post_fails (d : TemplateDict) (h : EqHandler) (polls : List PollOutcome) (e : Exc) (hs : SaneIds polls)
    (hk : (knownId polls.reverse).isSome) :
    (eqStart d h (some "EventQueueGet") false polls (.failure e) {}).1 = false ∧
    (eqStart d h (some "EventQueueGet") false polls (.failure e) {}).2.running = true := by
  have h1 : ("EventQueueGet" = "event_queue") = False := by simp
  have hrun := (polled_posts d h polls hs).2
  have hid := (polled_inv d h polls).id
  obtain ⟨i, hi⟩ := Option.isSome_iff_exists.mp hk
  have hsane := knownId_sane (polls := polls.reverse) (fun m i hm => hs m i (List.mem_reverse.mp hm)) i hi
  have hm : isMinusOne i = false := by
    cases i <;> simp_all [isMinusOne]
  rw [hi, Option.getD_some] at hid
  have hpr : processRegion d h polls (.failure e) {} = (.error e, { polled d h polls with
      posts := (polled d h polls).posts ++ [.map [("ack", i), ("done", .bool true)]] }) := by
    rw [processRegion_fresh]
    simp only [hid, hm, Bool.false_eq_true, if_false]
  simp only [eqStart, h1, if_false, if_true, Bool.false_eq_true, hpr, hrun, and_self]

example : (knownId [PollOutcome.response (demoResponse 5)].reverse).isSome := by decide +kernel

/-- **C63.** Starting the queue of an agent domain never posts anything and reports failure. -/
theorem C63_agent_domain_never_polls (d : TemplateDict) (h : EqHandler) (polls : List PollOutcome) (final : PollOutcome) (st : EqState) :
    eqStart d h (some "event_queue") false polls final st = (false, { st with running := true }) := by
  simp [eqStart, processAD]

/-- **C63, other names.** A capability with any other name is refused without any effect. -/
theorem C63_unknown_capability (d : TemplateDict) (h : EqHandler) (name : Option String) (stopped : Bool) (polls : List PollOutcome)
    (final : PollOutcome) (st : EqState) (hn : name ≠ some "event_queue") (hn' : name ≠ some "EventQueueGet") :
    eqStart d h name stopped polls final st = (false, st) := by
  cases name with
  | none => rfl
  | some n =>
    have h1 : n ≠ "event_queue" := fun e => hn (by rw [e])
    have h2 : n ≠ "EventQueueGet" := fun e => hn' (by rw [e])
    simp [eqStart, h1, h2]

end Pyogp
