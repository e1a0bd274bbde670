import Verif.Spec.EqHttp
import Verif.Props.EventServer
import Verif.Props.Http
import Verif.Props.CapErrors

/-!
# C107: the event queue over HTTP
-/

namespace Pyogp
open Spec

theorem pollEnds_of {parse : Bytes → Except String Llsd} {url : String} {reply : RawReply} {r : Except CapExc Llsd}
    (h : CapResultOf (responseHandlerE parse) url "POST" reply r) : PollEnds parse reply (pollOutcome r) := by
  cases reply with
  | failed e => rw [show r = .error (.other e) from h]; exact .connection e
  | reply code msg hs body =>
    obtain ⟨h1, h2, h3⟩ := h
    by_cases hc : 200 ≤ code ∧ code < 300
    · rw [h1 hc]
      have := responseHandlerE_cases parse url "POST" (headerValue hs "content-type") body
      generalize hh : headerValue hs "content-type" = ct at this
      generalize responseHandlerE parse ct body = x at this
      cases this with
      | noType => exact .untyped _ _ _ _ hc hh
      | unsupported _ _ _ h1 => exact .unsupported _ _ _ _ _ hc hh h1
      | malformed _ _ _ h1 h2 => exact .malformed _ _ _ _ _ hc hh h1 (fun v hv => by rw [h2] at hv; cases hv)
      | falseValue _ _ _ h1 h2 h3 => exact .malformed _ _ _ _ _ hc hh h1 (fun w hw => by rw [h2] at hw; cases hw; exact h3)
      | parsed _ _ _ h1 h2 h3 => exact .response _ _ _ _ _ _ hc hh h1 h2 h3
    · by_cases h4 : code = 404
      · rw [h2 h4, h4]; exact .notFound _ _ _
      · obtain ⟨msg', -, e⟩ := h3 hc h4
        rw [e]; exact .refused _ _ _ _ hc h4

/-- The outcome of a poll is determined by the reply. -/
theorem pollEnds_functional {parse : Bytes → Except String Llsd} {reply : RawReply} {o o' : PollOutcome} (h : PollEnds parse reply o) (h' : PollEnds parse reply o') :
    o = o' := by
  cases h <;> cases h' <;> first | rfl | (simp_all; done) | (exfalso; simp_all; done) | skip
  all_goals first | (exfalso; omega) | skip
  all_goals simp_all

theorem order_post {order : Dict String String → Dict String String} (ho : ∀ d, (order d).Perm d) :
    wireHeaders (wireHeaders (order (postHeaders []))) = [("Content-type", "application/llsd+xml")] := by
  have : order (postHeaders []) = [("Content-type", "application/llsd+xml")] := List.perm_singleton.mp (ho _)
  rw [this]
  decide +kernel

/-- One POST of a dictionary. -/
theorem EqNet.exchange (w : EqNet) (ho : ∀ d, (w.order d).Perm d) (wire : List RawRequest) (m : List (String × Llsd)) :
    PostExchange w wire (.map m) (w.post wire (.map m)).2 (pollOutcome (w.post wire (.map m)).1) := by
  have e2 : (w.post wire (.map m)).2 =
      (httpCall w.resolve (fun done r => w.server (wire ++ done) r) w.url (some (w.format (.map m))) (wireHeaders (w.order (postHeaders [])))).2 := by
    simp only [EqNet.post, capPostHttp, capPostE]
    split <;> simp [carryOut]
  obtain ⟨-, h2, h3, init, last, h4, h5⟩ := C104_capability_post w.parse w.format w.resolve (fun done r => w.server (wire ++ done) r) w.order w.url (.map m) [] (.inr ⟨m, rfl⟩)
  refine ⟨?_, h2, h3, init, last, h4, pollEnds_of h5⟩
  obtain ⟨u, -, h⟩ := httpCall_ended w.resolve (fun done r => w.server (wire ++ done) r) w.url (some (w.format (.map m))) (wireHeaders (w.order (postHeaders [])))
  obtain ⟨rest, e, hr⟩ := h.start
  refine ⟨rest, ?_, fun r hm => ⟨(hr r hm).1, ?_⟩⟩
  · rw [e2, e, order_post ho]
    rfl
  · rw [(hr r hm).2]
    simp only [order_post ho]
    decide +kernel

theorem Spec.PostExchange.data {w : EqNet} {earlier requests : List RawRequest} {post : Llsd} {o : PollOutcome} (h : PostExchange w earlier post requests o) :
    (requests.filter (fun r => r.data.isSome)).map (fun r => (r.url, r.data)) = [(w.url, some (w.format post))] := by
  obtain ⟨rest, e, hr⟩ := h.first
  rw [e, List.filter_cons_of_pos (by rfl), List.filter_eq_nil_iff.mpr (fun r hm => by rw [(hr r hm).1]; simp)]
  rfl

theorem Spec.PostExchange.bodies {w : EqNet} {earlier requests : List RawRequest} {post : Llsd} {o : PollOutcome} (h : PostExchange w earlier post requests o) :
    Spec.bodies requests = [w.format post] := by
  obtain ⟨rest, e, hr⟩ := h.first
  have : rest.filterMap (·.data) = [] := by
    rw [List.filterMap_eq_nil_iff]
    exact fun r hm => (hr r hm).1
  rw [e, Spec.bodies, List.filterMap_cons_some (by rfl), this]

theorem Spec.PostExchanges.snoc {w : EqNet} {earlier wire requests : List RawRequest} {posts : List Llsd} {os : List PollOutcome} {post : Llsd} {o : PollOutcome}
    (h : PostExchanges w earlier posts os wire) (hx : PostExchange w (earlier ++ wire) post requests o) :
    PostExchanges w earlier (posts ++ [post]) (os ++ [o]) (wire ++ requests) := by
  induction h with
  | nil earlier => 
    have := PostExchanges.cons (w := w) (earlier := earlier) (by simpa using hx) (.nil _)
    simpa using this
  | cons hx' _ ih =>
    have := ih (by simpa using hx)
    rw [List.append_assoc]
    exact .cons hx' this

theorem pollData_map (i : Llsd) : ∃ m, pollData i = .map m := by
  unfold pollData
  split <;> exact ⟨_, rfl⟩

/-- The rounds, as polls with outcomes. -/
theorem rounds_refine (d : TemplateDict) (h : EqHandler) (w : EqNet) (ho : ∀ d, (w.order d).Perm d) : ∀ (n : Nat) (st : EqHttpState) (os : List PollOutcome)
    (posts : List Llsd), st.eq.posts = posts → PostExchanges w [] posts os st.wire →
    ∃ polls, polls.length = n ∧ (eqRounds d h w n st).eq = polls.foldl (eqPoll d h) st.eq ∧
      PostExchanges w [] (eqRounds d h w n st).eq.posts (os ++ polls) (eqRounds d h w n st).wire
  | 0, st, os, posts, hp, hx => ⟨[], rfl, rfl, by rw [List.append_nil]; simp only [eqRounds]; rw [hp]; exact hx⟩
  | n + 1, st, os, posts, hp, hx => by
    obtain ⟨m, hm⟩ := pollData_map st.eq.lastId
    have hx' := hx.snoc (by rw [List.nil_append]; exact hm ▸ w.exchange ho st.wire m)
    obtain ⟨polls, h1, h2, h3⟩ := rounds_refine d h w ho n (eqPollHttp d h w st) _ _ rfl
      (by
        simp only [eqPollHttp]
        rw [(eqPoll_posts d h st.eq _).1, hp]
        exact hx')
    refine ⟨pollOutcome (w.post st.wire (pollData st.eq.lastId)).1 :: polls, by simp [h1], ?_, ?_⟩
    · rw [List.foldl_cons]
      exact h2
    · simp only [eqRounds]
      rw [List.append_cons]
      exact h3

/-- What happens after the loop. -/
def finish (w : EqNet) (st : EqHttpState) : Py Unit × EqHttpState :=
  if isMinusOne st.eq.lastId then (.ok (), { st with eq := { st.eq with running := false } })
  else
    let data := Llsd.map [("ack", st.eq.lastId), ("done", .bool true)]
    let r := w.post st.wire data
    let eq := { st.eq with posts := st.eq.posts ++ [data] }
    match r.1 with
    | .ok _ => (.ok (), { eq := { eq with running := false }, wire := st.wire ++ r.2 })
    | .error e => (.error e.kind, { eq := eq, wire := st.wire ++ r.2 })

def finishEq (final : PollOutcome) (st : EqState) : Py Unit × EqState :=
  if isMinusOne st.lastId then (.ok (), { st with running := false })
  else
    let st := { st with posts := st.posts ++ [.map [("ack", st.lastId), ("done", .bool true)]] }
    match final with
    | .response _ => (.ok (), { st with running := false })
    | .failure e => (.error e, st)

theorem processRegionHttp_eq (d : TemplateDict) (h : EqHandler) (w : EqNet) (n : Nat) (st : EqHttpState) :
    processRegionHttp d h w n st = finish w (eqRounds d h w n { st with eq := { st.eq with running := true } }) := rfl

theorem processRegion_eq (d : TemplateDict) (h : EqHandler) (polls : List PollOutcome) (final : PollOutcome) (st : EqState) :
    processRegion d h polls final st = finishEq final (polls.foldl (eqPoll d h) { st with running := true }) := rfl

theorem finish_refines (w : EqNet) (ho : ∀ d, (w.order d).Perm d) (st : EqHttpState) :
    ∃ final, ((finish w st).1, (finish w st).2.eq) = finishEq final st.eq ∧
      (((finish w st).2.eq.posts = st.eq.posts ∧ (finish w st).2.wire = st.wire) ∨
        ∃ post requests, (finish w st).2.eq.posts = st.eq.posts ++ [post] ∧ (finish w st).2.wire = st.wire ++ requests ∧ PostExchange w st.wire post requests final) := by
  unfold finish finishEq
  by_cases hi : isMinusOne st.eq.lastId
  · refine ⟨.failure .keyError, ?_, .inl ⟨?_, ?_⟩⟩ <;> simp only [if_pos hi]
  · have hx := w.exchange ho st.wire [("ack", st.eq.lastId), ("done", .bool true)]
    simp only [if_neg hi]
    generalize hr : w.post st.wire (.map [("ack", st.eq.lastId), ("done", .bool true)]) = r at hx ⊢
    obtain ⟨r1, r2⟩ := r
    refine ⟨pollOutcome r1, ?_, .inr ⟨_, r2, ?_, ?_, hx⟩⟩
    all_goals cases r1 <;> rfl

/-! ## C107 -/

/-- **C107, same program.** With a capability over HTTP in place of an oracle, the event queue does for every server what it does for some sequence of outcomes, one per round (and one for the
final POST if there is one); what the server gets is one exchange per POST, one after the other, and each outcome is what the server's last reply in that exchange says. -/
theorem C107_exchanges (d : TemplateDict) (h : EqHandler) (w : EqNet) (ho : ∀ d, (w.order d).Perm d) (rounds : Nat) :
    let run := processRegionHttp d h w rounds {}
    ∃ (polls : List PollOutcome) (final : PollOutcome), polls.length = rounds ∧
      (run.1, run.2.eq) = processRegion d h polls final {} ∧
      (PostExchanges w [] run.2.eq.posts polls run.2.wire ∨ PostExchanges w [] run.2.eq.posts (polls ++ [final]) run.2.wire) := by
  obtain ⟨polls, h1, h2, h3⟩ := rounds_refine d h w ho rounds { eq := { running := true } } [] [] rfl (.nil _)
  rw [List.nil_append] at h3
  rw [processRegionHttp_eq]
  change PostExchanges w [] (eqRounds d h w rounds { eq := { running := true } }).eq.posts _ _ at h3
  generalize eqRounds d h w rounds { eq := { running := true } } = st at h2 h3
  obtain ⟨final, h4, h5⟩ := finish_refines w ho st
  refine ⟨polls, final, h1, ?_, ?_⟩
  · rw [processRegion_eq]
    exact h4.trans (congrArg _ h2)
  · rcases h5 with ⟨e1, e2⟩ | ⟨post, requests, e1, e2, hx⟩
    · exact .inl (by rw [e1, e2]; exact h3)
    · exact .inr (by rw [e1, e2]; exact h3.snoc (by rw [List.nil_append]; exact hx))

theorem Spec.PostExchanges.data {w : EqNet} {earlier wire : List RawRequest} {posts : List Llsd} {os : List PollOutcome} (h : PostExchanges w earlier posts os wire) :
    (wire.filter (fun r => r.data.isSome)).map (fun r => (r.url, r.data)) = posts.map (fun p => (w.url, some (w.format p))) ∧
    posts.length = os.length ∧ posts.length ≤ wire.length ∧ wire.length ≤ 38 * posts.length := by
  induction h with
  | nil => simp
  | cons hx _ ih =>
    obtain ⟨i1, i2, i3, i4⟩ := ih
    have hb := hx.bound
    have hn : ∃ rest, _ := hx.first
    obtain ⟨rest, e, -⟩ := hn
    have hn := congrArg List.length e
    rw [List.length_cons] at hn
    refine ⟨?_, by simp [i2], ?_, ?_⟩
    · rw [List.filter_append, List.map_append, hx.data, i1]
      rfl
    · simp only [List.length_cons, List.length_append]; omega
    · simp only [List.length_cons, List.length_append]; omega

/-- **C107, what the server gets.** However it replies, redirects and breaks connections (the polls are what its last replies in the exchanges say), it gets a body exactly once per round, at the capability's URL, in order: nothing to acknowledge, or the id of the most
recent response that came through; and once more, with `done`, if there is an id when the client stops.  All other requests are redirects, without a body, at most 37 per POST. -/
theorem C107_bodies (d : TemplateDict) (h : EqHandler) (w : EqNet) (ho : ∀ d, (w.order d).Perm d) (rounds : Nat) :
    let run := processRegionHttp d h w rounds {}
    ∃ (polls : List PollOutcome) (final : PollOutcome), polls.length = rounds ∧
      (PostExchanges w [] run.2.eq.posts polls run.2.wire ∨ PostExchanges w [] run.2.eq.posts (polls ++ [final]) run.2.wire) ∧ (SaneIds polls →
      let posts := (List.range rounds).map (fun k => ackPost (knownId (before polls k))) ++ donePosts (knownId polls.reverse)
      (∃ os, PostExchanges w [] posts (polls ++ os) run.2.wire) ∧
      (run.2.wire.filter (fun r => r.data.isSome)).map (fun r => (r.url, r.data)) = posts.map (fun p => (w.url, some (w.format p))) ∧
      posts.length ≤ run.2.wire.length ∧ run.2.wire.length ≤ 38 * posts.length) := by
  obtain ⟨polls, final, h1, h2, h3⟩ := C107_exchanges d h w ho rounds
  refine ⟨polls, final, h1, h3, fun hs => ?_⟩
  have hp := C38_posts d h polls final hs
  rw [← h2, h1] at hp
  simp only at hp
  rw [hp] at h3
  obtain ⟨os, hx⟩ : ∃ os, PostExchanges w [] _ (polls ++ os) _ := by
    rcases h3 with h3 | h3
    · exact ⟨[], by rw [List.append_nil]; exact h3⟩
    · exact ⟨_, h3⟩
  obtain ⟨i1, -, i3, i4⟩ := hx.data
  exact ⟨⟨os, hx⟩, i1, i3, i4⟩

/-! ### With a simulator -/

theorem Spec.PostExchange.single {w : EqNet} {earlier requests : List RawRequest} {post : Llsd} {o : PollOutcome} (h : PostExchange w earlier post requests o) {reply : RawReply}
    (hr : ∀ r : RawRequest, r.url = w.url → r.data = some (w.format post) → w.server earlier r = reply) (hp : ∀ place, ¬ SendsTo reply place) :
    PollEnds w.parse reply o := by
  obtain ⟨rest, e, -⟩ := h.first
  obtain ⟨init, last, e', he⟩ := h.ends
  have hrest : rest = [] := by
    cases rest with
    | nil => rfl
    | cons b rest =>
      exfalso
      obtain ⟨r, place, h1, h2, -⟩ := h.follows 0 _ b (by rw [e]; rfl) (by rw [e]; rfl)
      rw [e] at h1
      injection h1 with h1
      simp only [List.take_zero, List.append_nil] at h1
      rw [hr _ rfl rfl] at h1
      rw [← h1] at h2
      exact hp _ h2
  rw [e, hrest] at e'
  have : init = [] ∧ last = ⟨w.url, some (w.format post), [("Content-type", "application/llsd+xml")]⟩ := by
    cases init with
    | nil => simp at e'; exact ⟨rfl, e'.symm⟩
    | cons a init => simp at e'
  obtain ⟨rfl, rfl⟩ := this
  rwa [List.append_nil, hr _ rfl rfl] at he

theorem not_sends {code : Int} {msg : String} {hs : List (String × String)} {body : Bytes} (h : 200 ≤ code ∧ code < 300) (place : String) :
    ¬ SendsTo (.reply code msg hs body) place := by
  rintro ⟨c, m, hs', b, e, hc, -⟩
  cases e
  omega

theorem failure_of {parse : Bytes → Except String Llsd} {reply : RawReply} {o : PollOutcome} (h : PollEnds parse reply o)
    (hn : ∀ v, ¬ PollEnds parse reply (.response v)) : ∃ x, o = .failure x := by
  cases o with
  | response v => exact absurd h (hn v)
  | failure x => exact ⟨x, rfl⟩

theorem http_polling {w : EqNet} (ho : ∀ d, (w.order d).Perm d) {d : TemplateDict} {h : EqHandler}
    {sv0 : EqServer} {evs : List Event} {f : Nat} {st : EqHttpState} {sv : EqServer} (hp : HttpPolling w d h sv0 evs f st sv) : Polling d h sv0 evs f st.eq sv := by
  induction hp with
  | start => exact .start
  | happens e _ ih => exact .happens e ih
  | @poll evs f st sv sv' ok server body reply _ hb hr hs ih =>
    obtain ⟨m, hm⟩ := pollData_map st.eq.lastId
    have hx : PostExchange { w with server := server } st.wire (pollData st.eq.lastId) _ _ := hm ▸ EqNet.exchange { w with server := server } ho st.wire m
    have hbody : body = w.format (pollData st.eq.lastId) := by
      have := hx.bodies
      simp only [eqPollHttp, bodies, List.filterMap_append, List.append_cancel_left_eq] at hb this
      rw [hb] at this
      simpa using this
    subst hbody
    have hposts : ∀ o, (eqPoll d h st.eq o).posts = st.eq.posts ++ [pollData st.eq.lastId] := fun o => (eqPoll_posts d h st.eq o).1
    generalize ho' : pollOutcome (EqNet.post { w with server := server } st.wire (pollData st.eq.lastId)).1 = o at hx
    have e : (eqPollHttp d h { w with server := server } st).eq = eqPoll d h st.eq o := by rw [← ho']; rfl
    rw [e]
    cases hs with
    | lost _ h1 h2 =>
      obtain ⟨x, rfl⟩ := failure_of (hx.single (reply := reply) hr h1) h2
      exact .requestLost x ih
    | error _ post h0 h1 h2 =>
      cases h0.2 _ rfl
      obtain ⟨x, rfl⟩ := failure_of (hx.single (reply := reply) hr h1) h2
      exact .serverError x _ ih (hposts _)
    | answerLost _ post r _ h0 h1 h2 h3 =>
      cases h0.2 _ rfl
      obtain ⟨x, rfl⟩ := failure_of (hx.single (reply := reply) hr h2) h3
      exact .answerLost x _ r ih (hposts _) h1
    | answered code msg hs answer ct v post r _ h0 h1 h2 h3 h4 h5 h6 =>
      cases h0.2 _ rfl
      have ho := hx.single (reply := .reply code msg hs answer) hr (not_sends h2)
      have hv : PollEnds w.parse (.reply code msg hs answer) (.response v) := by
        refine .response _ _ _ _ _ _ h2 h3 (.inl h4) h5 ?_
        obtain ⟨vs, -, hv⟩ := h6.ex
        rcases hv with rfl | rfl <;> simp [EqualsFalse]
      cases pollEnds_functional ho hv
      exact .answered v _ r ih (hposts _) h1 h6

theorem http_clients {w : EqNet} (ho : ∀ d, (w.order d).Perm d) {d : TemplateDict} {h : EqHandler}
    {sv0 : EqServer} {es : List Event} {ms : List Message} {n : Nat} {sv : EqServer} (hc : HttpClients w d h sv0 es ms n sv) : Clients d h sv0 es ms n sv := by
  induction hc with
  | none => exact .none
  | @stopped es ms n sv evs f st sv' body post server _ hp hb hr ih =>
    obtain ⟨final, h1, h2⟩ := finish_refines { w with server := server } ho { st with eq := { st.eq with running := true } }
    rw [processRegionHttp_eq] at hb
    simp only [eqRounds] at hb
    rcases h2 with ⟨-, e2⟩ | ⟨post', requests, e1, e2, hx⟩
    · rw [e2] at hb
      simp at hb
    · have := hx.bodies
      rw [e2] at hb
      simp only [bodies, List.filterMap_append, List.append_cancel_left_eq] at hb this
      rw [hb] at this
      simp only [List.cons.injEq, and_true] at this
      cases hr.2 _ this.symm
      refine .stopped final ih (http_polling ho hp) ?_
      rw [processRegion_eq, List.foldl_nil]
      exact (congrArg (fun x : Py Unit × EqState => x.2.posts) h1).symm.trans e1
  | @idle es ms n sv evs f st sv' server _ hp hb ih =>
    obtain ⟨final, h1, h2⟩ := finish_refines { w with server := server } ho { st with eq := { st.eq with running := true } }
    rw [processRegionHttp_eq] at hb
    simp only [eqRounds] at hb
    rcases h2 with ⟨e1, -⟩ | ⟨post', requests, e1, e2, hx⟩
    · refine .idle final ih (http_polling ho hp) ?_
      rw [processRegion_eq, List.foldl_nil]
      exact (congrArg (fun x : Py Unit × EqState => x.2.posts) h1).symm.trans e1
    · rw [e2] at hb
      obtain ⟨rest, e, -⟩ := hx.first
      rw [e] at hb
      simp at hb
  | crashed _ hp ih => exact .crashed ih (http_polling ho hp)

/-- **C107, with a simulator.** One client after the other polls a simulator over HTTP that repeats its last response until it reads an acknowledgement of it in the body of a POST; requests and replies may
get lost or be replaced by errors, other documents or garbage, and clients may crash.  What the clients hand over is the responses the simulator made, in order and without a gap, each once or several times in a row (at most the last one not
yet), with at most as many repetitions as failures; no event that has happened gets lost; and without failures each is handed over exactly once. -/
theorem C107_simulator (w : EqNet) (ho : ∀ d, (w.order d).Perm d) (d : TemplateDict) (h : EqHandler)
    (hh : ∀ l, h l = .ok ()) (sv0 sv : EqServer) (h0 : sv0.sent = []) (hu : sv0.unacked = false) (es : List Event) (ms : List Message) (fails : Nat)
    (hc : HttpClients w d h sv0 es ms fails sv) :
    (∃ times : List Nat, ms = handedOver (sv.sent.take times.length) times ∧ (∀ t ∈ times, 1 ≤ t) ∧ times.sum ≤ times.length + fails ∧
      (times.length = sv.sent.length ∨ (times.length + 1 = sv.sent.length ∧ sv.unacked = true))) ∧
    (∀ e ∈ sv0.waiting ++ es, (∃ r ∈ sv.sent, e ∈ r.2 ∧ e.message r.1 ∈ ms) ∨ (sv.unacked = true ∧ ∃ r, sv.sent.getLast? = some r ∧ e ∈ r.2) ∨ e ∈ sv.waiting) ∧
    (fails = 0 → ms = sv.sent.flatMap (fun r => r.2.map (Event.message r.1)) ∧ sv.sent.flatMap (·.2) ++ sv.waiting = sv0.waiting ++ es) := by
  have hc' := http_clients ho hc
  refine ⟨C96_in_order d h hh sv0 sv h0 hu es ms fails hc', C96_nothing_lost d h hh sv0 sv h0 hu es ms fails hc', fun hf => ?_⟩
  subst hf
  exact C96_exactly_once d h hh sv0 sv h0 hu es ms hc'

/-! ## Demonstration -/

/-- A codec that knows the posts and the response of the demonstration. -/
def eqNet (server : Server) : EqNet where
  parse b := if b = [9] then .ok (demoResponse 5) else .error "syntax"
  format v := if v = .map [] then [1] else if v = .map [("ack", .int 5)] then [2] else if v = .map [("ack", .int 5), ("done", .bool true)] then [3] else [0]
  resolve _ l := l
  server := server
  order := id
  url := "http://sim/cap"

/-- A server: the first POST is answered, the second one fails with a redirect to an error page, the third with a broken connection. -/
def eqPage : Server := fun done r =>
  if r.url = "http://sim/error" then .reply 502 "Bad Gateway" [] [7]
  else match done.length with
    | 0 => .reply 200 "OK" [("Content-Type", "application/llsd+xml; charset=utf-8")] [9]
    | 1 => .reply 302 "Found" [("Location", "http://sim/error")] []
    | _ => .failed .keyError

/-- Three rounds: what the server gets, what is handed over (the response, and again after each failed poll), and the exception of the final POST. -/
example :
    let run := processRegionHttp dispDict (fun _ => .ok ()) (eqNet eqPage) 3 {}
    run.2.wire.map (fun r => (r.url, r.data)) =
      [("http://sim/cap", some [1]), ("http://sim/cap", some [2]), ("http://sim/error", none), ("http://sim/cap", some [2]), ("http://sim/cap", some [3])] ∧
    run.2.eq.delivered.map (·.name) = ["PacketAck", "ChatterBoxInvitation", "PacketAck", "ChatterBoxInvitation", "PacketAck", "ChatterBoxInvitation"] ∧
    run.1 = .error .keyError ∧ run.2.eq.running = true := by
  decide +kernel

theorem eqNet_means (server : Server) : Means (eqNet server) [1] (.map []) ∧ Means (eqNet server) [2] (.map [("ack", .int 5)]) ∧
    Means (eqNet server) [3] (.map [("ack", .int 5), ("done", .bool true)]) := by
  refine ⟨⟨rfl, fun p hp => ?_⟩, ⟨rfl, fun p hp => ?_⟩, ⟨rfl, fun p hp => ?_⟩⟩
  all_goals
    simp only [eqNet] at hp
    split at hp
    · first | assumption | cases hp
    · split at hp
      · first | assumption | cases hp
      · split at hp
        · first | assumption | cases hp
        · cases hp

/-- What a client takes for a response, the codec has read somewhere. -/
theorem Spec.PostExchanges.parsed {w : EqNet} {earlier wire : List RawRequest} {posts : List Llsd} {os : List PollOutcome} (h : PostExchanges w earlier posts os wire) :
    ∀ v, PollOutcome.response v ∈ os → ∃ body, w.parse body = .ok v := by
  induction h with
  | nil => intro v hv; cases hv
  | cons hx _ ih =>
    intro v hv
    cases hv with
    | head =>
      obtain ⟨init, last, -, he⟩ := hx.ends
      generalize w.server _ last = reply at he
      cases he
      exact ⟨_, by assumption⟩
    | tail _ hv => exact ih v hv

/-- `C107_bodies` with the codec of the demonstration: the polls are sane, whatever the server does and in however many rounds. -/
example (server : Server) (rounds : Nat) :
    let run := processRegionHttp dispDict (fun _ => .ok ()) (eqNet server) rounds {}
    ∃ (polls : List PollOutcome) (final : PollOutcome), polls.length = rounds ∧
      (PostExchanges (eqNet server) [] run.2.eq.posts polls run.2.wire ∨ PostExchanges (eqNet server) [] run.2.eq.posts (polls ++ [final]) run.2.wire) ∧ SaneIds polls := by
  obtain ⟨polls, final, h1, h2, -⟩ := C107_bodies dispDict (fun _ => .ok ()) (eqNet server) (fun _ => .refl _) rounds
  refine ⟨polls, final, h1, h2, fun m i hm hi => ?_⟩
  have hp : ∃ body, (eqNet server).parse body = .ok (.map m) := by
    rcases h2 with h2 | h2
    · exact h2.parsed _ hm
    · exact h2.parsed _ (List.mem_append_left _ hm)
  obtain ⟨body, hb⟩ := hp
  simp only [eqNet] at hb
  split at hb
  · have e : demoResponse 5 = .map m := by injection hb
    have : i = .int 5 := by
      have h3 : (match demoResponse 5 with | .map m => Dict.get? m "id" | _ => none) = some (.int 5) := by decide +kernel
      rw [e] at h3
      exact Option.some.inj (hi.symm.trans h3)
    subst this
    exact ⟨by decide, by decide⟩
  · cases hb

/-- The hypotheses of `C107_simulator` are met: two events wait; a client gets them in a response, its next poll fails with an error, and it stops. -/
example : ∃ ms sv, HttpClients (eqNet eqPage) dispDict (fun _ => .ok ()) eqServer [] ms 1 sv ∧ sv.unacked = false ∧
    ms.map (·.name) = ["PacketAck", "ChatterBoxInvitation", "PacketAck", "ChatterBoxInvitation"] := by
  have h1 : HttpPolling (eqNet eqPage) dispDict (fun _ => .ok ()) eqServer [] 0
      (eqPollHttp dispDict (fun _ => .ok ()) (eqNet eqPage) { eq := { running := true } }) eqServed := by
    refine .poll (ok := true) eqPage [1] (.reply 200 "OK" [("Content-Type", "application/llsd+xml; charset=utf-8")] [9]) .start (by decide +kernel) ?_ ?_
    · intro r hu _
      simp only [eqPage, hu, eqNet]
      rfl
    · refine .answered 200 "OK" _ [9] "application/llsd+xml; charset=utf-8" (demoResponse 5) (.map []) (.int 5, [demoAckEvent, demoChatEvent]) eqServed (eqNet_means _).1 ?_ (by decide)
        (by decide +kernel) (.inr ⟨" charset=utf-8".toList, by decide +kernel⟩) rfl (demo_isResponse 5)
      have : eqServer.register (.map []) = eqServer := by
        rcases eqServer.register_eq (.map []) with ⟨e, -⟩ | ⟨-, m, r, h, h', -⟩
        · exact e
        · cases h'
      rw [this]
      exact EqServer.Answers.new (.int 5) 2 rfl (by simp [SaneId]) (by intro r h; cases h)
  have h2 := HttpPolling.poll (ok := false) (sv' := eqServed.register (.map [("ack", .int 5)])) (fun _ _ => .reply 502 "Bad Gateway" [] [7]) [2] (.reply 502 "Bad Gateway" [] [7]) h1
    (by decide +kernel) (fun _ _ _ => rfl)
    (.error _ (.map [("ack", .int 5)]) (eqNet_means _).2.1 (by rintro p ⟨c, m, hs, b, e, hc, -⟩; cases e; omega)
      (by intro v hv; cases hv; omega))
  have h3 := HttpClients.stopped (w := eqNet eqPage) eqPage .none h2 (body := [3]) (by decide +kernel) (eqNet_means _).2.2
  refine ⟨_, _, h3, ?_, by decide +kernel⟩
  have hack : (eqServed.register (.map [("ack", .int 5)])).unacked = false := by
    rcases eqServed.register_eq (.map [("ack", .int 5)]) with ⟨-, h⟩ | ⟨e, -⟩
    · exact absurd ⟨_, _, rfl, rfl, by decide +kernel⟩ h
    · rw [e]
  rcases (eqServed.register (.map [("ack", .int 5)])).register_eq (.map [("ack", .int 5), ("done", .bool true)]) with ⟨e, -⟩ | ⟨e, -⟩
  · rw [e]; exact hack
  · rw [e]

end Pyogp
