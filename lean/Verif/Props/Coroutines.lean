import Verif.Proofs.Coroutines
import Verif.Proofs.Progress
import Verif.Props.Manager
import Verif.Props.EventQueue

/-!
# Coroutines (C79, C80, C81)

The manager's loops run together with each other and with the rest of the program, in any order (`Model/Coroutines.lean`).
-/

namespace Pyogp
open Spec

/-- The demonstration manager with its event queue. -/
def demoCEnv : CEnv := { m := demoManager, dict := dispDict }
def demoWorld : World := World.init dispHosts true

/-- A history: two messages are enqueued; the loop is started twice; the two loops alternate, the second one getting a datagram; a third
message is enqueued, urgently, while both are at work. -/
def demoActs : List Act :=
  [.enqueue demoEntries[0], .enqueue demoEntries[2], .start, .start, .udp 0 none [], .udp 1 none [], .udp 0 none [], .udp 1 none [],
   .udp 0 none [], .udp 1 (some ⟨"sim", 13001, demoDatagram⟩) [], .udp 0 none [], .udp 1 none [dispAddr 1], .udp 0 none [], .enqueue demoEntries[1],
   .udp 1 none [], .udp 0 none []]

/-! ## C79 -/

/-- **C79.** In every history of a manager – any number of loops started, stopped, running in any order and interrupted anywhere, messages enqueued at
any time – what was enqueued is, up to order, what was handed to `send_udp_message` and what is still queued: no message is lost or
sent twice.  Messages that are not urgent leave in the order they were enqueued. -/
theorem C79_nothing_lost (env : CEnv) (hosts : HostRef → Host) (hasEq : Bool) (as : List Act) :
    let w := runActs env (World.init hosts hasEq) as
    (w.m.calls ++ w.m.queue).Perm (enqueuedIn as) ∧
    (w.m.calls ++ w.m.queue).filter (fun e => !e.now) = (enqueuedIn as).filter (fun e => !e.now) := by
  have hq : QueueInv (World.init hosts hasEq).m := ⟨by simp [World.init], by simp [World.init]⟩
  have h := runActs_preserves (queueInv_wclosed env) as _ hq
  have he := runActs_enqueued env as (World.init hosts hasEq)
  have h0 : (World.init hosts hasEq).m.enqueued = [] := rfl
  rw [h0, List.nil_append] at he
  rw [← he]
  exact ⟨h.perm, h.fifo⟩

/-- **C79, the dispatcher.** The dispatcher behind it has gone through some history of single uses: those of the program itself, in their order,
and those of the loops, among which the sends are exactly the messages taken from the queue, in that order.  So everything that holds of all
histories of a dispatcher (C20–C32, C59–C61, C72) holds whatever the schedule. -/
theorem C79_dispatcher_history (env : CEnv) (hosts : HostRef → Host) (hasEq : Bool) (as : List Act) :
    ∃ h : List (User × Op), (runActs env (World.init hosts hasEq) as).m.disp = runOps env.m.disp (DState.init hosts) (h.map (·.2)) ∧
      usesOf .program h = directIn as ∧
      sendsOf (usesOf .loop h) = (runActs env (World.init hosts hasEq) as).m.calls.map (queuedSend env.m.host) :=
  runActs_history env (World.init hosts hasEq) rfl as

/-- In the demonstration, each of the three messages is sent once, by one of the two loops. -/
example : (runActs demoCEnv demoWorld demoActs).m.calls = [demoEntries[0], demoEntries[1], demoEntries[2]] ∧
    (runActs demoCEnv demoWorld demoActs).loops = [.draining, .draining] ∧
    (preparedMsgs (runActs demoCEnv demoWorld demoActs).m.disp.trace).map (fun p => (p.1, p.2.name, p.2.packetId)) =
      [(dispAddr 1, "PacketAck", 1), (dispAddr 0, "Demo", 1), (dispAddr 0, "PacketAck", 2), (dispAddr 0, "Demo", 3)] := by
  decide +kernel

/-- **C79, one pass.** From one pause of a loop to its next, when no other coroutine comes in between, it makes the pass of C41, C64 and C69 (if
that does not raise). -/
theorem C79_uninterrupted_pass (env : CEnv) (hm : ∀ s, env.m.meanwhile s = []) (w : World) (hr : w.running = true) (i : Nat)
    (hl : w.loops[i]? = some .sleeping) (input : Option Incoming) (order : List Addr) (fuel : Nat) (st' : MState)
    (h : udpRound env.m fuel w.m input (fun _ => order) = (some (.ok ()), st')) :
    runActs env w (List.replicate (w.m.queue.length + 4) (.udp i input order)) = { w with m := st', reads := w.reads + 1 } :=
  uninterrupted_pass hm w hr i hl input order fuel st' h

example : let w := runActs demoCEnv demoWorld [.start, .udp 0 none [], .enqueue demoEntries[0]]
    w.running = true ∧ w.loops[0]? = some .sleeping ∧
    (udpRound demoManager 5 w.m (some ⟨"sim", 13001, demoDatagram⟩) (fun _ => [dispAddr 1])).1 = some (.ok ()) := by decide +kernel

/-! ## C80 -/

/-- **C80.** After `stop_monitors`, and as long as `start_monitors` is not called again, every loop that was alive takes at most one more
datagram from the socket, whatever the schedule. -/
theorem C80_at_most_one_more_read (env : CEnv) (w : World) (as : List Act) (hs : NoStart as) :
    (runActs env (act env w .stop) as).reads ≤ w.reads + liveLoops w := by
  have := (runActs_reads env as (act env w .stop) (stop_running env w) hs).2
  have h2 := mayRead_le_alive w.loops
  have h3 : (act env w .stop).loops = w.loops := rfl
  have h4 : (act env w .stop).reads = w.reads := rfl
  rw [h3, h4] at this
  unfold liveLoops
  omega

/-- **C80, they end.** If nothing more is enqueued either, the loops are run at most `4` times each, plus once per message still in the queue,
before all of them have ended: in no schedule can a live loop be run more often. -/
theorem C80_loops_end (env : CEnv) (w : World) (as : List Act) (hs : NoStart as) (he : NoEnqueue as) :
    switches env (act env w .stop) as ≤ 4 * liveLoops w + w.m.queue.length := by
  have := runActs_switches env as (act env w .stop) (stop_running env w) hs he
  have h2 := rank_le w.loops
  have h3 : leftover (act env w .stop) = (w.loops.map rank).sum + w.m.queue.length := rfl
  rw [h3] at this
  unfold liveLoops
  omega

/-- **C80, afterwards.** Once no loop is alive, nothing is read and nothing leaves the queue until `start_monitors` is called: messages
enqueued then wait. -/
theorem C80_nothing_afterwards (env : CEnv) (w : World) (hl : liveLoops w = 0) (as : List Act) (hs : NoStart as) :
    (runActs env w as).reads = w.reads ∧ (runActs env w as).m.calls = w.m.calls ∧ liveLoops (runActs env w as) = 0 := by
  obtain ⟨h1, h2, h3⟩ := runActs_ended env as w hl hs
  exact ⟨h2, h3, by unfold liveLoops at hl ⊢; rw [h1]; exact hl⟩

/-- In the demonstration: stopped while one loop waits for a datagram and one is about to send. -/
def demoRest : List Act :=
  [.udp 0 none [], .udp 1 none [], .udp 0 (some ⟨"sim", 13001, demoDatagram⟩) [], .udp 1 none [], .udp 0 none [dispAddr 1], .udp 0 none [], .udp 1 none [], .udp 0 none []]

example : let w := runActs demoCEnv demoWorld [.start, .start, .enqueue demoEntries[0], .udp 0 none [], .udp 0 none [], .udp 1 none [], .udp 1 none []]
    NoStart demoRest ∧ NoEnqueue demoRest ∧ w.loops = [.receiving, .receiving] ∧ liveLoops w = 2 ∧
    (runActs demoCEnv (act demoCEnv w .stop) demoRest).loops = [.returned, .returned] ∧ (runActs demoCEnv (act demoCEnv w .stop) demoRest).reads = 2 ∧
    switches demoCEnv (act demoCEnv w .stop) demoRest = 7 ∧ (runActs demoCEnv (act demoCEnv w .stop) demoRest).m.calls.length = 1 := by
  refine ⟨by simp [NoStart, demoRest], by rfl, ?_⟩
  decide +kernel

/-- **C80, finding.** If `start_monitors` is called before a stopped loop has noticed, that loop goes on, next to the new one: neither of them returns
(though it may raise) before `stop_monitors` is called again. -/
theorem C80_restart_keeps_the_old_loop (env : CEnv) (w : World) (i : Nat) (pc : UdpAt) (hl : w.loops[i]? = some pc) (hp : Alive pc = true) (as : List Act)
    (hs : NoStop as) :
    let w' := runActs env w ([.stop, .start] ++ as)
    (∃ pc', w'.loops[i]? = some pc' ∧ pc' ≠ .returned) ∧ ∃ pc', w'.loops[w.loops.length]? = some pc' ∧ pc' ≠ .returned := by
  have h0 : runActs env w ([.stop, .start] ++ as) = runActs env (act env (act env w .stop) .start) as := rfl
  have hloops : (act env (act env w .stop) .start).loops = w.loops ++ [.spawned] := rfl
  simp only [h0]
  constructor
  · refine runActs_not_returned env as _ rfl hs i pc ?_ ?_
    · rw [hloops, List.getElem?_append_left (List.getElem?_eq_some_iff.mp hl).1]; exact hl
    · rintro rfl; simp [Alive] at hp
  · exact runActs_not_returned env as _ rfl hs w.loops.length .spawned (by rw [hloops]; simp) (by simp)

/-- Example: both loops are in the middle of their work. -/
example : (runActs demoCEnv (runActs demoCEnv demoWorld [.start, .udp 0 none []]) ([.stop, .start] ++ [.udp 0 none [], .udp 1 none [], .udp 0 none [], .udp 1 none []])).loops =
    [.acking, .receiving] := by decide +kernel

/-! ## C81 -/

/-- **C81.** Once the event queue was told to stop – by `stop_monitors` while it was running, or directly –, each of its coroutines that is in its
pause makes one more poll at most and the others none, for ever and whatever the schedule: also when `start_monitors` is called again. -/
theorem C81_stopped_for_ever (env : CEnv) (w : World) (c : EqClient) (hc : w.eq = some c) (a : Act)
    (ha : a = .stopQueue ∨ a = .stop ∧ c.st.running = true) (as : List Act) :
    (runActs env (act env w a) as).polls ≤ w.polls + pausing w := by
  have hst : QueueStopped (act env w a) := by
    rcases ha with rfl | ⟨rfl, hr⟩
    · exact ⟨{ c with stopped := true }, by simp [act, hc], rfl⟩
    · exact ⟨{ c with stopped := true }, by rw [stop_eq env hc, if_pos hr], rfl⟩
  have h1 := (runActs_polls env as _ hst).2
  have h2 : (act env w a).polls = w.polls ∧ pausing (act env w a) = pausing w := by
    rcases ha with rfl | ⟨rfl, hr⟩ <;> exact ⟨rfl, rfl⟩
  rw [h2.1, h2.2] at h1
  omega

/-- In the demonstration: stopped in its pause, the queue polls once more, acknowledges and ends; started again it only repeats the
acknowledgement. -/
example : let w := runActs demoCEnv demoWorld [.start, .poller 0 (.response .undef), .poller 0 (.response .undef), .poller 0 (.response (demoResponse 5))]
    let w' := runActs demoCEnv w [.stop, .poller 0 (.response .undef), .poller 0 (.response (demoResponse 6)), .poller 0 (.response .undef), .start, .poller 1 (.response .undef), .poller 1 (.response .undef)]
    w.polls = 1 ∧ pausing w = 1 ∧ w'.polls = 2 ∧ w'.pollers = [.ended true, .ended true] ∧ w'.eq.map (·.st.posts) =
      some [.map [], .map [("ack", .int 5)], .map [("ack", .int 6), ("done", .bool true)], .map [("ack", .int 6), ("done", .bool true)]] := by
  decide +kernel

/-- **C81, finding.** If `stop_monitors` is called after `start_monitors` before the event queue's coroutine has run for the first time, the event queue is
not told to stop: it polls as long as it is run, though the UDP loop returns. -/
theorem C81_stopped_too_early (env : CEnv) (he : env.eqEnabled = true) (hosts : HostRef → Host) (os : List PollOutcome) (o : PollOutcome) :
    let w := runActs env (World.init hosts true) ([.start, .stop, .udp 0 none [], .poller 0 o] ++ os.flatMap (fun o => [.poller 0 o, .poller 0 o]))
    w.running = false ∧ w.loops = [.returned] ∧ w.polls = os.length ∧ w.pollers = [.sleeping] := by
  have hb : ∀ os : List PollOutcome, ∃ c : EqClient, c.stopped = false ∧
      runActs env (World.init hosts true) ([.start, .stop, .udp 0 none [], .poller 0 o] ++ os.flatMap (fun o => [.poller 0 o, .poller 0 o])) =
        { m := { disp := DState.init hosts }, running := false, loops := [.returned], reads := 0, eq := some c, pollers := [.sleeping], polls := os.length } := by
    intro os
    induction os using snoc_induction with
    | h0 =>
      refine ⟨{ st := { running := true } }, rfl, ?_⟩
      simp only [runActs, List.flatMap_nil, List.append_nil, List.foldl_cons, List.foldl_nil, act, World.start, World.init, if_true, he]
      rfl
    | h1 os o' ih =>
      obtain ⟨c, hc, ih⟩ := ih
      rw [List.flatMap_append, ← List.append_assoc, runActs_append, ih]
      refine ⟨{ c with st := eqAnswer env.dict env.handler (eqPost c.st) o' }, hc, ?_⟩
      simp only [runActs, List.flatMap_cons, List.flatMap_nil, List.append_nil, List.foldl_cons, List.foldl_nil, act,
        List.getElem?_cons_zero, eqRun, List.set_cons_zero, eqHead, hc, Bool.not_false, if_true, List.length_append, List.length_cons, List.length_nil]
      rfl
  obtain ⟨c, _, h⟩ := hb os
  simp only [h, and_self]

/-- **C81, not used.** If the setting `ENABLE_REGION_EVENT_QUEUE` is off, or the manager has no event queue, no coroutine of it is ever started and no poll is made. -/
theorem C81_not_used (env : CEnv) (hosts : HostRef → Host) (hasEq : Bool) (hd : env.eqEnabled = false ∨ hasEq = false) (as : List Act) :
    (runActs env (World.init hosts hasEq) as).pollers = [] ∧ (runActs env (World.init hosts hasEq) as).polls = 0 :=
  runActs_no_pollers env as (World.init hosts hasEq) (hd.imp id (fun h => by simp [World.init, h])) rfl

example : (runActs { demoCEnv with eqEnabled := false } demoWorld demoActs).loops.length = 2 ∧ (runActs { demoCEnv with eqEnabled := false } demoWorld demoActs).pollers = [] := by
  decide +kernel

/-- **C81, the sequential view.** In every history in which `start_monitors` is called at most once, the event queue has behaved as if it were alone
(C38, C39, C62): for the responses `os` that its coroutine was given, in order, what was handed to the message handler is what is handed over for `os`;
every poll has acknowledged what was known then, and so has the last POST if it was made; and when `start` has returned, it did so with the
result it has for `os` and some last response. -/
theorem C81_like_alone (env : CEnv) (hosts : HostRef → Host) (as : List Act) (h1 : StartsOnce as) (hs : SaneIds (responsesIn as)) :
    let w := runActs env (World.init hosts true) as
    ∃ c os, w.eq = some c ∧ os.Sublist (responsesIn as) ∧
      (∀ final, c.st.delivered = (processRegion env.dict env.handler os final {}).2.delivered) ∧
      (∃ last, (last = [] ∨ last = [ackPost (knownId os.reverse)] ∨ last = donePosts (knownId os.reverse)) ∧
        c.st.posts = (List.range os.length).map (fun k => ackPost (knownId (before os k))) ++ last) ∧
      ∀ b, w.pollers = [.ended b] → ∃ final ∈ responsesIn as, (b, c.st) = eqStart env.dict env.handler (some "EventQueueGet") false os final {} := by
  obtain ⟨c, os, g1, g2, g3⟩ := runActs_seq env hosts as h1
  simp only
  generalize runActs env (World.init hosts true) as = w at g1 g2 g3
  have hsub := g2.1
  have hs' : SaneIds os := fun m i hm => hs m i (hsub.subset hm)
  have hp := (polled_posts env.dict env.handler os hs').1
  have hid := (polled_inv env.dict env.handler os).id
  have hk := pollData_known (knownId os.reverse) (knownId_sane (polls := os.reverse) (fun m i hm => hs' m i (List.mem_reverse.mp hm)))
  have hfin : ∀ final, (processRegion env.dict env.handler os final {}).2.delivered = (polled env.dict env.handler os).delivered := by
    intro final
    rw [processRegion_fresh]
    split
    · rfl
    · cases final <;> rfl
  refine ⟨c, os, g1, hsub, ?_, ?_, ?_⟩
  · intro final
    rw [hfin]
    match hw : w.pollers, g2.2 with
    | [], ⟨e1, e2⟩ => rw [e1, e2]; rfl
    | [.spawned], ⟨e1, e2⟩ => rw [e1, e2]; rfl
    | [.sleeping], e1 => exact congrArg EqState.delivered e1
    | [.posting], e1 =>
      have e2 : c.st = eqPost (polled env.dict env.handler os) := e1
      rw [e2]; rfl
    | [.closing], ⟨_, e1⟩ => rw [e1]; rfl
    | [.ended b], ⟨final', _, e1⟩ =>
      rw [eqStart_region] at e1
      have := hfin final'
      cases hpr : processRegion env.dict env.handler os final' {} with
      | mk r s =>
        rw [hpr] at e1 this
        cases r <;> · simp only [Prod.mk.injEq] at e1; rw [e1.2]; exact this
  · match hw : w.pollers, g2.2 with
    | [], ⟨e1, e2⟩ => exact ⟨[], .inl rfl, by rw [e1, e2]; rfl⟩
    | [.spawned], ⟨e1, e2⟩ => exact ⟨[], .inl rfl, by rw [e1, e2]; rfl⟩
    | [.sleeping], e1 => exact ⟨[], .inl rfl, by rw [e1, hp]; simp⟩
    | [.posting], e1 =>
      refine ⟨_, .inr (.inl rfl), ?_⟩
      have e2 : c.st = eqPost (polled env.dict env.handler os) := e1
      rw [e2, ← hk, ← hid, ← hp]; rfl
    | [.closing], ⟨e0, e1⟩ =>
      refine ⟨_, .inr (.inr rfl), ?_⟩
      have := C38_posts env.dict env.handler os (.response .undef) hs'
      rw [← this, processRegion_fresh, if_neg (by simp [e0]), e1]
      rfl
    | [.ended b], ⟨final', _, e1⟩ =>
      refine ⟨_, .inr (.inr rfl), ?_⟩
      rw [← C38_posts env.dict env.handler os final' hs']
      rw [eqStart_region] at e1
      cases hpr : processRegion env.dict env.handler os final' {} with
      | mk r s =>
        rw [hpr] at e1
        cases r <;> · simp only [Prod.mk.injEq] at e1; rw [e1.2]
  · intro b hb
    have h2 := g2.2
    rw [hb] at h2
    exact h2

/-- In the demonstration: UDP traffic in between; a response, a failed poll, a stop during the pause, a last response. -/
def demoPolls : List Act :=
  [.enqueue demoEntries[0], .start, .poller 0 (.response .undef), .udp 0 none [], .poller 0 (.response .undef), .udp 0 none [], .poller 0 (.response (demoResponse 5)),
   .poller 0 (.response .undef), .udp 0 none [], .poller 0 (.failure (.httpError 502)), .stop, .poller 0 (.response .undef), .udp 0 none [],
   .poller 0 (.response (demoResponse 8)), .poller 0 (.response .undef)]

example : StartsOnce demoPolls ∧ (runActs demoCEnv demoWorld demoPolls).pollers = [.ended true] ∧
    (runActs demoCEnv demoWorld demoPolls).eq.map (fun c => c.st.delivered.map (fun m => (m.name, m.eventQueueId))) =
      some [("PacketAck", .int 5), ("ChatterBoxInvitation", .int 5), ("PacketAck", .int 5), ("ChatterBoxInvitation", .int 5),
        ("PacketAck", .int 8), ("ChatterBoxInvitation", .int 8)] := by
  refine ⟨by unfold StartsOnce; decide, ?_⟩
  decide +kernel

end Pyogp
