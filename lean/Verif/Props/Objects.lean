import Verif.Proofs.Objects
import Verif.Props.Pair

/-!
# C85: message objects
-/

namespace Pyogp
open Spec

/-! ## C85 -/

theorem prune_fields (st : OState) : st.prune.disp = st.disp ∧ st.prune.heap = st.heap ∧ st.prune.queue = st.queue ∧ st.prune.issued = st.issued :=
  ⟨rfl, rfl, rfl, rfl⟩

theorem osend_fields (env : DEnv) (st : OState) (o : MsgRef) (r : HostRef) (mode : SendMode) :
    (st.send env o r mode).disp = (send env st.now (st.heap o) r mode).2 ∧
    (st.send env o r mode).issued = st.issued ++ [.send (st.heap o) r mode] ∧ (st.send env o r mode).queue = st.queue ∧
    ∀ x, contentOf ((st.send env o r mode).heap x) = contentOf (st.heap x) := by
  unfold OState.send
  simp only
  cases preparedIn env st.now (st.heap o) r with
  | none => exact ⟨rfl, rfl, rfl, fun _ => rfl⟩
  | some d =>
    refine ⟨rfl, rfl, rfl, fun x => ?_⟩
    simp only [OState.prune]
    by_cases hx : x = o
    · subst hx
      rw [if_pos rfl, prepare_eq]
      simp only [preparedMsg]
      split <;> rfl
    · rw [if_neg hx]

theorem ostep_alike (env : DEnv) (host : HostRef) (hosts : HostRef → Host) (st : OState) (a : OAct)
    (h : AlikeDisp st.disp (runOps env (DState.init hosts) st.issued)) :
    AlikeDisp (ostep env host st a).disp (runOps env (DState.init hosts) (ostep env host st a).issued) := by
  have hn := (now_alike st).trans h
  have hsend : ∀ (st : OState) o r mode, AlikeDisp st.now (runOps env (DState.init hosts) st.issued) →
      AlikeDisp (st.send env o r mode).disp (runOps env (DState.init hosts) (st.send env o r mode).issued) := by
    intro st o r mode hn
    obtain ⟨h1, h2, _, _⟩ := osend_fields env st o r mode
    rw [h1, h2]
    simp only [runOps, List.foldl_append, List.foldl_cons, List.foldl_nil]
    exact (send_alike env hn (st.heap o) r mode).2
  cases a with
  | edit o m => exact h
  | enqueue e => exact h
  | send o r mode => exact hsend st o r mode hn
  | sendNext =>
    simp only [ostep]
    cases hq : st.queue with
    | nil => exact h
    | cons e q => exact hsend { st with queue := q } e.obj host _ hn
  | use op =>
    simp only [ostep, OState.prune, runOps, List.foldl_append, List.foldl_cons, List.foldl_nil]
    exact step_alike env hn op

/-- **C85 (as values).**  Whatever a program does with its message objects — changing them, sending or enqueueing the same object several times, also
while it waits for an acknowledgement — the dispatcher does what it does for separate messages with the content the objects have when they are sent:
what is sent and received, reported to subscribers, waits or is acknowledged is the same; only the messages kept in `unacked_packets` are not. -/
theorem C85_as_values (env : DEnv) (host : HostRef) (hosts : HostRef → Host) (heap : MsgRef → Message) (as : List OAct) :
    AlikeDisp (runObjects env host (OState.init hosts heap) as).disp
      (runOps env (DState.init hosts) (runObjects env host (OState.init hosts heap) as).issued) := by
  have key : ∀ (as : List OAct) (st : OState), AlikeDisp st.disp (runOps env (DState.init hosts) st.issued) →
      AlikeDisp (runObjects env host st as).disp (runOps env (DState.init hosts) (runObjects env host st as).issued) := by
    intro as
    induction as with
    | nil => intro st h; exact h
    | cons a as ih => intro st h; exact ih _ (ostep_alike env host hosts st a h)
  exact key as _ (.refl _)

/-- The program enqueues object 0 and changes it before it is sent, sends it twice more reliably, receives a packet, and sends object 1. -/
def objActs : List OAct :=
  [.enqueue { obj := 0 }, .edit 0 (Message.new "Demo" [.one (Block.mk' "Head" [("Id", .num (.int 5)), ("Name", .str [104])]),
      .many [Block.mk' "Items" [("N", .num (.int 1))]]]),
   .sendNext, .send 0 0 (.reliable 3), .use (.recv 0 demoDatagram), .send 0 0 (.reliable 3), .send 1 1 .plain]

def objState : OState := runObjects dispEnv 0 (OState.init dispHosts fun _ => demoMessage) objActs

/-- Three packets reach host 0; the packet kept under id 2, the first reliable one, is the object that was later sent as packet 3. -/
example : ((objState.now.circuits.get? (dispAddr 0)).map fun c => c.unacked.map fun q => (q.1, q.2.packetId)) = some [(2, 3), (3, 3)] ∧
    (preparedMsgs objState.disp.trace).map (fun p => (p.1, p.2.packetId)) = [(dispAddr 0, 1), (dispAddr 0, 2), (dispAddr 0, 3), (dispAddr 1, 1)] ∧
    (sentDatagrams objState.disp.trace).map (fun p => (p.1, p.2.length)) =
      [(dispAddr 0, 20), (dispAddr 0, 20), (dispAddr 0, 20), (dispAddr 1, 23)] := by decide +kernel

/-- **C85 (content).**  Only the program changes the content of its messages: in any history exactly the messages it sends are sent, in order, each with
the content the program gave it last — also a message from the queue: it leaves with the content it has when it is sent, not when it was
enqueued. -/
theorem C85_content (env : DEnv) (host : HostRef) (hosts : HostRef → Host) (heap : MsgRef → Message) (as : List OAct) :
    sendsIn (runObjects env host (OState.init hosts heap) as).issued = (expected host heap as).sends ∧
    (runObjects env host (OState.init hosts heap) as).queue = (expected host heap as).queue ∧
    ∀ o, contentOf ((runObjects env host (OState.init hosts heap) as).heap o) = (expected host heap as).content o := by
  have key : ∀ (as : List OAct) (st : OState) (e : Expected),
      sendsIn st.issued = e.sends ∧ st.queue = e.queue ∧ (∀ o, contentOf (st.heap o) = e.content o) →
      sendsIn (runObjects env host st as).issued = (as.foldl (expectStep host) e).sends ∧
      (runObjects env host st as).queue = (as.foldl (expectStep host) e).queue ∧
      ∀ o, contentOf ((runObjects env host st as).heap o) = (as.foldl (expectStep host) e).content o := by
    intro as
    induction as with
    | nil => intro st e h; exact h
    | cons a as ih =>
      intro st e ⟨h1, h2, h3⟩
      refine ih (ostep env host st a) (expectStep host e a) ?_
      cases a with
      | edit o m =>
        refine ⟨h1, h2, fun x => ?_⟩
        simp only [ostep, expectStep]
        split
        · rfl
        · exact h3 x
      | enqueue q => exact ⟨h1, by simp only [ostep, expectStep, h2], h3⟩
      | send o r mode =>
        obtain ⟨_, g2, g3, g4⟩ := osend_fields env st o r mode
        refine ⟨?_, g3.trans h2, fun x => (g4 x).trans (h3 x)⟩
        simp only [ostep, expectStep]
        rw [g2]
        simp only [sendsIn, List.filterMap_append] at h1 ⊢
        rw [h1]
        simp [h3]
      | sendNext =>
        simp only [ostep, expectStep]
        cases hq : st.queue with
        | nil =>
          rw [← h2, hq]
          exact ⟨h1, hq.symm.trans h2, h3⟩
        | cons q l =>
          rw [← h2, hq]
          obtain ⟨_, g2, g3, g4⟩ := osend_fields env { st with queue := l } q.obj host (if q.reliable then .reliable 0 else .plain)
          refine ⟨?_, g3, fun x => (g4 x).trans (h3 x)⟩
          simp only
          rw [g2]
          simp only [sendsIn, List.filterMap_append] at h1 ⊢
          rw [h1]
          simp [h3]
      | use op =>
        refine ⟨?_, ?_, ?_⟩
        · simp only [ostep, OState.prune]
          cases op <;> simp only [sendsIn, expectStep, List.filterMap_append] at h1 ⊢ <;> rw [h1] <;> simp
        · cases op <;> exact h2
        · cases op <;> exact h3
  exact key as _ _ ⟨rfl, rfl, fun _ => rfl⟩

example : (expected 0 (fun _ => demoMessage) objActs).sends.map (fun s => (s.1.1, s.2)) =
      [("Demo", 0, .plain), ("Demo", 0, .reliable 3), ("Demo", 0, .reliable 3), ("Demo", 1, .plain)] ∧
    (expected 0 (fun _ => demoMessage) objActs).sends.map (fun s => ((s.1.2.get? "Items").map List.length)) =
      [some 1, some 1, some 1, some 2] := by decide +kernel

theorem prepared_fresh (c : Circuit) (m : Message) (f : Nat) (n : Int) :
    let p := preparedMsg c m f n
    let q := preparedMsg c (newMessage (contentOf m)) f n
    q.name = p.name ∧ q.blocks = p.blocks ∧ q.sendFlags = p.sendFlags ∧ q.packetId = p.packetId := by
  simp only [preparedMsg]
  have : (newMessage (contentOf m)).name = m.name := rfl
  rw [this]
  split <;> exact ⟨rfl, rfl, rfl, rfl⟩

theorem buildBlocks_fresh (rt : Runtime) (m m' : Message) (hb : m'.blocks = m.blocks) :
    ∀ bs, buildBlocks rt m' bs = buildBlocks rt m bs := by
  intro bs
  induction bs with
  | nil => rfl
  | cons b bs ih =>
    have : m'.getBlock b.name = m.getBlock b.name := by unfold Message.getBlock; rw [hb]
    simp only [buildBlocks, buildBlock, ih, this]

theorem serialize_fresh (env : SerEnv) (m m' : Message) (hn : m'.name = m.name) (hb : m'.blocks = m.blocks) (hf : m'.sendFlags = m.sendFlags)
    (hp : m'.packetId = m.packetId) : serialize env m' = serialize env m := by
  unfold serialize
  rw [hn, hf, hp]
  cases env.dict.getTemplate m.name with
  | none => rfl
  | some t => simp only [buildBlocks_fresh env.rt m m' hb]

theorem handToSocket_fresh (env : DEnv) {d d' : DState} (a : Addr) {m m' : Message}
    (hnet : ∀ tr tr' a dg, sentDatagrams tr = sentDatagrams tr' → env.net tr a dg = env.net tr' a dg)
    (hs : serialize env.ser m' = serialize env.ser m) (hb : m'.blocks = m.blocks)
    (h1 : sentDatagrams d.trace = sentDatagrams d'.trace) (h2 : AlikeDisp { d with trace := [] } { d' with trace := [] }) :
    (handToSocket env d a m).1 = (handToSocket env d' a m').1 ∧
    sentDatagrams (handToSocket env d a m).2.trace = sentDatagrams (handToSocket env d' a m').2.trace ∧
    AlikeDisp { (handToSocket env d a m).2 with trace := [] } { (handToSocket env d' a m').2 with trace := [] } := by
  have hf : sendFailed m' = sendFailed m := by unfold sendFailed Message.render; rw [hb]
  unfold handToSocket
  rw [hs, hf]
  cases serialize env.ser m with
  | error e => exact ⟨rfl, h1, h2⟩
  | ok o =>
    cases o with
    | none => exact ⟨rfl, h1, h2⟩
    | some dg =>
      simp only
      rw [hnet _ _ a dg h1]
      split
      · refine ⟨rfl, ?_, h2.hosts, h2.keys, h2.circuits, h2.unackedCircuits, h2.packetsIn, congrArg (· + 1) h2.packetsOut, h2.deser, rfl⟩
        simp only [DState.log, sentDatagrams, List.filterMap_append] at h1 ⊢
        rw [h1]
      · exact ⟨rfl, h1, h2⟩

/-- **C85 (used before).**  A message object that was sent or received before is sent exactly like a newly constructed message with the same name and
blocks: nothing of its earlier packet id, flags, retries, acknowledgements or marks reaches the network or the bookkeeping. -/
theorem C85_fresh (env : DEnv) (d : DState) (m : Message) (r : HostRef) (mode : SendMode) (hout : env.handleOutgoing = false)
    (hnet : ∀ tr tr' a dg, sentDatagrams tr = sentDatagrams tr' → env.net tr a dg = env.net tr' a dg) :
    (send env d m r mode).1 = (send env d (newMessage (contentOf m)) r mode).1 ∧
    sentDatagrams (send env d m r mode).2.trace = sentDatagrams (send env d (newMessage (contentOf m)) r mode).2.trace ∧
    AlikeDisp { (send env d m r mode).2 with trace := [] } { (send env d (newMessage (contentOf m)) r mode).2 with trace := [] } := by
  unfold send
  cases env.depth with
  | zero => exact ⟨rfl, rfl, .refl _⟩
  | succ n =>
    simp only [sendWith]
    by_cases hok : (!(d.hosts r).isOk) = true
    · rw [if_pos hok, if_pos hok]; exact ⟨rfl, rfl, .refl _⟩
    rw [if_neg hok, if_neg hok, hout]
    simp only [Bool.false_eq_true, if_false]
    rw [transmit_eq, transmit_eq]
    obtain ⟨g1, g2, g3, g4⟩ := prepared_fresh (findCircuit d r).2 m mode.flag mode.retries
    have hs := serialize_fresh env.ser _ _ g1 g2 g3 g4
    have hc : AlikeCircuit (mode.prepare (findCircuit d r).2 m).1 (mode.prepare (findCircuit d r).2 (newMessage (contentOf m))).1 := by
      rw [prepare_eq, prepare_eq]
      simp only
      split
      · refine ⟨rfl, rfl, rfl, rfl, rfl, rfl, ?_, rfl, rfl, rfl⟩
        simp only [Circuit.addReliablePacket, Dict.keys_set, g4]
      · exact .refl _
    have hset := (Spec.AlikeDisp.refl (findCircuit d r).1).setCircuit (d.hosts r).addr hc
    refine handToSocket_fresh env _ hnet (by rw [prepare_eq, prepare_eq]; exact hs) (by rw [prepare_eq, prepare_eq]; exact g2) ?_ ?_
    · have : ∀ m, sentDatagrams (preparedState d m r mode).trace = sentDatagrams (findCircuit d r).1.trace := by
        intro m
        have : (preparedState d m r mode).trace = (findCircuit d r).1.trace ++ [.prepared (d.hosts r).addr (mode.prepare (findCircuit d r).2 m).2] := by
          unfold preparedState
          cases mode with
          | reliable n => simp only; split <;> rfl
          | plain => rfl
          | retry => rfl
        rw [this]
        simp [sentDatagrams]
      rw [this, this]
    · unfold preparedState
      simp only
      rw [← hc.unackCount]
      cases mode with
      | reliable n =>
        simp only
        split
        · exact ⟨hset.hosts, hset.keys, hset.circuits, rfl, hset.packetsIn, hset.packetsOut, hset.deser, rfl⟩
        · exact ⟨hset.hosts, hset.keys, hset.circuits, hset.unackedCircuits, hset.packetsIn, hset.packetsOut, hset.deser, rfl⟩
      | plain => exact ⟨hset.hosts, hset.keys, hset.circuits, hset.unackedCircuits, hset.packetsIn, hset.packetsOut, hset.deser, rfl⟩
      | retry => exact ⟨hset.hosts, hset.keys, hset.circuits, hset.unackedCircuits, hset.packetsIn, hset.packetsOut, hset.deser, rfl⟩

/-- A message that was received, with id 9, marks and acknowledgements, is sent on like a new one; the second condition holds of a socket that always
accepts. -/
example : let m : Message := { demoMessage with packetId := 9, acks := [1, 7], numAcks := 2, reliable := true, sendFlags := 0x50 }
    m ≠ newMessage (contentOf m) ∧ dispEnv.handleOutgoing = false ∧
    (∀ tr tr' a dg, sentDatagrams tr = sentDatagrams tr' → dispEnv.net tr a dg = dispEnv.net tr' a dg) ∧
    (send dispEnv objState.now m 0 .plain).1 = .ok (some [0x10, 0, 0, 0, 4, 0, 255, 255, 1, 44, 77, 0, 0, 0, 3, 104, 105, 0, 2, 1, 0, 2, 0]) :=
  ⟨by decide +kernel, rfl, fun _ _ _ _ _ => rfl, by decide +kernel⟩

theorem map_get? {κ α β : Type} [DecidableEq κ] (l : Dict κ α) (f : κ → α → β) (k : κ) :
    Dict.get? (l.map fun p => (p.1, f p.1 p.2)) k = (Dict.get? l k).map (f k) := by
  induction l with
  | nil => rfl
  | cons p l ih =>
    obtain ⟨x, c⟩ := p
    by_cases hk : x = k
    · subst hk; simp [Dict.get?]
    · have e1 : Dict.get? ((x, c) :: l) k = Dict.get? l k := by simp [Dict.get?, hk]
      have e2 : Dict.get? (((x, c) :: l).map fun p => (p.1, f p.1 p.2)) k = Dict.get? (l.map fun p => (p.1, f p.1 p.2)) k := by
        simp [Dict.get?, hk]
      rw [e1, e2, ih]

theorem now_get? (st : OState) (a : Addr) : st.now.circuits.get? a =
    (st.disp.circuits.get? a).map fun c => { c with unacked := c.unacked.map (fun q => (q.1, st.object a q.1 q.2)) } :=
  map_get? (β := Circuit) st.disp.circuits (fun a c => { c with unacked := c.unacked.map (fun (q : Nat × Message) => (q.1, st.object a q.1 q.2)) }) a

/-- A send that is not stopped by a subscriber or the recursion limit: where it is prepared. -/
theorem preparedIn_of (env : DEnv) (st : DState) (m : Message) (r : HostRef) (mode : SendMode) (hok : (st.hosts r).isOk = true)
    (hsent : (env.handleOutgoing = false ∧ 0 < env.depth) ∨ ∃ res, (send env st m r mode).1 = .ok res) :
    ∃ d, preparedIn env st m r = some d ∧ send env st m r mode = transmit env d m r mode := by
  unfold send at hsent ⊢
  cases hk : env.depth with
  | zero =>
    rw [hk] at hsent
    rcases hsent with ⟨_, h⟩ | ⟨res, h⟩
    · exact absurd h (Nat.lt_irrefl 0)
    · cases h
  | succ k =>
    rw [hk] at hsent
    unfold preparedIn
    simp only [sendWith, hok, Bool.not_true, Bool.false_eq_true, if_false, hk, Nat.add_sub_cancel] at hsent ⊢
    cases hout : env.handleOutgoing with
    | false => exact ⟨st, by simp, by simp⟩
    | true =>
      simp only [hout, if_true] at hsent ⊢
      revert hsent
      generalize (env.handler (st.log (.outgoing m)).trace m).run (sendWith env k) (st.log (.outgoing m)) = x
      obtain ⟨x1, x2⟩ := x
      cases x1 with
      | error e =>
        intro hsent
        rcases hsent with ⟨h, _⟩ | ⟨res, h⟩
        · cases h
        · cases h
      | ok v => intro _; exact ⟨x2, rfl, rfl⟩

theorem transmit_hosts (env : DEnv) (st : DState) (m : Message) (r : HostRef) (mode : SendMode) : (transmit env st m r mode).2.hosts = st.hosts := by
  rw [transmit_eq]
  have hp := (preparedState_fields st m r mode).1
  rcases handToSocket_cases env (preparedState st m r mode) (st.hosts r).addr (mode.prepare (findCircuit st r).2 m).2 with h | ⟨dg, _, _, h⟩
  · rw [h]; exact hp
  · rw [h]; exact hp

/-- **C85 (kept).**  What waits for an acknowledgement is the object itself: after sending it reliably, any change the program makes to it shows in
`unacked_packets` under the id it was sent with.  This holds also if a subscriber to the outgoing message sends other messages or changes the host, as long
as none raises. -/
theorem C85_kept (env : DEnv) (host : HostRef) (st : OState) (o : MsgRef) (r : HostRef) (n : Int) (m' : Message)
    (hok : (st.disp.hosts r).isOk = true)
    (hsent : (env.handleOutgoing = false ∧ 0 < env.depth) ∨ ∃ res, (send env st.now (st.heap o) r (.reliable n)).1 = .ok res) :
    let sent := ostep env host st (.send o r (.reliable n))
    .prepared (sent.disp.hosts r).addr (sent.heap o) ∈ sent.disp.trace ∧
    ∃ c, (ostep env host sent (.edit o m')).now.circuits.get? (sent.disp.hosts r).addr = some c ∧ c.unacked.get? (sent.heap o).packetId = some m' := by
  have hnow : st.now.hosts = st.disp.hosts := rfl
  obtain ⟨d0, hprep, hsend⟩ := preparedIn_of env st.now (st.heap o) r (.reliable n) hok hsent
  have hhosts : (send env st.now (st.heap o) r (.reliable n)).2.hosts = d0.hosts := by rw [hsend, transmit_hosts]
  have hfacts : (send env st.now (st.heap o) r (.reliable n)).2.circuits.get? (d0.hosts r).addr =
        some ((SendMode.reliable n).prepare (findCircuit d0 r).2 (st.heap o)).1 ∧
      .prepared (d0.hosts r).addr ((SendMode.reliable n).prepare (findCircuit d0 r).2 (st.heap o)).2 ∈
        (send env st.now (st.heap o) r (.reliable n)).2.trace := by
    rw [hsend, transmit_eq]
    obtain ⟨_, ht, _, _, _, hc⟩ := preparedState_fields d0 (st.heap o) r (.reliable n)
    have hp : (preparedState d0 (st.heap o) r (.reliable n)).circuits.get? (d0.hosts r).addr =
        some ((SendMode.reliable n).prepare (findCircuit d0 r).2 (st.heap o)).1 := by rw [hc, Dict.get?_set_self]
    rcases handToSocket_cases env (preparedState d0 (st.heap o) r (.reliable n)) (d0.hosts r).addr
      ((SendMode.reliable n).prepare (findCircuit d0 r).2 (st.heap o)).2 with h | ⟨dg, _, _, h⟩
    · rw [h]; exact ⟨hp, by simp only [ht]; simp⟩
    · rw [h]; exact ⟨hp, by simp only [DState.log, ht]; simp⟩
  obtain ⟨hcirc, htr⟩ := hfacts
  have hun : ((SendMode.reliable n).prepare (findCircuit d0 r).2 (st.heap o)).1.unacked.get?
      ((SendMode.reliable n).prepare (findCircuit d0 r).2 (st.heap o)).2.packetId =
      some ((SendMode.reliable n).prepare (findCircuit d0 r).2 (st.heap o)).2 := by
    rw [prepare_eq]
    simp [SendMode.isReliable, Circuit.addReliablePacket, Dict.get?_set]
  have hstep : ostep env host st (.send o r (.reliable n)) = OState.prune { st with
      disp := (send env st.now (st.heap o) r (.reliable n)).2
      issued := st.issued ++ [Op.send (st.heap o) r (.reliable n)]
      heap := fun x => if x = o then ((SendMode.reliable n).prepare (findCircuit d0 r).2 (st.heap o)).2 else st.heap x
      kept := (((d0.hosts r).addr, ((SendMode.reliable n).prepare (findCircuit d0 r).2 (st.heap o)).2.packetId), o) :: st.kept } := by
    simp only [ostep, OState.send, hprep]
  rw [hstep]
  have hheap : ((OState.prune { st with
      disp := (send env st.now (st.heap o) r (.reliable n)).2
      issued := st.issued ++ [Op.send (st.heap o) r (.reliable n)]
      heap := fun x => if x = o then ((SendMode.reliable n).prepare (findCircuit d0 r).2 (st.heap o)).2 else st.heap x
      kept := (((d0.hosts r).addr, ((SendMode.reliable n).prepare (findCircuit d0 r).2 (st.heap o)).2.packetId), o) :: st.kept }).heap o) =
      ((SendMode.reliable n).prepare (findCircuit d0 r).2 (st.heap o)).2 := if_pos rfl
  intro sent
  have hsh : (sent.disp.hosts r).addr = (d0.hosts r).addr := congrArg (fun x => (x r).addr) hhosts
  rw [hsh, hheap]
  refine ⟨htr, _, (now_get? _ _).trans (by simp only [ostep, sent, OState.prune, hcirc, Option.map_some]; rfl), ?_⟩
  clear hheap hsh
  subst sent
  generalize ((SendMode.reliable n).prepare (findCircuit d0 r).2 (st.heap o)).1 = c at hun hcirc
  generalize ((SendMode.reliable n).prepare (findCircuit d0 r).2 (st.heap o)).2 = p at hun
  generalize (send env st.now (st.heap o) r (.reliable n)).2 = d at hcirc
  refine (map_get? c.unacked (fun id old => OState.object _ (d0.hosts r).addr id old) p.packetId).trans ?_
  rw [hun]
  simp only [Option.map_some, OState.object, ostep, OState.prune]
  rw [List.filter_cons, if_pos (by simp only [hcirc, Dict.has, hun, Option.isSome_some])]
  rw [List.find?_cons_of_pos (by simp)]
  simp

example : (objState.disp.hosts 0).isOk = true ∧ dispEnv.handleOutgoing = false ∧ 0 < dispEnv.depth := by decide +kernel

/-- Here a subscriber to the outgoing message `Demo` sends another message to the host first, so that the object is sent as packet 5. -/
example :
    let env : DEnv := { dispEnv with
      handleOutgoing := true
      handler := fun _ m => if m.name = "Demo" then .send (Message.new "Other" []) 0 (.reliable 3) (fun _ => .done) else .done }
    (send env objState.now (objState.heap 0) 0 (.reliable 3)).1.toOption.isSome = true ∧
    ((ostep env 0 objState (.send 0 0 (.reliable 3))).heap 0).packetId = 5 := by decide +kernel

end Pyogp
