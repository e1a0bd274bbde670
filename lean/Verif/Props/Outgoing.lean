import Verif.Model.Outgoing
import Verif.Spec.Outgoing
import Verif.Props.Received

namespace Pyogp
open Spec

/-! ## C117

Outgoing messages as objects. -/

/-- Preserved by sending. -/
def SendsKeep (P : DState → Prop) (send : ObjSend) : Prop := ∀ st m r mode, P st → P (send st m r mode).2.2

theorem runO_preserves {env : DEnv} {P : DState → Prop} (hc : SendClosed env (fun _ _ => True) P) {send : ObjSend} (hs : SendsKeep P send) :
    ∀ (p : RProg) (m : Message) (st : DState), P st → P (p.runO send m st).2.2
  | .done, m, st, h => h
  | .raise e, m, st, h => h
  | .look k, m, st, h => by rw [RProg.runO]; exact runO_preserves hc hs (k m) m st h
  | .write m' k, m, st, h => by rw [RProg.runO]; exact runO_preserves hc hs k m' st h
  | .send m' r mode k, m, st, h => by rw [RProg.runO]; exact runO_preserves hc hs (k _) m _ (hs st m' r mode h)
  | .forward r mode k, m, st, h => by rw [RProg.runO]; exact runO_preserves hc hs (k _) _ _ (hs st m r mode h)
  | .setHost r v k, m, st, h => by rw [RProg.runO]; exact runO_preserves hc hs k m _ (hc.hosts st r v trivial h)

theorem notifyO_preserves {env : DEnv} {P : DState → Prop} (hc : SendClosed env (fun _ _ => True) P) {send : ObjSend} (hs : SendsKeep P send) :
    ∀ (ps : List RProg) (m : Message) (st : DState), P st → P (notifyO send ps m st).2.2
  | [], m, st, h => h
  | p :: ps, m, st, h => by
    have h1 := runO_preserves hc hs p m st h
    unfold notifyO
    generalize p.runO send m st = x at h1 ⊢
    obtain ⟨x1, x2, x3⟩ := x
    cases x1 with
    | error e => exact h1
    | ok u => exact notifyO_preserves hc hs ps x2 x3 h1

theorem handleO_preserves {env : DEnv} {P : DState → Prop} (hc : SendClosed env (fun _ _ => True) P) {send : ObjSend} (hs : SendsKeep P send)
    (ps : List RProg) (m : Message) (st : DState) (h : P st) : P (handleO send ps m st).2.2 := by
  have h1 := notifyO_preserves hc hs ps m st h
  unfold handleO
  generalize notifyO send ps m st = x at h1 ⊢
  obtain ⟨x1, x2, x3⟩ := x
  cases x1 <;> exact h1

theorem sendO_preserves {env : DEnv} {P : DState → Prop} (hc : SendClosed env (fun _ _ => True) P) (subs : ObjSubs) : ∀ n, SendsKeep P (sendO env subs n)
  | 0, st, m, r, mode, h => h
  | n + 1, st, m, r, mode, h => by
    unfold sendO
    split
    · exact h
    · split
      · simp only
        have h1 := handleO_preserves hc (sendO_preserves hc subs n) (subs (st.log (.outgoing m)).trace m.name) m _ (hc.outgoing st m h)
        generalize handleO (sendO env subs n) (subs (st.log (.outgoing m)).trace m.name) m (st.log (.outgoing m)) = x at h1 ⊢
        obtain ⟨x1, x2, x3⟩ := x
        cases x1 with
        | error e => exact h1
        | ok u => exact hc.transmit _ _ r mode h1
      · exact hc.transmit st m r mode h

theorem receiveO_preserves {env : DEnv} {P : DState → Prop} (hc : RecvClosed env (fun _ _ => True) P) (subs : ObjSubs) (st : DState) (r : HostRef) (dg : Bytes)
    (h : P st) : P (receiveO env subs st r dg).2 := by
  unfold receiveO
  split
  · have h1 := hc.received st r dg h
    have hg := findCircuit_get? st r
    simp only
    generalize hst1 : ({ ({ (findCircuit st r).1 with packetsIn := (findCircuit st r).1.packetsIn + 1 } : DState).log (.received (st.hosts r).addr dg) with
        deser := (deserialize (env.deser (findCircuit st r).1.trace) (findCircuit st r).1.deser dg).2 } : DState) = st1 at *
    have hg1 : st1.circuits.get? (st.hosts r).addr = some (findCircuit st r).2 := by rw [← hst1]; exact hg
    split
    · exact h1
    · split
      · exact h1
      · rename_i hpid; exact hc.collect _ _ _ _ h1 hg1 (unpackU32_lt hpid)
    · rename_i m hde
      have hid := deserialize_id_lt hde
      split
      · exact h1
      · split
        · have h2 := hc.delivered _ m (hc.parsed _ _ _ m h1 hg1 hid)
          generalize DState.log _ (Ev.delivered m) = d at h2 ⊢
          have h3 := handleO_preserves hc.toSendClosed (sendO_preserves hc.toSendClosed subs env.depth) (subs d.trace m.name) m d h2
          generalize handleO (sendO env subs env.depth) (subs d.trace m.name) m d = x at h3 ⊢
          obtain ⟨x1, x2, x3⟩ := x
          cases x1 <;> exact h3
        · exact hc.parsed _ _ _ _ h1 hg1 hid
  · exact h

theorem ackLoopO_preserves {env : DEnv} {P : DState → Prop} (hc : SendClosed env (fun _ _ => True) P) (subs : ObjSubs) (r : HostRef) :
    ∀ (ids : List Nat) (n : Nat) (msg : Message) (st : DState), P st → P (ackLoopO env subs r ids n msg st).2
  | [], n, msg, st, h => h
  | pid :: ids, n, msg, st, h => by
    unfold ackLoopO
    simp only
    split
    · have h1 := sendO_preserves hc subs env.depth st (addAckBlock (if n = 0 then Message.new "PacketAck" [] else msg) pid) r .plain h
      generalize sendO env subs env.depth st (addAckBlock (if n = 0 then Message.new "PacketAck" [] else msg) pid) r .plain = x at h1 ⊢
      obtain ⟨x1, x2, x3⟩ := x
      cases x1 with
      | error e => exact h1
      | ok u => exact ackLoopO_preserves hc subs r ids _ _ _ h1
    · exact ackLoopO_preserves hc subs r ids _ _ _ h

theorem ackCircuitO_preserves {env : DEnv} {P : DState → Prop} (hc : AckClosed env (fun _ _ => True) P) (subs : ObjSubs) (st : DState) (a : Addr) (h : P st) :
    P (ackCircuitO env subs st a).2 := by
  unfold ackCircuitO
  split
  · exact h
  · rename_i c _
    have h1 := ackLoopO_preserves hc.toSendClosed subs c.host c.acks 0 (Message.new "PacketAck" []) st h
    split
    · rename_i he; rw [he] at h1; exact h1
    · rename_i n msg st' he
      rw [he] at h1
      simp only
      have h2 : P (if 0 < n then ((sendO env subs env.depth st' msg c.host .plain).1, (sendO env subs env.depth st' msg c.host .plain).2.2) else (Except.ok none, st')).2 := by
        split
        · exact sendO_preserves hc.toSendClosed subs env.depth _ _ _ _ h1
        · exact h1
      split
      · rename_i he; rw [he] at h2; exact h2
      · rename_i he
        rw [he] at h2
        split
        · exact h2
        · rename_i hg; exact hc.cleared _ _ _ h2 hg

theorem sendAcksO_preserves {env : DEnv} {P : DState → Prop} (hc : AckClosed env (fun _ _ => True) P) (subs : ObjSubs) :
    ∀ (as : List Addr) (st : DState), P st → P (sendAcksO env subs as st).2
  | [], st, h => h
  | a :: as, st, h => by
    have h1 := ackCircuitO_preserves hc subs st a h
    unfold sendAcksO
    split
    · rename_i he; rw [he] at h1; exact h1
    · rename_i he; rw [he] at h1; exact sendAcksO_preserves hc subs as _ h1

theorem stepO_preserves {env : DEnv} {P : DState → Prop} (hc : Closed env (fun _ _ => True) P) (subs : ObjSubs) (st : DState) (op : Op) (h : P st) :
    P (stepO env subs st op) := by
  cases op with
  | send m r mode => exact sendO_preserves hc.toSendClosed subs env.depth st m r mode h
  | recv r dg => exact receiveO_preserves hc.toRecvClosed subs st r dg h
  | processAcks order =>
    show P (processAcksO env subs st order).2
    unfold processAcksO
    split
    · exact h
    · exact sendAcksO_preserves hc.toAckClosed subs order st h
  | setHost r v => exact step_preserves hc (fun _ _ => Prog.mutates_any _) st (.setHost r v) (fun _ _ _ => trivial) h
  | removeCircuit r => exact step_preserves hc (fun _ _ => Prog.mutates_any _) st (.removeCircuit r) (fun _ _ _ => trivial) h
  | setTrusted a b => exact step_preserves hc (fun _ _ => Prog.mutates_any _) st (.setTrusted a b) (fun _ _ _ => trivial) h

theorem runO_inv (env : DEnv) (subs : ObjSubs) (hosts : HostRef → Host) (ops : List Op) : Inv (runO env subs (DState.init hosts) ops) := by
  have key : ∀ (ops : List Op) (st : DState), Inv st → Inv (runO env subs st ops) := by
    intro ops
    induction ops with
    | nil => intro st h; exact h
    | cons o ops ih => intro st h; exact ih _ (stepO_preserves (Inv.closed env) subs st o h)
  exact key ops _ (Inv.init hosts)

/-- **C117, bookkeeping.** In every history, also if subscribers change the messages that are being sent (or were received) and send them and others: the ids given to packets for an address are 1, 2, 3, …; what waits
for an acknowledgement are exactly the packets sent reliably and not acknowledged since; and the counters count. -/
theorem C117_bookkeeping (env : DEnv) (subs : ObjSubs) (hosts : HostRef → Host) (ops : List Op) (a : Addr) :
    let st := runO env subs (DState.init hosts) ops
    let h := circuitHistory a st.trace
    outIds h = List.range' 1 (outIds h).length ∧
    (∀ c, st.circuits.get? a = some c → (∀ id, id ∈ c.unacked.keys ↔ Waiting h id) ∧ c.unackCount = c.unacked.keys.length) ∧
    st.packetsIn = receivedCount st.trace ∧ st.packetsOut = sentCount st.trace := by
  have hi := runO_inv env subs hosts ops
  refine ⟨?_, ?_, hi.packetsIn, hi.packetsOut⟩
  · generalize runO env subs (DState.init hosts) ops = st at hi
    cases h : st.circuits.get? a with
    | none => simp only [hi.absent a h]; rfl
    | some c => simp only [(hi.circ a c h).ids]; simp
  · intro c hc
    have h1 := hi.circ a c hc
    exact ⟨h1.waiting, by rw [h1.ok.count]; simp [Dict.keys]⟩

theorem send_unwatched (env : DEnv) (st : DState) (m : Message) (r : HostRef) (mode : SendMode) (hok : (st.hosts r).isOk = true) :
    send (unwatched env) st m r mode = transmit env st m r mode := by
  show sendWith (unwatched env) 1 st m r mode = _
  simp only [sendWith, hok]
  rfl

/-- **C117, as left.** What leaves is the message as the subscribers left it (its name and blocks; nothing else of it matters), also if the last one called raised a `KeyError`: the packet, the result and the
bookkeeping are those of a newly made message with this content that nobody is told of, sent in the state the subscribers left. -/
theorem C117_as_left (env : DEnv) (ho : env.handleOutgoing = true) (hnet : ∀ tr tr' a dg, sentDatagrams tr = sentDatagrams tr' → env.net tr a dg = env.net tr' a dg)
    (subs : ObjSubs) (n : Nat) (st : DState) (m : Message) (r : HostRef) (mode : SendMode) (hok : (st.hosts r).isOk = true) (x : Py Unit) (m1 : Message) (st1 : DState)
    (hn : notifyO (sendO env subs n) (subs (st.log (.outgoing m)).trace m.name) m (st.log (.outgoing m)) = (x, m1, st1)) (hx : x = .ok () ∨ x = .error .keyError)
    (hok1 : (st1.hosts r).isOk = true) :
    let sent := sendO env subs (n + 1) st m r mode
    let alone := send (unwatched env) st1 (newMessage (contentOf m1)) r mode
    sent.1 = alone.1 ∧ sentDatagrams sent.2.2.trace = sentDatagrams alone.2.trace ∧ AlikeDisp { sent.2.2 with trace := [] } { alone.2 with trace := [] } ∧
    contentOf sent.2.1 = contentOf m1 := by
  intro sent alone
  have hs : sent = ((transmit env st1 m1 r mode).1, (mode.prepare (findCircuit st1 r).2 m1).2, (transmit env st1 m1 r mode).2) := by
    show sendO env subs (n + 1) st m r mode = _
    unfold sendO
    rw [if_neg (by rw [hok]; decide), if_pos ho]
    simp only
    unfold handleO
    rw [hn]
    rcases hx with rfl | rfl <;> rfl
  have hf := C85_fresh (unwatched env) st1 m1 r mode rfl hnet
  rw [send_unwatched env st1 m1 r mode hok1] at hf
  rw [hs]
  refine ⟨hf.1, hf.2.1, hf.2.2, ?_⟩
  rw [prepare_eq]
  simp only [preparedMsg]
  split <;> rfl

/-- **C117, the end.** If a subscriber raises something else than `KeyError`, nothing is sent: the state is the one it left, and `send_message` raises it. -/
theorem C117_raises (env : DEnv) (ho : env.handleOutgoing = true) (subs : ObjSubs) (n : Nat) (st : DState) (m : Message) (r : HostRef) (mode : SendMode)
    (hok : (st.hosts r).isOk = true) (e : Exc) (he : e ≠ .keyError) (m1 : Message) (st1 : DState)
    (hn : notifyO (sendO env subs n) (subs (st.log (.outgoing m)).trace m.name) m (st.log (.outgoing m)) = (.error e, m1, st1)) :
    sendO env subs (n + 1) st m r mode = (.error e, m1, st1) := by
  unfold sendO
  rw [if_neg (by rw [hok]; decide), if_pos ho]
  simp only
  unfold handleO
  rw [hn]
  simp only
  rw [if_neg he]

/-- **C117, one object.** What one subscriber makes of an outgoing message is what the next one gets, and what leaves if that one leaves it: the message as the caller made it does not leave. -/
theorem C117_rewritten (env : DEnv) (ho : env.handleOutgoing = true) (hnet : ∀ tr tr' a dg, sentDatagrams tr = sentDatagrams tr' → env.net tr a dg = env.net tr' a dg)
    (subs : ObjSubs) (n : Nat) (st : DState) (m m' : Message) (r : HostRef) (mode : SendMode) (hok : (st.hosts r).isOk = true) (k : Message → RProg)
    (hs : subs (st.trace ++ [.outgoing m]) m.name = [.write m' .done, .look k]) (hk : k m' = .done) :
    let sent := sendO env subs (n + 1) st m r mode
    let alone := send (unwatched env) (st.log (.outgoing m)) (newMessage (contentOf m')) r mode
    sent.1 = alone.1 ∧ sentDatagrams sent.2.2.trace = sentDatagrams alone.2.trace ∧ contentOf sent.2.1 = contentOf m' := by
  have hn : notifyO (sendO env subs n) (subs (st.log (.outgoing m)).trace m.name) m (st.log (.outgoing m)) = (.ok (), m', st.log (.outgoing m)) := by
    have : (st.log (.outgoing m)).trace = st.trace ++ [.outgoing m] := rfl
    rw [this, hs]
    simp only [notifyO, RProg.runO, hk]
  obtain ⟨h1, h2, -, h4⟩ := C117_as_left env ho hnet subs n st m r mode hok (.ok ()) m' (st.log (.outgoing m)) hn (.inl rfl) hok
  exact ⟨h1, h2, h4⟩

/-- **C117, in order.** Any number of subscribers that each make something of the message: what leaves is what the last one made of what the one before made … of the message the caller gave. -/
theorem C117_in_order (env : DEnv) (ho : env.handleOutgoing = true) (hnet : ∀ tr tr' a dg, sentDatagrams tr = sentDatagrams tr' → env.net tr a dg = env.net tr' a dg)
    (subs : ObjSubs) (n : Nat) (st : DState) (m : Message) (r : HostRef) (mode : SendMode) (hok : (st.hosts r).isOk = true) (fs : List (Message → Message))
    (hs : subs (st.trace ++ [.outgoing m]) m.name = fs.map (fun f => .look (fun x => .write (f x) .done))) :
    let sent := sendO env subs (n + 1) st m r mode
    let alone := send (unwatched env) (st.log (.outgoing m)) (newMessage (contentOf (fs.foldl (fun x f => f x) m))) r mode
    sent.1 = alone.1 ∧ sentDatagrams sent.2.2.trace = sentDatagrams alone.2.trace ∧ contentOf sent.2.1 = contentOf (fs.foldl (fun x f => f x) m) := by
  have key : ∀ (fs : List (Message → Message)) (m : Message) (st : DState),
      notifyO (sendO env subs n) (fs.map (fun f => .look (fun x => .write (f x) .done))) m st = (.ok (), fs.foldl (fun x f => f x) m, st) := by
    intro fs
    induction fs with
    | nil => intro m st; rfl
    | cons f fs ih => intro m st; exact ih (f m) st
  have hn := key fs m (st.log (.outgoing m))
  rw [← hs] at hn
  obtain ⟨h1, h2, -, h4⟩ := C117_as_left env ho hnet subs n st m r mode hok (.ok ()) _ (st.log (.outgoing m)) hn (.inl rfl) hok
  exact ⟨h1, h2, h4⟩

/-- **C117, not sent.** If the host is not usable nobody is told, nothing is sent and nothing changes. -/
theorem C117_unusable (env : DEnv) (subs : ObjSubs) (n : Nat) (st : DState) (m : Message) (r : HostRef) (mode : SendMode) (hok : (st.hosts r).isOk = false) :
    sendO env subs (n + 1) st m r mode = (.ok none, m, st) := by
  unfold sendO
  rw [if_pos (by rw [hok]; decide)]

/-! Subscribers that do not change what the message says. -/

/-- A sending function that leaves the content of the message object. -/
def SendLeaves (send : ObjSend) : Prop := ∀ st m r mode, contentOf (send st m r mode).2.1 = contentOf m

theorem runO_content {send : ObjSend} (hs : SendLeaves send) {p : RProg} (h : LeavesContent p) :
    ∀ (m : Message) (st : DState), contentOf (p.runO send m st).2.1 = contentOf m := by
  induction h with
  | done => intro m st; rfl
  | raise e => intro m st; rfl
  | look k _ ih => intro m st; rw [RProg.runO]; exact ih m m st
  | send m' r mode k _ ih => intro m st; rw [RProg.runO]; exact ih _ m _
  | forward r mode k _ ih => intro m st; rw [RProg.runO, ih _ _ _, hs]
  | setHost r v k _ ih => intro m st; rw [RProg.runO]; exact ih m _

theorem notifyO_content {send : ObjSend} (hs : SendLeaves send) : ∀ (ps : List RProg) (_ : ∀ p ∈ ps, LeavesContent p) (m : Message) (st : DState),
    contentOf (notifyO send ps m st).2.1 = contentOf m
  | [], _, m, st => rfl
  | p :: ps, h, m, st => by
    have h1 := runO_content hs (h p List.mem_cons_self) m st
    unfold notifyO
    generalize p.runO send m st = x at h1 ⊢
    obtain ⟨x1, x2, x3⟩ := x
    cases x1 with
    | error e => exact h1
    | ok u => exact (notifyO_content hs ps (fun q hq => h q (List.mem_cons_of_mem _ hq)) x2 x3).trans h1

theorem sendO_content {env : DEnv} {subs : ObjSubs} (hs : ∀ tr n, ∀ p ∈ subs tr n, LeavesContent p) : ∀ n, SendLeaves (sendO env subs n)
  | 0, st, m, r, mode => rfl
  | n + 1, st, m, r, mode => by
    have hp : ∀ m1 : Message, contentOf (mode.prepare (findCircuit st r).2 m1).2 = contentOf m1 ∧
        ∀ c, contentOf (mode.prepare c m1).2 = contentOf m1 := by
      intro m1
      have : ∀ c, contentOf (mode.prepare c m1).2 = contentOf m1 := by
        intro c
        rw [prepare_eq]
        simp only [preparedMsg]
        split <;> rfl
      exact ⟨this _, this⟩
    unfold sendO
    split
    · rfl
    · split
      · simp only
        have h1 := notifyO_content (sendO_content (env := env) hs n) (subs (st.log (.outgoing m)).trace m.name) (hs _ _) m (st.log (.outgoing m))
        unfold handleO
        generalize notifyO (sendO env subs n) (subs (st.log (.outgoing m)).trace m.name) m (st.log (.outgoing m)) = x at h1 ⊢
        obtain ⟨x1, x2, x3⟩ := x
        cases x1 with
        | error e =>
          simp only
          by_cases he : e = .keyError
          · simp only [if_pos he]; exact ((hp x2).2 _).trans h1
          · simp only [if_neg he]; exact h1
        | ok u => exact ((hp x2).2 _).trans h1
      · exact (hp m).1

/-- **C117, content.** If no subscriber changes the name or the blocks of messages, what leaves is what the caller gave, also if subscribers send it themselves, to other hosts or reliably; and the caller's
object has the name and blocks it had. -/
theorem C117_content (env : DEnv) (ho : env.handleOutgoing = true) (hnet : ∀ tr tr' a dg, sentDatagrams tr = sentDatagrams tr' → env.net tr a dg = env.net tr' a dg)
    (subs : ObjSubs) (hs : ∀ tr n, ∀ p ∈ subs tr n, LeavesContent p) (n : Nat) (st : DState) (m : Message) (r : HostRef) (mode : SendMode) (hok : (st.hosts r).isOk = true) :
    let sent := sendO env subs (n + 1) st m r mode
    (sent.2.1.name = m.name ∧ sent.2.1.blocks = m.blocks) ∧
    ∀ (x : Py Unit) (m1 : Message) (st1 : DState),
      notifyO (sendO env subs n) (subs (st.log (.outgoing m)).trace m.name) m (st.log (.outgoing m)) = (x, m1, st1) → x = .ok () ∨ x = .error .keyError →
      (st1.hosts r).isOk = true →
      let alone := send (unwatched env) st1 (newMessage (m.name, m.blocks)) r mode
      sent.1 = alone.1 ∧ sentDatagrams sent.2.2.trace = sentDatagrams alone.2.trace ∧ AlikeDisp { sent.2.2 with trace := [] } { alone.2 with trace := [] } := by
  intro sent
  have h0 := sendO_content (env := env) hs (n + 1) st m r mode
  refine ⟨⟨congrArg Prod.fst h0, congrArg Prod.snd h0⟩, ?_⟩
  intro x m1 st1 hx hk hok1
  have h1 := notifyO_content (sendO_content (env := env) hs n) (subs (st.log (.outgoing m)).trace m.name) (hs _ _) m (st.log (.outgoing m))
  rw [hx] at h1
  obtain ⟨h2, h3, h4, -⟩ := C117_as_left env ho hnet subs n st m r mode hok x m1 st1 hx hk hok1
  have h1' : contentOf m1 = contentOf m := h1
  rw [h1'] at h2 h3 h4
  exact ⟨h2, h3, h4⟩

/-! Subscribers that only read. -/

/-- The environment of `Model/Dispatcher` with these subscribers, given the message as a value. -/
def asValues (env : DEnv) (subs : ObjSubs) : DEnv := { env with handler := fun tr m => allAsValue m (subs tr m.name) }

/-- A sending function on values that does the same. -/
def SameSend (send : ObjSend) (sendV : DState → Message → HostRef → SendMode → Py (Option Bytes) × DState) : Prop :=
  ∀ st m r mode, sendV st m r mode = ((send st m r mode).1, (send st m r mode).2.2)

theorem asValue_runO {send : ObjSend} {sendV} (hv : SameSend send sendV) {p : RProg} (h : OnlyReads p) (next : Prog) : ∀ (m : Message) (st : DState),
    (p.runO send m st).2.1 = m ∧
    (asValue m next p).run sendV st =
      (match p.runO send m st with
        | (.ok _, _, st) => next.run sendV st
        | (.error e, _, st) => if e = .keyError then (.ok (), st) else (.error e, st)) := by
  induction h with
  | done => intro m st; exact ⟨rfl, rfl⟩
  | raise e =>
    intro m st
    refine ⟨rfl, ?_⟩
    simp only [asValue, RProg.runO]
    split <;> rfl
  | look k _ ih => intro m st; simp only [asValue, RProg.runO]; exact ih m m st
  | send m' r mode k _ ih =>
    intro m st
    simp only [asValue, RProg.runO, Prog.run]
    rw [hv st m' r mode]
    exact ih _ m _
  | setHost r v k _ ih => intro m st; simp only [asValue, RProg.runO, Prog.run]; exact ih m _

theorem allAsValue_runO {send : ObjSend} {sendV} (hv : SameSend send sendV) : ∀ (ps : List RProg) (_ : ∀ p ∈ ps, OnlyReads p) (m : Message) (st : DState),
    (notifyO send ps m st).2.1 = m ∧
    (allAsValue m ps).run sendV st = ((handleO send ps m st).1, (handleO send ps m st).2.2)
  | [], _, m, st => ⟨rfl, rfl⟩
  | p :: ps, h, m, st => by
    obtain ⟨h1, h2⟩ := asValue_runO hv (h p List.mem_cons_self) (allAsValue m ps) m st
    have ih := fun st => allAsValue_runO hv ps (fun q hq => h q (List.mem_cons_of_mem _ hq)) m st
    have e : allAsValue m (p :: ps) = asValue m (allAsValue m ps) p := rfl
    rw [e, h2]
    unfold handleO notifyO
    generalize p.runO send m st = x at h1 ⊢
    obtain ⟨x1, x2, x3⟩ := x
    simp only at h1
    subst h1
    cases x1 with
    | error e => refine ⟨rfl, ?_⟩; simp only; split <;> rfl
    | ok u => exact ih x3

theorem handleO_object {send : ObjSend} (ps : List RProg) (m : Message) (st : DState) : (handleO send ps m st).2.1 = (notifyO send ps m st).2.1 := by
  unfold handleO
  generalize notifyO send ps m st = x
  obtain ⟨x1, x2, x3⟩ := x
  cases x1 <;> rfl

theorem sendO_values {env : DEnv} {subs : ObjSubs} (hs : ∀ tr n, ∀ p ∈ subs tr n, OnlyReads p) : ∀ n, SameSend (sendO env subs n) (sendWith (asValues env subs) n)
  | 0, st, m, r, mode => rfl
  | n + 1, st, m, r, mode => by
    unfold sendO sendWith
    split
    · rfl
    · show (if env.handleOutgoing = true then _ else _) = _
      split
      · simp only
        obtain ⟨h1, h2⟩ := allAsValue_runO (sendO_values hs n) (subs (st.log (.outgoing m)).trace m.name) (hs _ _) m (st.log (.outgoing m))
        rw [← handleO_object] at h1
        have h2' : ((asValues env subs).handler (st.log (.outgoing m)).trace m).run (sendWith (asValues env subs) n) (st.log (.outgoing m)) = _ := h2
        rw [h2']
        generalize handleO (sendO env subs n) (subs (st.log (.outgoing m)).trace m.name) m (st.log (.outgoing m)) = x at h1 ⊢
        obtain ⟨x1, x2, x3⟩ := x
        simp only at h1
        subst h1
        cases x1 <;> rfl
      · rfl

theorem receiveO_values {env : DEnv} {subs : ObjSubs} (hs : ∀ tr n, ∀ p ∈ subs tr n, OnlyReads p) (st : DState) (r : HostRef) (dg : Bytes) :
    receiveO env subs st r dg = receiveCheck (asValues env subs) st r dg := by
  unfold receiveO receiveCheck
  split
  · simp only
    have e1 : (asValues env subs).deser = env.deser := rfl
    rw [e1]
    generalize deserialize (env.deser (findCircuit st r).1.trace) (findCircuit st r).1.deser dg = d
    obtain ⟨d1, d2⟩ := d
    cases d1 with
    | error e => rfl
    | ok o =>
      cases o with
      | none =>
        simp only
        have e2 : (asValues env subs).ser = env.ser := rfl
        rw [e2]
        generalize unpackInt env.ser.rt dg .u32 1 (some .big) = u
        cases u <;> rfl
      | some m =>
        simp only
        split
        · rfl
        · show (if env.handlePackets = true then _ else _) = (if env.handlePackets = true then _ else _)
          split
          · generalize DState.log _ (Ev.delivered m) = st2
            obtain ⟨h1, h2⟩ := allAsValue_runO (sendO_values (env := env) hs env.depth) (subs st2.trace m.name) (hs _ _) m st2
            rw [← handleO_object] at h1
            have h2' : ((asValues env subs).handler st2.trace m).run (sendWith (asValues env subs) (asValues env subs).depth) st2 = _ := h2
            rw [h2']
            generalize handleO (sendO env subs env.depth) (subs st2.trace m.name) m st2 = x at h1 ⊢
            obtain ⟨x1, x2, x3⟩ := x
            simp only at h1
            subst h1
            cases x1 <;> rfl
          · rfl
  · rfl

theorem ackLoopO_values {env E : DEnv} {subs : ObjSubs} (hv : SameSend (sendO env subs env.depth) (Pyogp.send E)) (r : HostRef) :
    ∀ (ids : List Nat) (n : Nat) (msg msg' : Message) (_ : 0 < n → msg = msg') (st : DState),
    ((ackLoopO env subs r ids n msg st).2 = (ackLoop E r ids n msg' st).2) ∧
    (match (ackLoopO env subs r ids n msg st).1, (ackLoop E r ids n msg' st).1 with
      | .error e, .error e' => e = e'
      | .ok x, .ok x' => x.1 = x'.1 ∧ (0 < x.1 → x.2 = x'.2)
      | _, _ => False)
  | [], n, msg, msg', h, st => ⟨rfl, rfl, h⟩
  | pid :: ids, n, msg, msg', h, st => by
    have hm : (if n = 0 then Message.new "PacketAck" [] else msg) = (if n = 0 then Message.new "PacketAck" [] else msg') := by
      split
      · rfl
      · exact h (by omega)
    unfold ackLoopO ackLoop
    simp only [hm]
    split
    · have hw := hv st (addAckBlock (if n = 0 then Message.new "PacketAck" [] else msg') pid) r .plain
      rw [hw]
      generalize sendO env subs env.depth st (addAckBlock (if n = 0 then Message.new "PacketAck" [] else msg') pid) r .plain = x
      obtain ⟨x1, x2, x3⟩ := x
      cases x1 with
      | error e => exact ⟨rfl, rfl⟩
      | ok u => exact ackLoopO_values hv r ids 0 _ _ (fun h => absurd h (by decide)) x3
    · exact ackLoopO_values hv r ids _ _ _ (fun _ => rfl) st

theorem ackCircuitO_values {env E : DEnv} {subs : ObjSubs} (hv : SameSend (sendO env subs env.depth) (Pyogp.send E)) (st : DState) (a : Addr) :
    ackCircuitO env subs st a = ackCircuit E st a := by
  unfold ackCircuitO ackCircuit
  cases st.circuits.get? a with
  | none => rfl
  | some c =>
    simp only
    obtain ⟨h1, h2⟩ := ackLoopO_values hv c.host c.acks 0 (Message.new "PacketAck" []) (Message.new "PacketAck" []) (fun _ => rfl) st
    generalize ackLoopO env subs c.host c.acks 0 (Message.new "PacketAck" []) st = x at h1 h2 ⊢
    generalize ackLoop E c.host c.acks 0 (Message.new "PacketAck" []) st = y at h1 h2 ⊢
    obtain ⟨x1, x2⟩ := x
    obtain ⟨y1, y2⟩ := y
    simp only at h1
    subst h1
    cases x1 with
    | error e =>
      cases y1 with
      | error e' => simp only at h2; subst h2; rfl
      | ok y => exact h2.elim
    | ok x =>
      cases y1 with
      | error e' => exact h2.elim
      | ok y =>
        obtain ⟨n, msg⟩ := x
        obtain ⟨n', msg'⟩ := y
        obtain ⟨h3, h4⟩ := h2
        simp only at h3 h4 ⊢
        subst h3
        have h5 : (if 0 < n then ((sendO env subs env.depth x2 msg c.host .plain).1, (sendO env subs env.depth x2 msg c.host .plain).2.2) else (Except.ok none, x2)) =
            (if 0 < n then send E x2 msg' c.host .plain else (Except.ok none, x2)) := by
          split
          · rename_i hn
            rw [← h4 hn]
            exact (hv x2 msg c.host .plain).symm
          · rfl
        rw [h5]
        rfl

theorem sendAcksO_values {env E : DEnv} {subs : ObjSubs} (hv : SameSend (sendO env subs env.depth) (Pyogp.send E)) :
    ∀ (as : List Addr) (st : DState), sendAcksO env subs as st = sendAcks E as st
  | [], st => rfl
  | a :: as, st => by
    unfold sendAcksO sendAcks
    rw [ackCircuitO_values hv]
    cases ackCircuit E st a with
    | mk x st' =>
      cases x with
      | error e => rfl
      | ok u => exact sendAcksO_values hv as st'

/-- **C117, values.** Subscribers that neither change a message nor send it on may be given a value, received and outgoing: whole histories are then those of `Model/Dispatcher`, and every theorem about those
holds. -/
theorem C117_values (env : DEnv) (subs : ObjSubs) (hs : ∀ tr n, ∀ p ∈ subs tr n, OnlyReads p) (st : DState) (ops : List Op) :
    runO env subs st ops = runOps { env with handler := fun tr m => allAsValue m (subs tr m.name) } st ops := by
  have key : ∀ st op, stepO env subs st op = step (asValues env subs) st op := by
    intro st op
    cases op with
    | send m r mode => exact (congrArg Prod.snd (sendO_values (env := env) hs env.depth st m r mode)).symm
    | recv r dg => exact congrArg Prod.snd (receiveO_values hs st r dg)
    | processAcks order =>
      show (processAcksO env subs st order).2 = (processAcks (asValues env subs) st order).2
      unfold processAcksO processAcks
      cases resendAll st with
      | error e => rfl
      | ok u => simp only; rw [sendAcksO_values (E := asValues env subs) (sendO_values (env := env) hs env.depth)]
    | setHost r v => rfl
    | removeCircuit r => rfl
    | setTrusted a b => rfl
  show ops.foldl (stepO env subs) st = ops.foldl (step (asValues env subs)) st
  have : stepO env subs = step (asValues env subs) := by funext st op; exact key st op
  rw [this]

theorem receiveO_pending (env : DEnv) (subs : ObjSubs) (st : DState) (r : HostRef) (dg : Bytes) (m : Message)
    (hd : (deserialize (env.deser st.trace) st.deser dg).1 = .ok (some m))
    (ht : ∀ c, st.circuits.get? (st.hosts r).addr = some c → c.trusted = false) (a : Addr) :
    pending (receiveO env subs st r dg).2 a = pending (receiveCheck { env with handlePackets := false } st r dg).2 a := by
  have hlen : 0 < dg.length := by have := deserialize_long hd; omega
  obtain ⟨hh, htr, _, _, _, hde, hg, hc⟩ := findCircuit_fields st r
  have hct : (findCircuit st r).2.trusted = false := by
    rw [hc]
    cases hx : st.circuits.get? (st.hosts r).addr with
    | none => rfl
    | some c => exact ht c hx
  unfold receiveO receiveCheck
  simp only [hlen, if_true, htr, hde, hd, hct, Bool.false_and, Bool.false_eq_true, if_false]
  split
  · generalize hst2 : DState.log _ (Ev.parsed (st.hosts r).addr m) = st2
    have hq : Quiet (st2.log (.delivered m)) (handleO (sendO env subs env.depth) (subs (st2.log (.delivered m)).trace m.name) m (st2.log (.delivered m))).2.2 :=
      handleO_preserves (quiet_closed env _) (sendO_preserves (quiet_closed env _) subs env.depth) _ m _ (Quiet.refl _)
    have hp := hq.pend a
    generalize handleO (sendO env subs env.depth) (subs (st2.log (.delivered m)).trace m.name) m (st2.log (.delivered m)) = x at hp ⊢
    obtain ⟨x1, x2, x3⟩ := x
    cases x1 <;> exact hp
  · rfl

/-- **C117, acknowledgements.** The id that is queued for acknowledgement is the one in the datagram, exactly if it has the reliable flag, also if subscribers change the message, and the messages they send in answer. -/
theorem C117_queued (env : DEnv) (subs : ObjSubs) (st : DState) (r : HostRef) (dg : Bytes) (m : Message) (flags : UInt8)
    (hd : (deserialize (env.deser st.trace) st.deser dg).1 = .ok (some m)) (hf : dg.head? = some flags)
    (ht : ∀ c, st.circuits.get? (st.hosts r).addr = some c → c.trusted = false) :
    ∃ id, id < 2 ^ 32 ∧ slice dg 1 5 = idBytes id ∧ ∀ a, pending (receiveO env subs st r dg).2 a =
      pending st a ++ (if a = (st.hosts r).addr ∧ flags.toNat &&& 0x40 ≠ 0 then [id] else []) := by
  obtain ⟨id, h1, h2, h3⟩ := C23_parsed { env with handlePackets := false } st r dg m flags hd hf ht
  exact ⟨id, h1, h2, fun a => (receiveO_pending env subs st r dg m hd ht a).trans (h3 a)⟩

/-! Nobody is told of outgoing messages. -/

theorem sendO_unhandled (env : DEnv) (hb : env.handleOutgoing = false) (subs : ObjSubs) (n : Nat) (st : DState) (m : Message) (r : HostRef) (mode : SendMode) :
    sendO env subs (n + 1) st m r mode = ((sendWith env (n + 1) st m r mode).1, afterSend env st m r mode, (sendWith env (n + 1) st m r mode).2) := by
  unfold sendO sendWith afterSend preparedIn
  simp only [hb, Bool.false_eq_true, if_false]
  split <;> rfl

theorem runO_unhandled {env : DEnv} {send : ObjSend} (hs : ∀ st m r mode, send st m r mode = ((Pyogp.send env st m r mode).1, afterSend env st m r mode, (Pyogp.send env st m r mode).2)) :
    ∀ (p : RProg) (m : Message) (st : DState), p.runO send m st = p.run env m st
  | .done, m, st => rfl
  | .raise e, m, st => rfl
  | .look k, m, st => by rw [RProg.runO, RProg.run]; exact runO_unhandled hs (k m) m st
  | .write m' k, m, st => by rw [RProg.runO, RProg.run]; exact runO_unhandled hs k m' st
  | .send m' r mode k, m, st => by rw [RProg.runO, RProg.run, hs]; exact runO_unhandled hs _ _ _
  | .forward r mode k, m, st => by rw [RProg.runO, RProg.run, hs]; exact runO_unhandled hs _ _ _
  | .setHost r v k, m, st => by rw [RProg.runO, RProg.run]; exact runO_unhandled hs k m _

theorem notifyO_unhandled {env : DEnv} {send : ObjSend} (hs : ∀ st m r mode, send st m r mode = ((Pyogp.send env st m r mode).1, afterSend env st m r mode, (Pyogp.send env st m r mode).2)) :
    ∀ (ps : List RProg) (m : Message) (st : DState), notifyO send ps m st = notifyObj env ps m st
  | [], m, st => rfl
  | p :: ps, m, st => by
    unfold notifyO notifyObj
    rw [runO_unhandled hs]
    cases p.run env m st with
    | mk x y =>
      obtain ⟨y1, y2⟩ := y
      cases x with
      | error e => rfl
      | ok u => exact notifyO_unhandled hs ps y1 y2

theorem receiveO_unhandled (env : DEnv) (hb : env.handleOutgoing = false) (hd : 0 < env.depth) (subs : String → List RProg) (st : DState) (r : HostRef) (dg : Bytes) :
    receiveO env (fun _ => subs) st r dg = receiveObj env subs st r dg := by
  have hs : ∀ st m r mode, sendO env (fun _ => subs) env.depth st m r mode =
      ((Pyogp.send env st m r mode).1, afterSend env st m r mode, (Pyogp.send env st m r mode).2) := by
    intro st m r mode
    have := sendO_unhandled env hb (fun _ => subs) (env.depth - 1) st m r mode
    rw [Nat.sub_add_cancel hd] at this
    exact this
  unfold receiveO receiveObj
  split
  · simp only
    generalize deserialize (env.deser (findCircuit st r).1.trace) (findCircuit st r).1.deser dg = d
    obtain ⟨d1, d2⟩ := d
    cases d1 with
    | error e => rfl
    | ok o =>
      cases o with
      | none => rfl
      | some m =>
        simp only
        split
        · rfl
        · split
          · generalize DState.log _ (Ev.delivered m) = st2
            unfold handleO handleObj
            rw [notifyO_unhandled hs]
            generalize notifyObj env (subs m.name) m st2 = x
            obtain ⟨x1, x2, x3⟩ := x
            cases x1 with
            | error e => simp only; by_cases he : e = .keyError <;> simp only [he, if_true, if_false]
            | ok u => rfl
          · rfl
  · rfl

/-- The same operation with these subscribers of received messages. -/
def withSubs (subs : String → List RProg) : Op → ROp
  | .recv r dg => .recv subs r dg
  | o => .op o

/-- **C117, received.** If outgoing messages are not handled, whole histories are those of `Model/Received`, and every theorem about those (C106) holds. -/
theorem C117_received (env : DEnv) (hb : env.handleOutgoing = false) (hd : 0 < env.depth) (subs : String → List RProg) (st : DState) (ops : List Op) :
    runO env (fun _ => subs) st ops = runROps env st (ops.map (withSubs subs)) := by
  have hv : SameSend (sendO env (fun _ => subs) env.depth) (Pyogp.send env) := by
    intro st m r mode
    have := sendO_unhandled env hb (fun _ => subs) (env.depth - 1) st m r mode
    rw [Nat.sub_add_cancel hd] at this
    rw [this]
    rfl
  have key : ∀ st op, stepO env (fun _ => subs) st op = runROps env st [withSubs subs op] := by
    intro st op
    cases op with
    | send m r mode => exact (congrArg Prod.snd (hv st m r mode)).symm
    | recv r dg => exact congrArg Prod.snd (receiveO_unhandled env hb hd subs st r dg)
    | processAcks order =>
      show (processAcksO env (fun _ => subs) st order).2 = (processAcks env st order).2
      unfold processAcksO processAcks
      cases resendAll st with
      | error e => rfl
      | ok u => simp only; rw [sendAcksO_values hv]
    | setHost r v => rfl
    | removeCircuit r => rfl
    | setTrusted a b => rfl
  induction ops generalizing st with
  | nil => rfl
  | cons o ops ih =>
    show runO env (fun _ => subs) (stepO env (fun _ => subs) st o) ops = _
    rw [ih, key]
    rfl

/-- **C117, sent on.** A subscriber that sends the outgoing message on (nobody being told of that) has in its hands an object with the name and blocks it had, the packet id it was given for that other host, and the
reliable flag exactly if it was sent reliably: what it does to any such object, here raising something, is what happens. -/
theorem C117_sent_on (env : DEnv) (ho : env.handleOutgoing = true) (subs : ObjSubs) (n : Nat) (st : DState) (m : Message) (r h : HostRef) (mode0 mode : SendMode)
    (hok : (st.hosts r).isOk = true) (hokh : (st.hosts h).isOk = true) (k : Message → RProg)
    (hs1 : subs (st.trace ++ [.outgoing m]) m.name = [.forward h mode (fun _ => .look k)]) (hs2 : subs (st.trace ++ [.outgoing m, .outgoing m]) m.name = [])
    (e : Exc) (he : e ≠ .keyError)
    (hk : ∀ m' : Message, m'.name = m.name → m'.blocks = m.blocks → m'.packetId = ((st.circuits.get? (st.hosts h).addr).map (·.lastOut)).getD 0 + 1 →
      (m'.sendFlags &&& 0x40 ≠ 0 ↔ ∃ n, mode = .reliable n) → k m' = .raise e) :
    (sendO env subs (n + 2) st m r mode0).1 = .error e := by
  have ht : (st.log (.outgoing m)).trace = st.trace ++ [.outgoing m] := rfl
  have ht2 : ((st.log (.outgoing m)).log (.outgoing m)).trace = st.trace ++ [.outgoing m, .outgoing m] := by simp [DState.log]
  have hin : sendO env subs (n + 1) (st.log (.outgoing m)) m h mode =
      ((transmit env ((st.log (.outgoing m)).log (.outgoing m)) m h mode).1, (mode.prepare (findCircuit ((st.log (.outgoing m)).log (.outgoing m)) h).2 m).2,
        (transmit env ((st.log (.outgoing m)).log (.outgoing m)) m h mode).2) := by
    conv => lhs; unfold sendO
    have hokh' : ((st.log (.outgoing m)).hosts h).isOk = true := hokh
    rw [if_neg (by rw [hokh']; decide), if_pos ho]
    simp only
    rw [ht2, hs2]
    rfl
  have hkm : k (mode.prepare (findCircuit ((st.log (.outgoing m)).log (.outgoing m)) h).2 m).2 = .raise e := by
    apply hk
    · rw [prepare_eq]; simp only [preparedMsg]; split <;> rfl
    · rw [prepare_eq]; simp only [preparedMsg]; split <;> rfl
    · rw [prepare_eq, (findCircuit_fields ((st.log (.outgoing m)).log (.outgoing m)) h).2.2.2.2.2.2.2]
      show _ = ((((st.log (.outgoing m)).log (.outgoing m)).circuits.get? (((st.log (.outgoing m)).log (.outgoing m)).hosts h).addr).map (·.lastOut)).getD 0 + 1
      generalize (st.log (.outgoing m)).log (.outgoing m) = s
      cases s.circuits.get? (s.hosts h).addr <;> (simp only [preparedMsg]; split <;> rfl)
    · rw [prepare_eq]
      simp only
      rw [preparedMsg_reliable]
      cases mode <;> simp [SendMode.isReliable]
  have hn : notifyO (sendO env subs (n + 1)) (subs (st.log (.outgoing m)).trace m.name) m (st.log (.outgoing m)) =
      (.error e, (sendO env subs (n + 1) (st.log (.outgoing m)) m h mode).2.1, (sendO env subs (n + 1) (st.log (.outgoing m)) m h mode).2.2) := by
    rw [ht, hs1]
    simp only [notifyO, RProg.runO, hin, hkm]
  exact congrArg Prod.fst (C117_raises env ho subs (n + 1) st m r mode0 hok e he _ _ hn)

/-- **C117, endless.** A subscriber that sends on every outgoing message of its name is told of that message too, and so on: nothing is ever sent, and whoever sends such a message gets Python's `RuntimeError`. -/
theorem C117_endless (env : DEnv) (ho : env.handleOutgoing = true) (subs : ObjSubs) (r : HostRef) (mode : SendMode) (m : Message)
    (hs : ∀ tr, subs tr m.name = [sendsItOn r mode]) (st : DState) (r0 : HostRef) (mode0 : SendMode) (hok0 : (st.hosts r0).isOk = true) (hok : (st.hosts r).isOk = true) :
    (sendO env subs env.depth st m r0 mode0).1 = .error .runtimeError ∧
    sentDatagrams (sendO env subs env.depth st m r0 mode0).2.2.trace = sentDatagrams st.trace ∧
    (sendO env subs env.depth st m r0 mode0).2.2.circuits = st.circuits := by
  have key : ∀ (n : Nat) (st : DState) (r0 : HostRef) (mode0 : SendMode), (st.hosts r0).isOk = true → (st.hosts r).isOk = true →
      ∃ st', sendO env subs n st m r0 mode0 = (.error .runtimeError, m, st') ∧ sentDatagrams st'.trace = sentDatagrams st.trace ∧ st'.circuits = st.circuits := by
    intro n
    induction n with
    | zero => intro st r0 mode0 _ _; exact ⟨st, rfl, rfl, rfl⟩
    | succ n ih =>
      intro st r0 mode0 h0 h
      obtain ⟨st', h1, h2, h3⟩ := ih (st.log (.outgoing m)) r mode h h
      have hn : notifyO (sendO env subs n) (subs (st.log (.outgoing m)).trace m.name) m (st.log (.outgoing m)) = (.error .runtimeError, m, st') := by
        rw [hs]
        simp only [notifyO, sendsItOn, RProg.runO, h1]
      refine ⟨st', C117_raises env ho subs n st m r0 mode0 h0 .runtimeError (by decide) m st' hn, h2.trans ?_, h3⟩
      simp only [DState.log, sentDatagrams, List.filterMap_append]
      exact List.append_nil _
  obtain ⟨st', h1, h2, h3⟩ := key env.depth st r0 mode0 hok0 hok
  rw [h1]
  exact ⟨rfl, h2, h3⟩

/-! Examples. -/

def watchedEnv : DEnv := { dispEnv with handleOutgoing := true }

/-- What the second of the subscribers below makes of a message. -/
def rewritten (m : Message) : Message :=
  { m with blocks := (Message.new "Demo" [.one (Block.mk' "Head" [("Id", .num (.int 5)), ("Name", .str [111])]), .many [Block.mk' "Items" [("N", .num (.int 1))]]]).blocks }

/-- The first time: one sends it on to host 1, reliably; one changes what it says; one sees the packet id it got when it was sent on and raises `KeyError`; the last is not called. -/
def rewriters : ObjSubs := fun tr n =>
  if n = "Demo" ∧ (tr.filter (fun e => match e with | .outgoing _ => true | _ => false)).length = 1 then
    [.forward 1 (.reliable 3) (fun _ => .done), .look (fun m => .write (rewritten m) .done),
     .look (fun m => if m.packetId = 1 then .raise .keyError else .done), .raise .typeError]
  else []

/-- Host 1 gets what the caller made, host 0 what the second subscriber made of it, neither reliable nor with another id because of the first. -/
example :
    let x := sendO watchedEnv rewriters watchedEnv.depth (DState.init dispHosts) demoMessage 0 .plain
    sentDatagrams x.2.2.trace =
      [(dispAddr 1, [0x40, 0, 0, 0, 1, 0, 0xff, 0xff, 1, 44, 77, 0, 0, 0, 3, 104, 105, 0, 2, 1, 0, 2, 0]),
       (dispAddr 0, [0, 0, 0, 0, 1, 0, 0xff, 0xff, 1, 44, 5, 0, 0, 0, 2, 111, 0, 1, 1, 0])] ∧
    (x.2.1.packetId, x.2.1.sendFlags) = (1, 0) ∧
    (x.2.2.circuits.get? (dispAddr 0)).map (fun c => (c.lastOut, c.unacked.keys)) = some (1, []) ∧
    (x.2.2.circuits.get? (dispAddr 1)).map (fun c => (c.lastOut, c.unacked.keys)) = some (1, [1]) := by decide +kernel

/-- The conditions of `C117_as_left`, with these subscribers. -/
example : watchedEnv.handleOutgoing = true ∧ (∀ tr tr' a dg, sentDatagrams tr = sentDatagrams tr' → watchedEnv.net tr a dg = watchedEnv.net tr' a dg) ∧
    ((DState.init dispHosts).hosts 0).isOk = true ∧
    ∃ m1 st1, notifyO (sendO watchedEnv rewriters 5) (rewriters ((DState.init dispHosts).log (.outgoing demoMessage)).trace demoMessage.name) demoMessage
      ((DState.init dispHosts).log (.outgoing demoMessage)) = (.error .keyError, m1, st1) ∧ (st1.hosts 0).isOk = true := by
  refine ⟨rfl, fun _ _ _ _ _ => rfl, by decide, ?_⟩
  have h : (fun x : Py Unit × Message × DState => (match x.1 with | .error e => decide (e = Exc.keyError) | .ok _ => false) = true ∧ (x.2.2.hosts 0).isOk = true)
      (notifyO (sendO watchedEnv rewriters 5) (rewriters ((DState.init dispHosts).log (.outgoing demoMessage)).trace demoMessage.name) demoMessage
        ((DState.init dispHosts).log (.outgoing demoMessage))) := by decide +kernel
  revert h
  generalize notifyO _ _ _ _ = x
  obtain ⟨x1, x2, x3⟩ := x
  intro ⟨h1, h2⟩
  cases x1 with
  | ok u => cases h1
  | error e => simp only [decide_eq_true_eq] at h1; subst h1; exact ⟨x2, x3, rfl, h2⟩

/-- The conditions of `C117_rewritten`, `C117_values` and `C117_endless`. -/
example : (∃ (subs : ObjSubs) (k : Message → RProg), subs ((DState.init dispHosts).trace ++ [.outgoing demoMessage]) "Demo" = [.write (rewritten demoMessage) .done, .look k] ∧ k (rewritten demoMessage) = .done) ∧
    (∀ p ∈ [RProg.look (fun m => .send (Message.new m.name []) 1 .plain (fun _ => .done))], OnlyReads p) ∧
    ((sendO { watchedEnv with depth := 4 } (fun _ _ => [sendsItOn 1 .plain]) 4 (DState.init dispHosts) demoMessage 0 .plain).2.2.trace.length) = 4 :=
  ⟨⟨fun _ _ => [.write (rewritten demoMessage) .done, .look (fun m => if m.name = "Other" then .raise .typeError else .done)], _, rfl, if_neg (by decide +kernel)⟩,
    fun p hp => by
      rw [List.mem_singleton.mp hp]
      exact .look _ fun _ => .send _ _ _ _ fun _ => .done,
    by decide +kernel⟩

/-- The conditions of `C117_in_order`, and three subscribers. -/
example : let fs : List (Message → Message) := [rewritten, fun m => if m.name = "Demo" then { m with name := "Other" } else m, fun m => if m.name = "Other" then { m with name := "Demo", blocks := m.blocks.take 1 } else m]
    let subs : ObjSubs := fun tr n => if n = "Demo" ∧ tr.length = 1 then fs.map (fun f => .look (fun x => .write (f x) .done)) else []
    (subs ((DState.init dispHosts).trace ++ [.outgoing demoMessage]) demoMessage.name).length = 3 ∧
    ((fs.foldl (fun x f => f x) demoMessage).name, (fs.foldl (fun x f => f x) demoMessage).blocks.length) = ("Demo", 1) ∧
    (sendO watchedEnv subs 3 (DState.init dispHosts) demoMessage 0 .plain).2.1.blocks.length = 1 := by decide +kernel

/-- The conditions of `C117_sent_on`. -/
example :
    let k : Message → RProg := fun m => if m.packetId = 1 then .raise .typeError else .done
    let subs : ObjSubs := fun tr n => if n = "Demo" ∧ tr.length = 1 then [.forward 1 (.reliable 3) (fun _ => .look k)] else []
    subs ((DState.init dispHosts).trace ++ [.outgoing demoMessage]) demoMessage.name = [.forward 1 (.reliable 3) (fun _ => .look k)] ∧
    subs ((DState.init dispHosts).trace ++ [.outgoing demoMessage, .outgoing demoMessage]) demoMessage.name = [] ∧
    ∀ m' : Message, m'.packetId = (((DState.init dispHosts).circuits.get? (dispAddr 1)).map (·.lastOut)).getD 0 + 1 → k m' = .raise .typeError :=
  ⟨rfl, rfl, fun _ h => if_pos h⟩

/-- The conditions of `C117_received`. -/
example : dispEnv.handleOutgoing = false ∧ 0 < dispEnv.depth := by decide

end Pyogp
