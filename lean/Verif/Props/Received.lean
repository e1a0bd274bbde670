import Verif.Spec.Received
import Verif.Props.Objects
import Verif.Props.Isolation

namespace Pyogp
open Spec

/-! ## C106

Received messages as objects. -/

theorem RProg.run_preserves {env : DEnv} {P : DState → Prop} (hc : SendClosed env (fun _ _ => True) P) :
    ∀ (p : RProg) (m : Message) (st : DState), P st → P (p.run env m st).2.2
  | .done, m, st, h => h
  | .raise e, m, st, h => h
  | .look k, m, st, h => by rw [RProg.run]; exact RProg.run_preserves hc (k m) m st h
  | .write m' k, m, st, h => by rw [RProg.run]; exact RProg.run_preserves hc k m' st h
  | .send m' r mode k, m, st, h => by
    rw [RProg.run]
    exact RProg.run_preserves hc (k _) m _ (send_preserves hc (fun _ _ => Prog.mutates_any _) st m' r mode h)
  | .forward r mode k, m, st, h => by
    rw [RProg.run]
    exact RProg.run_preserves hc (k _) _ _ (send_preserves hc (fun _ _ => Prog.mutates_any _) st m r mode h)
  | .setHost r v k, m, st, h => by
    rw [RProg.run]
    exact RProg.run_preserves hc k m _ (hc.hosts st r v trivial h)

theorem notifyObj_preserves {env : DEnv} {P : DState → Prop} (hc : SendClosed env (fun _ _ => True) P) :
    ∀ (ps : List RProg) (m : Message) (st : DState), P st → P (notifyObj env ps m st).2.2
  | [], m, st, h => h
  | p :: ps, m, st, h => by
    have h1 := RProg.run_preserves hc p m st h
    unfold notifyObj
    generalize p.run env m st = x at h1 ⊢
    obtain ⟨x1, x2, x3⟩ := x
    cases x1 with
    | error e => exact h1
    | ok u => exact notifyObj_preserves hc ps x2 x3 h1

theorem handleObj_preserves {env : DEnv} {P : DState → Prop} (hc : SendClosed env (fun _ _ => True) P) (subs : String → List RProg) (m : Message)
    (st : DState) (h : P st) : P (handleObj env subs m st).2 := by
  have h1 := notifyObj_preserves hc (subs m.name) m st h
  unfold handleObj
  generalize notifyObj env (subs m.name) m st = x at h1 ⊢
  obtain ⟨x1, x2, x3⟩ := x
  cases x1 with
  | error e => simp only; split <;> exact h1
  | ok u => exact h1

theorem receiveObj_preserves {env : DEnv} {P : DState → Prop} (hc : RecvClosed env (fun _ _ => True) P) (subs : String → List RProg) (st : DState)
    (r : HostRef) (dg : Bytes) (h : P st) : P (receiveObj env subs st r dg).2 := by
  unfold receiveObj
  split
  · have h1 := hc.received st r dg h
    have hg := findCircuit_get? st r
    simp only
    generalize hst1 : ({ ({ (findCircuit st r).1 with packetsIn := (findCircuit st r).1.packetsIn + 1 } : DState).log (.received (st.hosts r).addr dg) with
        deser := (deserialize (env.deser (findCircuit st r).1.trace) (findCircuit st r).1.deser dg).2 } : DState) = st1 at *
    have hg1 : st1.circuits.get? (st.hosts r).addr = some (findCircuit st r).2 := by rw [← hst1]; exact hg
    split
    · exact h1
    · split
      · exact h1
      · rename_i hpid; exact hc.collect _ _ _ _ h1 hg1 (unpackU32_lt hpid)
    · rename_i m hde
      have hid := deserialize_id_lt hde
      split
      · exact h1
      · split
        · exact handleObj_preserves hc.toSendClosed subs m _ (hc.delivered _ m (hc.parsed _ _ _ m h1 hg1 hid))
        · exact hc.parsed _ _ _ _ h1 hg1 hid
  · exact h

theorem runROps_inv (env : DEnv) (hosts : HostRef → Host) (ops : List ROp) : Inv (runROps env (DState.init hosts) ops) := by
  have key : ∀ (ops : List ROp) (st : DState), Inv st → Inv (runROps env st ops) := by
    intro ops
    induction ops with
    | nil => intro st h; exact h
    | cons o ops ih =>
      intro st h
      refine ih _ ?_
      cases o with
      | op o => exact step_preserves (Inv.closed env) (fun _ _ => Prog.mutates_any _) st o (fun _ _ _ => trivial) h
      | recv subs r dg => exact receiveObj_preserves (Inv.closed env).toRecvClosed subs st r dg h
  exact key ops _ (Inv.init hosts)

/-- **C106, bookkeeping.** In every history, also if subscribers change the messages they are given or send them on: the ids given to packets for an address
are 1, 2, 3, …; what waits for an acknowledgement are exactly the packets sent reliably and not acknowledged since *by the packets as they were
received*; and the counters count. -/
theorem C106_bookkeeping (env : DEnv) (hosts : HostRef → Host) (ops : List ROp) (a : Addr) :
    let st := runROps env (DState.init hosts) ops
    let h := circuitHistory a st.trace
    outIds h = List.range' 1 (outIds h).length ∧
    (∀ c, st.circuits.get? a = some c → (∀ id, id ∈ c.unacked.keys ↔ Waiting h id) ∧ c.unackCount = c.unacked.keys.length) ∧
    st.packetsIn = receivedCount st.trace ∧ st.packetsOut = sentCount st.trace := by
  have hi := runROps_inv env hosts ops
  refine ⟨?_, ?_, hi.packetsIn, hi.packetsOut⟩
  · generalize runROps env (DState.init hosts) ops = st at hi
    cases h : st.circuits.get? a with
    | none => simp only [hi.absent a h]; rfl
    | some c => simp only [(hi.circ a c h).ids]; simp
  · intro c hc
    have h1 := hi.circ a c hc
    exact ⟨h1.waiting, by rw [h1.ok.count]; simp [Dict.keys]⟩

/-- **C106, acknowledgements.** The id that is queued for acknowledgement is the one in the datagram, exactly if the datagram has the reliable flag, whatever
the subscribers do to the message's `packet_id`, `reliable` or anything else. -/
theorem C106_queued (env : DEnv) (subs : String → List RProg) (st : DState) (r : HostRef) (dg : Bytes) (m : Message) (flags : UInt8)
    (hd : (deserialize (env.deser st.trace) st.deser dg).1 = .ok (some m)) (hf : dg.head? = some flags)
    (ht : ∀ c, st.circuits.get? (st.hosts r).addr = some c → c.trusted = false) :
    ∃ id, id < 2 ^ 32 ∧ slice dg 1 5 = idBytes id ∧ ∀ a, pending (receiveObj env subs st r dg).2 a =
      pending st a ++ (if a = (st.hosts r).addr ∧ flags.toNat &&& 0x40 ≠ 0 then [id] else []) := by
  obtain ⟨id, h1, h2, h3⟩ := C23_parsed { env with handlePackets := false } st r dg m flags hd hf ht
  refine ⟨id, h1, h2, fun a => (Eq.trans ?_ (h3 a))⟩
  have hlen : 0 < dg.length := by have := deserialize_long hd; omega
  obtain ⟨hh, htr, _, _, _, hde, hg, hc⟩ := findCircuit_fields st r
  have hct : (findCircuit st r).2.trusted = false := by
    rw [hc]
    cases hx : st.circuits.get? (st.hosts r).addr with
    | none => rfl
    | some c => exact ht c hx
  unfold receiveObj receiveCheck
  simp only [hlen, if_true, htr, hde, hd, hct, Bool.false_and, Bool.false_eq_true, if_false]
  split
  · generalize hst2 : DState.log _ (Ev.parsed (st.hosts r).addr m) = st2
    have hq : Quiet (st2.log (.delivered m)) (handleObj env subs m (st2.log (.delivered m))).2 :=
      handleObj_preserves (quiet_closed env _) subs m _ (Quiet.refl _)
    exact (hq.pend a)
  · rfl

theorem afterSend_content (env : DEnv) (st : DState) (m : Message) (r : HostRef) (mode : SendMode) :
    contentOf (afterSend env st m r mode) = contentOf m := by
  unfold afterSend
  split
  · rfl
  · rw [prepare_eq]
    simp only [preparedMsg]
    split <;> rfl

theorem RProg.run_content {env : DEnv} {p : RProg} (h : LeavesContent p) :
    ∀ (m : Message) (st : DState), contentOf (p.run env m st).2.1 = contentOf m := by
  induction h with
  | done => intro m st; rfl
  | raise e => intro m st; rfl
  | look k _ ih => intro m st; rw [RProg.run]; exact ih m m st
  | send m' r mode k _ ih => intro m st; rw [RProg.run]; exact ih _ m _
  | forward r mode k _ ih => intro m st; rw [RProg.run, ih _ _ _, afterSend_content]
  | setHost r v k _ ih => intro m st; rw [RProg.run]; exact ih m _

theorem notifyObj_content {env : DEnv} : ∀ (ps : List RProg) (_ : ∀ p ∈ ps, LeavesContent p) (m : Message) (st : DState),
    contentOf (notifyObj env ps m st).2.1 = contentOf m
  | [], _, m, st => rfl
  | p :: ps, h, m, st => by
    have h1 := RProg.run_content (env := env) (h p List.mem_cons_self) m st
    unfold notifyObj
    generalize p.run env m st = x at h1 ⊢
    obtain ⟨x1, x2, x3⟩ := x
    cases x1 with
    | error e => exact h1
    | ok u => exact (notifyObj_content ps (fun q hq => h q (List.mem_cons_of_mem _ hq)) x2 x3).trans h1

/-- **C106, content.** If no subscriber changes the name or blocks of the message, `receive_check` returns a message with the name and blocks that
were received, also if subscribers send it on. -/
theorem C106_content (env : DEnv) (subs : String → List RProg) (hs : ∀ n, ∀ p ∈ subs n, LeavesContent p) (st : DState) (r : HostRef) (dg : Bytes)
    (m' : Message) (h : (receiveObj env subs st r dg).1 = .ok (some m')) :
    ∃ m, (deserialize (env.deser st.trace) st.deser dg).1 = .ok (some m) ∧ m'.name = m.name ∧ m'.blocks = m.blocks := by
  obtain ⟨hh, htr, _, _, _, hde, hg, hc⟩ := findCircuit_fields st r
  unfold receiveObj at h
  simp only [htr, hde] at h
  split at h
  · split at h
    · cases h
    · split at h <;> cases h
    · rename_i m hd
      refine ⟨m, hd, ?_⟩
      have : contentOf m' = contentOf m := by
        split at h
        · cases h
        · split at h
          · generalize DState.log _ (Ev.delivered m) = st2 at h
            have h1 := notifyObj_content (env := env) (subs m.name) (hs m.name) m st2
            unfold handleObj at h
            generalize notifyObj env (subs m.name) m st2 = x at h1 h
            obtain ⟨x1, x2, x3⟩ := x
            cases x1 with
            | error e =>
              simp only at h
              split at h
              · cases h; exact h1
              · cases h
            | ok u => cases h; exact h1
          · cases h; rfl
      exact ⟨congrArg Prod.fst this, congrArg Prod.snd this⟩
  · cases h

/-! Subscribers that only read. -/

theorem sendWith_handler (env : DEnv) (hb : env.handleOutgoing = false) (h : List Ev → Message → Prog) (n : Nat) (st : DState) (m : Message) (r : HostRef)
    (mode : SendMode) : sendWith { env with handler := h } n st m r mode = sendWith env n st m r mode := by
  cases n with
  | zero => rfl
  | succ n => simp only [sendWith, hb]; rfl

theorem run_sendWith (env : DEnv) (hb : env.handleOutgoing = false) (h : List Ev → Message → Prog) (n : Nat) : ∀ (p : Prog) (st : DState),
    p.run (sendWith { env with handler := h } n) st = p.run (sendWith env n) st
  | .done, st => rfl
  | .raise e, st => rfl
  | .send m r mode k, st => by rw [Prog.run, Prog.run, sendWith_handler env hb]; exact run_sendWith env hb h n _ _
  | .setHost r v k, st => by rw [Prog.run, Prog.run]; exact run_sendWith env hb h n k _

theorem asValue_run {env : DEnv} {p : RProg} (h : OnlyReads p) (next : Prog) : ∀ (m : Message) (st : DState),
    (p.run env m st).2.1 = m ∧
    (asValue m next p).run (sendWith env env.depth) st =
      (match p.run env m st with
        | (.ok _, _, st) => next.run (sendWith env env.depth) st
        | (.error e, _, st) => if e = .keyError then (.ok (), st) else (.error e, st)) := by
  induction h with
  | done => intro m st; exact ⟨rfl, rfl⟩
  | raise e =>
    intro m st
    refine ⟨rfl, ?_⟩
    simp only [asValue, RProg.run]
    split <;> rfl
  | look k _ ih => intro m st; simp only [asValue, RProg.run]; exact ih m m st
  | send m' r mode k _ ih => intro m st; simp only [asValue, RProg.run, Prog.run]; exact ih _ m _
  | setHost r v k _ ih => intro m st; simp only [asValue, RProg.run, Prog.run]; exact ih m _

theorem allAsValue_run {env : DEnv} : ∀ (ps : List RProg) (_ : ∀ p ∈ ps, OnlyReads p) (m : Message) (st : DState),
    (notifyObj env ps m st).2.1 = m ∧
    (allAsValue m ps).run (sendWith env env.depth) st =
      (match notifyObj env ps m st with
        | (.ok _, _, st) => (.ok (), st)
        | (.error e, _, st) => if e = .keyError then (.ok (), st) else (.error e, st))
  | [], _, m, st => ⟨rfl, rfl⟩
  | p :: ps, h, m, st => by
    obtain ⟨h1, h2⟩ := asValue_run (env := env) (h p List.mem_cons_self) (allAsValue m ps) m st
    have ih := fun st => allAsValue_run (env := env) ps (fun q hq => h q (List.mem_cons_of_mem _ hq)) m st
    have e : allAsValue m (p :: ps) = asValue m (allAsValue m ps) p := rfl
    rw [e, h2]
    unfold notifyObj
    generalize p.run env m st = x at h1 ⊢
    obtain ⟨x1, x2, x3⟩ := x
    simp only at h1
    subst h1
    cases x1 with
    | error e => exact ⟨rfl, rfl⟩
    | ok u => exact ih x3

/-- **C106, values.** Subscribers that neither change the message nor send it on may be given a value: `receive_check` returns and does what it does in
`Model/Dispatcher` with the same subscribers there (outgoing packets not being handled). -/
theorem C106_values (env : DEnv) (hb : env.handleOutgoing = false) (subs : String → List RProg) (hs : ∀ n, ∀ p ∈ subs n, OnlyReads p) (st : DState)
    (r : HostRef) (dg : Bytes) :
    receiveObj env subs st r dg = receiveCheck { env with handler := fun _ m => allAsValue m (subs m.name) } st r dg := by
  unfold receiveObj receiveCheck
  split
  · simp only
    generalize deserialize (env.deser (findCircuit st r).1.trace) (findCircuit st r).1.deser dg = d
    obtain ⟨d1, d2⟩ := d
    cases d1 with
    | error e => rfl
    | ok o =>
      cases o with
      | none =>
        simp only
        generalize unpackInt env.ser.rt dg .u32 1 (some .big) = u
        cases u <;> rfl
      | some m =>
        simp only
        split
        · rfl
        · split
          · generalize DState.log _ (Ev.delivered m) = st2
            obtain ⟨h1, h2⟩ := allAsValue_run (env := env) (subs m.name) (hs m.name) m st2
            rw [run_sendWith env hb, h2]
            unfold handleObj
            generalize notifyObj env (subs m.name) m st2 = x at h1 ⊢
            obtain ⟨x1, x2, x3⟩ := x
            simp only at h1
            subst h1
            cases x1 with
            | error e => simp only; split <;> rfl
            | ok u => rfl
          · rfl
  · rfl

theorem receiveObj_handle (env : DEnv) (hp : env.handlePackets = true) (st : DState) (r : HostRef) (dg : Bytes) (m : Message)
    (hd : (deserialize (env.deser st.trace) st.deser dg).1 = .ok (some m))
    (ht : ∀ c, st.circuits.get? (st.hosts r).addr = some c → c.trusted = false) :
    ∃ s : DState, s.hosts = st.hosts ∧ ∀ subs, receiveObj env subs st r dg = handleObj env subs m s := by
  have hlen : 0 < dg.length := by have := deserialize_long hd; omega
  obtain ⟨hh, htr, _, _, _, hde, hg, hc⟩ := findCircuit_fields st r
  have hct : (findCircuit st r).2.trusted = false := by
    rw [hc]
    cases hx : st.circuits.get? (st.hosts r).addr with
    | none => rfl
    | some c => exact ht c hx
  refine ⟨((({ ({ (findCircuit st r).1 with packetsIn := (findCircuit st r).1.packetsIn + 1 } : DState).log (.received (st.hosts r).addr dg) with
      deser := (deserialize (env.deser st.trace) st.deser dg).2 } : DState).setCircuit (st.hosts r).addr
        ((findCircuit st r).2.handlePacket m)).log (.parsed (st.hosts r).addr m)).log (.delivered m), hh, fun subs => ?_⟩
  unfold receiveObj
  simp only [hlen, if_true, htr, hde, hd, hct, Bool.false_and, Bool.false_eq_true, if_false, hp]

/-- **C106, one object.** What a subscriber makes of the message is what the next one gets, and what `receive_check` returns. -/
theorem C106_shared (env : DEnv) (hp : env.handlePackets = true) (st : DState) (r : HostRef) (dg : Bytes) (m : Message)
    (hd : (deserialize (env.deser st.trace) st.deser dg).1 = .ok (some m))
    (ht : ∀ c, st.circuits.get? (st.hosts r).addr = some c → c.trusted = false) (m' : Message) (k : Message → RProg) :
    (receiveObj env (fun _ => [.write m' .done]) st r dg).1 = .ok (some m') ∧
    receiveObj env (fun _ => [.write m' .done, .look k]) st r dg = receiveObj env (fun _ => [.write m' (k m')]) st r dg := by
  obtain ⟨s, _, hrec⟩ := receiveObj_handle env hp st r dg m hd ht
  rw [hrec, hrec, hrec]
  refine ⟨rfl, ?_⟩
  simp only [handleObj, notifyObj, RProg.run]

/-- **C106, the end.** The first subscriber that raises is the last one called; `KeyError` is not passed on, and other exceptions are. -/
theorem C106_raises (env : DEnv) (hp : env.handlePackets = true) (st : DState) (r : HostRef) (dg : Bytes) (m : Message)
    (hd : (deserialize (env.deser st.trace) st.deser dg).1 = .ok (some m))
    (ht : ∀ c, st.circuits.get? (st.hosts r).addr = some c → c.trusted = false) (m' : Message) (e : Exc) (later : List RProg) :
    (receiveObj env (fun _ => .write m' (.raise e) :: later) st r dg).1 = (if e = .keyError then .ok (some m') else .error e) ∧
    (receiveObj env (fun _ => .write m' (.raise e) :: later) st r dg).2 = (receiveObj env (fun _ => []) st r dg).2 := by
  obtain ⟨s, _, hrec⟩ := receiveObj_handle env hp st r dg m hd ht
  rw [hrec, hrec]
  simp only [handleObj, notifyObj, RProg.run]
  split <;> exact ⟨rfl, rfl⟩

/-- **C106, sending on.** A subscriber that sends the received message on: what leaves is what a newly made message with this name and these blocks would be
sent as – nothing of the received flags, id or acknowledgements –, and the message `receive_check` returns now has the next packet id of
the host it was sent to. -/
theorem C106_sent_on (env : DEnv) (hb : env.handleOutgoing = false) (hp : env.handlePackets = true)
    (hnet : ∀ tr tr' a dg, sentDatagrams tr = sentDatagrams tr' → env.net tr a dg = env.net tr' a dg) (st : DState) (r : HostRef) (dg : Bytes) (m : Message)
    (hd : (deserialize (env.deser st.trace) st.deser dg).1 = .ok (some m))
    (ht : ∀ c, st.circuits.get? (st.hosts r).addr = some c → c.trusted = false) (h : HostRef) (mode : SendMode) (hok : (st.hosts h).isOk = true) :
    let received := (receiveObj env (fun _ => []) st r dg).2
    let x := receiveObj env (fun _ => [.forward h mode (fun _ => .done)]) st r dg
    sentDatagrams x.2.trace = sentDatagrams (send env received (newMessage (m.name, m.blocks)) h mode).2.trace ∧
    ∃ m', x.1 = .ok (some m') ∧ m'.name = m.name ∧ m'.blocks = m.blocks ∧
      m'.packetId = ((received.circuits.get? (st.hosts h).addr).map (·.lastOut)).getD 0 + 1 ∧
      (m'.sendFlags &&& 0x40 ≠ 0 ↔ ∃ n, mode = .reliable n) := by
  intro received x
  have key := receiveObj_handle env hp st r dg m hd ht
  obtain ⟨s, hsh, hrec⟩ := key
  have e1 : received = s := by show (receiveObj env (fun _ => []) st r dg).2 = s; rw [hrec]; rfl
  have e2 : x = (.ok (some (afterSend env s m h mode)), (send env s m h mode).2) := by
    show receiveObj env _ st r dg = _
    rw [hrec]
    rfl
  have hok' : (s.hosts h).isOk = true := by rw [hsh]; exact hok
  have e3 : afterSend env s m h mode = (mode.prepare (findCircuit s h).2 m).2 := by
    unfold afterSend preparedIn
    simp [hok', hb]
  have hcont := afterSend_content env s m h mode
  rw [e1, e2]
  refine ⟨(C85_fresh env s m h mode hb hnet).2.1, _, rfl, congrArg Prod.fst hcont, congrArg Prod.snd hcont, ?_, ?_⟩
  · rw [e3, prepare_eq]
    rw [← hsh]
    have := (findCircuit_fields s h).2.2.2.2.2.2.2
    rw [this]
    cases s.circuits.get? (s.hosts h).addr <;> (simp only [preparedMsg]; split <;> rfl)
  · rw [e3]
    rw [prepare_eq]
    simp only
    rw [preparedMsg_reliable]
    cases mode <;> simp [SendMode.isReliable]

/-- Host 0 sends a reliable packet with id 9 that carries an acknowledgement.  The first subscriber sends it on to host 1, the second
gives it another name, the third sees that and raises `KeyError`, so that the fourth is not called.  Packet 9 is queued for acknowledgement. -/
example :
    let subs : String → List RProg := fun n => if n = "Demo" then
        [.forward 1 (.reliable 3) (fun _ => .done), .look (fun m => .write { m with name := "Other", packetId := m.packetId + 70 } .done),
         .look (fun m => if m.name = "Other" then .raise .keyError else .done), .raise .typeError] else []
    let dg : Bytes := [0x50, 0, 0, 0, 9, 0, 0xff, 0xff, 1, 44, 77, 0, 0, 0, 3, 104, 105, 0, 2, 1, 0, 2, 0, 7, 0, 0, 0, 1]
    let x := receiveObj dispEnv subs (DState.init dispHosts) 0 dg
    (x.1.toOption.bind id).map (fun m => (m.name, m.packetId, m.reliable)) = some ("Other", 71, true) ∧
    pending x.2 (dispAddr 0) = [9] ∧ (x.2.circuits.get? (dispAddr 1)).map (fun c => (c.lastOut, c.unacked.keys)) = some (1, [1]) ∧
    sentDatagrams x.2.trace =
      [(dispAddr 1, [0x40, 0, 0, 0, 1, 0, 0xff, 0xff, 1, 44, 77, 0, 0, 0, 3, 104, 105, 0, 2, 1, 0, 2, 0])] := by decide +kernel

/-- The conditions of `C106_sent_on`, with the packet of the example before. -/
example : dispEnv.handleOutgoing = false ∧ dispEnv.handlePackets = true ∧
    (∀ tr tr' a dg, sentDatagrams tr = sentDatagrams tr' → dispEnv.net tr a dg = dispEnv.net tr' a dg) ∧
    (∃ m, (deserialize (dispEnv.deser []) (DState.init dispHosts).deser demoDatagram).1 = .ok (some m) ∧ m.name = "Demo") ∧
    (dispHosts 1).isOk = true :=
  ⟨rfl, rfl, fun _ _ _ _ _ => rfl, by
    have : ((deserialize (dispEnv.deser []) (DState.init dispHosts).deser demoDatagram).1.toOption.bind id).map (·.name) = some "Demo" := by decide +kernel
    revert this
    cases (deserialize (dispEnv.deser []) (DState.init dispHosts).deser demoDatagram).1 with
    | error e => intro h; cases h
    | ok o => cases o with
      | none => intro h; cases h
      | some m => intro h; exact ⟨m, rfl, Option.some.inj h⟩, by decide⟩

/-- The conditions of `C106_content` and `C106_values`. -/
example : LeavesContent (.forward 1 (.reliable 3) (fun _ => .done)) ∧
    OnlyReads (.look (fun m => .send (Message.new m.name []) 1 .plain (fun _ => .done))) ∧
    ¬ OnlyReads (.forward 1 (.reliable 3) (fun _ => .done)) ∧ ¬ LeavesContent (.write demoMessage .done) :=
  ⟨.forward _ _ _ fun _ => .done, .look _ fun _ => .send _ _ _ _ fun _ => .done, fun h => (nomatch h), fun h => (nomatch h)⟩

end Pyogp
