import Verif.Spec.Objects
import Verif.Proofs.Dispatcher
import Verif.Proofs.Circuit

namespace Pyogp
open Spec

theorem Spec.AlikeCircuit.refl (c : Circuit) : AlikeCircuit c c := ⟨rfl, rfl, rfl, rfl, rfl, rfl, rfl, rfl, rfl, rfl⟩
theorem Spec.AlikeCircuit.trans {a b c : Circuit} (h : AlikeCircuit a b) (h' : AlikeCircuit b c) : AlikeCircuit a c :=
  ⟨h.host.trans h'.host, h.alive.trans h'.alive, h.trusted.trans h'.trusted, h.lastOut.trans h'.lastOut, h.lastIn.trans h'.lastIn,
   h.acks.trans h'.acks, h.unacked.trans h'.unacked, h.unackCount.trans h'.unackCount, h.finalRetry.trans h'.finalRetry,
   h.finalCount.trans h'.finalCount⟩

theorem Spec.AlikeDisp.refl (d : DState) : AlikeDisp d d :=
  ⟨rfl, rfl, fun a => by
    cases h : d.circuits.get? a with
    | none => exact .inl ⟨rfl, rfl⟩
    | some c => exact .inr ⟨c, c, rfl, rfl, .refl c⟩, rfl, rfl, rfl, rfl, rfl⟩

theorem Spec.AlikeDisp.trans {a b c : DState} (h : AlikeDisp a b) (h' : AlikeDisp b c) : AlikeDisp a c := by
  refine ⟨h.hosts.trans h'.hosts, h.keys.trans h'.keys, fun x => ?_, h.unackedCircuits.trans h'.unackedCircuits, h.packetsIn.trans h'.packetsIn,
    h.packetsOut.trans h'.packetsOut, h.deser.trans h'.deser, h.trace.trans h'.trace⟩
  rcases h.circuits x with ⟨h1, h2⟩ | ⟨c1, c2, h1, h2, h3⟩
  · rcases h'.circuits x with ⟨h4, h5⟩ | ⟨c3, c4, h4, h5, h6⟩
    · exact .inl ⟨h1, h5⟩
    · rw [h2] at h4; cases h4
  · rcases h'.circuits x with ⟨h4, h5⟩ | ⟨c3, c4, h4, h5, h6⟩
    · rw [h2] at h4; cases h4
    · rw [h2] at h4; cases h4; exact .inr ⟨c1, c4, h1, h5, h3.trans h6⟩

theorem Spec.AlikeDisp.setCircuit {d d' : DState} (h : AlikeDisp d d') (a : Addr) {c c' : Circuit} (hc : AlikeCircuit c c') :
    AlikeDisp (d.setCircuit a c) (d'.setCircuit a c') := by
  refine ⟨h.hosts, ?_, fun x => ?_, h.unackedCircuits, h.packetsIn, h.packetsOut, h.deser, h.trace⟩
  · simp only [DState.setCircuit, Dict.keys_set, h.keys]
    split <;> rfl
  · simp only [DState.setCircuit, Dict.get?_set]
    by_cases hx : a = x
    · simp only [if_pos hx]; exact .inr ⟨c, c', rfl, rfl, hc⟩
    · simp only [if_neg hx]; exact h.circuits x

theorem Spec.AlikeDisp.log {d d' : DState} (h : AlikeDisp d d') (e : Ev) : AlikeDisp (d.log e) (d'.log e) :=
  ⟨h.hosts, h.keys, h.circuits, h.unackedCircuits, h.packetsIn, h.packetsOut, h.deser, by simp only [DState.log, h.trace]⟩

theorem Spec.AlikeDisp.findCircuit {d d' : DState} (h : AlikeDisp d d') (r : HostRef) :
    AlikeDisp (findCircuit d r).1 (findCircuit d' r).1 ∧ AlikeCircuit (findCircuit d r).2 (findCircuit d' r).2 := by
  unfold Pyogp.findCircuit getCircuit
  rw [← h.hosts]
  rcases h.circuits (d.hosts r).addr with ⟨h1, h2⟩ | ⟨c, c', h1, h2, h3⟩
  · rw [h1, h2]
    have h3 := h.setCircuit (d.hosts r).addr (.refl { host := r, lastIn := -1 })
    exact ⟨⟨rfl, h3.keys, h3.circuits, h3.unackedCircuits, h3.packetsIn, h3.packetsOut, h3.deser, h3.trace⟩, .refl _⟩
  · rw [h1, h2]
    exact ⟨h, h3⟩

theorem preparedMsg_alike {c c' : Circuit} (h : AlikeCircuit c c') (m : Message) (f : Nat) (n : Int) :
    preparedMsg c m f n = preparedMsg c' m f n := by
  unfold preparedMsg
  rw [h.acks, h.lastOut]

theorem prepare_alike {c c' : Circuit} (h : AlikeCircuit c c') (m : Message) (mode : SendMode) :
    AlikeCircuit (mode.prepare c m).1 (mode.prepare c' m).1 ∧ (mode.prepare c m).2 = (mode.prepare c' m).2 := by
  rw [prepare_eq, prepare_eq, preparedMsg_alike h]
  refine ⟨?_, rfl⟩
  simp only
  split
  · refine ⟨h.host, h.alive, h.trusted, ?_, h.lastIn, h.acks, ?_, ?_, h.finalRetry, h.finalCount⟩
    · simp only [Circuit.addReliablePacket, Circuit.nextPacketId, h.lastOut]
    · simp only [Circuit.addReliablePacket, Circuit.nextPacketId, Dict.keys_set, h.unacked]
    · simp only [Circuit.addReliablePacket, Circuit.nextPacketId, h.unackCount]
  · exact ⟨h.host, h.alive, h.trusted, by simp only [Circuit.nextPacketId, h.lastOut], h.lastIn, h.acks, h.unacked, h.unackCount, h.finalRetry,
      h.finalCount⟩

theorem has_of_keys {α : Type} {d d' : Dict Nat α} (h : d.keys = d'.keys) (k : Nat) : d.has k = d'.has k := by
  rw [Bool.eq_iff_iff, has_iff, has_iff, h]

theorem ack_alike {c c' : Circuit} (h : AlikeCircuit c c') (id : Nat) : AlikeCircuit (c.ackReliablePacket id) (c'.ackReliablePacket id) := by
  rw [ack_eq, ack_eq, has_of_keys h.unacked, has_of_keys h.finalRetry, h.unackCount, h.finalCount]
  exact ⟨h.host, h.alive, h.trusted, h.lastOut, h.lastIn, h.acks, by simp only [keys_del, h.unacked], rfl, by simp only [keys_del, h.finalRetry], rfl⟩

theorem collect_alike {c c' : Circuit} (h : AlikeCircuit c c') (id : Nat) : AlikeCircuit (c.collectAck id) (c'.collectAck id) :=
  ⟨h.host, h.alive, h.trusted, h.lastOut, h.lastIn, by simp only [Circuit.collectAck, h.acks], h.unacked, h.unackCount, h.finalRetry, h.finalCount⟩

theorem handlePacket_alike {c c' : Circuit} (h : AlikeCircuit c c') (m : Message) : AlikeCircuit (c.handlePacket m) (c'.handlePacket m) := by
  have key : ∀ (l : List Nat) {c c' : Circuit}, AlikeCircuit c c' →
      AlikeCircuit (l.foldl Circuit.ackReliablePacket c) (l.foldl Circuit.ackReliablePacket c') := by
    intro l
    induction l with
    | nil => intro c c' h; exact h
    | cons i l ih => intro c c' h; exact ih (ack_alike h i)
  unfold Circuit.handlePacket
  simp only
  split
  · exact collect_alike (key _ h) _
  · exact key _ h

theorem handToSocket_alike (env : DEnv) {d d' : DState} (h : AlikeDisp d d') (a : Addr) (m : Message) :
    (handToSocket env d a m).1 = (handToSocket env d' a m).1 ∧ AlikeDisp (handToSocket env d a m).2 (handToSocket env d' a m).2 := by
  unfold handToSocket
  rw [← h.trace]
  cases serialize env.ser m with
  | error e => exact ⟨rfl, h⟩
  | ok o =>
    cases o with
    | none => exact ⟨rfl, h⟩
    | some dg =>
      simp only
      by_cases hn : env.net d.trace a dg = true
      · rw [if_pos hn, if_pos hn]
        have := h.log (.sent a dg)
        exact ⟨rfl, this.hosts, this.keys, this.circuits, this.unackedCircuits, this.packetsIn, by rw [h.packetsOut], this.deser, this.trace⟩
      · rw [if_neg hn, if_neg hn]
        exact ⟨rfl, h⟩

theorem transmit_alike (env : DEnv) {d d' : DState} (h : AlikeDisp d d') (m : Message) (r : HostRef) (mode : SendMode) :
    (transmit env d m r mode).1 = (transmit env d' m r mode).1 ∧ AlikeDisp (transmit env d m r mode).2 (transmit env d' m r mode).2 := by
  obtain ⟨h1, h2⟩ := h.findCircuit r
  obtain ⟨h3, h4⟩ := prepare_alike h2 m mode
  rw [transmit_eq, transmit_eq, ← h4, ← h.hosts]
  refine handToSocket_alike env ?_ _ _
  unfold preparedState
  simp only
  rw [← h.hosts, ← h4, ← h3.unackCount]
  have h5 := (h1.setCircuit (d.hosts r).addr h3).log (.prepared (d.hosts r).addr (mode.prepare (findCircuit d r).2 m).2)
  cases mode with
  | reliable n =>
    simp only
    split
    · exact ⟨h5.hosts, h5.keys, h5.circuits, by rw [h5.unackedCircuits], h5.packetsIn, h5.packetsOut, h5.deser, h5.trace⟩
    · exact h5
  | plain => exact h5
  | retry => exact h5

theorem setHost_alike {d d' : DState} (h : AlikeDisp d d') (r : HostRef) (v : Host) :
    AlikeDisp { d with hosts := fun x => if x = r then v else d.hosts x } { d' with hosts := fun x => if x = r then v else d'.hosts x } :=
  ⟨by rw [h.hosts], h.keys, h.circuits, h.unackedCircuits, h.packetsIn, h.packetsOut, h.deser, h.trace⟩

theorem run_alike {send : DState → Message → HostRef → SendMode → Py (Option Bytes) × DState}
    (hs : ∀ d d' m r mode, AlikeDisp d d' → (send d m r mode).1 = (send d' m r mode).1 ∧ AlikeDisp (send d m r mode).2 (send d' m r mode).2) :
    ∀ (p : Prog) {d d' : DState}, AlikeDisp d d' → (p.run send d).1 = (p.run send d').1 ∧ AlikeDisp (p.run send d).2 (p.run send d').2
  | .done, _, _, h => ⟨rfl, h⟩
  | .raise _, _, _, h => ⟨rfl, h⟩
  | .send m r mode k, d, d', h => by
    obtain ⟨h1, h2⟩ := hs d d' m r mode h
    have := run_alike hs (k (send d m r mode).1) h2
    simp only [Prog.run]
    rw [← h1]
    exact this
  | .setHost r v k, _, _, h => run_alike hs k (setHost_alike h r v)

theorem sendWith_alike (env : DEnv) : ∀ (n : Nat) (d d' : DState) (m : Message) (r : HostRef) (mode : SendMode), AlikeDisp d d' →
    (sendWith env n d m r mode).1 = (sendWith env n d' m r mode).1 ∧ AlikeDisp (sendWith env n d m r mode).2 (sendWith env n d' m r mode).2
  | 0, _, _, _, _, _, h => ⟨rfl, h⟩
  | n + 1, d, d', m, r, mode, h => by
    unfold sendWith
    rw [← h.hosts]
    by_cases hok : (!(d.hosts r).isOk) = true
    · rw [if_pos hok, if_pos hok]; exact ⟨rfl, h⟩
    rw [if_neg hok, if_neg hok]
    by_cases ho : env.handleOutgoing = true
    · rw [if_pos ho, if_pos ho]
      have hl := h.log (.outgoing m)
      obtain ⟨h1, h2⟩ := run_alike (fun a b m r mode h => sendWith_alike env n a b m r mode h) (env.handler (d.log (.outgoing m)).trace m) hl
      simp only
      rw [← hl.trace]
      generalize Prog.run (sendWith env n) (env.handler (d.log (.outgoing m)).trace m) (d.log (.outgoing m)) = x at h1 h2
      generalize Prog.run (sendWith env n) (env.handler (d.log (.outgoing m)).trace m) (d'.log (.outgoing m)) = y at h1 h2
      obtain ⟨x1, x2⟩ := x
      obtain ⟨y1, y2⟩ := y
      simp only at h1 h2
      subst h1
      cases x1 with
      | error e => exact ⟨rfl, h2⟩
      | ok u => exact transmit_alike env h2 m r mode
    · rw [if_neg ho, if_neg ho]
      exact transmit_alike env h m r mode

theorem send_alike (env : DEnv) {d d' : DState} (h : AlikeDisp d d') (m : Message) (r : HostRef) (mode : SendMode) :
    (send env d m r mode).1 = (send env d' m r mode).1 ∧ AlikeDisp (send env d m r mode).2 (send env d' m r mode).2 :=
  sendWith_alike env _ d d' m r mode h

/-- The part of `receiveCheck` after the deserializer has answered. -/
def recvRest (env : DEnv) (a : Addr) (dg : Bytes) (st : DState) (c : Circuit) : Py (Option Message) → Py (Option Message) × DState
  | .error e => (.error e, st)
  | .ok none =>
    match unpackInt env.ser.rt dg .u32 1 (some .big) with
    | .error e => (.error e, st)
    | .ok pid => (.ok none, st.setCircuit a (c.collectAck pid.toNat))
  | .ok (some m) =>
    if c.trusted && !m.trusted then (.ok none, st)
    else
      let st := (st.setCircuit a (c.handlePacket m)).log (.parsed a m)
      if env.handlePackets then
        let st := st.log (.delivered m)
        match (env.handler st.trace m).run (sendWith env env.depth) st with
        | (.error e, st) => (.error e, st)
        | (.ok _, st) => (.ok (some m), st)
      else (.ok (some m), st)

theorem receive_rest (env : DEnv) (d : DState) (r : HostRef) (dg : Bytes) :
    receiveCheck env d r dg = if 0 < dg.length then
      recvRest env (d.hosts r).addr dg
        { (({ (findCircuit d r).1 with packetsIn := (findCircuit d r).1.packetsIn + 1 } : DState).log (.received (d.hosts r).addr dg)) with
            deser := (deserialize (env.deser (findCircuit d r).1.trace) (findCircuit d r).1.deser dg).2 }
        (findCircuit d r).2 (deserialize (env.deser (findCircuit d r).1.trace) (findCircuit d r).1.deser dg).1
      else (.ok none, d) := by
  unfold receiveCheck
  split
  · simp only
    cases (deserialize (env.deser (findCircuit d r).1.trace) (findCircuit d r).1.deser dg).1 with
    | error e => rfl
    | ok o => cases o <;> rfl
  · rfl

theorem recvRest_alike (env : DEnv) (a : Addr) (dg : Bytes) {d d' : DState} (h : AlikeDisp d d') {c c' : Circuit} (hc : AlikeCircuit c c')
    (x : Py (Option Message)) :
    (recvRest env a dg d c x).1 = (recvRest env a dg d' c' x).1 ∧ AlikeDisp (recvRest env a dg d c x).2 (recvRest env a dg d' c' x).2 := by
  cases x with
  | error _ => exact ⟨rfl, h⟩
  | ok o =>
    cases o with
    | none =>
      simp only [recvRest]
      cases unpackInt env.ser.rt dg .u32 1 (some .big) with
      | error _ => exact ⟨rfl, h⟩
      | ok pid => exact ⟨rfl, h.setCircuit _ (collect_alike hc _)⟩
    | some m =>
      simp only [recvRest]
      rw [← hc.trusted]
      by_cases htr : (c.trusted && !m.trusted) = true
      · rw [if_pos htr, if_pos htr]; exact ⟨rfl, h⟩
      rw [if_neg htr, if_neg htr]
      have h4 := (h.setCircuit a (handlePacket_alike hc m)).log (.parsed a m)
      generalize ((d.setCircuit a (c.handlePacket m)).log (.parsed a m)) = e at h4
      generalize ((d'.setCircuit a (c'.handlePacket m)).log (.parsed a m)) = e' at h4
      by_cases hp : env.handlePackets = true
      · rw [if_pos hp, if_pos hp]
        have h5 := h4.log (.delivered m)
        generalize e.log (.delivered m) = e at h5
        generalize e'.log (.delivered m) = e' at h5
        rw [← h5.trace]
        obtain ⟨h6, h7⟩ := run_alike (sendWith_alike env env.depth) (env.handler e.trace m) h5
        generalize Prog.run (sendWith env env.depth) (env.handler e.trace m) e = x at h6 h7
        generalize Prog.run (sendWith env env.depth) (env.handler e.trace m) e' = y at h6 h7
        obtain ⟨x1, x2⟩ := x
        obtain ⟨y1, y2⟩ := y
        simp only at h6 h7
        subst h6
        cases x1 with
        | error e => exact ⟨rfl, h7⟩
        | ok u => exact ⟨rfl, h7⟩
      · rw [if_neg hp, if_neg hp]; exact ⟨rfl, h4⟩

theorem receive_alike (env : DEnv) {d d' : DState} (h : AlikeDisp d d') (r : HostRef) (dg : Bytes) :
    (receiveCheck env d r dg).1 = (receiveCheck env d' r dg).1 ∧ AlikeDisp (receiveCheck env d r dg).2 (receiveCheck env d' r dg).2 := by
  rw [receive_rest, receive_rest]
  by_cases hl : 0 < dg.length
  · rw [if_pos hl, if_pos hl]
    obtain ⟨h1, h2⟩ := h.findCircuit r
    have e : deserialize (env.deser (findCircuit d' r).1.trace) (findCircuit d' r).1.deser dg =
        deserialize (env.deser (findCircuit d r).1.trace) (findCircuit d r).1.deser dg := by rw [h1.trace, h1.deser]
    rw [e, ← h.hosts]
    refine recvRest_alike env _ dg ?_ h2 _
    exact ⟨h1.hosts, h1.keys, h1.circuits, h1.unackedCircuits, congrArg (· + 1) h1.packetsIn, h1.packetsOut, rfl,
      congrArg (· ++ [Ev.received (d.hosts r).addr dg]) h1.trace⟩
  · rw [if_neg hl, if_neg hl]; exact ⟨rfl, h⟩

theorem resend_alike {d d' : DState} (h : AlikeDisp d d') : resendAll d = resendAll d' := by
  unfold resendAll
  rw [h.unackedCircuits]
  congr 2
  refine congrArg (fun f => List.any _ f) (funext fun a => ?_)
  rcases h.circuits a with ⟨h1, h2⟩ | ⟨c, c', h1, h2, h3⟩
  · rw [h1, h2]
  · rw [h1, h2]
    simp only
    have hk := h3.unacked
    congr 1
    cases h4 : c.unacked <;> cases h5 : c'.unacked <;> simp_all [Dict.keys]

theorem ackLoop_alike (env : DEnv) (r : HostRef) : ∀ (ids : List Nat) (n : Nat) (msg : Message) {d d' : DState}, AlikeDisp d d' →
    (ackLoop env r ids n msg d).1 = (ackLoop env r ids n msg d').1 ∧ AlikeDisp (ackLoop env r ids n msg d).2 (ackLoop env r ids n msg d').2
  | [], _, _, _, _, h => ⟨rfl, h⟩
  | id :: ids, n, msg, d, d', h => by
    unfold ackLoop
    simp only
    by_cases hn : 250 < n + 1
    · rw [if_pos hn, if_pos hn]
      obtain ⟨h1, h2⟩ := send_alike env h (addAckBlock (if n = 0 then Message.new "PacketAck" [] else msg) id) r .plain
      generalize send env d (addAckBlock (if n = 0 then Message.new "PacketAck" [] else msg) id) r .plain = x at h1 h2
      generalize send env d' (addAckBlock (if n = 0 then Message.new "PacketAck" [] else msg) id) r .plain = y at h1 h2
      obtain ⟨x1, x2⟩ := x
      obtain ⟨y1, y2⟩ := y
      simp only at h1 h2
      subst h1
      cases x1 with
      | error e => exact ⟨rfl, h2⟩
      | ok u => exact ackLoop_alike env r ids 0 _ h2
    · rw [if_neg hn, if_neg hn]
      exact ackLoop_alike env r ids (n + 1) _ h

theorem ackCircuit_alike (env : DEnv) {d d' : DState} (h : AlikeDisp d d') (a : Addr) :
    (ackCircuit env d a).1 = (ackCircuit env d' a).1 ∧ AlikeDisp (ackCircuit env d a).2 (ackCircuit env d' a).2 := by
  unfold ackCircuit
  rcases h.circuits a with ⟨h1, h2⟩ | ⟨c, c', h1, h2, h3⟩
  · rw [h1, h2]; exact ⟨rfl, h⟩
  · rw [h1, h2]
    simp only
    rw [← h3.host, ← h3.acks]
    obtain ⟨h4, h5⟩ := ackLoop_alike env c.host c.acks 0 (Message.new "PacketAck" []) h
    generalize ackLoop env c.host c.acks 0 (Message.new "PacketAck" []) d = x at h4 h5
    generalize ackLoop env c.host c.acks 0 (Message.new "PacketAck" []) d' = y at h4 h5
    obtain ⟨x1, x2⟩ := x
    obtain ⟨y1, y2⟩ := y
    simp only at h4 h5
    subst h4
    cases x1 with
    | error e => exact ⟨rfl, h5⟩
    | ok p =>
      obtain ⟨n, msg⟩ := p
      simp only
      have h6 : (if 0 < n then send env x2 msg c.host .plain else (.ok none, x2)).1 = (if 0 < n then send env y2 msg c.host .plain else (.ok none, y2)).1 ∧
          AlikeDisp (if 0 < n then send env x2 msg c.host .plain else (.ok none, x2)).2 (if 0 < n then send env y2 msg c.host .plain else (.ok none, y2)).2 := by
        split
        · exact send_alike env h5 msg c.host .plain
        · exact ⟨rfl, h5⟩
      generalize (if 0 < n then send env x2 msg c.host .plain else (.ok none, x2)) = x at h6
      generalize (if 0 < n then send env y2 msg c.host .plain else (.ok none, y2)) = y at h6
      obtain ⟨x1, x2⟩ := x
      obtain ⟨y1, y2⟩ := y
      obtain ⟨h6, h7⟩ := h6
      simp only at h6 h7
      subst h6
      cases x1 with
      | error e => exact ⟨rfl, h7⟩
      | ok u =>
        simp only
        rcases h7.circuits a with ⟨h8, h9⟩ | ⟨c1, c2, h8, h9, h10⟩
        · rw [h8, h9]; exact ⟨rfl, h7⟩
        · rw [h8, h9]
          exact ⟨rfl, h7.setCircuit a ⟨h10.host, h10.alive, h10.trusted, h10.lastOut, h10.lastIn, rfl, h10.unacked, h10.unackCount, h10.finalRetry,
            h10.finalCount⟩⟩

theorem processAcks_alike (env : DEnv) {d d' : DState} (h : AlikeDisp d d') (order : List Addr) :
    (processAcks env d order).1 = (processAcks env d' order).1 ∧ AlikeDisp (processAcks env d order).2 (processAcks env d' order).2 := by
  have key : ∀ (l : List Addr) {d d' : DState}, AlikeDisp d d' →
      (sendAcks env l d).1 = (sendAcks env l d').1 ∧ AlikeDisp (sendAcks env l d).2 (sendAcks env l d').2 := by
    intro l
    induction l with
    | nil => intro d d' h; exact ⟨rfl, h⟩
    | cons a l ih =>
      intro d d' h
      unfold sendAcks
      obtain ⟨h1, h2⟩ := ackCircuit_alike env h a
      generalize ackCircuit env d a = x at h1 h2
      generalize ackCircuit env d' a = y at h1 h2
      obtain ⟨x1, x2⟩ := x
      obtain ⟨y1, y2⟩ := y
      simp only at h1 h2
      subst h1
      cases x1 with
      | error e => exact ⟨rfl, h2⟩
      | ok u => exact ih h2
  unfold processAcks
  rw [resend_alike h]
  cases resendAll d' with
  | error e => exact ⟨rfl, h⟩
  | ok u => exact key order h

theorem step_alike (env : DEnv) {d d' : DState} (h : AlikeDisp d d') (op : Op) : AlikeDisp (step env d op) (step env d' op) := by
  cases op with
  | send m r mode => exact (send_alike env h m r mode).2
  | recv r dg => exact (receive_alike env h r dg).2
  | processAcks order => exact (processAcks_alike env h order).2
  | setHost r v => exact setHost_alike h r v
  | removeCircuit r =>
    have hk : ∀ (x : DState) (a : Addr), removeCircuitData x.circuits (x.hosts r) = x.circuits.del (x.hosts r).addr := by
      intro x a
      unfold removeCircuitData
      split
      · rfl
      · rename_i hh
        refine (List.filter_eq_self.mpr fun p hp => ?_).symm
        have : x.circuits.get? (x.hosts r).addr = none := by simpa [Dict.has] using hh
        have := (Dict.get?_eq_none_iff _ _).mp this
        have hne : p.1 ≠ (x.hosts r).addr := fun e => this (e ▸ List.mem_map.mpr ⟨p, hp, rfl⟩)
        simpa using hne
    have : AlikeDisp { d with circuits := removeCircuitData d.circuits (d.hosts r) } { d' with circuits := removeCircuitData d'.circuits (d'.hosts r) } := by
      rw [hk d (d.hosts r).addr, hk d' (d.hosts r).addr, ← h.hosts]
      refine ⟨rfl, ?_, fun x => ?_, h.unackedCircuits, h.packetsIn, h.packetsOut, h.deser, h.trace⟩
      · have hkd : ∀ x : Dict Addr Circuit, (x.del (d.hosts r).addr).keys = x.keys.filter (· ≠ (d.hosts r).addr) := by
          intro x; simp only [Dict.keys, Dict.del, List.filter_map]; rfl
        rw [hkd, hkd, h.keys]
      · simp only [Dict.get?_del]
        by_cases hx : x = (d.hosts r).addr
        · rw [if_pos hx, if_pos hx]; exact .inl ⟨rfl, rfl⟩
        · rw [if_neg hx, if_neg hx]; exact h.circuits x
    have := this.log (.removed (d.hosts r).addr)
    simp only [step]
    rw [← h.hosts] at this ⊢
    exact this
  | setTrusted a b =>
    simp only [step]
    rcases h.circuits a with ⟨h1, h2⟩ | ⟨c, c', h1, h2, h3⟩
    · rw [h1, h2]; exact h
    · rw [h1, h2]
      exact h.setCircuit a ⟨h3.host, h3.alive, rfl, h3.lastOut, h3.lastIn, h3.acks, h3.unacked, h3.unackCount, h3.finalRetry, h3.finalCount⟩

/-- The objects kept for acknowledgement make no difference. -/
theorem now_alike (st : OState) : AlikeDisp st.now st.disp := by
  have hget : ∀ (l : Dict Addr Circuit) (f : Addr → Circuit → Circuit) (a : Addr),
      Dict.get? (l.map fun p => (p.1, f p.1 p.2)) a = (Dict.get? l a).map (f a) := by
    intro l f a
    induction l with
    | nil => rfl
    | cons p l ih =>
      obtain ⟨k, c⟩ := p
      by_cases hk : k = a
      · subst hk; simp [Dict.get?]
      · have e1 : Dict.get? ((k, c) :: l) a = Dict.get? l a := by simp [Dict.get?, hk]
        have e2 : Dict.get? (((k, c) :: l).map fun p => (p.1, f p.1 p.2)) a = Dict.get? (l.map fun p => (p.1, f p.1 p.2)) a := by
          simp [Dict.get?, hk]
        rw [e1, e2, ih]
  refine ⟨rfl, ?_, fun a => ?_, rfl, rfl, rfl, rfl, rfl⟩
  · simp [OState.now, Dict.keys, Function.comp_def]
  · have := hget st.disp.circuits (fun k c => { c with unacked := c.unacked.map (fun q => (q.1, st.object k q.1 q.2)) }) a
    have e : st.now.circuits.get? a = (st.disp.circuits.get? a).map
      (fun c => { c with unacked := c.unacked.map (fun q => (q.1, st.object a q.1 q.2)) }) := this
    rw [e]
    cases st.disp.circuits.get? a with
    | none => exact .inl ⟨rfl, rfl⟩
    | some c =>
      refine .inr ⟨_, c, rfl, rfl, rfl, rfl, rfl, rfl, rfl, rfl, ?_, rfl, rfl, rfl⟩
      simp [Dict.keys, Function.comp_def]

end Pyogp
