import Verif.Spec.Isolation
import Verif.Proofs.Send
import Verif.Proofs.DispatcherInv
import Verif.Props.Circuit

namespace Pyogp
open Spec

theorem view_append (a : Addr) (tr tr' : List Ev) : view a (tr ++ tr') = view a tr ++ view a tr' := List.filter_append _ _

theorem lastReceived_append : ∀ (tr tr' : List Ev), lastReceived (tr ++ tr') = (lastReceived tr').or (lastReceived tr)
  | [], tr' => by simp [lastReceived]
  | e :: tr, tr' => by
    have ih := lastReceived_append tr tr'
    show (match lastReceived (tr ++ tr'), e with
      | some b, _ => some b
      | none, .received b _ => some b
      | none, _ => none) = _
    rw [ih]
    cases lastReceived tr' with
    | some b => rfl
    | none => rfl

/-- Two dispatchers with the same hosts which look the same to the peer `a`. -/
structure Same (H : HostRef → Host) (a : Addr) (s t : DState) : Prop where
  left : s.hosts = H
  right : t.hosts = H
  circ : s.circuits.get? a = t.circuits.get? a
  seen : view a s.trace = view a t.trace

variable {env : DEnv} {H : HostRef → Host} {a : Addr}

theorem find_same {s t : DState} (h : Same H a s t) {r : HostRef} (hr : (H r).addr = a) : (findCircuit s r).2 = (findCircuit t r).2 := by
  rw [(findCircuit_fields s r).2.2.2.2.2.2.2, (findCircuit_fields t r).2.2.2.2.2.2.2, h.left, h.right, hr, h.circ]

theorem transmit_same (hs : Separate env H) {s t : DState} (h : Same H a s t) (m : Message) {r : HostRef} (hr : (H r).addr = a) (mode : SendMode) :
    (transmit env s m r mode).1 = (transmit env t m r mode).1 ∧ Same H a (transmit env s m r mode).2 (transmit env t m r mode).2 := by
  have hc : (transmit env s m r mode).2.circuits.get? a = (transmit env t m r mode).2.circuits.get? a := by
    rw [transmit_get?, transmit_get?, h.left, h.right, if_pos hr, if_pos hr, h.circ]
  have h1 := (transmit_circ env s m r mode).2.1
  have h2 := (transmit_circ env t m r mode).2.1
  suffices hx : (transmit env s m r mode).1 = (transmit env t m r mode).1 ∧
      view a (transmit env s m r mode).2.trace = view a (transmit env t m r mode).2.trace from
    ⟨hx.1, h1.trans h.left, h2.trans h.right, hc, hx.2⟩
  obtain ⟨_, ps, _⟩ := preparedState_fields s m r mode
  obtain ⟨_, pt, _⟩ := preparedState_fields t m r mode
  have hv : view a (preparedState s m r mode).trace = view a (preparedState t m r mode).trace := by
    rw [ps, pt, view_append, view_append, h.seen, find_same h hr, h.left, h.right]
  rw [transmit_eq, transmit_eq, find_same h hr, h.left, h.right]
  generalize (mode.prepare (findCircuit t r).2 m).2 = m'
  unfold handToSocket
  cases serialize env.ser m' with
  | error e => exact ⟨rfl, hv⟩
  | ok o =>
    cases o with
    | none => exact ⟨rfl, hv⟩
    | some dg =>
      simp only [hr]
      rw [hs.socket a _ _ dg hv]
      split
      · refine ⟨rfl, ?_⟩
        simp only [DState.log]
        rw [view_append, view_append, hv]
      · exact ⟨rfl, hv⟩

theorem transmit_other {s t : DState} (h : Same H a s t) (m : Message) {r : HostRef} (hr : (H r).addr ≠ a) (mode : SendMode) :
    Same H a (transmit env s m r mode).2 t := by
  refine ⟨(transmit_circ env s m r mode).2.1.trans h.left, h.right, ?_, ?_⟩
  · rw [transmit_get?, h.left, if_neg hr, h.circ]
  · have ps := (preparedState_fields s m r mode).2.1
    have hv : view a (preparedState s m r mode).trace = view a t.trace := by
      rw [ps, view_append, h.seen, h.left]
      simp [view, evAbout, hr]
    rw [transmit_eq]
    rcases handToSocket_cases env (preparedState s m r mode) (s.hosts r).addr (mode.prepare (findCircuit s r).2 m).2 with h' | ⟨dg, _, _, h'⟩
    · rw [h']; exact hv
    · rw [h']
      simp only [DState.log]
      rw [view_append, hv, h.left]
      simp [view, evAbout, hr]

theorem sendWith_same (hs : Separate env H) {s t : DState} (h : Same H a s t) (n : Nat) (m : Message) {r : HostRef} (hr : (H r).addr = a)
    (mode : SendMode) : (sendWith env n s m r mode).1 = (sendWith env n t m r mode).1 ∧
      Same H a (sendWith env n s m r mode).2 (sendWith env n t m r mode).2 := by
  cases n with
  | zero => exact ⟨rfl, h⟩
  | succ n =>
    unfold sendWith
    simp only [hs.outgoing, h.left, h.right, Bool.false_eq_true, if_false]
    split
    · exact ⟨rfl, h⟩
    · exact transmit_same hs h m hr mode

theorem sendWith_other (hs : Separate env H) {s t : DState} (h : Same H a s t) (n : Nat) (m : Message) {r : HostRef} (hr : (H r).addr ≠ a)
    (mode : SendMode) : Same H a (sendWith env n s m r mode).2 t := by
  cases n with
  | zero => exact h
  | succ n =>
    unfold sendWith
    simp only [hs.outgoing, Bool.false_eq_true, if_false]
    split
    · exact h
    · exact transmit_other h m hr mode

theorem run_same (hs : Separate env H) (n : Nat) {p : Prog} (hp : AnswersOnly H a p) : ∀ {s t : DState}, Same H a s t →
    (p.run (sendWith env n) s).1 = (p.run (sendWith env n) t).1 ∧ Same H a (p.run (sendWith env n) s).2 (p.run (sendWith env n) t).2 := by
  induction hp with
  | done => exact fun h => ⟨rfl, h⟩
  | raise e => exact fun h => ⟨rfl, h⟩
  | send m r mode k hr _ ih =>
    intro s t h
    obtain ⟨h1, h2⟩ := sendWith_same hs h n m hr mode
    rw [Prog.run, Prog.run, h1]
    exact ih _ h2

theorem run_other (hs : Separate env H) (n : Nat) {b : Addr} (hb : b ≠ a) {p : Prog} (hp : AnswersOnly H b p) : ∀ {s t : DState}, Same H a s t →
    Same H a (p.run (sendWith env n) s).2 t := by
  induction hp with
  | done => exact fun h => h
  | raise e => exact fun h => h
  | send m r mode k hr _ ih =>
    intro s t h
    rw [Prog.run]
    exact ih _ (sendWith_other hs h n m (by rw [hr]; exact hb) mode)

/-- The state after a datagram was read, before anything is done with it. -/
theorem received_same {s t : DState} (h : Same H a s t) {r : HostRef} (hr : (H r).addr = a) (dg : Bytes) (i j : Nat) (d e : DeserState) :
    Same H a { ({ (findCircuit s r).1 with packetsIn := i } : DState).log (.received a dg) with deser := d }
      { ({ (findCircuit t r).1 with packetsIn := j } : DState).log (.received a dg) with deser := e } := by
  obtain ⟨hh, ht, _, _, _, _, hg, hc⟩ := findCircuit_fields s r
  obtain ⟨hh', ht', _, _, _, _, hg', hc'⟩ := findCircuit_fields t r
  refine ⟨by simp only [DState.log]; rw [hh, h.left], by simp only [DState.log]; rw [hh', h.right], ?_, ?_⟩
  · simp only [DState.log]
    have e1 := findCircuit_get? s r
    have e2 := findCircuit_get? t r
    rw [h.left, hr] at e1
    rw [h.right, hr] at e2
    rw [e1, e2, find_same h hr]
  · simp only [DState.log]
    rw [view_append, view_append, ht, ht', h.seen]

theorem received_other {s t : DState} (h : Same H a s t) {r : HostRef} {b : Addr} (hr : (H r).addr = b) (hb : b ≠ a) (dg : Bytes) (i : Nat) (d : DeserState) :
    Same H a { ({ (findCircuit s r).1 with packetsIn := i } : DState).log (.received b dg) with deser := d } t := by
  obtain ⟨hh, ht, _, _, _, _, hg, hc⟩ := findCircuit_fields s r
  refine ⟨by simp only [DState.log]; rw [hh, h.left], h.right, ?_, ?_⟩
  · simp only [DState.log]
    rw [hg, if_neg, h.circ]
    rw [h.left, hr]; exact fun x => hb x.1
  · simp only [DState.log]
    rw [view_append, ht, h.seen]
    simp [view, evAbout, hb]

theorem Same.setCircuit {s t : DState} (h : Same H a s t) (c : Circuit) : Same H a (s.setCircuit a c) (t.setCircuit a c) :=
  ⟨h.left, h.right, by simp only [DState.setCircuit, Dict.get?_set_self], h.seen⟩

theorem Same.setOther {s t : DState} (h : Same H a s t) {b : Addr} (hb : b ≠ a) (c : Circuit) : Same H a (s.setCircuit b c) t :=
  ⟨h.left, h.right, by simp only [DState.setCircuit]; rw [Dict.get?_set_ne _ _ hb, h.circ], h.seen⟩

theorem Same.log {s t : DState} (h : Same H a s t) (e : Ev) : Same H a (s.log e) (t.log e) :=
  ⟨h.left, h.right, h.circ, by simp only [DState.log]; rw [view_append, view_append, h.seen]⟩

theorem Same.logOther {s t : DState} (h : Same H a s t) (e : Ev) (he : evAbout a e = false) : Same H a (s.log e) t :=
  ⟨h.left, h.right, h.circ, by simp only [DState.log]; rw [view_append, h.seen]; simp [view, he]⟩

theorem recv_same (hs : Separate env H) {s t : DState} (h : Same H a s t) {r : HostRef} (hr : (H r).addr = a) (dg : Bytes) :
    (receiveCheck env s r dg).1 = (receiveCheck env t r dg).1 ∧ Same H a (receiveCheck env s r dg).2 (receiveCheck env t r dg).2 := by
  unfold receiveCheck
  split
  · simp only [h.left, h.right, hr]
    have hd := hs.handled (findCircuit s r).1.trace (findCircuit t r).1.trace
    have hm := deserialize_memoryless (env.deser (findCircuit t r).1.trace) (findCircuit s r).1.deser (findCircuit t r).1.deser dg
    rw [hd, hm, find_same h hr]
    have h1 := received_same h hr dg ((findCircuit s r).1.packetsIn + 1) ((findCircuit t r).1.packetsIn + 1)
      (deserialize (env.deser (findCircuit t r).1.trace) (findCircuit s r).1.deser dg).2
      (deserialize (env.deser (findCircuit t r).1.trace) (findCircuit t r).1.deser dg).2
    have l1 : lastReceived ({ ({ (findCircuit s r).1 with packetsIn := (findCircuit s r).1.packetsIn + 1 } : DState).log (.received a dg) with
        deser := (deserialize (env.deser (findCircuit t r).1.trace) (findCircuit s r).1.deser dg).2 } : DState).trace = some a := by
      simp only [DState.log]; rw [lastReceived_append]; rfl
    have l2 : lastReceived ({ ({ (findCircuit t r).1 with packetsIn := (findCircuit t r).1.packetsIn + 1 } : DState).log (.received a dg) with
        deser := (deserialize (env.deser (findCircuit t r).1.trace) (findCircuit t r).1.deser dg).2 } : DState).trace = some a := by
      simp only [DState.log]; rw [lastReceived_append]; rfl
    revert h1 l1 l2
    generalize ({ ({ (findCircuit s r).1 with packetsIn := (findCircuit s r).1.packetsIn + 1 } : DState).log (.received a dg) with
        deser := (deserialize (env.deser (findCircuit t r).1.trace) (findCircuit s r).1.deser dg).2 } : DState) = s1
    generalize ({ ({ (findCircuit t r).1 with packetsIn := (findCircuit t r).1.packetsIn + 1 } : DState).log (.received a dg) with
        deser := (deserialize (env.deser (findCircuit t r).1.trace) (findCircuit t r).1.deser dg).2 } : DState) = t1
    generalize (findCircuit t r).2 = c
    intro h1 l1 l2
    cases (deserialize (env.deser (findCircuit t r).1.trace) (findCircuit t r).1.deser dg).1 with
    | error e => exact ⟨rfl, h1⟩
    | ok o =>
      cases o with
      | none =>
        simp only
        cases unpackInt env.ser.rt dg .u32 1 (some .big) with
        | error e => exact ⟨rfl, h1⟩
        | ok pid => exact ⟨rfl, h1.setCircuit _⟩
      | some m =>
        simp only
        split
        · exact ⟨rfl, h1⟩
        · split
          · have h2 := ((h1.setCircuit (c.handlePacket m)).log (.parsed a m)).log (.delivered m)
            have l1' : lastReceived (((s1.setCircuit a (c.handlePacket m)).log (.parsed a m)).log (.delivered m)).trace = some a := by
              simp only [DState.log, DState.setCircuit]; rw [lastReceived_append, lastReceived_append, l1]; rfl
            have l2' : lastReceived (((t1.setCircuit a (c.handlePacket m)).log (.parsed a m)).log (.delivered m)).trace = some a := by
              simp only [DState.log, DState.setCircuit]; rw [lastReceived_append, lastReceived_append, l2]; rfl
            rw [hs.subscribers a _ _ m l1' l2' h2.seen]
            obtain ⟨e1, e2⟩ := run_same hs env.depth (hs.answers a _ m l2') h2
            revert e1 e2
            generalize Prog.run _ _ ((((s1.setCircuit a _).log _)).log _) = x
            generalize Prog.run _ _ ((((t1.setCircuit a _).log _)).log _) = y
            obtain ⟨x1, x2⟩ := x
            obtain ⟨y1, y2⟩ := y
            rintro rfl e2
            cases x1 with
            | error e => exact ⟨rfl, e2⟩
            | ok u => exact ⟨rfl, e2⟩
          · exact ⟨rfl, (h1.setCircuit _).log _⟩
  · exact ⟨rfl, h⟩

theorem recv_other (hs : Separate env H) {s t : DState} (h : Same H a s t) {r : HostRef} (hr : (H r).addr ≠ a) (dg : Bytes) :
    Same H a (receiveCheck env s r dg).2 t := by
  unfold receiveCheck
  split
  · simp only [h.left]
    generalize hb : (H r).addr = b
    rw [hb] at hr
    have h1 := received_other h hb hr dg ((findCircuit s r).1.packetsIn + 1)
      (deserialize (env.deser (findCircuit s r).1.trace) (findCircuit s r).1.deser dg).2
    have l1 : lastReceived ({ ({ (findCircuit s r).1 with packetsIn := (findCircuit s r).1.packetsIn + 1 } : DState).log (.received b dg) with
        deser := (deserialize (env.deser (findCircuit s r).1.trace) (findCircuit s r).1.deser dg).2 } : DState).trace = some b := by
      simp only [DState.log]; rw [lastReceived_append]; rfl
    revert h1 l1
    generalize ({ ({ (findCircuit s r).1 with packetsIn := (findCircuit s r).1.packetsIn + 1 } : DState).log (.received b dg) with
        deser := (deserialize (env.deser (findCircuit s r).1.trace) (findCircuit s r).1.deser dg).2 } : DState) = s1
    generalize (findCircuit s r).2 = c
    intro h1 l1
    cases (deserialize (env.deser (findCircuit s r).1.trace) (findCircuit s r).1.deser dg).1 with
    | error e => exact h1
    | ok o =>
      cases o with
      | none =>
        simp only
        cases unpackInt env.ser.rt dg .u32 1 (some .big) with
        | error e => exact h1
        | ok pid => exact h1.setOther hr _
      | some m =>
        simp only
        split
        · exact h1
        · split
          · have h2 := ((h1.setOther hr (c.handlePacket m)).logOther (.parsed b m) (by simp [evAbout, hr])).logOther (.delivered m) rfl
            have l1' : lastReceived (((s1.setCircuit b (c.handlePacket m)).log (.parsed b m)).log (.delivered m)).trace = some b := by
              simp only [DState.log, DState.setCircuit]; rw [lastReceived_append, lastReceived_append, l1]; rfl
            have e2 := run_other hs env.depth hr (hs.answers b _ m l1') h2
            revert e2
            generalize Prog.run _ _ ((((s1.setCircuit b _).log _)).log _) = x
            obtain ⟨x1, x2⟩ := x
            intro e2
            cases x1 with
            | error e => exact e2
            | ok u => exact e2
          · exact (h1.setOther hr _).logOther _ (by simp [evAbout, hr])
  · exact h

theorem ackLoop_same (hs : Separate env H) {r : HostRef} (hr : (H r).addr = a) : ∀ (ids : List Nat) (n : Nat) (msg : Message) {s t : DState}, Same H a s t →
    (ackLoop env r ids n msg s).1 = (ackLoop env r ids n msg t).1 ∧ Same H a (ackLoop env r ids n msg s).2 (ackLoop env r ids n msg t).2
  | [], _, _, _, _, h => ⟨rfl, h⟩
  | id :: ids, n, msg, s, t, h => by
    unfold ackLoop
    simp only
    by_cases hn : 250 < n + 1
    · rw [if_pos hn, if_pos hn]
      have := sendWith_same hs h env.depth (addAckBlock (if n = 0 then Message.new "PacketAck" [] else msg) id) hr .plain
      unfold send
      revert this
      generalize sendWith env env.depth s _ r .plain = x
      generalize sendWith env env.depth t _ r .plain = y
      obtain ⟨x1, x2⟩ := x
      obtain ⟨y1, y2⟩ := y
      rintro ⟨rfl, e2⟩
      cases x1 with
      | error e => exact ⟨rfl, e2⟩
      | ok u => exact ackLoop_same hs hr ids 0 _ e2
    · rw [if_neg hn, if_neg hn]
      exact ackLoop_same hs hr ids (n + 1) _ h

theorem ackLoop_other (hs : Separate env H) {r : HostRef} (hr : (H r).addr ≠ a) : ∀ (ids : List Nat) (n : Nat) (msg : Message) {s t : DState}, Same H a s t →
    Same H a (ackLoop env r ids n msg s).2 t
  | [], _, _, _, _, h => h
  | id :: ids, n, msg, s, t, h => by
    unfold ackLoop
    simp only
    by_cases hn : 250 < n + 1
    · rw [if_pos hn]
      have := sendWith_other hs h env.depth (addAckBlock (if n = 0 then Message.new "PacketAck" [] else msg) id) hr .plain
      unfold send
      revert this
      generalize sendWith env env.depth s _ r .plain = x
      obtain ⟨x1, x2⟩ := x
      intro e2
      cases x1 with
      | error e => exact e2
      | ok u => exact ackLoop_other hs hr ids 0 _ e2
    · rw [if_neg hn]
      exact ackLoop_other hs hr ids (n + 1) _ h

/-- The circuits are registered under the addresses of their host objects. -/
def Home (H : HostRef → Host) (s : DState) : Prop :=
  (∀ r, (s.hosts r).addr = (H r).addr) ∧ ∀ b c, s.circuits.get? b = some c → (H c.host).addr = b

theorem ackCircuit_same (hs : Separate env H) {s t : DState} (h : Same H a s t) (hh : Home H s) :
    Same H a (ackCircuit env s a).2 (ackCircuit env t a).2 := by
  unfold ackCircuit
  rw [← h.circ]
  cases hc : s.circuits.get? a with
  | none => exact h
  | some c =>
    simp only
    have hr := hh.2 a c hc
    have := ackLoop_same hs hr c.acks 0 (Message.new "PacketAck" []) h
    revert this
    generalize ackLoop env c.host c.acks 0 (Message.new "PacketAck" []) s = x
    generalize ackLoop env c.host c.acks 0 (Message.new "PacketAck" []) t = y
    obtain ⟨x1, x2⟩ := x
    obtain ⟨y1, y2⟩ := y
    rintro ⟨rfl, e2⟩
    simp only at e2
    cases x1 with
    | error e => exact e2
    | ok u =>
      obtain ⟨n, msg⟩ := u
      simp only
      have : ∀ x y : Py (Option Bytes) × DState, x = (if 0 < n then send env x2 msg c.host .plain else (.ok none, x2)) →
          y = (if 0 < n then send env y2 msg c.host .plain else (.ok none, y2)) → x.1 = y.1 ∧ Same H a x.2 y.2 := by
        rintro x y rfl rfl
        split
        · exact sendWith_same hs e2 env.depth msg hr .plain
        · exact ⟨rfl, e2⟩
      have := this _ _ rfl rfl
      revert this
      generalize (if 0 < n then send env x2 msg c.host .plain else (.ok none, x2)) = x
      generalize (if 0 < n then send env y2 msg c.host .plain else (.ok none, y2)) = y
      obtain ⟨x1, x2⟩ := x
      obtain ⟨y1, y2⟩ := y
      rintro ⟨rfl, e2⟩
      simp only at e2
      cases x1 with
      | error e => exact e2
      | ok u =>
        simp only
        rw [← e2.circ]
        cases x2.circuits.get? a with
        | none => exact e2
        | some c => exact e2.setCircuit _

theorem ackCircuit_other (hs : Separate env H) {s t : DState} (h : Same H a s t) (hh : Home H s) {b : Addr} (hb : b ≠ a) :
    Same H a (ackCircuit env s b).2 t := by
  unfold ackCircuit
  cases hc : s.circuits.get? b with
  | none => exact h
  | some c =>
    simp only
    have hr : (H c.host).addr ≠ a := by rw [hh.2 b c hc]; exact hb
    have := ackLoop_other hs hr c.acks 0 (Message.new "PacketAck" []) h
    revert this
    generalize ackLoop env c.host c.acks 0 (Message.new "PacketAck" []) s = x
    obtain ⟨x1, x2⟩ := x
    intro e2
    simp only at e2
    cases x1 with
    | error e => exact e2
    | ok u =>
      obtain ⟨n, msg⟩ := u
      simp only
      have : ∀ x : Py (Option Bytes) × DState, x = (if 0 < n then send env x2 msg c.host .plain else (.ok none, x2)) → Same H a x.2 t := by
        rintro x rfl
        split
        · exact sendWith_other hs e2 env.depth msg hr .plain
        · exact e2
      have := this _ rfl
      revert this
      generalize (if 0 < n then send env x2 msg c.host .plain else (.ok none, x2)) = x
      obtain ⟨x1, x2⟩ := x
      intro e2
      simp only at e2
      cases x1 with
      | error e => exact e2
      | ok u =>
        simp only
        cases x2.circuits.get? b with
        | none => exact e2
        | some c => exact e2.setOther hb _

/-- Subscribers that only answer change no host. -/
theorem answers_mutates {b : Addr} {p : Prog} (hp : AnswersOnly H b p) (ok : HostRef → Host → Prop) : p.Mutates ok := by
  induction hp with
  | done => exact trivial
  | raise e => exact trivial
  | send m r mode k _ _ ih => exact ih

theorem ackLoop_home (hs : Separate env H) (r : HostRef) : ∀ (ids : List Nat) (n : Nat) (msg : Message) {s : DState}, Home H s →
    Home H (ackLoop env r ids n msg s).2
  | [], _, _, _, h => h
  | id :: ids, n, msg, s, h => by
    have hsend : ∀ (s : DState) (m : Message), Home H s → Home H (send env s m r .plain).2 := by
      intro s m h
      unfold send
      cases env.depth with
      | zero => exact h
      | succ n =>
        unfold sendWith
        simp only [hs.outgoing, Bool.false_eq_true, if_false]
        split
        · exact h
        · exact (aligned_closed env H).transmit s m r .plain h
    unfold ackLoop
    simp only
    by_cases hn : 250 < n + 1
    · rw [if_pos hn]
      have := hsend s (addAckBlock (if n = 0 then Message.new "PacketAck" [] else msg) id) h
      revert this
      generalize send env s _ r .plain = x
      obtain ⟨x1, x2⟩ := x
      intro e2
      cases x1 with
      | error e => exact e2
      | ok u => exact ackLoop_home hs r ids 0 _ e2
    · rw [if_neg hn]
      exact ackLoop_home hs r ids (n + 1) _ h

theorem ackCircuit_home (hs : Separate env H) {s : DState} (h : Home H s) (b : Addr) : Home H (ackCircuit env s b).2 := by
  have hsend : ∀ (s : DState) (m : Message) (r : HostRef), Home H s → Home H (send env s m r .plain).2 := by
    intro s m r h
    unfold send
    cases env.depth with
    | zero => exact h
    | succ n =>
      unfold sendWith
      simp only [hs.outgoing, Bool.false_eq_true, if_false]
      split
      · exact h
      · exact (aligned_closed env H).transmit s m r .plain h
  unfold ackCircuit
  cases hc : s.circuits.get? b with
  | none => exact h
  | some c =>
    simp only
    have := ackLoop_home hs c.host c.acks 0 (Message.new "PacketAck" []) h
    revert this
    generalize ackLoop env c.host c.acks 0 (Message.new "PacketAck" []) s = x
    obtain ⟨x1, x2⟩ := x
    intro e2
    cases x1 with
    | error e => exact e2
    | ok u =>
      obtain ⟨n, msg⟩ := u
      simp only at e2 ⊢
      have : ∀ x : Py (Option Bytes) × DState, x = (if 0 < n then send env x2 msg c.host .plain else (.ok none, x2)) → Home H x.2 := by
        rintro x rfl
        split
        · exact hsend _ _ _ e2
        · exact e2
      have := this _ rfl
      revert this
      generalize (if 0 < n then send env x2 msg c.host .plain else (.ok none, x2)) = x
      obtain ⟨x1, x2⟩ := x
      intro e2
      cases x1 with
      | error e => exact e2
      | ok u =>
        simp only at e2 ⊢
        cases hx : x2.circuits.get? b with
        | none => exact e2
        | some c => exact (aligned_closed env H).cleared x2 b c e2 hx

theorem sendAcks_same (hs : Separate env H) : ∀ (order : List Addr) {s t : DState}, Same H a s t → Home H s →
    Same H a (sendAcks env order s).2 (sendAcks env (order.filter (· = a)) t).2
  | [], _, _, h, _ => h
  | b :: order, s, t, h, hh => by
    obtain ⟨s', e1, _⟩ := ackCircuit_noerr hs.outgoing hs.depth s b
    have hh' := ackCircuit_home hs hh b
    rw [e1] at hh'
    rw [sendAcks, e1]
    simp only
    by_cases hb : b = a
    · rw [List.filter_cons_of_pos (by simpa using hb)]
      have h' := ackCircuit_same hs h hh
      rw [← hb] at h'
      obtain ⟨t', e2, _⟩ := ackCircuit_noerr hs.outgoing hs.depth t b
      rw [sendAcks, e2]
      rw [e1, e2, hb] at h'
      exact sendAcks_same hs order h' hh'
    · rw [List.filter_cons_of_neg (by simpa using hb)]
      have h' := ackCircuit_other hs h hh hb
      rw [e1] at h'
      exact sendAcks_same hs order h' hh'

theorem send_home (hs : Separate env H) {s : DState} (h : Home H s) (n : Nat) (m : Message) (r : HostRef) (mode : SendMode) :
    Home H (sendWith env n s m r mode).2 := by
  cases n with
  | zero => exact h
  | succ n =>
    unfold sendWith
    simp only [hs.outgoing, Bool.false_eq_true, if_false]
    split
    · exact h
    · exact (aligned_closed env H).transmit s m r mode h

theorem run_home (hs : Separate env H) (n : Nat) {b : Addr} {p : Prog} (hp : AnswersOnly H b p) : ∀ {s : DState}, Home H s →
    Home H (p.run (sendWith env n) s).2 := by
  induction hp with
  | done => exact fun h => h
  | raise e => exact fun h => h
  | send m r mode k hr _ ih => exact fun h => ih _ (send_home hs h n m r mode)

theorem recv_home (hs : Separate env H) {s : DState} (h : Home H s) (r : HostRef) (dg : Bytes) : Home H (receiveCheck env s r dg).2 := by
  unfold receiveCheck
  split
  · simp only
    have hg := findCircuit_get? s r
    have h1 := (aligned_closed env H).received s r dg h
    generalize (s.hosts r).addr = b at *
    have l1 : lastReceived ({ ({ (findCircuit s r).1 with packetsIn := (findCircuit s r).1.packetsIn + 1 } : DState).log (.received b dg) with
        deser := (deserialize (env.deser (findCircuit s r).1.trace) (findCircuit s r).1.deser dg).2 } : DState).trace = some b := by
      simp only [DState.log]; rw [lastReceived_append]; rfl
    have hg1 : ({ ({ (findCircuit s r).1 with packetsIn := (findCircuit s r).1.packetsIn + 1 } : DState).log (.received b dg) with
        deser := (deserialize (env.deser (findCircuit s r).1.trace) (findCircuit s r).1.deser dg).2 } : DState).circuits.get? b =
          some (findCircuit s r).2 := hg
    change Home H _ at h1
    revert hg1 l1 h1
    generalize ({ ({ (findCircuit s r).1 with packetsIn := (findCircuit s r).1.packetsIn + 1 } : DState).log (.received b dg) with
        deser := (deserialize (env.deser (findCircuit s r).1.trace) (findCircuit s r).1.deser dg).2 } : DState) = s1
    generalize (findCircuit s r).2 = c
    intro l1 hg1 h1
    have hset : ∀ c', c'.host = c.host → Home H (s1.setCircuit b c') := by
      intro c' hc'
      refine ⟨h1.1, ?_⟩
      intro b' d hd
      simp only [DState.setCircuit, Dict.get?_set] at hd
      split at hd
      · rename_i e; subst e; cases hd; rw [hc']; exact h1.2 _ _ hg1
      · exact h1.2 _ _ hd
    cases (deserialize (env.deser (findCircuit s r).1.trace) (findCircuit s r).1.deser dg).1 with
    | error e => exact h1
    | ok o =>
      cases o with
      | none =>
        simp only
        cases unpackInt env.ser.rt dg .u32 1 (some .big) with
        | error e => exact h1
        | ok pid => exact hset _ rfl
      | some m =>
        simp only
        split
        · exact h1
        · split
          · have h2 : Home H (((s1.setCircuit b (c.handlePacket m)).log (.parsed b m)).log (.delivered m)) :=
              hset _ (handlePacket_fields c m).1
            have l1' : lastReceived (((s1.setCircuit b (c.handlePacket m)).log (.parsed b m)).log (.delivered m)).trace = some b := by
              simp only [DState.log, DState.setCircuit]; rw [lastReceived_append, lastReceived_append, l1]; rfl
            have e2 := run_home hs env.depth (hs.answers b _ m l1') h2
            revert e2
            generalize Prog.run _ _ ((((s1.setCircuit b _).log _)).log _) = x
            obtain ⟨x1, x2⟩ := x
            intro e2
            cases x1 with
            | error e => exact e2
            | ok u => exact e2
          · exact hset _ (handlePacket_fields c m).1
  · exact h

theorem sendAcks_home (hs : Separate env H) : ∀ (order : List Addr) {s : DState}, Home H s → Home H (sendAcks env order s).2
  | [], _, h => h
  | b :: order, s, h => by
    have := ackCircuit_home hs h b
    rw [sendAcks]
    revert this
    generalize ackCircuit env s b = x
    obtain ⟨x1, x2⟩ := x
    intro e2
    cases x1 with
    | error e => exact e2
    | ok u => exact sendAcks_home hs order e2

theorem step_home (hs : Separate env H) {s : DState} (h : Home H s) (op : Op) (hop : ∀ r v, op ≠ .setHost r v) : Home H (step env s op) := by
  cases op with
  | setHost r v => exact absurd rfl (hop r v)
  | send m r mode => exact send_home hs h _ m r mode
  | recv r dg => exact recv_home hs h r dg
  | processAcks order =>
    simp only [step, processAcks]
    split
    · exact h
    · exact sendAcks_home hs order h
  | removeCircuit r => exact (aligned_closed env H).remove s r h
  | setTrusted b x =>
    simp only [step]
    split
    · exact h
    · rename_i c hc; exact (aligned_closed env H).trust s b c x h hc

/-- One operation, and what is left of it without the other peers. -/
theorem step_same (hs : Separate env H) {s t : DState} (h : Same H a s t) (hh : Home H s) (hs1 : s.unackedCircuits = []) (ht1 : t.unackedCircuits = [])
    (op : Op) (hop : ∀ r v, op ≠ .setHost r v) :
    Same H a (step env s op) (((opOnly H a op).elim t (step env t))) := by
  cases op with
  | setHost r v => exact absurd rfl (hop r v)
  | send m r mode =>
    simp only [opOnly]
    by_cases hr : (H r).addr = a
    · rw [if_pos hr]; exact (sendWith_same hs h env.depth m hr mode).2
    · rw [if_neg hr]; exact sendWith_other hs h env.depth m hr mode
  | recv r dg =>
    simp only [opOnly]
    by_cases hr : (H r).addr = a
    · rw [if_pos hr]; exact (recv_same hs h hr dg).2
    · rw [if_neg hr]; exact recv_other hs h hr dg
  | processAcks order =>
    have : ∀ (s : DState) (o : List Addr), s.unackedCircuits = [] → processAcks env s o = sendAcks env o s := by
      intro s o h; unfold processAcks resendAll; rw [h]; rfl
    simp only [opOnly, Option.elim, step]
    rw [this s _ hs1, this t _ ht1]
    exact sendAcks_same hs order h hh
  | removeCircuit r =>
    have hdel : ∀ (m : Dict Addr Circuit) (x : Host) (b : Addr), (removeCircuitData m x).get? b = if b = x.addr then none else m.get? b := by
      intro m x b
      unfold removeCircuitData
      split
      · rw [Dict.get?_del]
      · rename_i hx
        split
        · rename_i hb
          subst hb
          simpa [Dict.has] using hx
        · rfl
    simp only [opOnly]
    by_cases hr : (H r).addr = a
    · rw [if_pos hr]
      refine ⟨h.left, h.right, ?_, ?_⟩
      · simp only [step, DState.log, Option.elim]
        rw [hdel, hdel, h.left, h.right, h.circ]
      · simp only [step, DState.log, Option.elim]
        rw [view_append, view_append, h.seen, h.left, h.right]
    · rw [if_neg hr]
      refine ⟨h.left, h.right, ?_, ?_⟩
      · simp only [step, DState.log, Option.elim]
        rw [hdel, h.left, if_neg (fun x => hr x.symm), h.circ]
      · simp only [step, DState.log, Option.elim]
        rw [view_append, h.seen, h.left]
        simp [view, evAbout, hr]
  | setTrusted b x =>
    simp only [opOnly]
    by_cases hb : b = a
    · subst hb
      rw [if_pos rfl]
      simp only [step, Option.elim]
      rw [← h.circ]
      cases s.circuits.get? b with
      | none => exact h
      | some c => exact h.setCircuit _
    · rw [if_neg hb]
      simp only [step, Option.elim]
      cases s.circuits.get? b with
      | none => exact h
      | some c => exact h.setOther hb _

theorem runOps_snoc (env : DEnv) (s : DState) (ops : List Op) (op : Op) : runOps env s (ops ++ [op]) = step env (runOps env s ops) op := by
  unfold runOps; rw [List.foldl_append]; rfl

theorem run_history (hs : Separate env H) : ∀ (post pre : List Op), (∀ op ∈ post, ∀ r v, op ≠ .setHost r v) →
    Same H a (runOps env (DState.init H) pre) (runOps env (DState.init H) (historyOnly H a pre)) → Home H (runOps env (DState.init H) pre) →
    Same H a (runOps env (DState.init H) (pre ++ post)) (runOps env (DState.init H) (historyOnly H a (pre ++ post)))
  | [], pre, _, h, _ => by simpa using h
  | op :: post, pre, hop, h, hh => by
    have h1 := step_same hs h hh (reachable_inv env H pre).noRetry (reachable_inv env H (historyOnly H a pre)).noRetry op (hop op List.mem_cons_self)
    have h2 := step_home hs hh op (hop op List.mem_cons_self)
    have := run_history hs post (pre ++ [op]) (fun o ho => hop o (List.mem_cons_of_mem _ ho)) (by
      rw [runOps_snoc]
      have : historyOnly H a (pre ++ [op]) = historyOnly H a pre ++ ((opOnly H a op).toList) := by
        unfold historyOnly
        rw [List.filterMap_append]
        cases ho : opOnly H a op <;> simp [ho]
      rw [this]
      cases ho : opOnly H a op with
      | none => rw [ho] at h1; simpa using h1
      | some o => rw [ho] at h1; rw [Option.toList, runOps_snoc]; exact h1) (by rw [runOps_snoc]; exact h2)
    simpa using this

end Pyogp
