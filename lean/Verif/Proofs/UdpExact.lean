import Verif.Spec.UdpExact
import Verif.Proofs.Dispatcher

/-!
# The dispatcher with subscribers of fixed behaviour
-/

namespace Pyogp
open Spec

theorem andThen_run (send : DState → Message → HostRef → SendMode → Py (Option Bytes) × DState) (q : Prog) : ∀ (p : Prog) (st : DState),
    (andThen p q).run send st = match p.run send st with
      | (.ok _, st) => q.run send st
      | (.error e, st) => (.error e, st)
  | .done, _ => rfl
  | .raise _, _ => rfl
  | .send m h mode k, st => andThen_run send q (k (send st m h mode).1) (send st m h mode).2
  | .setHost h v k, st => andThen_run send q k { st with hosts := fun x => if x = h then v else st.hosts x }

theorem catching_run (send : DState → Message → HostRef → SendMode → Py (Option Bytes) × DState) : ∀ (p : Prog) (st : DState),
    (catchingKeyError p).run send st = match p.run send st with
      | (.ok _, st) => (.ok (), st)
      | (.error e, st) => (if e = .keyError then .ok () else .error e, st)
  | .done, _ => rfl
  | .raise e, st => by
    unfold catchingKeyError
    by_cases h : e = .keyError
    · rw [if_pos h]; simp [Prog.run, h]
    · rw [if_neg h]; simp [Prog.run, h]
  | .send m h mode k, st => catching_run send (k (send st m h mode).1) (send st m h mode).2
  | .setHost h v k, st => catching_run send k { st with hosts := fun x => if x = h then v else st.hosts x }

/-- The subscriptions and names are these, all subscriptions being of registered names. -/
def Having (E : EvState Message) (ev : EvState Message) : Prop := ev.subs = E.subs ∧ (∀ n, n ∉ ev.names → E.subs n = []) ∧ ev.names = E.names

/-- An outcome and a state of the dispatcher, with the same subscriptions. -/
def Exactly {α : Type} (E : EvState Message) (y : Option (Py α) × SubsState) (z : Py α × DState) : Prop :=
  ∃ ev, Having E ev ∧ y = (some z.1, ⟨z.2, ev⟩)

def SendExact (E : EvState Message) (send : SendFn) (sendD : DState → Message → HostRef → SendMode → Py (Option Bytes) × DState) : Prop :=
  ∀ st m r mode, Having E st.ev → Exactly E (send st m r mode) (sendD st.d m r mode)

theorem run_exact {E : EvState Message} {send : SendFn} {sendD : DState → Message → HostRef → SendMode → Py (Option Bytes) × DState} (hs : SendExact E send sendD) :
    ∀ (p : SProg) (st : SubsState), SProg.LeavesSubs p → Having E st.ev → Exactly E (p.run send st) ((SProg.toDispatcher p).run sendD st.d)
  | .done, st, _, h => ⟨st.ev, h, rfl⟩
  | .raise _, st, _, h => ⟨st.ev, h, rfl⟩
  | .send m r mode k, st, hp, h => by
    obtain ⟨ev, h1, e⟩ := hs st m r mode h
    have := run_exact hs (k (sendD st.d m r mode).1) ⟨(sendD st.d m r mode).2, ev⟩ (hp _) h1
    unfold SProg.run
    rw [e]
    exact this
  | .setHost r v k, st, hp, h => run_exact hs k { st with d := { st.d with hosts := fun x => if x = r then v else st.d.hosts x } } hp h
  | .subscribe .., _, hp, _ => hp.elim
  | .unsubscribe .., _, hp, _ => hp.elim
  | .register .., _, hp, _ => hp.elim

theorem notify_exact {E : EvState Message} {send : SendFn} {sendD : DState → Message → HostRef → SendMode → Py (Option Bytes) × DState} (hs : SendExact E send sendD)
    {beh : SBehaviour} {B : Fixed} (hb : BehavesAs beh B) (hl : ∀ h a k, SProg.LeavesSubs (B h a k)) (level : Nat) (m : Message) : ∀ (fuel i : Nat) (st : SubsState),
    (E.subs m.name).length < fuel + i → i ≤ (E.subs m.name).length → Having E st.ev →
    Exactly E (notifySubs beh send level m fuel i st)
      (((((E.subs m.name).drop i).map (fun s => SProg.toDispatcher (B s.handler (m, s.args) s.kwargs))).foldr andThen .done).run sendD st.d)
  | 0, i, st, h1, h2, _ => by omega
  | fuel + 1, i, st, h1, h2, h => by
    unfold notifySubs
    rw [h.1]
    cases hi : (E.subs m.name)[i]? with
    | none =>
      have : (E.subs m.name).drop i = [] := List.drop_eq_nil_of_le (List.getElem?_eq_none_iff.1 hi)
      rw [this]
      exact ⟨st.ev, h, rfl⟩
    | some s =>
      obtain ⟨hlt, hs'⟩ := List.getElem?_eq_some_iff.1 hi
      have hdrop : (E.subs m.name).drop i = s :: (E.subs m.name).drop (i + 1) := by rw [← hs']; exact List.drop_eq_getElem_cons hlt
      rw [hdrop]
      simp only [List.map_cons, List.foldr_cons]
      rw [andThen_run]
      have hcall : beh st.d.trace (st.ev.log ⟨level, m.name, s.handler, (m, s.args), s.kwargs⟩).calls = B s.handler (m, s.args) s.kwargs := hb _ _ _
      have h' : Having E (st.ev.log ⟨level, m.name, s.handler, (m, s.args), s.kwargs⟩) := h
      obtain ⟨ev1, h3, e⟩ := run_exact hs _ { st with ev := st.ev.log ⟨level, m.name, s.handler, (m, s.args), s.kwargs⟩ } (hl s.handler (m, s.args) s.kwargs) h'
      rw [hcall, e]
      generalize (SProg.toDispatcher (B s.handler (m, s.args) s.kwargs)).run sendD st.d = z
      obtain ⟨z, d⟩ := z
      cases z with
      | error e => exact ⟨ev1, h3, rfl⟩
      | ok u => exact notify_exact hs hb hl level m fuel (i + 1) ⟨d, ev1⟩ (by omega) hlt h3

theorem handle_exact {E : EvState Message} {send : SendFn} {sendD : DState → Message → HostRef → SendMode → Py (Option Bytes) × DState} (hs : SendExact E send sendD)
    {beh : SBehaviour} {B : Fixed} (hb : BehavesAs beh B) (hl : ∀ h a k, SProg.LeavesSubs (B h a k)) {fuel : Nat} (hf : ∀ n, (E.subs n).length < fuel) (level : Nat) (m : Message)
    (st : SubsState) (h : Having E st.ev) : Exactly E (handleSubs beh send fuel level m st) ((allOf B (E.subs m.name) m).run sendD st.d) := by
  unfold handleSubs allOf
  rw [catching_run, h.1]
  by_cases hm : m.name ∈ st.ev.names
  · rw [if_pos hm]
    by_cases hn : 0 < (E.subs m.name).length
    · rw [if_pos hn]
      obtain ⟨ev1, h1, e⟩ := notify_exact hs hb hl level m fuel 0 st (by have := hf m.name; omega) (Nat.zero_le _) h
      rw [e, List.drop_zero]
      generalize (((E.subs m.name).map (fun s => SProg.toDispatcher (B s.handler (m, s.args) s.kwargs))).foldr andThen .done).run sendD st.d = z
      obtain ⟨z, d⟩ := z
      cases z with
      | error e => exact ⟨ev1, h1, rfl⟩
      | ok u => exact ⟨ev1, h1, rfl⟩
    · rw [if_neg hn]
      have : E.subs m.name = [] := List.eq_nil_of_length_eq_zero (by omega)
      rw [this]
      exact ⟨st.ev, h, rfl⟩
  · rw [if_neg hm, h.2.1 _ hm]
    exact ⟨st.ev, h, rfl⟩

theorem send_exact (env : DEnv) {E : EvState Message} {beh : SBehaviour} {B : Fixed} (hb : BehavesAs beh B) (hl : ∀ h a k, SProg.LeavesSubs (B h a k))
    {fuel : Nat} (hf : ∀ n, (E.subs n).length < fuel) : ∀ n, SendExact E (sendSubs env beh fuel n) (sendWith (withSubscribers env B E) n)
  | 0 => fun st _ _ _ h => ⟨st.ev, h, rfl⟩
  | n + 1 => by
    intro st m r mode h
    unfold sendSubs sendWith
    by_cases hok : (!(st.d.hosts r).isOk) = true
    · simp only [if_pos hok]
      exact ⟨st.ev, h, rfl⟩
    · simp only [if_neg hok]
      by_cases ho : env.handleOutgoing = true
      · have ho' : (withSubscribers env B E).handleOutgoing = true := ho
        simp only [if_pos ho, if_pos ho']
        obtain ⟨ev1, h1, e⟩ := handle_exact (send_exact env hb hl hf n) hb hl hf n m { st with d := st.d.log (.outgoing m) } h
        rw [e]
        show Exactly E _ (match (allOf B (E.subs m.name) m).run (sendWith (withSubscribers env B E) n) (st.d.log (.outgoing m)) with
          | (.error e, st) => (.error e, st)
          | (.ok _, st) => transmit (withSubscribers env B E) st m r mode)
        generalize (allOf B (E.subs m.name) m).run (sendWith (withSubscribers env B E) n) (st.d.log (.outgoing m)) = z
        obtain ⟨z, d⟩ := z
        cases z with
        | error e => exact ⟨ev1, h1, rfl⟩
        | ok u => exact ⟨ev1, h1, rfl⟩
      · have ho' : ¬ (withSubscribers env B E).handleOutgoing = true := ho
        simp only [if_neg ho, if_neg ho']
        exact ⟨st.ev, h, rfl⟩

theorem receive_exact (env : DEnv) {E : EvState Message} {beh : SBehaviour} {B : Fixed} (hb : BehavesAs beh B) (hl : ∀ h a k, SProg.LeavesSubs (B h a k))
    {fuel : Nat} (hf : ∀ n, (E.subs n).length < fuel) (st : SubsState) (r : HostRef) (dg : Bytes) (h : Having E st.ev) :
    Exactly E (receiveSubs env beh fuel st r dg) (receiveCheck (withSubscribers env B E) st.d r dg) := by
  unfold receiveSubs receiveCheck
  by_cases h0 : 0 < dg.length
  · simp only [if_pos h0]
    generalize findCircuit st.d r = y
    obtain ⟨d, c⟩ := y
    simp only [show ∀ x, (withSubscribers env B E).deser x = { env.deser x with handled? := some st.ev.names } from fun _ => by rw [h.2.2]; rfl, show (withSubscribers env B E).ser = env.ser from rfl]
    generalize deserialize { env.deser d.trace with handled? := some st.ev.names } d.deser dg = x
    obtain ⟨x, ds⟩ := x
    cases x with
    | error e => exact ⟨st.ev, h, rfl⟩
    | ok o =>
      cases o with
      | none =>
        dsimp only
        cases unpackInt env.ser.rt dg .u32 1 (some .big) with
        | error e => exact ⟨st.ev, h, rfl⟩
        | ok pid => exact ⟨st.ev, h, rfl⟩
      | some m =>
        dsimp only
        by_cases ht : (c.trusted && !m.trusted) = true
        · rw [if_pos ht, if_pos ht]
          exact ⟨st.ev, h, rfl⟩
        · rw [if_neg ht, if_neg ht]
          by_cases hp : env.handlePackets = true
          · have hp' : (withSubscribers env B E).handlePackets = true := hp
            rw [if_pos hp, if_pos hp']
            generalize (DState.setCircuit _ _ _).log (.parsed _ m) = d2
            obtain ⟨ev1, h1, e⟩ := handle_exact (send_exact env hb hl hf env.depth) hb hl hf env.depth m { st with d := d2.log (.delivered m) } h
            rw [e]
            show Exactly E _ (match (allOf B (E.subs m.name) m).run (sendWith (withSubscribers env B E) env.depth) (d2.log (.delivered m)) with
              | (.error e, st) => (.error e, st)
              | (.ok _, st) => (.ok (some m), st))
            generalize (allOf B (E.subs m.name) m).run (sendWith (withSubscribers env B E) env.depth) (d2.log (.delivered m)) = z
            obtain ⟨z, d⟩ := z
            cases z with
            | error e => exact ⟨ev1, h1, rfl⟩
            | ok u => exact ⟨ev1, h1, rfl⟩
          · have hp' : ¬ (withSubscribers env B E).handlePackets = true := hp
            rw [if_neg hp, if_neg hp']
            exact ⟨st.ev, h, rfl⟩
  · simp only [if_neg h0]
    exact ⟨st.ev, h, rfl⟩

theorem ackLoop_exact (env : DEnv) {E : EvState Message} {beh : SBehaviour} {B : Fixed} (hb : BehavesAs beh B) (hl : ∀ h a k, SProg.LeavesSubs (B h a k))
    {fuel : Nat} (hf : ∀ n, (E.subs n).length < fuel) (hr : HostRef) : ∀ (ids : List Nat) (n : Nat) (msg : Message) (st : SubsState), Having E st.ev →
    Exactly E (ackLoopSubs env beh fuel hr ids n msg st) (ackLoop (withSubscribers env B E) hr ids n msg st.d)
  | [], n, msg, st, h => ⟨st.ev, h, rfl⟩
  | pid :: ids, n, msg, st, h => by
    unfold ackLoopSubs ackLoop
    dsimp only
    generalize addAckBlock (if n = 0 then Message.new "PacketAck" [] else msg) pid = msg'
    by_cases hn : 250 < n + 1
    · rw [if_pos hn, if_pos hn]
      obtain ⟨ev1, h1, e⟩ := send_exact env hb hl hf env.depth st msg' hr .plain h
      rw [e]
      show Exactly E _ (match sendWith (withSubscribers env B E) env.depth st.d msg' hr .plain with
        | (.error e, st) => (.error e, st)
        | (.ok _, st) => ackLoop (withSubscribers env B E) hr ids 0 msg' st)
      generalize sendWith (withSubscribers env B E) env.depth st.d msg' hr .plain = z
      obtain ⟨z, d⟩ := z
      cases z with
      | error e => exact ⟨ev1, h1, rfl⟩
      | ok u => exact ackLoop_exact env hb hl hf hr ids 0 msg' ⟨d, ev1⟩ h1
    · rw [if_neg hn, if_neg hn]
      exact ackLoop_exact env hb hl hf hr ids (n + 1) msg' st h

theorem ackCircuit_exact (env : DEnv) {E : EvState Message} {beh : SBehaviour} {B : Fixed} (hb : BehavesAs beh B) (hl : ∀ h a k, SProg.LeavesSubs (B h a k))
    {fuel : Nat} (hf : ∀ n, (E.subs n).length < fuel) (st : SubsState) (a : Addr) (h : Having E st.ev) :
    Exactly E (ackCircuitSubs env beh fuel st a) (ackCircuit (withSubscribers env B E) st.d a) := by
  unfold ackCircuitSubs ackCircuit
  cases hc : st.d.circuits.get? a with
  | none => exact ⟨st.ev, h, rfl⟩
  | some c =>
    dsimp only
    obtain ⟨ev1, h1, e⟩ := ackLoop_exact env hb hl hf c.host c.acks 0 (Message.new "PacketAck" []) st h
    rw [e]
    generalize ackLoop (withSubscribers env B E) c.host c.acks 0 (Message.new "PacketAck" []) st.d = z
    obtain ⟨z, d⟩ := z
    cases z with
    | error e => exact ⟨ev1, h1, rfl⟩
    | ok u =>
      obtain ⟨n, msg⟩ := u
      dsimp only
      by_cases hn : 0 < n
      · simp only [if_pos hn]
        obtain ⟨ev2, h2, e⟩ := send_exact env hb hl hf env.depth ⟨d, ev1⟩ msg c.host .plain h1
        rw [e]
        show Exactly E _ (match sendWith (withSubscribers env B E) env.depth d msg c.host .plain with
          | (.error e, st) => _
          | (.ok _, st) => _)
        generalize sendWith (withSubscribers env B E) env.depth d msg c.host .plain = z
        obtain ⟨z, d⟩ := z
        cases z with
        | error e => exact ⟨ev2, h2, rfl⟩
        | ok u =>
          dsimp only
          cases d.circuits.get? a with
          | none => exact ⟨ev2, h2, rfl⟩
          | some c => exact ⟨ev2, h2, rfl⟩
      · simp only [if_neg hn]
        cases d.circuits.get? a with
        | none => exact ⟨ev1, h1, rfl⟩
        | some c => exact ⟨ev1, h1, rfl⟩

theorem sendAcks_exact (env : DEnv) {E : EvState Message} {beh : SBehaviour} {B : Fixed} (hb : BehavesAs beh B) (hl : ∀ h a k, SProg.LeavesSubs (B h a k))
    {fuel : Nat} (hf : ∀ n, (E.subs n).length < fuel) : ∀ (as : List Addr) (st : SubsState), Having E st.ev →
    Exactly E (sendAcksSubs env beh fuel as st) (sendAcks (withSubscribers env B E) as st.d)
  | [], st, h => ⟨st.ev, h, rfl⟩
  | a :: as, st, h => by
    unfold sendAcksSubs sendAcks
    obtain ⟨ev1, h1, e⟩ := ackCircuit_exact env hb hl hf st a h
    rw [e]
    generalize ackCircuit (withSubscribers env B E) st.d a = z
    obtain ⟨z, d⟩ := z
    cases z with
    | error e => exact ⟨ev1, h1, rfl⟩
    | ok u => exact sendAcks_exact env hb hl hf as ⟨d, ev1⟩ h1

theorem processAcks_exact (env : DEnv) {E : EvState Message} {beh : SBehaviour} {B : Fixed} (hb : BehavesAs beh B) (hl : ∀ h a k, SProg.LeavesSubs (B h a k))
    {fuel : Nat} (hf : ∀ n, (E.subs n).length < fuel) (st : SubsState) (order : List Addr) (h : Having E st.ev) :
    Exactly E (processAcksSubs env beh fuel st order) (processAcks (withSubscribers env B E) st.d order) := by
  unfold processAcksSubs processAcks
  cases resendAll st.d with
  | error e => exact ⟨st.ev, h, rfl⟩
  | ok u => exact sendAcks_exact env hb hl hf order st h

theorem step_exact (env : DEnv) {E : EvState Message} {beh : SBehaviour} {B : Fixed} (hb : BehavesAs beh B) (hl : ∀ h a k, SProg.LeavesSubs (B h a k))
    {fuel : Nat} (hf : ∀ n, (E.subs n).length < fuel) (st : SubsState) (o : Op) (h : Having E st.ev) :
    ∃ ev, Having E ev ∧ stepSubs env beh fuel st (.op o) =
      (some (opResult (withSubscribers env B E) st.d o), ⟨step (withSubscribers env B E) st.d o, ev⟩) := by
  cases o with
  | send m hr mode =>
    obtain ⟨ev, h1, e⟩ := send_exact env hb hl hf env.depth st m hr mode h
    refine ⟨ev, h1, ?_⟩
    unfold stepSubs
    dsimp only
    rw [e]
    rfl
  | recv hr dg =>
    obtain ⟨ev, h1, e⟩ := receive_exact env hb hl hf st hr dg h
    refine ⟨ev, h1, ?_⟩
    unfold stepSubs
    dsimp only
    rw [e]
    rfl
  | processAcks order =>
    obtain ⟨ev, h1, e⟩ := processAcks_exact env hb hl hf st order h
    refine ⟨ev, h1, ?_⟩
    unfold stepSubs
    dsimp only
    rw [e]
    rfl
  | setHost hr v => exact ⟨st.ev, h, rfl⟩
  | removeCircuit hr => exact ⟨st.ev, h, rfl⟩
  | setTrusted a b => exact ⟨st.ev, h, rfl⟩

end Pyogp
