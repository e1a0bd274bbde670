import Verif.Proofs.UdpExact
import Verif.Props.UdpSubscribers

/-!
# C109: subscribers of fixed behaviour; subscribers that only work on subscriptions
-/

namespace Pyogp
open Spec

/-- **C109, exactly.** If what a subscriber does depends only on the call (the message and the arguments) and leaves subscriptions and registrations alone, then the dispatcher returns, for every
history, and is precisely the dispatcher of the other properties whose handler runs the subscribers to the name of the message one after the other, in the order of the subscriptions, until
one raises, and drops a `KeyError`, and whose deserializer is told that the registered names are handled. -/
theorem C109_exact (env : DEnv) (beh : SBehaviour) (B : Fixed) (hb : BehavesAs beh B) (hl : ∀ h a k, SProg.LeavesSubs (B h a k)) (fuel : Nat) (st : SubsState)
    (hf : ∀ n, (st.ev.subs n).length < fuel) (h0 : ∀ n, n ∉ st.ev.names → st.ev.subs n = []) (ops : List Op) :
    ∃ ev, ev.subs = st.ev.subs ∧ ev.names = st.ev.names ∧ runSubs env beh fuel st (ops.map .op) =
      some (opResults (withSubscribers env B st.ev) st.d ops, ⟨runOps (withSubscribers env B st.ev) st.d ops, ev⟩) := by
  have key : ∀ (E : EvState Message) (_ : ∀ n, (E.subs n).length < fuel) (ops : List Op) (st : SubsState), Having E st.ev →
      ∃ ev, ev.subs = E.subs ∧ ev.names = E.names ∧ runSubs env beh fuel st (ops.map .op) =
        some (opResults (withSubscribers env B E) st.d ops, ⟨runOps (withSubscribers env B E) st.d ops, ev⟩) := by
    intro E hf ops
    induction ops with
    | nil => intro st h; exact ⟨st.ev, h.1, h.2.2, rfl⟩
    | cons o ops ih =>
      intro st h
      obtain ⟨ev1, h1, e⟩ := step_exact env hb hl hf st o h
      obtain ⟨ev2, h2, h3, e2⟩ := ih ⟨step (withSubscribers env B E) st.d o, ev1⟩ h1
      refine ⟨ev2, h2, h3, ?_⟩
      rw [List.map_cons]
      unfold runSubs
      rw [e]
      dsimp only
      rw [e2]
      rfl
  exact key st.ev hf ops st ⟨rfl, h0, rfl⟩

/-! ## Subscribers that only work on subscriptions -/

theorem register_keeps_subs (ev : EvState Message) (n : String) : (Pyogp.register ev n).subs = ev.subs := by
  unfold Pyogp.register
  split <;> rfl

theorem run_subsOnly (send : SendFn) (fire : String → Message → EvState Message → Option (Py Unit) × EvState Message) : ∀ (p : SProg) (st : SubsState), SProg.SubsOnly p →
    p.run send st = (((SProg.toHandler p).run fire st.ev).1, ⟨st.d, ((SProg.toHandler p).run fire st.ev).2⟩)
  | .done, _, _ => rfl
  | .raise _, _, _ => rfl
  | .send .., _, h => h.elim
  | .setHost .., _, h => h.elim
  | .subscribe n s k, st, h => by
    have := run_subsOnly send fire k { st with ev := SubOp.apply st.ev (.subscribe n s) } h
    simp only [SProg.run, SProg.toHandler, EvProg.run]
    rw [this, register_keeps_subs]
    rfl
  | .unsubscribe n s k, st, h => run_subsOnly send fire (k _) { st with ev := SubOp.apply st.ev (.unsubscribe n s) } (h _)
  | .register n k, st, h => run_subsOnly send fire k { st with ev := SubOp.apply st.ev (.register n) } h

theorem notify_subsOnly (beh : SBehaviour) (hp : ∀ tr cs, SProg.SubsOnly (beh tr cs)) (send : SendFn)
    (fire : String → Message → EvState Message → Option (Py Unit) × EvState Message) (level : Nat) (m : Message) : ∀ (fuel i : Nat) (st : SubsState),
    notifySubs beh send level m fuel i st =
      ((notifyLoop (fun cs => SProg.toHandler (beh st.d.trace cs)) fire level m.name m fuel i st.ev).1,
        ⟨st.d, (notifyLoop (fun cs => SProg.toHandler (beh st.d.trace cs)) fire level m.name m fuel i st.ev).2⟩)
  | 0, _, _ => rfl
  | fuel + 1, i, st => by
    unfold notifySubs notifyLoop
    cases (st.ev.subs m.name)[i]? with
    | none => rfl
    | some s =>
      dsimp only
      rw [run_subsOnly send fire _ _ (hp _ _)]
      dsimp only
      generalize (SProg.toHandler (beh st.d.trace (st.ev.log ⟨level, m.name, s.handler, (m, s.args), s.kwargs⟩).calls)).run fire
        (st.ev.log ⟨level, m.name, s.handler, (m, s.args), s.kwargs⟩) = y
      obtain ⟨y, ev⟩ := y
      cases y with
      | none => rfl
      | some x =>
        cases x with
        | error e => rfl
        | ok u => exact notify_subsOnly beh hp send fire level m fuel (i + 1) ⟨st.d, ev⟩

theorem handle_subsOnly (beh : SBehaviour) (hp : ∀ tr cs, SProg.SubsOnly (beh tr cs)) (send : SendFn) (fuel level : Nat) (m : Message) (st : SubsState) :
    handleSubs beh send fuel (level + 1) m st =
      ((handleMessage (fun cs => SProg.toHandler (beh st.d.trace cs)) fuel (level + 1) m.name m st.ev).1,
        ⟨st.d, (handleMessage (fun cs => SProg.toHandler (beh st.d.trace cs)) fuel (level + 1) m.name m st.ev).2⟩) := by
  unfold handleSubs handleMessage
  by_cases hm : m.name ∈ st.ev.names
  · rw [if_pos hm, if_pos hm]
    by_cases hn : 0 < (st.ev.subs m.name).length
    · rw [if_pos hn, if_pos hn, notifyAt,
        notify_subsOnly beh hp send (notifyAt (fun cs => SProg.toHandler (beh st.d.trace cs)) fuel level) (level + 1) m fuel 0 st]
      generalize notifyLoop (fun cs => SProg.toHandler (beh st.d.trace cs)) (notifyAt (fun cs => SProg.toHandler (beh st.d.trace cs)) fuel level) (level + 1) m.name m fuel 0
        st.ev = y
      obtain ⟨y, ev⟩ := y
      cases y with
      | none => rfl
      | some x =>
        cases x with
        | ok u => rfl
        | error e =>
          by_cases he : e = .keyError
          · subst he; rfl
          · dsimp only
            rw [if_neg he]
            cases e <;> first | rfl | exact absurd rfl he
    · rw [if_neg hn, if_neg hn]
  · rw [if_neg hm, if_neg hm]

/-- **C109, what the message handler does.** If the subscribers only work on subscriptions (subscribe, unsubscribe, register, raise), then receiving a datagram either hands
over no message and leaves the message handler alone, or hands over one message, for which the message handler does what it does in the properties of the message handler (C33 to
C37: calls in order over the live list, a `KeyError` dropped, and so on), and `receive_check` returns the message or raises what `handle` raises. -/
theorem C109_handler (env : DEnv) (hd : 0 < env.depth) (beh : SBehaviour) (hp : ∀ tr cs, SProg.SubsOnly (beh tr cs)) (fuel : Nat) (st st' : SubsState) (r : HostRef) (dg : Bytes)
    (x : Option (Py (Option Message))) (h : receiveSubs env beh fuel st r dg = (x, st')) :
    (handedMessages st'.d.trace = handedMessages st.d.trace ∧ st'.ev = st.ev ∧ x.isSome = true) ∨
    ∃ m y, handedMessages st'.d.trace = handedMessages st.d.trace ++ [m] ∧
      handleMessage (fun cs => SProg.toHandler (beh st'.d.trace cs)) fuel env.depth m.name m st.ev = (y, st'.ev) ∧
      x = y.map (fun y => match y with | .ok _ => .ok (some m) | .error e => .error e) := by
  have hft := (findCircuit_fields st.d r).2.1
  unfold receiveSubs at h
  split at h
  · simp only at h
    generalize hf : findCircuit st.d r = f at h hft
    obtain ⟨d, c⟩ := f
    simp only at h hft
    generalize hd : deserialize { env.deser d.trace with handled? := some st.ev.names } d.deser dg = ds at h
    obtain ⟨y, ds⟩ := ds
    cases y with
    | error e =>
      cases h
      exact .inl ⟨by simp [DState.log, hft, handedMessages], rfl, rfl⟩
    | ok o =>
      cases o with
      | none =>
        simp only at h
        split at h
        · cases h
          exact .inl ⟨by simp [DState.log, hft, handedMessages], rfl, rfl⟩
        · cases h
          exact .inl ⟨by simp [DState.log, DState.setCircuit, hft, handedMessages], rfl, rfl⟩
      | some m =>
        simp only at h
        split at h
        · cases h
          exact .inl ⟨by simp [DState.log, hft, handedMessages], rfl, rfl⟩
        · generalize hst1 : (({ (({ d with packetsIn := d.packetsIn + 1 } : DState).log (.received (st.d.hosts r).addr dg)) with deser := ds }).setCircuit (st.d.hosts r).addr
            (c.handlePacket m)).log (.parsed (st.d.hosts r).addr m) = st1 at h
          have hh : handedMessages st1.trace = handedMessages st.d.trace := by
            rw [← hst1]
            simp [DState.log, DState.setCircuit, hft, handedMessages]
          split at h
          · obtain ⟨level, hlev⟩ : ∃ l, env.depth = l + 1 := ⟨env.depth - 1, by omega⟩
            rw [hlev, handle_subsOnly beh hp] at h
            rw [hlev]
            have hm : handedMessages (st1.log (.delivered m)).trace = handedMessages st.d.trace ++ [m] := by
              simp only [DState.log]
              rw [handedMessages, List.filterMap_append, ← handedMessages, hh]
              simp
            generalize hy : handleMessage (fun cs => SProg.toHandler (beh (st1.log (.delivered m)).trace cs)) fuel (level + 1) m.name m st.ev = y at h
            obtain ⟨y, ev⟩ := y
            cases y with
            | none => cases h; exact .inr ⟨m, none, hm, hy, rfl⟩
            | some w =>
              cases w with
              | error e => cases h; exact .inr ⟨m, some (.error e), hm, hy, rfl⟩
              | ok u => cases h; exact .inr ⟨m, some (.ok u), hm, hy, rfl⟩
          · cases h
            exact .inl ⟨hh, rfl, rfl⟩
  · cases h
    exact .inl ⟨rfl, rfl, rfl⟩

/-- The first subscriber to `Demo` changes a host, sends a `PacketAck` there and raises if it is not sent. -/
def fixedDemo : Fixed := fun h _ _ =>
  if h = 1 then .setHost 1 (dispHosts 0) (.send (addAckBlock (Message.new "PacketAck" []) 4) 1 .plain (fun r => match r with
    | .ok (some _) => .done
    | _ => .raise (.user 3)))
  else .done

def fixedDemoBeh : SBehaviour := fun _ cs =>
  match cs.getLast? with
  | some c => fixedDemo c.handler c.args c.kwargs
  | none => .done

/-- The hypotheses of `C109_exact`, and what happens: two messages for one datagram (the subscriber's to the changed host). -/
example : BehavesAs fixedDemoBeh fixedDemo ∧ (∀ h a k, SProg.LeavesSubs (fixedDemo h a k)) ∧ (∀ n, (udpSubsDemo.subs n).length < 10) ∧
    (runSubs udpSubsEnv fixedDemoBeh 10 ⟨DState.init dispHosts, udpSubsDemo⟩ ([.recv 0 demoDatagram, .processAcks [dispAddr 0]].map .op)).map
      (fun x => (decide (x.2.d.hosts 1 = dispHosts 0), x.2.d.packetsOut, x.2.ev.calls.map (·.handler))) = some (true, 2, [1, 3, 2, 3]) := by
  refine ⟨fun tr cs c => ?_, fun h a k => ?_, fun n => ?_, by decide +kernel⟩
  · simp [fixedDemoBeh]
  · unfold fixedDemo
    split
    · intro r
      dsimp only
      split <;> trivial
    · trivial
  · simp only [udpSubsDemo]
    split
    · decide
    · split <;> decide

/-- Subscriber 1 unsubscribes itself; if that fails it raises. -/
def leaving : SBehaviour := fun _ cs =>
  match cs.getLast? with
  | some c => if c.handler = 1 then .unsubscribe "Demo" ⟨1, c.args.2, []⟩ (fun r => match r with | .ok _ => .done | .error e => .raise e) else .done
  | none => .done

/-- The hypotheses of `C109_handler`, and what happens: the subscriber after the one that unsubscribes is skipped, for this message. -/
example : (∀ tr cs, SProg.SubsOnly (leaving tr cs)) ∧
    (runSubs udpSubsEnv leaving 10 ⟨DState.init dispHosts, udpSubsDemo⟩ [.op (.recv 0 demoDatagram), .op (.recv 0 demoDatagram)]).map (fun x => x.2.ev.calls.map (·.handler)) =
      some [1, 2] := by
  refine ⟨fun tr cs => ?_, by decide +kernel⟩
  unfold leaving
  split
  · split
    · intro r
      dsimp only
      split <;> trivial
    · trivial
  · trivial

end Pyogp
