import Verif.Spec.UdpSubscribers
import Verif.Proofs.Send

/-!
# The dispatcher with subscribers is a dispatcher with some handler
-/

namespace Pyogp
open Spec

/-- What the dispatcher of `Model/Dispatcher` is told: what handlers do, and which names are registered. -/
structure Oracle where
  handler : List Ev → Message → Prog
  names : List Ev → List String

/-- The environment with these handlers and names. -/
def DEnv.withHandler (env : DEnv) (o : Oracle) : DEnv := withNames { env with handler := o.handler } o.names

/-- `f` does this, for some handlers and names that matter only between the two moments. -/
def Realised (env : DEnv) {α : Type} (f : DEnv → Py α × DState) (st : DState) (x : Py α) (st' : DState) : Prop :=
  st.trace.length ≤ st'.trace.length ∧ ∃ o : Oracle, (∀ tr m, NeverRaises .keyError (o.handler tr m)) ∧
    ∀ o' : Oracle, (∀ tr m, st.trace.length < tr.length → tr.length ≤ st'.trace.length → o'.handler tr m = o.handler tr m) →
      (∀ tr, st.trace.length ≤ tr.length → tr.length < st'.trace.length → o'.names tr = o.names tr) → f (env.withHandler o') = (x, st')

theorem Realised.pure {env : DEnv} {α : Type} {f : DEnv → Py α × DState} {st : DState} {x : Py α} {st' : DState} (hl : st.trace.length ≤ st'.trace.length)
    (h : ∀ H, f (env.withHandler H) = (x, st')) : Realised env f st x st' :=
  ⟨hl, ⟨fun _ _ => .done, fun _ => []⟩, fun _ _ => trivial, fun H' _ _ => h H'⟩

/-- The names registered at this moment can be chosen. -/
theorem Realised.reads (env : DEnv) {st st' : DState} (hl : st.trace.length < st'.trace.length) (names : List String) :
    Realised env (fun env' => ((.ok (env'.deser st.trace).handled? : Py (Option (List String))), st')) st (.ok (some names)) st' := by
  refine ⟨Nat.le_of_lt hl, ⟨fun _ _ => .done, fun _ => names⟩, fun _ _ => trivial, fun o' _ h => ?_⟩
  show (Except.ok (some (o'.names st.trace)), st') = _
  rw [h st.trace (Nat.le_refl _) hl]

theorem withHandler_deser {env : DEnv} {H : Oracle} {st st' : DState} {names : List String} {tr : List Ev} (ht : tr = st.trace)
    (e : ((.ok ((env.withHandler H).deser st.trace).handled? : Py (Option (List String))), st') = (.ok (some names), st')) :
    (env.withHandler H).deser tr = { env.deser tr with handled? := some names } := by
  rw [ht]
  simp only [Prod.mk.injEq, Except.ok.injEq, and_true] at e
  have e' : some (H.names st.trace) = some names := e
  cases e'
  rfl

theorem Realised.seqAfter {env : DEnv} {α β γ : Type} {f : DEnv → Py α × DState} {g : DEnv → Py β × DState} {h : DEnv → Py γ × DState} {st mid st' st'' : DState} {x : Py α}
    {y : Py β} {z : Py γ} (hf : Realised env f st x mid) (hg : Realised env g mid y st') (ht : st''.trace = st'.trace)
    (hh : ∀ H, f (env.withHandler H) = (x, mid) → g (env.withHandler H) = (y, st') → h (env.withHandler H) = (z, st'')) : Realised env h st z st'' := by
  obtain ⟨l1, o1, n1, r1⟩ := hf
  obtain ⟨l2, o2, n2, r2⟩ := hg
  refine ⟨by rw [ht]; exact Nat.le_trans l1 l2, ⟨fun tr m => if tr.length ≤ mid.trace.length then o1.handler tr m else o2.handler tr m,
    fun tr => if tr.length < mid.trace.length then o1.names tr else o2.names tr⟩, fun tr m => ?_, fun o' hH hN => ?_⟩
  · dsimp only
    split
    · exact n1 tr m
    · exact n2 tr m
  · rw [ht] at hH hN
    refine hh o' (r1 o' ?_ ?_) (r2 o' ?_ ?_)
    · intro tr m h1 h2
      exact (hH tr m h1 (Nat.le_trans h2 l2)).trans (if_pos h2)
    · intro tr h1 h2
      exact (hN tr h1 (Nat.lt_of_lt_of_le h2 l2)).trans (if_pos h2)
    · intro tr m h1 h2
      exact (hH tr m (by omega) h2).trans (if_neg (by omega))
    · intro tr h1 h2
      exact (hN tr (by omega) h2).trans (if_neg (by omega))

theorem Realised.seq {env : DEnv} {α β γ : Type} {f : DEnv → Py α × DState} {g : DEnv → Py β × DState} {h : DEnv → Py γ × DState} {st mid st' : DState} {x : Py α} {y : Py β}
    {z : Py γ} (hf : Realised env f st x mid) (hg : Realised env g mid y st')
    (hh : ∀ H, f (env.withHandler H) = (x, mid) → g (env.withHandler H) = (y, st') → h (env.withHandler H) = (z, st')) : Realised env h st z st' := hf.seqAfter hg rfl hh

theorem Realised.after {env : DEnv} {α β : Type} {f : DEnv → Py α × DState} {g : DEnv → Py β × DState} {st st' st'' : DState} {x : Py α} {y : Py β} (hf : Realised env f st x st')
    (ht : st''.trace = st'.trace) (hh : ∀ H, f (env.withHandler H) = (x, st') → g (env.withHandler H) = (y, st'')) : Realised env g st y st'' := by
  obtain ⟨l1, H1, n1, r1⟩ := hf
  exact ⟨by rw [ht]; exact l1, H1, n1, fun H' hH hN => hh H' (r1 H' (by rw [ht] at hH; exact hH) (by rw [ht] at hN; exact hN))⟩

theorem Realised.map {env : DEnv} {α β : Type} {f : DEnv → Py α × DState} {g : DEnv → Py β × DState} {st st' : DState} {x : Py α} {y : Py β} (hf : Realised env f st x st')
    (hh : ∀ H, f (env.withHandler H) = (x, st') → g (env.withHandler H) = (y, st')) : Realised env g st y st' := hf.after rfl hh

/-! ## What subscribers do to the dispatcher, one thing after the other -/

inductive UdpAct
  | send (m : Message) (h : HostRef) (mode : SendMode)
  | setHost (h : HostRef) (v : Host)

def UdpAct.run (send : DState → Message → HostRef → SendMode → Py (Option Bytes) × DState) (st : DState) : UdpAct → DState
  | .send m h mode => (send st m h mode).2
  | .setHost h v => { st with hosts := fun x => if x = h then v else st.hosts x }

/-- The handler that does these things and then returns or raises. -/
def doing : List UdpAct → Py Unit → Prog
  | [], .ok _ => .done
  | [], .error e => .raise e
  | .send m h mode :: l, r => .send m h mode (fun _ => doing l r)
  | .setHost h v :: l, r => .setHost h v (doing l r)

theorem doing_run (send : DState → Message → HostRef → SendMode → Py (Option Bytes) × DState) : ∀ (l : List UdpAct) (r : Py Unit) (st : DState),
    (doing l r).run send st = (r, l.foldl (UdpAct.run send) st)
  | [], .ok _, _ => rfl
  | [], .error _, _ => rfl
  | .send m h mode :: l, r, st => by
    show (doing l r).run send (send st m h mode).2 = _
    rw [doing_run send l r]
    rfl
  | .setHost h v :: l, r, st => by
    show (doing l r).run send _ = _
    rw [doing_run send l r]
    rfl

theorem doing_never (e : Exc) : ∀ (l : List UdpAct) (r : Py Unit), r ≠ .error e → NeverRaises e (doing l r)
  | [], .ok _, _ => trivial
  | [], .error _, h => fun he => h (by rw [he])
  | .send _ _ _ :: l, r, h => fun _ => doing_never e l r h
  | .setHost _ _ :: l, r, h => doing_never e l r h

/-- The subscribers' share of a step. -/
def Acting (env : DEnv) (n : Nat) (st st' : DState) : Prop :=
  ∃ acts : List UdpAct, Realised env (fun env' => (.ok (), acts.foldl (UdpAct.run (sendWith env' n)) st)) st (.ok ()) st'

theorem Acting.refl (env : DEnv) (n : Nat) (st : DState) : Acting env n st st := ⟨[], Realised.pure (Nat.le_refl _) (fun _ => rfl)⟩

theorem Acting.trans {env : DEnv} {n : Nat} {a b c : DState} (h1 : Acting env n a b) (h2 : Acting env n b c) : Acting env n a c := by
  obtain ⟨l1, r1⟩ := h1
  obtain ⟨l2, r2⟩ := h2
  refine ⟨l1 ++ l2, Realised.seq r1 r2 (fun H e1 e2 => ?_)⟩
  simp only [Prod.mk.injEq, true_and] at e1 e2
  rw [List.foldl_append, e1, e2]

/-- A way of sending that is realised. -/
def SendRealised (env : DEnv) (n : Nat) (send : SendFn) : Prop :=
  ∀ st m r mode x st', send st m r mode = (some x, st') → Realised env (fun env' => sendWith env' n st.d m r mode) st.d x st'.d

theorem run_acting {env : DEnv} {n : Nat} {send : SendFn} (hs : SendRealised env n send) : ∀ (p : SProg) (st st' : SubsState) (r : Py Unit),
    p.run send st = (some r, st') → Acting env n st.d st'.d
  | .done, st, st', r, h => by cases h; exact .refl _ _ _
  | .raise _, st, st', r, h => by cases h; exact .refl _ _ _
  | .send m hr mode k, st, st', r, h => by
    unfold SProg.run at h
    generalize hy : send st m hr mode = y at h
    obtain ⟨y, st1⟩ := y
    cases y with
    | none => cases h
    | some x =>
      have h1 := hs st m hr mode x st1 hy
      refine Acting.trans ⟨[.send m hr mode], h1.map (fun H e => ?_)⟩ (run_acting hs (k x) st1 st' r h)
      simp only [List.foldl_cons, List.foldl_nil, UdpAct.run, e]
  | .setHost hr v k, st, st', r, h => by
    have h1 := run_acting hs k { st with d := { st.d with hosts := fun x => if x = hr then v else st.d.hosts x } } st' r h
    refine Acting.trans (b := { st.d with hosts := fun x => if x = hr then v else st.d.hosts x }) ⟨[.setHost hr v], Realised.pure (Nat.le_refl _) (fun _ => rfl)⟩ h1
  | .subscribe n s k, st, st', r, h => run_acting hs k { st with ev := SubOp.apply st.ev (.subscribe n s) } st' r h
  | .unsubscribe n s k, st, st', r, h => run_acting hs (k _) { st with ev := SubOp.apply st.ev (.unsubscribe n s) } st' r h
  | .register n k, st, st', r, h => run_acting hs k { st with ev := SubOp.apply st.ev (.register n) } st' r h

theorem notify_acting {env : DEnv} {n : Nat} {send : SendFn} (hs : SendRealised env n send) (beh : SBehaviour) (level : Nat) (m : Message) : ∀ (fuel i : Nat)
    (st st' : SubsState) (r : Py Unit), notifySubs beh send level m fuel i st = (some r, st') → Acting env n st.d st'.d
  | 0, _, _, _, _, h => by cases h
  | fuel + 1, i, st, st', r, h => by
    unfold notifySubs at h
    split at h
    · cases h; exact .refl _ _ _
    · rename_i s _
      simp only at h
      generalize hy : (beh st.d.trace (st.ev.log ⟨level, m.name, s.handler, (m, s.args), s.kwargs⟩).calls).run send
        { st with ev := st.ev.log ⟨level, m.name, s.handler, (m, s.args), s.kwargs⟩ } = y at h
      obtain ⟨y, st1⟩ := y
      cases y with
      | none => cases h
      | some x =>
        have h1 := run_acting hs _ _ st1 x hy
        cases x with
        | error e => cases h; exact h1
        | ok u => exact h1.trans (notify_acting hs beh level m fuel (i + 1) st1 st' r h)

theorem handle_acting {env : DEnv} {n : Nat} {send : SendFn} (hs : SendRealised env n send) (beh : SBehaviour) (fuel level : Nat) (m : Message)
    (st st' : SubsState) (r : Py Unit) (h : handleSubs beh send fuel level m st = (some r, st')) : Acting env n st.d st'.d ∧ r ≠ .error .keyError := by
  unfold handleSubs at h
  split at h
  · split at h
    · generalize hy : notifySubs beh send level m fuel 0 st = y at h
      obtain ⟨y, st1⟩ := y
      cases y with
      | none => cases h
      | some x =>
        have h1 := notify_acting hs beh level m fuel 0 st st1 x hy
        cases x with
        | ok u => cases h; exact ⟨h1, by simp⟩
        | error e =>
          simp only [Prod.mk.injEq, Option.some.injEq] at h
          obtain ⟨rfl, rfl⟩ := h
          refine ⟨h1, ?_⟩
          split
          · simp
          · rename_i he
            exact fun hx => he (by cases hx; rfl)
    · cases h; exact ⟨.refl _ _ _, by simp⟩
  · cases h; exact ⟨.refl _ _ _, by simp⟩

/-- A handler invocation is realised: the handler for this message at this moment does what the subscribers did. -/
theorem handler_realised {env : DEnv} {n : Nat} {send : SendFn} (hs : SendRealised env n send) (beh : SBehaviour) (fuel level : Nat) (m : Message) (e : Ev) (st0 : DState)
    (st st' : SubsState) (hst : st.d = st0.log e) (r : Py Unit) (h : handleSubs beh send fuel level m st = (some r, st')) :
    Realised env (fun env' => (env'.handler (st0.log e).trace m).run (sendWith env' n) (st0.log e)) st0 r st'.d := by
  obtain ⟨⟨acts, l1, H, hn, hr⟩, hk⟩ := handle_acting hs beh fuel level m st st' r h
  rw [hst] at l1 hr
  have hlen : (st0.log e).trace.length = st0.trace.length + 1 := by simp [DState.log]
  refine ⟨by omega, ⟨fun tr m' => if tr.length = (st0.log e).trace.length then doing acts r else H.handler tr m', H.names⟩, fun tr m' => ?_, fun H' hH hN => ?_⟩
  · dsimp only
    split
    · exact doing_never _ acts r hk
    · exact hn tr m'
  · have e1 : (env.withHandler H').handler (st0.log e).trace m = doing acts r := by
      show H'.handler _ m = _
      exact (hH _ m (by omega) (by omega)).trans (if_pos rfl)
    have e2 := hr H' (fun tr m' h1 h2 => (hH tr m' (by omega) h2).trans (if_neg (by omega))) (fun tr h1 h2 => hN tr (by omega) h2)
    simp only [Prod.mk.injEq, true_and] at e2
    show ((env.withHandler H').handler (st0.log e).trace m).run _ _ = _
    rw [e1, doing_run, e2]

theorem transmit_longer (env : DEnv) (st : DState) (m : Message) (r : HostRef) (mode : SendMode) : st.trace.length ≤ (transmit env st m r mode).2.trace.length := by
  rw [(transmit_trace env st m r mode).1]
  simp

theorem transmit_realised (env : DEnv) (st : DState) (m : Message) (r : HostRef) (mode : SendMode) :
    Realised env (fun env' => transmit env' st m r mode) st (transmit env st m r mode).1 (transmit env st m r mode).2 :=
  Realised.pure (transmit_longer env st m r mode) (fun _ => rfl)

theorem send_realised (env : DEnv) (beh : SBehaviour) (fuel : Nat) : ∀ n, SendRealised env n (sendSubs env beh fuel n)
  | 0 => by
    intro st m r mode x st' h
    cases h
    exact Realised.pure (Nat.le_refl _) (fun _ => rfl)
  | n + 1 => by
    intro st m r mode x st' h
    unfold sendSubs at h
    split at h
    · rename_i hk
      cases h
      refine Realised.pure (Nat.le_refl _) (fun H => ?_)
      unfold sendWith
      rw [if_pos hk]
    · rename_i hk
      split at h
      · rename_i ho
        generalize hy : handleSubs beh (sendSubs env beh fuel n) fuel n m { st with d := st.d.log (.outgoing m) } = y at h
        obtain ⟨y, st1⟩ := y
        cases y with
        | none => cases h
        | some w =>
          have h1 := handler_realised (send_realised env beh fuel n) beh fuel n m (.outgoing m) st.d { st with d := st.d.log (.outgoing m) } st1 rfl w hy
          cases w with
          | error e =>
            cases h
            refine h1.map (fun H e1 => ?_)
            unfold sendWith
            rw [if_neg hk, if_pos (show (env.withHandler H).handleOutgoing = true from ho)]
            simp only [e1]
          | ok u =>
            cases h
            refine h1.seq (transmit_realised env st1.d m r mode) (fun H e1 e2 => ?_)
            unfold sendWith
            rw [if_neg hk, if_pos (show (env.withHandler H).handleOutgoing = true from ho)]
            simp only [e1]
            exact e2
      · rename_i ho
        cases h
        refine (transmit_realised env st.d m r mode).map (fun H e => ?_)
        unfold sendWith
        rw [if_neg hk, if_neg (show ¬ (env.withHandler H).handleOutgoing = true from ho)]
        exact e

theorem receive_realised (env : DEnv) (beh : SBehaviour) (fuel : Nat) (st st' : SubsState) (r : HostRef) (dg : Bytes) (x : Py (Option Message))
    (h : receiveSubs env beh fuel st r dg = (some x, st')) : Realised env (fun env' => receiveCheck env' st.d r dg) st.d x st'.d := by
  have hft := (findCircuit_fields st.d r).2.1
  unfold receiveSubs at h
  split at h
  · rename_i hlen
    have hlen' : ∀ H, (fun env' => receiveCheck env' st.d r dg) (env.withHandler H) = receiveCheck (env.withHandler H) st.d r dg := fun _ => rfl
    simp only at h
    generalize hf : findCircuit st.d r = f at h hft
    obtain ⟨d, c⟩ := f
    simp only at h hft
    generalize hd : deserialize { env.deser d.trace with handled? := some st.ev.names } d.deser dg = ds at h
    obtain ⟨y, ds⟩ := ds
    cases y with
    | error e =>
      cases h
      refine (Realised.reads env (by simp [DState.log, hft]) st.ev.names).map (fun H e0 => ?_)
      simp only [receiveCheck, if_pos hlen, hf, withHandler_deser hft e0, hd]
    | ok o =>
      cases o with
      | none =>
        simp only at h
        cases hu : unpackInt env.ser.rt dg .u32 1 (some .big) with
        | error e =>
          rw [hu] at h
          cases h
          refine (Realised.reads env (by simp [DState.log, hft]) st.ev.names).map (fun H e0 => ?_)
          simp only [receiveCheck, if_pos hlen, hf, withHandler_deser hft e0, hd, show (env.withHandler H).ser = env.ser from rfl, hu]
        | ok pid =>
          rw [hu] at h
          cases h
          refine (Realised.reads env (by simp [DState.log, DState.setCircuit, hft]) st.ev.names).map (fun H e0 => ?_)
          simp only [receiveCheck, if_pos hlen, hf, withHandler_deser hft e0, hd, show (env.withHandler H).ser = env.ser from rfl, hu]
      | some m =>
        simp only at h
        split at h
        · rename_i ht
          cases h
          refine (Realised.reads env (by simp [DState.log, hft]) st.ev.names).map (fun H e0 => ?_)
          simp only [receiveCheck, if_pos hlen, hf, withHandler_deser hft e0, hd, if_pos ht]
        · rename_i ht
          generalize hst1 : (({ (({ d with packetsIn := d.packetsIn + 1 } : DState).log (.received (st.d.hosts r).addr dg)) with deser := ds }).setCircuit (st.d.hosts r).addr
            (c.handlePacket m)).log (.parsed (st.d.hosts r).addr m) = st1 at h
          have hl1 : st.d.trace.length < st1.trace.length := by
            rw [← hst1]
            simp [DState.log, DState.setCircuit, hft]
          split at h
          · rename_i hp
            generalize hy : handleSubs beh (sendSubs env beh fuel env.depth) fuel env.depth m { st with d := st1.log (.delivered m) } = y at h
            obtain ⟨y, st2⟩ := y
            cases y with
            | none => cases h
            | some w =>
              have h1 := handler_realised (send_realised env beh fuel env.depth) beh fuel env.depth m (.delivered m) st1 _ st2 rfl w hy
              have h0 := Realised.reads env hl1 st.ev.names
              cases w with
              | error e =>
                cases h
                refine h0.seq h1 (fun H e0 e1 => ?_)
                simp only [receiveCheck, if_pos hlen, hf, withHandler_deser hft e0, hd, if_neg ht, hst1,
                  if_pos (show (env.withHandler H).handlePackets = true from hp), show (env.withHandler H).depth = env.depth from rfl, e1]
              | ok u =>
                cases h
                refine h0.seq h1 (fun H e0 e1 => ?_)
                simp only [receiveCheck, if_pos hlen, hf, withHandler_deser hft e0, hd, if_neg ht, hst1,
                  if_pos (show (env.withHandler H).handlePackets = true from hp), show (env.withHandler H).depth = env.depth from rfl, e1]
          · rename_i hp
            cases h
            refine (Realised.reads env hl1 st.ev.names).map (fun H e0 => ?_)
            simp only [receiveCheck, if_pos hlen, hf, withHandler_deser hft e0, hd, if_neg ht, hst1,
              if_neg (show ¬ (env.withHandler H).handlePackets = true from hp)]
  · rename_i hlen
    cases h
    refine Realised.pure (Nat.le_refl _) (fun H => ?_)
    simp only [receiveCheck, if_neg hlen]

theorem ackLoop_realised (env : DEnv) (beh : SBehaviour) (fuel : Nat) (hr : HostRef) : ∀ (ids : List Nat) (n : Nat) (msg : Message) (st st' : SubsState) (x : Py (Nat × Message)),
    ackLoopSubs env beh fuel hr ids n msg st = (some x, st') → Realised env (fun env' => ackLoop env' hr ids n msg st.d) st.d x st'.d
  | [], n, msg, st, st', x, h => by
    cases h
    exact Realised.pure (Nat.le_refl _) (fun _ => rfl)
  | pid :: ids, n, msg, st, st', x, h => by
    unfold ackLoopSubs at h
    simp only at h
    split at h
    · rename_i hn
      generalize hy : sendSubs env beh fuel env.depth st (addAckBlock (if n = 0 then Message.new "PacketAck" [] else msg) pid) hr .plain = y at h
      obtain ⟨y, st1⟩ := y
      cases y with
      | none => cases h
      | some w =>
        have h1 := send_realised env beh fuel env.depth _ _ _ _ _ _ hy
        cases w with
        | error e =>
          cases h
          refine h1.map (fun H e1 => ?_)
          unfold ackLoop
          simp only [if_pos hn, send, show (env.withHandler H).depth = env.depth from rfl, e1]
        | ok u =>
          refine h1.seq (ackLoop_realised env beh fuel hr ids 0 _ st1 st' x h) (fun H e1 e2 => ?_)
          unfold ackLoop
          simp only [if_pos hn, send, show (env.withHandler H).depth = env.depth from rfl, e1]
          exact e2
    · rename_i hn
      refine (ackLoop_realised env beh fuel hr ids _ _ st st' x h).map (fun H e => ?_)
      unfold ackLoop
      simp only [if_neg hn]
      exact e

theorem ackCircuit_realised (env : DEnv) (beh : SBehaviour) (fuel : Nat) (st st' : SubsState) (a : Addr) (x : Py Unit)
    (h : ackCircuitSubs env beh fuel st a = (some x, st')) : Realised env (fun env' => ackCircuit env' st.d a) st.d x st'.d := by
  unfold ackCircuitSubs at h
  cases hc : st.d.circuits.get? a with
  | none =>
    rw [hc] at h
    cases h
    exact Realised.pure (Nat.le_refl _) (fun H => by simp only [ackCircuit, hc])
  | some c =>
    rw [hc] at h
    simp only at h
    generalize hy : ackLoopSubs env beh fuel c.host c.acks 0 (Message.new "PacketAck" []) st = y at h
    obtain ⟨y, st1⟩ := y
    cases y with
    | none => cases h
    | some w =>
      have h1 := ackLoop_realised env beh fuel c.host c.acks 0 _ st st1 w hy
      cases w with
      | error e =>
        cases h
        exact h1.map (fun H e1 => by simp only [ackCircuit, hc, e1])
      | ok p =>
        obtain ⟨n, msg⟩ := p
        simp only at h
        generalize hz : (if 0 < n then sendSubs env beh fuel env.depth st1 msg c.host .plain else (some (.ok none), st1)) = z at h
        obtain ⟨z, st2⟩ := z
        cases z with
        | none => cases h
        | some v =>
          have h2 : Realised env (fun env' => if 0 < n then send env' st1.d msg c.host .plain else (.ok none, st1.d)) st1.d v st2.d := by
            split at hz
            · rename_i hn
              exact (send_realised env beh fuel env.depth _ _ _ _ _ _ hz).map (fun H e => by rw [if_pos hn]; exact e)
            · rename_i hn
              cases hz
              exact Realised.pure (Nat.le_refl _) (fun H => by rw [if_neg hn])
          cases v with
          | error e =>
            cases h
            exact h1.seq h2 (fun H e1 e2 => by simp only [ackCircuit, hc, e1, e2])
          | ok u =>
            simp only at h
            cases hg : st2.d.circuits.get? a with
            | none =>
              rw [hg] at h
              cases h
              exact h1.seq h2 (fun H e1 e2 => by simp only [ackCircuit, hc, e1, e2, hg])
            | some c2 =>
              rw [hg] at h
              cases h
              exact h1.seqAfter h2 rfl (fun H e1 e2 => by simp only [ackCircuit, hc, e1, e2, hg])

theorem sendAcks_realised (env : DEnv) (beh : SBehaviour) (fuel : Nat) : ∀ (as : List Addr) (st st' : SubsState) (x : Py Unit),
    sendAcksSubs env beh fuel as st = (some x, st') → Realised env (fun env' => sendAcks env' as st.d) st.d x st'.d
  | [], st, st', x, h => by
    cases h
    exact Realised.pure (Nat.le_refl _) (fun _ => rfl)
  | a :: as, st, st', x, h => by
    unfold sendAcksSubs at h
    generalize hy : ackCircuitSubs env beh fuel st a = y at h
    obtain ⟨y, st1⟩ := y
    cases y with
    | none => cases h
    | some w =>
      have h1 := ackCircuit_realised env beh fuel st st1 a w hy
      cases w with
      | error e =>
        cases h
        exact h1.map (fun H e1 => by simp only [sendAcks, e1])
      | ok u => exact h1.seq (sendAcks_realised env beh fuel as st1 st' x h) (fun H e1 e2 => by simp only [sendAcks, e1]; exact e2)

theorem processAcks_realised (env : DEnv) (beh : SBehaviour) (fuel : Nat) (st st' : SubsState) (order : List Addr) (x : Py Unit)
    (h : processAcksSubs env beh fuel st order = (some x, st')) : Realised env (fun env' => processAcks env' st.d order) st.d x st'.d := by
  unfold processAcksSubs at h
  cases hr : resendAll st.d with
  | error e =>
    rw [hr] at h
    cases h
    exact Realised.pure (Nat.le_refl _) (fun H => by simp only [processAcks, hr])
  | ok u =>
    rw [hr] at h
    exact (sendAcks_realised env beh fuel order st st' x h).map (fun H e => by simp only [processAcks, hr]; exact e)

/-- One operation. -/
theorem step_realised (env : DEnv) (beh : SBehaviour) (fuel : Nat) (st st' : SubsState) (o : Op) (x : OpResult) (h : stepSubs env beh fuel st (.op o) = (some x, st')) :
    Realised env (fun env' => (.ok (opResult env' st.d o), step env' st.d o)) st.d (.ok x) st'.d := by
  cases o with
  | send m r mode =>
    simp only [stepSubs] at h
    generalize hy : sendSubs env beh fuel env.depth st m r mode = y at h
    obtain ⟨y, st1⟩ := y
    cases y with
    | none => cases h
    | some w =>
      cases h
      exact (send_realised env beh fuel env.depth _ _ _ _ _ _ hy).map (fun H e => by
        have e' : send (env.withHandler H) st.d m r mode = (w, st1.d) := e
        simp only [opResult, step, e'])
  | recv r dg =>
    simp only [stepSubs] at h
    generalize hy : receiveSubs env beh fuel st r dg = y at h
    obtain ⟨y, st1⟩ := y
    cases y with
    | none => cases h
    | some w =>
      cases h
      exact (receive_realised env beh fuel _ _ _ _ _ hy).map (fun H e => by simp only [opResult, step, e])
  | processAcks order =>
    simp only [stepSubs] at h
    generalize hy : processAcksSubs env beh fuel st order = y at h
    obtain ⟨y, st1⟩ := y
    cases y with
    | none => cases h
    | some w =>
      cases h
      exact (processAcks_realised env beh fuel _ _ _ _ hy).map (fun H e => by simp only [opResult, step, e])
  | setHost r v =>
    cases h
    exact Realised.pure (Nat.le_refl _) (fun _ => rfl)
  | removeCircuit r =>
    cases h
    exact Realised.pure (by simp [step, DState.log]) (fun _ => rfl)
  | setTrusted a b =>
    cases h
    refine Realised.pure ?_ (fun _ => rfl)
    simp only [step]
    split <;> exact Nat.le_refl _

/-- A history. -/
theorem runSubs_realised (env : DEnv) (beh : SBehaviour) (fuel : Nat) : ∀ (ops : List SOp) (st st' : SubsState) (rs : List OpResult),
    runSubs env beh fuel st ops = some (rs, st') →
    Realised env (fun env' => (.ok (opResults env' st.d (dispatcherOps ops)), runOps env' st.d (dispatcherOps ops))) st.d (.ok (dispatcherResults ops rs)) st'.d
  | [], st, st', rs, h => by
    cases h
    exact Realised.pure (Nat.le_refl _) (fun _ => rfl)
  | o :: ops, st, st', rs, h => by
    unfold runSubs at h
    generalize hy : stepSubs env beh fuel st o = y at h
    obtain ⟨y, st1⟩ := y
    cases y with
    | none => cases h
    | some r =>
      simp only at h
      cases hz : runSubs env beh fuel st1 ops with
      | none => rw [hz] at h; cases h
      | some z =>
        obtain ⟨rs', st2⟩ := z
        rw [hz] at h
        cases h
        have h2 := runSubs_realised env beh fuel ops st1 st2 rs' hz
        cases o with
        | subs o =>
          cases hy
          exact h2
        | op o =>
          refine (step_realised env beh fuel st st1 o r hy).seq h2 (fun H e1 e2 => ?_)
          simp only [Prod.mk.injEq, Except.ok.injEq] at e1 e2
          simp only [dispatcherOps, dispatcherResults, opResults, runOps, List.foldl_cons, Prod.mk.injEq, Except.ok.injEq, List.cons.injEq, e1, e2.1, true_and]
          exact e2.2

end Pyogp
