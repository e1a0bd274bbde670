import Verif.Spec.Manager
import Verif.Proofs.Acks
import Verif.Proofs.Send

/-!
# Proofs: the message manager
-/

namespace Pyogp
open Spec

theorem enqueue_foldl (es : List QEntry) : ∀ q : List QEntry,
    es.foldl enqueue q = (es.filter (·.now)).reverse ++ q ++ es.filter (fun e => !e.now) := by
  induction es with
  | nil => intro q; simp
  | cons e es ih =>
    intro q
    rw [List.foldl_cons, ih]
    cases h : e.now <;> simp [enqueue, h]

theorem sendUdp_mode (env : MEnv) (d : DState) (e : QEntry) :
    sendUdpMessage env d e = send env.disp d e.msg env.host (if e.reliable then .reliable 0 else .plain) := by
  unfold sendUdpMessage; split <;> rfl

/-- What sending one queued message shows. -/
theorem sendUdp_visible {env : MEnv} (hb : env.disp.handleOutgoing = false) (hd : 0 < env.disp.depth) (d : DState) (e : QEntry)
    (hok : (d.hosts env.host).isOk = true) (hr : ∃ t, e.msg.render = .ok t) :
    ∃ o d' new, sendUdpMessage env d e = (.ok o, d') ∧ d'.hosts = d.hosts ∧ d'.trace = d.trace ++ new ∧
      (preparedMsgs new).map visible = [wanted (d.hosts env.host).addr e] := by
  rw [sendUdp_mode, send_default hb hd, hok, if_pos rfl]
  obtain ⟨o, ho⟩ := transmit_total env.disp d e.msg env.host (if e.reliable then .reliable 0 else .plain) hr
  refine ⟨o, _, _, Prod.ext ho rfl, (transmit_keeps _ _ _ _ _).hosts, (transmit_trace _ _ _ _ _).1, ?_⟩
  have hcons : ∀ (a : Addr) (m : Message) (l : List Ev), preparedMsgs (.prepared a m :: l) = (a, m) :: preparedMsgs l := by
    intro a m l; simp [preparedMsgs]
  generalize (transmit env.disp d e.msg env.host (if e.reliable = true then SendMode.reliable 0 else SendMode.plain)).1 = o'
  rw [hcons, prepare_eq]
  suffices h : [((d.hosts env.host).addr, preparedMsg (findCircuit d env.host).2 e.msg
      (if e.reliable = true then SendMode.reliable 0 else SendMode.plain).flag
      (if e.reliable = true then SendMode.reliable 0 else SendMode.plain).retries)].map visible = [wanted (d.hosts env.host).addr e] by
    match o' with
    | .ok (some _) => exact h
    | .ok none => exact h
    | .error _ => exact h
  rw [List.map_singleton]
  have hr := preparedMsg_reliable (findCircuit d env.host).2 e.msg (if e.reliable then .reliable 0 else .plain)
  simp only [visible, wanted, preparedMsg_name, preparedMsg_blocks, List.cons.injEq, Prod.mk.injEq, true_and, and_true]
  cases he : e.reliable with
  | true => rw [he] at hr; exact decide_eq_true (hr.mpr rfl)
  | false =>
    rw [he] at hr
    refine decide_eq_false fun h => ?_
    have := hr.mp h
    cases this

/-- Draining a queue that nobody adds to. -/
theorem drain_default {env : MEnv} (hb : env.disp.handleOutgoing = false) (hd : 0 < env.disp.depth) (hm : ∀ s, env.meanwhile s = []) :
    ∀ (fuel : Nat) (st : MState), st.queue.length < fuel → (st.disp.hosts env.host).isOk = true → (∀ e ∈ st.queue, ∃ t, e.msg.render = .ok t) →
    ∃ st' new, drain env fuel st = (some (.ok ()), st') ∧ st'.queue = [] ∧ st'.calls = st.calls ++ st.queue ∧ st'.disp.hosts = st.disp.hosts ∧
      st'.disp.trace = st.disp.trace ++ new ∧ (preparedMsgs new).map visible = st.queue.map (wanted (st.disp.hosts env.host).addr) := by
  intro fuel
  induction fuel with
  | zero => intro st h; omega
  | succ fuel ih =>
    intro st hlen hok hren
    unfold drain
    cases hq : st.queue with
    | nil => exact ⟨st, [], rfl, hq, by simp, rfl, by simp, rfl⟩
    | cons e q =>
      obtain ⟨o, d', new, h1, h2, h3, h4⟩ := sendUdp_visible hb hd (st.popped e q).disp e hok
        (hren e (by rw [hq]; exact List.mem_cons_self))
      simp only [h1, hm]
      have hen : ∀ s : MState, s.enqueueAll [] = s := by intro s; simp [MState.enqueueAll]
      rw [hen]
      rw [hq, List.length_cons] at hlen
      obtain ⟨st', new', g1, g2, g3, g4, g5, g6⟩ := ih ((st.popped e q).setDisp d') (by simp only [MState.setDisp, MState.popped]; omega)
        (by simp only [MState.setDisp, h2, MState.popped]; exact hok)
        (fun x hx => hren x (by rw [hq]; exact List.mem_cons_of_mem _ hx))
      refine ⟨st', new ++ new', g1, g2, ?_, ?_, ?_, ?_⟩
      · rw [g3]; simp [MState.setDisp, MState.popped]
      · rw [g4]; exact h2
      · rw [g5]; simp only [MState.setDisp, h3]; simp [MState.popped]
      · rw [preparedMsgs_append, List.map_append, h4, g6]
        simp only [MState.setDisp, h2]; simp [MState.popped]

/-! ## Nothing is lost, whatever happens meanwhile -/

/-- What was enqueued is what was sent and what still waits; those not urgent keep their order. -/
structure QueueInv (st : MState) : Prop where
  perm : (st.calls ++ st.queue).Perm st.enqueued
  fifo : (st.calls ++ st.queue).filter (fun e => !e.now) = st.enqueued.filter (fun e => !e.now)

theorem QueueInv.enqueueAll {st : MState} (h : QueueInv st) (es : List QEntry) : QueueInv (st.enqueueAll es) := by
  constructor
  · simp only [MState.enqueueAll, enqueue_foldl]
    have hp := h.perm
    have he : ((es.filter (·.now)).reverse ++ es.filter (fun e => !e.now)).Perm es :=
      ((List.reverse_perm _).append_right _).trans (List.filter_append_perm _ es)
    have h2 : ((es.filter (·.now)).reverse ++ st.queue ++ es.filter (fun e => !e.now)).Perm (st.queue ++ es) := by
      refine (List.perm_append_comm.append_right _).trans ?_
      rw [List.append_assoc]
      exact he.append_left _
    refine (h2.append_left _).trans ?_
    rw [← List.append_assoc]
    exact hp.append_right _
  · simp only [MState.enqueueAll, enqueue_foldl, List.filter_append, List.filter_reverse, List.filter_filter]
    rw [← h.fifo, List.filter_append]
    have h0 : List.filter (fun e : QEntry => !e.now && e.now) es = [] := by
      rw [List.filter_eq_nil_iff]; intro e _; cases e.now <;> simp
    simp

theorem QueueInv.setDisp {st : MState} (h : QueueInv st) (d : DState) : QueueInv (st.setDisp d) := ⟨h.perm, h.fifo⟩

theorem QueueInv.popped {st : MState} (h : QueueInv st) {e : QEntry} {q : List QEntry} (hq : st.queue = e :: q) : QueueInv (st.popped e q) := by
  have : (st.calls ++ [e]) ++ q = st.calls ++ st.queue := by rw [hq]; simp
  exact ⟨by simp only [MState.popped, this]; exact h.perm, by simp only [MState.popped, this]; exact h.fifo⟩

/-- An invariant of everything the loop does. -/
structure MClosed (env : MEnv) (P : MState → Prop) : Prop where
  enq : ∀ st es, P st → P (st.enqueueAll es)
  pop : ∀ st e q, P st → st.queue = e :: q → P ((st.popped e q).setDisp (sendUdpMessage env (st.popped e q).disp e).2)
  recv : ∀ st i, P st → P (st.setDisp (receiveRound env st.disp i).2)
  ack : ∀ st order, P st → P (st.setDisp (ackRound env st.disp order).2)

theorem drain_preserves {env : MEnv} {P : MState → Prop} (hc : MClosed env P) : ∀ (fuel : Nat) (st : MState), P st → P (drain env fuel st).2 := by
  intro fuel
  induction fuel with
  | zero => intro st h; exact h
  | succ fuel ih =>
    intro st h
    unfold drain
    split
    · exact h
    · rename_i e q hq
      have := hc.pop st e q h hq
      cases hs : sendUdpMessage env (st.popped e q).disp e with
      | mk r d =>
        rw [hs] at this
        simp only [hs]
        cases r with
        | error x => exact this
        | ok o => exact ih _ (hc.enq _ _ this)

theorem udpRound_preserves {env : MEnv} {P : MState → Prop} (hc : MClosed env P) (fuel : Nat) (st : MState) (i : Option Incoming)
    (order : DState → List Addr) (h : P st) : P (udpRound env fuel st i order).2 := by
  unfold udpRound
  have h0 := hc.enq st (env.meanwhile st) h
  have h1 := hc.recv _ i h0
  generalize hs : st.enqueueAll (env.meanwhile st) = st0 at *
  simp only
  cases hr : receiveRound env st0.disp i with
  | mk r d =>
    rw [hr] at h1
    cases r with
    | error x => exact h1
    | ok o =>
      simp only
      have h2 := hc.enq _ (env.meanwhile (st0.setDisp d)) h1
      have h3 := hc.ack _ (order ((st0.setDisp d).enqueueAll (env.meanwhile (st0.setDisp d))).disp) h2
      generalize (st0.setDisp d).enqueueAll (env.meanwhile (st0.setDisp d)) = st2 at h3 ⊢
      cases ha : ackRound env st2.disp (order st2.disp) with
      | mk r2 d2 =>
        rw [ha] at h3
        cases r2 with
        | error x => exact h3
        | ok _ => exact drain_preserves hc fuel _ (hc.enq _ _ h3)

theorem udpLoop_preserves {env : MEnv} {P : MState → Prop} (hc : MClosed env P) (fuel : Nat) (order : DState → List Addr) :
    ∀ (is : List (Option Incoming)) (st : MState), P st → P (udpLoop env fuel order is st).2 := by
  intro is
  induction is with
  | nil => intro st h; exact h
  | cons i is ih =>
    intro st h
    have := udpRound_preserves hc fuel st i order h
    unfold udpLoop
    cases hr : udpRound env fuel st i order with
    | mk r s =>
      rw [hr] at this
      match r with
      | some (.ok _) => exact ih _ this
      | some (.error _) => exact this
      | none => exact this

theorem queueInv_closed (env : MEnv) : MClosed env QueueInv where
  enq := fun _ es h => h.enqueueAll es
  pop := fun _ _ _ h hq => (h.popped hq).setDisp _
  recv := fun _ _ h => h.setDisp _
  ack := fun _ _ h => h.setDisp _

/-! ## The dispatcher of a manager is a reachable dispatcher -/

/-- It is in a state that some history of uses leads to. -/
def Reach (env : DEnv) (d : DState) : Prop := ∃ hosts ops, d = runOps env (DState.init hosts) ops

theorem Reach.step {env : DEnv} {d : DState} (h : Reach env d) (op : Op) : Reach env (step env d op) := by
  obtain ⟨hosts, ops, rfl⟩ := h
  exact ⟨hosts, ops ++ [op], by simp [runOps]⟩

theorem reach_closed (env : MEnv) : MClosed env (fun st => Reach env.disp st.disp) where
  enq := fun _ _ h => h
  pop := by
    intro st e q h _
    have := h.step (.send e.msg env.host (if e.reliable then .reliable 0 else .plain))
    simp only [MState.setDisp, sendUdp_mode]
    exact this
  recv := by
    intro st i h
    cases i with
    | none => exact h.step (.recv env.sender [])
    | some i => exact (h.step (.setHost env.sender ⟨.str i.ip, some i.port⟩)).step (.recv env.sender (i.dg.take recvBuffer))
  ack := by
    intro st order h
    simp only [MState.setDisp, ackRound]
    split
    · exact h.step (.processAcks order)
    · exact h

/-! ## With the default setting only receiving can raise -/

theorem ackRound_noerr {env : MEnv} (hb : env.disp.handleOutgoing = false) (hd : 0 < env.disp.depth) {d : DState} (hr : Reach env.disp d)
    (order : List Addr) : ∃ d', ackRound env d order = (.ok (), d') ∧ d'.hosts = d.hosts := by
  unfold ackRound
  split
  · obtain ⟨hosts, ops, rfl⟩ := hr
    have hi := reachable_inv env.disp hosts ops
    have : resendAll (runOps env.disp (DState.init hosts) ops) = .ok () := by
      unfold resendAll; rw [hi.noRetry]; rfl
    unfold processAcks
    rw [this]
    exact sendAcks_noerr hb hd _ _
  · exact ⟨_, rfl, rfl⟩

/-- What was ever enqueued stays recorded. -/
theorem enqueued_closed (env : MEnv) (l : List QEntry) : MClosed env (fun st => l <+: st.enqueued) where
  enq := fun _ _ h => h.trans (List.prefix_append _ _)
  pop := fun _ _ _ h _ => h
  recv := fun _ _ h => h
  ack := fun _ _ h => h

theorem drain_enqueued (env : MEnv) (fuel : Nat) (st : MState) : st.enqueued <+: (drain env fuel st).2.enqueued :=
  drain_preserves (enqueued_closed env st.enqueued) fuel st (List.prefix_refl _)

theorem drain_noerr {env : MEnv} (hb : env.disp.handleOutgoing = false) (hd : 0 < env.disp.depth) : ∀ (fuel : Nat) (st : MState) (x : Exc),
    QueueInv st → (∀ e ∈ (drain env fuel st).2.enqueued, ∃ t, e.msg.render = .ok t) → (drain env fuel st).1 ≠ some (.error x) := by
  intro fuel
  induction fuel with
  | zero => intro st x _ _ h; cases h
  | succ fuel ih =>
    intro st x hi hren
    have hpre := drain_enqueued env (fuel + 1) st
    unfold drain at hren hpre ⊢
    split
    · intro h; cases h
    · rename_i e q hq
      simp only [hq] at hren hpre
      have he : ∃ t, e.msg.render = .ok t := by
        apply hren
        apply hpre.subset
        exact hi.perm.subset (List.mem_append_right _ (by rw [hq]; exact List.mem_cons_self))
      obtain ⟨o, d', h, _⟩ := send_default_ok hb hd (st.popped e q).disp e.msg env.host (if e.reliable then .reliable 0 else .plain) he
      rw [← sendUdp_mode] at h
      simp only [h] at hren ⊢
      exact ih _ _ (((hi.popped hq).setDisp d').enqueueAll _) hren

/-- Where a loop that raised got its exception from. -/
theorem udpLoop_error {env : MEnv} (hb : env.disp.handleOutgoing = false) (hd : 0 < env.disp.depth) (fuel : Nat) (order : DState → List Addr) :
    ∀ (is : List (Option Incoming)) (st : MState), Reach env.disp st.disp → QueueInv st →
    (∀ e ∈ (udpLoop env fuel order is st).2.enqueued, ∃ t, e.msg.render = .ok t) → ∀ x, (udpLoop env fuel order is st).1 = some (.error x) →
    ∃ d i, i ∈ is ∧ Reach env.disp d ∧ (receiveRound env d i).1 = .error x := by
  intro is
  induction is with
  | nil => intro st _ _ _ x h; cases h
  | cons i is ih =>
    intro st hr hqi hren x h
    have hq' := udpRound_preserves (queueInv_closed env) fuel st i order hqi
    have hr' := udpRound_preserves (reach_closed env) fuel st i order hr
    unfold udpLoop at h hren
    cases hrd : udpRound env fuel st i order with
    | mk r s =>
      rw [hrd] at hr' hq'
      simp only [hrd] at h hren
      match r, h, hrd, hren with
      | some (.ok _), h, _, hren =>
        obtain ⟨d, j, h1, h2⟩ := ih s hr' hq' hren x h
        exact ⟨d, j, List.mem_cons_of_mem _ h1, h2⟩
      | none, h, _, _ => cases h
      | some (.error y), h, hrd, hren =>
        cases h
        have h0 : Reach env.disp (st.enqueueAll (env.meanwhile st)).disp := (reach_closed env).enq st _ hr
        have h1 := (reach_closed env).recv _ i h0
        unfold udpRound at hrd
        simp only at hrd
        cases hrr : receiveRound env (st.enqueueAll (env.meanwhile st)).disp i with
        | mk r1 d1 =>
          rw [hrr] at h1 hrd
          cases r1 with
          | error z =>
            refine ⟨_, i, List.mem_cons_self, h0, ?_⟩
            rw [hrr]; simp only [Prod.mk.injEq, Option.some.injEq, Except.error.injEq] at hrd
            rw [hrd.1]
          | ok o =>
            simp only at hrd
            generalize hs2 : ((st.enqueueAll (env.meanwhile st)).setDisp d1).enqueueAll
              (env.meanwhile ((st.enqueueAll (env.meanwhile st)).setDisp d1)) = st2 at hrd
            have h2 : Reach env.disp st2.disp := by rw [← hs2]; exact h1
            obtain ⟨d2, ha, _⟩ := ackRound_noerr hb hd h2 (order st2.disp)
            simp only [ha] at hrd
            have hqi2 : QueueInv (st2.setDisp d2) := by
              rw [← hs2]; exact (((hqi.enqueueAll _).setDisp d1).enqueueAll _).setDisp d2
            refine absurd (congrArg Prod.fst hrd) (drain_noerr hb hd _ _ _ (hqi2.enqueueAll _) ?_)
            rw [hrd]; exact hren

theorem drain_ok_queue {env : MEnv} : ∀ (fuel : Nat) (st st' : MState), drain env fuel st = (some (.ok ()), st') → st'.queue = [] := by
  intro fuel
  induction fuel with
  | zero => intro st st' h; cases h
  | succ fuel ih =>
    intro st st' h
    unfold drain at h
    split at h
    · cases h; assumption
    · rename_i e q _
      simp only at h
      split at h
      · cases h
      · exact ih _ _ h

theorem udpRound_ok_queue {env : MEnv} {fuel : Nat} {st st' : MState} {i : Option Incoming} {order : DState → List Addr}
    (h : udpRound env fuel st i order = (some (.ok ()), st')) : st'.queue = [] := by
  unfold udpRound at h
  simp only at h
  split at h
  · cases h
  · split at h
    · cases h
    · exact drain_ok_queue _ _ _ h

theorem udpLoop_ok_queue {env : MEnv} {fuel : Nat} {order : DState → List Addr} : ∀ (is : List (Option Incoming)) (st st' : MState),
    udpLoop env fuel order is st = (some (.ok ()), st') → is ≠ [] → st'.queue = [] := by
  intro is
  induction is with
  | nil => intro _ _ _ h; exact absurd rfl h
  | cons i is ih =>
    intro st st' h _
    unfold udpLoop at h
    split at h
    · rename_i s hs
      cases is with
      | nil => cases h; exact udpRound_ok_queue hs
      | cons j js => exact ih _ _ h (by simp)
    · rename_i hne
      exact absurd h (by intro he; exact hne _ _ he)

end Pyogp
