import Verif.Spec.Callbacks
import Verif.Props.UdpDeferred
import Verif.Props.Render

/-!
# C118: the callbacks of `Helpers`
-/

namespace Pyogp
open Spec

/-! ## Subscribers that do nothing -/

theorem withoutSubs_register (q : Sub → Bool) (st : SubsState) (n : String) :
    withoutSubs q { st with ev := SubOp.apply st.ev (.register n) } = { withoutSubs q st with ev := SubOp.apply (withoutSubs q st).ev (.register n) } := by
  simp only [withoutSubs, SubOp.apply, register]
  by_cases h : n ∈ st.ev.names <;> simp only [h, if_true, if_false]

/-- A way of sending that these subscribers do not change. -/
def SendUnnoticed (q : Sub → Bool) (send send0 : SendFn) : Prop :=
  ∀ st m r mode x st1, send st m r mode = (some x, st1) → st1.ev.subs = st.ev.subs ∧ send0 (withoutSubs q st) m r mode = (some x, withoutSubs q st1)

theorem run_unnoticed {q : Sub → Bool} {send send0 : SendFn} (hs : SendUnnoticed q send send0) {p : SProg} (hp : KeepsSubs p) : ∀ (st st1 : SubsState) (r : Py Unit),
    p.run send st = (some r, st1) → st1.ev.subs = st.ev.subs ∧ p.run send0 (withoutSubs q st) = (some r, withoutSubs q st1) := by
  induction hp with
  | done => intro st st1 r h; cases h; exact ⟨rfl, rfl⟩
  | raise e => intro st st1 r h; cases h; exact ⟨rfl, rfl⟩
  | send m hr mode k _ ih =>
    intro st st1 r h
    unfold SProg.run at h ⊢
    generalize hy : send st m hr mode = y at h
    obtain ⟨y, st2⟩ := y
    cases y with
    | none => cases h
    | some x =>
      obtain ⟨h1, h2⟩ := hs st m hr mode x st2 hy
      obtain ⟨h3, h4⟩ := ih x st2 st1 r h
      rw [h2]
      exact ⟨h3.trans h1, h4⟩
  | setHost hr v k _ ih => intro st st1 r h; exact ih _ st1 r h
  | register n k _ ih =>
    intro st st1 r h
    obtain ⟨h1, h2⟩ := ih _ st1 r h
    rw [withoutSubs_register] at h2
    refine ⟨h1.trans ?_, h2⟩
    simp only [SubOp.apply, register]
    split <;> rfl

theorem filter_at {α : Type} (p : α → Bool) (l : List α) (i : Nat) : l[i]? = none → (l.filter p)[((l.take i).filter p).length]? = none := by
  intro h
  rw [List.getElem?_eq_none_iff] at h ⊢
  rw [List.take_of_length_le h]
  exact Nat.le_refl _

theorem filter_at_some {α : Type} (p : α → Bool) (l : List α) (i : Nat) (s : α) (h : l[i]? = some s) :
    (p s = true → (l.filter p)[((l.take i).filter p).length]? = some s) ∧
    ((l.take (i + 1)).filter p).length = ((l.take i).filter p).length + (if p s then 1 else 0) := by
  obtain ⟨hi, hs⟩ := List.getElem?_eq_some_iff.mp h
  have e : l.take (i + 1) = l.take i ++ [s] := by rw [List.take_succ, h]; rfl
  refine ⟨fun hp => ?_, ?_⟩
  · have e2 : l.filter p = (l.take i).filter p ++ (s :: (l.drop (i + 1)).filter p) := by
      conv => lhs; rw [← List.take_append_drop (i + 1) l, e]
      rw [List.filter_append, List.filter_append, List.append_assoc]
      simp [hp]
    rw [e2, List.getElem?_append_right (Nat.le_refl _)]
    simp
  · rw [e, List.filter_append, List.length_append]
    cases hp : p s <;> simp [hp]

theorem notifySubs_some {beh : SBehaviour} {send : SendFn} {level : Nat} {m : Message} {fuel i : Nat} {st : SubsState} {s : Sub} (hi : (st.ev.subs m.name)[i]? = some s) {st2 : SubsState}
    (h2 : { st with ev := st.ev.log ⟨level, m.name, s.handler, (m, s.args), s.kwargs⟩ } = st2) :
    notifySubs beh send level m (fuel + 1) i st =
      (match (beh st2.d.trace st2.ev.calls).run send st2 with
      | (some (.ok _), st) => notifySubs beh send level m fuel (i + 1) st
      | (some (.error e), st) => (some (.error e), st)
      | (none, st) => (none, st)) := by
  subst h2
  conv => lhs; unfold notifySubs
  simp only [hi]
  rfl

theorem notify_unnoticed {q : Sub → Bool} {beh beh0 : SBehaviour} (hu : Unnoticed q beh beh0) {send send0 : SendFn} (hs : SendUnnoticed q send send0) (level : Nat) (m : Message) :
    ∀ (fuel fuel0 i : Nat) (st st1 : SubsState) (r : Py Unit), fuel ≤ fuel0 → notifySubs beh send level m fuel i st = (some r, st1) →
    st1.ev.subs = st.ev.subs ∧
    notifySubs beh0 send0 level m fuel0 (((st.ev.subs m.name).take i).filter (fun s => !q s)).length (withoutSubs q st) = (some r, withoutSubs q st1)
  | 0, _, _, _, _, _, _, h => by cases h
  | fuel + 1, 0, _, _, _, _, hf, _ => by omega
  | fuel + 1, fuel0 + 1, i, st, st1, r, hf, h => by
    cases hi : (st.ev.subs m.name)[i]? with
    | none =>
      unfold notifySubs at h
      simp only [hi] at h
      cases h
      refine ⟨rfl, ?_⟩
      unfold notifySubs
      have : ((withoutSubs q st).ev.subs m.name)[(((st.ev.subs m.name).take i).filter (fun s => !q s)).length]? = none := filter_at _ _ _ hi
      rw [this]
    | some s =>
      obtain ⟨h1, h2⟩ := filter_at_some (fun s => !q s) _ _ _ hi
      generalize hst2 : ({ st with ev := st.ev.log ⟨level, m.name, s.handler, (m, s.args), s.kwargs⟩ } : SubsState) = st2
      rw [notifySubs_some hi hst2] at h
      have hsub : st2.ev.subs = st.ev.subs := by rw [← hst2]; rfl
      have hcalls : st2.ev.calls = st.ev.calls ++ [⟨level, m.name, s.handler, (m, s.args), s.kwargs⟩] := by rw [← hst2]; rfl
      have hd : st2.d = st.d := by rw [← hst2]
      cases hq : q s with
      | true =>
        rw [hcalls, hu.nothing _ _ ⟨level, m.name, s.handler, (m, s.args), s.kwargs⟩ hq] at h
        simp only [SProg.run] at h
        obtain ⟨h3, h4⟩ := notify_unnoticed hu hs level m fuel (fuel0 + 1) (i + 1) st2 st1 r (by omega) h
        refine ⟨h3.trans hsub, ?_⟩
        have e : withoutSubs q st2 = withoutSubs q st := by
          rw [← hst2]
          simp [withoutSubs, EvState.log, List.filter_append, subOf, hq]
        rw [hsub, h2, e] at h4
        simpa [hq] using h4
      | false =>
        have e : withoutSubs q st2 = { withoutSubs q st with ev := (withoutSubs q st).ev.log ⟨level, m.name, s.handler, (m, s.args), s.kwargs⟩ } := by
          rw [← hst2]
          simp [withoutSubs, EvState.log, List.filter_append, subOf, hq]
        have e2 : (withoutSubs q st2).ev.calls = (st.ev.calls ++ [(⟨level, m.name, s.handler, (m, s.args), s.kwargs⟩ : Call Message)]).filter (fun c => !q (subOf c)) := by
          rw [← hcalls]; rfl
        generalize hx : (beh st2.d.trace st2.ev.calls).run send st2 = x at h
        obtain ⟨x, st3⟩ := x
        have : ((withoutSubs q st).ev.subs m.name)[(((st.ev.subs m.name).take i).filter (fun s => !q s)).length]? = some s := h1 (by rw [hq]; rfl)
        rw [notifySubs_some this e.symm]
        cases x with
        | none => cases h
        | some x =>
          obtain ⟨h3, h4⟩ := run_unnoticed hs (hu.keeps _ _) _ _ _ hx
          rw [hcalls, hu.others _ _ ⟨level, m.name, s.handler, (m, s.args), s.kwargs⟩ hq, ← e2] at h4
          have e3 : (withoutSubs q st2).d = st2.d := rfl
          rw [e3, h4]
          cases x with
          | error er => cases h; exact ⟨h3.trans hsub, rfl⟩
          | ok u =>
            obtain ⟨h5, h6⟩ := notify_unnoticed hu hs level m fuel fuel0 (i + 1) st3 st1 r (by omega) h
            refine ⟨h5.trans (h3.trans hsub), ?_⟩
            rw [h3, hsub, h2] at h6
            simpa [hq] using h6

theorem handle_unnoticed {q : Sub → Bool} {beh beh0 : SBehaviour} (hu : Unnoticed q beh beh0) {send send0 : SendFn} (hs : SendUnnoticed q send send0) (fuel level : Nat) (m : Message)
    (st st1 : SubsState) (r : Py Unit) (h : handleSubs beh send fuel level m st = (some r, st1)) :
    st1.ev.subs = st.ev.subs ∧ handleSubs beh0 send0 fuel level m (withoutSubs q st) = (some r, withoutSubs q st1) := by
  unfold handleSubs at h ⊢
  split at h
  · rename_i hn
    rw [if_pos (show m.name ∈ (withoutSubs q st).ev.names from hn)]
    split at h
    · generalize hx : notifySubs beh send level m fuel 0 st = x at h
      obtain ⟨x, st2⟩ := x
      cases x with
      | none => cases h
      | some x =>
        obtain ⟨h1, h2⟩ := notify_unnoticed hu hs level m fuel fuel 0 st st2 x (Nat.le_refl _) hx
        simp only [List.take_zero, List.filter_nil, List.length_nil] at h2
        split
        · rw [h2]
          cases x with
          | error e => cases h; exact ⟨h1, rfl⟩
          | ok u => cases h; exact ⟨h1, rfl⟩
        · rename_i hl
          have hnil : (withoutSubs q st).ev.subs m.name = [] := List.length_eq_zero_iff.mp (by omega)
          cases fuel with
          | zero => cases hx
          | succ fuel =>
            unfold notifySubs at h2
            rw [hnil] at h2
            simp only [List.getElem?_nil] at h2
            injection h2 with h2 h3
            injection h2 with h2
            subst h2
            cases h
            exact ⟨h1, by rw [h3]⟩
    · rename_i hl
      cases h
      have : (withoutSubs q st).ev.subs m.name = [] := by
        have : st.ev.subs m.name = [] := List.length_eq_zero_iff.mp (by omega)
        show (st.ev.subs m.name).filter _ = []
        rw [this]; rfl
      rw [this]
      exact ⟨rfl, rfl⟩
  · rename_i hn
    rw [if_neg (show ¬ m.name ∈ (withoutSubs q st).ev.names from hn)]
    cases h
    exact ⟨rfl, rfl⟩

theorem send_unnoticed {q : Sub → Bool} {beh beh0 : SBehaviour} (hu : Unnoticed q beh beh0) (env : DEnv) (fuel : Nat) : ∀ n, SendUnnoticed q (sendSubs env beh fuel n) (sendSubs env beh0 fuel n)
  | 0 => by intro st m r mode x st1 h; cases h; exact ⟨rfl, rfl⟩
  | n + 1 => by
    intro st m r mode x st1 h
    unfold sendSubs at h ⊢
    have hd : (withoutSubs q st).d = st.d := rfl
    simp only [hd]
    split at h
    · rename_i ho; rw [if_pos ho]; cases h; exact ⟨rfl, rfl⟩
    · rename_i ho
      rw [if_neg ho]
      split at h
      · rename_i hw
        rw [if_pos hw]
        generalize hy : handleSubs beh (sendSubs env beh fuel n) fuel n m { st with d := st.d.log (.outgoing m) } = y at h
        obtain ⟨y, st2⟩ := y
        cases y with
        | none => cases h
        | some y =>
          obtain ⟨h1, h2⟩ := handle_unnoticed hu (send_unnoticed hu env fuel n) fuel n m _ _ _ hy
          have e : withoutSubs q { st with d := st.d.log (.outgoing m) } = { withoutSubs q st with d := st.d.log (.outgoing m) } := rfl
          rw [e] at h2
          rw [h2]
          cases y with
          | error e => cases h; exact ⟨h1, rfl⟩
          | ok u => cases h; exact ⟨h1, rfl⟩
      · rename_i hw
        rw [if_neg hw]
        cases h
        exact ⟨rfl, rfl⟩

theorem receive_unnoticed {q : Sub → Bool} {beh beh0 : SBehaviour} (hu : Unnoticed q beh beh0) (env : DEnv) (fuel : Nat) (st st1 : SubsState) (r : HostRef) (dg : Bytes)
    (x : Py (Option Message)) (h : receiveSubs env beh fuel st r dg = (some x, st1)) :
    receiveSubs env beh0 fuel (withoutSubs q st) r dg = (some x, withoutSubs q st1) := by
  unfold receiveSubs at h ⊢
  have hd : (withoutSubs q st).d = st.d := rfl
  have hn : (withoutSubs q st).ev.names = st.ev.names := rfl
  simp only [hd, hn]
  generalize findCircuit st.d r = dc at h ⊢
  obtain ⟨d, c⟩ := dc
  simp only at h ⊢
  split at h
  · rename_i hl
    rw [if_pos hl]
    split at h
    · rename_i e he; cases h; rfl
    · rename_i he
      split at h
      · rename_i e he2; cases h; rfl
      · rename_i pid he2; cases h; rfl
    · rename_i m he
      split at h
      · rename_i hc; rw [if_pos hc]; cases h; rfl
      · rename_i hc
        rw [if_neg hc]
        split at h
        · rename_i hp
          rw [if_pos hp]
          generalize hy : handleSubs beh _ fuel env.depth m _ = y at h
          obtain ⟨y, st2⟩ := y
          cases y with
          | none => cases h
          | some y =>
            have h2 := (handle_unnoticed hu (send_unnoticed hu env fuel env.depth) fuel env.depth m _ _ _ hy).2
            simp only [withoutSubs] at h2 ⊢
            rw [h2]
            cases y with
            | error e => cases h; rfl
            | ok u => cases h; rfl
        · rename_i hp; rw [if_neg hp]; cases h; rfl
  · rename_i hl
    rw [if_neg hl]
    cases h
    rfl

theorem ackLoop_unnoticed {q : Sub → Bool} {beh beh0 : SBehaviour} (hu : Unnoticed q beh beh0) (env : DEnv) (fuel : Nat) (h : HostRef) : ∀ (ids : List Nat) (n : Nat) (msg : Message) (st st1 : SubsState)
    (x : Py (Nat × Message)), ackLoopSubs env beh fuel h ids n msg st = (some x, st1) → ackLoopSubs env beh0 fuel h ids n msg (withoutSubs q st) = (some x, withoutSubs q st1)
  | [], _, _, _, _, _, hx => by cases hx; rfl
  | pid :: ids, n, msg, st, st1, x, hx => by
    unfold ackLoopSubs at hx ⊢
    simp only at hx ⊢
    split at hx
    · rename_i hl
      rw [if_pos hl]
      generalize hy : sendSubs env beh fuel env.depth st _ h .plain = y at hx
      obtain ⟨y, st2⟩ := y
      cases y with
      | none => cases hx
      | some y =>
        rw [(send_unnoticed hu env fuel env.depth _ _ _ _ _ _ hy).2]
        cases y with
        | error e => cases hx; rfl
        | ok u => exact ackLoop_unnoticed hu env fuel h ids _ _ st2 st1 x hx
    · rename_i hl
      rw [if_neg hl]
      exact ackLoop_unnoticed hu env fuel h ids _ _ st st1 x hx

theorem ackCircuit_unnoticed {q : Sub → Bool} {beh beh0 : SBehaviour} (hu : Unnoticed q beh beh0) (env : DEnv) (fuel : Nat) (st st1 : SubsState) (a : Addr) (x : Py Unit)
    (h : ackCircuitSubs env beh fuel st a = (some x, st1)) : ackCircuitSubs env beh0 fuel (withoutSubs q st) a = (some x, withoutSubs q st1) := by
  unfold ackCircuitSubs at h ⊢
  have hd : (withoutSubs q st).d = st.d := rfl
  rw [hd]
  split at h
  · rename_i hc; cases h; rfl
  · rename_i c hc
    generalize hy : ackLoopSubs env beh fuel c.host c.acks 0 (Message.new "PacketAck" []) st = y at h
    obtain ⟨y, st2⟩ := y
    cases y with
    | none => cases h
    | some y =>
      rw [ackLoop_unnoticed hu env fuel _ _ _ _ _ _ _ hy]
      cases y with
      | error e => cases h; rfl
      | ok y =>
        obtain ⟨n, msg⟩ := y
        simp only at h ⊢
        have key : ∀ (z : Option (Py (Option Bytes)) × SubsState), z = (if 0 < n then sendSubs env beh fuel env.depth st2 msg c.host .plain else (some (.ok none), st2)) →
            ∀ z1 st3, z = (some z1, st3) →
            (if 0 < n then sendSubs env beh0 fuel env.depth (withoutSubs q st2) msg c.host .plain else (some (.ok none), withoutSubs q st2)) = (some z1, withoutSubs q st3) := by
          intro z hz z1 st3 hz1
          rw [hz1] at hz
          split at hz
          · rename_i hl; rw [if_pos hl]; exact (send_unnoticed hu env fuel env.depth _ _ _ _ _ _ hz.symm).2
          · rename_i hl; rw [if_neg hl]; cases hz; rfl
        generalize hz : (if 0 < n then sendSubs env beh fuel env.depth st2 msg c.host .plain else (some (.ok none), st2)) = z at h
        obtain ⟨z, st3⟩ := z
        cases z with
        | none => cases h
        | some z =>
          rw [key _ hz.symm z st3 rfl]
          cases z with
          | error e => cases h; rfl
          | ok u =>
            have hd3 : (withoutSubs q st3).d = st3.d := rfl
            simp only [hd3] at h ⊢
            split at h
            · rename_i hc3; cases h; rfl
            · rename_i c3 hc3; cases h; rfl

theorem sendAcks_unnoticed {q : Sub → Bool} {beh beh0 : SBehaviour} (hu : Unnoticed q beh beh0) (env : DEnv) (fuel : Nat) : ∀ (order : List Addr) (st st1 : SubsState) (x : Py Unit),
    sendAcksSubs env beh fuel order st = (some x, st1) → sendAcksSubs env beh0 fuel order (withoutSubs q st) = (some x, withoutSubs q st1)
  | [], _, _, _, h => by cases h; rfl
  | a :: as, st, st1, x, h => by
    unfold sendAcksSubs at h ⊢
    generalize hy : ackCircuitSubs env beh fuel st a = y at h
    obtain ⟨y, st2⟩ := y
    cases y with
    | none => cases h
    | some y =>
      rw [ackCircuit_unnoticed hu env fuel _ _ _ _ hy]
      cases y with
      | error e => cases h; rfl
      | ok u => exact sendAcks_unnoticed hu env fuel as st2 st1 x h

theorem step_unnoticed {q : Sub → Bool} {beh beh0 : SBehaviour} (hu : Unnoticed q beh beh0) (env : DEnv) (fuel : Nat) (st st1 : SubsState) (o : SOp) (x : OpResult)
    (h : stepSubs env beh fuel st o = (some x, st1)) : stepSubs env beh0 fuel (withoutSubs q st) (withoutSubscribing q o) = (some x, withoutSubs q st1) := by
  cases o with
  | op o =>
    cases o with
    | send m r mode =>
      simp only [stepSubs, withoutSubscribing] at h ⊢
      generalize hy : sendSubs env beh fuel env.depth st m r mode = y at h
      obtain ⟨y, st2⟩ := y
      cases y with
      | none => cases h
      | some y => rw [(send_unnoticed hu env fuel env.depth _ _ _ _ _ _ hy).2]; cases h; rfl
    | recv r dg =>
      simp only [stepSubs, withoutSubscribing] at h ⊢
      generalize hy : receiveSubs env beh fuel st r dg = y at h
      obtain ⟨y, st2⟩ := y
      cases y with
      | none => cases h
      | some y => rw [receive_unnoticed hu env fuel _ _ _ _ _ hy]; cases h; rfl
    | processAcks order =>
      simp only [stepSubs, withoutSubscribing, processAcksSubs] at h ⊢
      have hd : (withoutSubs q st).d = st.d := rfl
      rw [hd]
      generalize resendAll st.d = re at h ⊢
      cases re with
      | error e => cases h; rfl
      | ok u =>
        simp only at h ⊢
        generalize hy : sendAcksSubs env beh fuel order st = y at h
        obtain ⟨y, st2⟩ := y
        cases y with
        | none => cases h
        | some y => rw [sendAcks_unnoticed hu env fuel _ _ _ _ hy]; cases h; rfl
    | _ => cases h; rfl
  | subs o =>
    cases h
    cases o with
    | register n =>
      show (some OpResult.nothing, _) = _
      rw [withoutSubs_register]
    | subscribe n s =>
      have hr : register (withoutSubs q st).ev n = (withoutSubs q { st with ev := register st.ev n }).ev :=
        congrArg SubsState.ev (withoutSubs_register q st n).symm
      cases hq : q s with
      | true =>
        simp only [withoutSubscribing, hq, if_true, stepSubs, SubOp.apply, hr]
        simp only [withoutSubs, EvState.setSubs, eventSubscribe, Prod.mk.injEq, SubsState.mk.injEq, EvState.mk.injEq, true_and, and_true]
        funext k
        split
        · rename_i hk
          subst hk
          simp only [List.filter_append, List.filter_cons, hq, List.filter_nil]
          simp only [register]; split <;> simp
        · rfl
      | false =>
        simp only [withoutSubscribing, hq, Bool.false_eq_true, if_false, stepSubs, SubOp.apply, hr]
        simp only [withoutSubs, EvState.setSubs, eventSubscribe, Prod.mk.injEq, SubsState.mk.injEq, EvState.mk.injEq, true_and, and_true]
        funext k
        split
        · simp [List.filter_append, hq]
        · rfl
    | unsubscribe n s =>
      simp only [withoutSubscribing, stepSubs, SubOp.apply]
      simp only [withoutSubs, EvState.setSubs, Prod.mk.injEq, SubsState.mk.injEq, EvState.mk.injEq, true_and, and_true]
      funext k
      split
      · simp only [eventUnsubscribe]
        have he : ∀ l : List Sub, (l.erase s).filter (fun s => !q s) = (l.filter (fun s => !q s)).erase s := fun l => (List.erase_filter ..).symm
        split
        · rename_i h1
          split
          · exact (he _).symm
          · rename_i h2; exact absurd (List.mem_of_mem_filter h1) h2
        · rename_i h1
          split
          · rw [he, List.erase_of_not_mem h1]
          · rfl
      · rfl

/-- **C118, not noticed.** Subscribers that do nothing are not noticed: in every history in which the other subscribers leave subscriptions alone, operations return and raise the same, the same other calls are made in the
same order, and the dispatcher and the other subscriptions come out the same, as when the client only registers the name instead of subscribing them. -/
theorem C118_unnoticed {q : Sub → Bool} {beh beh0 : SBehaviour} (hu : Unnoticed q beh beh0) (env : DEnv) (fuel : Nat) : ∀ (ops : List SOp) (st st1 : SubsState) (rs : List OpResult),
    runSubs env beh fuel st ops = some (rs, st1) →
    runSubs env beh0 fuel (withoutSubs q st) (ops.map (withoutSubscribing q)) = some (rs, withoutSubs q st1)
  | [], _, _, _, h => by cases h; rfl
  | o :: ops, st, st1, rs, h => by
    unfold runSubs at h
    generalize hy : stepSubs env beh fuel st o = y at h
    obtain ⟨y, st2⟩ := y
    cases y with
    | none => cases h
    | some y =>
      simp only at h
      cases hz : runSubs env beh fuel st2 ops with
      | none => rw [hz] at h; cases h
      | some z =>
        rw [hz] at h
        cases h
        rw [List.map_cons]
        unfold runSubs
        rw [step_unnoticed hu env fuel _ _ _ _ hy]
        simp only [C118_unnoticed hu env fuel ops st2 z.2 z.1 hz]
        rfl

theorem getLast?_snoc (cs : List (Call Message)) (c : Call Message) : (cs ++ [c]).getLast? = some c := by simp

theorem watcher_done {which : Nat → Option Callback} {beh : SBehaviour} (tr : List Ev) (cs : List (Call Message)) (c : Call Message) (h : watcher which (subOf c) = true) :
    withCallbacks which beh tr (cs ++ [c]) = .done := by
  unfold withCallbacks
  rw [getLast?_snoc]
  simp only [watcher, subOf, Bool.and_eq_true, Bool.or_eq_true, beq_iff_eq] at h
  obtain ⟨h1, h2⟩ := h
  rcases h1 with h1 | h1 <;> simp only [h1, Callback.prog, Callback.run, h2, if_true]

theorem callbacks_unnoticed {which : Nat → Option Callback} {beh : SBehaviour} (hb : ∀ tr cs c, watcher which (subOf c) = false → beh tr (cs ++ [c]) = beh tr ((cs ++ [c]).filter (fun c => !watcher which (subOf c)))) (hk : ∀ tr cs, KeepsSubs (beh tr cs)) :
    Unnoticed (watcher which) (withCallbacks which beh) (withCallbacks which beh) where
  nothing := fun tr cs c h => watcher_done tr cs c h
  others := by
    intro tr cs c h
    have e : ((cs ++ [c]).filter (fun c => !watcher which (subOf c))) = cs.filter (fun c => !watcher which (subOf c)) ++ [c] := by
      rw [List.filter_append]; simp [h]
    unfold withCallbacks
    rw [e, getLast?_snoc, getLast?_snoc]
    simp only
    cases which c.handler with
    | none => rw [hb tr cs c h, e]
    | some cb => rfl
  keeps := by
    intro tr cs
    unfold withCallbacks
    cases cs.getLast? with
    | none => exact hk tr cs
    | some c =>
      simp only
      cases which c.handler with
      | none => exact hk tr cs
      | some cb =>
        simp only [Callback.prog]
        split
        · exact .done
        · exact .raise _

/-- **C118, watching.** So with `null_packet_handler` and `log_event_queue_data`, each subscribed with one object, however often and for whatever messages. -/
theorem C118_watching (env : DEnv) (which : Nat → Option Callback) (beh : SBehaviour) (hb : ∀ tr cs c, watcher which (subOf c) = false → beh tr (cs ++ [c]) = beh tr ((cs ++ [c]).filter (fun c => !watcher which (subOf c))))
    (hk : ∀ tr cs, KeepsSubs (beh tr cs)) (fuel : Nat) (ops : List SOp) (st st1 : SubsState) (rs : List OpResult)
    (h : runSubs env (withCallbacks which beh) fuel st ops = some (rs, st1)) :
    runSubs env (withCallbacks which beh) fuel (withoutSubs (watcher which) st) (ops.map (withoutSubscribing (watcher which))) = some (rs, withoutSubs (watcher which) st1) :=
  C118_unnoticed (callbacks_unnoticed hb hk) env fuel ops st st1 rs h

theorem notify_watched {which : Nat → Option Callback} {beh : SBehaviour} {send : SendFn} (level : Nat) (m : Message) : ∀ (fuel i : Nat) (st : SubsState),
    (∀ s ∈ st.ev.subs m.name, watcher which s = true) → i ≤ (st.ev.subs m.name).length → (st.ev.subs m.name).length < fuel + i → (notifySubs (withCallbacks which beh) send level m fuel i st).1 = some (.ok ()) ∧
    (notifySubs (withCallbacks which beh) send level m fuel i st).2.d = st.d
  | 0, i, st, _, hi, hl => by omega
  | fuel + 1, i, st, hw, hil, hl => by
    cases hi : (st.ev.subs m.name)[i]? with
    | none => unfold notifySubs; simp only [hi]; exact ⟨trivial, trivial⟩
    | some s =>
      rw [notifySubs_some hi rfl]
      have hd : withCallbacks which beh st.d.trace (st.ev.log ⟨level, m.name, s.handler, (m, s.args), s.kwargs⟩).calls = .done := watcher_done _ _ _ (hw s (List.mem_of_getElem? hi))
      simp only [hd, SProg.run]
      exact notify_watched level m fuel (i + 1) _ hw (by have := (List.getElem?_eq_some_iff.mp hi).1; exact this) (by show (st.ev.subs m.name).length < _; omega)

theorem handle_watched {which : Nat → Option Callback} {beh : SBehaviour} {send : SendFn} (fuel level : Nat) (m : Message) (st : SubsState)
    (hw : ∀ s ∈ st.ev.subs m.name, watcher which s = true) (hl : (st.ev.subs m.name).length < fuel) :
    (handleSubs (withCallbacks which beh) send fuel level m st).1 = some (.ok ()) ∧ (handleSubs (withCallbacks which beh) send fuel level m st).2.d = st.d := by
  unfold handleSubs
  split
  · split
    · obtain ⟨h1, h2⟩ := notify_watched (send := send) (beh := beh) level m fuel 0 st hw (Nat.zero_le _) hl
      generalize notifySubs (withCallbacks which beh) send level m fuel 0 st = x at h1 h2
      obtain ⟨x, st2⟩ := x
      cases h1
      exact ⟨rfl, h2⟩
    · exact ⟨rfl, rfl⟩
  · exact ⟨rfl, rfl⟩

/-- A datagram that is parsed, from an untrusted circuit: the message is handed over in the state that a dispatcher without handlers is in after receiving it. -/
theorem receiveSubs_parsed (env : DEnv) (beh : SBehaviour) (fuel : Nat) (st : SubsState) (r : HostRef) (dg : Bytes) (m : Message)
    (hdg : (deserialize { env.deser st.d.trace with handled? := some st.ev.names } st.d.deser dg).1 = .ok (some m))
    (ht : ∀ c, st.d.circuits.get? (st.d.hosts r).addr = some c → c.trusted = false) :
    let d := (receiveCheck { withNames env (fun _ => st.ev.names) with handler := fun _ _ => .done, depth := 1 } st.d r dg).2
    receiveSubs env beh fuel st r dg =
      if env.handlePackets then
        match handleSubs beh (sendSubs env beh fuel env.depth) fuel env.depth m { st with d := d } with
        | (none, st) => (none, st)
        | (some (.error e), st) => (some (.error e), st)
        | (some (.ok _), st) => (some (.ok (some m)), st)
      else (some (.ok (some m)), { st with d := d }) := by
  have hlen : 0 < dg.length := by have := deserialize_long hdg; omega
  obtain ⟨hh, htr, _, _, _, hde, hg, hc⟩ := findCircuit_fields st.d r
  have hct : (findCircuit st.d r).2.trusted = false := by
    rw [hc]
    cases hx : st.d.circuits.get? (st.d.hosts r).addr with
    | none => rfl
    | some c => exact ht c hx
  intro d
  have hd : d = (receiveCheck { withNames env (fun _ => st.ev.names) with handler := fun _ _ => .done, depth := 1 } st.d r dg).2 := rfl
  rw [hd]
  unfold receiveSubs receiveCheck
  simp only [hlen, if_true, withNames, htr, hde, hdg, hct, Bool.false_and, Bool.false_eq_true, if_false]
  split
  · simp only [Prog.run]
    rfl
  · rfl

theorem registered_parsed {D : DeserEnv} {names : List String} {st : DeserState} {dg : Bytes} {m : Message}
    (hdg : (deserialize { D with deferred := false, handled? := some names } st dg).1 = .ok (some m)) (hn : m.name ∈ names) :
    (deserialize { D with handled? := some names } st dg).1 = .ok (some m) := by
  cases hdef : D.deferred with
  | false =>
    exact hdg
  | true =>
    rcases deserialize_deferring D names st dg with h | ⟨h, h2⟩
    · rw [h]; exact hdg
    · exact absurd hn (h2 m hdg)

/-- **C118, what watching is for.** A message whose name is registered, with no other subscribers than these, is parsed also when parsing is deferred, it is what `receive_check` returns, and the dispatcher does with
it what it does without subscribers. -/
theorem C118_parsed (env : DEnv) (which : Nat → Option Callback) (beh : SBehaviour) (fuel : Nat) (st : SubsState) (r : HostRef) (dg : Bytes) (m : Message)
    (hdg : (deserialize { env.deser st.d.trace with deferred := false, handled? := some st.ev.names } st.d.deser dg).1 = .ok (some m))
    (hn : m.name ∈ st.ev.names) (hw : ∀ s ∈ st.ev.subs m.name, watcher which s = true) (hl : (st.ev.subs m.name).length < fuel)
    (ht : ∀ c, st.d.circuits.get? (st.d.hosts r).addr = some c → c.trusted = false) :
    (receiveSubs env (withCallbacks which beh) fuel st r dg).1 = some (.ok (some m)) ∧
    (receiveSubs env (withCallbacks which beh) fuel st r dg).2.d = (receiveCheck { withNames env (fun _ => st.ev.names) with handler := fun _ _ => .done, depth := 1 } st.d r dg).2 := by
  rw [receiveSubs_parsed env _ fuel st r dg m (registered_parsed hdg hn) ht]
  split
  · obtain ⟨h1, h2⟩ := handle_watched (which := which) (beh := beh) (send := sendSubs env (withCallbacks which beh) fuel env.depth) fuel env.depth m
      { st with d := (receiveCheck { withNames env (fun _ => st.ev.names) with handler := fun _ _ => .done, depth := 1 } st.d r dg).2 } hw hl
    generalize handleSubs _ _ fuel env.depth m _ = x at h1 h2
    obtain ⟨x, st2⟩ := x
    cases h1
    exact ⟨rfl, h2⟩
  · exact ⟨rfl, rfl⟩

/-- **C118, raising.** If the first subscriber of a message that is received is one of the three and raises (but not a `KeyError`), `receive_check` raises that, no other subscriber is called, and the dispatcher has done
what it does without subscribers. -/
theorem C118_raises (env : DEnv) (hp : env.handlePackets = true) (which : Nat → Option Callback) (beh : SBehaviour) (fuel : Nat) (st : SubsState) (r : HostRef) (dg : Bytes) (m : Message)
    (hdg : (deserialize { env.deser st.d.trace with deferred := false, handled? := some st.ev.names } st.d.deser dg).1 = .ok (some m))
    (hn : m.name ∈ st.ev.names) (s : Sub) (rest : List Sub) (hs : st.ev.subs m.name = s :: rest) (cb : Callback) (hw : which s.handler = some cb)
    (e : Exc) (he : cb.run m s.args s.kwargs = .error e) (hk : e ≠ .keyError)
    (ht : ∀ c, st.d.circuits.get? (st.d.hosts r).addr = some c → c.trusted = false) :
    receiveSubs env (withCallbacks which beh) (fuel + 1) st r dg =
      (some (.error e), ⟨(receiveCheck { withNames env (fun _ => st.ev.names) with handler := fun _ _ => .done, depth := 1 } st.d r dg).2,
        st.ev.log ⟨env.depth, m.name, s.handler, (m, s.args), s.kwargs⟩⟩) := by
  rw [receiveSubs_parsed env _ (fuel + 1) st r dg m (registered_parsed hdg hn) ht, if_pos hp]
  unfold handleSubs
  rw [if_pos (show m.name ∈ _ from hn)]
  have hl : 0 < (st.ev.subs m.name).length := by rw [hs]; simp
  rw [if_pos hl]
  rw [notifySubs_some (s := s) (by show (st.ev.subs m.name)[0]? = _; rw [hs]; rfl) rfl]
  have hprog : withCallbacks which beh (receiveCheck { withNames env (fun _ => st.ev.names) with handler := fun _ _ => .done, depth := 1 } st.d r dg).2.trace
      (st.ev.log ⟨env.depth, m.name, s.handler, (m, s.args), s.kwargs⟩).calls = .raise e := by
    unfold withCallbacks
    rw [show (st.ev.log ⟨env.depth, m.name, s.handler, (m, s.args), s.kwargs⟩).calls = st.ev.calls ++ [⟨env.depth, m.name, s.handler, (m, s.args), s.kwargs⟩] from rfl, getLast?_snoc]
    simp only [hw, Callback.prog, he]
  simp only [hprog, SProg.run, hk, if_false]

/-- **C118, how to subscribe.** Each of the three must be subscribed with one object (or with `_object=`): otherwise it raises a `TypeError` for every message. -/
theorem C118_one_object (cb : Callback) (args : List Nat) (kwargs : List (String × Nat)) (m : Message) (hf : cb = .logPacket → ∃ t, m.render = .ok t) :
    (cb.run m args kwargs = .ok () ↔ (args.length = 1 ∧ kwargs = []) ∨ (args = [] ∧ kwargs.map (·.1) = ["_object"])) ∧
    (cb.run m args kwargs ≠ .ok () → cb.run m args kwargs = .error .typeError) := by
  have hb : Callback.binds args kwargs = true ↔ (args.length = 1 ∧ kwargs = []) ∨ (args = [] ∧ kwargs.map (·.1) = ["_object"]) := by
    simp [Callback.binds, List.isEmpty_iff]
  rw [← hb]
  cases cb with
  | logPacket =>
    obtain ⟨t, ht⟩ := hf rfl
    simp only [Callback.run, ht]
    cases Callback.binds args kwargs with
    | true => exact ⟨⟨fun _ => rfl, fun _ => rfl⟩, fun h => absurd rfl h⟩
    | false => exact ⟨⟨(fun h => nomatch h), (fun h => nomatch h)⟩, fun _ => rfl⟩
  | _ =>
    simp only [Callback.run]
    cases Callback.binds args kwargs with
    | true => exact ⟨⟨fun _ => rfl, fun _ => rfl⟩, fun h => absurd rfl h⟩
    | false => exact ⟨⟨(fun h => nomatch h), (fun h => nomatch h)⟩, fun _ => rfl⟩

/-- **C118, `log_packet`** raises what showing the message raises; in the default configuration it raises for no message that is received. -/
theorem C118_log_packet (m : Message) (o : Nat) :
    (∀ e, Callback.run m [o] [] .logPacket = .error e ↔ m.render = .error e) ∧
    ∀ (env : DeserEnv) (st : DeserState) (dg : Bytes), Embedded.Dictionary env.dict → (deserialize env st dg).1 = .ok (some m) → Callback.run m [o] [] .logPacket = .ok () := by
  have hb : Callback.binds [o] [] = true := rfl
  refine ⟨fun e => ?_, fun env st dg hd h => ?_⟩
  · simp only [Callback.run, hb, if_true]
    cases m.render with
    | error e' => exact ⟨fun h => by injection h with h; rw [h], fun h => by injection h with h; rw [h]; rfl⟩
    | ok t => exact ⟨(fun h => nomatch h), (fun h => nomatch h)⟩
  · obtain ⟨t, ht⟩ := C68_received_default env hd st dg m h
    simp only [Callback.run, hb, if_true, ht]
    rfl

/-! ## Concrete cases -/

/-- Handlers 1, 2 and 3 are the callbacks. -/
def helperCallbacks : Nat → Option Callback
  | 1 => some .nullPacket
  | 2 => some .logPacket
  | 3 => some .logEventQueueData
  | _ => none

/-- The others answer every message with another one. -/
def answering : SBehaviour := fun _ _ => .send demoMessage 0 .plain fun _ => .done

/-- The conditions of `C118_watching`, for a history in which a watcher is subscribed before and after another subscriber; with and without watchers, the datagram is answered once. -/
example : (∀ tr cs c, watcher helperCallbacks (subOf c) = false → answering tr (cs ++ [c]) = answering tr ((cs ++ [c]).filter (fun c => !watcher helperCallbacks (subOf c)))) ∧ (∀ tr cs, KeepsSubs (answering tr cs)) ∧
    let ops : List SOp := [.subs (.subscribe "Demo" ⟨1, [7], []⟩), .subs (.subscribe "Demo" ⟨4, [], []⟩), .subs (.subscribe "Demo" ⟨3, [], [("_object", 8)]⟩), .op (.recv 0 demoDatagram)]
    (runSubs dispEnv (withCallbacks helperCallbacks answering) 5 ⟨DState.init dispHosts, {}⟩ ops).map (fun x => (x.2.ev.calls.map (·.handler), (sentDatagrams x.2.d.trace).length)) = some ([1, 4, 3], 1) ∧
    (runSubs dispEnv (withCallbacks helperCallbacks answering) 5 ⟨DState.init dispHosts, {}⟩ (ops.map (withoutSubscribing (watcher helperCallbacks)))).map
      (fun x => (x.2.ev.calls.map (·.handler), (sentDatagrams x.2.d.trace).length)) = some ([4], 1) :=
  ⟨fun _ _ _ _ => rfl, fun _ _ => .send _ _ _ _ fun _ => .done, by decide +kernel⟩

/-- `C118_parsed`: with a watcher the message is returned, without it is not parsed. -/
example :
    (runSubs dispEnv (withCallbacks helperCallbacks answering) 5 ⟨DState.init dispHosts, {}⟩ [.subs (.subscribe "Demo" ⟨1, [7], []⟩), .op (.recv 0 demoDatagram)]).map
      (fun x => x.1.map (fun r => match r with | .received (.ok (some m)) => m.name | _ => "")) = some ["", "Demo"] ∧
    (runSubs dispEnv (withCallbacks helperCallbacks answering) 5 ⟨DState.init dispHosts, {}⟩ [.op (.recv 0 demoDatagram)]).map (fun x => x.1) = some [.received (.ok none)] := by
  decide +kernel

/-- `C118_raises`: `log_packet` subscribed without an object. -/
example : (runSubs dispEnv (withCallbacks helperCallbacks answering) 5 ⟨DState.init dispHosts, {}⟩
      [.subs (.subscribe "Demo" ⟨2, [], []⟩), .subs (.subscribe "Demo" ⟨4, [], []⟩), .op (.recv 0 demoDatagram)]).map
    (fun x => (x.1, x.2.ev.calls.map (·.handler), pending x.2.d (dispAddr 0))) = some ([.nothing, .nothing, .received (.error .typeError)], [2], [9]) := by decide +kernel

end Pyogp
