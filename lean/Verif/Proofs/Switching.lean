import Verif.Spec.Switching
import Verif.Proofs.Acks

/-! # Proofs about switches inside sending -/

namespace Pyogp
open Spec

theorem prepareFor_eq (st : DState) (m : Message) (r : HostRef) (mode : SendMode) :
    prepareFor st m r mode = ((mode.prepare (findCircuit st r).2 m).2, preparedState st m r mode) := rfl

/-- The same configuration with subscribers that do nothing. -/
abbrev quiet (env : DEnv) : DEnv := { env with handler := fun _ _ => .done }

theorem quiet_ok (env : DEnv) : HandlerOk (quiet env) (fun _ _ => True) := fun _ _ => Prog.mutates_any _

/-- A property of dispatcher states preserved by all acts. -/
structure SwitchClosed (env : DEnv) (P : DState → Prop) : Prop where
  base : Closed (quiet env) (fun _ _ => True) P
  prepared : ∀ st m r mode, P st → P (preparedState st m r mode)
  sent : ∀ st a dg, P st → P { (st.log (.sent a dg)) with packetsOut := st.packetsOut + 1 }

theorem beginSend_P {env : DEnv} {P : DState → Prop} (hc : SwitchClosed env P) (s : SState) (m : Message) (h : HostRef) (mode : SendMode)
    (af : Option AckPos) (hp : P s.disp) : P (beginSend env s m h mode af).disp := by
  unfold beginSend
  cases env.handleOutgoing
  · exact hp
  · exact hc.base.outgoing _ _ hp

theorem clearAcks_P {env : DEnv} {P : DState → Prop} (hc : SwitchClosed env P) (s : SState) (r : CircuitRef) (hp : P s.disp) : P (clearAcks s r).disp := by
  unfold clearAcks
  cases h : s.lookup r with
  | none => exact hp
  | some c =>
    cases r with
    | inMap a => exact hc.base.cleared _ _ _ hp h
    | removed i => exact hp

theorem ackUntilSend_some {env : DEnv} {s s' : SState} {r : CircuitRef} {own : Option (List Nat)} {k : Nat} {rest : List CircuitRef}
    (h : ackUntilSend env s r own k rest = some s') : ∃ m c p, s' = beginSend env s m c .plain (some p) := by
  unfold ackUntilSend at h
  cases hc : s.lookup r with
  | none => rw [hc] at h; cases h
  | some c =>
    rw [hc] at h
    simp only at h
    split at h
    · cases h
    · cases h; exact ⟨_, _, _, rfl⟩

theorem ackFrom_P {env : DEnv} {P : DState → Prop} (hc : SwitchClosed env P) : ∀ (order : List CircuitRef) (s : SState), P s.disp → P (ackFrom env order s).disp
  | [], s, hp => hp
  | a :: rest, s, hp => by
    unfold ackFrom
    cases h : ackUntilSend env s a none 0 rest with
    | none => exact ackFrom_P hc rest _ (clearAcks_P hc s a hp)
    | some s' =>
      obtain ⟨m, c, p, rfl⟩ := ackUntilSend_some h
      exact beginSend_P hc _ _ _ _ _ hp

theorem ackResume_P {env : DEnv} {P : DState → Prop} (hc : SwitchClosed env P) (p : AckPos) (s : SState) (hp : P s.disp) : P (ackResume env p s).disp := by
  unfold ackResume
  by_cases hf : p.final = true
  · rw [if_pos hf]; exact ackFrom_P hc _ _ (clearAcks_P hc s _ hp)
  · rw [if_neg hf]
    cases h : ackUntilSend env s p.circuit p.own p.taken p.rest with
    | none => exact ackFrom_P hc _ _ (clearAcks_P hc s _ hp)
    | some s' =>
      obtain ⟨m, c, p, rfl⟩ := ackUntilSend_some h
      exact beginSend_P hc _ _ _ _ _ hp

theorem leave_P {env : DEnv} {P : DState → Prop} (hc : SwitchClosed env P) (s : SState) (i : Nat) (af : Option AckPos) (r : Py (Option Bytes))
    (hp : P s.disp) : P (leave env s i af r).disp := by
  unfold leave
  cases r with
  | error e => exact hp
  | ok o =>
    cases af with
    | none => exact hp
    | some p => exact ackResume_P hc p _ hp

theorem sstep_P {env : DEnv} {P : DState → Prop} (hc : SwitchClosed env P) (s : SState) (x : SAct) (hp : P s.disp) : P (sstep env s x).disp := by
  cases x with
  | start m h mode =>
    simp only [sstep]
    split
    · exact beginSend_P hc _ _ _ _ _ hp
    · exact hp
  | edit i m =>
    simp only [sstep]
    split <;> exact hp
  | go i =>
    simp only [sstep]
    split
    · simp only [prepareFor_eq]
      split
      · exact hc.prepared _ _ _ _ hp
      · exact leave_P hc _ _ _ _ (hc.prepared _ _ _ _ hp)
    · exact hp
  | throw i =>
    simp only [sstep]
    split <;> exact hp
  | accept i =>
    simp only [sstep]
    split
    · exact leave_P hc _ _ _ _ (hc.sent _ _ _ hp)
    · exact hp
  | refuse i =>
    simp only [sstep]
    split
    · exact leave_P hc _ _ _ _ hp
    · exact hp
  | recv h dg => exact receiveCheck_preserves hc.base.toRecvClosed (quiet_ok env) _ _ _ hp
  | acks order =>
    simp only [sstep]
    split
    · exact hp
    · exact ackFrom_P hc _ _ hp
  | setHost h v => exact hc.base.hosts _ _ _ trivial hp
  | removeCircuit h =>
    simp only [sstep, dropCircuit]
    split
    · exact hc.base.remove _ _ hp
    · exact hc.base.remove _ _ hp
  | setTrusted a b =>
    simp only [sstep, step]
    cases hg : s.disp.circuits.get? a with
    | none => exact hp
    | some c => exact hc.base.trust _ _ _ _ hp hg

theorem runSwitching_P {env : DEnv} {P : DState → Prop} (hc : SwitchClosed env P) : ∀ (xs : List SAct) (s : SState), P s.disp →
    P (runSwitching env s xs).disp
  | [], _, hp => hp
  | x :: xs, s, hp => runSwitching_P hc xs _ (sstep_P hc s x hp)

theorem runSwitching_cons (env : DEnv) (s : SState) (x : SAct) (xs : List SAct) :
    runSwitching env s (x :: xs) = runSwitching env (sstep env s x) xs := rfl

theorem runSwitching_append (env : DEnv) (s : SState) (xs ys : List SAct) :
    runSwitching env s (xs ++ ys) = runSwitching env (runSwitching env s xs) ys := List.foldl_append

theorem Inv.switchClosed (env : DEnv) : SwitchClosed env Inv := by
  refine ⟨Inv.closed (quiet env), fun st m r mode hi => hi.prepared m r mode, ?_⟩
  intro st a dg hp
  refine ⟨hp.nodup, ?_, ?_, hp.noRetry, ?_, ?_⟩
  · intro a c hc; simp only [DState.log]; rw [history_snoc]; exact hp.circ a c hc
  · intro a hc; simp only [DState.log]; rw [history_snoc]; exact hp.absent a hc
  · simp only [DState.log, receivedCount_snoc]; exact hp.packetsIn
  · simp only [DState.log, sentCount_snoc]; rw [hp.packetsOut]

theorem switching_inv (env : DEnv) (hosts : HostRef → Host) (xs : List SAct) : Inv (runSwitching env (SState.init hosts) xs).disp :=
  runSwitching_P (Inv.switchClosed env) xs _ (Inv.init hosts)

/-! ## Packets on their way -/

theorem sentDatagrams_append (a b : List Ev) : sentDatagrams (a ++ b) = sentDatagrams a ++ sentDatagrams b := by simp [sentDatagrams]

theorem preparedDatagrams_append (ser : SerEnv) (a b : List Ev) :
    preparedDatagrams ser (a ++ b) = preparedDatagrams ser a ++ preparedDatagrams ser b := by
  simp [preparedDatagrams, preparedMsgs]

/-- A trace with the same packets. -/
def SamePackets (st st' : DState) : Prop :=
  preparedMsgs st'.trace = preparedMsgs st.trace ∧ sentDatagrams st'.trace = sentDatagrams st.trace

theorem SamePackets.refl (st : DState) : SamePackets st st := ⟨rfl, rfl⟩
theorem SamePackets.trans {a b c : DState} (h1 : SamePackets a b) (h2 : SamePackets b c) : SamePackets a c :=
  ⟨h2.1.trans h1.1, h2.2.trans h1.2⟩

theorem samePackets_snoc {st st' : DState} {e : Ev} (h : st'.trace = st.trace ++ [e]) (h1 : ∀ a m, e ≠ .prepared a m) (h2 : ∀ a d, e ≠ .sent a d) :
    SamePackets st st' := by
  unfold SamePackets
  rw [h, preparedMsgs_append, sentDatagrams_append]
  cases e with
  | prepared a m => exact absurd rfl (h1 a m)
  | sent a d => exact absurd rfl (h2 a d)
  | _ => simp [preparedMsgs, sentDatagrams]

theorem beginSend_same (env : DEnv) (s : SState) (m : Message) (h : HostRef) (mode : SendMode) (af : Option AckPos) :
    SamePackets s.disp (beginSend env s m h mode af).disp ∧ waitingForSocket (beginSend env s m h mode af).tasks = waitingForSocket s.tasks := by
  refine ⟨?_, by simp [beginSend, waitingForSocket]⟩
  unfold beginSend
  cases env.handleOutgoing
  · exact .refl _
  · exact samePackets_snoc rfl (by simp) (by simp)

theorem detach_stage (a : CircuitRef) (l : List Nat) (t : Sending) : (t.detach a l).stage = t.stage := by
  unfold Sending.detach
  split
  · split <;> rfl
  · rfl

theorem waiting_detach (a : CircuitRef) (l : List Nat) (ts : List Sending) : waitingForSocket (ts.map (Sending.detach a l)) = waitingForSocket ts := by
  unfold waitingForSocket
  rw [List.filterMap_map]
  congr 1
  funext t
  simp only [Function.comp, detach_stage]

theorem waiting_retarget (a : Addr) (n : Nat) (ts : List Sending) : waitingForSocket (ts.map (Sending.retarget a n)) = waitingForSocket ts := by
  unfold waitingForSocket
  rw [List.filterMap_map]
  rfl

theorem clearAcks_same (s : SState) (a : CircuitRef) :
    SamePackets s.disp (clearAcks s a).disp ∧ waitingForSocket (clearAcks s a).tasks = waitingForSocket s.tasks := by
  unfold clearAcks
  split
  · exact ⟨.refl _, rfl⟩
  · cases a with
    | inMap a => exact ⟨.refl _, waiting_detach _ _ _⟩
    | removed i => exact ⟨.refl _, waiting_detach _ _ _⟩

theorem ackFrom_same (env : DEnv) : ∀ (order : List CircuitRef) (s : SState),
    SamePackets s.disp (ackFrom env order s).disp ∧ waitingForSocket (ackFrom env order s).tasks = waitingForSocket s.tasks
  | [], s => ⟨.refl _, rfl⟩
  | a :: rest, s => by
    unfold ackFrom
    cases h : ackUntilSend env s a none 0 rest with
    | none =>
      obtain ⟨h1, h2⟩ := clearAcks_same s a
      obtain ⟨h3, h4⟩ := ackFrom_same env rest (clearAcks s a)
      exact ⟨h1.trans h3, h4.trans h2⟩
    | some s' =>
      obtain ⟨m, c, p, rfl⟩ := ackUntilSend_some h
      exact beginSend_same _ _ _ _ _ _

theorem ackResume_same (env : DEnv) (p : AckPos) (s : SState) :
    SamePackets s.disp (ackResume env p s).disp ∧ waitingForSocket (ackResume env p s).tasks = waitingForSocket s.tasks := by
  have hcl : SamePackets s.disp (ackFrom env p.rest (clearAcks s p.circuit)).disp ∧
      waitingForSocket (ackFrom env p.rest (clearAcks s p.circuit)).tasks = waitingForSocket s.tasks := by
    obtain ⟨h1, h2⟩ := clearAcks_same s p.circuit
    obtain ⟨h3, h4⟩ := ackFrom_same env p.rest (clearAcks s p.circuit)
    exact ⟨h1.trans h3, h4.trans h2⟩
  unfold ackResume
  by_cases hf : p.final = true
  · rw [if_pos hf]; exact hcl
  · rw [if_neg hf]
    cases h : ackUntilSend env s p.circuit p.own p.taken p.rest with
    | none => exact hcl
    | some s' =>
      obtain ⟨m, c, p, rfl⟩ := ackUntilSend_some h
      exact beginSend_same _ _ _ _ _ _

theorem leave_same (env : DEnv) (s : SState) (i : Nat) (af : Option AckPos) (r : Py (Option Bytes)) :
    SamePackets s.disp (leave env s i af r).disp ∧ waitingForSocket (leave env s i af r).tasks = waitingForSocket (s.tasks.eraseIdx i) := by
  unfold leave
  cases r with
  | error e => exact ⟨.refl _, rfl⟩
  | ok o =>
    cases af with
    | none => exact ⟨.refl _, rfl⟩
    | some p => exact ackResume_same env p _

theorem getElem?_split {α : Type} {l : List α} {i : Nat} {t : α} (h : l[i]? = some t) :
    l = l.take i ++ t :: l.drop (i + 1) ∧ l.eraseIdx i = l.take i ++ l.drop (i + 1) ∧ ∀ t', l.set i t' = l.take i ++ t' :: l.drop (i + 1) := by
  obtain ⟨hi, rfl⟩ := List.getElem?_eq_some_iff.mp h
  refine ⟨?_, List.eraseIdx_eq_take_drop_succ .., fun t' => ?_⟩
  · rw [← List.drop_eq_getElem_cons hi, List.take_append_drop]
  · rw [List.set_eq_take_append_cons_drop, if_pos hi]

theorem receive_same (env : DEnv) (st : DState) (h : HostRef) (dg : Bytes) : SamePackets st (receiveCheck (quiet env) st h dg).2 := by
  obtain ⟨_, htr, _⟩ := findCircuit_fields st h
  unfold receiveCheck
  split
  · simp only
    have h1 : SamePackets st { ({ (findCircuit st h).1 with packetsIn := (findCircuit st h).1.packetsIn + 1 } : DState).log (.received (st.hosts h).addr dg) with
        deser := (deserialize (env.deser (findCircuit st h).1.trace) (findCircuit st h).1.deser dg).2 } :=
      samePackets_snoc (e := .received (st.hosts h).addr dg) (by simp [DState.log, htr]) (by simp) (by simp)
    split
    · exact h1
    · split
      · exact h1
      · exact h1
    · split
      · exact h1
      · have h2 : ∀ c m, SamePackets st (DState.log (DState.setCircuit { ({ (findCircuit st h).1 with packetsIn := (findCircuit st h).1.packetsIn + 1 } : DState).log (.received (st.hosts h).addr dg) with
            deser := (deserialize (env.deser (findCircuit st h).1.trace) (findCircuit st h).1.deser dg).2 } (st.hosts h).addr c) (.parsed (st.hosts h).addr m)) :=
          fun c m => h1.trans (samePackets_snoc (e := .parsed (st.hosts h).addr m) rfl (by simp) (by simp))
        split
        · simp only [Prog.run]
          exact (h2 _ _).trans (samePackets_snoc rfl (by simp) (by simp))
        · exact h2 _ _
  · exact .refl _

/-- What is sent or waits for the socket are datagrams of prepared packets, each at most once. -/
def OnTheWay (env : DEnv) (s : SState) : Prop :=
  (sentDatagrams s.disp.trace ++ waitingForSocket s.tasks).Subperm (preparedDatagrams env.ser s.disp.trace)

theorem OnTheWay.same {env : DEnv} {s s' : SState} (h : OnTheWay env s) (h1 : SamePackets s.disp s'.disp)
    (h2 : (waitingForSocket s'.tasks).Sublist (waitingForSocket s.tasks)) : OnTheWay env s' := by
  unfold OnTheWay preparedDatagrams at *
  rw [h1.1, h1.2]
  exact (List.Sublist.subperm (List.Sublist.append (List.Sublist.refl _) h2)).trans h

theorem waiting_erase_sublist (ts : List Sending) (i : Nat) : (waitingForSocket (ts.eraseIdx i)).Sublist (waitingForSocket ts) :=
  List.Sublist.filterMap _ (List.eraseIdx_sublist ..)

theorem sstep_onTheWay (env : DEnv) (s : SState) (x : SAct) (hw : OnTheWay env s) : OnTheWay env (sstep env s x) := by
  cases x with
  | start m h mode =>
    simp only [sstep]
    split
    · obtain ⟨h1, h2⟩ := beginSend_same env s m h mode none
      exact hw.same h1 (by rw [h2])
    · exact hw
  | edit i m =>
    simp only [sstep]
    split
    · rename_i h mode m0 af ht
      refine hw.same (.refl _) ?_
      obtain ⟨e1, _, e3⟩ := getElem?_split ht
      rw [e3]
      conv => rhs; rw [e1]
      simp [waitingForSocket]
    · exact hw
  | go i =>
    simp only [sstep]
    split
    · rename_i h mode m0 af ht
      obtain ⟨e1, e2, e3⟩ := getElem?_split ht
      obtain ⟨_, htr, _⟩ := preparedState_fields s.disp m0 h mode
      simp only [prepareFor_eq]
      split
      · rename_i dg hs
        unfold OnTheWay at *
        simp only
        rw [htr, e3, sentDatagrams_append, preparedDatagrams_append]
        have hp : preparedDatagrams env.ser [.prepared (s.disp.hosts h).addr (mode.prepare (findCircuit s.disp h).2 m0).2] = [((s.disp.hosts h).addr, dg)] := by
          simp [preparedDatagrams, preparedMsgs, hs]
        have hs0 : sentDatagrams [.prepared (s.disp.hosts h).addr (mode.prepare (findCircuit s.disp h).2 m0).2] = [] := rfl
        rw [hp, hs0, List.append_nil]
        have hwt : waitingForSocket s.tasks = waitingForSocket (s.tasks.take i) ++ waitingForSocket (s.tasks.drop (i + 1)) := by
          conv => lhs; rw [e1]
          simp [waitingForSocket]
        have hwt' : waitingForSocket (s.tasks.take i ++ ⟨h, mode, .socket (s.disp.hosts h).addr (mode.prepare (findCircuit s.disp h).2 m0).2 dg, af⟩ :: s.tasks.drop (i + 1)) =
            waitingForSocket (s.tasks.take i) ++ ((s.disp.hosts h).addr, dg) :: waitingForSocket (s.tasks.drop (i + 1)) := by
          simp [waitingForSocket]
        rw [hwt] at hw
        rw [hwt']
        refine List.Subperm.trans (List.Perm.subperm ?_) ((List.subperm_append_right _).mpr hw)
        rw [← List.append_assoc, ← List.append_assoc]
        refine List.Perm.trans ?_ (List.perm_append_comm)
        exact List.perm_middle
      · refine OnTheWay.same ?_ (leave_same env _ i af _).1 (by rw [(leave_same env _ i af _).2]; exact waiting_erase_sublist _ _)
        unfold OnTheWay at *
        simp only
        rw [htr, sentDatagrams_append, preparedDatagrams_append]
        have hs0 : sentDatagrams [.prepared (s.disp.hosts h).addr (mode.prepare (findCircuit s.disp h).2 m0).2] = [] := rfl
        rw [hs0, List.append_nil]
        exact hw.trans (List.Sublist.subperm (List.sublist_append_left _ _))
    · exact hw
  | throw i =>
    simp only [sstep]
    split
    · exact hw.same (.refl _) (waiting_erase_sublist _ _)
    · exact hw
  | accept i =>
    simp only [sstep]
    split
    · rename_i h mode a m0 dg af ht
      obtain ⟨e1, e2, _⟩ := getElem?_split ht
      refine OnTheWay.same (s := ⟨{ (s.disp.log (.sent a dg)) with packetsOut := s.disp.packetsOut + 1 }, s.tasks.eraseIdx i, s.removed⟩) ?_
        (leave_same env _ i af _).1 (by rw [(leave_same env _ i af _).2])
      unfold OnTheWay at *
      simp only [DState.log]
      rw [sentDatagrams_append, preparedDatagrams_append]
      have hp : preparedDatagrams env.ser [.sent a dg] = [] := rfl
      have hs : sentDatagrams [.sent a dg] = [(a, dg)] := rfl
      rw [hp, hs, List.append_nil, e2]
      have hwt : waitingForSocket s.tasks = waitingForSocket (s.tasks.take i) ++ (a, dg) :: waitingForSocket (s.tasks.drop (i + 1)) := by
        conv => lhs; rw [e1]
        simp [waitingForSocket]
      have hwt' : waitingForSocket (s.tasks.take i ++ s.tasks.drop (i + 1)) = waitingForSocket (s.tasks.take i) ++ waitingForSocket (s.tasks.drop (i + 1)) := by
        simp [waitingForSocket]
      rw [hwt] at hw
      rw [hwt']
      refine List.Subperm.trans (List.Perm.subperm ?_) hw
      rw [List.append_assoc]
      refine List.Perm.append_left _ ?_
      rw [List.singleton_append]
      exact List.perm_middle.symm
    · exact hw
  | refuse i =>
    simp only [sstep]
    split
    · exact OnTheWay.same hw (leave_same env _ i _ _).1 (by rw [(leave_same env _ i _ _).2]; exact waiting_erase_sublist _ _)
    · exact hw
  | recv h dg => exact hw.same (receive_same env _ _ _) (List.Sublist.refl _)
  | acks order =>
    simp only [sstep]
    split
    · exact hw
    · obtain ⟨h1, h2⟩ := ackFrom_same env (order.map .inMap) s
      exact hw.same h1 (by rw [h2])
  | setHost h v => exact hw.same (.refl _) (List.Sublist.refl _)
  | removeCircuit h =>
    simp only [sstep, dropCircuit]
    split
    · exact hw.same (samePackets_snoc rfl (by simp) (by simp)) (List.Sublist.refl _)
    · exact hw.same (samePackets_snoc rfl (by simp) (by simp)) (by rw [waiting_retarget])
  | setTrusted a b =>
    refine hw.same ?_ (List.Sublist.refl _)
    simp only [sstep, step]
    split
    · exact .refl _
    · exact ⟨rfl, rfl⟩

theorem runSwitching_onTheWay (env : DEnv) : ∀ (xs : List SAct) (s : SState), OnTheWay env s → OnTheWay env (runSwitching env s xs)
  | [], _, h => h
  | x :: xs, s, h => runSwitching_onTheWay env xs _ (sstep_onTheWay env s x h)

end Pyogp
