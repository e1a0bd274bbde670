import Verif.Proofs.SwitchingAcks

/-! # Operations without switches are among the histories with switches -/

namespace Pyogp
open Spec

/-- The coroutine of a packet goes on after `__send_message`. -/
def resumeWith (env : DEnv) (after : Option AckPos) (r : Py (Option Bytes)) (s : SState) : SState :=
  match r, after with
  | .ok _, some p => ackResume env p s
  | _, _ => s

theorem leave_last (env : DEnv) (st : DState) (ts : List Sending) (t : Sending) (after : Option AckPos) (r : Py (Option Bytes)) :
    leave env ⟨st, ts ++ [t], []⟩ ts.length after r = resumeWith env after r ⟨st, ts, []⟩ := by
  unfold leave
  simp only [List.eraseIdx_append_of_length_le (Nat.le_refl _), Nat.sub_self, List.eraseIdx_cons_zero, List.append_nil]
  rfl

/-- The packet is given its id and to the socket without anything else happening. -/
theorem transmit_sim (env : DEnv) (st : DState) (ts : List Sending) (m : Message) (r : HostRef) (mode : SendMode) (after : Option AckPos) :
    ∃ acts, runSwitching env ⟨st, ts ++ [⟨r, mode, .subscribers m, after⟩], []⟩ acts =
      resumeWith env after (transmit env st m r mode).1 ⟨(transmit env st m r mode).2, ts, []⟩ := by
  rw [transmit_eq]
  have hget : (ts ++ [(⟨r, mode, .subscribers m, after⟩ : Sending)])[ts.length]? = some ⟨r, mode, .subscribers m, after⟩ := by simp
  have hgo : sstep env ⟨st, ts ++ [⟨r, mode, .subscribers m, after⟩], []⟩ (.go ts.length) =
      (match serialize env.ser (mode.prepare (findCircuit st r).2 m).2 with
        | .ok (some dg) => ⟨preparedState st m r mode, ts ++ [⟨r, mode, .socket (st.hosts r).addr (mode.prepare (findCircuit st r).2 m).2 dg, after⟩], []⟩
        | _ => resumeWith env after (sendFailed (mode.prepare (findCircuit st r).2 m).2) ⟨preparedState st m r mode, ts, []⟩) := by
    simp only [sstep, hget, prepareFor_eq]
    cases hs : serialize env.ser (mode.prepare (findCircuit st r).2 m).2 with
    | error e => simp only [leave_last]
    | ok o =>
      cases o with
      | none => simp only [leave_last]
      | some dg => simp
  unfold handToSocket
  generalize (mode.prepare (findCircuit st r).2 m).2 = m1 at *
  generalize preparedState st m r mode = st1 at *
  cases hs : serialize env.ser m1 with
  | error e => exact ⟨[.go ts.length], by rw [runSwitching_cons, hgo, hs]; rfl⟩
  | ok o =>
    cases o with
    | none => exact ⟨[.go ts.length], by rw [runSwitching_cons, hgo, hs]; rfl⟩
    | some dg =>
      rw [hs] at hgo
      simp only at hgo ⊢
      have hget1 : (ts ++ [(⟨r, mode, .socket (st.hosts r).addr m1 dg, after⟩ : Sending)])[ts.length]? =
          some ⟨r, mode, .socket (st.hosts r).addr m1 dg, after⟩ := by simp
      by_cases hn : env.net st1.trace (st.hosts r).addr dg = true
      · refine ⟨[.go ts.length, .accept ts.length], ?_⟩
        rw [runSwitching_cons, hgo, runSwitching_cons, if_pos hn]
        simp only [sstep, hget1, leave_last]
        rfl
      · refine ⟨[.go ts.length, .refuse ts.length], ?_⟩
        rw [runSwitching_cons, hgo, runSwitching_cons, if_neg hn]
        simp only [sstep, hget1, leave_last]
        rfl

theorem prog_sim (env : DEnv) (send : DState → Message → HostRef → SendMode → Py (Option Bytes) × DState)
    (hs : ∀ st ts m r mode, ∃ acts, runSwitching env ⟨st, ts, []⟩ acts = ⟨(send st m r mode).2, ts, []⟩) (ts : List Sending) :
    ∀ (p : Prog) (st : DState), ∃ acts, runSwitching env ⟨st, ts, []⟩ acts = ⟨(p.run send st).2, ts, []⟩
  | .done, st => ⟨[], rfl⟩
  | .raise _, st => ⟨[], rfl⟩
  | .send m r mode k, st => by
    obtain ⟨a1, h1⟩ := hs st ts m r mode
    obtain ⟨a2, h2⟩ := prog_sim env send hs ts (k (send st m r mode).1) (send st m r mode).2
    exact ⟨a1 ++ a2, by rw [runSwitching_append, h1, h2, Prog.run]⟩
  | .setHost r v k, st => by
    obtain ⟨a2, h2⟩ := prog_sim env send hs ts k { st with hosts := fun x => if x = r then v else st.hosts x }
    exact ⟨.setHost r v :: a2, by rw [runSwitching_cons]; exact h2⟩

/-- A packet the subscribers have just been given. -/
theorem begun_sim (env : DEnv) (n : Nat)
    (ih : ∀ st ts m r mode, ∃ acts, runSwitching env ⟨st, ts, []⟩ acts = ⟨(sendWith env n st m r mode).2, ts, []⟩)
    (st : DState) (ts : List Sending) (m : Message) (r : HostRef) (mode : SendMode) (after : Option AckPos) (hok : (st.hosts r).isOk = true) :
    ∃ acts, runSwitching env (beginSend env ⟨st, ts, []⟩ m r mode after) acts =
      resumeWith env after (sendWith env (n + 1) st m r mode).1 ⟨(sendWith env (n + 1) st m r mode).2, ts, []⟩ := by
  unfold sendWith
  rw [hok, if_neg (by simp)]
  unfold beginSend
  by_cases hb : env.handleOutgoing = true
  · rw [if_pos hb, if_pos hb]
    simp only
    generalize st.log (.outgoing m) = st1
    obtain ⟨a1, h1⟩ := prog_sim env (sendWith env n) ih (ts ++ [⟨r, mode, .subscribers m, after⟩]) (env.handler st1.trace m) st1
    generalize (env.handler st1.trace m).run (sendWith env n) st1 = R at h1
    obtain ⟨res, st2⟩ := R
    cases res with
    | error e =>
      refine ⟨a1 ++ [.throw ts.length], ?_⟩
      rw [runSwitching_append, h1]
      have hget : (ts ++ [(⟨r, mode, .subscribers m, after⟩ : Sending)])[ts.length]? = some ⟨r, mode, .subscribers m, after⟩ := by simp
      simp only [runSwitching, List.foldl_cons, List.foldl_nil, sstep, hget, resumeWith]
      simp [List.eraseIdx_append_of_length_le]
    | ok u =>
      obtain ⟨a2, h2⟩ := transmit_sim env st2 ts m r mode after
      exact ⟨a1 ++ a2, by rw [runSwitching_append, h1]; exact h2⟩
  · rw [if_neg hb, if_neg hb]
    exact transmit_sim env st ts m r mode after

theorem sendWith_sim (env : DEnv) : ∀ (n : Nat) (st : DState) (ts : List Sending) (m : Message) (r : HostRef) (mode : SendMode),
    ∃ acts, runSwitching env ⟨st, ts, []⟩ acts = ⟨(sendWith env n st m r mode).2, ts, []⟩
  | 0, st, ts, m, r, mode => ⟨[], rfl⟩
  | n + 1, st, ts, m, r, mode => by
    by_cases hok : (st.hosts r).isOk = true
    · obtain ⟨acts, h⟩ := begun_sim env n (sendWith_sim env n) st ts m r mode none hok
      refine ⟨.start m r mode :: acts, ?_⟩
      rw [runSwitching_cons]
      simp only [sstep, hok, if_true]
      rw [h]
      unfold resumeWith
      split
      · rename_i hh; cases hh
      · rfl
    · refine ⟨[], ?_⟩
      unfold sendWith
      rw [if_pos (by simpa using hok)]
      rfl

/-! ## Acknowledgements -/

theorem ackLoop_collect (env : DEnv) (h : HostRef) : ∀ (ids : List Nat) (n : Nat) (msg : Message) (st : DState), n ≤ 250 →
    ackLoop env h ids n msg st =
      if 250 < (collectAcks ids n msg).2.1 then
        match send env st (collectAcks ids n msg).2.2 h .plain with
        | (.error e, st) => (.error e, st)
        | (.ok _, st) => ackLoop env h (ids.drop (collectAcks ids n msg).1) 0 (collectAcks ids n msg).2.2 st
      else (.ok ((collectAcks ids n msg).2.1, (collectAcks ids n msg).2.2), st)
  | [], n, msg, st, hn => by
    unfold ackLoop collectAcks
    rw [if_neg (by simp only; omega)]
  | pid :: ids, n, msg, st, hn => by
    rw [ackLoop, collectAcks]
    simp only
    generalize addAckBlock (if n = 0 then Message.new "PacketAck" [] else msg) pid = msg1
    by_cases hgt : 250 < n + 1
    · rw [if_pos hgt]
      simp only [hgt, if_true, List.drop_one, List.tail_cons]
      rcases send env st msg1 h SendMode.plain with ⟨r, st1⟩
      cases r <;> rfl
    · rw [if_neg hgt, ackLoop_collect env h ids (n + 1) msg1 st (by omega)]
      simp only [hgt, if_false, List.drop_succ_cons]

theorem ackLoop_msg (env : DEnv) (h : HostRef) (pid : Nat) (ids : List Nat) (msg msg' : Message) (st : DState) :
    ackLoop env h (pid :: ids) 0 msg st = ackLoop env h (pid :: ids) 0 msg' st := by
  rw [ackLoop, ackLoop]
  rfl

theorem send_bad (env : DEnv) (hd : 0 < env.depth) (st : DState) (m : Message) (r : HostRef) (mode : SendMode) (h : (st.hosts r).isOk = false) :
    send env st m r mode = (.ok none, st) := by
  unfold send
  obtain ⟨n, hn⟩ : ∃ n, env.depth = n + 1 := ⟨env.depth - 1, by omega⟩
  rw [hn, sendWith, h]
  rfl

theorem ackLoop_bad (env : DEnv) (hd : 0 < env.depth) (r : HostRef) : ∀ (ids : List Nat) (n : Nat) (msg : Message) (st : DState),
    (st.hosts r).isOk = false → ∃ x, ackLoop env r ids n msg st = (.ok x, st)
  | [], n, msg, st, _ => ⟨_, rfl⟩
  | pid :: ids, n, msg, st, h => by
    rw [ackLoop]
    split
    · rw [send_bad env hd _ _ _ _ h]
      exact ackLoop_bad env hd r ids _ _ st h
    · exact ackLoop_bad env hd r ids _ _ st h

/-- The rest of `process_acks` when the ids of circuit `a` still to be acknowledged are `ids`. -/
def acksRest (env : DEnv) (a : Addr) (rest : List Addr) (h : HostRef) (ids : List Nat) (msg : Message) (st : DState) : DState :=
  match ackLoop env h ids 0 msg st with
  | (.error _, st) => st
  | (.ok (n, msg), st) =>
    match (if 0 < n then send env st msg h .plain else (.ok none, st) : Py (Option Bytes) × DState) with
    | (.error _, st) => st
    | (.ok _, st) =>
      match st.circuits.get? a with
      | none => (sendAcks env rest st).2
      | some c => (sendAcks env rest (st.setCircuit a { c with acks := [] })).2

theorem sendAcks_rest (env : DEnv) (a : Addr) (rest : List Addr) (st : DState) (c : Circuit) (hc : st.circuits.get? a = some c) :
    (sendAcks env (a :: rest) st).2 = acksRest env a rest c.host c.acks (Message.new "PacketAck" []) st := by
  rw [sendAcks, ackCircuit, hc]
  unfold acksRest
  simp only
  cases h1 : ackLoop env c.host c.acks 0 (Message.new "PacketAck" []) st with
  | mk r1 st1 =>
    cases r1 with
    | error e => rfl
    | ok x =>
      obtain ⟨n, msg⟩ := x
      simp only
      cases h2 : (if 0 < n then send env st1 msg c.host .plain else (.ok none, st1) : Py (Option Bytes) × DState) with
      | mk r2 st2 =>
        cases r2 with
        | error e => rfl
        | ok o =>
          simp only
          cases st2.circuits.get? a <;> rfl

/-- The circuit of `a` has this host object and these ids to acknowledge. -/
def HasCirc (a : Addr) (h : HostRef) (l : List Nat) (st : DState) : Prop := ∃ c, st.circuits.get? a = some c ∧ c.host = h ∧ c.acks = l

theorem hasCirc_closed (env : DEnv) (a : Addr) (h : HostRef) (l : List Nat) : SendClosed env (fun _ _ => True) (HasCirc a h l) := by
  refine ⟨fun st r v _ hp => hp, fun st m hp => hp, ?_⟩
  intro st m r mode ⟨c, h1, h2, h3⟩
  have hk := preparedState_keeps st m r mode
  obtain ⟨c', e1, e2, e3, _⟩ := hk.circ a c h1
  have : HasCirc a h l (preparedState st m r mode) := ⟨c', e1, e2.trans h2, e3.trans h3⟩
  rw [transmit_eq]
  rcases handToSocket_cases env (preparedState st m r mode) (st.hosts r).addr (mode.prepare (findCircuit st r).2 m).2 with e | ⟨dg, _, _, e⟩
  · rw [e]; exact this
  · rw [e]; exact this

theorem clearAcks_alone (st : DState) (a : Addr) : clearAcks ⟨st, [], []⟩ (.inMap a) =
    ⟨match st.circuits.get? a with | none => st | some c => st.setCircuit a { c with acks := [] }, [], []⟩ := by
  unfold clearAcks
  simp only [SState.lookup]
  cases st.circuits.get? a <;> rfl

theorem clear_sim (env : DEnv) (a : Addr) (rest : List Addr)
    (ih : ∀ st, ∃ acts, runSwitching env (ackFrom env (rest.map .inMap) ⟨st, [], []⟩) acts = ⟨(sendAcks env rest st).2, [], []⟩) (st : DState) :
    ∃ acts, runSwitching env (ackFrom env (rest.map .inMap) (clearAcks ⟨st, [], []⟩ (.inMap a))) acts =
      ⟨match st.circuits.get? a with
        | none => (sendAcks env rest st).2
        | some c => (sendAcks env rest (st.setCircuit a { c with acks := [] })).2, [], []⟩ := by
  rw [clearAcks_alone]
  cases h : st.circuits.get? a with
  | none => exact ih st
  | some c => exact ih _

theorem circuit_sim (env : DEnv) (hd : 0 < env.depth) (a : Addr) (rest : List Addr) (h : HostRef) (l : List Nat)
    (ih : ∀ st, ∃ acts, runSwitching env (ackFrom env (rest.map .inMap) ⟨st, [], []⟩) acts = ⟨(sendAcks env rest st).2, [], []⟩) :
    ∀ (fuel taken : Nat) (msg : Message) (st : DState), (l.drop taken).length ≤ fuel → HasCirc a h l st →
      ∃ acts, runSwitching env ((ackUntilSend env ⟨st, [], []⟩ (.inMap a) none taken (rest.map .inMap)).getD (ackFrom env (rest.map .inMap) (clearAcks ⟨st, [], []⟩ (.inMap a)))) acts =
        ⟨acksRest env a rest h (l.drop taken) msg st, [], []⟩ := by
  intro fuel
  induction fuel with
  | zero =>
    intro taken msg st hf hc
    have hnil : l.drop taken = [] := List.length_eq_zero_iff.mp (by omega)
    obtain ⟨c, hc1, hc2, hc3⟩ := hc
    unfold ackUntilSend acksRest
    simp only [SState.lookup, hc1, hc3, Option.getD_none, hnil, collectAcks, true_or, if_true, ackLoop, Nat.lt_irrefl, if_false]
    obtain ⟨acts, hacts⟩ := clear_sim env a rest ih st
    rw [hc1] at hacts
    exact ⟨acts, hacts⟩
  | succ fuel ihf =>
    intro taken msg st hf hc
    have hcc := hc
    obtain ⟨c, hc1, hc2, hc3⟩ := hc
    obtain ⟨acts0, hacts0⟩ := clear_sim env a rest ih st
    unfold ackUntilSend
    simp only [SState.lookup, hc1, hc2, hc3, Option.getD_none]
    cases hids : l.drop taken with
    | nil =>
      unfold acksRest
      simp only [collectAcks, true_or, if_true, ackLoop, Nat.lt_irrefl, if_false, Option.getD_none, hc1]
      rw [hc1] at hacts0
      exact ⟨acts0, hacts0⟩
    | cons pid ids =>
      by_cases hok : (st.hosts h).isOk = true
      · rw [acksRest, ackLoop_msg env h pid ids msg (Message.new "PacketAck" []), ackLoop_collect _ _ _ _ _ _ (Nat.zero_le _)]
        have hspec := collectAcks_spec (pid :: ids) [] (Message.new "PacketAck" []) (by simp) (by simp)
        simp only [List.length_nil, Nat.zero_add] at hspec
        obtain ⟨s1, s2, s3, s4, s5⟩ := hspec
        have hpos : 0 < (collectAcks (pid :: ids) 0 (Message.new "PacketAck" [])).1 := by
          by_cases h250 : (collectAcks (pid :: ids) 0 (Message.new "PacketAck" [])).2.1 ≤ 250
          · rw [s4 h250]; simp
          · omega
        clear s5 s4
        generalize collectAcks (pid :: ids) 0 (Message.new "PacketAck" []) = r at *
        obtain ⟨k, cnt, msg1⟩ := r
        simp only at *
        subst s1
        rw [if_neg (by rw [hok]; simp; omega), Option.getD_some]
        obtain ⟨n, hn⟩ : ∃ n, env.depth = n + 1 := ⟨env.depth - 1, by omega⟩
        obtain ⟨a1, h1⟩ := begun_sim env n (sendWith_sim env n) st [] msg1 h .plain (some ⟨.inMap a, none, taken + cnt, decide (cnt ≤ 250), rest.map .inMap⟩) hok
        have hcs := send_preserves (hasCirc_closed env a h l) (fun _ _ => Prog.mutates_any _) st msg1 h .plain hcc
        have hse : sendWith env (n + 1) st msg1 h .plain = send env st msg1 h .plain := by unfold send; rw [hn]
        rw [hse] at h1
        generalize hR : send env st msg1 h .plain = R at *
        obtain ⟨res, st2⟩ := R
        cases res with
        | error e =>
          refine ⟨a1, ?_⟩
          rw [h1]
          by_cases h250 : 250 < cnt
          · simp only [h250, if_true, resumeWith]
          · simp only [h250, hpos, if_true, if_false, resumeWith, hR]
        | ok o =>
          simp only [resumeWith, ackResume] at h1
          by_cases h250 : 250 < cnt
          · have hdec : decide (cnt ≤ 250) = false := by simp; omega
            rw [hdec] at h1
            obtain ⟨a2, h2⟩ := ihf (taken + cnt) msg1 st2 (by
              rw [List.length_drop] at hf ⊢
              have : (l.drop taken).length = (pid :: ids).length := by rw [hids]
              rw [List.length_drop] at this
              simp only [List.length_cons] at this s3
              omega) hcs
            refine ⟨a1 ++ a2, ?_⟩
            rw [runSwitching_append, hdec, h1]
            simp only [h250, if_true, Bool.false_eq_true, if_false]
            rw [show (pid :: ids).drop cnt = l.drop (taken + cnt) by rw [← hids, List.drop_drop]]
            unfold acksRest at h2
            rw [← h2]
            cases ackUntilSend env ⟨st2, [], []⟩ (.inMap a) none (taken + cnt) (rest.map .inMap) <;> rfl
          · have hdec : decide (cnt ≤ 250) = true := by simp; omega
            rw [hdec] at h1
            obtain ⟨a2, h2⟩ := clear_sim env a rest ih st2
            refine ⟨a1 ++ a2, ?_⟩
            rw [runSwitching_append, hdec, h1]
            simp only [h250, if_true, if_false, hpos, hR]
            rw [h2]
      · have hbad : (st.hosts h).isOk = false := by simpa using hok
        rw [if_pos (.inr hbad), Option.getD_none]
        obtain ⟨⟨n, msg1⟩, hx⟩ := ackLoop_bad env hd h (pid :: ids) 0 msg st hbad
        rw [acksRest, hx]
        simp only [send_bad env hd _ _ _ _ hbad, ite_self]
        exact ⟨acts0, hacts0⟩

theorem sendAcks_sim (env : DEnv) (hd : 0 < env.depth) : ∀ (order : List Addr) (st : DState),
    ∃ acts, runSwitching env (ackFrom env (order.map .inMap) ⟨st, [], []⟩) acts = ⟨(sendAcks env order st).2, [], []⟩
  | [], st => ⟨[], rfl⟩
  | a :: rest, st => by
    have ih := sendAcks_sim env hd rest
    cases hc : st.circuits.get? a with
    | none =>
      have h1 : ackFrom env ((a :: rest).map .inMap) ⟨st, [], []⟩ = ackFrom env (rest.map .inMap) ⟨st, [], []⟩ := by
        rw [List.map_cons, ackFrom]
        simp only [ackUntilSend, clearAcks, SState.lookup, hc]
      have h2 : sendAcks env (a :: rest) st = sendAcks env rest st := by
        rw [sendAcks]
        simp only [ackCircuit, hc]
      rw [h1, h2]
      exact ih st
    | some c =>
      rw [sendAcks_rest env a rest st c hc]
      obtain ⟨acts, h⟩ := circuit_sim env hd a rest c.host c.acks ih _ 0 (Message.new "PacketAck" []) st (Nat.le_refl _) ⟨c, hc, rfl, rfl⟩
      refine ⟨acts, ?_⟩
      rw [List.drop_zero] at h
      rw [← h, List.map_cons, ackFrom]
      cases ackUntilSend env ⟨st, [], []⟩ (.inMap a) none 0 (rest.map .inMap) <;> rfl

/-! ## Operations -/

theorem receive_sim (env : DEnv) (st : DState) (r : HostRef) (dg : Bytes) :
    ∃ acts, runSwitching env ⟨st, [], []⟩ acts = ⟨(receiveCheck env st r dg).2, [], []⟩ := by
  have hq : sstep env ⟨st, [], []⟩ (.recv r dg) = ⟨(receiveCheck (quiet env) st r dg).2, [], []⟩ := rfl
  have key : (receiveCheck env st r dg).2 = (receiveCheck (quiet env) st r dg).2 ∨
      ∃ m, (receiveCheck env st r dg).2 = ((env.handler (receiveCheck (quiet env) st r dg).2.trace m).run (sendWith env env.depth)
        (receiveCheck (quiet env) st r dg).2).2 := by
    unfold receiveCheck
    by_cases h0 : 0 < dg.length
    · rw [if_pos h0, if_pos h0]
      simp only
      generalize (deserialize (env.deser (findCircuit st r).1.trace) (findCircuit st r).1.deser dg) = d
      obtain ⟨d1, d2⟩ := d
      cases d1 with
      | error e => exact .inl rfl
      | ok o =>
        cases o with
        | none => exact .inl rfl
        | some m =>
          simp only
          by_cases ht : ((findCircuit st r).2.trusted && !m.trusted) = true
          · rw [if_pos ht, if_pos ht]; exact .inl rfl
          · rw [if_neg ht, if_neg ht]
            by_cases hh : env.handlePackets = true
            · rw [if_pos hh, if_pos hh]
              refine .inr ⟨m, ?_⟩
              simp only [Prog.run]
              split
              · rename_i he; rw [he]
              · rename_i he; rw [he]
            · rw [if_neg hh, if_neg hh]; exact .inl rfl
    · rw [if_neg h0, if_neg h0]; exact .inl rfl
  rcases key with h | ⟨m, h⟩
  · exact ⟨[.recv r dg], by rw [runSwitching_cons, hq, h]; rfl⟩
  · obtain ⟨acts, ha⟩ := prog_sim env (sendWith env env.depth) (sendWith_sim env env.depth) []
      (env.handler (receiveCheck (quiet env) st r dg).2.trace m) (receiveCheck (quiet env) st r dg).2
    exact ⟨.recv r dg :: acts, by rw [runSwitching_cons, hq, ha, h]⟩

theorem step_sim (env : DEnv) (hd : 0 < env.depth) (st : DState) (op : Op) : ∃ acts, runSwitching env ⟨st, [], []⟩ acts = ⟨step env st op, [], []⟩ := by
  cases op with
  | send m r mode => exact sendWith_sim env env.depth st [] m r mode
  | recv r dg => exact receive_sim env st r dg
  | processAcks order =>
    simp only [step, processAcks]
    cases hr : resendAll st with
    | error e => exact ⟨[], rfl⟩
    | ok u =>
      obtain ⟨acts, h⟩ := sendAcks_sim env hd order st
      refine ⟨.acks order :: acts, ?_⟩
      rw [runSwitching_cons]
      simp only [sstep, hr]
      exact h
  | setHost r v => exact ⟨[.setHost r v], rfl⟩
  | removeCircuit r => exact ⟨[.removeCircuit r], rfl⟩
  | setTrusted a b => exact ⟨[.setTrusted a b], rfl⟩

theorem runOps_sim (env : DEnv) (hd : 0 < env.depth) : ∀ (ops : List Op) (st : DState),
    ∃ acts, runSwitching env ⟨st, [], []⟩ acts = ⟨runOps env st ops, [], []⟩
  | [], st => ⟨[], rfl⟩
  | op :: ops, st => by
    obtain ⟨a1, h1⟩ := step_sim env hd st op
    obtain ⟨a2, h2⟩ := runOps_sim env hd ops (step env st op)
    exact ⟨a1 ++ a2, by rw [runSwitching_append, h1, h2]; rfl⟩

end Pyogp
