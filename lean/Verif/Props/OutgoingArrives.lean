import Verif.Props.OutgoingAcks
import Verif.Props.EndToEnd

namespace Pyogp
open Spec

/-! ## C117

What subscribers see of it, arrives. -/

theorem receiveO_content (env : DEnv) (subs : ObjSubs) (hs : ∀ tr n, ∀ p ∈ subs tr n, LeavesContent p) (st : DState) (r : HostRef) (dg : Bytes)
    (m' : Message) (h : (receiveO env subs st r dg).1 = .ok (some m')) :
    ∃ m, (deserialize (env.deser st.trace) st.deser dg).1 = .ok (some m) ∧ contentOf m' = contentOf m := by
  obtain ⟨hh, htr, _, _, _, hde, hg, hc⟩ := findCircuit_fields st r
  unfold receiveO at h
  simp only [htr, hde] at h
  split at h
  · split at h
    · cases h
    · split at h <;> cases h
    · rename_i m hd
      refine ⟨m, hd, ?_⟩
      split at h
      · cases h
      · split at h
        · generalize DState.log _ (Ev.delivered m) = st2 at h
          have h1 := notifyO_content (sendO_content (env := env) hs env.depth) (subs st2.trace m.name) (hs _ _) m st2
          rw [← handleO_object] at h1
          generalize handleO (sendO env subs env.depth) (subs st2.trace m.name) m st2 = x at h1 h
          obtain ⟨x1, x2, x3⟩ := x
          cases x1 with
          | error e => cases h
          | ok u => cases h; exact h1
        · cases h; rfl
  · cases h

/-- A send that returns, with such subscribers, ends with a transmission of the message, in a state in which hosts and queues are as they were. -/
theorem sendO_returns {env : DEnv} {subs : ObjSubs} (hs0 : ∀ tr n, ∀ p ∈ subs tr n, OnlySends p) {n : Nat} {st : DState} (hi : Inv st) {m : Message}
    {r : HostRef} {mode : SendMode} (hok : (st.hosts r).isOk = true) {o : Option Bytes} (hs : (sendO env subs n st m r mode).1 = .ok o) :
    ∃ m1 st1, Inv st1 ∧ Keeps st.hosts st st1 ∧ m1.name = m.name ∧ m1.blocks = m.blocks ∧
      transmit env st1 m1 r mode = (.ok o, (sendO env subs n st m r mode).2.2) := by
  cases n with
  | zero => cases hs
  | succ n =>
    have hu : sendO env subs (n + 1) st m r mode = sendO env subs (n + 1) st m r mode := rfl
    conv at hu => rhs; unfold sendO
    simp only [hok, Bool.not_true, Bool.false_eq_true, if_false] at hu
    split at hu
    · have h1 := (log_outgoing_keeps st m rfl).trans
        (notifyO_keeps (sendO_keeps (env := env) hs0 n) (subs (st.log (.outgoing m)).trace m.name) (hs0 _ _) m (st.log (.outgoing m)) rfl)
      have h0 := notifyO_content (sendO_content (env := env) (fun tr n p hp => onlySends_leaves (hs0 tr n p hp)) n) (subs (st.log (.outgoing m)).trace m.name)
        (fun p hp => onlySends_leaves (hs0 _ _ p hp)) m (st.log (.outgoing m))
      have h2 := notifyO_preserves (Inv.closed env).toSendClosed (sendO_preserves (Inv.closed env).toSendClosed subs n) (subs (st.log (.outgoing m)).trace m.name) m
        (st.log (.outgoing m)) ((Inv.closed env).outgoing st m hi)
      rw [← handleO_state] at h1 h2
      rw [← handleO_object] at h0
      generalize handleO (sendO env subs n) (subs (st.log (.outgoing m)).trace m.name) m (st.log (.outgoing m)) = x at h0 h1 h2 hu
      obtain ⟨x1, x2, x3⟩ := x
      have hc : contentOf x2 = contentOf m := h0
      cases x1 with
      | error e => rw [hu] at hs; cases hs
      | ok u =>
        refine ⟨x2, x3, h2, h1, congrArg Prod.fst hc, congrArg Prod.snd hc, ?_⟩
        rw [hu] at hs ⊢
        exact Prod.ext hs rfl
    · refine ⟨m, st, hi, Keeps.refl rfl, rfl, rfl, ?_⟩
      rw [hu] at hs ⊢
      exact Prod.ext hs rfl

/-- **C117, arrival.** Two dispatchers with any histories and subscribers that get messages as objects; those of A change neither name and blocks of messages nor hosts.  A message that fills a template both
know, sent by A to a valid host to which no acknowledgements are owed: if `send_message` returns, it has sent, last, one datagram to that host, and B receives from it a message with the content A's caller gave,
the next packet id of A's circuit, and marked reliable exactly if it was sent so; if B's subscribers do not change what it says, it is what B's `receive_check` returns, if they do not raise; and B owes A
the id, and no other, exactly if it was sent reliably. -/
theorem C117_arrives (envA : DEnv) (subsA : ObjSubs) (hsA : ∀ tr n, ∀ p ∈ subsA tr n, OnlySends p) (hn : ∀ tr a dg, envA.net tr a dg = true)
    (hostsA : HostRef → Host) (opsA : List Op) (rB : HostRef) (mode : SendMode) (t : Template) (m : Message)
    (envB : DEnv) (subsB : ObjSubs) (hsB : ∀ tr n, ∀ p ∈ subsB tr n, LeavesContent p) (stB : DState) (rA : HostRef) :
    let stA := runO envA subsA (DState.init hostsA) opsA
    let sent := sendO envA subsA envA.depth stA m rB mode
    let id := (outIds (circuitHistory (stA.hosts rB).addr sent.2.2.trace)).length
    (stA.hosts rB).isOk = true → pending stA (stA.hosts rB).addr = [] → id < 2 ^ 31 → (∃ o, sent.1 = .ok o) →
    (∀ c, stB.circuits.get? (stB.hosts rA).addr = some c → c.trusted = false) →
    Connected envA.ser (envB.deser stB.trace) t → WFTemplate t → Fills envA.ser.rt t m →
    ∃ dg m' before, sent.1 = .ok (some dg) ∧ sentDatagrams sent.2.2.trace = sentDatagrams stA.trace ++ before ++ [((stA.hosts rB).addr, dg)] ∧
      (deserialize (envB.deser stB.trace) stB.deser dg).1 = .ok (some m') ∧
      SameContent envA.ser.rt t m m' ∧ m'.packetId = id ∧ m'.reliable = mode.isReliable ∧ m'.acks = [] ∧
      (∀ m'', (receiveO envB subsB stB rA dg).1 = .ok (some m'') → m''.name = m'.name ∧ m''.blocks = m'.blocks) ∧
      ∀ a, pending (receiveO envB subsB stB rA dg).2 a =
        pending stB a ++ (if a = (stB.hosts rA).addr ∧ mode.isReliable = true then [id] else []) := by
  intro stA sent id hok hpend hid hret htr hc hwf hm
  obtain ⟨o, ho⟩ := hret
  have hi : Inv stA := runO_inv envA subsA hostsA opsA
  obtain ⟨m1, st1, hi1, hk, hnm, hbl, htx⟩ := sendO_returns hsA hi hok ho
  have htx2 : (transmit envA st1 m1 rB mode).2 = sent.2.2 := congrArg Prod.snd htx
  have htx1 : (transmit envA st1 m1 rB mode).1 = .ok o := congrArg Prod.fst htx
  have hh : st1.hosts rB = stA.hosts rB := congrFun hk.hosts rB
  have hlast : (findCircuit st1 rB).2.lastOut + 1 = id := by
    have h1 := find_lastOut hi1 rB
    have h2 := (transmit_trace envA st1 m1 rB mode).1
    rw [htx2] at h2
    rw [h1]
    show _ = (outIds (circuitHistory (stA.hosts rB).addr sent.2.2.trace)).length
    rw [h2, hh]
    generalize (transmit envA st1 m1 rB mode).1 = res
    have key : ∀ (tail : List Ev), tail = [] ∨ (∃ dg, tail = [.sent (stA.hosts rB).addr dg]) → ∀ p : Message,
        (outIds (circuitHistory (stA.hosts rB).addr (st1.trace ++ .prepared (stA.hosts rB).addr p :: tail))).length =
          (outIds (circuitHistory (stA.hosts rB).addr st1.trace)).length + 1 := by
      intro tail htail p
      rcases htail with rfl | ⟨dg, rfl⟩ <;> simp [circuitHistory, List.foldl_append, outIds]
    symm
    apply key
    cases res with
    | error e => exact .inl rfl
    | ok o => cases o with
      | none => exact .inl rfl
      | some dg => exact .inr ⟨dg, rfl⟩
  have hacks : (findCircuit st1 rB).2.acks = [] := by
    have hpend1 : pending st1 (stA.hosts rB).addr = [] := (hk.pend _).trans hpend
    rw [(findCircuit_fields st1 rB).2.2.2.2.2.2.2, hh]
    unfold pending at hpend1
    cases hx : st1.circuits.get? (stA.hosts rB).addr with
    | none => rfl
    | some c => rw [hx] at hpend1; exact hpend1
  have hprep : (mode.prepare (findCircuit st1 rB).2 m1).2 = preparedMsg (findCircuit st1 rB).2 m1 mode.flag mode.retries := by rw [prepare_eq]
  have hflag : (preparedMsg (findCircuit st1 rB).2 m1 mode.flag mode.retries).sendFlags = mode.flag := by
    unfold preparedMsg
    rw [if_neg (by rw [hacks]; simp)]
  have hpid : (preparedMsg (findCircuit st1 rB).2 m1 mode.flag mode.retries).packetId = id := by rw [preparedMsg_id]; exact hlast
  obtain ⟨dg, m', h1, h2, h3, h4, h5, h6⟩ := prepared_arrives envA.ser (envB.deser stB.trace) stB.deser t m _ hc hwf hm
    ((preparedMsg_name (findCircuit st1 rB).2 m1 mode.flag mode.retries).trans hnm) ((preparedMsg_blocks _ _ _ _).trans hbl)
    (by rw [hflag]; cases mode <;> simp [SendMode.flag]) (by rw [hpid]; exact hid)
  have hres : (transmit envA st1 m1 rB mode).1 = .ok (some dg) := by
    rw [transmit_eq, hprep]
    unfold handToSocket
    simp only [h1, hn, if_true]
  have hrel : m'.reliable = mode.isReliable := by
    rw [h5, hflag]
    cases mode <;> simp [SendMode.flag, SendMode.isReliable]
  obtain ⟨pre, hpre⟩ := hk.trace
  refine ⟨dg, m', sentDatagrams pre, ?_, ?_, h2, h3, h4.trans hpid, hrel, h6, ?_, ?_⟩
  · rw [← hres, htx1]; exact ho
  · rw [← htx2, (transmit_trace envA st1 m1 rB mode).1, sentDatagrams_append, hres, ← hpre, sentDatagrams_append, hh]
    rfl
  · intro m'' hm''
    obtain ⟨m0, h7, h8⟩ := receiveO_content envB subsB hsB stB rA dg m'' hm''
    rw [h2] at h7
    cases h7
    exact ⟨congrArg Prod.fst h8, congrArg Prod.snd h8⟩
  · intro a
    rw [receiveO_pending envB subsB stB rA dg m' h2 htr a]
    have := receive_parsed { envB with handlePackets := false } stB rA dg m' h2 htr a
    rw [this, hrel, h4, hpid]

/-- Subscribers that, the first time, send it on to host 0, where it is sent anyway. -/
def doublers : ObjSubs := fun tr n =>
  if n = "Demo" ∧ (tr.filter (fun e => match e with | .outgoing _ => true | _ => false)).length = 1 then [.forward 0 .plain (fun _ => .done)] else []

/-- What A sends with them, and what B, with the same and a history of its own, makes of the one for which A's caller asked. -/
example : ∃ dg m', (sendO watchedEnv doublers watchedEnv.depth (DState.init dispHosts) demoMessage 0 (.reliable 3)).1 = .ok (some dg) ∧
    SameContent demoRt demoTemplate demoMessage m' ∧ m'.packetId = 2 ∧ m'.reliable = true ∧
    pending (receiveO watchedEnv doublers (runO watchedEnv doublers (DState.init dispHosts) demoOps) 5 dg).2 (dispAddr 5) = [2] := by
  have hd : ∀ tr n, ∀ p ∈ doublers tr n, OnlySends p := by
    intro tr n p hp
    unfold doublers at hp
    split at hp
    · cases hp with
      | head => exact .forward _ _ _ fun _ => .done
      | tail _ h => cases h
    · cases hp
  have e1 : (outIds (circuitHistory (((runO watchedEnv doublers (DState.init dispHosts) []).hosts 0).addr)
    (sendO watchedEnv doublers watchedEnv.depth (DState.init dispHosts) demoMessage 0 (.reliable 3)).2.2.trace)).length = 2 := by decide +kernel
  have h := C117_arrives watchedEnv doublers hd (fun _ _ _ => rfl) dispHosts [] 0 (.reliable 3) demoTemplate demoMessage watchedEnv doublers
    (fun tr n p hp => onlySends_leaves (hd tr n p hp)) (runO watchedEnv doublers (DState.init dispHosts) demoOps) 5 (by decide +kernel) (by decide +kernel)
    (by rw [show runO watchedEnv doublers (DState.init dispHosts) [] = DState.init dispHosts from rfl] at e1 ⊢; rw [e1]; decide)
    (by
      have h : ((sendO watchedEnv doublers watchedEnv.depth (DState.init dispHosts) demoMessage 0 (.reliable 3)).1).toBool = true := by decide +kernel
      show ∃ o, (sendO watchedEnv doublers watchedEnv.depth (DState.init dispHosts) demoMessage 0 (.reliable 3)).1 = .ok o
      generalize (sendO watchedEnv doublers watchedEnv.depth (DState.init dispHosts) demoMessage 0 (.reliable 3)).1 = x at h ⊢
      cases x with
      | error e => cases h
      | ok o => exact ⟨o, rfl⟩)
    (by have e : (runO watchedEnv doublers (DState.init dispHosts) demoOps).circuits.get? (((runO watchedEnv doublers (DState.init dispHosts) demoOps).hosts 5).addr) = none := by
          decide +kernel
        rw [e]; intro c hc; cases hc)
    ⟨rfl, rfl, rfl, rfl, rfl, ["Demo"], rfl, .inl (by decide)⟩ demo_wf demo_fills
  obtain ⟨dg, m', _, h1, _, _, h3, h4, h5, _, _, h8⟩ := h
  have e2 := h4.trans e1
  refine ⟨dg, m', h1, h3, e2, h5, ?_⟩
  refine (h8 _).trans ?_
  rw [show runO watchedEnv doublers (DState.init dispHosts) [] = DState.init dispHosts from rfl] at e1 ⊢
  rw [e1]
  decide +kernel

end Pyogp
