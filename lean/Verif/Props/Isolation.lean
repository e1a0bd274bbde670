import Verif.Proofs.Isolation

namespace Pyogp
open Spec

/-! ## C101

The peers of one dispatcher do not influence each other, if every peer has its own host objects. -/

/-- **C101.** Whatever the other peers do, everything that happens with one peer (what is received and parsed from it, the
packets prepared for it, the datagrams sent to it, the state of its circuit) is what would have happened without them. -/
theorem C101_alone (env : DEnv) (hosts : HostRef → Host) (hs : Separate env hosts) (ops : List Op) (a : Addr)
    (hfix : ∀ op ∈ ops, ∀ r v, op ≠ .setHost r v) :
    view a (runOps env (DState.init hosts) ops).trace = view a (runOps env (DState.init hosts) (historyOnly hosts a ops)).trace ∧
    (runOps env (DState.init hosts) ops).circuits.get? a = (runOps env (DState.init hosts) (historyOnly hosts a ops)).circuits.get? a := by
  have h := run_history (a := a) hs ops [] hfix ⟨rfl, rfl, rfl, rfl⟩ ⟨fun _ => rfl, fun b c hc => nomatch hc⟩
  exact ⟨h.seen, h.circ⟩

/-- And what the calls for that peer return, or raise, is the same too. -/
theorem C101_results (env : DEnv) (hosts : HostRef → Host) (hs : Separate env hosts) (ops : List Op) (a : Addr)
    (hfix : ∀ op ∈ ops, ∀ r v, op ≠ .setHost r v) (r : HostRef) (hr : (hosts r).addr = a) :
    (∀ m mode, (send env (runOps env (DState.init hosts) ops) m r mode).1 =
      (send env (runOps env (DState.init hosts) (historyOnly hosts a ops)) m r mode).1) ∧
    (∀ dg, (receiveCheck env (runOps env (DState.init hosts) ops) r dg).1 =
      (receiveCheck env (runOps env (DState.init hosts) (historyOnly hosts a ops)) r dg).1) := by
  have h := run_history (a := a) hs ops [] hfix ⟨rfl, rfl, rfl, rfl⟩ ⟨fun _ => rfl, fun b c hc => nomatch hc⟩
  exact ⟨fun m mode => (sendWith_same hs h _ m hr mode).1, fun dg => (recv_same hs h hr dg).1⟩

/-- Two histories that agree on what concerns one peer cannot be told apart by it. -/
theorem C101_indistinguishable (env : DEnv) (hosts : HostRef → Host) (hs : Separate env hosts) (ops ops' : List Op) (a : Addr)
    (hfix : ∀ op ∈ ops, ∀ r v, op ≠ .setHost r v) (hfix' : ∀ op ∈ ops', ∀ r v, op ≠ .setHost r v)
    (heq : historyOnly hosts a ops = historyOnly hosts a ops') :
    view a (runOps env (DState.init hosts) ops).trace = view a (runOps env (DState.init hosts) ops').trace := by
  rw [(C101_alone env hosts hs ops a hfix).1, (C101_alone env hosts hs ops' a hfix').1, heq]

/-- A client whose subscribers answer every message. -/
def answeringEnv : DEnv :=
  { dispEnv with
    handler := fun tr _ =>
      match lastReceived tr with
      | some (ip, some p) => if dispAddr (p - 13000) = (ip, some p) then .send demoMessage (p - 13000) .plain (fun _ => .done) else .done
      | _ => .done }

theorem answering_separate : Separate answeringEnv dispHosts where
  outgoing := rfl
  depth := by decide
  handled := fun _ _ => rfl
  socket := fun _ _ _ _ _ => rfl
  subscribers := by
    intro a tr tr' m h1 h2 _
    simp only [answeringEnv]
    rw [h1, h2]
  answers := by
    intro a tr m h1
    obtain ⟨ip, p⟩ := a
    simp only [answeringEnv]
    rw [h1]
    cases p with
    | none => exact .done
    | some p =>
      simp only
      split
      · rename_i h; exact .send _ _ _ _ h (fun _ => .done)
      · exact .done

/-- Hypotheses met: with two peers and answering subscribers, peer 0 gets its packets 1, 2 and 3 and an answer and an
acknowledgement, with or without peer 1. -/
example : (∀ op ∈ demoOps ++ [.processAcks [dispAddr 1, dispAddr 0]], ∀ r v, op ≠ .setHost r v) ∧
    historyOnly dispHosts (dispAddr 0) (demoOps ++ [.processAcks [dispAddr 1, dispAddr 0]]) =
      [.send demoMessage 0 (.reliable 3), .send demoMessage 0 .plain, .recv 0 demoDatagram, .send demoMessage 0 (.reliable 3), .processAcks [dispAddr 0]] ∧
    (preparedMsgs (view (dispAddr 0) (runOps answeringEnv (DState.init dispHosts) (demoOps ++ [.processAcks [dispAddr 1, dispAddr 0]])).trace)).map
      (fun x => (x.2.name, x.2.packetId)) = [("Demo", 1), ("Demo", 2), ("Demo", 3), ("Demo", 4), ("PacketAck", 5)] := by
  refine ⟨?_, rfl, by decide +kernel⟩
  intro op hop r v
  simp only [demoOps, List.cons_append, List.nil_append, List.mem_cons, List.not_mem_nil, or_false] at hop
  rcases hop with rfl | rfl | rfl | rfl | rfl | rfl | rfl <;> exact fun h => nomatch h

/-- **C101**, the other way round: peers whose datagrams were read with the one host object of `NetUDPClient` (which is
overwritten for every datagram) do influence each other.  Without the datagram of `peerB`, `peerA` gets its
acknowledgement; with it, it gets nothing. -/
theorem C101_shared_sender :
    let peerA : Host := ⟨.str "10.0.0.1", some 13000⟩
    let peerB : Host := ⟨.str "10.0.0.2", some 13000⟩
    let alone := runOps dispEnv (DState.init dispHosts) [.setHost 0 peerA, .recv 0 demoDatagram, .processAcks [peerA.addr]]
    let both := runOps dispEnv (DState.init dispHosts)
      [.setHost 0 peerA, .recv 0 demoDatagram, .setHost 0 peerB, .recv 0 demoDatagram, .processAcks [peerA.addr, peerB.addr]]
    (sentDatagrams (view peerA.addr alone.trace)).length = 1 ∧ (sentDatagrams (view peerA.addr both.trace)).length = 0 ∧
    (sentDatagrams (view peerB.addr both.trace)).length = 2 := by
  decide +kernel

end Pyogp
