import Verif.Proofs.Network
import Verif.Props.System

/-!
# C94: any number of programs and the network between them
-/

namespace Pyogp
open Spec

/-- What a dispatcher sends is not empty. -/
theorem sent_not_empty {env : DEnv} {hosts : HostRef → Host} {st : DState} (h : ∃ ops, st = runOps env (DState.init hosts) ops) (x : Addr) (dg : Bytes)
    (hx : (x, dg) ∈ sentDatagrams st.trace) : dg ≠ [] := by
  obtain ⟨ops, rfl⟩ := h
  obtain ⟨rest, h⟩ := C72_flags env hosts ops x dg hx
  rcases h with h | h | h | h | h | h <;> rw [h] <;> exact List.cons_ne_nil _ _

theorem among_peers {ι : Type} [DecidableEq ι] {node : ι → Node} {s : ι → DState} (h : Among node s) :
    ∀ i, Peer (node i).env (node i).hosts (s i) (SentFrom node s) := by
  have mono : ∀ {s s' : ι → DState}, (∀ k, (s k).trace <+: (s' k).trace) → ∀ a dg, SentFrom node s a dg → SentFrom node s' a dg := by
    rintro s s' hp a dg ⟨j, h1, y, h2⟩
    exact ⟨j, h1, y, sentDatagrams_mono (hp j) h2⟩
  have upd : ∀ (s : ι → DState) (i : ι) (op : Op) (k : ι), (s k).trace <+: ((fun k => if k = i then step (node i).env (s i) op else s k) k).trace := by
    intro s i op k
    by_cases hk : k = i
    · subst hk; simp only [if_true]; exact step_trace_prefix _ _ _
    · simp only [hk, if_false]; exact List.prefix_refl _
  induction h with
  | start => exact fun i => Peer.init _ _ _
  | @own s i op _ ho ih =>
    intro k
    refine Peer.mono ?_ (mono (upd s i op))
    by_cases hk : k = i
    · subst hk; simp only [if_true]; exact (ih k).own op ho
    · simp only [hk, if_false]; exact ih k
  | @recv s i j r x dg _ hx ha ih =>
    intro k
    refine Peer.mono ?_ (mono (upd s i (.recv r dg)))
    by_cases hk : k = i
    · subst hk
      simp only [if_true]
      exact (ih k).recv r dg ⟨j, ha.symm, x, hx⟩ (sent_not_empty (ih j).reach x dg hx)
    · simp only [hk, if_false]; exact ih k

theorem accepted_some {α β : Type} {f : α → Option β} {R : α → β → Prop} : ∀ (l : List α), (∀ x ∈ l, ∀ b, f x = some b → R x b) →
    ∃ sub, sub.Sublist l ∧ List.Forall₂ R sub (l.filterMap f)
  | [], _ => ⟨[], List.Sublist.refl _, .nil⟩
  | x :: l, h => by
    obtain ⟨sub, h1, h2⟩ := accepted_some l (fun y hy => h y (List.mem_cons_of_mem _ hy))
    rw [List.filterMap_cons]
    cases hf : f x with
    | none => exact ⟨sub, h1.cons _, h2⟩
    | some b => exact ⟨x :: sub, h1.cons_cons _, .cons (h x List.mem_cons_self b hf) h2⟩

theorem accepted_all {α β : Type} {f : α → Option β} {R : α → β → Prop} : ∀ (l : List α), (∀ x ∈ l, ∃ b, f x = some b ∧ R x b) →
    List.Forall₂ R l (l.filterMap f)
  | [], _ => .nil
  | x :: l, h => by
    obtain ⟨b, h1, h2⟩ := h x List.mem_cons_self
    rw [List.filterMap_cons, h1]
    exact .cons h2 (accepted_all l (fun y hy => h y (List.mem_cons_of_mem _ hy)))

theorem related_map {α β γ : Type} {g : α → γ} {R : γ → β → Prop} {l : List α} {l' : List β} (h : List.Forall₂ (fun x b => R (g x) b) l l') :
    List.Forall₂ R (l.map g) l' := by
  induction h with
  | nil => exact .nil
  | cons h _ ih => exact .cons h ih

/-- Only one program has this address. -/
def Own1 {ι : Type} (node : ι → Node) (j : ι) : Prop := ∀ k, (node k).addr = (node j).addr → k = j

/-- **C94, who sent what.** Any number of programs use the library and talk over a network that may lose, duplicate, delay, reorder and misdirect datagrams but names the true senders.
As long as program `i` could read what `j` sends, the messages `i` accepts on the circuit of `j`'s address are, in this order, some of the
datagrams it received from there, each read as a packet that `j` prepared, with its content, id and reliable flag.  What the others do plays no part in this. -/
theorem C94_attributed {ι : Type} [DecidableEq ι] {node : ι → Node} {s : ι → DState} (h : Among node s) (i j : ι) (h1 : Own1 node j)
    (hr : Readable (node j).env (node i).env (s j)) :
    ∃ sub, sub.Sublist (receivedFrom (node j).addr (s i).trace) ∧
      List.Forall₂ (fun dg m' => ∃ x ∈ preparedMsgs (s j).trace, serialize (node j).env.ser x.2 = .ok (some dg) ∧ ReadAs (node j).env.ser x.2 m') sub
        (parsedFrom (node j).addr (s i).trace) := by
  have hi := among_peers h i
  obtain ⟨oj, hj⟩ := (among_peers h j).side
  obtain ⟨log, h2, h3⟩ := hi.log
  rw [receivedFrom_in, parsedFrom_in, h2, (from_log _ _ log).1, (from_log _ _ log).2]
  obtain ⟨sub, h4, h5⟩ := accepted_some
    (R := fun (x : Reception) m' => ∃ q ∈ preparedMsgs (s j).trace, serialize (node j).env.ser q.2 = .ok (some x.dg) ∧ ReadAs (node j).env.ser q.2 m')
    (f := fun x => match (deserialize ((node i).env.deser x.tr) x.dst x.dg).1 with | .ok m => m | .error _ => none)
    (log.filter (·.addr = (node j).addr)) (by
      intro x hx m hm
      obtain ⟨hx1, hx2⟩ := List.mem_filter.mp hx
      have hx2 : x.addr = (node j).addr := by simpa using hx2
      obtain ⟨k, hk, y, hy⟩ := h3 x hx1
      rw [hx2] at hk
      obtain rfl := h1 k hk
      obtain ⟨q, hq, hser⟩ := sent_ne_nil hj.sentInv hy
      obtain ⟨m', h6, h7⟩ := readable_read hj.sentInv hr hq hser x.tr x.dst
      have hm' : (deserialize ((node i).env.deser x.tr) x.dst x.dg).1 = .ok (some m) := by
        cases hd : (deserialize ((node i).env.deser x.tr) x.dst x.dg).1 with
        | error e => rw [hd] at hm; cases hm
        | ok m? => rw [hd] at hm; simp only at hm; rw [hm]
      have := deserialize_eager hm'
      rw [h6] at this
      cases this
      exact ⟨(y, q), hq, hser, h7⟩)
  exact ⟨sub.map (·.dg), h4.map _, related_map h5⟩

/-- **C94, everything that arrives.** If moreover `i` has handlers for all `j` sends, every datagram from `j`'s address is accepted, in the order of reception, as a packet `j` prepared. -/
theorem C94_all_accepted {ι : Type} [DecidableEq ι] {node : ι → Node} {s : ι → DState} (h : Among node s) (i j : ι) (h1 : Own1 node j)
    (hr : Readable (node j).env (node i).env (s j)) (hall : HandlesAll (node i).env (s j)) :
    List.Forall₂ (fun dg m' => (∃ x ∈ preparedMsgs (s j).trace, serialize (node j).env.ser x.2 = .ok (some dg)) ∧
        ∀ x ∈ preparedMsgs (s j).trace, serialize (node j).env.ser x.2 = .ok (some dg) → ReadAs (node j).env.ser x.2 m')
      (receivedFrom (node j).addr (s i).trace) (parsedFrom (node j).addr (s i).trace) := by
  have hi := among_peers h i
  obtain ⟨oj, hj⟩ := (among_peers h j).side
  obtain ⟨log, h2, h3⟩ := hi.log
  rw [receivedFrom_in, parsedFrom_in, h2, (from_log _ _ log).1, (from_log _ _ log).2]
  refine related_map (accepted_all _ ?_)
  intro x hx
  obtain ⟨hx1, hx2⟩ := List.mem_filter.mp hx
  have hx2 : x.addr = (node j).addr := by simpa using hx2
  obtain ⟨k, hk, y, hy⟩ := h3 x hx1
  rw [hx2] at hk
  obtain rfl := h1 k hk
  obtain ⟨q, hq, hser⟩ := sent_ne_nil hj.sentInv hy
  obtain ⟨m', h6, _⟩ := readable_received hj.sentInv hr hall hq hser x.tr x.dst
  refine ⟨m', by rw [h6], ⟨_, hq, hser⟩, ?_⟩
  intro z hz hz2
  obtain ⟨m2, h7, h8⟩ := readable_received hj.sentInv hr hall hz hz2 x.tr x.dst
  rw [h6] at h7
  cases h7
  exact h8

/-- **C94, and the subscribers.** What a program's subscribers get are the messages it accepted, from all circuits, in the order of acceptance (if it passes packets to them at all). -/
theorem C94_delivered {ι : Type} [DecidableEq ι] {node : ι → Node} {s : ι → DState} (h : Among node s) (i : ι) :
    deliveredMsgs (s i).trace = if (node i).env.handlePackets then parsedMsgs (s i).trace else [] := by
  obtain ⟨log, h2, -⟩ := (among_peers h i).log
  rw [deliveredMsgs_in, parsedMsgs_in, h2]
  clear h2
  induction log with
  | nil => simp [deliveredMsgs, parsedMsgs]
  | cons x log ih =>
    rw [List.flatMap_cons, deliveredMsgs_append, parsedMsgs_append, ih]
    unfold Reception.events
    cases hh : (node i).env.handlePackets <;> cases hd : (deserialize ((node i).env.deser x.tr) x.dst x.dg).1 with
    | error e => simp [deliveredMsgs, parsedMsgs]
    | ok m? => cases m? <;> simp [deliveredMsgs, parsedMsgs]

/-- **C94, in order.** If `i` received from `j` exactly the datagrams `j` sent to it, once and in order (and `j`'s socket accepted all), it accepted on `j`'s circuit exactly the messages
`j` sent to it, once and in order – whatever came from others in between. -/
theorem C94_in_order {ι : Type} [DecidableEq ι] {node : ι → Node} {s : ι → DState} (h : Among node s) (i j : ι) (h1 : Own1 node j)
    (hr : Readable (node j).env (node i).env (s j)) (hall : HandlesAll (node i).env (s j)) (hn : ∀ tr x dg, (node j).env.net tr x dg = true)
    (hp : receivedFrom (node j).addr (s i).trace = sentTo (node i).addr (s j).trace) :
    List.Forall₂ (ReadAs (node j).env.ser) (preparedFor (node i).addr (s j).trace) (parsedFrom (node j).addr (s i).trace) := by
  obtain ⟨oj, hj⟩ := (among_peers h j).side
  have hd := C94_all_accepted h i j h1 hr hall
  unfold sentTo at hp
  rw [hp, hj.sentInv.all hn] at hd
  exact in_order_from hj.sentInv hr (node i).addr hd

/-- **C94, at most once.** If the network brings `i` from `j` only datagrams `j` sent to `i`'s address, none more often than it was sent, and `j` did not remove the circuit in
between, no two messages accepted on `j`'s circuit have the same packet id. -/
theorem C94_at_most_once {ι : Type} [DecidableEq ι] {node : ι → Node} {s : ι → DState} (h : Among node s) (i j : ι) (h1 : Own1 node j)
    (hr : Readable (node j).env (node i).env (s j)) (hrem : Ev.removed (node i).addr ∉ (s j).trace)
    (hp : ∃ part, part.Sublist (sentTo (node i).addr (s j).trace) ∧ (receivedFrom (node j).addr (s i).trace).Perm part) :
    ((parsedFrom (node j).addr (s i).trace).map (·.packetId)).Nodup := by
  obtain ⟨oj, hj⟩ := (among_peers h j).side
  obtain ⟨sub, h2, h3⟩ := C94_attributed h i j h1 hr
  exact once_from hj hr (node i).addr hrem h2 h3 hp

/-- **C94, reliable packets are never acknowledged.** As long as no program's datagrams have the ACK flag, every reliable packet any of them ever sent to any address (since it last removed that
circuit) still waits for its acknowledgement. -/
theorem C94_never_acknowledged {ι : Type} [DecidableEq ι] {node : ι → Node} {s : ι → DState} (h : Among node s) (hf : ∀ j, NoAckFlag (s j).trace) (i : ι) (y : Addr) (id : Nat) :
    id ∈ waitingIds (s i) y ↔ ∃ m, CEv.out m ∈ circuitHistory y (s i).trace ∧ m.packetId = id ∧ m.sendFlags &&& 0x40 ≠ 0 := by
  have hi := among_peers h i
  obtain ⟨log, h1, h2⟩ := hi.log
  obtain ⟨_, hs⟩ := hi.side
  refine never_acked_from hs log h1 ?_ y id
  intro x hx
  obtain ⟨j, _, z, hz⟩ := h2 x hx
  exact fun f hfl => hf j _ hz f hfl

/-! ## A concrete case -/

/-- Three programs that handle `Demo` and `PacketAck`, with the addresses of the hosts 0, 1 and 2. -/
def netNode (i : Fin 3) : Node := { env := sysEnv, hosts := dispHosts, addr := dispAddr i }

/-- Programs 0 and 1 both send to program 2, 0 twice. -/
def netA : DState := runOps sysEnv (DState.init dispHosts) [.send demoMessage 2 (.reliable 3), .send demoMessage 2 .plain]
def netB : DState := runOps sysEnv (DState.init dispHosts) [.send demoMessage 2 .plain]
/-- Program 2 gets the second datagram of 0, that of 1 twice, the first of 0, and acknowledges. -/
def netC : DState := runOps sysEnv (DState.init dispHosts)
  [.recv 0 (sysDg netA.trace 1), .recv 1 (sysDg netB.trace 0), .recv 1 (sysDg netB.trace 0), .recv 0 (sysDg netA.trace 0), .processAcks [dispAddr 0, dispAddr 1]]

def netAt (i : Fin 3) : DState := if i = 0 then netA else if i = 1 then netB else netC

theorem net_own1 (j : Fin 3) : Own1 netNode j := by
  unfold Own1
  revert j
  decide +kernel

theorem net_among : Among netNode netAt := by
  have s0 : Among netNode (fun _ => DState.init dispHosts) := .start
  have s1 := Among.own 0 (.send demoMessage 2 (.reliable 3)) s0 trivial
  have s2 := Among.own 0 (.send demoMessage 2 .plain) s1 trivial
  have s3 := Among.own 1 (.send demoMessage 2 .plain) s2 trivial
  have s4 := Among.recv 2 0 0 (dispAddr 2) (sysDg netA.trace 1) s3 (by decide +kernel) (by decide +kernel)
  have s5 := Among.recv 2 1 1 (dispAddr 2) (sysDg netB.trace 0) s4 (by decide +kernel) (by decide +kernel)
  have s6 := Among.recv 2 1 1 (dispAddr 2) (sysDg netB.trace 0) s5 (by decide +kernel) (by decide +kernel)
  have s7 := Among.recv 2 0 0 (dispAddr 2) (sysDg netA.trace 0) s6 (by decide +kernel) (by decide +kernel)
  have s8 := Among.own 2 (.processAcks [dispAddr 0, dispAddr 1]) s7 trivial
  have e : ∀ {s : Fin 3 → DState}, Among netNode s → (∀ k, s k = netAt k) → Among netNode netAt := fun h hs => by rw [← funext hs]; exact h
  refine e s8 (fun k => ?_)
  match k with
  | 0 => rfl
  | 1 => rfl
  | 2 => rfl

/-- The hypotheses of the theorems above hold of the programs 0 and 2. -/
theorem net_readable : Readable (netNode 0).env (netNode 2).env (netAt 0) ∧ HandlesAll (netNode 2).env (netAt 0) := by
  have hp : (preparedMsgs netA.trace).length = 2 ∧ ∀ x ∈ preparedMsgs netA.trace, x.2.name = demoMessage.name ∧ x.2.blocks = demoMessage.blocks ∧ x.2.sendFlags &&& 0x10 = 0 := by
    decide +kernel
  have hc : ∀ tr, Connected sysEnv.ser (sysEnv.deser tr).eager demoTemplate := fun tr => ⟨rfl, rfl, rfl, rfl, rfl, [], rfl, .inr rfl⟩
  refine ⟨⟨?_, fun x hx => (hp.2 x hx).2.2, ?_⟩, ?_⟩
  · show (preparedMsgs netA.trace).length < 2 ^ 31
    rw [hp.1]
    decide
  · intro x hx
    obtain ⟨h1, h2, _⟩ := hp.2 x hx
    exact ⟨demoTemplate, demo_wf, fills_congr h1 h2 demo_fills, hc⟩
  · intro x hx tr
    refine ⟨["Demo", "PacketAck"], rfl, .inl ?_⟩
    rw [(hp.2 x hx).1]
    decide

/-- Program 2 has accepted packets 2 and 1 of program 0 and packet 1 of program 1, twice; the hypothesis of C94_at_most_once holds for program 0 and not for program 1. -/
example : (parsedFrom (netNode 0).addr (netAt 2).trace).map (·.packetId) = [2, 1] ∧ (parsedFrom (netNode 1).addr (netAt 2).trace).map (·.packetId) = [1, 1] ∧
    (deliveredMsgs (netAt 2).trace).map (·.packetId) = [2, 1, 1, 1] ∧
    (receivedFrom (netNode 0).addr (netAt 2).trace).Perm (sentTo (netNode 2).addr (netAt 0).trace) ∧ Ev.removed (netNode 2).addr ∉ (netAt 0).trace ∧
    (sentDatagrams (netAt 2).trace).map (·.1) = [dispAddr 0] ∧ waitingIds (netAt 0) (dispAddr 2) = [1] := by
  refine ⟨by decide +kernel, by decide +kernel, by decide +kernel, by decide +kernel, by decide +kernel, by decide +kernel, by decide +kernel⟩

end Pyogp
