import Verif.Spec.Delivery
import Verif.Props.Storm
import Verif.Props.Progress
import Mathlib.Tactic.ByContra

/-!
# C95: what is enqueued is delivered, and how soon
-/

namespace Pyogp
open Spec

theorem receiveCheck_received (env : DEnv) (st : DState) (r : HostRef) (dg : Bytes) :
    receivedDatagrams (receiveCheck env st r dg).2.trace = receivedDatagrams st.trace ++ (if dg = [] then [] else [dg]) := by
  by_cases hne : dg = []
  · subst hne
    have : receiveCheck env st r [] = (.ok none, st) := by unfold receiveCheck; simp
    rw [this]; simp
  · rw [if_neg hne]
    have hlen : 0 < dg.length := List.length_pos_iff.mpr hne
    obtain ⟨_, htr, _, _, _, hde, _, _⟩ := findCircuit_fields st r
    unfold receiveCheck
    simp only [hlen, if_true]
    generalize hst1 : DState.mk _ _ _ _ _ _ _ = st1
    have h1 : receivedDatagrams st1.trace = receivedDatagrams st.trace ++ [dg] := by
      rw [← hst1]; simp only [DState.log, htr, receivedDatagrams_append]; simp [receivedDatagrams]
    clear hst1
    split
    · exact h1
    · split
      · exact h1
      · exact h1
    · split
      · exact h1
      · rename_i m _ _
        generalize hst2 : DState.log (st1.setCircuit _ _) _ = st2
        have h2 : receivedDatagrams st2.trace = receivedDatagrams st.trace ++ [dg] := by
          rw [← hst2]; simp only [DState.log, DState.setCircuit, receivedDatagrams_append, h1]; simp [receivedDatagrams]
        clear hst2
        split
        · generalize hst3 : DState.log st2 _ = st3
          have h3 : receivedDatagrams st3.trace = receivedDatagrams st.trace ++ [dg] := by
            rw [← hst3]; simp only [DState.log, receivedDatagrams_append, h2]; simp [receivedDatagrams]
          have h4 := handler_preserves (received_closed env (receivedDatagrams st.trace ++ [dg])).toSendClosed (fun _ _ => Prog.mutates_any _) st3.trace m env.depth st3 h3
          split <;> rename_i he <;> rw [he] at h4 <;> exact h4
        · exact h2

/-- What a loop that is run takes from the socket. -/
def takes (w : World) : Act → List Bytes
  | .udp i (some x) _ => if w.loops[i]? = some .receiving then (if x.dg.take recvBuffer = [] then [] else [x.dg.take recvBuffer]) else []
  | _ => []

theorem act_received (env : CEnv) (w : World) (a : Act) (hu : Usual w a) :
    receivedDatagrams (act env w a).m.disp.trace = receivedDatagrams w.m.disp.trace ++ takes w a := by
  cases a with
  | disp o => exact hu.elim
  | enqueue e => simp [act, takes, MState.enqueueAll]
  | start => simp [act, takes, World.start]
  | stop => simp [act, takes, World.stop]
  | stopQueue => simp [act, takes]
  | poller i o => simp only [act, takes]; split <;> simp
  | udp i input order =>
    simp only [act]
    split
    · rename_i hpc
      simp only [takes]
      cases input with
      | none => simp
      | some x => simp [hpc]
    · rename_i pc hpc
      have hns : pc ≠ .receiving → takes w (.udp i input order) = [] := by
        intro hne
        cases input with
        | none => rfl
        | some x => simp only [takes, hpc]; rw [if_neg (by intro h; exact hne (Option.some.inj h))]
      cases pc with
      | receiving =>
        have key : receivedDatagrams (receiveRound env.m w.m.disp input).2.trace = receivedDatagrams w.m.disp.trace ++ takes w (.udp i input order) := by
          cases input with
          | none => simp [receiveRound, receiveCheck, takes]
          | some x =>
            simp only [receiveRound, takes, hpc, if_true]
            exact receiveCheck_received _ _ _ _
        simp only [udpRun]
        cases hr : receiveRound env.m w.m.disp input with
        | mk r d => rw [hr] at key; cases r <;> exact key
      | acking =>
        rw [hns (by simp), List.append_nil]
        have key : receivedDatagrams (ackRound env.m w.m.disp order).2.trace = receivedDatagrams w.m.disp.trace := by
          unfold ackRound
          split
          · exact processAcks_preserves (received_closed env.m.disp (receivedDatagrams w.m.disp.trace)) (fun _ _ => Prog.mutates_any _) w.m.disp order rfl
          · rfl
        simp only [udpRun]
        cases hr : ackRound env.m w.m.disp order with
        | mk r d => rw [hr] at key; cases r <;> exact key
      | draining =>
        rw [hns (by simp), List.append_nil]
        simp only [udpRun]
        cases hqu : w.m.queue with
        | nil => rfl
        | cons e q =>
          have key : receivedDatagrams (sendUdpMessage env.m (w.m.popped e q).disp e).2.trace = receivedDatagrams w.m.disp.trace := by
            rw [sendUdp_mode]
            exact send_preserves (received_closed env.m.disp (receivedDatagrams w.m.disp.trace)).toSendClosed (fun _ _ => Prog.mutates_any _) w.m.disp _ _ _ rfl
          simp only
          cases hr : sendUdpMessage env.m (w.m.popped e q).disp e with
          | mk r d => rw [hr] at key; cases r <;> exact key
      | spawned => rw [hns (by simp), List.append_nil]; rfl
      | sleeping => rw [hns (by simp), List.append_nil]; rfl
      | returned => rw [hns (by simp), List.append_nil]; rfl
      | raised x => rw [hns (by simp), List.append_nil]; rfl

theorem movesOf_append (s : Bool) (a b : List (Bool × Act)) : movesOf s (a ++ b) = movesOf s a ++ movesOf s b := by simp [movesOf]

theorem together_append (envA envB : CEnv) (s : World × World) (a b : List (Bool × Act)) :
    together envA envB s (a ++ b) = together envA envB (together envA envB s a) b := by
  simp only [together, movesOf_append, runActs_append]

theorem together_true (envA envB : CEnv) (s : World × World) (x : Act) (ms : List (Bool × Act)) :
    together envA envB s ((true, x) :: ms) = together envA envB (act envA s.1 x, s.2) ms := by
  simp [together, movesOf, runActs_cons]

theorem together_false (envA envB : CEnv) (s : World × World) (x : Act) (ms : List (Bool × Act)) :
    together envA envB s ((false, x) :: ms) = together envA envB (s.1, act envB s.2 x) ms := by
  simp [together, movesOf, runActs_cons]

theorem lossless_append {envA envB : CEnv} {ip : String} {port : Nat} {addrB : Addr} : ∀ (a b : List (Bool × Act)) (s : World × World),
    Lossless envA envB ip port addrB s (a ++ b) ↔ Lossless envA envB ip port addrB s a ∧ Lossless envA envB ip port addrB (together envA envB s a) b
  | [], b, s => by simp [Lossless, together, movesOf, runActs]
  | (true, x) :: a, b, s => by
    rw [List.cons_append, Lossless, Lossless, lossless_append a b, together_true]
    constructor
    · rintro ⟨h1, h2, h3, h4⟩; exact ⟨⟨h1, h2, h3⟩, h4⟩
    · rintro ⟨⟨h1, h2, h3⟩, h4⟩; exact ⟨h1, h2, h3, h4⟩
  | (false, x) :: a, b, s => by
    rw [List.cons_append, Lossless, Lossless, lossless_append a b, together_false]
    constructor
    · rintro ⟨h1, h2, h3, h4⟩; exact ⟨⟨h1, h2, h3⟩, h4⟩
    · rintro ⟨⟨h1, h2, h3⟩, h4⟩; exact ⟨h1, h2, h3, h4⟩

theorem sentTo_prefix {a b : List Ev} (h : a <+: b) (addr : Addr) : sentTo addr a <+: sentTo addr b := by
  obtain ⟨t, rfl⟩ := h
  refine ⟨sentTo addr t, ?_⟩
  simp [sentTo, sentDatagrams_append]

theorem runActs_prefix (env : CEnv) : ∀ (as : List Act) (w : World), w.m.disp.trace <+: (runActs env w as).m.disp.trace
  | [], _ => List.prefix_refl _
  | a :: as, w => (act_prefix env w a).trans (runActs_prefix env as _)

/-- What B takes in a lossless history is the first datagram on its way. -/
theorem brings_takes {ip : String} {port : Nat} {addrB : Addr} {s : World × World} {x : Act} (h : Brings ip port addrB s x) (hf : FitsBuffer s.1.m.disp.trace)
    (hne : ∀ dg ∈ sentTo addrB s.1.m.disp.trace, dg ≠ []) :
    takes s.2 x = [] ∧ (∀ i input order, x = .udp i input order → s.2.loops[i]? = some .receiving → underway addrB s = []) ∨
    ∃ dg rest, underway addrB s = dg :: rest ∧ takes s.2 x = [dg] := by
  cases x with
  | udp i input order =>
    simp only [Brings] at h
    by_cases hr : s.2.loops[i]? = some .receiving
    · rw [if_pos hr] at h
      cases hu : underway addrB s with
      | nil =>
        rw [hu] at h
        left
        refine ⟨by rw [h]; rfl, ?_⟩
        intro _ _ _ _ _; rfl
      | cons dg rest =>
        rw [hu] at h
        right
        refine ⟨dg, rest, rfl, ?_⟩
        have hmem : dg ∈ sentTo addrB s.1.m.disp.trace := by
          have : dg ∈ underway addrB s := by rw [hu]; exact List.mem_cons_self
          exact List.mem_of_mem_drop this
        have hle : dg.length ≤ recvBuffer := by
          obtain ⟨y, hy, rfl⟩ := List.mem_map.mp hmem
          exact hf y (List.mem_filter.mp hy).1
        rw [h]
        simp only [List.head?_cons, Option.map_some, takes, hr, if_true, List.take_of_length_le hle]
        rw [if_neg (hne dg hmem)]
    · rw [if_neg hr] at h
      left
      refine ⟨by rw [h]; rfl, ?_⟩
      intro i' _ _ he hr'
      cases he
      exact absurd hr' hr
  | _ => exact .inl ⟨rfl, by intro i input order he; cases he⟩

/-- What B has received are the first of the datagrams A has sent it. -/
theorem lossless_prefix {envA envB : CEnv} {ip : String} {port : Nat} {addrB : Addr} : ∀ (ms : List (Bool × Act)) (s : World × World),
    Lossless envA envB ip port addrB s ms → FitsBuffer (together envA envB s ms).1.m.disp.trace →
    (∀ dg ∈ sentTo addrB (together envA envB s ms).1.m.disp.trace, dg ≠ []) →
    receivedDatagrams s.2.m.disp.trace <+: sentTo addrB s.1.m.disp.trace →
    receivedDatagrams (together envA envB s ms).2.m.disp.trace <+: sentTo addrB (together envA envB s ms).1.m.disp.trace
  | [], s, _, _, _, h => h
  | (true, x) :: ms, s, hl, hf, hne, h => by
    rw [together_true] at hf hne ⊢
    exact lossless_prefix ms _ hl.2.2 hf hne (h.trans (sentTo_prefix (act_prefix envA s.1 x) addrB))
  | (false, x) :: ms, s, hl, hf, hne, h => by
    rw [together_false] at hf hne ⊢
    have hpre : s.1.m.disp.trace <+: (together envA envB (s.1, act envB s.2 x) ms).1.m.disp.trace := runActs_prefix _ _ _
    refine lossless_prefix ms _ hl.2.2 hf hne ?_
    simp only
    rw [act_received envB s.2 x hl.1]
    rcases brings_takes hl.2.1 (fits_prefix hpre hf) (fun dg hd => hne dg ((sentTo_prefix hpre addrB).subset hd)) with ⟨h1, _⟩ | ⟨dg, rest, h1, h2⟩
    · rw [h1, List.append_nil]; exact h
    · rw [h2]
      have e := List.prefix_iff_eq_take.mp h
      have : sentTo addrB s.1.m.disp.trace = receivedDatagrams s.2.m.disp.trace ++ dg :: rest := by
        have := List.take_append_drop (receivedDatagrams s.2.m.disp.trace).length (sentTo addrB s.1.m.disp.trace)
        rw [← e] at this
        rw [← this]
        congr 1
      exact ⟨rest, by rw [this]; simp⟩

theorem readsBy_cons (env : CEnv) (j : Nat) (w : World) (x : Act) (as : List Act) :
    ∃ c, readsBy env j w (x :: as) = c + readsBy env j (act env w x) as ∧ c ≤ 1 ∧ (c = 1 → ∃ input order, x = .udp j input order ∧ w.loops[j]? = some .receiving) := by
  cases x with
  | udp j' input order =>
    by_cases h : j' = j ∧ w.loops[j]? = some .receiving
    · exact ⟨1, by simp only [readsBy, if_pos h], Nat.le_refl _, fun _ => ⟨input, order, by rw [h.1], h.2⟩⟩
    · exact ⟨0, by simp only [readsBy, if_neg h], by omega, fun h => by omega⟩
  | _ => exact ⟨0, by simp only [readsBy], by omega, fun h => by omega⟩

/-- Every read of B brings it closer to what A has sent. -/
theorem lossless_count {envA envB : CEnv} {ip : String} {port : Nat} {addrB : Addr} (j : Nat) (N : Nat) : ∀ (ms : List (Bool × Act)) (s : World × World),
    Lossless envA envB ip port addrB s ms → FitsBuffer (together envA envB s ms).1.m.disp.trace →
    (∀ dg ∈ sentTo addrB (together envA envB s ms).1.m.disp.trace, dg ≠ []) → N ≤ (sentTo addrB s.1.m.disp.trace).length →
    N ≤ (receivedDatagrams s.2.m.disp.trace).length + readsBy envB j s.2 (movesOf false ms) →
    N ≤ (receivedDatagrams (together envA envB s ms).2.m.disp.trace).length
  | [], s, _, _, _, _, h => by simpa [movesOf, readsBy, together, runActs] using h
  | (true, x) :: ms, s, hl, hf, hne, hN, h => by
    rw [together_true] at hf hne ⊢
    exact lossless_count j N ms _ hl.2.2 hf hne (Nat.le_trans hN (sentTo_prefix (act_prefix envA s.1 x) addrB).length_le) (by simpa [movesOf] using h)
  | (false, x) :: ms, s, hl, hf, hne, hN, h => by
    rw [together_false] at hf hne ⊢
    have hpre : s.1.m.disp.trace <+: (together envA envB (s.1, act envB s.2 x) ms).1.m.disp.trace := runActs_prefix _ _ _
    have hm : movesOf false ((false, x) :: ms) = x :: movesOf false ms := by simp [movesOf]
    obtain ⟨c, hc1, hc2, hc3⟩ := readsBy_cons envB j s.2 x (movesOf false ms)
    rw [hm, hc1] at h
    have hmono : ∀ (w : World) (as : List Act), (receivedDatagrams w.m.disp.trace).length ≤ (receivedDatagrams (runActs envB w as).m.disp.trace).length := by
      intro w as
      obtain ⟨t, ht⟩ := runActs_prefix envB as w
      rw [← ht, receivedDatagrams_append, List.length_append]
      omega
    by_cases hdone : N ≤ (receivedDatagrams (act envB s.2 x).m.disp.trace).length
    · exact Nat.le_trans hdone (hmono _ _)
    refine lossless_count j N ms _ hl.2.2 hf hne hN ?_
    simp only
    have hr := act_received envB s.2 x hl.1
    rcases brings_takes hl.2.1 (fits_prefix hpre hf) (fun dg hd => hne dg ((sentTo_prefix hpre addrB).subset hd)) with ⟨h1, h2⟩ | ⟨dg, rest, h1, h2⟩
    · rw [h1, List.append_nil] at hr
      have h0 : c = 0 := by
        by_contra hc
        obtain ⟨input, order, rfl, hrec⟩ := hc3 (by omega)
        have hl : (sentTo addrB s.1.m.disp.trace).length ≤ (receivedDatagrams s.2.m.disp.trace).length := List.drop_eq_nil_iff.mp (h2 _ _ _ rfl hrec)
        rw [hr] at hdone
        omega
      rw [hr]
      omega
    · rw [h2] at hr
      rw [hr, List.length_append, List.length_singleton]
      omega

theorem brings_sent {ip : String} {port : Nat} {addrB : Addr} {s : World × World} {x : Act} (h : Brings ip port addrB s x) : SentBy s.1 x := by
  cases x with
  | udp i input order =>
    simp only [Brings] at h
    cases input with
    | none => trivial
    | some inp =>
      split at h
      · cases hu : (underway addrB s).head? with
        | none => rw [hu] at h; cases h
        | some dg =>
          rw [hu] at h
          cases h
          have hm : dg ∈ sentTo addrB s.1.m.disp.trace := List.mem_of_mem_drop (List.mem_of_head? hu)
          obtain ⟨y, hy, rfl⟩ := List.mem_map.mp hm
          exact ⟨y.1, (List.mem_filter.mp hy).1⟩
      · cases h
  | _ => trivial

theorem lossless_pair_from {envA envB : CEnv} {ip : String} {port : Nat} {addrB : Addr} {wA wB : World} : ∀ (ms : List (Bool × Act)) (asA asB : List Act),
    Pair envA envB wA wB asA asB → Lossless envA envB ip port addrB (runActs envA wA asA, runActs envB wB asB) ms →
    Pair envA envB wA wB (asA ++ movesOf true ms) (asB ++ movesOf false ms)
  | [], asA, asB, h, _ => by simpa [movesOf] using h
  | (true, x) :: ms, asA, asB, h, hl => by
    have := lossless_pair_from (envA := envA) (envB := envB) (ip := ip) (port := port) (addrB := addrB) ms (asA ++ [x]) asB (.actA x h hl.1 hl.2.1)
      (by rw [runActs_snoc]; exact hl.2.2)
    simpa [movesOf] using this
  | (false, x) :: ms, asA, asB, h, hl => by
    have := lossless_pair_from (envA := envA) (envB := envB) (ip := ip) (port := port) (addrB := addrB) ms asA (asB ++ [x]) (.actB x h hl.1 (brings_sent hl.2.1))
      (by rw [runActs_snoc]; exact hl.2.2)
    simpa [movesOf] using this

/-- A lossless history is one of two managers and the network between them. -/
theorem lossless_pair {envA envB : CEnv} {ip : String} {port : Nat} {addrB : Addr} {wA wB : World} {ms : List (Bool × Act)}
    (h : Lossless envA envB ip port addrB (wA, wB) ms) : Pair envA envB wA wB (movesOf true ms) (movesOf false ms) := by
  have := lossless_pair_from ms [] [] (.start (envA := envA) (envB := envB)) h
  simpa using this

theorem sentTo_ne_nil {env : CEnv} {hosts : HostRef → Host} {hasEq : Bool} {as : List Act} {addr : Addr} :
    ∀ dg ∈ sentTo addr (runActs env (World.init hosts hasEq) as).m.disp.trace, dg ≠ [] := by
  intro dg hd
  obtain ⟨y, hy, rfl⟩ := List.mem_map.mp hd
  obtain ⟨hist, e, _⟩ := C79_dispatcher_history env hosts hasEq as
  rw [e] at hy
  obtain ⟨rest, h⟩ := C72_flags env.m.disp hosts _ y.1 y.2 (List.mem_filter.mp hy).1
  rcases h with h | h | h | h | h | h <;> rw [h] <;> exact List.cons_ne_nil _ _

theorem packetsFor_prefix (env : CEnv) (w : World) (as : List Act) (addr : Addr) :
    packetsFor addr w.m.disp <+: packetsFor addr (runActs env w as).m.disp := by
  obtain ⟨t, ht⟩ := runActs_prefix env as w
  unfold packetsFor
  rw [← ht, preparedMsgs_append, List.filter_append]
  exact List.prefix_append _ _

theorem enqueuedIn_movesOf {s : Bool} {a b : List (Bool × Act)} {e : QEntry} (h : e ∈ enqueuedIn (movesOf s a)) : e ∈ enqueuedIn (movesOf s (a ++ b)) := by
  rw [movesOf_append, enqueuedIn, List.filterMap_append]
  exact List.mem_append_left _ h

/-- **C95, in time.** Two managers, any schedule of their coroutines.  A sends only through its queue, to the valid host that is B's address; B can read and handles what A
enqueues; A's socket takes every datagram, they fit into the buffer, there are fewer than `2^31`; what A sends to B is brought to B, in order, whenever a loop of B reads (what B
sends may be lost, duplicated, reordered).  In the first part of the history anything may have happened.  In the second, A is not stopped and a loop of A is run 4 times more
than there are messages in A's queue and urgent ones coming in; in the third, B is not stopped and a loop of B is run four times for each datagram on its way to B, once
for each message B's loop may have to send, and 3 times more.  Then one of these two loops was left by an exception, or all the messages that were in A's queue at the end of the
first part – and those sent before – have been delivered to B's subscribers; and what these have got, besides acknowledgements, are the first messages taken from A's queue, once, in that order, with their
content. -/
theorem C95_in_time {envA envB : CEnv} (hA : ThroughQueue envA) {hostsA hostsB : HostRef → Host} {eqA eqB : Bool} (hok : (hostsA envA.m.host).isOk = true)
    (hh : envB.m.disp.handlePackets = true) (hn : ∀ tr x dg, envA.m.disp.net tr x dg = true) {ip : String} {port : Nat} (ms1 ms2 ms3 : List (Bool × Act)) (i j : Nat) :
    let addrB := (hostsA envA.m.host).addr
    let s0 := (World.init hostsA eqA, World.init hostsB eqB)
    let s1 := together envA envB s0 ms1
    let s2 := together envA envB s1 ms2
    let s3 := together envA envB s2 ms3
    Lossless envA envB ip port addrB s0 (ms1 ++ ms2 ++ ms3) → Understood envA envB (enqueuedIn (movesOf true (ms1 ++ ms2 ++ ms3))) →
    (preparedMsgs s3.1.m.disp.trace).length < 2 ^ 31 → FitsBuffer s3.1.m.disp.trace → FitsBuffer s3.2.m.disp.trace →
    s1.1.running = true → Running s1.1 i → NoStop (movesOf true ms2) → s1.1.m.queue.length + urgentIn (movesOf true ms2) + 4 ≤ turns i (movesOf true ms2) →
    s2.2.running = true → Running s2.2 j → NoStop (movesOf false ms3) →
    4 * (underway addrB s2).length + 3 + s2.2.m.queue.length + (enqueuedIn (movesOf false ms3)).length ≤ turns j (movesOf false ms3) →
    Raised s2.1 i ∨ Raised s3.2 j ∨ ∃ k, (s1.1.m.calls ++ s1.1.m.queue).Subperm (s3.1.m.calls.take k) ∧
      List.Forall₂ (Received envA.m.disp.ser) (s3.1.m.calls.take k) ((deliveredMsgs s3.2.m.disp.trace).filter (fun m => m.name ≠ "PacketAck")) := by
  intro addrB s0 s1 s2 s3 hl hk hfew hfA hfB ra rb rc rd qa qb qc qd
  rcases C93_sent_in_time envA s1.1 ra i rb _ rc rd with hx | hsent
  · exact .inl hx
  rcases C93_keeps_reading envB s2.2 qa j qb _ qc (underway addrB s2).length qd with hx | hreads
  · exact .inr (.inl hx)
  refine .inr (.inr ?_)
  have e2 : together envA envB s0 (ms1 ++ ms2) = s2 := together_append _ _ _ _ _
  have e3 : together envA envB s0 (ms1 ++ ms2 ++ ms3) = s3 := by rw [together_append, e2]
  obtain ⟨hl2, hl3⟩ := (lossless_append (ms1 ++ ms2) ms3 s0).mp hl
  rw [e2] at hl3
  have hp2 := lossless_pair hl2
  have hp3 := lossless_pair hl
  have w2 : runActs envA (World.init hostsA eqA) (movesOf true (ms1 ++ ms2)) = s2.1 := congrArg Prod.fst e2
  have v2 : runActs envB (World.init hostsB eqB) (movesOf false (ms1 ++ ms2)) = s2.2 := congrArg Prod.snd e2
  have w3 : runActs envA (World.init hostsA eqA) (movesOf true (ms1 ++ ms2 ++ ms3)) = s3.1 := congrArg Prod.fst e3
  have v3 : runActs envB (World.init hostsB eqB) (movesOf false (ms1 ++ ms2 ++ ms3)) = s3.2 := congrArg Prod.snd e3
  have hpreA : s2.1.m.disp.trace <+: s3.1.m.disp.trace := runActs_prefix _ _ _
  have hpreB : s2.2.m.disp.trace <+: s3.2.m.disp.trace := runActs_prefix _ _ _
  have hne3 : ∀ dg ∈ sentTo addrB s3.1.m.disp.trace, dg ≠ [] := by rw [← w3]; exact sentTo_ne_nil
  have hne2 : ∀ dg ∈ sentTo addrB s2.1.m.disp.trace, dg ≠ [] := by rw [← w2]; exact sentTo_ne_nil
  have h0 : receivedDatagrams s0.2.m.disp.trace <+: sentTo addrB s0.1.m.disp.trace := List.prefix_refl _
  have hrec2 := lossless_prefix (ms1 ++ ms2) s0 hl2 (by rw [e2]; exact fits_prefix hpreA hfA) (by rw [e2]; exact hne2) h0
  rw [e2] at hrec2
  have hrec3 := lossless_prefix ms3 s2 hl3 hfA hne3 hrec2
  have hcount := lossless_count j (sentTo addrB s2.1.m.disp.trace).length ms3 s2 hl3 hfA hne3 (Nat.le_refl _) (by
    have : (underway addrB s2).length = (sentTo addrB s2.1.m.disp.trace).length - (receivedDatagrams s2.2.m.disp.trace).length := List.length_drop
    omega)
  have hk2 : Understood envA envB (enqueuedIn (movesOf true (ms1 ++ ms2))) := ⟨fun e he => hk.messages e (enqueuedIn_movesOf he), hk.acks⟩
  have hfew2 : (preparedMsgs s2.1.m.disp.trace).length < 2 ^ 31 := by
    obtain ⟨t, ht⟩ := hpreA
    rw [← ht, preparedMsgs_append, List.length_append] at hfew
    omega
  have t2 := pair_in_transit hA hp2 hok hk2 hh hn (by rw [w2]; exact hfew2) (by rw [w2]; exact fits_prefix hpreA hfA) (by rw [v2]; exact fits_prefix hpreB hfB)
    (by rw [w2, v2]; exact hrec2)
  have t3 := pair_in_transit hA hp3 hok hk hh hn (by rw [w3]; exact hfew) (by rw [w3]; exact hfA) (by rw [v3]; exact hfB) (by rw [w3, v3]; exact hrec3)
  rw [w3, v3] at t3
  have hcnt2 := t2.2
  rw [w2] at hcnt2
  refine ⟨_, ?_, t3.1⟩
  have hps := packets_sent (envB := envB.m.disp) (together_sides (pair_together hp2 (by rw [w2]; exact fits_prefix hpreA hfA) (by rw [v2]; exact fits_prefix hpreB hfB))).1.sentInv
    (pair_readable (envB := envB) hA (pair_usual hp2).1 hok hk2 (by rw [w2]; exact hfew2)) hn addrB
  rw [w2] at hps
  have hlen : (packetsFor addrB s2.1.m.disp).length = (sentTo addrB s2.1.m.disp.trace).length := hps.length_eq
  have hge : s2.1.m.calls.length ≤ messagesAmong (receivedDatagrams s3.2.m.disp.trace).length addrB s3.1.m.disp := by
    rw [← hcnt2]
    unfold messagesAmong
    have hpp : packetsFor addrB s2.1.m.disp <+: (packetsFor addrB s3.1.m.disp).take (receivedDatagrams s3.2.m.disp.trace).length := by
      rw [List.prefix_take_iff]
      exact ⟨packetsFor_prefix envA s2.1 (movesOf true ms3) addrB, by rw [hlen]; exact hcount⟩
    exact (hpp.sublist.filter _).length_le
  refine hsent.trans ?_
  have hc : s2.1.m.calls <+: s3.1.m.calls.take (messagesAmong (receivedDatagrams s3.2.m.disp.trace).length addrB s3.1.m.disp) := by
    rw [List.prefix_take_iff]
    exact ⟨runActs_calls_prefix envA _ s2.1, hge⟩
  exact hc.sublist.subperm

/-! ## When the loops are not left by an exception -/

theorem deserialize_readable {env : DeserEnv} {st : DeserState} {dg : Bytes} {m : Message} (h : (deserialize env.eager st dg).1 = .ok (some m))
    (hh : env.handled? ≠ none) : ∃ o, (deserialize env st dg).1 = .ok o := by
  cases hw : wantsParse env m.name with
  | error e =>
    unfold wantsParse at hw
    split at hw
    · exact absurd ‹_› hh
    · cases hw
  | ok b =>
    cases b with
    | false => exact ⟨none, deserialize_skipped h hw⟩
    | true =>
      refine ⟨some m, ?_⟩
      obtain ⟨buf, acks, buf', t, h1, h2, h3, h4, h5, _, h7⟩ := deserialize_inv h
      rw [decodeData_name h7] at hw
      unfold deserialize
      simp only [h1, h2]
      have hd : decodeTemplate env st buf' = (.ok true, { currentTemplate := some t }) := by
        have : decodeTemplate env.eager st buf' = decodeTemplate env st buf' := rfl
        rw [← this]
        unfold decodeTemplate
        rw [if_neg (by omega)]
        simp [h4]
      unfold deserializeRest
      rw [hd]
      have h5' : validateUdpMsg env.xml t.name = .ok true := h5
      have h7' : decodeData env.rt (some t) (buf' ++ acks) = .ok m := h7
      simp [currentName, h5', hw, ok_bind, runDecode, h7']

theorem receive_ok {env : DEnv} (hh : ∀ tr m, env.handler tr m = .done) (st : DState) (r : HostRef) (dg : Bytes)
    (hd : ∃ o, (deserialize (env.deser st.trace) st.deser dg).1 = .ok o) : ∃ o, (receiveCheck env st r dg).1 = .ok o := by
  obtain ⟨o, hd⟩ := hd
  cases o with
  | none =>
    obtain ⟨_, _, _, h, _⟩ := receive_unparsed env st r dg hd
    exact ⟨none, h⟩
  | some m =>
    obtain ⟨_, htr, _, _, _, hde, _, _⟩ := findCircuit_fields st r
    unfold receiveCheck
    simp only [htr, hde, hd]
    split
    · split
      · exact ⟨_, rfl⟩
      · split
        · simp only [hh, Prog.run]; exact ⟨_, rfl⟩
        · exact ⟨_, rfl⟩
    · exact ⟨_, rfl⟩

theorem act_no_raise {env : CEnv} (hq : ThroughQueue env) (hdone : ∀ tr m, env.m.disp.handler tr m = .done) (hnet : ∀ tr x dg, env.m.disp.net tr x dg = true)
    {hosts : HostRef → Host} {w : World} (ht : Tidy env hosts w) (a : Act) (hu : Usual w a)
    (hin : ∀ i x order, a = .udp i (some x) order → ∀ tr dst, ∃ o, (deserialize (env.m.disp.deser tr) dst (x.dg.take recvBuffer)).1 = .ok o)
    (hsend : ∀ x ∈ preparedMsgs (act env w a).m.disp.trace, ∃ dg, serialize env.m.disp.ser x.2 = .ok (some dg)) (h : ∀ i, ¬ Raised w i) :
    ∀ i, ¬ Raised (act env w a) i := by
  rintro j ⟨x, hx⟩
  cases a with
  | disp o => exact hu.elim
  | enqueue e => exact h j ⟨x, hx⟩
  | start =>
    simp only [act, World.start] at hx
    rcases Nat.lt_or_ge j w.loops.length with hj | hj
    · rw [List.getElem?_append_left hj] at hx; exact h j ⟨x, hx⟩
    · rw [List.getElem?_append_right hj, List.getElem?_singleton] at hx
      split at hx <;> cases hx
  | stop => exact h j ⟨x, hx⟩
  | stopQueue => exact h j ⟨x, hx⟩
  | poller i o => simp only [act] at hx; split at hx <;> exact h j ⟨x, hx⟩
  | udp i input order =>
    cases hpc : w.loops[i]? with
    | none => simp only [act, hpc] at hx; exact h j ⟨x, hx⟩
    | some pc =>
      by_cases hij : i = j
      case neg =>
        simp only [act, hpc] at hx
        rw [List.getElem?_set_ne hij] at hx
        exact h j ⟨x, hx⟩
      case pos =>
        subst hij
        rw [act_udp_self hpc] at hx
        have hx := Option.some.inj hx
        have hpre : preparedMsgs (act env w (.udp i input order)).m.disp.trace = preparedMsgs (udpRun env w input order pc).2.m.disp.trace := by
          simp only [act, hpc]
        rw [hpre] at hsend
        cases pc with
        | spawned => simp only [udpRun, World.loopHead] at hx; split at hx <;> cases hx
        | sleeping => simp only [udpRun] at hx; cases hx
        | returned => simp only [udpRun] at hx; cases hx
        | raised y => exact h i ⟨y, hpc⟩
        | receiving =>
          have key : ∃ o, (receiveRound env.m w.m.disp input).1 = .ok o := by
            cases input with
            | none => exact ⟨none, by simp [receiveRound, receiveCheck]⟩
            | some y => exact receive_ok hdone _ _ _ (hin i y order rfl _ _)
          obtain ⟨o, key⟩ := key
          simp only [udpRun] at hx
          cases hr : receiveRound env.m w.m.disp input with
          | mk r d => rw [hr] at key hx; cases key; cases hx
        | acking =>
          obtain ⟨d', new, h1, _⟩ := ackRound_all hq.outgoing hq.depth ht.reach' hu
          simp only [udpRun, h1] at hx
          cases hx
        | draining =>
          simp only [udpRun] at hx hsend
          cases hqu : w.m.queue with
          | nil => simp only [hqu, World.loopHead] at hx; split at hx <;> cases hx
          | cons e q =>
            simp only [hqu] at hx hsend
            have hd : (w.m.popped e q).disp = w.m.disp := rfl
            rw [hd] at hx hsend
            have key : ∃ o, (sendUdpMessage env.m w.m.disp e).1 = .ok o := by
              have hs : ∀ y ∈ preparedMsgs (sendUdpMessage env.m w.m.disp e).2.trace, ∃ dg, serialize env.m.disp.ser y.2 = .ok (some dg) := by
                cases hr : sendUdpMessage env.m w.m.disp e with
                | mk r d => rw [hr] at hsend; cases r <;> exact hsend
              rw [sendUdp_mode, send_default hq.outgoing hq.depth] at hs ⊢
              split at hs
              · rename_i hok
                rw [if_pos hok]
                generalize (if e.reliable = true then SendMode.reliable 0 else SendMode.plain) = mode at hs ⊢
                obtain ⟨new, g1, g2⟩ := transmit_prepared env.m.disp w.m.disp e.msg env.m.host mode
                rw [g1, preparedMsgs_append, g2] at hs
                obtain ⟨dg, hdg⟩ := hs _ (List.mem_append_right _ (List.mem_singleton.mpr rfl))
                rw [transmit_eq]
                simp only at hdg
                refine ⟨some dg, ?_⟩
                unfold handToSocket
                simp only [hdg, hnet, if_true]
              · rename_i hok
                rw [if_neg hok]
                exact ⟨none, rfl⟩
            obtain ⟨o, key⟩ := key
            cases hr : sendUdpMessage env.m w.m.disp e with
            | mk r d => rw [hr] at key hx; cases key; cases hx

/-- A manager in the default configuration of this property: its program sends only through the queue, to a valid host; its subscribers return; it has a message handler; its socket
takes every datagram. -/
structure Calm (env : CEnv) (hosts : HostRef → Host) : Prop where
  queue : ThroughQueue env
  host : (hosts env.m.host).isOk = true
  done : ∀ tr m, env.m.disp.handler tr m = .done
  handled : ∀ tr, (env.m.disp.deser tr).handled? ≠ none
  net : ∀ tr x dg, env.m.disp.net tr x dg = true

theorem side_no_raise {envA envB : CEnv} {hostsA hostsB : HostRef → Host} (hA : Calm envA hostsA) (hB : Calm envB hostsB) {eqA eqB : Bool} {asA asB : List Act} {a : Act}
    (huA : UsualHistory envA (World.init hostsA eqA) (asA ++ [a])) (huB : UsualHistory envB (World.init hostsB eqB) asB)
    (hu : Usual (runActs envA (World.init hostsA eqA) asA) a) (hs : SentBy (runActs envB (World.init hostsB eqB) asB) a)
    (hkA : Understood envA envB (enqueuedIn (asA ++ [a]))) (hkB : Understood envB envA (enqueuedIn asB))
    (hfewA : (preparedMsgs (runActs envA (World.init hostsA eqA) (asA ++ [a])).m.disp.trace).length < 2 ^ 31)
    (hfewB : (preparedMsgs (runActs envB (World.init hostsB eqB) asB).m.disp.trace).length < 2 ^ 31)
    (hfB : FitsBuffer (runActs envB (World.init hostsB eqB) asB).m.disp.trace)
    (h : ∀ i, ¬ Raised (runActs envA (World.init hostsA eqA) asA) i) : ∀ i, ¬ Raised (runActs envA (World.init hostsA eqA) (asA ++ [a])) i := by
  have hrA := pair_readable (envB := envB) hA.queue huA hA.host hkA hfewA
  have hrB := pair_readable (envB := envA) hB.queue huB hB.host hkB hfewB
  have hSA : SentInv envA.m.disp (runActs envA (World.init hostsA eqA) (asA ++ [a])).m.disp := by
    obtain ⟨ops, e⟩ := (usual_tidy hA.queue hostsA eqA huA).reach
    rw [e]; exact reachable_sent _ _ _
  have hSB : SentInv envB.m.disp (runActs envB (World.init hostsB eqB) asB).m.disp := by
    obtain ⟨ops, e⟩ := (usual_tidy hB.queue hostsB eqB huB).reach
    rw [e]; exact reachable_sent _ _ _
  have hsend := fun x hx => readable_sends hSA hrA (x := x) hx
  rw [runActs_snoc] at hsend ⊢
  refine act_no_raise hA.queue hA.done hA.net (usual_tidy hA.queue hostsA eqA (usualHistory_init huA)) a hu ?_ hsend h
  rintro i x order rfl tr dst
  obtain ⟨y, hy⟩ := hs
  have hle : x.dg.length ≤ recvBuffer := hfB _ hy
  rw [List.take_of_length_le hle]
  obtain ⟨q, hq1, hq2⟩ := sent_ne_nil hSB hy
  obtain ⟨m', hm', _⟩ := readable_read hSB hrB hq1 hq2 tr dst
  exact deserialize_readable hm' (hA.handled tr)

theorem few_init {env : CEnv} {w : World} {as : List Act} {a : Act} (h : (preparedMsgs (runActs env w (as ++ [a])).m.disp.trace).length < 2 ^ 31) :
    (preparedMsgs (runActs env w as).m.disp.trace).length < 2 ^ 31 := by
  rw [runActs_snoc] at h
  obtain ⟨t, ht⟩ := act_prefix env (runActs env w as) a
  rw [← ht, preparedMsgs_append, List.length_append] at h
  omega

theorem understood_init {envA envB : CEnv} {as : List Act} {a : Act} (h : Understood envA envB (enqueuedIn (as ++ [a]))) : Understood envA envB (enqueuedIn as) :=
  ⟨fun e he => h.messages e (by rw [enqueuedIn, List.filterMap_append]; exact List.mem_append_left _ he), h.acks⟩

/-- **C95, no exception.** Two managers used through their queues that understand each other's messages, whose subscribers return and whose sockets take every
datagram: whatever the network does with the datagrams – it may lose, duplicate, delay, reorder and misdirect them – and whatever the schedule, no UDP loop of either is ever left by an exception. -/
theorem C95_no_exception {envA envB : CEnv} {hostsA hostsB : HostRef → Host} (hA : Calm envA hostsA) (hB : Calm envB hostsB) {eqA eqB : Bool} {asA asB : List Act}
    (hp : Pair envA envB (World.init hostsA eqA) (World.init hostsB eqB) asA asB) :
    Understood envA envB (enqueuedIn asA) → Understood envB envA (enqueuedIn asB) →
    (preparedMsgs (runActs envA (World.init hostsA eqA) asA).m.disp.trace).length < 2 ^ 31 →
    (preparedMsgs (runActs envB (World.init hostsB eqB) asB).m.disp.trace).length < 2 ^ 31 →
    FitsBuffer (runActs envA (World.init hostsA eqA) asA).m.disp.trace → FitsBuffer (runActs envB (World.init hostsB eqB) asB).m.disp.trace →
    ∀ i, ¬ Raised (runActs envA (World.init hostsA eqA) asA) i ∧ ¬ Raised (runActs envB (World.init hostsB eqB) asB) i := by
  induction hp with
  | start => intro _ _ _ _ _ _ i; constructor <;> (rintro ⟨x, hx⟩; simp [runActs, World.init] at hx)
  | @actA asA asB a hp hu hs ih =>
    intro kA kB nA nB fA fB
    have ih := ih (understood_init kA) kB (few_init nA) nB (by rw [runActs_snoc] at fA; exact fits_prefix (act_prefix envA _ a) fA) fB
    obtain ⟨uA, uB⟩ := pair_usual hp
    have := side_no_raise hA hB (.snoc a uA hu) uB hu hs kA kB nA nB fB (fun i => (ih i).1)
    exact fun i => ⟨this i, (ih i).2⟩
  | @actB asA asB b hp hu hs ih =>
    intro kA kB nA nB fA fB
    have ih := ih kA (understood_init kB) nA (few_init nB) fA (by rw [runActs_snoc] at fB; exact fits_prefix (act_prefix envB _ b) fB)
    obtain ⟨uA, uB⟩ := pair_usual hp
    have := side_no_raise hB hA (.snoc b uB hu) uA hu hs kB kA nB nA fA (fun i => (ih i).2)
    exact fun i => ⟨(ih i).1, this i⟩

/-- **C95, delivered.** As `C95_in_time`, for two managers of this kind that understand each other: the messages are delivered. -/
theorem C95_delivered {envA envB : CEnv} {hostsA hostsB : HostRef → Host} (hA : Calm envA hostsA) (hB : Calm envB hostsB) {eqA eqB : Bool}
    (hh : envB.m.disp.handlePackets = true) {ip : String} {port : Nat} (ms1 ms2 ms3 : List (Bool × Act)) (i j : Nat) :
    let addrB := (hostsA envA.m.host).addr
    let s0 := (World.init hostsA eqA, World.init hostsB eqB)
    let s1 := together envA envB s0 ms1
    let s2 := together envA envB s1 ms2
    let s3 := together envA envB s2 ms3
    Lossless envA envB ip port addrB s0 (ms1 ++ ms2 ++ ms3) →
    Understood envA envB (enqueuedIn (movesOf true (ms1 ++ ms2 ++ ms3))) → Understood envB envA (enqueuedIn (movesOf false (ms1 ++ ms2 ++ ms3))) →
    (preparedMsgs s3.1.m.disp.trace).length < 2 ^ 31 → (preparedMsgs s3.2.m.disp.trace).length < 2 ^ 31 → FitsBuffer s3.1.m.disp.trace → FitsBuffer s3.2.m.disp.trace →
    s1.1.running = true → Running s1.1 i → NoStop (movesOf true ms2) → s1.1.m.queue.length + urgentIn (movesOf true ms2) + 4 ≤ turns i (movesOf true ms2) →
    s2.2.running = true → Running s2.2 j → NoStop (movesOf false ms3) →
    4 * (underway addrB s2).length + 3 + s2.2.m.queue.length + (enqueuedIn (movesOf false ms3)).length ≤ turns j (movesOf false ms3) →
    ∃ k, (s1.1.m.calls ++ s1.1.m.queue).Subperm (s3.1.m.calls.take k) ∧
      List.Forall₂ (Received envA.m.disp.ser) (s3.1.m.calls.take k) ((deliveredMsgs s3.2.m.disp.trace).filter (fun m => m.name ≠ "PacketAck")) := by
  intro addrB s0 s1 s2 s3 hl hkA hkB nA nB fA fB ra rb rc rd qa qb qc qd
  have e3 : together envA envB s0 (ms1 ++ ms2 ++ ms3) = s3 := by rw [together_append, together_append]
  have w3 : runActs envA (World.init hostsA eqA) (movesOf true (ms1 ++ ms2 ++ ms3)) = s3.1 := congrArg Prod.fst e3
  have v3 : runActs envB (World.init hostsB eqB) (movesOf false (ms1 ++ ms2 ++ ms3)) = s3.2 := congrArg Prod.snd e3
  have hno := C95_no_exception hA hB (lossless_pair hl) hkA hkB (by rw [w3]; exact nA) (by rw [v3]; exact nB) (by rw [w3]; exact fA) (by rw [v3]; exact fB)
  rw [w3, v3] at hno
  rcases C95_in_time hA.queue hA.host hh hA.net ms1 ms2 ms3 i j hl hkA nA fA fB ra rb rc rd qa qb qc qd with h | h | h
  · exact absurd (raised_stays envA i (movesOf true ms3) s2.1 h) (hno i).1
  · exact absurd h (hno j).2
  · exact h

/-! ## Endless histories -/

theorem joint_succ (s : JointSchedule) (n : Nat) : s.first (n + 1) = s.first n ++ [s n] := by
  simp [JointSchedule.first, List.range_succ]

theorem joint_add (s : JointSchedule) (n k : Nat) : s.first (n + k) = s.first n ++ JointSchedule.first (fun j => s (n + j)) k := by
  induction k with
  | zero => simp [JointSchedule.first]
  | succ k ih => rw [← Nat.add_assoc, joint_succ, ih, joint_succ, List.append_assoc]

theorem mem_joint {s : JointSchedule} {b : Bool} {a : Act} {n : Nat} (h : a ∈ movesOf b (s.first n)) : ∃ k, s k = (b, a) := by
  obtain ⟨x, hx, rfl⟩ := List.mem_map.mp h
  obtain ⟨hx, hb⟩ := List.mem_filter.mp hx
  obtain ⟨k, _, rfl⟩ := List.mem_map.mp hx
  exact ⟨k, Prod.ext (eq_of_beq hb) rfl⟩

theorem mem_enqueued {as : List Act} {e : QEntry} (h : e ∈ enqueuedIn as) : .enqueue e ∈ as := by
  obtain ⟨a, ha1, ha2⟩ := List.mem_filterMap.mp h
  split at ha2
  · rw [← Option.some.inj ha2]; exact ha1
  · cases ha2

theorem joint_turns {s : JointSchedule} {b : Bool} {i : Nat} (hf : ∀ n, ∃ m, n ≤ m ∧ ∃ input order, s m = (b, .udp i input order)) (n k : Nat) :
    ∃ m, k ≤ turns i (movesOf b (JointSchedule.first (fun j => s (n + j)) m)) := by
  induction k with
  | zero => exact ⟨0, Nat.zero_le _⟩
  | succ k ih =>
    obtain ⟨m, hm⟩ := ih
    obtain ⟨m', h1, input, order, h2⟩ := hf (n + m)
    refine ⟨m + (m' - (n + m)) + 1, ?_⟩
    rw [joint_succ, joint_add]
    have h3 : n + (m + (m' - (n + m))) = m' := by omega
    rw [h3, h2]
    have h4 : movesOf b [(b, Act.udp i input order)] = [Act.udp i input order] := by simp [movesOf]
    simp only [movesOf_append, h4, turns, List.countP_append] at hm ⊢
    simp only [List.countP_cons, List.countP_nil, BEq.rfl, if_true]
    omega

theorem runActs_running (env : CEnv) : ∀ (as : List Act) (w : World), w.running = true → NoStop as → (runActs env w as).running = true
  | [], _, h, _ => h
  | a :: as, w, h, hs => by
    have hs' : ¬ .stop = a ∧ NoStop as := by simpa [NoStop] using hs
    exact runActs_running env as _ (act_running h (Ne.symm hs'.1)) hs'.2

theorem runActs_runs (env : CEnv) (as : List Act) (w : World) (i : Nat) (hr : w.running = true) (hi : Running w i) (hs : NoStop as)
    (hx : ¬ Raised (runActs env w as) i) : Running (runActs env w as) i := by
  obtain ⟨pc0, g1, g2⟩ := hi
  have hne : pc0 ≠ .returned := by rintro rfl; simp [Alive] at g2
  obtain ⟨pc, h1, h2⟩ := runActs_not_returned env as w hr hs i pc0 g1 hne
  have h3 : Alive pc = true := by
    cases pc <;> first | rfl | exact absurd rfl h2 | exact absurd ⟨_, h1⟩ hx
  exact ⟨pc, h1, h3⟩

theorem runActs_kept (env : CEnv) : ∀ (as : List Act) (w : World), (w.m.calls ++ w.m.queue).Subperm ((runActs env w as).m.calls ++ (runActs env w as).m.queue)
  | [], _ => List.Subperm.refl _
  | a :: as, w => (act_kept env w a).trans (runActs_kept env as _)

/-- **C95, everything is delivered.** An endless lossless history of two such managers that understand each other, with fewer than `2^31` packets in all: from some time on, a loop of each is
alive and is run again and again, nobody calls `stop_monitors`, A's program enqueues no more urgent messages and B's program none at all.  Then everything A's program ever enqueues – also before, also
urgent – is delivered to B's subscribers some time; and at that time they have got, besides acknowledgements, exactly the first messages taken from A's queue, once, in order. -/
theorem C95_everything_is_delivered {envA envB : CEnv} {hostsA hostsB : HostRef → Host} (hA : Calm envA hostsA) (hB : Calm envB hostsB) {eqA eqB : Bool}
    (hh : envB.m.disp.handlePackets = true) {ip : String} {port : Nat} (s : JointSchedule) (i j n0 : Nat) :
    let st := fun n => together envA envB (World.init hostsA eqA, World.init hostsB eqB) (s.first n)
    (∀ n, Lossless envA envB ip port (hostsA envA.m.host).addr (World.init hostsA eqA, World.init hostsB eqB) (s.first n)) →
    (∀ n, Understood envA envB (enqueuedIn (movesOf true (s.first n))) ∧ Understood envB envA (enqueuedIn (movesOf false (s.first n)))) →
    (∀ n, (preparedMsgs (st n).1.m.disp.trace).length < 2 ^ 31 ∧ (preparedMsgs (st n).2.m.disp.trace).length < 2 ^ 31) →
    (∀ n, FitsBuffer (st n).1.m.disp.trace ∧ FitsBuffer (st n).2.m.disp.trace) →
    (st n0).1.running = true → Running (st n0).1 i → (st n0).2.running = true → Running (st n0).2 j →
    (∀ n, n0 ≤ n → (s n).2 ≠ .stop) → (∀ n e, n0 ≤ n → s n = (true, .enqueue e) → e.now = false) → (∀ n e, n0 ≤ n → s n ≠ (false, .enqueue e)) →
    (∀ n, ∃ m, n ≤ m ∧ ∃ input order, s m = (true, .udp i input order)) → (∀ n, ∃ m, n ≤ m ∧ ∃ input order, s m = (false, .udp j input order)) →
    ∀ n, ∃ m k, ((st n).1.m.calls ++ (st n).1.m.queue).Subperm ((st m).1.m.calls.take k) ∧
      List.Forall₂ (Received envA.m.disp.ser) ((st m).1.m.calls.take k) ((deliveredMsgs (st m).2.m.disp.trace).filter (fun m => m.name ≠ "PacketAck")) := by
  intro st hl hk hfew hfit rA iA rB jB hstop hurg henq fA fB n
  have hst : ∀ n k, st (n + k) = together envA envB (st n) (JointSchedule.first (fun j => s (n + j)) k) := by
    intro n k
    simp only [st]
    rw [joint_add, together_append]
  have hno : ∀ n i, ¬ Raised (st n).1 i ∧ ¬ Raised (st n).2 i := fun n =>
    C95_no_exception hA hB (lossless_pair (hl n)) (hk n).1 (hk n).2 (hfew n).1 (hfew n).2 (hfit n).1 (hfit n).2
  have hns : ∀ b n k, n0 ≤ n → NoStop (movesOf b (JointSchedule.first (fun j => s (n + j)) k)) := by
    intro b n k hn hm
    obtain ⟨l, hl⟩ := mem_joint hm
    exact hstop (n + l) (by omega) (by rw [hl])
  -- the state after both `n` and `n0`
  obtain ⟨p, hp0, hp⟩ : ∃ p, n0 ≤ p ∧ n ≤ p := ⟨max n n0, Nat.le_max_right _ _, Nat.le_max_left _ _⟩
  have hrun : ∀ p, n0 ≤ p → (st p).1.running = true ∧ Running (st p).1 i ∧ (st p).2.running = true ∧ Running (st p).2 j := by
    intro p hp
    obtain ⟨k, rfl⟩ : ∃ k, p = n0 + k := ⟨p - n0, by omega⟩
    have h1 := hno (n0 + k)
    rw [hst] at h1 ⊢
    exact ⟨runActs_running _ _ _ rA (hns _ _ _ (Nat.le_refl _)), runActs_runs _ _ _ _ rA iA (hns _ _ _ (Nat.le_refl _)) (h1 i).1,
      runActs_running _ _ _ rB (hns _ _ _ (Nat.le_refl _)), runActs_runs _ _ _ _ rB jB (hns _ _ _ (Nat.le_refl _)) (h1 j).2⟩
  obtain ⟨k2, hk2⟩ := joint_turns fA p ((st p).1.m.queue.length + 4)
  have hu0 : urgentIn (movesOf true (JointSchedule.first (fun j => s (p + j)) k2)) = 0 := by
    unfold urgentIn
    rw [List.countP_eq_zero]
    intro e he
    obtain ⟨l, hl⟩ := mem_joint (mem_enqueued he)
    rw [hurg (p + l) e (by omega) hl]; simp
  obtain ⟨k3, hk3⟩ := joint_turns fB (p + k2) (4 * (underway (hostsA envA.m.host).addr (st (p + k2))).length + 3 + (st (p + k2)).2.m.queue.length)
  have he0 : enqueuedIn (movesOf false (JointSchedule.first (fun j => s (p + k2 + j)) k3)) = [] := by
    rw [List.eq_nil_iff_forall_not_mem]
    intro e he
    obtain ⟨l, hl⟩ := mem_joint (mem_enqueued he)
    exact henq (p + k2 + l) e (by omega) hl
  have hparts : s.first (p + k2 + k3) = s.first p ++ JointSchedule.first (fun j => s (p + j)) k2 ++ JointSchedule.first (fun j => s (p + k2 + j)) k3 := by
    rw [joint_add, joint_add s p k2]
  have h := C95_delivered hA hB (eqA := eqA) (eqB := eqB) hh (ip := ip) (port := port) (s.first p) (JointSchedule.first (fun j => s (p + j)) k2)
    (JointSchedule.first (fun j => s (p + k2 + j)) k3) i j
  change let addrB := (hostsA envA.m.host).addr
    let s1 := st p
    let s2 := together envA envB s1 (JointSchedule.first (fun j => s (p + j)) k2)
    let s3 := together envA envB s2 (JointSchedule.first (fun j => s (p + k2 + j)) k3)
    _ at h
  simp only at h
  rw [← hparts, ← hst, ← hst] at h
  obtain ⟨r1, r2, _, _⟩ := hrun p hp0
  obtain ⟨_, _, r3, r4⟩ := hrun (p + k2) (by omega)
  obtain ⟨k, g1, g2⟩ := h (hl _) (hk _).1 (hk _).2 (hfew _).1 (hfew _).2 (hfit _).1 (hfit _).2 r1 r2 (hns _ _ _ hp0) (by have : (st p).1.m.queue.length + 4 ≤ _ := hk2; rw [hu0]; exact this) r3 r4 (hns _ _ _ (by omega))
    (by rw [he0, List.length_nil]; omega)
  refine ⟨p + k2 + k3, k, List.Subperm.trans ?_ g1, g2⟩
  obtain ⟨d, rfl⟩ : ∃ d, p = n + d := ⟨p - n, by omega⟩
  change ((st n).1.m.calls ++ (st n).1.m.queue).Subperm ((st (n + d)).1.m.calls ++ (st (n + d)).1.m.queue)
  rw [hst]
  exact runActs_kept _ _ _

/-! ## A concrete case -/

deriving instance DecidableEq for Incoming

def bringsB (ip : String) (port : Nat) (addrB : Addr) (s : World × World) : Act → Bool
  | .udp i input _ => decide (input = if s.2.loops[i]? = some .receiving then (underway addrB s).head?.map (fun dg => ⟨ip, port, dg⟩) else none)
  | _ => true

theorem brings_of_b {ip : String} {port : Nat} {addrB : Addr} {s : World × World} {x : Act} (h : bringsB ip port addrB s x = true) : Brings ip port addrB s x := by
  cases x with
  | udp i input order => unfold Brings; unfold bringsB at h; exact of_decide_eq_true h
  | _ => trivial

def losslessB (envA envB : CEnv) (ip : String) (port : Nat) (addrB : Addr) : World × World → List (Bool × Act) → Bool
  | _, [] => true
  | s, (true, x) :: ms => usualB s.1 x && sentByB s.2 x && losslessB envA envB ip port addrB (act envA s.1 x, s.2) ms
  | s, (false, x) :: ms => usualB s.2 x && bringsB ip port addrB s x && losslessB envA envB ip port addrB (s.1, act envB s.2 x) ms

theorem lossless_of_b {envA envB : CEnv} {ip : String} {port : Nat} {addrB : Addr} : ∀ (ms : List (Bool × Act)) (s : World × World),
    losslessB envA envB ip port addrB s ms = true → Lossless envA envB ip port addrB s ms
  | [], _, _ => trivial
  | (true, x) :: ms, s, h => by
    simp only [losslessB, Bool.and_eq_true] at h
    exact ⟨usual_of_b h.1.1, sentBy_of_b h.1.2, lossless_of_b ms _ h.2⟩
  | (false, x) :: ms, s, h => by
    simp only [losslessB, Bool.and_eq_true] at h
    exact ⟨usual_of_b h.1.1, brings_of_b h.1.2, lossless_of_b ms _ h.2⟩

/-- A's program enqueues a message and a reliable one; -/
def tripStart : List (Bool × Act) := [(true, .start), (false, .start), (true, .enqueue ⟨demoMessage, false, false⟩), (true, .enqueue ⟨demoMessage, true, false⟩)]
/-- A's loop has its six turns; -/
def tripOut : List (Bool × Act) :=
  [(true, .udp 0 none []), (true, .udp 0 none []), (false, .udp 0 none []), (true, .udp 0 none []), (true, .udp 0 none []), (true, .udp 0 none []), (true, .udp 0 none [dispAddr 0])]
/-- and B's loop its eleven, while A's program enqueues one more. -/
def tripIn : List (Bool × Act) :=
  [(false, .udp 0 none []), (false, .udp 0 (some ⟨"sim", 13001, pairDg 0 1⟩) []), (false, .udp 0 none [dispAddr 1]), (true, .enqueue ⟨demoMessage, false, false⟩),
   (false, .udp 0 none [dispAddr 1]), (false, .udp 0 none [dispAddr 1]), (false, .udp 0 (some ⟨"sim", 13001, pairDg 0x40 2⟩) [dispAddr 1]), (false, .udp 0 none [dispAddr 1]),
   (true, .udp 0 none [dispAddr 0]), (false, .udp 0 none [dispAddr 1]), (false, .udp 0 none [dispAddr 1]), (false, .udp 0 (some ⟨"sim", 13001, pairDg 0 3⟩) [dispAddr 1]),
   (false, .udp 0 none [dispAddr 1])]

theorem demo_lossless : Lossless demoCEnv demoCEnv "sim" 13001 (dispHosts demoCEnv.m.host).addr (demoWorld, demoWorld) (tripStart ++ tripOut ++ tripIn) :=
  lossless_of_b _ _ (by decide +kernel)

theorem demo_calm : Calm demoCEnv dispHosts := ⟨demo_through, by decide, fun _ _ => rfl, fun _ h => (by cases h), fun _ _ _ => rfl⟩

theorem demo_understood_all (es : List QEntry) (h : ∀ e ∈ es, e.msg = demoMessage) : Understood demoCEnv demoCEnv es := by
  have hc : ∀ tr, Connected demoCEnv.m.disp.ser (demoCEnv.m.disp.deser tr) demoTemplate := fun tr => ⟨rfl, rfl, rfl, rfl, rfl, ["Demo"], rfl, .inl (by decide)⟩
  refine ⟨?_, ackTemplate, ackTemplate_is, fun tr => ⟨rfl, rfl, rfl, rfl, rfl, [], rfl, .inr rfl⟩⟩
  intro e he
  rw [h e he]
  exact ⟨by decide, demoTemplate, demo_wf, demo_fills, hc⟩

/-- The other hypotheses of `C95_delivered`, with equality of the bounds. -/
theorem demo_trip : let s1 := together demoCEnv demoCEnv (demoWorld, demoWorld) tripStart
    let s2 := together demoCEnv demoCEnv s1 tripOut
    let s3 := together demoCEnv demoCEnv s2 tripIn
    (preparedMsgs s3.1.m.disp.trace).length = 3 ∧ (preparedMsgs s3.2.m.disp.trace).length = 1 ∧ (∀ x ∈ sentDatagrams s3.1.m.disp.trace, x.2.length ≤ 10000) ∧
    (∀ x ∈ sentDatagrams s3.2.m.disp.trace, x.2.length ≤ 10000) ∧ s1.1.running = true ∧ s1.1.loops = [.spawned] ∧
    s1.1.m.queue.length + urgentIn (movesOf true tripOut) + 4 = turns 0 (movesOf true tripOut) ∧ s2.2.running = true ∧ s2.2.loops = [.sleeping] ∧
    4 * (underway (dispHosts demoCEnv.m.host).addr s2).length + 3 + s2.2.m.queue.length + (enqueuedIn (movesOf false tripIn)).length = turns 0 (movesOf false tripIn) ∧
    s3.1.m.calls.length = 3 ∧ ((deliveredMsgs s3.2.m.disp.trace).filter (fun m => m.name ≠ "PacketAck")).length = 3 := by decide +kernel

example : let s1 := together demoCEnv demoCEnv (demoWorld, demoWorld) tripStart
    let s3 := together demoCEnv demoCEnv (together demoCEnv demoCEnv s1 tripOut) tripIn
    ∃ k, (s1.1.m.calls ++ s1.1.m.queue).Subperm (s3.1.m.calls.take k) ∧
      List.Forall₂ (Received demoCEnv.m.disp.ser) (s3.1.m.calls.take k) ((deliveredMsgs s3.2.m.disp.trace).filter (fun m => m.name ≠ "PacketAck")) := by
  obtain ⟨h1, h2, h3, h4, h5, h6, h7, h8, h9, h10, _⟩ := demo_trip
  exact C95_delivered demo_calm demo_calm rfl tripStart tripOut tripIn 0 0 demo_lossless
    (demo_understood_all _ (by simp [enqueuedIn, movesOf, tripStart, tripOut, tripIn])) (demo_understood_all _ (by simp [enqueuedIn, movesOf, tripStart, tripOut, tripIn]))
    (lt_of_eq_of_lt h1 (by decide)) (lt_of_eq_of_lt h2 (by decide)) h3 h4 h5 ⟨.spawned, by rw [show World.init dispHosts true = demoWorld from rfl, h6]; rfl, rfl⟩
    (by simp [NoStop, movesOf, tripOut]) (Nat.le_of_eq h7) h8 ⟨.sleeping, by rw [show World.init dispHosts true = demoWorld from rfl, h9]; rfl, rfl⟩
    (by simp [NoStop, movesOf, tripIn]) (Nat.le_of_eq h10)

/-- The history above; then the two loops are run in turns, for ever. -/
def tripForever : JointSchedule := fun n =>
  match (tripStart ++ tripOut ++ tripIn)[n]? with
  | some x => x
  | none => if n % 2 = 0 then (true, .udp 0 none [dispAddr 0]) else (false, .udp 0 none [dispAddr 1])

theorem Idle.stays {w : World} (h : Idle w) (order : List Addr) : Idle (act demoCEnv w (.udp 0 none order)) ∧ (act demoCEnv w (.udp 0 none order)).m = w.m := by
  obtain ⟨hr, hq, ha, pc, hl, hp⟩ := h
  have hh : w.loopHead = .sleeping := by simp [World.loopHead, hr]
  simp only [act, hl, List.getElem?_cons_zero, List.set_cons_zero]
  cases pc <;> simp only [udpRun, hh, hq, receiveRound, receiveCheck, ackRound, ha, List.length_nil, Nat.lt_irrefl, if_false, Bool.false_eq_true]
  case returned => simp [Alive] at hp
  case raised => simp [Alive] at hp
  all_goals first | exact ⟨⟨hr, hq, ha, _, rfl, rfl⟩, trivial⟩ | exact ⟨⟨hr, hq, ha, _, rfl, rfl⟩, rfl⟩

theorem trip_first : tripForever.first 24 = tripStart ++ tripOut ++ tripIn := rfl

theorem trip_later (k : Nat) : tripForever (24 + k) = (true, .udp 0 none [dispAddr 0]) ∨ tripForever (24 + k) = (false, .udp 0 none [dispAddr 1]) := by
  unfold tripForever
  have : (tripStart ++ tripOut ++ tripIn)[24 + k]? = none := List.getElem?_eq_none (by simp [tripStart, tripOut, tripIn])
  rw [this]
  simp only
  split <;> simp

/-- The two after `n` moves. -/
def tripAt (n : Nat) : World × World := together demoCEnv demoCEnv (demoWorld, demoWorld) (tripForever.first n)

theorem tripAt_succ (n : Nat) : tripAt (n + 1) = together demoCEnv demoCEnv (tripAt n) [tripForever n] := by
  unfold tripAt; rw [joint_succ, together_append]

theorem trip_rest : Idle (tripAt 24).1 ∧ Idle (tripAt 24).2 ∧ (tripAt 24).1.m.disp.circuits.keys = [dispAddr 0] ∧ (tripAt 24).2.m.disp.circuits.keys = [dispAddr 1] ∧
    underway (dispHosts demoCEnv.m.host).addr (tripAt 24) = [] := by
  refine ⟨⟨by decide +kernel, by decide +kernel, by decide +kernel, .draining, by decide +kernel, rfl⟩,
    ⟨by decide +kernel, by decide +kernel, by decide +kernel, .draining, by decide +kernel, rfl⟩, by decide +kernel, by decide +kernel, by decide +kernel⟩

/-- From then on nothing happens, and the network brings what there is. -/
theorem trip_idle (k : Nat) : Idle (tripAt (24 + k)).1 ∧ Idle (tripAt (24 + k)).2 ∧ (tripAt (24 + k)).1.m = (tripAt 24).1.m ∧ (tripAt (24 + k)).2.m = (tripAt 24).2.m ∧
    Lossless demoCEnv demoCEnv "sim" 13001 (dispHosts demoCEnv.m.host).addr (demoWorld, demoWorld) (tripForever.first (24 + k)) := by
  induction k with
  | zero => exact ⟨trip_rest.1, trip_rest.2.1, rfl, rfl, demo_lossless⟩
  | succ k ih =>
    obtain ⟨h1, h2, h3, h4, h5⟩ := ih
    obtain ⟨_, _, r3, r4, r5⟩ := trip_rest
    rw [← Nat.add_assoc, tripAt_succ, joint_succ, lossless_append]
    change _ ∧ _ ∧ _ ∧ _ ∧ _ ∧ Lossless _ _ _ _ _ (tripAt (24 + k)) _
    have hund : underway (dispHosts demoCEnv.m.host).addr (tripAt (24 + k)) = [] := by rw [← r5]; unfold underway; rw [h3, h4]
    rcases trip_later k with h | h
    · rw [h, together_true]
      obtain ⟨g1, g2⟩ := h1.stays [dispAddr 0]
      exact ⟨g1, h2, g2.trans h3, h4, h5, by change List.Perm _ _; rw [h3, r3], trivial, trivial⟩
    · rw [h, together_false]
      obtain ⟨g1, g2⟩ := h2.stays [dispAddr 1]
      refine ⟨h1, g1, h3, g2.trans h4, h5, by change List.Perm _ _; rw [h4, r4], ?_, trivial⟩
      change none = _
      rw [hund]
      split <;> rfl

theorem joint_le {s : JointSchedule} {n m : Nat} (h : n ≤ m) : s.first m = s.first n ++ JointSchedule.first (fun j => s (n + j)) (m - n) := by
  rw [← joint_add]; congr 1; omega

/-- All the hypotheses of `C95_everything_is_delivered` are met, and so everything is delivered. -/
example (n : Nat) : ∃ m k, ((tripAt n).1.m.calls ++ (tripAt n).1.m.queue).Subperm ((tripAt m).1.m.calls.take k) ∧
    List.Forall₂ (Received demoCEnv.m.disp.ser) ((tripAt m).1.m.calls.take k) ((deliveredMsgs (tripAt m).2.m.disp.trace).filter (fun m => m.name ≠ "PacketAck")) := by
  have hlate : ∀ n, (tripAt n).1.m.disp.trace <+: (tripAt 24).1.m.disp.trace ∧ (tripAt n).2.m.disp.trace <+: (tripAt 24).2.m.disp.trace := by
    intro n
    rcases Nat.le_total n 24 with h | h
    · unfold tripAt
      rw [joint_le h, together_append]
      exact ⟨runActs_prefix _ _ _, runActs_prefix _ _ _⟩
    · obtain ⟨k, rfl⟩ : ∃ k, n = 24 + k := ⟨n - 24, by omega⟩
      obtain ⟨_, _, h3, h4, _⟩ := trip_idle k
      rw [h3, h4]
      exact ⟨List.prefix_refl _, List.prefix_refl _⟩
  have hl : ∀ n, Lossless demoCEnv demoCEnv "sim" 13001 (dispHosts demoCEnv.m.host).addr (demoWorld, demoWorld) (tripForever.first n) := by
    intro n
    have h := (trip_idle n).2.2.2.2
    rw [Nat.add_comm, joint_add] at h
    exact ((lossless_append _ _ _).mp h).1
  have hmsg : ∀ b n, ∀ e ∈ enqueuedIn (movesOf b (tripForever.first n)), e.msg = demoMessage := by
    intro b n e he
    obtain ⟨k, hk⟩ := mem_joint (mem_enqueued he)
    rcases Nat.lt_or_ge k 24 with h | h
    · have : (b, Act.enqueue e) ∈ tripStart ++ tripOut ++ tripIn := by
        rw [← trip_first, ← hk]; exact List.mem_map_of_mem (List.mem_range.mpr h)
      simp only [tripStart, tripOut, tripIn, List.cons_append, List.nil_append, List.mem_cons, Prod.mk.injEq, Act.enqueue.injEq, reduceCtorEq, and_false, false_or, List.not_mem_nil, or_false] at this
      rcases this with h | h | h <;> rw [h.2]
    · obtain ⟨l, rfl⟩ : ∃ l, k = 24 + l := ⟨k - 24, by omega⟩
      rcases trip_later l with h' | h' <;> rw [h'] at hk <;> cases hk
  have hpreA : (preparedMsgs (tripAt 24).1.m.disp.trace).length = 3 := demo_trip.1
  have hpreB : (preparedMsgs (tripAt 24).2.m.disp.trace).length = 1 := demo_trip.2.1
  have hafter : ∀ n, 24 ≤ n → ∃ b input order, tripForever n = (b, .udp 0 input order) := by
    intro n h
    obtain ⟨l, rfl⟩ : ∃ l, n = 24 + l := ⟨n - 24, by omega⟩
    rcases trip_later l with h' | h' <;> exact ⟨_, _, _, h'⟩
  have hpar : ∀ n, tripForever (2 * n + 24) = (true, .udp 0 none [dispAddr 0]) ∧ tripForever (2 * n + 25) = (false, .udp 0 none [dispAddr 1]) := by
    intro n
    unfold tripForever
    rw [List.getElem?_eq_none (by simp [tripStart, tripOut, tripIn]), List.getElem?_eq_none (by simp [tripStart, tripOut, tripIn])]
    have h1 : (2 * n + 24) % 2 = 0 := by omega
    have h2 : (2 * n + 25) % 2 ≠ 0 := by omega
    simp only [h1, h2, if_true, if_false, and_self]
  refine C95_everything_is_delivered demo_calm demo_calm rfl tripForever 0 0 24 hl (fun n => ⟨demo_understood_all _ (hmsg _ n), demo_understood_all _ (hmsg _ n)⟩) ?_ ?_
    trip_rest.1.running ⟨.draining, by decide +kernel, rfl⟩ trip_rest.2.1.running ⟨.draining, by decide +kernel, rfl⟩ ?_ ?_ ?_ ?_ ?_ n
  · intro n
    obtain ⟨⟨t, ht⟩, u, hu⟩ := hlate n
    have h1 : (preparedMsgs (tripAt n).1.m.disp.trace).length ≤ 3 := by rw [← hpreA, ← ht, preparedMsgs_append, List.length_append]; omega
    have h2 : (preparedMsgs (tripAt n).2.m.disp.trace).length ≤ 1 := by rw [← hpreB, ← hu, preparedMsgs_append, List.length_append]; omega
    exact ⟨Nat.lt_of_le_of_lt h1 (by decide), Nat.lt_of_le_of_lt h2 (by decide)⟩
  · intro n
    exact ⟨fits_prefix (hlate n).1 demo_trip.2.2.1, fits_prefix (hlate n).2 demo_trip.2.2.2.1⟩
  · intro n h; obtain ⟨b, x, y, e⟩ := hafter n h; rw [e]; simp
  · intro n e h h'; obtain ⟨b, x, y, e'⟩ := hafter n h; rw [e'] at h'; cases h'
  · intro n e h h'; obtain ⟨b, x, y, e'⟩ := hafter n h; rw [e'] at h'; cases h'
  · intro n; exact ⟨2 * n + 24, by omega, _, _, (hpar n).1⟩
  · intro n; exact ⟨2 * n + 25, by omega, _, _, (hpar n).2⟩

end Pyogp
