import Verif.Proofs.System
import Verif.Props.EndToEnd

/-!
# C78: two programs and the network between them
-/

namespace Pyogp
open Spec

/-- The same receiver, if it parsed every message at once. -/
def DeserEnv.eager (env : DeserEnv) : DeserEnv := { env with handled? := some [], deferred := false }

theorem deserialize_eager {env : DeserEnv} {st : DeserState} {dg : Bytes} {m : Message} (h : (deserialize env st dg).1 = .ok (some m)) :
    (deserialize env.eager st dg).1 = .ok (some m) := by
  unfold deserialize at h ⊢
  split
  · rename_i he; rw [he] at h; exact h
  · rename_i buf acks he
    simp only [he] at h ⊢
    split
    · rename_i he2; rw [he2] at h; exact h
    · rename_i buf' he2
      simp only [he2] at h ⊢
      have hd : decodeTemplate env.eager st buf' = decodeTemplate env st buf' := rfl
      unfold deserializeRest at h ⊢
      rw [hd]
      split
      · rename_i he3; rw [he3] at h; exact h
      · rename_i he3; rw [he3] at h; exact h
      · rename_i he3
        rw [he3] at h
        simp only at h ⊢
        obtain ⟨name, hn, h⟩ := bind_ok.mp h
        rw [hn, ok_bind]
        obtain ⟨al, hal, h⟩ := bind_ok.mp h
        rw [show env.eager.xml = env.xml from rfl, hal, ok_bind]
        cases al with
        | false => simp at h
        | true =>
          simp only [Bool.not_true, Bool.false_eq_true, if_false] at h ⊢
          obtain ⟨w, hw, h⟩ := bind_ok.mp h
          rw [show wantsParse env.eager name = .ok true from rfl, ok_bind]
          cases w with
          | false => simp at h
          | true => exact h

theorem together_sides {envA envB : DEnv} {hostsA hostsB : HostRef → Host} {a b : DState} (h : Together envA envB hostsA hostsB a b) :
    Side envA hostsA a b.trace ∧ Side envB hostsB b a.trace := by
  have hne : ∀ {env : DEnv} {hosts : HostRef → Host} {st : DState} {o : List Ev}, Side env hosts st o → ∀ x dg, (x, dg) ∈ sentDatagrams st.trace → dg ≠ [] := by
    intro env hosts st o hs x dg hx
    obtain ⟨ops, rfl⟩ := hs.reach
    obtain ⟨rest, h⟩ := C72_flags env hosts ops x dg hx
    rcases h with h | h | h | h | h | h <;> rw [h] <;> exact List.cons_ne_nil _ _
  induction h with
  | start => exact ⟨Side.init _ _ _, Side.init _ _ _⟩
  | ownA op _ ho ih => exact ⟨ih.1.own op ho, ih.2.later (step_trace_prefix _ _ _)⟩
  | ownB op _ ho ih => exact ⟨ih.1.later (step_trace_prefix _ _ _), ih.2.own op ho⟩
  | recvA r x dg _ hx ih => exact ⟨ih.1.recv r x dg hx (hne ih.2 x dg hx), ih.2.later (step_trace_prefix _ _ _)⟩
  | recvB r x dg _ hx ih => exact ⟨ih.1.later (step_trace_prefix _ _ _), ih.2.recv r x dg hx (hne ih.1 x dg hx)⟩

/-- Every packet the dispatcher A prepared is one that B could read: it carries no appended acks (A sent it when it owed no
acknowledgement to its destination, C26), fills a template that both know and neither bans; and there are fewer than `2^31` of them. -/
structure Readable (envA envB : DEnv) (a : DState) : Prop where
  few : (preparedMsgs a.trace).length < 2 ^ 31
  noAcks : ∀ x ∈ preparedMsgs a.trace, x.2.sendFlags &&& 0x10 = 0
  known : ∀ x ∈ preparedMsgs a.trace, ∃ t, WFTemplate t ∧ Fills envA.ser.rt t x.2 ∧ ∀ tr, Connected envA.ser (envB.deser tr).eager t

/-- `m'` is the packet `q` as B should read it. -/
def ReadAs (senv : SerEnv) (q m' : Message) : Prop :=
  (∃ t, senv.dict.getTemplate q.name = some t ∧ SameContent senv.rt t q m') ∧ m'.packetId = q.packetId ∧
    m'.reliable = decide (q.sendFlags = 0x40) ∧ m'.acks = []

theorem readable_flags {envA envB : DEnv} {a : DState} (hs : SentInv envA a) (hr : Readable envA envB a)
    {x : Addr × Message} (hx : x ∈ preparedMsgs a.trace) : x.2.sendFlags ∈ [0, 0x20, 0x40] := by
  rcases hs.flags x hx with h | h
  · exact h
  · have h1 : x.2.sendFlags = 0x10 ∨ x.2.sendFlags = 0x30 ∨ x.2.sendFlags = 0x50 := by simpa using h.1
    have h2 := hr.noAcks x hx
    rcases h1 with h1 | h1 | h1 <;> rw [h1] at h2 <;> exact absurd h2 (by decide)

/-- A datagram of A is read by B as what it was made from. -/
theorem readable_read {envA envB : DEnv} {a : DState} (hs : SentInv envA a) (hr : Readable envA envB a)
    {x : Addr × Message} (hx : x ∈ preparedMsgs a.trace) {dg : Bytes} (hdg : serialize envA.ser x.2 = .ok (some dg)) (tr : List Ev) (dst : DeserState) :
    ∃ m', (deserialize (envB.deser tr).eager dst dg).1 = .ok (some m') ∧ ReadAs envA.ser x.2 m' := by
  obtain ⟨t, h1, h2, h3⟩ := hr.known x hx
  have hid : x.2.packetId < 2 ^ 31 := Nat.lt_of_le_of_lt (hs.ids x hx) hr.few
  obtain ⟨dg', m', h4, h5, h6, h7, h8, h9⟩ := prepared_arrives envA.ser (envB.deser tr).eager dst t x.2 x.2 (h3 tr) h1 h2 rfl rfl (readable_flags hs hr hx) hid
  rw [hdg] at h4
  cases h4
  exact ⟨m', h5, ⟨t, by rw [h2.name]; exact (h3 tr).sender, h6⟩, h7, h8, h9⟩

theorem readable_sends {envA envB : DEnv} {a : DState} (hs : SentInv envA a) (hr : Readable envA envB a)
    {x : Addr × Message} (hx : x ∈ preparedMsgs a.trace) : ∃ dg, serialize envA.ser x.2 = .ok (some dg) := by
  obtain ⟨t, h1, h2, h3⟩ := hr.known x hx
  have hid : x.2.packetId < 2 ^ 31 := Nat.lt_of_le_of_lt (hs.ids x hx) hr.few
  obtain ⟨dg', m', h4, _⟩ := prepared_arrives envA.ser (envB.deser []).eager {} t x.2 x.2 (h3 []) h1 h2 rfl rfl (readable_flags hs hr hx) hid
  exact ⟨dg', h4⟩

/-- Received and delivered, related one by one. -/
theorem log_deliveries (envB : DEnv) {R : Bytes → Message → Prop} : ∀ log : List Reception,
    (∀ x ∈ log, ∀ m, (deserialize (envB.deser x.tr) x.dst x.dg).1 = .ok (some m) → R x.dg m) →
    ∃ sub, sub.Sublist (receivedDatagrams (log.flatMap (·.events envB))) ∧ List.Forall₂ R sub (deliveredMsgs (log.flatMap (·.events envB)))
  | [], _ => ⟨[], List.Sublist.refl _, .nil⟩
  | x :: log, h => by
    obtain ⟨sub, h1, h2⟩ := log_deliveries envB log (fun y hy => h y (List.mem_cons_of_mem _ hy))
    rw [List.flatMap_cons, receivedDatagrams_append, deliveredMsgs_append]
    generalize log.flatMap (·.events envB) = T at *
    unfold Reception.events
    split
    · rename_i m hm
      split
      · refine ⟨x.dg :: sub, ?_, .cons (h x List.mem_cons_self m hm) h2⟩
        exact h1.cons_cons _
      · exact ⟨sub, h1.cons _, h2⟩
    · exact ⟨sub, h1.cons _, h2⟩

theorem log_deliveries_all (envB : DEnv) (hh : envB.handlePackets = true) {R : Bytes → Message → Prop} : ∀ log : List Reception,
    (∀ x ∈ log, ∃ m, (deserialize (envB.deser x.tr) x.dst x.dg).1 = .ok (some m) ∧ R x.dg m) →
    List.Forall₂ R (receivedDatagrams (log.flatMap (·.events envB))) (deliveredMsgs (log.flatMap (·.events envB)))
  | [], _ => .nil
  | x :: log, h => by
    have ih := log_deliveries_all envB hh log (fun y hy => h y (List.mem_cons_of_mem _ hy))
    rw [List.flatMap_cons, receivedDatagrams_append, deliveredMsgs_append]
    obtain ⟨m, h1, h2⟩ := h x List.mem_cons_self
    generalize log.flatMap (·.events envB) = T at *
    unfold Reception.events
    simp only [h1, hh, if_true]
    exact .cons h2 ih

/-- **C78, nothing is made up or damaged.** Two programs use the library and talk over a network that may lose, duplicate, delay, reorder and misdirect datagrams.
As long as B could read what A sends, what B's subscribers get are, in this order, some of the datagrams B received, each one
read as a packet that A prepared, with its content, its id and its reliable flag. -/
theorem C78_genuine {envA envB : DEnv} {hostsA hostsB : HostRef → Host} {a b : DState} (h : Together envA envB hostsA hostsB a b)
    (hr : Readable envA envB a) :
    ∃ sub, sub.Sublist (receivedDatagrams b.trace) ∧
      List.Forall₂ (fun dg m' => ∃ x ∈ preparedMsgs a.trace, serialize envA.ser x.2 = .ok (some dg) ∧ ReadAs envA.ser x.2 m') sub (deliveredMsgs b.trace) := by
  obtain ⟨hA, hB⟩ := together_sides h
  obtain ⟨log, h1, h2⟩ := hB.log
  rw [receivedDatagrams_in, deliveredMsgs_in, h1]
  refine log_deliveries envB log ?_
  intro x hx m hm
  obtain ⟨y, hy⟩ := h2 x hx
  obtain ⟨q, hq, hser⟩ := sent_ne_nil hA.sentInv hy
  obtain ⟨m', h3, h4⟩ := readable_read hA.sentInv hr hq hser x.tr x.dst
  have := deserialize_eager hm
  rw [h3] at this
  cases this
  exact ⟨(y, q), hq, hser, h4⟩

/-- B has a handler for everything A sends, or does not defer parsing. -/
def HandlesAll (envB : DEnv) (a : DState) : Prop :=
  ∀ x ∈ preparedMsgs a.trace, ∀ tr, ∃ names, (envB.deser tr).handled? = some names ∧ (x.2.name ∈ names ∨ (envB.deser tr).deferred = false)

theorem readable_received {envA envB : DEnv} {a : DState} (hs : SentInv envA a) (hr : Readable envA envB a)
    (hall : HandlesAll envB a) {x : Addr × Message} (hx : x ∈ preparedMsgs a.trace) {dg : Bytes} (hdg : serialize envA.ser x.2 = .ok (some dg)) (tr : List Ev)
    (dst : DeserState) : ∃ m', (deserialize (envB.deser tr) dst dg).1 = .ok (some m') ∧ ReadAs envA.ser x.2 m' := by
  obtain ⟨t, h1, h2, h3⟩ := hr.known x hx
  have hid : x.2.packetId < 2 ^ 31 := Nat.lt_of_le_of_lt (hs.ids x hx) hr.few
  have hc : Connected envA.ser (envB.deser tr) t :=
    ⟨(h3 tr).runtime, (h3 tr).sender, (h3 tr).receiver, (h3 tr).senderXml, (h3 tr).receiverXml, by rw [← h2.name]; exact hall x hx tr⟩
  obtain ⟨dg', m', h4, h5, h6, h7, h8, h9⟩ := prepared_arrives envA.ser (envB.deser tr) dst t x.2 x.2 hc h1 h2 rfl rfl (readable_flags hs hr hx) hid
  rw [hdg] at h4
  cases h4
  exact ⟨m', h5, ⟨t, by rw [h2.name]; exact (h3 tr).sender, h6⟩, h7, h8, h9⟩

theorem deliveries_strong {envA envB : DEnv} {hostsA hostsB : HostRef → Host} {a b : DState} (h : Together envA envB hostsA hostsB a b)
    (hr : Readable envA envB a) (hall : HandlesAll envB a) (hh : envB.handlePackets = true) :
    List.Forall₂ (fun dg m' => (∃ x ∈ preparedMsgs a.trace, serialize envA.ser x.2 = .ok (some dg)) ∧
        ∀ x ∈ preparedMsgs a.trace, serialize envA.ser x.2 = .ok (some dg) → ReadAs envA.ser x.2 m')
      (receivedDatagrams b.trace) (deliveredMsgs b.trace) := by
  obtain ⟨hA, hB⟩ := together_sides h
  obtain ⟨log, h1, h2⟩ := hB.log
  rw [receivedDatagrams_in, deliveredMsgs_in, h1]
  refine log_deliveries_all envB hh log ?_
  intro x hx
  obtain ⟨y, hy⟩ := h2 x hx
  obtain ⟨q, hq, hser⟩ := sent_ne_nil hA.sentInv hy
  obtain ⟨m', h3, _⟩ := readable_received hA.sentInv hr hall hq hser x.tr x.dst
  refine ⟨m', h3, ⟨_, hq, hser⟩, ?_⟩
  intro z hz hz2
  obtain ⟨m2, h5, h6⟩ := readable_received hA.sentInv hr hall hz hz2 x.tr x.dst
  rw [h3] at h5
  cases h5
  exact h6

/-- **C78, nothing is lost after reception.** If moreover B has handlers for all of it and passes packets to them, every datagram B received is delivered, in
the order of reception, as the packet A prepared. -/
theorem C78_all_delivered {envA envB : DEnv} {hostsA hostsB : HostRef → Host} {a b : DState} (h : Together envA envB hostsA hostsB a b)
    (hr : Readable envA envB a) (hall : HandlesAll envB a) (hh : envB.handlePackets = true) :
    List.Forall₂ (fun dg m' => ∃ x ∈ preparedMsgs a.trace, serialize envA.ser x.2 = .ok (some dg) ∧ ReadAs envA.ser x.2 m')
      (receivedDatagrams b.trace) (deliveredMsgs b.trace) := by
  refine (deliveries_strong h hr hall hh).imp ?_
  rintro dg m' ⟨⟨x, hx, hs⟩, h2⟩
  exact ⟨x, hx, hs, h2 x hx hs⟩

/-- Datagrams in the order they were sent, read one by one. -/
theorem in_order_from {envA envB : DEnv} {a : DState} (hA : SentInv envA a) (hr : Readable envA envB a) (addrB : Addr)
    {ms : List Message}
    (hd : List.Forall₂ (fun dg m' => (∃ x ∈ preparedMsgs a.trace, serialize envA.ser x.2 = .ok (some dg)) ∧
        ∀ x ∈ preparedMsgs a.trace, serialize envA.ser x.2 = .ok (some dg) → ReadAs envA.ser x.2 m')
      ((((preparedMsgs a.trace).filterMap (datagramOf envA)).filter (·.1 = addrB)).map (·.2)) ms) :
    List.Forall₂ (ReadAs envA.ser) (((preparedMsgs a.trace).filter (·.1 = addrB)).map (·.2)) ms := by
  have hS : ∀ x y, datagramOf envA x = some y → y.1 = x.1 ∧ serialize envA.ser x.2 = .ok (some y.2) := by
    intro x y hxy
    unfold datagramOf at hxy
    split at hxy
    · rename_i d hd'; cases hxy; exact ⟨rfl, hd'⟩
    · cases hxy
  have key : ∀ (pm : List (Addr × Message)), (∀ x ∈ pm, x ∈ preparedMsgs a.trace) → ∀ ms,
      List.Forall₂ (fun dg m' => (∃ x ∈ preparedMsgs a.trace, serialize envA.ser x.2 = .ok (some dg)) ∧
        ∀ x ∈ preparedMsgs a.trace, serialize envA.ser x.2 = .ok (some dg) → ReadAs envA.ser x.2 m')
        (((pm.filterMap (datagramOf envA)).filter (·.1 = addrB)).map (·.2)) ms →
      List.Forall₂ (ReadAs envA.ser) ((pm.filter (·.1 = addrB)).map (·.2)) ms := by
    intro pm
    induction pm with
    | nil => intro _ ms h; cases h; exact .nil
    | cons x pm ih =>
      intro hs ms h
      have hx := hs x List.mem_cons_self
      obtain ⟨dg, hdg⟩ := readable_sends hA hr hx
      have hy : datagramOf envA x = some (x.1, dg) := by simp only [datagramOf, hdg]
      rw [List.filterMap_cons_some hy] at h
      have ih := ih (fun z hz => hs z (List.mem_cons_of_mem _ hz))
      by_cases hxb : x.1 = addrB
      · rw [List.filter_cons_of_pos (by simpa using hxb), List.map_cons] at h
        rw [List.filter_cons_of_pos (by simpa using hxb), List.map_cons]
        cases h with
        | cons h1 h2 => exact .cons (h1.2 x hx hdg) (ih _ h2)
      · rw [List.filter_cons_of_neg (by simpa using hxb)] at h
        rw [List.filter_cons_of_neg (by simpa using hxb)]
        exact ih _ h
  exact key _ (fun _ h => h) _ hd

/-- **C78, over a perfect network.** If B received exactly the datagrams A sent to B's address, once and in order (and A's socket accepted all), B's
subscribers got exactly the messages A sent there, once and in order. -/
theorem C78_in_order {envA envB : DEnv} {hostsA hostsB : HostRef → Host} {a b : DState} (h : Together envA envB hostsA hostsB a b)
    (hr : Readable envA envB a) (hall : HandlesAll envB a) (hh : envB.handlePackets = true) (hn : ∀ tr x dg, envA.net tr x dg = true) (addrB : Addr)
    (hp : receivedDatagrams b.trace = ((sentDatagrams a.trace).filter (·.1 = addrB)).map (·.2)) :
    List.Forall₂ (ReadAs envA.ser) (((preparedMsgs a.trace).filter (·.1 = addrB)).map (·.2)) (deliveredMsgs b.trace) := by
  have hA := (together_sides h).1
  have hd := deliveries_strong h hr hall hh
  rw [hp, hA.sentInv.all hn] at hd
  exact in_order_from hA.sentInv hr addrB hd

theorem nodup_map_on {α β : Type} {f : α → β} : ∀ {l : List α}, (∀ x ∈ l, ∀ y ∈ l, f x = f y → x = y) → l.Nodup → (l.map f).Nodup
  | [], _, _ => by simp
  | a :: l, h, hn => by
    rw [List.nodup_cons] at hn
    rw [List.map_cons, List.nodup_cons]
    refine ⟨?_, nodup_map_on (fun x hx y hy => h x (List.mem_cons_of_mem _ hx) y (List.mem_cons_of_mem _ hy)) hn.2⟩
    intro hm
    obtain ⟨b, hb, he⟩ := List.mem_map.mp hm
    have := h b (List.mem_cons_of_mem _ hb) a List.mem_cons_self he
    rw [this] at hb
    exact hn.1 hb

/-- Datagrams none of which came more often than it was sent, read one by one. -/
theorem once_from {envA envB : DEnv} {hostsA : HostRef → Host} {a : DState} {o : List Ev} (hA : Side envA hostsA a o) (hr : Readable envA envB a) (addrB : Addr)
    (hrem : Ev.removed addrB ∉ a.trace) {R sub : List Bytes} {D : List Message} (h1 : sub.Sublist R)
    (h2 : List.Forall₂ (fun dg m' => ∃ x ∈ preparedMsgs a.trace, serialize envA.ser x.2 = .ok (some dg) ∧ ReadAs envA.ser x.2 m') sub D)
    (hp : ∃ part, part.Sublist (((sentDatagrams a.trace).filter (·.1 = addrB)).map (·.2)) ∧ R.Perm part) : (D.map (·.packetId)).Nodup := by
  obtain ⟨ops, hops⟩ := hA.reach
  have hl : ((preparedMsgs a.trace).filter (·.1 = addrB)).length < 2 ^ 31 := Nat.lt_of_le_of_lt (List.length_filter_le _ _) hr.few
  have hinc := C72_ids_increase envA hostsA ops addrB (by rw [← hops]; exact hrem) (by rw [← hops]; exact hl)
  rw [← hops] at hinc
  obtain ⟨ids, hi1, hi2, hi3⟩ := hinc
  generalize hS : (sentDatagrams a.trace).filter (·.1 = addrB) = S at *
  have hsl : (S.map (·.2)).map (fun dg => slice dg 1 5) = ids.map idBytes := by
    clear hp hS hi1 hi2
    induction hi3 with
    | nil => rfl
    | cons h _ ih => simp only [List.map_cons, ih]; rw [show slice _ 1 5 = idBytes _ from h]
  have hdl : sub.map (fun dg => slice dg 1 5) = ((D).map (·.packetId)).map idBytes := by
    clear h1
    induction h2 with
    | nil => rfl
    | @cons dg m' l l' hx _ ih =>
      obtain ⟨x, hx1, hx2, hx3⟩ := hx
      have hid : x.2.packetId < 2 ^ 31 := Nat.lt_of_le_of_lt (hA.sentInv.ids x hx1) hr.few
      have hfl := readable_flags hA.sentInv hr hx1
      have hfl' : x.2.sendFlags < 256 := by
        have : x.2.sendFlags = 0 ∨ x.2.sendFlags = 0x20 ∨ x.2.sendFlags = 0x40 := by simpa using hfl
        omega
      have := sentDatagram_id hx2 hfl' hid
      unfold HasId at this
      simp only [List.map_cons, ih, this, hx3.2.1]
  have hnd : (ids.map idBytes).Nodup := by
    refine nodup_map_on ?_ (hi1.imp (fun h => Nat.ne_of_lt h))
    intro x hx y hy he
    have := hi2 x hx
    have := hi2 y hy
    exact idBytes_inj (by omega) (by omega) he
  obtain ⟨part, hp1, hp2⟩ := hp
  rw [← hsl] at hnd
  have h3 : (part.map (fun dg => slice dg 1 5)).Nodup := List.Nodup.sublist (hp1.map _) hnd
  have h4 : (sub.map (fun dg => slice dg 1 5)).Nodup := List.Nodup.sublist (h1.map _) ((hp2.map _).nodup_iff.mpr h3)
  rw [hdl] at h4
  exact nodup_of_map _ h4

/-- **C78, at most once.** If the network brings B only datagrams A sent to B's address, and none more often than it was sent, and A did not
remove the circuit in between, no two deliveries have the same packet id: nothing is delivered twice. -/
theorem C78_at_most_once {envA envB : DEnv} {hostsA hostsB : HostRef → Host} {a b : DState} (h : Together envA envB hostsA hostsB a b)
    (hr : Readable envA envB a) (addrB : Addr) (hrem : Ev.removed addrB ∉ a.trace)
    (hp : ∃ part, part.Sublist (((sentDatagrams a.trace).filter (·.1 = addrB)).map (·.2)) ∧ (receivedDatagrams b.trace).Perm part) :
    ((deliveredMsgs b.trace).map (·.packetId)).Nodup := by
  obtain ⟨sub, h1, h2⟩ := C78_genuine h hr
  exact once_from (together_sides h).1 hr addrB hrem h1 h2 hp

/-- No datagram sent has the ACK flag in its first byte. -/
def NoAckFlag (tr : List Ev) : Prop := ∀ x ∈ sentDatagrams tr, ∀ f, x.2.head? = some f → f.toNat &&& 0x10 = 0

theorem history_parsed {y : Addr} {m : Message} : ∀ tr : List Ev, CEv.inn m ∈ circuitHistory y tr → m ∈ parsedMsgs tr := by
  intro tr
  induction tr using List.reverseRecOn with
  | nil => intro h; cases h
  | append_singleton tr e ih =>
    unfold circuitHistory at ih ⊢
    rw [List.foldl_append, parsedMsgs_append]
    intro h
    simp only [List.foldl_cons, List.foldl_nil] at h
    rw [List.mem_append]
    cases e with
    | prepared a' q =>
      by_cases ha : a' = y
      · simp [ha] at h; exact .inl (ih h)
      · simp [ha] at h; exact .inl (ih h)
    | parsed a' q =>
      by_cases ha : a' = y
      · simp [ha] at h
        rcases h with h | h
        · exact .inl (ih h)
        · exact .inr (by simp [parsedMsgs, h])
      · simp [ha] at h; exact .inl (ih h)
    | removed a' =>
      by_cases ha : a' = y
      · simp [ha] at h
      · simp [ha] at h; exact .inl (ih h)
    | _ => exact .inl (ih h)

theorem log_parsed (env : DEnv) : ∀ (log : List Reception) (m : Message), m ∈ parsedMsgs (log.flatMap (·.events env)) →
    ∃ x ∈ log, (deserialize (env.deser x.tr) x.dst x.dg).1 = .ok (some m)
  | [], m, h => by cases h
  | x :: log, m, h => by
    rw [List.flatMap_cons, parsedMsgs_append, List.mem_append] at h
    rcases h with h | h
    · refine ⟨x, List.mem_cons_self, ?_⟩
      unfold Reception.events at h
      split at h
      · rename_i m2 hm
        rw [hm]
        have : m = m2 := by
          split at h
          · simpa [parsedMsgs] using h
          · simpa [parsedMsgs] using h
        rw [this]
      · simp [parsedMsgs] at h
    · obtain ⟨y, hy, h2⟩ := log_parsed env log m h
      exact ⟨y, List.mem_cons_of_mem _ hy, h2⟩

/-- If no datagram received has the ACK flag, nothing is acknowledged. -/
theorem never_acked_from {envB : DEnv} {hostsB : HostRef → Host} {b : DState} {o : List Ev} (hB : Side envB hostsB b o) (log : List Reception)
    (h1 : inEvents b.trace = log.flatMap (·.events envB)) (hf : ∀ x ∈ log, ∀ f, x.dg.head? = some f → f.toNat &&& 0x10 = 0) (y : Addr) (id : Nat) :
    id ∈ waitingIds b y ↔ ∃ m, CEv.out m ∈ circuitHistory y b.trace ∧ m.packetId = id ∧ m.sendFlags &&& 0x40 ≠ 0 := by
  have hno : ∀ m, CEv.inn m ∈ circuitHistory y b.trace → m.acks = [] := by
    intro m hm
    have := history_parsed _ hm
    rw [parsedMsgs_in, h1] at this
    obtain ⟨x, hx, hd⟩ := log_parsed envB log m this
    obtain ⟨_, flags, _, _, _, _, _, _, hfl, _, hok, _⟩ := C17_message_is_exact_parse _ _ _ _ hd
    exact hok.flag (hf x hx flags hfl)
  have hw : id ∈ waitingIds b y ↔ Waiting (circuitHistory y b.trace) id := by
    unfold waitingIds
    cases hx : b.circuits.get? y with
    | none =>
      rw [hB.inv.absent y hx]
      simp only [List.not_mem_nil, false_iff]
      exact not_waiting_nil id
    | some c => exact (hB.inv.circ y c hx).waiting id
  rw [hw]
  constructor
  · rintro ⟨pre, m, post, he, hid, hfl, _⟩
    exact ⟨m, by rw [he]; simp, hid, hfl⟩
  · rintro ⟨m, hm, hid, hfl⟩
    obtain ⟨pre, post, he⟩ := List.append_of_mem hm
    refine ⟨pre, m, post, he, hid, hfl, ?_⟩
    intro m' hm'
    rw [hno m' (by rw [he]; simp [hm'])]
    simp

/-- **C78, reliable packets are never acknowledged.** As long as none of A's datagrams has the ACK flag (A is never made to append acks; its `PacketAck`
messages are no exception), every reliable packet B ever sent to any address (since it last removed that circuit) still waits for its acknowledgement,
whatever A acknowledged. -/
theorem C78_never_acknowledged {envA envB : DEnv} {hostsA hostsB : HostRef → Host} {a b : DState} (h : Together envA envB hostsA hostsB a b)
    (hf : NoAckFlag a.trace) (y : Addr) (id : Nat) :
    id ∈ waitingIds b y ↔ ∃ m, CEv.out m ∈ circuitHistory y b.trace ∧ m.packetId = id ∧ m.sendFlags &&& 0x40 ≠ 0 := by
  obtain ⟨_, hB⟩ := together_sides h
  obtain ⟨log, h1, h2⟩ := hB.log
  refine never_acked_from hB log h1 ?_ y id
  intro x hx f hfl
  obtain ⟨z, hz⟩ := h2 x hx
  exact hf _ hz f hfl

/-! ## A concrete case -/

/-- A program that handles `Demo` and `PacketAck`. -/
def sysEnv : DEnv := { dispEnv with deser := fun _ => ⟨demoRt, dispDict, [], some ["Demo", "PacketAck"], true⟩ }

/-- A sends twice to B (its host 0), the first time reliably. -/
def sysA1 : DState := runOps sysEnv (DState.init dispHosts) [.send demoMessage 0 (.reliable 3), .send demoMessage 0 .plain]
def sysDg (tr : List Ev) (i : Nat) : Bytes := ((sentDatagrams tr)[i]?.map (·.2)).getD []
/-- B gets the second datagram, the first, and the second again, and acknowledges. -/
def sysB1 : DState := runOps sysEnv (DState.init dispHosts)
  [.recv 5 (sysDg sysA1.trace 1), .recv 5 (sysDg sysA1.trace 0), .recv 5 (sysDg sysA1.trace 1), .processAcks [dispAddr 5]]
/-- A gets the acknowledgement. -/
def sysA2 : DState := step sysEnv sysA1 (.recv 0 (sysDg sysB1.trace 0))

theorem sys_together : Together sysEnv sysEnv dispHosts dispHosts sysA2 sysB1 := by
  refine .recvA 0 (dispAddr 5) (sysDg sysB1.trace 0) ?_ (by decide +kernel)
  refine .ownB (.processAcks [dispAddr 5]) ?_ trivial
  refine .recvB 5 (dispAddr 0) (sysDg sysA1.trace 1) ?_ (by decide +kernel)
  refine .recvB 5 (dispAddr 0) (sysDg sysA1.trace 0) ?_ (by decide +kernel)
  refine .recvB 5 (dispAddr 0) (sysDg sysA1.trace 1) ?_ (by decide +kernel)
  exact .ownA (.send demoMessage 0 .plain) (.ownA (.send demoMessage 0 (.reliable 3)) .start trivial) trivial

/-- What A prepared are the two packets. -/
theorem sys_prepared : (preparedMsgs sysA2.trace).map (fun x => (x.1, x.2.name, x.2.packetId, x.2.sendFlags)) =
      [(dispAddr 0, "Demo", 1, 0x40), (dispAddr 0, "Demo", 2, 0)] ∧
    ∀ x ∈ preparedMsgs sysA2.trace, x.2.name = demoMessage.name ∧ x.2.blocks = demoMessage.blocks ∧ x.2.sendFlags &&& 0x10 = 0 := by
  decide +kernel

/-- The hypotheses of the theorems above hold of A and B in this state. -/
theorem sys_readable : Readable sysEnv sysEnv sysA2 := by
  have hc : ∀ tr, Connected sysEnv.ser (sysEnv.deser tr).eager demoTemplate := fun tr => ⟨rfl, rfl, rfl, rfl, rfl, [], rfl, .inr rfl⟩
  refine ⟨?_, fun x hx => (sys_prepared.2 x hx).2.2, ?_⟩
  · have := congrArg List.length sys_prepared.1
    rw [List.length_map] at this
    rw [this]
    decide
  · intro x hx
    obtain ⟨h1, h2, _⟩ := sys_prepared.2 x hx
    exact ⟨demoTemplate, demo_wf, fills_congr h1 h2 demo_fills, hc⟩

theorem sys_handles : HandlesAll sysEnv sysA2 := by
  intro x hx tr
  refine ⟨["Demo", "PacketAck"], rfl, .inl ?_⟩
  rw [(sys_prepared.2 x hx).1]
  decide

/-- The network duplicated the second datagram: B delivered three messages, with ids 2, 1, 2; it acknowledged packet 1, A got the `PacketAck`, and packet 1 still
waits (`C78_never_acknowledged` with the roles exchanged). -/
example : (deliveredMsgs sysB1.trace).map (·.packetId) = [2, 1, 2] ∧ (deliveredMsgs sysA2.trace).map (·.name) = ["PacketAck"] ∧
    waitingIds sysA2 (dispAddr 0) = [1] ∧ pending sysB1 (dispAddr 5) = [] := by decide +kernel

example : List.Forall₂ (fun dg m' => ∃ x ∈ preparedMsgs sysA2.trace, serialize sysEnv.ser x.2 = .ok (some dg) ∧ ReadAs sysEnv.ser x.2 m')
    (receivedDatagrams sysB1.trace) (deliveredMsgs sysB1.trace) := C78_all_delivered sys_together sys_readable sys_handles rfl

/-- Without duplication, in order. -/
theorem sys_fifo : Together sysEnv sysEnv dispHosts dispHosts sysA1
    (runOps sysEnv (DState.init dispHosts) [.recv 5 (sysDg sysA1.trace 0), .recv 5 (sysDg sysA1.trace 1)]) := by
  refine .recvB 5 (dispAddr 0) (sysDg sysA1.trace 1) ?_ (by decide +kernel)
  refine .recvB 5 (dispAddr 0) (sysDg sysA1.trace 0) ?_ (by decide +kernel)
  exact .ownA (.send demoMessage 0 .plain) (.ownA (.send demoMessage 0 (.reliable 3)) .start trivial) trivial

/-- The hypotheses about the network of `C78_in_order` and `C78_at_most_once`, and of `C78_never_acknowledged` in both directions. -/
example : let b := runOps sysEnv (DState.init dispHosts) [.recv 5 (sysDg sysA1.trace 0), .recv 5 (sysDg sysA1.trace 1)]
    receivedDatagrams b.trace = ((sentDatagrams sysA1.trace).filter (·.1 = dispAddr 0)).map (·.2) ∧ Ev.removed (dispAddr 0) ∉ sysA1.trace ∧
    (deliveredMsgs b.trace).map (·.packetId) = [1, 2] ∧ (∀ x ∈ sentDatagrams sysA1.trace, x.2.head? = some 0x40 ∨ x.2.head? = some 0) ∧
    (∀ x ∈ sentDatagrams sysB1.trace, x.2.head? = some 0) := by decide +kernel

end Pyogp
