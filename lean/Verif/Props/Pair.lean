import Verif.Proofs.Pair
import Verif.Spec.Delivery
import Verif.Props.System
import Verif.Props.Coroutines

/-!
# Two managers and the network between them (C83)
-/

namespace Pyogp
open Spec

/-- **C83, no appended acks.** In every history of a manager whose program sends only through the queue – whatever it receives, whatever its subscribers do, one
loop at a time – no packet carries appended acks: the defects of C26 and C56 do not show. -/
theorem C83_no_appended_acks (env : CEnv) (hq : ThroughQueue env) (hosts : HostRef → Host) (hasEq : Bool) (as : List Act)
    (h : UsualHistory env (World.init hosts hasEq) as) :
    ∀ x ∈ preparedMsgs (runActs env (World.init hosts hasEq) as).m.disp.trace, x.2.sendFlags &&& 0x10 = 0 :=
  (usual_tidy hq hosts hasEq h).flags

/-- **C83, what is sent.** In such a history, with a valid host, the packets that are not `PacketAck` are exactly the messages taken from the queue, in
that order, to that host, with their content and marked reliable as asked; every other packet acknowledges at least one and at most 251 ids (if the
program itself enqueues no `PacketAck`). -/
theorem C83_what_is_sent (env : CEnv) (hq : ThroughQueue env) (hosts : HostRef → Host) (hasEq : Bool) (as : List Act)
    (h : UsualHistory env (World.init hosts hasEq) as) (hok : (hosts env.m.host).isOk = true) (hn : ∀ e ∈ enqueuedIn as, e.msg.name ≠ "PacketAck") :
    let w := runActs env (World.init hosts hasEq) as
    ((preparedMsgs w.m.disp.trace).filter (fun x => x.2.name ≠ "PacketAck")).map visible = w.m.calls.map (wanted (hosts env.m.host).addr) ∧
    ∀ x ∈ preparedMsgs w.m.disp.trace, x.2.name = "PacketAck" →
      x.2.sendFlags = 0 ∧ ∃ l, l ≠ [] ∧ l.length ≤ 251 ∧ (∀ i ∈ l, i < 2 ^ 32) ∧ IsAckFor x.2 l := by
  have ht := usual_tidy hq hosts hasEq h
  have hc : ∀ e ∈ (runActs env (World.init hosts hasEq) as).m.calls, e.msg.name ≠ "PacketAck" := by
    intro e he
    exact hn e ((C79_nothing_lost env hosts hasEq as).1.subset (List.mem_append_left _ he))
  refine ⟨?_, ?_⟩
  · rw [ht.sent hok]
    congr 1
    rw [List.filter_eq_self]
    intro e he
    simpa using hc e he
  · intro x hx hxn
    rcases ht.acks x hx hxn with ⟨ids, h1, h2, l, h3, h4, h5, h6⟩ | ⟨e, he, hen⟩
    · exact ⟨h2, l, h3, h4, fun i hi => h1 i (h5 i hi), h6⟩
    · exact absurd hen (hc e he)

/-- One packet of A and one reception of B. -/
theorem log_related (envB : DEnv) (hh : envB.handlePackets = true) {R : Message → Message → Prop} :
    ∀ (P : List (Addr × Message)) (log : List Reception), List.Forall₂ (fun x (y : Reception) =>
        (x.2.name ≠ "PacketAck" → ∃ m', (deserialize (envB.deser y.tr) y.dst y.dg).1 = .ok (some m') ∧ m'.name = x.2.name ∧ R x.2 m') ∧
        (x.2.name = "PacketAck" → ∀ m', (deserialize (envB.deser y.tr) y.dst y.dg).1 = .ok (some m') → m'.name = "PacketAck")) P log →
    List.Forall₂ R ((P.filter (fun x => x.2.name ≠ "PacketAck")).map (·.2))
      ((deliveredMsgs (log.flatMap (·.events envB))).filter (fun m => m.name ≠ "PacketAck")) := by
  intro P log h
  induction h with
  | nil => exact .nil
  | @cons x y P log hxy _ ih =>
    rw [List.flatMap_cons, deliveredMsgs_append, List.filter_append]
    by_cases hn : x.2.name = "PacketAck"
    · rw [List.filter_cons_of_neg (by simp [hn])]
      have : (deliveredMsgs (y.events envB)).filter (fun m => m.name ≠ "PacketAck") = [] := by
        rw [List.filter_eq_nil_iff]
        intro m hm
        unfold Reception.events at hm
        split at hm
        · rename_i m2 hm2
          simp only [hh, if_true] at hm
          have : m = m2 := by simpa [deliveredMsgs] using hm
          rw [this, hxy.2 hn m2 hm2]
          simp
        · simp [deliveredMsgs] at hm
      rw [this]
      exact ih
    · rw [List.filter_cons_of_pos (by simp [hn])]
      obtain ⟨m', h1, h2, h3⟩ := hxy.1 hn
      have : (deliveredMsgs (y.events envB)).filter (fun m => m.name ≠ "PacketAck") = [m'] := by
        unfold Reception.events
        simp only [h1, hh, if_true]
        have : deliveredMsgs [Ev.received y.addr y.dg, .parsed y.addr m', .delivered m'] = [m'] := rfl
        rw [this, List.filter_cons_of_pos (by simp [h2, hn])]
        rfl
      rw [this]
      exact .cons h3 ih

theorem log_received (env : DEnv) : ∀ log : List Reception, receivedDatagrams (log.flatMap (·.events env)) = log.map (·.dg)
  | [] => rfl
  | x :: log => by
    rw [List.flatMap_cons, receivedDatagrams_append, log_received env log, List.map_cons]
    have : receivedDatagrams (x.events env) = [x.dg] := by
      unfold Reception.events
      split
      · split <;> rfl
      · rfl
    rw [this]
    rfl

theorem forall₂_of_map_eq {α β γ : Type} {f : α → γ} {g : β → γ} : ∀ {l : List α} {l' : List β}, l.map f = l'.map g → List.Forall₂ (fun a b => f a = g b) l l'
  | [], [], _ => .nil
  | [], _ :: _, h => by simp at h
  | _ :: _, [], h => by simp at h
  | a :: l, b :: l', h => by
    rw [List.map_cons, List.map_cons] at h
    injection h with h1 h2
    exact .cons h1 (forall₂_of_map_eq h2)

theorem forall₂_comp {α β γ : Type} {R : α → β → Prop} {S : β → γ → Prop} {T : α → γ → Prop} {l : List α} {l' : List β} {l'' : List γ}
    (h1 : List.Forall₂ R l l') (h2 : List.Forall₂ S l' l'') (h : ∀ a b c, b ∈ l' → R a b → S b c → T a c) : List.Forall₂ T l l'' := by
  induction h1 generalizing l'' with
  | nil => cases h2; exact .nil
  | @cons a b l l' hab _ ih =>
    cases h2 with
    | cons hbc ht =>
      exact .cons (h a b _ List.mem_cons_self hab hbc) (ih ht (fun a b c hb => h a b c (List.mem_cons_of_mem _ hb)))

/-- What A's program enqueues can be read by B, which handles it; both know the template of `PacketAck`. -/
structure Understood (envA envB : CEnv) (es : List QEntry) : Prop where
  messages : ∀ e ∈ es, e.msg.name ≠ "PacketAck" ∧ ∃ t, WFTemplate t ∧ Fills envA.m.disp.ser.rt t e.msg ∧
    ∀ tr, Connected envA.m.disp.ser (envB.m.disp.deser tr) t
  acks : ∃ t, AckTemplate t ∧ ∀ tr, Connected envA.m.disp.ser (envB.m.disp.deser tr).eager t

/-- `m'` is the queued message `e` as B should get it. -/
def Received (senv : SerEnv) (e : QEntry) (m' : Message) : Prop :=
  (∃ t, senv.dict.getTemplate e.msg.name = some t ∧ SameContent senv.rt t e.msg m') ∧ m'.reliable = e.reliable

theorem visible_of {x : Addr × Message} {es : List QEntry} {a : Addr} {l : List (Addr × Message)} (h : l.map visible = es.map (wanted a)) (hx : x ∈ l) :
    ∃ e ∈ es, x.1 = a ∧ x.2.name = e.msg.name ∧ x.2.blocks = e.msg.blocks := by
  have : visible x ∈ es.map (wanted a) := by rw [← h]; exact List.mem_map_of_mem hx
  obtain ⟨e, he, hv⟩ := List.mem_map.mp this
  simp only [visible, wanted, Prod.mk.injEq] at hv
  exact ⟨e, he, hv.1.symm, hv.2.1.symm, hv.2.2.1.symm⟩

theorem pair_readable {envA envB : CEnv} (hA : ThroughQueue envA) {hostsA : HostRef → Host} {eqA : Bool} {asA : List Act}
    (hu : UsualHistory envA (World.init hostsA eqA) asA) (hok : (hostsA envA.m.host).isOk = true) (hk : Understood envA envB (enqueuedIn asA))
    (hfew : (preparedMsgs (runActs envA (World.init hostsA eqA) asA).m.disp.trace).length < 2 ^ 31) :
    Readable envA.m.disp envB.m.disp (runActs envA (World.init hostsA eqA) asA).m.disp := by
  obtain ⟨h1, h2⟩ := C83_what_is_sent envA hA hostsA eqA asA hu hok (fun e he => (hk.messages e he).1)
  refine ⟨hfew, C83_no_appended_acks envA hA hostsA eqA asA hu, ?_⟩
  intro x hx
  by_cases hn : x.2.name = "PacketAck"
  · obtain ⟨t, ht, hc⟩ := hk.acks
    obtain ⟨_, l, h3, h4, h5, h6⟩ := h2 x hx hn
    exact ⟨t, ht.wf, ack_fills _ ht h6 h3 (by omega) h5, hc⟩
  · obtain ⟨e, he, _, hxn, hxb⟩ := visible_of h1 (List.mem_filter.mpr ⟨hx, by simpa using hn⟩)
    obtain ⟨_, t, ht, hf, hc⟩ := hk.messages e ((C79_nothing_lost envA hostsA eqA asA).1.subset (List.mem_append_left _ he))
    refine ⟨t, ht, fills_congr hxn hxb hf, fun tr => ⟨(hc tr).runtime, (hc tr).sender, (hc tr).receiver, (hc tr).senderXml, (hc tr).receiverXml, [], rfl, .inr rfl⟩⟩

/-- The packets A prepared for an address. -/
def packetsFor (addr : Addr) (a : DState) : List (Addr × Message) := (preparedMsgs a.trace).filter (·.1 = addr)

/-- Every packet A prepared for an address and the datagram sent for it, one by one. -/
theorem packets_sent {envA envB : DEnv} {a : DState} (hs : SentInv envA a) (hr : Readable envA envB a) (hn : ∀ tr x dg, envA.net tr x dg = true) (addr : Addr) :
    List.Forall₂ (fun x dg => serialize envA.ser x.2 = .ok (some dg)) (packetsFor addr a) (((sentDatagrams a.trace).filter (·.1 = addr)).map (·.2)) := by
  have key : ∀ (pm : List (Addr × Message)), (∀ x ∈ pm, x ∈ preparedMsgs a.trace) →
      List.Forall₂ (fun x dg => serialize envA.ser x.2 = .ok (some dg)) (pm.filter (·.1 = addr)) (((pm.filterMap (datagramOf envA)).filter (·.1 = addr)).map (·.2)) := by
    intro pm
    induction pm with
    | nil => intro _; exact .nil
    | cons x pm ih =>
      intro hs'
      have hx := hs' x List.mem_cons_self
      obtain ⟨dg, hdg⟩ := readable_sends hs hr hx
      have hy : datagramOf envA x = some (x.1, dg) := by simp only [datagramOf, hdg]
      rw [List.filterMap_cons_some hy]
      have ih := ih (fun z hz => hs' z (List.mem_cons_of_mem _ hz))
      by_cases hxb : x.1 = addr
      · rw [List.filter_cons_of_pos (by simpa using hxb), List.filter_cons_of_pos (by simpa using hxb), List.map_cons]
        exact .cons hdg ih
      · rw [List.filter_cons_of_neg (by simpa using hxb), List.filter_cons_of_neg (by simpa using hxb)]
        exact ih
  rw [hs.all hn]
  exact key _ (fun _ h => h)

theorem forall₂_take {α β : Type} {R : α → β → Prop} : ∀ (n : Nat) {l : List α} {l' : List β}, List.Forall₂ R l l' → List.Forall₂ R (l.take n) (l'.take n)
  | 0, _, _, _ => by simp
  | _ + 1, _, _, .nil => by simp
  | n + 1, _, _, .cons h t => by simpa using ⟨h, forall₂_take n t⟩

/-- How many of the first `n` packets A prepared for an address are messages of its program. -/
def messagesAmong (n : Nat) (addr : Addr) (a : DState) : Nat := (((packetsFor addr a).take n).filter (fun x => x.2.name ≠ "PacketAck")).length

theorem pair_in_transit {envA envB : CEnv} (hA : ThroughQueue envA) {hostsA hostsB : HostRef → Host} {eqA eqB : Bool} {asA asB : List Act}
    (hp : Pair envA envB (World.init hostsA eqA) (World.init hostsB eqB) asA asB) (hok : (hostsA envA.m.host).isOk = true)
    (hk : Understood envA envB (enqueuedIn asA)) (hh : envB.m.disp.handlePackets = true) (hn : ∀ tr x dg, envA.m.disp.net tr x dg = true) :
    let a := (runActs envA (World.init hostsA eqA) asA).m
    let b := (runActs envB (World.init hostsB eqB) asB).m
    (preparedMsgs a.disp.trace).length < 2 ^ 31 → FitsBuffer a.disp.trace → FitsBuffer b.disp.trace →
    receivedDatagrams b.disp.trace <+: ((sentDatagrams a.disp.trace).filter (·.1 = (hostsA envA.m.host).addr)).map (·.2) →
    List.Forall₂ (Received envA.m.disp.ser) (a.calls.take (messagesAmong (receivedDatagrams b.disp.trace).length (hostsA envA.m.host).addr a.disp))
      ((deliveredMsgs b.disp.trace).filter (fun m => m.name ≠ "PacketAck")) ∧
    ((packetsFor (hostsA envA.m.host).addr a.disp).filter (fun x => x.2.name ≠ "PacketAck")).length = a.calls.length := by
  intro a b hfew hsA hsB hperf
  obtain ⟨huA, huB⟩ := pair_usual hp
  have htog := pair_together hp hsA hsB
  have hr := pair_readable (envB := envB) hA huA hok hk hfew
  obtain ⟨h1, h2⟩ := C83_what_is_sent envA hA hostsA eqA asA huA hok (fun e he => (hk.messages e he).1)
  obtain ⟨hSA, hSB⟩ := together_sides htog
  obtain ⟨log, g1, g2⟩ := hSB.log
  change Together _ _ _ _ a.disp b.disp at htog
  change Readable _ _ a.disp at hr
  change List.map visible ((preparedMsgs a.disp.trace).filter _) = a.calls.map _ at h1
  change ∀ x ∈ preparedMsgs a.disp.trace, _ at h2
  change Side _ _ a.disp _ at hSA
  change inEvents b.disp.trace = _ at g1
  have hcalls : ∀ e ∈ a.calls, e ∈ enqueuedIn asA := fun e he => (C79_nothing_lost envA hostsA eqA asA).1.subset (List.mem_append_left _ he)
  clear_value a b
  generalize hAddr : (hostsA envA.m.host).addr = addr at *
  have hlen : (receivedDatagrams b.disp.trace).length = log.length := by rw [receivedDatagrams_in, g1, log_received, List.length_map]
  have hps := packets_sent hSA.sentInv hr hn addr
  have hf : List.Forall₂ (fun x (y : Reception) => serialize envA.m.disp.ser x.2 = .ok (some y.dg)) ((packetsFor addr a.disp).take log.length) log := by
    have h3 := forall₂_take log.length hps
    have h4 := List.prefix_iff_eq_take.mp hperf
    rw [hlen, receivedDatagrams_in, g1, log_received] at h4
    rw [← h4, List.forall₂_map_right_iff] at h3
    exact h3
  rw [hlen]
  have hrel := log_related envB.m.disp hh (R := ReadAs envA.m.disp.ser) ((packetsFor addr a.disp).take log.length) log (by
    refine forall₂_mem_imp hf ?_
    intro x y hx hs
    have hx := (List.mem_filter.mp (List.mem_of_mem_take hx)).1
    refine ⟨fun hnn => ?_, fun hnn m' hm' => ?_⟩
    · obtain ⟨e, he, _, hxn, hxb⟩ := visible_of h1 (List.mem_filter.mpr ⟨hx, by simpa using hnn⟩)
      obtain ⟨_, t, ht, hfl, hc⟩ := hk.messages e (hcalls e he)
      have hid : x.2.packetId < 2 ^ 31 := Nat.lt_of_le_of_lt (hSA.sentInv.ids x hx) hr.few
      obtain ⟨dg', m', k4, k5, k6, k7, k8, k9⟩ := prepared_arrives envA.m.disp.ser (envB.m.disp.deser y.tr) y.dst t x.2 x.2 (hc y.tr) ht
        (fills_congr hxn hxb hfl) rfl rfl (readable_flags hSA.sentInv hr hx) hid
      rw [hs] at k4
      cases k4
      exact ⟨m', k5, k6.name, ⟨t, by rw [(fills_congr hxn hxb hfl).name]; exact (hc y.tr).sender, k6⟩, k7, k8, k9⟩
    · obtain ⟨m2, k1, ⟨⟨t, _, k3⟩, _⟩⟩ := readable_read hSA.sentInv hr hx hs y.tr y.dst
      rw [deserialize_eager hm'] at k1
      cases k1
      exact k3.name.trans hnn)
  rw [← g1, ← deliveredMsgs_in] at hrel
  -- those that are not acknowledgements all go to B
  have hall : (packetsFor addr a.disp).filter (fun x => decide (x.2.name ≠ "PacketAck")) =
      (preparedMsgs a.disp.trace).filter (fun x => decide (x.2.name ≠ "PacketAck")) := by
    unfold packetsFor
    rw [List.filter_filter]
    apply List.filter_congr
    intro x hx
    by_cases hnn : x.2.name = "PacketAck"
    · simp [hnn]
    · obtain ⟨e, _, he, _⟩ := visible_of h1 (List.mem_filter.mpr ⟨hx, by simpa using hnn⟩)
      simp [hnn, he]
  rw [← hall] at h1
  have hcount : ((packetsFor addr a.disp).filter (fun x => decide (x.2.name ≠ "PacketAck"))).length = a.calls.length := by
    have := congrArg List.length h1
    simpa using this
  refine ⟨?_, hcount⟩
  have htake : ((packetsFor addr a.disp).take log.length).filter (fun x => decide (x.2.name ≠ "PacketAck")) =
      ((packetsFor addr a.disp).filter (fun x => decide (x.2.name ≠ "PacketAck"))).take (messagesAmong log.length addr a.disp) := by
    refine List.prefix_iff_eq_take.mp ?_
    have hc := congrArg (List.filter (fun x : Addr × Message => decide (x.2.name ≠ "PacketAck"))) (List.take_append_drop log.length (packetsFor addr a.disp))
    rw [List.filter_append] at hc
    exact ⟨_, hc⟩
  rw [htake, List.forall₂_map_left_iff] at hrel
  have h1' : (List.take (messagesAmong log.length addr a.disp) ((packetsFor addr a.disp).filter (fun x => decide (x.2.name ≠ "PacketAck")))).map visible =
      (a.calls.take (messagesAmong log.length addr a.disp)).map (wanted addr) := by
    rw [List.map_take, List.map_take, h1]
  refine forall₂_comp (forall₂_of_map_eq h1'.symm) hrel ?_
  intro e x m' hx hv hread
  obtain ⟨⟨t, k1, k2⟩, _, k3, _⟩ := hread
  simp only [visible, wanted, Prod.mk.injEq] at hv
  refine ⟨⟨t, by rw [hv.2.1]; exact k1, sameContent_congr hv.2.1.symm hv.2.2.1.symm k2⟩, ?_⟩
  rw [k3, hv.2.2.2]
  have := readable_flags hSA.sentInv hr (List.mem_filter.mp (List.mem_filter.mp (List.mem_of_mem_take hx)).1).1
  have h' : x.2.sendFlags = 0 ∨ x.2.sendFlags = 0x20 ∨ x.2.sendFlags = 0x40 := by simpa using this
  rcases h' with h' | h' | h' <;> rw [h'] <;> decide

/-- **C83, in transit.** Two managers, any schedule of their coroutines, any traffic.  A sends only through its queue, to the valid host that is B's address; B can read and
handles what A enqueues; the datagrams fit into the buffer, A's socket takes them, there are fewer than `2^31`.  If the network has so far brought B the first
of the datagrams A sent there, in order and without gaps, B's subscribers have got (besides acknowledgements) exactly the first messages taken from A's queue,
once, in that order, with their content. -/
theorem C83_in_transit {envA envB : CEnv} (hA : ThroughQueue envA) {hostsA hostsB : HostRef → Host} {eqA eqB : Bool} {asA asB : List Act}
    (hp : Pair envA envB (World.init hostsA eqA) (World.init hostsB eqB) asA asB) (hok : (hostsA envA.m.host).isOk = true)
    (hk : Understood envA envB (enqueuedIn asA)) (hh : envB.m.disp.handlePackets = true) (hn : ∀ tr x dg, envA.m.disp.net tr x dg = true) :
    let a := (runActs envA (World.init hostsA eqA) asA).m
    let b := (runActs envB (World.init hostsB eqB) asB).m
    (preparedMsgs a.disp.trace).length < 2 ^ 31 → FitsBuffer a.disp.trace → FitsBuffer b.disp.trace →
    receivedDatagrams b.disp.trace <+: ((sentDatagrams a.disp.trace).filter (·.1 = (hostsA envA.m.host).addr)).map (·.2) →
    ∃ k, List.Forall₂ (Received envA.m.disp.ser) (a.calls.take k) ((deliveredMsgs b.disp.trace).filter (fun m => m.name ≠ "PacketAck")) := by
  intro a b h1 h2 h3 h4
  exact ⟨_, (pair_in_transit hA hp hok hk hh hn h1 h2 h3 h4).1⟩

/-- **C83, delivered.** If the network brought B exactly what A sent there, in order, B's subscribers got (besides acknowledgements) exactly the messages taken from A's queue, once,
in that order, with their content. -/
theorem C83_delivered {envA envB : CEnv} (hA : ThroughQueue envA) {hostsA hostsB : HostRef → Host} {eqA eqB : Bool} {asA asB : List Act}
    (hp : Pair envA envB (World.init hostsA eqA) (World.init hostsB eqB) asA asB) (hok : (hostsA envA.m.host).isOk = true)
    (hk : Understood envA envB (enqueuedIn asA)) (hh : envB.m.disp.handlePackets = true) (hn : ∀ tr x dg, envA.m.disp.net tr x dg = true) :
    let a := (runActs envA (World.init hostsA eqA) asA).m
    let b := (runActs envB (World.init hostsB eqB) asB).m
    (preparedMsgs a.disp.trace).length < 2 ^ 31 → FitsBuffer a.disp.trace → FitsBuffer b.disp.trace →
    receivedDatagrams b.disp.trace = ((sentDatagrams a.disp.trace).filter (·.1 = (hostsA envA.m.host).addr)).map (·.2) →
    List.Forall₂ (Received envA.m.disp.ser) a.calls ((deliveredMsgs b.disp.trace).filter (fun m => m.name ≠ "PacketAck")) := by
  intro a b hfew hsA hsB hperf
  have htog := pair_together hp hsA hsB
  have hr := pair_readable (envB := envB) hA (pair_usual hp).1 hok hk hfew
  have hps := packets_sent (together_sides htog).1.sentInv hr hn (hostsA envA.m.host).addr
  obtain ⟨h1, h2⟩ := pair_in_transit hA hp hok hk hh hn hfew hsA hsB ⟨[], by rw [List.append_nil]; exact hperf⟩
  change List.Forall₂ _ (packetsFor _ a.disp) (List.map _ (List.filter _ (sentDatagrams a.disp.trace))) at hps
  change List.Forall₂ _ (a.calls.take (messagesAmong (receivedDatagrams b.disp.trace).length _ a.disp)) _ at h1
  have hl := hps.length_eq
  rw [← hperf] at hl
  rw [messagesAmong, ← hl, List.take_length, h2, List.take_length] at h1
  exact h1

/-- **C83, nothing is lost on the way.** If moreover A's queue is empty and nothing was enqueued urgently, B's subscribers got exactly what A's program enqueued, once
and in order. -/
theorem C83_everything_arrives {envA envB : CEnv} (hA : ThroughQueue envA) {hostsA hostsB : HostRef → Host} {eqA eqB : Bool} {asA asB : List Act}
    (hp : Pair envA envB (World.init hostsA eqA) (World.init hostsB eqB) asA asB) (hok : (hostsA envA.m.host).isOk = true)
    (hk : Understood envA envB (enqueuedIn asA)) (hh : envB.m.disp.handlePackets = true) (hn : ∀ tr x dg, envA.m.disp.net tr x dg = true) :
    let a := (runActs envA (World.init hostsA eqA) asA).m
    let b := (runActs envB (World.init hostsB eqB) asB).m
    (preparedMsgs a.disp.trace).length < 2 ^ 31 → FitsBuffer a.disp.trace → FitsBuffer b.disp.trace →
    receivedDatagrams b.disp.trace = ((sentDatagrams a.disp.trace).filter (·.1 = (hostsA envA.m.host).addr)).map (·.2) →
    a.queue = [] → (∀ e ∈ enqueuedIn asA, e.now = false) →
    List.Forall₂ (Received envA.m.disp.ser) (enqueuedIn asA) ((deliveredMsgs b.disp.trace).filter (fun m => m.name ≠ "PacketAck")) := by
  intro a b h1 h2 h3 h4 hq hnow
  have hd := C83_delivered hA hp hok hk hh hn h1 h2 h3 h4
  obtain ⟨e1, e2⟩ := C79_nothing_lost envA hostsA eqA asA
  change (a.calls ++ a.queue).Perm _ at e1
  change (a.calls ++ a.queue).filter _ = _ at e2
  rw [hq, List.append_nil] at e1 e2
  have f1 : a.calls.filter (fun e => !e.now) = a.calls := by
    rw [List.filter_eq_self]; intro e he; rw [hnow e (e1.subset he)]; rfl
  have f2 : (enqueuedIn asA).filter (fun e => !e.now) = enqueuedIn asA := by
    rw [List.filter_eq_self]; intro e he; rw [hnow e he]; rfl
  rw [f1, f2] at e2
  rw [← e2]
  exact hd

/-! ## A concrete case -/

def usualB (w : World) : Act → Bool
  | .disp _ => false
  | .start => liveLoops w == 0
  | .udp _ _ order => order == w.m.disp.circuits.keys
  | _ => true

def sentByB (other : World) : Act → Bool
  | .udp _ (some i) _ => (sentDatagrams other.m.disp.trace).any (·.2 == i.dg)
  | _ => true

/-- The moves of A (`true`) and B (`false`) are those of two managers that talk to each other. -/
def pairB (envA envB : CEnv) : World → World → List (Bool × Act) → Bool
  | _, _, [] => true
  | a, b, (true, x) :: ms => usualB a x && sentByB b x && pairB envA envB (act envA a x) b ms
  | a, b, (false, x) :: ms => usualB b x && sentByB a x && pairB envA envB a (act envB b x) ms

theorem usual_of_b {w : World} {a : Act} (h : usualB w a = true) : Usual w a := by
  cases a with
  | disp o => cases h
  | start => exact eq_of_beq h
  | udp i input order => have : order = w.m.disp.circuits.keys := eq_of_beq h; rw [this]; exact List.Perm.refl _
  | _ => trivial

theorem sentBy_of_b {w : World} {a : Act} (h : sentByB w a = true) : SentBy w a := by
  cases a with
  | udp i input order =>
    cases input with
    | none => trivial
    | some i =>
      obtain ⟨x, hx, he⟩ := List.any_eq_true.mp h
      exact ⟨x.1, by rw [← eq_of_beq he]; exact hx⟩
  | _ => trivial

theorem pair_of_b (envA envB : CEnv) (wA wB : World) : ∀ (ms : List (Bool × Act)) (asA asB : List Act), Pair envA envB wA wB asA asB →
    pairB envA envB (runActs envA wA asA) (runActs envB wB asB) ms = true → Pair envA envB wA wB (asA ++ movesOf true ms) (asB ++ movesOf false ms)
  | [], asA, asB, h, _ => by simpa [movesOf] using h
  | (true, x) :: ms, asA, asB, h, hc => by
    simp only [pairB, Bool.and_eq_true] at hc
    have := pair_of_b envA envB wA wB ms (asA ++ [x]) asB (.actA x h (usual_of_b hc.1.1) (sentBy_of_b hc.1.2)) (by rw [runActs_snoc]; exact hc.2)
    simpa [movesOf] using this
  | (false, x) :: ms, asA, asB, h, hc => by
    simp only [pairB, Bool.and_eq_true] at hc
    have := pair_of_b envA envB wA wB ms asA (asB ++ [x]) (.actB x h (usual_of_b hc.1.1) (sentBy_of_b hc.1.2)) (by rw [runActs_snoc]; exact hc.2)
    simpa [movesOf] using this

/-- The two packets A sends. -/
def pairDg (flags id : UInt8) : Bytes := [flags, 0, 0, 0, id, 0, 0xff, 0xff, 1, 44, 77, 0, 0, 0, 3, 104, 105, 0, 2, 1, 0, 2, 0]
/-- B's acknowledgement of packet 2. -/
def pairAck : Bytes := [0, 0, 0, 0, 1, 0, 0xff, 0xff, 0xff, 0xfb, 1, 2, 0, 0, 0]

/-- A and B start; A's program enqueues a message, and a second one, reliable, while A's loop sends the first; B receives the first,
then the second and acknowledges it; A receives the acknowledgement. -/
def pairMoves : List (Bool × Act) :=
  [(true, .start), (false, .start), (true, .enqueue ⟨demoMessage, false, false⟩), (true, .udp 0 none []), (true, .udp 0 none []), (true, .udp 0 none []),
   (true, .udp 0 none []), (true, .udp 0 none []), (true, .enqueue ⟨demoMessage, true, false⟩), (false, .udp 0 none []), (false, .udp 0 none []),
   (false, .udp 0 (some ⟨"sim", 13001, pairDg 0 1⟩) []), (true, .udp 0 none [dispAddr 0]), (false, .udp 0 none [dispAddr 1]), (false, .udp 0 none [dispAddr 1]),
   (false, .udp 0 none [dispAddr 1]), (false, .udp 0 (some ⟨"sim", 13001, pairDg 0x40 2⟩) [dispAddr 1]), (false, .udp 0 none [dispAddr 1]),
   (false, .udp 0 none [dispAddr 1]), (true, .udp 0 none [dispAddr 0]), (true, .udp 0 none [dispAddr 0]), (true, .udp 0 (some ⟨"sim", 13000, pairAck⟩) [dispAddr 0])]

theorem demo_pair : Pair demoCEnv demoCEnv demoWorld demoWorld (movesOf true pairMoves) (movesOf false pairMoves) := by
  have := pair_of_b demoCEnv demoCEnv demoWorld demoWorld pairMoves [] [] .start (by decide +kernel)
  simpa using this

theorem demo_through : ThroughQueue demoCEnv := ⟨rfl, by decide, by decide, fun _ _ => trivial⟩

theorem demo_understood : Understood demoCEnv demoCEnv (enqueuedIn (movesOf true pairMoves)) := by
  have hc : ∀ tr, Connected demoCEnv.m.disp.ser (demoCEnv.m.disp.deser tr) demoTemplate := fun tr => ⟨rfl, rfl, rfl, rfl, rfl, ["Demo"], rfl, .inl (by decide)⟩
  refine ⟨?_, ackTemplate, ackTemplate_is, fun tr => ⟨rfl, rfl, rfl, rfl, rfl, [], rfl, .inr rfl⟩⟩
  intro e he
  have : e = ⟨demoMessage, false, false⟩ ∨ e = ⟨demoMessage, true, false⟩ := by simpa [enqueuedIn, movesOf, pairMoves] using he
  rcases this with rfl | rfl <;> exact ⟨by decide, demoTemplate, demo_wf, demo_fills, hc⟩

/-- The other hypotheses of `C83_everything_arrives`, and what was sent. -/
theorem demo_pair_state : let a := (runActs demoCEnv demoWorld (movesOf true pairMoves)).m
    let b := (runActs demoCEnv demoWorld (movesOf false pairMoves)).m
    receivedDatagrams b.disp.trace = ((sentDatagrams a.disp.trace).filter (·.1 = (dispHosts demoCEnv.m.host).addr)).map (·.2) ∧
    (preparedMsgs a.disp.trace).length = 2 ∧ (∀ x ∈ sentDatagrams a.disp.trace, x.2.length ≤ 10000) ∧ (∀ x ∈ sentDatagrams b.disp.trace, x.2.length ≤ 10000) ∧
    a.queue = [] ∧ sentDatagrams b.disp.trace = [(dispAddr 1, pairAck)] ∧ receivedDatagrams a.disp.trace = [pairAck] := by decide +kernel

example : List.Forall₂ (Received demoCEnv.m.disp.ser) (enqueuedIn (movesOf true pairMoves))
    ((deliveredMsgs (runActs demoCEnv demoWorld (movesOf false pairMoves)).m.disp.trace).filter (fun m => m.name ≠ "PacketAck")) := by
  obtain ⟨h1, h2, h3, h4, h5, _⟩ := demo_pair_state
  exact C83_everything_arrives demo_through demo_pair (by decide) demo_understood rfl (fun _ _ _ => rfl) (by rw [show World.init dispHosts true = demoWorld from rfl, h2]; decide)
    h3 h4 h1 h5 (by simp [enqueuedIn, movesOf, pairMoves])

/-- Why the program has to leave sending to the loop: a message sent directly while an acknowledgement is owed carries appended acks. -/
example : (preparedMsgs (runActs demoCEnv demoWorld [.start, .udp 0 none [], .udp 0 none [], .udp 0 (some ⟨"sim", 13000, pairDg 0x40 2⟩) [],
      .disp (.send demoMessage 0 .plain)]).m.disp.trace).map (·.2.sendFlags) = [0x10] := by decide +kernel

/-- And why one loop at a time: of two loops, one sends while the other has received and not yet acknowledged. -/
example : (preparedMsgs (runActs demoCEnv demoWorld [.enqueue ⟨demoMessage, false, false⟩, .start, .start, .udp 0 none [], .udp 0 none [], .udp 0 none [], .udp 0 none [],
      .udp 1 none [], .udp 1 none [], .udp 1 (some ⟨"sim", 13000, pairDg 0x40 2⟩) [], .udp 0 none []]).m.disp.trace).map (·.2.sendFlags) = [0x10] := by decide +kernel

end Pyogp
