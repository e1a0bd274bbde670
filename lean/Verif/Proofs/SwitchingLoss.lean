import Verif.Proofs.SwitchingAcks
import Verif.Proofs.Receive

/-! # No id is lost unless it comes too late -/

namespace Pyogp
open Spec

/-- Queues only grow. -/
structure Grows (st st' : DState) : Prop where
  trace : st.trace <+: st'.trace
  circ : ∀ a c, st.circuits.get? a = some c → ∃ c', st'.circuits.get? a = some c' ∧ c'.host = c.host
  pend : ∀ a, pending st a <+: pending st' a

theorem Keeps.grows {H : HostRef → Host} {st st' : DState} (h : Keeps H st st') : Grows st st' := by
  refine ⟨h.trace, fun a c hc => ?_, fun a => by rw [h.pend a]; exact List.prefix_refl _⟩
  obtain ⟨c', e1, e2, _⟩ := h.circ a c hc
  exact ⟨c', e1, e2⟩

theorem Grows.refl (st : DState) : Grows st st := ⟨List.prefix_refl _, fun _ c hc => ⟨c, hc, rfl⟩, fun _ => List.prefix_refl _⟩

theorem Grows.trans {a b c : DState} (h1 : Grows a b) (h2 : Grows b c) : Grows a c := by
  refine ⟨h1.trace.trans h2.trace, fun x d hd => ?_, fun x => (h1.pend x).trans (h2.pend x)⟩
  obtain ⟨d1, e1, e2⟩ := h1.circ x d hd
  obtain ⟨d2, e3, e4⟩ := h2.circ x d1 e1
  exact ⟨d2, e3, e4.trans e2⟩

theorem grows_log (st : DState) (e : Ev) : Grows st (st.log e) :=
  ⟨List.prefix_append _ _, fun _ c hc => ⟨c, hc, rfl⟩, fun _ => List.prefix_refl _⟩

theorem find_grows (st : DState) (r : HostRef) : Grows st (findCircuit st r).1 ∧
    (findCircuit st r).1.circuits.get? (st.hosts r).addr = some (findCircuit st r).2 := by
  obtain ⟨_, htr, _, _, _, _, hg, hc⟩ := findCircuit_fields st r
  refine ⟨⟨by rw [htr]; exact List.prefix_refl _, ?_, fun a => by rw [pending_find]; exact List.prefix_refl _⟩, findCircuit_get? st r⟩
  intro a c h
  refine ⟨c, ?_, rfl⟩
  rw [hg, if_neg (fun hx => by rw [h] at hx; exact absurd hx.2 (by simp))]
  exact h

theorem set_grows {st : DState} {a : Addr} {c c' : Circuit} (h : st.circuits.get? a = some c) (hh : c'.host = c.host) (hp : c.acks <+: c'.acks) :
    Grows st (st.setCircuit a c') := by
  refine ⟨List.prefix_refl _, ?_, ?_⟩
  · intro b d hd
    simp only [DState.setCircuit, Dict.get?_set]
    by_cases hb : a = b
    · subst hb
      rw [h] at hd
      cases hd
      exact ⟨c', if_pos rfl, hh⟩
    · exact ⟨d, by rw [if_neg hb]; exact hd, rfl⟩
  · intro b
    rw [pending_setCircuit]
    by_cases hb : a = b
    · subst hb
      rw [if_pos rfl]
      unfold pending; rw [h]; exact hp
    · rw [if_neg hb]; exact List.prefix_refl _

theorem receive_grows (env : DEnv) (st : DState) (r : HostRef) (dg : Bytes) :
    Grows st (receiveCheck (quiet env) st r dg).2 ∧ (receiveCheck (quiet env) st r dg).2.hosts = st.hosts := by
  obtain ⟨hh, _⟩ := findCircuit_fields st r
  obtain ⟨hg, hget⟩ := find_grows st r
  unfold receiveCheck
  split
  · simp only
    generalize (findCircuit st r).1 = st1 at *
    generalize (findCircuit st r).2 = c at *
    have h1 : ∀ d, Grows st { ({ st1 with packetsIn := st1.packetsIn + 1 } : DState).log (.received (st.hosts r).addr dg) with deser := d } :=
      fun d => hg.trans ⟨List.prefix_append _ _, fun _ c hc => ⟨c, hc, rfl⟩, fun _ => List.prefix_refl _⟩
    have h2 : ∀ d c', c'.host = c.host → c.acks <+: c'.acks →
        Grows st (({ ({ st1 with packetsIn := st1.packetsIn + 1 } : DState).log (.received (st.hosts r).addr dg) with deser := d } : DState).setCircuit (st.hosts r).addr c') :=
      fun d c' e1 e2 => (h1 d).trans (set_grows (c := c) hget e1 e2)
    split
    · exact ⟨h1 _, hh⟩
    · split
      · exact ⟨h1 _, hh⟩
      · exact ⟨h2 _ _ rfl (List.prefix_append _ _), hh⟩
    · split
      · exact ⟨h1 _, hh⟩
      · rename_i m _ _
        have hf := handlePacket_fields c m
        have h3 := h2 (deserialize (env.deser st1.trace) st1.deser dg).2 (c.handlePacket m) hf.1 (by rw [hf.2.2.2.1]; exact List.prefix_append _ _)
        split
        · simp only [Prog.run]
          exact ⟨(h3.trans (grows_log _ _)).trans (grows_log _ _), hh⟩
        · exact ⟨h3.trans (grows_log _ _), hh⟩
  · exact ⟨Grows.refl _, rfl⟩

/-- Every position in a queue is within it. -/
def PosWithin (s : SState) : Prop :=
  ∀ t ∈ s.tasks, ∀ p a, t.after = some p → p.circuit = .inMap a → p.own = none → p.taken ≤ (pending s.disp a).length

/-- The id is in the queue of `a`, and nobody has passed it. -/
def Queued (s : SState) (r0 : HostRef) (a : Addr) (x : Nat) : Prop :=
  (∃ c, s.disp.circuits.get? a = some c ∧ c.host = r0 ∧ (s.disp.hosts r0).isOk = true) ∧ x ∈ pending s.disp a ∧
  ∀ t ∈ s.tasks, ∀ p, t.after = some p → p.circuit = .inMap a → p.own = none ∧ p.final = false ∧ x ∈ (pending s.disp a).drop p.taken

/-- Where the id can be. -/
def Somewhere (tr0 : List Ev) (r0 : HostRef) (b : Addr) (a : Addr) (x : Nat) (s : SState) : Prop :=
  (s.disp.hosts r0).addr = b ∧ ∃ new, s.disp.trace = tr0 ++ new ∧ (AckedIn new b x ∨ BeingAcked s r0 x ∨ Queued s r0 a x)

theorem ackedIn_append {tr : List Ev} {b : Addr} {x : Nat} (h : AckedIn tr b x) (tr' : List Ev) : AckedIn (tr ++ tr') b x := by
  obtain ⟨m, ids, h1, h2⟩ := h
  refine ⟨m, ids, ?_, h2⟩
  rw [preparedMsgs_append]
  exact List.mem_append_left _ h1

/-- It is acknowledged, or about to be. -/
def Fine (tr0 : List Ev) (r0 : HostRef) (b : Addr) (x : Nat) (s : SState) : Prop :=
  ∃ new, s.disp.trace = tr0 ++ new ∧ (AckedIn new b x ∨ BeingAcked s r0 x)

theorem mem_drop_prefix {l l' : List Nat} (h : l <+: l') {k : Nat} {x : Nat} (hx : x ∈ l.drop k) : x ∈ l'.drop k := by
  obtain ⟨e, rfl⟩ := h
  rw [List.drop_append]
  exact List.mem_append_left _ hx

/-- Acts that leave the packets of every `process_acks` alone. -/
theorem Somewhere.mono {tr0 : List Ev} {r0 : HostRef} {b a : Addr} {x : Nat} {s s' : SState} (h : Somewhere tr0 r0 b a x s) (hg : Grows s.disp s'.disp)
    (hok : s'.disp.hosts r0 = s.disp.hosts r0)
    (h1 : ∀ t ∈ s.tasks, t.after.isSome = true → ∃ t' ∈ s'.tasks, t'.after.isSome = true ∧ t'.host = t.host ∧ t'.stage = t.stage)
    (h2 : ∀ t' ∈ s'.tasks, ∀ p', t'.after = some p' → p'.circuit = .inMap a → ∃ t ∈ s.tasks, ∃ p, t.after = some p ∧ p.circuit = .inMap a ∧
      p'.own = p.own ∧ p'.final = p.final ∧ p'.taken = p.taken) : Somewhere tr0 r0 b a x s' := by
  obtain ⟨hadr, new, e, hx⟩ := h
  obtain ⟨ext, hext⟩ := hg.trace
  refine ⟨by rw [hok]; exact hadr, new ++ ext, by rw [← hext, e, List.append_assoc], ?_⟩
  rcases hx with hx | ⟨t, ht, hsome, hho, m, ids, hst, hm⟩ | ⟨⟨c, hc, hch, hh⟩, hm, hw⟩
  · exact .inl (ackedIn_append hx _)
  · obtain ⟨t', e1, e2, e4, e3⟩ := h1 t ht hsome
    exact .inr (.inl ⟨t', e1, e2, e4.trans hho, m, ids, e3.trans hst, hm⟩)
  · refine .inr (.inr ⟨?_, (hg.pend a).subset hm, ?_⟩)
    · obtain ⟨c', e1, e2⟩ := hg.circ a c hc
      exact ⟨c', e1, e2.trans hch, by rw [hok]; exact hh⟩
    · intro t' ht' p' hp' hc'
      obtain ⟨t, ht, p, hp, hcp, e1, e2, e3⟩ := h2 t' ht' p' hp' hc'
      obtain ⟨f1, f2, f3⟩ := hw t ht p hp hcp
      exact ⟨e1.trans f1, e2.trans f2, by rw [e3]; exact mem_drop_prefix (hg.pend a) f3⟩

theorem collect_mem {ids : List Nat} {x : Nat} (hx : x ∈ ids) :
    let r := collectAcks ids 0 (Message.new "PacketAck" [])
    r.2.1 ≠ 0 ∧ (x ∈ ids.take r.1 ∧ IsAckFor r.2.2 (ids.take r.1) ∨ ¬ r.2.1 ≤ 250 ∧ x ∈ ids.drop r.1) := by
  have hcol := collectAcks_spec ids [] (Message.new "PacketAck" []) (by simp) (by simp)
  simp only [List.length_nil, List.nil_append, Nat.zero_add] at hcol
  obtain ⟨h1, h2, h3, h4, h5⟩ := hcol
  generalize collectAcks ids 0 (Message.new "PacketAck" []) = r at *
  have hlen := List.length_pos_of_mem hx
  have hpos : r.1 ≠ 0 := by
    intro h0
    have := h4 (by omega)
    omega
  refine ⟨by omega, ?_⟩
  rw [← List.take_append_drop r.1 ids] at hx
  rcases List.mem_append.mp hx with h | h
  · exact .inl ⟨h, h5 (List.ne_nil_of_mem h)⟩
  · refine .inr ⟨fun hle => ?_, h⟩
    rw [h4 hle, List.drop_length] at h
    cases h

theorem beginSend_grows (env : DEnv) (s : SState) (m : Message) (h : HostRef) (mode : SendMode) (af : Option AckPos) :
    Grows s.disp (beginSend env s m h mode af).disp ∧ (beginSend env s m h mode af).disp.hosts = s.disp.hosts :=
  ⟨(beginSend_keeps env s m h mode af).grows, (beginSend_keeps env s m h mode af).hosts⟩

/-- A `process_acks` sends its next packet: the id is in it, or it is not passed. -/
theorem Somewhere.begin {env : DEnv} {tr0 : List Ev} {r0 : HostRef} {b a : Addr} {x : Nat} {s s' : SState} (h : Somewhere tr0 r0 b a x s) {ref : CircuitRef}
    {own : Option (List Nat)} {k : Nat} {rest : List CircuitRef} (hs : ackUntilSend env s ref own k rest = some s')
    (hq : ref = .inMap a → ¬ Fine tr0 r0 b x s → Queued s r0 a x → own = none ∧ x ∈ (pending s.disp a).drop k) : Somewhere tr0 r0 b a x s' := by
  unfold ackUntilSend at hs
  cases hl : s.lookup ref with
  | none => rw [hl] at hs; cases hs
  | some c =>
    rw [hl] at hs
    simp only at hs
    split at hs
    · cases hs
    · cases hs
      obtain ⟨hadr, new, e, hx⟩ := h
      generalize hR : collectAcks ((own.getD c.acks).drop k) 0 (Message.new "PacketAck" []) = r at *
      obtain ⟨hg, hho⟩ := beginSend_grows env s r.2.2 c.host .plain (some ⟨ref, own, k + r.1, decide (r.2.1 ≤ 250), rest⟩)
      obtain ⟨ext, hext⟩ := hg.trace
      refine ⟨by rw [hho]; exact hadr, new ++ ext, by rw [← hext, e, List.append_assoc], ?_⟩
      rcases hx with hx | ⟨t, ht, hsome, hm⟩ | hx
      · exact .inl (ackedIn_append hx _)
      · exact .inr (.inl ⟨t, List.mem_append_left _ ht, hsome, hm⟩)
      · by_cases hfine : Fine tr0 r0 b x s
        · obtain ⟨new', e', hx'⟩ := hfine
          rw [e] at e'
          cases List.append_cancel_left e'
          rcases hx' with hx' | ⟨t, ht, hsome, hm⟩
          · exact .inl (ackedIn_append hx' _)
          · exact .inr (.inl ⟨t, List.mem_append_left _ ht, hsome, hm⟩)
        have hq := fun hr => hq hr hfine hx
        obtain ⟨⟨d, hd, hdh, hh⟩, hm, hw⟩ := hx
        have hpd : ∀ y, pending (beginSend env s r.2.2 c.host .plain (some ⟨ref, own, k + r.1, decide (r.2.1 ≤ 250), rest⟩)).disp y = pending s.disp y :=
          fun y => (beginSend_keeps env s r.2.2 c.host .plain (some ⟨ref, own, k + r.1, decide (r.2.1 ≤ 250), rest⟩)).pend y
        have hqueued : (ref = .inMap a → own = none ∧ ¬ r.2.1 ≤ 250 ∧ x ∈ (pending s.disp a).drop (k + r.1)) →
            Queued (beginSend env s r.2.2 c.host .plain (some ⟨ref, own, k + r.1, decide (r.2.1 ≤ 250), rest⟩)) r0 a x := by
          intro hnew
          refine ⟨?_, by rw [hpd]; exact hm, ?_⟩
          · obtain ⟨d', e1, e2⟩ := hg.circ a d hd
            exact ⟨d', e1, e2.trans hdh, by rw [hho]; exact hh⟩
          · intro t ht p hp hc
            rw [hpd]
            rcases List.mem_append.mp ht with ht | ht
            · exact hw t ht p hp hc
            · rw [List.mem_singleton.mp ht] at hp
              cases hp
              obtain ⟨n1, n2, n3⟩ := hnew hc
              exact ⟨n1, by simpa using n2, n3⟩
        by_cases hr : ref = .inMap a
        · obtain ⟨q1, q2⟩ := hq hr
          subst hr q1
          have hacks : c.acks = pending s.disp a := by
            simp only [SState.lookup] at hl
            unfold pending; rw [hl]
          have hcd : c.host = r0 := by
            simp only [SState.lookup] at hl
            rw [hd] at hl
            cases hl
            exact hdh
          rw [Option.getD_none, hacks] at hR
          have hcm := collect_mem q2
          rw [hR] at hcm
          obtain ⟨c1, ⟨c2, c3⟩ | ⟨c2, c3⟩⟩ := hcm
          · exact .inr (.inl ⟨_, List.mem_append_right _ (List.mem_singleton.mpr rfl), rfl, hcd, r.2.2, _, rfl, c3, c2⟩)
          · exact .inr (.inr (hqueued (fun _ => ⟨rfl, c2, by rw [← List.drop_drop]; exact c3⟩)))
        · exact .inr (.inr (hqueued (fun h => absurd h hr)))

theorem detach_eq (r : CircuitRef) (l : List Nat) (t : Sending) : (t.detach r l).stage = t.stage ∧ (t.detach r l).after.isSome = t.after.isSome ∧
    (t.detach r l).host = t.host ∧ ∀ p', (t.detach r l).after = some p' → ∃ p, t.after = some p ∧ p'.circuit = p.circuit ∧ p'.final = p.final ∧ p'.taken = p.taken ∧
      (p.circuit ≠ r → p'.own = p.own) := by
  have hhost : (t.detach r l).host = t.host := by
    unfold Sending.detach
    split
    · split <;> rfl
    · rfl
  refine ⟨detach_stage r l t, detach_after r l t, hhost, ?_⟩
  unfold Sending.detach
  cases h : t.after with
  | none => simp [h]
  | some p =>
    simp only
    split
    · rename_i hc
      intro p' hp'
      cases hp'
      exact ⟨p, rfl, rfl, rfl, rfl, fun hn => absurd hc.1 hn⟩
    · intro p' hp'
      rw [h] at hp'
      cases hp'
      exact ⟨p, rfl, rfl, rfl, rfl, fun _ => rfl⟩

theorem clearAcks_tasks (s : SState) (r : CircuitRef) : (clearAcks s r).tasks = s.tasks ∨ ∃ l, (clearAcks s r).tasks = s.tasks.map (Sending.detach r l) := by
  unfold clearAcks
  cases s.lookup r with
  | none => exact .inl rfl
  | some c => cases r <;> exact .inr ⟨_, rfl⟩

/-- A `process_acks` finishes with a circuit: not with one where the id waits. -/
theorem Somewhere.clear {tr0 : List Ev} {r0 : HostRef} {b a : Addr} {x : Nat} {s : SState} (h : Somewhere tr0 r0 b a x s) {ref : CircuitRef}
    (hq : ref = .inMap a → ¬ Fine tr0 r0 b x s → ¬ Queued s r0 a x) : Somewhere tr0 r0 b a x (clearAcks s ref) := by
  obtain ⟨hadr, new, e, hx⟩ := h
  refine ⟨by rw [(clearAcks_trace s ref).2]; exact hadr, new, (clearAcks_trace s ref).1.trans e, ?_⟩
  have hx : AckedIn new b x ∨ BeingAcked s r0 x ∨ (Queued s r0 a x ∧ ¬ Fine tr0 r0 b x s) := by
    by_cases hfine : Fine tr0 r0 b x s
    · obtain ⟨new', e', hx'⟩ := hfine
      rw [e] at e'
      cases List.append_cancel_left e'
      exact hx'.imp_right .inl
    · exact hx.imp_right (Or.imp_right (fun h => ⟨h, hfine⟩))
  rcases hx with hx | ⟨t, ht, hsome, hth, m, ids, hst, hm⟩ | ⟨hx, hfine⟩
  · exact .inl hx
  · refine .inr (.inl ?_)
    rcases clearAcks_tasks s ref with hts | ⟨l, hts⟩
    · exact ⟨t, hts ▸ ht, hsome, hth, m, ids, hst, hm⟩
    · obtain ⟨d1, d2, d3, _⟩ := detach_eq ref l t
      exact ⟨t.detach ref l, hts ▸ List.mem_map_of_mem ht, d2.trans hsome, d3.trans hth, m, ids, d1.trans hst, hm⟩
  · have hne : ref ≠ .inMap a := fun hr => hq hr hfine hx
    obtain ⟨⟨c, hc, hch, hh⟩, hm, hw⟩ := hx
    have hpd : pending (clearAcks s ref).disp a = pending s.disp a := by rw [clearAcks_pending, if_neg hne]
    refine .inr (.inr ⟨⟨c, ?_, hch, by rw [(clearAcks_trace s ref).2]; exact hh⟩, by rw [hpd]; exact hm, ?_⟩)
    · have := clearAcks_lookup (s := s) hne
      simp only [SState.lookup] at this
      rw [this]; exact hc
    · rw [hpd]
      rcases clearAcks_tasks s ref with hts | ⟨l, hts⟩
      · rw [hts]; exact hw
      · rw [hts]
        intro t' ht' p' hp' hc'
        obtain ⟨t, ht, rfl⟩ := List.mem_map.mp ht'
        obtain ⟨p, f1, f2, f3, f4, f5⟩ := (detach_eq ref l t).2.2.2 p' hp'
        have hpc : p.circuit = .inMap a := f2 ▸ hc'
        obtain ⟨g1, g2, g3⟩ := hw t ht p f1 hpc
        exact ⟨(f5 (by rw [hpc]; exact fun h => hne h.symm)).trans g1, f3.trans g2, by rw [f4]; exact g3⟩

/-- Where the id waits there is something to send. -/
theorem Queued.begins {env : DEnv} {r0 : HostRef} {a : Addr} {x : Nat} {s : SState} (h : Queued s r0 a x) {k : Nat} {rest : List CircuitRef}
    (hx : x ∈ (pending s.disp a).drop k) : ackUntilSend env s (.inMap a) none k rest ≠ none := by
  obtain ⟨⟨c, hc, rfl, hh⟩, _, _⟩ := h
  have hacks : c.acks = pending s.disp a := by unfold pending; rw [hc]
  unfold ackUntilSend
  simp only [SState.lookup, hc, Option.getD_none, hacks]
  have := (collect_mem hx).1
  rw [if_neg (by rw [hh]; simp only [Bool.true_eq_false, or_false]; exact this)]
  simp

theorem Somewhere.ackFrom {env : DEnv} {tr0 : List Ev} {r0 : HostRef} {b a : Addr} {x : Nat} : ∀ (todo : List CircuitRef) (s : SState), Somewhere tr0 r0 b a x s →
    Somewhere tr0 r0 b a x (ackFrom env todo s)
  | [], s, h => h
  | ref :: rest, s, h => by
    unfold Pyogp.ackFrom
    cases hs : ackUntilSend env s ref none 0 rest with
    | some s' =>
      refine h.begin hs (fun _ _ hq => ⟨rfl, ?_⟩)
      rw [List.drop_zero]; exact hq.2.1
    | none =>
      refine Somewhere.ackFrom rest _ (h.clear ?_)
      rintro rfl _ hq
      exact hq.begins (by rw [List.drop_zero]; exact hq.2.1) hs

theorem Somewhere.ackResume {env : DEnv} {tr0 : List Ev} {r0 : HostRef} {b a : Addr} {x : Nat} {s : SState} (h : Somewhere tr0 r0 b a x s) (p : AckPos)
    (hp : p.circuit = .inMap a → ¬ Fine tr0 r0 b x s → Queued s r0 a x → p.own = none ∧ p.final = false ∧ x ∈ (pending s.disp a).drop p.taken) :
    Somewhere tr0 r0 b a x (ackResume env p s) := by
  unfold Pyogp.ackResume
  by_cases hf : p.final = true
  · rw [if_pos hf]
    refine Somewhere.ackFrom _ _ (h.clear ?_)
    intro hc hn hq
    rw [(hp hc hn hq).2.1] at hf
    cases hf
  · rw [if_neg hf]
    cases hs : ackUntilSend env s p.circuit p.own p.taken p.rest with
    | some s' => exact h.begin hs (fun hc hn hq => ⟨(hp hc hn hq).1, (hp hc hn hq).2.2⟩)
    | none =>
      refine Somewhere.ackFrom _ _ (h.clear ?_)
      intro hc hn hq
      obtain ⟨h1, _, h3⟩ := hp hc hn hq
      rw [hc, h1] at hs
      exact hq.begins h3 hs

/-- A packet leaves that is not shown to the subscribers any more. -/
theorem Somewhere.leave {env : DEnv} {tr0 : List Ev} {r0 : HostRef} {b a : Addr} {x : Nat} {s : SState} (h : Somewhere tr0 r0 b a x s) {i : Nat} {t : Sending}
    (ht : s.tasks[i]? = some t) (hb : Fine tr0 r0 b x s → Fine tr0 r0 b x { s with tasks := s.tasks.eraseIdx i })
    (r : Py (Option Bytes)) : Somewhere tr0 r0 b a x (leave env s i t.after r) := by
  have hsub : ∀ u ∈ s.tasks.eraseIdx i, u ∈ s.tasks := fun u hu => (List.eraseIdx_sublist ..).subset hu
  have h1 : Somewhere tr0 r0 b a x { s with tasks := s.tasks.eraseIdx i } := by
    obtain ⟨hadr, new, e, hx⟩ := h
    have hfine : Fine tr0 r0 b x s → Somewhere tr0 r0 b a x { s with tasks := s.tasks.eraseIdx i } := fun hf => by
      obtain ⟨new', e', hx'⟩ := hb hf
      exact ⟨hadr, new', e', hx'.imp_right .inl⟩
    rcases hx with hx | hx | ⟨hc, hm, hw⟩
    · exact hfine ⟨new, e, .inl hx⟩
    · exact hfine ⟨new, e, .inr hx⟩
    · exact ⟨hadr, new, e, .inr (.inr ⟨hc, hm, fun t ht => hw t (hsub t ht)⟩)⟩
  unfold Pyogp.leave
  cases r with
  | error e => exact h1
  | ok o =>
    cases haf : t.after with
    | none => exact h1
    | some p =>
      refine h1.ackResume p ?_
      intro hc hn _
      obtain ⟨_, new, e, hx⟩ := h
      rcases hx with hx | hx | ⟨_, _, hw⟩
      · exact absurd (hb ⟨new, e, .inl hx⟩) hn
      · exact absurd (hb ⟨new, e, .inr hx⟩) hn
      · exact hw t (List.mem_of_getElem? ht) p haf hc

theorem mem_erase_or {ts : List Sending} {i : Nat} {t u : Sending} (h : ts[i]? = some t) (hu : u ∈ ts) : u = t ∨ u ∈ ts.eraseIdx i := by
  obtain ⟨e1, e2, _⟩ := getElem?_split h
  rw [e1] at hu
  rw [e2]
  rcases List.mem_append.mp hu with h | h
  · exact .inr (List.mem_append_left _ h)
  · rcases List.mem_cons.mp h with h | h
    · exact .inl h
    · exact .inr (List.mem_append_right _ h)

theorem mem_set_or {ts : List Sending} {i : Nat} {t t' u : Sending} (h : ts[i]? = some t) (hu : u ∈ ts) : u = t ∨ u ∈ ts.set i t' := by
  obtain ⟨e1, _, e3⟩ := getElem?_split h
  rw [e1] at hu
  rw [e3]
  rcases List.mem_append.mp hu with h | h
  · exact .inr (List.mem_append_left _ h)
  · rcases List.mem_cons.mp h with h | h
    · exact .inl h
    · exact .inr (List.mem_append_right _ (List.mem_cons_of_mem _ h))

theorem erase_fine {tr0 : List Ev} {r0 : HostRef} {b : Addr} {x : Nat} {s : SState} {i : Nat} {t : Sending} (ht : s.tasks[i]? = some t)
    (hst : t.after = none ∨ ∀ m, t.stage ≠ .subscribers m) (h : Fine tr0 r0 b x s) : Fine tr0 r0 b x { s with tasks := s.tasks.eraseIdx i } := by
  obtain ⟨new, e, hx⟩ := h
  refine ⟨new, e, hx.imp_right ?_⟩
  rintro ⟨u, hu, hsome, hho, m, ids, hs, hm⟩
  rcases mem_erase_or ht hu with rfl | hu'
  · rcases hst with h | h
    · rw [h] at hsome; cases hsome
    · exact absurd hs (h m)
  · exact ⟨u, hu', hsome, hho, m, ids, hs, hm⟩

theorem prepared_hosts (st : DState) (m : Message) (r : HostRef) (mode : SendMode) : (preparedState st m r mode).hosts = st.hosts :=
  (preparedState_keeps st m r mode).hosts

theorem sstep_somewhere {env : DEnv} {tr0 : List Ev} {r0 : HostRef} {b a : Addr} {x : Nat} {s : SState} (h : Somewhere tr0 r0 b a x s) {act : SAct} (ha : Harmless a r0 s act) :
    Somewhere tr0 r0 b a x (sstep env s act) := by
  cases act with
  | start m r mode =>
    simp only [sstep]
    split
    · obtain ⟨hg, hho⟩ := beginSend_grows env s m r mode none
      refine h.mono hg (by rw [hho]) (fun t ht hs => ⟨t, List.mem_append_left _ ht, hs, rfl, rfl⟩) ?_
      intro t' ht' p' hp' hc'
      rcases List.mem_append.mp ht' with ht' | ht'
      · exact ⟨t', ht', p', hp', hc', rfl, rfl, rfl⟩
      · rw [List.mem_singleton.mp ht'] at hp'; cases hp'
    · exact h
  | edit i m =>
    simp only [sstep]
    split
    · rename_i r mode m0 af ht
      have haf := ha _ ht
      simp only at haf
      subst haf
      refine h.mono (Grows.refl _) rfl ?_ ?_
      · intro u hu hsome
        rcases mem_set_or (t' := ⟨r, mode, .subscribers m, none⟩) ht hu with rfl | hu'
        · cases hsome
        · exact ⟨u, hu', hsome, rfl, rfl⟩
      · intro t' ht' p' hp' hc'
        rcases List.mem_or_eq_of_mem_set ht' with h' | rfl
        · exact ⟨t', h', p', hp', hc', rfl, rfl, rfl⟩
        · cases hp'
    · exact h
  | go i =>
    simp only [sstep]
    split
    · rename_i r mode m0 af ht
      simp only [prepareFor_eq]
      have hk := preparedState_keeps s.disp m0 r mode
      obtain ⟨_, htr, _⟩ := preparedState_fields s.disp m0 r mode
      have h1 : Somewhere tr0 r0 b a x { s with disp := preparedState s.disp m0 r mode } :=
        h.mono hk.grows (by rw [hk.hosts]) (fun t ht hs => ⟨t, ht, hs, rfl, rfl⟩)
          (fun t' ht' p' hp' hc' => ⟨t', ht', p', hp', hc', rfl, rfl, rfl⟩)
      have hack : ∀ ts, (∀ u ∈ s.tasks, u = ⟨r, mode, .subscribers m0, af⟩ ∨ u ∈ ts) → Fine tr0 r0 b x { s with disp := preparedState s.disp m0 r mode } →
          Fine tr0 r0 b x { s with disp := preparedState s.disp m0 r mode, tasks := ts } := by
        rintro ts hts ⟨new, e, hx⟩
        rcases hx with hx | ⟨u, hu, hsome, hho, m, ids, hst, hm, hxi⟩
        · exact ⟨new, e, .inl hx⟩
        · rcases hts u hu with rfl | hu'
          · cases hst
            refine ⟨new, e, .inl ?_⟩
            obtain ⟨hadr, new0, e0, _⟩ := h
            simp only at hho
            subst hho
            have e' := e
            simp only [htr, e0, List.append_assoc] at e'
            rw [← List.append_cancel_left e']
            refine ⟨(mode.prepare (findCircuit s.disp r).2 m0).2, ids, ?_, ?_, hxi⟩
            · rw [preparedMsgs_append, ← hadr]
              exact List.mem_append_right _ (by simp [preparedMsgs])
            · have e1 : (mode.prepare (findCircuit s.disp r).2 m0).2.name = m0.name := by rw [prepare_eq]; exact preparedMsg_name _ _ _ _
              have e2 : (mode.prepare (findCircuit s.disp r).2 m0).2.blocks = m0.blocks := by rw [prepare_eq]; exact preparedMsg_blocks _ _ _ _
              exact ⟨e1.trans hm.1, e2.trans hm.2⟩
          · exact ⟨new, e, .inr ⟨u, hu', hsome, hho, m, ids, hst, hm, hxi⟩⟩
      split
      · rename_i dg hs
        have hmem : ∀ u ∈ s.tasks, u = ⟨r, mode, .subscribers m0, af⟩ ∨
            u ∈ s.tasks.set i ⟨r, mode, .socket (s.disp.hosts r).addr (mode.prepare (findCircuit s.disp r).2 m0).2 dg, af⟩ :=
          fun u hu => mem_set_or ht hu
        have hF := hack _ hmem
        obtain ⟨hadr, new, e, hx⟩ := h1
        have hfin : Fine tr0 r0 b x { s with disp := preparedState s.disp m0 r mode } → Somewhere tr0 r0 b a x { s with
            disp := preparedState s.disp m0 r mode
            tasks := s.tasks.set i ⟨r, mode, .socket (s.disp.hosts r).addr (mode.prepare (findCircuit s.disp r).2 m0).2 dg, af⟩ } := fun hf => by
          obtain ⟨new', e', hx'⟩ := hF hf
          exact ⟨hadr, new', e', hx'.imp_right .inl⟩
        rcases hx with hx | hx | ⟨hc, hm, hw⟩
        · exact hfin ⟨new, e, .inl hx⟩
        · exact hfin ⟨new, e, .inr hx⟩
        · refine ⟨hadr, new, e, .inr (.inr ⟨hc, hm, ?_⟩)⟩
          intro t' ht' p' hp' hc'
          rcases List.mem_or_eq_of_mem_set ht' with h' | rfl
          · exact hw t' h' p' hp' hc'
          · exact hw _ (List.mem_of_getElem? ht) p' hp' hc'
      · exact h1.leave (s := { s with disp := preparedState s.disp m0 r mode }) (t := ⟨r, mode, .subscribers m0, af⟩) ht
          (hack _ (fun u hu => mem_erase_or ht hu)) _
    · exact h
  | throw i =>
    simp only [sstep]
    split
    · rename_i r mode m0 af ht
      have haf := ha _ ht
      simp only at haf
      subst haf
      refine h.mono (Grows.refl _) rfl ?_ ?_
      · intro u hu hsome
        rcases mem_erase_or ht hu with rfl | hu'
        · cases hsome
        · exact ⟨u, hu', hsome, rfl, rfl⟩
      · intro t' ht' p' hp' hc'
        exact ⟨t', (List.eraseIdx_sublist ..).subset ht', p', hp', hc', rfl, rfl, rfl⟩
    · exact h
  | accept i =>
    simp only [sstep]
    split
    · rename_i r mode y m0 dg af ht
      have h1 : Somewhere tr0 r0 b a x { s with disp := { (s.disp.log (.sent y dg)) with packetsOut := s.disp.packetsOut + 1 } } :=
        h.mono (sent_keeps s.disp y dg).grows rfl (fun t ht hs => ⟨t, ht, hs, rfl, rfl⟩)
          (fun t' ht' p' hp' hc' => ⟨t', ht', p', hp', hc', rfl, rfl, rfl⟩)
      exact h1.leave (t := ⟨r, mode, .socket y m0 dg, af⟩) ht (erase_fine (t := ⟨r, mode, .socket y m0 dg, af⟩) ht (.inr (by simp))) _
    · exact h
  | refuse i =>
    simp only [sstep]
    split
    · rename_i r mode y m0 dg af ht
      exact h.leave (t := ⟨r, mode, .socket y m0 dg, af⟩) ht (erase_fine (t := ⟨r, mode, .socket y m0 dg, af⟩) ht (.inr (by simp))) _
    · exact h
  | recv r dg =>
    obtain ⟨hg, hh⟩ := receive_grows env s.disp r dg
    exact h.mono hg (by simp only [sstep]; rw [hh]) (fun t ht hs => ⟨t, ht, hs, rfl, rfl⟩)
      (fun t' ht' p' hp' hc' => ⟨t', ht', p', hp', hc', rfl, rfl, rfl⟩)
  | acks order =>
    simp only [sstep]
    split
    · exact h
    · exact Somewhere.ackFrom _ _ h
  | setHost r v =>
    refine h.mono ⟨List.prefix_refl _, fun _ c hc => ⟨c, hc, rfl⟩, fun _ => List.prefix_refl _⟩ ?_ (fun t ht hs => ⟨t, ht, hs, rfl, rfl⟩)
      (fun t' ht' p' hp' hc' => ⟨t', ht', p', hp', hc', rfl, rfl, rfl⟩)
    simp only [sstep, step]
    rw [if_neg (fun e => ha e.symm)]
  | removeCircuit r =>
    obtain ⟨hadr, new, e, hx⟩ := h
    have hdisp : (dropCircuit env s r).disp = step env s.disp (.removeCircuit r) := by
      unfold dropCircuit
      split <;> rfl
    have hts : (dropCircuit env s r).tasks = s.tasks ∨ (dropCircuit env s r).tasks = s.tasks.map (Sending.retarget (s.disp.hosts r).addr s.removed.length) := by
      unfold dropCircuit
      split
      · exact .inl rfl
      · exact .inr rfl
    refine ⟨?_, new ++ [.removed (s.disp.hosts r).addr], ?_, ?_⟩
    · change ((dropCircuit env s r).disp.hosts r0).addr = b
      rw [hdisp]; exact hadr
    · change (dropCircuit env s r).disp.trace = _
      rw [hdisp, ← List.append_assoc, ← e]; rfl
    · change AckedIn _ b x ∨ BeingAcked (dropCircuit env s r) r0 x ∨ Queued (dropCircuit env s r) r0 a x
      rcases hx with hx | ⟨t, ht, hsome, hho, m, ids, hst, hm⟩ | ⟨⟨c, hc, hch, hh⟩, hm, hw⟩
      · exact .inl (ackedIn_append hx _)
      · refine .inr (.inl ?_)
        rcases hts with hts | hts
        · exact ⟨t, hts ▸ ht, hsome, hho, m, ids, hst, hm⟩
        · exact ⟨Sending.retarget (s.disp.hosts r).addr s.removed.length t, by rw [hts]; exact List.mem_map_of_mem ht, by simpa [Sending.retarget] using hsome, hho, m, ids, hst, hm⟩
      · have hne : (s.disp.hosts r).addr ≠ a := ha
        have hpd : pending (dropCircuit env s r).disp a = pending s.disp a := by rw [hdisp, removed_pending, if_neg hne]
        refine .inr (.inr ⟨⟨c, ?_, hch, ?_⟩, by rw [hpd]; exact hm, ?_⟩)
        · rw [hdisp, removed_get?, if_neg hne]; exact hc
        · rw [hdisp]; exact hh
        · rw [hpd]
          rcases hts with hts | hts
          · rw [hts]; exact hw
          · rw [hts]
            intro t' ht' p' hp' hc'
            obtain ⟨t, ht, rfl⟩ := List.mem_map.mp ht'
            simp only [Sending.retarget, Option.map_eq_some_iff] at hp'
            obtain ⟨p, hp, rfl⟩ := hp'
            have hpc : p.circuit = .inMap a := by
              simp only [CircuitRef.retarget] at hc'
              split at hc'
              · cases hc'
              · exact hc'
            exact hw t ht p hp hpc
  | setTrusted y0 v =>
    obtain ⟨e1, e2, e3, e4⟩ := trust_pending env s.disp y0 v
    refine h.mono ⟨?_, ?_, ?_⟩ ?_ (fun t ht hs => ⟨t, ht, hs, rfl, rfl⟩)
      (fun t' ht' p' hp' hc' => ⟨t', ht', p', hp', hc', rfl, rfl, rfl⟩)
    · change s.disp.trace <+: (step env s.disp (.setTrusted y0 v)).trace
      rw [e2]; exact List.prefix_refl _
    · intro y c hc
      obtain ⟨c', f1, f2, _⟩ := e3 y c hc
      exact ⟨c', f1, f2⟩
    · intro y
      change pending s.disp y <+: pending (step env s.disp (.setTrusted y0 v)) y
      rw [e4]; exact List.prefix_refl _
    · change (step env s.disp (.setTrusted y0 v)).hosts r0 = _
      rw [e1]

theorem runSwitching_somewhere {env : DEnv} {tr0 : List Ev} {r0 : HostRef} {b a : Addr} {x : Nat} : ∀ (acts : List SAct) (s : SState), Somewhere tr0 r0 b a x s →
    AllHarmless env a r0 s acts → Somewhere tr0 r0 b a x (runSwitching env s acts)
  | [], _, h, _ => h
  | _ :: acts, _, h, ha => runSwitching_somewhere acts _ (sstep_somewhere h ha.1) ha.2

/-! ## Positions stay within the queues -/

theorem PosWithin.mono {s s' : SState} (h : PosWithin s) (hg : Grows s.disp s'.disp)
    (h2 : ∀ t' ∈ s'.tasks, ∀ p' a, t'.after = some p' → p'.circuit = .inMap a → p'.own = none → ∃ t ∈ s.tasks, ∃ p, t.after = some p ∧
      p.circuit = .inMap a ∧ p.own = none ∧ p'.taken = p.taken) : PosWithin s' := by
  intro t' ht' p' a hp' hc' ho'
  obtain ⟨t, ht, p, hp, hc, ho, e⟩ := h2 t' ht' p' a hp' hc' ho'
  rw [e]
  exact Nat.le_trans (h t ht p a hp hc ho) (hg.pend a).length_le

theorem PosWithin.erase {s : SState} (h : PosWithin s) (i : Nat) : PosWithin { s with tasks := s.tasks.eraseIdx i } :=
  fun t ht p a hp hc ho => h t ((List.eraseIdx_sublist ..).subset ht) p a hp hc ho

theorem PosWithin.begin {env : DEnv} {s : SState} (h : PosWithin s) {m : Message} {r : HostRef} {mode : SendMode} {af : Option AckPos}
    (haf : ∀ p a, af = some p → p.circuit = .inMap a → p.own = none → p.taken ≤ (pending s.disp a).length) : PosWithin (beginSend env s m r mode af) := by
  have hp : ∀ a, pending (beginSend env s m r mode af).disp a = pending s.disp a := by
    intro a; unfold beginSend; split <;> rfl
  intro t ht p a hp' hc ho
  rw [hp]
  simp only [beginSend, List.mem_append, List.mem_singleton] at ht
  rcases ht with ht | rfl
  · exact h t ht p a hp' hc ho
  · exact haf p a hp' hc ho

theorem PosWithin.clear {s : SState} (h : PosWithin s) (r : CircuitRef) : PosWithin (clearAcks s r) := by
  unfold clearAcks
  split
  · exact h
  · rename_i c hl
    have key : ∀ t ∈ s.tasks.map (Sending.detach r c.acks), ∀ p a, t.after = some p → p.circuit = .inMap a → p.own = none →
        r ≠ .inMap a ∧ p.taken ≤ (pending s.disp a).length := by
      intro t' ht' p a hp hc ho
      obtain ⟨t, ht, rfl⟩ := List.mem_map.mp ht'
      unfold Sending.detach at hp
      split at hp
      · rename_i p0 hp0
        split at hp
        · cases hp
          cases ho
        · rename_i hn
          rw [hp0] at hp
          cases hp
          exact ⟨fun e => hn ⟨hc.trans e.symm, ho⟩, h t ht p a hp0 hc ho⟩
      · rename_i hp0
        rw [hp0] at hp
        cases hp
    cases r with
    | inMap b =>
      intro t' ht' p a hp hc ho
      obtain ⟨hne, hle⟩ := key t' ht' p a hp hc ho
      change p.taken ≤ (pending (s.disp.setCircuit b { c with acks := [] }) a).length
      rw [pending_setCircuit, if_neg (fun e => hne (by rw [e]))]
      exact hle
    | removed i =>
      intro t' ht' p a hp hc ho
      exact (key t' ht' p a hp hc ho).2

theorem collectAcks_le : ∀ (ids : List Nat) (n : Nat) (m : Message), (collectAcks ids n m).1 ≤ ids.length
  | [], _, _ => Nat.le_refl _
  | _ :: ids, n, m => by
    simp only [collectAcks]
    split
    · simp
    · simpa using collectAcks_le ids _ _

theorem PosWithin.until {env : DEnv} {s s' : SState} (h : PosWithin s) {r : CircuitRef} {own : Option (List Nat)} {taken : Nat} {rest : List CircuitRef}
    (hl : ∀ a, r = .inMap a → own = none → taken ≤ (pending s.disp a).length) (e : ackUntilSend env s r own taken rest = some s') : PosWithin s' := by
  unfold ackUntilSend at e
  split at e
  · cases e
  · rename_i c hc
    simp only at e
    split at e
    · cases e
    · cases e
      refine h.begin ?_
      intro p a hp hca ho
      cases hp
      simp only at hca ho ⊢
      subst hca ho
      have e1 : pending s.disp a = c.acks := by
        simp only [SState.lookup] at hc
        unfold pending; rw [hc]
      have h1 := collectAcks_le (c.acks.drop taken) 0 (Message.new "PacketAck" [])
      have h2 := hl a rfl rfl
      rw [e1] at h2 ⊢
      simp only [List.length_drop] at h1
      simp only [Option.getD_none]
      omega

theorem PosWithin.ackFrom {env : DEnv} : ∀ (rs : List CircuitRef) (s : SState), PosWithin s → PosWithin (ackFrom env rs s)
  | [], _, h => h
  | r :: rs, s, h => by
    simp only [Pyogp.ackFrom]
    split
    · rename_i e
      exact h.until (fun _ _ _ => Nat.zero_le _) e
    · exact PosWithin.ackFrom rs _ (h.clear r)

theorem PosWithin.leave {env : DEnv} {s : SState} (h : PosWithin s) {i : Nat} {t : Sending} (ht : s.tasks[i]? = some t) (res : Py (Option Bytes)) :
    PosWithin (leave env s i t.after res) := by
  unfold Pyogp.leave
  simp only
  split
  · rename_i p hp
    unfold ackResume
    split
    · exact PosWithin.ackFrom _ _ ((h.erase i).clear _)
    · split
      · rename_i e
        exact (h.erase i).until (fun a hc ho => h t (List.mem_of_getElem? ht) p a hp hc ho) e
      · exact PosWithin.ackFrom _ _ ((h.erase i).clear _)
  · exact h.erase i

theorem sstep_within {env : DEnv} {s : SState} (h : PosWithin s) (x : SAct) : PosWithin (sstep env s x) := by
  have hset : ∀ {i : Nat} {t : Sending} (st : DState) (_ : Grows s.disp st) (_ : s.tasks[i]? = some t) (t' : Sending) (_ : t'.after = t.after),
      PosWithin { s with disp := st, tasks := s.tasks.set i t' } := by
    intro i t st hg ht t' e
    refine h.mono hg ?_
    intro u hu p a hp hc ho
    rcases List.mem_or_eq_of_mem_set hu with hu | rfl
    · exact ⟨u, hu, p, hp, hc, ho, rfl⟩
    · exact ⟨t, List.mem_of_getElem? ht, p, by rw [← e]; exact hp, hc, ho, rfl⟩
  have hdisp : ∀ (st : DState), Grows s.disp st → PosWithin { s with disp := st } := fun st hg =>
    h.mono hg (fun u hu p a hp hc ho => ⟨u, hu, p, hp, hc, ho, rfl⟩)
  cases x with
  | start m r mode =>
    simp only [sstep]
    split
    · exact h.begin (fun p a hp => nomatch hp)
    · exact h
  | edit i m =>
    simp only [sstep]
    split
    · rename_i ht
      exact hset s.disp (Grows.refl _) ht _ rfl
    · exact h
  | go i =>
    simp only [sstep]
    split
    · rename_i r mode m0 af ht
      have hg : Grows s.disp (prepareFor s.disp m0 r mode).2 := by
        rw [prepareFor_eq]
        exact (preparedState_keeps s.disp m0 r mode).grows
      split
      · exact hset _ hg ht _ rfl
      · exact (hdisp _ hg).leave (t := ⟨r, mode, .subscribers m0, af⟩) ht _
    · exact h
  | throw i =>
    simp only [sstep]
    split
    · exact h.erase i
    · exact h
  | accept i =>
    simp only [sstep]
    split
    · rename_i r mode b m0 dg af ht
      exact (hdisp _ (sent_keeps s.disp b dg).grows).leave (t := ⟨r, mode, .socket b m0 dg, af⟩) ht _
    · exact h
  | refuse i =>
    simp only [sstep]
    split
    · rename_i r mode b m0 dg af ht
      exact h.leave (t := ⟨r, mode, .socket b m0 dg, af⟩) ht _
    · exact h
  | recv r dg => exact hdisp _ (receive_grows env s.disp r dg).1
  | acks order =>
    simp only [sstep]
    split
    · exact h
    · exact PosWithin.ackFrom _ _ h
  | setHost r v => exact hdisp _ ⟨List.prefix_refl _, fun _ c hc => ⟨c, hc, rfl⟩, fun _ => List.prefix_refl _⟩
  | removeCircuit r =>
    change PosWithin (dropCircuit env s r)
    unfold dropCircuit
    split
    · rename_i hn
      intro t ht p a hp hc ho
      change p.taken ≤ (pending (step env s.disp (.removeCircuit r)) a).length
      have hak : s.acking = true := List.any_eq_true.mpr ⟨t, ht, by rw [hp]; rfl⟩
      rw [if_pos hak] at hn
      have := h t ht p a hp hc ho
      rw [removed_pending]
      split
      · rename_i e
        have e2 : pending s.disp a = [] := by unfold pending; rw [← e, hn]
        rw [e2] at this
        exact this
      · exact this
    · intro t' ht' p a hp hc ho
      obtain ⟨t, ht, rfl⟩ := List.mem_map.mp ht'
      simp only [Sending.retarget, Option.map_eq_some_iff] at hp
      obtain ⟨p0, hp0, rfl⟩ := hp
      simp only at hc ho
      change p0.taken ≤ (pending (step env s.disp (.removeCircuit r)) a).length
      rw [removed_pending]
      have hpc : p0.circuit = .inMap a ∧ (s.disp.hosts r).addr ≠ a := by
        simp only [CircuitRef.retarget] at hc
        split at hc
        · cases hc
        · rename_i hne
          exact ⟨hc, fun e => hne (by rw [hc, e])⟩
      rw [if_neg hpc.2]
      exact h t ht p0 a hp0 hpc.1 ho
  | setTrusted b v =>
    obtain ⟨e1, e2, e3, e4⟩ := trust_pending env s.disp b v
    refine hdisp _ ⟨by rw [e2]; exact List.prefix_refl _, fun y c hc => ?_, fun y => by rw [e4]; exact List.prefix_refl _⟩
    obtain ⟨c', f1, f2, _⟩ := e3 y c hc
    exact ⟨c', f1, f2⟩

theorem runSwitching_within {env : DEnv} : ∀ (acts : List SAct) (s : SState), PosWithin s → PosWithin (runSwitching env s acts)
  | [], _, h => h
  | x :: acts, _, h => runSwitching_within acts _ (sstep_within h x)

theorem reachable_within (env : DEnv) (hosts : HostRef → Host) (acts : List SAct) : PosWithin (runSwitching env (SState.init hosts) acts) :=
  runSwitching_within acts _ (fun _ ht => nomatch ht)

/-- A new id, and everybody still reads. -/
theorem recv_queued {env : DEnv} {s : SState} {r : HostRef} {dg : Bytes} {a : Addr} {x : Nat} {c : Circuit} (hw : PosWithin s)
    (hp : pending (sstep env s (.recv r dg)).disp a = pending s.disp a ++ [x]) (hs : StillReading s a)
    (hc : (sstep env s (.recv r dg)).disp.circuits.get? a = some c) (hok : (s.disp.hosts c.host).isOk = true) :
    Queued (sstep env s (.recv r dg)) c.host a x := by
  refine ⟨⟨c, hc, rfl, ?_⟩, by rw [hp]; simp, ?_⟩
  · change ((receiveCheck (quiet env) s.disp r dg).2.hosts c.host).isOk = true
    rw [(receive_grows env s.disp r dg).2]
    exact hok
  · intro t ht p hpp hcc
    obtain ⟨h1, h2⟩ := hs t ht p hpp hcc
    refine ⟨h1, h2, ?_⟩
    have := hw t ht p a hpp hcc h1
    rw [hp, List.drop_append]
    refine List.mem_append_right _ ?_
    rw [Nat.sub_eq_zero_of_le this]
    simp

end Pyogp
