import Verif.Proofs.Switching
import Mathlib.Data.List.Nodup

/-! # A `process_acks` with switches -/

namespace Pyogp
open Spec

/-- The packets some `process_acks` waits for. -/
def ackers (ts : List Sending) : List Sending := ts.filter (fun t => t.after.isSome)

theorem ackers_nil_iff (s : SState) : ackers s.tasks = [] ↔ s.acking = false := by
  unfold ackers SState.acking
  rw [List.filter_eq_nil_iff, List.any_eq_false]

theorem ackers_append (a b : List Sending) : ackers (a ++ b) = ackers a ++ ackers b := List.filter_append ..

theorem ackers_erase_none {ts : List Sending} {i : Nat} {t : Sending} (h : ts[i]? = some t) (ht : t.after = none) :
    ackers (ts.eraseIdx i) = ackers ts := by
  obtain ⟨e1, e2, _⟩ := getElem?_split h
  rw [e2]
  conv => rhs; rw [e1]
  simp [ackers, ht]

theorem ackers_set_none {ts : List Sending} {i : Nat} {t t' : Sending} (h : ts[i]? = some t) (ht : t.after = none) (ht' : t'.after = none) :
    ackers (ts.set i t') = ackers ts := by
  obtain ⟨e1, _, e3⟩ := getElem?_split h
  rw [e3]
  conv => rhs; rw [e1]
  simp [ackers, ht, ht']

theorem ackers_some {ts : List Sending} {i : Nat} {t u : Sending} {p : AckPos} (h : ts[i]? = some t) (ht : t.after = some p) (hu : ackers ts = [u]) :
    t = u ∧ ackers (ts.eraseIdx i) = [] ∧ ∀ t', t'.after.isSome = true → ackers (ts.set i t') = [t'] := by
  obtain ⟨e1, e2, e3⟩ := getElem?_split h
  have hsp : ackers ts = ackers (ts.take i) ++ t :: ackers (ts.drop (i + 1)) := by
    conv => lhs; rw [e1]
    simp [ackers, ht]
  rw [hsp] at hu
  have h1 : ackers (ts.take i) = [] := by
    cases hx : ackers (ts.take i) with
    | nil => rfl
    | cons x xs => rw [hx] at hu; simp at hu
  rw [h1] at hu
  simp only [List.nil_append, List.cons.injEq] at hu
  refine ⟨hu.1, ?_, ?_⟩
  · rw [e2, ackers_append, h1, hu.2]; rfl
  · intro t' ht'
    have e : t' :: ts.drop (i + 1) = [t'] ++ ts.drop (i + 1) := rfl
    rw [e3, ackers_append, h1, e, ackers_append, hu.2]
    simp [ackers, ht']

theorem detach_after (a : CircuitRef) (l : List Nat) (t : Sending) : (t.detach a l).after.isSome = t.after.isSome := by
  unfold Sending.detach
  cases h : t.after with
  | none => simp [h]
  | some p =>
    simp only
    split
    · rfl
    · simp [h]

theorem ackers_clear {s : SState} (h : ackers s.tasks = []) (r : CircuitRef) : ackers (clearAcks s r).tasks = [] := by
  have key : ∀ l, ackers (s.tasks.map (Sending.detach r l)) = [] := by
    intro l
    unfold ackers at *
    rw [List.filter_eq_nil_iff] at *
    intro t ht
    obtain ⟨u, hu, rfl⟩ := List.mem_map.mp ht
    rw [detach_after]
    exact h u hu
  unfold clearAcks
  split
  · exact h
  · cases r <;> exact key _

theorem collectAcks_spec : ∀ (ids acc : List Nat) (msg : Message), acc.length < 251 → (acc ≠ [] → IsAckFor msg acc) →
    (collectAcks ids acc.length msg).2.1 = acc.length + (collectAcks ids acc.length msg).1 ∧
    (collectAcks ids acc.length msg).2.1 ≤ 251 ∧ (collectAcks ids acc.length msg).1 ≤ ids.length ∧
    ((collectAcks ids acc.length msg).2.1 ≤ 250 → (collectAcks ids acc.length msg).1 = ids.length) ∧
    (acc ++ ids.take (collectAcks ids acc.length msg).1 ≠ [] →
      IsAckFor (collectAcks ids acc.length msg).2.2 (acc ++ ids.take (collectAcks ids acc.length msg).1))
  | [], acc, msg, hl, hm => by
    simp only [collectAcks]
    refine ⟨rfl, by omega, by simp, fun _ => rfl, ?_⟩
    intro h
    simp only [List.take_nil, List.append_nil] at h ⊢
    exact hm h
  | pid :: ids, acc, msg, hl, hm => by
    have hmsg : IsAckFor (addAckBlock (if acc.length = 0 then Message.new "PacketAck" [] else msg) pid) (acc ++ [pid]) := by
      apply packetAck_add
      cases acc with
      | nil => exact .inr ⟨rfl, rfl⟩
      | cons x xs => exact .inl (hm (by simp))
    unfold collectAcks
    simp only
    generalize addAckBlock (if acc.length = 0 then Message.new "PacketAck" [] else msg) pid = msg1 at hmsg
    by_cases hgt : 250 < acc.length + 1
    · rw [if_pos hgt]
      refine ⟨rfl, by simp only; omega, by simp, by simp only; omega, fun _ => ?_⟩
      simpa using hmsg
    · rw [if_neg hgt]
      have hlen : (acc ++ [pid]).length = acc.length + 1 := by simp
      obtain ⟨h1, h2, h3, h4, h5⟩ := collectAcks_spec ids (acc ++ [pid]) msg1 (by rw [hlen]; omega) (fun _ => hmsg)
      rw [hlen] at h1 h2 h3 h4 h5
      refine ⟨by simp only; omega, h2, by simp only [List.length_cons]; omega, fun h => by simp only [List.length_cons]; rw [h4 h], fun _ => ?_⟩
      simp only [List.take_succ_cons]
      have e : acc ++ pid :: ids.take (collectAcks ids (acc.length + 1) msg1).1 = acc ++ [pid] ++ ids.take (collectAcks ids (acc.length + 1) msg1).1 := by simp
      rw [e]
      exact h5 (by simp)

/-! ## Progress -/

/-- How far a `process_acks` that began in state `s0` has got: the circuits done, the parts sent of the queue of the current one, and the circuits still to
be done (beginning with the current one), with what the `process_acks` has in its hands. -/
def Progress (s0 : DState) (s : SState) (done : List Addr) (cur : List (List Nat)) (todo : List (Addr × CircuitRef)) : Prop :=
  ∃ (parts : Addr → List (List Nat)) (new : List Ev) (sel : List (Addr × Message)), s.disp.trace = s0.trace ++ new ∧ s.disp.hosts = s0.hosts ∧
    (∀ x ∈ todo, ∃ c0 c, s0.circuits.get? x.1 = some c0 ∧ s.lookup x.2 = some c ∧ c.host = c0.host ∧ c.acks = pending s0 x.1) ∧
    (∀ a, pending s.disp a = [] ∨ .inMap a ∈ todo.map (·.2)) ∧
    (∀ a ∈ done, (parts a).flatten = pending s0 a ∧ ∀ p ∈ parts a, p ≠ [] ∧ p.length ≤ 251) ∧ (∀ p ∈ cur, p ≠ [] ∧ p.length ≤ 251) ∧
    sel.Sublist (preparedMsgs new) ∧ List.Forall₂ (fun p (x : Addr × Message) => IsAckFor x.2 p) (done.flatMap parts ++ cur) sel

theorem Progress.hosts {s0 : DState} {s : SState} {done : List Addr} {cur : List (List Nat)} {todo : List (Addr × CircuitRef)}
    (h : Progress s0 s done cur todo) : s.disp.hosts = s0.hosts := by
  obtain ⟨_, _, _, _, h2, _⟩ := h
  exact h2

theorem lookup_keeps {H : HostRef → Host} {s s' : SState} (hk : Keeps H s.disp s'.disp) (hr : s'.removed = s.removed) {r : CircuitRef} {c : Circuit}
    (h : s.lookup r = some c) : ∃ c', s'.lookup r = some c' ∧ c'.host = c.host ∧ c'.acks = c.acks := by
  cases r with
  | inMap a =>
    obtain ⟨c', e1, e2, e3, _⟩ := hk.circ a c h
    exact ⟨c', e1, e2, e3⟩
  | removed i => exact ⟨c, by simp only [SState.lookup, hr]; exact h, rfl, rfl⟩

theorem Progress.keeps {s0 : DState} {s s' : SState} {done : List Addr} {cur : List (List Nat)} {todo : List (Addr × CircuitRef)}
    (h : Progress s0 s done cur todo) (hk : Keeps s0.hosts s.disp s'.disp) (hr : s'.removed = s.removed) :
    Progress s0 s' done cur todo := by
  obtain ⟨parts, new, sel, h1, h2, h3, h4, h5, h6, h7, h8⟩ := h
  obtain ⟨ext, hext⟩ := hk.trace
  refine ⟨parts, new ++ ext, sel, by rw [← hext, h1, List.append_assoc], hk.hosts, ?_, fun a => by rw [hk.pend a]; exact h4 a, h5, h6, ?_, h8⟩
  · intro x hx
    obtain ⟨c0, c, e1, e2, e3, e4⟩ := h3 x hx
    obtain ⟨c', f1, f2, f3⟩ := lookup_keeps hk hr e2
    exact ⟨c0, c', e1, f1, f2.trans e3, f3.trans e4⟩
  · rw [preparedMsgs_append]
    exact h7.trans (List.sublist_append_left _ _)

theorem preparedState_keeps (st : DState) (m : Message) (r : HostRef) (mode : SendMode) : Keeps st.hosts st (preparedState st m r mode) := by
  obtain ⟨f1, f2, f3, f4, f5, f6⟩ := preparedState_fields st m r mode
  obtain ⟨_, _, _, _, _, _, hg, hc⟩ := findCircuit_fields st r
  have hget : ∀ a, (preparedState st m r mode).circuits.get? a =
      if (st.hosts r).addr = a then some (mode.prepare ((st.circuits.get? a).getD { host := r }) m).1 else st.circuits.get? a := by
    intro a
    rw [f6, Dict.get?_set]
    by_cases ha : (st.hosts r).addr = a
    · subst ha
      simp only [if_true, hc]
    · simp only [ha, if_false, hg, false_and]
  refine ⟨f1, ⟨_, f2.symm⟩, ?_, ?_⟩
  · intro a c hc
    rw [hget]
    split
    · refine ⟨_, rfl, ?_⟩
      rw [hc]; simp [prepare_host, prepare_acks, prepare_trusted]
    · exact ⟨c, hc, rfl, rfl, rfl⟩
  · intro a
    unfold pending
    rw [hget]
    by_cases ha : (st.hosts r).addr = a
    · simp only [ha, if_true, prepare_acks]
      cases h : st.circuits.get? a <;> rfl
    · simp only [ha, if_false]

theorem Progress.sent {s0 : DState} {s s' : SState} {done : List Addr} {cur : List (List Nat)} {todo : List (Addr × CircuitRef)}
    (h : Progress s0 s done cur todo) {m : Message} {part : List Nat}
    (hm : IsAckFor m part) (hp : part ≠ [] ∧ part.length ≤ 251) (r : HostRef) (mode : SendMode) (hd : s'.disp = preparedState s.disp m r mode)
    (hr : s'.removed = s.removed) : Progress s0 s' done (cur ++ [part]) todo := by
  have hk := preparedState_keeps s.disp m r mode
  obtain ⟨_, f2, _⟩ := preparedState_fields s.disp m r mode
  rw [← hd] at hk f2
  obtain ⟨parts, new, sel, h1, h2, h3, h4, h5, h6, h7, h8⟩ := h
  rw [h2] at hk
  refine ⟨parts, new ++ [.prepared (s.disp.hosts r).addr (mode.prepare (findCircuit s.disp r).2 m).2],
    sel ++ [((s.disp.hosts r).addr, (mode.prepare (findCircuit s.disp r).2 m).2)], by rw [f2, h1, List.append_assoc], hk.hosts, ?_,
    fun a => by rw [hk.pend a]; exact h4 a, h5, ?_, ?_, ?_⟩
  · intro x hx
    obtain ⟨c0, c, e1, e2, e3, e4⟩ := h3 x hx
    obtain ⟨c', g1, g2, g3⟩ := lookup_keeps hk hr e2
    exact ⟨c0, c', e1, g1, g2.trans e3, g3.trans e4⟩
  · intro p hpm
    rcases List.mem_append.mp hpm with h | h
    · exact h6 p h
    · rw [List.mem_singleton.mp h]; exact hp
  · rw [preparedMsgs_append]
    exact List.Sublist.append h7 (List.Sublist.refl _)
  · rw [← List.append_assoc]
    refine List.rel_append h8 (.cons ?_ .nil)
    have e1 : (mode.prepare (findCircuit s.disp r).2 m).2.name = m.name := by rw [prepare_eq]; exact preparedMsg_name _ _ _ _
    have e2 : (mode.prepare (findCircuit s.disp r).2 m).2.blocks = m.blocks := by rw [prepare_eq]; exact preparedMsg_blocks _ _ _ _
    exact ⟨e1.trans hm.1, e2.trans hm.2⟩

/-- What the acknowledging of a circuit does to the others. -/
theorem clearAcks_lookup {s : SState} {r r' : CircuitRef} (hne : r ≠ r') : (clearAcks s r).lookup r' = s.lookup r' := by
  unfold clearAcks
  cases hl : s.lookup r with
  | none => rfl
  | some c =>
    cases r with
    | inMap a =>
      cases r' with
      | inMap b =>
        simp only [SState.lookup, DState.setCircuit, Dict.get?_set]
        rw [if_neg (fun h => hne (congrArg CircuitRef.inMap h))]
      | removed j => rfl
    | removed i =>
      cases r' with
      | inMap b => rfl
      | removed j =>
        simp only [SState.lookup]
        rw [List.getElem?_set_ne (fun h => hne (congrArg CircuitRef.removed h))]

theorem clearAcks_pending (s : SState) (r : CircuitRef) (a : Addr) :
    pending (clearAcks s r).disp a = if r = .inMap a then [] else pending s.disp a := by
  unfold clearAcks
  cases hl : s.lookup r with
  | none =>
    simp only
    split
    · rename_i h
      subst h
      simp only [SState.lookup] at hl
      unfold pending; rw [hl]
    · rfl
  | some c =>
    cases r with
    | inMap b =>
      simp only [pending_setCircuit, CircuitRef.inMap.injEq]
    | removed i => simp

theorem clearAcks_trace (s : SState) (r : CircuitRef) : (clearAcks s r).disp.trace = s.disp.trace ∧ (clearAcks s r).disp.hosts = s.disp.hosts := by
  unfold clearAcks
  cases hl : s.lookup r with
  | none => exact ⟨rfl, rfl⟩
  | some c => cases r <;> exact ⟨rfl, rfl⟩

theorem Progress.clear {s0 : DState} {s : SState} {done : List Addr} {cur : List (List Nat)} {todo : List (Addr × CircuitRef)} {a : Addr} {r : CircuitRef}
    (h : Progress s0 s done cur ((a, r) :: todo)) (hn : (((a, r) :: todo).map (·.2)).Nodup) (ha : a ∉ done) (hf : cur.flatten = pending s0 a) :
    Progress s0 (clearAcks s r) (done ++ [a]) [] todo := by
  obtain ⟨parts, new, sel, h1, h2, h3, h4, h5, h6, h7, h8⟩ := h
  rw [List.map_cons, List.nodup_cons] at hn
  refine ⟨fun x => if x = a then cur else parts x, new, sel, (clearAcks_trace s r).1.trans h1, (clearAcks_trace s r).2.trans h2, ?_, ?_, ?_, by simp, h7, ?_⟩
  · intro x hx
    obtain ⟨c0, c, e1, e2, e3, e4⟩ := h3 x (List.mem_cons_of_mem _ hx)
    refine ⟨c0, c, e1, ?_, e3, e4⟩
    rw [clearAcks_lookup]
    · exact e2
    · intro he
      exact hn.1 (List.mem_map.mpr ⟨x, hx, he.symm⟩)
  · intro b
    rw [clearAcks_pending]
    by_cases hb : r = .inMap b
    · exact .inl (if_pos hb)
    · rw [if_neg hb]
      rcases h4 b with e | e
      · exact .inl e
      · rw [List.map_cons] at e
        exact .inr ((List.mem_cons.mp e).resolve_left (fun he => hb he.symm))
  · intro b hb
    simp only
    by_cases hba : b = a
    · rw [if_pos hba, hba]; exact ⟨hf, h6⟩
    · rw [if_neg hba]
      refine h5 b ?_
      rcases List.mem_append.mp hb with h | h
      · exact h
      · exact absurd (List.mem_singleton.mp h) hba
  · rw [List.append_nil, List.flatMap_append, List.flatMap_singleton, if_pos rfl]
    have : done.flatMap (fun x => if x = a then cur else parts x) = done.flatMap parts := by
      apply List.flatMap_congr
      intro x hx
      rw [if_neg]
      rintro rfl
      exact ha hx
    rw [this]
    exact h8

/-- What holds between the acts of others while a `process_acks` is in progress, and when it has finished. -/
def AckInv (s0 : DState) (order : List Addr) (s : SState) : Prop :=
  (ackers s.tasks = [] ∧ Progress s0 s order [] []) ∨
  ∃ (t : Sending) (p : AckPos) (done : List Addr) (cur : List (List Nat)) (part : List Nat) (a : Addr) (todo : List (Addr × CircuitRef)),
    ackers s.tasks = [t] ∧ t.after = some p ∧ p.own = none ∧ order = done ++ a :: todo.map (·.1) ∧ p.rest = todo.map (·.2) ∧
    (p.circuit :: p.rest).Nodup ∧ part ≠ [] ∧ part.length ≤ 251 ∧
    (pending s0 a).take p.taken = cur.flatten ++ part ∧ (p.final = true → (pending s0 a).length ≤ p.taken) ∧
    match t.stage with
    | .subscribers m => IsAckFor m part ∧ Progress s0 s done cur ((a, p.circuit) :: todo)
    | .socket _ m _ => IsAckFor m part ∧ Progress s0 s done (cur ++ [part]) ((a, p.circuit) :: todo)

/-- The conditions under which a `process_acks` begins. -/
structure AckStart (s0 : DState) (order : List Addr) : Prop where
  nodup : order.Nodup
  circ : ∀ a ∈ order, ∃ c, s0.circuits.get? a = some c ∧ (s0.hosts c.host).isOk = true

theorem log_keeps (st : DState) (m : Message) : Keeps st.hosts st (st.log (.outgoing m)) :=
  ⟨rfl, List.prefix_append _ _, fun _ c hc => ⟨c, hc, rfl, rfl, rfl⟩, fun _ => rfl⟩

theorem beginSend_keeps (env : DEnv) (s : SState) (m : Message) (h : HostRef) (mode : SendMode) (af : Option AckPos) :
    Keeps s.disp.hosts s.disp (beginSend env s m h mode af).disp := by
  unfold beginSend
  cases env.handleOutgoing
  · exact Keeps.refl rfl
  · exact log_keeps _ _

theorem ackUntilSend_inv {env : DEnv} {s0 : DState} {order : List Addr} (h0 : AckStart s0 order) {s : SState} {done : List Addr}
    {todo : List (Addr × CircuitRef)} {a : Addr} {ref : CircuitRef} {cur : List (List Nat)} {k : Nat} (ho : order = done ++ a :: todo.map (·.1))
    (hnd : (((a, ref) :: todo).map (·.2)).Nodup) (hp : Progress s0 s done cur ((a, ref) :: todo)) (hn : ackers s.tasks = [])
    (hk : (pending s0 a).take k = cur.flatten) :
    (∃ s', ackUntilSend env s ref none k (todo.map (·.2)) = some s' ∧ AckInv s0 order s') ∨
    (ackUntilSend env s ref none k (todo.map (·.2)) = none ∧ cur.flatten = pending s0 a) := by
  obtain ⟨c0', hc0', hok⟩ := h0.circ a (by rw [ho]; simp)
  obtain ⟨c0, c, hc0, hc, hh, hacks⟩ : ∃ c0 c, s0.circuits.get? a = some c0 ∧ s.lookup ref = some c ∧ c.host = c0.host ∧ c.acks = pending s0 a := by
    obtain ⟨_, _, _, _, _, h3, _⟩ := hp
    exact h3 (a, ref) List.mem_cons_self
  rw [hc0] at hc0'
  cases hc0'
  unfold ackUntilSend
  rw [hc]
  simp only [Option.getD_none, hacks]
  have hcol := collectAcks_spec ((pending s0 a).drop k) [] (Message.new "PacketAck" []) (by simp) (by simp)
  simp only [List.length_nil, List.nil_append, Nat.zero_add] at hcol
  obtain ⟨h1, h2, h3, h4, h5⟩ := hcol
  generalize hcoll : collectAcks ((pending s0 a).drop k) 0 (Message.new "PacketAck" []) = r at *
  have hfl : k ≤ (pending s0 a).length → cur.flatten.length = k := fun h => by rw [← hk, List.length_take]; omega
  by_cases hz : r.2.1 = 0
  · rw [if_pos (.inl hz)]
    refine .inr ⟨rfl, ?_⟩
    have : ((pending s0 a).drop k).length = 0 := by rw [← h4 (by omega)]; omega
    rw [← hk, List.take_of_length_le]
    rw [List.length_drop] at this
    omega
  · rw [if_neg (by rw [hp.hosts, hh, hok]; simp only [Bool.true_eq_false, or_false]; exact hz)]
    refine .inl ⟨_, rfl, .inr ?_⟩
    have hne : ((pending s0 a).drop k).take r.1 ≠ [] := by
      intro he
      have := congrArg List.length he
      rw [List.length_take, List.length_nil] at this
      omega
    refine ⟨⟨c.host, .plain, .subscribers r.2.2, some ⟨ref, none, k + r.1, decide (r.2.1 ≤ 250), todo.map (fun x : Addr × CircuitRef => x.2)⟩⟩,
      ⟨ref, none, k + r.1, decide (r.2.1 ≤ 250), todo.map (fun x : Addr × CircuitRef => x.2)⟩, done, cur, ((pending s0 a).drop k).take r.1, a, todo,
      ?_, rfl, rfl, ho, rfl, hnd, hne, ?_, ?_, ?_, h5 hne, ?_⟩
    · simp only [beginSend]
      rw [ackers_append, hn]; rfl
    · rw [List.length_take]; omega
    · simp only
      rw [← hk, List.take_add]
    · simp only [decide_eq_true_eq]
      intro hle
      have := h4 hle
      rw [List.length_drop] at this
      omega
    · refine hp.keeps ?_ rfl
      have := beginSend_keeps env s r.2.2 c.host .plain (some ⟨ref, none, k + r.1, decide (r.2.1 ≤ 250), todo.map (fun x : Addr × CircuitRef => x.2)⟩)
      rw [hp.hosts] at this
      exact this

theorem AckStart.fresh {s0 : DState} {order : List Addr} (h0 : AckStart s0 order) {done rest : List Addr} {a : Addr} (ho : order = done ++ a :: rest) :
    a ∉ done := by
  have := h0.nodup
  rw [ho] at this
  intro hd
  exact (List.nodup_append.mp this).2.2 a hd a List.mem_cons_self rfl

theorem ackFrom_inv {env : DEnv} {s0 : DState} {order : List Addr} (h0 : AckStart s0 order) : ∀ (todo : List (Addr × CircuitRef)) (s : SState) (done : List Addr),
    order = done ++ todo.map (·.1) → (todo.map (·.2)).Nodup → Progress s0 s done [] todo → ackers s.tasks = [] →
    AckInv s0 order (ackFrom env (todo.map (·.2)) s)
  | [], s, done, ho, _, hp, hn => by
    rw [List.map_nil, List.append_nil] at ho
    exact .inl ⟨hn, ho ▸ hp⟩
  | (a, r) :: todo, s, done, ho, hnd, hp, hn => by
    rw [List.map_cons] at ho ⊢
    unfold ackFrom
    rcases ackUntilSend_inv (env := env) (k := 0) h0 ho hnd hp hn (by simp) with ⟨s', h1, h2⟩ | ⟨h1, h2⟩
    · rw [h1]; exact h2
    · rw [h1]
      exact ackFrom_inv h0 todo _ (done ++ [a]) (by rw [ho]; simp) (List.nodup_cons.mp hnd).2 (hp.clear hnd (h0.fresh ho) h2) (ackers_clear hn r)

theorem ackResume_inv {env : DEnv} {s0 : DState} {order : List Addr} (h0 : AckStart s0 order) {s : SState} {p : AckPos} {done : List Addr}
    {cur : List (List Nat)} {a : Addr} {todo : List (Addr × CircuitRef)} (hown : p.own = none) (ho : order = done ++ a :: todo.map (·.1))
    (hrest : p.rest = todo.map (·.2)) (hnd : (p.circuit :: p.rest).Nodup) (hk : (pending s0 a).take p.taken = cur.flatten)
    (hfin : p.final = true → (pending s0 a).length ≤ p.taken) (hp : Progress s0 s done cur ((a, p.circuit) :: todo)) (hn : ackers s.tasks = []) :
    AckInv s0 order (ackResume env p s) := by
  have hnd' : (((a, p.circuit) :: todo).map (·.2)).Nodup := by rw [List.map_cons, ← hrest]; exact hnd
  have hcl : cur.flatten = pending s0 a → AckInv s0 order (ackFrom env p.rest (clearAcks s p.circuit)) := fun hf => by
    rw [hrest]
    exact ackFrom_inv h0 _ _ (done ++ [a]) (by rw [ho]; simp) (List.nodup_cons.mp hnd').2 (hp.clear hnd' (h0.fresh ho) hf) (ackers_clear hn _)
  unfold ackResume
  by_cases hf : p.final = true
  · rw [if_pos hf]
    exact hcl (by rw [← hk, List.take_of_length_le (hfin hf)])
  · rw [if_neg hf, hown]
    rcases ackUntilSend_inv (env := env) h0 ho hnd' hp hn hk with ⟨s', h1, h2⟩ | ⟨h1, h2⟩
    · rw [hrest, h1]; exact h2
    · rw [← hrest] at h1; rw [h1]; exact hcl h2

theorem sendFailed_ack {m : Message} {ids : List Nat} (h : IsAckFor m ids) : sendFailed m = .ok none := by
  obtain ⟨t, ht⟩ := IsAckFor.render h
  unfold sendFailed
  rw [ht]

/-- Acts of others that keep the dispatcher as sends do, and do not touch the packet of the `process_acks`. -/
theorem AckInv.other {s0 : DState} {order : List Addr} {s s' : SState} (h : AckInv s0 order s) (hk : Keeps s.disp.hosts s.disp s'.disp)
    (hr : s'.removed = s.removed) (ht : ackers s'.tasks = ackers s.tasks) : AckInv s0 order s' := by
  rcases h with ⟨h1, h2⟩ | ⟨t, p, done, cur, part, a, todo, h1, h2, h3, h4, h5, h6, h7, h8, h9, h10, h11⟩
  · rw [h2.hosts] at hk
    exact .inl ⟨ht.trans h1, h2.keeps hk hr⟩
  · refine .inr ⟨t, p, done, cur, part, a, todo, ht.trans h1, h2, h3, h4, h5, h6, h7, h8, h9, h10, ?_⟩
    cases hs : t.stage with
    | subscribers m =>
      rw [hs] at h11
      rw [h11.2.hosts] at hk
      exact ⟨h11.1, h11.2.keeps hk hr⟩
    | socket a m dg =>
      rw [hs] at h11
      rw [h11.2.hosts] at hk
      exact ⟨h11.1, h11.2.keeps hk hr⟩

theorem sent_keeps (st : DState) (a : Addr) (dg : Bytes) : Keeps st.hosts st { (st.log (.sent a dg)) with packetsOut := st.packetsOut + 1 } :=
  ⟨rfl, List.prefix_append _ _, fun _ c hc => ⟨c, hc, rfl, rfl, rfl⟩, fun _ => rfl⟩

theorem trust_pending (env : DEnv) (st : DState) (a : Addr) (b : Bool) : (step env st (.setTrusted a b)).hosts = st.hosts ∧
    (step env st (.setTrusted a b)).trace = st.trace ∧
    (∀ x c, st.circuits.get? x = some c → ∃ c', (step env st (.setTrusted a b)).circuits.get? x = some c' ∧ c'.host = c.host ∧ c'.acks = c.acks) ∧
    ∀ x, pending (step env st (.setTrusted a b)) x = pending st x := by
  simp only [step]
  cases h : st.circuits.get? a with
  | none => exact ⟨rfl, rfl, fun x c hc => ⟨c, hc, rfl, rfl⟩, fun _ => rfl⟩
  | some c =>
    refine ⟨rfl, rfl, ?_, ?_⟩
    · intro x d hd
      simp only [DState.setCircuit, Dict.get?_set]
      by_cases hx : a = x
      · subst hx
        rw [h] at hd
        cases hd
        exact ⟨_, if_pos rfl, rfl, rfl⟩
      · exact ⟨d, by rw [if_neg hx]; exact hd, rfl, rfl⟩
    · intro x
      rw [pending_setCircuit]
      by_cases hx : a = x
      · subst hx
        rw [if_pos rfl]; unfold pending; rw [h]
      · rw [if_neg hx]

theorem Progress.trust {env : DEnv} {s0 : DState} {s : SState} {done : List Addr} {cur : List (List Nat)} {todo : List (Addr × CircuitRef)}
    (h : Progress s0 s done cur todo) (a : Addr) (b : Bool) : Progress s0 { s with disp := step env s.disp (.setTrusted a b) } done cur todo := by
  obtain ⟨parts, new, sel, h1, h2, h3, h4, h5, h6, h7, h8⟩ := h
  obtain ⟨e1, e2, e3, e4⟩ := trust_pending env s.disp a b
  refine ⟨parts, new, sel, e2.trans h1, e1.trans h2, ?_, fun x => by rw [e4]; exact h4 x, h5, h6, h7, h8⟩
  rintro ⟨x, r⟩ hx
  obtain ⟨c0, c, f1, f2, f3, f4⟩ := h3 _ hx
  cases r with
  | inMap y =>
    obtain ⟨c2, g1, g2, g3⟩ := e3 y c f2
    exact ⟨c0, c2, f1, g1, g2.trans f3, g3.trans f4⟩
  | removed i => exact ⟨c0, c, f1, f2, f3, f4⟩

/-! ## Removal of circuits -/

theorem removed_get? (env : DEnv) (st : DState) (h : HostRef) (b : Addr) :
    (step env st (.removeCircuit h)).circuits.get? b = if (st.hosts h).addr = b then none else st.circuits.get? b := by
  simp only [step, DState.log, removeCircuitData]
  by_cases hm : st.circuits.has (st.hosts h).addr = true
  · rw [if_pos hm, Dict.get?_del]
    by_cases hb : (st.hosts h).addr = b
    · rw [if_pos hb, if_pos hb.symm]
    · rw [if_neg hb, if_neg (fun he => hb he.symm)]
  · rw [if_neg hm]
    split
    · rename_i hb
      subst hb
      simpa [Dict.has] using hm
    · rfl

theorem removed_pending (env : DEnv) (st : DState) (h : HostRef) (b : Addr) :
    pending (step env st (.removeCircuit h)) b = if (st.hosts h).addr = b then [] else pending st b := by
  unfold pending
  rw [removed_get?]
  by_cases hb : (st.hosts h).addr = b
  · rw [if_pos hb, if_pos hb]
  · rw [if_neg hb, if_neg hb]

theorem ackers_retarget (a : Addr) (n : Nat) (ts : List Sending) : ackers (ts.map (Sending.retarget a n)) = (ackers ts).map (Sending.retarget a n) := by
  unfold ackers
  rw [List.filter_map]
  congr 2
  funext t
  simp [Sending.retarget]

/-- The circuits still to be done, after a removal. -/
theorem Progress.drop {env : DEnv} {s0 : DState} {s : SState} {done : List Addr} {cur : List (List Nat)} {todo : List (Addr × CircuitRef)} (h : HostRef)
    (hp : Progress s0 s done cur todo) (hac : todo ≠ [] → s.acking = true) :
    Progress s0 (dropCircuit env s h) done cur (todo.map (fun x => (x.1,
      if (s.disp.circuits.get? (s.disp.hosts h).addr).isSome then x.2.retarget (s.disp.hosts h).addr s.removed.length else x.2))) := by
  obtain ⟨parts, new, sel, h1, h2, h3, h4, h5, h6, h7, h8⟩ := hp
  have hdisp : (dropCircuit env s h).disp = step env s.disp (.removeCircuit h) := by
    unfold dropCircuit
    split <;> rfl
  refine ⟨parts, new ++ [.removed (s.disp.hosts h).addr], sel, ?_, ?_, ?_, ?_, h5, h6, ?_, h8⟩
  · rw [hdisp, ← List.append_assoc, ← h1]; rfl
  · rw [hdisp]; exact h2
  · intro x hx
    obtain ⟨y, hy, rfl⟩ := List.mem_map.mp hx
    obtain ⟨c0, c, e1, e2, e3, e4⟩ := h3 y hy
    refine ⟨c0, c, e1, ?_, e3, e4⟩
    have hak := hac (List.ne_nil_of_mem hy)
    cases hg : s.disp.circuits.get? (s.disp.hosts h).addr with
    | none =>
      simp only [dropCircuit, hak, if_true, hg, Option.isSome_none, Bool.false_eq_true, if_false]
      cases hy2 : y.2 with
      | inMap b =>
        rw [hy2] at e2
        simp only [SState.lookup, removed_get?] at e2 ⊢
        rw [if_neg]
        · exact e2
        · intro hb; rw [← hb, hg] at e2; cases e2
      | removed j => rw [hy2] at e2; exact e2
    | some d =>
      simp only [dropCircuit, hak, if_true, hg, Option.isSome_some, CircuitRef.retarget]
      cases hy2 : y.2 with
      | inMap b =>
        rw [hy2] at e2
        simp only [SState.lookup] at e2
        by_cases hb : b = (s.disp.hosts h).addr
        · subst hb
          rw [if_pos rfl]
          rw [hg] at e2
          simp only [SState.lookup, List.getElem?_concat_length]
          exact e2
        · rw [if_neg (by simpa using hb)]
          simp only [SState.lookup, removed_get?]
          rw [if_neg (fun he => hb he.symm)]
          exact e2
      | removed j =>
        rw [hy2] at e2
        simp only [SState.lookup] at e2
        rw [if_neg (by simp)]
        simp only [SState.lookup]
        rw [List.getElem?_append_left (List.getElem?_eq_some_iff.mp e2).1]
        exact e2
  · intro b
    rw [hdisp, removed_pending]
    by_cases hb : (s.disp.hosts h).addr = b
    · exact .inl (if_pos hb)
    · rw [if_neg hb]
      rcases h4 b with e | e
      · exact .inl e
      · refine .inr ?_
        obtain ⟨y, hy, hy2⟩ := List.mem_map.mp e
        refine List.mem_map.mpr ⟨_, List.mem_map_of_mem hy, ?_⟩
        simp only [hy2, CircuitRef.retarget, CircuitRef.inMap.injEq]
        have hb' : ¬ b = (s.disp.hosts h).addr := fun he => hb he.symm
        simp only [hb', if_false, ite_self]
  · rw [preparedMsgs_append]
    exact h7.trans (List.sublist_append_left _ _)

theorem sstep_ackInv {env : DEnv} {s0 : DState} {order : List Addr} (h0 : AckStart s0 order) {s : SState} (h : AckInv s0 order s) {x : SAct}
    (he : Elsewhere s x) : AckInv s0 order (sstep env s x) := by
  have hsome : ∀ {i : Nat} {t : Sending} {p : AckPos}, s.tasks[i]? = some t → t.after = some p →
      ∃ (done : List Addr) (cur : List (List Nat)) (part : List Nat) (a : Addr) (todo : List (Addr × CircuitRef)), ackers (s.tasks.eraseIdx i) = [] ∧
        (∀ t', t'.after.isSome = true → ackers (s.tasks.set i t') = [t']) ∧ p.own = none ∧ order = done ++ a :: todo.map (·.1) ∧
        p.rest = todo.map (·.2) ∧ (p.circuit :: p.rest).Nodup ∧ part ≠ [] ∧
        part.length ≤ 251 ∧ (pending s0 a).take p.taken = cur.flatten ++ part ∧ (p.final = true → (pending s0 a).length ≤ p.taken) ∧
        match t.stage with
        | .subscribers m => IsAckFor m part ∧ Progress s0 s done cur ((a, p.circuit) :: todo)
        | .socket _ m _ => IsAckFor m part ∧ Progress s0 s done (cur ++ [part]) ((a, p.circuit) :: todo) := by
    intro i t p ht hp
    rcases h with ⟨h1, _⟩ | ⟨u, q, done, cur, part, a, todo, h1, h2, h3⟩
    · have := List.filter_eq_nil_iff.mp h1 t (List.mem_of_getElem? ht)
      rw [hp] at this
      exact absurd rfl this
    · obtain ⟨rfl, e2, e3⟩ := ackers_some ht hp h1
      rw [hp] at h2
      cases h2
      exact ⟨done, cur, part, a, todo, e2, e3, h3⟩
  cases x with
  | start m r mode =>
    simp only [sstep]
    split
    · refine h.other (beginSend_keeps env s m r mode none) rfl ?_
      simp only [beginSend]
      rw [ackers_append]; simp [ackers]
    · exact h
  | edit i m =>
    simp only [sstep]
    split
    · rename_i r mode m0 af ht
      have haf := he _ ht
      simp only at haf
      subst haf
      exact h.other (Keeps.refl rfl) rfl (ackers_set_none ht rfl rfl)
    · exact h
  | go i =>
    simp only [sstep]
    split
    · rename_i r mode m0 af ht
      simp only [prepareFor_eq]
      cases af with
      | none =>
        split
        · exact h.other (preparedState_keeps _ _ _ _) rfl (ackers_set_none ht rfl rfl)
        · refine h.other (s' := leave env _ i none _) ?_ (by unfold leave; cases sendFailed (mode.prepare (findCircuit s.disp r).2 m0).2 <;> rfl) ?_
          · have : (leave env { s with disp := preparedState s.disp m0 r mode } i none (sendFailed (mode.prepare (findCircuit s.disp r).2 m0).2)).disp =
                preparedState s.disp m0 r mode := by unfold leave; cases sendFailed (mode.prepare (findCircuit s.disp r).2 m0).2 <;> rfl
            rw [this]
            exact preparedState_keeps _ _ _ _
          · have : (leave env { s with disp := preparedState s.disp m0 r mode } i none (sendFailed (mode.prepare (findCircuit s.disp r).2 m0).2)).tasks =
                s.tasks.eraseIdx i := by unfold leave; cases sendFailed (mode.prepare (findCircuit s.disp r).2 m0).2 <;> rfl
            rw [this]
            exact ackers_erase_none ht rfl
      | some p =>
        obtain ⟨done, cur, part, a', todo, e1, e2, e3, e4, e4', e4'', e5, e6, e7, e8, e9⟩ := hsome ht rfl
        simp only at e9
        have hpr := fun (s' : SState) => e9.2.sent (s' := s') e9.1 ⟨e5, e6⟩ r mode
        have hnm : IsAckFor (mode.prepare (findCircuit s.disp r).2 m0).2 part := by
          have e1 : (mode.prepare (findCircuit s.disp r).2 m0).2.name = m0.name := by rw [prepare_eq]; exact preparedMsg_name _ _ _ _
          have e2 : (mode.prepare (findCircuit s.disp r).2 m0).2.blocks = m0.blocks := by rw [prepare_eq]; exact preparedMsg_blocks _ _ _ _
          exact ⟨e1.trans e9.1.1, e2.trans e9.1.2⟩
        split
        · exact .inr ⟨_, p, done, cur, part, a', todo, e2 _ rfl, rfl, e3, e4, e4', e4'', e5, e6, e7, e8, hnm, hpr _ rfl rfl⟩
        · rw [sendFailed_ack hnm]
          exact ackResume_inv h0 e3 e4 e4' e4'' (cur := cur ++ [part]) (by rw [e7]; simp) e8 (hpr _ rfl rfl) e1
    · exact h
  | throw i =>
    simp only [sstep]
    split
    · rename_i r mode m0 af ht
      have haf := he _ ht
      simp only at haf
      subst haf
      exact h.other (Keeps.refl rfl) rfl (ackers_erase_none ht rfl)
    · exact h
  | accept i =>
    simp only [sstep]
    split
    · rename_i r mode a m0 dg af ht
      cases af with
      | none => exact h.other (sent_keeps _ _ _) rfl (ackers_erase_none ht rfl)
      | some p =>
        obtain ⟨done, cur, part, a', todo, e1, e2, e3, e4, e4', e4'', e5, e6, e7, e8, e9⟩ := hsome ht rfl
        simp only at e9
        refine ackResume_inv h0 e3 e4 e4' e4'' (cur := cur ++ [part]) (by rw [e7]; simp) e8 (e9.2.keeps ?_ rfl) e1
        have := sent_keeps s.disp a dg
        rw [e9.2.hosts] at this
        exact this
    · exact h
  | refuse i =>
    simp only [sstep]
    split
    · rename_i r mode a m0 dg af ht
      cases af with
      | none =>
        refine h.other (s' := leave env s i none (sendFailed m0)) ?_ (by unfold leave; cases sendFailed m0 <;> rfl) ?_
        · have : (leave env s i none (sendFailed m0)).disp = s.disp := by unfold leave; cases sendFailed m0 <;> rfl
          rw [this]; exact Keeps.refl rfl
        · have : (leave env s i none (sendFailed m0)).tasks = s.tasks.eraseIdx i := by unfold leave; cases sendFailed m0 <;> rfl
          rw [this]; exact ackers_erase_none ht rfl
      | some p =>
        obtain ⟨done, cur, part, a', todo, e1, e2, e3, e4, e4', e4'', e5, e6, e7, e8, e9⟩ := hsome ht rfl
        simp only at e9
        rw [sendFailed_ack e9.1]
        exact ackResume_inv h0 e3 e4 e4' e4'' (cur := cur ++ [part]) (by rw [e7]; simp) e8 (e9.2.keeps (Keeps.refl e9.2.hosts) rfl) e1
    · exact h
  | recv r dg => exact he.elim
  | acks o => exact he.elim
  | setHost r v => exact he.elim
  | removeCircuit r =>
    change AckInv s0 order (dropCircuit env s r)
    rcases h with ⟨h1, h2⟩ | ⟨t, p, done, cur, part, a, todo, h1, h2, h3, h4, h5, h6, h7, h8, h9, h10, h11⟩
    · have hac : s.acking = false := (ackers_nil_iff s).mp h1
      refine .inl ⟨?_, h2.drop r (fun h => absurd rfl h)⟩
      simp only [dropCircuit, hac]
      exact h1
    · have hac : s.acking = true := by
        cases hb : s.acking with
        | true => rfl
        | false => rw [(ackers_nil_iff s).mpr hb] at h1; cases h1
      cases hg : s.disp.circuits.get? (s.disp.hosts r).addr with
      | none =>
        refine .inr ⟨t, p, done, cur, part, a, todo, ?_, h2, h3, h4, h5, h6, h7, h8, h9, h10, ?_⟩
        · simp only [dropCircuit, hac, hg, if_true]; exact h1
        · have hid : ∀ l : List (Addr × CircuitRef), l.map (fun x => (x.1, if (Option.isSome (none : Option Circuit)) = true then x.2.retarget (s.disp.hosts r).addr s.removed.length else x.2)) = l := by
            intro l; simp
          cases hs : t.stage with
          | subscribers m =>
            rw [hs] at h11
            have := h11.2.drop (env := env) r (fun _ => hac)
            rw [hg, hid] at this
            exact ⟨h11.1, this⟩
          | socket a m dg =>
            rw [hs] at h11
            have := h11.2.drop (env := env) r (fun _ => hac)
            rw [hg, hid] at this
            exact ⟨h11.1, this⟩
      | some d =>
        have hnew : ∀ {cur : List (List Nat)}, Progress s0 s done cur ((a, p.circuit) :: todo) → ∀ x ∈ p.circuit :: p.rest, x ≠ .removed s.removed.length := by
          intro cur hpr x hx
          obtain ⟨_, _, _, _, _, e3, _⟩ := hpr
          have hx' : x ∈ ((a, p.circuit) :: todo).map (·.2) := by rw [List.map_cons, ← h5]; exact hx
          obtain ⟨y, hy, rfl⟩ := List.mem_map.mp hx'
          obtain ⟨_, c, _, e, _⟩ := e3 y hy
          intro he
          rw [he] at e
          simp [SState.lookup] at e
        have hnd : ∀ {cur : List (List Nat)}, Progress s0 s done cur ((a, p.circuit) :: todo) →
            ((p.circuit :: p.rest).map (CircuitRef.retarget (s.disp.hosts r).addr s.removed.length)).Nodup := by
          intro cur hpr
          refine List.Nodup.map_on ?_ h6
          intro x hx y hy hxy
          have hx' := hnew hpr x hx
          have hy' := hnew hpr y hy
          unfold CircuitRef.retarget at hxy
          split at hxy <;> split at hxy
          · rename_i e1 e2; rw [e1, e2]
          · exact absurd hxy.symm hy'
          · exact absurd hxy hx'
          · exact hxy
        have hrest : p.rest.map (CircuitRef.retarget (s.disp.hosts r).addr s.removed.length) =
            (todo.map (fun x => (x.1, x.2.retarget (s.disp.hosts r).addr s.removed.length))).map (·.2) := by
          rw [h5, List.map_map, List.map_map]; rfl
        have hfst : (todo.map (fun x => (x.1, x.2.retarget (s.disp.hosts r).addr s.removed.length))).map (·.1) = todo.map (·.1) := by
          rw [List.map_map]; rfl
        have hts : ackers (dropCircuit env s r).tasks = [t.retarget (s.disp.hosts r).addr s.removed.length] := by
          simp only [dropCircuit, hac, hg, if_true]
          rw [ackers_retarget, h1]; rfl
        have haf : (t.retarget (s.disp.hosts r).addr s.removed.length).after = some { p with
            circuit := p.circuit.retarget (s.disp.hosts r).addr s.removed.length,
            rest := p.rest.map (CircuitRef.retarget (s.disp.hosts r).addr s.removed.length) } := by
          simp [Sending.retarget, h2]
        have hst : (t.retarget (s.disp.hosts r).addr s.removed.length).stage = t.stage := rfl
        cases hs : t.stage with
        | subscribers m =>
          rw [hs] at h11
          have hd := h11.2.drop (env := env) r (fun _ => hac)
          simp only [hg, Option.isSome_some, if_true, List.map_cons] at hd
          refine .inr ⟨_, _, done, cur, part, a, _, hts, haf, h3, by rw [hfst]; exact h4, hrest, hnd h11.2, h7, h8, h9, h10, ?_⟩
          rw [hst, hs]
          exact ⟨h11.1, hd⟩
        | socket b m dg =>
          rw [hs] at h11
          have hd := h11.2.drop (env := env) r (fun _ => hac)
          simp only [hg, Option.isSome_some, if_true, List.map_cons] at hd
          refine .inr ⟨_, _, done, cur, part, a, _, hts, haf, h3, by rw [hfst]; exact h4, hrest, hnd h11.2, h7, h8, h9, h10, ?_⟩
          rw [hst, hs]
          exact ⟨h11.1, hd⟩
  | setTrusted a b =>
    rcases h with ⟨h1, h2⟩ | ⟨t, p, done, cur, part, a', todo, h1, h2, h3, h4, h5, h6, h7, h8, h9, h10, h11⟩
    · exact .inl ⟨h1, h2.trust (env := env) a b⟩
    · refine .inr ⟨t, p, done, cur, part, a', todo, h1, h2, h3, h4, h5, h6, h7, h8, h9, h10, ?_⟩
      cases hs : t.stage with
      | subscribers m => rw [hs] at h11; exact ⟨h11.1, h11.2.trust (env := env) a b⟩
      | socket _ m dg => rw [hs] at h11; exact ⟨h11.1, h11.2.trust (env := env) a b⟩

theorem runSwitching_ackInv {env : DEnv} {s0 : DState} {order : List Addr} (h0 : AckStart s0 order) : ∀ (xs : List SAct) (s : SState),
    AckInv s0 order s → Undisturbed env s xs → AckInv s0 order (runSwitching env s xs)
  | [], _, h, _ => h
  | _ :: xs, _, h, hu => runSwitching_ackInv h0 xs _ (sstep_ackInv h0 h hu.1) hu.2

end Pyogp
