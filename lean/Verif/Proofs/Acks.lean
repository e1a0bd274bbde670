import Verif.Proofs.DispatcherInv
import Verif.Proofs.Render
import Mathlib.Data.List.Forall2

/-! # Sending acknowledgements -/

namespace Pyogp
open Spec

theorem preparedMsgs_append (a b : List Ev) : preparedMsgs (a ++ b) = preparedMsgs a ++ preparedMsgs b := by
  simp [preparedMsgs]

/-- What sending never changes. -/
structure Keeps (H : HostRef → Host) (st st' : DState) : Prop where
  hosts : st'.hosts = H
  trace : st.trace <+: st'.trace
  circ : ∀ a c, st.circuits.get? a = some c →
    ∃ c', st'.circuits.get? a = some c' ∧ c'.host = c.host ∧ c'.acks = c.acks ∧ c'.trusted = c.trusted
  pend : ∀ a, pending st' a = pending st a

theorem Keeps.refl {H : HostRef → Host} {st : DState} (h : st.hosts = H) : Keeps H st st :=
  ⟨h, List.prefix_refl _, fun _ c hc => ⟨c, hc, rfl, rfl, rfl⟩, fun _ => rfl⟩

theorem Keeps.trans {H : HostRef → Host} {a b c : DState} (h1 : Keeps H a b) (h2 : Keeps H b c) : Keeps H a c := by
  refine ⟨h2.hosts, h1.trace.trans h2.trace, ?_, fun x => (h2.pend x).trans (h1.pend x)⟩
  intro x d hd
  obtain ⟨d1, h3, h4, h5, h6⟩ := h1.circ x d hd
  obtain ⟨d2, h7, h8, h9, h10⟩ := h2.circ x d1 h3
  exact ⟨d2, h7, h8.trans h4, h9.trans h5, h10.trans h6⟩

theorem transmit_circ (env : DEnv) (st : DState) (m : Message) (r : HostRef) (mode : SendMode) :
    (transmit env st m r mode).2.circuits =
      (findCircuit st r).1.circuits.set (st.hosts r).addr (mode.prepare (findCircuit st r).2 m).1 ∧
    (transmit env st m r mode).2.hosts = st.hosts ∧
    (∃ post, (transmit env st m r mode).2.trace =
      st.trace ++ (.prepared (st.hosts r).addr (mode.prepare (findCircuit st r).2 m).2 :: post) ∧ preparedMsgs post = []) := by
  have hf := preparedState_fields st m r mode
  rw [transmit_eq]
  rcases handToSocket_cases env (preparedState st m r mode) (st.hosts r).addr (mode.prepare (findCircuit st r).2 m).2 with h | ⟨dg, _, _, h⟩
  · rw [h]
    exact ⟨hf.2.2.2.2.2, hf.1, [], by rw [hf.2.1], rfl⟩
  · rw [h]
    refine ⟨hf.2.2.2.2.2, hf.1, [.sent (st.hosts r).addr dg], ?_, rfl⟩
    simp only [DState.log]
    rw [hf.2.1]; simp

theorem transmit_get? (env : DEnv) (st : DState) (m : Message) (r : HostRef) (mode : SendMode) (a : Addr) :
    (transmit env st m r mode).2.circuits.get? a =
      if (st.hosts r).addr = a then some (mode.prepare ((st.circuits.get? a).getD { host := r }) m).1 else st.circuits.get? a := by
  obtain ⟨h1, _⟩ := transmit_circ env st m r mode
  obtain ⟨_, _, _, _, _, _, hg, hc⟩ := findCircuit_fields st r
  rw [h1, Dict.get?_set]
  by_cases ha : (st.hosts r).addr = a
  · subst ha
    simp only [if_true, hc]
  · simp only [ha, if_false, hg, false_and]

theorem transmit_keeps (env : DEnv) (st : DState) (m : Message) (r : HostRef) (mode : SendMode) :
    Keeps st.hosts st (transmit env st m r mode).2 := by
  obtain ⟨_, h2, post, h3, _⟩ := transmit_circ env st m r mode
  refine ⟨h2, ⟨_, h3.symm⟩, ?_, ?_⟩
  · intro a c hc
    rw [transmit_get?]
    split
    · refine ⟨_, rfl, ?_⟩
      rw [hc]; simp [prepare_host, prepare_acks, prepare_trusted]
    · exact ⟨c, hc, rfl, rfl, rfl⟩
  · intro a
    unfold pending
    rw [transmit_get?]
    by_cases ha : (st.hosts r).addr = a
    · simp only [ha, if_true, prepare_acks]
      cases h : st.circuits.get? a <;> rfl
    · simp only [ha, if_false]

theorem keeps_closed (env : DEnv) (H : HostRef → Host) (st : DState) :
    SendClosed env (fun r v => v = H r) (Keeps H st) := by
  refine ⟨?_, ?_, ?_⟩
  · intro s r v hv h
    refine ⟨?_, h.trace, h.circ, h.pend⟩
    simp only [DState.setHost, h.hosts]
    funext x
    split
    · rename_i he; rw [he, hv]
    · rfl
  · intro s m h
    exact ⟨h.hosts, h.trace.trans (List.prefix_append _ _), h.circ, h.pend⟩
  · intro s m r mode h
    have := transmit_keeps env s m r mode
    rw [h.hosts] at this
    exact h.trans this

/-- Subscribers of outgoing messages leave the host objects alone. -/
def OutgoingKeepHosts (env : DEnv) (H : HostRef → Host) : Prop :=
  env.handleOutgoing = true → HandlerOk env (fun r v => v = H r)

theorem sendWith_keeps {env : DEnv} {H : HostRef → Host} (ho : OutgoingKeepHosts env H) (n : Nat) (st : DState) (m : Message)
    (r : HostRef) (mode : SendMode) (hh : st.hosts = H) : Keeps H st (sendWith env n st m r mode).2 := by
  cases hb : env.handleOutgoing with
  | true => exact sendWith_preserves (keeps_closed env H st) (ho hb) n st m r mode (Keeps.refl hh)
  | false =>
    cases n with
    | zero => exact Keeps.refl hh
    | succ n =>
      unfold sendWith
      simp only [hb, Bool.false_eq_true, if_false]
      split
      · exact Keeps.refl hh
      · rw [← hh]; exact transmit_keeps env st m r mode

theorem sendWith_ok {env : DEnv} {H : HostRef → Host} (ho : OutgoingKeepHosts env H) {n : Nat} {st st' : DState} {m : Message}
    {r : HostRef} {mode : SendMode} (hh : st.hosts = H) (hok : (H r).isOk = true) {o : Option Bytes}
    (hs : sendWith env n st m r mode = (.ok o, st')) :
    ∃ pre m' post, st'.trace = st.trace ++ (pre ++ (.prepared (H r).addr m' :: post)) ∧ m'.name = m.name ∧ m'.blocks = m.blocks ∧
      preparedMsgs post = [] ∧ (env.handleOutgoing = false → pre = []) := by
  cases n with
  | zero => cases hs
  | succ n =>
    unfold sendWith at hs
    simp only [hh, hok, Bool.not_true, Bool.false_eq_true, if_false] at hs
    split at hs
    · rename_i hb
      have hk : Keeps H st ((env.handler (st.log (.outgoing m)).trace m).run (sendWith env n) (st.log (.outgoing m))).2 :=
        Prog.run_preserves (keeps_closed env H st).hosts (sendWith_preserves (keeps_closed env H st) (ho hb) n) _ _ (ho hb _ _)
          ((keeps_closed env H st).outgoing st m (Keeps.refl hh))
      split at hs
      · cases hs
      · rename_i st1 he
        rw [he] at hk
        obtain rfl : st' = (transmit env st1 m r mode).2 := by rw [hs]
        obtain ⟨pre, hpre⟩ := hk.trace
        obtain ⟨_, _, post, h3, h4⟩ := transmit_circ env st1 m r mode
        rw [hk.hosts] at h3
        refine ⟨pre, _, post, by rw [h3, ← hpre, List.append_assoc], ?_, ?_, h4, by rw [hb]; intro h; cases h⟩
        · rw [prepare_eq]; exact preparedMsg_name _ _ _ _
        · rw [prepare_eq]; exact preparedMsg_blocks _ _ _ _
    · obtain rfl : st' = (transmit env st m r mode).2 := by rw [hs]
      obtain ⟨_, _, post, h3, h4⟩ := transmit_circ env st m r mode
      rw [hh] at h3
      refine ⟨[], _, post, by rw [h3]; rfl, ?_, ?_, h4, fun _ => rfl⟩
      · rw [prepare_eq]; exact preparedMsg_name _ _ _ _
      · rw [prepare_eq]; exact preparedMsg_blocks _ _ _ _

theorem prepare_render (mode : SendMode) (c : Circuit) (m : Message) : (mode.prepare c m).2.render = m.render := by
  unfold Message.render
  rw [prepare_eq]
  simp only [preparedMsg_blocks]

/-- A transmission of a message that can be shown does not raise. -/
theorem transmit_total (env : DEnv) (st : DState) (m : Message) (r : HostRef) (mode : SendMode) (hr : ∃ t, m.render = .ok t) :
    ∃ o, (transmit env st m r mode).1 = .ok o := by
  rw [transmit_eq]
  obtain ⟨t, ht⟩ := hr
  rcases handToSocket_cases env (preparedState st m r mode) (st.hosts r).addr (mode.prepare (findCircuit st r).2 m).2 with h | ⟨dg, _, _, h⟩
  · rw [h]; exact ⟨none, by unfold sendFailed; rw [prepare_render, ht]⟩
  · rw [h]; exact ⟨_, rfl⟩

theorem send_plain_total (env : DEnv) (hb : env.handleOutgoing = false) (hd : 0 < env.depth) (st : DState) (m : Message) (r : HostRef)
    (mode : SendMode) (hr : ∃ t, m.render = .ok t) : ∃ o st', send env st m r mode = (.ok o, st') := by
  unfold send
  obtain ⟨n, hn⟩ : ∃ n, env.depth = n + 1 := ⟨env.depth - 1, by omega⟩
  rw [hn]
  unfold sendWith
  simp only [hb, Bool.false_eq_true, if_false]
  split
  · exact ⟨_, _, rfl⟩
  · obtain ⟨o, ho⟩ := transmit_total env st m r mode hr
    exact ⟨o, _, Prod.ext ho rfl⟩

theorem renderBlocks_acks : ∀ (ids : List Nat) (t : Text), t.unicode = false → ∃ t', renderBlocks (ids.map packetsBlock) t = .ok t' ∧ t'.unicode = false := by
  intro ids
  induction ids with
  | nil => intro t h; exact ⟨t, rfl, h⟩
  | cons i ids ih =>
    intro t h
    obtain ⟨t', h1, h2⟩ := ih ⟨false, t.high || false⟩ rfl
    refine ⟨t', ?_, h2⟩
    rw [← h1, List.map_cons]
    conv => lhs; unfold renderBlocks
    have : (packetsBlock i).render (packetsBlock i).varList t = .ok ⟨false, t.high || false⟩ := by
      show ((packetsBlock i).getVariable "ID" >>= _) = _
      have hg : (packetsBlock i).getVariable "ID" = .ok { name := "ID", data := .num (.int i) } := rfl
      simp only [hg, bind, Except.bind, VarData.render, Text.append_str t {} h rfl]
      rfl
    simp only [this, bind, Except.bind]

/-- Acknowledgement messages can be shown. -/
theorem IsAckFor.render {m : Message} {ids : List Nat} (h : IsAckFor m ids) : ∃ t, m.render = .ok t := by
  unfold Message.render
  rw [h.2]
  obtain ⟨t, h1, _⟩ := renderBlocks_acks ids {} rfl
  exact ⟨t, by unfold renderDict; simp only [h1, bind, Except.bind]; rfl⟩

/-! ## The loop over one circuit's queue -/

theorem packetAck_add (ids : List Nat) (m : Message) (h : IsAckFor m ids ∨ (ids = [] ∧ m = Message.new "PacketAck" [])) (pid : Nat) :
    IsAckFor (addAckBlock m pid) (ids ++ [pid]) := by
  rcases h with ⟨h1, h2⟩ | ⟨rfl, rfl⟩
  · refine ⟨h1, ?_⟩
    have : (addAckBlock m pid).blocks = addBlock m.blocks (packetsBlock pid) := rfl
    rw [this, h2]
    simp [addBlock, Dict.get?, packetsBlock, Dict.set]
  · exact ⟨rfl, rfl⟩

/-- The messages of `sel` are acknowledgements of `parts`, sent to `d`. -/
abbrev AcksFor (d : Addr) (parts : List (List Nat)) (sel : List (Addr × Message)) : Prop :=
  List.Forall₂ (fun p (x : Addr × Message) => x.1 = d ∧ IsAckFor x.2 p) parts sel

theorem ackLoop_ok {env : DEnv} {H : HostRef → Host} (ho : OutgoingKeepHosts env H) {r : HostRef} (hok : (H r).isOk = true) :
    ∀ (ids acc : List Nat) (msg : Message) (st : DState) (n' : Nat) (msg' : Message) (st' : DState), st.hosts = H →
      acc.length < 251 → (acc ≠ [] → IsAckFor msg acc) → ackLoop env r ids acc.length msg st = (.ok (n', msg'), st') →
      ∃ parts rest sel new, acc ++ ids = parts.flatten ++ rest ∧ (∀ p ∈ parts, p.length = 251) ∧ rest.length < 251 ∧ n' = rest.length ∧
        (rest ≠ [] → IsAckFor msg' rest) ∧ Keeps H st st' ∧ st'.trace = st.trace ++ new ∧
        sel.Sublist (preparedMsgs new) ∧ (env.handleOutgoing = false → sel = preparedMsgs new) ∧ AcksFor (H r).addr parts sel
  | [], acc, msg, st, n', msg', st', hh, hl, hm, h => by
    simp only [ackLoop, Prod.mk.injEq, Except.ok.injEq] at h
    obtain ⟨⟨rfl, rfl⟩, rfl⟩ := h
    exact ⟨[], acc, [], [], by simp, by simp, hl, rfl, hm, Keeps.refl hh, by simp, by simp [preparedMsgs], fun _ => rfl, .nil⟩
  | pid :: ids, acc, msg, st, n', msg', st', hh, hl, hm, h => by
    have hmsg : IsAckFor (addAckBlock (if acc.length = 0 then Message.new "PacketAck" [] else msg) pid) (acc ++ [pid]) := by
      apply packetAck_add
      cases acc with
      | nil => exact .inr ⟨rfl, rfl⟩
      | cons x xs => exact .inl (hm (by simp))
    unfold ackLoop at h
    simp only at h
    generalize addAckBlock (if acc.length = 0 then Message.new "PacketAck" [] else msg) pid = msg1 at h hmsg
    split at h
    · rename_i hgt
      split at h
      · cases h
      · rename_i o st1 hs
        have hk1 : Keeps H st st1 := by
          have := sendWith_keeps ho env.depth st msg1 r .plain hh
          unfold send at hs
          rw [hs] at this; exact this
        obtain ⟨pre, m', post, htr, hnm, hbl, hpost, hpre⟩ := sendWith_ok ho hh hok hs
        obtain ⟨parts, rest, sel, new, h1, h2, h3, h4, h5, h6, h7, h8, h9, h10⟩ :=
          ackLoop_ok ho hok ids [] msg1 st1 n' msg' st' hk1.hosts (by simp) (by simp) h
        refine ⟨(acc ++ [pid]) :: parts, rest, ((H r).addr, m') :: sel, pre ++ (.prepared (H r).addr m' :: post) ++ new, ?_, ?_, h3, h4, h5,
          hk1.trans h6, ?_, ?_, ?_, ?_⟩
        · simp only [List.nil_append] at h1
          rw [h1]; simp
        · intro p hp
          rcases List.mem_cons.mp hp with rfl | hp
          · simp; omega
          · exact h2 p hp
        · rw [h7, htr, List.append_assoc]
        · rw [preparedMsgs_append, preparedMsgs_append]
          have : preparedMsgs (.prepared (H r).addr m' :: post) = [((H r).addr, m')] := by
            have h := preparedMsgs_append [.prepared (H r).addr m'] post
            rw [hpost] at h; exact h
          rw [this, List.append_assoc]
          exact List.Sublist.trans (List.Sublist.cons_cons _ h8) (List.sublist_append_right _ _)
        · intro hb
          rw [hpre hb, preparedMsgs_append, preparedMsgs_append]
          have : preparedMsgs (.prepared (H r).addr m' :: post) = [((H r).addr, m')] := by
            have h := preparedMsgs_append [.prepared (H r).addr m'] post
            rw [hpost] at h; exact h
          rw [this, ← h9 hb]; rfl
        · exact .cons ⟨rfl, by rw [IsAckFor, hnm, hbl]; exact hmsg⟩ h10
    · rename_i hgt
      have hlen : (acc ++ [pid]).length = acc.length + 1 := by simp
      rw [← hlen] at h
      obtain ⟨parts, rest, sel, new, h1, h2⟩ :=
        ackLoop_ok ho hok ids (acc ++ [pid]) msg1 st n' msg' st' hh (by simp; omega) (fun _ => hmsg) h
      exact ⟨parts, rest, sel, new, by rw [← h1]; simp, h2⟩

/-! ## All circuits -/

theorem pending_setCircuit (st : DState) (a : Addr) (c : Circuit) (b : Addr) :
    pending (st.setCircuit a c) b = if a = b then c.acks else pending st b := by
  unfold pending DState.setCircuit
  rw [Dict.get?_set]
  by_cases h : a = b
  · simp [h]
  · simp [h]

/-- What processing the acks of other circuits does not change. -/
structure KeepsBut (H : HostRef → Host) (done : Addr → Prop) (st st' : DState) : Prop where
  hosts : st'.hosts = H
  circ : ∀ a c, ¬ done a → st.circuits.get? a = some c → ∃ c', st'.circuits.get? a = some c' ∧ c'.host = c.host ∧ c'.acks = c.acks
  pend : ∀ a, pending st' a = [] ∧ done a ∨ pending st' a = pending st a ∧ ¬ done a

theorem ackCircuit_ok {env : DEnv} {H : HostRef → Host} (ho : OutgoingKeepHosts env H) {st st' : DState} {a : Addr} {c : Circuit}
    (hh : st.hosts = H) (hc : st.circuits.get? a = some c) (hok : (H c.host).isOk = true)
    (h : ackCircuit env st a = (.ok (), st')) :
    ∃ parts sel new, parts.flatten = c.acks ∧ (∀ p ∈ parts, p ≠ [] ∧ p.length ≤ 251) ∧ st'.trace = st.trace ++ new ∧
      sel.Sublist (preparedMsgs new) ∧ (env.handleOutgoing = false → sel = preparedMsgs new) ∧ AcksFor (H c.host).addr parts sel ∧
      KeepsBut H (· = a) st st' := by
  unfold ackCircuit at h
  simp only [hc] at h
  split at h
  · cases h
  · rename_i n msg st1 hl
    obtain ⟨parts, rest, sel, new, h1, h2, h3, h4, h5, h6, h7, h8, h9, h10⟩ :=
      ackLoop_ok ho hok c.acks [] (Message.new "PacketAck" []) st n msg st1 hh (by simp) (by simp) hl
    simp only [List.nil_append] at h1
    have hfin : ∀ st2 : DState, Keeps H st st2 → (match st2.circuits.get? a with
        | none => ((Except.ok () : Py Unit), st2)
        | some c => (Except.ok (), st2.setCircuit a { c with acks := [] })) = (.ok (), st') →
        KeepsBut H (· = a) st st' ∧ st'.trace = st2.trace := by
      intro st2 hk hm
      obtain ⟨c2, hc2, _, _⟩ := hk.circ a c hc
      rw [hc2] at hm
      cases hm
      refine ⟨⟨hk.hosts, ?_, ?_⟩, rfl⟩
      · intro b d hb hd
        obtain ⟨d', hd', e1, e2, _⟩ := hk.circ b d hd
        refine ⟨d', ?_, e1, e2⟩
        simp only [DState.setCircuit, Dict.get?_set]
        rw [if_neg (fun he => hb he.symm)]; exact hd'
      · intro b
        rw [pending_setCircuit]
        by_cases hb : a = b
        · exact .inl ⟨by simp [hb], hb.symm⟩
        · exact .inr ⟨by rw [if_neg hb]; exact hk.pend b, fun he => hb he.symm⟩
    by_cases hn : 0 < n
    · simp only [hn, if_true] at h
      split at h
      · cases h
      · rename_i o st2 hs
        have hk2 : Keeps H st st2 := by
          have := sendWith_keeps ho env.depth st1 msg c.host .plain h6.hosts
          unfold send at hs
          rw [hs] at this; exact h6.trans this
        obtain ⟨pre, m', post, htr, hnm, hbl, hpost, hpre⟩ := sendWith_ok ho h6.hosts hok hs
        obtain ⟨hkb, htr'⟩ := hfin st2 hk2 h
        have hrest : rest ≠ [] := by intro he; rw [he] at h4; simp at h4; omega
        have hone : preparedMsgs (.prepared (H c.host).addr m' :: post) = [((H c.host).addr, m')] := by
          have h := preparedMsgs_append [.prepared (H c.host).addr m'] post
          rw [hpost] at h; exact h
        refine ⟨parts ++ [rest], sel ++ [((H c.host).addr, m')], new ++ (pre ++ (.prepared (H c.host).addr m' :: post)), ?_, ?_, ?_, ?_, ?_, ?_, hkb⟩
        · rw [h1]; simp
        · intro p hp
          rcases List.mem_append.mp hp with hp | hp
          · have := h2 p hp
            exact ⟨by intro he; rw [he] at this; simp at this, by omega⟩
          · simp only [List.mem_singleton] at hp; subst hp; exact ⟨hrest, by omega⟩
        · rw [htr', htr, h7, List.append_assoc]
        · rw [preparedMsgs_append, preparedMsgs_append, hone]
          exact List.Sublist.append h8 (List.sublist_append_right _ _)
        · intro hb
          rw [preparedMsgs_append, hpre hb, List.nil_append, hone, ← h9 hb]
        · exact List.rel_append h10 (.cons ⟨rfl, by rw [IsAckFor, hnm, hbl]; exact h5 hrest⟩ .nil)
    · simp only [hn, if_false] at h
      have hrest : rest = [] := by
        cases rest with
        | nil => rfl
        | cons x xs => rw [h4] at hn; simp at hn
      obtain ⟨hkb, htr'⟩ := hfin st1 h6 h
      refine ⟨parts, sel, new, by rw [h1, hrest]; simp, ?_, by rw [htr', h7], h8, h9, h10, hkb⟩
      intro p hp
      have := h2 p hp
      exact ⟨by intro he; rw [he] at this; simp at this, by omega⟩

theorem forall₂_mem_imp {α β : Type} {R S : α → β → Prop} : ∀ {l : List α} {l' : List β}, List.Forall₂ R l l' →
    (∀ a b, a ∈ l → R a b → S a b) → List.Forall₂ S l l'
  | _, _, .nil, _ => .nil
  | _, _, .cons h t, hi => .cons (hi _ _ List.mem_cons_self h) (forall₂_mem_imp t fun a b ha => hi a b (List.mem_cons_of_mem _ ha))

/-- Where the acknowledgements of a circuit go. -/
def ackDest (st : DState) (a : Addr) : Addr :=
  match st.circuits.get? a with
  | some c => (st.hosts c.host).addr
  | none => a

theorem sendAcks_ok {env : DEnv} {H : HostRef → Host} (ho : OutgoingKeepHosts env H) :
    ∀ (order : List Addr) (st st' : DState), st.hosts = H → order.Nodup →
      (∀ a ∈ order, ∃ c, st.circuits.get? a = some c ∧ (H c.host).isOk = true) → sendAcks env order st = (.ok (), st') →
      ∃ (parts : Addr → List (List Nat)) (sel : List (Addr × Message)) (new : List Ev),
        (∀ a ∈ order, (parts a).flatten = pending st a ∧ ∀ p ∈ parts a, p ≠ [] ∧ p.length ≤ 251) ∧
        st'.trace = st.trace ++ new ∧ sel.Sublist (preparedMsgs new) ∧ (env.handleOutgoing = false → sel = preparedMsgs new) ∧
        List.Forall₂ (fun (d : Addr × List Nat) (x : Addr × Message) => x.1 = ackDest st d.1 ∧ IsAckFor x.2 d.2)
          (order.flatMap fun a => (parts a).map fun p => (a, p)) sel ∧
        (∀ a, pending st' a = if a ∈ order then [] else pending st a)
  | [], st, st', hh, hn, hc, h => by
    simp only [sendAcks, Prod.mk.injEq, true_and] at h
    subst h
    exact ⟨fun _ => [], [], [], by simp, by simp, by simp [preparedMsgs], fun _ => rfl, .nil, by simp⟩
  | a :: as, st, st', hh, hn, hc, h => by
    unfold sendAcks at h
    obtain ⟨c, hca, hok⟩ := hc a List.mem_cons_self
    obtain ⟨hna, hnas⟩ := List.nodup_cons.mp hn
    split at h
    · cases h
    · rename_i st1 hac
      obtain ⟨p1, sel1, new1, e1, e2, e3, e4, e5, e6, hk⟩ := ackCircuit_ok ho hh hca hok hac
      obtain ⟨parts, sel, new, f1, f2, f3, f4, f5, f6⟩ := sendAcks_ok ho as st1 st' hk.hosts hnas (by
        intro b hb
        obtain ⟨d, hd, hdok⟩ := hc b (List.mem_cons_of_mem _ hb)
        obtain ⟨d', hd', hdh, _⟩ := hk.circ b d (by intro he; subst he; exact hna hb) hd
        exact ⟨d', hd', by rw [hdh]; exact hdok⟩) h
      have hp1 : ∀ b, b ≠ a → pending st1 b = pending st b := by
        intro b hb
        rcases hk.pend b with ⟨_, h⟩ | ⟨h, _⟩
        · exact absurd h hb
        · exact h
      have hdest : ∀ b, b ∈ as → ackDest st1 b = ackDest st b := by
        intro b hb
        obtain ⟨d, hd, _⟩ := hc b (List.mem_cons_of_mem _ hb)
        obtain ⟨d', hd', hdh, _⟩ := hk.circ b d (by intro he; subst he; exact hna hb) hd
        unfold ackDest
        rw [hd, hd', hk.hosts, hh]; simp only [hdh]
      refine ⟨fun b => if b = a then p1 else parts b, sel1 ++ sel, new1 ++ new, ?_, ?_, ?_, ?_, ?_, ?_⟩
      · intro b hb
        by_cases hba : b = a
        · subst hba
          simp only [if_true]
          exact ⟨by rw [e1]; unfold pending; rw [hca], e2⟩
        · simp only [hba, if_false]
          rcases List.mem_cons.mp hb with h | h
          · exact absurd h hba
          · rw [← hp1 b hba]; exact f1 b h
      · rw [f2, e3, List.append_assoc]
      · rw [preparedMsgs_append]; exact e4.append f3
      · intro hb; rw [preparedMsgs_append, e5 hb, f4 hb]
      · rw [List.flatMap_cons]
        apply List.rel_append
        · simp only [if_true]
          rw [List.forall₂_map_left_iff]
          have : ackDest st a = (H c.host).addr := by unfold ackDest; rw [hca, hh]
          simp only [this]
          exact e6
        · have : (as.flatMap fun b => (if b = a then p1 else parts b).map fun p => (b, p)) =
              as.flatMap fun b => (parts b).map fun p => (b, p) := by
            apply List.flatMap_congr
            intro b hb
            rw [if_neg]
            intro he; subst he; exact hna hb
          rw [this]
          refine forall₂_mem_imp f5 ?_
          intro d x hd hx
          obtain ⟨b, hb, hd'⟩ := List.mem_flatMap.mp hd
          obtain ⟨p, _, rfl⟩ := List.mem_map.mp hd'
          exact ⟨by rw [hx.1]; exact hdest b hb, hx.2⟩
      · intro b
        rw [f6]
        by_cases hb : b ∈ as
        · simp [hb]
        · by_cases hba : b = a
          · subst hba
            simp only [hb, if_false, List.mem_cons, true_or, if_true]
            rcases hk.pend b with ⟨h, _⟩ | ⟨_, h⟩
            · exact h
            · exact absurd rfl h
          · simp [hb, hba, hp1 b hba]

end Pyogp
