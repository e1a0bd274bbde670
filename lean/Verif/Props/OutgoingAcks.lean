import Verif.Props.Outgoing
import Verif.Props.Circuit

namespace Pyogp
open Spec

/-! ## C117

Acknowledging when subscribers get the messages as objects. -/

theorem onlySends_leaves {p : RProg} (h : OnlySends p) : LeavesContent p := by
  induction h with
  | done => exact .done
  | raise e => exact .raise e
  | look k _ ih => exact .look k ih
  | send m r mode k _ ih => exact .send m r mode k ih
  | forward r mode k _ ih => exact .forward r mode k ih

/-- A sending function that keeps hosts, circuits and queues. -/
def SendKeepsH (H : HostRef → Host) (send : ObjSend) : Prop := ∀ st m r mode, st.hosts = H → Keeps H st (send st m r mode).2.2

theorem runO_keeps {H : HostRef → Host} {send : ObjSend} (hs : SendKeepsH H send) {p : RProg} (h : OnlySends p) :
    ∀ (m : Message) (st : DState), st.hosts = H → Keeps H st (p.runO send m st).2.2 := by
  induction h with
  | done => intro m st hh; exact Keeps.refl hh
  | raise e => intro m st hh; exact Keeps.refl hh
  | look k _ ih => intro m st hh; rw [RProg.runO]; exact ih m m st hh
  | send m' r mode k _ ih =>
    intro m st hh
    rw [RProg.runO]
    have h1 := hs st m' r mode hh
    exact h1.trans (ih _ m _ h1.hosts)
  | forward r mode k _ ih =>
    intro m st hh
    rw [RProg.runO]
    have h1 := hs st m r mode hh
    exact h1.trans (ih _ _ _ h1.hosts)

theorem notifyO_keeps {H : HostRef → Host} {send : ObjSend} (hs : SendKeepsH H send) : ∀ (ps : List RProg) (_ : ∀ p ∈ ps, OnlySends p) (m : Message) (st : DState),
    st.hosts = H → Keeps H st (notifyO send ps m st).2.2
  | [], _, m, st, hh => Keeps.refl hh
  | p :: ps, h, m, st, hh => by
    have h1 := runO_keeps hs (h p List.mem_cons_self) m st hh
    unfold notifyO
    generalize p.runO send m st = x at h1 ⊢
    obtain ⟨x1, x2, x3⟩ := x
    cases x1 with
    | error e => exact h1
    | ok u => exact Keeps.trans h1 (notifyO_keeps hs ps (fun q hq => h q (List.mem_cons_of_mem _ hq)) x2 x3 h1.hosts)

theorem log_outgoing_keeps {H : HostRef → Host} (st : DState) (m : Message) (hh : st.hosts = H) : Keeps H st (st.log (.outgoing m)) :=
  ⟨hh, List.prefix_append _ _, fun _ c hc => ⟨c, hc, rfl, rfl, rfl⟩, fun _ => rfl⟩

theorem handleO_state {send : ObjSend} (ps : List RProg) (m : Message) (st : DState) : (handleO send ps m st).2.2 = (notifyO send ps m st).2.2 := by
  unfold handleO
  generalize notifyO send ps m st = x
  obtain ⟨x1, x2, x3⟩ := x
  cases x1 <;> rfl

theorem sendO_keeps {env : DEnv} {subs : ObjSubs} (hs0 : ∀ tr n, ∀ p ∈ subs tr n, OnlySends p) {H : HostRef → Host} : ∀ n, SendKeepsH H (sendO env subs n)
  | 0, st, m, r, mode, hh => Keeps.refl hh
  | n + 1, st, m, r, mode, hh => by
    unfold sendO
    split
    · exact Keeps.refl hh
    · split
      · simp only
        have h1 := (log_outgoing_keeps st m hh).trans
          (notifyO_keeps (sendO_keeps (env := env) hs0 n) (subs (st.log (.outgoing m)).trace m.name) (hs0 _ _) m (st.log (.outgoing m)) hh)
        rw [← handleO_state] at h1
        generalize handleO (sendO env subs n) (subs (st.log (.outgoing m)).trace m.name) m (st.log (.outgoing m)) = x at h1 ⊢
        obtain ⟨x1, x2, x3⟩ := x
        cases x1 with
        | error e => exact h1
        | ok u =>
          have h2 := transmit_keeps env x3 x2 r mode
          rw [h1.hosts] at h2
          exact h1.trans h2
      · have h2 := transmit_keeps env st m r mode
        rw [hh] at h2
        exact h2

theorem sendO_ok {env : DEnv} {subs : ObjSubs} (hs0 : ∀ tr n, ∀ p ∈ subs tr n, OnlySends p) {H : HostRef → Host} {n : Nat} {st st' : DState} {m : Message}
    {r : HostRef} {mode : SendMode} (hh : st.hosts = H) (hok : (H r).isOk = true) {o : Option Bytes}
    (hs : ((sendO env subs n st m r mode).1, (sendO env subs n st m r mode).2.2) = (.ok o, st')) :
    ∃ pre m' post, st'.trace = st.trace ++ (pre ++ (.prepared (H r).addr m' :: post)) ∧ m'.name = m.name ∧ m'.blocks = m.blocks ∧
      preparedMsgs post = [] ∧ (env.handleOutgoing = false → pre = []) := by
  cases n with
  | zero => cases hs
  | succ n =>
    unfold sendO at hs
    simp only [hh, hok, Bool.not_true, Bool.false_eq_true, if_false] at hs
    split at hs
    · rename_i hb
      have h1 := (log_outgoing_keeps st m hh).trans
        (notifyO_keeps (sendO_keeps (env := env) hs0 n) (subs (st.log (.outgoing m)).trace m.name) (hs0 _ _) m (st.log (.outgoing m)) hh)
      have h0 := notifyO_content (sendO_content (env := env) (fun tr n p hp => onlySends_leaves (hs0 tr n p hp)) n) (subs (st.log (.outgoing m)).trace m.name)
        (fun p hp => onlySends_leaves (hs0 _ _ p hp)) m (st.log (.outgoing m))
      rw [← handleO_state] at h1
      rw [← handleO_object] at h0
      generalize handleO (sendO env subs n) (subs (st.log (.outgoing m)).trace m.name) m (st.log (.outgoing m)) = x at h0 h1 hs
      obtain ⟨x1, x2, x3⟩ := x
      cases x1 with
      | error e => cases hs
      | ok u =>
        obtain rfl : (transmit env x3 x2 r mode).2 = st' := (Prod.ext_iff.mp hs).2
        obtain ⟨pre, hpre⟩ := h1.trace
        obtain ⟨_, _, post, h3, h4⟩ := transmit_circ env x3 x2 r mode
        have hx3 : x3.hosts = H := h1.hosts
        rw [hx3] at h3
        have hc : contentOf x2 = contentOf m := h0
        refine ⟨pre, _, post, by rw [h3, ← hpre, List.append_assoc], ?_, ?_, h4, by rw [hb]; intro h; cases h⟩
        · rw [prepare_eq]; exact (preparedMsg_name _ _ _ _).trans (congrArg Prod.fst hc)
        · rw [prepare_eq]; exact (preparedMsg_blocks _ _ _ _).trans (congrArg Prod.snd hc)
    · obtain rfl : (transmit env st m r mode).2 = st' := (Prod.ext_iff.mp hs).2
      obtain ⟨_, _, post, h3, h4⟩ := transmit_circ env st m r mode
      rw [hh] at h3
      refine ⟨[], _, post, by rw [h3]; rfl, ?_, ?_, h4, fun _ => rfl⟩
      · rw [prepare_eq]; exact preparedMsg_name _ _ _ _
      · rw [prepare_eq]; exact preparedMsg_blocks _ _ _ _

theorem ackLoopO_ok {env : DEnv} {subs : ObjSubs} (hs0 : ∀ tr n, ∀ p ∈ subs tr n, OnlySends p) {H : HostRef → Host} {r : HostRef} (hok : (H r).isOk = true) :
    ∀ (ids acc : List Nat) (msg : Message) (st : DState) (n' : Nat) (msg' : Message) (st' : DState), st.hosts = H →
      acc.length < 251 → (acc ≠ [] → IsAckFor msg acc) → ackLoopO env subs r ids acc.length msg st = (.ok (n', msg'), st') →
      ∃ parts rest sel new, acc ++ ids = parts.flatten ++ rest ∧ (∀ p ∈ parts, p.length = 251) ∧ rest.length < 251 ∧ n' = rest.length ∧
        (rest ≠ [] → IsAckFor msg' rest) ∧ Keeps H st st' ∧ st'.trace = st.trace ++ new ∧
        sel.Sublist (preparedMsgs new) ∧ (env.handleOutgoing = false → sel = preparedMsgs new) ∧ AcksFor (H r).addr parts sel
  | [], acc, msg, st, n', msg', st', hh, hl, hm, h => by
    simp only [ackLoopO, Prod.mk.injEq, Except.ok.injEq] at h
    obtain ⟨⟨rfl, rfl⟩, rfl⟩ := h
    exact ⟨[], acc, [], [], by simp, by simp, hl, rfl, hm, Keeps.refl hh, by simp, by simp [preparedMsgs], fun _ => rfl, .nil⟩
  | pid :: ids, acc, msg, st, n', msg', st', hh, hl, hm, h => by
    have hmsg : IsAckFor (addAckBlock (if acc.length = 0 then Message.new "PacketAck" [] else msg) pid) (acc ++ [pid]) := by
      apply packetAck_add
      cases acc with
      | nil => exact .inr ⟨rfl, rfl⟩
      | cons x xs => exact .inl (hm (by simp))
    unfold ackLoopO at h
    simp only at h
    generalize addAckBlock (if acc.length = 0 then Message.new "PacketAck" [] else msg) pid = msg1 at h hmsg
    split at h
    · rename_i hgt
      split at h
      · cases h
      · rename_i o msg2 st1 hs
        have hk1 : Keeps H st st1 := by
          have := sendO_keeps (env := env) hs0 env.depth st msg1 r .plain hh
          rw [hs] at this; exact this
        obtain ⟨pre, m', post, htr, hnm, hbl, hpost, hpre⟩ := sendO_ok hs0 hh hok (show ((sendO env subs env.depth st msg1 r .plain).1, (sendO env subs env.depth st msg1 r .plain).2.2) = (.ok o, st1) by rw [hs])
        obtain ⟨parts, rest, sel, new, h1, h2, h3, h4, h5, h6, h7, h8, h9, h10⟩ :=
          ackLoopO_ok hs0 hok ids [] msg2 st1 n' msg' st' hk1.hosts (by simp) (by simp) h
        refine ⟨(acc ++ [pid]) :: parts, rest, ((H r).addr, m') :: sel, pre ++ (.prepared (H r).addr m' :: post) ++ new, ?_, ?_, h3, h4, h5,
          hk1.trans h6, ?_, ?_, ?_, ?_⟩
        · simp only [List.nil_append] at h1
          rw [h1]; simp
        · intro p hp
          rcases List.mem_cons.mp hp with rfl | hp
          · simp; omega
          · exact h2 p hp
        · rw [h7, htr, List.append_assoc]
        · rw [preparedMsgs_append, preparedMsgs_append]
          have : preparedMsgs (.prepared (H r).addr m' :: post) = [((H r).addr, m')] := by
            have h := preparedMsgs_append [.prepared (H r).addr m'] post
            rw [hpost] at h; exact h
          rw [this, List.append_assoc]
          exact List.Sublist.trans (List.Sublist.cons_cons _ h8) (List.sublist_append_right _ _)
        · intro hb
          rw [hpre hb, preparedMsgs_append, preparedMsgs_append]
          have : preparedMsgs (.prepared (H r).addr m' :: post) = [((H r).addr, m')] := by
            have h := preparedMsgs_append [.prepared (H r).addr m'] post
            rw [hpost] at h; exact h
          rw [this, ← h9 hb]; rfl
        · exact .cons ⟨rfl, by rw [IsAckFor, hnm, hbl]; exact hmsg⟩ h10
    · rename_i hgt
      have hlen : (acc ++ [pid]).length = acc.length + 1 := by simp
      rw [← hlen] at h
      obtain ⟨parts, rest, sel, new, h1, h2⟩ :=
        ackLoopO_ok hs0 hok ids (acc ++ [pid]) msg1 st n' msg' st' hh (by simp; omega) (fun _ => hmsg) h
      exact ⟨parts, rest, sel, new, by rw [← h1]; simp, h2⟩

theorem ackCircuitO_ok {env : DEnv} {subs : ObjSubs} (hs0 : ∀ tr n, ∀ p ∈ subs tr n, OnlySends p) {H : HostRef → Host} {st st' : DState} {a : Addr} {c : Circuit}
    (hh : st.hosts = H) (hc : st.circuits.get? a = some c) (hok : (H c.host).isOk = true)
    (h : ackCircuitO env subs st a = (.ok (), st')) :
    ∃ parts sel new, parts.flatten = c.acks ∧ (∀ p ∈ parts, p ≠ [] ∧ p.length ≤ 251) ∧ st'.trace = st.trace ++ new ∧
      sel.Sublist (preparedMsgs new) ∧ (env.handleOutgoing = false → sel = preparedMsgs new) ∧ AcksFor (H c.host).addr parts sel ∧
      KeepsBut H (· = a) st st' := by
  unfold ackCircuitO at h
  simp only [hc] at h
  split at h
  · cases h
  · rename_i n msg st1 hl
    obtain ⟨parts, rest, sel, new, h1, h2, h3, h4, h5, h6, h7, h8, h9, h10⟩ :=
      ackLoopO_ok hs0 hok c.acks [] (Message.new "PacketAck" []) st n msg st1 hh (by simp) (by simp) hl
    simp only [List.nil_append] at h1
    have hfin : ∀ st2 : DState, Keeps H st st2 → (match st2.circuits.get? a with
        | none => ((Except.ok () : Py Unit), st2)
        | some c => (Except.ok (), st2.setCircuit a { c with acks := [] })) = (.ok (), st') →
        KeepsBut H (· = a) st st' ∧ st'.trace = st2.trace := by
      intro st2 hk hm
      obtain ⟨c2, hc2, _, _⟩ := hk.circ a c hc
      rw [hc2] at hm
      cases hm
      refine ⟨⟨hk.hosts, ?_, ?_⟩, rfl⟩
      · intro b d hb hd
        obtain ⟨d', hd', e1, e2, _⟩ := hk.circ b d hd
        refine ⟨d', ?_, e1, e2⟩
        simp only [DState.setCircuit, Dict.get?_set]
        rw [if_neg (fun he => hb he.symm)]; exact hd'
      · intro b
        rw [pending_setCircuit]
        by_cases hb : a = b
        · exact .inl ⟨by simp [hb], hb.symm⟩
        · exact .inr ⟨by rw [if_neg hb]; exact hk.pend b, fun he => hb he.symm⟩
    by_cases hn : 0 < n
    · simp only [hn, if_true] at h
      split at h
      · cases h
      · rename_i o st2 hs
        have hk2 : Keeps H st st2 := by
          have := sendO_keeps (env := env) hs0 env.depth st1 msg c.host .plain h6.hosts
          rw [(Prod.ext_iff.mp hs).2] at this; exact h6.trans this
        obtain ⟨pre, m', post, htr, hnm, hbl, hpost, hpre⟩ := sendO_ok hs0 h6.hosts hok hs
        obtain ⟨hkb, htr'⟩ := hfin st2 hk2 h
        have hrest : rest ≠ [] := by intro he; rw [he] at h4; simp at h4; omega
        have hone : preparedMsgs (.prepared (H c.host).addr m' :: post) = [((H c.host).addr, m')] := by
          have h := preparedMsgs_append [.prepared (H c.host).addr m'] post
          rw [hpost] at h; exact h
        refine ⟨parts ++ [rest], sel ++ [((H c.host).addr, m')], new ++ (pre ++ (.prepared (H c.host).addr m' :: post)), ?_, ?_, ?_, ?_, ?_, ?_, hkb⟩
        · rw [h1]; simp
        · intro p hp
          rcases List.mem_append.mp hp with hp | hp
          · have := h2 p hp
            exact ⟨by intro he; rw [he] at this; simp at this, by omega⟩
          · simp only [List.mem_singleton] at hp; subst hp; exact ⟨hrest, by omega⟩
        · rw [htr', htr, h7, List.append_assoc]
        · rw [preparedMsgs_append, preparedMsgs_append, hone]
          exact List.Sublist.append h8 (List.sublist_append_right _ _)
        · intro hb
          rw [preparedMsgs_append, hpre hb, List.nil_append, hone, ← h9 hb]
        · exact List.rel_append h10 (.cons ⟨rfl, by rw [IsAckFor, hnm, hbl]; exact h5 hrest⟩ .nil)
    · simp only [hn, if_false] at h
      have hrest : rest = [] := by
        cases rest with
        | nil => rfl
        | cons x xs => rw [h4] at hn; simp at hn
      obtain ⟨hkb, htr'⟩ := hfin st1 h6 h
      refine ⟨parts, sel, new, by rw [h1, hrest]; simp, ?_, by rw [htr', h7], h8, h9, h10, hkb⟩
      intro p hp
      have := h2 p hp
      exact ⟨by intro he; rw [he] at this; simp at this, by omega⟩

theorem sendAcksO_ok {env : DEnv} {subs : ObjSubs} (hs0 : ∀ tr n, ∀ p ∈ subs tr n, OnlySends p) {H : HostRef → Host} :
    ∀ (order : List Addr) (st st' : DState), st.hosts = H → order.Nodup →
      (∀ a ∈ order, ∃ c, st.circuits.get? a = some c ∧ (H c.host).isOk = true) → sendAcksO env subs order st = (.ok (), st') →
      ∃ (parts : Addr → List (List Nat)) (sel : List (Addr × Message)) (new : List Ev),
        (∀ a ∈ order, (parts a).flatten = pending st a ∧ ∀ p ∈ parts a, p ≠ [] ∧ p.length ≤ 251) ∧
        st'.trace = st.trace ++ new ∧ sel.Sublist (preparedMsgs new) ∧ (env.handleOutgoing = false → sel = preparedMsgs new) ∧
        List.Forall₂ (fun (d : Addr × List Nat) (x : Addr × Message) => x.1 = ackDest st d.1 ∧ IsAckFor x.2 d.2)
          (order.flatMap fun a => (parts a).map fun p => (a, p)) sel ∧
        (∀ a, pending st' a = if a ∈ order then [] else pending st a)
  | [], st, st', hh, hn, hc, h => by
    simp only [sendAcksO, Prod.mk.injEq, true_and] at h
    subst h
    exact ⟨fun _ => [], [], [], by simp, by simp, by simp [preparedMsgs], fun _ => rfl, .nil, by simp⟩
  | a :: as, st, st', hh, hn, hc, h => by
    unfold sendAcksO at h
    obtain ⟨c, hca, hok⟩ := hc a List.mem_cons_self
    obtain ⟨hna, hnas⟩ := List.nodup_cons.mp hn
    split at h
    · cases h
    · rename_i st1 hac
      obtain ⟨p1, sel1, new1, e1, e2, e3, e4, e5, e6, hk⟩ := ackCircuitO_ok hs0 hh hca hok hac
      obtain ⟨parts, sel, new, f1, f2, f3, f4, f5, f6⟩ := sendAcksO_ok hs0 as st1 st' hk.hosts hnas (by
        intro b hb
        obtain ⟨d, hd, hdok⟩ := hc b (List.mem_cons_of_mem _ hb)
        obtain ⟨d', hd', hdh, _⟩ := hk.circ b d (by intro he; subst he; exact hna hb) hd
        exact ⟨d', hd', by rw [hdh]; exact hdok⟩) h
      have hp1 : ∀ b, b ≠ a → pending st1 b = pending st b := by
        intro b hb
        rcases hk.pend b with ⟨_, h⟩ | ⟨h, _⟩
        · exact absurd h hb
        · exact h
      have hdest : ∀ b, b ∈ as → ackDest st1 b = ackDest st b := by
        intro b hb
        obtain ⟨d, hd, _⟩ := hc b (List.mem_cons_of_mem _ hb)
        obtain ⟨d', hd', hdh, _⟩ := hk.circ b d (by intro he; subst he; exact hna hb) hd
        unfold ackDest
        rw [hd, hd', hk.hosts, hh]; simp only [hdh]
      refine ⟨fun b => if b = a then p1 else parts b, sel1 ++ sel, new1 ++ new, ?_, ?_, ?_, ?_, ?_, ?_⟩
      · intro b hb
        by_cases hba : b = a
        · subst hba
          simp only [if_true]
          exact ⟨by rw [e1]; unfold pending; rw [hca], e2⟩
        · simp only [hba, if_false]
          rcases List.mem_cons.mp hb with h | h
          · exact absurd h hba
          · rw [← hp1 b hba]; exact f1 b h
      · rw [f2, e3, List.append_assoc]
      · rw [preparedMsgs_append]; exact e4.append f3
      · intro hb; rw [preparedMsgs_append, e5 hb, f4 hb]
      · rw [List.flatMap_cons]
        apply List.rel_append
        · simp only [if_true]
          rw [List.forall₂_map_left_iff]
          have : ackDest st a = (H c.host).addr := by unfold ackDest; rw [hca, hh]
          simp only [this]
          exact e6
        · have : (as.flatMap fun b => (if b = a then p1 else parts b).map fun p => (b, p)) =
              as.flatMap fun b => (parts b).map fun p => (b, p) := by
            apply List.flatMap_congr
            intro b hb
            rw [if_neg]
            intro he; subst he; exact hna hb
          rw [this]
          refine forall₂_mem_imp f5 ?_
          intro d x hd hx
          obtain ⟨b, hb, hd'⟩ := List.mem_flatMap.mp hd
          obtain ⟨p, _, rfl⟩ := List.mem_map.mp hd'
          exact ⟨by rw [hx.1]; exact hdest b hb, hx.2⟩
      · intro b
        rw [f6]
        by_cases hb : b ∈ as
        · simp [hb]
        · by_cases hba : b = a
          · subst hba
            simp only [hb, if_false, List.mem_cons, true_or, if_true]
            rcases hk.pend b with ⟨h, _⟩ | ⟨_, h⟩
            · exact h
            · exact absurd rfl h
          · simp [hb, hba, hp1 b hba]

/-- **C117, acknowledging.** If subscribers change neither name and blocks of messages nor hosts (they may read, send, send on and raise): when `process_acks` returns, the acknowledgements of the ids that
were queued are among the packets that left their circuits, in order, with other packets that subscribers sent in between, and nothing is queued any more. -/
theorem C117_acks (env : DEnv) (subs : ObjSubs) (hs : ∀ tr n, ∀ p ∈ subs tr n, OnlySends p) (hosts : HostRef → Host) (ops : List Op) (order : List Addr)
    (hp : order.Perm (runO env subs (DState.init hosts) ops).circuits.keys) (hv : HostsValid (runO env subs (DState.init hosts) ops))
    (h : (processAcksO env subs (runO env subs (DState.init hosts) ops) order).1 = .ok ()) :
    let st := runO env subs (DState.init hosts) ops
    (∃ new sel, (processAcksO env subs st order).2.trace = st.trace ++ new ∧ sel.Sublist (preparedMsgs new) ∧ Acknowledges st order sel) ∧
    ∀ a, pending (processAcksO env subs st order).2 a = [] := by
  have hi := runO_inv env subs hosts ops
  generalize runO env subs (DState.init hosts) ops = st at *
  have hst : ∃ st', processAcksO env subs st order = (.ok (), st') := ⟨_, Prod.ext h rfl⟩
  obtain ⟨st', hst⟩ := hst
  simp only [hst]
  unfold processAcksO at hst
  have hr : resendAll st = .ok () := by unfold resendAll; rw [hi.noRetry]; rfl
  rw [hr] at hst
  obtain ⟨parts, sel, new, h1, h2, h3, h4, h5, h6⟩ := sendAcksO_ok hs order st st' rfl (hp.nodup_iff.mpr hi.nodup) (by
    intro a ha
    obtain ⟨c, hc⟩ := keys_get? (hp.mem_iff.mp ha)
    exact ⟨c, hc, hv a c hc⟩) hst
  refine ⟨⟨new, sel, h2, h3, parts, h1, forall₂_strip h5⟩, ?_⟩
  intro a
  rw [h6]
  split
  · rfl
  · rename_i hn
    unfold pending
    have : st.circuits.get? a = none := (Dict.get?_eq_none_iff _ _).mpr (fun hk => hn (hp.mem_iff.mpr hk))
    rw [this]

/-- **C117, acknowledging, otherwise.** A subscriber of `PacketAck` that changes the message: packet 9 is no longer queued, and was never acknowledged (the packet that left acknowledges 77). -/
theorem C117_acks_changed :
    let subs : ObjSubs := fun _ n => if n = "PacketAck" then [.look (fun m => .write { m with blocks := [("Packets", [packetsBlock 77])] } .done)] else []
    let st := runO watchedEnv subs (DState.init dispHosts) [.recv 0 demoDatagram]
    let x := processAcksO watchedEnv subs st [dispAddr 0]
    pending st (dispAddr 0) = [9] ∧ x.1 = .ok () ∧ pending x.2 (dispAddr 0) = [] ∧
    sentDatagrams x.2.trace = [(dispAddr 0, [0, 0, 0, 0, 1, 0, 0xff, 0xff, 0xff, 0xfb, 1, 77, 0, 0, 0])] := by decide +kernel

/-- The conditions of `C117_acks`: a subscriber that sends every acknowledgement for host 0 to host 1, too. -/
example :
    let p : RProg := .forward 1 (.reliable 3) (fun _ => .done)
    let subs : ObjSubs := fun tr n => if n = "PacketAck" ∧ (tr.filter (fun e => match e with | .outgoing _ => true | _ => false)).length = 1 then [p] else []
    let st := runO watchedEnv subs (DState.init dispHosts) [.recv 0 demoDatagram]
    let x := processAcksO watchedEnv subs st [dispAddr 0]
    OnlySends p ∧ st.circuits.keys = [dispAddr 0] ∧ (∀ c ∈ st.circuits, (st.hosts c.2.host).isOk = true) ∧ x.1 = .ok () ∧
    sentDatagrams x.2.trace = [(dispAddr 1, [0x40, 0, 0, 0, 1, 0, 0xff, 0xff, 0xff, 0xfb, 1, 9, 0, 0, 0]), (dispAddr 0, [0, 0, 0, 0, 1, 0, 0xff, 0xff, 0xff, 0xfb, 1, 9, 0, 0, 0])] :=
  ⟨.forward _ _ _ fun _ => .done, by decide +kernel⟩

end Pyogp
