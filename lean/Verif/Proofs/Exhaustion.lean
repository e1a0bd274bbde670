import Verif.Spec.Exhaustion
import Verif.Proofs.Sent

/-! # Packet ids run out -/

namespace Pyogp
open Spec

theorem sinceRemoval_snoc (a : Addr) (tr : List Ev) (e : Ev) (h : ∀ b, e ≠ .removed b) : sinceRemoval a (tr ++ [e]) = sinceRemoval a tr ++ [e] := by
  unfold sinceRemoval
  rw [List.foldl_append]
  cases e <;> first | rfl | exact absurd rfl (h _)

theorem sinceRemoval_removed (a b : Addr) (tr : List Ev) :
    sinceRemoval a (tr ++ [.removed b]) = if b = a then [] else sinceRemoval a tr ++ [.removed b] := by
  unfold sinceRemoval
  rw [List.foldl_append]
  rfl

theorem sinceRemoval_append (a : Addr) : ∀ (new tr : List Ev), (∀ b, Ev.removed b ∉ new) → sinceRemoval a (tr ++ new) = sinceRemoval a tr ++ new
  | [], tr, _ => by simp
  | e :: new, tr, h => by
    rw [show tr ++ e :: new = (tr ++ [e]) ++ new by simp, sinceRemoval_append a new _ (fun b hb => h b (List.mem_cons_of_mem _ hb)),
      sinceRemoval_snoc a tr e (fun b hb => h b (by rw [hb]; exact List.mem_cons_self))]
    simp

theorem sentTo_append (a : Addr) (x y : List Ev) : sentTo a (x ++ y) = sentTo a x ++ sentTo a y := by
  simp [sentTo, sentDatagrams_append]

/-- Under Python 2.7 only ids below `2^31` can be written. -/
theorem serialize_small {env : SerEnv} (hv : env.rt.ver = .v27) {m : Message} {dg : Bytes} (hf : m.sendFlags < 256)
    (h : serialize env m = .ok (some dg)) : m.packetId < 2 ^ 31 := by
  obtain ⟨_, pid, _, _, hp, _⟩ := serialize_ok' h hf
  by_cases hlt : m.packetId < 2 ^ 31
  · exact hlt
  · exfalso
    have : packData env.rt (.num (.int m.packetId)) .s32 (some .big) = structPack env.rt.ver .big .i (m.packetId : Int) := by
      rfl
    rw [this, hv] at hp
    unfold structPack at hp
    have hhi : IntFmt.i.hi = 2147483648 := by decide
    rw [if_neg (by
      intro hx
      have := hx.2
      rw [hhi] at this
      omega)] at hp
    cases hp

/-- What a transmission adds, when the ids have run out. -/
theorem transmit_spent {env : DEnv} (hv : env.ser.rt.ver = .v27) (st : DState) (m : Message) (r : HostRef) (mode : SendMode) (dg : Bytes)
    (h : (transmit env st m r mode).1 = .ok (some dg)) : (findCircuit st r).2.lastOut + 1 < 2 ^ 31 := by
  have h2 := (transmit_trace env st m r mode).2.1 dg h
  rw [prepare_eq] at h2
  have := serialize_small hv (preparedMsg_flags_lt _ _ _) h2
  rwa [preparedMsg_id] at this

/-- How many datagrams have left for an address. -/
def Counted (st : DState) : Prop :=
  ∀ a, (sentTo a (sinceRemoval a st.trace)).length ≤ ((st.circuits.get? a).map (·.lastOut)).getD 0 ∧
    (sentTo a (sinceRemoval a st.trace)).length < 2 ^ 31

theorem Counted.silent {st st' : DState} (h : Counted st) {new : List Ev} (ht : st'.trace = st.trace ++ new) (hr : ∀ b, Ev.removed b ∉ new)
    (hs : sentDatagrams new = []) (hc : ∀ a, ((st.circuits.get? a).map (·.lastOut)).getD 0 ≤ ((st'.circuits.get? a).map (·.lastOut)).getD 0) :
    Counted st' := by
  intro a
  have e : sentTo a (sinceRemoval a st'.trace) = sentTo a (sinceRemoval a st.trace) := by
    rw [ht, sinceRemoval_append a new _ hr, sentTo_append]
    simp [sentTo, hs]
  rw [e]
  exact ⟨Nat.le_trans (h a).1 (hc a), (h a).2⟩

theorem lastOut_set {st : DState} {a : Addr} {c c' : Circuit} (hc : st.circuits.get? a = some c) (hl : c'.lastOut = c.lastOut) (b : Addr) :
    ((st.circuits.get? b).map (·.lastOut)).getD 0 ≤ (((st.setCircuit a c').circuits.get? b).map (·.lastOut)).getD 0 := by
  simp only [DState.setCircuit, Dict.get?_set]
  by_cases hb : a = b
  · subst hb
    rw [if_pos rfl, hc]
    simp [hl]
  · rw [if_neg hb]; exact Nat.le_refl _

theorem lastOut_find (st : DState) (r : HostRef) (b : Addr) :
    (((findCircuit st r).1.circuits.get? b).map (·.lastOut)).getD 0 = ((st.circuits.get? b).map (·.lastOut)).getD 0 := by
  obtain ⟨_, _, _, _, _, _, hg, hc⟩ := findCircuit_fields st r
  rw [hg]
  split
  · rename_i h
    rw [hc, h.1, h.2]
    rfl
  · rfl

theorem Counted.transmit {env : DEnv} (hv : env.ser.rt.ver = .v27) {st : DState} (h : Counted st) (m : Message) (r : HostRef) (mode : SendMode) :
    Counted (Pyogp.transmit env st m r mode).2 := by
  obtain ⟨h1, _, _⟩ := transmit_trace env st m r mode
  have hsp := transmit_spent hv st m r mode
  intro a
  have hcirc : (((Pyogp.transmit env st m r mode).2.circuits.get? a).map (·.lastOut)).getD 0 =
      if (st.hosts r).addr = a then ((st.circuits.get? a).map (·.lastOut)).getD 0 + 1 else ((st.circuits.get? a).map (·.lastOut)).getD 0 := by
    rw [transmit_get?]
    split
    · simp only [Option.map_some, Option.getD_some, prepare_lastOut]
      cases st.circuits.get? a <;> rfl
    · rfl
  have hfind : (findCircuit st r).2.lastOut = ((st.circuits.get? (st.hosts r).addr).map (·.lastOut)).getD 0 := by
    rw [(findCircuit_fields st r).2.2.2.2.2.2.2]
    cases st.circuits.get? (st.hosts r).addr <;> rfl
  have ha := h a
  generalize (Pyogp.transmit env st m r mode).1 = o at *
  match o, hsp, h1 with
  | .ok (some dg), hsp, h1 =>
    have hlt := hsp dg rfl
    rw [h1, sinceRemoval_append a _ _ (by simp), sentTo_append, List.length_append, hcirc]
    by_cases hh : (st.hosts r).addr = a
    · subst hh
      rw [if_pos rfl]
      rw [hfind] at hlt
      simp [sentTo, sentDatagrams] at ha ⊢
      omega
    · rw [if_neg hh]
      simp [sentTo, sentDatagrams, hh] at ha ⊢
      exact ha
  | .ok none, _, h1 =>
    rw [h1, sinceRemoval_append a _ _ (by simp), sentTo_append, List.length_append, hcirc]
    simp [sentTo, sentDatagrams] at ha ⊢
    split <;> omega
  | .error _, _, h1 =>
    rw [h1, sinceRemoval_append a _ _ (by simp), sentTo_append, List.length_append, hcirc]
    simp [sentTo, sentDatagrams] at ha ⊢
    split <;> omega

theorem Counted.closed {env : DEnv} (hv : env.ser.rt.ver = .v27) : Closed env (fun _ _ => True) Counted := by
  refine { hosts := ?_, outgoing := ?_, transmit := ?_, received := ?_, collect := ?_, parsed := ?_, delivered := ?_, cleared := ?_, remove := ?_, trust := ?_ }
  · intro st r v _ h; exact h.silent (new := []) (by simp [DState.setHost]) (by simp) rfl (fun _ => Nat.le_refl _)
  · intro st m h; exact h.silent (new := [.outgoing m]) rfl (by simp) rfl (fun _ => Nat.le_refl _)
  · intro st m r mode h; exact h.transmit hv m r mode
  · intro st r dg h
    obtain ⟨_, htr, _⟩ := findCircuit_fields st r
    refine h.silent (new := [.received (st.hosts r).addr dg]) (by simp only [DState.log, htr]) (by simp) rfl ?_
    intro a
    exact Nat.le_of_eq (lastOut_find st r a).symm
  · intro st a c pid h hc _
    exact h.silent (new := []) (by simp [DState.setCircuit]) (by simp) rfl (lastOut_set (c' := c.collectAck pid) hc rfl)
  · intro st a c m h hc _
    exact h.silent (new := [.parsed a m]) rfl (by simp) rfl (lastOut_set hc (handlePacket_fields c m).2.2.1)
  · intro st m h; exact h.silent (new := [.delivered m]) rfl (by simp) rfl (fun _ => Nat.le_refl _)
  · intro st a c h hc
    exact h.silent (new := []) (by simp [DState.setCircuit]) (by simp) rfl (lastOut_set (c' := { c with acks := [] }) hc rfl)
  · intro st r h a
    simp only [DState.log, sinceRemoval_removed, removeCircuitData]
    by_cases hh : (st.hosts r).addr = a
    · rw [if_pos hh]
      simp [sentTo, sentDatagrams]
    · rw [if_neg hh, sentTo_append]
      have hg : (if st.circuits.has (st.hosts r).addr then st.circuits.del (st.hosts r).addr else st.circuits).get? a = st.circuits.get? a := by
        split
        · rw [Dict.get?_del, if_neg (fun e => hh e.symm)]
        · rfl
      rw [hg]
      simpa [sentTo, sentDatagrams] using h a
  · intro st a c x h hc
    exact h.silent (new := []) (by simp [DState.setCircuit]) (by simp) rfl (lastOut_set (c' := { c with trusted := x }) hc rfl)

/-- The ids of a circuit have run out: nothing leaves for its address any more, unless it is removed. -/
def Spent (tr0 : List Ev) (a : Addr) (st : DState) : Prop :=
  ∃ new, st.trace = tr0 ++ new ∧ (Ev.removed a ∈ new ∨ sentTo a new = [] ∧ 2 ^ 31 - 1 ≤ ((st.circuits.get? a).map (·.lastOut)).getD 0)

theorem Spent.silent {tr0 : List Ev} {a : Addr} {st st' : DState} (h : Spent tr0 a st) {ext : List Ev} (ht : st'.trace = st.trace ++ ext)
    (hs : sentTo a ext = []) (hc : Ev.removed a ∉ ext → ((st.circuits.get? a).map (·.lastOut)).getD 0 ≤ ((st'.circuits.get? a).map (·.lastOut)).getD 0) :
    Spent tr0 a st' := by
  obtain ⟨new, e, hx⟩ := h
  refine ⟨new ++ ext, by rw [ht, e, List.append_assoc], ?_⟩
  by_cases hr : Ev.removed a ∈ ext
  · exact .inl (List.mem_append_right _ hr)
  · rcases hx with hx | ⟨h1, h2⟩
    · exact .inl (List.mem_append_left _ hx)
    · exact .inr ⟨by rw [sentTo_append, h1, hs]; rfl, Nat.le_trans h2 (hc hr)⟩

theorem Spent.transmit {env : DEnv} (hv : env.ser.rt.ver = .v27) {tr0 : List Ev} {a : Addr} {st : DState} (h : Spent tr0 a st) (m : Message) (r : HostRef)
    (mode : SendMode) : Spent tr0 a (Pyogp.transmit env st m r mode).2 := by
  obtain ⟨h1, _, _⟩ := transmit_trace env st m r mode
  have hsp := transmit_spent hv st m r mode
  have hfind : (findCircuit st r).2.lastOut = ((st.circuits.get? (st.hosts r).addr).map (·.lastOut)).getD 0 := by
    rw [(findCircuit_fields st r).2.2.2.2.2.2.2]
    cases st.circuits.get? (st.hosts r).addr <;> rfl
  have hcirc : ((st.circuits.get? a).map (·.lastOut)).getD 0 ≤ (((Pyogp.transmit env st m r mode).2.circuits.get? a).map (·.lastOut)).getD 0 := by
    rw [transmit_get?]
    split
    · simp only [Option.map_some, Option.getD_some, prepare_lastOut]
      cases st.circuits.get? a
      · exact Nat.zero_le _
      · exact Nat.le_succ _
    · exact Nat.le_refl _
  generalize (Pyogp.transmit env st m r mode).1 = o at *
  obtain ⟨new, e, hx⟩ := h
  rcases hx with hx | ⟨hx1, hx2⟩
  · exact ⟨new ++ _, by rw [h1, e, List.append_assoc], .inl (List.mem_append_left _ hx)⟩
  · have h' : Spent tr0 a st := ⟨new, e, .inr ⟨hx1, hx2⟩⟩
    refine h'.silent h1 ?_ (fun _ => hcirc)
    match o, hsp with
    | .ok (some dg), hsp =>
      have hlt := hsp dg rfl
      have hne : (st.hosts r).addr ≠ a := by
        intro ha
        rw [hfind, ha] at hlt
        omega
      simp [sentTo, sentDatagrams, hne]
    | .ok none, _ => simp [sentTo, sentDatagrams]
    | .error _, _ => simp [sentTo, sentDatagrams]

theorem Spent.closed {env : DEnv} (hv : env.ser.rt.ver = .v27) (tr0 : List Ev) (a : Addr) : Closed env (fun _ _ => True) (Spent tr0 a) := by
  refine { hosts := ?_, outgoing := ?_, transmit := ?_, received := ?_, collect := ?_, parsed := ?_, delivered := ?_, cleared := ?_, remove := ?_, trust := ?_ }
  · intro st r v _ h; exact h.silent (ext := []) (by simp [DState.setHost]) rfl (fun _ => Nat.le_refl _)
  · intro st m h; exact h.silent (ext := [.outgoing m]) rfl rfl (fun _ => Nat.le_refl _)
  · intro st m r mode h; exact h.transmit hv m r mode
  · intro st r dg h
    obtain ⟨_, htr, _⟩ := findCircuit_fields st r
    refine h.silent (ext := [.received (st.hosts r).addr dg]) (by simp only [DState.log, htr]) rfl ?_
    intro _
    exact Nat.le_of_eq (lastOut_find st r a).symm
  · intro st b c pid h hc _
    exact h.silent (ext := []) (by simp [DState.setCircuit]) rfl (fun _ => lastOut_set (c' := c.collectAck pid) hc rfl a)
  · intro st b c m h hc _
    exact h.silent (ext := [.parsed b m]) rfl rfl (fun _ => lastOut_set hc (handlePacket_fields c m).2.2.1 a)
  · intro st m h; exact h.silent (ext := [.delivered m]) rfl rfl (fun _ => Nat.le_refl _)
  · intro st b c h hc
    exact h.silent (ext := []) (by simp [DState.setCircuit]) rfl (fun _ => lastOut_set (c' := { c with acks := [] }) hc rfl a)
  · intro st r h
    refine h.silent (ext := [.removed (st.hosts r).addr]) rfl rfl ?_
    intro hn
    have hh : (st.hosts r).addr ≠ a := fun e => hn (by rw [e]; exact List.mem_singleton.mpr rfl)
    simp only [DState.log, removeCircuitData]
    split
    · rw [Dict.get?_del, if_neg (fun e => hh e.symm)]; exact Nat.le_refl _
    · exact Nat.le_refl _
  · intro st b c x h hc
    exact h.silent (ext := []) (by simp [DState.setCircuit]) rfl (fun _ => lastOut_set (c' := { c with trusted := x }) hc rfl a)

end Pyogp
