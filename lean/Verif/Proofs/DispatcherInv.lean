import Verif.Proofs.Dispatcher

namespace Pyogp
open Spec

/-- What the fields of a circuit say about its history. -/
structure CircInv (h : List CEv) (c : Circuit) : Prop where
  ids : outIds h = List.range' 1 c.lastOut
  waiting : ∀ id, id ∈ c.unacked.keys ↔ Waiting h id
  ok : CircuitOk c
  final : c.finalRetry = []

theorem CircInv.fresh (r : HostRef) : CircInv [] { host := r } :=
  ⟨rfl, by intro id; simp only [Dict.keys, List.map_nil, List.not_mem_nil, false_iff]; exact not_waiting_nil id,
   ⟨by simp [Dict.keys], rfl, by simp [Dict.keys], rfl⟩, rfl⟩

theorem waiting_mem_outIds {h : List CEv} {id : Nat} (hw : Waiting h id) : id ∈ outIds h := by
  obtain ⟨pre, m, post, rfl, rfl, _, _⟩ := hw
  simp [outIds]

theorem CircInv.prepare {h : List CEv} {c : Circuit} (hi : CircInv h c) (mode : SendMode) (m : Message) :
    CircInv (h ++ [.out (mode.prepare c m).2]) (mode.prepare c m).1 := by
  rw [prepare_eq]
  have hrel := preparedMsg_reliable c m mode
  have hid := preparedMsg_id c m mode.flag mode.retries
  generalize preparedMsg c m mode.flag mode.retries = p at hrel hid
  have hnew : c.lastOut + 1 ∉ c.unacked.keys := by
    intro hk
    have := waiting_mem_outIds ((hi.waiting _).mp hk)
    rw [hi.ids] at this
    simp only [List.mem_range'_1] at this
    omega
  have hids : outIds (h ++ [.out p]) = List.range' 1 (c.lastOut + 1) := by
    rw [outIds_snoc_out, hi.ids, hid, List.range'_concat]; simp [Nat.add_comm]
  cases hm : mode.isReliable with
  | false =>
    simp only [Bool.false_eq_true, if_false]
    rw [hm] at hrel
    refine ⟨hids, ?_, ⟨hi.ok.1, hi.ok.2, hi.ok.3, hi.ok.4⟩, hi.final⟩
    intro id
    rw [waiting_snoc_out]
    simp only [Circuit.nextPacketId, hi.waiting id, hrel, Bool.false_eq_true, and_false, or_false]
  | true =>
    simp only [if_true]
    rw [hm] at hrel
    have hkeys : (c.unacked.set p.packetId p).keys = c.unacked.keys ++ [c.lastOut + 1] := by
      rw [Dict.keys_set, hid, if_neg hnew]
    refine ⟨hids, ?_, ⟨?_, ?_, hi.ok.3, hi.ok.4⟩, hi.final⟩
    · intro id
      rw [waiting_snoc_out]
      simp only [Circuit.addReliablePacket, Circuit.nextPacketId]
      rw [hkeys, List.mem_append, hi.waiting id, hid]
      simp only [List.mem_singleton, hrel, and_true, eq_comm]
    · simp only [Circuit.addReliablePacket, Circuit.nextPacketId]
      rw [hkeys]
      refine List.nodup_append.mpr ⟨hi.ok.nodup, by simp, ?_⟩
      intro a ha b hb
      simp only [List.mem_singleton] at hb
      subst hb; intro he; subst he; exact hnew ha
    · simp only [Circuit.addReliablePacket, Circuit.nextPacketId]
      have := congrArg List.length hkeys
      simp only [Dict.keys, List.length_map, List.length_append, List.length_singleton] at this
      rw [this, hi.ok.count]; simp

theorem CircInv.handle {h : List CEv} {c : Circuit} (hi : CircInv h c) (m : Message) :
    CircInv (h ++ [.inn m]) (c.handlePacket m) := by
  have hf := handlePacket_fields c m
  refine ⟨?_, ?_, handlePacket_ok hi.ok m, ?_⟩
  · rw [outIds_snoc_inn, hi.ids, hf.2.2.1]
  · intro id
    rw [waiting_snoc_inn, ← hi.waiting id, hf.2.2.2.2.2.1]
    simp only [Dict.keys, List.mem_map, List.mem_filter, decide_eq_true_eq]
    constructor
    · rintro ⟨p, ⟨h1, h2⟩, rfl⟩; exact ⟨⟨p, h1, rfl⟩, h2⟩
    · rintro ⟨⟨p, h1, rfl⟩, h2⟩; exact ⟨p, ⟨h1, h2⟩, rfl⟩
  · rw [hf.2.2.2.2.2.2, hi.final]; rfl

/-- The same with other fields changed. -/
theorem CircInv.congr {h : List CEv} {c c' : Circuit} (hi : CircInv h c) (h1 : c'.lastOut = c.lastOut) (h2 : c'.unacked = c.unacked)
    (h3 : c'.unackCount = c.unackCount) (h4 : c'.finalRetry = c.finalRetry) (h5 : c'.finalCount = c.finalCount) : CircInv h c' := by
  constructor
  · rw [h1]; exact hi.ids
  · rw [h2]; exact hi.waiting
  · exact ⟨by rw [h2]; exact hi.ok.1, by rw [h3, h2]; exact hi.ok.2, by rw [h4]; exact hi.ok.3, by rw [h5, h4]; exact hi.ok.4⟩
  · rw [h4]; exact hi.final

/-- The invariant of a dispatcher. -/
structure Inv (st : DState) : Prop where
  nodup : st.circuits.keys.Nodup
  circ : ∀ a c, st.circuits.get? a = some c → CircInv (circuitHistory a st.trace) c
  absent : ∀ a, st.circuits.get? a = none → circuitHistory a st.trace = []
  noRetry : st.unackedCircuits = []
  packetsIn : st.packetsIn = receivedCount st.trace
  packetsOut : st.packetsOut = sentCount st.trace

theorem receivedCount_snoc (tr : List Ev) (e : Ev) : receivedCount (tr ++ [e]) =
    receivedCount tr + (match e with | .received _ _ => 1 | _ => 0) := by
  cases e <;> simp [receivedCount, List.filter_append]
theorem sentCount_snoc (tr : List Ev) (e : Ev) : sentCount (tr ++ [e]) =
    sentCount tr + (match e with | .sent _ _ => 1 | _ => 0) := by
  cases e <;> simp [sentCount, List.filter_append]

theorem nodup_set {κ α : Type} [DecidableEq κ] {d : Dict κ α} (h : d.keys.Nodup) (k : κ) (v : α) : (d.set k v).keys.Nodup := by
  rw [Dict.keys_set]
  split
  · exact h
  · rename_i hk
    refine List.nodup_append.mpr ⟨h, by simp, ?_⟩
    intro a ha b hb
    simp only [List.mem_singleton] at hb
    subst hb; intro he; subst he; exact hk ha

/-- An event without effect on histories. -/
theorem Inv.logSilent {st : DState} (hi : Inv st) {e : Ev} (h1 : ∀ a h, extendHistory a h e = h)
    (h2 : (match e with | .received _ _ => 1 | _ => 0) = 0) (h3 : (match e with | .sent _ _ => 1 | _ => 0) = 0) : Inv (st.log e) := by
  refine ⟨hi.nodup, ?_, ?_, hi.noRetry, ?_, ?_⟩
  · intro a c hc; simp only [DState.log]; rw [history_snoc, h1]; exact hi.circ a c hc
  · intro a hc; simp only [DState.log]; rw [history_snoc, h1]; exact hi.absent a hc
  · simp only [DState.log, receivedCount_snoc, h2]; exact hi.packetsIn
  · simp only [DState.log, sentCount_snoc, h3]; exact hi.packetsOut

/-- Changing a circuit without effect on what its history determines. -/
theorem Inv.setCircuit {st : DState} (hi : Inv st) {a : Addr} {c c' : Circuit} (hc : st.circuits.get? a = some c)
    (h1 : c'.lastOut = c.lastOut) (h2 : c'.unacked = c.unacked)
    (h3 : c'.unackCount = c.unackCount) (h4 : c'.finalRetry = c.finalRetry) (h5 : c'.finalCount = c.finalCount) :
    Inv (st.setCircuit a c') := by
  refine ⟨nodup_set hi.nodup _ _, ?_, ?_, hi.noRetry, hi.packetsIn, hi.packetsOut⟩
  · intro a' d hd
    simp only [DState.setCircuit, Dict.get?_set] at hd
    split at hd
    · rename_i he; subst he; cases hd; exact (hi.circ _ _ hc).congr h1 h2 h3 h4 h5
    · exact hi.circ _ _ hd
  · intro a' hd
    simp only [DState.setCircuit, Dict.get?_set] at hd
    split at hd
    · cases hd
    · exact hi.absent _ hd

theorem Inv.find {st : DState} (hi : Inv st) (r : HostRef) : Inv (findCircuit st r).1 := by
  obtain ⟨hh, ht, hin, hout, hu, hd, hg, hc⟩ := findCircuit_fields st r
  refine ⟨?_, ?_, ?_, by rw [hu]; exact hi.noRetry, by rw [hin, ht]; exact hi.packetsIn, by rw [hout, ht]; exact hi.packetsOut⟩
  · unfold findCircuit addCircuit
    split
    · exact hi.nodup
    · exact nodup_set hi.nodup _ _
  · intro a c hac
    rw [hg] at hac
    rw [ht]
    split at hac
    · rename_i h
      cases hac
      rw [hi.absent a h.2, hc, h.1, h.2]
      exact CircInv.fresh r
    · exact hi.circ a c hac
  · intro a hac
    rw [hg] at hac
    rw [ht]
    split at hac
    · cases hac
    · exact hi.absent a hac

theorem Inv.prepared {st : DState} (hi : Inv st) (m : Message) (r : HostRef) (mode : SendMode) : Inv (preparedState st m r mode) := by
  have hf := hi.find r
  have hgc := findCircuit_get? st r
  obtain ⟨hh, ht, hin, hout, hd, hcs⟩ := preparedState_fields st m r mode
  obtain ⟨_, hft, _⟩ := findCircuit_fields st r
  have hcirc := (hf.circ _ _ hgc).prepare mode m
  rw [hft] at hcirc
  refine ⟨?_, ?_, ?_, ?_, ?_, ?_⟩
  · rw [hcs]; exact nodup_set hf.nodup _ _
  · intro a c hc
    rw [hcs, Dict.get?_set] at hc
    rw [ht, history_snoc]
    split at hc
    · rename_i he; subst he; cases hc
      simp only [extendHistory, if_true]; exact hcirc
    · rename_i he
      simp only [extendHistory, if_neg he]
      rw [← hft]; exact hf.circ a c hc
  · intro a hc
    rw [hcs, Dict.get?_set] at hc
    rw [ht, history_snoc]
    split at hc
    · cases hc
    · rename_i he
      simp only [extendHistory, if_neg he]
      rw [← hft]; exact hf.absent a hc
  · unfold preparedState
    simp only
    split
    · rw [if_neg]
      · exact hf.noRetry
      · -- the count has just been incremented
        have h1 := (hf.circ _ _ hgc).ok.count
        rename_i retries
        rw [prepare_eq]
        simp only [SendMode.isReliable, if_true, Circuit.addReliablePacket, Circuit.nextPacketId]
        omega
    · exact hf.noRetry
  · rw [hin, ht, receivedCount_snoc]; exact hi.packetsIn
  · rw [hout, ht, sentCount_snoc]; exact hi.packetsOut

theorem Inv.closed (env : DEnv) : Closed env (fun _ _ => True) Inv := by
  refine { hosts := ?_, outgoing := ?_, transmit := ?_, received := ?_, collect := ?_, parsed := ?_, delivered := ?_, cleared := ?_, remove := ?_, trust := ?_ }
  · intro st r v _ hi; exact ⟨hi.nodup, hi.circ, hi.absent, hi.noRetry, hi.packetsIn, hi.packetsOut⟩
  · intro st m hi; exact hi.logSilent (fun _ _ => rfl) rfl rfl
  · intro st m r mode hi
    have hp := hi.prepared m r mode
    rw [transmit_eq]
    rcases handToSocket_cases env (preparedState st m r mode) (st.hosts r).addr (mode.prepare (findCircuit st r).2 m).2 with h | ⟨dg, _, _, h⟩
    · rw [h]; exact hp
    · rw [h]
      refine ⟨hp.nodup, ?_, ?_, hp.noRetry, ?_, ?_⟩
      · intro a c hc; simp only [DState.log]; rw [history_snoc]; exact hp.circ a c hc
      · intro a hc; simp only [DState.log]; rw [history_snoc]; exact hp.absent a hc
      · simp only [DState.log, receivedCount_snoc]; exact hp.packetsIn
      · simp only [DState.log, sentCount_snoc]; rw [hp.packetsOut]
  · intro st r dg hi
    have hp := hi.find r
    refine ⟨hp.nodup, ?_, ?_, hp.noRetry, ?_, ?_⟩
    · intro a c hc; simp only [DState.log]; rw [history_snoc]; exact hp.circ a c hc
    · intro a hc; simp only [DState.log]; rw [history_snoc]; exact hp.absent a hc
    · simp only [DState.log, receivedCount_snoc]; rw [hp.packetsIn]
    · simp only [DState.log, sentCount_snoc]; exact hp.packetsOut
  · intro st a c pid hi hc _; exact hi.setCircuit hc rfl rfl rfl rfl rfl
  · intro st a c m hi hc _
    refine ⟨nodup_set hi.nodup _ _, ?_, ?_, hi.noRetry, ?_, ?_⟩
    · intro a' d hd
      simp only [DState.log, DState.setCircuit, Dict.get?_set] at hd ⊢
      rw [history_snoc]
      split at hd
      · rename_i he; subst he; cases hd
        simp only [extendHistory, if_true]; exact (hi.circ _ _ hc).handle m
      · rename_i he
        simp only [extendHistory, if_neg he]; exact hi.circ _ _ hd
    · intro a' hd
      simp only [DState.log, DState.setCircuit, Dict.get?_set] at hd ⊢
      rw [history_snoc]
      split at hd
      · cases hd
      · rename_i he
        simp only [extendHistory, if_neg he]; exact hi.absent _ hd
    · simp only [DState.log, receivedCount_snoc]; exact hi.packetsIn
    · simp only [DState.log, sentCount_snoc]; exact hi.packetsOut
  · intro st m hi; exact hi.logSilent (fun _ _ => rfl) rfl rfl
  · intro st a c hi hc; exact hi.setCircuit hc rfl rfl rfl rfl rfl
  · intro st r hi
    have hg : ∀ a, (removeCircuitData st.circuits (st.hosts r)).get? a = if a = (st.hosts r).addr then none else st.circuits.get? a := by
      intro a
      unfold removeCircuitData
      split
      · rw [Dict.get?_del]
      · rename_i hh
        split
        · rename_i he; subst he
          simp only [Dict.has, Bool.not_eq_true] at hh
          exact Option.isNone_iff_eq_none.mp (by simpa using hh)
        · rfl
    refine ⟨?_, ?_, ?_, hi.noRetry, ?_, ?_⟩
    · simp only [DState.log, removeCircuitData]
      split
      · simp only [Dict.keys, Dict.del, List.Nodup]
        exact List.Pairwise.sublist (List.Sublist.map _ List.filter_sublist) hi.nodup
      · exact hi.nodup
    · intro a c hc
      simp only [DState.log] at hc ⊢
      rw [hg] at hc
      rw [history_snoc]
      split at hc
      · cases hc
      · rename_i he
        simp only [extendHistory, if_neg (Ne.symm he)]; exact hi.circ a c hc
    · intro a hc
      simp only [DState.log] at hc ⊢
      rw [hg] at hc
      rw [history_snoc]
      split at hc
      · rename_i he; subst he; simp [extendHistory]
      · rename_i he
        simp only [extendHistory, if_neg (Ne.symm he)]; exact hi.absent a hc
    · simp only [DState.log, receivedCount_snoc]; exact hi.packetsIn
    · simp only [DState.log, sentCount_snoc]; exact hi.packetsOut
  · intro st a c b hi hc; exact hi.setCircuit hc rfl rfl rfl rfl rfl

theorem Inv.init (hosts : HostRef → Host) : Inv (DState.init hosts) :=
  ⟨by simp [DState.init, Dict.keys], (by intro a c h; cases h), fun a _ => rfl, rfl, rfl, rfl⟩

theorem reachable_inv (env : DEnv) (hosts : HostRef → Host) (ops : List Op) : Inv (runOps env (DState.init hosts) ops) :=
  runOps_preserves (Inv.closed env) (fun _ _ => Prog.mutates_any _) ops (fun _ _ _ _ _ => trivial) _ (Inv.init hosts)

end Pyogp
