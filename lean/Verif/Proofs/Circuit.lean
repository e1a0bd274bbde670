import Verif.Spec.Circuit
import Verif.Proofs.Dict

namespace Pyogp
open Spec

theorem foldl_addAck (l : List Nat) : ∀ p : Message,
    l.foldl Message.addAck p = { p with acks := p.acks ++ l, numAcks := p.numAcks + l.length } := by
  induction l with
  | nil => intro p; simp
  | cons a l ih => intro p; rw [List.foldl_cons, ih]; simp [Message.addAck]; omega

/-- The message object after `prepare_packet`. -/
def preparedMsg (c : Circuit) (p : Message) (flag : Nat) (retries : Int) : Message :=
  if 0 < c.acks.length ∧ p.name ≠ "PacketAck" then
    { p with sendFlags := flag ||| flagAck, retries := retries, packetId := c.lastOut + 1, acks := p.acks ++ c.acks,
             numAcks := p.numAcks + c.acks.length }
  else { p with sendFlags := flag, retries := retries, packetId := c.lastOut + 1 }

theorem preparePacket_eq (c : Circuit) (p : Message) (flag : Nat) (retries : Int) :
    c.preparePacket p flag retries =
      (if flag = flagReliable then c.nextPacketId.addReliablePacket (preparedMsg c p flag retries) else c.nextPacketId,
       preparedMsg c p flag retries) := by
  by_cases h : 0 < c.acks.length ∧ p.name ≠ "PacketAck"
  · unfold Circuit.preparePacket preparedMsg
    simp only [Circuit.nextPacketId, foldl_addAck, if_pos h]
    split <;> rfl
  · unfold Circuit.preparePacket preparedMsg
    simp only [Circuit.nextPacketId, h, if_false]
    split <;> rfl

theorem preparedMsg_id (c p f r) : (preparedMsg c p f r).packetId = c.lastOut + 1 := by
  unfold preparedMsg; split <;> rfl
theorem preparedMsg_name (c p f r) : (preparedMsg c p f r).name = p.name := by
  unfold preparedMsg; split <;> rfl
theorem preparedMsg_blocks (c p f r) : (preparedMsg c p f r).blocks = p.blocks := by
  unfold preparedMsg; split <;> rfl

/-- The flag a send mode asks for. -/
def SendMode.flag : SendMode → Nat
  | .plain => 0
  | .reliable _ => 0x40
  | .retry => 0x20
def SendMode.retries : SendMode → Int
  | .reliable r => r
  | _ => 0
def SendMode.isReliable : SendMode → Bool
  | .reliable _ => true
  | _ => false

theorem prepare_eq (mode : SendMode) (c : Circuit) (p : Message) :
    mode.prepare c p =
      (if mode.isReliable then c.nextPacketId.addReliablePacket (preparedMsg c p mode.flag mode.retries) else c.nextPacketId,
       preparedMsg c p mode.flag mode.retries) := by
  cases mode <;> simp only [SendMode.prepare, preparePacket_eq] <;> rfl

theorem preparedMsg_reliable (c : Circuit) (p : Message) (mode : SendMode) :
    ((preparedMsg c p mode.flag mode.retries).sendFlags &&& 0x40 ≠ 0) ↔ mode.isReliable = true := by
  unfold preparedMsg
  cases mode <;> split <;> simp [SendMode.flag, SendMode.isReliable, flagAck]

theorem prepare_acks (mode : SendMode) (c : Circuit) (p : Message) : (mode.prepare c p).1.acks = c.acks := by
  rw [prepare_eq]; simp only; split <;> rfl
theorem prepare_host (mode : SendMode) (c : Circuit) (p : Message) : (mode.prepare c p).1.host = c.host := by
  rw [prepare_eq]; simp only; split <;> rfl
theorem prepare_trusted (mode : SendMode) (c : Circuit) (p : Message) : (mode.prepare c p).1.trusted = c.trusted := by
  rw [prepare_eq]; simp only; split <;> rfl
theorem prepare_lastOut (mode : SendMode) (c : Circuit) (p : Message) : (mode.prepare c p).1.lastOut = c.lastOut + 1 := by
  rw [prepare_eq]; simp only; split <;> rfl

/-! ## Acknowledging -/

theorem has_iff {α : Type} (d : Dict Nat α) (k : Nat) : d.has k = true ↔ k ∈ d.keys := by
  unfold Dict.has
  have := Dict.get?_eq_none_iff d k
  cases h : d.get? k with
  | none => rw [h] at this; simp at this; simp [this]
  | some v => rw [h] at this; simp at this; simp [this]

theorem del_of_not_has {α : Type} {d : Dict Nat α} {k : Nat} (h : d.has k = false) : d.del k = d := by
  have : k ∉ d.keys := by intro hk; rw [(has_iff d k).mpr hk] at h; cases h
  unfold Dict.del
  rw [List.filter_eq_self]
  intro p hp
  simp only [ne_eq, decide_not, Bool.not_eq_eq_eq_not, Bool.not_true, decide_eq_false_iff_not]
  intro he; exact this (he ▸ List.mem_map_of_mem hp)

theorem length_del {α : Type} {d : Dict Nat α} (hn : d.keys.Nodup) {k : Nat} (h : d.has k = true) :
    (d.del k).length + 1 = d.length := by
  induction d with
  | nil => simp [Dict.has, Dict.get?] at h
  | cons p d ih =>
    simp only [Dict.keys_cons, List.nodup_cons] at hn
    by_cases hp : p.1 = k
    · have hk : Dict.has d k = false := by
        rcases hb : Dict.has d k with _ | _
        · rfl
        · exact absurd ((has_iff d k).mp hb) (hp ▸ hn.1)
      have e : Dict.del (p :: d) k = Dict.del d k := by simp [Dict.del, hp]
      rw [e, del_of_not_has hk]; rfl
    · have hk : Dict.has d k = true := by simpa [Dict.has, Dict.get?, hp] using h
      have e : Dict.del (p :: d) k = p :: Dict.del d k := by simp [Dict.del, hp]
      rw [e, List.length_cons, ih hn.2 hk]; rfl

theorem keys_del {α : Type} (d : Dict Nat α) (k : Nat) : (d.del k).keys = d.keys.filter (· ≠ k) := by
  simp only [Dict.keys, Dict.del, List.filter_map]; rfl

/-- A circuit whose counters agree with its dictionaries. -/
structure CircuitOk (c : Circuit) : Prop where
  nodup : c.unacked.keys.Nodup
  count : c.unackCount = c.unacked.length
  finalNodup : c.finalRetry.keys.Nodup
  finalCount : c.finalCount = c.finalRetry.length

theorem ack_eq (c : Circuit) (pid : Nat) : c.ackReliablePacket pid =
    { c with unacked := c.unacked.del pid, unackCount := c.unackCount - (if c.unacked.has pid then 1 else 0),
             finalRetry := c.finalRetry.del pid, finalCount := c.finalCount - (if c.finalRetry.has pid then 1 else 0) } := by
  unfold Circuit.ackReliablePacket
  cases h1 : c.unacked.has pid <;> cases h2 : c.finalRetry.has pid <;>
    simp [h1, h2, del_of_not_has]

theorem ack_ok {c : Circuit} (h : CircuitOk c) (pid : Nat) : CircuitOk (c.ackReliablePacket pid) := by
  rw [ack_eq]
  constructor
  · simp only [keys_del]; exact h.nodup.filter _
  · simp only
    cases hh : c.unacked.has pid with
    | false => simp [del_of_not_has hh, h.count]
    | true => have := length_del h.nodup hh; simp only [if_true, h.count]; omega
  · simp only [keys_del]; exact h.finalNodup.filter _
  · simp only
    cases hh : c.finalRetry.has pid with
    | false => simp [del_of_not_has hh, h.finalCount]
    | true => have := length_del h.finalNodup hh; simp only [if_true, h.finalCount]; omega

theorem foldl_ack_ok (l : List Nat) : ∀ {c : Circuit}, CircuitOk c → CircuitOk (l.foldl Circuit.ackReliablePacket c) := by
  induction l with
  | nil => intro c h; exact h
  | cons a l ih => intro c h; exact ih (ack_ok h a)

theorem foldl_ack_fields (l : List Nat) : ∀ c : Circuit,
    let c' := l.foldl Circuit.ackReliablePacket c
    c'.host = c.host ∧ c'.trusted = c.trusted ∧ c'.lastOut = c.lastOut ∧ c'.acks = c.acks ∧ c'.alive = c.alive ∧
    c'.unacked = c.unacked.filter (fun p => p.1 ∉ l) ∧ c'.finalRetry = c.finalRetry.filter (fun p => p.1 ∉ l) := by
  induction l with
  | nil => intro c; simp only [List.foldl_nil, true_and, List.not_mem_nil, not_false_eq_true, decide_true]
           constructor <;> exact (List.filter_eq_self.mpr (fun _ _ => rfl)).symm
  | cons a l ih =>
    intro c
    have := ih (c.ackReliablePacket a)
    simp only [List.foldl_cons]
    rw [ack_eq] at *
    simp only at this
    refine ⟨this.1, this.2.1, this.2.2.1, this.2.2.2.1, this.2.2.2.2.1, ?_, ?_⟩
    · rw [this.2.2.2.2.2.1]
      simp only [Dict.del, List.filter_filter]
      congr 1; funext p; simp [Bool.and_comm]
    · rw [this.2.2.2.2.2.2]
      simp only [Dict.del, List.filter_filter]
      congr 1; funext p; simp [Bool.and_comm]

theorem handlePacket_fields (c : Circuit) (p : Message) :
    (c.handlePacket p).host = c.host ∧ (c.handlePacket p).trusted = c.trusted ∧ (c.handlePacket p).lastOut = c.lastOut ∧
    (c.handlePacket p).acks = c.acks ++ (if p.reliable then [p.packetId] else []) ∧ (c.handlePacket p).alive = c.alive ∧
    (c.handlePacket p).unacked = c.unacked.filter (fun q => q.1 ∉ p.acks) ∧
    (c.handlePacket p).finalRetry = c.finalRetry.filter (fun q => q.1 ∉ p.acks) := by
  have := foldl_ack_fields p.acks c
  simp only at this
  unfold Circuit.handlePacket
  simp only
  split
  · refine ⟨this.1, this.2.1, this.2.2.1, ?_, this.2.2.2.2.1, this.2.2.2.2.2.1, this.2.2.2.2.2.2⟩
    simp only [Circuit.collectAck, this.2.2.2.1]
  · refine ⟨this.1, this.2.1, this.2.2.1, ?_, this.2.2.2.2.1, this.2.2.2.2.2.1, this.2.2.2.2.2.2⟩
    rw [this.2.2.2.1, List.append_nil]

theorem handlePacket_ok {c : Circuit} (h : CircuitOk c) (p : Message) : CircuitOk (c.handlePacket p) := by
  have := foldl_ack_ok p.acks h
  unfold Circuit.handlePacket
  simp only
  split
  · exact ⟨this.1, this.2, this.3, this.4⟩
  · exact this

/-! ## The history of a circuit -/

/-- Effect of one event on the history of the circuit of `a`. -/
def extendHistory (a : Addr) (h : List CEv) (e : Ev) : List CEv :=
  match e with
  | .prepared a' m => if a' = a then h ++ [.out m] else h
  | .parsed a' m => if a' = a then h ++ [.inn m] else h
  | .removed a' => if a' = a then [] else h
  | _ => h

theorem history_snoc (a : Addr) (tr : List Ev) (e : Ev) :
    circuitHistory a (tr ++ [e]) = extendHistory a (circuitHistory a tr) e := by
  unfold circuitHistory; rw [List.foldl_append]; rfl

theorem outIds_snoc_out (h : List CEv) (m : Message) : outIds (h ++ [.out m]) = outIds h ++ [m.packetId] := by
  simp [outIds]
theorem outIds_snoc_inn (h : List CEv) (m : Message) : outIds (h ++ [.inn m]) = outIds h := by
  simp [outIds]

theorem waiting_snoc_out (h : List CEv) (m : Message) (id : Nat) :
    Waiting (h ++ [.out m]) id ↔ Waiting h id ∨ (m.packetId = id ∧ m.sendFlags &&& 0x40 ≠ 0) := by
  constructor
  · rintro ⟨pre, m', post, he, h1, h2, h3⟩
    rcases List.eq_nil_or_concat post with rfl | ⟨post', e, hpe⟩
    · have := List.append_inj' he rfl
      obtain ⟨_, h5⟩ := this
      cases h5
      exact .inr ⟨h1, h2⟩
    · rw [List.concat_eq_append] at hpe
      subst hpe
      rw [show pre ++ CEv.out m' :: (post' ++ [e]) = (pre ++ CEv.out m' :: post') ++ [e] by simp] at he
      obtain ⟨h4, h5⟩ := List.append_inj' he rfl
      exact .inl ⟨pre, m', post', h4, h1, h2, fun m'' hm => h3 m'' (by simp [hm])⟩
  · rintro (⟨pre, m', post, he, h1, h2, h3⟩ | ⟨h1, h2⟩)
    · refine ⟨pre, m', post ++ [.out m], by simp [he], h1, h2, ?_⟩
      intro m'' hm
      simp only [List.mem_append, List.mem_singleton, reduceCtorEq, or_false] at hm
      exact h3 m'' hm
    · exact ⟨h, m, [], rfl, h1, h2, by simp⟩

theorem waiting_snoc_inn (h : List CEv) (m : Message) (id : Nat) :
    Waiting (h ++ [.inn m]) id ↔ Waiting h id ∧ id ∉ m.acks := by
  constructor
  · rintro ⟨pre, m', post, he, h1, h2, h3⟩
    rcases List.eq_nil_or_concat post with rfl | ⟨post', e, hpe⟩
    · have := List.append_inj' he rfl
      obtain ⟨_, h5⟩ := this
      cases h5
    · rw [List.concat_eq_append] at hpe
      subst hpe
      rw [show pre ++ CEv.out m' :: (post' ++ [e]) = (pre ++ CEv.out m' :: post') ++ [e] by simp] at he
      obtain ⟨h4, h5⟩ := List.append_inj' he rfl
      simp only [List.cons.injEq, and_true] at h5
      subst h5
      exact ⟨⟨pre, m', post', h4, h1, h2, fun m'' hm => h3 m'' (by simp [hm])⟩, h3 m (by simp)⟩
  · rintro ⟨⟨pre, m', post, he, h1, h2, h3⟩, h4⟩
    refine ⟨pre, m', post ++ [.inn m], by simp [he], h1, h2, ?_⟩
    intro m'' hm
    simp only [List.mem_append, List.mem_singleton, CEv.inn.injEq] at hm
    rcases hm with hm | rfl
    · exact h3 m'' hm
    · exact h4

theorem not_waiting_nil (id : Nat) : ¬ Waiting [] id := by
  rintro ⟨pre, m, post, he, _⟩
  simp at he

end Pyogp
