import Mathlib.Data.List.Induction
import Verif.Spec.EventQueue
import Verif.Proofs.Dict

/-!
# Proofs: event queue
-/

namespace Pyogp
open Spec

theorem Dict.set_append {κ α : Type} [DecidableEq κ] (d : Dict κ α) (k : κ) (v : α) (h : k ∉ d.keys) : d.set k v = d ++ [(k, v)] := by
  induction d with
  | nil => rfl
  | cons p d ih =>
    obtain ⟨k', v'⟩ := p
    rw [Dict.keys_cons, List.mem_cons, not_or] at h
    have hk : ¬ k' = k := fun e => h.1 e.symm
    simp only [Dict.set, hk, if_false, List.cons_append, ih h.2]

theorem Dict.set_set_last {κ α : Type} [DecidableEq κ] (d : Dict κ α) (k : κ) (v w : α) (h : k ∉ d.keys) :
    Dict.set (d ++ [(k, v)]) k w = d ++ [(k, w)] := by
  induction d with
  | nil => simp [Dict.set]
  | cons p d ih =>
    obtain ⟨k', v'⟩ := p
    rw [Dict.keys_cons, List.mem_cons, not_or] at h
    have hk : ¬ k' = k := fun e => h.1 e.symm
    simp only [List.cons_append, Dict.set, hk, if_false, ih h.2]

theorem Dict.get?_append_last {κ α : Type} [DecidableEq κ] (d : Dict κ α) (k : κ) (v : α) (h : k ∉ d.keys) :
    Dict.get? (d ++ [(k, v)]) k = some v := by
  rw [← Dict.set_append d k v h, Dict.get?_set_self]

/-- Building a block from a list of values with different names. -/
theorem eqBlock_eq (name : String) (vars : List (String × Llsd)) (hn : NamesNodup vars) : eqBlock name vars = blockWith name vars := by
  have key : ∀ (vars : List (String × Llsd)) (b : BlockData), NamesNodup vars → (∀ n ∈ vars.map (·.1), n ∉ b.vars.keys) →
      (vars.map (fun p => (p.1, PyVal.llsd p.2))).foldl (fun b kv => b.addVariable { name := kv.1, data := kv.2 }) b =
        { b with vars := b.vars ++ vars.map (fun p => (p.1, { name := p.1, data := .llsd p.2 })), varList := b.varList ++ vars.map (·.1) } := by
    intro vars
    induction vars with
    | nil => intro b _ _; simp
    | cons p vars ih =>
      intro b hn hb
      unfold NamesNodup at hn
      rw [List.map_cons, List.nodup_cons] at hn
      rw [List.map_cons, List.foldl_cons, ih _ hn.2]
      · simp only [BlockData.addVariable]
        rw [Dict.set_append _ _ _ (hb p.1 (by simp))]
        simp
      · intro n hnm hk
        simp only [BlockData.addVariable, Dict.keys_set] at hk
        have h1 := hb n (by simp only [List.map_cons, List.mem_cons]; exact .inr hnm)
        split at hk
        · exact h1 hk
        · rcases List.mem_append.mp hk with hk | hk
          · exact h1 hk
          · simp only [List.mem_singleton] at hk; subst hk; exact hn.1 hnm
  have := key vars (BlockData.new name) hn (by simp [BlockData.new, Dict.keys])
  rw [eqBlock, Block.mk', this]
  simp [BlockData.new, blockWith]

/-- The instances of one block. -/
theorem eqInstances_ok (name : String) : ∀ (insts : List (List (String × Llsd))) (m : Message) (l : List BlockData) (d : Dict String (List BlockData)),
    (∀ i ∈ insts, NamesNodup i) → name ∉ d.keys → m.blocks = d ++ [(name, l)] →
    eqInstances name (insts.map .map) m = .ok { m with blocks := d ++ [(name, l ++ insts.map (blockWith name))] } := by
  intro insts
  induction insts with
  | nil => intro m l d _ _ h; cases m; simp_all [eqInstances]
  | cons i insts ih =>
    intro m l d hn hd hm
    have hi := eqBlock_eq name i (hn i (by simp))
    have hb : (m.addBlock (eqBlock name i)).blocks = d ++ [(name, l ++ [blockWith name i])] := by
      simp only [Message.addBlock, addBlock, hi, hm]
      have hg : Dict.get? (d ++ [(name, l)]) (blockWith name i).name = some l := Dict.get?_append_last d name l hd
      rw [hg]
      exact Dict.set_set_last d name l _ hd
    have := ih (m.addBlock (eqBlock name i)) (l ++ [blockWith name i]) d (fun x hx => hn x (by simp [hx])) hd hb
    simp only [List.map_cons, eqInstances, llsdPairs, bind, Except.bind]
    rw [this]
    simp [Message.addBlock]

theorem eqInstances_fresh (name : String) (insts : List (List (String × Llsd))) (m : Message)
    (hn : ∀ i ∈ insts, NamesNodup i) (hm : name ∉ m.blocks.keys) (hne : insts ≠ []) :
    eqInstances name (insts.map .map) m = .ok { m with blocks := m.blocks ++ [(name, insts.map (blockWith name))] } := by
  cases insts with
  | nil => exact absurd rfl hne
  | cons i insts =>
    have hi := eqBlock_eq name i (hn i (by simp))
    have hb : (m.addBlock (eqBlock name i)).blocks = m.blocks ++ [(name, [blockWith name i])] := by
      simp only [Message.addBlock, addBlock, hi]
      have hg : Dict.get? m.blocks (blockWith name i).name = none := (Dict.get?_eq_none_iff _ _).mpr hm
      rw [hg]
      exact Dict.set_append _ _ _ hm
    have := eqInstances_ok name insts (m.addBlock (eqBlock name i)) [blockWith name i] m.blocks (fun x hx => hn x (by simp [hx])) hm hb
    simp only [List.map_cons, eqInstances, llsdPairs, bind, Except.bind]
    rw [this]
    simp [Message.addBlock]

theorem eqBlocks_ok : ∀ (l : List (String × List (List (String × Llsd)))) (m : Message),
    (l.map (·.1)).Nodup → (∀ b ∈ l, ∀ i ∈ b.2, NamesNodup i) → (∀ n ∈ l.map (·.1), n ∉ m.blocks.keys) →
    eqBlocks (l.map (fun b => (b.1, .arr (b.2.map .map)))) m =
      .ok { m with blocks := m.blocks ++ (EventBody.blocks l).expectedBlocks } := by
  intro l
  induction l with
  | nil => intro m _ _ _; cases m; simp [eqBlocks, EventBody.expectedBlocks]
  | cons b l ih =>
    intro m hn hi hk
    obtain ⟨name, insts⟩ := b
    rw [List.map_cons, List.nodup_cons] at hn
    simp only [List.map_cons, eqBlocks, llsdIter, bind, Except.bind]
    by_cases he : insts = []
    · subst he
      simp only [List.map_nil, eqInstances]
      rw [ih m hn.2 (fun b hb => hi b (by simp [hb])) (fun n hn' => hk n (by simp only [List.map_cons, List.mem_cons]; exact .inr hn'))]
      simp [EventBody.expectedBlocks]
    · rw [eqInstances_fresh name insts m (hi (name, insts) (by simp)) (hk name (by simp)) he]
      simp only
      rw [ih _ hn.2 (fun b hb => hi b (by simp [hb]))]
      · have : insts.isEmpty = false := by simpa using he
        simp [EventBody.expectedBlocks, this]
      · intro n hn' hc
        simp only [Dict.keys, List.map_append, List.mem_append, List.map_cons, List.map_nil, List.mem_singleton] at hc
        rcases hc with hc | hc
        · exact hk n (by simp only [List.map_cons, List.mem_cons]; exact .inr hn') hc
        · subst hc; exact hn.1 hn'

theorem decodeEvent_ok (d : TemplateDict) (id v : Llsd) (e : Event) (h : IsEvent (fun n => (d.getTemplate n).isSome) v e) :
    decodeEvent d id v = .ok (e.message id) := by
  obtain ⟨⟨m, rfl, hm, hb⟩, hnames, hshape⟩ := h
  have h1 : llsdItem (.map m) "message" = .ok (.str e.name) := by simp [llsdItem, Dict.get, hm]
  have h2 : llsdItem (.map m) "body" = .ok e.body.llsd := by simp [llsdItem, Dict.get, hb]
  simp only [decodeEvent, h1, h2, bind, Except.bind]
  cases hbody : e.body with
  | blocks l =>
    have hs : (d.getTemplate e.name).isSome := hshape.mpr ⟨l, hbody⟩
    obtain ⟨t, ht⟩ := Option.isSome_iff_exists.mp hs
    rw [hbody] at hnames
    simp only [ht, EventBody.llsd, llsdPairs]
    rw [eqBlocks_ok l _ hnames.1 hnames.2 (by simp [Message.new, Message.parseBlocks, Dict.keys])]
    simp [Event.message, hbody, Message.new, Message.parseBlocks]
  | vars l =>
    have hs : d.getTemplate e.name = none := by
      cases ht : d.getTemplate e.name with
      | none => rfl
      | some t =>
        obtain ⟨l', hl'⟩ := hshape.mp (by simp [ht])
        rw [hbody] at hl'; cases hl'
    rw [hbody] at hnames
    simp only [hs, EventBody.llsd, llsdPairs, eqBlock_eq _ _ hnames]
    simp [Event.message, hbody, EventBody.expectedBlocks, Message.new, Message.parseBlocks, Message.addBlock, addBlock, Dict.get?, Dict.set, blockWith]

theorem decodeEvents_ok (d : TemplateDict) (id : Llsd) {vs : List Llsd} {evs : List Event}
    (h : List.Forall₂ (IsEvent (fun n => (d.getTemplate n).isSome)) vs evs) : decodeEvents d id vs = .ok (evs.map (Event.message id)) := by
  induction h with
  | nil => rfl
  | cons he _ ih => simp [decodeEvents, decodeEvent_ok d id _ _ he, ih, bind, Except.bind]

theorem decodeEqResult_ok (d : TemplateDict) (id v lid : Llsd) (evs : List Event)
    (h : IsResponse (fun n => (d.getTemplate n).isSome) v id evs) : decodeEqResult d lid v = .ok (evs.map (Event.message lid)) := by
  obtain ⟨vs, hvs, rfl | rfl⟩ := h.ex <;>
  · simp [decodeEqResult, Dict.has, Dict.get?, decodeEntries, llsdIter, decodeEvents_ok d lid hvs, bind, Except.bind]

/-! ## Polls -/

/-- After any polls: the id in use and the result kept. -/
structure EqInv (polls : List PollOutcome) (st : EqState) : Prop where
  id : st.lastId = (knownId polls.reverse).getD (.int (-1))
  result : st.result = lastResponse polls.reverse

theorem parseResult_id (d : TemplateDict) (h : EqHandler) (st : EqState) (v : Llsd) :
    (parseResult d h st v).lastId = st.lastId ∧ (parseResult d h st v).result = st.result ∧ (parseResult d h st v).posts = st.posts ∧
    (parseResult d h st v).running = st.running := by
  unfold parseResult
  split
  · exact ⟨rfl, rfl, rfl, rfl⟩
  · split <;> exact ⟨rfl, rfl, rfl, rfl⟩

theorem eqPoll_result (d : TemplateDict) (h : EqHandler) (st : EqState) (o : PollOutcome) :
    (eqPoll d h st o).result = (match o with | .response v => v | .failure _ => st.result) := by
  unfold eqPoll
  cases o <;>
  · simp only
    split
    · exact (parseResult_id _ _ _ _).2.1
    · split
      · exact (parseResult_id _ _ _ _).2.1
      · rfl

theorem eqPoll_posts (d : TemplateDict) (h : EqHandler) (st : EqState) (o : PollOutcome) :
    (eqPoll d h st o).posts = st.posts ++ [pollData st.lastId] ∧ (eqPoll d h st o).running = st.running := by
  unfold eqPoll
  cases o <;>
  · simp only
    split
    · exact (parseResult_id _ _ _ _).2.2
    · split
      · exact (parseResult_id _ _ _ _).2.2
      · exact ⟨rfl, rfl⟩

/-- The id that a result leads to. -/
def resultId (old : Llsd) (result : Llsd) : Llsd :=
  if result = .undef then .int (-1) else match llsdItem result "id" with
    | .ok i => i
    | .error _ => old

theorem eqPoll_lastId (d : TemplateDict) (h : EqHandler) (st : EqState) (o : PollOutcome) :
    (eqPoll d h st o).lastId = resultId st.lastId (match o with | .response v => v | .failure _ => st.result) := by
  unfold eqPoll resultId
  cases o <;>
  · simp only
    split
    · exact (parseResult_id _ _ _ _).1
    · split
      · rename_i he; rw [he]; exact (parseResult_id _ _ _ _).1
      · rename_i he; rw [he]

theorem llsdItem_map (m : List (String × Llsd)) (k : String) : llsdItem (.map m) k = match Dict.get? m k with
    | some i => .ok i
    | none => .error .keyError := by
  simp only [llsdItem, Dict.get]
  cases Dict.get? m k <;> rfl

/-- The result of the last response leads to the known id again. -/
theorem resultId_last (polls : List PollOutcome) :
    resultId ((knownId polls).getD (.int (-1))) (lastResponse polls) = (knownId polls).getD (.int (-1)) := by
  induction polls with
  | nil => simp [resultId, lastResponse, knownId]
  | cons o polls ih =>
    cases o with
    | failure e => simpa [knownId, lastResponse] using ih
    | response v =>
      cases v with
      | undef => simp [resultId, lastResponse, knownId]
      | map m =>
        simp only [resultId, lastResponse, knownId, llsdItem_map]
        cases Dict.get? m "id" <;> simp
      | _ => simp [resultId, lastResponse, knownId, llsdItem]

theorem eqPoll_inv (d : TemplateDict) (h : EqHandler) (polls : List PollOutcome) (st : EqState) (o : PollOutcome) (hi : EqInv polls st) :
    EqInv (polls ++ [o]) (eqPoll d h st o) := by
  constructor
  · rw [eqPoll_lastId, hi.id, hi.result, List.reverse_append, List.reverse_singleton, List.singleton_append]
    cases o with
    | failure e => simpa [knownId] using resultId_last polls.reverse
    | response v =>
      cases v with
      | undef => simp [resultId, knownId]
      | map m =>
        simp only [resultId, knownId, llsdItem_map]
        cases Dict.get? m "id" <;> simp
      | _ => simp [resultId, knownId, llsdItem]
  · rw [eqPoll_result, hi.result, List.reverse_append, List.reverse_singleton, List.singleton_append]
    cases o <;> simp [lastResponse]

/-- The state after polls, from a fresh client. -/
def polled (d : TemplateDict) (h : EqHandler) (polls : List PollOutcome) : EqState := polls.foldl (eqPoll d h) { running := true }

theorem polled_snoc (d : TemplateDict) (h : EqHandler) (polls : List PollOutcome) (o : PollOutcome) :
    polled d h (polls ++ [o]) = eqPoll d h (polled d h polls) o := by simp [polled]

theorem polled_inv (d : TemplateDict) (h : EqHandler) (polls : List PollOutcome) : EqInv polls (polled d h polls) := by
  induction polls using List.reverseRecOn with
  | nil => exact ⟨rfl, rfl⟩
  | append_singleton polls o ih => rw [polled_snoc]; exact eqPoll_inv d h polls _ o ih

theorem pollData_known (i : Option Llsd) (hi : ∀ x, i = some x → x ≠ .int (-1) ∧ x ≠ .real 0xBFF0000000000000#64) :
    pollData (i.getD (.int (-1))) = ackPost i := by
  cases i with
  | none => rfl
  | some x =>
    have h := hi x rfl
    have : isMinusOne x = false := by
      cases x <;> simp_all [isMinusOne]
    simp [pollData, ackPost, this]

theorem knownId_sane {polls : List PollOutcome} (hs : SaneIds polls) :
    ∀ x, knownId polls = some x → x ≠ .int (-1) ∧ x ≠ .real 0xBFF0000000000000#64 := by
  induction polls with
  | nil => intro x h; simp [knownId] at h
  | cons o polls ih =>
    intro x h
    have ih := ih (fun m i hm => hs m i (List.mem_cons_of_mem _ hm))
    cases o with
    | failure e => exact ih x (by simpa [knownId] using h)
    | response v =>
      cases v with
      | undef => simp [knownId] at h
      | map m =>
        simp only [knownId] at h
        cases hg : Dict.get? m "id" with
        | none => rw [hg] at h; exact ih x h
        | some i => rw [hg] at h; simp only [Option.some.injEq] at h; subst h; exact hs m i (by simp) hg
      | _ => exact ih x (by simpa [knownId] using h)

theorem SaneIds.prefix {polls : List PollOutcome} (hs : SaneIds polls) (k : Nat) : SaneIds (before polls k) := by
  intro m i hm hg
  exact hs m i (List.mem_of_mem_take (List.mem_reverse.mp hm)) hg

theorem polled_posts (d : TemplateDict) (h : EqHandler) (polls : List PollOutcome) (hs : SaneIds polls) :
    (polled d h polls).posts = (List.range polls.length).map (fun k => ackPost (knownId (before polls k))) ∧
    (polled d h polls).running = true := by
  induction polls using List.reverseRecOn with
  | nil => exact ⟨rfl, rfl⟩
  | append_singleton polls o ih =>
    have hs' : SaneIds polls := fun m i hm => hs m i (List.mem_append_left _ hm)
    have ih := ih hs'
    rw [polled_snoc]
    refine ⟨?_, (eqPoll_posts d h _ o).2.trans ih.2⟩
    rw [(eqPoll_posts d h _ o).1, ih.1, (polled_inv d h polls).id, pollData_known _ (knownId_sane (by
      intro m i hm; exact hs' m i (List.mem_reverse.mp hm)))]
    rw [List.length_append, List.length_singleton, List.range_succ, List.map_append, List.map_singleton]
    congr 1
    · apply List.map_congr_left
      intro k hk
      have hk := List.mem_range.mp hk
      rw [before, before, List.take_append_of_le_length (by omega)]
    · simp [before]

theorem processRegion_fresh (d : TemplateDict) (h : EqHandler) (polls : List PollOutcome) (final : PollOutcome) :
    processRegion d h polls final {} =
      if isMinusOne (polled d h polls).lastId then (.ok (), { polled d h polls with running := false })
      else match final with
        | .response _ => (.ok (), { polled d h polls with
            posts := (polled d h polls).posts ++ [.map [("ack", (polled d h polls).lastId), ("done", .bool true)]], running := false })
        | .failure e => (.error e, { polled d h polls with
            posts := (polled d h polls).posts ++ [.map [("ack", (polled d h polls).lastId), ("done", .bool true)]] }) := rfl

theorem deliverAll_ok (h : EqHandler) : ∀ (ms done : List Message), (∀ k, k < ms.length → (h (done ++ ms.take (k + 1))) = .ok ()) →
    deliverAll h ms done = done ++ ms := by
  intro ms
  induction ms with
  | nil => intro done _; simp [deliverAll]
  | cons m ms ih =>
    intro done hh
    have h0 : h (done ++ [m]) = .ok () := by simpa using hh 0 (by simp)
    simp only [deliverAll, h0]
    rw [ih]
    · simp
    · intro k hk
      have := hh (k + 1) (by simp; omega)
      simpa using this

/-- Delivery of the messages of one value. -/
theorem parse_delivers (d : TemplateDict) (h : EqHandler) (st : EqState) (v : Llsd) (hne : v ≠ .undef) (ms : List Message)
    (hd : decodeEqResult d st.lastId v = .ok ms) : (parseResult d h st v).delivered = deliverAll h ms st.delivered := by
  simp [parseResult, hne, hd]

end Pyogp
