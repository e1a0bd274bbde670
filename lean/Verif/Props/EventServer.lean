import Verif.Spec.EventServer
import Verif.Props.EventQueue
import Mathlib.Tactic.ByContra

/-!
# C96: the event queue and a simulator that repeats what is not acknowledged
-/

namespace Pyogp
open Spec

theorem saneId_iff {i : Llsd} : SaneId i ↔ isMinusOne i = false := by
  unfold SaneId isMinusOne
  cases i <;> simp

/-- The client and the simulator: `n` responses have come through, starting with number `k`. -/
structure Met (d : TemplateDict) (k : Nat) (fails : Nat) (st : EqState) (sv : EqServer) (times : List Nat) : Prop where
  pos : ∀ t ∈ times, 1 ≤ t
  sum : times.sum ≤ times.length + fails
  sane : ∀ r ∈ sv.sent.drop k, SaneId r.1
  count : k + times.length = sv.sent.length ∨ (k + times.length + 1 = sv.sent.length ∧ sv.unacked = true)
  delivered : st.delivered = handedOver ((sv.sent.drop k).take times.length) times
  fresh : times = [] → st.lastId = .int (-1) ∧ st.result = .undef ∧ (k = sv.sent.length → sv.unacked = false)
  last : times ≠ [] → ∃ r, sv.sent[k + times.length - 1]? = some r ∧ st.lastId = r.1 ∧ IsResponse (Known d) st.result r.1 r.2 ∧
    (k + times.length + 1 = sv.sent.length → ∀ r', sv.sent.getLast? = some r' → r'.1 ≠ r.1)

theorem getLast?_index {α : Type} (l : List α) : l.getLast? = l[l.length - 1]? := List.getLast?_eq_getElem?

theorem mem_drop_of_index {α : Type} {l : List α} {k i : Nat} {r : α} (h : l[i]? = some r) (hk : k ≤ i) : r ∈ l.drop k := by
  rw [List.mem_iff_getElem?]
  exact ⟨i - k, by rw [List.getElem?_drop, Nat.add_sub_cancel' hk]; exact h⟩

theorem Spec.EqServer.register_eq (sv : EqServer) (post : Llsd) :
    (sv.register post = sv ∧ ¬ sv.Acked post) ∨ (sv.register post = { sv with unacked := false } ∧ sv.Acked post) := by
  unfold EqServer.register
  by_cases h : sv.Acked post
  · exact .inr ⟨by simp [h], h⟩
  · exact .inl ⟨by simp [h], h⟩

/-- The simulator reads the acknowledgement of a poll, or the final one. -/
theorem Met.register {d : TemplateDict} {k f : Nat} {st : EqState} {sv : EqServer} {times : List Nat} (hm : Met d k f st sv times) {m : List (String × Llsd)}
    (hp : Dict.get? m "ack" = if isMinusOne st.lastId then none else some st.lastId) : Met d k f st (sv.register (.map m)) times ∧
    (k + times.length = (sv.register (.map m)).sent.length → (sv.register (.map m)).unacked = false) := by
  have hcount := hm.count
  rcases sv.register_eq (.map m) with ⟨e, hn⟩ | ⟨e, ha⟩
  · rw [e]
    refine ⟨hm, fun hk => ?_⟩
    by_cases ht : times = []
    · exact (hm.fresh ht).2.2 (by simpa [ht] using hk)
    · obtain ⟨r, h1, h2, h3, -⟩ := hm.last ht
      exfalso
      apply hn
      have hs := hm.sane r (mem_drop_of_index h1 (by have := List.length_pos_iff.mpr ht; omega))
      refine ⟨m, r, rfl, by rw [getLast?_index, ← hk]; exact h1, ?_⟩
      rw [hp, h2, saneId_iff.mp hs]
      rfl
  · obtain ⟨m', r', he, hl, hg⟩ := ha
    cases he
    rw [hp] at hg
    by_cases ht : times = []
    · rw [(hm.fresh ht).1] at hg
      exact absurd hg (by simp [isMinusOne])
    · obtain ⟨r, h1, h2, h3, h4⟩ := hm.last ht
      have hr : st.lastId = r'.1 := by
        by_cases hi : isMinusOne st.lastId
        · simp [hi] at hg
        · simpa [hi] using hg
      have hlen : k + times.length = sv.sent.length := by
        rcases hcount with hc | ⟨hc, -⟩
        · exact hc
        · exact absurd (hr.symm.trans h2) (h4 hc r' hl)
      rw [e]
      exact ⟨⟨hm.pos, hm.sum, hm.sane, .inl hlen, hm.delivered, fun h => absurd h ht, fun _ => ⟨r, h1, h2, h3, fun h => absurd h (by rw [← hlen]; omega)⟩⟩, fun _ => rfl⟩

/-- The simulator answers. -/
theorem Met.answers {d : TemplateDict} {k f : Nat} {st : EqState} {sv sv' : EqServer} {times : List Nat} {r : Llsd × List Event} (hm : Met d k f st sv times)
    (hu : k + times.length = sv.sent.length → sv.unacked = false) (ha : sv.Answers r sv') :
    Met d k f st sv' times ∧ sv'.sent[k + times.length]? = some r ∧ sv'.sent.length = k + times.length + 1 ∧ sv'.unacked = true := by
  cases ha with
  | again hun hl =>
    have hlen : k + times.length + 1 = sv.sent.length := by
      rcases hm.count with hc | ⟨hc, -⟩
      · rw [hu hc] at hun; cases hun
      · exact hc
    refine ⟨hm, ?_, hlen.symm, hun⟩
    rw [getLast?_index, ← hlen] at hl
    exact hl
  | new id n hun hs hne =>
    have hlen : k + times.length = sv.sent.length := by
      rcases hm.count with hc | ⟨hc, h⟩
      · exact hc
      · rw [hun] at h; cases h
    refine ⟨⟨hm.pos, hm.sum, ?_, .inr ⟨by simp [hlen], rfl⟩, ?_, ?_, ?_⟩, ?_, by simp [hlen], rfl⟩
    · intro r hr
      simp only at hr
      rw [List.drop_append_of_le_length (by omega)] at hr
      rcases List.mem_append.mp hr with hr | hr
      · exact hm.sane r hr
      · rw [List.mem_singleton.mp hr]; exact hs
    · rw [hm.delivered]
      simp only
      rw [List.drop_append_of_le_length (by omega), List.take_append_of_le_length (by rw [List.length_drop]; omega)]
    · intro ht
      refine ⟨(hm.fresh ht).1, (hm.fresh ht).2.1, fun h => ?_⟩
      have := hlen
      simp only [ht, List.length_nil, List.length_append, List.length_cons] at h this
      omega
    · intro ht
      obtain ⟨r, h1, h2, h3, -⟩ := hm.last ht
      have hpos := List.length_pos_iff.mpr ht
      refine ⟨r, ?_, h2, h3, ?_⟩
      · simp only
        rw [List.getElem?_append_left (by omega)]
        exact h1
      · intro _ r' hr'
        simp only [List.getLast?_concat, Option.some.injEq] at hr'
        subst hr'
        intro h
        exact hne r (by rw [getLast?_index, ← hlen]; exact h1) h.symm
    · rw [hlen]; simp

theorem handedOver_snoc (A : List (Llsd × List Event)) (r : Llsd × List Event) (ts : List Nat) (t : Nat) (h : A.length = ts.length) :
    handedOver (A ++ [r]) (ts ++ [t]) = handedOver A ts ++ (List.replicate t (responseMessages r)).flatten := by
  simp [handedOver, List.zip_append h]

theorem handedOver_append (A B : List (Llsd × List Event)) (ts us : List Nat) (h : A.length = ts.length) :
    handedOver (A ++ B) (ts ++ us) = handedOver A ts ++ handedOver B us := by
  simp [handedOver, List.zip_append h]

/-- A poll that fails hands over the last response once more. -/
theorem Met.failure {d : TemplateDict} {h : EqHandler} (hh : ∀ l, h l = .ok ()) {k f : Nat} {st : EqState} {sv : EqServer} {times : List Nat}
    (hm : Met d k f st sv times) (x : Exc) : ∃ times', times'.length = times.length ∧ Met d k (f + 1) (eqPoll d h st (.failure x)) sv times' := by
  by_cases ht : times = []
  · subst ht
    have hf := hm.fresh rfl
    have e : eqPoll d h st (.failure x) = { st with posts := st.posts ++ [pollData st.lastId] } := by
      simp [eqPoll, hf.2.1, parseResult, ← hf.1]
    refine ⟨[], rfl, ?_⟩
    rw [e]
    exact ⟨hm.pos, by simp, hm.sane, hm.count, hm.delivered, hm.fresh, fun h => absurd rfl h⟩
  · obtain ⟨r, h1, h2, h3, h4⟩ := hm.last ht
    obtain ⟨ts, t, rfl⟩ : ∃ ts t, times = ts ++ [t] := ⟨_, _, (List.dropLast_append_getLast ht).symm⟩
    have hd := poll_delivers d h hh st (.failure x) st.result r.1 r.2 rfl h3
    refine ⟨ts ++ [t + 1], by simp, ?_⟩
    have hlen : ∀ u : Nat, (ts ++ [u]).length = ts.length + 1 := by simp
    have hk : k + ts.length < sv.sent.length := by
      have := hm.count
      rw [hlen] at this
      omega
    have h1' : (sv.sent.drop k)[ts.length]? = some r := by
      rw [List.getElem?_drop]
      have h1' := h1
      rw [hlen] at h1'
      exact h1'
    have htake : (sv.sent.drop k).take (ts.length + 1) = (sv.sent.drop k).take ts.length ++ [r] := by
      rw [List.take_add_one, h1']; rfl
    have htl : ((sv.sent.drop k).take ts.length).length = ts.length := by
      rw [List.length_take, List.length_drop]; omega
    refine ⟨?_, ?_, hm.sane, by rw [hlen, ← hlen t]; exact hm.count, ?_, fun h => by simp at h, fun _ => ⟨r, by rw [hlen, ← hlen t]; exact h1, ?_, ?_, by rw [hlen, ← hlen t]; exact h4⟩⟩
    · intro u hu
      rcases List.mem_append.mp hu with hu | hu
      · exact hm.pos u (List.mem_append_left _ hu)
      · rw [List.mem_singleton.mp hu]; omega
    · have := hm.sum
      simp only [List.sum_append, List.sum_cons, List.sum_nil, List.length_append, List.length_cons, List.length_nil] at this ⊢
      omega
    · rw [hd, hm.delivered, hlen, hlen, htake, handedOver_snoc _ _ _ _ htl, handedOver_snoc _ _ _ _ htl, List.replicate_succ']
      simp
    · have := eqPoll_lastId d h st (.failure x)
      have hi := h3.item
      simp only [eqPoll, hi.1, if_false, hi.2, parseResult]
      split <;> rfl
    · rw [eqPoll_result]; exact h3

/-- A response that comes through. -/
theorem Met.received {d : TemplateDict} {h : EqHandler} (hh : ∀ l, h l = .ok ()) {k f : Nat} {st : EqState} {sv : EqServer} {times : List Nat}
    (hm : Met d k f st sv times) {v : Llsd} {r : Llsd × List Event} (hr : IsResponse (Known d) v r.1 r.2) (hi : sv.sent[k + times.length]? = some r)
    (hlen : sv.sent.length = k + times.length + 1) : Met d k f (eqPoll d h st (.response v)) sv (times ++ [1]) := by
  have hd := poll_delivers d h hh st (.response v) v r.1 r.2 rfl hr
  have htake : (sv.sent.drop k).take (times.length + 1) = (sv.sent.drop k).take times.length ++ [r] := by
    rw [List.take_add_one, List.getElem?_drop, hi]; rfl
  have htl : ((sv.sent.drop k).take times.length).length = times.length := by
    rw [List.length_take, List.length_drop]; omega
  refine ⟨?_, ?_, hm.sane, .inl (by simp; omega), ?_, fun h => by simp at h, fun _ => ⟨r, by simpa using hi, ?_, ?_, fun h => ?_⟩⟩
  · intro u hu
    rcases List.mem_append.mp hu with hu | hu
    · exact hm.pos u hu
    · rw [List.mem_singleton.mp hu]; exact Nat.le_refl 1
  · have := hm.sum
    simp only [List.sum_append, List.sum_cons, List.sum_nil, List.length_append, List.length_cons, List.length_nil]
    omega
  · rw [hd, hm.delivered, List.length_append, List.length_singleton, htake, handedOver_snoc _ _ _ _ htl]
    simp
  · have hi := hr.item
    simp only [eqPoll, hi.1, if_false, hi.2, parseResult]
    split <;> rfl
  · rw [eqPoll_result]; exact hr
  · rw [List.length_append, List.length_singleton] at h
    omega

theorem pollData_ack (i : Llsd) : ∃ m, pollData i = .map m ∧ Dict.get? m "ack" = if isMinusOne i then none else some i := by
  unfold pollData
  split
  · exact ⟨_, rfl, rfl⟩
  · exact ⟨_, rfl, rfl⟩

theorem post_eq {d : TemplateDict} {h : EqHandler} {st : EqState} {o : PollOutcome} {post : Llsd} (hp : (eqPoll d h st o).posts = st.posts ++ [post]) :
    post = pollData st.lastId := by
  have := (eqPoll_posts d h st o).1.symm.trans hp
  simpa using this.symm

theorem polling_met {d : TemplateDict} {h : EqHandler} (hh : ∀ l, h l = .ok ()) {sv0 : EqServer} (h0 : sv0.Sane) {evs : List Event} {f : Nat} {st : EqState}
    {sv : EqServer} (hp : Polling d h sv0 evs f st sv) : ∃ times, Met d sv0.done f st sv times ∧
    (f = 0 → sv0.unacked = false → sv0.done + times.length = sv.sent.length) := by
  induction hp with
  | start =>
    refine ⟨[], ⟨by simp, by simp, fun r hr => h0.1 r (List.mem_of_mem_drop hr), ?_, by simp [handedOver], fun _ => ⟨rfl, rfl, fun hk => ?_⟩, fun h => absurd rfl h⟩,
      fun _ hu => by simp [EqServer.done, hu]⟩
    · unfold EqServer.done
      by_cases hu : sv0.unacked = true
      · have := List.length_pos_iff.mpr (h0.2 hu)
        right
        simp [hu]
        omega
      · left; simp [hu]
    · unfold EqServer.done at hk
      by_cases hu : sv0.unacked = true
      · have := List.length_pos_iff.mpr (h0.2 hu)
        simp [hu] at hk
        omega
      · simpa using hu
  | happens e _ ih =>
    obtain ⟨times, hm, hz⟩ := ih
    exact ⟨times, ⟨hm.pos, hm.sum, hm.sane, hm.count, hm.delivered, hm.fresh, hm.last⟩, hz⟩
  | requestLost x _ ih =>
    obtain ⟨times, hm, hz⟩ := ih
    obtain ⟨t', -, h'⟩ := hm.failure hh x
    exact ⟨t', h', fun h => by omega⟩
  | serverError x post _ hpost ih =>
    obtain ⟨times, hm, hz⟩ := ih
    rw [post_eq hpost]
    obtain ⟨m, e, hg⟩ := pollData_ack _
    rw [e]
    obtain ⟨t', -, h'⟩ := (hm.register hg).1.failure hh x
    exact ⟨t', h', fun h => by omega⟩
  | answerLost x post r _ hpost ha ih =>
    obtain ⟨times, hm, hz⟩ := ih
    rw [post_eq hpost] at ha
    obtain ⟨m, e, hg⟩ := pollData_ack _
    rw [e] at ha
    obtain ⟨h1, h2⟩ := hm.register hg
    obtain ⟨t', -, h'⟩ := (h1.answers h2 ha).1.failure hh x
    exact ⟨t', h', fun h => by omega⟩
  | answered v post r _ hpost ha hr ih =>
    obtain ⟨times, hm, hz⟩ := ih
    rw [post_eq hpost] at ha
    obtain ⟨m, e, hg⟩ := pollData_ack _
    rw [e] at ha
    obtain ⟨h1, h2⟩ := hm.register hg
    obtain ⟨h3, h4, h5, -⟩ := h1.answers h2 ha
    exact ⟨_, h3.received hh hr h4 h5, fun _ _ => by simp; omega⟩

theorem Spec.EqServer.register_sent (sv : EqServer) (post : Llsd) : (sv.register post).sent = sv.sent ∧ (sv.register post).waiting = sv.waiting ∧
    ((sv.register post).unacked = true → sv.unacked = true) := by
  rcases sv.register_eq post with ⟨e, -⟩ | ⟨e, -⟩ <;> simp [e]

/-- The events a simulator knows of: those in responses and those that wait. -/
theorem Spec.EqServer.Answers.server {sv sv' : EqServer} {r : Llsd × List Event} (ha : sv.Answers r sv') (hs : sv.Sane) :
    sv.sent <+: sv'.sent ∧ sv'.Sane ∧ sv'.sent.flatMap (·.2) ++ sv'.waiting = sv.sent.flatMap (·.2) ++ sv.waiting := by
  cases ha with
  | again hun hl => exact ⟨List.prefix_rfl, hs, rfl⟩
  | new id n hun hi hne =>
    refine ⟨List.prefix_append _ _, ⟨fun r hr => ?_, fun _ => by simp⟩, by simp⟩
    rcases List.mem_append.mp hr with hr | hr
    · exact hs.1 r hr
    · rw [List.mem_singleton.mp hr]; exact hi

theorem Spec.EqServer.Sane.register {sv : EqServer} (hs : sv.Sane) (post : Llsd) : (sv.register post).Sane := by
  obtain ⟨e1, -, e3⟩ := sv.register_sent post
  exact ⟨by rw [e1]; exact hs.1, fun h => by rw [e1]; exact hs.2 (e3 h)⟩

theorem polling_server {d : TemplateDict} {h : EqHandler} {sv0 : EqServer} (h0 : sv0.Sane) {evs : List Event} {f : Nat} {st : EqState}
    {sv : EqServer} (hp : Polling d h sv0 evs f st sv) :
    sv0.sent <+: sv.sent ∧ sv.Sane ∧ sv.sent.flatMap (·.2) ++ sv.waiting = sv0.sent.flatMap (·.2) ++ sv0.waiting ++ evs := by
  induction hp with
  | start => exact ⟨List.prefix_rfl, h0, by simp⟩
  | happens e _ ih =>
    refine ⟨ih.1, ih.2.1, ?_⟩
    simp only
    rw [← List.append_assoc, ih.2.2, List.append_assoc]
  | requestLost x _ ih => exact ih
  | @serverError evs f st sv x post _ hpost ih =>
    obtain ⟨e1, e2, -⟩ := sv.register_sent post
    refine ⟨by rw [e1]; exact ih.1, ih.2.1.register post, by rw [e1, e2]; exact ih.2.2⟩
  | @answerLost evs f st sv sv' x post r _ hpost ha ih =>
    obtain ⟨e1, e2, -⟩ := sv.register_sent post
    obtain ⟨h1, h2, h3⟩ := ha.server (ih.2.1.register post)
    rw [e1] at h1
    rw [e1, e2] at h3
    exact ⟨ih.1.trans h1, h2, h3.trans ih.2.2⟩
  | @answered evs f st sv sv' v post r _ hpost ha hr ih =>
    obtain ⟨e1, e2, -⟩ := sv.register_sent post
    obtain ⟨h1, h2, h3⟩ := ha.server (ih.2.1.register post)
    rw [e1] at h1
    rw [e1, e2] at h3
    exact ⟨ih.1.trans h1, h2, h3.trans ih.2.2⟩

/-- What all clients so far have handed over. -/
structure AllMet (ms : List Message) (n : Nat) (sv : EqServer) (times : List Nat) : Prop where
  pos : ∀ t ∈ times, 1 ≤ t
  sum : times.sum ≤ times.length + n
  pending : times.length = sv.sent.length → sv.unacked = true → times.sum + 1 ≤ times.length + n
  count : times.length = sv.sent.length ∨ (times.length + 1 = sv.sent.length ∧ sv.unacked = true)
  delivered : ms = handedOver (sv.sent.take times.length) times
  zero : n = 0 → times.length = sv.sent.length ∧ sv.unacked = false

theorem handedOver_merge (r : Llsd × List Event) (A B : List (Llsd × List Event)) (ts us : List Nat) (t u : Nat) (h : A.length = ts.length) :
    handedOver (A ++ r :: B) (ts ++ (t + u) :: us) = handedOver (A ++ [r]) (ts ++ [t]) ++ handedOver (r :: B) (u :: us) := by
  rw [handedOver_append _ _ _ _ h, handedOver_snoc _ _ _ _ h]
  simp only [handedOver, List.zip_cons_cons, List.flatMap_cons, List.append_assoc]
  rw [← List.replicate_append_replicate, List.flatten_append, List.append_assoc]

/-- One more client. -/
theorem AllMet.join {d : TemplateDict} {ms : List Message} {n f : Nat} {sv sv' : EqServer} {times times' : List Nat} {st : EqState} (ha : AllMet ms n sv times)
    (hs : sv.Sane) (hpre : sv.sent <+: sv'.sent) (hm : Met d sv.done f st sv' times') : ∃ all, (∀ t ∈ all, 1 ≤ t) ∧ all.sum ≤ all.length + (n + f) ∧
      (all.length = sv'.sent.length ∨ (all.length + 1 = sv'.sent.length ∧ sv'.unacked = true)) ∧ ms ++ st.delivered = handedOver (sv'.sent.take all.length) all ∧
      (times' ≠ [] → all.length = sv.done + times'.length) ∧ (times' = [] → all = times) := by
  obtain ⟨rest, hrest⟩ := hpre
  have hlen : sv'.sent.length = sv.sent.length + rest.length := by rw [← hrest]; simp
  have hmlen : times.length ≤ sv.sent.length := by rcases ha.count with h | ⟨h, -⟩ <;> omega
  have htake : sv'.sent.take times.length = sv.sent.take times.length := by
    rw [← hrest, List.take_append_of_le_length hmlen]
  have hold : (sv'.sent.take times.length).length = times.length := by rw [htake, List.length_take]; omega
  have hdel := hm.delivered
  by_cases hpend : times.length = sv.sent.length ∧ sv.unacked = true
  · obtain ⟨hl, hu⟩ := hpend
    have hne := List.length_pos_iff.mpr (hs.2 hu)
    have hdone : sv.done = times.length - 1 := by simp [EqServer.done, hu, hl]
    cases times' with
    | nil =>
      refine ⟨times, ha.pos, Nat.le_trans ha.sum (by omega), ?_, ?_, fun h => absurd rfl h, fun _ => rfl⟩
      · have := hm.count
        simp only [List.length_nil, Nat.add_zero] at this
        rcases this with h | ⟨h, h'⟩ <;> omega
      · rw [hdel, ha.delivered, htake]; simp [handedOver]
    | cons t' ts' =>
      have hnt : times ≠ [] := List.length_pos_iff.mp (by omega)
      obtain ⟨ts, t, rfl⟩ : ∃ ts t, times = ts ++ [t] := ⟨_, _, (List.dropLast_append_getLast hnt).symm⟩
      have hts : (ts ++ [t]).length = ts.length + 1 := by simp
      have hk : sv.done = ts.length := by omega
      have hall : (ts ++ (t + t') :: ts').length = sv.done + (t' :: ts').length := by simp [hk]
      have hpos' := hm.pos t' (by simp)
      refine ⟨ts ++ (t + t') :: ts', ?_, ?_, ?_, ?_, fun _ => hall, fun h => by simp at h⟩
      · intro u hu'
        rcases List.mem_append.mp hu' with h | h
        · exact ha.pos u (by simp [h])
        · rcases List.mem_cons.mp h with rfl | h
          · omega
          · exact hm.pos u (by simp [h])
      · have h1 := ha.pending hl hu
        have h2 := hm.sum
        simp only [List.sum_append, List.sum_cons, List.sum_nil, List.length_append, List.length_cons, List.length_nil] at h1 h2 ⊢
        omega
      · rw [hall]; exact hm.count
      · rw [hall, hdel, ha.delivered, ← htake, hts, hk]
        have hlt : ts.length < sv'.sent.length := by omega
        have e1 : sv'.sent.take (ts.length + 1) = sv'.sent.take ts.length ++ [sv'.sent[ts.length]] := by
          rw [List.take_add_one, List.getElem?_eq_getElem hlt]; rfl
        have e2 : (sv'.sent.drop ts.length).take (t' :: ts').length = sv'.sent[ts.length] :: (sv'.sent.drop (ts.length + 1)).take ts'.length := by
          rw [List.drop_eq_getElem_cons hlt, List.length_cons, List.take_succ_cons]
        have e3 : sv'.sent.take (ts.length + (t' :: ts').length) = sv'.sent.take ts.length ++ (sv'.sent.drop ts.length).take (t' :: ts').length := by
          rw [List.take_add]
        rw [e3, e1, e2, handedOver_merge _ _ _ _ _ _ _ (by rw [List.length_take]; omega)]
  · have hdone : sv.done = times.length := by
      unfold EqServer.done
      rcases ha.count with h | ⟨h, h'⟩
      · have : ¬ sv.unacked = true := fun h' => hpend ⟨h, h'⟩
        simp [this, h]
      · simp [h', ← h]
    have hall : (times ++ times').length = sv.done + times'.length := by simp [hdone]
    refine ⟨times ++ times', ?_, ?_, ?_, ?_, fun _ => hall, fun h => by simp [h]⟩
    · intro u hu
      rcases List.mem_append.mp hu with h | h
      · exact ha.pos u h
      · exact hm.pos u h
    · have h1 := ha.sum
      have h2 := hm.sum
      simp only [List.sum_append, List.length_append]
      omega
    · rw [hall]; exact hm.count
    · rw [hall, hdel, ha.delivered, hdone, List.take_add, handedOver_append _ _ _ _ hold, htake]

theorem clients_met {d : TemplateDict} {h : EqHandler} (hh : ∀ l, h l = .ok ()) {es : List Event} {ms : List Message} {n : Nat} {sv0 sv : EqServer} (h0 : sv0.sent = []) (hu : sv0.unacked = false)
    (hc : Clients d h sv0 es ms n sv) :
    sv.Sane ∧ sv.sent.flatMap (·.2) ++ sv.waiting = sv0.waiting ++ es ∧ ∃ times, AllMet ms n sv times := by
  induction hc with
  | none => exact ⟨⟨by simp [h0], by simp [hu]⟩, by simp [h0], [], by simp, by simp, by simp [hu], by simp [h0], by simp [handedOver], fun _ => by simp [h0, hu]⟩
  | @stopped es ms n sv evs f st sv' post final _ hp hpost ih =>
    obtain ⟨hs, hev, times, ha⟩ := ih
    obtain ⟨hpre, hs', hev'⟩ := polling_server hs hp
    obtain ⟨times', hm, hz⟩ := polling_met hh hs hp
    obtain ⟨e1, e2, -⟩ := sv'.register_sent post
    have hi : isMinusOne st.lastId = false ∧ post = .map [("ack", st.lastId), ("done", .bool true)] := by
      unfold processRegion at hpost
      simp only [List.foldl_nil] at hpost
      by_cases hi : isMinusOne st.lastId
      · simp [hi] at hpost
      · refine ⟨by simpa using hi, ?_⟩
        cases final <;> simpa [hi, eq_comm] using hpost
    obtain ⟨hi, rfl⟩ := hi
    obtain ⟨hm', hreg⟩ := hm.register (m := [("ack", st.lastId), ("done", .bool true)]) (by simp [hi, Dict.get?])
    obtain ⟨all, h1, h2, h3, h4, h5, h6⟩ := ha.join hs (by rw [e1]; exact hpre) hm'
    have hne : times' ≠ [] := by
      intro h
      rw [(hm.fresh h).1] at hi
      simp [isMinusOne] at hi
    refine ⟨hs'.register _, by rw [e1, e2, hev', hev]; simp, all, h1, h2, fun hl hu' => ?_, h3, h4, fun hn => ?_⟩
    swap
    · have hl : sv.done + times'.length = (sv'.register (.map [("ack", st.lastId), ("done", .bool true)])).sent.length := by
        rw [e1]
        exact hz (by omega) (ha.zero (by omega)).2
      exact ⟨by rw [h5 hne]; exact hl, hreg hl⟩
    exfalso
    rw [hreg (by rw [← h5 hne]; exact hl)] at hu'
    cases hu'
  | @idle es ms n sv evs f st sv' final _ hp hpost ih =>
    obtain ⟨hs, hev, times, ha⟩ := ih
    obtain ⟨hpre, hs', hev'⟩ := polling_server hs hp
    obtain ⟨times', hm, hz⟩ := polling_met hh hs hp
    obtain ⟨all, h1, h2, h3, h4, h5, h6⟩ := ha.join hs hpre hm
    have hi : isMinusOne st.lastId = true := by
      unfold processRegion at hpost
      simp only [List.foldl_nil] at hpost
      by_cases hi : isMinusOne st.lastId
      · exact hi
      · cases final <;> simp [hi] at hpost
    have hnil : times' = [] := by
      by_contra hne
      obtain ⟨r, h1, h2, -⟩ := hm.last hne
      have := hm.sane r (mem_drop_of_index h1 (by have := List.length_pos_iff.mpr hne; omega))
      rw [saneId_iff, ← h2, hi] at this
      cases this
    refine ⟨hs', by rw [hev', hev]; simp, all, h1, h2, fun hl hu' => ?_, h3, h4, fun hn => ?_⟩
    swap
    · obtain ⟨hl, hu⟩ := ha.zero (by omega)
      have hl' := hz (by omega) hu
      rw [hnil] at hl'
      have hd : sv.done = sv.sent.length := by simp [EqServer.done, hu]
      exact ⟨by rw [h6 hnil, hl, ← hd]; exact hl', (hm.fresh hnil).2.2 hl'⟩
    rw [h6 hnil] at hl ⊢
    have hf := (hm.fresh hnil).2.2
    have hcount := hm.count
    rw [hnil] at hcount
    simp only [List.length_nil, Nat.add_zero] at hcount
    have hle : sv.sent.length ≤ sv'.sent.length := hpre.length_le
    rcases ha.count with hc | ⟨hc, hu⟩
    · by_cases hu : sv.unacked = true
      · have := ha.pending hc hu
        omega
      · rw [hf (by simp [EqServer.done, hu, ← hc, hl])] at hu'
        cases hu'
    · omega
  | @crashed es ms n sv evs f st sv' _ hp ih =>
    obtain ⟨hs, hev, times, ha⟩ := ih
    obtain ⟨hpre, hs', hev'⟩ := polling_server hs hp
    obtain ⟨times', hm, hz⟩ := polling_met hh hs hp
    obtain ⟨all, h1, h2, h3, h4, h5, h6⟩ := ha.join hs hpre hm
    exact ⟨hs', by rw [hev', hev]; simp, all, h1, by omega, fun _ _ => by omega, h3, h4, fun h => by omega⟩

/-- Times that add up to their number are all one. -/
theorem all_one : ∀ {l : List Nat}, (∀ t ∈ l, 1 ≤ t) → l.sum ≤ l.length → ∀ t ∈ l, t = 1 := by
  intro l
  induction l with
  | nil => intro _ _ t ht; cases ht
  | cons a l ih =>
    intro hp hs t ht
    have h1 : l.length ≤ l.sum := by
      clear ih hs ht
      have hp' : ∀ t ∈ l, 1 ≤ t := fun t h => hp t (by simp [h])
      clear hp
      induction l with
      | nil => simp
      | cons b l ih =>
        have := ih (fun t h => hp' t (by simp [h]))
        have hb := hp' b (by simp)
        simp only [List.length_cons, List.sum_cons]
        omega
    have ha := hp a (by simp)
    simp only [List.length_cons, List.sum_cons] at hs
    rcases List.mem_cons.mp ht with rfl | ht
    · omega
    · exact ih (fun t h => hp t (by simp [h])) (by omega) t ht

theorem handedOver_ones : ∀ (l : List Nat) (rs : List (Llsd × List Event)), (∀ t ∈ l, t = 1) → rs.length = l.length → handedOver rs l = rs.flatMap responseMessages := by
  intro l
  induction l with
  | nil => intro rs _ h; rw [List.length_eq_zero_iff.mp h]; rfl
  | cons a l ih =>
    intro rs ha h
    cases rs with
    | nil => cases h
    | cons r rs =>
      have := ih rs (fun t h => ha t (by simp [h])) (by simpa using h)
      rw [List.flatMap_cons, ← this, ha a (by simp)]
      simp [handedOver]

/-! ## C96 -/

/-- **C96, in order.** One client after the other polls a simulator that makes a new response only when the previous one is acknowledged; requests, answers and final acknowledgements
may get lost, the simulator may report errors, and clients may crash.  What the clients hand to their message handlers, one after the other, is the responses the simulator made, in the
order it made them, without a gap: each one once or several times in a row, and at most the last one (not acknowledged) not yet.  The repetitions are at most as many as the failures. -/
theorem C96_in_order (d : TemplateDict) (h : EqHandler) (hh : ∀ l, h l = .ok ()) (sv0 sv : EqServer) (h0 : sv0.sent = []) (hu : sv0.unacked = false) (es : List Event) (ms : List Message)
    (fails : Nat) (hc : Clients d h sv0 es ms fails sv) : ∃ times : List Nat, ms = handedOver (sv.sent.take times.length) times ∧ (∀ t ∈ times, 1 ≤ t) ∧
      times.sum ≤ times.length + fails ∧ (times.length = sv.sent.length ∨ (times.length + 1 = sv.sent.length ∧ sv.unacked = true)) := by
  obtain ⟨-, -, times, ha⟩ := clients_met hh h0 hu hc
  exact ⟨times, ha.delivered, ha.pos, ha.sum, ha.count⟩

/-- **C96, nothing is lost.** Every event that has happened (in whatever order clients came and went) has been handed over to a client, with the id of a response it was in, or it is in the
last response and that has not been acknowledged yet, or it waits in the simulator for a response. -/
theorem C96_nothing_lost (d : TemplateDict) (h : EqHandler) (hh : ∀ l, h l = .ok ()) (sv0 sv : EqServer) (h0 : sv0.sent = []) (hu : sv0.unacked = false) (es : List Event) (ms : List Message)
    (fails : Nat) (hc : Clients d h sv0 es ms fails sv) (e : Event) (he : e ∈ sv0.waiting ++ es) :
    (∃ r ∈ sv.sent, e ∈ r.2 ∧ e.message r.1 ∈ ms) ∨ (sv.unacked = true ∧ ∃ r, sv.sent.getLast? = some r ∧ e ∈ r.2) ∨ e ∈ sv.waiting := by
  obtain ⟨-, hev, times, ha⟩ := clients_met hh h0 hu hc
  rw [← hev] at he
  rcases List.mem_append.mp he with he | he
  · obtain ⟨r, hr, her⟩ := List.mem_flatMap.mp he
    obtain ⟨i, hi⟩ := List.mem_iff_getElem?.mp hr
    obtain ⟨hlt, -⟩ := List.getElem?_eq_some_iff.mp hi
    by_cases hit : i < times.length
    · refine .inl ⟨r, hr, her, ?_⟩
      rw [ha.delivered, handedOver, List.mem_flatMap]
      have ht : times[i]? = some times[i] := List.getElem?_eq_getElem hit
      refine ⟨(r, times[i]), List.mem_iff_getElem?.mpr ⟨i, ?_⟩, ?_⟩
      · rw [List.getElem?_zip_eq_some]
        exact ⟨by rw [List.getElem?_take_of_lt hit]; exact hi, ht⟩
      · have hpos := ha.pos _ (List.getElem_mem hit)
        simp only [List.mem_flatten, List.mem_replicate]
        exact ⟨responseMessages r, ⟨by omega, rfl⟩, List.mem_map.mpr ⟨e, her, rfl⟩⟩
    · right; left
      rcases ha.count with hc' | ⟨hc', hu'⟩
      · omega
      · refine ⟨hu', r, ?_, her⟩
        rw [getLast?_index, ← hc']
        have : i = times.length := by omega
        rw [← this]
        exact hi
  · exact .inr (.inr he)

/-- **C96, exactly once.** As long as nothing fails, what the clients hand over is exactly the events in the responses, once each and in order; and those in responses and those that wait
are all events, in the order in which they happened. -/
theorem C96_exactly_once (d : TemplateDict) (h : EqHandler) (hh : ∀ l, h l = .ok ()) (sv0 sv : EqServer) (h0 : sv0.sent = []) (hu : sv0.unacked = false) (es : List Event) (ms : List Message)
    (hc : Clients d h sv0 es ms 0 sv) : ms = sv.sent.flatMap (fun r => r.2.map (Event.message r.1)) ∧ sv.sent.flatMap (·.2) ++ sv.waiting = sv0.waiting ++ es := by
  obtain ⟨-, hev, times, ha⟩ := clients_met hh h0 hu hc
  refine ⟨?_, hev⟩
  have hl := (ha.zero rfl).1
  rw [ha.delivered, hl, List.take_length]
  exact handedOver_ones _ _ (all_one ha.pos ha.sum) hl.symm

/-! ## Demonstration: two clients -/

/-- Two events wait; the first client gets them in a response with id 5, its next request is lost, and it crashes; the second client asks, gets the same response again, and stops. -/
def eqServer : EqServer := { waiting := [demoAckEvent, demoChatEvent] }
def eqServed : EqServer := { sent := [(.int 5, [demoAckEvent, demoChatEvent])], unacked := true }

theorem eq_first (x : Exc) : Polling dispDict (fun _ => .ok ()) eqServer [] 1
    (eqPoll dispDict (fun _ => .ok ()) (eqPoll dispDict (fun _ => .ok ()) { running := true } (.response (demoResponse 5))) (.failure x)) eqServed := by
  refine .requestLost x (.answered (demoResponse 5) (.map []) (.int 5, [demoAckEvent, demoChatEvent]) .start rfl ?_ (demo_isResponse 5))
  have : eqServer.register (.map []) = eqServer := by
    rcases eqServer.register_eq (.map []) with ⟨e, -⟩ | ⟨-, m, r, h, h', -⟩
    · exact e
    · cases h'
  rw [this]
  exact EqServer.Answers.new (.int 5) 2 rfl (by simp [SaneId]) (by intro r h; cases h)

theorem eq_second : Polling dispDict (fun _ => .ok ()) eqServed [] 0 (eqPoll dispDict (fun _ => .ok ()) { running := true } (.response (demoResponse 5))) eqServed := by
  refine .answered (demoResponse 5) (.map []) (.int 5, [demoAckEvent, demoChatEvent]) .start rfl ?_ (demo_isResponse 5)
  have : eqServed.register (.map []) = eqServed := by
    rcases eqServed.register_eq (.map []) with ⟨e, -⟩ | ⟨-, m, r, h, -, h'⟩
    · exact e
    · cases h; cases h'
  rw [this]
  exact EqServer.Answers.again rfl rfl

/-- The hypotheses are met; the two events are handed over three times: by the first client, again after its failed poll, and by the second client.  Then the response is acknowledged. -/
example : ∃ ms sv, Clients dispDict (fun _ => .ok ()) eqServer [] ms 2 sv ∧ sv.unacked = false ∧
    ms.map (·.name) = ["PacketAck", "ChatterBoxInvitation", "PacketAck", "ChatterBoxInvitation", "PacketAck", "ChatterBoxInvitation"] := by
  refine ⟨_, _, .stopped (.response .undef) (.crashed .none (eq_first (.httpError 502))) eq_second
    (post := .map [("ack", .int 5), ("done", .bool true)]) (by decide +kernel), ?_, by decide +kernel⟩
  rcases eqServed.register_eq (.map [("ack", .int 5), ("done", .bool true)]) with ⟨-, h⟩ | ⟨e, -⟩
  · exact absurd ⟨_, _, rfl, rfl, by decide +kernel⟩ h
  · rw [e]

end Pyogp
