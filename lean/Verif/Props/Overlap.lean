import Verif.Proofs.Overlap

/-!
# C114: notifications that overlap
-/

namespace Pyogp
open Spec
variable {α : Type}

theorem coTrace_good (limit : Nat) (beh : CoBehaviour α) (names : List String) (acts : List (CoAct α)) : Good (coTrace limit beh names acts) :=
  (coInv_run limit beh acts (coInv_init names)).good

/-- **C114, by position.** In any schedule, a notification that has made `n` calls next calls the subscriber who is at position `n` of the subscriptions to its event in force at that moment, with its argument and
the stored ones. -/
theorem C114_by_position (limit : Nat) (beh : CoBehaviour α) (names : List String) (acts : List (CoAct α)) (p q : List (CoEv α)) (id : NotifyId) (c : CoCall α)
    (h : coTrace limit beh names acts = p ++ .called id c :: q) :
    ∃ ev x s, .started id ev x ∈ p ∧ (subscriptions ev p)[(callsIn id p).length]? = some s ∧ c = coCallOf x s := by
  obtain ⟨ev, x, s, h1, -, h2, h3⟩ := coTrace_good limit beh names acts p _ q h
  exact ⟨ev, x, s, h1, h2, h3⟩

/-- A notification begins once. -/
theorem started_unique {tr pre rest : List (CoEv α)} (hg : Good tr) {id : NotifyId} {ev : String} {x : α} (h : tr = pre ++ .started id ev x :: rest) {ev' : String} {x' : α}
    (hm : .started id ev' x' ∈ tr) : ev' = ev ∧ x' = x := by
  have hpre := hg pre _ rest h
  rw [h] at hm
  rcases List.mem_append.mp hm with hm | hm
  · exact absurd rfl (hpre _ hm)
  · rcases List.mem_cons.mp hm with hm | hm
    · cases hm; exact ⟨rfl, rfl⟩
    · obtain ⟨a, b, rfl⟩ := List.append_of_mem hm
      have h2 := hg (pre ++ .started id ev x :: a) (.started id ev' x') b (by rw [h]; simp)
      exact absurd rfl (h2 (.started id ev x) (by simp))

theorem callsIn_append (id : NotifyId) (a b : List (CoEv α)) : callsIn id (a ++ b) = callsIn id a ++ callsIn id b := List.filterMap_append

/-- It is not about this event. -/
theorem subscriptions_same (ev : String) (tr : List (CoEv α)) (e : CoEv α) (h1 : ∀ s, e ≠ .subscribed ev s) (h2 : ∀ s, e ≠ .unsubscribed ev s) :
    subscriptions ev (tr ++ [e]) = subscriptions ev tr := by
  refine subscriptions_snoc ev tr e ?_
  cases e with
  | subscribed ev' s =>
    have : ev' ≠ ev := fun h => h1 s (by rw [h])
    simp [eventChanges, this]
  | unsubscribed ev' s =>
    have : ev' ≠ ev := fun h => h2 s (by rw [h])
    simp [eventChanges, this]
  | _ => rfl

theorem trace_induction {β : Type} {P : List β → Prop} (l : List β) (h0 : P []) (hs : ∀ l b, P l → P (l ++ [b])) : P l := by
  have : ∀ n (l : List β), l.length = n → P l := by
    intro n
    induction n with
    | zero => intro l hl; rw [List.length_eq_zero_iff.mp hl]; exact h0
    | succ n ih =>
      intro l hl
      rcases List.eq_nil_or_concat l with rfl | ⟨l', b, rfl⟩
      · cases hl
      · rw [List.concat_eq_append]
        refine hs l' b (ih l' ?_)
        rw [List.concat_eq_append, List.length_append] at hl
        simpa using hl
  exact this _ l rfl

/-- No cancellations: the calls so far are those of the first subscribers. -/
theorem calls_prefix {tr pre : List (CoEv α)} (hg : Good tr) {id : NotifyId} {ev : String} {x : α} (mid : List (CoEv α)) : ∀ rest, tr = (pre ++ [.started id ev x]) ++ mid ++ rest →
    (∀ s, .unsubscribed ev s ∉ mid) → ∃ n, n ≤ (subscriptions ev (pre ++ [.started id ev x] ++ mid)).length ∧
      callsIn id (pre ++ [.started id ev x] ++ mid) = ((subscriptions ev (pre ++ [.started id ev x] ++ mid)).take n).map (coCallOf x) ∧
      subscriptions ev pre <+: subscriptions ev (pre ++ [.started id ev x] ++ mid) := by
  induction mid using trace_induction with
  | h0 =>
    intro rest h _
    have hpre := hg pre (.started id ev x) rest (by rw [h]; simp)
    refine ⟨0, Nat.zero_le _, ?_, ?_⟩
    · rw [List.append_nil, callsIn_append, callsIn_noEv hpre]
      rfl
    · rw [List.append_nil, subscriptions_other _ _ _ (by simp [CoEv.id?])]
      exact List.prefix_rfl
  | hs mid e ih =>
    intro rest h hun
    obtain ⟨n, hn, hc, hp⟩ := ih (e :: rest) (by rw [h]; simp) (fun s hs => hun s (List.mem_append_left _ hs))
    have ge := hg (pre ++ [.started id ev x] ++ mid) e rest (by rw [h]; simp)
    rw [← List.append_assoc]
    have hstart : ∀ ev' x', .started id ev' x' ∈ pre ++ [.started id ev x] ++ mid → ev' = ev ∧ x' = x := fun ev' x' hm =>
      started_unique hg (pre := pre) (id := id) (ev := ev) (x := x) (rest := mid ++ e :: rest) (by rw [h]; simp) (by
        rw [show tr = (pre ++ [.started id ev x] ++ mid) ++ (e :: rest) from by rw [h]; simp]
        exact List.mem_append_left _ hm)
    have hin : .started id ev x ∈ pre ++ [.started id ev x] ++ mid := by simp
    generalize pre ++ [.started id ev x] ++ mid = p at *
    have quiet : e.id? ≠ some id → (∀ s, e ≠ .subscribed ev s) → (∀ s, e ≠ .unsubscribed ev s) → ∃ n, n ≤ (subscriptions ev (p ++ [e])).length ∧
        callsIn id (p ++ [e]) = ((subscriptions ev (p ++ [e])).take n).map (coCallOf x) ∧ subscriptions ev pre <+: subscriptions ev (p ++ [e]) := fun h1 h2 h3 =>
      ⟨n, by rw [subscriptions_same ev p e h2 h3]; exact hn, by rw [subscriptions_same ev p e h2 h3, callsIn_snoc h1]; exact hc, by rw [subscriptions_same ev p e h2 h3]; exact hp⟩
    cases e with
    | subscribed ev' s =>
      by_cases he : ev = ev'
      · subst he
        refine ⟨n, ?_, ?_, ?_⟩
        · rw [subscriptions_subscribed, if_pos rfl, eventSubscribe, List.length_append]; omega
        · rw [subscriptions_subscribed, if_pos rfl, eventSubscribe, List.take_append_of_le_length hn, callsIn_snoc (by simp [CoEv.id?])]
          exact hc
        · rw [subscriptions_subscribed, if_pos rfl]
          exact hp.trans (List.prefix_append _ _)
      · exact quiet (by simp [CoEv.id?]) (by intro s h; cases h; exact he rfl) (by simp)
    | unsubscribed ev' s =>
      refine quiet (by simp [CoEv.id?]) (by simp) ?_
      intro s' h
      exact hun s' (by rw [h]; simp)
    | started id' ev' x' =>
      refine quiet ?_ (by simp) (by simp)
      intro h'
      cases h'
      exact ge (.started id ev x) hin rfl
    | ended id' r =>
      have hs : subscriptions ev (p ++ [.ended id' r]) = subscriptions ev p := subscriptions_other _ _ _ (by simp [CoEv.id?])
      refine ⟨n, by rw [hs]; exact hn, ?_, by rw [hs]; exact hp⟩
      rw [hs, ← hc, callsIn_append]
      exact List.append_nil _
    | called id' c =>
      by_cases hi : id' = id
      · subst hi
        obtain ⟨ev', x', s, h1, -, h2, h3⟩ := ge
        obtain ⟨rfl, rfl⟩ := hstart ev' x' h1
        have hs : subscriptions ev' (p ++ [.called id' c]) = subscriptions ev' p := subscriptions_other _ _ _ (by simp [CoEv.id?])
        have hlen : (callsIn id' p).length = n := by rw [hc]; simp; omega
        rw [hlen] at h2
        have hlt := (List.getElem?_eq_some_iff.mp h2).1
        refine ⟨n + 1, by rw [hs]; exact hlt, ?_, by rw [hs]; exact hp⟩
        rw [hs, callsIn_called, hc, List.take_add_one, h2, h3, List.map_append]
        rfl
      · exact quiet (by simp [CoEv.id?, hi]) (by simp) (by simp)

/-- After its end a notification makes no calls. -/
theorem calls_after {tr p q : List (CoEv α)} (hg : Good tr) {id : NotifyId} {r : Py Unit} (h : tr = p ++ .ended id r :: q) : callsIn id tr = callsIn id p := by
  rw [h, callsIn_append]
  have : callsIn id (.ended id r :: q) = [] := by
    unfold callsIn
    rw [List.filterMap_eq_nil_iff]
    intro e he
    rcases List.mem_cons.mp he with rfl | hq
    · rfl
    · clear he
      cases e with
      | called id' c =>
        by_cases hi : id' = id
        · subst hi
          obtain ⟨a, b, rfl⟩ := List.append_of_mem hq
          obtain ⟨-, -, -, -, hne, -⟩ := hg (p ++ .ended id' r :: a) (.called id' c) b (by rw [h]; simp)
          exact absurd (by simp) (hne r)
        · simp [hi]
      | _ => rfl
  rw [this, List.append_nil]

/-- **C114, no cancellations.** Whatever other coroutines do while a notification is in progress – firing the same event too –: if nothing is unsubscribed from its event meanwhile and it ends without an
exception, it has called all subscribers, including those that subscribed meanwhile, once each and in order. -/
theorem C114_in_order (limit : Nat) (beh : CoBehaviour α) (names : List String) (acts : List (CoAct α)) (pre mid post : List (CoEv α)) (id : NotifyId) (ev : String) (x : α)
    (h : coTrace limit beh names acts = pre ++ [.started id ev x] ++ mid ++ [.ended id (.ok ())] ++ post) (hun : ∀ s, .unsubscribed ev s ∉ mid) :
    callsIn id (coTrace limit beh names acts) = (subscriptions ev (pre ++ mid)).map (coCallOf x) ∧ subscriptions ev pre <+: subscriptions ev (pre ++ mid) := by
  have hg := coTrace_good limit beh names acts
  have hsub : subscriptions ev (pre ++ [.started id ev x] ++ mid) = subscriptions ev (pre ++ mid) := by
    unfold subscriptions eventChanges
    simp [List.filterMap_append]
  obtain ⟨n, hn, hc, hp⟩ := calls_prefix hg (pre := pre) (id := id) (x := x) mid ([.ended id (.ok ())] ++ post) (by rw [h]; simp) hun
  obtain ⟨-, ev', x', h1, h2, -⟩ := hg (pre ++ [.started id ev x] ++ mid) (.ended id (.ok ())) post (by rw [h]; simp)
  obtain ⟨rfl, rfl⟩ := started_unique hg (pre := pre) (id := id) (ev := ev) (x := x) (rest := mid ++ [.ended id (.ok ())] ++ post) (by rw [h]; simp) (ev' := ev') (x' := x') (by rw [h]; exact List.mem_append_left _ (List.mem_append_left _ h1))
  have h3 := h2 rfl
  rw [calls_after hg (p := pre ++ [.started id ev' x'] ++ mid) (q := post) (r := .ok ()) (by rw [h]; simp), hc, ← hsub]
  refine ⟨?_, hp⟩
  rw [hc] at h3
  simp only [List.length_map, List.length_take] at h3
  rw [List.take_of_length_le (by omega)]


/-- **C114, unchanged subscriptions.** In particular, if its event's subscriptions do not change while a notification is in progress, every subscriber is called exactly as often as it is subscribed, in order. -/
theorem C114_unchanged (limit : Nat) (beh : CoBehaviour α) (names : List String) (acts : List (CoAct α)) (pre mid post : List (CoEv α)) (id : NotifyId) (ev : String) (x : α)
    (h : coTrace limit beh names acts = pre ++ [.started id ev x] ++ mid ++ [.ended id (.ok ())] ++ post) (hun : ∀ s, .unsubscribed ev s ∉ mid) (hsub : ∀ s, .subscribed ev s ∉ mid) :
    callsIn id (coTrace limit beh names acts) = (subscriptions ev pre).map (coCallOf x) := by
  rw [(C114_in_order limit beh names acts pre mid post id ev x h hun).1]
  have : eventChanges ev mid = [] := by
    unfold eventChanges
    rw [List.filterMap_eq_nil_iff]
    intro e he
    cases e with
    | subscribed ev' s =>
      have : ev' ≠ ev := fun h' => hsub s (h' ▸ he)
      simp [this]
    | unsubscribed ev' s =>
      have : ev' ≠ ev := fun h' => hun s (h' ▸ he)
      simp [this]
    | _ => rfl
  have e : eventChanges ev (pre ++ mid) = eventChanges ev pre ++ eventChanges ev mid := List.filterMap_append
  unfold subscriptions
  rw [e, this, List.append_nil]

/-- **C114, a failing subscriber.** A notification that ends with an exception has called the first `n` subscribers, one at least, and none of the others. -/
theorem C114_failing (limit : Nat) (beh : CoBehaviour α) (names : List String) (acts : List (CoAct α)) (pre mid post : List (CoEv α)) (id : NotifyId) (ev : String) (x : α) (e : Exc)
    (h : coTrace limit beh names acts = pre ++ [.started id ev x] ++ mid ++ [.ended id (.error e)] ++ post) (hun : ∀ s, .unsubscribed ev s ∉ mid) :
    ∃ n, 0 < n ∧ n ≤ (subscriptions ev (pre ++ mid)).length ∧ callsIn id (coTrace limit beh names acts) = ((subscriptions ev (pre ++ mid)).take n).map (coCallOf x) := by
  have hg := coTrace_good limit beh names acts
  have hsub : subscriptions ev (pre ++ [.started id ev x] ++ mid) = subscriptions ev (pre ++ mid) := by
    unfold subscriptions eventChanges
    simp [List.filterMap_append]
  obtain ⟨n, hn, hc, -⟩ := calls_prefix hg (pre := pre) (id := id) (x := x) mid ([.ended id (.error e)] ++ post) (by rw [h]; simp) hun
  obtain ⟨-, ev', x', -, -, h2⟩ := hg (pre ++ [.started id ev x] ++ mid) (.ended id (.error e)) post (by rw [h]; simp)
  rw [hsub] at hn hc
  refine ⟨n, Nat.pos_of_ne_zero fun h0 => ?_, hn, ?_⟩
  · rw [h0] at hc
    exact h2 (by simp) hc
  · rw [calls_after hg (p := pre ++ [.started id ev x] ++ mid) (q := post) (r := .error e) (by rw [h]; simp), hc]

theorem drop_erase_sublist (s : Sub) : ∀ (l : List Sub) (k : Nat), ((l.erase s).drop k).Sublist (l.drop k)
  | [], k => by simp
  | a :: l, 0 => by
    simp only [List.drop_zero]
    exact List.erase_sublist
  | a :: l, k + 1 => by
    rw [List.erase_cons]
    split
    · simp only [List.drop_succ_cons]
      exact List.drop_sublist_drop_left l (Nat.le_succ k)
    · simp only [List.drop_succ_cons]
      exact drop_erase_sublist s l k

theorem cancellations_snoc (ev : String) (tr : List (CoEv α)) (e : CoEv α) : cancellationsOf ev (tr ++ [e]) = cancellationsOf ev tr + cancellationsOf ev [e] := List.countP_append

/-- No new subscriptions: every subscriber is called at most once, and every cancellation costs one call at most. -/
theorem calls_sublist {tr pre : List (CoEv α)} (hg : Good tr) {id : NotifyId} {ev : String} {x : α} (mid : List (CoEv α)) : ∀ rest, tr = (pre ++ [.started id ev x]) ++ mid ++ rest →
    (∀ s, .subscribed ev s ∉ mid) → ∃ called, callsIn id (pre ++ [.started id ev x] ++ mid) = called.map (coCallOf x) ∧
      (called ++ (subscriptions ev (pre ++ [.started id ev x] ++ mid)).drop called.length).Sublist (subscriptions ev pre) ∧
      (subscriptions ev pre).length ≤ (subscriptions ev (pre ++ [.started id ev x] ++ mid)).length + cancellationsOf ev mid := by
  induction mid using trace_induction with
  | h0 =>
    intro rest h _
    have hpre := hg pre (.started id ev x) rest (by rw [h]; simp)
    refine ⟨[], ?_, ?_, ?_⟩
    · rw [List.append_nil, callsIn_append, callsIn_noEv hpre]
      rfl
    · rw [List.append_nil, subscriptions_other _ _ _ (by simp [CoEv.id?])]
      exact List.Sublist.refl _
    · rw [List.append_nil, subscriptions_other _ _ _ (by simp [CoEv.id?])]
      exact Nat.le_add_right _ _
  | hs mid e ih =>
    intro rest h hun
    obtain ⟨called, hc, hp, hn⟩ := ih (e :: rest) (by rw [h]; simp) (fun s hs => hun s (List.mem_append_left _ hs))
    have ge := hg (pre ++ [.started id ev x] ++ mid) e rest (by rw [h]; simp)
    rw [← List.append_assoc, cancellations_snoc]
    have hstart : ∀ ev' x', .started id ev' x' ∈ pre ++ [.started id ev x] ++ mid → ev' = ev ∧ x' = x := fun ev' x' hm =>
      started_unique hg (pre := pre) (id := id) (ev := ev) (x := x) (rest := mid ++ e :: rest) (by rw [h]; simp) (by
        rw [show tr = (pre ++ [.started id ev x] ++ mid) ++ (e :: rest) from by rw [h]; simp]
        exact List.mem_append_left _ hm)
    have hin : .started id ev x ∈ pre ++ [.started id ev x] ++ mid := by simp
    generalize pre ++ [.started id ev x] ++ mid = p at *
    have quiet : e.id? ≠ some id → (∀ s, e ≠ .subscribed ev s) → (∀ s, e ≠ .unsubscribed ev s) → ∃ called, callsIn id (p ++ [e]) = called.map (coCallOf x) ∧
        (called ++ (subscriptions ev (p ++ [e])).drop called.length).Sublist (subscriptions ev pre) ∧
        (subscriptions ev pre).length ≤ (subscriptions ev (p ++ [e])).length + (cancellationsOf ev mid + cancellationsOf ev [e]) := fun h1 h2 h3 =>
      ⟨called, by rw [callsIn_snoc h1]; exact hc, by rw [subscriptions_same ev p e h2 h3]; exact hp, by rw [subscriptions_same ev p e h2 h3]; omega⟩
    cases e with
    | subscribed ev' s =>
      refine quiet (by simp [CoEv.id?]) ?_ (by simp)
      intro s' h
      exact hun s' (by rw [h]; simp)
    | unsubscribed ev' s =>
      by_cases he : ev = ev'
      · subst he
        refine ⟨called, by rw [callsIn_snoc (by simp [CoEv.id?])]; exact hc, ?_, ?_⟩
        · rw [subscriptions_unsubscribed, if_pos rfl]
          exact (List.Sublist.append_left (drop_erase_sublist s _ _) called).trans hp
        · rw [subscriptions_unsubscribed, if_pos rfl]
          have h1 : cancellationsOf ev [(.unsubscribed ev s : CoEv α)] = 1 := by simp [cancellationsOf]
          have h2 := List.le_length_erase (a := s) (l := subscriptions ev p)
          omega
      · exact quiet (by simp [CoEv.id?]) (by simp) (by intro s h; cases h; exact he rfl)
    | started id' ev' x' =>
      refine quiet ?_ (by simp) (by simp)
      intro h'
      cases h'
      exact ge (.started id ev x) hin rfl
    | ended id' r =>
      have hs : subscriptions ev (p ++ [.ended id' r]) = subscriptions ev p := subscriptions_other _ _ _ (by simp [CoEv.id?])
      refine ⟨called, ?_, by rw [hs]; exact hp, by rw [hs]; omega⟩
      rw [← hc, callsIn_append]
      exact List.append_nil _
    | called id' c =>
      by_cases hi : id' = id
      · subst hi
        obtain ⟨ev', x', s, h1, -, h2, h3⟩ := ge
        obtain ⟨rfl, rfl⟩ := hstart ev' x' h1
        have hs : subscriptions ev' (p ++ [.called id' c]) = subscriptions ev' p := subscriptions_other _ _ _ (by simp [CoEv.id?])
        rw [hc, List.length_map] at h2
        refine ⟨called ++ [s], ?_, ?_, by rw [hs]; omega⟩
        · rw [callsIn_called, hc, h3, List.map_append]
          rfl
        · rw [hs]
          rw [List.drop_eq_getElem_cons (List.getElem?_eq_some_iff.mp h2).1, (List.getElem?_eq_some_iff.mp h2).2] at hp
          rw [List.append_assoc, List.length_append]
          exact hp
      · exact quiet (by simp [CoEv.id?, hi]) (by simp) (by simp)

/-- **C114, cancellations.** If nobody subscribes to its event while a notification is in progress and it ends without an exception, those called are among the subscribers it began with: in order, each at
most as often as it was subscribed; and no more of them are left out than there were cancellations. -/
theorem C114_at_most_once (limit : Nat) (beh : CoBehaviour α) (names : List String) (acts : List (CoAct α)) (pre mid post : List (CoEv α)) (id : NotifyId) (ev : String) (x : α)
    (h : coTrace limit beh names acts = pre ++ [.started id ev x] ++ mid ++ [.ended id (.ok ())] ++ post) (hsub : ∀ s, .subscribed ev s ∉ mid) :
    ∃ called : List Sub, callsIn id (coTrace limit beh names acts) = called.map (coCallOf x) ∧ called.Sublist (subscriptions ev pre) ∧
      (subscriptions ev pre).length ≤ called.length + cancellationsOf ev mid := by
  have hg := coTrace_good limit beh names acts
  obtain ⟨called, hc, hp, hn⟩ := calls_sublist hg (pre := pre) (id := id) (x := x) mid ([.ended id (.ok ())] ++ post) (by rw [h]; simp) hsub
  obtain ⟨-, ev', x', h1, h2, -⟩ := hg (pre ++ [.started id ev x] ++ mid) (.ended id (.ok ())) post (by rw [h]; simp)
  obtain ⟨rfl, rfl⟩ := started_unique hg (pre := pre) (id := id) (ev := ev) (x := x) (rest := mid ++ [.ended id (.ok ())] ++ post) (by rw [h]; simp) (ev' := ev') (x' := x') (by rw [h]; exact List.mem_append_left _ (List.mem_append_left _ h1))
  have h3 := h2 rfl
  rw [hc, List.length_map] at h3
  refine ⟨called, ?_, (List.sublist_append_left _ _).trans hp, by omega⟩
  rw [calls_after hg (p := pre ++ [.started id ev' x'] ++ mid) (q := post) (r := .ok ()) (by rw [h]; simp), hc]

theorem subscribedTo_snoc (ev : String) (tr : List (CoEv α)) (e : CoEv α) : subscribedTo ev (tr ++ [e]) = subscribedTo ev tr + subscribedTo ev [e] := List.countP_append

/-- The calls made and the subscriptions in force are at most as many as there were, and have been made since. -/
theorem calls_bounded {tr pre : List (CoEv α)} (hg : Good tr) {id : NotifyId} {ev : String} {x : α} (mid : List (CoEv α)) : ∀ rest, tr = (pre ++ [.started id ev x]) ++ mid ++ rest →
    (callsIn id (pre ++ [.started id ev x] ++ mid)).length ≤ (subscriptions ev pre).length + subscribedTo ev mid ∧
      (subscriptions ev (pre ++ [.started id ev x] ++ mid)).length ≤ (subscriptions ev pre).length + subscribedTo ev mid := by
  induction mid using trace_induction with
  | h0 =>
    intro rest h
    have hpre := hg pre (.started id ev x) rest (by rw [h]; simp)
    constructor
    · rw [List.append_nil, callsIn_append, callsIn_noEv hpre]
      exact Nat.zero_le _
    · rw [List.append_nil, subscriptions_other _ _ _ (by simp [CoEv.id?])]
      exact Nat.le_add_right _ _
  | hs mid e ih =>
    intro rest h
    obtain ⟨hc, hn⟩ := ih (e :: rest) (by rw [h]; simp)
    have ge := hg (pre ++ [.started id ev x] ++ mid) e rest (by rw [h]; simp)
    rw [← List.append_assoc, subscribedTo_snoc]
    have hstart : ∀ ev' x', .started id ev' x' ∈ pre ++ [.started id ev x] ++ mid → ev' = ev ∧ x' = x := fun ev' x' hm =>
      started_unique hg (pre := pre) (id := id) (ev := ev) (x := x) (rest := mid ++ e :: rest) (by rw [h]; simp) (by
        rw [show tr = (pre ++ [.started id ev x] ++ mid) ++ (e :: rest) from by rw [h]; simp]
        exact List.mem_append_left _ hm)
    generalize pre ++ [.started id ev x] ++ mid = p at *
    cases e with
    | subscribed ev' s =>
      rw [callsIn_snoc (by simp [CoEv.id?]), subscriptions_subscribed]
      refine ⟨by omega, ?_⟩
      split
      · rename_i he
        subst he
        have : subscribedTo ev [(.subscribed ev s : CoEv α)] = 1 := by simp [subscribedTo]
        rw [eventSubscribe, List.length_append, this]
        simp only [List.length_cons, List.length_nil]
        omega
      · omega
    | unsubscribed ev' s =>
      rw [callsIn_snoc (by simp [CoEv.id?]), subscriptions_unsubscribed]
      refine ⟨by omega, ?_⟩
      split
      · have := List.length_erase_le (a := s) (l := subscriptions ev p)
        omega
      · omega
    | started id' ev' x' =>
      rw [subscriptions_other _ _ _ (by simp [CoEv.id?]), callsIn_append, show callsIn id [(.started id' ev' x' : CoEv α)] = [] from rfl, List.append_nil]
      omega
    | ended id' r =>
      rw [subscriptions_other _ _ _ (by simp [CoEv.id?]), callsIn_append, show callsIn id [(.ended id' r : CoEv α)] = [] from rfl, List.append_nil]
      omega
    | called id' c =>
      rw [subscriptions_other _ _ _ (by simp [CoEv.id?])]
      by_cases hi : id' = id
      · subst hi
        obtain ⟨ev', x', s, h1, -, h2, -⟩ := ge
        obtain ⟨rfl, rfl⟩ := hstart ev' x' h1
        have := (List.getElem?_eq_some_iff.mp h2).1
        rw [callsIn_called, List.length_append]
        simp only [List.length_cons, List.length_nil]
        omega
      · rw [callsIn_snoc (by simp [CoEv.id?, hi])]
        omega

/-- **C114, no end only by subscribing.** At every moment a notification has made at most as many calls as there were subscribers at its beginning and have been added since. -/
theorem C114_bounded (limit : Nat) (beh : CoBehaviour α) (names : List String) (acts : List (CoAct α)) (pre mid : List (CoEv α)) (id : NotifyId) (ev : String) (x : α)
    (h : coTrace limit beh names acts = pre ++ [.started id ev x] ++ mid) :
    (callsIn id (coTrace limit beh names acts)).length ≤ (subscriptions ev pre).length + subscribedTo ev mid := by
  have := (calls_bounded (coTrace_good limit beh names acts) (pre := pre) (id := id) (ev := ev) (x := x) mid [] (by rw [h, List.append_nil])).1
  rwa [← h] at this

/-- Three coroutines: the first subscribes handlers 0, 1, 2 and fires the event; the second fires it too; the third cancels the subscription of handler 0. -/
def overlapping : List (CoAct Nat) :=
  [.spawn (.subscribe "e" ⟨0, [7], []⟩ (.subscribe "e" ⟨1, [], []⟩ (.subscribe "e" ⟨2, [], []⟩ (.notify "e" 10 (fun _ => .done))))),
   .spawn (.notify "e" 20 (fun _ => .done)), .spawn (.unsubscribe "e" ⟨0, [7], []⟩ (fun _ => .done)), .run 0, .run 0, .run 0, .run 0, .run 0, .run 1, .run 1]

/-- **C114, two notifications of one event at once.** -/
example : coTrace 10 (fun _ => .done) [] (overlapping ++ [.run 0, .run 1, .run 1, .run 0, .run 1, .run 0]) =
    [.subscribed "e" ⟨0, [7], []⟩, .subscribed "e" ⟨1, [], []⟩, .subscribed "e" ⟨2, [], []⟩] ++ [.started (0, 0) "e" 10] ++
      [.called (0, 0) ⟨0, (10, [7]), []⟩, .started (1, 0) "e" 20, .called (1, 0) ⟨0, (20, [7]), []⟩, .called (0, 0) ⟨1, (10, []), []⟩, .called (1, 0) ⟨1, (20, []), []⟩,
       .called (1, 0) ⟨2, (20, []), []⟩, .called (0, 0) ⟨2, (10, []), []⟩, .ended (1, 0) (.ok ())] ++ [.ended (0, 0) (.ok ())] ++ [] := by decide +kernel

/-- A notification whose second subscriber raises while another goes on. -/
example : coTrace 10 (fun tr => if tr.getLast? = some (.called (0, 0) ⟨1, (10, []), []⟩) then .raise .valueError else .done) [] (overlapping ++ [.run 0, .run 1, .run 0, .run 1]) =
    [.subscribed "e" ⟨0, [7], []⟩, .subscribed "e" ⟨1, [], []⟩, .subscribed "e" ⟨2, [], []⟩] ++ [.started (0, 0) "e" 10] ++
      [.called (0, 0) ⟨0, (10, [7]), []⟩, .started (1, 0) "e" 20, .called (1, 0) ⟨0, (20, [7]), []⟩, .called (0, 0) ⟨1, (10, []), []⟩, .called (1, 0) ⟨1, (20, []), []⟩] ++
      [.ended (0, 0) (.error .valueError)] ++ [.called (1, 0) ⟨2, (20, []), []⟩] := by decide +kernel

/-- **C114, passed over.** A cancellation by another coroutine makes *both* notifications pass over a subscriber: handler 1, which has been subscribed all the time, is not called. -/
theorem C114_skips :
    coTrace 10 (fun _ => .done) [] (overlapping ++ [.run 2, .run 0, .run 0, .run 1, .run 1]) =
      [.subscribed "e" ⟨0, [7], []⟩, .subscribed "e" ⟨1, [], []⟩, .subscribed "e" ⟨2, [], []⟩] ++ [.started (0, 0) "e" 10] ++
        [.called (0, 0) ⟨0, (10, [7]), []⟩, .started (1, 0) "e" 20, .called (1, 0) ⟨0, (20, [7]), []⟩, .unsubscribed "e" ⟨0, [7], []⟩, .called (0, 0) ⟨2, (10, []), []⟩] ++ [.ended (0, 0) (.ok ())] ++
        [.called (1, 0) ⟨2, (20, []), []⟩, .ended (1, 0) (.ok ())] ∧
    callsIn (0, 0) (coTrace 10 (fun _ => .done) [] (overlapping ++ [.run 2, .run 0, .run 0, .run 1, .run 1])) = [⟨0, (10, [7]), []⟩, ⟨2, (10, []), []⟩] ∧
    callsIn (1, 0) (coTrace 10 (fun _ => .done) [] (overlapping ++ [.run 2, .run 0, .run 0, .run 1, .run 1])) = [⟨0, (20, [7]), []⟩, ⟨2, (20, []), []⟩] := by decide +kernel

end Pyogp
