import Verif.Spec.Overlap
import Verif.Props.Events

/-!
# Notifications that overlap: the invariant
-/

namespace Pyogp
open Spec
variable {α : Type}

/-- The notification something is about. -/
def CoEv.id? : CoEv α → Option NotifyId
  | .started id _ _ => some id
  | .called id _ => some id
  | .ended id _ => some id
  | _ => none

/-- Nothing is about it. -/
def NoEv (id : NotifyId) (tr : List (CoEv α)) : Prop := ∀ e ∈ tr, e.id? ≠ some id

/-- What must hold of the past when something happens. -/
def GoodAt (p : List (CoEv α)) : CoEv α → Prop
  | .started id _ _ => NoEv id p
  | .called id c => ∃ ev x s, .started id ev x ∈ p ∧ (∀ r, .ended id r ∉ p) ∧ (subscriptions ev p)[(callsIn id p).length]? = some s ∧ c = coCallOf x s
  | .ended id r => (∀ r, .ended id r ∉ p) ∧ ∃ ev x, .started id ev x ∈ p ∧ (r = .ok () → (subscriptions ev p).length ≤ (callsIn id p).length) ∧ (r ≠ .ok () → callsIn id p ≠ [])
  | _ => True

def Good (tr : List (CoEv α)) : Prop := ∀ p e q, tr = p ++ e :: q → GoodAt p e

theorem Good.snoc {tr : List (CoEv α)} {e : CoEv α} (h : Good tr) (he : GoodAt tr e) : Good (tr ++ [e]) := by
  intro p e' q hq
  rcases List.eq_nil_or_concat q with rfl | ⟨q', b, rfl⟩
  · have := List.append_inj' hq rfl
    obtain ⟨rfl, h2⟩ := this
    cases h2
    exact he
  · rw [List.concat_eq_append, ← List.cons_append, ← List.append_assoc] at hq
    exact h p e' q' (List.append_inj' hq rfl).1

structure FrameInv (j : Nat) (f : CoFrame α) (tr : List (CoEv α)) : Prop where
  started : .started (j, f.number) f.event f.arg ∈ tr
  pos : (callsIn (j, f.number) tr).length = f.pos
  running : ∀ r, .ended (j, f.number) r ∉ tr

structure CoroInv (j : Nat) (c : Coro α) (tr : List (CoEv α)) : Prop where
  frames : ∀ f ∈ c.stack, f.number < c.started ∧ FrameInv j f tr
  order : (c.stack.map (·.number)).Pairwise (· > ·)
  fresh : ∀ n, c.started ≤ n → NoEv (j, n) tr
  busy : ∀ f fs, c.stack = f :: fs → (f.pos = 0 → c.cur = .done) ∧ ∀ g ∈ fs, 0 < g.pos

structure CoInv (st : CoState α) : Prop where
  subs : ∀ ev, st.subs ev = subscriptions ev st.trace
  coros : ∀ (j : Nat) (c : Coro α), st.coros[j]? = some c → CoroInv j c st.trace
  fresh : ∀ j n, st.coros.length ≤ j → NoEv (j, n) st.trace
  good : Good st.trace

theorem NoEv.snoc {id : NotifyId} {tr : List (CoEv α)} {e : CoEv α} (h : NoEv id tr) (he : e.id? ≠ some id) : NoEv id (tr ++ [e]) := by
  intro e' h'
  rcases List.mem_append.mp h' with h' | h'
  · exact h e' h'
  · rw [List.mem_singleton.mp h']; exact he

theorem callsIn_snoc {id : NotifyId} {tr : List (CoEv α)} {e : CoEv α} (he : e.id? ≠ some id) : callsIn id (tr ++ [e]) = callsIn id tr := by
  unfold callsIn
  rw [List.filterMap_append]
  cases e with
  | called id' c =>
    have : id' ≠ id := fun h => he (by rw [h]; rfl)
    simp [this]
  | _ => simp

theorem callsIn_noEv {id : NotifyId} {tr : List (CoEv α)} (h : NoEv id tr) : callsIn id tr = [] := by
  unfold callsIn
  rw [List.filterMap_eq_nil_iff]
  intro e he
  have := h e he
  cases e with
  | called id' c =>
    have : id' ≠ id := fun h' => this (by rw [h']; rfl)
    simp [this]
  | _ => rfl

theorem FrameInv.log {j : Nat} {f : CoFrame α} {tr : List (CoEv α)} (h : FrameInv j f tr) {e : CoEv α} (he : e.id? ≠ some (j, f.number)) : FrameInv j f (tr ++ [e]) := by
  refine ⟨List.mem_append_left _ h.started, by rw [callsIn_snoc he]; exact h.pos, fun r hr => ?_⟩
  rcases List.mem_append.mp hr with hr | hr
  · exact h.running r hr
  · rw [← List.mem_singleton.mp hr] at he
    exact he rfl

theorem CoroInv.log {j : Nat} {c : Coro α} {tr : List (CoEv α)} (h : CoroInv j c tr) {e : CoEv α} (he : ∀ n, e.id? ≠ some (j, n)) : CoroInv j c (tr ++ [e]) :=
  ⟨fun f hf => ⟨(h.frames f hf).1, (h.frames f hf).2.log (he _)⟩, h.order, fun n hn => (h.fresh n hn).snoc (he n), h.busy⟩

theorem subscriptions_snoc (ev : String) (tr : List (CoEv α)) (e : CoEv α) (h : eventChanges ev [e] = []) : subscriptions ev (tr ++ [e]) = subscriptions ev tr := by
  have : eventChanges ev (tr ++ [e]) = eventChanges ev tr ++ eventChanges ev [e] := List.filterMap_append
  unfold subscriptions
  rw [this, h, List.append_nil]

/-- One coroutine changes, and something about it (or nothing about any notification) happens. -/
theorem CoInv.update {st : CoState α} (h : CoInv st) {j : Nat} {c c' : Coro α} (hc : st.coros[j]? = some c) {e : CoEv α} {subs : String → List Sub} {names : List String}
    (hs : ∀ ev, subs ev = subscriptions ev (st.trace ++ [e])) (hid : ∀ i n, i ≠ j → e.id? ≠ some (i, n)) (hg : GoodAt st.trace e) (hc' : CoroInv j c' (st.trace ++ [e])) :
    CoInv ({ names := names, subs := subs, coros := st.coros.set j c', trace := st.trace ++ [e] } : CoState α) := by
  have hj : j < st.coros.length := (List.getElem?_eq_some_iff.mp hc).1
  refine ⟨hs, fun i ci hi => ?_, fun i n hi => ?_, h.good.snoc hg⟩
  · simp only [List.getElem?_set] at hi
    split at hi
    · rename_i hij
      subst hij
      cases hi
      exact hc'
    · rename_i hij
      exact (h.coros i ci hi).log (fun n => hid i n (fun e => hij e.symm))
  · simp only [List.length_set] at hi
    exact (h.fresh i n hi).snoc (hid i n (by omega))

/-- One coroutine changes, and nothing can be observed. -/
theorem CoInv.silent {st : CoState α} (h : CoInv st) {j : Nat} {c c' : Coro α} (hc : st.coros[j]? = some c) {names : List String} (hc' : CoroInv j c' st.trace) :
    CoInv ({ names := names, subs := st.subs, coros := st.coros.set j c', trace := st.trace } : CoState α) := by
  have hj : j < st.coros.length := (List.getElem?_eq_some_iff.mp hc).1
  refine ⟨h.subs, fun i ci hi => ?_, fun i n hi => ?_, h.good⟩
  · simp only [List.getElem?_set] at hi
    split at hi
    · rename_i hij
      subst hij
      cases hi
      exact hc'
    · exact h.coros i ci hi
  · simp only [List.length_set] at hi
    exact h.fresh i n hi

theorem CoroInv.goOn {j : Nat} {c : Coro α} {tr : List (CoEv α)} (h : CoroInv j c tr) (hb : c.cur ≠ .done) (p : CoProg α) : CoroInv j { c with cur := p } tr :=
  ⟨h.frames, h.order, h.fresh, fun f fs hf => ⟨fun h0 => absurd ((h.busy f fs hf).1 h0) hb, (h.busy f fs hf).2⟩⟩

theorem coInv_start {limit : Nat} {st : CoState α} (h : CoInv st) {j : Nat} {c : Coro α} (hc : st.coros[j]? = some c) (hb : c.cur ≠ .done) (ev : String) (x : α) (handler : Bool)
    (k : Py Unit → CoProg α) : CoInv (startNotify limit st j c ev x handler k) := by
  have ci := h.coros j c hc
  unfold startNotify
  split
  · exact h.silent hc (ci.goOn hb _)
  · have hn := ci.fresh c.started (Nat.le_refl _)
    refine h.update hc (fun ev' => ?_) (fun i n hij => ?_) hn ?_
    · rw [subscriptions_snoc _ _ _ rfl]; exact h.subs ev'
    · intro e; cases e; exact hij rfl
    · refine ⟨fun f hf => ?_, ?_, fun n hn' => ?_, fun f fs hf => ?_⟩
      · rcases List.mem_cons.mp hf with rfl | hf
        · refine ⟨Nat.lt_succ_self _, by simp, ?_, fun r hr => ?_⟩
          · show (callsIn (j, c.started) _).length = 0
            unfold callsIn
            rw [List.filterMap_append, List.length_append]
            have := callsIn_noEv hn
            unfold callsIn at this
            rw [this]
            rfl
          · rcases List.mem_append.mp hr with hr | hr
            · exact hn _ hr rfl
            · cases List.mem_singleton.mp hr
        · obtain ⟨h1, h2⟩ := ci.frames f hf
          refine ⟨Nat.lt_succ_of_lt h1, h2.log ?_⟩
          intro e
          simp only [CoEv.id?, Option.some.injEq, Prod.mk.injEq, true_and] at e
          omega
      · simp only [List.map_cons, List.pairwise_cons]
        refine ⟨fun n hn => ?_, ci.order⟩
        obtain ⟨f, hf, rfl⟩ := List.mem_map.mp hn
        exact (ci.frames f hf).1
      · have hn'' : c.started + 1 ≤ n := hn'
        refine (ci.fresh n (by omega)).snoc ?_
        intro e
        simp only [CoEv.id?, Option.some.injEq, Prod.mk.injEq, true_and] at e
        omega
      · cases hf
        refine ⟨fun _ => rfl, fun g hg => ?_⟩
        cases hs : c.stack with
        | nil => rw [hs] at hg; cases hg
        | cons f fs =>
          obtain ⟨b1, b2⟩ := ci.busy f fs hs
          rw [hs] at hg
          rcases List.mem_cons.mp hg with rfl | hg
          · exact Nat.pos_of_ne_zero (fun h0 => hb (b1 h0))
          · exact b2 g hg

theorem callsIn_called (id : NotifyId) (tr : List (CoEv α)) (c : CoCall α) : callsIn id (tr ++ [.called id c]) = callsIn id tr ++ [c] := by
  unfold callsIn
  rw [List.filterMap_append]
  simp

/-- The innermost notification of a coroutine ends. -/
theorem CoroInv.pop {j : Nat} {c : Coro α} {tr : List (CoEv α)} (h : CoroInv j c tr) {f : CoFrame α} {fs : List (CoFrame α)} (hs : c.stack = f :: fs) (p : CoProg α) (r : Py Unit) :
    CoroInv j { c with cur := p, stack := fs } (tr ++ [.ended (j, f.number) r]) := by
  have ho := h.order
  rw [hs, List.map_cons, List.pairwise_cons] at ho
  have hf := h.frames f (by rw [hs]; exact List.mem_cons_self)
  refine ⟨fun g hg => ?_, ho.2, fun n hn => ?_, fun g gs hg => ?_⟩
  · obtain ⟨h1, h2⟩ := h.frames g (by rw [hs]; exact List.mem_cons_of_mem _ hg)
    refine ⟨h1, h2.log ?_⟩
    intro e
    simp only [CoEv.id?, Option.some.injEq, Prod.mk.injEq, true_and] at e
    have := ho.1 g.number (List.mem_map.mpr ⟨g, hg, rfl⟩)
    omega
  · have hn' : c.started ≤ n := hn
    refine (h.fresh n hn').snoc ?_
    intro e
    simp only [CoEv.id?, Option.some.injEq, Prod.mk.injEq, true_and] at e
    omega
  · have hb := (h.busy f fs hs).2
    have hg' : fs = g :: gs := hg
    rw [hg'] at hb
    refine ⟨fun h0 => ?_, fun g' hg'' => hb g' (List.mem_cons_of_mem _ hg'')⟩
    have := hb g List.mem_cons_self
    omega

theorem subscriptions_other (ev : String) (tr : List (CoEv α)) (e : CoEv α) (he : e.id? ≠ none) : subscriptions ev (tr ++ [e]) = subscriptions ev tr := by
  refine subscriptions_snoc ev tr e ?_
  cases e with
  | subscribed _ _ => exact absurd rfl he
  | unsubscribed _ _ => exact absurd rfl he
  | _ => rfl

theorem subscriptions_subscribed (ev ev' : String) (tr : List (CoEv α)) (s : Sub) :
    subscriptions ev (tr ++ [.subscribed ev' s]) = if ev = ev' then eventSubscribe (subscriptions ev tr) s else subscriptions ev tr := by
  have e : eventChanges ev (tr ++ [.subscribed ev' s]) = eventChanges ev tr ++ eventChanges ev [.subscribed ev' s] := List.filterMap_append
  split
  · rename_i h
    subst h
    unfold subscriptions
    rw [e, show eventChanges ev [(CoEv.subscribed ev s : CoEv α)] = [.subscribe s] from by simp [eventChanges], ledger, List.foldl_append]
    simp [inForce, eventSubscribe, ledger]
  · rename_i h
    exact subscriptions_snoc ev tr _ (by simp only [eventChanges, List.filterMap_cons, List.filterMap_nil, if_neg (fun e => h (Eq.symm e))])

theorem subscriptions_unsubscribed (ev ev' : String) (tr : List (CoEv α)) (s : Sub) :
    subscriptions ev (tr ++ [.unsubscribed ev' s]) = if ev = ev' then (subscriptions ev tr).erase s else subscriptions ev tr := by
  have e : eventChanges ev (tr ++ [.unsubscribed ev' s]) = eventChanges ev tr ++ eventChanges ev [.unsubscribed ev' s] := List.filterMap_append
  split
  · rename_i h
    subst h
    unfold subscriptions
    rw [e, show eventChanges ev [(CoEv.unsubscribed ev s : CoEv α)] = [.unsubscribe s] from by simp [eventChanges], ledger, List.foldl_append]
    simp only [List.foldl_cons, List.foldl_nil]
    exact inForce_cancel s _
  · rename_i h
    exact subscriptions_snoc ev tr _ (by simp only [eventChanges, List.filterMap_cons, List.filterMap_nil, if_neg (fun e => h (Eq.symm e))])

theorem coInv_step (limit : Nat) (beh : CoBehaviour α) {st : CoState α} (h : CoInv st) (j : Nat) : CoInv (coStep limit beh st j) := by
  unfold coStep
  cases hc : st.coros[j]? with
  | none => exact h
  | some c =>
    have ci := h.coros j c hc
    simp only
    have notId : ∀ (e : CoEv α), e.id? = none → ∀ i n, i ≠ j → e.id? ≠ some (i, n) := fun e he i n _ => by rw [he]; simp
    have subId : ∀ (e : CoEv α), e.id? = none → CoroInv j c (st.trace ++ [e]) := fun e he => ci.log (fun n => by rw [he]; simp)
    cases hcur : c.cur with
    | done =>
      simp only
      cases hs : c.stack with
      | nil => exact h
      | cons f fs =>
        simp only
        have hf := (ci.frames f (by rw [hs]; exact List.mem_cons_self)).2
        cases hp : (st.subs f.event)[f.pos]? with
        | none =>
          refine h.update hc (fun ev => ?_) (fun i n hij => ?_) ⟨hf.running, f.event, f.arg, hf.started, fun _ => ?_, fun hr => absurd rfl hr⟩ (ci.pop hs _ _)
          · rw [subscriptions_other _ _ _ (by simp [CoEv.id?])]; exact h.subs ev
          · intro e; cases e; exact hij rfl
          · rw [← h.subs, hf.pos]
            exact List.getElem?_eq_none_iff.mp hp
        | some s =>
          have hg : GoodAt st.trace (.called (j, f.number) ⟨s.handler, (f.arg, s.args), s.kwargs⟩) := ⟨f.event, f.arg, s, hf.started, hf.running, by rw [← h.subs, hf.pos]; exact hp, rfl⟩
          refine h.update hc (fun ev => ?_) (fun i n hij => ?_) hg ?_
          · rw [subscriptions_other _ _ _ (by simp [CoEv.id?])]; exact h.subs ev
          · intro e; cases e; exact hij rfl
          · have ho := ci.order
            rw [hs, List.map_cons, List.pairwise_cons] at ho
            have hfs := ci.frames f (by rw [hs]; exact List.mem_cons_self)
            refine ⟨fun g hg => ?_, ?_, fun n hn => ?_, fun g gs hg => ?_⟩
            · rcases List.mem_cons.mp hg with rfl | hg
              · refine ⟨hfs.1, List.mem_append_left _ hf.started, ?_, fun r hr => ?_⟩
                · show (callsIn (j, f.number) _).length = f.pos + 1
                  rw [callsIn_called, List.length_append, hf.pos]
                  rfl
                · rcases List.mem_append.mp hr with hr | hr
                  · exact hf.running r hr
                  · cases List.mem_singleton.mp hr
              · obtain ⟨h1, h2⟩ := ci.frames g (by rw [hs]; exact List.mem_cons_of_mem _ hg)
                refine ⟨h1, h2.log ?_⟩
                intro e
                simp only [CoEv.id?, Option.some.injEq, Prod.mk.injEq, true_and] at e
                have := ho.1 g.number (List.mem_map.mpr ⟨g, hg, rfl⟩)
                omega
            · simp only [List.map_cons, List.pairwise_cons]
              exact ho
            · have hn' : c.started ≤ n := hn
              refine (ci.fresh n hn').snoc ?_
              intro e
              simp only [CoEv.id?, Option.some.injEq, Prod.mk.injEq, true_and] at e
              have := hfs.1
              omega
            · cases hg
              exact ⟨fun h0 => (by cases h0), (ci.busy f fs hs).2⟩
    | raise e =>
      simp only
      cases hs : c.stack with
      | nil => exact h
      | cons f fs =>
        simp only
        have hf := (ci.frames f (by rw [hs]; exact List.mem_cons_self)).2
        refine h.update hc (fun ev => ?_) (fun i n hij => ?_) ⟨hf.running, f.event, f.arg, hf.started, fun hr => (by cases hr), fun _ hnil => ?_⟩ (ci.pop hs _ _)
        · rw [subscriptions_other _ _ _ (by simp [CoEv.id?])]; exact h.subs ev
        · intro e; cases e; exact hij rfl
        · have h0 := hf.pos
          rw [hnil] at h0
          have := (ci.busy f fs hs).1 h0.symm
          rw [hcur] at this
          cases this
    | subscribe ev s k =>
      refine h.update hc (fun ev' => ?_) (notId _ rfl) trivial ((subId _ rfl).goOn (by rw [hcur]; simp) _)
      rw [subscriptions_subscribed, ← h.subs]
      simp only [CoState.setSubs, CoState.log]
      split
      · rename_i e; rw [e]
      · rfl
    | unsubscribe ev s k =>
      simp only [eventUnsubscribe]
      by_cases hm : s ∈ st.subs ev
      · simp only [if_pos hm]
        refine h.update hc (fun ev' => ?_) (notId _ rfl) trivial ((subId _ rfl).goOn (by rw [hcur]; simp) _)
        rw [subscriptions_unsubscribed, ← h.subs]
        simp only [CoState.setSubs, CoState.log]
        split
        · rename_i e; rw [e]
        · rfl
      · simp only [if_neg hm]
        exact h.silent hc (ci.goOn (by rw [hcur]; simp) _)
    | register ev k => exact h.silent hc (ci.goOn (by rw [hcur]; simp) _)
    | notify ev x k => exact coInv_start h hc (by rw [hcur]; simp) ev x false k
    | handle ev x k =>
      simp only
      split
      · exact coInv_start h hc (by rw [hcur]; simp) ev x true k
      · exact h.silent hc (ci.goOn (by rw [hcur]; simp) _)

/-- A program in which nobody has subscribed yet. -/
theorem coInv_init (names : List String) : CoInv ({ names := names } : CoState α) :=
  ⟨fun _ => rfl, fun j c h => by simp at h, fun _ _ _ e he => (by cases he), fun p e q h => by simp at h⟩

theorem coInv_run (limit : Nat) (beh : CoBehaviour α) : ∀ (acts : List (CoAct α)) {st : CoState α}, CoInv st → CoInv (coRun limit beh st acts)
  | [], _, h => h
  | .run j :: acts, _, h => coInv_run limit beh acts (coInv_step limit beh h j)
  | .spawn p :: acts, st, h => by
    refine coInv_run limit beh acts (st := { st with coros := st.coros ++ [⟨p, [], 0⟩] }) ⟨h.subs, fun j c hj => ?_, fun j n hj => ?_, h.good⟩
    · by_cases hl : j < st.coros.length
      · rw [List.getElem?_append_left hl] at hj
        exact h.coros j c hj
      · rw [List.getElem?_append_right (by omega)] at hj
        have h0 : j - st.coros.length = 0 := by
          have := (List.getElem?_eq_some_iff.mp hj).1
          simp at this
          omega
        rw [h0] at hj
        cases hj
        exact ⟨fun f hf => (by cases hf), .nil, fun n _ => h.fresh j n (by omega), fun f fs hf => by cases hf⟩
    · simp only [List.length_append] at hj
      exact h.fresh j n (by omega)

end Pyogp
