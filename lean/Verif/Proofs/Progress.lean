import Verif.Spec.Progress
import Verif.Proofs.Coroutines
import Mathlib.Data.List.Perm.Subperm

/-!
# Proofs: progress of the coroutines of a manager
-/

namespace Pyogp
open Spec

/-- What a run of a loop does to the outgoing queue. -/
theorem udpRun_queue (env : CEnv) (w : World) (input : Option Incoming) (order : List Addr) (pc : UdpAt) :
    ((udpRun env w input order pc).2.m.queue = w.m.queue ∧ (udpRun env w input order pc).2.m.calls = w.m.calls ∧ (pc ≠ .draining ∨ w.m.queue = [])) ∨
    ∃ e q, pc = .draining ∧ w.m.queue = e :: q ∧ (udpRun env w input order pc).2.m.queue = q ∧ (udpRun env w input order pc).2.m.calls = w.m.calls ++ [e] := by
  cases pc <;> simp only [udpRun]
  case receiving => split <;> exact .inl ⟨by simp [MState.setDisp], by simp [MState.setDisp], .inl (by simp)⟩
  case acking => split <;> exact .inl ⟨by simp [MState.setDisp], by simp [MState.setDisp], .inl (by simp)⟩
  case draining =>
    cases hq : w.m.queue with
    | nil => exact .inl ⟨by simp [hq], by simp, .inr rfl⟩
    | cons e q => simp only []; split <;> exact .inr ⟨e, q, by simp, by simp, rfl, rfl⟩
  all_goals exact .inl ⟨by simp, by simp, .inl (by simp)⟩

theorem act_udp_self {env : CEnv} {w : World} {i : Nat} {pc : UdpAt} (hpc : w.loops[i]? = some pc) (input : Option Incoming) (order : List Addr) :
    (act env w (.udp i input order)).loops[i]? = some (udpRun env w input order pc).1 := by
  simp only [act, hpc]
  rw [List.getElem?_set_self (List.getElem?_eq_some_iff.mp hpc).1]

/-- Only its own runs move a loop. -/
theorem act_loop_other {env : CEnv} {w : World} {i : Nat} {pc : UdpAt} (hpc : w.loops[i]? = some pc) {a : Act}
    (ha : ∀ input order, a ≠ .udp i input order) : (act env w a).loops[i]? = some pc := by
  cases a with
  | enqueue e => exact hpc
  | start =>
    simp only [act, World.start]
    rw [List.getElem?_append_left (List.getElem?_eq_some_iff.mp hpc).1]
    exact hpc
  | stop => exact hpc
  | stopQueue => exact hpc
  | disp o => exact hpc
  | poller j o => simp only [act]; split <;> exact hpc
  | udp j input order =>
    have hij : j ≠ i := by rintro rfl; exact ha _ _ rfl
    simp only [act]
    split
    · exact hpc
    · simp only
      rw [List.getElem?_set_ne hij]; exact hpc

theorem act_running {env : CEnv} {w : World} (hr : w.running = true) {a : Act} (ha : a ≠ .stop) : (act env w a).running = true := by
  cases a with
  | stop => exact absurd rfl ha
  | enqueue e => exact hr
  | start => rfl
  | stopQueue => exact hr
  | disp o => exact hr
  | poller j o => simp only [act]; split <;> exact hr
  | udp j input order =>
    simp only [act]
    split
    · exact hr
    · exact (udpRun_keeps env w input order _).running.trans hr

theorem raised_stays (env : CEnv) (i : Nat) (as : List Act) : ∀ w : World, Raised w i → Raised (runActs env w as) i := by
  induction as with
  | nil => intro w h; exact h
  | cons a as ih =>
    rintro w ⟨x, hx⟩
    refine ih _ ⟨x, ?_⟩
    by_cases ha : ∃ input order, a = .udp i input order
    · obtain ⟨input, order, rfl⟩ := ha
      rw [act_udp_self hx]; rfl
    · exact act_loop_other hx (fun input order h => ha ⟨input, order, h⟩)

theorem act_calls_prefix (env : CEnv) (w : World) (a : Act) : w.m.calls <+: (act env w a).m.calls := by
  cases a with
  | udp j input order =>
    simp only [act]
    split
    · exact List.prefix_rfl
    · rename_i pc _
      rcases udpRun_queue env w input order pc with ⟨_, h, _⟩ | ⟨e, q, _, _, _, h⟩
      · simp only [h]; exact List.prefix_rfl
      · simp only [h]; exact List.prefix_append _ _
  | poller j o => simp only [act]; split <;> exact List.prefix_rfl
  | _ => exact List.prefix_rfl

theorem runActs_calls_prefix (env : CEnv) (as : List Act) : ∀ w : World, w.m.calls <+: (runActs env w as).m.calls := by
  induction as with
  | nil => intro w; exact List.prefix_rfl
  | cons a as ih => intro w; exact (act_calls_prefix env w a).trans (ih _)

/-- What was enqueued is not lost. -/
theorem act_kept (env : CEnv) (w : World) (a : Act) : (w.m.calls ++ w.m.queue).Subperm ((act env w a).m.calls ++ (act env w a).m.queue) := by
  cases a with
  | enqueue e =>
    simp only [act, MState.enqueueAll, enqueue, List.foldl_cons, List.foldl_nil]
    split
    · exact List.Sublist.subperm ((List.sublist_cons_self e _).append_left w.m.calls)
    · exact List.Sublist.subperm ((List.sublist_append_left _ _).append_left w.m.calls)
  | udp j input order =>
    simp only [act]
    split
    · exact List.Subperm.refl _
    · rename_i pc _
      rcases udpRun_queue env w input order pc with ⟨h1, h2, _⟩ | ⟨e, q, _, h1, h2, h3⟩
      · simp only [h1, h2]; exact List.Subperm.refl _
      · simp only [h1, h2, h3, List.append_assoc, List.singleton_append]; exact List.Subperm.refl _
  | poller j o => simp only [act]; split <;> exact List.Subperm.refl _
  | _ => exact List.Subperm.refl _

/-- Turns a loop needs at most before it sends, if there is something to be sent. -/
def toDrain : UdpAt → Nat
  | .spawned => 4
  | .sleeping => 3
  | .receiving => 2
  | .acking => 1
  | _ => 0

theorem toDrain_le (pc : UdpAt) : toDrain pc ≤ 4 := by cases pc <;> simp [toDrain]

/-- One turn of a running loop that does not raise. -/
theorem udpRun_toDrain {env : CEnv} {w : World} (hr : w.running = true) (hq : w.m.queue ≠ []) (input : Option Incoming) (order : List Addr) {pc : UdpAt}
    (hp : Alive pc = true) : (∃ x, (udpRun env w input order pc).1 = .raised x) ∨
      (Alive (udpRun env w input order pc).1 = true ∧
        ((pc ≠ .draining ∧ toDrain (udpRun env w input order pc).1 + 1 ≤ toDrain pc) ∨ (pc = .draining ∧ (udpRun env w input order pc).1 = .draining))) := by
  have hh : w.loopHead = .sleeping := by simp [World.loopHead, hr]
  cases pc <;> simp only [udpRun, hh]
  case receiving => split <;> simp [Alive, toDrain]
  case acking => split <;> simp [Alive, toDrain]
  case draining =>
    cases hq' : w.m.queue with
    | nil => exact absurd hq' hq
    | cons e q => simp only []; split <;> simp [Alive]
  case returned => simp [Alive] at hp
  case raised => simp [Alive] at hp
  all_goals simp [Alive, toDrain]

theorem turns_cons (i : Nat) (a : Act) (as : List Act) : turns i (a :: as) = turns i [a] + turns i as := by
  simp only [turns, List.countP_cons, List.countP_nil]; omega

theorem enqueuedIn_cons (a : Act) (as : List Act) : enqueuedIn (a :: as) = enqueuedIn [a] ++ enqueuedIn as := by
  rw [enqueuedIn, enqueuedIn, enqueuedIn, ← List.filterMap_append]; rfl

theorem urgentIn_cons (a : Act) (as : List Act) : urgentIn (a :: as) = urgentIn [a] + urgentIn as := by
  unfold urgentIn; rw [enqueuedIn_cons, List.countP_append]

/-- The first entries `pre` of the queue are sent when the loop has had as many turns as it needs. -/
theorem front_is_sent (env : CEnv) (i : Nat) (as : List Act) : ∀ (w : World) (pre rest : List QEntry) (pc : UdpAt),
    w.running = true → NoStop as → w.loops[i]? = some pc → Alive pc = true → w.m.queue = pre ++ rest →
    pre.length + toDrain pc + urgentIn as ≤ turns i as →
    Raised (runActs env w as) i ∨ (w.m.calls ++ pre).Subperm (runActs env w as).m.calls := by
  induction as with
  | nil =>
    intro w pre rest pc _ _ _ _ _ hb
    have : pre = [] := by
      have h0 : turns i [] = 0 := rfl
      rw [h0] at hb
      exact List.length_eq_zero_iff.mp (by omega)
    subst this
    right
    rw [List.append_nil]; exact List.Subperm.refl _
  | cons a as ih =>
    intro w pre rest pc hr hs hpc hal hq hb
    have hs' : ¬ .stop = a ∧ NoStop as := by simpa [NoStop] using hs
    by_cases hpre : pre = []
    · subst hpre
      right
      rw [List.append_nil]
      exact (runActs_calls_prefix env (a :: as) w).sublist.subperm
    have hr' := act_running (env := env) hr (Ne.symm hs'.1)
    rw [turns_cons, urgentIn_cons] at hb
    have hqne : w.m.queue ≠ [] := by
      rw [hq]; intro h; exact hpre (List.append_eq_nil_iff.mp h).1
    have goal : ∀ (pre' rest' : List QEntry) (pc' : UdpAt), (act env w a).loops[i]? = some pc' → Alive pc' = true → (act env w a).m.queue = pre' ++ rest' →
        pre'.length + toDrain pc' + urgentIn as ≤ turns i as → (w.m.calls ++ pre).Subperm ((act env w a).m.calls ++ pre') →
        Raised (runActs env w (a :: as)) i ∨ (w.m.calls ++ pre).Subperm (runActs env w (a :: as)).m.calls := by
      intro pre' rest' pc' h1 h2 h3 h4 h5
      rcases ih _ pre' rest' pc' hr' hs'.2 h1 h2 h3 h4 with h | h
      · exact .inl h
      · exact .inr (h5.trans h)
    have same : ∀ (h : ∀ input order, a ≠ .udp i input order), (act env w a).m.queue = w.m.queue → (act env w a).m.calls = w.m.calls → turns i [a] = 0 →
        Raised (runActs env w (a :: as)) i ∨ (w.m.calls ++ pre).Subperm (runActs env w (a :: as)).m.calls := by
      intro h h1 h2 h3
      refine goal pre rest pc (act_loop_other hpc h) hal (h1.trans hq) (by omega) ?_
      rw [h2]
    cases a with
    | enqueue e =>
      have ht : turns i [Act.enqueue e] = 0 := rfl
      have hl : (act env w (.enqueue e)).loops[i]? = some pc := hpc
      cases hn : e.now with
      | true =>
        have hu : urgentIn [Act.enqueue e] = 1 := by simp [urgentIn, enqueuedIn, hn]
        refine goal (e :: pre) rest pc hl hal ?_ (by simp only [List.length_cons]; omega) ?_
        · simp [act, MState.enqueueAll, enqueue, hn, hq]
        · exact List.Sublist.subperm ((List.sublist_cons_self e pre).append_left w.m.calls)
      | false =>
        refine goal pre (rest ++ [e]) pc hl hal ?_ (by omega) (List.Subperm.refl _)
        simp [act, MState.enqueueAll, enqueue, hn, hq]
    | start => exact same (by simp) rfl rfl rfl
    | stop => exact absurd rfl hs'.1
    | stopQueue => exact same (by simp) rfl rfl rfl
    | disp o => exact same (by simp) rfl rfl rfl
    | poller j o =>
      refine same (by simp) ?_ ?_ rfl
      · simp only [act]; split <;> rfl
      · simp only [act]; split <;> rfl
    | udp j input order =>
      obtain ⟨p, pre0, rfl⟩ := List.exists_cons_of_ne_nil hpre
      by_cases hij : j = i
      · subst hij
        have ht : turns j [Act.udp j input order] = 1 := by simp [turns]
        have hu : urgentIn [Act.udp j input order] = 0 := rfl
        rcases udpRun_toDrain (env := env) hr hqne input order hal with ⟨x, hx⟩ | ⟨h1, h2⟩
        · left
          refine raised_stays env j as _ ⟨x, ?_⟩
          rw [act_udp_self hpc, hx]
        · have hact : (act env w (.udp j input order)).m = (udpRun env w input order pc).2.m := by simp only [act, hpc]
          rcases udpRun_queue env w input order pc with ⟨g1, g2, g3⟩ | ⟨e, q, g1, g2, g3, g4⟩
          · have hnd : pc ≠ .draining := by
              rcases g3 with h | h
              · exact h
              · exact absurd h hqne
            rcases h2 with ⟨_, h2⟩ | ⟨h2, _⟩
            · refine goal (p :: pre0) rest _ (act_udp_self hpc input order) h1 (by rw [hact, g1, hq]) (by omega) ?_
              rw [hact, g2]
            · exact absurd h2 hnd
          · rcases h2 with ⟨h2, _⟩ | ⟨_, h2⟩
            · exact absurd g1 h2
            · rw [hq, List.cons_append] at g2
              obtain ⟨rfl, rfl⟩ := List.cons.inj g2
              refine goal pre0 rest _ (act_udp_self hpc input order) h1 (by rw [hact, g3]) ?_ ?_
              · rw [h2]
                have : toDrain .draining = 0 := rfl
                simp only [List.length_cons] at hb
                omega
              · rw [hact, g4]; simp only [List.append_assoc, List.singleton_append]; exact List.Subperm.refl _
      · have ht : turns i [Act.udp j input order] = 0 := by simp [turns, hij]
        have hu : urgentIn [Act.udp j input order] = 0 := rfl
        have hl : (act env w (.udp j input order)).loops[i]? = some pc := act_loop_other hpc (by rintro _ _ h; injection h; exact hij ‹_›)
        cases hj : w.loops[j]? with
        | none =>
          have : act env w (.udp j input order) = w := by simp only [act, hj]
          exact same (by rintro _ _ h; injection h; exact hij ‹_›) (by rw [this]) (by rw [this]) ht
        | some pc2 =>
          have hact : (act env w (.udp j input order)).m = (udpRun env w input order pc2).2.m := by simp only [act, hj]
          rcases udpRun_queue env w input order pc2 with ⟨g1, g2, g3⟩ | ⟨e, q, g1, g2, g3, g4⟩
          · exact same (by rintro _ _ h; injection h; exact hij ‹_›) (by rw [hact, g1]) (by rw [hact, g2]) ht
          · rw [hq, List.cons_append] at g2
            obtain ⟨rfl, rfl⟩ := List.cons.inj g2
            refine goal pre0 rest pc hl hal (by rw [hact, g3]) ?_ ?_
            · simp only [List.length_cons] at hb
              omega
            · rw [hact, g4]; simp only [List.append_assoc, List.singleton_append]; exact List.Subperm.refl _

/-! ## Reading -/

/-- Turns since the last reading, at least. -/
def sinceRead : UdpAt → Nat
  | .spawned => 1
  | .draining => 1
  | .sleeping => 2
  | .receiving => 3
  | _ => 0

theorem sinceRead_le (pc : UdpAt) : sinceRead pc ≤ 3 := by cases pc <;> simp [sinceRead]

theorem udpRun_sinceRead {env : CEnv} {w : World} (hr : w.running = true) (input : Option Incoming) (order : List Addr) {pc : UdpAt}
    (hp : Alive pc = true) : (∃ x, (udpRun env w input order pc).1 = .raised x) ∨
      (Alive (udpRun env w input order pc).1 = true ∧
        sinceRead pc + 1 + (udpRun env w input order pc).2.m.queue.length ≤
          sinceRead (udpRun env w input order pc).1 + 4 * (if pc = .receiving then 1 else 0) + w.m.queue.length) := by
  have hh : w.loopHead = .sleeping := by simp [World.loopHead, hr]
  cases pc <;> simp only [udpRun, hh]
  case receiving => split <;> simp [Alive, sinceRead, MState.setDisp]
  case acking => split <;> simp [Alive, sinceRead, MState.setDisp]
  case draining =>
    cases hq' : w.m.queue with
    | nil => simp [Alive, sinceRead, hq']
    | cons e q => simp only []; split <;> simp [Alive, MState.setDisp, MState.popped]; omega
  case returned => simp [Alive] at hp
  case raised => simp [Alive] at hp
  all_goals simp [Alive, sinceRead]

theorem udpRun_queue_length (env : CEnv) (w : World) (input : Option Incoming) (order : List Addr) (pc : UdpAt) :
    (udpRun env w input order pc).2.m.queue.length ≤ w.m.queue.length := by
  rcases udpRun_queue env w input order pc with ⟨h, _⟩ | ⟨e, q, _, h, h', _⟩
  · rw [h]; exact Nat.le_refl _
  · rw [h, h']; simp

theorem reads_again (env : CEnv) (i : Nat) (as : List Act) : ∀ (w : World) (pc : UdpAt), w.running = true → NoStop as → w.loops[i]? = some pc → Alive pc = true →
    Raised (runActs env w as) i ∨
      turns i as + sinceRead pc ≤ 4 * readsBy env i w as + 3 + w.m.queue.length + (enqueuedIn as).length := by
  induction as with
  | nil =>
    intro w pc _ _ _ _
    right
    have := sinceRead_le pc
    have h0 : turns i [] = 0 := rfl
    omega
  | cons a as ih =>
    intro w pc hr hs hpc hal
    have hs' : ¬ .stop = a ∧ NoStop as := by simpa [NoStop] using hs
    have hr' := act_running (env := env) hr (Ne.symm hs'.1)
    rw [turns_cons, enqueuedIn_cons, List.length_append]
    have goal : ∀ (pc' : UdpAt) (k : Nat), (act env w a).loops[i]? = some pc' → Alive pc' = true → readsBy env i w (a :: as) = k + readsBy env i (act env w a) as →
        sinceRead pc + turns i [a] + (act env w a).m.queue.length ≤ sinceRead pc' + 4 * k + w.m.queue.length + (enqueuedIn [a]).length →
        Raised (runActs env w (a :: as)) i ∨ turns i [a] + turns i as + sinceRead pc ≤
          4 * readsBy env i w (a :: as) + 3 + w.m.queue.length + ((enqueuedIn [a]).length + (enqueuedIn as).length) := by
      intro pc' k h1 h2 h3 h4
      rcases ih _ pc' hr' hs'.2 h1 h2 with h | h
      · exact .inl h
      · right; rw [h3]; omega
    have same : ∀ (h : ∀ input order, a ≠ .udp i input order), readsBy env i w (a :: as) = 0 + readsBy env i (act env w a) as → (act env w a).m.queue.length ≤ w.m.queue.length + (enqueuedIn [a]).length → turns i [a] = 0 →
        Raised (runActs env w (a :: as)) i ∨ turns i [a] + turns i as + sinceRead pc ≤
          4 * readsBy env i w (a :: as) + 3 + w.m.queue.length + ((enqueuedIn [a]).length + (enqueuedIn as).length) := by
      intro h h1 h2 h3
      exact goal pc 0 (act_loop_other hpc h) hal h1 (by omega)
    cases a with
    | enqueue e =>
      refine same (by simp) rfl ?_ rfl
      simp only [act, MState.enqueueAll, enqueue, enqueuedIn, List.foldl_cons, List.foldl_nil, List.filterMap_cons, List.filterMap_nil]
      split <;> simp
    | start => exact same (by simp) rfl (Nat.le_add_right _ _) rfl
    | stop => exact absurd rfl hs'.1
    | stopQueue => exact same (by simp) rfl (Nat.le_add_right _ _) rfl
    | disp o => exact same (by simp) rfl (Nat.le_add_right _ _) rfl
    | poller j o =>
      refine same (by simp) rfl ?_ rfl
      simp only [act]; split <;> exact Nat.le_add_right _ _
    | udp j input order =>
      by_cases hij : j = i
      · subst hij
        have ht : turns j [Act.udp j input order] = 1 := by simp [turns]
        rcases udpRun_sinceRead (env := env) hr input order hal with ⟨x, hx⟩ | ⟨h1, h2⟩
        · left
          refine raised_stays env j as _ ⟨x, ?_⟩
          rw [act_udp_self hpc, hx]
        · have hact : (act env w (.udp j input order)).m = (udpRun env w input order pc).2.m := by simp only [act, hpc]
          refine goal _ (if pc = .receiving then 1 else 0) (act_udp_self hpc input order) h1 ?_ ?_
          · simp only [readsBy, hpc, true_and, Option.some.injEq]
          · rw [hact, ht]; omega
      · have ht : turns i [Act.udp j input order] = 0 := by simp [turns, hij]
        refine same (by rintro _ _ h; injection h; exact hij ‹_›) (by simp only [readsBy, hij, false_and, if_false]) ?_ ht
        simp only [act]
        split
        · exact Nat.le_add_right _ _
        · exact Nat.le_trans (udpRun_queue_length ..) (Nat.le_add_right _ _)

/-! ## Polling -/

theorem eqHead_running (c : EqClient) (h : c.stopped = false) : eqHead c = (.sleeping, c) := by simp [eqHead, h]


/-- A coroutine of the event queue that polls or is about to. -/
def Polling : EqAt → Bool
  | .spawned => true
  | .sleeping => true
  | .posting => true
  | _ => false

theorem eqRun_polling (env : CEnv) {c : EqClient} (h : c.stopped = false) (o : PollOutcome) {pc : EqAt} (hp : Polling pc = true) :
    Polling (eqRun env c o pc).1 = true ∧ ((eqRun env c o pc).1 = .sleeping ↔ pc ≠ .sleeping) := by
  cases pc <;> simp only [eqRun] <;> simp_all [eqHead, Polling]

theorem pollTurns_cons (i : Nat) (a : Act) (as : List Act) : pollTurns i (a :: as) = pollTurns i [a] + pollTurns i as := by
  simp only [pollTurns, List.countP_cons, List.countP_nil]; omega

theorem polls_again (env : CEnv) (i : Nat) (as : List Act) : ∀ (w : World) (c : EqClient) (pc : EqAt), NoStopQueue as → w.eq = some c → c.stopped = false →
    w.pollers[i]? = some pc → Polling pc = true →
    pollTurns i as ≤ 2 * pollsBy env i w as + (if pc = .sleeping then 0 else 1) := by
  induction as with
  | nil => intro w c pc _ _ _ _ _; exact Nat.zero_le _
  | cons a as ih =>
    intro w c pc hs hc hst hpc hp
    have hs' : (¬ .stop = a ∧ ¬ .stopQueue = a) ∧ NoStopQueue as := by
      obtain ⟨h1, h2⟩ := hs
      simp only [List.mem_cons, not_or] at h1 h2
      exact ⟨⟨h1.1, h2.1⟩, h1.2, h2.2⟩
    rw [pollTurns_cons]
    by_cases ha : ∃ j o, a = .poller j o
    · obtain ⟨j, o, rfl⟩ := ha
      by_cases hij : j = i
      · subst hij
        have hact : act env w (.poller j o) = { w with eq := some (eqRun env c o pc).2, pollers := w.pollers.set j (eqRun env c o pc).1, polls := if pc = .sleeping then w.polls + 1 else w.polls } := by simp only [act, hpc, hc]
        have hrun := eqRun_polling env hst o hp
        have := ih (act env w (.poller j o)) (eqRun env c o pc).2 (eqRun env c o pc).1 hs'.2 (by rw [hact]) ((eqRun_stopped ..).trans hst)
          (by rw [hact]; exact List.getElem?_set_self (List.getElem?_eq_some_iff.mp hpc).1) hrun.1
        have ht : pollTurns j [Act.poller j o] = 1 := by simp [pollTurns]
        have hb : pollsBy env j w (.poller j o :: as) = (if pc = .sleeping then 1 else 0) + pollsBy env j (act env w (.poller j o)) as := by
          simp only [pollsBy, hpc, true_and, Option.some.injEq]
        rw [ht, hb]
        by_cases h : pc = .sleeping
        · have h' : ¬ (eqRun env c o pc).1 = .sleeping := fun hh => hrun.2.mp hh h
          rw [if_neg h'] at this
          rw [if_pos h, if_pos h]
          omega
        · rw [if_pos (hrun.2.mpr h)] at this
          rw [if_neg h, if_neg h]
          omega
      · have ht : pollTurns i [Act.poller j o] = 0 := by simp [pollTurns, hij]
        have hb : pollsBy env i w (.poller j o :: as) = pollsBy env i (act env w (.poller j o)) as := by
          simp only [pollsBy, hij, false_and, if_false, Nat.zero_add]
        rw [ht, hb, Nat.zero_add]
        cases hj : w.pollers[j]? with
        | none =>
          have : act env w (.poller j o) = w := by simp only [act, hj]
          rw [this]
          exact ih w c pc hs'.2 hc hst hpc hp
        | some pc2 =>
          have hact : act env w (.poller j o) = { w with eq := some (eqRun env c o pc2).2, pollers := w.pollers.set j (eqRun env c o pc2).1, polls := if pc2 = .sleeping then w.polls + 1 else w.polls } := by simp only [act, hj, hc]
          exact ih _ (eqRun env c o pc2).2 pc hs'.2 (by rw [hact]) ((eqRun_stopped ..).trans hst)
            (by rw [hact]; simp only; rw [List.getElem?_set_ne hij]; exact hpc) hp
    · have hp' : ∀ j o, a ≠ .poller j o := fun j o h => ha ⟨j, o, h⟩
      have hq : (act env w a).eq = some c ∧ (act env w a).pollers[i]? = some pc ∧ pollTurns i [a] = 0 ∧
          pollsBy env i w (a :: as) = 0 + pollsBy env i (act env w a) as := by
        cases a with
        | stop => exact absurd rfl hs'.1.1
        | stopQueue => exact absurd rfl hs'.1.2
        | enqueue e => exact ⟨hc, hpc, rfl, rfl⟩
        | disp o => exact ⟨hc, hpc, rfl, rfl⟩
        | poller j o => exact absurd rfl (hp' j o)
        | start =>
          refine ⟨hc, ?_, rfl, rfl⟩
          simp only [act, World.start]
          split
          · rw [List.getElem?_append_left (List.getElem?_eq_some_iff.mp hpc).1]; exact hpc
          · exact hpc
        | udp j input order =>
          refine ⟨?_, ?_, rfl, rfl⟩
          · simp only [act]
            split
            · exact hc
            · exact (udpRun_keeps ..).eq.trans hc
          · simp only [act]
            split
            · exact hpc
            · simp only; rw [(udpRun_keeps ..).pollers]; exact hpc
      have := ih _ c pc hs'.2 hq.1 hst hq.2.1 hp
      rw [hq.2.2.1, hq.2.2.2]
      omega

/-! ## The event queue is not used -/

theorem act_no_pollers {env : CEnv} {w : World} (hd : env.eqEnabled = false ∨ w.eq = none) (hp : w.pollers = []) (a : Act) :
    (act env w a).pollers = [] ∧ (act env w a).polls = w.polls ∧ (w.eq = none → (act env w a).eq = none) := by
  cases a with
  | enqueue e => exact ⟨hp, rfl, fun h => h⟩
  | start =>
    refine ⟨?_, rfl, fun h => h⟩
    simp only [act, World.start]
    rw [if_neg (by rcases hd with h | h <;> simp [h])]
    exact hp
  | stop => exact ⟨hp, rfl, fun h => by simp [act, World.stop, h]⟩
  | stopQueue => exact ⟨hp, rfl, fun h => by simp [act, h]⟩
  | disp o => exact ⟨hp, rfl, fun h => h⟩
  | poller j o =>
    have : act env w (.poller j o) = w := by simp [act, hp]
    rw [this]; exact ⟨hp, rfl, fun h => h⟩
  | udp j input order =>
    simp only [act]
    split
    · exact ⟨hp, rfl, fun h => h⟩
    · have h := udpRun_keeps env w input order ‹_›
      exact ⟨h.pollers.trans hp, h.polls, fun h' => h.eq.trans h'⟩

theorem runActs_no_pollers (env : CEnv) (as : List Act) : ∀ w : World, (env.eqEnabled = false ∨ w.eq = none) → w.pollers = [] →
    (runActs env w as).pollers = [] ∧ (runActs env w as).polls = w.polls := by
  induction as with
  | nil => intro w _ hp; exact ⟨hp, rfl⟩
  | cons a as ih =>
    intro w hd hp
    obtain ⟨h1, h2, h3⟩ := act_no_pollers hd hp a
    obtain ⟨h4, h5⟩ := ih _ (hd.imp id h3) h1
    exact ⟨h4, h5.trans h2⟩

end Pyogp
