import Verif.Spec.Coroutines
import Verif.Proofs.Manager
import Verif.Proofs.EventQueue

/-!
# Proofs: a manager with coroutines
-/

namespace Pyogp
open Spec

theorem runActs_append (env : CEnv) (w : World) (as bs : List Act) : runActs env w (as ++ bs) = runActs env (runActs env w as) bs :=
  List.foldl_append ..

theorem runActs_cons (env : CEnv) (w : World) (a : Act) (as : List Act) : runActs env w (a :: as) = runActs env (act env w a) as := rfl

/-- Induction from the end of a history. -/
theorem runActs_snoc (env : CEnv) (w : World) (as : List Act) (a : Act) : runActs env w (as ++ [a]) = act env (runActs env w as) a := by
  rw [runActs_append]; rfl

theorem snoc_induction {α : Type} {P : List α → Prop} (h0 : P []) (h1 : ∀ l a, P l → P (l ++ [a])) (l : List α) : P l := by
  have : ∀ l : List α, P l.reverse := by
    intro l
    induction l with
    | nil => exact h0
    | cons a l ih => rw [List.reverse_cons]; exact h1 _ _ ih
  have h := this l.reverse
  rwa [List.reverse_reverse] at h

theorem stop_running (env : CEnv) (w : World) : (act env w .stop).running = false := by
  simp only [act, World.stop]
  cases w.eq <;> rfl

theorem stop_eq (env : CEnv) {w : World} {c : EqClient} (hc : w.eq = some c) :
    (act env w .stop).eq = some (if c.st.running then { c with stopped := true } else c) := by
  simp only [act, World.stop, hc, Option.map_some, stopMonitors]

/-! ## What one run of a loop does -/

/-- What a run of a loop leaves alone. -/
structure UdpKeeps (w w' : World) : Prop where
  running : w'.running = w.running
  loops : w'.loops = w.loops
  eq : w'.eq = w.eq
  pollers : w'.pollers = w.pollers
  polls : w'.polls = w.polls

theorem udpRun_keeps (env : CEnv) (w : World) (i : Option Incoming) (o : List Addr) (pc : UdpAt) : UdpKeeps w (udpRun env w i o pc).2 := by
  cases pc <;> simp only [udpRun]
  case receiving => split <;> exact ⟨rfl, rfl, rfl, rfl, rfl⟩
  case acking => split <;> exact ⟨rfl, rfl, rfl, rfl, rfl⟩
  case draining =>
    split
    · exact ⟨rfl, rfl, rfl, rfl, rfl⟩
    · split <;> exact ⟨rfl, rfl, rfl, rfl, rfl⟩
  all_goals exact ⟨rfl, rfl, rfl, rfl, rfl⟩

/-- An invariant of the manager that holds whatever is done to the dispatcher from outside. -/
structure WClosed (env : CEnv) (P : MState → Prop) : Prop extends MClosed env.m P where
  disp : ∀ st o, P st → P (st.setDisp (step env.m.disp st.disp o))

theorem udpRun_preserves {env : CEnv} {P : MState → Prop} (hc : MClosed env.m P) (w : World) (i : Option Incoming) (o : List Addr)
    (pc : UdpAt) (h : P w.m) : P (udpRun env w i o pc).2.m := by
  cases pc <;> simp only [udpRun]
  case receiving =>
    have := hc.recv w.m i h
    split <;> simp_all
  case acking =>
    have := hc.ack w.m o h
    split <;> simp_all
  case draining =>
    split
    · exact h
    · rename_i e q hq
      have := hc.pop w.m e q h hq
      split <;> simp_all
  all_goals exact h

theorem act_preserves {env : CEnv} {P : MState → Prop} (hc : WClosed env P) (w : World) (a : Act) (h : P w.m) : P (act env w a).m := by
  cases a with
  | enqueue e => exact hc.enq _ _ h
  | start => exact h
  | stop => exact h
  | stopQueue => exact h
  | disp o => exact hc.disp _ _ h
  | udp i input order =>
    simp only [act]
    split
    · exact h
    · exact udpRun_preserves hc.toMClosed w input order _ h
  | poller i o =>
    simp only [act]
    split <;> exact h

theorem runActs_preserves {env : CEnv} {P : MState → Prop} (hc : WClosed env P) (as : List Act) : ∀ w : World, P w.m → P (runActs env w as).m := by
  induction as with
  | nil => intro w h; exact h
  | cons a as ih => intro w h; exact ih _ (act_preserves hc w a h)

theorem queueInv_wclosed (env : CEnv) : WClosed env QueueInv where
  toMClosed := queueInv_closed env.m
  disp := fun _ _ h => h.setDisp _

/-! ## What was enqueued, and the uses of the dispatcher -/

theorem udpRun_enqueued (env : CEnv) (w : World) (i : Option Incoming) (o : List Addr) (pc : UdpAt) :
    (udpRun env w i o pc).2.m.enqueued = w.m.enqueued := by
  cases pc <;> simp only [udpRun]
  case receiving => split <;> rfl
  case acking => split <;> rfl
  case draining =>
    split
    · rfl
    · split <;> rfl

theorem act_enqueued (env : CEnv) (w : World) (a : Act) : (act env w a).m.enqueued = w.m.enqueued ++ enqueuedIn [a] := by
  cases a with
  | enqueue e => rfl
  | start => simp [act, World.start, enqueuedIn]
  | stop => simp [act, World.stop, enqueuedIn]
  | stopQueue => simp [act, enqueuedIn]
  | disp o => simp [act, enqueuedIn, MState.setDisp]
  | udp i input order =>
    simp only [act, enqueuedIn, List.filterMap_cons, List.filterMap_nil, List.append_nil]
    split
    · rfl
    · exact udpRun_enqueued ..
  | poller i o =>
    simp only [act, enqueuedIn, List.filterMap_cons, List.filterMap_nil, List.append_nil]
    split <;> rfl

theorem runActs_enqueued (env : CEnv) (as : List Act) : ∀ w : World, (runActs env w as).m.enqueued = w.m.enqueued ++ enqueuedIn as := by
  induction as with
  | nil => intro w; simp [runActs, enqueuedIn]
  | cons a as ih =>
    intro w
    rw [runActs_cons, ih, act_enqueued, List.append_assoc]
    congr 1
    rw [enqueuedIn, enqueuedIn, enqueuedIn, ← List.filterMap_append]; rfl

theorem sendUdp_op (env : MEnv) (d : DState) (e : QEntry) : (sendUdpMessage env d e).2 = step env.disp d (queuedSend env.host e) := by
  rw [sendUdp_mode]; rfl

/-- The uses a run of a loop makes of the dispatcher. -/
theorem udpRun_ops (env : CEnv) (w : World) (i : Option Incoming) (o : List Addr) (pc : UdpAt) :
    ∃ ops new, (udpRun env w i o pc).2.m.disp = runOps env.m.disp w.m.disp ops ∧ (udpRun env w i o pc).2.m.calls = w.m.calls ++ new ∧
      sendsOf ops = new.map (queuedSend env.m.host) := by
  have nothing : ∃ ops new, w.m.disp = runOps env.m.disp w.m.disp ops ∧ w.m.calls = w.m.calls ++ new ∧
      sendsOf ops = new.map (queuedSend env.m.host) := ⟨[], [], rfl, by simp, rfl⟩
  cases pc <;> simp only [udpRun]
  case receiving =>
    have : ∃ ops, (receiveRound env.m w.m.disp i).2 = runOps env.m.disp w.m.disp ops ∧ sendsOf ops = [] := by
      cases i with
      | none => exact ⟨[.recv env.m.sender []], rfl, rfl⟩
      | some i => exact ⟨[.setHost env.m.sender ⟨.str i.ip, some i.port⟩, .recv env.m.sender (i.dg.take recvBuffer)], rfl, rfl⟩
    obtain ⟨ops, h1, h2⟩ := this
    split <;> rename_i hr <;> rw [hr] at h1 <;> exact ⟨ops, [], h1, by simp [MState.setDisp], by simpa using h2⟩
  case acking =>
    have : ∃ ops, (ackRound env.m w.m.disp o).2 = runOps env.m.disp w.m.disp ops ∧ sendsOf ops = [] := by
      unfold ackRound
      split
      · exact ⟨[.processAcks o], rfl, rfl⟩
      · exact ⟨[], rfl, rfl⟩
    obtain ⟨ops, h1, h2⟩ := this
    split <;> rename_i hr <;> rw [hr] at h1 <;> exact ⟨ops, [], h1, by simp [MState.setDisp], by simpa using h2⟩
  case draining =>
    split
    · exact nothing
    · rename_i e q hq
      have h1 := sendUdp_op env.m (w.m.popped e q).disp e
      split <;> rename_i hr <;> rw [hr] at h1 <;> exact ⟨[queuedSend env.m.host e], [e], h1, rfl, rfl⟩
  all_goals exact nothing

theorem usesOf_append (u : User) (h k : List (User × Op)) : usesOf u (h ++ k) = usesOf u h ++ usesOf u k := by simp [usesOf]

theorem sendsOf_append (h k : List Op) : sendsOf (h ++ k) = sendsOf h ++ sendsOf k := by simp [sendsOf]

theorem usesOf_tag (u v : User) (ops : List Op) : usesOf u (ops.map (fun o => (v, o))) = if v = u then ops else [] := by
  unfold usesOf
  rw [List.filter_map, List.map_map]
  split
  · rename_i h
    simp [Function.comp_def, h]
  · rename_i h
    simp [Function.comp_def, h]

theorem runOps_append (env : DEnv) (d : DState) (a b : List Op) : runOps env d (a ++ b) = runOps env (runOps env d a) b := List.foldl_append ..

/-- The history of the dispatcher of a manager. -/
theorem runActs_history (env : CEnv) (w : World) (hcalls : w.m.calls = []) (as : List Act) :
    ∃ h : List (User × Op), (runActs env w as).m.disp = runOps env.m.disp w.m.disp (h.map (·.2)) ∧ usesOf .program h = directIn as ∧
      sendsOf (usesOf .loop h) = (runActs env w as).m.calls.map (queuedSend env.m.host) := by
  induction as using snoc_induction with
  | h0 => exact ⟨[], rfl, rfl, by simp [runActs, hcalls, usesOf, sendsOf]⟩
  | h1 as a ih =>
    obtain ⟨h, h1, h2, h3⟩ := ih
    rw [runActs_snoc]
    generalize runActs env w as = v at h1 h3
    have hd : directIn (as ++ [a]) = directIn as ++ directIn [a] := by simp [directIn]
    rw [hd]
    cases a with
    | enqueue e => exact ⟨h, h1, by simpa [directIn] using h2, h3⟩
    | start => exact ⟨h, h1, by simpa [directIn] using h2, h3⟩
    | stop => exact ⟨h, h1, by simpa [directIn] using h2, h3⟩
    | stopQueue => exact ⟨h, h1, by simpa [directIn] using h2, h3⟩
    | poller i o =>
      refine ⟨h, ?_, by simpa [directIn] using h2, ?_⟩
      · simp only [act]; split <;> exact h1
      · simp only [act]; split <;> exact h3
    | disp o =>
      refine ⟨h ++ [(.program, o)], ?_, ?_, ?_⟩
      · simp only [act, MState.setDisp, h1, List.map_append, runOps_append]; rfl
      · rw [usesOf_append, h2]; rfl
      · rw [usesOf_append]
        have : usesOf User.loop [(User.program, o)] = [] := rfl
        rw [this, List.append_nil]
        exact h3
    | udp i input order =>
      have hdir : directIn [Act.udp i input order] = [] := rfl
      rw [hdir, List.append_nil]
      simp only [act]
      split
      · exact ⟨h, h1, h2, h3⟩
      · rename_i pc _
        obtain ⟨ops, new, g1, g2, g3⟩ := udpRun_ops env v input order pc
        refine ⟨h ++ ops.map (fun o => (.loop, o)), ?_, ?_, ?_⟩
        · simp only [g1, h1, List.map_append, List.map_map, runOps_append]
          congr 1
          simp [Function.comp_def]
        · rw [usesOf_append, h2, usesOf_tag]; simp
        · rw [usesOf_append, sendsOf_append, h3, usesOf_tag, if_pos rfl, g3, g2, List.map_append]

/-! ## Stopping -/

/-- Loops that may still take a datagram from the socket when `_is_running` is off. -/
def mayRead : UdpAt → Bool
  | .sleeping => true
  | .receiving => true
  | _ => false

theorem mayRead_le_alive (l : List UdpAt) : l.countP mayRead ≤ l.countP Alive :=
  List.countP_mono_left (fun x _ h => by cases x <;> simp_all [mayRead, Alive])

theorem countP_set {α : Type} (p : α → Bool) : ∀ (l : List α) (i : Nat) (x y : α), l[i]? = some x →
    (l.set i y).countP p + (if p x then 1 else 0) = l.countP p + (if p y then 1 else 0) := by
  intro l
  induction l with
  | nil => intro i x y h; simp at h
  | cons a l ih =>
    intro i x y h
    cases i with
    | zero =>
      simp only [List.getElem?_cons_zero, Option.some.injEq] at h
      subst h
      simp only [List.set_cons_zero, List.countP_cons]
      omega
    | succ i =>
      simp only [List.getElem?_cons_succ] at h
      have := ih i x y h
      simp only [List.set_cons_succ, List.countP_cons]
      omega

theorem act_reads {env : CEnv} {w : World} (hr : w.running = false) {a : Act} (ha : a ≠ .start) :
    (act env w a).running = false ∧ (act env w a).reads + (act env w a).loops.countP mayRead ≤ w.reads + w.loops.countP mayRead := by
  cases a with
  | start => exact absurd rfl ha
  | enqueue e => exact ⟨hr, Nat.le_refl _⟩
  | stop => exact ⟨stop_running env w, Nat.le_refl _⟩
  | stopQueue => exact ⟨hr, Nat.le_refl _⟩
  | disp o => exact ⟨hr, Nat.le_refl _⟩
  | poller i o => simp only [act]; split <;> exact ⟨hr, Nat.le_refl _⟩
  | udp i input order =>
    simp only [act]
    split
    · exact ⟨hr, Nat.le_refl _⟩
    · rename_i pc hpc
      refine ⟨(udpRun_keeps env w input order pc).running.trans hr, ?_⟩
      have := countP_set mayRead w.loops i pc (udpRun env w input order pc).1 hpc
      have hh : w.loopHead = .returned := by simp [World.loopHead, hr]
      simp only
      cases pc <;> simp only [udpRun, hh] at this ⊢
      case receiving => split <;> rename_i he <;> simp only [he, mayRead] at this ⊢ <;> simp at this ⊢ <;> omega
      case acking => split <;> rename_i he <;> simp only [he, mayRead] at this ⊢ <;> simp at this ⊢ <;> omega
      case draining =>
        cases hq : w.m.queue with
        | nil => simp only [hq, mayRead] at this ⊢; simp at this ⊢; omega
        | cons e q =>
          simp only [hq] at this ⊢
          split <;> rename_i he <;> simp only [he, mayRead] at this ⊢ <;> simp at this ⊢ <;> omega
      all_goals (simp only [mayRead] at this ⊢; simp at this ⊢; omega)

theorem runActs_reads (env : CEnv) (as : List Act) : ∀ w : World, w.running = false → NoStart as →
    (runActs env w as).running = false ∧
    (runActs env w as).reads + (runActs env w as).loops.countP mayRead ≤ w.reads + w.loops.countP mayRead := by
  induction as with
  | nil => intro w hr _; exact ⟨hr, Nat.le_refl _⟩
  | cons a as ih =>
    intro w hr hs
    have hs' : ¬ .start = a ∧ NoStart as := by simpa [NoStart] using hs
    obtain ⟨h1, h2⟩ := act_reads (env := env) hr (Ne.symm hs'.1)
    obtain ⟨h3, h4⟩ := ih _ h1 hs'.2
    exact ⟨h3, Nat.le_trans h4 h2⟩

/-! ## Ending -/

/-- How many more switches a loop makes at most when `_is_running` is off and the queue is empty. -/
def rank : UdpAt → Nat
  | .spawned => 1
  | .sleeping => 4
  | .receiving => 3
  | .acking => 2
  | .draining => 1
  | .returned => 0
  | .raised _ => 0

theorem sum_set {α : Type} (f : α → Nat) : ∀ (l : List α) (i : Nat) (x y : α), l[i]? = some x →
    ((l.set i y).map f).sum + f x = (l.map f).sum + f y := by
  intro l
  induction l with
  | nil => intro i x y h; simp at h
  | cons a l ih =>
    intro i x y h
    cases i with
    | zero =>
      simp only [List.getElem?_cons_zero, Option.some.injEq] at h
      subst h
      simp only [List.set_cons_zero, List.map_cons, List.sum_cons]
      omega
    | succ i =>
      simp only [List.getElem?_cons_succ] at h
      have := ih i x y h
      simp only [List.set_cons_succ, List.map_cons, List.sum_cons]
      omega

theorem rank_le (l : List UdpAt) : (l.map rank).sum ≤ 4 * l.countP Alive := by
  induction l with
  | nil => simp
  | cons a l ih =>
    simp only [List.map_cons, List.sum_cons, List.countP_cons]
    cases a <;> simp only [rank, Alive, if_true, Bool.false_eq_true, if_false] <;> omega

/-- What is left to do. -/
def leftover (w : World) : Nat := (w.loops.map rank).sum + w.m.queue.length

theorem udpRun_leftover {env : CEnv} {w : World} (hr : w.running = false) (input : Option Incoming) (order : List Addr) (pc : UdpAt) :
    rank (udpRun env w input order pc).1 + (udpRun env w input order pc).2.m.queue.length + (if Alive pc then 1 else 0) ≤ rank pc + w.m.queue.length := by
  have hh : w.loopHead = .returned := by simp [World.loopHead, hr]
  cases pc <;> simp only [udpRun, hh]
  case receiving => split <;> simp [rank, Alive, MState.setDisp] <;> omega
  case acking => split <;> simp [rank, Alive, MState.setDisp] <;> omega
  case draining =>
    cases hq : w.m.queue with
    | nil => simp [rank, Alive, hq]
    | cons e q => simp only []; split <;> simp [rank, Alive, MState.setDisp, MState.popped]; omega
  all_goals simp [rank, Alive]
  all_goals omega

theorem act_leftover {env : CEnv} {w : World} (hr : w.running = false) {a : Act} (ha : a ≠ .start) (he : enqueuedIn [a] = []) :
    leftover (act env w a) + switches env w [a] ≤ leftover w := by
  cases a with
  | start => exact absurd rfl ha
  | enqueue e => simp [enqueuedIn] at he
  | stop => exact Nat.le_refl _
  | stopQueue => exact Nat.le_refl _
  | disp o => exact Nat.le_refl _
  | poller i o => simp only [act]; split <;> exact Nat.le_refl _
  | udp i input order =>
    simp only [act, switches]
    cases hpc : w.loops[i]? with
    | none => simp
    | some pc =>
      simp only [Option.map_some, Option.getD_some]
      have h1 := sum_set rank w.loops i pc (udpRun env w input order pc).1 hpc
      have h2 := udpRun_leftover (env := env) hr input order pc
      simp only [leftover]
      omega

theorem runActs_switches (env : CEnv) (as : List Act) : ∀ w : World, w.running = false → NoStart as → NoEnqueue as →
    leftover (runActs env w as) + switches env w as ≤ leftover w := by
  induction as with
  | nil => intro w _ _ _; exact Nat.le_refl _
  | cons a as ih =>
    intro w hr hs he
    have hs' : ¬ .start = a ∧ NoStart as := by simpa [NoStart] using hs
    have he' : enqueuedIn [a] = [] ∧ NoEnqueue as := by
      have : enqueuedIn (a :: as) = enqueuedIn [a] ++ enqueuedIn as := by rw [enqueuedIn, enqueuedIn, enqueuedIn, ← List.filterMap_append]; rfl
      unfold NoEnqueue at he
      rw [this] at he
      exact List.append_eq_nil_iff.mp he
    have h1 := (act_reads (env := env) hr (Ne.symm hs'.1)).1
    have h2 := act_leftover (env := env) hr (Ne.symm hs'.1) he'.1
    have h3 := ih _ h1 hs'.2 he'.2
    simp only [switches] at h2 ⊢
    rw [runActs_cons]
    omega

/-! ## After the end -/

theorem runActs_ended (env : CEnv) (as : List Act) : ∀ w : World, liveLoops w = 0 → NoStart as →
    (runActs env w as).loops = w.loops ∧ (runActs env w as).reads = w.reads ∧ (runActs env w as).m.calls = w.m.calls := by
  induction as with
  | nil => intro w _ _; exact ⟨rfl, rfl, rfl⟩
  | cons a as ih =>
    intro w hl hs
    have hs' : ¬ .start = a ∧ NoStart as := by simpa [NoStart] using hs
    have h1 : (act env w a).loops = w.loops ∧ (act env w a).reads = w.reads ∧ (act env w a).m.calls = w.m.calls := by
      cases a with
      | start => exact absurd rfl hs'.1
      | enqueue e => exact ⟨rfl, rfl, rfl⟩
      | stop => exact ⟨rfl, rfl, rfl⟩
      | stopQueue => exact ⟨rfl, rfl, rfl⟩
      | disp o => exact ⟨rfl, rfl, rfl⟩
      | poller i o => simp only [act]; split <;> exact ⟨rfl, rfl, rfl⟩
      | udp i input order =>
        simp only [act]
        split
        · exact ⟨rfl, rfl, rfl⟩
        · rename_i pc hpc
          have hdead : Alive pc = false := by
            have := List.countP_eq_zero.mp hl pc (List.mem_of_getElem? hpc)
            simpa using this
          have hset : w.loops.set i pc = w.loops := by
            obtain ⟨hi, hx⟩ := List.getElem?_eq_some_iff.mp hpc
            rw [← hx]; exact List.set_getElem_self hi
          cases pc <;> simp only [Alive, Bool.true_eq_false] at hdead <;> exact ⟨hset, rfl, rfl⟩
    have := ih (act env w a) (by unfold liveLoops at hl ⊢; rw [h1.1]; exact hl) hs'.2
    exact ⟨this.1.trans h1.1, this.2.1.trans h1.2.1, this.2.2.trans h1.2.2⟩

/-! ## Running on -/

theorem act_not_returned {env : CEnv} {w : World} (hr : w.running = true) {a : Act} (ha : a ≠ .stop) {i : Nat} {pc : UdpAt} (hpc : w.loops[i]? = some pc)
    (hne : pc ≠ .returned) : (act env w a).running = true ∧ ∃ pc', (act env w a).loops[i]? = some pc' ∧ pc' ≠ .returned := by
  cases a with
  | stop => exact absurd rfl ha
  | enqueue e => exact ⟨hr, pc, hpc, hne⟩
  | start =>
    refine ⟨rfl, pc, ?_, hne⟩
    simp only [act, World.start]
    rw [List.getElem?_append_left (List.getElem?_eq_some_iff.mp hpc).1]
    exact hpc
  | stopQueue => exact ⟨hr, pc, hpc, hne⟩
  | disp o => exact ⟨hr, pc, hpc, hne⟩
  | poller j o => simp only [act]; split <;> exact ⟨hr, pc, hpc, hne⟩
  | udp j input order =>
    simp only [act]
    split
    · exact ⟨hr, pc, hpc, hne⟩
    · rename_i pc' hpc'
      refine ⟨(udpRun_keeps env w input order pc').running.trans hr, ?_⟩
      simp only
      by_cases hij : j = i
      · subst hij
        rw [hpc] at hpc'
        obtain rfl := Option.some.inj hpc'
        refine ⟨(udpRun env w input order pc).1, ?_, ?_⟩
        · rw [List.getElem?_set_self (List.getElem?_eq_some_iff.mp hpc).1]
        · have hh : w.loopHead = .sleeping := by simp [World.loopHead, hr]
          cases pc <;> simp only [udpRun, hh]
          case receiving => split <;> simp
          case acking => split <;> simp
          case draining =>
            cases w.m.queue with
            | nil => simp
            | cons e q => simp only []; split <;> simp
          case returned => exact absurd rfl hne
          all_goals simp
      · rw [List.getElem?_set_ne hij]
        exact ⟨pc, hpc, hne⟩

theorem runActs_not_returned (env : CEnv) (as : List Act) : ∀ w : World, w.running = true → NoStop as → ∀ (i : Nat) (pc : UdpAt),
    w.loops[i]? = some pc → pc ≠ .returned → ∃ pc', (runActs env w as).loops[i]? = some pc' ∧ pc' ≠ .returned := by
  induction as with
  | nil => intro w _ _ i pc h1 h2; exact ⟨pc, h1, h2⟩
  | cons a as ih =>
    intro w hr hs i pc h1 h2
    have hs' : ¬ .stop = a ∧ NoStop as := by simpa [NoStop] using hs
    obtain ⟨h3, pc', h4, h5⟩ := act_not_returned (env := env) hr (Ne.symm hs'.1) h1 h2
    exact ih _ h3 hs'.2 i pc' h4 h5

/-! ## The event queue -/

/-- `self.stopped` is set. -/
def QueueStopped (w : World) : Prop := ∃ c, w.eq = some c ∧ c.stopped = true

theorem eqHead_stopped (c : EqClient) : (eqHead c).2.stopped = c.stopped := by
  unfold eqHead; split
  · rfl
  · split <;> rfl

theorem eqRun_stopped (env : CEnv) (c : EqClient) (o : PollOutcome) (pc : EqAt) : (eqRun env c o pc).2.stopped = c.stopped := by
  cases pc <;> simp only [eqRun, eqHead_stopped]
  cases o <;> rfl

theorem act_polls {env : CEnv} {w : World} (h : QueueStopped w) (a : Act) :
    QueueStopped (act env w a) ∧ (act env w a).polls + pausing (act env w a) ≤ w.polls + pausing w := by
  obtain ⟨c, hc, hs⟩ := h
  cases a with
  | enqueue e => exact ⟨⟨c, hc, hs⟩, Nat.le_refl _⟩
  | disp o => exact ⟨⟨c, hc, hs⟩, Nat.le_refl _⟩
  | stopQueue => exact ⟨⟨{ c with stopped := true }, by simp [act, hc], rfl⟩, Nat.le_refl _⟩
  | stop =>
    refine ⟨⟨if c.st.running then { c with stopped := true } else c, stop_eq env hc, ?_⟩, Nat.le_refl _⟩
    split
    · rfl
    · exact hs
  | start =>
    refine ⟨⟨c, hc, hs⟩, ?_⟩
    simp only [act, World.start, pausing]
    split
    · rw [List.countP_append]
      have : [EqAt.spawned].countP (· = .sleeping) = 0 := by decide
      omega
    · exact Nat.le_refl _
  | udp i input order =>
    simp only [act]
    split
    · exact ⟨⟨c, hc, hs⟩, Nat.le_refl _⟩
    · rename_i pc _
      have hk := udpRun_keeps env w input order pc
      refine ⟨⟨c, hk.eq.trans hc, hs⟩, ?_⟩
      simp only [pausing, hk.polls, hk.pollers]
      exact Nat.le_refl _
  | poller i o =>
    simp only [act, hc]
    cases hpc : w.pollers[i]? with
    | none => exact ⟨⟨c, hc, hs⟩, Nat.le_refl _⟩
    | some pc =>
      simp only
      refine ⟨⟨_, rfl, (eqRun_stopped env c o pc).trans hs⟩, ?_⟩
      have := countP_set (fun x => decide (x = EqAt.sleeping)) w.pollers i pc (eqRun env c o pc).1 hpc
      have hhead : ∀ c' : EqClient, c'.stopped = true → (eqHead c').1 ≠ .sleeping := by
        intro c' h'; unfold eqHead; rw [h']; simp; split <;> simp
      have hnot : (eqRun env c o pc).1 ≠ .sleeping := by
        cases pc <;> simp only [eqRun]
        · exact hhead _ hs
        · simp
        · exact hhead _ hs
        · cases o <;> simp
        · simp
      have hz : (if decide ((eqRun env c o pc).1 = EqAt.sleeping) = true then 1 else 0) = 0 := if_neg (by simpa using hnot)
      rw [hz] at this
      simp only [pausing]
      by_cases hp : pc = .sleeping
      · simp only [hp, if_true] at this ⊢
        simp at this
        omega
      · simp only [hp, if_false] at this ⊢
        simp at this
        omega

theorem runActs_polls (env : CEnv) (as : List Act) : ∀ w : World, QueueStopped w →
    QueueStopped (runActs env w as) ∧ (runActs env w as).polls + pausing (runActs env w as) ≤ w.polls + pausing w := by
  induction as with
  | nil => intro w h; exact ⟨h, Nat.le_refl _⟩
  | cons a as ih =>
    intro w h
    obtain ⟨h1, h2⟩ := act_polls (env := env) h a
    obtain ⟨h3, h4⟩ := ih _ h1
    exact ⟨h3, Nat.le_trans h4 h2⟩

/-! ## One event-queue coroutine -/

theorem eqPoll_split (d : TemplateDict) (h : EqHandler) (st : EqState) (o : PollOutcome) : eqPoll d h st o = eqAnswer d h (eqPost st) o := rfl

/-- What the last POST acknowledges. -/
def donePost (st : EqState) : EqState := { st with posts := st.posts ++ [.map [("ack", st.lastId), ("done", .bool true)]] }

/-- Where the only coroutine of the event queue is after it was given the responses `os`. -/
def EqSeq (d : TemplateDict) (h : EqHandler) (given : List PollOutcome) (ps : List EqAt) (st : EqState) (os : List PollOutcome) : Prop :=
  os.Sublist given ∧
  match ps with
  | [] => st = {} ∧ os = []
  | [.spawned] => st = {} ∧ os = []
  | [.sleeping] => st = polled d h os
  | [.posting] => st = eqPost (polled d h os)
  | [.closing] => isMinusOne (polled d h os).lastId = false ∧ st = donePost (polled d h os)
  | [.ended b] => ∃ final ∈ given, (b, st) = eqStart d h (some "EventQueueGet") false os final {}
  | _ => False

theorem EqSeq.mono {d : TemplateDict} {h : EqHandler} {g g' : List PollOutcome} (hg : g.Sublist g') {ps : List EqAt} {st : EqState}
    {os : List PollOutcome} (hi : EqSeq d h g ps st os) : EqSeq d h g' ps st os := by
  refine ⟨hi.1.trans hg, ?_⟩
  have h2 := hi.2
  match ps, h2 with
  | [], h2 => exact h2
  | [.spawned], h2 => exact h2
  | [.sleeping], h2 => exact h2
  | [.posting], h2 => exact h2
  | [.closing], h2 => exact h2
  | [.ended b], ⟨final, h3, h4⟩ => exact ⟨final, hg.subset h3, h4⟩

theorem eqStart_region (d : TemplateDict) (h : EqHandler) (os : List PollOutcome) (final : PollOutcome) (st : EqState) :
    eqStart d h (some "EventQueueGet") false os final st =
      (match processRegion d h os final st with | (.ok _, st) => (true, st) | (.error _, st) => (false, st)) := by
  have h1 : ("EventQueueGet" = "event_queue") = False := by simp
  simp only [eqStart, h1, if_false, if_true, Bool.false_eq_true]
  cases processRegion d h os final st with
  | mk r s => cases r <;> rfl

/-- The test of the loop after the responses `os`. -/
theorem eqHead_seq (d : TemplateDict) (h : EqHandler) (os given : List PollOutcome) (o : PollOutcome) (hs : os.Sublist given) (ho : o ∈ given)
    (stopped : Bool) (c : EqClient) (hc : c = ⟨polled d h os, stopped⟩) : EqSeq d h given [(eqHead c).1] (eqHead c).2.st os := by
  subst hc
  refine ⟨hs, ?_⟩
  unfold eqHead
  cases stopped with
  | false => simp
  | true =>
    by_cases hm : isMinusOne (polled d h os).lastId
    · simp only [Bool.not_true, Bool.false_eq_true, if_false, hm, if_true]
      refine ⟨o, ho, ?_⟩
      rw [eqStart_region, processRegion_fresh, if_pos hm]
    · simp only [Bool.not_true, Bool.false_eq_true, if_false, hm]
      exact ⟨trivial, rfl⟩

theorem eqRun_seq (env : CEnv) (given os : List PollOutcome) (c : EqClient) (pc : EqAt) (o : PollOutcome)
    (hi : EqSeq env.dict env.handler given [pc] c.st os) :
    ∃ os', EqSeq env.dict env.handler (given ++ [o]) [(eqRun env c o pc).1] (eqRun env c o pc).2.st os' := by
  have hsub : os.Sublist (given ++ [o]) := hi.1.trans (List.sublist_append_left _ _)
  have hmem : o ∈ given ++ [o] := List.mem_append_right _ (List.mem_singleton.mpr rfl)
  cases pc with
  | spawned =>
    obtain ⟨h1, h2⟩ : c.st = {} ∧ os = [] := hi.2
    subst h2
    exact ⟨[], eqHead_seq _ _ _ _ o hsub hmem c.stopped _ (by rw [h1]; rfl)⟩
  | sleeping =>
    have h1 : c.st = polled env.dict env.handler os := hi.2
    exact ⟨os, hsub, by simp only [eqRun, h1]⟩
  | posting =>
    have h1 : c.st = eqPost (polled env.dict env.handler os) := hi.2
    refine ⟨os ++ [o], eqHead_seq _ _ _ _ o (List.Sublist.append hi.1 (List.Sublist.refl _)) hmem c.stopped _ ?_⟩
    rw [h1, polled_snoc, eqPoll_split]
  | closing =>
    obtain ⟨h1, h2⟩ : isMinusOne (polled env.dict env.handler os).lastId = false ∧ c.st = donePost (polled env.dict env.handler os) := hi.2
    refine ⟨os, hsub, ?_⟩
    cases o with
    | response v =>
      refine ⟨.response v, hmem, ?_⟩
      rw [eqStart_region, processRegion_fresh, if_neg (by simp [h1])]
      simp only [eqRun, h2, donePost]
    | failure e =>
      refine ⟨.failure e, hmem, ?_⟩
      rw [eqStart_region, processRegion_fresh, if_neg (by simp [h1])]
      simp only [eqRun, h2, donePost]
  | ended b =>
    obtain ⟨final, h1, h2⟩ := hi.2
    exact ⟨os, hsub, final, List.mem_append_left _ h1, h2⟩

theorem act_eq_other {env : CEnv} {w : World} {c : EqClient} (hc : w.eq = some c) {a : Act} (hp : ∀ i o, a ≠ .poller i o) :
    ∃ c', (act env w a).eq = some c' ∧ c'.st = c.st := by
  cases a with
  | enqueue e => exact ⟨c, hc, rfl⟩
  | start => exact ⟨c, hc, rfl⟩
  | disp o => exact ⟨c, hc, rfl⟩
  | stopQueue => exact ⟨{ c with stopped := true }, by simp [act, hc], rfl⟩
  | stop =>
    refine ⟨if c.st.running then { c with stopped := true } else c, stop_eq env hc, ?_⟩
    split <;> rfl
  | udp i input order =>
    simp only [act]
    split
    · exact ⟨c, hc, rfl⟩
    · rename_i pc _
      exact ⟨c, (udpRun_keeps env w input order pc).eq.trans hc, rfl⟩
  | poller i o => exact absurd rfl (hp i o)

theorem act_pollers_other {env : CEnv} {w : World} {a : Act} (hp : ∀ i o, a ≠ .poller i o) (hs : a ≠ .start) : (act env w a).pollers = w.pollers := by
  cases a with
  | enqueue e => rfl
  | start => exact absurd rfl hs
  | disp o => rfl
  | stopQueue => rfl
  | stop => rfl
  | udp i input order =>
    simp only [act]
    split
    · rfl
    · exact (udpRun_keeps env w input order _).pollers
  | poller i o => exact absurd rfl (hp i o)

/-- How often `start_monitors` was called. -/
def starts (as : List Act) : Nat := (as.filter (fun a => match a with | .start => true | _ => false)).length

theorem starts_snoc (as : List Act) (a : Act) : starts (as ++ [a]) = starts as + starts [a] := by simp [starts, List.filter_append]

theorem responsesIn_snoc (as : List Act) (a : Act) : responsesIn (as ++ [a]) = responsesIn as ++ responsesIn [a] := by
  simp [responsesIn, List.filterMap_append]

theorem runActs_seq (env : CEnv) (hosts : HostRef → Host) (as : List Act) : starts as ≤ 1 →
    ∃ c os, (runActs env (World.init hosts true) as).eq = some c ∧
      EqSeq env.dict env.handler (responsesIn as) (runActs env (World.init hosts true) as).pollers c.st os ∧
      (starts as = 0 → (runActs env (World.init hosts true) as).pollers = []) := by
  induction as using snoc_induction with
  | h0 => intro _; exact ⟨{}, [], rfl, ⟨List.Sublist.refl _, rfl, rfl⟩, fun _ => rfl⟩
  | h1 as a ih =>
    intro hs
    rw [starts_snoc] at hs
    obtain ⟨c, os, h1, h2, h3⟩ := ih (by omega)
    rw [runActs_snoc, responsesIn_snoc, starts_snoc]
    generalize runActs env (World.init hosts true) as = w at h1 h2 h3
    by_cases hp : ∀ i o, a ≠ .poller i o
    · obtain ⟨c', g1, g2⟩ := act_eq_other (env := env) h1 hp
      have g3 : EqSeq env.dict env.handler (responsesIn as ++ responsesIn [a]) w.pollers c'.st os := by
        rw [g2]; exact h2.mono (List.sublist_append_left _ _)
      by_cases hst : a = .start
      · subst hst
        have h0 : starts as = 0 := by
          have : starts [Act.start] = 1 := rfl
          omega
        have hn := h3 h0
        rw [hn] at g3
        refine ⟨c', os, g1, ?_, ?_⟩
        · simp only [act, World.start, hn]
          split
          · exact g3
          · exact g3
        · intro h
          have : starts [Act.start] = 1 := rfl
          omega
      · refine ⟨c', os, g1, ?_, ?_⟩
        · rw [act_pollers_other hp hst]; exact g3
        · intro h; rw [act_pollers_other hp hst]; exact h3 (by omega)
    · obtain ⟨i, o, rfl⟩ : ∃ i o, a = .poller i o := by
        by_cases h : ∃ i o, a = .poller i o
        · exact h
        · exact absurd (fun i o hc => h ⟨i, o, hc⟩) hp
      have hr : responsesIn [Act.poller i o] = [o] := rfl
      rw [hr]
      simp only [act, h1]
      cases hpc : w.pollers[i]? with
      | none =>
        refine ⟨c, os, h1, h2.mono (List.sublist_append_left _ _), fun h => h3 (by omega)⟩
      | some pc =>
        have hone : w.pollers = [pc] ∧ i = 0 := by
          match hw : w.pollers, h2, hpc with
          | [], _, hpc => simp at hpc
          | [x], _, hpc =>
            cases i with
            | zero => simp at hpc; exact ⟨by rw [hpc], rfl⟩
            | succ i => simp at hpc
          | x :: y :: l, h2, _ => cases x <;> exact (h2.2 : False).elim
        obtain ⟨hw, rfl⟩ := hone
        rw [hw] at h2
        obtain ⟨os', g⟩ := eqRun_seq env _ os c pc o h2
        refine ⟨_, os', rfl, ?_, ?_⟩
        · simp only [hw, List.set_cons_zero]; exact g
        · intro h
          have := h3 (by omega)
          rw [hw] at this
          cases this

/-! ## A pass nobody interrupts -/

theorem act_udp {env : CEnv} {w : World} {i : Nat} {pc : UdpAt} (h : w.loops[i]? = some pc) (input : Option Incoming) (order : List Addr) :
    act env w (.udp i input order) = { (udpRun env w input order pc).2 with loops := w.loops.set i (udpRun env w input order pc).1 } := by
  simp only [act, h]

theorem drain_pass {env : CEnv} (hm : ∀ s, env.m.meanwhile s = []) (i : Nat) (input : Option Incoming) (order : List Addr) :
    ∀ (fuel : Nat) (w : World) (st' : MState), drain env.m fuel w.m = (some (.ok ()), st') → w.loops[i]? = some .draining →
    runActs env w (List.replicate (w.m.queue.length + 1) (.udp i input order)) = { w with m := st', loops := w.loops.set i w.loopHead } := by
  intro fuel
  induction fuel with
  | zero => intro w st' h; cases h
  | succ fuel ih =>
    intro w st' h hl
    unfold drain at h
    cases hq : w.m.queue with
    | nil =>
      simp only [hq, Prod.mk.injEq, true_and] at h
      subst h
      have : runActs env w (List.replicate (([] : List QEntry).length + 1) (.udp i input order)) = act env w (.udp i input order) := rfl
      rw [this, act_udp hl]
      simp only [udpRun, hq]
    | cons e q =>
      simp only [hq] at h
      rw [List.length_cons, List.replicate_succ, runActs_cons, act_udp hl]
      simp only [udpRun, hq]
      cases hs : sendUdpMessage env.m (w.m.popped e q).disp e with
      | mk r d =>
        cases r with
        | error x => simp only [hs] at h; cases h
        | ok o =>
          simp only [hs, hm] at h ⊢
          have hen : ∀ s : MState, s.enqueueAll [] = s := by intro s; simp [MState.enqueueAll]
          rw [hen] at h
          have hi := (List.getElem?_eq_some_iff.mp hl).1
          have := ih { w with m := (w.m.popped e q).setDisp d, loops := w.loops.set i .draining } st' h
            (by simp only [List.getElem?_set_self hi])
          have hlen : ((w.m.popped e q).setDisp d).queue.length = q.length := rfl
          rw [hlen] at this
          rw [this]
          simp only [List.set_set]
          rfl

theorem receiveRound_queue (st : MState) (d : DState) : (st.setDisp d).queue = st.queue := rfl

/-- From the pause of a loop to its next pause, without any other coroutine running, the manager makes the pass `udpRound`. -/
theorem uninterrupted_pass {env : CEnv} (hm : ∀ s, env.m.meanwhile s = []) (w : World) (hr : w.running = true) (i : Nat) (hl : w.loops[i]? = some .sleeping)
    (input : Option Incoming) (order : List Addr) (fuel : Nat) (st' : MState)
    (h : udpRound env.m fuel w.m input (fun _ => order) = (some (.ok ()), st')) :
    runActs env w (List.replicate (w.m.queue.length + 4) (.udp i input order)) = { w with m := st', reads := w.reads + 1 } := by
  have hen : ∀ s : MState, s.enqueueAll [] = s := by intro s; simp [MState.enqueueAll]
  have hi := (List.getElem?_eq_some_iff.mp hl).1
  have hset : ∀ l : List UdpAt, (∀ j, j ≠ i → l[j]? = w.loops[j]?) → l.length = w.loops.length → l.set i .sleeping = w.loops := by
    intro l h1 h2
    apply List.ext_getElem?
    intro j
    by_cases hj : j = i
    · subst hj; rw [List.getElem?_set_self (by omega), hl]
    · rw [List.getElem?_set_ne (Ne.symm hj), h1 j hj]
  unfold udpRound at h
  simp only [hm, hen] at h
  have e1 : w.m.queue.length + 4 = (((w.m.queue.length + 1) + 1) + 1) + 1 := by omega
  rw [e1, List.replicate_succ, runActs_cons, act_udp hl]
  simp only [udpRun]
  rw [List.replicate_succ, runActs_cons, act_udp (pc := .receiving) (by simp only [List.getElem?_set_self hi])]
  simp only [udpRun]
  cases hrr : receiveRound env.m w.m.disp input with
  | mk r d =>
    cases r with
    | error x => simp only [hrr] at h; cases h
    | ok o =>
      simp only [hrr] at h ⊢
      rw [List.replicate_succ, runActs_cons, act_udp (pc := .acking) (by
        simp only; rw [List.getElem?_set_self (by rw [List.length_set]; exact hi)])]
      simp only [udpRun, List.set_set]
      simp only [MState.setDisp] at h ⊢
      cases ha : ackRound env.m d order with
      | mk r2 d2 =>
        cases r2 with
        | error x => simp only [ha] at h; cases h
        | ok u =>
          simp only [ha] at h ⊢
          have := drain_pass (env := env) hm i input order fuel
            { w with m := { w.m with disp := d2 }, reads := w.reads + 1, loops := w.loops.set i .draining } st' h
            (by simp only [List.getElem?_set_self hi])
          simp only [] at this
          rw [this]
          simp only [World.loopHead, hr, if_true, List.set_set]
          rw [hset w.loops (fun _ _ => rfl) rfl]

end Pyogp
