import Verif.Proofs.Progress
import Verif.Props.Coroutines

/-!
# Progress (C93)

What the coroutines of a manager get done if the scheduler runs them often enough, whatever else happens in between: in any finite
history, with bounds, and in an endless one.
-/

namespace Pyogp
open Spec

/-- **C93.** While `stop_monitors` is not called, a UDP loop that has had `4` turns, one more for every message that was waiting and one more for every
urgent message that came in meanwhile, has seen to it that everything that was waiting has been handed to `send_udp_message` – by it or by another
loop –, unless it was left by an exception.  Messages that are not urgent, other loops and the use of the dispatcher by the program do not delay it. -/
theorem C93_sent_in_time (env : CEnv) (w : World) (hr : w.running = true) (i : Nat) (hi : Running w i) (as : List Act) (hs : NoStop as)
    (ht : w.m.queue.length + urgentIn as + 4 ≤ turns i as) :
    Raised (runActs env w as) i ∨ (w.m.calls ++ w.m.queue).Subperm (runActs env w as).m.calls := by
  obtain ⟨pc, h1, h2⟩ := hi
  have := toDrain_le pc
  exact front_is_sent env i as w w.m.queue [] pc hr hs h1 h2 (by simp) (by omega)

/-- In the demonstration: the loop has just been started, two messages wait; an urgent and another message come in, a second loop is started and
runs too.  After seven turns the first loop has sent the two messages (and the urgent one). -/
def demoTurns : List Act :=
  [.udp 0 none [], .enqueue demoEntries[1], .udp 0 none [], .start, .udp 0 none [], .udp 1 none [], .enqueue demoEntries[0], .udp 0 none [], .udp 0 none [], .udp 1 none [],
   .udp 0 none [], .udp 0 none []]

example : let w := runActs demoCEnv demoWorld [.enqueue demoEntries[0], .enqueue demoEntries[2], .start]
    w.running = true ∧ w.loops = [.spawned] ∧ NoStop demoTurns ∧ w.m.queue.length + urgentIn demoTurns + 4 = turns 0 demoTurns ∧ demoEntries[1].now = true ∧
    (runActs demoCEnv w demoTurns).loops = [.draining, .receiving] ∧
    (runActs demoCEnv w demoTurns).m.calls = [demoEntries[1], demoEntries[0], demoEntries[2]] ∧ (runActs demoCEnv w demoTurns).m.queue = [demoEntries[0]] := by
  refine ⟨by decide +kernel, by decide +kernel, by simp [NoStop, demoTurns], by decide +kernel, by decide +kernel, by decide +kernel, by decide +kernel, by decide +kernel⟩

/-- **C93, the bound is reached.** A loop that has just been started needs all of these turns: with one turn less, the last message waiting is still there. -/
theorem C93_bound_is_reached : ∃ (env : CEnv) (w : World) (as : List Act), w.running = true ∧ Running w 0 ∧ NoStop as ∧
    w.m.queue.length + urgentIn as + 4 = turns 0 as + 1 ∧ ¬ Raised (runActs env w as) 0 ∧ ¬ (w.m.calls ++ w.m.queue).Subperm (runActs env w as).m.calls := by
  refine ⟨demoCEnv, runActs demoCEnv demoWorld [.enqueue demoEntries[0], .start], [.udp 0 none [], .udp 0 none [], .udp 0 none [], .udp 0 none []],
    by decide +kernel, ⟨.spawned, by decide +kernel, rfl⟩, by simp [NoStop], by decide +kernel, ?_, ?_⟩
  · rintro ⟨x, hx⟩
    have : (runActs demoCEnv (runActs demoCEnv demoWorld [.enqueue demoEntries[0], .start]) [.udp 0 none [], .udp 0 none [], .udp 0 none [], .udp 0 none []]).loops[0]? =
      some .draining := by decide +kernel
    rw [this] at hx
    cases Option.some.inj hx
  · intro h
    have h1 := h.length_le
    revert h1
    decide +kernel

/-- The first `n` actions of a schedule, and one more. -/
theorem first_succ (s : Schedule) (n : Nat) : s.first (n + 1) = s.first n ++ [s n] := by
  simp [Schedule.first, List.range_succ]

/-- The actions `n, …, n + k - 1` of a schedule. -/
theorem first_add (s : Schedule) (n k : Nat) : s.first (n + k) = s.first n ++ Schedule.first (fun j => s (n + j)) k := by
  induction k with
  | zero => simp [Schedule.first]
  | succ k ih => rw [← Nat.add_assoc, first_succ, ih, first_succ, List.append_assoc]

theorem mem_first {s : Schedule} {a : Act} {n : Nat} (h : a ∈ s.first n) : ∃ k, a = s k := by
  obtain ⟨k, _, rfl⟩ := List.mem_map.mp h
  exact ⟨k, rfl⟩

/-- A loop that is run again and again gets as many turns as one likes. -/
theorem turns_unbounded {s : Schedule} {i : Nat} (hf : ∀ n, ∃ m, n ≤ m ∧ ∃ input order, s m = .udp i input order) (n k : Nat) :
    ∃ m, k ≤ turns i (Schedule.first (fun j => s (n + j)) m) := by
  induction k with
  | zero => exact ⟨0, Nat.zero_le _⟩
  | succ k ih =>
    obtain ⟨m, hm⟩ := ih
    obtain ⟨m', h1, input, order, h2⟩ := hf (n + m)
    refine ⟨m + (m' - (n + m)) + 1, ?_⟩
    rw [first_succ, first_add]
    have h3 : n + (m + (m' - (n + m))) = m' := by omega
    rw [h3, h2]
    simp only [turns, List.countP_append] at hm ⊢
    simp only [List.countP_cons, List.countP_nil, BEq.rfl, if_true]
    omega

theorem pollTurns_unbounded {s : Schedule} {i : Nat} (hf : ∀ n, ∃ m, n ≤ m ∧ ∃ o, s m = .poller i o) (k : Nat) : ∃ m, k ≤ pollTurns i (s.first m) := by
  induction k with
  | zero => exact ⟨0, Nat.zero_le _⟩
  | succ k ih =>
    obtain ⟨m, hm⟩ := ih
    obtain ⟨m', h1, o, h2⟩ := hf m
    refine ⟨m + (m' - m) + 1, ?_⟩
    rw [first_succ, first_add]
    have h3 : m + (m' - m) = m' := by omega
    rw [h3, h2]
    simp only [pollTurns, List.countP_append] at hm ⊢
    simp only [List.countP_cons, List.countP_nil, BEq.rfl, if_true]
    omega

/-- **C93, every message is sent.** In an endless history without `stop_monitors` in which some UDP loop is run again and again and never raises, and in which urgent
messages are enqueued only finitely often, every message that is ever enqueued – urgent or not – is handed to `send_udp_message` some time. -/
theorem C93_every_message_is_sent (env : CEnv) (w : World) (hr : w.running = true) (i : Nat) (hi : Running w i) (s : Schedule) (hs : ∀ n, s n ≠ .stop)
    (hf : ∀ n, ∃ m, n ≤ m ∧ ∃ input order, s m = .udp i input order) (hx : ∀ n, ¬ Raised (runActs env w (s.first n)) i)
    (hu : ∃ N, ∀ n e, N ≤ n → s n = .enqueue e → e.now = false) (n : Nat) :
    ∃ m, ((runActs env w (s.first n)).m.calls ++ (runActs env w (s.first n)).m.queue).Subperm (runActs env w (s.first m)).m.calls := by
  obtain ⟨N, hu⟩ := hu
  have hns : ∀ m, NoStop (s.first m) := fun m hm => by
    obtain ⟨k, hk⟩ := mem_first hm
    exact hs k hk.symm
  -- once there are no more urgent messages
  have late : ∀ n, N ≤ n → ∃ m, ((runActs env w (s.first n)).m.calls ++ (runActs env w (s.first n)).m.queue).Subperm (runActs env w (s.first m)).m.calls := by
    intro n hn
    have hrun : ∀ as w, w.running = true → NoStop as → (runActs env w as).running = true := by
      intro as
      induction as with
      | nil => intro w h _; exact h
      | cons a as ih =>
        intro w h hs
        have hs' : ¬ .stop = a ∧ NoStop as := by simpa [NoStop] using hs
        exact ih _ (act_running h (Ne.symm hs'.1)) hs'.2
    obtain ⟨pc0, g1, g2⟩ := hi
    have hne : pc0 ≠ .returned := by rintro rfl; simp [Alive] at g2
    obtain ⟨pc, h1, h2⟩ := runActs_not_returned env (s.first n) w hr (hns n) i pc0 g1 hne
    have h3 : Alive pc = true := by
      cases pc <;> first | rfl | exact absurd rfl h2 | exact absurd ⟨_, h1⟩ (hx n)
    obtain ⟨k, hk⟩ := turns_unbounded hf n ((runActs env w (s.first n)).m.queue.length + 4)
    have hurg : urgentIn (Schedule.first (fun j => s (n + j)) k) = 0 := by
      unfold urgentIn
      rw [List.countP_eq_zero]
      intro e he
      obtain ⟨a, ha1, ha2⟩ := List.mem_filterMap.mp he
      obtain ⟨j, hj⟩ := mem_first ha1
      subst hj
      split at ha2
      · rename_i e' hh
        rw [Option.some.inj ha2] at hh
        rw [hu (n + j) e (by omega) hh]; simp
      · cases ha2
    refine ⟨n + k, ?_⟩
    have hns' : NoStop (Schedule.first (fun j => s (n + j)) k) := fun hm => by
      obtain ⟨j, hj⟩ := mem_first hm
      exact hs _ hj.symm
    have := C93_sent_in_time env (runActs env w (s.first n)) (hrun _ _ hr (hns n)) i ⟨pc, h1, h3⟩ _ hns' (by omega)
    rw [first_add, runActs_append]
    refine this.resolve_left ?_
    rw [← runActs_append, ← first_add]
    exact hx _
  rcases Nat.le_total N n with h | h
  · exact late n h
  · obtain ⟨m, hm⟩ := late N (Nat.le_refl N)
    refine ⟨m, List.Subperm.trans ?_ hm⟩
    have hgrow : ∀ k, ((runActs env w (s.first n)).m.calls ++ (runActs env w (s.first n)).m.queue).Subperm
        ((runActs env w (s.first (n + k))).m.calls ++ (runActs env w (s.first (n + k))).m.queue) := by
      intro k
      induction k with
      | zero => exact List.Subperm.refl _
      | succ k ih =>
        refine ih.trans ?_
        rw [← Nat.add_assoc, first_succ, runActs_snoc]
        generalize runActs env w (s.first (n + k)) = v
        exact act_kept env v (s (n + k))
    have hN : n + (N - n) = N := by omega
    have := hgrow (N - n)
    rwa [hN] at this

/-- A schedule that meets these hypotheses: a message is enqueued, then the loop is run for ever. -/
def demoSchedule : Schedule := fun n => if n = 0 then .enqueue demoEntries[0] else .udp 0 none []
def demoStarted : World := runActs demoCEnv demoWorld [.start]

/-- Nothing left to do. -/
structure Idle (w : World) : Prop where
  running : w.running = true
  queue : w.m.queue = []
  acks : hasUnacked w.m.disp = false
  loop : ∃ pc, w.loops = [pc] ∧ Alive pc = true

theorem Idle.next {w : World} (h : Idle w) : Idle (act demoCEnv w (.udp 0 none [])) := by
  obtain ⟨hr, hq, ha, pc, hl, hp⟩ := h
  have hh : w.loopHead = .sleeping := by simp [World.loopHead, hr]
  simp only [act, hl, List.getElem?_cons_zero, List.set_cons_zero]
  cases pc <;> simp only [udpRun, hh, hq, receiveRound, receiveCheck, ackRound, ha, List.length_nil, Nat.lt_irrefl, if_false, Bool.false_eq_true]
  case returned => simp [Alive] at hp
  case raised => simp [Alive] at hp
  all_goals exact ⟨hr, hq, ha, _, rfl, rfl⟩

/-- In this schedule the loop never raises; it sends the message and stays in its rounds. -/
theorem demoSchedule_fine : demoStarted.running = true ∧ Running demoStarted 0 ∧ (∀ n, demoSchedule n ≠ .stop) ∧
    (∀ n, ∃ m, n ≤ m ∧ ∃ input order, demoSchedule m = .udp 0 input order) ∧ (∀ n, ¬ Raised (runActs demoCEnv demoStarted (demoSchedule.first n)) 0) ∧
    (∀ n e, 0 ≤ n → demoSchedule n = .enqueue e → e.now = false) ∧ (runActs demoCEnv demoStarted (demoSchedule.first 6)).m.calls = [demoEntries[0]] := by
  refine ⟨by decide +kernel, ⟨.spawned, by decide +kernel, rfl⟩, ?_, ?_, ?_, ?_, by decide +kernel⟩
  · intro n
    unfold demoSchedule
    split <;> simp
  · intro n
    refine ⟨n + 1, by omega, none, [], ?_⟩
    simp [demoSchedule]
  · have later : ∀ k, Idle (runActs demoCEnv demoStarted (demoSchedule.first (6 + k))) := by
      intro k
      induction k with
      | zero => exact ⟨by decide +kernel, by decide +kernel, by decide +kernel, .draining, by decide +kernel, rfl⟩
      | succ k ih =>
        rw [← Nat.add_assoc, first_succ, runActs_snoc]
        have : demoSchedule (6 + k) = .udp 0 none [] := by simp [demoSchedule]
        rw [this]
        exact ih.next
    have early : ∀ n, n < 6 → ((runActs demoCEnv demoStarted (demoSchedule.first n)).loops[0]?.map Alive) = some true := by decide +kernel
    rintro n ⟨x, hx⟩
    by_cases h : n < 6
    · have := early n h
      rw [hx] at this
      simp [Alive] at this
    · obtain ⟨pc, h1, h2⟩ := (later (n - 6)).loop
      have h6 : 6 + (n - 6) = n := by omega
      rw [h6] at h1
      rw [h1] at hx
      obtain rfl := Option.some.inj hx
      simp [Alive] at h2
  · intro n e _ h
    unfold demoSchedule at h
    split at h
    · injection h with h
      subst h
      decide +kernel
    · cases h

/-- **C93, urgent messages come first.** A message that is not urgent waits as long as urgent ones keep coming: if there is one more before every turn of the loop, then after any
number of turns nothing of what was waiting has been sent. -/
theorem C93_urgent_ones_delay (env : CEnv) (w : World) (i : Nat) (hi : w.loops[i]? = some .draining) (us : List QEntry) (hu : ∀ u ∈ us, u.now = true) :
    let w' := runActs env w (us.flatMap (fun u => [.enqueue u, .udp i none []]))
    w.m.queue <:+ w'.m.queue ∧ ∃ k, w'.m.calls = w.m.calls ++ us.take k := by
  have key : ∀ (us : List QEntry) (w : World), (w.loops[i]? = some .draining ∨ Raised w i) → (∀ u ∈ us, u.now = true) →
      w.m.queue <:+ (runActs env w (us.flatMap (fun u => [.enqueue u, .udp i none []]))).m.queue ∧
      ∃ k, (runActs env w (us.flatMap (fun u => [.enqueue u, .udp i none []]))).m.calls = w.m.calls ++ us.take k ∧
        (Raised w i → (runActs env w (us.flatMap (fun u => [.enqueue u, .udp i none []]))).m.calls = w.m.calls) := by
    intro us
    induction us with
    | nil => intro w _ _; exact ⟨List.suffix_refl _, 0, by simp [runActs], fun _ => rfl⟩
    | cons u us ih =>
      intro w hw hu
      have hun := hu u (by simp)
      have hus := fun v hv => hu v (List.mem_cons_of_mem u hv)
      have hsplit : runActs env w ((u :: us).flatMap (fun u => [.enqueue u, .udp i none []])) =
          runActs env (act env (act env w (.enqueue u)) (.udp i none [])) (us.flatMap (fun u => [.enqueue u, .udp i none []])) := rfl
      rw [hsplit]
      have hq : (act env w (.enqueue u)).m.queue = u :: w.m.queue := by simp [act, MState.enqueueAll, enqueue, hun]
      have hc : (act env w (.enqueue u)).m.calls = w.m.calls := rfl
      have hl : (act env w (.enqueue u)).loops = w.loops := rfl
      generalize act env w (.enqueue u) = v at hq hc hl
      rcases hw with hd | hr
      · have hv : v.loops[i]? = some .draining := by rw [hl]; exact hd
        have hact : (act env v (.udp i none [])).m = (udpRun env v none [] .draining).2.m := by simp only [act, hv]
        rcases udpRun_queue env v none [] .draining with ⟨_, _, h⟩ | ⟨e, q, _, g1, g2, g3⟩
        · rcases h with h | h
          · exact absurd rfl h
          · rw [hq] at h; cases h
        · rw [hq] at g1
          obtain ⟨rfl, rfl⟩ := List.cons.inj g1
          have hnext : (act env v (.udp i none [])).loops[i]? = some .draining ∨ Raised (act env v (.udp i none [])) i := by
            unfold Raised
            rw [act_udp_self hv]
            simp only [udpRun, hq]
            split
            · exact .inr ⟨_, rfl⟩
            · exact .inl rfl
          obtain ⟨h1, k, h2, h3⟩ := ih _ hnext hus
          rw [hact, g2] at h1
          rw [hact, g3, hc] at h2
          refine ⟨h1, k + 1, ?_, ?_⟩
          · rw [h2, List.take_succ_cons, List.append_assoc, List.singleton_append]
          · rintro ⟨x, hx⟩
            rw [hd] at hx
            cases Option.some.inj hx
      · obtain ⟨x, hx⟩ := hr
        have hv : v.loops[i]? = some (.raised x) := by rw [hl]; exact hx
        have hact : act env v (.udp i none []) = v := by
          simp only [act, hv, udpRun]
          obtain ⟨hlt, hget⟩ := List.getElem?_eq_some_iff.mp hv
          rw [← hget, List.set_getElem_self]
        rw [hact]
        obtain ⟨h1, k, h2, h3⟩ := ih v (.inr ⟨x, hv⟩) hus
        rw [hq] at h1
        refine ⟨List.IsSuffix.trans (List.suffix_cons u _) h1, 0, ?_, fun _ => ?_⟩
        · rw [h3 ⟨x, hv⟩, hc]; simp
        · rw [h3 ⟨x, hv⟩, hc]
  obtain ⟨h1, k, h2, _⟩ := key us w (.inl hi) hu
  exact ⟨h1, k, h2⟩

/-- In the demonstration: a message waits while five urgent ones overtake it. -/
example : let w := runActs demoCEnv demoWorld [.enqueue demoEntries[0], .start, .udp 0 none [], .udp 0 none [], .udp 0 none [], .udp 0 none []]
    let w' := runActs demoCEnv w ((List.replicate 5 demoEntries[1]).flatMap (fun u => [.enqueue u, .udp 0 none []]))
    w.loops[0]? = some .draining ∧ demoEntries[1].now = true ∧ w'.m.calls = List.replicate 5 demoEntries[1] ∧ w'.m.queue = [demoEntries[0]] := by
  decide +kernel

/-- **C93, it goes on reading.** While `stop_monitors` is not called, a UDP loop that was run `4 k + 3` times, plus once for every message that was waiting and every message that
came in, has read from the socket at least `k` times, unless it was left by an exception. -/
theorem C93_keeps_reading (env : CEnv) (w : World) (hr : w.running = true) (i : Nat) (hi : Running w i) (as : List Act) (hs : NoStop as) (k : Nat)
    (ht : 4 * k + 3 + w.m.queue.length + (enqueuedIn as).length ≤ turns i as) :
    Raised (runActs env w as) i ∨ k ≤ readsBy env i w as := by
  obtain ⟨pc, h1, h2⟩ := hi
  rcases reads_again env i as w pc hr hs h1 h2 with h | h
  · exact .inl h
  · right; omega

/-- In the demonstration of the bound above: eight turns more, and the loop has read two more times. -/
example : let w := runActs demoCEnv demoWorld [.enqueue demoEntries[0], .enqueue demoEntries[2], .start]
    let as := demoTurns ++ List.replicate 8 (.udp 0 none [])
    4 * 2 + 3 + w.m.queue.length + (enqueuedIn as).length = turns 0 as ∧ (runActs demoCEnv w as).loops = [.acking, .receiving] ∧ readsBy demoCEnv 0 w as = 3 := by
  decide +kernel

/-- **C93, the event queue.** As long as it is not stopped, a coroutine of the event queue that has been started and is run `2 k + 1` times polls at least `k` times, whatever the
responses are and whatever the message handler does with them; it never ends. -/
theorem C93_keeps_polling (env : CEnv) (w : World) (c : EqClient) (hc : w.eq = some c) (hst : c.stopped = false) (i : Nat) (pc : EqAt) (hpc : w.pollers[i]? = some pc)
    (hp : pc = .spawned ∨ pc = .sleeping ∨ pc = .posting) (as : List Act) (hs : NoStopQueue as) (k : Nat) (ht : 2 * k + 1 ≤ pollTurns i as) :
    k ≤ pollsBy env i w as := by
  have := polls_again env i as w c pc hs hc hst hpc (by rcases hp with rfl | rfl | rfl <;> rfl)
  split at this <;> omega

/-- In the demonstration: five turns, two polls, one of which fails. -/
def demoPollTurns : List Act :=
  [.poller 0 (.response .undef), .udp 0 none [], .poller 0 (.response .undef), .poller 0 (.failure (.httpError 502)), .enqueue demoEntries[0], .poller 0 (.response .undef),
   .poller 0 (.response (demoResponse 5))]

example : let w := runActs demoCEnv demoWorld [.start]
    w.eq.map (·.stopped) = some false ∧ w.pollers = [.spawned] ∧ NoStopQueue demoPollTurns ∧ pollTurns 0 demoPollTurns = 2 * 2 + 1 ∧ pollsBy demoCEnv 0 w demoPollTurns = 2 := by
  refine ⟨by decide +kernel, by decide +kernel, by simp [NoStopQueue, demoPollTurns], by decide +kernel, by decide +kernel⟩

/-- **C93, endlessly.** In an endless history without `stop_monitors` in which a UDP loop is run again and again and never raises, and messages are enqueued finitely often, the
loop reads from the socket any number of times; and an event queue that is run again and again without being stopped polls any number of times. -/
theorem C93_endless (env : CEnv) (w : World) (s : Schedule) (i : Nat) :
    (w.running = true → Running w i → (∀ n, s n ≠ .stop) → (∀ n, ∃ m, n ≤ m ∧ ∃ input order, s m = .udp i input order) →
      (∀ n, ¬ Raised (runActs env w (s.first n)) i) → (∃ N, ∀ n, (enqueuedIn (s.first n)).length ≤ N) → ∀ k, ∃ n, k ≤ readsBy env i w (s.first n)) ∧
    (∀ c, w.eq = some c → c.stopped = false → ∀ pc, w.pollers[i]? = some pc → (pc = .spawned ∨ pc = .sleeping ∨ pc = .posting) →
      (∀ n, s n ≠ .stop ∧ s n ≠ .stopQueue) → (∀ n, ∃ m, n ≤ m ∧ ∃ o, s m = .poller i o) → ∀ k, ∃ n, k ≤ pollsBy env i w (s.first n)) := by
  constructor
  · rintro hr hi hs hf hx ⟨N, hN⟩ k
    obtain ⟨m, hm⟩ := turns_unbounded hf 0 (4 * k + 3 + w.m.queue.length + N)
    have h0 : Schedule.first (fun j => s (0 + j)) m = s.first m := by simp [Schedule.first]
    rw [h0] at hm
    have hns : NoStop (s.first m) := fun hm => by
      obtain ⟨k, hk⟩ := mem_first hm
      exact hs k hk.symm
    exact ⟨m, (C93_keeps_reading env w hr i hi _ hns k (by have := hN m; omega)).resolve_left (hx m)⟩
  · intro c hc hst pc hpc hp hs hf k
    obtain ⟨m, hm⟩ := pollTurns_unbounded hf (2 * k + 1)
    refine ⟨m, C93_keeps_polling env w c hc hst i pc hpc hp _ ⟨fun h => ?_, fun h => ?_⟩ k hm⟩
    · obtain ⟨k, hk⟩ := mem_first h
      exact (hs k).1 hk.symm
    · obtain ⟨k, hk⟩ := mem_first h
      exact (hs k).2 hk.symm

/-- The schedule above meets the hypotheses of the first part, too. -/
example : ∀ n, (enqueuedIn (demoSchedule.first n)).length ≤ 1 := by
  intro n
  induction n with
  | zero => simp [Schedule.first, enqueuedIn]
  | succ n ih =>
    rw [first_succ]
    by_cases h : n = 0
    · subst h; decide +kernel
    · have : demoSchedule n = .udp 0 none [] := by simp [demoSchedule, h]
      rw [this]
      simpa [enqueuedIn] using ih

end Pyogp
