import Verif.Spec.Wait
import Mathlib.Tactic.Linarith
import Mathlib.Data.Rat.Floor

/-! # Waiting (C77) -/

namespace Pyogp
open Spec

theorem quiet_nil : Quiet [] := by
  intro p hp
  cases hp

theorem lastReading_append (start : ℚ) (a b : List WaitPass) : lastReading start (a ++ b) = lastReading (lastReading start a) b := by
  induction a generalizing start with
  | nil => rfl
  | cons p ps ih =>
    simp only [List.cons_append, lastReading]
    cases p.sleep <;> simp only [ih]

theorem waitLoop_iff (start : ℚ) (d : Int) (ps : List WaitPass) : ∀ (before : List WaitPass) (now : ℚ) (en : Bool) (r : Py Bool) (rest : List WaitPass),
    now = lastReading start before → (en = true ↔ ¬ StoppedIn before) →
    (waitLoop start d now en ps = some (r, rest) ↔
      ∃ pre, ps = pre ++ rest ∧
        ((r = .ok true ∧ Quiet pre ∧ Over start d (before ++ pre) ∧ ∀ a b, pre = a ++ b → b ≠ [] → ¬ Over start d (before ++ a)) ∨
         (∃ a p e, r = .error e ∧ pre = a ++ [p] ∧ p.sleep = .exc e ∧ Quiet a ∧ ∀ c, c <+: a → ¬ Over start d (before ++ c)))) := by
  induction ps with
  | nil =>
    intro before now en r rest hnow hen
    have hover : (en = true ∧ now - start < d) ↔ ¬ Over start d before := by
      unfold Over
      rw [hen, hnow, not_or, not_le, and_comm]
      constructor
      · rintro ⟨h1, h2⟩; exact ⟨by linarith, h2⟩
      · rintro ⟨h1, h2⟩; exact ⟨by linarith, h2⟩
    unfold waitLoop
    by_cases hc : en = true ∧ now - start < d
    · rw [if_pos hc]
      constructor
      · intro h; cases h
      · rintro ⟨pre, hp, h⟩
        have hpre : pre = [] := (List.append_eq_nil_iff.mp hp.symm).1
        subst hpre
        rcases h with ⟨-, -, h, -⟩ | ⟨a, p, e, -, h, -⟩
        · rw [List.append_nil] at h; exact absurd h (hover.mp hc)
        · exact absurd h.symm (by simp)
    · rw [if_neg hc]
      have hov : Over start d before := by by_contra h; exact hc (hover.mpr h)
      constructor
      · intro h
        cases h
        exact ⟨[], rfl, .inl ⟨rfl, quiet_nil, by simpa using hov, by intro a b h hb; exact absurd (List.append_eq_nil_iff.mp h.symm).2 hb⟩⟩
      · rintro ⟨pre, hp, h⟩
        obtain ⟨hpre, hrest⟩ := List.append_eq_nil_iff.mp hp.symm
        subst hpre; subst hrest
        rcases h with ⟨h, -⟩ | ⟨a, p, e, -, h, -⟩
        · rw [h]
        · exact absurd h.symm (by simp)
  | cons p ps ih =>
    intro before now en r rest hnow hen
    have hover : (en = true ∧ now - start < d) ↔ ¬ Over start d before := by
      unfold Over
      rw [hen, hnow, not_or, not_le, and_comm]
      constructor
      · rintro ⟨h1, h2⟩; exact ⟨by linarith, h2⟩
      · rintro ⟨h1, h2⟩; exact ⟨by linarith, h2⟩
    unfold waitLoop
    by_cases hc : en = true ∧ now - start < d
    · rw [if_pos hc]
      have hno := hover.mp hc
      have hen' : (en && !p.stopped) = true ↔ ¬ StoppedIn (before ++ [p]) := by
        rw [Bool.and_eq_true, hen]
        constructor
        · rintro ⟨h1, h2⟩ ⟨q, hq, hs⟩
          rcases List.mem_append.mp hq with hq | hq
          · exact h1 ⟨q, hq, hs⟩
          · rw [List.mem_singleton] at hq; subst hq; rw [hs] at h2; cases h2
        · intro h
          refine ⟨fun ⟨q, hq, hs⟩ => h ⟨q, List.mem_append_left _ hq, hs⟩, ?_⟩
          cases hp : p.stopped with
          | false => rfl
          | true => exact absurd ⟨p, by simp, hp⟩ h
      have step : ∀ now', now' = lastReading start (before ++ [p]) → (∀ e, p.sleep ≠ .exc e) →
          (waitLoop start d now' (en && !p.stopped) ps = some (r, rest) ↔
          ∃ pre, p :: ps = pre ++ rest ∧
            ((r = .ok true ∧ Quiet pre ∧ Over start d (before ++ pre) ∧ ∀ a b, pre = a ++ b → b ≠ [] → ¬ Over start d (before ++ a)) ∨
             (∃ a q e, r = .error e ∧ pre = a ++ [q] ∧ q.sleep = .exc e ∧ Quiet a ∧ ∀ c, c <+: a → ¬ Over start d (before ++ c)))) := by
        intro now' hnow' hq
        rw [ih (before ++ [p]) now' _ r rest hnow' hen']
        constructor
        · rintro ⟨pre, hps, h⟩
          refine ⟨p :: pre, by rw [hps]; rfl, ?_⟩
          rcases h with ⟨h1, h2, h3, h4⟩ | ⟨a, q, e, h1, h2, h3, h4, h5⟩
          · refine .inl ⟨h1, ?_, ?_, ?_⟩
            · intro q hq'
              rcases List.mem_cons.mp hq' with rfl | hq'
              · exact hq
              · exact h2 q hq'
            · rwa [List.append_assoc] at h3
            · intro a b hab hb
              cases a with
              | nil => rwa [List.append_nil]
              | cons x a =>
                rw [List.cons_append, List.cons.injEq] at hab
                have := h4 a b hab.2 hb
                rwa [List.append_assoc, hab.1] at this
          · refine .inr ⟨p :: a, q, e, h1, by rw [h2]; rfl, h3, ?_, ?_⟩
            · intro q' hq'
              rcases List.mem_cons.mp hq' with rfl | hq'
              · exact hq
              · exact h4 q' hq'
            · intro c hcp
              cases c with
              | nil => rwa [List.append_nil]
              | cons x c =>
                obtain ⟨hxp, hca⟩ := List.cons_prefix_cons.mp hcp
                have := h5 c hca
                rwa [List.append_assoc, ← hxp] at this
        · rintro ⟨pre, hps, h⟩
          cases pre with
          | nil =>
            rcases h with ⟨-, -, h3, -⟩ | ⟨a, q, e, -, h2, -⟩
            · rw [List.append_nil] at h3; exact absurd h3 hno
            · exact absurd h2.symm (by simp)
          | cons x pre =>
            rw [List.cons_append, List.cons.injEq] at hps
            obtain ⟨rfl, hps⟩ := hps
            refine ⟨pre, hps, ?_⟩
            rcases h with ⟨h1, h2, h3, h4⟩ | ⟨a, q, e, h1, h2, h3, h4, h5⟩
            · refine .inl ⟨h1, fun q hq' => h2 q (List.mem_cons_of_mem _ hq'), by rw [List.append_assoc]; exact h3, ?_⟩
              intro a b hab hb
              rw [List.append_assoc]
              exact h4 (p :: a) b (by rw [hab]; rfl) hb
            · cases a with
              | nil =>
                rw [List.nil_append, List.cons.injEq] at h2
                rw [← h2.1] at h3
                exact absurd h3 (hq e)
              | cons y a =>
                rw [List.cons_append, List.cons.injEq] at h2
                obtain ⟨rfl, h2⟩ := h2
                refine .inr ⟨a, q, e, h1, h2, h3, fun q' hq' => h4 q' (List.mem_cons_of_mem _ hq'), ?_⟩
                intro c hca
                rw [List.append_assoc]
                exact h5 (p :: c) (List.cons_prefix_cons.mpr ⟨rfl, hca⟩)
      cases hs : p.sleep with
      | ok t =>
        refine step t ?_ (by rw [hs]; intro e h; cases h)
        rw [lastReading_append]; simp [lastReading, hs]
      | assertion =>
        refine step now ?_ (by rw [hs]; intro e h; cases h)
        rw [lastReading_append, ← hnow]; simp [lastReading, hs]
      | exc e =>
        constructor
        · intro h
          cases h
          refine ⟨[p], rfl, .inr ⟨[], p, e, rfl, rfl, hs, quiet_nil, ?_⟩⟩
          intro c hcp
          rw [List.prefix_nil.mp hcp, List.append_nil]
          exact hno
        · rintro ⟨pre, hps, h⟩
          cases pre with
          | nil =>
            rcases h with ⟨-, -, h3, -⟩ | ⟨a, q, e, -, h2, -⟩
            · rw [List.append_nil] at h3; exact absurd h3 hno
            · exact absurd h2.symm (by simp)
          | cons x pre =>
            rw [List.cons_append, List.cons.injEq] at hps
            obtain ⟨rfl, hps⟩ := hps
            rcases h with ⟨h1, h2, -⟩ | ⟨a, q, e', h1, h2, h3, h4, h5⟩
            · exact absurd hs (h2 p List.mem_cons_self e)
            · cases a with
              | nil =>
                rw [List.nil_append, List.cons.injEq] at h2
                obtain ⟨rfl, rfl⟩ := h2
                rw [hs] at h3
                cases h3
                rw [h1, hps]; rfl
              | cons y a =>
                rw [List.cons_append, List.cons.injEq] at h2
                obtain ⟨rfl, h2⟩ := h2
                exact absurd hs (h4 p List.mem_cons_self e)
    · rw [if_neg hc]
      have hov : Over start d before := by by_contra h; exact hc (hover.mpr h)
      constructor
      · intro h
        cases h
        exact ⟨[], rfl, .inl ⟨rfl, quiet_nil, by simpa using hov, by intro a b h hb; exact absurd (List.append_eq_nil_iff.mp h.symm).2 hb⟩⟩
      · rintro ⟨pre, hps, h⟩
        cases pre with
        | nil =>
          rcases h with ⟨h, -⟩ | ⟨a, q, e, -, h, -⟩
          · rw [h, hps]; rfl
          · exact absurd h.symm (by simp)
        | cons x pre =>
          rcases h with ⟨h1, h2, h3, h4⟩ | ⟨a, q, e, h1, h2, h3, h4, h5⟩
          · exact absurd (by rwa [List.append_nil]) (h4 [] (x :: pre) rfl (by simp))
          · exact absurd (by rwa [List.append_nil]) (h5 [] List.nil_prefix)

/-- **C77.** `Wait(duration)` returns (True) after exactly those passes with which the wait of `int(duration)` seconds first is over: the clock shows it, or
`stop` was called.  An `AssertionError` in the sleep never ends it, any other exception ends it at once, provided the wait was not over before. -/
theorem C77_wait (duration start : ℚ) (ps : List WaitPass) (r : Py Bool) (rest : List WaitPass) :
    waitNew duration start ps = some (r, rest) ↔
      ∃ pre, ps = pre ++ rest ∧
        ((r = .ok true ∧ Quiet pre ∧ Over start (pyTrunc duration) pre ∧ ∀ a b, pre = a ++ b → b ≠ [] → ¬ Over start (pyTrunc duration) a) ∨
         (∃ a p e, r = .error e ∧ pre = a ++ [p] ∧ p.sleep = .exc e ∧ Quiet a ∧ ∀ c, c <+: a → ¬ Over start (pyTrunc duration) c)) := by
  have := waitLoop_iff start (pyTrunc duration) ps [] start true r rest rfl (by simp [StoppedIn])
  simpa [waitNew] using this

theorem pyTrunc_nonneg (q : ℚ) (h : 0 ≤ q) : pyTrunc q = ⌊q⌋ := by
  rw [Rat.floor_def', pyTrunc, Int.tdiv_eq_ediv_of_nonneg (Rat.num_nonneg.mpr h)]

theorem pyTrunc_neg (q : ℚ) (h : q ≤ 0) : pyTrunc q ≤ 0 := by
  unfold pyTrunc
  have h1 : q.num ≤ 0 := Rat.num_nonpos.mpr h
  have h2 : 0 ≤ (-q.num).tdiv q.den := Int.tdiv_nonneg (by omega) (Int.natCast_nonneg _)
  rw [Int.neg_tdiv] at h2
  omega

/-- **C77, how long.** A wait that is not stopped returns only when the clock is within less than one second of the requested duration, or later; the
fraction of a second is dropped. -/
theorem C77_at_least (duration start : ℚ) (ps rest : List WaitPass) (hd : 0 ≤ duration) (h : waitNew duration start ps = some (.ok true, rest))
    (hs : ∀ p ∈ ps, p.stopped = false) :
    ∃ pre, ps = pre ++ rest ∧ start + duration - 1 < lastReading start pre := by
  obtain ⟨pre, hp, ⟨-, -, ho, -⟩ | ⟨a, p, e, h', -⟩⟩ := (C77_wait duration start ps _ rest).mp h
  · refine ⟨pre, hp, ?_⟩
    rcases ho with ho | ⟨p, hpm, hst⟩
    · rw [pyTrunc_nonneg _ hd] at ho
      have := Int.lt_floor_add_one duration
      linarith
    · rw [hs p (by rw [hp]; exact List.mem_append_left _ hpm)] at hst; cases hst
  · cases h'

/-- **C77, less than a second.** A duration below 1 does not sleep at all. -/
theorem C77_below_one (duration start : ℚ) (ps : List WaitPass) (h : duration < 1) : waitNew duration start ps = some (.ok true, ps) := by
  have h0 : pyTrunc duration ≤ 0 := by
    rcases lt_or_ge duration 0 with hn | hn
    · exact pyTrunc_neg _ hn.le
    · rw [pyTrunc_nonneg _ hn]
      have : ⌊duration⌋ < 1 := by rw [Int.floor_lt]; exact_mod_cast h
      omega
  rw [C77_wait]
  refine ⟨[], rfl, .inl ⟨rfl, quiet_nil, .inl ?_, ?_⟩⟩
  · have : ((pyTrunc duration : Int) : ℚ) ≤ 0 := by exact_mod_cast h0
    simp only [lastReading]
    linarith
  · intro a b hab hb
    exact absurd (List.append_eq_nil_iff.mp hab.symm).2 hb

/-- **C77, no progress.** If every sleep raises `AssertionError`, a wait of a second or more does not return, however many passes there are. -/
theorem C77_assertions_forever (duration start : ℚ) (h : 1 ≤ duration) (n : Nat) :
    waitNew duration start (List.replicate n ⟨.assertion, false⟩) = none := by
  cases hw : waitNew duration start (List.replicate n ⟨.assertion, false⟩) with
  | none => rfl
  | some x =>
    obtain ⟨r, rest⟩ := x
    have hread : ∀ k, lastReading start (List.replicate k ⟨.assertion, false⟩) = start := by
      intro k
      induction k with
      | zero => rfl
      | succ k ih => rw [List.replicate_succ]; exact ih
    obtain ⟨pre, hp, hh⟩ := (C77_wait duration start _ r rest).mp hw
    have hpre : ∀ q ∈ pre, q = ⟨.assertion, false⟩ := fun q hq => List.eq_of_mem_replicate (hp ▸ List.mem_append_left _ hq)
    rcases hh with ⟨-, -, ho, -⟩ | ⟨a, p, e, -, h2, h3, -⟩
    · rcases ho with ho | ⟨q, hq, hst⟩
      · rw [List.eq_replicate_of_mem hpre, hread, pyTrunc_nonneg _ (by linarith)] at ho
        have h1 : (1 : Int) ≤ ⌊duration⌋ := by rw [Int.le_floor]; exact_mod_cast h
        have : (1 : ℚ) ≤ (⌊duration⌋ : Int) := by exact_mod_cast h1
        linarith
      · rw [hpre q hq] at hst; cases hst
    · rw [hpre p (by rw [h2]; simp)] at h3; cases h3

/-- Two and a half seconds asked for: over after the reading 102.25, 2.25 seconds after the start. -/
example : waitNew (5 / 2) 100 [⟨.ok (101), false⟩, ⟨.assertion, false⟩, ⟨.ok (409 / 4), false⟩, ⟨.ok 103, false⟩] = some (.ok true, [⟨.ok 103, false⟩]) := by
  decide +kernel

end Pyogp
