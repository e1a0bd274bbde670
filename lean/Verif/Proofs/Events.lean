import Verif.Spec.Events

namespace Pyogp
open Spec
variable {α : Type}

/-- Properties kept by whatever handlers called at level at most `L` do. -/
structure EvClosed (L : Nat) (okSub okUnsub : String → Prop) (P : EvState α → Prop) : Prop where
  sub : ∀ st ev s, okSub ev → P st → P (st.setSubs ev (eventSubscribe (st.subs ev) s))
  unsub : ∀ st ev s, okUnsub ev → P st → P (st.setSubs ev (eventUnsubscribe (st.subs ev) s).2)
  reg : ∀ st ev, P st → P (register st ev)
  call : ∀ (st : EvState α) c, c.level ≤ L → P st → P (st.log c)

def Within (okSub okUnsub : String → Prop) : EvProg α → Prop
  | .done => True
  | .raise _ => True
  | .subscribe ev _ k => okSub ev ∧ Within okSub okUnsub k
  | .unsubscribe ev _ k => okUnsub ev ∧ ∀ r, Within okSub okUnsub (k r)
  | .register _ k => Within okSub okUnsub k
  | .fire _ _ k => ∀ r, Within okSub okUnsub (k r)

theorem within_of_noUnsub {ev : String} : ∀ {p : EvProg α}, NoUnsub ev p → Within (fun _ => True) (fun e => e ≠ ev) p
  | .done, _ => trivial
  | .raise _, _ => trivial
  | .subscribe _ _ k, h => ⟨trivial, within_of_noUnsub (p := k) h⟩
  | .unsubscribe _ _ k, h => ⟨h.1, fun r => within_of_noUnsub (p := k r) (h.2 r)⟩
  | .register _ k, h => within_of_noUnsub (p := k) h
  | .fire _ _ k, h => fun r => within_of_noUnsub (p := k r) (h r)

theorem within_any : ∀ p : EvProg α, Within (fun _ => True) (fun _ => True) p
  | .done => trivial
  | .raise _ => trivial
  | .subscribe _ _ k => ⟨trivial, within_any k⟩
  | .unsubscribe _ _ k => ⟨trivial, fun r => within_any (k r)⟩
  | .register _ k => within_any k
  | .fire _ _ k => fun r => within_any (k r)

theorem within_of_both {ev : String} : ∀ {p : EvProg α}, NoUnsub ev p → NoSub ev p → Within (fun e => e ≠ ev) (fun e => e ≠ ev) p
  | .done, _, _ => trivial
  | .raise _, _, _ => trivial
  | .subscribe _ _ k, h, h' => ⟨h'.1, within_of_both (p := k) h h'.2⟩
  | .unsubscribe _ _ k, h, h' => ⟨h.1, fun r => within_of_both (p := k r) (h.2 r) (h' r)⟩
  | .register _ k, h, h' => within_of_both (p := k) h h'
  | .fire _ _ k, h, h' => fun r => within_of_both (p := k r) (h r) (h' r)

theorem within_of_noSub : ∀ {p : EvProg α}, (∀ ev, NoSub ev p) → Within (fun _ => False) (fun _ => True) p
  | .done, _ => trivial
  | .raise _, _ => trivial
  | .subscribe ev _ _, h => absurd rfl (h ev).1
  | .unsubscribe _ _ k, h => ⟨trivial, fun r => within_of_noSub (p := k r) (fun ev => h ev r)⟩
  | .register _ k, h => within_of_noSub (p := k) h
  | .fire _ _ k, h => fun r => within_of_noSub (p := k r) (fun ev => h ev r)

theorem EvProg.run_preserves {L : Nat} {okSub okUnsub : String → Prop} {P : EvState α → Prop} (hc : EvClosed L okSub okUnsub P)
    {fire : String → α → EvState α → Option (Py Unit) × EvState α} (hf : ∀ ev x st, P st → P (fire ev x st).2) :
    ∀ (p : EvProg α) (st : EvState α), Within okSub okUnsub p → P st → P (p.run fire st).2
  | .done, _, _, h => h
  | .raise _, _, _, h => h
  | .subscribe ev s k, st, hw, h => EvProg.run_preserves hc hf k _ hw.2 (hc.sub st ev s hw.1 h)
  | .unsubscribe ev s k, st, hw, h => EvProg.run_preserves hc hf (k _) _ (hw.2 _) (hc.unsub st ev s hw.1 h)
  | .register ev k, st, hw, h => EvProg.run_preserves hc hf k _ hw (hc.reg st ev h)
  | .fire ev x k, st, hw, h => by
    have := hf ev x st h
    unfold EvProg.run
    split
    · rename_i he; rw [he] at this; exact this
    · rename_i he; rw [he] at this; exact EvProg.run_preserves hc hf (k _) _ (hw _) this

theorem notifyLoop_preserves {L : Nat} {okSub okUnsub : String → Prop} {P : EvState α → Prop} (hc : EvClosed L okSub okUnsub P)
    {beh : Behaviour α} (hw : ∀ tr, Within okSub okUnsub (beh tr))
    {fire : String → α → EvState α → Option (Py Unit) × EvState α} (hf : ∀ ev x st, P st → P (fire ev x st).2)
    {level : Nat} (hl : level ≤ L) (ev : String) (x : α) :
    ∀ (fuel i : Nat) (st : EvState α), P st → P (notifyLoop beh fire level ev x fuel i st).2
  | 0, _, _, h => h
  | fuel + 1, i, st, h => by
    unfold notifyLoop
    split
    · exact h
    · rename_i s _
      simp only
      have h1 := hc.call st ⟨level, ev, s.handler, (x, s.args), s.kwargs⟩ hl h
      generalize st.log ⟨level, ev, s.handler, (x, s.args), s.kwargs⟩ = st1 at h1
      have h2 := EvProg.run_preserves hc hf (beh st1.calls) st1 (hw _) h1
      split
      · rename_i he; rw [he] at h2; exact notifyLoop_preserves hc hw hf hl ev x fuel (i + 1) _ h2
      · rename_i he; rw [he] at h2; exact h2
      · rename_i he; rw [he] at h2; exact h2

theorem notifyAt_preserves {okSub okUnsub : String → Prop} {P : EvState α → Prop} {L : Nat} (hc : EvClosed L okSub okUnsub P)
    {beh : Behaviour α} (hw : ∀ tr, Within okSub okUnsub (beh tr)) (fuel : Nat) :
    ∀ (level : Nat), level ≤ L → ∀ (ev : String) (x : α) (st : EvState α), P st → P (notifyAt beh fuel level ev x st).2
  | 0, _, _, _, _, h => h
  | level + 1, hl, ev, x, st, h => by
    unfold notifyAt
    exact notifyLoop_preserves hc hw (notifyAt_preserves hc hw fuel level (by omega)) hl ev x fuel 0 st h

/-! ## What a handler leaves alone -/

theorem callsAt_append (d : Nat) (a b : List (Call α)) : callsAt d (a ++ b) = callsAt d a ++ callsAt d b := by
  simp [callsAt]

/-- Handlers called below level `d + 1` that do not unsubscribe from `ev`: the subscribers of `ev` only get more at the end, the calls
at level `d + 1` stay. -/
theorem grows_closed (d : Nat) (ev : String) (l0 : List Sub) (c0 : List (Call α)) :
    EvClosed d (fun _ => True) (fun e => e ≠ ev) (fun st => l0 <+: st.subs ev ∧ callsAt (d + 1) st.calls = c0) := by
  refine ⟨?_, ?_, ?_, ?_⟩
  · rintro st e s _ ⟨h1, h2⟩
    refine ⟨?_, h2⟩
    simp only [EvState.setSubs]
    split
    · rename_i he; subst he; exact h1.trans (List.prefix_append _ _)
    · exact h1
  · rintro st e s hne ⟨h1, h2⟩
    refine ⟨?_, h2⟩
    simp only [EvState.setSubs]
    rw [if_neg (fun he => hne he.symm)]; exact h1
  · rintro st e h
    unfold register
    split <;> exact h
  · rintro st c hc ⟨h1, h2⟩
    refine ⟨h1, ?_⟩
    simp only [EvState.log]
    rw [callsAt_append, h2]
    have : c.level ≠ d + 1 := by omega
    simp [callsAt, this]

/-- ... and neither subscribe nor unsubscribe: the subscribers stay. -/
theorem fixed_closed (d : Nat) (ev : String) (l0 : List Sub) :
    EvClosed (α := α) d (fun e => e ≠ ev) (fun e => e ≠ ev) (fun st => st.subs ev = l0) := by
  refine ⟨?_, ?_, ?_, ?_⟩
  · rintro st e s hne h
    simp only [EvState.setSubs]
    rw [if_neg (fun he => hne he.symm)]; exact h
  · rintro st e s hne h
    simp only [EvState.setSubs]
    rw [if_neg (fun he => hne he.symm)]; exact h
  · rintro st e h
    unfold register
    split <;> exact h
  · rintro st c _ h; exact h

/-- The outcome of a notification, the loop being at position `i`. -/
theorem loop_result {beh : Behaviour α} {ev : String} (hw : ∀ tr, NoUnsub ev (beh tr)) (fuel0 d : Nat) (x : α) (C0 : List (Call α)) :
    ∀ (fuel i : Nat) (st st' : EvState α) (r : Py Unit), i ≤ (st.subs ev).length →
      callsAt (d + 1) st.calls = C0 ++ ((st.subs ev).take i).map (callOf (d + 1) ev x) →
      (∀ k s, k < i → (st.subs ev)[k]? = some s → ∃ s1 s2, s1.calls.getLast? = some (callOf (d + 1) ev x s) ∧
        (beh s1.calls).run (notifyAt beh fuel0 d) s1 = (some (.ok ()), s2)) →
      notifyLoop beh (notifyAt beh fuel0 d) (d + 1) ev x fuel i st = (some r, st') →
      st.subs ev <+: st'.subs ev ∧
      ((r = .ok () ∧ callsAt (d + 1) st'.calls = C0 ++ (st'.subs ev).map (callOf (d + 1) ev x) ∧
          ∀ s ∈ st'.subs ev, ∃ s1 s2, s1.calls.getLast? = some (callOf (d + 1) ev x s) ∧
            (beh s1.calls).run (notifyAt beh fuel0 d) s1 = (some (.ok ()), s2)) ∨
       ∃ e k s s1, r = .error e ∧ (st'.subs ev)[k]? = some s ∧
          callsAt (d + 1) st'.calls = C0 ++ ((st'.subs ev).take (k + 1)).map (callOf (d + 1) ev x) ∧
          s1.calls.getLast? = some (callOf (d + 1) ev x s) ∧ (beh s1.calls).run (notifyAt beh fuel0 d) s1 = (some (.error e), st'))
  | 0, _, _, _, _, _, _, _, h => by simp [notifyLoop] at h
  | fuel + 1, i, st, st', r, hi, hc, hk, h => by
    unfold notifyLoop at h
    split at h
    · rename_i hnone
      simp only [Prod.mk.injEq, Option.some.injEq] at h
      obtain ⟨rfl, rfl⟩ := h
      have hlen : (st.subs ev).length ≤ i := List.getElem?_eq_none_iff.mp hnone
      refine ⟨List.prefix_refl _, .inl ⟨rfl, ?_, ?_⟩⟩
      · rw [hc, List.take_of_length_le hlen]
      · intro s hs
        obtain ⟨k, hkl, hks⟩ := List.mem_iff_getElem.mp hs
        exact hk k s (by omega) (by rw [List.getElem?_eq_getElem hkl, hks])
    · rename_i s hs
      simp only at h
      have hil : i < (st.subs ev).length := (List.getElem?_eq_some_iff.mp hs).1
      generalize hst1 : st.log ⟨d + 1, ev, s.handler, (x, s.args), s.kwargs⟩ = st1 at h
      have hsubs1 : st1.subs ev = st.subs ev := by rw [← hst1]; rfl
      have hlast : st1.calls.getLast? = some (callOf (d + 1) ev x s) := by rw [← hst1]; simp [callOf, EvState.log]
      have hcalls1 : callsAt (d + 1) st1.calls = C0 ++ ((st.subs ev).take (i + 1)).map (callOf (d + 1) ev x) := by
        rw [← hst1]
        simp only [EvState.log]
        rw [callsAt_append, hc, List.take_add_one, hs]
        simp [callsAt, callOf]
      have hP := EvProg.run_preserves (grows_closed d ev (st.subs ev) (callsAt (d + 1) st1.calls))
        (notifyAt_preserves (grows_closed d ev _ _) (fun tr => within_of_noUnsub (hw tr)) fuel0 d (Nat.le_refl _))
        (beh st1.calls) st1 (within_of_noUnsub (hw _)) ⟨by rw [hsubs1]; exact List.prefix_refl _, rfl⟩
      split at h
      · rename_i st2 hr
        rw [hr] at hP
        obtain ⟨hpre, hc2⟩ := hP
        simp only at hpre hc2
        have htake : (st2.subs ev).take (i + 1) = (st.subs ev).take (i + 1) := by
          obtain ⟨t, ht⟩ := hpre
          rw [← ht, List.take_append_of_le_length (by omega)]
        have hget : ∀ k, k < i + 1 → (st2.subs ev)[k]? = (st.subs ev)[k]? := by
          intro k hkl
          obtain ⟨t, ht⟩ := hpre
          rw [← ht, List.getElem?_append_left (by omega)]
        obtain ⟨h1, h2⟩ := loop_result hw fuel0 d x C0 fuel (i + 1) st2 st' r
          (by have := hpre.length_le; omega)
          (by rw [hc2, hcalls1, htake])
          (by
            intro k s' hkl hks
            rw [hget k hkl] at hks
            by_cases hki : k = i
            · subst hki
              rw [hs] at hks
              cases hks
              exact ⟨st1, st2, hlast, hr⟩
            · exact hk k s' (by omega) hks) h
        exact ⟨hpre.trans h1, h2⟩
      · rename_i e st2 hr
        rw [hr] at hP
        obtain ⟨hpre, hc2⟩ := hP
        simp only at hpre hc2
        simp only [Prod.mk.injEq, Option.some.injEq] at h
        obtain ⟨rfl, rfl⟩ := h
        refine ⟨hpre, .inr ⟨e, i, s, st1, rfl, ?_, ?_, hlast, hr⟩⟩
        · obtain ⟨t, ht⟩ := hpre
          rw [← ht, List.getElem?_append_left (by omega)]; exact hs
        · rw [hc2, hcalls1]
          obtain ⟨t, ht⟩ := hpre
          rw [← ht, List.take_append_of_le_length (by omega)]
      · simp at h

end Pyogp
