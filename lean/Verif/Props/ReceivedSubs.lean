import Verif.Spec.ReceivedSubs
import Verif.Props.Received
import Verif.Props.UdpSubscribers

namespace Pyogp
open Spec

/-! ## C116

Received messages as objects, and subscribers that work on subscriptions. -/

theorem send_withNames (env : DEnv) (names : List Ev → List String) : ∀ n, sendWith (withNames env names) n = sendWith env n
  | 0 => rfl
  | n + 1 => by
    funext st m r mode
    have ih := send_withNames env names n
    simp only [sendWith]
    rw [ih]
    rfl

theorem runR_withNames (env : DEnv) (names : List Ev → List String) : ∀ (p : RProg) (m : Message) (st : DState),
    p.run (withNames env names) m st = p.run env m st
  | .done, m, st => rfl
  | .raise e, m, st => rfl
  | .look k, m, st => by rw [RProg.run, RProg.run]; exact runR_withNames env names (k m) m st
  | .write m' k, m, st => by rw [RProg.run, RProg.run]; exact runR_withNames env names k m' st
  | .send m' r mode k, m, st => by
    have h : Pyogp.send (withNames env names) = Pyogp.send env := by funext st m r mode; simp only [send]; rw [send_withNames]; rfl
    rw [RProg.run, RProg.run, h]
    exact runR_withNames env names (k _) m _
  | .forward r mode k, m, st => by
    have h : Pyogp.send (withNames env names) = Pyogp.send env := by funext st m r mode; simp only [send]; rw [send_withNames]; rfl
    have h2 : afterSend (withNames env names) st m r mode = afterSend env st m r mode := by
      simp only [afterSend, preparedIn]
      rw [send_withNames]
      rfl
    rw [RProg.run, RProg.run, h, h2]
    exact runR_withNames env names (k _) _ _
  | .setHost r v k, m, st => by rw [RProg.run, RProg.run]; exact runR_withNames env names k m _

/-- What a subscriber does, with this table of subscriptions, as one that leaves subscriptions alone. -/
def eraseSubs : XProg → EvState Message → RProg
  | .done, _ => .done
  | .raise e, _ => .raise e
  | .look k, t => .look (fun m => eraseSubs (k m) t)
  | .write m k, t => .write m (eraseSubs k t)
  | .send m r mode k, t => .send m r mode (fun x => eraseSubs (k x) t)
  | .forward r mode k, t => .forward r mode (fun x => eraseSubs (k x) t)
  | .setHost r v k, t => .setHost r v (eraseSubs k t)
  | .subscribe n s k, t => eraseSubs k (SubOp.apply t (.subscribe n s))
  | .unsubscribe n s k, t => eraseSubs (k (eventUnsubscribe (t.subs n) s).1) (SubOp.apply t (.unsubscribe n s))
  | .register n k, t => eraseSubs k (SubOp.apply t (.register n))

theorem eraseSubs_same : ∀ (p : XProg) (t : EvState Message), SameButSubs p (eraseSubs p t)
  | .done, _ => .done
  | .raise e, _ => .raise e
  | .look k, t => .look _ _ fun m => eraseSubs_same (k m) t
  | .write m k, t => .write _ _ _ (eraseSubs_same k t)
  | .send m r mode k, t => .send _ _ _ _ _ fun x => eraseSubs_same (k x) t
  | .forward r mode k, t => .forward _ _ _ _ fun x => eraseSubs_same (k x) t
  | .setHost r v k, t => .setHost _ _ _ _ (eraseSubs_same k t)
  | .subscribe n s k, t => .subscribe _ _ _ _ (eraseSubs_same k _)
  | .unsubscribe n s k, t => .unsubscribe _ _ _ _ _ (eraseSubs_same (k _) _)
  | .register n k, t => .register _ _ _ (eraseSubs_same k _)

/-- Running a subscriber: what it does but for subscriptions, and what it does with them. -/
theorem runX_erase (env : DEnv) : ∀ (p : XProg) (m : Message) (st : XState),
    (p.run env m st).1 = ((eraseSubs p st.ev).run env m st.d).1 ∧ (p.run env m st).2.1 = ((eraseSubs p st.ev).run env m st.d).2.1 ∧
    (p.run env m st).2.2.d = ((eraseSubs p st.ev).run env m st.d).2.2 ∧
    ∃ os : List SubOp, (p.run env m st).2.2.log = st.log ++ os.map .changed ∧ (p.run env m st).2.2.ev = os.foldl SubOp.apply st.ev
  | .done, m, st => ⟨rfl, rfl, rfl, [], (List.append_nil _).symm, rfl⟩
  | .raise e, m, st => ⟨rfl, rfl, rfl, [], (List.append_nil _).symm, rfl⟩
  | .look k, m, st => by simp only [XProg.run, eraseSubs, RProg.run]; exact runX_erase env (k m) m st
  | .write m' k, m, st => by simp only [XProg.run, eraseSubs, RProg.run]; exact runX_erase env k m' st
  | .send m' r mode k, m, st => by
    simp only [XProg.run, eraseSubs, RProg.run]
    exact runX_erase env (k (send env st.d m' r mode).1) m { st with d := (send env st.d m' r mode).2 }
  | .forward r mode k, m, st => by
    simp only [XProg.run, eraseSubs, RProg.run]
    exact runX_erase env (k (send env st.d m r mode).1) (afterSend env st.d m r mode) { st with d := (send env st.d m r mode).2 }
  | .setHost r v k, m, st => by
    simp only [XProg.run, eraseSubs, RProg.run]
    exact runX_erase env k m { st with d := { st.d with hosts := fun x => if x = r then v else st.d.hosts x } }
  | .subscribe n s k, m, st => by
    simp only [XProg.run, eraseSubs]
    obtain ⟨h1, h2, h3, os, h4, h5⟩ := runX_erase env k m (st.change (.subscribe n s))
    exact ⟨h1, h2, h3, .subscribe n s :: os, by rw [h4]; simp [XState.change], h5⟩
  | .unsubscribe n s k, m, st => by
    simp only [XProg.run, eraseSubs]
    obtain ⟨h1, h2, h3, os, h4, h5⟩ := runX_erase env (k (eventUnsubscribe (st.ev.subs n) s).1) m (st.change (.unsubscribe n s))
    exact ⟨h1, h2, h3, .unsubscribe n s :: os, by rw [h4]; simp [XState.change], h5⟩
  | .register n k, m, st => by
    simp only [XProg.run, eraseSubs]
    obtain ⟨h1, h2, h3, os, h4, h5⟩ := runX_erase env k m (st.change (.register n))
    exact ⟨h1, h2, h3, .register n :: os, by rw [h4]; simp [XState.change], h5⟩

theorem calledIn_append (a b : List HandlerEv) : calledIn (a ++ b) = calledIn a ++ calledIn b := List.filterMap_append

theorem changesIn_append (a b : List HandlerEv) : changesIn (a ++ b) = changesIn a ++ changesIn b := List.filterMap_append

theorem calledIn_changed (os : List SubOp) : calledIn (os.map .changed) = [] := by
  induction os with
  | nil => rfl
  | cons o os ih => exact ih

theorem changesIn_changed (os : List SubOp) : changesIn (os.map .changed) = os := by
  induction os with
  | nil => rfl
  | cons o os ih => exact congrArg (o :: ·) ih

/-- Only calls and work on subscriptions. -/
def OnlyCalls (l : List HandlerEv) : Prop := ∀ e ∈ l, (∃ s m, e = .called s m) ∨ ∃ o, e = .changed o

/-- A split of a list at a call, which is not among the changes. -/
theorem split_called {a b l rest : List HandlerEv} {s : Sub} {m : Message} (ha : calledIn a = []) (h : a ++ b = l ++ .called s m :: rest) :
    ∃ l', l = a ++ l' ∧ b = l' ++ .called s m :: rest := by
  induction a generalizing l with
  | nil => exact ⟨l, rfl, h⟩
  | cons e a ih =>
    cases l with
    | nil =>
      rw [List.cons_append, List.nil_append] at h
      obtain ⟨rfl, -⟩ := List.cons.inj h
      exact absurd ha (by simp [calledIn])
    | cons e' l =>
      rw [List.cons_append, List.cons_append] at h
      obtain ⟨rfl, h3⟩ := List.cons.inj h
      have : calledIn a = [] := by
        cases e <;> first | exact ha | (simp [calledIn] at ha)
      obtain ⟨l', rfl, h2⟩ := ih this h3
      exact ⟨l', rfl, h2⟩

/-- One loop over the subscribers. -/
theorem notifyX_realised (env : DEnv) (beh : XBehaviour) (name : String) : ∀ (fuel i : Nat) (m : Message) (st : XState) (x : Py Unit) (m' : Message) (st' : XState),
    notifyX env beh name fuel i m st = (some x, m', st') →
    ∃ (ps : List RProg) (new : List HandlerEv), st'.log = st.log ++ new ∧ OnlyCalls new ∧ st'.ev = (changesIn new).foldl SubOp.apply st.ev ∧
      notifyObj env ps m st.d = (x, m', st'.d) ∧ (calledIn new).length = ps.length ∧
      (∀ l s mj rest, new = l ++ .called s mj :: rest → ∃ p dj, ps[(calledIn l).length]? = some p ∧
        notifyObj env (ps.take (calledIn l).length) m st.d = (.ok (), mj, dj) ∧ SameButSubs (beh dj.trace (st.log ++ l ++ [.called s mj])) p ∧
        (((changesIn l).foldl SubOp.apply st.ev).subs name)[i + (calledIn l).length]? = some s) ∧
      (x = .ok () → (st'.ev.subs name).length ≤ i + (calledIn new).length) ∧
      ∀ s, (st.ev.subs name)[i]? = some s → ∃ rest, new = .called s m :: rest
  | 0, i, m, st, x, m', st', h => by cases h
  | fuel + 1, i, m, st, x, m', st', h => by
    unfold notifyX at h
    split at h
    · rename_i hn
      cases h
      refine ⟨[], [], (List.append_nil _).symm, (fun e he => nomatch he), rfl, rfl, rfl, ?_, fun _ => ?_, fun s hs => by rw [hn] at hs; cases hs⟩
      · intro l s mj rest h
        exact absurd h (by simp)
      · exact List.getElem?_eq_none_iff.mp hn
    · rename_i s hs
      simp only at h
      obtain ⟨r1, r2, r3, os, r4, r5⟩ := runX_erase env (beh st.d.trace (st.log ++ [.called s m])) m { st with log := st.log ++ [.called s m] }
      have hsame := eraseSubs_same (beh st.d.trace (st.log ++ [.called s m])) st.ev
      simp only at r1 r2 r3 r4 r5
      generalize eraseSubs (beh st.d.trace (st.log ++ [.called s m])) st.ev = p at *
      generalize hy : (beh st.d.trace (st.log ++ [.called s m])).run env m { st with log := st.log ++ [.called s m] } = y at *
      obtain ⟨y1, y2, y3⟩ := y
      simp only at r1 r2 r3 r4 r5
      have hrun : p.run env m st.d = (y1, y2, y3.d) := by rw [r1, r2, r3]
      have hw : OnlyCalls (.called s m :: os.map .changed) := by
        intro e he
        rcases List.mem_cons.mp he with rfl | he
        · exact .inl ⟨s, m, rfl⟩
        · obtain ⟨o, -, rfl⟩ := List.mem_map.mp he
          exact .inr ⟨o, rfl⟩
      have hch : changesIn (.called s m :: os.map .changed) = os := (changesIn_changed os)
      have hca : calledIn (.called s m :: os.map .changed) = [(s, m)] := congrArg ((s, m) :: ·) (calledIn_changed os)
      have hfirst : ∀ (qs : List RProg) (l : List HandlerEv), l = [] → ∃ p' dj, (p :: qs)[(calledIn l).length]? = some p' ∧
          notifyObj env ((p :: qs).take (calledIn l).length) m st.d = (.ok (), m, dj) ∧ SameButSubs (beh dj.trace (st.log ++ l ++ [.called s m])) p' ∧
          (((changesIn l).foldl SubOp.apply st.ev).subs name)[i + (calledIn l).length]? = some s := by
        rintro qs _ rfl
        exact ⟨p, st.d, rfl, rfl, by rw [List.append_nil]; exact hsame, hs⟩
      cases y1 with
      | error e =>
        simp only at h
        cases h
        refine ⟨[p], .called s m :: os.map .changed, by rw [r4]; simp, hw, by rw [r5, hch], ?_, by rw [hca]; rfl, ?_, (fun h => nomatch h), fun s' hs' => by rw [hs] at hs'; cases hs'; exact ⟨_, rfl⟩⟩
        · simp only [notifyObj, hrun]
        · intro l s' mj rest hl
          cases l with
          | nil =>
            rw [List.nil_append] at hl
            obtain ⟨h1, -⟩ := List.cons.inj hl
            cases h1
            exact hfirst [] [] rfl
          | cons e' l =>
            rw [List.cons_append] at hl
            obtain ⟨rfl, hl1⟩ := List.cons.inj hl
            have hl2 : os.map HandlerEv.changed ++ [] = l ++ .called s' mj :: rest := by rw [List.append_nil]; exact hl1
            obtain ⟨l', -, h2⟩ := split_called (calledIn_changed os) hl2
            exact absurd h2 (by simp)
      | ok u =>
        simp only at h
        obtain ⟨ps, new, i1, i2, i3, i4, i5, i6, i7, -⟩ := notifyX_realised env beh name fuel (i + 1) y2 y3 x m' st' h
        have hnot : ∀ k, notifyObj env (p :: k) m st.d = notifyObj env k y2 y3.d := by intro k; simp only [notifyObj, hrun]
        refine ⟨p :: ps, (.called s m :: os.map .changed) ++ new, by rw [i1, r4]; simp, ?_, ?_, by rw [hnot]; exact i4, ?_, ?_, fun hx => ?_, fun s' hs' => by rw [hs] at hs'; cases hs'; exact ⟨_, rfl⟩⟩
        · intro e he
          rcases List.mem_append.mp he with he | he
          · exact hw e he
          · exact i2 e he
        · rw [changesIn_append, hch, List.foldl_append, i3, r5]
        · rw [calledIn_append, hca, List.length_append, i5]; simp; omega
        · intro l s' mj rest hl
          cases l with
          | nil =>
            rw [List.nil_append, List.cons_append] at hl
            obtain ⟨h1, -⟩ := List.cons.inj hl
            cases h1
            exact hfirst ps [] rfl
          | cons e' l =>
            rw [List.cons_append, List.cons_append] at hl
            obtain ⟨rfl, hl1⟩ := List.cons.inj hl
            obtain ⟨l', rfl, h2⟩ := split_called (calledIn_changed os) hl1
            obtain ⟨p', dj, j1, j2, j3, j4⟩ := i6 l' s' mj rest h2
            have e1 : calledIn (.called s m :: (os.map .changed ++ l')) = (s, m) :: calledIn l' := by
              have : calledIn (.called s m :: (os.map .changed ++ l')) = (s, m) :: calledIn (os.map .changed ++ l') := rfl
              rw [this, calledIn_append, calledIn_changed]; rfl
            have e2 : changesIn (.called s m :: (os.map .changed ++ l')) = os ++ changesIn l' := by
              have : changesIn (.called s m :: (os.map .changed ++ l')) = changesIn (os.map .changed ++ l') := rfl
              rw [this, changesIn_append, changesIn_changed]
            refine ⟨p', dj, by rw [e1]; simpa using j1, ?_, ?_, ?_⟩
            · rw [e1, List.length_cons, List.take_succ_cons, hnot]; exact j2
            · have : st.log ++ (.called s m :: (os.map .changed ++ l')) ++ [.called s' mj] = y3.log ++ l' ++ [.called s' mj] := by rw [r4]; simp
              rw [this]; exact j3
            · rw [e1, e2, List.foldl_append, ← r5, List.length_cons]
              have : i + ((calledIn l').length + 1) = i + 1 + (calledIn l').length := by omega
              rw [this]; exact j4
        · have := i7 hx
          rw [calledIn_append, hca, List.length_append]
          simp only [List.length_singleton]
          omega

theorem notifyObj_withNames (env : DEnv) (names : List Ev → List String) : ∀ (ps : List RProg) (m : Message) (st : DState),
    notifyObj (withNames env names) ps m st = notifyObj env ps m st
  | [], m, st => rfl
  | p :: ps, m, st => by
    unfold notifyObj
    rw [runR_withNames]
    generalize p.run env m st = y
    obtain ⟨y1, y2, y3⟩ := y
    cases y1 with
    | error e => rfl
    | ok u => exact notifyObj_withNames env names ps y2 y3

theorem handleObj_withNames (env : DEnv) (names : List Ev → List String) (subs : String → List RProg) (m : Message) (st : DState) :
    handleObj (withNames env names) subs m st = handleObj env subs m st := by
  unfold handleObj
  rw [notifyObj_withNames]

/-- One message handed over. -/
theorem handleX_realised (env : DEnv) (beh : XBehaviour) (fuel : Nat) (m : Message) (st : XState) (y : Py Unit) (m' : Message) (st' : XState)
    (h : handleX env beh fuel m st = (some y, m', st')) :
    ∃ (ps : List RProg) (new : List HandlerEv), st'.log = st.log ++ new ∧ st'.ev = (changesIn new).foldl SubOp.apply st.ev ∧
      handleObj env (fun _ => ps) m st.d = (y.map (fun _ => some m'), st'.d) ∧ (calledIn new).length = ps.length ∧
      (∀ l s mj rest, new = l ++ .called s mj :: rest → ∃ p dj, ps[(calledIn l).length]? = some p ∧
        handleObj env (fun _ => ps.take (calledIn l).length) m st.d = (.ok (some mj), dj) ∧ SameButSubs (beh dj.trace (st.log ++ l ++ [.called s mj])) p ∧
        (((changesIn l).foldl SubOp.apply st.ev).subs m.name)[(calledIn l).length]? = some s) ∧
      ((new = [] ∧ (m.name ∈ st.ev.names → st.ev.subs m.name = [])) ∨
        (m.name ∈ st.ev.names ∧ st.ev.subs m.name ≠ []) ∧ ∃ since r, new = .started m.name :: since ++ [.ended r] ∧ OnlyCalls since ∧
          (∃ s rest, since = .called s m :: rest) ∧ y = (if r = .error .keyError then .ok () else r) ∧ (r = .ok () → (st'.ev.subs m.name).length ≤ (calledIn since).length)) := by
  have none : ∀ (l : List HandlerEv) (s : Sub) (mj : Message) (rest : List HandlerEv), [] ≠ l ++ .called s mj :: rest := by intro l s mj rest h; exact absurd h (by simp)
  unfold handleX at h
  split at h
  · rename_i hreg
    split at h
    · rename_i hpos
      have hne : st.ev.subs m.name ≠ [] := by intro hx; rw [hx] at hpos; exact absurd hpos (by simp)
      generalize hn : notifyX env beh m.name fuel 0 m { st with log := st.log ++ [.started m.name] } = z at h
      obtain ⟨z1, z2, z3⟩ := z
      cases z1 with
      | none => cases h
      | some x =>
        obtain ⟨ps, new, i1, i2, i3, i4, i5, i6, i7, i8⟩ := notifyX_realised env beh m.name fuel 0 m _ x z2 z3 hn
        simp only at i1 i3 i4 i6
        have hy : y = (if x = .error .keyError then .ok () else x) ∧ m' = z2 ∧ st' = { z3 with log := z3.log ++ [.ended x] } := by
          cases x with
          | error e =>
            simp only at h
            cases h
            refine ⟨?_, rfl, rfl⟩
            by_cases he : e = .keyError
            · rw [if_pos he, he]; rfl
            · rw [if_neg he, if_neg (by intro hx; cases hx; exact he rfl)]
          | ok u => cases h; exact ⟨rfl, rfl, rfl⟩
        obtain ⟨hy, rfl, rfl⟩ := hy
        have c1 : calledIn (.started m.name :: new ++ [.ended x]) = calledIn new := by
          have : calledIn (.started m.name :: new ++ [.ended x]) = calledIn (new ++ [.ended x]) := rfl
          rw [this, calledIn_append]; exact List.append_nil _
        have c2 : changesIn (.started m.name :: new ++ [.ended x]) = changesIn new := by
          have : changesIn (.started m.name :: new ++ [.ended x]) = changesIn (new ++ [.ended x]) := rfl
          rw [this, changesIn_append]; exact List.append_nil _
        refine ⟨ps, .started m.name :: new ++ [.ended x], by simp [i1], by rw [c2]; exact i3, ?_, by rw [c1]; exact i5, ?_, .inr ⟨⟨hreg, hne⟩, new, x, rfl, i2, ⟨_, i8 _ (List.getElem?_eq_getElem hpos)⟩, hy, fun hx => ?_⟩⟩
        · unfold handleObj
          simp only [i4]
          rw [hy]
          cases x with
          | ok u => rfl
          | error e =>
            simp only
            by_cases he : e = .keyError
            · rw [if_pos he, if_pos (by rw [he])]; rfl
            · rw [if_neg he, if_neg (by intro hx; cases hx; exact he rfl)]; rfl
        · intro l s mj rest hl
          cases l with
          | nil => cases hl
          | cons e l =>
            rw [List.cons_append, List.cons_append] at hl
            obtain ⟨rfl, hl1⟩ := List.cons.inj hl
            have hl2 : ∃ rest', new = l ++ .called s mj :: rest' := by
              rcases List.append_eq_append_iff.mp hl1 with ⟨a, h1, h2⟩ | ⟨a, h1, h2⟩
              · cases a with
                | nil => cases h2
                | cons e a =>
                  rw [List.cons_append] at h2
                  obtain ⟨-, h3⟩ := List.cons.inj h2
                  exact absurd h3 (by simp)
              · cases a with
                | nil => cases h2
                | cons e a =>
                  rw [List.cons_append] at h2
                  obtain ⟨rfl, h3⟩ := List.cons.inj h2
                  exact ⟨a, h1⟩
            obtain ⟨rest', hnew⟩ := hl2
            obtain ⟨p, dj, j1, j2, j3, j4⟩ := i6 l s mj rest' hnew
            have e1 : calledIn (.started m.name :: l) = calledIn l := rfl
            have e2 : changesIn (.started m.name :: l) = changesIn l := rfl
            refine ⟨p, dj, by rw [e1]; exact j1, ?_, ?_, ?_⟩
            · rw [e1]
              simp only [handleObj, j2]
            · have : st.log ++ (.started m.name :: l) ++ [.called s mj] = st.log ++ [.started m.name] ++ l ++ [.called s mj] := by simp
              rw [this]; exact j3
            · rw [e1, e2]
              rw [Nat.zero_add] at j4
              exact j4
        · have := i7 hx
          rw [Nat.zero_add] at this
          exact this
    · rename_i hpos
      cases h
      refine ⟨[], [], (List.append_nil _).symm, rfl, rfl, rfl, fun l s mj rest hl => absurd hl (none l s mj rest), .inl ⟨rfl, fun _ => ?_⟩⟩
      cases hx : st.ev.subs m.name with
      | nil => rfl
      | cons a b => rw [hx] at hpos; exact absurd (Nat.succ_pos _) hpos
  · rename_i hreg
    cases h
    exact ⟨[], [], (List.append_nil _).symm, rfl, rfl, rfl, fun l s mj rest hl => absurd hl (none l s mj rest), .inl ⟨rfl, fun hx => absurd hx hreg⟩⟩

/-- A datagram: either no message is handed over, and this is so for any subscribers; or one is. -/
theorem receiveX_cases (env : DEnv) (beh : XBehaviour) (fuel : Nat) (st : XState) (r : HostRef) (dg : Bytes) :
    (∃ x d, receiveX env beh fuel st r dg = (some x, { st with d := d }) ∧
      (∀ subs, receiveObj (withNames env (fun _ => st.ev.names)) subs st.d r dg = (x, d)) ∧ deliveredMessages d.trace = deliveredMessages st.d.trace) ∨
    ∃ m d, receiveX env beh fuel st r dg = (match handleX env beh fuel m { st with d := d } with
        | (none, _, st) => (none, st)
        | (some (.error e), _, st) => (some (.error e), st)
        | (some (.ok _), m, st) => (some (.ok (some m)), st)) ∧
      (∀ subs, receiveObj (withNames env (fun _ => st.ev.names)) subs st.d r dg = handleObj env subs m d) ∧
      deliveredMessages d.trace = deliveredMessages st.d.trace ++ [m] := by
  have hfc := (findCircuit_fields st.d r).2.1
  unfold receiveX receiveObj
  simp only [handleObj_withNames]
  split
  · rename_i hpos
    have hd : ∀ tr, (withNames env (fun _ => st.ev.names)).deser tr = { env.deser tr with handled? := some st.ev.names } := fun _ => rfl
    have hs : (withNames env (fun _ => st.ev.names)).ser = env.ser := rfl
    have hpk : (withNames env (fun _ => st.ev.names)).handlePackets = env.handlePackets := rfl
    simp only [hd, hs, hpk]
    generalize hcc : findCircuit st.d r = cc at *
    obtain ⟨d, c⟩ := cc
    simp only at hfc ⊢
    generalize deserialize { env.deser d.trace with handled? := some st.ev.names } d.deser dg = x
    obtain ⟨x1, x2⟩ := x
    have keep : ∀ e : Ev, (∀ m, e ≠ .delivered m) → deliveredMessages (st.d.trace ++ [e]) = deliveredMessages st.d.trace := by
      intro e he
      unfold deliveredMessages
      rw [List.filterMap_append]
      cases e <;> first | exact List.append_nil _ | exact absurd rfl (he _)
    have keep2 : ∀ (a : Addr) (m : Message), deliveredMessages ((st.d.trace ++ [.received (st.d.hosts r).addr dg]) ++ [.parsed a m]) = deliveredMessages st.d.trace := by
      intro a m
      have := keep (.received (st.d.hosts r).addr dg) (fun _ => nofun)
      unfold deliveredMessages at this ⊢
      rw [List.filterMap_append, this]
      exact List.append_nil _
    cases x1 with
    | error e =>
      refine .inl ⟨_, _, rfl, fun _ => rfl, ?_⟩
      simp only [DState.log, hfc]
      exact keep _ (fun _ => nofun)
    | ok o =>
      cases o with
      | none =>
        simp only
        generalize unpackInt env.ser.rt dg .u32 1 (some .big) = u
        cases u with
        | error e =>
          refine .inl ⟨_, _, rfl, fun _ => rfl, ?_⟩
          simp only [DState.log, hfc]
          exact keep _ (fun _ => nofun)
        | ok pid =>
          refine .inl ⟨_, _, rfl, fun _ => rfl, ?_⟩
          simp only [DState.log, DState.setCircuit, hfc]
          exact keep _ (fun _ => nofun)
      | some m =>
        simp only
        by_cases ht : (c.trusted && !m.trusted) = true
        · rw [if_pos ht]
          refine .inl ⟨_, _, rfl, fun _ => by rw [if_pos ht], ?_⟩
          simp only [DState.log, hfc]
          exact keep _ (fun _ => nofun)
        · rw [if_neg ht]
          by_cases hp : env.handlePackets = true
          · rw [if_pos hp]
            refine .inr ⟨m, _, rfl, fun _ => by rw [if_neg ht, if_pos hp], ?_⟩
            simp only [DState.log, DState.setCircuit, hfc]
            unfold deliveredMessages at keep2 ⊢
            rw [List.filterMap_append, keep2]
            rfl
          · rw [if_neg hp]
            refine .inl ⟨_, _, rfl, fun _ => by rw [if_neg ht, if_neg hp], ?_⟩
            simp only [DState.log, DState.setCircuit, hfc]
            exact keep2 _ _
  · exact .inl ⟨_, _, rfl, fun _ => rfl, rfl⟩

/-- **C116, same program.** Whatever the subscribers do to the message object and to the subscriptions: a reception does what it does with some subscribers, given beforehand, that leave subscriptions alone
(so that C106 is about it), one for each call made; each of them does what the subscriber called did, but for its work on subscriptions, and was given the message that `receive_check` would
have returned without it and the later ones, that is as the subscribers before left it. -/
theorem C116_same (env : DEnv) (beh : XBehaviour) (fuel : Nat) (st st' : XState) (r : HostRef) (dg : Bytes) (x : Py (Option Message))
    (h : receiveX env beh fuel st r dg = (some x, st')) :
    let alone := fun ps : List RProg => receiveObj (withNames env (fun _ => st.ev.names)) (fun _ => ps) st.d r dg
    ∃ (ps : List RProg) (new : List HandlerEv), st'.log = st.log ++ new ∧ (calledIn new).length = ps.length ∧ alone ps = (x, st'.d) ∧
      ∀ l s m rest, new = l ++ .called s m :: rest → ∃ p, ps[(calledIn l).length]? = some p ∧
        (alone (ps.take (calledIn l).length)).1 = .ok (some m) ∧
        SameButSubs (beh (alone (ps.take (calledIn l).length)).2.trace (st.log ++ l ++ [.called s m])) p := by
  intro alone
  rcases receiveX_cases env beh fuel st r dg with ⟨x', d, h1, h2, -⟩ | ⟨m, d, h1, h2, -⟩
  · rw [h1] at h
    cases h
    exact ⟨[], [], (List.append_nil _).symm, rfl, h2 _, fun l s m rest hl => absurd hl (by simp)⟩
  · rw [h1] at h
    generalize hz : handleX env beh fuel m { st with d := d } = z at h
    obtain ⟨z1, z2, z3⟩ := z
    cases z1 with
    | none => cases h
    | some y =>
      obtain ⟨ps, new, i1, i2, i3, i4, i5, -⟩ := handleX_realised env beh fuel m { st with d := d } y z2 z3 hz
      have hx : x = y.map (fun _ => some z2) ∧ st' = z3 := by
        cases y <;> (cases h; exact ⟨rfl, rfl⟩)
      obtain ⟨rfl, rfl⟩ := hx
      refine ⟨ps, new, i1, i4, (h2 _).trans i3, fun l s mj rest hl => ?_⟩
      obtain ⟨p, dj, j1, j2, j3, -⟩ := i5 l s mj rest hl
      have e : alone (ps.take (calledIn l).length) = (.ok (some mj), dj) := (h2 _).trans j2
      rw [e]
      exact ⟨p, j1, rfl, j3⟩

theorem runX_inv (env : DEnv) (beh : XBehaviour) (fuel : Nat) : ∀ (ops : List XOp) (st st' : XState), Inv st.d → runX env beh fuel st ops = some st' → Inv st'.d
  | [], st, st', hi, h => by cases h; exact hi
  | o :: ops, st, st', hi, h => by
    unfold runX at h
    cases ho : stepX env beh fuel st o with
    | none => rw [ho] at h; cases h
    | some s =>
      rw [ho] at h
      refine runX_inv env beh fuel ops s st' ?_ h
      cases o with
      | op o => cases ho; exact step_preserves (Inv.closed env) (fun _ _ => Prog.mutates_any _) st.d o (fun _ _ _ => trivial) hi
      | subs o => cases ho; exact hi
      | recv r dg =>
        simp only [stepX] at ho
        generalize hx : receiveX env beh fuel st r dg = y at ho
        obtain ⟨y1, y2⟩ := y
        cases y1 with
        | none => cases ho
        | some x =>
          cases ho
          obtain ⟨ps, new, -, -, h3, -⟩ := C116_same env beh fuel st s r dg x hx
          have := receiveObj_preserves (Inv.closed (withNames env (fun _ => st.ev.names))).toRecvClosed (fun _ => ps) st.d r dg hi
          have h3 : receiveObj (withNames env (fun _ => st.ev.names)) (fun _ => ps) st.d r dg = (x, s.d) := h3
          rw [h3] at this
          exact this

/-- **C116, bookkeeping.** In every history, whatever the subscribers do to the messages they are given and to the subscriptions: the ids given to packets for an address
are 1, 2, 3, …; what waits for an acknowledgement are exactly the packets sent reliably and not acknowledged since by the packets as they were received; and the counters count. -/
theorem C116_bookkeeping (env : DEnv) (beh : XBehaviour) (fuel : Nat) (hosts : HostRef → Host) (ev : EvState Message) (log : List HandlerEv) (ops : List XOp) (st : XState)
    (h : runX env beh fuel ⟨DState.init hosts, ev, log⟩ ops = some st) (a : Addr) :
    let hist := circuitHistory a st.d.trace
    outIds hist = List.range' 1 (outIds hist).length ∧
    (∀ c, st.d.circuits.get? a = some c → (∀ id, id ∈ c.unacked.keys ↔ Waiting hist id) ∧ c.unackCount = c.unacked.keys.length) ∧
    st.d.packetsIn = receivedCount st.d.trace ∧ st.d.packetsOut = sentCount st.d.trace := by
  have hi := runX_inv env beh fuel ops _ st (Inv.init hosts) h
  refine ⟨?_, ?_, hi.packetsIn, hi.packetsOut⟩
  · generalize st.d = d at hi
    cases h : d.circuits.get? a with
    | none => simp only [hi.absent a h]; rfl
    | some c => simp only [(hi.circ a c h).ids]; simp
  · intro c hc
    have h1 := hi.circ a c hc
    exact ⟨h1.waiting, by rw [h1.ok.count]; simp [Dict.keys]⟩

/-- **C116, acknowledgements.** The id queued for acknowledgement is the one in the datagram, exactly if the datagram has the reliable flag, whatever the subscribers do to the message or to subscriptions. -/
theorem C116_queued (env : DEnv) (beh : XBehaviour) (fuel : Nat) (st st' : XState) (r : HostRef) (dg : Bytes) (x : Py (Option Message))
    (h : receiveX env beh fuel st r dg = (some x, st')) (m : Message) (flags : UInt8)
    (hd : (deserialize { env.deser st.d.trace with handled? := some st.ev.names } st.d.deser dg).1 = .ok (some m)) (hf : dg.head? = some flags)
    (ht : ∀ c, st.d.circuits.get? (st.d.hosts r).addr = some c → c.trusted = false) :
    ∃ id, id < 2 ^ 32 ∧ slice dg 1 5 = idBytes id ∧ ∀ a, pending st'.d a =
      pending st.d a ++ (if a = (st.d.hosts r).addr ∧ flags.toNat &&& 0x40 ≠ 0 then [id] else []) := by
  obtain ⟨ps, new, -, -, h3, -⟩ := C116_same env beh fuel st st' r dg x h
  obtain ⟨id, h4, h5, h6⟩ := C106_queued (withNames env (fun _ => st.ev.names)) (fun _ => ps) st.d r dg m flags hd hf ht
  have h3 : receiveObj (withNames env (fun _ => st.ev.names)) (fun _ => ps) st.d r dg = (x, st'.d) := h3
  rw [h3] at h6
  exact ⟨id, h4, h5, h6⟩

theorem keepsContent_same {p : XProg} {q : RProg} (h : SameButSubs p q) : KeepsContent p → LeavesContent q := by
  induction h with
  | done => intro _; exact .done
  | raise e => intro _; exact .raise e
  | look k k' _ ih => intro hp; cases hp with | look _ hk => exact .look _ fun m => ih m (hk m)
  | write m k k' _ ih => intro hp; cases hp
  | send m r mode k k' _ ih => intro hp; cases hp with | send _ _ _ _ hk => exact .send _ _ _ _ fun x => ih x (hk x)
  | forward r mode k k' _ ih => intro hp; cases hp with | forward _ _ _ hk => exact .forward _ _ _ fun x => ih x (hk x)
  | setHost r v k k' _ ih => intro hp; cases hp with | setHost _ _ _ hk => exact .setHost _ _ _ (ih hk)
  | «subscribe» n s k k' _ ih => intro hp; cases hp with | «subscribe» _ _ _ hk => exact ih hk
  | «unsubscribe» n s k k' x _ ih => intro hp; cases hp with | «unsubscribe» _ _ _ hk => exact ih (hk x)
  | «register» n k k' _ ih => intro hp; cases hp with | «register» _ _ hk => exact ih hk

theorem split_at_call : ∀ (new : List HandlerEv) (i : Nat), i < (calledIn new).length →
    ∃ l s m rest, new = l ++ .called s m :: rest ∧ (calledIn l).length = i
  | [], i, h => absurd h (by simp [calledIn])
  | e :: new, i, h => by
    by_cases he : ∃ s m, e = .called s m
    · obtain ⟨s, m, rfl⟩ := he
      cases i with
      | zero => exact ⟨[], s, m, new, rfl, rfl⟩
      | succ i =>
        obtain ⟨l, s', m', rest, h1, h2⟩ := split_at_call new i (by simpa [calledIn] using h)
        exact ⟨.called s m :: l, s', m', rest, by rw [h1]; rfl, by simpa [calledIn] using h2⟩
    · have hc : ∀ l, calledIn (e :: l) = calledIn l := by
        intro l
        cases e <;> first | rfl | exact absurd ⟨_, _, rfl⟩ he
      obtain ⟨l, s', m', rest, h1, h2⟩ := split_at_call new i (by rw [← hc]; exact h)
      exact ⟨e :: l, s', m', rest, by rw [h1]; rfl, by rw [hc]; exact h2⟩

/-- **C116, content.** If no subscriber changes the name or blocks of the message, `receive_check` returns a message with the name and blocks that were received, also if subscribers send it on and
whatever they do to subscriptions. -/
theorem C116_content (env : DEnv) (beh : XBehaviour) (hb : ∀ tr l, KeepsContent (beh tr l)) (fuel : Nat) (st st' : XState) (r : HostRef) (dg : Bytes) (m' : Message)
    (h : receiveX env beh fuel st r dg = (some (.ok (some m')), st')) :
    ∃ m, (deserialize { env.deser st.d.trace with handled? := some st.ev.names } st.d.deser dg).1 = .ok (some m) ∧ m'.name = m.name ∧ m'.blocks = m.blocks := by
  obtain ⟨ps, new, -, h2, h3, h4⟩ := C116_same env beh fuel st st' r dg _ h
  refine C106_content (withNames env (fun _ => st.ev.names)) (fun _ => ps) (fun _ p hp => ?_) st.d r dg m' (congrArg Prod.fst h3)
  obtain ⟨i, hi⟩ := List.getElem?_of_mem hp
  obtain ⟨l, s, m, rest, hl, hn⟩ := split_at_call new i (by rw [h2]; exact (List.getElem?_eq_some_iff.mp hi).1)
  obtain ⟨p', j1, -, j3⟩ := h4 l s m rest hl
  rw [hn, hi] at j1
  cases j1
  exact keepsContent_same j3 (hb _ _)

theorem apply_subs : ∀ (os : List SubOp) (t : EvState Message), (os.foldl SubOp.apply t).subs = subsAfter t.subs os
  | [], t => rfl
  | o :: os, t => by
    rw [List.foldl_cons, apply_subs os]
    cases o with
    | register n => rw [SubOp.apply, (register_subs t n).1]; rfl
    | «subscribe» n s =>
      have e : (SubOp.apply t (.subscribe n s)).subs = fun k => if k = n then t.subs k ++ [s] else t.subs k := by
        funext k
        show (if k = n then eventSubscribe (t.subs n) s else (register t n).subs k) = _
        rw [(register_subs t n).1]
        by_cases hk : k = n
        · simp [hk, eventSubscribe]
        · simp [hk]
      rw [e]; rfl
    | «unsubscribe» n s =>
      have he : (eventUnsubscribe (t.subs n) s).2 = (t.subs n).erase s := by
        unfold eventUnsubscribe
        split
        · rfl
        · rename_i hs; exact (List.erase_of_not_mem hs).symm
      have e : (SubOp.apply t (.unsubscribe n s)).subs = fun k => if k = n then (t.subs k).erase s else t.subs k := by
        funext k
        show (if k = n then (eventUnsubscribe (t.subs n) s).2 else t.subs k) = _
        rw [he]
        by_cases hk : k = n
        · simp [hk]
        · simp [hk]
      rw [e]; rfl

theorem subsAfter_append : ∀ (a b : List SubOp) (subs : String → List Sub), subsAfter subs (a ++ b) = subsAfter (subsAfter subs a) b
  | [], b, subs => rfl
  | .register _ :: a, b, subs => subsAfter_append a b _
  | .subscribe _ _ :: a, b, subs => subsAfter_append a b _
  | .unsubscribe _ _ :: a, b, subs => subsAfter_append a b _

theorem delivers_run (env : DEnv) (ps : List RProg) (m : Message) (st : DState) :
    deliveredMessages (handleObj env (fun _ => ps) m st).2.trace = deliveredMessages st.trace := by
  refine handleObj_preserves (P := fun s => deliveredMessages s.trace = deliveredMessages st.trace) ⟨?_, ?_, ?_⟩ (fun _ => ps) m st rfl
  · intro s r v _ h; exact h
  · intro s m h
    simp only [DState.log]
    unfold deliveredMessages at h ⊢
    rw [List.filterMap_append, h]
    exact List.append_nil _
  · intro s m r mode h
    exact (transmit_hands env s m r mode).2.trans h

/-- The message handler in one reception. -/
theorem receiveX_log (env : DEnv) (beh : XBehaviour) (fuel : Nat) (st st' : XState) (r : HostRef) (dg : Bytes) (x : Py (Option Message))
    (h : receiveX env beh fuel st r dg = (some x, st')) :
    (deliveredMessages st'.d.trace = deliveredMessages st.d.trace ∧ st'.log = st.log ∧ st'.ev = st.ev) ∨
    ∃ (m m' : Message) (y : Py Unit) (new : List HandlerEv), deliveredMessages st'.d.trace = deliveredMessages st.d.trace ++ [m] ∧ x = y.map (fun _ => some m') ∧
      st'.log = st.log ++ new ∧ st'.ev = (changesIn new).foldl SubOp.apply st.ev ∧
      (∀ l s mj rest, new = l ++ .called s mj :: rest → (((changesIn l).foldl SubOp.apply st.ev).subs m.name)[(calledIn l).length]? = some s) ∧
      ((new = [] ∧ y = .ok () ∧ (m.name ∈ st.ev.names → st.ev.subs m.name = [])) ∨
        (m.name ∈ st.ev.names ∧ st.ev.subs m.name ≠ []) ∧ ∃ since r, new = .started m.name :: since ++ [.ended r] ∧ OnlyCalls since ∧
          (∃ s rest, since = .called s m :: rest) ∧ y = (if r = .error .keyError then .ok () else r) ∧
          (r = .ok () → (st'.ev.subs m.name).length ≤ (calledIn since).length)) := by
  rcases receiveX_cases env beh fuel st r dg with ⟨x', d, h1, h2, h3⟩ | ⟨m, d, h1, h2, h3⟩
  · rw [h1] at h
    cases h
    exact .inl ⟨h3, rfl, rfl⟩
  · rw [h1] at h
    generalize hz : handleX env beh fuel m { st with d := d } = z at h
    obtain ⟨z1, z2, z3⟩ := z
    cases z1 with
    | none => cases h
    | some y =>
      obtain ⟨ps, new, i1, i2, i3, i4, i5, i6⟩ := handleX_realised env beh fuel m { st with d := d } y z2 z3 hz
      have hx : x = y.map (fun _ => some z2) ∧ st' = z3 := by
        cases y <;> (cases h; exact ⟨rfl, rfl⟩)
      obtain ⟨rfl, rfl⟩ := hx
      refine .inr ⟨m, z2, y, new, ?_, rfl, i1, i2, fun l s mj rest hl => ?_, ?_⟩
      · have := delivers_run env ps m d
        simp only at i3
        rw [i3] at this
        exact this.trans h3
      · obtain ⟨p, dj, -, -, -, j4⟩ := i5 l s mj rest hl
        exact j4
      · rcases i6 with ⟨h5, h6⟩ | h6
        · subst h5
          refine .inl ⟨rfl, ?_, h6⟩
          have hp : ps = [] := List.length_eq_zero_iff.mp i4.symm
          rw [hp] at i3
          have : handleObj env (fun _ => []) m d = (.ok (some m), d) := rfl
          simp only at i3
          rw [this] at i3
          cases y with
          | ok u => rfl
          | error e => cases i3
        · exact .inr h6

/-- What must hold of the events at the message handler before a call and before the end of the calls. -/
def HandlerStepOk (subs : String → List Sub) (p : List HandlerEv) : HandlerEv → Prop
  | .called s _ => ∃ n calls, InProgress p n calls ∧ (subsAfter subs (changesIn p) n)[calls.length]? = some s
  | .ended r => ∃ n calls, InProgress p n calls ∧ (r = .ok () → (subsAfter subs (changesIn p) n).length ≤ calls.length)
  | _ => True

def HandlerLogOk (subs : String → List Sub) (l : List HandlerEv) : Prop := ∀ p e q, l = p ++ e :: q → HandlerStepOk subs p e

theorem HandlerLogOk.append {subs : String → List Sub} {l new : List HandlerEv} (h : HandlerLogOk subs l) (hn : ∀ p e q, new = p ++ e :: q → HandlerStepOk subs (l ++ p) e) :
    HandlerLogOk subs (l ++ new) := by
  intro p e q hl
  rcases List.append_eq_append_iff.mp hl with ⟨a, h1, h2⟩ | ⟨a, h1, h2⟩
  · rw [h1]; exact hn a e q h2
  · cases a with
    | nil =>
      rw [List.append_nil] at h1
      have := hn [] e q (by rw [h2]; rfl)
      rw [List.append_nil, h1] at this
      exact this
    | cons e' a =>
      rw [List.cons_append] at h2
      obtain ⟨rfl, h3⟩ := List.cons.inj h2
      exact h p e a h1

theorem stepX_log (env : DEnv) (beh : XBehaviour) (fuel : Nat) (subs : String → List Sub) (st st' : XState) (o : XOp) (h : stepX env beh fuel st o = some st')
    (hs : st.ev.subs = subsAfter subs (changesIn st.log)) (hl : HandlerLogOk subs st.log) : st'.ev.subs = subsAfter subs (changesIn st'.log) ∧ HandlerLogOk subs st'.log := by
  cases o with
  | op o => cases h; exact ⟨hs, hl⟩
  | subs o =>
    cases h
    refine ⟨?_, hl.append ?_⟩
    · show (o.apply st.ev).subs = subsAfter subs (changesIn (st.log ++ [.changed o]))
      have := apply_subs [o] st.ev
      rw [changesIn_append, subsAfter_append, ← hs]
      exact this
    · intro p e q hp
      cases p with
      | nil => cases hp; exact trivial
      | cons e' p =>
        rw [List.cons_append] at hp
        obtain ⟨-, h3⟩ := List.cons.inj hp
        exact absurd h3 (by simp)
  | recv r dg =>
    simp only [stepX] at h
    generalize hx : receiveX env beh fuel st r dg = y at h
    obtain ⟨y1, y2⟩ := y
    cases y1 with
    | none => cases h
    | some x =>
      cases h
      rcases receiveX_log env beh fuel st st' r dg x hx with ⟨-, h1, h2⟩ | ⟨m, m', y, new, -, -, h1, h2, h3, h4⟩
      · rw [h1, h2]; exact ⟨hs, hl⟩
      · have hsub : st'.ev.subs = subsAfter subs (changesIn (st.log ++ new)) := by rw [h2, apply_subs, changesIn_append, subsAfter_append, ← hs]
        refine ⟨by rw [h1]; exact hsub, ?_⟩
        rw [h1]
        rcases h4 with ⟨rfl, -⟩ | ⟨-, since, r', h5, h6, -, -, h7⟩
        · rw [List.append_nil]; exact hl
        refine hl.append fun p e q hp => ?_
        have prog : ∀ p1 rest, since = p1 ++ rest → InProgress (st.log ++ .started m.name :: p1) m.name (calledIn p1) := fun p1 rest hp1 =>
          ⟨st.log, p1, rfl, rfl, fun e he => h6 e (by rw [hp1]; exact List.mem_append_left _ he)⟩
        have h8 : HandlerEv.started m.name :: since ++ [.ended r'] = p ++ e :: q := h5.symm.trans hp
        cases p with
        | nil => cases h8; exact trivial
        | cons e' p1 =>
          rw [List.cons_append, List.cons_append] at h8
          obtain ⟨rfl, h9⟩ := List.cons.inj h8
          rcases List.append_eq_append_iff.mp h9 with ⟨a, h10, h11⟩ | ⟨a, h10, h11⟩
          · -- at or after the end
            cases a with
            | nil =>
              rw [List.append_nil] at h10
              cases h11
              subst h10
              refine ⟨m.name, calledIn p1, prog p1 [] (List.append_nil _).symm, fun hr => ?_⟩
              have h12 := h7 hr
              rw [hsub, h5] at h12
              have : changesIn (st.log ++ (HandlerEv.started m.name :: p1 ++ [.ended r'])) = changesIn (st.log ++ HandlerEv.started m.name :: p1) := by
                rw [← List.append_assoc, changesIn_append]
                exact List.append_nil _
              rw [this] at h12
              exact h12
            | cons e'' a =>
              rw [List.cons_append] at h11
              obtain ⟨-, h12⟩ := List.cons.inj h11
              exact absurd h12 (by simp)
          · cases a with
            | nil =>
              rw [List.append_nil] at h10
              rw [List.nil_append] at h11
              obtain ⟨rfl, rfl⟩ := List.cons.inj h11
              subst h10
              refine ⟨m.name, calledIn since, prog since [] (List.append_nil _).symm, fun hr => ?_⟩
              have h12 := h7 hr
              rw [hsub, h5] at h12
              have : changesIn (st.log ++ (HandlerEv.started m.name :: since ++ [.ended r'])) = changesIn (st.log ++ HandlerEv.started m.name :: since) := by
                rw [← List.append_assoc, changesIn_append]
                exact List.append_nil _
              rw [this] at h12
              exact h12
            | cons e'' a =>
              rw [List.cons_append] at h11
              obtain ⟨rfl, h12⟩ := List.cons.inj h11
              cases e with
              | called s mj =>
                refine ⟨m.name, calledIn p1, prog p1 _ h10, ?_⟩
                have h13 := h3 _ s mj q hp
                rw [apply_subs, hs, ← subsAfter_append, ← changesIn_append] at h13
                exact h13
              | started n => exact trivial
              | changed o => exact trivial
              | ended r'' =>
                have := h6 (.ended r'') (by rw [h10]; simp)
                rcases this with ⟨s, m, h⟩ | ⟨o, h⟩ <;> cases h

theorem runX_log (env : DEnv) (beh : XBehaviour) (fuel : Nat) (subs : String → List Sub) : ∀ (ops : List XOp) (st st' : XState), runX env beh fuel st ops = some st' →
    st.ev.subs = subsAfter subs (changesIn st.log) → HandlerLogOk subs st.log → HandlerLogOk subs st'.log
  | [], st, st', h, _, hl => by cases h; exact hl
  | o :: ops, st, st', h, hs, hl => by
    unfold runX at h
    cases ho : stepX env beh fuel st o with
    | none => rw [ho] at h; cases h
    | some s =>
      rw [ho] at h
      obtain ⟨h1, h2⟩ := stepX_log env beh fuel subs st s o ho hs hl
      exact runX_log env beh fuel subs ops s st' h h1 h2

theorem handlerLogOk_nil (subs : String → List Sub) : HandlerLogOk subs [] := fun p e q h => absurd h (by simp)

/-- **C116, by position.** In every history, whatever the client and the subscribers do to subscriptions: a call is made while the subscribers of a name are being called, and its subscription is the one that is at
that moment in the list of the name at the position which is the number of calls made for it so far. -/
theorem C116_by_position (env : DEnv) (beh : XBehaviour) (fuel : Nat) (d : DState) (ev : EvState Message) (ops : List XOp) (st : XState)
    (h : runX env beh fuel ⟨d, ev, []⟩ ops = some st) (p q : List HandlerEv) (s : Sub) (m : Message) (hl : st.log = p ++ .called s m :: q) :
    ∃ n calls, InProgress p n calls ∧ (subsAfter ev.subs (changesIn p) n)[calls.length]? = some s :=
  runX_log env beh fuel ev.subs ops _ st h rfl (handlerLogOk_nil _) p _ q hl

/-- **C116, to the end.** The calls end when a subscriber has raised or as many calls were made as there are then subscriptions in the list. -/
theorem C116_to_the_end (env : DEnv) (beh : XBehaviour) (fuel : Nat) (d : DState) (ev : EvState Message) (ops : List XOp) (st : XState)
    (h : runX env beh fuel ⟨d, ev, []⟩ ops = some st) (p q : List HandlerEv) (r : Py Unit) (hl : st.log = p ++ .ended r :: q) :
    ∃ n calls, InProgress p n calls ∧ (r = .ok () → (subsAfter ev.subs (changesIn p) n).length ≤ calls.length) :=
  runX_log env beh fuel ev.subs ops _ st h rfl (handlerLogOk_nil _) p _ q hl

/-- **C116, beginning and end.** A reception hands over one message or none.  If it hands over one whose name is registered and has subscribers, these begin to be called, the first with the message as it was
received; the calls end; and `receive_check` returns a message, or raises what a subscriber raised and is not a `KeyError`.  Otherwise nothing happens at the message handler. -/
theorem C116_started (env : DEnv) (beh : XBehaviour) (fuel : Nat) (st st' : XState) (r : HostRef) (dg : Bytes) (x : Py (Option Message))
    (h : receiveX env beh fuel st r dg = (some x, st')) :
    (deliveredMessages st'.d.trace = deliveredMessages st.d.trace ∧ st'.log = st.log) ∨
    ∃ m, deliveredMessages st'.d.trace = deliveredMessages st.d.trace ++ [m] ∧
      if m.name ∈ st.ev.names ∧ st.ev.subs m.name ≠ [] then
        ∃ s since y, st'.log = st.log ++ .started m.name :: .called s m :: since ++ [.ended y] ∧
          (∀ e ∈ since, (∃ s m, e = .called s m) ∨ ∃ o, e = .changed o) ∧
          (match y with
            | .error e => if e = .keyError then ∃ m', x = .ok (some m') else x = .error e
            | .ok _ => ∃ m', x = .ok (some m'))
      else st'.log = st.log ∧ ∃ m', x = .ok (some m') := by
  rcases receiveX_log env beh fuel st st' r dg x h with ⟨h0, h1, -⟩ | ⟨m, m', y, new, h0, hx, h1, -, -, h4⟩
  · exact .inl ⟨h0, h1⟩
  · refine .inr ⟨m, h0, ?_⟩
    rcases h4 with ⟨rfl, rfl, h5⟩ | ⟨hc, since, z, h5, h6, ⟨s, rest, rfl⟩, h7, -⟩
    · rw [if_neg (by rintro ⟨a, b⟩; exact b (h5 a))]
      exact ⟨by rw [h1, List.append_nil], m', hx⟩
    · rw [if_pos hc]
      refine ⟨s, rest, z, by rw [h1, h5]; simp, fun e he => h6 e (List.mem_cons_of_mem _ he), ?_⟩
      cases z with
      | ok u =>
        rw [if_neg (by intro hh; cases hh)] at h7
        subst h7
        exact ⟨m', hx⟩
      | error e =>
        simp only
        by_cases he : e = .keyError
        · rw [if_pos he]
          rw [if_pos (by rw [he])] at h7
          subst h7
          exact ⟨m', hx⟩
        · rw [if_neg he]
          rw [if_neg (by intro hh; cases hh; exact he rfl)] at h7
          subst h7
          exact hx

/-- **C116, in order.** If nobody works on subscriptions during a reception, the subscriptions to the name are called in their order, up to the one that raises, and all of them if none does. -/
theorem C116_in_order (env : DEnv) (beh : XBehaviour) (fuel : Nat) (st st' : XState) (r : HostRef) (dg : Bytes) (x : Py (Option Message))
    (h : receiveX env beh fuel st r dg = (some x, st')) (new : List HandlerEv) (hl : st'.log = st.log ++ new) (hc : changesIn new = []) (n : String) (hn : .started n ∈ new) :
    (calledIn new).map (·.1) <+: st.ev.subs n ∧ (.ended (.ok ()) ∈ new → (calledIn new).map (·.1) = st.ev.subs n) := by
  have noch : ∀ l rest, new = l ++ rest → changesIn l = [] := by
    intro l rest h
    rw [h, changesIn_append] at hc
    exact (List.append_eq_nil_iff.mp hc).1
  rcases receiveX_log env beh fuel st st' r dg x h with ⟨-, h1, -⟩ | ⟨m, m', y, new', -, -, h1, h2, h3, h4⟩
  · rw [h1] at hl
    have : new = [] := by simpa using hl
    rw [this] at hn; cases hn
  · have : new' = new := List.append_cancel_left (h1.symm.trans hl)
    subst this
    rw [hc] at h2
    rcases h4 with ⟨rfl, -⟩ | ⟨-, since, z, h5, h6, -, -, h7⟩
    · cases hn
    · have hname : n = m.name := by
        rw [h5] at hn
        rcases List.mem_append.mp hn with hn | hn
        · rcases List.mem_cons.mp hn with hn | hn
          · cases hn; rfl
          · rcases h6 _ hn with ⟨s, m, h⟩ | ⟨o, h⟩ <;> cases h
        · rcases List.mem_singleton.mp hn with h
          cases h
      subst hname
      have hpos : ∀ i, i < (calledIn new').length → ((calledIn new').map (·.1))[i]? = (st.ev.subs m.name)[i]? := by
        intro i hi
        obtain ⟨l, s, mj, rest, hl1, hl2⟩ := split_at_call new' i hi
        have h8 := h3 l s mj rest hl1
        rw [noch l _ hl1, hl2] at h8
        rw [hl1, calledIn_append, List.map_append, List.getElem?_append_right (by simp [hl2])]
        simp only [List.length_map, hl2, Nat.sub_self]
        exact h8.symm
      have hpre : (calledIn new').map (·.1) <+: st.ev.subs m.name := by
        rw [List.prefix_iff_eq_take]
        apply List.ext_getElem?
        intro i
        rw [List.getElem?_take, List.length_map]
        split
        · rename_i hi; exact hpos i hi
        · rename_i hi
          exact List.getElem?_eq_none_iff.mpr (by simp; omega)
      refine ⟨hpre, fun he => ?_⟩
      have hz : z = .ok () := by
        rw [h5] at he
        rcases List.mem_append.mp he with he | he
        · rcases List.mem_cons.mp he with he | he
          · cases he
          · rcases h6 _ he with ⟨s, m, h⟩ | ⟨o, h⟩ <;> cases h
        · have := List.mem_singleton.mp he
          cases this; rfl
      have h8 := h7 hz
      rw [h2] at h8
      have h9 : calledIn new' = calledIn since := by
        rw [h5]
        have : calledIn (.started m.name :: since ++ [.ended z]) = calledIn (since ++ [.ended z]) := rfl
        rw [this, calledIn_append]; exact List.append_nil _
      refine hpre.eq_of_length_le ?_
      rw [List.length_map, h9]
      exact h8

theorem run_shorter (env : DEnv) {p : XProg} (h : SubscribesNothing p) : ∀ (m : Message) (st : XState) (n : String),
    ((p.run env m st).2.2.ev.subs n).length ≤ (st.ev.subs n).length := by
  induction h with
  | done => intro m st n; exact Nat.le_refl _
  | raise e => intro m st n; exact Nat.le_refl _
  | look k _ ih => intro m st n; exact ih m m st n
  | write m' k _ ih => intro m st n; exact ih m' st n
  | send m' r mode k _ ih => intro m st n; rw [XProg.run]; exact ih _ m _ n
  | forward r mode k _ ih => intro m st n; rw [XProg.run]; exact ih _ _ _ n
  | setHost r v k _ ih => intro m st n; rw [XProg.run]; exact ih m _ n
  | «unsubscribe» n' s k _ ih =>
    intro m st n
    rw [XProg.run]
    refine Nat.le_trans (ih _ m _ n) ?_
    have := apply_subs [.unsubscribe n' s] st.ev
    have e : (st.change (.unsubscribe n' s)).ev.subs = subsAfter st.ev.subs [.unsubscribe n' s] := this
    rw [e]
    show (if n = n' then (st.ev.subs n).erase s else st.ev.subs n).length ≤ _
    split
    · exact List.length_erase_le
    · exact Nat.le_refl _
  | «register» n' k _ ih =>
    intro m st n
    rw [XProg.run]
    refine Nat.le_trans (ih m _ n) ?_
    have := apply_subs [.register n'] st.ev
    have e : (st.change (.register n')).ev.subs = subsAfter st.ev.subs [.register n'] := this
    rw [e]
    exact Nat.le_refl _

theorem notifyX_returns (env : DEnv) (beh : XBehaviour) (hb : ∀ tr l, SubscribesNothing (beh tr l)) (name : String) : ∀ (fuel i : Nat) (m : Message) (st : XState),
    0 < fuel → (st.ev.subs name).length < i + fuel → (notifyX env beh name fuel i m st).1.isSome = true ∧
      ∀ n, ((notifyX env beh name fuel i m st).2.2.ev.subs n).length ≤ (st.ev.subs n).length
  | 0, i, m, st, h0, h => absurd h0 (Nat.lt_irrefl 0)
  | fuel + 1, i, m, st, h0, h => by
    unfold notifyX
    split
    · exact ⟨rfl, fun n => Nat.le_refl _⟩
    · rename_i s hs
      have hi : i < (st.ev.subs name).length := (List.getElem?_eq_some_iff.mp hs).1
      simp only
      have h1 := run_shorter env (hb st.d.trace (st.log ++ [.called s m])) m { st with log := st.log ++ [.called s m] }
      generalize (beh st.d.trace (st.log ++ [.called s m])).run env m { st with log := st.log ++ [.called s m] } = y at *
      obtain ⟨y1, y2, y3⟩ := y
      cases y1 with
      | error e => exact ⟨rfl, h1⟩
      | ok u =>
        obtain ⟨h2, h3⟩ := notifyX_returns env beh hb name fuel (i + 1) y2 y3 (by omega) (by have := h1 name; simp only at this; omega)
        exact ⟨h2, fun n => Nat.le_trans (h3 n) (h1 n)⟩

theorem receiveX_returns (env : DEnv) (beh : XBehaviour) (hb : ∀ tr l, SubscribesNothing (beh tr l)) (fuel : Nat) (st : XState) (r : HostRef) (dg : Bytes)
    (hf : ∀ n, (st.ev.subs n).length < fuel) : (receiveX env beh fuel st r dg).1.isSome = true ∧
      ∀ n, ((receiveX env beh fuel st r dg).2.ev.subs n).length ≤ (st.ev.subs n).length := by
  rcases receiveX_cases env beh fuel st r dg with ⟨x', d, h1, -, -⟩ | ⟨m, d, h1, -, -⟩
  · rw [h1]; exact ⟨rfl, fun n => Nat.le_refl _⟩
  · have key : (handleX env beh fuel m { st with d := d }).1.isSome = true ∧
        ∀ n, ((handleX env beh fuel m { st with d := d }).2.2.ev.subs n).length ≤ (st.ev.subs n).length := by
      unfold handleX
      split
      · split
        · rename_i hpos
          have := notifyX_returns env beh hb m.name fuel 0 m { st with d := d, log := st.log ++ [.started m.name] }
            (Nat.lt_of_le_of_lt (Nat.zero_le _) (hf m.name)) (by rw [Nat.zero_add]; exact hf m.name)
          simp only at this ⊢
          generalize notifyX env beh m.name fuel 0 m _ = z at *
          obtain ⟨z1, z2, z3⟩ := z
          obtain ⟨t1, t2⟩ := this
          cases z1 with
          | none => cases t1
          | some x => cases x <;> exact ⟨rfl, t2⟩
        · exact ⟨rfl, fun n => Nat.le_refl _⟩
      · exact ⟨rfl, fun n => Nat.le_refl _⟩
    rw [h1]
    generalize handleX env beh fuel m { st with d := d } = z at *
    obtain ⟨z1, z2, z3⟩ := z
    obtain ⟨t1, t2⟩ := key
    cases z1 with
    | none => cases t1
    | some x => cases x <;> exact ⟨rfl, t2⟩

/-- **C116, it returns.** If no subscriber subscribes anything (it may cancel subscriptions, change the message and send), every reception returns: no handler runs forever. -/
theorem C116_returns (env : DEnv) (beh : XBehaviour) (hb : ∀ tr l, SubscribesNothing (beh tr l)) (N fuel : Nat) (hfuel : N < fuel) : ∀ (ops : List XOp) (st : XState),
    (∀ n, (st.ev.subs n).length + ops.length ≤ N) → (runX env beh fuel st ops).isSome = true
  | [], st, _ => rfl
  | o :: ops, st, h => by
    unfold runX
    cases o with
    | op o => exact C116_returns env beh hb N fuel hfuel ops _ (fun n => by have := h n; simp only [List.length_cons] at this; simp only; omega)
    | subs o =>
      refine C116_returns env beh hb N fuel hfuel ops _ (fun n => ?_)
      have h1 := h n
      simp only [List.length_cons] at h1
      have e : (st.change o).ev.subs = subsAfter st.ev.subs [o] := apply_subs [o] st.ev
      rw [e]
      have h2 : (subsAfter st.ev.subs [o] n).length ≤ (st.ev.subs n).length + 1 := by
        cases o with
        | register n' => exact Nat.le_succ _
        | «subscribe» n' s =>
          show (if n = n' then st.ev.subs n ++ [s] else st.ev.subs n).length ≤ _
          split
          · rw [List.length_append]; exact Nat.le_refl _
          · exact Nat.le_succ _
        | «unsubscribe» n' s =>
          show (if n = n' then (st.ev.subs n).erase s else st.ev.subs n).length ≤ _
          split
          · exact Nat.le_succ_of_le List.length_erase_le
          · exact Nat.le_succ _
      omega
    | recv r dg =>
      obtain ⟨h1, h2⟩ := receiveX_returns env beh hb fuel st r dg (fun n => by have := h n; omega)
      simp only [stepX]
      generalize receiveX env beh fuel st r dg = z at *
      obtain ⟨z1, z2⟩ := z
      cases z1 with
      | none => cases h1
      | some x => exact C116_returns env beh hb N fuel hfuel ops z2 (fun n => by
          have := h n
          have := h2 n
          simp only [List.length_cons] at *
          omega)

/-- The subscribers of the example: the first (handler 1) sends the message on to host 1, renames it and cancels its own subscription; the third (handler 3) raises `KeyError` if the message is still called
"Demo"; the others do nothing. -/
def oneShot : XBehaviour := fun _ l =>
  match l.getLast? with
  | some (.called s _) =>
    if s.handler = 1 then .forward 1 (.reliable 3) (fun _ => .look (fun m => .write { m with name := "Other" } (.unsubscribe "Demo" ⟨1, [], []⟩ (fun _ => .done))))
    else if s.handler = 3 then .look (fun m => if m.name = "Demo" then .raise .keyError else .done)
    else .done
  | _ => .done

/-- The same datagram twice: the first time, subscriber 1 is called and is gone afterwards, so that subscriber 2 has moved to its place and is left out, and subscriber 3 gets the changed message (which is also returned, and
has the packet id of the packet sent on); the second time, subscribers 2 and 3 are called with the message as it was received.  Both ids are queued. -/
example :
    let subs : EvState Message := { names := ["Demo"], subs := fun n => if n = "Demo" then [⟨1, [], []⟩, ⟨2, [], []⟩, ⟨3, [], []⟩] else [] }
    let dg : UInt8 → Bytes := fun id => [0x50, 0, 0, 0, id, 0, 0xff, 0xff, 1, 44, 77, 0, 0, 0, 3, 104, 105, 0, 2, 1, 0, 2, 0, 7, 0, 0, 0, 1]
    let st : XState := ⟨DState.init dispHosts, subs, []⟩
    let x := receiveX dispEnv oneShot 10 st 0 (dg 9)
    (x.1.bind (·.toOption)).bind (·.map (fun m => (m.name, m.packetId))) = some ("Other", 1) ∧
    (runX dispEnv oneShot 10 st [.recv 0 (dg 9), .recv 0 (dg 10)]).map (fun st => (calledIn st.log).map (fun c => (c.1.handler, c.2.name, c.2.packetId))) =
      some [(1, "Demo", 9), (3, "Other", 1), (2, "Demo", 10), (3, "Demo", 10)] ∧
    (runX dispEnv oneShot 10 st [.recv 0 (dg 9), .recv 0 (dg 10)]).map (fun st => (changesIn st.log, pending st.d (dispAddr 0), st.log.length)) =
      some ([.unsubscribe "Demo" ⟨1, [], []⟩], [9, 10], 9) ∧
    (runX dispEnv oneShot 10 st [.recv 0 (dg 9), .recv 0 (dg 10)]).map (fun st => (st.log.filter (fun e => match e with | .ended _ => true | _ => false))) =
      some [.ended (.ok ()), .ended (.error .keyError)] := by decide +kernel

/-- The condition of `C116_content`; and one subscriber that does not meet it. -/
example : KeepsContent (.forward 1 (.reliable 3) (fun _ => .unsubscribe "Demo" ⟨1, [], []⟩ (fun _ => .subscribe "Demo" ⟨2, [], []⟩ .done))) ∧
    ¬ KeepsContent (.write demoMessage .done) :=
  ⟨.forward _ _ _ fun _ => .unsubscribe _ _ _ fun _ => .subscribe _ _ _ .done, fun h => (nomatch h)⟩

theorem oneShot_subscribesNothing (tr : List Ev) (l : List HandlerEv) : SubscribesNothing (oneShot tr l) := by
  unfold oneShot
  split
  · split
    · exact .forward _ _ _ fun _ => .look _ fun _ => .write _ _ (.unsubscribe _ _ _ fun _ => .done)
    · split
      · refine .look _ fun m => ?_
        split
        · exact .raise _
        · exact .done
      · exact .done
  · exact .done

theorem notifyX_forever (env : DEnv) (name : String) (s : Sub) : ∀ (fuel i : Nat) (m : Message) (st : XState), i < (st.ev.subs name).length →
    (notifyX env (fun _ _ => .subscribe name s .done) name fuel i m st).1 = none
  | 0, i, m, st, _ => rfl
  | fuel + 1, i, m, st, h => by
    unfold notifyX
    rw [List.getElem?_eq_getElem h]
    simp only [XProg.run]
    refine notifyX_forever env name s fuel (i + 1) m _ ?_
    have e : (({ st with log := st.log ++ [.called (st.ev.subs name)[i] m] } : XState).change (.subscribe name s)).ev.subs = subsAfter st.ev.subs [.subscribe name s] :=
      apply_subs [.subscribe name s] st.ev
    rw [e]
    show i + 1 < (if name = name then st.ev.subs name ++ [s] else st.ev.subs name).length
    rw [if_pos rfl, List.length_append]
    exact Nat.succ_lt_succ h

/-- **C116, it need not return.** If a message is handed over whose subscribers each subscribe something to its name, `receive_check` does not return: for no fuel do the calls end. -/
theorem C116_forever (env : DEnv) (hp : env.handlePackets = true) (st : XState) (r : HostRef) (dg : Bytes) (m : Message)
    (hd : (deserialize { env.deser st.d.trace with handled? := some st.ev.names } st.d.deser dg).1 = .ok (some m))
    (ht : ∀ c, st.d.circuits.get? (st.d.hosts r).addr = some c → c.trusted = false) (hreg : m.name ∈ st.ev.names) (hne : st.ev.subs m.name ≠ []) (s : Sub) (fuel : Nat) :
    (receiveX env (fun _ _ => .subscribe m.name s .done) fuel st r dg).1 = none := by
  have hlen : 0 < dg.length := by have := deserialize_long hd; omega
  obtain ⟨hh, htr, _, _, _, hde, hg, hc⟩ := findCircuit_fields st.d r
  have hct : (findCircuit st.d r).2.trusted = false := by
    rw [hc]
    cases hx : st.d.circuits.get? (st.d.hosts r).addr with
    | none => rfl
    | some c => exact ht c hx
  have hpos : 0 < (st.ev.subs m.name).length := List.length_pos_iff.mpr hne
  have key : ∀ d, (handleX env (fun _ _ => .subscribe m.name s .done) fuel m { st with d := d }).1 = none := by
    intro d
    have h := notifyX_forever env m.name s fuel 0 m { st with d := d, log := st.log ++ [.started m.name] } hpos
    unfold handleX
    simp only at h ⊢
    rw [if_pos hreg, if_pos hpos]
    generalize notifyX env _ m.name fuel 0 m _ = z at *
    obtain ⟨z1, z2, z3⟩ := z
    simp only at h
    subst h
    rfl
  unfold receiveX
  simp only [hlen, if_true, htr, hde, hd, hct, Bool.false_and, Bool.false_eq_true, if_false, hp]
  generalize hst2 : DState.log _ (Ev.delivered m) = d
  have h := key d
  generalize handleX env _ fuel m { st with d := d } = z at *
  obtain ⟨z1, z2, z3⟩ := z
  simp only at h
  subst h
  rfl

/-- A subscriber that does subscribe something each time it is called: the calls do not end (`C116_forever`, here with fuel 20). -/
example : ¬ SubscribesNothing (.subscribe "Demo" ⟨1, [], []⟩ .done) ∧
    (receiveX dispEnv (fun _ _ => .subscribe "Demo" ⟨1, [], []⟩ .done) 20
      ⟨DState.init dispHosts, { names := ["Demo"], subs := fun n => if n = "Demo" then [⟨1, [], []⟩] else [] }, []⟩ 0
      [0x50, 0, 0, 0, 9, 0, 0xff, 0xff, 1, 44, 77, 0, 0, 0, 3, 104, 105, 0, 2, 1, 0, 2, 0, 7, 0, 0, 0, 1]).1 = none :=
  ⟨fun h => (nomatch h), by decide +kernel⟩

end Pyogp
