import Verif.Spec.BothRoads
import Verif.Proofs.UdpSubscribers
import Verif.Props.EqSubscribers

/-!
# One message handler for both roads: the event queue and the dispatcher are those of the other properties
-/

namespace Pyogp
open Spec

/-! ## A poll: what it posts and which messages it brings -/

/-- The client when the messages of a reply are about to be handed over. -/
def pollBase (st : EqState) (o : PollOutcome) : EqState :=
  let st := { st with posts := st.posts ++ [pollData st.lastId] }
  let st := match o with
    | .response v => { st with result := v }
    | .failure _ => st
  if st.result = .undef then { st with lastId := .int (-1) }
  else match llsdItem st.result "id" with
    | .ok i => { st with lastId := i }
    | .error _ => st

/-- These messages. -/
def pollMsgs (d : TemplateDict) (st : EqState) (o : PollOutcome) : List Message :=
  let v := match o with
    | .response v => v
    | .failure _ => st.result
  if v = .undef then []
  else match llsdItem v "id" with
    | .ok i => match decodeEqResult d i v with
      | .ok ms => ms
      | .error _ => []
    | .error _ => []

theorem pollBase_delivered (st : EqState) (o : PollOutcome) : (pollBase st o).delivered = st.delivered := by
  unfold pollBase
  cases o with
  | response v =>
    simp only
    split
    · rfl
    · cases llsdItem v "id" <;> rfl
  | failure e =>
    simp only
    split
    · rfl
    · cases llsdItem st.result "id" <;> rfl

theorem eqPoll_parts (d : TemplateDict) (h : EqHandler) (st : EqState) (o : PollOutcome) :
    eqPoll d h st o = { pollBase st o with delivered := deliverAll h (pollMsgs d st o) st.delivered } := by
  have key : ∀ (v : Llsd) (st : EqState), st.result = v →
      (if st.result = .undef then parseResult d h { st with lastId := .int (-1) } st.result
        else match llsdItem st.result "id" with
          | .ok i => parseResult d h { st with lastId := i } st.result
          | .error _ => st) =
      { (if st.result = .undef then { st with lastId := .int (-1) }
        else match llsdItem st.result "id" with
          | .ok i => { st with lastId := i }
          | .error _ => st) with
        delivered := deliverAll h (if v = .undef then []
          else match llsdItem v "id" with
            | .ok i => match decodeEqResult d i v with
              | .ok ms => ms
              | .error _ => []
            | .error _ => []) st.delivered } := by
    intro v st hv
    rw [hv]
    unfold parseResult
    by_cases hu : v = .undef
    · simp only [if_pos hu, deliverAll]
    · simp only [if_neg hu]
      cases llsdItem v "id" with
      | error e => rfl
      | ok i =>
        simp only
        cases decodeEqResult d i v <;> rfl
  unfold eqPoll pollBase pollMsgs
  cases o with
  | response v => exact key v _ rfl
  | failure e => exact key st.result { st with posts := st.posts ++ [pollData st.lastId] } rfl

theorem pollBoth_split (env : DEnv) (d : TemplateDict) (beh : SBehaviour) (fuel : Nat) (st : BothState) (o : PollOutcome) :
    pollBoth env d beh fuel st o = deliverBoth env beh fuel (pollMsgs d st.eq o) { st with eq := pollBase st.eq o } := by
  have key : ∀ (v : Llsd) (eq : EqState), eq.result = v →
      (if eq.result = .undef then parseResultBoth env d beh fuel { st with eq := { eq with lastId := .int (-1) } } eq.result
        else match llsdItem eq.result "id" with
          | .ok i => parseResultBoth env d beh fuel { st with eq := { eq with lastId := i } } eq.result
          | .error _ => some { st with eq := eq }) =
      deliverBoth env beh fuel (if v = .undef then []
          else match llsdItem v "id" with
            | .ok i => match decodeEqResult d i v with
              | .ok ms => ms
              | .error _ => []
            | .error _ => []) { st with eq := (if eq.result = .undef then { eq with lastId := .int (-1) }
        else match llsdItem eq.result "id" with
          | .ok i => { eq with lastId := i }
          | .error _ => eq) } := by
    intro v eq hv
    rw [hv]
    unfold parseResultBoth
    by_cases hu : v = .undef
    · simp only [if_pos hu, deliverBoth]
    · simp only [if_neg hu]
      cases llsdItem v "id" with
      | error e => rfl
      | ok i =>
        simp only
        cases decodeEqResult d i v <;> rfl
  unfold pollBoth pollBase pollMsgs
  cases o with
  | response v => exact key v _ rfl
  | failure e => exact key st.eq.result { st.eq with posts := st.eq.posts ++ [pollData st.eq.lastId] } rfl

/-! ## The event queue -/

theorem recorded_next {results : List (Py Unit)} {done : List Message} (hl : results.length = done.length) {r : Py Unit} {m : Message} {R : List (Py Unit)}
    (hR : results ++ [r] <+: R) : recorded R (done ++ [m]) = r := by
  obtain ⟨t, rfl⟩ := hR
  unfold recorded
  rw [List.length_append, List.length_singleton, Nat.add_sub_cancel, ← hl]
  simp

/-- What a step does to the event queue, for all that happens later. -/
structure EqStep (st st' : BothState) (f : EqHandler → EqState) : Prop where
  more : st.results <+: st'.results
  len : st'.results.length = st'.eq.delivered.length
  eq : ∀ R, st'.results <+: R → st'.eq = f (recorded R)
  noKey : (∀ r ∈ st.results, r ≠ .error .keyError) → ∀ r ∈ st'.results, r ≠ .error .keyError

theorem deliverBoth_eq (env : DEnv) (beh : SBehaviour) (fuel : Nat) : ∀ (ms : List Message) (st st' : BothState), deliverBoth env beh fuel ms st = some st' →
    st.results.length = st.eq.delivered.length → EqStep st st' (fun h => { st.eq with delivered := deliverAll h ms st.eq.delivered })
  | [], st, st', h, hl => by
    cases h
    exact ⟨List.prefix_rfl, hl, fun R _ => rfl, fun h => h⟩
  | m :: l, st, st', h, hl => by
    unfold deliverBoth at h
    generalize hy : handleSubs beh (sendSubs env beh fuel env.depth) fuel env.depth m st.udp = y at h
    obtain ⟨y, udp⟩ := y
    cases y with
    | none => cases h
    | some r =>
      have hk := (handle_acting (send_realised env beh fuel env.depth) beh fuel env.depth m st.udp udp r hy).2
      have hne : (∀ r ∈ st.results, r ≠ .error .keyError) → ∀ x ∈ st.results ++ [r], x ≠ .error .keyError := by
        intro h0 x hx
        rcases List.mem_append.mp hx with hx | hx
        · exact h0 x hx
        · rw [List.mem_singleton.mp hx]
          exact hk
      cases r with
      | error e =>
        simp only [Option.some.injEq] at h
        subst h
        refine ⟨List.prefix_append _ _, by simp [hl], fun R hR => ?_, hne⟩
        simp only [deliverAll, recorded_next hl hR]
      | ok u =>
        simp only at h
        obtain ⟨h1, h2, h3, h4⟩ := deliverBoth_eq env beh fuel l _ st' h (by simp [hl])
        refine ⟨(List.prefix_append _ _).trans h1, h2, fun R hR => ?_, fun h0 => h4 (hne h0)⟩
        rw [h3 R hR]
        simp only [deliverAll, recorded_next hl (h1.trans hR)]

theorem runBoth_eq (env : DEnv) (d : TemplateDict) (beh : SBehaviour) (fuel : Nat) : ∀ (ops : List BOp) (st st' : BothState) (rs : List OpResult),
    runBoth env d beh fuel st ops = some (rs, st') → st.results.length = st.eq.delivered.length →
    EqStep st st' (fun h => (pollsOf ops).foldl (eqPoll d h) st.eq)
  | [], st, st', rs, h, hl => by
    cases h
    exact ⟨List.prefix_rfl, hl, fun R _ => rfl, fun h => h⟩
  | o :: ops, st, st', rs, h, hl => by
    unfold runBoth at h
    generalize hy : stepBoth env d beh fuel st o = y at h
    cases y with
    | none => cases h
    | some y =>
      obtain ⟨r, st1⟩ := y
      simp only at h
      cases hz : runBoth env d beh fuel st1 ops with
      | none => rw [hz] at h; cases h
      | some z =>
        obtain ⟨rs', st2⟩ := z
        rw [hz] at h
        cases h
        cases o with
        | udp o =>
          simp only [stepBoth] at hy
          generalize stepSubs env beh fuel st.udp o = w at hy
          obtain ⟨w, udp⟩ := w
          cases w with
          | none => cases hy
          | some w =>
            cases hy
            obtain ⟨b1, b2, b3, b4⟩ := runBoth_eq env d beh fuel ops { st with udp := udp } st2 rs' hz hl
            exact ⟨b1, b2, b3, b4⟩
        | poll o =>
          simp only [stepBoth, pollBoth_split] at hy
          cases hp : deliverBoth env beh fuel (pollMsgs d st.eq o) { st with eq := pollBase st.eq o } with
          | none => rw [hp] at hy; cases hy
          | some w =>
            rw [hp] at hy
            cases hy
            obtain ⟨a1, a2, a3, a4⟩ := deliverBoth_eq env beh fuel _ _ _ hp (by rw [pollBase_delivered]; exact hl)
            obtain ⟨b1, b2, b3, b4⟩ := runBoth_eq env d beh fuel ops _ _ rs' hz a2
            refine ⟨a1.trans b1, b2, fun R hR => ?_, fun h0 => b4 (a4 h0)⟩
            rw [b3 R hR, a3 R (b1.trans hR), pollBase_delivered]
            show _ = (pollsOf ops).foldl (eqPoll d (recorded R)) (eqPoll d (recorded R) st.eq o)
            rw [eqPoll_parts]

/-! ## The dispatcher -/

def UdpAct.toOp : UdpAct → Op
  | .send m h mode => .send m h mode
  | .setHost h v => .setHost h v

theorem UdpAct.toOp_sending (a : UdpAct) : IsSending a.toOp := by cases a <;> trivial

theorem runOps_acts (env : DEnv) : ∀ (acts : List UdpAct) (st : DState), runOps env st (acts.map UdpAct.toOp) = acts.foldl (UdpAct.run (sendWith env env.depth)) st
  | [], _ => rfl
  | a :: acts, st => by
    have := runOps_acts env acts (a.run (sendWith env env.depth) st)
    rw [List.foldl_cons, ← this]
    cases a <;> rfl

theorem deliverBoth_acting (env : DEnv) (beh : SBehaviour) (fuel : Nat) : ∀ (ms : List Message) (st st' : BothState), deliverBoth env beh fuel ms st = some st' →
    Acting env env.depth st.udp.d st'.udp.d
  | [], st, st', h => by cases h; exact .refl _ _ _
  | m :: l, st, st', h => by
    unfold deliverBoth at h
    generalize hy : handleSubs beh (sendSubs env beh fuel env.depth) fuel env.depth m st.udp = y at h
    obtain ⟨y, udp⟩ := y
    cases y with
    | none => cases h
    | some r =>
      have h1 := (handle_acting (send_realised env beh fuel env.depth) beh fuel env.depth m st.udp udp r hy).1
      cases r with
      | error e =>
        simp only [Option.some.injEq] at h
        subst h
        exact h1
      | ok u => exact h1.trans (deliverBoth_acting env beh fuel l _ st' h)

theorem runBoth_realised (env : DEnv) (d : TemplateDict) (beh : SBehaviour) (fuel : Nat) : ∀ (ops : List BOp) (st st' : BothState) (rs : List OpResult),
    runBoth env d beh fuel st ops = some (rs, st') →
    ∃ extra : List (List Op), extra.length = ops.length ∧ (∀ l ∈ extra, ∀ o ∈ l, IsSending o) ∧
      Realised env (fun env' => (.ok (managerRun env' st.udp.d (ops.zip extra)).1, (managerRun env' st.udp.d (ops.zip extra)).2)) st.udp.d (.ok rs) st'.udp.d
  | [], st, st', rs, h => by
    cases h
    exact ⟨[], rfl, by simp, Realised.pure (Nat.le_refl _) (fun _ => rfl)⟩
  | o :: ops, st, st', rs, h => by
    unfold runBoth at h
    generalize hy : stepBoth env d beh fuel st o = y at h
    cases y with
    | none => cases h
    | some y =>
      obtain ⟨r, st1⟩ := y
      simp only at h
      cases hz : runBoth env d beh fuel st1 ops with
      | none => rw [hz] at h; cases h
      | some z =>
        obtain ⟨rs', st2⟩ := z
        rw [hz] at h
        cases h
        obtain ⟨extra, hl, hs, hr⟩ := runBoth_realised env d beh fuel ops _ _ rs' hz
        cases o with
        | udp o =>
          simp only [stepBoth] at hy
          generalize hw : stepSubs env beh fuel st.udp o = w at hy
          obtain ⟨w, udp⟩ := w
          cases w with
          | none => cases hy
          | some w =>
            cases hy
            refine ⟨[] :: extra, by simp [hl], ?_, ?_⟩
            · intro l hl
              rcases List.mem_cons.mp hl with rfl | hl
              · simp
              · exact hs l hl
            · cases o with
              | subs o =>
                cases hw
                exact hr.map (fun H e => by
                  simp only [Prod.mk.injEq, Except.ok.injEq] at e
                  simp only [List.zip_cons_cons, managerRun, e.1, e.2])
              | op o =>
                refine (step_realised env beh fuel st.udp udp o _ hw).seq hr (fun H e1 e2 => ?_)
                simp only [Prod.mk.injEq, Except.ok.injEq] at e1 e2
                simp only [List.zip_cons_cons, managerRun, e1.1, e1.2, e2.1, e2.2]
        | poll o =>
          simp only [stepBoth, pollBoth_split] at hy
          cases hp : deliverBoth env beh fuel (pollMsgs d st.eq o) { st with eq := pollBase st.eq o } with
          | none => rw [hp] at hy; cases hy
          | some w =>
            rw [hp] at hy
            cases hy
            obtain ⟨acts, ha⟩ := deliverBoth_acting env beh fuel _ _ _ hp
            refine ⟨acts.map UdpAct.toOp :: extra, by simp [hl], ?_, ?_⟩
            · intro l hl o ho
              rcases List.mem_cons.mp hl with rfl | hl
              · obtain ⟨a, _, rfl⟩ := List.mem_map.mp ho
                exact a.toOp_sending
              · exact hs l hl o ho
            · refine ha.seq hr (fun H e1 e2 => ?_)
              simp only [Prod.mk.injEq, Except.ok.injEq, true_and] at e1 e2
              have e3 : runOps (env.withHandler H) st.udp.d (acts.map UdpAct.toOp) = st1.udp.d := by
                rw [runOps_acts]
                exact e1
              simp only [List.zip_cons_cons, managerRun, e3, e2.1, e2.2]

end Pyogp
