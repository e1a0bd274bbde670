import Verif.Spec.Network
import Verif.Proofs.System

/-!
# Proofs: any number of programs
-/

namespace Pyogp
open Spec

/-- What holds of one program; `src` relates an address to the datagrams that may have come from there. -/
structure Peer (env : DEnv) (hosts : HostRef → Host) (st : DState) (src : Addr → Bytes → Prop) : Prop where
  reach : ∃ ops, st = runOps env (DState.init hosts) ops
  noTrust : ∀ a c, st.circuits.get? a = some c → c.trusted = false
  log : ∃ log : List Reception, inEvents st.trace = log.flatMap (·.events env) ∧ ∀ x ∈ log, src x.addr x.dg

theorem Peer.own {env : DEnv} {hosts : HostRef → Host} {st : DState} {src : Addr → Bytes → Prop} (h : Peer env hosts st src) (op : Op) (ho : Own op) :
    Peer env hosts (step env st op) src := by
  obtain ⟨h1, h2⟩ := own_deaf env st op ho h.noTrust
  obtain ⟨ops, rfl⟩ := h.reach
  refine ⟨⟨ops ++ [op], by unfold runOps; rw [List.foldl_append]; rfl⟩, h2, ?_⟩
  rw [h1]
  exact h.log

theorem Peer.recv {env : DEnv} {hosts : HostRef → Host} {st : DState} {src : Addr → Bytes → Prop} (h : Peer env hosts st src) (r : HostRef) (dg : Bytes)
    (hx : src (st.hosts r).addr dg) (hne : dg ≠ []) : Peer env hosts (step env st (.recv r dg)) src := by
  obtain ⟨h1, h2⟩ := recv_in env st r dg hne h.noTrust
  obtain ⟨log, h3, h4⟩ := h.log
  obtain ⟨ops, hops⟩ := h.reach
  refine ⟨⟨ops ++ [.recv r dg], by rw [hops]; unfold runOps; rw [List.foldl_append]; rfl⟩, h1, log ++ [⟨(st.hosts r).addr, dg, st.trace, st.deser⟩], ?_, ?_⟩
  · rw [show (step env st (.recv r dg)) = (receiveCheck env st r dg).2 from rfl, h2, h3, List.flatMap_append]
    simp only [List.flatMap_cons, List.flatMap_nil, List.append_nil]
    rfl
  · intro y hy
    rcases List.mem_append.mp hy with hy | hy
    · exact h4 y hy
    · rw [List.mem_singleton] at hy
      subst hy
      exact hx

theorem Peer.mono {env : DEnv} {hosts : HostRef → Host} {st : DState} {src src' : Addr → Bytes → Prop} (h : Peer env hosts st src)
    (hp : ∀ a dg, src a dg → src' a dg) : Peer env hosts st src' := by
  obtain ⟨log, h1, h2⟩ := h.log
  exact ⟨h.reach, h.noTrust, log, h1, fun x hx => hp _ _ (h2 x hx)⟩

theorem Peer.side {env : DEnv} {hosts : HostRef → Host} {st : DState} {src : Addr → Bytes → Prop} (h : Peer env hosts st src) :
    ∃ other, Side env hosts st other := by
  obtain ⟨log, h1, _⟩ := h.log
  refine ⟨log.map (fun x => .sent x.addr x.dg), h.reach, h.noTrust, log, h1, ?_⟩
  intro x hx
  refine ⟨x.addr, ?_⟩
  exact List.mem_filterMap.mpr ⟨_, List.mem_map.mpr ⟨x, hx, rfl⟩, rfl⟩

theorem Peer.init (env : DEnv) (hosts : HostRef → Host) (src : Addr → Bytes → Prop) : Peer env hosts (DState.init hosts) src :=
  ⟨⟨[], rfl⟩, (by intro a c h; cases h), [], rfl, (by intro x hx; cases hx)⟩

/-- The datagram was sent by a program with this address. -/
def SentFrom {ι : Type} (node : ι → Node) (s : ι → DState) (a : Addr) (dg : Bytes) : Prop := ∃ j, (node j).addr = a ∧ ∃ y, (y, dg) ∈ sentDatagrams (s j).trace

theorem receivedFrom_append (a : Addr) (x y : List Ev) : receivedFrom a (x ++ y) = receivedFrom a x ++ receivedFrom a y := by simp [receivedFrom]
theorem parsedFrom_append (a : Addr) (x y : List Ev) : parsedFrom a (x ++ y) = parsedFrom a x ++ parsedFrom a y := by simp [parsedFrom]

theorem receivedFrom_in (a : Addr) (tr : List Ev) : receivedFrom a tr = receivedFrom a (inEvents tr) := by
  induction tr with
  | nil => rfl
  | cons e tr ih =>
    unfold receivedFrom inEvents at *
    cases e <;> simp [ih, List.filterMap_cons]

theorem parsedFrom_in (a : Addr) (tr : List Ev) : parsedFrom a tr = parsedFrom a (inEvents tr) := by
  induction tr with
  | nil => rfl
  | cons e tr ih =>
    unfold parsedFrom inEvents at *
    cases e <;> simp [ih, List.filterMap_cons]

/-- The receptions from one address. -/
theorem from_log (env : DEnv) (a : Addr) : ∀ log : List Reception,
    receivedFrom a (log.flatMap (·.events env)) = (log.filter (·.addr = a)).map (·.dg) ∧
    parsedFrom a (log.flatMap (·.events env)) = (log.filter (·.addr = a)).filterMap (fun x => match (deserialize (env.deser x.tr) x.dst x.dg).1 with | .ok m => m | .error _ => none)
  | [] => ⟨rfl, rfl⟩
  | x :: log => by
    obtain ⟨h1, h2⟩ := from_log env a log
    rw [List.flatMap_cons, receivedFrom_append, parsedFrom_append, h1, h2]
    have e1 : receivedFrom a (x.events env) = if x.addr = a then [x.dg] else [] := by
      unfold Reception.events receivedFrom
      rw [List.filterMap_cons]
      split <;> split <;> simp_all <;> split <;> simp
    have e2 : parsedFrom a (x.events env) = if x.addr = a then ((match (deserialize (env.deser x.tr) x.dst x.dg).1 with | .ok m => m | .error _ => none) : Option Message).toList else [] := by
      unfold Reception.events parsedFrom
      cases hd : (deserialize (env.deser x.tr) x.dst x.dg).1 with
      | error e => simp
      | ok m? =>
        cases m? with
        | none => simp
        | some m => by_cases ha : x.addr = a <;> simp [ha, List.filterMap_cons] <;> split <;> simp
    rw [e1, e2]
    by_cases ha : x.addr = a
    · rw [if_pos ha, if_pos ha, List.filter_cons_of_pos (by simpa using ha)]
      refine ⟨rfl, ?_⟩
      rw [List.filterMap_cons]
      cases hd : (deserialize (env.deser x.tr) x.dst x.dg).1 with
      | error e => simp
      | ok m? => cases m? <;> simp
    · rw [if_neg ha, if_neg ha, List.filter_cons_of_neg (by simpa using ha)]
      exact ⟨rfl, rfl⟩

end Pyogp
