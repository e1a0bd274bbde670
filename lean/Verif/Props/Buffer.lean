import Verif.Props.Manager
import Verif.Props.System

/-!
# Datagrams longer than the receive buffer (C82)
-/

namespace Pyogp
open Spec

/-! ## C82: datagrams longer than the receive buffer -/

/-- **C82.** Datagrams of at most 10000 bytes are handed over whole. -/
theorem C82_short_unaffected (env : MEnv) (d : DState) (i : Incoming) (h : i.dg.length ≤ 10000) :
    receiveRound env d (some i) = receiveCheck env.disp (netReceive d env.sender i.ip i.port) env.sender i.dg := by
  unfold receiveRound
  simp only [List.take_of_length_le (show i.dg.length ≤ recvBuffer from h)]

/-- **C82.** A message that `serialize` turns into a datagram longer than that (ignoring the template's extra bytes at the end) never reaches
the receiver's subscribers, although it is well-formed and has a handler: either it is dropped silently *and its id is queued to be
acknowledged*, as if it had arrived, or `MessageDeserializationError` is raised and nothing is acknowledged. -/
theorem C82_long_message_lost (senv : SerEnv) (env : MEnv) (d : DState) (ip : String) (port : Nat) (t : Template) (m : Message) (dg : Bytes)
    (hc : Connected senv (env.disp.deser d.trace) t) (hcf : Configured (env.disp.deser d.trace)) (hwf : WFTemplate t)
    (hm : Fills senv.rt t m) (hf : m.sendFlags < 256) (hz : m.sendFlags &&& 0x80 = 0) (ha : m.sendFlags &&& 0x10 = 0)
    (hp : m.packetId < 2 ^ 31) (hs : serialize senv m = .ok (some dg)) (hl : 10000 < dg.length - (extraBytes t).length) :
    let r := receiveRound env d (some ⟨ip, port, dg⟩)
    r.2.trace = d.trace ++ [.received (.str ip, some port) (dg.take 10000)] ∧
    ((r.1 = .ok none ∧ ∀ a, pending r.2 a = pending d a ++ (if a = (.str ip, some port) then [m.packetId] else [])) ∨
     (r.1 = .error .messageDeserialization ∧ ∀ a, pending r.2 a = pending d a)) := by
  intro r
  obtain ⟨hd0, h1, hnone⟩ := C17_truncated_yields_no_message senv (env.disp.deser d.trace) d.deser t m hc hwf hm hf hz ha hp
  rw [hs] at h1; cases h1
  have hnone := hnone 10000 hl
  -- the first bytes of the datagram
  obtain ⟨t', fl, pid, body, _, _, hfl, hpid, hbody⟩ := serialize_inv hs
  have hhead : dg.head? = some (UInt8.ofNat m.sendFlags) ∧ slice dg 1 5 = idBytes m.packetId := by
    obtain ⟨rs, hrs⟩ := expBlocks_of senv.rt m hm.blocks
    obtain ⟨body, hb, _⟩ := blocks_roundtrip senv.rt hwf.vars hrs
    have := serialize_ok senv m (by rw [hm.name]; exact hc.sender) hc.senderXml hf hp hb
    rw [hs] at this
    cases this
    exact ⟨rfl, by simp [slice, idBytes]⟩
  have hto : (UInt8.ofNat m.sendFlags).toNat = m.sendFlags := by simp; omega
  have hlen : (dg.take 10000).length = 10000 := by rw [List.length_take]; omega
  have hne : dg.take 10000 ≠ [] := by intro h; rw [h] at hlen; simp at hlen
  have hout : (deserialize (env.disp.deser d.trace) d.deser (dg.take 10000)).1 = .ok none ∨
      (deserialize (env.disp.deser d.trace) d.deser (dg.take 10000)).1 = .error .messageDeserialization := by
    have := C16_declared_outcomes (env.disp.deser d.trace) hcf d.deser (dg.take 10000) (UInt8.ofNat m.sendFlags)
      ((dg.take 10000).getLast hne) (by rw [← hhead.1]; cases dg <;> simp) (List.getLast?_eq_some_getLast hne)
      (by rw [hto, if_neg (by simp [ha]), hlen]; omega)
    rcases this with ⟨o, h⟩ | h
    · cases o with
      | none => exact .inl h
      | some m' => exact absurd h (hnone m')
    · exact .inr h
  have haddr : ((netReceive d env.sender ip port).hosts env.sender).addr = (.str ip, some port) := by
    simp [netReceive, Host.addr]
  have hr : r = receiveCheck env.disp (netReceive d env.sender ip port) env.sender (dg.take 10000) := rfl
  have hout' : (deserialize (env.disp.deser (netReceive d env.sender ip port).trace) (netReceive d env.sender ip port).deser (dg.take 10000)).1 = .ok none ∨
      (deserialize (env.disp.deser (netReceive d env.sender ip port).trace) (netReceive d env.sender ip port).deser (dg.take 10000)).1 =
        .error .messageDeserialization := hout
  have hpend : ∀ a, pending (netReceive d env.sender ip port) a = pending d a := fun _ => rfl
  have hsl : slice (dg.take 10000) 1 5 = slice dg 1 5 := by
    simp only [slice, List.drop_take, List.take_take]
    congr 1
  clear_value r
  subst hr
  generalize hN : netReceive d env.sender ip port = N at *
  have htrN : N.trace = d.trace := by rw [← hN]; rfl
  constructor
  · obtain ⟨hh, htr, _, _, _, hde, hg, hcx⟩ := findCircuit_fields N env.sender
    unfold receiveCheck
    rw [if_pos (by rw [hlen]; omega)]
    rcases hout' with h | h
    · simp only [htr, hde, h]
      have ⟨p, _, _, hu⟩ := unpackId env.disp.ser.rt (d := dg.take 10000) (by omega)
      simp only [hu, DState.setCircuit, DState.log, haddr, htrN]
    · simp only [htr, hde, h]
      simp only [DState.log, haddr, htrN]
  · rcases hout' with h | h
    · left
      obtain ⟨id, h1, h2, h3, h4⟩ := receive_unparsed env.disp N env.sender (dg.take 10000) h
      have hid : id = m.packetId := by
        rw [hsl, hhead.2] at h2
        exact (idBytes_inj (by omega) h1 h2).symm
      refine ⟨h3, fun a => ?_⟩
      rw [h4, haddr, hid, hpend]
    · right
      refine ⟨?_, fun a => by rw [C23_malformed_not_queued _ _ _ _ _ h, hpend]⟩
      obtain ⟨hh, htr, _, _, _, hde, hg, hcx⟩ := findCircuit_fields N env.sender
      unfold receiveCheck
      rw [if_pos (by rw [hlen]; omega)]
      simp only [htr, hde, h]

/-! ### Both cases occur -/

/-- A message with a text of up to 65535 bytes and a list. -/
def bigTemplate : Template :=
  { name := "Big", freq := .low, msgNum := 301, msgNumHex := [0xff, 0xff, 1, 45],
    blocks := [
      { name := "Body", blockType := .single, vars := [⟨"Data", .variable, 2⟩] },
      { name := "Items", blockType := .variable, vars := [⟨"N", .u16, 2⟩] }] }
def bigDict : TemplateDict := { byName := [("Big", bigTemplate)], byPair := [((.low, 301), bigTemplate)] }
def bigSer : SerEnv := ⟨demoRt, bigDict, []⟩
def bigManager : MEnv := { demoManager with disp := { dispEnv with ser := bigSer, deser := fun _ => ⟨demoRt, bigDict, [], some ["Big"], true⟩ } }
def bigMessage (n : Nat) : Message :=
  { Message.new "Big" [.one (Block.mk' "Body" [("Data", .str (List.replicate n 0x61))]), .many [Block.mk' "Items" [("N", .num (.int 1))]]] with
    sendFlags := 0x40, packetId := 9 }

theorem big_connected (tr : List Ev) : Connected bigSer (bigManager.disp.deser tr) bigTemplate :=
  ⟨rfl, rfl, rfl, rfl, rfl, ["Big"], rfl, .inl (by decide)⟩

theorem big_wf : WFTemplate bigTemplate := by
  constructor <;> decide +kernel

theorem big_configured (tr : List Ev) : Configured (bigManager.disp.deser tr) := by
  have key : ∀ f n t, bigDict.getTemplateByPair f n = some t → t = bigTemplate := by
    intro f n t h
    unfold TemplateDict.getTemplateByPair at h
    have := Dict.mem_of_get? h
    simp only [bigDict, List.mem_cons, Prod.mk.injEq, List.not_mem_nil, or_false] at this
    exact this.2
  refine ⟨⟨_, rfl⟩, ?_, ?_⟩
  · intro f n t h hx; cases hx
  · intro f n t h
    rw [key f n t h]
    exact big_wf.vars

theorem big_fills (n : Nat) (hn : n < 65535) : Fills demoRt bigTemplate (bigMessage n) := by
  refine ⟨rfl, ?_, .inr ⟨_, List.mem_cons_self, _, rfl, by simp⟩⟩
  intro tb htb
  simp only [bigTemplate, List.mem_cons, List.not_mem_nil, or_false] at htb
  rcases htb with rfl | rfl
  · refine ⟨_, rfl, rfl, ?_⟩
    intro b hb v hv
    simp only [List.mem_cons, List.not_mem_nil, or_false] at hb hv
    subst hb hv
    refine ⟨.str (List.replicate n 0x61), .str (List.replicate n 0x61 ++ [0]), rfl, ?_⟩
    have hlen : (List.replicate n (0x61 : UInt8)).length + 1 < 256 ^ 2 := by rw [List.length_replicate]; omega
    simp only [receivedAs, textBytes, if_pos hlen, if_true]
  · refine ⟨[Block.mk' "Items" [("N", .num (.int 1))]], rfl, by decide, ?_⟩
    intro b hb v hv
    simp only [List.mem_cons, List.not_mem_nil, or_false] at hb hv
    subst hb hv
    exact ⟨_, _, rfl, rfl⟩

/-- What comes back when the datagram of `bigMessage n` is received: the length of the datagram, the outcome, the ids waiting to be acknowledged. -/
def bigReceived (n : Nat) : Option (Nat × Py (Option String) × List Nat) :=
  match serialize bigSer (bigMessage n) with
  | .ok (some dg) =>
    let r := receiveRound bigManager (DState.init dispHosts) (some ⟨"sim", 13001, dg⟩)
    some (dg.length, r.1.map (·.map (·.name)), pending r.2 (dispAddr 1))
  | _ => none

/-- A text of 9984 bytes arrives, longer ones do not: one of 9987 bytes, whose text ends at the end of the buffer, ends the loop; all others
are lost silently and acknowledged. -/
example : bigReceived 9984 = some (10000, .ok (some "Big"), [9]) := by decide +kernel
example : bigReceived 9985 = some (10001, .ok none, [9]) := by decide +kernel
example : bigReceived 9987 = some (10003, .error .messageDeserialization, []) := by decide +kernel
example : bigReceived 12000 = some (12016, .ok none, [9]) := by decide +kernel

end Pyogp
