import Verif.Proofs.Transmit
import Verif.Proofs.FieldConverse

/-! # C12–C15: sending and receiving whole messages -/

namespace Pyogp
open Spec

/-- Four zero bytes follow a RegionHandshakeReply. -/
def extraBytes (t : Template) : Bytes := if t.name = "RegionHandshakeReply" then [0, 0, 0, 0] else []

theorem packU8 (rt : Runtime) {n : Nat} (h : n < 256) : packData rt (.num (.int n)) .u8 = .ok [UInt8.ofNat n] := by
  have : packData rt (.num (.int n)) .u8 = structPack rt.ver .big .B n := rfl
  rw [this]
  unfold structPack
  have hlo : IntFmt.B.lo ≤ (n : Int) ∧ (n : Int) < IntFmt.B.hi := by
    simp [IntFmt.lo, IntFmt.hi, IntFmt.signed, IntFmt.size]; omega
  simp only [if_pos hlo, IntFmt.size]
  have e : ((n : Int) % ((2 ^ (8 * 1) : Nat) : Int)).toNat = n := by
    rw [← Int.natCast_emod, Int.toNat_natCast]; exact Nat.mod_eq_of_lt h
  rw [e]
  simp [Endian.order, leBytes, Nat.mod_eq_of_lt h]

theorem packPid (rt : Runtime) {n : Nat} (h : n < 2 ^ 31) :
    packData rt (.num (.int n)) .s32 (some .big) = .ok (idBytes n) := by
  have : packData rt (.num (.int n)) .s32 (some .big) = structPack rt.ver .big .i n := rfl
  rw [this]
  unfold structPack
  have hlo : IntFmt.i.lo ≤ (n : Int) ∧ (n : Int) < IntFmt.i.hi := by
    simp [IntFmt.lo, IntFmt.hi, IntFmt.signed, IntFmt.size]; omega
  simp only [if_pos hlo, IntFmt.size]
  have e : ((n : Int) % ((2 ^ (8 * 4) : Nat) : Int)).toNat = n := by
    rw [← Int.natCast_emod, Int.toNat_natCast]; exact Nat.mod_eq_of_lt (by omega)
  rw [e, ← ackBytes_eq]
  rfl

theorem serialize_ok (env : SerEnv) (m : Message) {t : Template} (ht : env.dict.getTemplate m.name = some t)
    (hx : validateUdpMsg env.xml t.name = .ok true) (hf : m.sendFlags < 256) (hp : m.packetId < 2 ^ 31) {body : Bytes}
    (hb : buildBlocks env.rt m t.blocks = .ok body) :
    serialize env m = .ok (some (UInt8.ofNat m.sendFlags :: (idBytes m.packetId ++ [0] ++
      (t.msgNumHex ++ body ++ extraBytes t)))) := by
  have h0 : packData env.rt (.num (.int 0)) .u8 = .ok [0] := packU8 env.rt (n := 0) (by omega)
  simp only [serialize, ht, hx, ok_bind, packU8 env.rt hf, packPid env.rt hp, h0, hb, extraBytes, Bool.not_true,
    Bool.false_eq_true, if_false]
  simp

/-- A message of template `t` can be sent with `senv` and received with `renv`: both know the template under its name
and its number, neither `message.xml` bans it, both run the same Python, and the receiver has a handler for it or
does not defer parsing. -/
structure Connected (senv : SerEnv) (renv : DeserEnv) (t : Template) : Prop where
  runtime : renv.rt = senv.rt
  sender : senv.dict.getTemplate t.name = some t
  receiver : renv.dict.getTemplateByPair t.freq t.msgNum = some t
  senderXml : validateUdpMsg senv.xml t.name = .ok true
  receiverXml : validateUdpMsg renv.xml t.name = .ok true
  handled : ∃ names, renv.handled? = some names ∧ (t.name ∈ names ∨ renv.deferred = false)

theorem wantsParse_of {renv : DeserEnv} {n : String}
    (h : ∃ names, renv.handled? = some names ∧ (n ∈ names ∨ renv.deferred = false)) : wantsParse renv n = .ok true := by
  obtain ⟨names, h1, h2⟩ := h
  simp only [wantsParse, h1]
  rcases h2 with h2 | h2
  · simp [h2]
  · simp [h2]

theorem fills_body {rt : Runtime} {t : Template} {m : Message} (hwf : WFTemplate t) (hm : Fills rt t m) :
    ∃ body rs, buildBlocks rt m t.blocks = .ok body ∧ expBlocks rt m t.blocks = some rs ∧
      (t.blocks = [] ∨ rs.flatten.foldl addBlock [] ≠ []) ∧
      ∀ pre post, ∃ pos, decodeBlocks rt (pre ++ body ++ post) t.blocks pre.length [] =
        .ok (rs.flatten.foldl addBlock [], pos) := by
  obtain ⟨rs, hrs⟩ := expBlocks_of rt m hm.blocks
  obtain ⟨body, hb, hd⟩ := blocks_roundtrip rt hwf.vars hrs
  refine ⟨body, rs, hb, hrs, ?_, fun pre post => ⟨_, hd pre post []⟩⟩
  rcases hm.nonempty with h | ⟨tb, htb, l, hl, hne⟩
  · exact .inl h
  · right
    apply foldl_addBlock_ne_nil
    left
    intro he
    obtain ⟨l', r, h1, _, h3, h4⟩ := expBlocks_filter hwf.blockNames hrs tb htb
    rw [getBlock_ok.mp hl] at h1; cases h1
    rw [he] at h4
    have := (expInst_get h3).1
    rw [← h4] at this
    exact hne (List.eq_nil_of_length_eq_zero this.symm)

/-- **C12.** A message that fills its template (every value representable in its field, `Fills`), without the zero-code
and ack flags and with a packet id below `2^31`, is serialized, and the datagram is received as a message with the
same name, flags, packet id and content (`SameContent`), without acks, whatever was received before. -/
theorem C12_roundtrip (senv : SerEnv) (renv : DeserEnv) (st : DeserState) (t : Template) (m : Message)
    (hc : Connected senv renv t) (hwf : WFTemplate t) (hm : Fills senv.rt t m) (hf : m.sendFlags < 256)
    (hz : m.sendFlags &&& 0x80 = 0) (ha : m.sendFlags &&& 0x10 = 0) (hp : m.packetId < 2 ^ 31) :
    ∃ dg m', serialize senv m = .ok (some dg) ∧ (deserialize renv st dg).1 = .ok (some m') ∧
      SameContent senv.rt t m m' ∧ m'.sendFlags = m.sendFlags ∧ m'.packetId = m.packetId ∧
      m'.reliable = decide (m.sendFlags &&& 0x40 ≠ 0) ∧ m'.acks = [] := by
  obtain ⟨body, rs, hb, hrs, hne, hd⟩ := fills_body hwf hm
  have hto : (UInt8.ofNat m.sendFlags).toNat = m.sendFlags := by simp; omega
  have hs := serialize_ok senv m (by rw [hm.name]; exact hc.sender) hc.senderXml hf hp hb
  have hde := deserialize_ok renv st t hwf hc.receiver hc.receiverXml (wantsParse_of hc.handled)
    (UInt8.ofNat m.sendFlags) m.packetId (by omega) [] (by simp) (by simp) (by simp) body (extraBytes t)
    (t.msgNumHex ++ body ++ extraBytes t) (by simp [Encoded, hto, hz]) (by rw [hc.runtime]; exact hd) hne
  rw [ackTrailer, hto, if_neg (by simp [ha]), List.append_nil] at hde
  refine ⟨_, received t (UInt8.ofNat m.sendFlags) m.packetId [] (rs.flatten.foldl addBlock []), hs, by rw [hde], sameContent_of hwf hm.name hrs rfl rfl, ?_, rfl, ?_, rfl⟩
  · exact hto
  · simp only [received, hto]; rfl

/-- **C13.** Take any message that fills its template and the datagram serialized for it.  If a peer sends the same
payload with any flags of its own, zero-coded (in any way) if the zero-code flag is set, and with any list of up to
255 acks appended if the ack flag is set, what is received is the message of the plain datagram: same content, same
packet id, and exactly the appended ack ids in order. -/
theorem C13_zero_coded_and_acked (senv : SerEnv) (renv : DeserEnv) (st : DeserState) (t : Template) (m : Message)
    (hc : Connected senv renv t) (hwf : WFTemplate t) (hm : Fills senv.rt t m) (hf : m.sendFlags < 256)
    (hp : m.packetId < 2 ^ 31) :
    ∃ dg, serialize senv m = .ok (some dg) ∧
      ∀ (flags : UInt8) (e : Bytes) (acks : List Nat), Encoded flags (dg.drop 6) e → AcksOk flags acks →
        ∃ m', (deserialize renv st (flags :: (dg.drop 1).take 5 ++ e ++ ackTrailer flags acks)).1 = .ok (some m') ∧
          SameContent senv.rt t m m' ∧ m'.packetId = m.packetId ∧ m'.acks = acks ∧ m'.numAcks = acks.length ∧
          m'.sendFlags = flags.toNat ∧ m'.reliable = decide (flags.toNat &&& 0x40 ≠ 0) := by
  obtain ⟨body, rs, hb, hrs, hne, hd⟩ := fills_body hwf hm
  have hs := serialize_ok senv m (by rw [hm.name]; exact hc.sender) hc.senderXml hf hp hb
  refine ⟨_, hs, ?_⟩
  intro flags e acks he hack
  have e1 : (UInt8.ofNat m.sendFlags :: (idBytes m.packetId ++ [0] ++ (t.msgNumHex ++ body ++ extraBytes t))).drop 6 =
      t.msgNumHex ++ body ++ extraBytes t := rfl
  have e2 : ((UInt8.ofNat m.sendFlags :: (idBytes m.packetId ++ [0] ++ (t.msgNumHex ++ body ++ extraBytes t))).drop 1).take 5 =
      idBytes m.packetId ++ [0] := rfl
  rw [e1] at he
  have hde := deserialize_ok renv st t hwf hc.receiver hc.receiverXml (wantsParse_of hc.handled)
    flags m.packetId (by omega) acks hack.count hack.ids hack.flag body (extraBytes t) e he
    (by rw [hc.runtime]; exact hd) hne
  refine ⟨_, ?_, sameContent_of hwf hm.name hrs (m' := received t flags m.packetId acks (rs.flatten.foldl addBlock [])) rfl rfl,
    rfl, rfl, rfl, rfl, rfl⟩
  rw [e2]
  rw [show flags :: (idBytes m.packetId ++ [0]) ++ e ++ ackTrailer flags acks =
    flags :: (idBytes m.packetId ++ [0] ++ e) ++ ackTrailer flags acks by simp, hde]

/-! ### A concrete message -/

/-- A template with a Single block (an integer and a text) and a Variable block (an integer). -/
def demoTemplate : Template :=
  { name := "Demo", freq := .low, msgNum := 300, msgNumHex := [0xff, 0xff, 1, 44],
    blocks := [
      { name := "Head", blockType := .single, vars := [⟨"Id", .u32, 4⟩, ⟨"Name", .variable, 1⟩] },
      { name := "Items", blockType := .variable, vars := [⟨"N", .u16, 2⟩] }] }

def demoRt : Runtime := ⟨.v27, fun _ _ _ => 0⟩
def demoDict : TemplateDict := { byName := [("Demo", demoTemplate)], byPair := [((.low, 300), demoTemplate)] }
def demoSer : SerEnv := ⟨demoRt, demoDict, []⟩
def demoDeser : DeserEnv := ⟨demoRt, demoDict, [], some ["Demo"], true⟩
def demoMessage : Message :=
  { Message.new "Demo" [.one (Block.mk' "Head" [("Id", .num (.int 77)), ("Name", .str [104, 105])]),
      .many [Block.mk' "Items" [("N", .num (.int 1))], Block.mk' "Items" [("N", .num (.int 2))]]] with
    sendFlags := 0x40, packetId := 9 }

theorem demo_connected : Connected demoSer demoDeser demoTemplate :=
  ⟨rfl, rfl, rfl, rfl, rfl, ["Demo"], rfl, .inl (by decide)⟩

theorem demo_wf : WFTemplate demoTemplate := by
  constructor <;> decide +kernel

theorem demo_fills : Fills demoRt demoTemplate demoMessage := by
  refine ⟨rfl, ?_, .inr ⟨_, List.mem_cons_self, _, rfl, by decide⟩⟩
  intro tb htb
  simp only [demoTemplate, List.mem_cons, List.not_mem_nil, or_false] at htb
  rcases htb with rfl | rfl
  · refine ⟨_, rfl, by decide, ?_⟩
    intro b hb v hv
    simp only [List.mem_cons, List.not_mem_nil, or_false] at hb hv
    subst hb
    rcases hv with rfl | rfl
    · exact ⟨_, _, rfl, rfl⟩
    · exact ⟨_, _, rfl, rfl⟩
  · refine ⟨[Block.mk' "Items" [("N", .num (.int 1))], Block.mk' "Items" [("N", .num (.int 2))]], rfl, by decide, ?_⟩
    intro b hb v hv
    simp only [List.mem_cons, List.not_mem_nil, or_false] at hb hv
    subst hv
    rcases hb with rfl | rfl
    · exact ⟨_, _, rfl, rfl⟩
    · exact ⟨_, _, rfl, rfl⟩

example : demoMessage.sendFlags < 256 ∧ demoMessage.sendFlags &&& 0x80 = 0 ∧ demoMessage.sendFlags &&& 0x10 = 0 ∧
    demoMessage.packetId < 2 ^ 31 := by decide

example : serialize demoSer demoMessage =
    .ok (some [0x40, 0, 0, 0, 9, 0, 0xff, 0xff, 1, 44, 77, 0, 0, 0, 3, 104, 105, 0, 2, 1, 0, 2, 0]) := by decide +kernel

end Pyogp
