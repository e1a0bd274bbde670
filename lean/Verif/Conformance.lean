import Verif.Data.Template
import Verif.Data.MessageXml
import Verif.Model.Manager
import Verif.Model.Builder
import Verif.Model.Caps
import Verif.Model.Settings
import Verif.Model.Datatypes
import Verif.Model.Uuid
import Verif.Model.Describe
import Verif.Model.Http
import Verif.Model.Events

/-!
# The project's own unit tests, on the model

Evidence that the model computes what the code computes: the assertions of the test suite in `/repo`, transcribed.  They are examples,
not properties: no claim rests on them.  Everything is evaluated by the kernel.
-/

namespace Pyogp.Conformance

/-- The result, if there is one. -/
def ok? {α : Type} : Py α → Option α
  | .ok x => some x
  | .error _ => none

/-- The exception, if there is one. -/
def err? {α : Type} : Py α → Option Exc
  | .ok _ => none
  | .error e => some e

/-- Python 2.6. -/
def rt : Runtime := ⟨.v26, fun _ _ _ => 0⟩

/-- The entries of the embedded template that the tests use. -/
def templates : List Template :=
  [Embedded.t1, Embedded.t2, Embedded.t4, Embedded.t5, Embedded.t8, Embedded.t74, Embedded.t86, Embedded.t91, Embedded.t105, Embedded.t169,
   Embedded.t178, Embedded.t434]

/-- `TemplateDictionary(…)`. -/
def dict : TemplateDict := (ok? (TemplateDict.build rt templates)).getD ⟨[], []⟩

/-- `UDPMessageDeserializer(settings = self.settings)` with `ENABLE_DEFERRED_PACKET_PARSING = False`. -/
def denv : DeserEnv := { rt := rt, dict := dict, xml := Embedded.messageXml, handled? := some [], deferred := false }

/-- `UDPMessageSerializer()`. -/
def senv : SerEnv := ⟨rt, dict, Embedded.messageXml⟩

/-- `deserializer.deserialize(message)`. -/
def parse (b : Bytes) : Option Message := (ok? (deserialize denv {} b).1).bind id

/-- A `str` literal. -/
def text (s : String) : Bytes := s.toList.map fun c => UInt8.ofNat c.toNat

/-- `message[block][i][variable]`. -/
def field (m : Option Message) (block : String) (i : Nat) (name : String) : Option PyVal := do
  let m ← m
  let bs ← ok? (m.getBlock block)
  let b ← bs[i]?
  ok? (b.getItem name)

/-! ## `message/tests/test_packetdata.py` -/

/-- A packet recorded from a simulator (`test_packetdata.py`, `AGENT_DATA_UPDATE`). -/
def agentDataUpdate : Bytes :=
  [0xc0, 0x00, 0x00, 0x00, 0x02, 0x00, 0xff, 0xff, 0x01, 0x83, 0x1c, 0x8a, 0x77, 0x67, 0xe3, 0x7b, 0x42, 0x2e, 0xaf, 0xb3, 0x85, 0x09,
   0x31, 0x97, 0xca, 0xd1, 0x03, 0x4a, 0x42, 0x00, 0x01, 0x06, 0x4b, 0x72, 0x61, 0x66, 0x74, 0x00, 0x01, 0x01, 0x00, 0x1a]

/-- A packet recorded from a simulator (`test_packetdata.py`, `AGENT_ANIMATION`). -/
def agentAnimation : Bytes :=
  [0x40, 0x00, 0x00, 0x00, 0x0a, 0x00, 0x05, 0x1c, 0x8a, 0x77, 0x67, 0xe3, 0x7b, 0x42, 0x2e, 0xaf, 0xb3, 0x85, 0x09, 0x31, 0x97, 0xca,
   0xd1, 0x4b, 0x6f, 0xff, 0x1f, 0xb5, 0x67, 0x41, 0xfd, 0x85, 0xef, 0xa1, 0x98, 0x3b, 0xf2, 0xb5, 0x77, 0x01, 0xef, 0xcf, 0x67, 0x0c,
   0x2d, 0x18, 0x81, 0x28, 0x97, 0x3a, 0x03, 0x4e, 0xbc, 0x80, 0x6b, 0x67, 0x00, 0x01, 0x00]

/-- A packet recorded from a simulator (`test_packetdata.py`, `OBJECT_UPDATE`). -/
def objectUpdate : Bytes :=
  [0xc0, 0x00, 0x00, 0x00, 0x51, 0x00, 0x0c, 0x00, 0x01, 0xea, 0x03, 0x00, 0x02, 0xe6, 0x03, 0x00, 0x01, 0xbe, 0xff, 0x01, 0x06, 0xbc,
   0x8e, 0x0b, 0x00, 0x01, 0x69, 0x94, 0x8c, 0x6a, 0x4d, 0x22, 0x1b, 0x66, 0xec, 0xe4, 0xac, 0x31, 0x63, 0x93, 0xcb, 0x4b, 0x57, 0x89,
   0x98, 0x01, 0x09, 0x03, 0x00, 0x01, 0x51, 0x40, 0x88, 0x3e, 0x51, 0x40, 0x88, 0x3e, 0x51, 0x40, 0x88, 0x3e, 0x3c, 0xa2, 0x44, 0xb3,
   0x42, 0x9a, 0x68, 0x2b, 0x42, 0xc8, 0x5b, 0xd1, 0x41, 0x00, 0x18, 0x4b, 0x8c, 0xff, 0x3e, 0xbd, 0x76, 0xff, 0xbe, 0xc5, 0x44, 0x00,
   0x01, 0xbf, 0x00, 0x10, 0x50, 0x04, 0x00, 0x01, 0x10, 0x20, 0x05, 0x00, 0x04, 0x64, 0x64, 0x00, 0x0f, 0x2e, 0x00, 0x01, 0xa1, 0x33,
   0xdc, 0x77, 0x0a, 0x1a, 0xbb, 0x27, 0xa7, 0x2e, 0x78, 0x64, 0x63, 0xab, 0x94, 0xab, 0x00, 0x08, 0x80, 0x3f, 0x00, 0x03, 0x80, 0x3f,
   0x00, 0x0f, 0x10, 0x13, 0xff, 0x00, 0x08, 0x80, 0x3f, 0x8f, 0xc2, 0xf5, 0x3d, 0x00, 0x0a, 0x56, 0x6f, 0x43, 0xcc, 0x00, 0x01, 0x02,
   0x00, 0x03, 0x04, 0x00, 0x02, 0x04, 0x00, 0x02, 0x64, 0x26, 0x00, 0x03, 0x0e, 0x00, 0x01, 0x0e, 0x00, 0x01, 0x19, 0x00, 0x01, 0x80,
   0x00, 0x01, 0x80, 0x00, 0x01, 0x80, 0x00, 0x01, 0x80, 0x00, 0x01, 0x80, 0x00, 0x01, 0x80, 0x91, 0x11, 0xd2, 0x5e, 0x2f, 0x12, 0x8f,
   0x81, 0x55, 0xa7, 0x40, 0x3a, 0x78, 0xb3, 0x0e, 0x2d, 0x00, 0x10, 0x03, 0x01, 0x00, 0x03, 0x1e, 0x25, 0x6e, 0xa2, 0xff, 0xc5, 0xe0,
   0x83, 0x00, 0x01, 0x06, 0x00, 0x01, 0x0d, 0x0d, 0x01, 0x00, 0x11, 0x0e, 0xdc, 0x9b, 0x83, 0x98, 0x9a, 0x4a, 0x76, 0xac, 0xc3, 0xdb,
   0xbf, 0x37, 0x54, 0x61, 0x88, 0x00, 0x22]

/-- `test_agent_data_update`. -/
example : (parse agentDataUpdate).map (·.name) = some "AgentDataUpdate"
    ∧ field (parse agentDataUpdate) "AgentData" 0 "LastName" = some (.str (text "Kraft"))
    ∧ field (parse agentDataUpdate) "AgentData" 0 "FirstName" = some (.str (text "JB")) := by decide +kernel

/-- `test_agent_animation`. -/
example : (parse agentAnimation).isSome = true := by decide +kernel

/-- `test_object_update`. -/
example : (parse objectUpdate).map (·.name) = some "ObjectUpdate"
    ∧ ((parse objectUpdate).map fun m => (m.blocks.has "RegionData", m.blocks.has "ObjectData")) = some (true, true) := by decide +kernel

/-! ## `message/tests/test_udp_deserializer.py`, `test_udp_serializer.py` -/

/-- The header and three ids of a `PacketAck`. -/
def threeIds : Bytes := [0, 0, 0, 0, 1, 0, 0xff, 0xff, 0xff, 0xfb, 3, 1, 0, 0, 0, 2, 0, 0, 0, 3, 0, 0, 0]

/-- `test_deserialize`, `test_serialize`. -/
example : (parse threeIds).map (·.name) = some "PacketAck"
    ∧ (parse threeIds).bind (fun m => (ok? (serialize senv m)).bind id) = some threeIds := by decide +kernel

def uuid550e : BitVec 128 := 0x550e8400e29b41d4a716446655440000

/-- The message of `test_chat` and `test_build_chat`. -/
def chat (s : String) : Message :=
  Message.new "ChatFromViewer"
    [.one (Block.mk' "AgentData" [("AgentID", .uuid uuid550e), ("SessionID", .uuid uuid550e)]),
     .one (Block.mk' "ChatData" [("Message", .str (text s)), ("Type", .num (.int 1)), ("Channel", .num (.int 0))])]

/-- `test_chat`. -/
example : field (((ok? (serialize senv (chat "Hi Locklainn Tester"))).bind id).bind parse) "ChatData" 0 "Message"
    = some (.str (text "Hi Locklainn Tester")) := by decide +kernel

/-! ## `message/tests/test_message_wrapper.py` -/

def testPacket : Message :=
  Message.new "TestPacket"
    [.one (Block.mk' "CircuitCode" [("ID", .num (.int 1234)), ("Code", .num (.int 789))]),
     .one (Block.mk' "CircuitCode" [("ID", .num (.int 5678)), ("Code", .num (.int 456))]),
     .one (Block.mk' "Test" [("ID", .num (.int 9101)), ("Code", .num (.int 123))])]

/-- `test_build_multiple`, `test_getitem_helpers`. -/
example : field (some testPacket) "CircuitCode" 0 "ID" = some (.num (.int 1234)) ∧ field (some testPacket) "CircuitCode" 1 "ID" = some (.num (.int 5678))
    ∧ field (some testPacket) "CircuitCode" 0 "Code" = some (.num (.int 789)) ∧ field (some testPacket) "CircuitCode" 1 "Code" = some (.num (.int 456))
    ∧ field (some testPacket) "Test" 0 "ID" = some (.num (.int 9101)) ∧ field (some testPacket) "Test" 0 "Code" = some (.num (.int 123)) := by
  decide +kernel

/-- `test_build_chat`. -/
example : field (some (chat "Chatting\n")) "ChatData" 0 "Type" = some (.num (.int 1))
    ∧ field (some (chat "Chatting\n")) "ChatData" 0 "Channel" = some (.num (.int 0)) ∧ (ok? (serialize senv (chat "Chatting\n"))).isSome = true := by
  decide +kernel

/-! ## `message/tests/test_llsd_builder.py` -/

def one : PyVal := .num (.int 1)

/-- `test_builder`. -/
example :
    ((ok? (({} : Builder).run
      [.newMessage "TestMessage", .nextBlock "TestBlock1", .addData "Test1" one, .nextBlock "TestBlock1", .addData "Test2" one,
       .nextBlock "NeighborBlock", .addData "Test0" one, .addData "Test1" one, .addData "Test2" one,
       .nextBlock "NeighborBlock", .addData "Test1" one, .addData "Test1" one, .addData "Test1" one,
       .nextBlock "NeighborBlock", .addData "Test2" one, .addData "Test2" one, .addData "Test2" one,
       .nextBlock "TestBlock2", .addData "Test1" one])).bind fun b => (ok? b.buildMessage).bind fun r => (r.1.1.get? "NeighborBlock").map (·.length))
      = some 3 := by decide +kernel

/-! ## `message/tests/test_message_dot_xml.py` -/

/-- `test_validate_udp_msg_false`, `test_validate_udp_msg_true`. -/
example : ok? (validateUdpMsg Embedded.messageXml "ParcelProperties") = some false
    ∧ ok? (validateUdpMsg Embedded.messageXml "OpenCircuit") = some true := by decide +kernel

/-! ## `message/tests/test_template_parser.py` -/

def template (n : String) : Option Template := dict.getTemplate n

def variableOf (t b v : String) : Option TVar :=
  (template t).bind fun t => (t.blocks.find? (·.name = b)).bind fun b => b.vars.find? (·.name = v)

/-- `test_get_packet`, `test_get_packet_pair`. -/
example : (template "ConfirmEnableSimulator").map (fun t => (t.freq, t.msgNum)) = some (.medium, 8)
    ∧ (dict.getTemplateByPair .medium 8).map (·.name) = some "ConfirmEnableSimulator" := by decide +kernel

/-- `test_template`. -/
example : (template "CompletePingCheck").map (fun t => (t.name, t.freq, t.msgNum, t.trust, t.encoding))
    = some ("CompletePingCheck", .high, 2, some .notTrusted, some .unencoded) := by decide +kernel

/-- `test_deprecated`, `test_template_fixed`. -/
example : (template "ObjectPosition").map (·.deprecation) = some (some .deprecated) ∧ (template "PacketAck").map (·.msgNum) = some 251 := by
  decide +kernel

/-- `test_blacklisted`. -/
example : (template "TeleportFinish").bind (fun t => ok? (deprecationAsString t.deprecation)) = some "UDPBlackListed".toList := by decide +kernel

/-- `test_block`, `test_block_multiple`. -/
example : ((template "OpenCircuit").bind fun t => (t.blocks.find? (·.name = "CircuitInfo")).map fun b => (b.blockType, b.number)) = some (.single, 0)
    ∧ ((template "NeighborList").bind fun t => (t.blocks.find? (·.name = "NeighborBlock")).map fun b => (b.blockType, b.number))
      = some (.multiple, 4) := by decide +kernel

/-- `test_variable`. -/
example : (variableOf "StartPingCheck" "PingID" "PingID").map (·.type) = some .u8 := by decide +kernel

/-- `tests/test_message_manager.py`, `test_embedded_message_template_count`. -/
example : 475 ≤ Embedded.all_templates.length := by decide +kernel

/-! ## `message/tests/test_circuits.py` -/

def hostA : Host := ⟨.str "1", some 80⟩
def hostB : Host := ⟨.str "17", some 80⟩

/-- `TestHost`. -/
example : hostA.isOk = true ∧ (⟨.none, none⟩ : Host).isOk = false := by decide +kernel

/-- `TestCircuit.test`. -/
example : ({ host := 0, lastIn := 1 } : Circuit).nextPacketId.lastOut = 1
    ∧ ({ host := 0, lastIn := 1 } : Circuit).nextPacketId.nextPacketId.lastOut = 2 := by decide +kernel

/-- `Message('PacketAck', Block('Packets', ID=n))`. -/
def oneId (n : Int) : Message := Message.new "PacketAck" [.one (Block.mk' "Packets" [("ID", .num (.int n))])]

/-- `test_add_reliable`. -/
example : (fun c : Circuit => (c.unackCount, c.unacked.length, c.finalRetry.length)) { host := 0, lastIn := 1 } = (0, 0, 0)
    ∧ (fun c : Circuit => (c.unackCount, c.unacked.length, c.finalRetry.length))
        (Circuit.addReliablePacket { host := 0, lastIn := 1 } (oneId 3)) = (1, 1, 0) := by decide +kernel

/-- `TestCircuitManager.test_`. -/
example : let m1 := (addCircuit [] 0 hostA 1).1
    let m2 := (addCircuit m1 1 hostB 10).1
    m1.length = 1 ∧ m2.length = 2 ∧ (getCircuit m2 hostA).map (·.lastIn) = some 1 ∧ (getCircuit m2 hostB).map (·.lastIn) = some 10
      ∧ isCircuitAlive m2 hostA = true ∧ isCircuitAlive m2 hostB = true := by decide +kernel

/-! ## `message/tests/test_udpconnection.py`, `tests/test_message_manager.py` -/

/-- Two hosts; the socket accepts everything, nobody subscribes. -/
def start : DState := DState.init fun r => if r = 0 then hostA else hostB
def env : DEnv := { ser := senv, deser := fun _ => denv, net := fun _ _ _ => true, handler := fun _ _ => .done, depth := 10 }

/-- A `PacketAck` with one id, as the tests write it. -/
def sent (id : UInt8) (flags : UInt8 := 0) (n : UInt8 := 3) : Bytes := [flags, 0, 0, 0, id, 0, 0xff, 0xff, 0xff, 0xfb, 1, n, 0, 0, 0]

/-- `test_find_circuit`. -/
example : let r1 := findCircuit start 0
    let r2 := findCircuit r1.1 1
    let r3 := findCircuit r2.1 1
    start.circuits.length = 0 ∧ r1.1.circuits.length = 1 ∧ r2.1.circuits.length = 2 ∧ r3.2 = r2.2 ∧ r3.1.circuits.length = 2 := by decide +kernel

/-- `test_send_variable`, `test_send_same_host`. -/
example : ok? (send env start (oneId 3) 0 .plain).1 = some (some (sent 1))
    ∧ ok? (send env (send env start (oneId 3) 0 .plain).2 (oneId 3) 0 .plain).1 = some (some (sent 2)) := by decide +kernel

/-- `test_send_reliable`. -/
example : ok? (send env start (oneId 3) 0 (.reliable 10)).1 = some (some (sent 1 0x40)) := by decide +kernel

/-- `receive_check`. -/
def received (dg : Bytes) : Option Message := (ok? (receiveCheck env start 0 dg).1).bind id

/-- `test_receive`. -/
example : (received (sent 1 0 1)).map (·.name) = some "PacketAck" ∧ field (received (sent 1 0 1)) "Packets" 0 "ID" = some (.num (.int 1)) := by
  decide +kernel

/-- `test_receive_zero`. -/
example : (received [0x80, 0, 0, 0, 1, 0, 0xff, 0xff, 0xff, 0xfb, 1, 1, 0, 3]).map (·.name) = some "PacketAck"
    ∧ field (received [0x80, 0, 0, 0, 1, 0, 0xff, 0xff, 0xff, 0xfb, 1, 1, 0, 3]) "Packets" 0 "ID" = some (.num (.int 1)) := by decide +kernel

/-- `test_receive_reliable`. -/
example : (getCircuit (receiveCheck env start 0 (sent 5 0x40 1)).2.circuits hostA).map (·.acks) = some [5] := by decide +kernel

/-- What was handed to the socket. -/
def datagrams (st : DState) : List Bytes := st.trace.filterMap fun e => match e with | .sent _ dg => some dg | _ => none

/-- `test_acks`. -/
example : let st := (receiveCheck env start 0 [0x40, 0, 0, 0, 5, 0, 0xff, 0xff, 0xff, 0xfb, 1, 0, 0, 0, 1]).2
    datagrams st = [] ∧ datagrams (processAcks env st [hostA.addr]).2 = [sent 1 0 5] := by decide +kernel

/-- `test_enqueue_message`. -/
example : (enqueue [] { msg := Message.new "TestMessage1" [], reliable := true }).map (fun e => (e.msg.name, e.reliable)) = [("TestMessage1", true)]
    ∧ ((enqueue (enqueue [] { msg := Message.new "TestMessage1" [], reliable := true }) { msg := Message.new "TestMessage2" [], now := true }).head?.map
        fun e => (e.msg.name, e.reliable)) = some ("TestMessage2", false) := by decide +kernel

/-- `test_send_udp_message`. -/
example : ok? (sendUdpMessage { disp := env, host := 0, sender := 1 } start { msg := oneId 3 }).1 = some (some (sent 1)) := by decide +kernel

/-! ## `tests/test_datatypes.py` -/

/-- `'00000000000000000000803f6666da41660000432fffff422233e34100000000000000000000000000000000000000000000000000000000000000000e33de3c000000000000000000000000'`, unhexlified. -/
def objectData : Bytes := (unhexlify "00000000000000000000803f6666da41660000432fffff422233e34100000000000000000000000000000000000000000000000000000000000000000e33de3c000000000000000000000000".toList).getD []

/-- `test_Vector3_from_bytes`: 128.00155639648438, 127.99840545654297, 28.399967193603516. -/
example : ok? (vec3Read objectData 16) = some ⟨0x4060000cc0000000, 0x405fffe5e0000000, 0x403c666440000000⟩ := by decide +kernel

def f128 : F64 := 0x4060000000000000
def f22 : F64 := 0x4036000000000000

/-- `test_Vector3_get_bytes`. -/
example : ok? (Vec3.getBytes ⟨f128, f128, f22⟩) = some [0, 0, 0, 0x43, 0, 0, 0, 0x43, 0, 0, 0xb0, 0x41] := by decide +kernel

/-- `test_Quaternion_from_bytes`: 0.0, 0.0, 1.0, 27.299999237060547. -/
example : ok? (quatRead rt objectData 0) = some ⟨0, 0, 0x3ff0000000000000, 0x403b4cccc0000000⟩ := by decide +kernel

/-- `test_Quaternion_get_bytes`: W is 123.456. -/
example : ok? (Quat.getBytes ⟨f128, f128, f22, 0x405edd2f1a9fbe77⟩)
    = some [0, 0, 0, 0x43, 0, 0, 0, 0x43, 0, 0, 0xb0, 0x41, 0x79, 0xe9, 0xf6, 0x42] := by decide +kernel

/-- `test_Vector3_from_XYZ`, `test_Quaternion_from_XYZW`, `test_Vector3_new`, `test_Quaternion_new`. -/
example : ok? (vec3New (fun _ => none) none 0 (.num (.flt f128)) (.num (.flt f128)) (.num (.flt f22))) = some ⟨f128, f128, f22⟩
    ∧ ok? (quatNew rt (fun _ => none) none 0 4 (.num (.flt f128)) (.num (.flt f128)) (.num (.flt f22)) (.num (.flt 0))) = some ⟨f128, f128, f22, 0⟩
    ∧ ok? (vec3New (fun _ => none) none 0 (.num (.int 0)) (.num (.int 0)) (.num (.int 0))) = some ⟨0, 0, 0⟩ := by decide +kernel

/-- `test_UUID_from_bytes`, `test_UUID_from_string`. -/
example : ok? (uuidNew (string := "2b7f7a6e-32c5-dbfd-e2c7-926d1a9f0aca".toList)) = some 0x2b7f7a6e32c5dbfde2c7926d1a9f0aca
    ∧ ok? (uuidNew (bytes := some (uuidBytes 0x1dd5efe2faaf18645ac9bc61c5d8d7ea))) = some 0x1dd5efe2faaf18645ac9bc61c5d8d7ea := by decide +kernel

/-- `test_UUID_get_bytes`, `test_UUID_new`. -/
example : (ok? (uuidNew (string := "12345678-1234-1234-1234-123456789012".toList))).map uuidGetBytes
      = some [0x12, 0x34, 0x56, 0x78, 0x12, 0x34, 0x12, 0x34, 0x12, 0x34, 0x12, 0x34, 0x56, 0x78, 0x90, 0x12]
    ∧ ok? uuidNew = some 0 := by decide +kernel

/-! ## `tests/test_settings.py` -/

/-- `test_base_settings`. -/
example : (fun s : Settings => (s.quietLogging, s.HANDLE_PACKETS, s.LOG_VERBOSE, s.ENABLE_BYTES_TO_HEX_LOGGING, s.ENABLE_CAPS_LOGGING,
      s.ENABLE_CAPS_LLSD_LOGGING, s.ENABLE_EQ_LOGGING, s.ENABLE_UDP_LOGGING, s.ENABLE_OBJECT_LOGGING, s.LOG_SKIPPED_PACKETS, s.ENABLE_HOST_LOGGING,
      s.LOG_COROUTINE_SPAWNS, s.DISABLE_SPAMMERS, s.UDP_SPAMMERS)) (Settings.new)
    = (false, true, true, false, true, false, true, true, true, true, true, true, true, ["PacketAck", "AgentUpdate"]) := rfl

/-- `test_quiet_settings`. -/
example : (fun s : Settings => (s.quietLogging, s.HANDLE_PACKETS, s.LOG_VERBOSE, s.ENABLE_BYTES_TO_HEX_LOGGING, s.ENABLE_CAPS_LOGGING,
      s.ENABLE_CAPS_LLSD_LOGGING, s.ENABLE_EQ_LOGGING, s.ENABLE_UDP_LOGGING, s.ENABLE_OBJECT_LOGGING, s.LOG_SKIPPED_PACKETS, s.ENABLE_HOST_LOGGING,
      s.LOG_COROUTINE_SPAWNS)) (Settings.new (quiet := true))
    = (true, true, false, false, false, false, false, false, false, false, false, false) := rfl

/-! ## `tests/test_event_queue.py` -/

/-- The last event of the recorded responses. -/
def enableSimulator : Llsd :=
  .map [("body", .map [("SimulatorInfo", .arr [.map [("Handle", .binary [0, 3, 0xfc, 0, 0, 3, 0xc4, 0]), ("IP", .binary [0xd8, 0x52, 0x12, 0x77]),
    ("Port", .int 13002)]])]), ("message", .str "EnableSimulator")]

/-- `test__decode_eq_result2`, the bodies of the first two events shortened. -/
example : (ok? (decodeEqResult dict (.int (-1)) (.map [("events", .arr
      [.map [("body", .map [("AgentData", .arr [.map [("AgentID", .uuid 0xa517168d1af54854ba6d672c8a59e439)]])]), ("message", .str "AgentGroupDataUpdate")],
       .map [("body", .map [("MediaData", .arr [.map [("MediaType", .str "none/none")]])]), ("message", .str "ParcelProperties")],
       enableSimulator]), ("id", .int (-182442759))]))).map (fun ms => ms.map (·.name))
    = some ["AgentGroupDataUpdate", "ParcelProperties", "EnableSimulator"] := by decide +kernel

/-- `test_start_exception`, `test_processRegionEventQueue_exception`: without a capability, or with one of another name, `start` does not run.  (The second
test calls `_processRegionEventQueue` itself, which is not reached through `start`.) -/
example : (eqStart dict (fun _ => .ok ()) none false [] (.response .undef) {}).1 = false
    ∧ (eqStart dict (fun _ => .ok ()) (some "foo") false [] (.response .undef) {}).1 = false := by decide +kernel

/-! ## `tests/test_caps.py`, `tests/doctests/caps.txt`

The mock servers of `tests/base.py`; `llsd.parse` of their bodies is given. -/

def bodyOf (n : UInt8) : Bytes := [n]

def parsed : Bytes → Option Llsd
  | [0] => some (.map [("foo", .str "bar")])
  | [1] => some (.map [("capabilities", .map [("some_capability", .str "http://localhost:12345/cap/some_capability"),
      ("some_other", .str "http://localhost:12345/cap/some_other")])])
  | [2] => some (.map [("something", .str "else"), ("some", .int 12345)])
  | _ => none

def server (r : HttpRequest) : HttpOutcome :=
  if r.url = "http://127.0.0.1/good_cap" ∨ r.url = "http://127.0.0.1/good_post_cap" then .response (some "application/llsd+xml") (bodyOf 0)
  else if r.url = "http://127.0.0.1/get_503" then .httpError 503
  else if r.url = "http://127.0.0.1/get_no_llsd" then .response (some "application/text") (bodyOf 3)
  else if r.url = "http://127.0.0.1:12345/seed_cap" then .response (some "application/llsd+xml") (bodyOf 1)
  else if r.url = "http://localhost:12345/cap/some_capability" then .response (some "application/llsd+xml") (bodyOf 2)
  else if r.url = "http://127.0.0.1:12345/seed_cap_wrong_content_type" then .response (some "text/foobar") (bodyOf 1)
  else if r.url = "http://127.0.0.1:12345/cap/error" then .httpError 500
  else .httpError 404

/-- `test_cap_GET`, `_not_found`, `_exception`, `_no_deserializer`. -/
example : ok? (capGet parsed server "http://127.0.0.1/good_cap" []).1 = some (.map [("foo", .str "bar")])
    ∧ err? (capGet parsed server "http://127.0.0.1/bad_cap" []).1 = some .resourceNotFound
    ∧ err? (capGet parsed server "http://127.0.0.1/get_503" []).1 = some (.resourceError 503)
    ∧ err? (capGet parsed server "http://127.0.0.1/get_no_llsd" []).1 = some .deserializerNotFound := by decide +kernel

/-- `caps.txt`: `seed.get(['some_capability', 'some_other'])`, then a POST to one of the two. -/
example : (ok? (seedGet parsed server id "http://127.0.0.1:12345/seed_cap" ["some_capability", "some_other"]).1).map (fun d => (d.length, d.get? "some_capability"))
      = some (2, some ⟨"some_capability", .str "http://localhost:12345/cap/some_capability"⟩)
    ∧ ok? (capPost parsed server id "http://localhost:12345/cap/some_capability" (.map [("a", .str "b")]) []).1
      = some (.map [("something", .str "else"), ("some", .int 12345)]) := by decide +kernel

/-- `caps.txt`: wrong content type, internal server error, 404. -/
example : err? (seedGet parsed server id "http://127.0.0.1:12345/seed_cap_wrong_content_type" ["some_capability"]).1 = some .deserializerNotFound
    ∧ err? (capPost parsed server id "http://127.0.0.1:12345/cap/error" (.map [("test", .str "testing")]) []).1 = some (.resourceError 500)
    ∧ err? (capPost parsed server id "http://127.0.0.1:12345/cap/unkown" (.map [("test", .str "testing")]) []).1 = some .resourceNotFound := by
  decide +kernel

/-! ## `tests/doctests/message_handler.txt` -/

/-- The callback is called once, with the packet.  (The doctest says `handle` returns a message; it returns nothing.) -/
example : (handleMessage (fun _ => .done) 5 1 "StartPingCheck" (Message.new "StartPingCheck" [])
      ((register ({} : EvState Message) "StartPingCheck").setSubs "StartPingCheck" (eventSubscribe [] ⟨0, [], []⟩))).1 = some (.ok ())
    ∧ (handleMessage (fun _ => .done) 5 1 "StartPingCheck" (Message.new "StartPingCheck" [])
      ((register ({} : EvState Message) "StartPingCheck").setSubs "StartPingCheck" (eventSubscribe [] ⟨0, [], []⟩))).2.calls.map (fun c => (c.event, c.handler, c.args))
      = [("StartPingCheck", 0, (Message.new "StartPingCheck" [], []))] := by decide +kernel

end Pyogp.Conformance
