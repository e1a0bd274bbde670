import Verif.Data.Chars

/-! Generated by `tools/gen_template.py` from `message/data/message_template.msg`: part 1. -/

namespace Pyogp.Embedded


/-- Lines of `message_template.msg` up to the end of `TestMessage`. -/
def c0 : List (List Char) :=
  [chars! "",
   chars! "// The Version 2.0 template requires preservation of message",
   chars! "// numbers. Each message must be numbered relative to the",
   chars! "// other messages of that type. The current highest number ",
   chars! "// for each type is listed below:",
   chars! "// Low: 423",
   chars! "// Medium: 18",
   chars! "// High: 29",
   chars! "// PLEASE UPDATE THIS WHEN YOU ADD A NEW MESSAGE!",
   chars! "",
   chars! "",
   chars! "// *************************************************************************",
   chars! "// Test Message",
   chars! "// *************************************************************************",
   chars! "",
   chars! "// Test Message",
   chars! "",
   chars! "{",
   chars! "\tTestMessage Low 1 NotTrusted Zerocoded",
   chars! "\t{",
   chars! "\t\tTestBlock1\t\tSingle",
   chars! "\t\t{\tTest1\t\tU32\t}",
   chars! "\t}",
   chars! "\t{",
   chars! "\t\tNeighborBlock\t\tMultiple\t\t4",
   chars! "\t\t{\tTest0\t\tU32\t}",
   chars! "\t\t{\tTest1\t\tU32\t}",
   chars! "\t\t{\tTest2\t\tU32\t}",
   chars! "\t}",
   chars! "}"]

/-- `TestMessage` as the parser creates it. -/
def r0 : RawTemplate :=
  ⟨"TestMessage", .low, 1, [255, 255, 1], some .notTrusted, some .zerocoded, some .notDeprecated,
    [⟨"NeighborBlock", .multiple, 4, [⟨"Test2", some .u32, some 4⟩, ⟨"Test1", some .u32, some 4⟩, ⟨"Test0", some .u32, some 4⟩]⟩,
     ⟨"TestBlock1", .single, 0, [⟨"Test1", some .u32, some 4⟩]⟩]⟩

/-- `TestMessage` in file order. -/
def t0 : Template :=
  ⟨"TestMessage", .low, 1, [], some .notTrusted, some .zerocoded, some .notDeprecated,
    [⟨"TestBlock1", .single, 0, [⟨"Test1", .u32, 4⟩]⟩,
     ⟨"NeighborBlock", .multiple, 4, [⟨"Test0", .u32, 4⟩, ⟨"Test1", .u32, 4⟩, ⟨"Test2", .u32, 4⟩]⟩]⟩

theorem p0 : ChunkOk c0 r0 := by intro v older; kernel_rfl
theorem k0 : r0.known = some t0 := by kernel_rfl
theorem n0 : t0.name = String.ofList ['T', 'e', 's', 't', 'M', 'e', 's', 's', 'a', 'g', 'e'] := by kernel_rfl

/-- The names of the blocks and variables of `TestMessage`. -/
def b0 : List (List Char × List (List Char)) :=
  [(['T', 'e', 's', 't', 'B', 'l', 'o', 'c', 'k', '1'], [['T', 'e', 's', 't', '1']]),
   (['N', 'e', 'i', 'g', 'h', 'b', 'o', 'r', 'B', 'l', 'o', 'c', 'k'], [['T', 'e', 's', 't', '0'], ['T', 'e', 's', 't', '1'], ['T', 'e', 's', 't', '2']])]

theorem w0 : Checked t0 := ⟨b0, by kernel_rfl, by kernel_rfl, by kernel_rfl⟩

/-- Lines of `message_template.msg` up to the end of `PacketAck`. -/
def c1 : List (List Char) :=
  [chars! "",
   chars! "// *************************************************************************",
   chars! "// Messaging Internal Data Management Message",
   chars! "// *************************************************************************",
   chars! "",
   chars! "// *************************",
   chars! "// List fixed messages first",
   chars! "// *************************",
   chars! "",
   chars! "",
   chars! "// Packet Ack - Ack a list of packets sent reliable",
   chars! "{",
   chars! "\tPacketAck Fixed 0xFFFFFFFB NotTrusted Unencoded",
   chars! "\t{",
   chars! "\t\tPackets\t\t\tVariable\t\t",
   chars! "\t\t{\tID\t\t\tU32\t}",
   chars! "\t}",
   chars! "}"]

/-- `PacketAck` as the parser creates it. -/
def r1 : RawTemplate :=
  ⟨"PacketAck", .fixed, 251, [255, 255, 255, 251], some .notTrusted, some .unencoded, some .notDeprecated,
    [⟨"Packets", .variable, 0, [⟨"ID", some .u32, some 4⟩]⟩]⟩

/-- `PacketAck` in file order. -/
def t1 : Template :=
  ⟨"PacketAck", .fixed, 251, [], some .notTrusted, some .unencoded, some .notDeprecated,
    [⟨"Packets", .variable, 0, [⟨"ID", .u32, 4⟩]⟩]⟩

theorem p1 : ChunkOk c1 r1 := by intro v older; kernel_rfl
theorem k1 : r1.known = some t1 := by kernel_rfl
theorem n1 : t1.name = String.ofList ['P', 'a', 'c', 'k', 'e', 't', 'A', 'c', 'k'] := by kernel_rfl

/-- The names of the blocks and variables of `PacketAck`. -/
def b1 : List (List Char × List (List Char)) :=
  [(['P', 'a', 'c', 'k', 'e', 't', 's'], [['I', 'D']])]

theorem w1 : Checked t1 := ⟨b1, by kernel_rfl, by kernel_rfl, by kernel_rfl⟩

/-- Lines of `message_template.msg` up to the end of `OpenCircuit`. -/
def c2 : List (List Char) :=
  [chars! "",
   chars! "",
   chars! "// OpenCircuit - Tells the recipient's messaging system to open the descibed circuit",
   chars! "{",
   chars! "\tOpenCircuit Fixed 0xFFFFFFFC NotTrusted Unencoded",
   chars! "\t{",
   chars! "\t\tCircuitInfo\t\tSingle",
   chars! "\t\t{\tIP\t\t\tIPADDR\t}",
   chars! "\t\t{\tPort\t\tIPPORT\t}",
   chars! "\t}",
   chars! "}"]

/-- `OpenCircuit` as the parser creates it. -/
def r2 : RawTemplate :=
  ⟨"OpenCircuit", .fixed, 252, [255, 255, 255, 252], some .notTrusted, some .unencoded, some .notDeprecated,
    [⟨"CircuitInfo", .single, 0, [⟨"Port", some .ipport, some 2⟩, ⟨"IP", some .ipaddr, some 4⟩]⟩]⟩

/-- `OpenCircuit` in file order. -/
def t2 : Template :=
  ⟨"OpenCircuit", .fixed, 252, [], some .notTrusted, some .unencoded, some .notDeprecated,
    [⟨"CircuitInfo", .single, 0, [⟨"IP", .ipaddr, 4⟩, ⟨"Port", .ipport, 2⟩]⟩]⟩

theorem p2 : ChunkOk c2 r2 := by intro v older; kernel_rfl
theorem k2 : r2.known = some t2 := by kernel_rfl
theorem n2 : t2.name = String.ofList ['O', 'p', 'e', 'n', 'C', 'i', 'r', 'c', 'u', 'i', 't'] := by kernel_rfl

/-- The names of the blocks and variables of `OpenCircuit`. -/
def b2 : List (List Char × List (List Char)) :=
  [(['C', 'i', 'r', 'c', 'u', 'i', 't', 'I', 'n', 'f', 'o'], [['I', 'P'], ['P', 'o', 'r', 't']])]

theorem w2 : Checked t2 := ⟨b2, by kernel_rfl, by kernel_rfl, by kernel_rfl⟩

/-- Lines of `message_template.msg` up to the end of `CloseCircuit`. -/
def c3 : List (List Char) :=
  [chars! "",
   chars! "",
   chars! "// CloseCircuit - Tells the recipient's messaging system to close the descibed circuit",
   chars! "{",
   chars! "\tCloseCircuit Fixed 0xFFFFFFFD NotTrusted Unencoded",
   chars! "}"]

/-- `CloseCircuit` as the parser creates it. -/
def r3 : RawTemplate :=
  ⟨"CloseCircuit", .fixed, 253, [255, 255, 255, 253], some .notTrusted, some .unencoded, some .notDeprecated,
    []⟩

/-- `CloseCircuit` in file order. -/
def t3 : Template :=
  ⟨"CloseCircuit", .fixed, 253, [], some .notTrusted, some .unencoded, some .notDeprecated,
    []⟩

theorem p3 : ChunkOk c3 r3 := by intro v older; kernel_rfl
theorem k3 : r3.known = some t3 := by kernel_rfl
theorem n3 : t3.name = String.ofList ['C', 'l', 'o', 's', 'e', 'C', 'i', 'r', 'c', 'u', 'i', 't'] := by kernel_rfl

/-- The names of the blocks and variables of `CloseCircuit`. -/
def b3 : List (List Char × List (List Char)) :=
  []

theorem w3 : Checked t3 := ⟨b3, by kernel_rfl, by kernel_rfl, by kernel_rfl⟩

/-- Lines of `message_template.msg` up to the end of `StartPingCheck`. -/
def c4 : List (List Char) :=
  [chars! "",
   chars! "",
   chars! "// ******************",
   chars! "// End fixed messages",
   chars! "// ******************",
   chars! "",
   chars! "// StartPingCheck - used to measure circuit ping times",
   chars! "// PingID is used to determine how backlogged the ping was that was",
   chars! "// returned (or how hosed the other side is)",
   chars! "{",
   chars! "\tStartPingCheck High 1 NotTrusted Unencoded",
   chars! "\t{",
   chars! "\t\tPingID Single",
   chars! "\t\t{\tPingID\tU8\t}",
   chars! "\t\t{\tOldestUnacked\tU32\t}\t// Current oldest \"unacked\" packet on the sender side",
   chars! "\t}",
   chars! "}"]

/-- `StartPingCheck` as the parser creates it. -/
def r4 : RawTemplate :=
  ⟨"StartPingCheck", .high, 1, [1], some .notTrusted, some .unencoded, some .notDeprecated,
    [⟨"PingID", .single, 0, [⟨"OldestUnacked", some .u32, some 4⟩, ⟨"PingID", some .u8, some 1⟩]⟩]⟩

/-- `StartPingCheck` in file order. -/
def t4 : Template :=
  ⟨"StartPingCheck", .high, 1, [], some .notTrusted, some .unencoded, some .notDeprecated,
    [⟨"PingID", .single, 0, [⟨"PingID", .u8, 1⟩, ⟨"OldestUnacked", .u32, 4⟩]⟩]⟩

theorem p4 : ChunkOk c4 r4 := by intro v older; kernel_rfl
theorem k4 : r4.known = some t4 := by kernel_rfl
theorem n4 : t4.name = String.ofList ['S', 't', 'a', 'r', 't', 'P', 'i', 'n', 'g', 'C', 'h', 'e', 'c', 'k'] := by kernel_rfl

/-- The names of the blocks and variables of `StartPingCheck`. -/
def b4 : List (List Char × List (List Char)) :=
  [(['P', 'i', 'n', 'g', 'I', 'D'], [['P', 'i', 'n', 'g', 'I', 'D'], ['O', 'l', 'd', 'e', 's', 't', 'U', 'n', 'a', 'c', 'k', 'e', 'd']])]

theorem w4 : Checked t4 := ⟨b4, by kernel_rfl, by kernel_rfl, by kernel_rfl⟩

/-- Lines of `message_template.msg` up to the end of `CompletePingCheck`. -/
def c5 : List (List Char) :=
  [chars! "",
   chars! "// CompletePingCheck - used to measure circuit ping times",
   chars! "",
   chars! "{",
   chars! "\tCompletePingCheck High 2 NotTrusted Unencoded",
   chars! "\t{",
   chars! "\t\tPingID Single",
   chars! "\t\t{\tPingID\tU8\t}",
   chars! "\t}",
   chars! "}"]

/-- `CompletePingCheck` as the parser creates it. -/
def r5 : RawTemplate :=
  ⟨"CompletePingCheck", .high, 2, [2], some .notTrusted, some .unencoded, some .notDeprecated,
    [⟨"PingID", .single, 0, [⟨"PingID", some .u8, some 1⟩]⟩]⟩

/-- `CompletePingCheck` in file order. -/
def t5 : Template :=
  ⟨"CompletePingCheck", .high, 2, [], some .notTrusted, some .unencoded, some .notDeprecated,
    [⟨"PingID", .single, 0, [⟨"PingID", .u8, 1⟩]⟩]⟩

theorem p5 : ChunkOk c5 r5 := by intro v older; kernel_rfl
theorem k5 : r5.known = some t5 := by kernel_rfl
theorem n5 : t5.name = String.ofList ['C', 'o', 'm', 'p', 'l', 'e', 't', 'e', 'P', 'i', 'n', 'g', 'C', 'h', 'e', 'c', 'k'] := by kernel_rfl

/-- The names of the blocks and variables of `CompletePingCheck`. -/
def b5 : List (List Char × List (List Char)) :=
  [(['P', 'i', 'n', 'g', 'I', 'D'], [['P', 'i', 'n', 'g', 'I', 'D']])]

theorem w5 : Checked t5 := ⟨b5, by kernel_rfl, by kernel_rfl, by kernel_rfl⟩

/-- Lines of `message_template.msg` up to the end of `AddCircuitCode`. -/
def c6 : List (List Char) :=
  [chars! "",
   chars! "// space->sim",
   chars! "// sim->sim",
   chars! "// AddCircuitCode - Tells the recipient's messaging system that this code",
   chars! "// is for a legal circuit",
   chars! "{",
   chars! "\tAddCircuitCode Low 2 Trusted Unencoded",
   chars! "\t{",
   chars! "\t\tCircuitCode\t\tSingle",
   chars! "\t\t{\tCode\t\tU32\t\t}",
   chars! "\t\t{\tSessionID\tLLUUID\t}",
   chars! "\t\t{\tAgentID\t\tLLUUID\t} // WARNING - may be null in valid message",
   chars! "\t}",
   chars! "}"]

/-- `AddCircuitCode` as the parser creates it. -/
def r6 : RawTemplate :=
  ⟨"AddCircuitCode", .low, 2, [255, 255, 2], some .trusted, some .unencoded, some .notDeprecated,
    [⟨"CircuitCode", .single, 0, [⟨"AgentID", some .uuid, some 16⟩, ⟨"SessionID", some .uuid, some 16⟩, ⟨"Code", some .u32, some 4⟩]⟩]⟩

/-- `AddCircuitCode` in file order. -/
def t6 : Template :=
  ⟨"AddCircuitCode", .low, 2, [], some .trusted, some .unencoded, some .notDeprecated,
    [⟨"CircuitCode", .single, 0, [⟨"Code", .u32, 4⟩, ⟨"SessionID", .uuid, 16⟩, ⟨"AgentID", .uuid, 16⟩]⟩]⟩

theorem p6 : ChunkOk c6 r6 := by intro v older; kernel_rfl
theorem k6 : r6.known = some t6 := by kernel_rfl
theorem n6 : t6.name = String.ofList ['A', 'd', 'd', 'C', 'i', 'r', 'c', 'u', 'i', 't', 'C', 'o', 'd', 'e'] := by kernel_rfl

/-- The names of the blocks and variables of `AddCircuitCode`. -/
def b6 : List (List Char × List (List Char)) :=
  [(['C', 'i', 'r', 'c', 'u', 'i', 't', 'C', 'o', 'd', 'e'], [['C', 'o', 'd', 'e'], ['S', 'e', 's', 's', 'i', 'o', 'n', 'I', 'D'], ['A', 'g', 'e', 'n', 't', 'I', 'D']])]

theorem w6 : Checked t6 := ⟨b6, by kernel_rfl, by kernel_rfl, by kernel_rfl⟩

/-- Lines of `message_template.msg` up to the end of `UseCircuitCode`. -/
def c7 : List (List Char) :=
  [chars! "",
   chars! "// viewer->sim",
   chars! "// UseCircuitCode - Attempts to provide the recipient with IP and Port",
   chars! "// info. In the case of viewers, the id is the session id. For other",
   chars! "// machines it may be null. The session id will always be the session",
   chars! "// id of the process, which every server will generate on startup and",
   chars! "// the viewer will be handed after login.",
   chars! "{",
   chars! "\tUseCircuitCode Low 3 NotTrusted Unencoded",
   chars! "\t{",
   chars! "\t\tCircuitCode\t\tSingle",
   chars! "\t\t{\tCode\t\tU32\t\t}",
   chars! "\t\t{\tSessionID\tLLUUID\t}",
   chars! "\t\t{\tID\t\t\tLLUUID\t} // agent id",
   chars! "\t}",
   chars! "}"]

/-- `UseCircuitCode` as the parser creates it. -/
def r7 : RawTemplate :=
  ⟨"UseCircuitCode", .low, 3, [255, 255, 3], some .notTrusted, some .unencoded, some .notDeprecated,
    [⟨"CircuitCode", .single, 0, [⟨"ID", some .uuid, some 16⟩, ⟨"SessionID", some .uuid, some 16⟩, ⟨"Code", some .u32, some 4⟩]⟩]⟩

/-- `UseCircuitCode` in file order. -/
def t7 : Template :=
  ⟨"UseCircuitCode", .low, 3, [], some .notTrusted, some .unencoded, some .notDeprecated,
    [⟨"CircuitCode", .single, 0, [⟨"Code", .u32, 4⟩, ⟨"SessionID", .uuid, 16⟩, ⟨"ID", .uuid, 16⟩]⟩]⟩

theorem p7 : ChunkOk c7 r7 := by intro v older; kernel_rfl
theorem k7 : r7.known = some t7 := by kernel_rfl
theorem n7 : t7.name = String.ofList ['U', 's', 'e', 'C', 'i', 'r', 'c', 'u', 'i', 't', 'C', 'o', 'd', 'e'] := by kernel_rfl

/-- The names of the blocks and variables of `UseCircuitCode`. -/
def b7 : List (List Char × List (List Char)) :=
  [(['C', 'i', 'r', 'c', 'u', 'i', 't', 'C', 'o', 'd', 'e'], [['C', 'o', 'd', 'e'], ['S', 'e', 's', 's', 'i', 'o', 'n', 'I', 'D'], ['I', 'D']])]

theorem w7 : Checked t7 := ⟨b7, by kernel_rfl, by kernel_rfl, by kernel_rfl⟩

/-- Lines of `message_template.msg` up to the end of `NeighborList`. -/
def c8 : List (List Char) :=
  [chars! "",
   chars! "",
   chars! "// *************************************************************************",
   chars! "// SpaceServer to Simulator Messages",
   chars! "// ************************************************************************",
   chars! "",
   chars! "// Neighbor List - Passed anytime neighbors change",
   chars! "{",
   chars! "\tNeighborList High 3 Trusted Unencoded",
   chars! "\t{",
   chars! "\t\tNeighborBlock\tMultiple\t\t4",
   chars! "\t\t{\tIP\t\t\tIPADDR\t}",
   chars! "\t\t{\tPort\t\tIPPORT\t}",
   chars! "\t\t{\tPublicIP    IPADDR\t}",
   chars! "\t\t{\tPublicPort  IPPORT\t}",
   chars! "\t\t{\tRegionID\tLLUUID\t}",
   chars! "\t\t{\tName\t\tVariable\t\t1\t}\t// string",
   chars! "\t\t{\tSimAccess\tU8\t}",
   chars! "\t}",
   chars! "}"]

/-- `NeighborList` as the parser creates it. -/
def r8 : RawTemplate :=
  ⟨"NeighborList", .high, 3, [3], some .trusted, some .unencoded, some .notDeprecated,
    [⟨"NeighborBlock", .multiple, 4, [⟨"SimAccess", some .u8, some 1⟩, ⟨"Name", some .variable, some 1⟩, ⟨"RegionID", some .uuid, some 16⟩, ⟨"PublicPort", some .ipport, some 2⟩, ⟨"PublicIP", some .ipaddr, some 4⟩, ⟨"Port", some .ipport, some 2⟩, ⟨"IP", some .ipaddr, some 4⟩]⟩]⟩

/-- `NeighborList` in file order. -/
def t8 : Template :=
  ⟨"NeighborList", .high, 3, [], some .trusted, some .unencoded, some .notDeprecated,
    [⟨"NeighborBlock", .multiple, 4, [⟨"IP", .ipaddr, 4⟩, ⟨"Port", .ipport, 2⟩, ⟨"PublicIP", .ipaddr, 4⟩, ⟨"PublicPort", .ipport, 2⟩, ⟨"RegionID", .uuid, 16⟩, ⟨"Name", .variable, 1⟩, ⟨"SimAccess", .u8, 1⟩]⟩]⟩

theorem p8 : ChunkOk c8 r8 := by intro v older; kernel_rfl
theorem k8 : r8.known = some t8 := by kernel_rfl
theorem n8 : t8.name = String.ofList ['N', 'e', 'i', 'g', 'h', 'b', 'o', 'r', 'L', 'i', 's', 't'] := by kernel_rfl

/-- The names of the blocks and variables of `NeighborList`. -/
def b8 : List (List Char × List (List Char)) :=
  [(['N', 'e', 'i', 'g', 'h', 'b', 'o', 'r', 'B', 'l', 'o', 'c', 'k'], [['I', 'P'], ['P', 'o', 'r', 't'], ['P', 'u', 'b', 'l', 'i', 'c', 'I', 'P'], ['P', 'u', 'b', 'l', 'i', 'c', 'P', 'o', 'r', 't'], ['R', 'e', 'g', 'i', 'o', 'n', 'I', 'D'], ['N', 'a', 'm', 'e'], ['S', 'i', 'm', 'A', 'c', 'c', 'e', 's', 's']])]

theorem w8 : Checked t8 := ⟨b8, by kernel_rfl, by kernel_rfl, by kernel_rfl⟩

/-- Lines of `message_template.msg` up to the end of `AvatarTextureUpdate`. -/
def c9 : List (List Char) :=
  [chars! "",
   chars! "",
   chars! "// AvatarTextureUpdate",
   chars! "// simulator -> dataserver",
   chars! "// reliable",
   chars! "{",
   chars! "\tAvatarTextureUpdate Low 4 Trusted Zerocoded",
   chars! "\t{",
   chars! "\t\tAgentData\t\tSingle",
   chars! "\t\t{\tAgentID\t\t\tLLUUID\t}",
   chars! "\t\t{\tTexturesChanged\tBOOL\t}",
   chars! "\t}",
   chars! "\t{",
   chars! "\t\tWearableData\t\tVariable",
   chars! "\t\t{\tCacheID\t\t\tLLUUID }",
   chars! "\t\t{\tTextureIndex\tU8 }",
   chars! "\t\t{\tHostName\t\tVariable\t1\t}",
   chars! "\t}",
   chars! "\t{",
   chars! "\t\tTextureData\t\tVariable",
   chars! "\t\t{\tTextureID\t\tLLUUID\t}",
   chars! "\t}",
   chars! "}"]

/-- `AvatarTextureUpdate` as the parser creates it. -/
def r9 : RawTemplate :=
  ⟨"AvatarTextureUpdate", .low, 4, [255, 255, 4], some .trusted, some .zerocoded, some .notDeprecated,
    [⟨"TextureData", .variable, 0, [⟨"TextureID", some .uuid, some 16⟩]⟩,
     ⟨"WearableData", .variable, 0, [⟨"HostName", some .variable, some 1⟩, ⟨"TextureIndex", some .u8, some 1⟩, ⟨"CacheID", some .uuid, some 16⟩]⟩,
     ⟨"AgentData", .single, 0, [⟨"TexturesChanged", some .bool, some 1⟩, ⟨"AgentID", some .uuid, some 16⟩]⟩]⟩

/-- `AvatarTextureUpdate` in file order. -/
def t9 : Template :=
  ⟨"AvatarTextureUpdate", .low, 4, [], some .trusted, some .zerocoded, some .notDeprecated,
    [⟨"AgentData", .single, 0, [⟨"AgentID", .uuid, 16⟩, ⟨"TexturesChanged", .bool, 1⟩]⟩,
     ⟨"WearableData", .variable, 0, [⟨"CacheID", .uuid, 16⟩, ⟨"TextureIndex", .u8, 1⟩, ⟨"HostName", .variable, 1⟩]⟩,
     ⟨"TextureData", .variable, 0, [⟨"TextureID", .uuid, 16⟩]⟩]⟩

theorem p9 : ChunkOk c9 r9 := by intro v older; kernel_rfl
theorem k9 : r9.known = some t9 := by kernel_rfl
theorem n9 : t9.name = String.ofList ['A', 'v', 'a', 't', 'a', 'r', 'T', 'e', 'x', 't', 'u', 'r', 'e', 'U', 'p', 'd', 'a', 't', 'e'] := by kernel_rfl

/-- The names of the blocks and variables of `AvatarTextureUpdate`. -/
def b9 : List (List Char × List (List Char)) :=
  [(['A', 'g', 'e', 'n', 't', 'D', 'a', 't', 'a'], [['A', 'g', 'e', 'n', 't', 'I', 'D'], ['T', 'e', 'x', 't', 'u', 'r', 'e', 's', 'C', 'h', 'a', 'n', 'g', 'e', 'd']]),
   (['W', 'e', 'a', 'r', 'a', 'b', 'l', 'e', 'D', 'a', 't', 'a'], [['C', 'a', 'c', 'h', 'e', 'I', 'D'], ['T', 'e', 'x', 't', 'u', 'r', 'e', 'I', 'n', 'd', 'e', 'x'], ['H', 'o', 's', 't', 'N', 'a', 'm', 'e']]),
   (['T', 'e', 'x', 't', 'u', 'r', 'e', 'D', 'a', 't', 'a'], [['T', 'e', 'x', 't', 'u', 'r', 'e', 'I', 'D']])]

theorem w9 : Checked t9 := ⟨b9, by kernel_rfl, by kernel_rfl, by kernel_rfl⟩

/-- Lines of `message_template.msg` up to the end of `SimulatorMapUpdate`. -/
def c10 : List (List Char) :=
  [chars! "",
   chars! "",
   chars! "// SimulatorMapUpdate",
   chars! "// simulator -> dataserver",
   chars! "// reliable",
   chars! "{",
   chars! "\tSimulatorMapUpdate Low 5 Trusted Unencoded",
   chars! "\t{",
   chars! "\t\tMapData\t\tSingle",
   chars! "\t\t{\tFlags\t\tU32\t\t}",
   chars! "\t}",
   chars! "}"]

/-- `SimulatorMapUpdate` as the parser creates it. -/
def r10 : RawTemplate :=
  ⟨"SimulatorMapUpdate", .low, 5, [255, 255, 5], some .trusted, some .unencoded, some .notDeprecated,
    [⟨"MapData", .single, 0, [⟨"Flags", some .u32, some 4⟩]⟩]⟩

/-- `SimulatorMapUpdate` in file order. -/
def t10 : Template :=
  ⟨"SimulatorMapUpdate", .low, 5, [], some .trusted, some .unencoded, some .notDeprecated,
    [⟨"MapData", .single, 0, [⟨"Flags", .u32, 4⟩]⟩]⟩

theorem p10 : ChunkOk c10 r10 := by intro v older; kernel_rfl
theorem k10 : r10.known = some t10 := by kernel_rfl
theorem n10 : t10.name = String.ofList ['S', 'i', 'm', 'u', 'l', 'a', 't', 'o', 'r', 'M', 'a', 'p', 'U', 'p', 'd', 'a', 't', 'e'] := by kernel_rfl

/-- The names of the blocks and variables of `SimulatorMapUpdate`. -/
def b10 : List (List Char × List (List Char)) :=
  [(['M', 'a', 'p', 'D', 'a', 't', 'a'], [['F', 'l', 'a', 'g', 's']])]

theorem w10 : Checked t10 := ⟨b10, by kernel_rfl, by kernel_rfl, by kernel_rfl⟩

/-- Lines of `message_template.msg` up to the end of `SimulatorSetMap`. -/
def c11 : List (List Char) :=
  [chars! "",
   chars! "// SimulatorSetMap",
   chars! "// simulator -> dataserver",
   chars! "// reliable",
   chars! "// Used to upload a map image into the database (currently used only for Land For Sale)",
   chars! "{",
   chars! "\tSimulatorSetMap Low 6 Trusted Unencoded",
   chars! "\t{",
   chars! "\t\tMapData\t\tSingle",
   chars! "\t\t{\tRegionHandle\tU64\t\t}",
   chars! "\t\t{\tType\t\t\tS32\t\t}",
   chars! "\t\t{\tMapImage\t\tLLUUID\t}",
   chars! "\t}",
   chars! "}"]

/-- `SimulatorSetMap` as the parser creates it. -/
def r11 : RawTemplate :=
  ⟨"SimulatorSetMap", .low, 6, [255, 255, 6], some .trusted, some .unencoded, some .notDeprecated,
    [⟨"MapData", .single, 0, [⟨"MapImage", some .uuid, some 16⟩, ⟨"Type", some .s32, some 4⟩, ⟨"RegionHandle", some .u64, some 8⟩]⟩]⟩

/-- `SimulatorSetMap` in file order. -/
def t11 : Template :=
  ⟨"SimulatorSetMap", .low, 6, [], some .trusted, some .unencoded, some .notDeprecated,
    [⟨"MapData", .single, 0, [⟨"RegionHandle", .u64, 8⟩, ⟨"Type", .s32, 4⟩, ⟨"MapImage", .uuid, 16⟩]⟩]⟩

theorem p11 : ChunkOk c11 r11 := by intro v older; kernel_rfl
theorem k11 : r11.known = some t11 := by kernel_rfl
theorem n11 : t11.name = String.ofList ['S', 'i', 'm', 'u', 'l', 'a', 't', 'o', 'r', 'S', 'e', 't', 'M', 'a', 'p'] := by kernel_rfl

/-- The names of the blocks and variables of `SimulatorSetMap`. -/
def b11 : List (List Char × List (List Char)) :=
  [(['M', 'a', 'p', 'D', 'a', 't', 'a'], [['R', 'e', 'g', 'i', 'o', 'n', 'H', 'a', 'n', 'd', 'l', 'e'], ['T', 'y', 'p', 'e'], ['M', 'a', 'p', 'I', 'm', 'a', 'g', 'e']])]

theorem w11 : Checked t11 := ⟨b11, by kernel_rfl, by kernel_rfl, by kernel_rfl⟩

/-- Lines of `message_template.msg` up to the end of `SubscribeLoad`. -/
def c12 : List (List Char) :=
  [chars! "",
   chars! "// SubscribeLoad",
   chars! "// spaceserver -> simulator",
   chars! "// reliable",
   chars! "{",
   chars! "\tSubscribeLoad\tLow\t7 Trusted Unencoded",
   chars! "}"]

/-- `SubscribeLoad` as the parser creates it. -/
def r12 : RawTemplate :=
  ⟨"SubscribeLoad", .low, 7, [255, 255, 7], some .trusted, some .unencoded, some .notDeprecated,
    []⟩

/-- `SubscribeLoad` in file order. -/
def t12 : Template :=
  ⟨"SubscribeLoad", .low, 7, [], some .trusted, some .unencoded, some .notDeprecated,
    []⟩

theorem p12 : ChunkOk c12 r12 := by intro v older; kernel_rfl
theorem k12 : r12.known = some t12 := by kernel_rfl
theorem n12 : t12.name = String.ofList ['S', 'u', 'b', 's', 'c', 'r', 'i', 'b', 'e', 'L', 'o', 'a', 'd'] := by kernel_rfl

/-- The names of the blocks and variables of `SubscribeLoad`. -/
def b12 : List (List Char × List (List Char)) :=
  []

theorem w12 : Checked t12 := ⟨b12, by kernel_rfl, by kernel_rfl, by kernel_rfl⟩

/-- Lines of `message_template.msg` up to the end of `UnsubscribeLoad`. -/
def c13 : List (List Char) :=
  [chars! "",
   chars! "// UnsubscribeLoad",
   chars! "// spaceserver -> simulator",
   chars! "// reliable",
   chars! "{",
   chars! "\tUnsubscribeLoad Low 8 Trusted Unencoded",
   chars! "}"]

/-- `UnsubscribeLoad` as the parser creates it. -/
def r13 : RawTemplate :=
  ⟨"UnsubscribeLoad", .low, 8, [255, 255, 8], some .trusted, some .unencoded, some .notDeprecated,
    []⟩

/-- `UnsubscribeLoad` in file order. -/
def t13 : Template :=
  ⟨"UnsubscribeLoad", .low, 8, [], some .trusted, some .unencoded, some .notDeprecated,
    []⟩

theorem p13 : ChunkOk c13 r13 := by intro v older; kernel_rfl
theorem k13 : r13.known = some t13 := by kernel_rfl
theorem n13 : t13.name = String.ofList ['U', 'n', 's', 'u', 'b', 's', 'c', 'r', 'i', 'b', 'e', 'L', 'o', 'a', 'd'] := by kernel_rfl

/-- The names of the blocks and variables of `UnsubscribeLoad`. -/
def b13 : List (List Char × List (List Char)) :=
  []

theorem w13 : Checked t13 := ⟨b13, by kernel_rfl, by kernel_rfl, by kernel_rfl⟩

/-- Lines of `message_template.msg` up to the end of `SimulatorReady`. -/
def c14 : List (List Char) :=
  [chars! "",
   chars! "",
   chars! "// ************************************************************************",
   chars! "// Simulator to SpaceServer Messages",
   chars! "// ************************************************************************",
   chars! "",
   chars! "// SimulatorReady - indicates the sim has finished loading its state",
   chars! "// and is ready to receive updates from others",
   chars! "{",
   chars! "\tSimulatorReady Low 9 Trusted Zerocoded",
   chars! "\t{",
   chars! "\t\tSimulatorBlock\t\tSingle",
   chars! "\t\t{\tSimName\t\t\tVariable\t1\t}",
   chars! "\t\t{\tSimAccess\t\tU8\t}",
   chars! "\t\t{\tRegionFlags\t\tU32\t}",
   chars! "\t\t{\tRegionID\t\tLLUUID\t}",
   chars! "\t\t{\tEstateID\t\tU32\t}",
   chars! "\t\t{\tParentEstateID\tU32\t}",
   chars! "\t}",
   chars! "\t{",
   chars! "\t\tTelehubBlock\t\tSingle",
   chars! "\t\t{\tHasTelehub\t\tBOOL\t\t}",
   chars! "\t\t{\tTelehubPos\t\tLLVector3\t}",
   chars! "\t}",
   chars! "}"]

/-- `SimulatorReady` as the parser creates it. -/
def r14 : RawTemplate :=
  ⟨"SimulatorReady", .low, 9, [255, 255, 9], some .trusted, some .zerocoded, some .notDeprecated,
    [⟨"TelehubBlock", .single, 0, [⟨"TelehubPos", some .vector3, some 12⟩, ⟨"HasTelehub", some .bool, some 1⟩]⟩,
     ⟨"SimulatorBlock", .single, 0, [⟨"ParentEstateID", some .u32, some 4⟩, ⟨"EstateID", some .u32, some 4⟩, ⟨"RegionID", some .uuid, some 16⟩, ⟨"RegionFlags", some .u32, some 4⟩, ⟨"SimAccess", some .u8, some 1⟩, ⟨"SimName", some .variable, some 1⟩]⟩]⟩

/-- `SimulatorReady` in file order. -/
def t14 : Template :=
  ⟨"SimulatorReady", .low, 9, [], some .trusted, some .zerocoded, some .notDeprecated,
    [⟨"SimulatorBlock", .single, 0, [⟨"SimName", .variable, 1⟩, ⟨"SimAccess", .u8, 1⟩, ⟨"RegionFlags", .u32, 4⟩, ⟨"RegionID", .uuid, 16⟩, ⟨"EstateID", .u32, 4⟩, ⟨"ParentEstateID", .u32, 4⟩]⟩,
     ⟨"TelehubBlock", .single, 0, [⟨"HasTelehub", .bool, 1⟩, ⟨"TelehubPos", .vector3, 12⟩]⟩]⟩

theorem p14 : ChunkOk c14 r14 := by intro v older; kernel_rfl
theorem k14 : r14.known = some t14 := by kernel_rfl
theorem n14 : t14.name = String.ofList ['S', 'i', 'm', 'u', 'l', 'a', 't', 'o', 'r', 'R', 'e', 'a', 'd', 'y'] := by kernel_rfl

/-- The names of the blocks and variables of `SimulatorReady`. -/
def b14 : List (List Char × List (List Char)) :=
  [(['S', 'i', 'm', 'u', 'l', 'a', 't', 'o', 'r', 'B', 'l', 'o', 'c', 'k'], [['S', 'i', 'm', 'N', 'a', 'm', 'e'], ['S', 'i', 'm', 'A', 'c', 'c', 'e', 's', 's'], ['R', 'e', 'g', 'i', 'o', 'n', 'F', 'l', 'a', 'g', 's'], ['R', 'e', 'g', 'i', 'o', 'n', 'I', 'D'], ['E', 's', 't', 'a', 't', 'e', 'I', 'D'], ['P', 'a', 'r', 'e', 'n', 't', 'E', 's', 't', 'a', 't', 'e', 'I', 'D']]),
   (['T', 'e', 'l', 'e', 'h', 'u', 'b', 'B', 'l', 'o', 'c', 'k'], [['H', 'a', 's', 'T', 'e', 'l', 'e', 'h', 'u', 'b'], ['T', 'e', 'l', 'e', 'h', 'u', 'b', 'P', 'o', 's']])]

theorem w14 : Checked t14 := ⟨b14, by kernel_rfl, by kernel_rfl, by kernel_rfl⟩

/-- Lines of `message_template.msg` up to the end of `TelehubInfo`. -/
def c15 : List (List Char) :=
  [chars! "",
   chars! "// TelehubInfo - fill in the UI for telehub creation floater.",
   chars! "// sim -> viewer",
   chars! "// reliable",
   chars! "{",
   chars! "\tTelehubInfo\tLow\t10 Trusted Unencoded",
   chars! "\t{",
   chars! "\t\tTelehubBlock\t\tSingle",
   chars! "\t\t{\tObjectID\t\tLLUUID\t\t\t}\t// null if no telehub",
   chars! "\t\t{\tObjectName\t\tVariable 1\t\t}\t// string",
   chars! "\t\t{\tTelehubPos\t\tLLVector3\t\t}\t// fallback if viewer can't find object",
   chars! "\t\t{\tTelehubRot\t\tLLQuaternion\t}",
   chars! "\t}",
   chars! "\t{",
   chars! "\t\tSpawnPointBlock\t\tVariable",
   chars! "\t\t{\tSpawnPointPos\tLLVector3\t\t}\t// relative to telehub position",
   chars! "\t}",
   chars! "}"]

/-- `TelehubInfo` as the parser creates it. -/
def r15 : RawTemplate :=
  ⟨"TelehubInfo", .low, 10, [255, 255, 10], some .trusted, some .unencoded, some .notDeprecated,
    [⟨"SpawnPointBlock", .variable, 0, [⟨"SpawnPointPos", some .vector3, some 12⟩]⟩,
     ⟨"TelehubBlock", .single, 0, [⟨"TelehubRot", some .quaternion, some 12⟩, ⟨"TelehubPos", some .vector3, some 12⟩, ⟨"ObjectName", some .variable, some 1⟩, ⟨"ObjectID", some .uuid, some 16⟩]⟩]⟩

/-- `TelehubInfo` in file order. -/
def t15 : Template :=
  ⟨"TelehubInfo", .low, 10, [], some .trusted, some .unencoded, some .notDeprecated,
    [⟨"TelehubBlock", .single, 0, [⟨"ObjectID", .uuid, 16⟩, ⟨"ObjectName", .variable, 1⟩, ⟨"TelehubPos", .vector3, 12⟩, ⟨"TelehubRot", .quaternion, 12⟩]⟩,
     ⟨"SpawnPointBlock", .variable, 0, [⟨"SpawnPointPos", .vector3, 12⟩]⟩]⟩

theorem p15 : ChunkOk c15 r15 := by intro v older; kernel_rfl
theorem k15 : r15.known = some t15 := by kernel_rfl
theorem n15 : t15.name = String.ofList ['T', 'e', 'l', 'e', 'h', 'u', 'b', 'I', 'n', 'f', 'o'] := by kernel_rfl

/-- The names of the blocks and variables of `TelehubInfo`. -/
def b15 : List (List Char × List (List Char)) :=
  [(['T', 'e', 'l', 'e', 'h', 'u', 'b', 'B', 'l', 'o', 'c', 'k'], [['O', 'b', 'j', 'e', 'c', 't', 'I', 'D'], ['O', 'b', 'j', 'e', 'c', 't', 'N', 'a', 'm', 'e'], ['T', 'e', 'l', 'e', 'h', 'u', 'b', 'P', 'o', 's'], ['T', 'e', 'l', 'e', 'h', 'u', 'b', 'R', 'o', 't']]),
   (['S', 'p', 'a', 'w', 'n', 'P', 'o', 'i', 'n', 't', 'B', 'l', 'o', 'c', 'k'], [['S', 'p', 'a', 'w', 'n', 'P', 'o', 'i', 'n', 't', 'P', 'o', 's']])]

theorem w15 : Checked t15 := ⟨b15, by kernel_rfl, by kernel_rfl, by kernel_rfl⟩

/-- Lines of `message_template.msg` up to the end of `SimulatorPresentAtLocation`. -/
def c16 : List (List Char) :=
  [chars! "",
   chars! "// SimulatorPresentAtLocation - indicates that the sim is present at a grid",
   chars! "// location and passes what it believes its neighbors are",
   chars! "{",
   chars! "\tSimulatorPresentAtLocation Low 11 Trusted Unencoded",
   chars! "\t{",
   chars! "\t\tSimulatorPublicHostBlock\tSingle",
   chars! "\t\t{\tPort        IPPORT }",
   chars! "\t\t{\tSimulatorIP IPADDR }",
   chars! "\t\t{   GridX       U32\t   }",
   chars! "\t\t{\tGridY       U32    }",
   chars! "\t}",
   chars! "\t{",
   chars! "\t\tNeighborBlock\tMultiple\t\t4",
   chars! "\t\t{\tIP\t\t\tIPADDR\t}",
   chars! "\t\t{\tPort\t\tIPPORT\t}",
   chars! "\t}",
   chars! "\t{",
   chars! "\t\tSimulatorBlock\t\tSingle",
   chars! "\t\t{\tSimName\t\t\tVariable\t1\t}",
   chars! "\t\t{\tSimAccess\t\tU8\t}",
   chars! "\t\t{\tRegionFlags\t\tU32\t}",
   chars! "\t\t{\tRegionID\t\tLLUUID\t}",
   chars! "\t\t{\tEstateID\t\tU32\t}",
   chars! "\t\t{\tParentEstateID\tU32\t}",
   chars! "\t}",
   chars! "\t{",
   chars! "\t\tTelehubBlock\t\tVariable",
   chars! "\t\t{\tHasTelehub\t\tBOOL\t\t}",
   chars! "\t\t{\tTelehubPos\t\tLLVector3\t}",
   chars! "\t}",
   chars! "}"]

/-- `SimulatorPresentAtLocation` as the parser creates it. -/
def r16 : RawTemplate :=
  ⟨"SimulatorPresentAtLocation", .low, 11, [255, 255, 11], some .trusted, some .unencoded, some .notDeprecated,
    [⟨"TelehubBlock", .variable, 0, [⟨"TelehubPos", some .vector3, some 12⟩, ⟨"HasTelehub", some .bool, some 1⟩]⟩,
     ⟨"SimulatorBlock", .single, 0, [⟨"ParentEstateID", some .u32, some 4⟩, ⟨"EstateID", some .u32, some 4⟩, ⟨"RegionID", some .uuid, some 16⟩, ⟨"RegionFlags", some .u32, some 4⟩, ⟨"SimAccess", some .u8, some 1⟩, ⟨"SimName", some .variable, some 1⟩]⟩,
     ⟨"NeighborBlock", .multiple, 4, [⟨"Port", some .ipport, some 2⟩, ⟨"IP", some .ipaddr, some 4⟩]⟩,
     ⟨"SimulatorPublicHostBlock", .single, 0, [⟨"GridY", some .u32, some 4⟩, ⟨"GridX", some .u32, some 4⟩, ⟨"SimulatorIP", some .ipaddr, some 4⟩, ⟨"Port", some .ipport, some 2⟩]⟩]⟩

/-- `SimulatorPresentAtLocation` in file order. -/
def t16 : Template :=
  ⟨"SimulatorPresentAtLocation", .low, 11, [], some .trusted, some .unencoded, some .notDeprecated,
    [⟨"SimulatorPublicHostBlock", .single, 0, [⟨"Port", .ipport, 2⟩, ⟨"SimulatorIP", .ipaddr, 4⟩, ⟨"GridX", .u32, 4⟩, ⟨"GridY", .u32, 4⟩]⟩,
     ⟨"NeighborBlock", .multiple, 4, [⟨"IP", .ipaddr, 4⟩, ⟨"Port", .ipport, 2⟩]⟩,
     ⟨"SimulatorBlock", .single, 0, [⟨"SimName", .variable, 1⟩, ⟨"SimAccess", .u8, 1⟩, ⟨"RegionFlags", .u32, 4⟩, ⟨"RegionID", .uuid, 16⟩, ⟨"EstateID", .u32, 4⟩, ⟨"ParentEstateID", .u32, 4⟩]⟩,
     ⟨"TelehubBlock", .variable, 0, [⟨"HasTelehub", .bool, 1⟩, ⟨"TelehubPos", .vector3, 12⟩]⟩]⟩

theorem p16 : ChunkOk c16 r16 := by intro v older; kernel_rfl
theorem k16 : r16.known = some t16 := by kernel_rfl
theorem n16 : t16.name = String.ofList ['S', 'i', 'm', 'u', 'l', 'a', 't', 'o', 'r', 'P', 'r', 'e', 's', 'e', 'n', 't', 'A', 't', 'L', 'o', 'c', 'a', 't', 'i', 'o', 'n'] := by kernel_rfl

/-- The names of the blocks and variables of `SimulatorPresentAtLocation`. -/
def b16 : List (List Char × List (List Char)) :=
  [(['S', 'i', 'm', 'u', 'l', 'a', 't', 'o', 'r', 'P', 'u', 'b', 'l', 'i', 'c', 'H', 'o', 's', 't', 'B', 'l', 'o', 'c', 'k'], [['P', 'o', 'r', 't'], ['S', 'i', 'm', 'u', 'l', 'a', 't', 'o', 'r', 'I', 'P'], ['G', 'r', 'i', 'd', 'X'], ['G', 'r', 'i', 'd', 'Y']]),
   (['N', 'e', 'i', 'g', 'h', 'b', 'o', 'r', 'B', 'l', 'o', 'c', 'k'], [['I', 'P'], ['P', 'o', 'r', 't']]),
   (['S', 'i', 'm', 'u', 'l', 'a', 't', 'o', 'r', 'B', 'l', 'o', 'c', 'k'], [['S', 'i', 'm', 'N', 'a', 'm', 'e'], ['S', 'i', 'm', 'A', 'c', 'c', 'e', 's', 's'], ['R', 'e', 'g', 'i', 'o', 'n', 'F', 'l', 'a', 'g', 's'], ['R', 'e', 'g', 'i', 'o', 'n', 'I', 'D'], ['E', 's', 't', 'a', 't', 'e', 'I', 'D'], ['P', 'a', 'r', 'e', 'n', 't', 'E', 's', 't', 'a', 't', 'e', 'I', 'D']]),
   (['T', 'e', 'l', 'e', 'h', 'u', 'b', 'B', 'l', 'o', 'c', 'k'], [['H', 'a', 's', 'T', 'e', 'l', 'e', 'h', 'u', 'b'], ['T', 'e', 'l', 'e', 'h', 'u', 'b', 'P', 'o', 's']])]

theorem w16 : Checked t16 := ⟨b16, by kernel_rfl, by kernel_rfl, by kernel_rfl⟩

/-- Lines of `message_template.msg` up to the end of `SimulatorLoad`. -/
def c17 : List (List Char) :=
  [chars! "",
   chars! "// SimulatorLoad",
   chars! "// simulator -> spaceserver",
   chars! "// reliable",
   chars! "{",
   chars! "\tSimulatorLoad Low 12 Trusted Unencoded",
   chars! "\t{",
   chars! "\t\tSimulatorLoad\t\tSingle",
   chars! "\t\t{\tTimeDilation \tF32 }",
   chars! "\t\t{\tAgentCount \t\tS32 }",
   chars! "\t\t{\tCanAcceptAgents\tBOOL\t}",
   chars! "\t}",
   chars! "\t{",
   chars! "\t\tAgentList\tVariable",
   chars! "\t\t{\tCircuitCode\t\tU32\t}",
   chars! "\t\t{\tX\t\t\t\tU8\t}",
   chars! "\t\t{\tY\t\t\t\tU8\t}",
   chars! "\t}",
   chars! "}"]

/-- `SimulatorLoad` as the parser creates it. -/
def r17 : RawTemplate :=
  ⟨"SimulatorLoad", .low, 12, [255, 255, 12], some .trusted, some .unencoded, some .notDeprecated,
    [⟨"AgentList", .variable, 0, [⟨"Y", some .u8, some 1⟩, ⟨"X", some .u8, some 1⟩, ⟨"CircuitCode", some .u32, some 4⟩]⟩,
     ⟨"SimulatorLoad", .single, 0, [⟨"CanAcceptAgents", some .bool, some 1⟩, ⟨"AgentCount", some .s32, some 4⟩, ⟨"TimeDilation", some .f32, some 4⟩]⟩]⟩

/-- `SimulatorLoad` in file order. -/
def t17 : Template :=
  ⟨"SimulatorLoad", .low, 12, [], some .trusted, some .unencoded, some .notDeprecated,
    [⟨"SimulatorLoad", .single, 0, [⟨"TimeDilation", .f32, 4⟩, ⟨"AgentCount", .s32, 4⟩, ⟨"CanAcceptAgents", .bool, 1⟩]⟩,
     ⟨"AgentList", .variable, 0, [⟨"CircuitCode", .u32, 4⟩, ⟨"X", .u8, 1⟩, ⟨"Y", .u8, 1⟩]⟩]⟩

theorem p17 : ChunkOk c17 r17 := by intro v older; kernel_rfl
theorem k17 : r17.known = some t17 := by kernel_rfl
theorem n17 : t17.name = String.ofList ['S', 'i', 'm', 'u', 'l', 'a', 't', 'o', 'r', 'L', 'o', 'a', 'd'] := by kernel_rfl

/-- The names of the blocks and variables of `SimulatorLoad`. -/
def b17 : List (List Char × List (List Char)) :=
  [(['S', 'i', 'm', 'u', 'l', 'a', 't', 'o', 'r', 'L', 'o', 'a', 'd'], [['T', 'i', 'm', 'e', 'D', 'i', 'l', 'a', 't', 'i', 'o', 'n'], ['A', 'g', 'e', 'n', 't', 'C', 'o', 'u', 'n', 't'], ['C', 'a', 'n', 'A', 'c', 'c', 'e', 'p', 't', 'A', 'g', 'e', 'n', 't', 's']]),
   (['A', 'g', 'e', 'n', 't', 'L', 'i', 's', 't'], [['C', 'i', 'r', 'c', 'u', 'i', 't', 'C', 'o', 'd', 'e'], ['X'], ['Y']])]

theorem w17 : Checked t17 := ⟨b17, by kernel_rfl, by kernel_rfl, by kernel_rfl⟩

/-- Lines of `message_template.msg` up to the end of `SimulatorShutdownRequest`. -/
def c18 : List (List Char) :=
  [chars! "",
   chars! "// Simulator Shutdown Request - Tells spaceserver that a simulator is trying to shutdown",
   chars! "{",
   chars! "\tSimulatorShutdownRequest Low 13 Trusted Unencoded",
   chars! "}"]

/-- `SimulatorShutdownRequest` as the parser creates it. -/
def r18 : RawTemplate :=
  ⟨"SimulatorShutdownRequest", .low, 13, [255, 255, 13], some .trusted, some .unencoded, some .notDeprecated,
    []⟩

/-- `SimulatorShutdownRequest` in file order. -/
def t18 : Template :=
  ⟨"SimulatorShutdownRequest", .low, 13, [], some .trusted, some .unencoded, some .notDeprecated,
    []⟩

theorem p18 : ChunkOk c18 r18 := by intro v older; kernel_rfl
theorem k18 : r18.known = some t18 := by kernel_rfl
theorem n18 : t18.name = String.ofList ['S', 'i', 'm', 'u', 'l', 'a', 't', 'o', 'r', 'S', 'h', 'u', 't', 'd', 'o', 'w', 'n', 'R', 'e', 'q', 'u', 'e', 's', 't'] := by kernel_rfl

/-- The names of the blocks and variables of `SimulatorShutdownRequest`. -/
def b18 : List (List Char × List (List Char)) :=
  []

theorem w18 : Checked t18 := ⟨b18, by kernel_rfl, by kernel_rfl, by kernel_rfl⟩

/-- Lines of `message_template.msg` up to the end of `RegionPresenceRequestByRegionID`. -/
def c19 : List (List Char) :=
  [chars! "",
   chars! "// ****************************************************************************",
   chars! "// Presense messages",
   chars! "// ****************************************************************************",
   chars! "",
   chars! "// sim -> dataserver",
   chars! "{",
   chars! "\tRegionPresenceRequestByRegionID Low 14 Trusted Unencoded",
   chars! "\t{",
   chars! "\t\tRegionData\t\tVariable",
   chars! "\t\t{\tRegionID\tLLUUID\t}",
   chars! "\t}",
   chars! "}"]

/-- `RegionPresenceRequestByRegionID` as the parser creates it. -/
def r19 : RawTemplate :=
  ⟨"RegionPresenceRequestByRegionID", .low, 14, [255, 255, 14], some .trusted, some .unencoded, some .notDeprecated,
    [⟨"RegionData", .variable, 0, [⟨"RegionID", some .uuid, some 16⟩]⟩]⟩

/-- `RegionPresenceRequestByRegionID` in file order. -/
def t19 : Template :=
  ⟨"RegionPresenceRequestByRegionID", .low, 14, [], some .trusted, some .unencoded, some .notDeprecated,
    [⟨"RegionData", .variable, 0, [⟨"RegionID", .uuid, 16⟩]⟩]⟩

theorem p19 : ChunkOk c19 r19 := by intro v older; kernel_rfl
theorem k19 : r19.known = some t19 := by kernel_rfl
theorem n19 : t19.name = String.ofList ['R', 'e', 'g', 'i', 'o', 'n', 'P', 'r', 'e', 's', 'e', 'n', 'c', 'e', 'R', 'e', 'q', 'u', 'e', 's', 't', 'B', 'y', 'R', 'e', 'g', 'i', 'o', 'n', 'I', 'D'] := by kernel_rfl

/-- The names of the blocks and variables of `RegionPresenceRequestByRegionID`. -/
def b19 : List (List Char × List (List Char)) :=
  [(['R', 'e', 'g', 'i', 'o', 'n', 'D', 'a', 't', 'a'], [['R', 'e', 'g', 'i', 'o', 'n', 'I', 'D']])]

theorem w19 : Checked t19 := ⟨b19, by kernel_rfl, by kernel_rfl, by kernel_rfl⟩

/-- Lines of `message_template.msg` up to the end of `RegionPresenceRequestByHandle`. -/
def c20 : List (List Char) :=
  [chars! "",
   chars! "// sim -> dataserver",
   chars! "{",
   chars! "\tRegionPresenceRequestByHandle Low 15 Trusted Unencoded",
   chars! "\t{",
   chars! "\t\tRegionData\t\tVariable",
   chars! "\t\t{\tRegionHandle\tU64\t}",
   chars! "\t}",
   chars! "}"]

/-- `RegionPresenceRequestByHandle` as the parser creates it. -/
def r20 : RawTemplate :=
  ⟨"RegionPresenceRequestByHandle", .low, 15, [255, 255, 15], some .trusted, some .unencoded, some .notDeprecated,
    [⟨"RegionData", .variable, 0, [⟨"RegionHandle", some .u64, some 8⟩]⟩]⟩

/-- `RegionPresenceRequestByHandle` in file order. -/
def t20 : Template :=
  ⟨"RegionPresenceRequestByHandle", .low, 15, [], some .trusted, some .unencoded, some .notDeprecated,
    [⟨"RegionData", .variable, 0, [⟨"RegionHandle", .u64, 8⟩]⟩]⟩

theorem p20 : ChunkOk c20 r20 := by intro v older; kernel_rfl
theorem k20 : r20.known = some t20 := by kernel_rfl
theorem n20 : t20.name = String.ofList ['R', 'e', 'g', 'i', 'o', 'n', 'P', 'r', 'e', 's', 'e', 'n', 'c', 'e', 'R', 'e', 'q', 'u', 'e', 's', 't', 'B', 'y', 'H', 'a', 'n', 'd', 'l', 'e'] := by kernel_rfl

/-- The names of the blocks and variables of `RegionPresenceRequestByHandle`. -/
def b20 : List (List Char × List (List Char)) :=
  [(['R', 'e', 'g', 'i', 'o', 'n', 'D', 'a', 't', 'a'], [['R', 'e', 'g', 'i', 'o', 'n', 'H', 'a', 'n', 'd', 'l', 'e']])]

theorem w20 : Checked t20 := ⟨b20, by kernel_rfl, by kernel_rfl, by kernel_rfl⟩

/-- Lines of `message_template.msg` up to the end of `RegionPresenceResponse`. -/
def c21 : List (List Char) :=
  [chars! "",
   chars! "// dataserver -> sim",
   chars! "{",
   chars! "\tRegionPresenceResponse Low 16 Trusted Zerocoded",
   chars! "\t{",
   chars! "\t\tRegionData\t\tVariable",
   chars! "\t\t{\tRegionID\t\t\tLLUUID\t}",
   chars! "\t\t{\tRegionHandle\t\tU64\t}",
   chars! "\t\t{\tInternalRegionIP\tIPADDR\t}",
   chars! "\t\t{\tExternalRegionIP\tIPADDR\t}",
   chars! "\t\t{\tRegionPort\t\t\tIPPORT\t}",
   chars! "\t\t{\tValidUntil\t\t\tF64\t}",
   chars! "\t\t{\tMessage\t\t\t\tVariable\t1\t}",
   chars! "\t}",
   chars! "}"]

/-- `RegionPresenceResponse` as the parser creates it. -/
def r21 : RawTemplate :=
  ⟨"RegionPresenceResponse", .low, 16, [255, 255, 16], some .trusted, some .zerocoded, some .notDeprecated,
    [⟨"RegionData", .variable, 0, [⟨"Message", some .variable, some 1⟩, ⟨"ValidUntil", some .f64, some 8⟩, ⟨"RegionPort", some .ipport, some 2⟩, ⟨"ExternalRegionIP", some .ipaddr, some 4⟩, ⟨"InternalRegionIP", some .ipaddr, some 4⟩, ⟨"RegionHandle", some .u64, some 8⟩, ⟨"RegionID", some .uuid, some 16⟩]⟩]⟩

/-- `RegionPresenceResponse` in file order. -/
def t21 : Template :=
  ⟨"RegionPresenceResponse", .low, 16, [], some .trusted, some .zerocoded, some .notDeprecated,
    [⟨"RegionData", .variable, 0, [⟨"RegionID", .uuid, 16⟩, ⟨"RegionHandle", .u64, 8⟩, ⟨"InternalRegionIP", .ipaddr, 4⟩, ⟨"ExternalRegionIP", .ipaddr, 4⟩, ⟨"RegionPort", .ipport, 2⟩, ⟨"ValidUntil", .f64, 8⟩, ⟨"Message", .variable, 1⟩]⟩]⟩

theorem p21 : ChunkOk c21 r21 := by intro v older; kernel_rfl
theorem k21 : r21.known = some t21 := by kernel_rfl
theorem n21 : t21.name = String.ofList ['R', 'e', 'g', 'i', 'o', 'n', 'P', 'r', 'e', 's', 'e', 'n', 'c', 'e', 'R', 'e', 's', 'p', 'o', 'n', 's', 'e'] := by kernel_rfl

/-- The names of the blocks and variables of `RegionPresenceResponse`. -/
def b21 : List (List Char × List (List Char)) :=
  [(['R', 'e', 'g', 'i', 'o', 'n', 'D', 'a', 't', 'a'], [['R', 'e', 'g', 'i', 'o', 'n', 'I', 'D'], ['R', 'e', 'g', 'i', 'o', 'n', 'H', 'a', 'n', 'd', 'l', 'e'], ['I', 'n', 't', 'e', 'r', 'n', 'a', 'l', 'R', 'e', 'g', 'i', 'o', 'n', 'I', 'P'], ['E', 'x', 't', 'e', 'r', 'n', 'a', 'l', 'R', 'e', 'g', 'i', 'o', 'n', 'I', 'P'], ['R', 'e', 'g', 'i', 'o', 'n', 'P', 'o', 'r', 't'], ['V', 'a', 'l', 'i', 'd', 'U', 'n', 't', 'i', 'l'], ['M', 'e', 's', 's', 'a', 'g', 'e']])]

theorem w21 : Checked t21 := ⟨b21, by kernel_rfl, by kernel_rfl, by kernel_rfl⟩

/-- Lines of `message_template.msg` up to the end of `UpdateSimulator`. -/
def c22 : List (List Char) :=
  [chars! " ",
   chars! "",
   chars! "// ****************************************************************************",
   chars! "// Simulator to dataserver messages",
   chars! "// ****************************************************************************",
   chars! "",
   chars! "// Updates SimName, EstateID and SimAccess using RegionID as a key",
   chars! "{",
   chars! "\tUpdateSimulator Low 17 Trusted Unencoded",
   chars! "\t{",
   chars! "\t\tSimulatorInfo\tSingle",
   chars! "\t\t{\tRegionID\tLLUUID\t}",
   chars! "\t\t{\tSimName\t\tVariable\t1\t}",
   chars! "\t\t{\tEstateID\tU32\t\t}",
   chars! "\t\t{\tSimAccess\tU8\t\t}",
   chars! "\t}",
   chars! "}"]

/-- `UpdateSimulator` as the parser creates it. -/
def r22 : RawTemplate :=
  ⟨"UpdateSimulator", .low, 17, [255, 255, 17], some .trusted, some .unencoded, some .notDeprecated,
    [⟨"SimulatorInfo", .single, 0, [⟨"SimAccess", some .u8, some 1⟩, ⟨"EstateID", some .u32, some 4⟩, ⟨"SimName", some .variable, some 1⟩, ⟨"RegionID", some .uuid, some 16⟩]⟩]⟩

/-- `UpdateSimulator` in file order. -/
def t22 : Template :=
  ⟨"UpdateSimulator", .low, 17, [], some .trusted, some .unencoded, some .notDeprecated,
    [⟨"SimulatorInfo", .single, 0, [⟨"RegionID", .uuid, 16⟩, ⟨"SimName", .variable, 1⟩, ⟨"EstateID", .u32, 4⟩, ⟨"SimAccess", .u8, 1⟩]⟩]⟩

theorem p22 : ChunkOk c22 r22 := by intro v older; kernel_rfl
theorem k22 : r22.known = some t22 := by kernel_rfl
theorem n22 : t22.name = String.ofList ['U', 'p', 'd', 'a', 't', 'e', 'S', 'i', 'm', 'u', 'l', 'a', 't', 'o', 'r'] := by kernel_rfl

/-- The names of the blocks and variables of `UpdateSimulator`. -/
def b22 : List (List Char × List (List Char)) :=
  [(['S', 'i', 'm', 'u', 'l', 'a', 't', 'o', 'r', 'I', 'n', 'f', 'o'], [['R', 'e', 'g', 'i', 'o', 'n', 'I', 'D'], ['S', 'i', 'm', 'N', 'a', 'm', 'e'], ['E', 's', 't', 'a', 't', 'e', 'I', 'D'], ['S', 'i', 'm', 'A', 'c', 'c', 'e', 's', 's']])]

theorem w22 : Checked t22 := ⟨b22, by kernel_rfl, by kernel_rfl, by kernel_rfl⟩

/-- Lines of `message_template.msg` up to the end of `LogDwellTime`. -/
def c23 : List (List Char) :=
  [chars! "",
   chars! "",
   chars! "// record dwell time.",
   chars! "{",
   chars! "\tLogDwellTime\tLow\t18 Trusted Unencoded",
   chars! "\t{",
   chars! "\t\tDwellInfo\tSingle",
   chars! "\t\t{\tAgentID\t\tLLUUID\t}",
   chars! "\t\t{\tSessionID\tLLUUID\t}",
   chars! "\t\t{\tDuration\tF32\t\t}",
   chars! "\t\t{\tSimName\t\tVariable\t1 }",
   chars! "\t\t{\tRegionX\t\tU32\t\t}",
   chars! "\t\t{\tRegionY\t\tU32\t\t}",
   chars! "\t\t{\tAvgAgentsInView U8  }",
   chars! "\t\t{\tAvgViewerFPS U8\t\t}",
   chars! "\t}",
   chars! "}"]

/-- `LogDwellTime` as the parser creates it. -/
def r23 : RawTemplate :=
  ⟨"LogDwellTime", .low, 18, [255, 255, 18], some .trusted, some .unencoded, some .notDeprecated,
    [⟨"DwellInfo", .single, 0, [⟨"AvgViewerFPS", some .u8, some 1⟩, ⟨"AvgAgentsInView", some .u8, some 1⟩, ⟨"RegionY", some .u32, some 4⟩, ⟨"RegionX", some .u32, some 4⟩, ⟨"SimName", some .variable, some 1⟩, ⟨"Duration", some .f32, some 4⟩, ⟨"SessionID", some .uuid, some 16⟩, ⟨"AgentID", some .uuid, some 16⟩]⟩]⟩

/-- `LogDwellTime` in file order. -/
def t23 : Template :=
  ⟨"LogDwellTime", .low, 18, [], some .trusted, some .unencoded, some .notDeprecated,
    [⟨"DwellInfo", .single, 0, [⟨"AgentID", .uuid, 16⟩, ⟨"SessionID", .uuid, 16⟩, ⟨"Duration", .f32, 4⟩, ⟨"SimName", .variable, 1⟩, ⟨"RegionX", .u32, 4⟩, ⟨"RegionY", .u32, 4⟩, ⟨"AvgAgentsInView", .u8, 1⟩, ⟨"AvgViewerFPS", .u8, 1⟩]⟩]⟩

theorem p23 : ChunkOk c23 r23 := by intro v older; kernel_rfl
theorem k23 : r23.known = some t23 := by kernel_rfl
theorem n23 : t23.name = String.ofList ['L', 'o', 'g', 'D', 'w', 'e', 'l', 'l', 'T', 'i', 'm', 'e'] := by kernel_rfl

/-- The names of the blocks and variables of `LogDwellTime`. -/
def b23 : List (List Char × List (List Char)) :=
  [(['D', 'w', 'e', 'l', 'l', 'I', 'n', 'f', 'o'], [['A', 'g', 'e', 'n', 't', 'I', 'D'], ['S', 'e', 's', 's', 'i', 'o', 'n', 'I', 'D'], ['D', 'u', 'r', 'a', 't', 'i', 'o', 'n'], ['S', 'i', 'm', 'N', 'a', 'm', 'e'], ['R', 'e', 'g', 'i', 'o', 'n', 'X'], ['R', 'e', 'g', 'i', 'o', 'n', 'Y'], ['A', 'v', 'g', 'A', 'g', 'e', 'n', 't', 's', 'I', 'n', 'V', 'i', 'e', 'w'], ['A', 'v', 'g', 'V', 'i', 'e', 'w', 'e', 'r', 'F', 'P', 'S']])]

theorem w23 : Checked t23 := ⟨b23, by kernel_rfl, by kernel_rfl, by kernel_rfl⟩

/-- Lines of `message_template.msg` up to the end of `FeatureDisabled`. -/
def c24 : List (List Char) :=
  [chars! "",
   chars! "// Disabled feature response message",
   chars! "{",
   chars! "\tFeatureDisabled\tLow 19 Trusted Unencoded",
   chars! "\t{",
   chars! "\t\tFailureInfo\t\t\tSingle",
   chars! "\t\t{\tErrorMessage\tVariable\t1\t}",
   chars! "\t\t{\tAgentID\t\t\tLLUUID\t\t\t}",
   chars! "\t\t{\tTransactionID\tLLUUID\t\t\t}",
   chars! "\t}",
   chars! "}"]

/-- `FeatureDisabled` as the parser creates it. -/
def r24 : RawTemplate :=
  ⟨"FeatureDisabled", .low, 19, [255, 255, 19], some .trusted, some .unencoded, some .notDeprecated,
    [⟨"FailureInfo", .single, 0, [⟨"TransactionID", some .uuid, some 16⟩, ⟨"AgentID", some .uuid, some 16⟩, ⟨"ErrorMessage", some .variable, some 1⟩]⟩]⟩

/-- `FeatureDisabled` in file order. -/
def t24 : Template :=
  ⟨"FeatureDisabled", .low, 19, [], some .trusted, some .unencoded, some .notDeprecated,
    [⟨"FailureInfo", .single, 0, [⟨"ErrorMessage", .variable, 1⟩, ⟨"AgentID", .uuid, 16⟩, ⟨"TransactionID", .uuid, 16⟩]⟩]⟩

theorem p24 : ChunkOk c24 r24 := by intro v older; kernel_rfl
theorem k24 : r24.known = some t24 := by kernel_rfl
theorem n24 : t24.name = String.ofList ['F', 'e', 'a', 't', 'u', 'r', 'e', 'D', 'i', 's', 'a', 'b', 'l', 'e', 'd'] := by kernel_rfl

/-- The names of the blocks and variables of `FeatureDisabled`. -/
def b24 : List (List Char × List (List Char)) :=
  [(['F', 'a', 'i', 'l', 'u', 'r', 'e', 'I', 'n', 'f', 'o'], [['E', 'r', 'r', 'o', 'r', 'M', 'e', 's', 's', 'a', 'g', 'e'], ['A', 'g', 'e', 'n', 't', 'I', 'D'], ['T', 'r', 'a', 'n', 's', 'a', 'c', 't', 'i', 'o', 'n', 'I', 'D']])]

theorem w24 : Checked t24 := ⟨b24, by kernel_rfl, by kernel_rfl, by kernel_rfl⟩

/-- Lines of `message_template.msg` up to the end of `LogFailedMoneyTransaction`. -/
def c25 : List (List Char) :=
  [chars! "",
   chars! "",
   chars! "// record lost money transactions.  This message could be generated",
   chars! "// from either the simulator or the dataserver, depending on how",
   chars! "// the transaction failed.",
   chars! "{",
   chars! "\tLogFailedMoneyTransaction\tLow 20 Trusted Unencoded",
   chars! "\t{",
   chars! "\t\tTransactionData\tSingle",
   chars! "\t\t{\tTransactionID\tLLUUID\t}",
   chars! "\t\t{ \tTransactionTime\tU32\t\t} // utc seconds since epoch",
   chars! "\t\t{\tTransactionType\tS32\t\t}\t// see lltransactiontypes.h",
   chars! "\t\t{\tSourceID\t\tLLUUID  }",
   chars! "\t\t{\tDestID\t\t\tLLUUID\t}\t// destination of the transfer",
   chars! "\t\t{\tFlags\t\t\tU8\t\t}",
   chars! "\t\t{\tAmount\t\t\tS32\t\t}",
   chars! "\t\t{\tSimulatorIP\t\tIPADDR\t}\t// U32 encoded IP",
   chars! "\t\t{\tGridX\t\t\tU32\t\t}",
   chars! "\t\t{\tGridY\t\t\tU32\t\t}",
   chars! "\t\t{\tFailureType\t\tU8\t\t}",
   chars! "\t}",
   chars! "}"]

/-- `LogFailedMoneyTransaction` as the parser creates it. -/
def r25 : RawTemplate :=
  ⟨"LogFailedMoneyTransaction", .low, 20, [255, 255, 20], some .trusted, some .unencoded, some .notDeprecated,
    [⟨"TransactionData", .single, 0, [⟨"FailureType", some .u8, some 1⟩, ⟨"GridY", some .u32, some 4⟩, ⟨"GridX", some .u32, some 4⟩, ⟨"SimulatorIP", some .ipaddr, some 4⟩, ⟨"Amount", some .s32, some 4⟩, ⟨"Flags", some .u8, some 1⟩, ⟨"DestID", some .uuid, some 16⟩, ⟨"SourceID", some .uuid, some 16⟩, ⟨"TransactionType", some .s32, some 4⟩, ⟨"TransactionTime", some .u32, some 4⟩, ⟨"TransactionID", some .uuid, some 16⟩]⟩]⟩

/-- `LogFailedMoneyTransaction` in file order. -/
def t25 : Template :=
  ⟨"LogFailedMoneyTransaction", .low, 20, [], some .trusted, some .unencoded, some .notDeprecated,
    [⟨"TransactionData", .single, 0, [⟨"TransactionID", .uuid, 16⟩, ⟨"TransactionTime", .u32, 4⟩, ⟨"TransactionType", .s32, 4⟩, ⟨"SourceID", .uuid, 16⟩, ⟨"DestID", .uuid, 16⟩, ⟨"Flags", .u8, 1⟩, ⟨"Amount", .s32, 4⟩, ⟨"SimulatorIP", .ipaddr, 4⟩, ⟨"GridX", .u32, 4⟩, ⟨"GridY", .u32, 4⟩, ⟨"FailureType", .u8, 1⟩]⟩]⟩

theorem p25 : ChunkOk c25 r25 := by intro v older; kernel_rfl
theorem k25 : r25.known = some t25 := by kernel_rfl
theorem n25 : t25.name = String.ofList ['L', 'o', 'g', 'F', 'a', 'i', 'l', 'e', 'd', 'M', 'o', 'n', 'e', 'y', 'T', 'r', 'a', 'n', 's', 'a', 'c', 't', 'i', 'o', 'n'] := by kernel_rfl

/-- The names of the blocks and variables of `LogFailedMoneyTransaction`. -/
def b25 : List (List Char × List (List Char)) :=
  [(['T', 'r', 'a', 'n', 's', 'a', 'c', 't', 'i', 'o', 'n', 'D', 'a', 't', 'a'], [['T', 'r', 'a', 'n', 's', 'a', 'c', 't', 'i', 'o', 'n', 'I', 'D'], ['T', 'r', 'a', 'n', 's', 'a', 'c', 't', 'i', 'o', 'n', 'T', 'i', 'm', 'e'], ['T', 'r', 'a', 'n', 's', 'a', 'c', 't', 'i', 'o', 'n', 'T', 'y', 'p', 'e'], ['S', 'o', 'u', 'r', 'c', 'e', 'I', 'D'], ['D', 'e', 's', 't', 'I', 'D'], ['F', 'l', 'a', 'g', 's'], ['A', 'm', 'o', 'u', 'n', 't'], ['S', 'i', 'm', 'u', 'l', 'a', 't', 'o', 'r', 'I', 'P'], ['G', 'r', 'i', 'd', 'X'], ['G', 'r', 'i', 'd', 'Y'], ['F', 'a', 'i', 'l', 'u', 'r', 'e', 'T', 'y', 'p', 'e']])]

theorem w25 : Checked t25 := ⟨b25, by kernel_rfl, by kernel_rfl, by kernel_rfl⟩

/-- Lines of `message_template.msg` up to the end of `UserReportInternal`. -/
def c26 : List (List Char) :=
  [chars! "",
   chars! "// complaint/bug-report - sim -> dataserver. see UserReport for details.",
   chars! "// reliable",
   chars! "{",
   chars! "\tUserReportInternal Low 21 Trusted Zerocoded",
   chars! "\t{",
   chars! "\t\tReportData\tSingle",
   chars! "\t\t{   ReportType\t\tU8   }",
   chars! "\t\t{   Category\t\tU8   }",
   chars! "\t\t{   ReporterID\t\tLLUUID  }",
   chars! "\t\t{\tViewerPosition\tLLVector3\t}",
   chars! "\t\t{\tAgentPosition\tLLVector3\t}",
   chars! "\t\t{   ScreenshotID\tLLUUID  }",
   chars! "\t\t{   ObjectID\t\tLLUUID  }",
   chars! "\t\t{   OwnerID\t\t\tLLUUID  }",
   chars! "\t\t{   LastOwnerID\t\tLLUUID  }",
   chars! "\t\t{   CreatorID\t\tLLUUID  }",
   chars! "\t\t{\tRegionID\t\tLLUUID\t}",
   chars! "\t\t{   AbuserID\t\tLLUUID  }",
   chars! "\t\t{\tAbuseRegionName\tVariable\t1\t}",
   chars! "\t\t{\tAbuseRegionID\tLLUUID\t}",
   chars! "\t\t{   Summary\t\t\tVariable\t1   }",
   chars! "\t\t{   Details \t\tVariable\t2   }",
   chars! "\t\t{\tVersionString\tVariable\t1\t}",
   chars! "\t}",
   chars! "}"]

/-- `UserReportInternal` as the parser creates it. -/
def r26 : RawTemplate :=
  ⟨"UserReportInternal", .low, 21, [255, 255, 21], some .trusted, some .zerocoded, some .notDeprecated,
    [⟨"ReportData", .single, 0, [⟨"VersionString", some .variable, some 1⟩, ⟨"Details", some .variable, some 2⟩, ⟨"Summary", some .variable, some 1⟩, ⟨"AbuseRegionID", some .uuid, some 16⟩, ⟨"AbuseRegionName", some .variable, some 1⟩, ⟨"AbuserID", some .uuid, some 16⟩, ⟨"RegionID", some .uuid, some 16⟩, ⟨"CreatorID", some .uuid, some 16⟩, ⟨"LastOwnerID", some .uuid, some 16⟩, ⟨"OwnerID", some .uuid, some 16⟩, ⟨"ObjectID", some .uuid, some 16⟩, ⟨"ScreenshotID", some .uuid, some 16⟩, ⟨"AgentPosition", some .vector3, some 12⟩, ⟨"ViewerPosition", some .vector3, some 12⟩, ⟨"ReporterID", some .uuid, some 16⟩, ⟨"Category", some .u8, some 1⟩, ⟨"ReportType", some .u8, some 1⟩]⟩]⟩

/-- `UserReportInternal` in file order. -/
def t26 : Template :=
  ⟨"UserReportInternal", .low, 21, [], some .trusted, some .zerocoded, some .notDeprecated,
    [⟨"ReportData", .single, 0, [⟨"ReportType", .u8, 1⟩, ⟨"Category", .u8, 1⟩, ⟨"ReporterID", .uuid, 16⟩, ⟨"ViewerPosition", .vector3, 12⟩, ⟨"AgentPosition", .vector3, 12⟩, ⟨"ScreenshotID", .uuid, 16⟩, ⟨"ObjectID", .uuid, 16⟩, ⟨"OwnerID", .uuid, 16⟩, ⟨"LastOwnerID", .uuid, 16⟩, ⟨"CreatorID", .uuid, 16⟩, ⟨"RegionID", .uuid, 16⟩, ⟨"AbuserID", .uuid, 16⟩, ⟨"AbuseRegionName", .variable, 1⟩, ⟨"AbuseRegionID", .uuid, 16⟩, ⟨"Summary", .variable, 1⟩, ⟨"Details", .variable, 2⟩, ⟨"VersionString", .variable, 1⟩]⟩]⟩

theorem p26 : ChunkOk c26 r26 := by intro v older; kernel_rfl
theorem k26 : r26.known = some t26 := by kernel_rfl
theorem n26 : t26.name = String.ofList ['U', 's', 'e', 'r', 'R', 'e', 'p', 'o', 'r', 't', 'I', 'n', 't', 'e', 'r', 'n', 'a', 'l'] := by kernel_rfl

/-- The names of the blocks and variables of `UserReportInternal`. -/
def b26 : List (List Char × List (List Char)) :=
  [(['R', 'e', 'p', 'o', 'r', 't', 'D', 'a', 't', 'a'], [['R', 'e', 'p', 'o', 'r', 't', 'T', 'y', 'p', 'e'], ['C', 'a', 't', 'e', 'g', 'o', 'r', 'y'], ['R', 'e', 'p', 'o', 'r', 't', 'e', 'r', 'I', 'D'], ['V', 'i', 'e', 'w', 'e', 'r', 'P', 'o', 's', 'i', 't', 'i', 'o', 'n'], ['A', 'g', 'e', 'n', 't', 'P', 'o', 's', 'i', 't', 'i', 'o', 'n'], ['S', 'c', 'r', 'e', 'e', 'n', 's', 'h', 'o', 't', 'I', 'D'], ['O', 'b', 'j', 'e', 'c', 't', 'I', 'D'], ['O', 'w', 'n', 'e', 'r', 'I', 'D'], ['L', 'a', 's', 't', 'O', 'w', 'n', 'e', 'r', 'I', 'D'], ['C', 'r', 'e', 'a', 't', 'o', 'r', 'I', 'D'], ['R', 'e', 'g', 'i', 'o', 'n', 'I', 'D'], ['A', 'b', 'u', 's', 'e', 'r', 'I', 'D'], ['A', 'b', 'u', 's', 'e', 'R', 'e', 'g', 'i', 'o', 'n', 'N', 'a', 'm', 'e'], ['A', 'b', 'u', 's', 'e', 'R', 'e', 'g', 'i', 'o', 'n', 'I', 'D'], ['S', 'u', 'm', 'm', 'a', 'r', 'y'], ['D', 'e', 't', 'a', 'i', 'l', 's'], ['V', 'e', 'r', 's', 'i', 'o', 'n', 'S', 't', 'r', 'i', 'n', 'g']])]

theorem w26 : Checked t26 := ⟨b26, by kernel_rfl, by kernel_rfl, by kernel_rfl⟩

/-- Lines of `message_template.msg` up to the end of `SetSimStatusInDatabase`. -/
def c27 : List (List Char) :=
  [chars! "",
   chars! "// SetSimStatusInDatabase",
   chars! "// alters the \"simulator\" table in the database",
   chars! "// sim -> dataserver",
   chars! "// reliable",
   chars! "{",
   chars! "\tSetSimStatusInDatabase Low 22 Trusted Unencoded",
   chars! "\t{",
   chars! "\t\tData\tSingle",
   chars! "\t\t{\tRegionID\tLLUUID\t}",
   chars! "\t\t{   HostName \tVariable 1\t}",
   chars! "\t\t{\tX\t\t\tS32\t}",
   chars! "\t\t{\tY\t\t\tS32\t}",
   chars! "\t\t{\tPID\t\t\tS32\t}",
   chars! "\t\t{\tAgentCount\tS32\t}",
   chars! "\t\t{\tTimeToLive  S32 } // in seconds",
   chars! "\t\t{\tStatus\t\tVariable\t1\t}",
   chars! "\t}",
   chars! "}"]

/-- `SetSimStatusInDatabase` as the parser creates it. -/
def r27 : RawTemplate :=
  ⟨"SetSimStatusInDatabase", .low, 22, [255, 255, 22], some .trusted, some .unencoded, some .notDeprecated,
    [⟨"Data", .single, 0, [⟨"Status", some .variable, some 1⟩, ⟨"TimeToLive", some .s32, some 4⟩, ⟨"AgentCount", some .s32, some 4⟩, ⟨"PID", some .s32, some 4⟩, ⟨"Y", some .s32, some 4⟩, ⟨"X", some .s32, some 4⟩, ⟨"HostName", some .variable, some 1⟩, ⟨"RegionID", some .uuid, some 16⟩]⟩]⟩

/-- `SetSimStatusInDatabase` in file order. -/
def t27 : Template :=
  ⟨"SetSimStatusInDatabase", .low, 22, [], some .trusted, some .unencoded, some .notDeprecated,
    [⟨"Data", .single, 0, [⟨"RegionID", .uuid, 16⟩, ⟨"HostName", .variable, 1⟩, ⟨"X", .s32, 4⟩, ⟨"Y", .s32, 4⟩, ⟨"PID", .s32, 4⟩, ⟨"AgentCount", .s32, 4⟩, ⟨"TimeToLive", .s32, 4⟩, ⟨"Status", .variable, 1⟩]⟩]⟩

theorem p27 : ChunkOk c27 r27 := by intro v older; kernel_rfl
theorem k27 : r27.known = some t27 := by kernel_rfl
theorem n27 : t27.name = String.ofList ['S', 'e', 't', 'S', 'i', 'm', 'S', 't', 'a', 't', 'u', 's', 'I', 'n', 'D', 'a', 't', 'a', 'b', 'a', 's', 'e'] := by kernel_rfl

/-- The names of the blocks and variables of `SetSimStatusInDatabase`. -/
def b27 : List (List Char × List (List Char)) :=
  [(['D', 'a', 't', 'a'], [['R', 'e', 'g', 'i', 'o', 'n', 'I', 'D'], ['H', 'o', 's', 't', 'N', 'a', 'm', 'e'], ['X'], ['Y'], ['P', 'I', 'D'], ['A', 'g', 'e', 'n', 't', 'C', 'o', 'u', 'n', 't'], ['T', 'i', 'm', 'e', 'T', 'o', 'L', 'i', 'v', 'e'], ['S', 't', 'a', 't', 'u', 's']])]

theorem w27 : Checked t27 := ⟨b27, by kernel_rfl, by kernel_rfl, by kernel_rfl⟩

/-- Lines of `message_template.msg` up to the end of `SetSimPresenceInDatabase`. -/
def c28 : List (List Char) :=
  [chars! "",
   chars! "// SetSimPresenceInDatabase",
   chars! "// updates the \"presence\" table in the database to ensure",
   chars! "// that a given simulator is present and valid for a set amount of",
   chars! "// time",
   chars! "{",
   chars! "\tSetSimPresenceInDatabase Low 23 Trusted Unencoded",
   chars! "\t{",
   chars! "\t\tSimData Single",
   chars! "\t\t{   RegionID \tLLUUID\t}",
   chars! "\t\t{   HostName \tVariable 1\t}",
   chars! "\t\t{\tGridX\t\tU32\t}",
   chars! "\t\t{\tGridY\t\tU32\t}",
   chars! "\t\t{\tPID\t\t\tS32\t}",
   chars! "\t\t{\tAgentCount\tS32\t}",
   chars! "\t\t{\tTimeToLive  S32 } // in seconds",
   chars! "\t\t{\tStatus\t\tVariable\t1\t}",
   chars! "\t}",
   chars! "}"]

/-- `SetSimPresenceInDatabase` as the parser creates it. -/
def r28 : RawTemplate :=
  ⟨"SetSimPresenceInDatabase", .low, 23, [255, 255, 23], some .trusted, some .unencoded, some .notDeprecated,
    [⟨"SimData", .single, 0, [⟨"Status", some .variable, some 1⟩, ⟨"TimeToLive", some .s32, some 4⟩, ⟨"AgentCount", some .s32, some 4⟩, ⟨"PID", some .s32, some 4⟩, ⟨"GridY", some .u32, some 4⟩, ⟨"GridX", some .u32, some 4⟩, ⟨"HostName", some .variable, some 1⟩, ⟨"RegionID", some .uuid, some 16⟩]⟩]⟩

/-- `SetSimPresenceInDatabase` in file order. -/
def t28 : Template :=
  ⟨"SetSimPresenceInDatabase", .low, 23, [], some .trusted, some .unencoded, some .notDeprecated,
    [⟨"SimData", .single, 0, [⟨"RegionID", .uuid, 16⟩, ⟨"HostName", .variable, 1⟩, ⟨"GridX", .u32, 4⟩, ⟨"GridY", .u32, 4⟩, ⟨"PID", .s32, 4⟩, ⟨"AgentCount", .s32, 4⟩, ⟨"TimeToLive", .s32, 4⟩, ⟨"Status", .variable, 1⟩]⟩]⟩

theorem p28 : ChunkOk c28 r28 := by intro v older; kernel_rfl
theorem k28 : r28.known = some t28 := by kernel_rfl
theorem n28 : t28.name = String.ofList ['S', 'e', 't', 'S', 'i', 'm', 'P', 'r', 'e', 's', 'e', 'n', 'c', 'e', 'I', 'n', 'D', 'a', 't', 'a', 'b', 'a', 's', 'e'] := by kernel_rfl

/-- The names of the blocks and variables of `SetSimPresenceInDatabase`. -/
def b28 : List (List Char × List (List Char)) :=
  [(['S', 'i', 'm', 'D', 'a', 't', 'a'], [['R', 'e', 'g', 'i', 'o', 'n', 'I', 'D'], ['H', 'o', 's', 't', 'N', 'a', 'm', 'e'], ['G', 'r', 'i', 'd', 'X'], ['G', 'r', 'i', 'd', 'Y'], ['P', 'I', 'D'], ['A', 'g', 'e', 'n', 't', 'C', 'o', 'u', 'n', 't'], ['T', 'i', 'm', 'e', 'T', 'o', 'L', 'i', 'v', 'e'], ['S', 't', 'a', 't', 'u', 's']])]

theorem w28 : Checked t28 := ⟨b28, by kernel_rfl, by kernel_rfl, by kernel_rfl⟩

/-- Lines of `message_template.msg` up to the end of `EconomyDataRequest`. -/
def c29 : List (List Char) :=
  [chars! "",
   chars! "// ***************************************************************************",
   chars! "// Economy messages",
   chars! "// ***************************************************************************",
   chars! "",
   chars! "// once we use local stats, this will include a region handle",
   chars! "{",
   chars! "\tEconomyDataRequest Low 24 NotTrusted Unencoded",
   chars! "}"]

/-- `EconomyDataRequest` as the parser creates it. -/
def r29 : RawTemplate :=
  ⟨"EconomyDataRequest", .low, 24, [255, 255, 24], some .notTrusted, some .unencoded, some .notDeprecated,
    []⟩

/-- `EconomyDataRequest` in file order. -/
def t29 : Template :=
  ⟨"EconomyDataRequest", .low, 24, [], some .notTrusted, some .unencoded, some .notDeprecated,
    []⟩

theorem p29 : ChunkOk c29 r29 := by intro v older; kernel_rfl
theorem k29 : r29.known = some t29 := by kernel_rfl
theorem n29 : t29.name = String.ofList ['E', 'c', 'o', 'n', 'o', 'm', 'y', 'D', 'a', 't', 'a', 'R', 'e', 'q', 'u', 'e', 's', 't'] := by kernel_rfl

/-- The names of the blocks and variables of `EconomyDataRequest`. -/
def b29 : List (List Char × List (List Char)) :=
  []

theorem w29 : Checked t29 := ⟨b29, by kernel_rfl, by kernel_rfl, by kernel_rfl⟩

/-- Lines of `message_template.msg` up to the end of `EconomyData`. -/
def c30 : List (List Char) :=
  [chars! "",
   chars! "// dataserver to sim, response w/ econ data",
   chars! "{",
   chars! "\tEconomyData Low 25 Trusted Zerocoded",
   chars! "\t{",
   chars! "\t\tInfo\t\t\t\t\tSingle",
   chars! "\t\t{\tObjectCapacity\t\t\tS32\t}",
   chars! "\t\t{\tObjectCount\t\t\t\tS32\t}",
   chars! "\t\t{\tPriceEnergyUnit\t\t\tS32\t}",
   chars! "\t\t{\tPriceObjectClaim\t\tS32\t}",
   chars! "\t\t{\tPricePublicObjectDecay\tS32\t}",
   chars! "\t\t{\tPricePublicObjectDelete\tS32\t}",
   chars! "\t\t{\tPriceParcelClaim\t\tS32\t}",
   chars! "\t\t{\tPriceParcelClaimFactor\tF32\t}",
   chars! "\t\t{\tPriceUpload\t\t\t\tS32\t}",
   chars! "\t\t{\tPriceRentLight\t\t\tS32\t}",
   chars! "\t\t{\tTeleportMinPrice\t\tS32\t}",
   chars! "\t\t{\tTeleportPriceExponent \tF32\t}",
   chars! "\t\t{\tEnergyEfficiency\t\tF32\t}",
   chars! "\t\t{\tPriceObjectRent\t\t\tF32\t}",
   chars! "\t\t{\tPriceObjectScaleFactor \tF32\t}",
   chars! "\t\t{\tPriceParcelRent\t\t\tS32\t}",
   chars! "\t\t{\tPriceGroupCreate\t\tS32\t}",
   chars! "\t}",
   chars! "}"]

/-- `EconomyData` as the parser creates it. -/
def r30 : RawTemplate :=
  ⟨"EconomyData", .low, 25, [255, 255, 25], some .trusted, some .zerocoded, some .notDeprecated,
    [⟨"Info", .single, 0, [⟨"PriceGroupCreate", some .s32, some 4⟩, ⟨"PriceParcelRent", some .s32, some 4⟩, ⟨"PriceObjectScaleFactor", some .f32, some 4⟩, ⟨"PriceObjectRent", some .f32, some 4⟩, ⟨"EnergyEfficiency", some .f32, some 4⟩, ⟨"TeleportPriceExponent", some .f32, some 4⟩, ⟨"TeleportMinPrice", some .s32, some 4⟩, ⟨"PriceRentLight", some .s32, some 4⟩, ⟨"PriceUpload", some .s32, some 4⟩, ⟨"PriceParcelClaimFactor", some .f32, some 4⟩, ⟨"PriceParcelClaim", some .s32, some 4⟩, ⟨"PricePublicObjectDelete", some .s32, some 4⟩, ⟨"PricePublicObjectDecay", some .s32, some 4⟩, ⟨"PriceObjectClaim", some .s32, some 4⟩, ⟨"PriceEnergyUnit", some .s32, some 4⟩, ⟨"ObjectCount", some .s32, some 4⟩, ⟨"ObjectCapacity", some .s32, some 4⟩]⟩]⟩

/-- `EconomyData` in file order. -/
def t30 : Template :=
  ⟨"EconomyData", .low, 25, [], some .trusted, some .zerocoded, some .notDeprecated,
    [⟨"Info", .single, 0, [⟨"ObjectCapacity", .s32, 4⟩, ⟨"ObjectCount", .s32, 4⟩, ⟨"PriceEnergyUnit", .s32, 4⟩, ⟨"PriceObjectClaim", .s32, 4⟩, ⟨"PricePublicObjectDecay", .s32, 4⟩, ⟨"PricePublicObjectDelete", .s32, 4⟩, ⟨"PriceParcelClaim", .s32, 4⟩, ⟨"PriceParcelClaimFactor", .f32, 4⟩, ⟨"PriceUpload", .s32, 4⟩, ⟨"PriceRentLight", .s32, 4⟩, ⟨"TeleportMinPrice", .s32, 4⟩, ⟨"TeleportPriceExponent", .f32, 4⟩, ⟨"EnergyEfficiency", .f32, 4⟩, ⟨"PriceObjectRent", .f32, 4⟩, ⟨"PriceObjectScaleFactor", .f32, 4⟩, ⟨"PriceParcelRent", .s32, 4⟩, ⟨"PriceGroupCreate", .s32, 4⟩]⟩]⟩

theorem p30 : ChunkOk c30 r30 := by intro v older; kernel_rfl
theorem k30 : r30.known = some t30 := by kernel_rfl
theorem n30 : t30.name = String.ofList ['E', 'c', 'o', 'n', 'o', 'm', 'y', 'D', 'a', 't', 'a'] := by kernel_rfl

/-- The names of the blocks and variables of `EconomyData`. -/
def b30 : List (List Char × List (List Char)) :=
  [(['I', 'n', 'f', 'o'], [['O', 'b', 'j', 'e', 'c', 't', 'C', 'a', 'p', 'a', 'c', 'i', 't', 'y'], ['O', 'b', 'j', 'e', 'c', 't', 'C', 'o', 'u', 'n', 't'], ['P', 'r', 'i', 'c', 'e', 'E', 'n', 'e', 'r', 'g', 'y', 'U', 'n', 'i', 't'], ['P', 'r', 'i', 'c', 'e', 'O', 'b', 'j', 'e', 'c', 't', 'C', 'l', 'a', 'i', 'm'], ['P', 'r', 'i', 'c', 'e', 'P', 'u', 'b', 'l', 'i', 'c', 'O', 'b', 'j', 'e', 'c', 't', 'D', 'e', 'c', 'a', 'y'], ['P', 'r', 'i', 'c', 'e', 'P', 'u', 'b', 'l', 'i', 'c', 'O', 'b', 'j', 'e', 'c', 't', 'D', 'e', 'l', 'e', 't', 'e'], ['P', 'r', 'i', 'c', 'e', 'P', 'a', 'r', 'c', 'e', 'l', 'C', 'l', 'a', 'i', 'm'], ['P', 'r', 'i', 'c', 'e', 'P', 'a', 'r', 'c', 'e', 'l', 'C', 'l', 'a', 'i', 'm', 'F', 'a', 'c', 't', 'o', 'r'], ['P', 'r', 'i', 'c', 'e', 'U', 'p', 'l', 'o', 'a', 'd'], ['P', 'r', 'i', 'c', 'e', 'R', 'e', 'n', 't', 'L', 'i', 'g', 'h', 't'], ['T', 'e', 'l', 'e', 'p', 'o', 'r', 't', 'M', 'i', 'n', 'P', 'r', 'i', 'c', 'e'], ['T', 'e', 'l', 'e', 'p', 'o', 'r', 't', 'P', 'r', 'i', 'c', 'e', 'E', 'x', 'p', 'o', 'n', 'e', 'n', 't'], ['E', 'n', 'e', 'r', 'g', 'y', 'E', 'f', 'f', 'i', 'c', 'i', 'e', 'n', 'c', 'y'], ['P', 'r', 'i', 'c', 'e', 'O', 'b', 'j', 'e', 'c', 't', 'R', 'e', 'n', 't'], ['P', 'r', 'i', 'c', 'e', 'O', 'b', 'j', 'e', 'c', 't', 'S', 'c', 'a', 'l', 'e', 'F', 'a', 'c', 't', 'o', 'r'], ['P', 'r', 'i', 'c', 'e', 'P', 'a', 'r', 'c', 'e', 'l', 'R', 'e', 'n', 't'], ['P', 'r', 'i', 'c', 'e', 'G', 'r', 'o', 'u', 'p', 'C', 'r', 'e', 'a', 't', 'e']])]

theorem w30 : Checked t30 := ⟨b30, by kernel_rfl, by kernel_rfl, by kernel_rfl⟩

/-- Lines of `message_template.msg` up to the end of `AvatarPickerRequest`. -/
def c31 : List (List Char) :=
  [chars! "",
   chars! "// ***************************************************************************",
   chars! "// Search messages",
   chars! "// ***************************************************************************",
   chars! "",
   chars! "// AvatarPickerRequest",
   chars! "// Get a list of names to select a person",
   chars! "// viewer -> sim -> data",
   chars! "// reliable",
   chars! "{",
   chars! "\tAvatarPickerRequest Low 26 NotTrusted Unencoded",
   chars! "\t{",
   chars! "\t\tAgentData\t\tSingle",
   chars! "\t\t{\tAgentID\t\tLLUUID\t\t}",
   chars! "\t\t{\tSessionID\tLLUUID\t\t}",
   chars! "\t\t{\tQueryID\t\tLLUUID\t\t}",
   chars! "\t}",
   chars! "\t{",
   chars! "\t\tData\t\t\tSingle",
   chars! "\t\t{\tName\t\tVariable 1\t}",
   chars! "\t}",
   chars! "}"]

/-- `AvatarPickerRequest` as the parser creates it. -/
def r31 : RawTemplate :=
  ⟨"AvatarPickerRequest", .low, 26, [255, 255, 26], some .notTrusted, some .unencoded, some .notDeprecated,
    [⟨"Data", .single, 0, [⟨"Name", some .variable, some 1⟩]⟩,
     ⟨"AgentData", .single, 0, [⟨"QueryID", some .uuid, some 16⟩, ⟨"SessionID", some .uuid, some 16⟩, ⟨"AgentID", some .uuid, some 16⟩]⟩]⟩

/-- `AvatarPickerRequest` in file order. -/
def t31 : Template :=
  ⟨"AvatarPickerRequest", .low, 26, [], some .notTrusted, some .unencoded, some .notDeprecated,
    [⟨"AgentData", .single, 0, [⟨"AgentID", .uuid, 16⟩, ⟨"SessionID", .uuid, 16⟩, ⟨"QueryID", .uuid, 16⟩]⟩,
     ⟨"Data", .single, 0, [⟨"Name", .variable, 1⟩]⟩]⟩

theorem p31 : ChunkOk c31 r31 := by intro v older; kernel_rfl
theorem k31 : r31.known = some t31 := by kernel_rfl
theorem n31 : t31.name = String.ofList ['A', 'v', 'a', 't', 'a', 'r', 'P', 'i', 'c', 'k', 'e', 'r', 'R', 'e', 'q', 'u', 'e', 's', 't'] := by kernel_rfl

/-- The names of the blocks and variables of `AvatarPickerRequest`. -/
def b31 : List (List Char × List (List Char)) :=
  [(['A', 'g', 'e', 'n', 't', 'D', 'a', 't', 'a'], [['A', 'g', 'e', 'n', 't', 'I', 'D'], ['S', 'e', 's', 's', 'i', 'o', 'n', 'I', 'D'], ['Q', 'u', 'e', 'r', 'y', 'I', 'D']]),
   (['D', 'a', 't', 'a'], [['N', 'a', 'm', 'e']])]

theorem w31 : Checked t31 := ⟨b31, by kernel_rfl, by kernel_rfl, by kernel_rfl⟩

/-- Lines of `message_template.msg` up to the end of `AvatarPickerRequestBackend`. -/
def c32 : List (List Char) :=
  [chars! "",
   chars! "// backend implementation which tracks if the user is a god.",
   chars! "{",
   chars! "\tAvatarPickerRequestBackend Low 27 Trusted Unencoded",
   chars! "\t{",
   chars! "\t\tAgentData\t\tSingle",
   chars! "\t\t{\tAgentID\t\tLLUUID\t\t}",
   chars! "\t\t{\tSessionID\tLLUUID\t\t}",
   chars! "\t\t{\tQueryID\t\tLLUUID\t\t}",
   chars! "\t\t{\tGodLevel\tU8\t}",
   chars! "\t}",
   chars! "\t{",
   chars! "\t\tData\t\t\tSingle",
   chars! "\t\t{\tName\t\tVariable 1\t}",
   chars! "\t}",
   chars! "}"]

/-- `AvatarPickerRequestBackend` as the parser creates it. -/
def r32 : RawTemplate :=
  ⟨"AvatarPickerRequestBackend", .low, 27, [255, 255, 27], some .trusted, some .unencoded, some .notDeprecated,
    [⟨"Data", .single, 0, [⟨"Name", some .variable, some 1⟩]⟩,
     ⟨"AgentData", .single, 0, [⟨"GodLevel", some .u8, some 1⟩, ⟨"QueryID", some .uuid, some 16⟩, ⟨"SessionID", some .uuid, some 16⟩, ⟨"AgentID", some .uuid, some 16⟩]⟩]⟩

/-- `AvatarPickerRequestBackend` in file order. -/
def t32 : Template :=
  ⟨"AvatarPickerRequestBackend", .low, 27, [], some .trusted, some .unencoded, some .notDeprecated,
    [⟨"AgentData", .single, 0, [⟨"AgentID", .uuid, 16⟩, ⟨"SessionID", .uuid, 16⟩, ⟨"QueryID", .uuid, 16⟩, ⟨"GodLevel", .u8, 1⟩]⟩,
     ⟨"Data", .single, 0, [⟨"Name", .variable, 1⟩]⟩]⟩

theorem p32 : ChunkOk c32 r32 := by intro v older; kernel_rfl
theorem k32 : r32.known = some t32 := by kernel_rfl
theorem n32 : t32.name = String.ofList ['A', 'v', 'a', 't', 'a', 'r', 'P', 'i', 'c', 'k', 'e', 'r', 'R', 'e', 'q', 'u', 'e', 's', 't', 'B', 'a', 'c', 'k', 'e', 'n', 'd'] := by kernel_rfl

/-- The names of the blocks and variables of `AvatarPickerRequestBackend`. -/
def b32 : List (List Char × List (List Char)) :=
  [(['A', 'g', 'e', 'n', 't', 'D', 'a', 't', 'a'], [['A', 'g', 'e', 'n', 't', 'I', 'D'], ['S', 'e', 's', 's', 'i', 'o', 'n', 'I', 'D'], ['Q', 'u', 'e', 'r', 'y', 'I', 'D'], ['G', 'o', 'd', 'L', 'e', 'v', 'e', 'l']]),
   (['D', 'a', 't', 'a'], [['N', 'a', 'm', 'e']])]

theorem w32 : Checked t32 := ⟨b32, by kernel_rfl, by kernel_rfl, by kernel_rfl⟩

/-- Lines of `message_template.msg` up to the end of `AvatarPickerReply`. -/
def c33 : List (List Char) :=
  [chars! "",
   chars! "// AvatarPickerReply",
   chars! "// List of names to select a person",
   chars! "// reliable",
   chars! "{",
   chars! "\tAvatarPickerReply Low 28 Trusted Unencoded",
   chars! "\t{",
   chars! "\t\tAgentData\t\tSingle",
   chars! "\t\t{\tAgentID\t\tLLUUID\t\t}",
   chars! "\t\t{\tQueryID\t\tLLUUID\t\t}",
   chars! "\t}",
   chars! "\t{",
   chars! "\t\tData\t\t\tVariable",
   chars! "\t\t{\tAvatarID\tLLUUID\t\t}",
   chars! "\t\t{\tFirstName\tVariable 1\t}",
   chars! "\t\t{\tLastName\tVariable 1\t}",
   chars! "\t}",
   chars! "}"]

/-- `AvatarPickerReply` as the parser creates it. -/
def r33 : RawTemplate :=
  ⟨"AvatarPickerReply", .low, 28, [255, 255, 28], some .trusted, some .unencoded, some .notDeprecated,
    [⟨"Data", .variable, 0, [⟨"LastName", some .variable, some 1⟩, ⟨"FirstName", some .variable, some 1⟩, ⟨"AvatarID", some .uuid, some 16⟩]⟩,
     ⟨"AgentData", .single, 0, [⟨"QueryID", some .uuid, some 16⟩, ⟨"AgentID", some .uuid, some 16⟩]⟩]⟩

/-- `AvatarPickerReply` in file order. -/
def t33 : Template :=
  ⟨"AvatarPickerReply", .low, 28, [], some .trusted, some .unencoded, some .notDeprecated,
    [⟨"AgentData", .single, 0, [⟨"AgentID", .uuid, 16⟩, ⟨"QueryID", .uuid, 16⟩]⟩,
     ⟨"Data", .variable, 0, [⟨"AvatarID", .uuid, 16⟩, ⟨"FirstName", .variable, 1⟩, ⟨"LastName", .variable, 1⟩]⟩]⟩

theorem p33 : ChunkOk c33 r33 := by intro v older; kernel_rfl
theorem k33 : r33.known = some t33 := by kernel_rfl
theorem n33 : t33.name = String.ofList ['A', 'v', 'a', 't', 'a', 'r', 'P', 'i', 'c', 'k', 'e', 'r', 'R', 'e', 'p', 'l', 'y'] := by kernel_rfl

/-- The names of the blocks and variables of `AvatarPickerReply`. -/
def b33 : List (List Char × List (List Char)) :=
  [(['A', 'g', 'e', 'n', 't', 'D', 'a', 't', 'a'], [['A', 'g', 'e', 'n', 't', 'I', 'D'], ['Q', 'u', 'e', 'r', 'y', 'I', 'D']]),
   (['D', 'a', 't', 'a'], [['A', 'v', 'a', 't', 'a', 'r', 'I', 'D'], ['F', 'i', 'r', 's', 't', 'N', 'a', 'm', 'e'], ['L', 'a', 's', 't', 'N', 'a', 'm', 'e']])]

theorem w33 : Checked t33 := ⟨b33, by kernel_rfl, by kernel_rfl, by kernel_rfl⟩

/-- Lines of `message_template.msg` up to the end of `PlacesQuery`. -/
def c34 : List (List Char) :=
  [chars! "",
   chars! "// PlacesQuery",
   chars! "// Used for getting a list of places for the group land panel",
   chars! "// and the user land holdings panel.  NOT for the directory.",
   chars! "{",
   chars! "\tPlacesQuery Low 29 NotTrusted Zerocoded",
   chars! "\t{",
   chars! "\t\tAgentData\t\tSingle",
   chars! "\t\t{\tAgentID\t\tLLUUID\t\t}",
   chars! "\t\t{\tSessionID\tLLUUID\t\t}",
   chars! "\t\t{\tQueryID\t\tLLUUID\t\t}",
   chars! "\t}",
   chars! "\t{",
   chars! "\t\tTransactionData Single",
   chars! "\t\t{\tTransactionID\tLLUUID\t}",
   chars! "\t}",
   chars! "\t{",
   chars! "\t\tQueryData\t\tSingle",
   chars! "\t\t{\tQueryText\tVariable\t1\t}",
   chars! "\t\t{\tQueryFlags\tU32\t\t\t\t}",
   chars! "\t\t{\tCategory\tS8\t\t\t\t}",
   chars! "\t\t{\tSimName\t\tVariable\t1\t}",
   chars! "\t}",
   chars! "}"]

/-- `PlacesQuery` as the parser creates it. -/
def r34 : RawTemplate :=
  ⟨"PlacesQuery", .low, 29, [255, 255, 29], some .notTrusted, some .zerocoded, some .notDeprecated,
    [⟨"QueryData", .single, 0, [⟨"SimName", some .variable, some 1⟩, ⟨"Category", some .s8, some 1⟩, ⟨"QueryFlags", some .u32, some 4⟩, ⟨"QueryText", some .variable, some 1⟩]⟩,
     ⟨"TransactionData", .single, 0, [⟨"TransactionID", some .uuid, some 16⟩]⟩,
     ⟨"AgentData", .single, 0, [⟨"QueryID", some .uuid, some 16⟩, ⟨"SessionID", some .uuid, some 16⟩, ⟨"AgentID", some .uuid, some 16⟩]⟩]⟩

/-- `PlacesQuery` in file order. -/
def t34 : Template :=
  ⟨"PlacesQuery", .low, 29, [], some .notTrusted, some .zerocoded, some .notDeprecated,
    [⟨"AgentData", .single, 0, [⟨"AgentID", .uuid, 16⟩, ⟨"SessionID", .uuid, 16⟩, ⟨"QueryID", .uuid, 16⟩]⟩,
     ⟨"TransactionData", .single, 0, [⟨"TransactionID", .uuid, 16⟩]⟩,
     ⟨"QueryData", .single, 0, [⟨"QueryText", .variable, 1⟩, ⟨"QueryFlags", .u32, 4⟩, ⟨"Category", .s8, 1⟩, ⟨"SimName", .variable, 1⟩]⟩]⟩

theorem p34 : ChunkOk c34 r34 := by intro v older; kernel_rfl
theorem k34 : r34.known = some t34 := by kernel_rfl
theorem n34 : t34.name = String.ofList ['P', 'l', 'a', 'c', 'e', 's', 'Q', 'u', 'e', 'r', 'y'] := by kernel_rfl

/-- The names of the blocks and variables of `PlacesQuery`. -/
def b34 : List (List Char × List (List Char)) :=
  [(['A', 'g', 'e', 'n', 't', 'D', 'a', 't', 'a'], [['A', 'g', 'e', 'n', 't', 'I', 'D'], ['S', 'e', 's', 's', 'i', 'o', 'n', 'I', 'D'], ['Q', 'u', 'e', 'r', 'y', 'I', 'D']]),
   (['T', 'r', 'a', 'n', 's', 'a', 'c', 't', 'i', 'o', 'n', 'D', 'a', 't', 'a'], [['T', 'r', 'a', 'n', 's', 'a', 'c', 't', 'i', 'o', 'n', 'I', 'D']]),
   (['Q', 'u', 'e', 'r', 'y', 'D', 'a', 't', 'a'], [['Q', 'u', 'e', 'r', 'y', 'T', 'e', 'x', 't'], ['Q', 'u', 'e', 'r', 'y', 'F', 'l', 'a', 'g', 's'], ['C', 'a', 't', 'e', 'g', 'o', 'r', 'y'], ['S', 'i', 'm', 'N', 'a', 'm', 'e']])]

theorem w34 : Checked t34 := ⟨b34, by kernel_rfl, by kernel_rfl, by kernel_rfl⟩

/-- Lines of `message_template.msg` up to the end of `PlacesReply`. -/
def c35 : List (List Char) :=
  [chars! "",
   chars! "// PlacesReply",
   chars! "// dataserver -> simulator -> viewer",
   chars! "// If the user has specified a location, use that to compute",
   chars! "// global x,y,z.  Otherwise, use center of the AABB.",
   chars! "// reliable",
   chars! "{",
   chars! "\tPlacesReply Low 30 Trusted Zerocoded UDPDeprecated",
   chars! "\t{",
   chars! "\t\tAgentData\t\tSingle",
   chars! "\t\t{\tAgentID\t\tLLUUID\t\t}",
   chars! "\t\t{\tQueryID\t\tLLUUID\t\t}",
   chars! "\t}",
   chars! "\t{",
   chars! "\t\tTransactionData Single",
   chars! "\t\t{\tTransactionID\tLLUUID\t}",
   chars! "\t}",
   chars! "\t{",
   chars! "\t\tQueryData\t\tVariable",
   chars! "\t\t{\tOwnerID\t\t\tLLUUID\t\t\t}",
   chars! "\t\t{\tName\t\t\tVariable\t1\t}",
   chars! "\t\t{\tDesc\t\t\tVariable\t1\t}",
   chars! "\t\t{\tActualArea\t\tS32\t\t\t\t}",
   chars! "\t\t{\tBillableArea\tS32\t\t\t\t}",
   chars! "\t\t{\tFlags\t\t\tU8\t\t\t\t}",
   chars! "\t\t{\tGlobalX\t\t\tF32\t\t\t\t}\t// meters",
   chars! "\t\t{\tGlobalY\t\t\tF32\t\t\t\t}\t// meters",
   chars! "\t\t{\tGlobalZ\t\t\tF32\t\t\t\t}\t// meters",
   chars! "\t\t{\tSimName\t\t\tVariable\t1\t}",
   chars! "\t\t{\tSnapshotID\t\tLLUUID\t\t\t}",
   chars! "\t\t{\tDwell\t\t\tF32\t\t\t\t}",
   chars! "\t\t{\tPrice\t\t\tS32\t\t\t\t}",
   chars! "\t\t//{\tProductSKU\t\tVariable\t1\t}",
   chars! "\t}",
   chars! "}"]

/-- `PlacesReply` as the parser creates it. -/
def r35 : RawTemplate :=
  ⟨"PlacesReply", .low, 30, [255, 255, 30], some .trusted, some .zerocoded, some .udpDeprecated,
    [⟨"QueryData", .variable, 0, [⟨"Price", some .s32, some 4⟩, ⟨"Dwell", some .f32, some 4⟩, ⟨"SnapshotID", some .uuid, some 16⟩, ⟨"SimName", some .variable, some 1⟩, ⟨"GlobalZ", some .f32, some 4⟩, ⟨"GlobalY", some .f32, some 4⟩, ⟨"GlobalX", some .f32, some 4⟩, ⟨"Flags", some .u8, some 1⟩, ⟨"BillableArea", some .s32, some 4⟩, ⟨"ActualArea", some .s32, some 4⟩, ⟨"Desc", some .variable, some 1⟩, ⟨"Name", some .variable, some 1⟩, ⟨"OwnerID", some .uuid, some 16⟩]⟩,
     ⟨"TransactionData", .single, 0, [⟨"TransactionID", some .uuid, some 16⟩]⟩,
     ⟨"AgentData", .single, 0, [⟨"QueryID", some .uuid, some 16⟩, ⟨"AgentID", some .uuid, some 16⟩]⟩]⟩

/-- `PlacesReply` in file order. -/
def t35 : Template :=
  ⟨"PlacesReply", .low, 30, [], some .trusted, some .zerocoded, some .udpDeprecated,
    [⟨"AgentData", .single, 0, [⟨"AgentID", .uuid, 16⟩, ⟨"QueryID", .uuid, 16⟩]⟩,
     ⟨"TransactionData", .single, 0, [⟨"TransactionID", .uuid, 16⟩]⟩,
     ⟨"QueryData", .variable, 0, [⟨"OwnerID", .uuid, 16⟩, ⟨"Name", .variable, 1⟩, ⟨"Desc", .variable, 1⟩, ⟨"ActualArea", .s32, 4⟩, ⟨"BillableArea", .s32, 4⟩, ⟨"Flags", .u8, 1⟩, ⟨"GlobalX", .f32, 4⟩, ⟨"GlobalY", .f32, 4⟩, ⟨"GlobalZ", .f32, 4⟩, ⟨"SimName", .variable, 1⟩, ⟨"SnapshotID", .uuid, 16⟩, ⟨"Dwell", .f32, 4⟩, ⟨"Price", .s32, 4⟩]⟩]⟩

theorem p35 : ChunkOk c35 r35 := by intro v older; kernel_rfl
theorem k35 : r35.known = some t35 := by kernel_rfl
theorem n35 : t35.name = String.ofList ['P', 'l', 'a', 'c', 'e', 's', 'R', 'e', 'p', 'l', 'y'] := by kernel_rfl

/-- The names of the blocks and variables of `PlacesReply`. -/
def b35 : List (List Char × List (List Char)) :=
  [(['A', 'g', 'e', 'n', 't', 'D', 'a', 't', 'a'], [['A', 'g', 'e', 'n', 't', 'I', 'D'], ['Q', 'u', 'e', 'r', 'y', 'I', 'D']]),
   (['T', 'r', 'a', 'n', 's', 'a', 'c', 't', 'i', 'o', 'n', 'D', 'a', 't', 'a'], [['T', 'r', 'a', 'n', 's', 'a', 'c', 't', 'i', 'o', 'n', 'I', 'D']]),
   (['Q', 'u', 'e', 'r', 'y', 'D', 'a', 't', 'a'], [['O', 'w', 'n', 'e', 'r', 'I', 'D'], ['N', 'a', 'm', 'e'], ['D', 'e', 's', 'c'], ['A', 'c', 't', 'u', 'a', 'l', 'A', 'r', 'e', 'a'], ['B', 'i', 'l', 'l', 'a', 'b', 'l', 'e', 'A', 'r', 'e', 'a'], ['F', 'l', 'a', 'g', 's'], ['G', 'l', 'o', 'b', 'a', 'l', 'X'], ['G', 'l', 'o', 'b', 'a', 'l', 'Y'], ['G', 'l', 'o', 'b', 'a', 'l', 'Z'], ['S', 'i', 'm', 'N', 'a', 'm', 'e'], ['S', 'n', 'a', 'p', 's', 'h', 'o', 't', 'I', 'D'], ['D', 'w', 'e', 'l', 'l'], ['P', 'r', 'i', 'c', 'e']])]

theorem w35 : Checked t35 := ⟨b35, by kernel_rfl, by kernel_rfl, by kernel_rfl⟩

/-- Lines of `message_template.msg` up to the end of `DirFindQuery`. -/
def c36 : List (List Char) :=
  [chars! "",
   chars! "// DirFindQuery viewer->sim",
   chars! "// Message to start asking questions for the directory ",
   chars! "{",
   chars! "\tDirFindQuery Low 31 NotTrusted Zerocoded",
   chars! "\t{",
   chars! "\t\tAgentData\t\tSingle",
   chars! "\t\t{\tAgentID\t\tLLUUID\t\t}",
   chars! "\t\t{\tSessionID\tLLUUID\t\t}",
   chars! "\t}",
   chars! "\t{",
   chars! "\t\tQueryData\t\tSingle",
   chars! "\t\t{\tQueryID\t\tLLUUID\t\t}",
   chars! "\t\t{\tQueryText\tVariable 1\t}",
   chars! "\t\t{\tQueryFlags\tU32\t\t\t}",
   chars! "\t\t{\tQueryStart\tS32\t\t\t}\t// prev/next page support",
   chars! "\t}",
   chars! "}"]

/-- `DirFindQuery` as the parser creates it. -/
def r36 : RawTemplate :=
  ⟨"DirFindQuery", .low, 31, [255, 255, 31], some .notTrusted, some .zerocoded, some .notDeprecated,
    [⟨"QueryData", .single, 0, [⟨"QueryStart", some .s32, some 4⟩, ⟨"QueryFlags", some .u32, some 4⟩, ⟨"QueryText", some .variable, some 1⟩, ⟨"QueryID", some .uuid, some 16⟩]⟩,
     ⟨"AgentData", .single, 0, [⟨"SessionID", some .uuid, some 16⟩, ⟨"AgentID", some .uuid, some 16⟩]⟩]⟩

/-- `DirFindQuery` in file order. -/
def t36 : Template :=
  ⟨"DirFindQuery", .low, 31, [], some .notTrusted, some .zerocoded, some .notDeprecated,
    [⟨"AgentData", .single, 0, [⟨"AgentID", .uuid, 16⟩, ⟨"SessionID", .uuid, 16⟩]⟩,
     ⟨"QueryData", .single, 0, [⟨"QueryID", .uuid, 16⟩, ⟨"QueryText", .variable, 1⟩, ⟨"QueryFlags", .u32, 4⟩, ⟨"QueryStart", .s32, 4⟩]⟩]⟩

theorem p36 : ChunkOk c36 r36 := by intro v older; kernel_rfl
theorem k36 : r36.known = some t36 := by kernel_rfl
theorem n36 : t36.name = String.ofList ['D', 'i', 'r', 'F', 'i', 'n', 'd', 'Q', 'u', 'e', 'r', 'y'] := by kernel_rfl

/-- The names of the blocks and variables of `DirFindQuery`. -/
def b36 : List (List Char × List (List Char)) :=
  [(['A', 'g', 'e', 'n', 't', 'D', 'a', 't', 'a'], [['A', 'g', 'e', 'n', 't', 'I', 'D'], ['S', 'e', 's', 's', 'i', 'o', 'n', 'I', 'D']]),
   (['Q', 'u', 'e', 'r', 'y', 'D', 'a', 't', 'a'], [['Q', 'u', 'e', 'r', 'y', 'I', 'D'], ['Q', 'u', 'e', 'r', 'y', 'T', 'e', 'x', 't'], ['Q', 'u', 'e', 'r', 'y', 'F', 'l', 'a', 'g', 's'], ['Q', 'u', 'e', 'r', 'y', 'S', 't', 'a', 'r', 't']])]

theorem w36 : Checked t36 := ⟨b36, by kernel_rfl, by kernel_rfl, by kernel_rfl⟩

/-- Lines of `message_template.msg` up to the end of `DirFindQueryBackend`. -/
def c37 : List (List Char) :=
  [chars! "",
   chars! "// DirFindQueryBackend sim->data",
   chars! "// Trusted message generated by receipt of DirFindQuery to sim.",
   chars! "{",
   chars! "\tDirFindQueryBackend Low 32 Trusted Zerocoded",
   chars! "\t{",
   chars! "\t\tAgentData\t\tSingle",
   chars! "\t\t{\tAgentID\t\tLLUUID\t\t}",
   chars! "\t}",
   chars! "\t{",
   chars! "\t\tQueryData\t\tSingle",
   chars! "\t\t{\tQueryID\t\tLLUUID\t\t}",
   chars! "\t\t{\tQueryText\tVariable 1\t}",
   chars! "\t\t{\tQueryFlags\tU32\t\t\t}",
   chars! "\t\t{\tQueryStart\tS32\t\t\t}\t// prev/next page support",
   chars! "\t\t{\tEstateID\tU32\t\t\t}",
   chars! "\t\t{\tGodlike\t\tBOOL\t\t}",
   chars! "\t}",
   chars! "}"]

/-- `DirFindQueryBackend` as the parser creates it. -/
def r37 : RawTemplate :=
  ⟨"DirFindQueryBackend", .low, 32, [255, 255, 32], some .trusted, some .zerocoded, some .notDeprecated,
    [⟨"QueryData", .single, 0, [⟨"Godlike", some .bool, some 1⟩, ⟨"EstateID", some .u32, some 4⟩, ⟨"QueryStart", some .s32, some 4⟩, ⟨"QueryFlags", some .u32, some 4⟩, ⟨"QueryText", some .variable, some 1⟩, ⟨"QueryID", some .uuid, some 16⟩]⟩,
     ⟨"AgentData", .single, 0, [⟨"AgentID", some .uuid, some 16⟩]⟩]⟩

/-- `DirFindQueryBackend` in file order. -/
def t37 : Template :=
  ⟨"DirFindQueryBackend", .low, 32, [], some .trusted, some .zerocoded, some .notDeprecated,
    [⟨"AgentData", .single, 0, [⟨"AgentID", .uuid, 16⟩]⟩,
     ⟨"QueryData", .single, 0, [⟨"QueryID", .uuid, 16⟩, ⟨"QueryText", .variable, 1⟩, ⟨"QueryFlags", .u32, 4⟩, ⟨"QueryStart", .s32, 4⟩, ⟨"EstateID", .u32, 4⟩, ⟨"Godlike", .bool, 1⟩]⟩]⟩

theorem p37 : ChunkOk c37 r37 := by intro v older; kernel_rfl
theorem k37 : r37.known = some t37 := by kernel_rfl
theorem n37 : t37.name = String.ofList ['D', 'i', 'r', 'F', 'i', 'n', 'd', 'Q', 'u', 'e', 'r', 'y', 'B', 'a', 'c', 'k', 'e', 'n', 'd'] := by kernel_rfl

/-- The names of the blocks and variables of `DirFindQueryBackend`. -/
def b37 : List (List Char × List (List Char)) :=
  [(['A', 'g', 'e', 'n', 't', 'D', 'a', 't', 'a'], [['A', 'g', 'e', 'n', 't', 'I', 'D']]),
   (['Q', 'u', 'e', 'r', 'y', 'D', 'a', 't', 'a'], [['Q', 'u', 'e', 'r', 'y', 'I', 'D'], ['Q', 'u', 'e', 'r', 'y', 'T', 'e', 'x', 't'], ['Q', 'u', 'e', 'r', 'y', 'F', 'l', 'a', 'g', 's'], ['Q', 'u', 'e', 'r', 'y', 'S', 't', 'a', 'r', 't'], ['E', 's', 't', 'a', 't', 'e', 'I', 'D'], ['G', 'o', 'd', 'l', 'i', 'k', 'e']])]

theorem w37 : Checked t37 := ⟨b37, by kernel_rfl, by kernel_rfl, by kernel_rfl⟩

/-- Lines of `message_template.msg` up to the end of `DirPlacesQuery`. -/
def c38 : List (List Char) :=
  [chars! "",
   chars! "",
   chars! "// DirPlacesQuery viewer->sim",
   chars! "// Used for the Find directory of places",
   chars! "{",
   chars! "\tDirPlacesQuery Low 33 NotTrusted Zerocoded",
   chars! "\t{",
   chars! "\t\tAgentData\t\tSingle",
   chars! "\t\t{\tAgentID\t\tLLUUID\t\t}",
   chars! "\t\t{\tSessionID\tLLUUID\t\t}",
   chars! "\t}",
   chars! "\t{",
   chars! "\t\tQueryData\t\tSingle",
   chars! "\t\t{\tQueryID\t\tLLUUID\t\t}",
   chars! "\t\t{\tQueryText\tVariable\t1\t}",
   chars! "\t\t{\tQueryFlags\tU32\t\t\t\t}",
   chars! "\t\t{\tCategory\tS8\t\t\t\t}",
   chars! "\t\t{\tSimName\t\tVariable\t1\t}",
   chars! "\t\t{\tQueryStart\tS32\t\t\t}",
   chars! "\t}",
   chars! "}"]

/-- `DirPlacesQuery` as the parser creates it. -/
def r38 : RawTemplate :=
  ⟨"DirPlacesQuery", .low, 33, [255, 255, 33], some .notTrusted, some .zerocoded, some .notDeprecated,
    [⟨"QueryData", .single, 0, [⟨"QueryStart", some .s32, some 4⟩, ⟨"SimName", some .variable, some 1⟩, ⟨"Category", some .s8, some 1⟩, ⟨"QueryFlags", some .u32, some 4⟩, ⟨"QueryText", some .variable, some 1⟩, ⟨"QueryID", some .uuid, some 16⟩]⟩,
     ⟨"AgentData", .single, 0, [⟨"SessionID", some .uuid, some 16⟩, ⟨"AgentID", some .uuid, some 16⟩]⟩]⟩

/-- `DirPlacesQuery` in file order. -/
def t38 : Template :=
  ⟨"DirPlacesQuery", .low, 33, [], some .notTrusted, some .zerocoded, some .notDeprecated,
    [⟨"AgentData", .single, 0, [⟨"AgentID", .uuid, 16⟩, ⟨"SessionID", .uuid, 16⟩]⟩,
     ⟨"QueryData", .single, 0, [⟨"QueryID", .uuid, 16⟩, ⟨"QueryText", .variable, 1⟩, ⟨"QueryFlags", .u32, 4⟩, ⟨"Category", .s8, 1⟩, ⟨"SimName", .variable, 1⟩, ⟨"QueryStart", .s32, 4⟩]⟩]⟩

theorem p38 : ChunkOk c38 r38 := by intro v older; kernel_rfl
theorem k38 : r38.known = some t38 := by kernel_rfl
theorem n38 : t38.name = String.ofList ['D', 'i', 'r', 'P', 'l', 'a', 'c', 'e', 's', 'Q', 'u', 'e', 'r', 'y'] := by kernel_rfl

/-- The names of the blocks and variables of `DirPlacesQuery`. -/
def b38 : List (List Char × List (List Char)) :=
  [(['A', 'g', 'e', 'n', 't', 'D', 'a', 't', 'a'], [['A', 'g', 'e', 'n', 't', 'I', 'D'], ['S', 'e', 's', 's', 'i', 'o', 'n', 'I', 'D']]),
   (['Q', 'u', 'e', 'r', 'y', 'D', 'a', 't', 'a'], [['Q', 'u', 'e', 'r', 'y', 'I', 'D'], ['Q', 'u', 'e', 'r', 'y', 'T', 'e', 'x', 't'], ['Q', 'u', 'e', 'r', 'y', 'F', 'l', 'a', 'g', 's'], ['C', 'a', 't', 'e', 'g', 'o', 'r', 'y'], ['S', 'i', 'm', 'N', 'a', 'm', 'e'], ['Q', 'u', 'e', 'r', 'y', 'S', 't', 'a', 'r', 't']])]

theorem w38 : Checked t38 := ⟨b38, by kernel_rfl, by kernel_rfl, by kernel_rfl⟩

/-- Lines of `message_template.msg` up to the end of `DirPlacesQueryBackend`. -/
def c39 : List (List Char) :=
  [chars! "",
   chars! "// DirPlacesQueryBackend sim->dataserver",
   chars! "// Used for the Find directory of places.",
   chars! "{",
   chars! "\tDirPlacesQueryBackend Low 34 Trusted Zerocoded",
   chars! "\t{",
   chars! "\t\tAgentData\t\tSingle",
   chars! "\t\t{\tAgentID\t\tLLUUID\t\t}",
   chars! "\t}",
   chars! "\t{",
   chars! "\t\tQueryData\t\tSingle",
   chars! "\t\t{\tQueryID\t\tLLUUID\t\t}",
   chars! "\t\t{\tQueryText\tVariable\t1\t}",
   chars! "\t\t{\tQueryFlags\tU32\t\t\t\t}",
   chars! "\t\t{\tCategory\tS8\t\t\t\t}",
   chars! "\t\t{\tSimName\t\tVariable\t1\t}",
   chars! "\t\t{\tEstateID\tU32\t\t\t\t}",
   chars! "\t\t{\tGodlike\t\tBOOL\t\t\t}",
   chars! "\t\t{\tQueryStart\tS32\t\t\t}",
   chars! "\t}",
   chars! "}"]

/-- `DirPlacesQueryBackend` as the parser creates it. -/
def r39 : RawTemplate :=
  ⟨"DirPlacesQueryBackend", .low, 34, [255, 255, 34], some .trusted, some .zerocoded, some .notDeprecated,
    [⟨"QueryData", .single, 0, [⟨"QueryStart", some .s32, some 4⟩, ⟨"Godlike", some .bool, some 1⟩, ⟨"EstateID", some .u32, some 4⟩, ⟨"SimName", some .variable, some 1⟩, ⟨"Category", some .s8, some 1⟩, ⟨"QueryFlags", some .u32, some 4⟩, ⟨"QueryText", some .variable, some 1⟩, ⟨"QueryID", some .uuid, some 16⟩]⟩,
     ⟨"AgentData", .single, 0, [⟨"AgentID", some .uuid, some 16⟩]⟩]⟩

/-- `DirPlacesQueryBackend` in file order. -/
def t39 : Template :=
  ⟨"DirPlacesQueryBackend", .low, 34, [], some .trusted, some .zerocoded, some .notDeprecated,
    [⟨"AgentData", .single, 0, [⟨"AgentID", .uuid, 16⟩]⟩,
     ⟨"QueryData", .single, 0, [⟨"QueryID", .uuid, 16⟩, ⟨"QueryText", .variable, 1⟩, ⟨"QueryFlags", .u32, 4⟩, ⟨"Category", .s8, 1⟩, ⟨"SimName", .variable, 1⟩, ⟨"EstateID", .u32, 4⟩, ⟨"Godlike", .bool, 1⟩, ⟨"QueryStart", .s32, 4⟩]⟩]⟩

theorem p39 : ChunkOk c39 r39 := by intro v older; kernel_rfl
theorem k39 : r39.known = some t39 := by kernel_rfl
theorem n39 : t39.name = String.ofList ['D', 'i', 'r', 'P', 'l', 'a', 'c', 'e', 's', 'Q', 'u', 'e', 'r', 'y', 'B', 'a', 'c', 'k', 'e', 'n', 'd'] := by kernel_rfl

/-- The names of the blocks and variables of `DirPlacesQueryBackend`. -/
def b39 : List (List Char × List (List Char)) :=
  [(['A', 'g', 'e', 'n', 't', 'D', 'a', 't', 'a'], [['A', 'g', 'e', 'n', 't', 'I', 'D']]),
   (['Q', 'u', 'e', 'r', 'y', 'D', 'a', 't', 'a'], [['Q', 'u', 'e', 'r', 'y', 'I', 'D'], ['Q', 'u', 'e', 'r', 'y', 'T', 'e', 'x', 't'], ['Q', 'u', 'e', 'r', 'y', 'F', 'l', 'a', 'g', 's'], ['C', 'a', 't', 'e', 'g', 'o', 'r', 'y'], ['S', 'i', 'm', 'N', 'a', 'm', 'e'], ['E', 's', 't', 'a', 't', 'e', 'I', 'D'], ['G', 'o', 'd', 'l', 'i', 'k', 'e'], ['Q', 'u', 'e', 'r', 'y', 'S', 't', 'a', 'r', 't']])]

theorem w39 : Checked t39 := ⟨b39, by kernel_rfl, by kernel_rfl, by kernel_rfl⟩

/-- Lines of `message_template.msg` up to the end of `DirPlacesReply`. -/
def c40 : List (List Char) :=
  [chars! "",
   chars! "// DirPlacesReply dataserver->sim->viewer",
   chars! "// If the user has specified a location, use that to compute",
   chars! "// global x,y,z.  Otherwise, use center of the AABB.",
   chars! "// reliable",
   chars! "{",
   chars! "\tDirPlacesReply Low 35 Trusted Zerocoded",
   chars! "\t{",
   chars! "\t\tAgentData\t\tSingle",
   chars! "\t\t{\tAgentID\t\tLLUUID\t\t}",
   chars! "\t}",
   chars! "\t{",
   chars! "\t\tQueryData\t\tVariable",
   chars! "\t\t{\tQueryID\t\tLLUUID\t\t}",
   chars! "\t}",
   chars! "\t{",
   chars! "\t\tQueryReplies            Variable",
   chars! "\t\t{\tParcelID\t\tLLUUID\t\t}",
   chars! "\t\t{\tName\t\t\tVariable 1\t}",
   chars! "\t\t{\tForSale\t\t\tBOOL\t\t}",
   chars! "\t\t{\tAuction\t\t\tBOOL\t\t}",
   chars! "\t\t{\tDwell\t\t\tF32\t\t\t}",
   chars! "\t}",
   chars! "\t{",
   chars! "\t\tStatusData            Variable",
   chars! "\t\t{\tStatus\t\tU32\t\t}",
   chars! "\t}",
   chars! "}"]

/-- `DirPlacesReply` as the parser creates it. -/
def r40 : RawTemplate :=
  ⟨"DirPlacesReply", .low, 35, [255, 255, 35], some .trusted, some .zerocoded, some .notDeprecated,
    [⟨"StatusData", .variable, 0, [⟨"Status", some .u32, some 4⟩]⟩,
     ⟨"QueryReplies", .variable, 0, [⟨"Dwell", some .f32, some 4⟩, ⟨"Auction", some .bool, some 1⟩, ⟨"ForSale", some .bool, some 1⟩, ⟨"Name", some .variable, some 1⟩, ⟨"ParcelID", some .uuid, some 16⟩]⟩,
     ⟨"QueryData", .variable, 0, [⟨"QueryID", some .uuid, some 16⟩]⟩,
     ⟨"AgentData", .single, 0, [⟨"AgentID", some .uuid, some 16⟩]⟩]⟩

/-- `DirPlacesReply` in file order. -/
def t40 : Template :=
  ⟨"DirPlacesReply", .low, 35, [], some .trusted, some .zerocoded, some .notDeprecated,
    [⟨"AgentData", .single, 0, [⟨"AgentID", .uuid, 16⟩]⟩,
     ⟨"QueryData", .variable, 0, [⟨"QueryID", .uuid, 16⟩]⟩,
     ⟨"QueryReplies", .variable, 0, [⟨"ParcelID", .uuid, 16⟩, ⟨"Name", .variable, 1⟩, ⟨"ForSale", .bool, 1⟩, ⟨"Auction", .bool, 1⟩, ⟨"Dwell", .f32, 4⟩]⟩,
     ⟨"StatusData", .variable, 0, [⟨"Status", .u32, 4⟩]⟩]⟩

theorem p40 : ChunkOk c40 r40 := by intro v older; kernel_rfl
theorem k40 : r40.known = some t40 := by kernel_rfl
theorem n40 : t40.name = String.ofList ['D', 'i', 'r', 'P', 'l', 'a', 'c', 'e', 's', 'R', 'e', 'p', 'l', 'y'] := by kernel_rfl

/-- The names of the blocks and variables of `DirPlacesReply`. -/
def b40 : List (List Char × List (List Char)) :=
  [(['A', 'g', 'e', 'n', 't', 'D', 'a', 't', 'a'], [['A', 'g', 'e', 'n', 't', 'I', 'D']]),
   (['Q', 'u', 'e', 'r', 'y', 'D', 'a', 't', 'a'], [['Q', 'u', 'e', 'r', 'y', 'I', 'D']]),
   (['Q', 'u', 'e', 'r', 'y', 'R', 'e', 'p', 'l', 'i', 'e', 's'], [['P', 'a', 'r', 'c', 'e', 'l', 'I', 'D'], ['N', 'a', 'm', 'e'], ['F', 'o', 'r', 'S', 'a', 'l', 'e'], ['A', 'u', 'c', 't', 'i', 'o', 'n'], ['D', 'w', 'e', 'l', 'l']]),
   (['S', 't', 'a', 't', 'u', 's', 'D', 'a', 't', 'a'], [['S', 't', 'a', 't', 'u', 's']])]

theorem w40 : Checked t40 := ⟨b40, by kernel_rfl, by kernel_rfl, by kernel_rfl⟩

/-- Lines of `message_template.msg` up to the end of `DirPeopleReply`. -/
def c41 : List (List Char) :=
  [chars! "",
   chars! "// DirPeopleReply",
   chars! "{",
   chars! "\tDirPeopleReply Low 36 Trusted Zerocoded",
   chars! "\t{",
   chars! "\t\tAgentData\t\t\t\tSingle",
   chars! "\t\t{\tAgentID\t\t\t\tLLUUID\t}",
   chars! "\t}",
   chars! "\t{",
   chars! "\t\tQueryData\t\t        Single",
   chars! "\t\t{\tQueryID\t\t        LLUUID\t}",
   chars! "\t}",
   chars! "\t{",
   chars! "\t\tQueryReplies            Variable",
   chars! " \t\t{\tAgentID\t  \t \t    LLUUID\t\t\t}",
   chars! "\t\t{\tFirstName\t        Variable\t1\t}",
   chars! "\t\t{\tLastName\t        Variable\t1\t}",
   chars! "\t\t{\tGroup\t\t        Variable\t1\t}",
   chars! "\t\t{\tOnline  \t        BOOL\t\t\t}",
   chars! "\t\t{\tReputation\t        S32\t\t\t\t}",
   chars! "\t}",
   chars! "}"]

/-- `DirPeopleReply` as the parser creates it. -/
def r41 : RawTemplate :=
  ⟨"DirPeopleReply", .low, 36, [255, 255, 36], some .trusted, some .zerocoded, some .notDeprecated,
    [⟨"QueryReplies", .variable, 0, [⟨"Reputation", some .s32, some 4⟩, ⟨"Online", some .bool, some 1⟩, ⟨"Group", some .variable, some 1⟩, ⟨"LastName", some .variable, some 1⟩, ⟨"FirstName", some .variable, some 1⟩, ⟨"AgentID", some .uuid, some 16⟩]⟩,
     ⟨"QueryData", .single, 0, [⟨"QueryID", some .uuid, some 16⟩]⟩,
     ⟨"AgentData", .single, 0, [⟨"AgentID", some .uuid, some 16⟩]⟩]⟩

/-- `DirPeopleReply` in file order. -/
def t41 : Template :=
  ⟨"DirPeopleReply", .low, 36, [], some .trusted, some .zerocoded, some .notDeprecated,
    [⟨"AgentData", .single, 0, [⟨"AgentID", .uuid, 16⟩]⟩,
     ⟨"QueryData", .single, 0, [⟨"QueryID", .uuid, 16⟩]⟩,
     ⟨"QueryReplies", .variable, 0, [⟨"AgentID", .uuid, 16⟩, ⟨"FirstName", .variable, 1⟩, ⟨"LastName", .variable, 1⟩, ⟨"Group", .variable, 1⟩, ⟨"Online", .bool, 1⟩, ⟨"Reputation", .s32, 4⟩]⟩]⟩

theorem p41 : ChunkOk c41 r41 := by intro v older; kernel_rfl
theorem k41 : r41.known = some t41 := by kernel_rfl
theorem n41 : t41.name = String.ofList ['D', 'i', 'r', 'P', 'e', 'o', 'p', 'l', 'e', 'R', 'e', 'p', 'l', 'y'] := by kernel_rfl

/-- The names of the blocks and variables of `DirPeopleReply`. -/
def b41 : List (List Char × List (List Char)) :=
  [(['A', 'g', 'e', 'n', 't', 'D', 'a', 't', 'a'], [['A', 'g', 'e', 'n', 't', 'I', 'D']]),
   (['Q', 'u', 'e', 'r', 'y', 'D', 'a', 't', 'a'], [['Q', 'u', 'e', 'r', 'y', 'I', 'D']]),
   (['Q', 'u', 'e', 'r', 'y', 'R', 'e', 'p', 'l', 'i', 'e', 's'], [['A', 'g', 'e', 'n', 't', 'I', 'D'], ['F', 'i', 'r', 's', 't', 'N', 'a', 'm', 'e'], ['L', 'a', 's', 't', 'N', 'a', 'm', 'e'], ['G', 'r', 'o', 'u', 'p'], ['O', 'n', 'l', 'i', 'n', 'e'], ['R', 'e', 'p', 'u', 't', 'a', 't', 'i', 'o', 'n']])]

theorem w41 : Checked t41 := ⟨b41, by kernel_rfl, by kernel_rfl, by kernel_rfl⟩

/-- Lines of `message_template.msg` up to the end of `DirEventsReply`. -/
def c42 : List (List Char) :=
  [chars! "",
   chars! "// DirEventsReply",
   chars! "{",
   chars! "\tDirEventsReply Low 37 Trusted Zerocoded",
   chars! "\t{",
   chars! "\t\tAgentData\t\tSingle",
   chars! "\t\t{\tAgentID\t\tLLUUID\t\t}",
   chars! "\t}",
   chars! "\t{",
   chars! "\t\tQueryData\t\tSingle",
   chars! "\t\t{\tQueryID\t\tLLUUID\t\t}",
   chars! "\t}",
   chars! "\t{",
   chars! "\t\tQueryReplies\tVariable",
   chars! "\t\t{\tOwnerID\t\tLLUUID\t\t\t}",
   chars! "\t\t{\tName\t\tVariable\t1\t}",
   chars! "\t\t{\tEventID\t\tU32\t\t\t\t}",
   chars! "\t\t{\tDate\t\tVariable\t1\t}",
   chars! "\t\t{\tUnixTime\tU32\t\t\t\t}",
   chars! "\t\t{\tEventFlags\tU32\t\t\t\t}",
   chars! "\t}",
   chars! "\t{",
   chars! "\t\tStatusData Variable",
   chars! "\t\t{\tStatus\t\tU32\t\t\t}",
   chars! "\t}",
   chars! "}"]

/-- `DirEventsReply` as the parser creates it. -/
def r42 : RawTemplate :=
  ⟨"DirEventsReply", .low, 37, [255, 255, 37], some .trusted, some .zerocoded, some .notDeprecated,
    [⟨"StatusData", .variable, 0, [⟨"Status", some .u32, some 4⟩]⟩,
     ⟨"QueryReplies", .variable, 0, [⟨"EventFlags", some .u32, some 4⟩, ⟨"UnixTime", some .u32, some 4⟩, ⟨"Date", some .variable, some 1⟩, ⟨"EventID", some .u32, some 4⟩, ⟨"Name", some .variable, some 1⟩, ⟨"OwnerID", some .uuid, some 16⟩]⟩,
     ⟨"QueryData", .single, 0, [⟨"QueryID", some .uuid, some 16⟩]⟩,
     ⟨"AgentData", .single, 0, [⟨"AgentID", some .uuid, some 16⟩]⟩]⟩

/-- `DirEventsReply` in file order. -/
def t42 : Template :=
  ⟨"DirEventsReply", .low, 37, [], some .trusted, some .zerocoded, some .notDeprecated,
    [⟨"AgentData", .single, 0, [⟨"AgentID", .uuid, 16⟩]⟩,
     ⟨"QueryData", .single, 0, [⟨"QueryID", .uuid, 16⟩]⟩,
     ⟨"QueryReplies", .variable, 0, [⟨"OwnerID", .uuid, 16⟩, ⟨"Name", .variable, 1⟩, ⟨"EventID", .u32, 4⟩, ⟨"Date", .variable, 1⟩, ⟨"UnixTime", .u32, 4⟩, ⟨"EventFlags", .u32, 4⟩]⟩,
     ⟨"StatusData", .variable, 0, [⟨"Status", .u32, 4⟩]⟩]⟩

theorem p42 : ChunkOk c42 r42 := by intro v older; kernel_rfl
theorem k42 : r42.known = some t42 := by kernel_rfl
theorem n42 : t42.name = String.ofList ['D', 'i', 'r', 'E', 'v', 'e', 'n', 't', 's', 'R', 'e', 'p', 'l', 'y'] := by kernel_rfl

/-- The names of the blocks and variables of `DirEventsReply`. -/
def b42 : List (List Char × List (List Char)) :=
  [(['A', 'g', 'e', 'n', 't', 'D', 'a', 't', 'a'], [['A', 'g', 'e', 'n', 't', 'I', 'D']]),
   (['Q', 'u', 'e', 'r', 'y', 'D', 'a', 't', 'a'], [['Q', 'u', 'e', 'r', 'y', 'I', 'D']]),
   (['Q', 'u', 'e', 'r', 'y', 'R', 'e', 'p', 'l', 'i', 'e', 's'], [['O', 'w', 'n', 'e', 'r', 'I', 'D'], ['N', 'a', 'm', 'e'], ['E', 'v', 'e', 'n', 't', 'I', 'D'], ['D', 'a', 't', 'e'], ['U', 'n', 'i', 'x', 'T', 'i', 'm', 'e'], ['E', 'v', 'e', 'n', 't', 'F', 'l', 'a', 'g', 's']]),
   (['S', 't', 'a', 't', 'u', 's', 'D', 'a', 't', 'a'], [['S', 't', 'a', 't', 'u', 's']])]

theorem w42 : Checked t42 := ⟨b42, by kernel_rfl, by kernel_rfl, by kernel_rfl⟩

/-- Lines of `message_template.msg` up to the end of `DirGroupsReply`. -/
def c43 : List (List Char) :=
  [chars! "",
   chars! "// DirGroupsReply",
   chars! "// dataserver -> userserver -> viewer",
   chars! "// reliable",
   chars! "{",
   chars! "\tDirGroupsReply Low 38 Trusted Zerocoded",
   chars! "\t{",
   chars! "\t\tAgentData\t\tSingle",
   chars! "\t\t{\tAgentID\t\tLLUUID\t\t\t}",
   chars! "\t}",
   chars! "\t{",
   chars! "\t\tQueryData\t\tSingle",
   chars! "\t\t{\tQueryID\t\tLLUUID\t\t\t}",
   chars! "\t}",
   chars! "\t{",
   chars! "\t\tQueryReplies\tVariable",
   chars! "\t\t{\tGroupID\t\t\tLLUUID\t\t\t}",
   chars! "\t\t{\tGroupName\t\tVariable\t1\t}\t// string",
   chars! "\t\t{\tMembers\t\t\tS32\t\t\t\t}",
   chars! "\t\t{\tSearchOrder\t\tF32\t\t\t\t}",
   chars! "\t}",
   chars! "}"]

/-- `DirGroupsReply` as the parser creates it. -/
def r43 : RawTemplate :=
  ⟨"DirGroupsReply", .low, 38, [255, 255, 38], some .trusted, some .zerocoded, some .notDeprecated,
    [⟨"QueryReplies", .variable, 0, [⟨"SearchOrder", some .f32, some 4⟩, ⟨"Members", some .s32, some 4⟩, ⟨"GroupName", some .variable, some 1⟩, ⟨"GroupID", some .uuid, some 16⟩]⟩,
     ⟨"QueryData", .single, 0, [⟨"QueryID", some .uuid, some 16⟩]⟩,
     ⟨"AgentData", .single, 0, [⟨"AgentID", some .uuid, some 16⟩]⟩]⟩

/-- `DirGroupsReply` in file order. -/
def t43 : Template :=
  ⟨"DirGroupsReply", .low, 38, [], some .trusted, some .zerocoded, some .notDeprecated,
    [⟨"AgentData", .single, 0, [⟨"AgentID", .uuid, 16⟩]⟩,
     ⟨"QueryData", .single, 0, [⟨"QueryID", .uuid, 16⟩]⟩,
     ⟨"QueryReplies", .variable, 0, [⟨"GroupID", .uuid, 16⟩, ⟨"GroupName", .variable, 1⟩, ⟨"Members", .s32, 4⟩, ⟨"SearchOrder", .f32, 4⟩]⟩]⟩

theorem p43 : ChunkOk c43 r43 := by intro v older; kernel_rfl
theorem k43 : r43.known = some t43 := by kernel_rfl
theorem n43 : t43.name = String.ofList ['D', 'i', 'r', 'G', 'r', 'o', 'u', 'p', 's', 'R', 'e', 'p', 'l', 'y'] := by kernel_rfl

/-- The names of the blocks and variables of `DirGroupsReply`. -/
def b43 : List (List Char × List (List Char)) :=
  [(['A', 'g', 'e', 'n', 't', 'D', 'a', 't', 'a'], [['A', 'g', 'e', 'n', 't', 'I', 'D']]),
   (['Q', 'u', 'e', 'r', 'y', 'D', 'a', 't', 'a'], [['Q', 'u', 'e', 'r', 'y', 'I', 'D']]),
   (['Q', 'u', 'e', 'r', 'y', 'R', 'e', 'p', 'l', 'i', 'e', 's'], [['G', 'r', 'o', 'u', 'p', 'I', 'D'], ['G', 'r', 'o', 'u', 'p', 'N', 'a', 'm', 'e'], ['M', 'e', 'm', 'b', 'e', 'r', 's'], ['S', 'e', 'a', 'r', 'c', 'h', 'O', 'r', 'd', 'e', 'r']])]

theorem w43 : Checked t43 := ⟨b43, by kernel_rfl, by kernel_rfl, by kernel_rfl⟩

/-- Lines of `message_template.msg` up to the end of `DirClassifiedQuery`. -/
def c44 : List (List Char) :=
  [chars! "",
   chars! "",
   chars! "// DirClassifiedQuery viewer->sim",
   chars! "// reliable",
   chars! "{",
   chars! "\tDirClassifiedQuery Low 39 NotTrusted Zerocoded",
   chars! "\t{",
   chars! "\t\tAgentData\t\t\tSingle",
   chars! "\t\t{\tAgentID\t\t\tLLUUID\t}",
   chars! "\t\t{\tSessionID\t\tLLUUID\t}",
   chars! "\t}",
   chars! "\t{",
   chars! "\t\tQueryData\t\t\tSingle",
   chars! "\t\t{\tQueryID\t\t\tLLUUID\t\t\t}",
   chars! "\t\t{\tQueryText\t\tVariable\t1\t}",
   chars! "\t\t{\tQueryFlags\t\tU32\t\t\t\t}",
   chars! "\t\t{\tCategory\t\tU32\t\t\t\t}",
   chars! "\t\t{\tQueryStart\tS32\t\t\t\t\t}",
   chars! "\t}",
   chars! "}"]

/-- `DirClassifiedQuery` as the parser creates it. -/
def r44 : RawTemplate :=
  ⟨"DirClassifiedQuery", .low, 39, [255, 255, 39], some .notTrusted, some .zerocoded, some .notDeprecated,
    [⟨"QueryData", .single, 0, [⟨"QueryStart", some .s32, some 4⟩, ⟨"Category", some .u32, some 4⟩, ⟨"QueryFlags", some .u32, some 4⟩, ⟨"QueryText", some .variable, some 1⟩, ⟨"QueryID", some .uuid, some 16⟩]⟩,
     ⟨"AgentData", .single, 0, [⟨"SessionID", some .uuid, some 16⟩, ⟨"AgentID", some .uuid, some 16⟩]⟩]⟩

/-- `DirClassifiedQuery` in file order. -/
def t44 : Template :=
  ⟨"DirClassifiedQuery", .low, 39, [], some .notTrusted, some .zerocoded, some .notDeprecated,
    [⟨"AgentData", .single, 0, [⟨"AgentID", .uuid, 16⟩, ⟨"SessionID", .uuid, 16⟩]⟩,
     ⟨"QueryData", .single, 0, [⟨"QueryID", .uuid, 16⟩, ⟨"QueryText", .variable, 1⟩, ⟨"QueryFlags", .u32, 4⟩, ⟨"Category", .u32, 4⟩, ⟨"QueryStart", .s32, 4⟩]⟩]⟩

theorem p44 : ChunkOk c44 r44 := by intro v older; kernel_rfl
theorem k44 : r44.known = some t44 := by kernel_rfl
theorem n44 : t44.name = String.ofList ['D', 'i', 'r', 'C', 'l', 'a', 's', 's', 'i', 'f', 'i', 'e', 'd', 'Q', 'u', 'e', 'r', 'y'] := by kernel_rfl

/-- The names of the blocks and variables of `DirClassifiedQuery`. -/
def b44 : List (List Char × List (List Char)) :=
  [(['A', 'g', 'e', 'n', 't', 'D', 'a', 't', 'a'], [['A', 'g', 'e', 'n', 't', 'I', 'D'], ['S', 'e', 's', 's', 'i', 'o', 'n', 'I', 'D']]),
   (['Q', 'u', 'e', 'r', 'y', 'D', 'a', 't', 'a'], [['Q', 'u', 'e', 'r', 'y', 'I', 'D'], ['Q', 'u', 'e', 'r', 'y', 'T', 'e', 'x', 't'], ['Q', 'u', 'e', 'r', 'y', 'F', 'l', 'a', 'g', 's'], ['C', 'a', 't', 'e', 'g', 'o', 'r', 'y'], ['Q', 'u', 'e', 'r', 'y', 'S', 't', 'a', 'r', 't']])]

theorem w44 : Checked t44 := ⟨b44, by kernel_rfl, by kernel_rfl, by kernel_rfl⟩

/-- Lines of `message_template.msg` up to the end of `DirClassifiedQueryBackend`. -/
def c45 : List (List Char) :=
  [chars! "",
   chars! "// DirClassifiedQueryBackend sim->dataserver",
   chars! "// reliable",
   chars! "{",
   chars! "\tDirClassifiedQueryBackend Low 40 Trusted Zerocoded",
   chars! "\t{",
   chars! "\t\tAgentData\t\t\tSingle",
   chars! "\t\t{\tAgentID\t\t\tLLUUID\t}",
   chars! "\t}",
   chars! "\t{",
   chars! "\t\tQueryData\t\t\tSingle",
   chars! "\t\t{\tQueryID\t\t\tLLUUID\t\t\t}",
   chars! "\t\t{\tQueryText\t\tVariable\t1\t}",
   chars! "\t\t{\tQueryFlags\t\tU32\t\t\t\t}",
   chars! "\t\t{\tCategory\t\tU32\t\t\t\t}",
   chars! "\t\t{\tEstateID\t\tU32\t\t\t\t}",
   chars! "\t\t{\tGodlike\t\t\tBOOL\t\t\t}",
   chars! "\t\t{\tQueryStart\tS32\t\t\t\t\t}",
   chars! "\t}",
   chars! "}"]

/-- `DirClassifiedQueryBackend` as the parser creates it. -/
def r45 : RawTemplate :=
  ⟨"DirClassifiedQueryBackend", .low, 40, [255, 255, 40], some .trusted, some .zerocoded, some .notDeprecated,
    [⟨"QueryData", .single, 0, [⟨"QueryStart", some .s32, some 4⟩, ⟨"Godlike", some .bool, some 1⟩, ⟨"EstateID", some .u32, some 4⟩, ⟨"Category", some .u32, some 4⟩, ⟨"QueryFlags", some .u32, some 4⟩, ⟨"QueryText", some .variable, some 1⟩, ⟨"QueryID", some .uuid, some 16⟩]⟩,
     ⟨"AgentData", .single, 0, [⟨"AgentID", some .uuid, some 16⟩]⟩]⟩

/-- `DirClassifiedQueryBackend` in file order. -/
def t45 : Template :=
  ⟨"DirClassifiedQueryBackend", .low, 40, [], some .trusted, some .zerocoded, some .notDeprecated,
    [⟨"AgentData", .single, 0, [⟨"AgentID", .uuid, 16⟩]⟩,
     ⟨"QueryData", .single, 0, [⟨"QueryID", .uuid, 16⟩, ⟨"QueryText", .variable, 1⟩, ⟨"QueryFlags", .u32, 4⟩, ⟨"Category", .u32, 4⟩, ⟨"EstateID", .u32, 4⟩, ⟨"Godlike", .bool, 1⟩, ⟨"QueryStart", .s32, 4⟩]⟩]⟩

theorem p45 : ChunkOk c45 r45 := by intro v older; kernel_rfl
theorem k45 : r45.known = some t45 := by kernel_rfl
theorem n45 : t45.name = String.ofList ['D', 'i', 'r', 'C', 'l', 'a', 's', 's', 'i', 'f', 'i', 'e', 'd', 'Q', 'u', 'e', 'r', 'y', 'B', 'a', 'c', 'k', 'e', 'n', 'd'] := by kernel_rfl

/-- The names of the blocks and variables of `DirClassifiedQueryBackend`. -/
def b45 : List (List Char × List (List Char)) :=
  [(['A', 'g', 'e', 'n', 't', 'D', 'a', 't', 'a'], [['A', 'g', 'e', 'n', 't', 'I', 'D']]),
   (['Q', 'u', 'e', 'r', 'y', 'D', 'a', 't', 'a'], [['Q', 'u', 'e', 'r', 'y', 'I', 'D'], ['Q', 'u', 'e', 'r', 'y', 'T', 'e', 'x', 't'], ['Q', 'u', 'e', 'r', 'y', 'F', 'l', 'a', 'g', 's'], ['C', 'a', 't', 'e', 'g', 'o', 'r', 'y'], ['E', 's', 't', 'a', 't', 'e', 'I', 'D'], ['G', 'o', 'd', 'l', 'i', 'k', 'e'], ['Q', 'u', 'e', 'r', 'y', 'S', 't', 'a', 'r', 't']])]

theorem w45 : Checked t45 := ⟨b45, by kernel_rfl, by kernel_rfl, by kernel_rfl⟩

/-- Lines of `message_template.msg` up to the end of `DirClassifiedReply`. -/
def c46 : List (List Char) :=
  [chars! "",
   chars! "// DirClassifiedReply dataserver->sim->viewer",
   chars! "// reliable",
   chars! "{",
   chars! "\tDirClassifiedReply Low 41 Trusted Zerocoded",
   chars! "\t{",
   chars! "\t\tAgentData\t\tSingle",
   chars! "\t\t{\tAgentID\t\tLLUUID\t\t}",
   chars! "\t}",
   chars! "\t{",
   chars! "\t\tQueryData\t\tSingle",
   chars! "\t\t{\tQueryID\t\tLLUUID\t\t}",
   chars! "\t}",
   chars! "\t{",
   chars! "\t\tQueryReplies\tVariable",
   chars! "\t\t{\tClassifiedID\tLLUUID\t\t}",
   chars! "\t\t{\tName\t\t\tVariable 1\t}",
   chars! "\t\t{\tClassifiedFlags\tU8\t\t\t}",
   chars! "\t\t{\tCreationDate\tU32\t\t\t}",
   chars! "\t\t{\tExpirationDate\tU32\t\t\t}",
   chars! "\t\t{\tPriceForListing\tS32\t\t\t}",
   chars! "\t}",
   chars! "\t{",
   chars! "\t\tStatusData Variable",
   chars! "\t\t{\tStatus\t\t\tU32\t\t}",
   chars! "\t}",
   chars! "}"]

/-- `DirClassifiedReply` as the parser creates it. -/
def r46 : RawTemplate :=
  ⟨"DirClassifiedReply", .low, 41, [255, 255, 41], some .trusted, some .zerocoded, some .notDeprecated,
    [⟨"StatusData", .variable, 0, [⟨"Status", some .u32, some 4⟩]⟩,
     ⟨"QueryReplies", .variable, 0, [⟨"PriceForListing", some .s32, some 4⟩, ⟨"ExpirationDate", some .u32, some 4⟩, ⟨"CreationDate", some .u32, some 4⟩, ⟨"ClassifiedFlags", some .u8, some 1⟩, ⟨"Name", some .variable, some 1⟩, ⟨"ClassifiedID", some .uuid, some 16⟩]⟩,
     ⟨"QueryData", .single, 0, [⟨"QueryID", some .uuid, some 16⟩]⟩,
     ⟨"AgentData", .single, 0, [⟨"AgentID", some .uuid, some 16⟩]⟩]⟩

/-- `DirClassifiedReply` in file order. -/
def t46 : Template :=
  ⟨"DirClassifiedReply", .low, 41, [], some .trusted, some .zerocoded, some .notDeprecated,
    [⟨"AgentData", .single, 0, [⟨"AgentID", .uuid, 16⟩]⟩,
     ⟨"QueryData", .single, 0, [⟨"QueryID", .uuid, 16⟩]⟩,
     ⟨"QueryReplies", .variable, 0, [⟨"ClassifiedID", .uuid, 16⟩, ⟨"Name", .variable, 1⟩, ⟨"ClassifiedFlags", .u8, 1⟩, ⟨"CreationDate", .u32, 4⟩, ⟨"ExpirationDate", .u32, 4⟩, ⟨"PriceForListing", .s32, 4⟩]⟩,
     ⟨"StatusData", .variable, 0, [⟨"Status", .u32, 4⟩]⟩]⟩

theorem p46 : ChunkOk c46 r46 := by intro v older; kernel_rfl
theorem k46 : r46.known = some t46 := by kernel_rfl
theorem n46 : t46.name = String.ofList ['D', 'i', 'r', 'C', 'l', 'a', 's', 's', 'i', 'f', 'i', 'e', 'd', 'R', 'e', 'p', 'l', 'y'] := by kernel_rfl

/-- The names of the blocks and variables of `DirClassifiedReply`. -/
def b46 : List (List Char × List (List Char)) :=
  [(['A', 'g', 'e', 'n', 't', 'D', 'a', 't', 'a'], [['A', 'g', 'e', 'n', 't', 'I', 'D']]),
   (['Q', 'u', 'e', 'r', 'y', 'D', 'a', 't', 'a'], [['Q', 'u', 'e', 'r', 'y', 'I', 'D']]),
   (['Q', 'u', 'e', 'r', 'y', 'R', 'e', 'p', 'l', 'i', 'e', 's'], [['C', 'l', 'a', 's', 's', 'i', 'f', 'i', 'e', 'd', 'I', 'D'], ['N', 'a', 'm', 'e'], ['C', 'l', 'a', 's', 's', 'i', 'f', 'i', 'e', 'd', 'F', 'l', 'a', 'g', 's'], ['C', 'r', 'e', 'a', 't', 'i', 'o', 'n', 'D', 'a', 't', 'e'], ['E', 'x', 'p', 'i', 'r', 'a', 't', 'i', 'o', 'n', 'D', 'a', 't', 'e'], ['P', 'r', 'i', 'c', 'e', 'F', 'o', 'r', 'L', 'i', 's', 't', 'i', 'n', 'g']]),
   (['S', 't', 'a', 't', 'u', 's', 'D', 'a', 't', 'a'], [['S', 't', 'a', 't', 'u', 's']])]

theorem w46 : Checked t46 := ⟨b46, by kernel_rfl, by kernel_rfl, by kernel_rfl⟩

/-- Lines of `message_template.msg` up to the end of `AvatarClassifiedReply`. -/
def c47 : List (List Char) :=
  [chars! "",
   chars! "",
   chars! "// AvatarClassifiedReply",
   chars! "// dataserver -> simulator -> viewer",
   chars! "// Send the header information for this avatar's classifieds",
   chars! "// This fills in the tabs of the Classifieds panel.",
   chars! "// reliable",
   chars! "{",
   chars! "\tAvatarClassifiedReply Low 42 Trusted Unencoded",
   chars! "\t{",
   chars! "\t\tAgentData\t\tSingle",
   chars! "\t\t{\tAgentID\t\t\tLLUUID\t\t}",
   chars! "\t\t{\tTargetID\t\tLLUUID\t\t}",
   chars! "\t}",
   chars! "\t{",
   chars! "\t\tData\t\t\tVariable",
   chars! "\t\t{\tClassifiedID\tLLUUID\t\t}",
   chars! "\t\t{\tName\t\t\tVariable 1\t}",
   chars! "\t}",
   chars! "}"]

/-- `AvatarClassifiedReply` as the parser creates it. -/
def r47 : RawTemplate :=
  ⟨"AvatarClassifiedReply", .low, 42, [255, 255, 42], some .trusted, some .unencoded, some .notDeprecated,
    [⟨"Data", .variable, 0, [⟨"Name", some .variable, some 1⟩, ⟨"ClassifiedID", some .uuid, some 16⟩]⟩,
     ⟨"AgentData", .single, 0, [⟨"TargetID", some .uuid, some 16⟩, ⟨"AgentID", some .uuid, some 16⟩]⟩]⟩

/-- `AvatarClassifiedReply` in file order. -/
def t47 : Template :=
  ⟨"AvatarClassifiedReply", .low, 42, [], some .trusted, some .unencoded, some .notDeprecated,
    [⟨"AgentData", .single, 0, [⟨"AgentID", .uuid, 16⟩, ⟨"TargetID", .uuid, 16⟩]⟩,
     ⟨"Data", .variable, 0, [⟨"ClassifiedID", .uuid, 16⟩, ⟨"Name", .variable, 1⟩]⟩]⟩

theorem p47 : ChunkOk c47 r47 := by intro v older; kernel_rfl
theorem k47 : r47.known = some t47 := by kernel_rfl
theorem n47 : t47.name = String.ofList ['A', 'v', 'a', 't', 'a', 'r', 'C', 'l', 'a', 's', 's', 'i', 'f', 'i', 'e', 'd', 'R', 'e', 'p', 'l', 'y'] := by kernel_rfl

/-- The names of the blocks and variables of `AvatarClassifiedReply`. -/
def b47 : List (List Char × List (List Char)) :=
  [(['A', 'g', 'e', 'n', 't', 'D', 'a', 't', 'a'], [['A', 'g', 'e', 'n', 't', 'I', 'D'], ['T', 'a', 'r', 'g', 'e', 't', 'I', 'D']]),
   (['D', 'a', 't', 'a'], [['C', 'l', 'a', 's', 's', 'i', 'f', 'i', 'e', 'd', 'I', 'D'], ['N', 'a', 'm', 'e']])]

theorem w47 : Checked t47 := ⟨b47, by kernel_rfl, by kernel_rfl, by kernel_rfl⟩

/-- Lines of `message_template.msg` up to the end of `ClassifiedInfoRequest`. -/
def c48 : List (List Char) :=
  [chars! "",
   chars! "",
   chars! "// ClassifiedInfoRequest",
   chars! "// viewer -> simulator",
   chars! "// simulator -> dataserver",
   chars! "// reliable",
   chars! "{",
   chars! "\tClassifiedInfoRequest Low 43 NotTrusted Zerocoded",
   chars! "\t{",
   chars! "\t\tAgentData        Single",
   chars! "\t\t{    AgentID        LLUUID\t\t}",
   chars! "\t\t{    SessionID      LLUUID\t\t}",
   chars! "\t}",
   chars! "\t{",
   chars! "\t\tData        Single",
   chars! "\t\t{\tClassifiedID\tLLUUID\t\t}",
   chars! "\t}",
   chars! "}"]

/-- `ClassifiedInfoRequest` as the parser creates it. -/
def r48 : RawTemplate :=
  ⟨"ClassifiedInfoRequest", .low, 43, [255, 255, 43], some .notTrusted, some .zerocoded, some .notDeprecated,
    [⟨"Data", .single, 0, [⟨"ClassifiedID", some .uuid, some 16⟩]⟩,
     ⟨"AgentData", .single, 0, [⟨"SessionID", some .uuid, some 16⟩, ⟨"AgentID", some .uuid, some 16⟩]⟩]⟩

/-- `ClassifiedInfoRequest` in file order. -/
def t48 : Template :=
  ⟨"ClassifiedInfoRequest", .low, 43, [], some .notTrusted, some .zerocoded, some .notDeprecated,
    [⟨"AgentData", .single, 0, [⟨"AgentID", .uuid, 16⟩, ⟨"SessionID", .uuid, 16⟩]⟩,
     ⟨"Data", .single, 0, [⟨"ClassifiedID", .uuid, 16⟩]⟩]⟩

theorem p48 : ChunkOk c48 r48 := by intro v older; kernel_rfl
theorem k48 : r48.known = some t48 := by kernel_rfl
theorem n48 : t48.name = String.ofList ['C', 'l', 'a', 's', 's', 'i', 'f', 'i', 'e', 'd', 'I', 'n', 'f', 'o', 'R', 'e', 'q', 'u', 'e', 's', 't'] := by kernel_rfl

/-- The names of the blocks and variables of `ClassifiedInfoRequest`. -/
def b48 : List (List Char × List (List Char)) :=
  [(['A', 'g', 'e', 'n', 't', 'D', 'a', 't', 'a'], [['A', 'g', 'e', 'n', 't', 'I', 'D'], ['S', 'e', 's', 's', 'i', 'o', 'n', 'I', 'D']]),
   (['D', 'a', 't', 'a'], [['C', 'l', 'a', 's', 's', 'i', 'f', 'i', 'e', 'd', 'I', 'D']])]

theorem w48 : Checked t48 := ⟨b48, by kernel_rfl, by kernel_rfl, by kernel_rfl⟩

/-- Lines of `message_template.msg` up to the end of `ClassifiedInfoReply`. -/
def c49 : List (List Char) :=
  [chars! "",
   chars! "",
   chars! "// ClassifiedInfoReply",
   chars! "// dataserver -> simulator",
   chars! "// simulator -> viewer",
   chars! "// reliable",
   chars! "{",
   chars! "\tClassifiedInfoReply Low 44 Trusted Unencoded",
   chars! "    {",
   chars! "        AgentData    Single",
   chars! "        {\tAgentID\t\t\tLLUUID\t\t}",
   chars! "    }",
   chars! "    {",
   chars! "\t\tData        Single",
   chars! "\t\t{\tClassifiedID\tLLUUID\t\t}",
   chars! "\t\t{\tCreatorID\t\tLLUUID\t\t}",
   chars! "\t\t{\tCreationDate\tU32\t\t\t}",
   chars! "\t\t{\tExpirationDate\tU32\t\t\t}",
   chars! "\t\t{\tCategory\t\tU32\t\t\t}",
   chars! "\t\t{\tName\t\t\tVariable 1\t}",
   chars! "        {\tDesc\t\t\tVariable 2\t}",
   chars! "\t\t{\tParcelID\t\tLLUUID\t\t}",
   chars! "\t\t{\tParentEstate\tU32\t\t\t}",
   chars! "        {\tSnapshotID\t\tLLUUID\t\t}",
   chars! "        {\tSimName\t\t\tVariable 1\t}",
   chars! "        {\tPosGlobal\t\tLLVector3d\t}",
   chars! "        {\tParcelName\t\tVariable 1\t}",
   chars! "\t\t{\tClassifiedFlags\tU8\t\t\t}",
   chars! "\t\t{\tPriceForListing\tS32\t\t\t}",
   chars! "    }",
   chars! "}"]

/-- `ClassifiedInfoReply` as the parser creates it. -/
def r49 : RawTemplate :=
  ⟨"ClassifiedInfoReply", .low, 44, [255, 255, 44], some .trusted, some .unencoded, some .notDeprecated,
    [⟨"Data", .single, 0, [⟨"PriceForListing", some .s32, some 4⟩, ⟨"ClassifiedFlags", some .u8, some 1⟩, ⟨"ParcelName", some .variable, some 1⟩, ⟨"PosGlobal", some .vector3d, some 24⟩, ⟨"SimName", some .variable, some 1⟩, ⟨"SnapshotID", some .uuid, some 16⟩, ⟨"ParentEstate", some .u32, some 4⟩, ⟨"ParcelID", some .uuid, some 16⟩, ⟨"Desc", some .variable, some 2⟩, ⟨"Name", some .variable, some 1⟩, ⟨"Category", some .u32, some 4⟩, ⟨"ExpirationDate", some .u32, some 4⟩, ⟨"CreationDate", some .u32, some 4⟩, ⟨"CreatorID", some .uuid, some 16⟩, ⟨"ClassifiedID", some .uuid, some 16⟩]⟩,
     ⟨"AgentData", .single, 0, [⟨"AgentID", some .uuid, some 16⟩]⟩]⟩

/-- `ClassifiedInfoReply` in file order. -/
def t49 : Template :=
  ⟨"ClassifiedInfoReply", .low, 44, [], some .trusted, some .unencoded, some .notDeprecated,
    [⟨"AgentData", .single, 0, [⟨"AgentID", .uuid, 16⟩]⟩,
     ⟨"Data", .single, 0, [⟨"ClassifiedID", .uuid, 16⟩, ⟨"CreatorID", .uuid, 16⟩, ⟨"CreationDate", .u32, 4⟩, ⟨"ExpirationDate", .u32, 4⟩, ⟨"Category", .u32, 4⟩, ⟨"Name", .variable, 1⟩, ⟨"Desc", .variable, 2⟩, ⟨"ParcelID", .uuid, 16⟩, ⟨"ParentEstate", .u32, 4⟩, ⟨"SnapshotID", .uuid, 16⟩, ⟨"SimName", .variable, 1⟩, ⟨"PosGlobal", .vector3d, 24⟩, ⟨"ParcelName", .variable, 1⟩, ⟨"ClassifiedFlags", .u8, 1⟩, ⟨"PriceForListing", .s32, 4⟩]⟩]⟩

theorem p49 : ChunkOk c49 r49 := by intro v older; kernel_rfl
theorem k49 : r49.known = some t49 := by kernel_rfl
theorem n49 : t49.name = String.ofList ['C', 'l', 'a', 's', 's', 'i', 'f', 'i', 'e', 'd', 'I', 'n', 'f', 'o', 'R', 'e', 'p', 'l', 'y'] := by kernel_rfl

/-- The names of the blocks and variables of `ClassifiedInfoReply`. -/
def b49 : List (List Char × List (List Char)) :=
  [(['A', 'g', 'e', 'n', 't', 'D', 'a', 't', 'a'], [['A', 'g', 'e', 'n', 't', 'I', 'D']]),
   (['D', 'a', 't', 'a'], [['C', 'l', 'a', 's', 's', 'i', 'f', 'i', 'e', 'd', 'I', 'D'], ['C', 'r', 'e', 'a', 't', 'o', 'r', 'I', 'D'], ['C', 'r', 'e', 'a', 't', 'i', 'o', 'n', 'D', 'a', 't', 'e'], ['E', 'x', 'p', 'i', 'r', 'a', 't', 'i', 'o', 'n', 'D', 'a', 't', 'e'], ['C', 'a', 't', 'e', 'g', 'o', 'r', 'y'], ['N', 'a', 'm', 'e'], ['D', 'e', 's', 'c'], ['P', 'a', 'r', 'c', 'e', 'l', 'I', 'D'], ['P', 'a', 'r', 'e', 'n', 't', 'E', 's', 't', 'a', 't', 'e'], ['S', 'n', 'a', 'p', 's', 'h', 'o', 't', 'I', 'D'], ['S', 'i', 'm', 'N', 'a', 'm', 'e'], ['P', 'o', 's', 'G', 'l', 'o', 'b', 'a', 'l'], ['P', 'a', 'r', 'c', 'e', 'l', 'N', 'a', 'm', 'e'], ['C', 'l', 'a', 's', 's', 'i', 'f', 'i', 'e', 'd', 'F', 'l', 'a', 'g', 's'], ['P', 'r', 'i', 'c', 'e', 'F', 'o', 'r', 'L', 'i', 's', 't', 'i', 'n', 'g']])]

theorem w49 : Checked t49 := ⟨b49, by kernel_rfl, by kernel_rfl, by kernel_rfl⟩

/-- Lines of `message_template.msg` up to the end of `ClassifiedInfoUpdate`. -/
def c50 : List (List Char) :=
  [chars! "",
   chars! "",
   chars! "// ClassifiedInfoUpdate",
   chars! "// Update a classified.  ParcelID and EstateID are set",
   chars! "// on the simulator as the message passes through.",
   chars! "// viewer -> simulator -> dataserver",
   chars! "// reliable",
   chars! "{",
   chars! "\tClassifiedInfoUpdate Low 45 NotTrusted Unencoded",
   chars! "\t{",
   chars! "\t\tAgentData\tSingle",
   chars! "\t\t{\tAgentID\t\t\tLLUUID\t\t}",
   chars! "\t\t{\tSessionID\t\tLLUUID\t\t}",
   chars! "\t}",
   chars! "\t{",
   chars! "\t\tData\t\tSingle",
   chars! "\t\t{\tClassifiedID\tLLUUID\t\t}",
   chars! "\t\t{\tCategory\t\tU32\t\t\t}",
   chars! "\t\t{\tName\t\t\tVariable 1\t}",
   chars! "\t\t{\tDesc\t\t\tVariable 2\t}",
   chars! "\t\t{\tParcelID\t\tLLUUID\t\t}",
   chars! "\t\t{\tParentEstate\tU32\t\t\t}",
   chars! "\t\t{\tSnapshotID\t\tLLUUID\t\t}",
   chars! "\t\t{\tPosGlobal\t\tLLVector3d\t}",
   chars! "\t\t{\tClassifiedFlags\tU8\t\t\t}",
   chars! "\t\t{\tPriceForListing\tS32\t\t\t}",
   chars! "\t}",
   chars! "}"]

/-- `ClassifiedInfoUpdate` as the parser creates it. -/
def r50 : RawTemplate :=
  ⟨"ClassifiedInfoUpdate", .low, 45, [255, 255, 45], some .notTrusted, some .unencoded, some .notDeprecated,
    [⟨"Data", .single, 0, [⟨"PriceForListing", some .s32, some 4⟩, ⟨"ClassifiedFlags", some .u8, some 1⟩, ⟨"PosGlobal", some .vector3d, some 24⟩, ⟨"SnapshotID", some .uuid, some 16⟩, ⟨"ParentEstate", some .u32, some 4⟩, ⟨"ParcelID", some .uuid, some 16⟩, ⟨"Desc", some .variable, some 2⟩, ⟨"Name", some .variable, some 1⟩, ⟨"Category", some .u32, some 4⟩, ⟨"ClassifiedID", some .uuid, some 16⟩]⟩,
     ⟨"AgentData", .single, 0, [⟨"SessionID", some .uuid, some 16⟩, ⟨"AgentID", some .uuid, some 16⟩]⟩]⟩

/-- `ClassifiedInfoUpdate` in file order. -/
def t50 : Template :=
  ⟨"ClassifiedInfoUpdate", .low, 45, [], some .notTrusted, some .unencoded, some .notDeprecated,
    [⟨"AgentData", .single, 0, [⟨"AgentID", .uuid, 16⟩, ⟨"SessionID", .uuid, 16⟩]⟩,
     ⟨"Data", .single, 0, [⟨"ClassifiedID", .uuid, 16⟩, ⟨"Category", .u32, 4⟩, ⟨"Name", .variable, 1⟩, ⟨"Desc", .variable, 2⟩, ⟨"ParcelID", .uuid, 16⟩, ⟨"ParentEstate", .u32, 4⟩, ⟨"SnapshotID", .uuid, 16⟩, ⟨"PosGlobal", .vector3d, 24⟩, ⟨"ClassifiedFlags", .u8, 1⟩, ⟨"PriceForListing", .s32, 4⟩]⟩]⟩

theorem p50 : ChunkOk c50 r50 := by intro v older; kernel_rfl
theorem k50 : r50.known = some t50 := by kernel_rfl
theorem n50 : t50.name = String.ofList ['C', 'l', 'a', 's', 's', 'i', 'f', 'i', 'e', 'd', 'I', 'n', 'f', 'o', 'U', 'p', 'd', 'a', 't', 'e'] := by kernel_rfl

/-- The names of the blocks and variables of `ClassifiedInfoUpdate`. -/
def b50 : List (List Char × List (List Char)) :=
  [(['A', 'g', 'e', 'n', 't', 'D', 'a', 't', 'a'], [['A', 'g', 'e', 'n', 't', 'I', 'D'], ['S', 'e', 's', 's', 'i', 'o', 'n', 'I', 'D']]),
   (['D', 'a', 't', 'a'], [['C', 'l', 'a', 's', 's', 'i', 'f', 'i', 'e', 'd', 'I', 'D'], ['C', 'a', 't', 'e', 'g', 'o', 'r', 'y'], ['N', 'a', 'm', 'e'], ['D', 'e', 's', 'c'], ['P', 'a', 'r', 'c', 'e', 'l', 'I', 'D'], ['P', 'a', 'r', 'e', 'n', 't', 'E', 's', 't', 'a', 't', 'e'], ['S', 'n', 'a', 'p', 's', 'h', 'o', 't', 'I', 'D'], ['P', 'o', 's', 'G', 'l', 'o', 'b', 'a', 'l'], ['C', 'l', 'a', 's', 's', 'i', 'f', 'i', 'e', 'd', 'F', 'l', 'a', 'g', 's'], ['P', 'r', 'i', 'c', 'e', 'F', 'o', 'r', 'L', 'i', 's', 't', 'i', 'n', 'g']])]

theorem w50 : Checked t50 := ⟨b50, by kernel_rfl, by kernel_rfl, by kernel_rfl⟩

/-- Lines of `message_template.msg` up to the end of `ClassifiedDelete`. -/
def c51 : List (List Char) :=
  [chars! "",
   chars! "",
   chars! "// ClassifiedDelete",
   chars! "// Delete a classified from the database.",
   chars! "// viewer -> simulator -> dataserver",
   chars! "// reliable",
   chars! "{",
   chars! "\tClassifiedDelete Low 46 NotTrusted Unencoded",
   chars! "\t{",
   chars! "\t\tAgentData\tSingle",
   chars! "\t\t{\tAgentID\t\t\tLLUUID\t\t}",
   chars! "\t\t{\tSessionID\t\tLLUUID\t\t}",
   chars! "\t}",
   chars! "\t{",
   chars! "\t\tData\tSingle",
   chars! "\t\t{\tClassifiedID\tLLUUID\t\t}",
   chars! "\t}",
   chars! "}"]

/-- `ClassifiedDelete` as the parser creates it. -/
def r51 : RawTemplate :=
  ⟨"ClassifiedDelete", .low, 46, [255, 255, 46], some .notTrusted, some .unencoded, some .notDeprecated,
    [⟨"Data", .single, 0, [⟨"ClassifiedID", some .uuid, some 16⟩]⟩,
     ⟨"AgentData", .single, 0, [⟨"SessionID", some .uuid, some 16⟩, ⟨"AgentID", some .uuid, some 16⟩]⟩]⟩

/-- `ClassifiedDelete` in file order. -/
def t51 : Template :=
  ⟨"ClassifiedDelete", .low, 46, [], some .notTrusted, some .unencoded, some .notDeprecated,
    [⟨"AgentData", .single, 0, [⟨"AgentID", .uuid, 16⟩, ⟨"SessionID", .uuid, 16⟩]⟩,
     ⟨"Data", .single, 0, [⟨"ClassifiedID", .uuid, 16⟩]⟩]⟩

theorem p51 : ChunkOk c51 r51 := by intro v older; kernel_rfl
theorem k51 : r51.known = some t51 := by kernel_rfl
theorem n51 : t51.name = String.ofList ['C', 'l', 'a', 's', 's', 'i', 'f', 'i', 'e', 'd', 'D', 'e', 'l', 'e', 't', 'e'] := by kernel_rfl

/-- The names of the blocks and variables of `ClassifiedDelete`. -/
def b51 : List (List Char × List (List Char)) :=
  [(['A', 'g', 'e', 'n', 't', 'D', 'a', 't', 'a'], [['A', 'g', 'e', 'n', 't', 'I', 'D'], ['S', 'e', 's', 's', 'i', 'o', 'n', 'I', 'D']]),
   (['D', 'a', 't', 'a'], [['C', 'l', 'a', 's', 's', 'i', 'f', 'i', 'e', 'd', 'I', 'D']])]

theorem w51 : Checked t51 := ⟨b51, by kernel_rfl, by kernel_rfl, by kernel_rfl⟩

/-- Lines of `message_template.msg` up to the end of `ClassifiedGodDelete`. -/
def c52 : List (List Char) :=
  [chars! "",
   chars! "// ClassifiedGodDelete",
   chars! "// Delete a classified from the database.",
   chars! "// QueryID is needed so database can send a repeat list of ",
   chars! "// classified.",
   chars! "// viewer -> simulator -> dataserver",
   chars! "// reliable",
   chars! "{",
   chars! "\tClassifiedGodDelete Low 47 NotTrusted Unencoded",
   chars! "\t{",
   chars! "\t\tAgentData\tSingle",
   chars! "\t\t{\tAgentID\t\t\tLLUUID\t\t}",
   chars! "\t\t{\tSessionID\t\tLLUUID\t\t}",
   chars! "\t}",
   chars! "\t{",
   chars! "\t\tData\tSingle",
   chars! "\t\t{\tClassifiedID\tLLUUID\t\t}",
   chars! "\t\t{\tQueryID\t\t\tLLUUID\t\t}",
   chars! "\t}",
   chars! "}"]

/-- `ClassifiedGodDelete` as the parser creates it. -/
def r52 : RawTemplate :=
  ⟨"ClassifiedGodDelete", .low, 47, [255, 255, 47], some .notTrusted, some .unencoded, some .notDeprecated,
    [⟨"Data", .single, 0, [⟨"QueryID", some .uuid, some 16⟩, ⟨"ClassifiedID", some .uuid, some 16⟩]⟩,
     ⟨"AgentData", .single, 0, [⟨"SessionID", some .uuid, some 16⟩, ⟨"AgentID", some .uuid, some 16⟩]⟩]⟩

/-- `ClassifiedGodDelete` in file order. -/
def t52 : Template :=
  ⟨"ClassifiedGodDelete", .low, 47, [], some .notTrusted, some .unencoded, some .notDeprecated,
    [⟨"AgentData", .single, 0, [⟨"AgentID", .uuid, 16⟩, ⟨"SessionID", .uuid, 16⟩]⟩,
     ⟨"Data", .single, 0, [⟨"ClassifiedID", .uuid, 16⟩, ⟨"QueryID", .uuid, 16⟩]⟩]⟩

theorem p52 : ChunkOk c52 r52 := by intro v older; kernel_rfl
theorem k52 : r52.known = some t52 := by kernel_rfl
theorem n52 : t52.name = String.ofList ['C', 'l', 'a', 's', 's', 'i', 'f', 'i', 'e', 'd', 'G', 'o', 'd', 'D', 'e', 'l', 'e', 't', 'e'] := by kernel_rfl

/-- The names of the blocks and variables of `ClassifiedGodDelete`. -/
def b52 : List (List Char × List (List Char)) :=
  [(['A', 'g', 'e', 'n', 't', 'D', 'a', 't', 'a'], [['A', 'g', 'e', 'n', 't', 'I', 'D'], ['S', 'e', 's', 's', 'i', 'o', 'n', 'I', 'D']]),
   (['D', 'a', 't', 'a'], [['C', 'l', 'a', 's', 's', 'i', 'f', 'i', 'e', 'd', 'I', 'D'], ['Q', 'u', 'e', 'r', 'y', 'I', 'D']])]

theorem w52 : Checked t52 := ⟨b52, by kernel_rfl, by kernel_rfl, by kernel_rfl⟩

/-- Lines of `message_template.msg` up to the end of `DirLandQuery`. -/
def c53 : List (List Char) :=
  [chars! "",
   chars! "",
   chars! "// DirLandQuery viewer->sim",
   chars! "// Special query for the land for sale/auction panel.",
   chars! "// reliable",
   chars! "{",
   chars! "\tDirLandQuery Low 48 NotTrusted Zerocoded",
   chars! "\t{",
   chars! "\t\tAgentData\t\t\tSingle",
   chars! "\t\t{\tAgentID\t\t\tLLUUID\t}",
   chars! "\t\t{\tSessionID\t\tLLUUID\t}",
   chars! "\t}",
   chars! "\t{",
   chars! "\t\tQueryData\t\t\tSingle",
   chars! "\t\t{\tQueryID\t\t\tLLUUID\t}",
   chars! "\t\t{\tQueryFlags\t\tU32\t\t}",
   chars! "\t\t{\tSearchType\t\tU32\t\t}",
   chars! "\t\t{\tPrice\t\t\tS32\t\t}",
   chars! "\t\t{\tArea\t\t\tS32\t\t}",
   chars! "\t\t{\tQueryStart\t\tS32\t\t}",
   chars! "\t}",
   chars! "}"]

/-- `DirLandQuery` as the parser creates it. -/
def r53 : RawTemplate :=
  ⟨"DirLandQuery", .low, 48, [255, 255, 48], some .notTrusted, some .zerocoded, some .notDeprecated,
    [⟨"QueryData", .single, 0, [⟨"QueryStart", some .s32, some 4⟩, ⟨"Area", some .s32, some 4⟩, ⟨"Price", some .s32, some 4⟩, ⟨"SearchType", some .u32, some 4⟩, ⟨"QueryFlags", some .u32, some 4⟩, ⟨"QueryID", some .uuid, some 16⟩]⟩,
     ⟨"AgentData", .single, 0, [⟨"SessionID", some .uuid, some 16⟩, ⟨"AgentID", some .uuid, some 16⟩]⟩]⟩

/-- `DirLandQuery` in file order. -/
def t53 : Template :=
  ⟨"DirLandQuery", .low, 48, [], some .notTrusted, some .zerocoded, some .notDeprecated,
    [⟨"AgentData", .single, 0, [⟨"AgentID", .uuid, 16⟩, ⟨"SessionID", .uuid, 16⟩]⟩,
     ⟨"QueryData", .single, 0, [⟨"QueryID", .uuid, 16⟩, ⟨"QueryFlags", .u32, 4⟩, ⟨"SearchType", .u32, 4⟩, ⟨"Price", .s32, 4⟩, ⟨"Area", .s32, 4⟩, ⟨"QueryStart", .s32, 4⟩]⟩]⟩

theorem p53 : ChunkOk c53 r53 := by intro v older; kernel_rfl
theorem k53 : r53.known = some t53 := by kernel_rfl
theorem n53 : t53.name = String.ofList ['D', 'i', 'r', 'L', 'a', 'n', 'd', 'Q', 'u', 'e', 'r', 'y'] := by kernel_rfl

/-- The names of the blocks and variables of `DirLandQuery`. -/
def b53 : List (List Char × List (List Char)) :=
  [(['A', 'g', 'e', 'n', 't', 'D', 'a', 't', 'a'], [['A', 'g', 'e', 'n', 't', 'I', 'D'], ['S', 'e', 's', 's', 'i', 'o', 'n', 'I', 'D']]),
   (['Q', 'u', 'e', 'r', 'y', 'D', 'a', 't', 'a'], [['Q', 'u', 'e', 'r', 'y', 'I', 'D'], ['Q', 'u', 'e', 'r', 'y', 'F', 'l', 'a', 'g', 's'], ['S', 'e', 'a', 'r', 'c', 'h', 'T', 'y', 'p', 'e'], ['P', 'r', 'i', 'c', 'e'], ['A', 'r', 'e', 'a'], ['Q', 'u', 'e', 'r', 'y', 'S', 't', 'a', 'r', 't']])]

theorem w53 : Checked t53 := ⟨b53, by kernel_rfl, by kernel_rfl, by kernel_rfl⟩

/-- Lines of `message_template.msg` up to the end of `DirLandQueryBackend`. -/
def c54 : List (List Char) :=
  [chars! "",
   chars! "// DirLandQueryBackend sim->dataserver",
   chars! "// Special query for the land for sale/auction panel.",
   chars! "{",
   chars! "\tDirLandQueryBackend Low 49 Trusted Zerocoded",
   chars! "\t{",
   chars! "\t\tAgentData\t\t\tSingle",
   chars! "\t\t{\tAgentID\t\t\tLLUUID\t}",
   chars! "\t}",
   chars! "\t{",
   chars! "\t\tQueryData\t\t\tSingle",
   chars! "\t\t{\tQueryID\t\t\tLLUUID\t}",
   chars! "\t\t{\tQueryFlags\t\tU32\t\t}",
   chars! "\t\t{\tSearchType\t\tU32\t\t}",
   chars! "\t\t{\tPrice\t\t\tS32\t\t}",
   chars! "\t\t{\tArea\t\t\tS32\t\t}",
   chars! "\t\t{\tQueryStart\t\tS32\t\t}",
   chars! "\t\t{\tEstateID\t\tU32\t\t}",
   chars! "\t\t{\tGodlike\t\t\tBOOL\t}",
   chars! "\t}",
   chars! "}"]

/-- `DirLandQueryBackend` as the parser creates it. -/
def r54 : RawTemplate :=
  ⟨"DirLandQueryBackend", .low, 49, [255, 255, 49], some .trusted, some .zerocoded, some .notDeprecated,
    [⟨"QueryData", .single, 0, [⟨"Godlike", some .bool, some 1⟩, ⟨"EstateID", some .u32, some 4⟩, ⟨"QueryStart", some .s32, some 4⟩, ⟨"Area", some .s32, some 4⟩, ⟨"Price", some .s32, some 4⟩, ⟨"SearchType", some .u32, some 4⟩, ⟨"QueryFlags", some .u32, some 4⟩, ⟨"QueryID", some .uuid, some 16⟩]⟩,
     ⟨"AgentData", .single, 0, [⟨"AgentID", some .uuid, some 16⟩]⟩]⟩

/-- `DirLandQueryBackend` in file order. -/
def t54 : Template :=
  ⟨"DirLandQueryBackend", .low, 49, [], some .trusted, some .zerocoded, some .notDeprecated,
    [⟨"AgentData", .single, 0, [⟨"AgentID", .uuid, 16⟩]⟩,
     ⟨"QueryData", .single, 0, [⟨"QueryID", .uuid, 16⟩, ⟨"QueryFlags", .u32, 4⟩, ⟨"SearchType", .u32, 4⟩, ⟨"Price", .s32, 4⟩, ⟨"Area", .s32, 4⟩, ⟨"QueryStart", .s32, 4⟩, ⟨"EstateID", .u32, 4⟩, ⟨"Godlike", .bool, 1⟩]⟩]⟩

theorem p54 : ChunkOk c54 r54 := by intro v older; kernel_rfl
theorem k54 : r54.known = some t54 := by kernel_rfl
theorem n54 : t54.name = String.ofList ['D', 'i', 'r', 'L', 'a', 'n', 'd', 'Q', 'u', 'e', 'r', 'y', 'B', 'a', 'c', 'k', 'e', 'n', 'd'] := by kernel_rfl

/-- The names of the blocks and variables of `DirLandQueryBackend`. -/
def b54 : List (List Char × List (List Char)) :=
  [(['A', 'g', 'e', 'n', 't', 'D', 'a', 't', 'a'], [['A', 'g', 'e', 'n', 't', 'I', 'D']]),
   (['Q', 'u', 'e', 'r', 'y', 'D', 'a', 't', 'a'], [['Q', 'u', 'e', 'r', 'y', 'I', 'D'], ['Q', 'u', 'e', 'r', 'y', 'F', 'l', 'a', 'g', 's'], ['S', 'e', 'a', 'r', 'c', 'h', 'T', 'y', 'p', 'e'], ['P', 'r', 'i', 'c', 'e'], ['A', 'r', 'e', 'a'], ['Q', 'u', 'e', 'r', 'y', 'S', 't', 'a', 'r', 't'], ['E', 's', 't', 'a', 't', 'e', 'I', 'D'], ['G', 'o', 'd', 'l', 'i', 'k', 'e']])]

theorem w54 : Checked t54 := ⟨b54, by kernel_rfl, by kernel_rfl, by kernel_rfl⟩

/-- Lines of `message_template.msg` up to the end of `DirLandReply`. -/
def c55 : List (List Char) :=
  [chars! "",
   chars! "// DirLandReply",
   chars! "// dataserver -> simulator -> viewer",
   chars! "// reliable",
   chars! "{",
   chars! "\tDirLandReply Low 50 Trusted Zerocoded UDPDeprecated",
   chars! "\t{",
   chars! "\t\tAgentData\t\t\tSingle",
   chars! "\t\t{\tAgentID\t\t\tLLUUID\t}",
   chars! "\t}",
   chars! "\t{",
   chars! "\t\tQueryData\t\t\tSingle",
   chars! "\t\t{\tQueryID\t\t\tLLUUID\t\t}",
   chars! "\t}",
   chars! "\t{",
   chars! "\t\tQueryReplies\t\tVariable",
   chars! "\t\t{\tParcelID\t\tLLUUID\t\t}",
   chars! "\t\t{\tName\t\t\tVariable 1\t}",
   chars! "\t\t{\tAuction\t\t\tBOOL\t\t}",
   chars! "\t\t{\tForSale\t\t\tBOOL\t\t}",
   chars! "\t\t{\tSalePrice\t\tS32\t\t\t}",
   chars! "\t\t{\tActualArea\t\tS32\t\t\t}",
   chars! "\t\t//{\tProductSKU\t\tVariable 1\t}",
   chars! "\t}",
   chars! "}"]

/-- `DirLandReply` as the parser creates it. -/
def r55 : RawTemplate :=
  ⟨"DirLandReply", .low, 50, [255, 255, 50], some .trusted, some .zerocoded, some .udpDeprecated,
    [⟨"QueryReplies", .variable, 0, [⟨"ActualArea", some .s32, some 4⟩, ⟨"SalePrice", some .s32, some 4⟩, ⟨"ForSale", some .bool, some 1⟩, ⟨"Auction", some .bool, some 1⟩, ⟨"Name", some .variable, some 1⟩, ⟨"ParcelID", some .uuid, some 16⟩]⟩,
     ⟨"QueryData", .single, 0, [⟨"QueryID", some .uuid, some 16⟩]⟩,
     ⟨"AgentData", .single, 0, [⟨"AgentID", some .uuid, some 16⟩]⟩]⟩

/-- `DirLandReply` in file order. -/
def t55 : Template :=
  ⟨"DirLandReply", .low, 50, [], some .trusted, some .zerocoded, some .udpDeprecated,
    [⟨"AgentData", .single, 0, [⟨"AgentID", .uuid, 16⟩]⟩,
     ⟨"QueryData", .single, 0, [⟨"QueryID", .uuid, 16⟩]⟩,
     ⟨"QueryReplies", .variable, 0, [⟨"ParcelID", .uuid, 16⟩, ⟨"Name", .variable, 1⟩, ⟨"Auction", .bool, 1⟩, ⟨"ForSale", .bool, 1⟩, ⟨"SalePrice", .s32, 4⟩, ⟨"ActualArea", .s32, 4⟩]⟩]⟩

theorem p55 : ChunkOk c55 r55 := by intro v older; kernel_rfl
theorem k55 : r55.known = some t55 := by kernel_rfl
theorem n55 : t55.name = String.ofList ['D', 'i', 'r', 'L', 'a', 'n', 'd', 'R', 'e', 'p', 'l', 'y'] := by kernel_rfl

/-- The names of the blocks and variables of `DirLandReply`. -/
def b55 : List (List Char × List (List Char)) :=
  [(['A', 'g', 'e', 'n', 't', 'D', 'a', 't', 'a'], [['A', 'g', 'e', 'n', 't', 'I', 'D']]),
   (['Q', 'u', 'e', 'r', 'y', 'D', 'a', 't', 'a'], [['Q', 'u', 'e', 'r', 'y', 'I', 'D']]),
   (['Q', 'u', 'e', 'r', 'y', 'R', 'e', 'p', 'l', 'i', 'e', 's'], [['P', 'a', 'r', 'c', 'e', 'l', 'I', 'D'], ['N', 'a', 'm', 'e'], ['A', 'u', 'c', 't', 'i', 'o', 'n'], ['F', 'o', 'r', 'S', 'a', 'l', 'e'], ['S', 'a', 'l', 'e', 'P', 'r', 'i', 'c', 'e'], ['A', 'c', 't', 'u', 'a', 'l', 'A', 'r', 'e', 'a']])]

theorem w55 : Checked t55 := ⟨b55, by kernel_rfl, by kernel_rfl, by kernel_rfl⟩

/-- Lines of `message_template.msg` up to the end of `DirPopularQuery`. -/
def c56 : List (List Char) :=
  [chars! "",
   chars! "// DEPRECATED: DirPopularQuery viewer->sim",
   chars! "// Special query for the land for sale/auction panel.",
   chars! "// reliable",
   chars! "{",
   chars! "\tDirPopularQuery Low 51 NotTrusted Zerocoded Deprecated",
   chars! "\t{",
   chars! "\t\tAgentData\t\t\tSingle",
   chars! "\t\t{\tAgentID\t\t\tLLUUID\t}",
   chars! "\t\t{\tSessionID\t\tLLUUID\t}",
   chars! "\t}",
   chars! "\t{",
   chars! "\t\tQueryData\t\t\tSingle",
   chars! "\t\t{\tQueryID\t\t\tLLUUID\t}",
   chars! "\t\t{\tQueryFlags\t\tU32\t\t}",
   chars! "\t}",
   chars! "}"]

/-- `DirPopularQuery` as the parser creates it. -/
def r56 : RawTemplate :=
  ⟨"DirPopularQuery", .low, 51, [255, 255, 51], some .notTrusted, some .zerocoded, some .deprecated,
    [⟨"QueryData", .single, 0, [⟨"QueryFlags", some .u32, some 4⟩, ⟨"QueryID", some .uuid, some 16⟩]⟩,
     ⟨"AgentData", .single, 0, [⟨"SessionID", some .uuid, some 16⟩, ⟨"AgentID", some .uuid, some 16⟩]⟩]⟩

/-- `DirPopularQuery` in file order. -/
def t56 : Template :=
  ⟨"DirPopularQuery", .low, 51, [], some .notTrusted, some .zerocoded, some .deprecated,
    [⟨"AgentData", .single, 0, [⟨"AgentID", .uuid, 16⟩, ⟨"SessionID", .uuid, 16⟩]⟩,
     ⟨"QueryData", .single, 0, [⟨"QueryID", .uuid, 16⟩, ⟨"QueryFlags", .u32, 4⟩]⟩]⟩

theorem p56 : ChunkOk c56 r56 := by intro v older; kernel_rfl
theorem k56 : r56.known = some t56 := by kernel_rfl
theorem n56 : t56.name = String.ofList ['D', 'i', 'r', 'P', 'o', 'p', 'u', 'l', 'a', 'r', 'Q', 'u', 'e', 'r', 'y'] := by kernel_rfl

/-- The names of the blocks and variables of `DirPopularQuery`. -/
def b56 : List (List Char × List (List Char)) :=
  [(['A', 'g', 'e', 'n', 't', 'D', 'a', 't', 'a'], [['A', 'g', 'e', 'n', 't', 'I', 'D'], ['S', 'e', 's', 's', 'i', 'o', 'n', 'I', 'D']]),
   (['Q', 'u', 'e', 'r', 'y', 'D', 'a', 't', 'a'], [['Q', 'u', 'e', 'r', 'y', 'I', 'D'], ['Q', 'u', 'e', 'r', 'y', 'F', 'l', 'a', 'g', 's']])]

theorem w56 : Checked t56 := ⟨b56, by kernel_rfl, by kernel_rfl, by kernel_rfl⟩

/-- Lines of `message_template.msg` up to the end of `DirPopularQueryBackend`. -/
def c57 : List (List Char) :=
  [chars! "",
   chars! "// DEPRECATED: DirPopularQueryBackend sim->dataserver",
   chars! "// Special query for the land for sale/auction panel.",
   chars! "// reliable",
   chars! "{",
   chars! "\tDirPopularQueryBackend Low 52 Trusted Zerocoded Deprecated",
   chars! "\t{",
   chars! "\t\tAgentData\t\t\tSingle",
   chars! "\t\t{\tAgentID\t\t\tLLUUID\t}",
   chars! "\t}",
   chars! "\t{",
   chars! "\t\tQueryData\t\t\tSingle",
   chars! "\t\t{\tQueryID\t\t\tLLUUID\t}",
   chars! "\t\t{\tQueryFlags\t\tU32\t\t}",
   chars! "\t\t{\tEstateID\t\tU32\t\t}",
   chars! "\t\t{\tGodlike\t\t\tBOOL\t}",
   chars! "\t}",
   chars! "}"]

/-- `DirPopularQueryBackend` as the parser creates it. -/
def r57 : RawTemplate :=
  ⟨"DirPopularQueryBackend", .low, 52, [255, 255, 52], some .trusted, some .zerocoded, some .deprecated,
    [⟨"QueryData", .single, 0, [⟨"Godlike", some .bool, some 1⟩, ⟨"EstateID", some .u32, some 4⟩, ⟨"QueryFlags", some .u32, some 4⟩, ⟨"QueryID", some .uuid, some 16⟩]⟩,
     ⟨"AgentData", .single, 0, [⟨"AgentID", some .uuid, some 16⟩]⟩]⟩

/-- `DirPopularQueryBackend` in file order. -/
def t57 : Template :=
  ⟨"DirPopularQueryBackend", .low, 52, [], some .trusted, some .zerocoded, some .deprecated,
    [⟨"AgentData", .single, 0, [⟨"AgentID", .uuid, 16⟩]⟩,
     ⟨"QueryData", .single, 0, [⟨"QueryID", .uuid, 16⟩, ⟨"QueryFlags", .u32, 4⟩, ⟨"EstateID", .u32, 4⟩, ⟨"Godlike", .bool, 1⟩]⟩]⟩

theorem p57 : ChunkOk c57 r57 := by intro v older; kernel_rfl
theorem k57 : r57.known = some t57 := by kernel_rfl
theorem n57 : t57.name = String.ofList ['D', 'i', 'r', 'P', 'o', 'p', 'u', 'l', 'a', 'r', 'Q', 'u', 'e', 'r', 'y', 'B', 'a', 'c', 'k', 'e', 'n', 'd'] := by kernel_rfl

/-- The names of the blocks and variables of `DirPopularQueryBackend`. -/
def b57 : List (List Char × List (List Char)) :=
  [(['A', 'g', 'e', 'n', 't', 'D', 'a', 't', 'a'], [['A', 'g', 'e', 'n', 't', 'I', 'D']]),
   (['Q', 'u', 'e', 'r', 'y', 'D', 'a', 't', 'a'], [['Q', 'u', 'e', 'r', 'y', 'I', 'D'], ['Q', 'u', 'e', 'r', 'y', 'F', 'l', 'a', 'g', 's'], ['E', 's', 't', 'a', 't', 'e', 'I', 'D'], ['G', 'o', 'd', 'l', 'i', 'k', 'e']])]

theorem w57 : Checked t57 := ⟨b57, by kernel_rfl, by kernel_rfl, by kernel_rfl⟩

/-- Lines of `message_template.msg` up to the end of `DirPopularReply`. -/
def c58 : List (List Char) :=
  [chars! "",
   chars! "// DEPRECATED: DirPopularReply",
   chars! "// dataserver -> simulator -> viewer",
   chars! "// reliable",
   chars! "{",
   chars! "\tDirPopularReply Low 53 Trusted Zerocoded Deprecated",
   chars! "\t{",
   chars! "\t\tAgentData\t\t\tSingle",
   chars! "\t\t{\tAgentID\t\t\tLLUUID\t}",
   chars! "\t}",
   chars! "\t{",
   chars! "\t\tQueryData\t\t\tSingle",
   chars! "\t\t{\tQueryID\t\t\tLLUUID\t\t}",
   chars! "\t}",
   chars! "\t{",
   chars! "\t\tQueryReplies\t\tVariable",
   chars! "\t\t{\tParcelID\t\tLLUUID\t\t}",
   chars! "\t\t{\tName\t\t\tVariable 1\t}",
   chars! "\t\t{\tDwell\t\t\tF32\t\t\t}",
   chars! "\t}",
   chars! "}"]

/-- `DirPopularReply` as the parser creates it. -/
def r58 : RawTemplate :=
  ⟨"DirPopularReply", .low, 53, [255, 255, 53], some .trusted, some .zerocoded, some .deprecated,
    [⟨"QueryReplies", .variable, 0, [⟨"Dwell", some .f32, some 4⟩, ⟨"Name", some .variable, some 1⟩, ⟨"ParcelID", some .uuid, some 16⟩]⟩,
     ⟨"QueryData", .single, 0, [⟨"QueryID", some .uuid, some 16⟩]⟩,
     ⟨"AgentData", .single, 0, [⟨"AgentID", some .uuid, some 16⟩]⟩]⟩

/-- `DirPopularReply` in file order. -/
def t58 : Template :=
  ⟨"DirPopularReply", .low, 53, [], some .trusted, some .zerocoded, some .deprecated,
    [⟨"AgentData", .single, 0, [⟨"AgentID", .uuid, 16⟩]⟩,
     ⟨"QueryData", .single, 0, [⟨"QueryID", .uuid, 16⟩]⟩,
     ⟨"QueryReplies", .variable, 0, [⟨"ParcelID", .uuid, 16⟩, ⟨"Name", .variable, 1⟩, ⟨"Dwell", .f32, 4⟩]⟩]⟩

theorem p58 : ChunkOk c58 r58 := by intro v older; kernel_rfl
theorem k58 : r58.known = some t58 := by kernel_rfl
theorem n58 : t58.name = String.ofList ['D', 'i', 'r', 'P', 'o', 'p', 'u', 'l', 'a', 'r', 'R', 'e', 'p', 'l', 'y'] := by kernel_rfl

/-- The names of the blocks and variables of `DirPopularReply`. -/
def b58 : List (List Char × List (List Char)) :=
  [(['A', 'g', 'e', 'n', 't', 'D', 'a', 't', 'a'], [['A', 'g', 'e', 'n', 't', 'I', 'D']]),
   (['Q', 'u', 'e', 'r', 'y', 'D', 'a', 't', 'a'], [['Q', 'u', 'e', 'r', 'y', 'I', 'D']]),
   (['Q', 'u', 'e', 'r', 'y', 'R', 'e', 'p', 'l', 'i', 'e', 's'], [['P', 'a', 'r', 'c', 'e', 'l', 'I', 'D'], ['N', 'a', 'm', 'e'], ['D', 'w', 'e', 'l', 'l']])]

theorem w58 : Checked t58 := ⟨b58, by kernel_rfl, by kernel_rfl, by kernel_rfl⟩

/-- Lines of `message_template.msg` up to the end of `ParcelInfoRequest`. -/
def c59 : List (List Char) :=
  [chars! "",
   chars! "// ParcelInfoRequest",
   chars! "// viewer -> simulator -> dataserver",
   chars! "// reliable",
   chars! "{",
   chars! "\tParcelInfoRequest Low 54 NotTrusted Unencoded",
   chars! "\t{",
   chars! "\t\tAgentData\t\tSingle",
   chars! "\t\t{\tAgentID\t\t\tLLUUID\t\t}",
   chars! "\t\t{\tSessionID\t\tLLUUID\t}",
   chars! "\t}",
   chars! "\t{",
   chars! "\t\tData\t\t\tSingle",
   chars! "\t\t{\tParcelID\t\tLLUUID\t\t}",
   chars! "\t}",
   chars! "}"]

/-- `ParcelInfoRequest` as the parser creates it. -/
def r59 : RawTemplate :=
  ⟨"ParcelInfoRequest", .low, 54, [255, 255, 54], some .notTrusted, some .unencoded, some .notDeprecated,
    [⟨"Data", .single, 0, [⟨"ParcelID", some .uuid, some 16⟩]⟩,
     ⟨"AgentData", .single, 0, [⟨"SessionID", some .uuid, some 16⟩, ⟨"AgentID", some .uuid, some 16⟩]⟩]⟩

/-- `ParcelInfoRequest` in file order. -/
def t59 : Template :=
  ⟨"ParcelInfoRequest", .low, 54, [], some .notTrusted, some .unencoded, some .notDeprecated,
    [⟨"AgentData", .single, 0, [⟨"AgentID", .uuid, 16⟩, ⟨"SessionID", .uuid, 16⟩]⟩,
     ⟨"Data", .single, 0, [⟨"ParcelID", .uuid, 16⟩]⟩]⟩

theorem p59 : ChunkOk c59 r59 := by intro v older; kernel_rfl
theorem k59 : r59.known = some t59 := by kernel_rfl
theorem n59 : t59.name = String.ofList ['P', 'a', 'r', 'c', 'e', 'l', 'I', 'n', 'f', 'o', 'R', 'e', 'q', 'u', 'e', 's', 't'] := by kernel_rfl

/-- The names of the blocks and variables of `ParcelInfoRequest`. -/
def b59 : List (List Char × List (List Char)) :=
  [(['A', 'g', 'e', 'n', 't', 'D', 'a', 't', 'a'], [['A', 'g', 'e', 'n', 't', 'I', 'D'], ['S', 'e', 's', 's', 'i', 'o', 'n', 'I', 'D']]),
   (['D', 'a', 't', 'a'], [['P', 'a', 'r', 'c', 'e', 'l', 'I', 'D']])]

theorem w59 : Checked t59 := ⟨b59, by kernel_rfl, by kernel_rfl, by kernel_rfl⟩

/-- Part 1 of the file. -/
def lines1 : List (List (List Char)) := [c0, c1, c2, c3, c4, c5, c6, c7, c8, c9, c10, c11, c12, c13, c14, c15, c16, c17, c18, c19, c20, c21, c22, c23, c24, c25, c26, c27, c28, c29, c30, c31, c32, c33, c34, c35, c36, c37, c38, c39, c40, c41, c42, c43, c44, c45, c46, c47, c48, c49, c50, c51, c52, c53, c54, c55, c56, c57, c58, c59]

/-- Part 1 of the templates, as parsed. -/
def raws1 : List RawTemplate := [r0, r1, r2, r3, r4, r5, r6, r7, r8, r9, r10, r11, r12, r13, r14, r15, r16, r17, r18, r19, r20, r21, r22, r23, r24, r25, r26, r27, r28, r29, r30, r31, r32, r33, r34, r35, r36, r37, r38, r39, r40, r41, r42, r43, r44, r45, r46, r47, r48, r49, r50, r51, r52, r53, r54, r55, r56, r57, r58, r59]

/-- Part 1 of the templates. -/
def templates1 : List Template := [t0, t1, t2, t3, t4, t5, t6, t7, t8, t9, t10, t11, t12, t13, t14, t15, t16, t17, t18, t19, t20, t21, t22, t23, t24, t25, t26, t27, t28, t29, t30, t31, t32, t33, t34, t35, t36, t37, t38, t39, t40, t41, t42, t43, t44, t45, t46, t47, t48, t49, t50, t51, t52, t53, t54, t55, t56, t57, t58, t59]

/-- The names in part 1. -/
def names1 : List (List Char) :=
  [['T', 'e', 's', 't', 'M', 'e', 's', 's', 'a', 'g', 'e'],
   ['P', 'a', 'c', 'k', 'e', 't', 'A', 'c', 'k'],
   ['O', 'p', 'e', 'n', 'C', 'i', 'r', 'c', 'u', 'i', 't'],
   ['C', 'l', 'o', 's', 'e', 'C', 'i', 'r', 'c', 'u', 'i', 't'],
   ['S', 't', 'a', 'r', 't', 'P', 'i', 'n', 'g', 'C', 'h', 'e', 'c', 'k'],
   ['C', 'o', 'm', 'p', 'l', 'e', 't', 'e', 'P', 'i', 'n', 'g', 'C', 'h', 'e', 'c', 'k'],
   ['A', 'd', 'd', 'C', 'i', 'r', 'c', 'u', 'i', 't', 'C', 'o', 'd', 'e'],
   ['U', 's', 'e', 'C', 'i', 'r', 'c', 'u', 'i', 't', 'C', 'o', 'd', 'e'],
   ['N', 'e', 'i', 'g', 'h', 'b', 'o', 'r', 'L', 'i', 's', 't'],
   ['A', 'v', 'a', 't', 'a', 'r', 'T', 'e', 'x', 't', 'u', 'r', 'e', 'U', 'p', 'd', 'a', 't', 'e'],
   ['S', 'i', 'm', 'u', 'l', 'a', 't', 'o', 'r', 'M', 'a', 'p', 'U', 'p', 'd', 'a', 't', 'e'],
   ['S', 'i', 'm', 'u', 'l', 'a', 't', 'o', 'r', 'S', 'e', 't', 'M', 'a', 'p'],
   ['S', 'u', 'b', 's', 'c', 'r', 'i', 'b', 'e', 'L', 'o', 'a', 'd'],
   ['U', 'n', 's', 'u', 'b', 's', 'c', 'r', 'i', 'b', 'e', 'L', 'o', 'a', 'd'],
   ['S', 'i', 'm', 'u', 'l', 'a', 't', 'o', 'r', 'R', 'e', 'a', 'd', 'y'],
   ['T', 'e', 'l', 'e', 'h', 'u', 'b', 'I', 'n', 'f', 'o'],
   ['S', 'i', 'm', 'u', 'l', 'a', 't', 'o', 'r', 'P', 'r', 'e', 's', 'e', 'n', 't', 'A', 't', 'L', 'o', 'c', 'a', 't', 'i', 'o', 'n'],
   ['S', 'i', 'm', 'u', 'l', 'a', 't', 'o', 'r', 'L', 'o', 'a', 'd'],
   ['S', 'i', 'm', 'u', 'l', 'a', 't', 'o', 'r', 'S', 'h', 'u', 't', 'd', 'o', 'w', 'n', 'R', 'e', 'q', 'u', 'e', 's', 't'],
   ['R', 'e', 'g', 'i', 'o', 'n', 'P', 'r', 'e', 's', 'e', 'n', 'c', 'e', 'R', 'e', 'q', 'u', 'e', 's', 't', 'B', 'y', 'R', 'e', 'g', 'i', 'o', 'n', 'I', 'D'],
   ['R', 'e', 'g', 'i', 'o', 'n', 'P', 'r', 'e', 's', 'e', 'n', 'c', 'e', 'R', 'e', 'q', 'u', 'e', 's', 't', 'B', 'y', 'H', 'a', 'n', 'd', 'l', 'e'],
   ['R', 'e', 'g', 'i', 'o', 'n', 'P', 'r', 'e', 's', 'e', 'n', 'c', 'e', 'R', 'e', 's', 'p', 'o', 'n', 's', 'e'],
   ['U', 'p', 'd', 'a', 't', 'e', 'S', 'i', 'm', 'u', 'l', 'a', 't', 'o', 'r'],
   ['L', 'o', 'g', 'D', 'w', 'e', 'l', 'l', 'T', 'i', 'm', 'e'],
   ['F', 'e', 'a', 't', 'u', 'r', 'e', 'D', 'i', 's', 'a', 'b', 'l', 'e', 'd'],
   ['L', 'o', 'g', 'F', 'a', 'i', 'l', 'e', 'd', 'M', 'o', 'n', 'e', 'y', 'T', 'r', 'a', 'n', 's', 'a', 'c', 't', 'i', 'o', 'n'],
   ['U', 's', 'e', 'r', 'R', 'e', 'p', 'o', 'r', 't', 'I', 'n', 't', 'e', 'r', 'n', 'a', 'l'],
   ['S', 'e', 't', 'S', 'i', 'm', 'S', 't', 'a', 't', 'u', 's', 'I', 'n', 'D', 'a', 't', 'a', 'b', 'a', 's', 'e'],
   ['S', 'e', 't', 'S', 'i', 'm', 'P', 'r', 'e', 's', 'e', 'n', 'c', 'e', 'I', 'n', 'D', 'a', 't', 'a', 'b', 'a', 's', 'e'],
   ['E', 'c', 'o', 'n', 'o', 'm', 'y', 'D', 'a', 't', 'a', 'R', 'e', 'q', 'u', 'e', 's', 't'],
   ['E', 'c', 'o', 'n', 'o', 'm', 'y', 'D', 'a', 't', 'a'],
   ['A', 'v', 'a', 't', 'a', 'r', 'P', 'i', 'c', 'k', 'e', 'r', 'R', 'e', 'q', 'u', 'e', 's', 't'],
   ['A', 'v', 'a', 't', 'a', 'r', 'P', 'i', 'c', 'k', 'e', 'r', 'R', 'e', 'q', 'u', 'e', 's', 't', 'B', 'a', 'c', 'k', 'e', 'n', 'd'],
   ['A', 'v', 'a', 't', 'a', 'r', 'P', 'i', 'c', 'k', 'e', 'r', 'R', 'e', 'p', 'l', 'y'],
   ['P', 'l', 'a', 'c', 'e', 's', 'Q', 'u', 'e', 'r', 'y'],
   ['P', 'l', 'a', 'c', 'e', 's', 'R', 'e', 'p', 'l', 'y'],
   ['D', 'i', 'r', 'F', 'i', 'n', 'd', 'Q', 'u', 'e', 'r', 'y'],
   ['D', 'i', 'r', 'F', 'i', 'n', 'd', 'Q', 'u', 'e', 'r', 'y', 'B', 'a', 'c', 'k', 'e', 'n', 'd'],
   ['D', 'i', 'r', 'P', 'l', 'a', 'c', 'e', 's', 'Q', 'u', 'e', 'r', 'y'],
   ['D', 'i', 'r', 'P', 'l', 'a', 'c', 'e', 's', 'Q', 'u', 'e', 'r', 'y', 'B', 'a', 'c', 'k', 'e', 'n', 'd'],
   ['D', 'i', 'r', 'P', 'l', 'a', 'c', 'e', 's', 'R', 'e', 'p', 'l', 'y'],
   ['D', 'i', 'r', 'P', 'e', 'o', 'p', 'l', 'e', 'R', 'e', 'p', 'l', 'y'],
   ['D', 'i', 'r', 'E', 'v', 'e', 'n', 't', 's', 'R', 'e', 'p', 'l', 'y'],
   ['D', 'i', 'r', 'G', 'r', 'o', 'u', 'p', 's', 'R', 'e', 'p', 'l', 'y'],
   ['D', 'i', 'r', 'C', 'l', 'a', 's', 's', 'i', 'f', 'i', 'e', 'd', 'Q', 'u', 'e', 'r', 'y'],
   ['D', 'i', 'r', 'C', 'l', 'a', 's', 's', 'i', 'f', 'i', 'e', 'd', 'Q', 'u', 'e', 'r', 'y', 'B', 'a', 'c', 'k', 'e', 'n', 'd'],
   ['D', 'i', 'r', 'C', 'l', 'a', 's', 's', 'i', 'f', 'i', 'e', 'd', 'R', 'e', 'p', 'l', 'y'],
   ['A', 'v', 'a', 't', 'a', 'r', 'C', 'l', 'a', 's', 's', 'i', 'f', 'i', 'e', 'd', 'R', 'e', 'p', 'l', 'y'],
   ['C', 'l', 'a', 's', 's', 'i', 'f', 'i', 'e', 'd', 'I', 'n', 'f', 'o', 'R', 'e', 'q', 'u', 'e', 's', 't'],
   ['C', 'l', 'a', 's', 's', 'i', 'f', 'i', 'e', 'd', 'I', 'n', 'f', 'o', 'R', 'e', 'p', 'l', 'y'],
   ['C', 'l', 'a', 's', 's', 'i', 'f', 'i', 'e', 'd', 'I', 'n', 'f', 'o', 'U', 'p', 'd', 'a', 't', 'e'],
   ['C', 'l', 'a', 's', 's', 'i', 'f', 'i', 'e', 'd', 'D', 'e', 'l', 'e', 't', 'e'],
   ['C', 'l', 'a', 's', 's', 'i', 'f', 'i', 'e', 'd', 'G', 'o', 'd', 'D', 'e', 'l', 'e', 't', 'e'],
   ['D', 'i', 'r', 'L', 'a', 'n', 'd', 'Q', 'u', 'e', 'r', 'y'],
   ['D', 'i', 'r', 'L', 'a', 'n', 'd', 'Q', 'u', 'e', 'r', 'y', 'B', 'a', 'c', 'k', 'e', 'n', 'd'],
   ['D', 'i', 'r', 'L', 'a', 'n', 'd', 'R', 'e', 'p', 'l', 'y'],
   ['D', 'i', 'r', 'P', 'o', 'p', 'u', 'l', 'a', 'r', 'Q', 'u', 'e', 'r', 'y'],
   ['D', 'i', 'r', 'P', 'o', 'p', 'u', 'l', 'a', 'r', 'Q', 'u', 'e', 'r', 'y', 'B', 'a', 'c', 'k', 'e', 'n', 'd'],
   ['D', 'i', 'r', 'P', 'o', 'p', 'u', 'l', 'a', 'r', 'R', 'e', 'p', 'l', 'y'],
   ['P', 'a', 'r', 'c', 'e', 'l', 'I', 'n', 'f', 'o', 'R', 'e', 'q', 'u', 'e', 's', 't']]

theorem parsed1 : List.Forall₂ ChunkOk lines1 raws1 :=
  (.cons p0 (.cons p1 (.cons p2 (.cons p3 (.cons p4 (.cons p5 (.cons p6 (.cons p7 (.cons p8 (.cons p9 (.cons p10 (.cons p11 (.cons p12 (.cons p13 (.cons p14 (.cons p15 (.cons p16 (.cons p17 (.cons p18 (.cons p19 (.cons p20 (.cons p21 (.cons p22 (.cons p23 (.cons p24 (.cons p25 (.cons p26 (.cons p27 (.cons p28 (.cons p29 (.cons p30 (.cons p31 (.cons p32 (.cons p33 (.cons p34 (.cons p35 (.cons p36 (.cons p37 (.cons p38 (.cons p39 (.cons p40 (.cons p41 (.cons p42 (.cons p43 (.cons p44 (.cons p45 (.cons p46 (.cons p47 (.cons p48 (.cons p49 (.cons p50 (.cons p51 (.cons p52 (.cons p53 (.cons p54 (.cons p55 (.cons p56 (.cons p57 (.cons p58 (.cons p59 .nil))))))))))))))))))))))))))))))))))))))))))))))))))))))))))))

theorem known1 : List.Forall₂ (fun r t => RawTemplate.known r = some t) raws1 templates1 :=
  (.cons k0 (.cons k1 (.cons k2 (.cons k3 (.cons k4 (.cons k5 (.cons k6 (.cons k7 (.cons k8 (.cons k9 (.cons k10 (.cons k11 (.cons k12 (.cons k13 (.cons k14 (.cons k15 (.cons k16 (.cons k17 (.cons k18 (.cons k19 (.cons k20 (.cons k21 (.cons k22 (.cons k23 (.cons k24 (.cons k25 (.cons k26 (.cons k27 (.cons k28 (.cons k29 (.cons k30 (.cons k31 (.cons k32 (.cons k33 (.cons k34 (.cons k35 (.cons k36 (.cons k37 (.cons k38 (.cons k39 (.cons k40 (.cons k41 (.cons k42 (.cons k43 (.cons k44 (.cons k45 (.cons k46 (.cons k47 (.cons k48 (.cons k49 (.cons k50 (.cons k51 (.cons k52 (.cons k53 (.cons k54 (.cons k55 (.cons k56 (.cons k57 (.cons k58 (.cons k59 .nil))))))))))))))))))))))))))))))))))))))))))))))))))))))))))))

theorem named1 : List.Forall₂ (fun (t : Template) w => t.name = String.ofList w) templates1 names1 :=
  (.cons n0 (.cons n1 (.cons n2 (.cons n3 (.cons n4 (.cons n5 (.cons n6 (.cons n7 (.cons n8 (.cons n9 (.cons n10 (.cons n11 (.cons n12 (.cons n13 (.cons n14 (.cons n15 (.cons n16 (.cons n17 (.cons n18 (.cons n19 (.cons n20 (.cons n21 (.cons n22 (.cons n23 (.cons n24 (.cons n25 (.cons n26 (.cons n27 (.cons n28 (.cons n29 (.cons n30 (.cons n31 (.cons n32 (.cons n33 (.cons n34 (.cons n35 (.cons n36 (.cons n37 (.cons n38 (.cons n39 (.cons n40 (.cons n41 (.cons n42 (.cons n43 (.cons n44 (.cons n45 (.cons n46 (.cons n47 (.cons n48 (.cons n49 (.cons n50 (.cons n51 (.cons n52 (.cons n53 (.cons n54 (.cons n55 (.cons n56 (.cons n57 (.cons n58 (.cons n59 .nil))))))))))))))))))))))))))))))))))))))))))))))))))))))))))))

theorem checked1 : ∀ t ∈ templates1, Checked t :=
  (List.forall_mem_cons.mpr ⟨w0, (List.forall_mem_cons.mpr ⟨w1, (List.forall_mem_cons.mpr ⟨w2, (List.forall_mem_cons.mpr ⟨w3, (List.forall_mem_cons.mpr ⟨w4, (List.forall_mem_cons.mpr ⟨w5, (List.forall_mem_cons.mpr ⟨w6, (List.forall_mem_cons.mpr ⟨w7, (List.forall_mem_cons.mpr ⟨w8, (List.forall_mem_cons.mpr ⟨w9, (List.forall_mem_cons.mpr ⟨w10, (List.forall_mem_cons.mpr ⟨w11, (List.forall_mem_cons.mpr ⟨w12, (List.forall_mem_cons.mpr ⟨w13, (List.forall_mem_cons.mpr ⟨w14, (List.forall_mem_cons.mpr ⟨w15, (List.forall_mem_cons.mpr ⟨w16, (List.forall_mem_cons.mpr ⟨w17, (List.forall_mem_cons.mpr ⟨w18, (List.forall_mem_cons.mpr ⟨w19, (List.forall_mem_cons.mpr ⟨w20, (List.forall_mem_cons.mpr ⟨w21, (List.forall_mem_cons.mpr ⟨w22, (List.forall_mem_cons.mpr ⟨w23, (List.forall_mem_cons.mpr ⟨w24, (List.forall_mem_cons.mpr ⟨w25, (List.forall_mem_cons.mpr ⟨w26, (List.forall_mem_cons.mpr ⟨w27, (List.forall_mem_cons.mpr ⟨w28, (List.forall_mem_cons.mpr ⟨w29, (List.forall_mem_cons.mpr ⟨w30, (List.forall_mem_cons.mpr ⟨w31, (List.forall_mem_cons.mpr ⟨w32, (List.forall_mem_cons.mpr ⟨w33, (List.forall_mem_cons.mpr ⟨w34, (List.forall_mem_cons.mpr ⟨w35, (List.forall_mem_cons.mpr ⟨w36, (List.forall_mem_cons.mpr ⟨w37, (List.forall_mem_cons.mpr ⟨w38, (List.forall_mem_cons.mpr ⟨w39, (List.forall_mem_cons.mpr ⟨w40, (List.forall_mem_cons.mpr ⟨w41, (List.forall_mem_cons.mpr ⟨w42, (List.forall_mem_cons.mpr ⟨w43, (List.forall_mem_cons.mpr ⟨w44, (List.forall_mem_cons.mpr ⟨w45, (List.forall_mem_cons.mpr ⟨w46, (List.forall_mem_cons.mpr ⟨w47, (List.forall_mem_cons.mpr ⟨w48, (List.forall_mem_cons.mpr ⟨w49, (List.forall_mem_cons.mpr ⟨w50, (List.forall_mem_cons.mpr ⟨w51, (List.forall_mem_cons.mpr ⟨w52, (List.forall_mem_cons.mpr ⟨w53, (List.forall_mem_cons.mpr ⟨w54, (List.forall_mem_cons.mpr ⟨w55, (List.forall_mem_cons.mpr ⟨w56, (List.forall_mem_cons.mpr ⟨w57, (List.forall_mem_cons.mpr ⟨w58, (List.forall_mem_cons.mpr ⟨w59, (List.forall_mem_nil _)⟩)⟩)⟩)⟩)⟩)⟩)⟩)⟩)⟩)⟩)⟩)⟩)⟩)⟩)⟩)⟩)⟩)⟩)⟩)⟩)⟩)⟩)⟩)⟩)⟩)⟩)⟩)⟩)⟩)⟩)⟩)⟩)⟩)⟩)⟩)⟩)⟩)⟩)⟩)⟩)⟩)⟩)⟩)⟩)⟩)⟩)⟩)⟩)⟩)⟩)⟩)⟩)⟩)⟩)⟩)⟩)⟩)⟩)⟩)⟩)

end Pyogp.Embedded
