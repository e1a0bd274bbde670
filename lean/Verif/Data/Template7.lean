import Verif.Data.Chars

/-! Generated by `tools/gen_template.py` from `message/data/message_template.msg`: part 7. -/

namespace Pyogp.Embedded


/-- Lines of `message_template.msg` up to the end of `MuteListUpdate`. -/
def c360 : List (List Char) :=
  [chars! "",
   chars! "//---------------------------------------------------------------------------",
   chars! "//",
   chars! "//---------------------------------------------------------------------------",
   chars! "",
   chars! "// userserver -> viewer, up-to-date inventory is here",
   chars! "// could be sent as a result of spam",
   chars! "// as well as in response to InventoryRequest",
   chars! "//{",
   chars! "//\tInventoryUpdate Low Trusted Unencoded",
   chars! "//\t{",
   chars! "//\t\tAgentData\t\tSingle",
   chars! "//\t\t{\tAgentID\t\tLLUUID\t}",
   chars! "//\t}",
   chars! "//\t{",
   chars! "//\t\tInventoryData\tSingle",
   chars! "//\t\t{\tIsComplete\tU8\t}",
   chars! "//\t\t{\tFilename\tVariable\t1\t}",
   chars! "//\t}",
   chars! "//}",
   chars! "",
   chars! "// dataserver-> userserver -> viewer to move around the mute list",
   chars! "{",
   chars! "\tMuteListUpdate Low 318 Trusted Unencoded",
   chars! "\t{",
   chars! "\t\tMuteData\tSingle",
   chars! "\t\t{\tAgentID\t\tLLUUID\t}",
   chars! "\t\t{\tFilename\tVariable\t1\t}",
   chars! "\t}",
   chars! "}"]

/-- `MuteListUpdate` as the parser creates it. -/
def r360 : RawTemplate :=
  ⟨"MuteListUpdate", .low, 318, [255, 255, 62], some .trusted, some .unencoded, some .notDeprecated,
    [⟨"MuteData", .single, 0, [⟨"Filename", some .variable, some 1⟩, ⟨"AgentID", some .uuid, some 16⟩]⟩]⟩

/-- `MuteListUpdate` in file order. -/
def t360 : Template :=
  ⟨"MuteListUpdate", .low, 318, [], some .trusted, some .unencoded, some .notDeprecated,
    [⟨"MuteData", .single, 0, [⟨"AgentID", .uuid, 16⟩, ⟨"Filename", .variable, 1⟩]⟩]⟩

theorem p360 : ChunkOk c360 r360 := by intro v older; kernel_rfl
theorem k360 : r360.known = some t360 := by kernel_rfl
theorem n360 : t360.name = String.ofList ['M', 'u', 't', 'e', 'L', 'i', 's', 't', 'U', 'p', 'd', 'a', 't', 'e'] := by kernel_rfl

/-- The names of the blocks and variables of `MuteListUpdate`. -/
def b360 : List (List Char × List (List Char)) :=
  [(['M', 'u', 't', 'e', 'D', 'a', 't', 'a'], [['A', 'g', 'e', 'n', 't', 'I', 'D'], ['F', 'i', 'l', 'e', 'n', 'a', 'm', 'e']])]

theorem w360 : Checked t360 := ⟨b360, by kernel_rfl, by kernel_rfl, by kernel_rfl⟩

/-- Lines of `message_template.msg` up to the end of `UseCachedMuteList`. -/
def c361 : List (List Char) :=
  [chars! "",
   chars! "// tell viewer to use the local mute cache",
   chars! "{",
   chars! "\tUseCachedMuteList Low 319 NotTrusted Unencoded",
   chars! "\t{",
   chars! "\t\tAgentData\tSingle",
   chars! "\t\t{\tAgentID\t\tLLUUID\t}",
   chars! "\t}",
   chars! "}"]

/-- `UseCachedMuteList` as the parser creates it. -/
def r361 : RawTemplate :=
  ⟨"UseCachedMuteList", .low, 319, [255, 255, 63], some .notTrusted, some .unencoded, some .notDeprecated,
    [⟨"AgentData", .single, 0, [⟨"AgentID", some .uuid, some 16⟩]⟩]⟩

/-- `UseCachedMuteList` in file order. -/
def t361 : Template :=
  ⟨"UseCachedMuteList", .low, 319, [], some .notTrusted, some .unencoded, some .notDeprecated,
    [⟨"AgentData", .single, 0, [⟨"AgentID", .uuid, 16⟩]⟩]⟩

theorem p361 : ChunkOk c361 r361 := by intro v older; kernel_rfl
theorem k361 : r361.known = some t361 := by kernel_rfl
theorem n361 : t361.name = String.ofList ['U', 's', 'e', 'C', 'a', 'c', 'h', 'e', 'd', 'M', 'u', 't', 'e', 'L', 'i', 's', 't'] := by kernel_rfl

/-- The names of the blocks and variables of `UseCachedMuteList`. -/
def b361 : List (List Char × List (List Char)) :=
  [(['A', 'g', 'e', 'n', 't', 'D', 'a', 't', 'a'], [['A', 'g', 'e', 'n', 't', 'I', 'D']])]

theorem w361 : Checked t361 := ⟨b361, by kernel_rfl, by kernel_rfl, by kernel_rfl⟩

/-- Lines of `message_template.msg` up to the end of `GrantUserRights`. -/
def c362 : List (List Char) :=
  [chars! "",
   chars! "// Sent from viewer to simulator to set user rights. This message will be",
   chars! "// relayed up to the dataserver through a PUT. If that",
   chars! "// succeeds, an UpdateUserRights will be relayed to the originating",
   chars! "// viewer, and a presence lookup will be performed to find",
   chars! "// agent-related and the same PUT will be issued to the sim host if",
   chars! "// they are online.",
   chars! "{",
   chars! "\tGrantUserRights Low 320 NotTrusted Unencoded",
   chars! "\t{",
   chars! "\t\tAgentData\t\tSingle",
   chars! "\t\t{\tAgentID\t\tLLUUID\t}",
   chars! "\t\t{\tSessionID\tLLUUID\t}",
   chars! "\t}",
   chars! "\t{",
   chars! "\t\tRights\t\t\tVariable",
   chars! "\t\t{\tAgentRelated\t\tLLUUID\t\t}",
   chars! "\t\t{\tRelatedRights\t\tS32\t\t}",
   chars! "\t}",
   chars! "}"]

/-- `GrantUserRights` as the parser creates it. -/
def r362 : RawTemplate :=
  ⟨"GrantUserRights", .low, 320, [255, 255, 64], some .notTrusted, some .unencoded, some .notDeprecated,
    [⟨"Rights", .variable, 0, [⟨"RelatedRights", some .s32, some 4⟩, ⟨"AgentRelated", some .uuid, some 16⟩]⟩,
     ⟨"AgentData", .single, 0, [⟨"SessionID", some .uuid, some 16⟩, ⟨"AgentID", some .uuid, some 16⟩]⟩]⟩

/-- `GrantUserRights` in file order. -/
def t362 : Template :=
  ⟨"GrantUserRights", .low, 320, [], some .notTrusted, some .unencoded, some .notDeprecated,
    [⟨"AgentData", .single, 0, [⟨"AgentID", .uuid, 16⟩, ⟨"SessionID", .uuid, 16⟩]⟩,
     ⟨"Rights", .variable, 0, [⟨"AgentRelated", .uuid, 16⟩, ⟨"RelatedRights", .s32, 4⟩]⟩]⟩

theorem p362 : ChunkOk c362 r362 := by intro v older; kernel_rfl
theorem k362 : r362.known = some t362 := by kernel_rfl
theorem n362 : t362.name = String.ofList ['G', 'r', 'a', 'n', 't', 'U', 's', 'e', 'r', 'R', 'i', 'g', 'h', 't', 's'] := by kernel_rfl

/-- The names of the blocks and variables of `GrantUserRights`. -/
def b362 : List (List Char × List (List Char)) :=
  [(['A', 'g', 'e', 'n', 't', 'D', 'a', 't', 'a'], [['A', 'g', 'e', 'n', 't', 'I', 'D'], ['S', 'e', 's', 's', 'i', 'o', 'n', 'I', 'D']]),
   (['R', 'i', 'g', 'h', 't', 's'], [['A', 'g', 'e', 'n', 't', 'R', 'e', 'l', 'a', 't', 'e', 'd'], ['R', 'e', 'l', 'a', 't', 'e', 'd', 'R', 'i', 'g', 'h', 't', 's']])]

theorem w362 : Checked t362 := ⟨b362, by kernel_rfl, by kernel_rfl, by kernel_rfl⟩

/-- Lines of `message_template.msg` up to the end of `ChangeUserRights`. -/
def c363 : List (List Char) :=
  [chars! "",
   chars! "// This message is sent from the simulator to the viewer to indicate a",
   chars! "// targets granted rights. This is only sent to the originator of the",
   chars! "// request and the target agent if it is a modify or map",
   chars! "// right. Adding/removing online status rights will show up as an",
   chars! "// online/offline notification.",
   chars! "{",
   chars! "\tChangeUserRights Low 321 Trusted Unencoded",
   chars! "\t{",
   chars! "\t\tAgentData\t\tSingle",
   chars! "\t\t{\tAgentID\t\tLLUUID\t}",
   chars! "\t}",
   chars! "\t{",
   chars! "\t\tRights\t\t\tVariable",
   chars! "\t\t{\tAgentRelated\t\tLLUUID\t\t}",
   chars! "\t\t{\tRelatedRights\t\tS32\t\t}",
   chars! "\t}",
   chars! "}"]

/-- `ChangeUserRights` as the parser creates it. -/
def r363 : RawTemplate :=
  ⟨"ChangeUserRights", .low, 321, [255, 255, 65], some .trusted, some .unencoded, some .notDeprecated,
    [⟨"Rights", .variable, 0, [⟨"RelatedRights", some .s32, some 4⟩, ⟨"AgentRelated", some .uuid, some 16⟩]⟩,
     ⟨"AgentData", .single, 0, [⟨"AgentID", some .uuid, some 16⟩]⟩]⟩

/-- `ChangeUserRights` in file order. -/
def t363 : Template :=
  ⟨"ChangeUserRights", .low, 321, [], some .trusted, some .unencoded, some .notDeprecated,
    [⟨"AgentData", .single, 0, [⟨"AgentID", .uuid, 16⟩]⟩,
     ⟨"Rights", .variable, 0, [⟨"AgentRelated", .uuid, 16⟩, ⟨"RelatedRights", .s32, 4⟩]⟩]⟩

theorem p363 : ChunkOk c363 r363 := by intro v older; kernel_rfl
theorem k363 : r363.known = some t363 := by kernel_rfl
theorem n363 : t363.name = String.ofList ['C', 'h', 'a', 'n', 'g', 'e', 'U', 's', 'e', 'r', 'R', 'i', 'g', 'h', 't', 's'] := by kernel_rfl

/-- The names of the blocks and variables of `ChangeUserRights`. -/
def b363 : List (List Char × List (List Char)) :=
  [(['A', 'g', 'e', 'n', 't', 'D', 'a', 't', 'a'], [['A', 'g', 'e', 'n', 't', 'I', 'D']]),
   (['R', 'i', 'g', 'h', 't', 's'], [['A', 'g', 'e', 'n', 't', 'R', 'e', 'l', 'a', 't', 'e', 'd'], ['R', 'e', 'l', 'a', 't', 'e', 'd', 'R', 'i', 'g', 'h', 't', 's']])]

theorem w363 : Checked t363 := ⟨b363, by kernel_rfl, by kernel_rfl, by kernel_rfl⟩

/-- Lines of `message_template.msg` up to the end of `OnlineNotification`. -/
def c364 : List (List Char) :=
  [chars! "",
   chars! "// notification for login and logout. ",
   chars! "// source_sim -> dest_viewer",
   chars! "{",
   chars! "\tOnlineNotification Low 322 Trusted Unencoded",
   chars! "\t{",
   chars! "\t\tAgentBlock\t\tVariable",
   chars! "\t\t{\tAgentID\t\tLLUUID\t}",
   chars! "\t}",
   chars! "}"]

/-- `OnlineNotification` as the parser creates it. -/
def r364 : RawTemplate :=
  ⟨"OnlineNotification", .low, 322, [255, 255, 66], some .trusted, some .unencoded, some .notDeprecated,
    [⟨"AgentBlock", .variable, 0, [⟨"AgentID", some .uuid, some 16⟩]⟩]⟩

/-- `OnlineNotification` in file order. -/
def t364 : Template :=
  ⟨"OnlineNotification", .low, 322, [], some .trusted, some .unencoded, some .notDeprecated,
    [⟨"AgentBlock", .variable, 0, [⟨"AgentID", .uuid, 16⟩]⟩]⟩

theorem p364 : ChunkOk c364 r364 := by intro v older; kernel_rfl
theorem k364 : r364.known = some t364 := by kernel_rfl
theorem n364 : t364.name = String.ofList ['O', 'n', 'l', 'i', 'n', 'e', 'N', 'o', 't', 'i', 'f', 'i', 'c', 'a', 't', 'i', 'o', 'n'] := by kernel_rfl

/-- The names of the blocks and variables of `OnlineNotification`. -/
def b364 : List (List Char × List (List Char)) :=
  [(['A', 'g', 'e', 'n', 't', 'B', 'l', 'o', 'c', 'k'], [['A', 'g', 'e', 'n', 't', 'I', 'D']])]

theorem w364 : Checked t364 := ⟨b364, by kernel_rfl, by kernel_rfl, by kernel_rfl⟩

/-- Lines of `message_template.msg` up to the end of `OfflineNotification`. -/
def c365 : List (List Char) :=
  [chars! "{",
   chars! "\tOfflineNotification Low 323 Trusted Unencoded",
   chars! "\t{",
   chars! "\t\tAgentBlock\t\tVariable",
   chars! "\t\t{\tAgentID\t\tLLUUID\t}",
   chars! "\t}",
   chars! "}"]

/-- `OfflineNotification` as the parser creates it. -/
def r365 : RawTemplate :=
  ⟨"OfflineNotification", .low, 323, [255, 255, 67], some .trusted, some .unencoded, some .notDeprecated,
    [⟨"AgentBlock", .variable, 0, [⟨"AgentID", some .uuid, some 16⟩]⟩]⟩

/-- `OfflineNotification` in file order. -/
def t365 : Template :=
  ⟨"OfflineNotification", .low, 323, [], some .trusted, some .unencoded, some .notDeprecated,
    [⟨"AgentBlock", .variable, 0, [⟨"AgentID", .uuid, 16⟩]⟩]⟩

theorem p365 : ChunkOk c365 r365 := by intro v older; kernel_rfl
theorem k365 : r365.known = some t365 := by kernel_rfl
theorem n365 : t365.name = String.ofList ['O', 'f', 'f', 'l', 'i', 'n', 'e', 'N', 'o', 't', 'i', 'f', 'i', 'c', 'a', 't', 'i', 'o', 'n'] := by kernel_rfl

/-- The names of the blocks and variables of `OfflineNotification`. -/
def b365 : List (List Char × List (List Char)) :=
  [(['A', 'g', 'e', 'n', 't', 'B', 'l', 'o', 'c', 'k'], [['A', 'g', 'e', 'n', 't', 'I', 'D']])]

theorem w365 : Checked t365 := ⟨b365, by kernel_rfl, by kernel_rfl, by kernel_rfl⟩

/-- Lines of `message_template.msg` up to the end of `SetStartLocationRequest`. -/
def c366 : List (List Char) :=
  [chars! "",
   chars! "",
   chars! "// SetStartLocationRequest",
   chars! "// viewer -> sim ",
   chars! "// failure checked at sim and triggers ImprovedInstantMessage ",
   chars! "// success triggers SetStartLocation ",
   chars! "{",
   chars! "\tSetStartLocationRequest Low 324 NotTrusted Zerocoded",
   chars! "\t{",
   chars! "\t\tAgentData\t\tSingle",
   chars! "\t\t{\tAgentID\t\tLLUUID\t}",
   chars! "\t\t{\tSessionID\tLLUUID\t}",
   chars! "\t}",
   chars! "\t{",
   chars! "\t\tStartLocationData\tSingle",
   chars! "\t\t{\tSimName\t\t\tVariable\t1\t}\t// string",
   chars! "\t\t{\tLocationID\t\tU32\t}",
   chars! "\t\t{\tLocationPos\t\tLLVector3\t}\t\t// region coords",
   chars! "\t\t{\tLocationLookAt\tLLVector3\t}",
   chars! "\t}",
   chars! "}"]

/-- `SetStartLocationRequest` as the parser creates it. -/
def r366 : RawTemplate :=
  ⟨"SetStartLocationRequest", .low, 324, [255, 255, 68], some .notTrusted, some .zerocoded, some .notDeprecated,
    [⟨"StartLocationData", .single, 0, [⟨"LocationLookAt", some .vector3, some 12⟩, ⟨"LocationPos", some .vector3, some 12⟩, ⟨"LocationID", some .u32, some 4⟩, ⟨"SimName", some .variable, some 1⟩]⟩,
     ⟨"AgentData", .single, 0, [⟨"SessionID", some .uuid, some 16⟩, ⟨"AgentID", some .uuid, some 16⟩]⟩]⟩

/-- `SetStartLocationRequest` in file order. -/
def t366 : Template :=
  ⟨"SetStartLocationRequest", .low, 324, [], some .notTrusted, some .zerocoded, some .notDeprecated,
    [⟨"AgentData", .single, 0, [⟨"AgentID", .uuid, 16⟩, ⟨"SessionID", .uuid, 16⟩]⟩,
     ⟨"StartLocationData", .single, 0, [⟨"SimName", .variable, 1⟩, ⟨"LocationID", .u32, 4⟩, ⟨"LocationPos", .vector3, 12⟩, ⟨"LocationLookAt", .vector3, 12⟩]⟩]⟩

theorem p366 : ChunkOk c366 r366 := by intro v older; kernel_rfl
theorem k366 : r366.known = some t366 := by kernel_rfl
theorem n366 : t366.name = String.ofList ['S', 'e', 't', 'S', 't', 'a', 'r', 't', 'L', 'o', 'c', 'a', 't', 'i', 'o', 'n', 'R', 'e', 'q', 'u', 'e', 's', 't'] := by kernel_rfl

/-- The names of the blocks and variables of `SetStartLocationRequest`. -/
def b366 : List (List Char × List (List Char)) :=
  [(['A', 'g', 'e', 'n', 't', 'D', 'a', 't', 'a'], [['A', 'g', 'e', 'n', 't', 'I', 'D'], ['S', 'e', 's', 's', 'i', 'o', 'n', 'I', 'D']]),
   (['S', 't', 'a', 'r', 't', 'L', 'o', 'c', 'a', 't', 'i', 'o', 'n', 'D', 'a', 't', 'a'], [['S', 'i', 'm', 'N', 'a', 'm', 'e'], ['L', 'o', 'c', 'a', 't', 'i', 'o', 'n', 'I', 'D'], ['L', 'o', 'c', 'a', 't', 'i', 'o', 'n', 'P', 'o', 's'], ['L', 'o', 'c', 'a', 't', 'i', 'o', 'n', 'L', 'o', 'o', 'k', 'A', 't']])]

theorem w366 : Checked t366 := ⟨b366, by kernel_rfl, by kernel_rfl, by kernel_rfl⟩

/-- Lines of `message_template.msg` up to the end of `SetStartLocation`. -/
def c367 : List (List Char) :=
  [chars! "",
   chars! "// SetStartLocation",
   chars! "// sim -> dataserver",
   chars! "{",
   chars! "\tSetStartLocation Low 325 Trusted Zerocoded",
   chars! "\t{",
   chars! "\t\tStartLocationData\tSingle",
   chars! "\t\t{\tAgentID\t\t\tLLUUID\t}",
   chars! "\t\t{\tRegionID\t\tLLUUID\t}",
   chars! "\t\t{\tLocationID\t\tU32\t}",
   chars! "\t\t{\tRegionHandle\tU64\t\t\t}",
   chars! "\t\t{\tLocationPos\t\tLLVector3\t}\t\t// region coords",
   chars! "\t\t{\tLocationLookAt\tLLVector3\t}",
   chars! "\t}",
   chars! "}"]

/-- `SetStartLocation` as the parser creates it. -/
def r367 : RawTemplate :=
  ⟨"SetStartLocation", .low, 325, [255, 255, 69], some .trusted, some .zerocoded, some .notDeprecated,
    [⟨"StartLocationData", .single, 0, [⟨"LocationLookAt", some .vector3, some 12⟩, ⟨"LocationPos", some .vector3, some 12⟩, ⟨"RegionHandle", some .u64, some 8⟩, ⟨"LocationID", some .u32, some 4⟩, ⟨"RegionID", some .uuid, some 16⟩, ⟨"AgentID", some .uuid, some 16⟩]⟩]⟩

/-- `SetStartLocation` in file order. -/
def t367 : Template :=
  ⟨"SetStartLocation", .low, 325, [], some .trusted, some .zerocoded, some .notDeprecated,
    [⟨"StartLocationData", .single, 0, [⟨"AgentID", .uuid, 16⟩, ⟨"RegionID", .uuid, 16⟩, ⟨"LocationID", .u32, 4⟩, ⟨"RegionHandle", .u64, 8⟩, ⟨"LocationPos", .vector3, 12⟩, ⟨"LocationLookAt", .vector3, 12⟩]⟩]⟩

theorem p367 : ChunkOk c367 r367 := by intro v older; kernel_rfl
theorem k367 : r367.known = some t367 := by kernel_rfl
theorem n367 : t367.name = String.ofList ['S', 'e', 't', 'S', 't', 'a', 'r', 't', 'L', 'o', 'c', 'a', 't', 'i', 'o', 'n'] := by kernel_rfl

/-- The names of the blocks and variables of `SetStartLocation`. -/
def b367 : List (List Char × List (List Char)) :=
  [(['S', 't', 'a', 'r', 't', 'L', 'o', 'c', 'a', 't', 'i', 'o', 'n', 'D', 'a', 't', 'a'], [['A', 'g', 'e', 'n', 't', 'I', 'D'], ['R', 'e', 'g', 'i', 'o', 'n', 'I', 'D'], ['L', 'o', 'c', 'a', 't', 'i', 'o', 'n', 'I', 'D'], ['R', 'e', 'g', 'i', 'o', 'n', 'H', 'a', 'n', 'd', 'l', 'e'], ['L', 'o', 'c', 'a', 't', 'i', 'o', 'n', 'P', 'o', 's'], ['L', 'o', 'c', 'a', 't', 'i', 'o', 'n', 'L', 'o', 'o', 'k', 'A', 't']])]

theorem w367 : Checked t367 := ⟨b367, by kernel_rfl, by kernel_rfl, by kernel_rfl⟩

/-- Lines of `message_template.msg` up to the end of `NetTest`. -/
def c368 : List (List Char) :=
  [chars! "",
   chars! "",
   chars! "// ***************************************************************************",
   chars! "// Launcher messages",
   chars! "// ***************************************************************************",
   chars! "",
   chars! "",
   chars! "// NetTest - This goes back and forth to the space server because of",
   chars! "// problems determining the port",
   chars! "{",
   chars! "\tNetTest Low 326 NotTrusted Unencoded",
   chars! "\t{",
   chars! "\t\tNetBlock\t\t\tSingle",
   chars! "\t\t{\tPort\t\tIPPORT\t}",
   chars! "\t}",
   chars! "}"]

/-- `NetTest` as the parser creates it. -/
def r368 : RawTemplate :=
  ⟨"NetTest", .low, 326, [255, 255, 70], some .notTrusted, some .unencoded, some .notDeprecated,
    [⟨"NetBlock", .single, 0, [⟨"Port", some .ipport, some 2⟩]⟩]⟩

/-- `NetTest` in file order. -/
def t368 : Template :=
  ⟨"NetTest", .low, 326, [], some .notTrusted, some .unencoded, some .notDeprecated,
    [⟨"NetBlock", .single, 0, [⟨"Port", .ipport, 2⟩]⟩]⟩

theorem p368 : ChunkOk c368 r368 := by intro v older; kernel_rfl
theorem k368 : r368.known = some t368 := by kernel_rfl
theorem n368 : t368.name = String.ofList ['N', 'e', 't', 'T', 'e', 's', 't'] := by kernel_rfl

/-- The names of the blocks and variables of `NetTest`. -/
def b368 : List (List Char × List (List Char)) :=
  [(['N', 'e', 't', 'B', 'l', 'o', 'c', 'k'], [['P', 'o', 'r', 't']])]

theorem w368 : Checked t368 := ⟨b368, by kernel_rfl, by kernel_rfl, by kernel_rfl⟩

/-- Lines of `message_template.msg` up to the end of `SetCPURatio`. -/
def c369 : List (List Char) :=
  [chars! "",
   chars! "// SetChildCount - Sent to launcher to adjust nominal child count",
   chars! "// Simulator sends this increase the sim/cpu ratio on startup",
   chars! "{",
   chars! "\tSetCPURatio Low 327 NotTrusted Unencoded",
   chars! "\t{",
   chars! "\t\tData\tSingle",
   chars! "\t\t{\tRatio\t\tU8\t}",
   chars! "\t}",
   chars! "}"]

/-- `SetCPURatio` as the parser creates it. -/
def r369 : RawTemplate :=
  ⟨"SetCPURatio", .low, 327, [255, 255, 71], some .notTrusted, some .unencoded, some .notDeprecated,
    [⟨"Data", .single, 0, [⟨"Ratio", some .u8, some 1⟩]⟩]⟩

/-- `SetCPURatio` in file order. -/
def t369 : Template :=
  ⟨"SetCPURatio", .low, 327, [], some .notTrusted, some .unencoded, some .notDeprecated,
    [⟨"Data", .single, 0, [⟨"Ratio", .u8, 1⟩]⟩]⟩

theorem p369 : ChunkOk c369 r369 := by intro v older; kernel_rfl
theorem k369 : r369.known = some t369 := by kernel_rfl
theorem n369 : t369.name = String.ofList ['S', 'e', 't', 'C', 'P', 'U', 'R', 'a', 't', 'i', 'o'] := by kernel_rfl

/-- The names of the blocks and variables of `SetCPURatio`. -/
def b369 : List (List Char × List (List Char)) :=
  [(['D', 'a', 't', 'a'], [['R', 'a', 't', 'i', 'o']])]

theorem w369 : Checked t369 := ⟨b369, by kernel_rfl, by kernel_rfl, by kernel_rfl⟩

/-- Lines of `message_template.msg` up to the end of `SimCrashed`. -/
def c370 : List (List Char) :=
  [chars! "",
   chars! "",
   chars! "",
   chars! "// SimCrashed - Sent to dataserver when the sim goes down.",
   chars! "// Maybe we should notify the spaceserver as well?",
   chars! "{",
   chars! "\tSimCrashed\tLow 328 NotTrusted Unencoded",
   chars! "\t{",
   chars! "\t\tData\tSingle",
   chars! "\t\t{\tRegionX\t\t\tU32 }",
   chars! "\t\t{\tRegionY\t\t\tU32 }",
   chars! "\t}",
   chars! "\t{",
   chars! "\t\tUsers\tVariable",
   chars! "\t\t{\tAgentID\t\t\tLLUUID\t}",
   chars! "\t}",
   chars! "}"]

/-- `SimCrashed` as the parser creates it. -/
def r370 : RawTemplate :=
  ⟨"SimCrashed", .low, 328, [255, 255, 72], some .notTrusted, some .unencoded, some .notDeprecated,
    [⟨"Users", .variable, 0, [⟨"AgentID", some .uuid, some 16⟩]⟩,
     ⟨"Data", .single, 0, [⟨"RegionY", some .u32, some 4⟩, ⟨"RegionX", some .u32, some 4⟩]⟩]⟩

/-- `SimCrashed` in file order. -/
def t370 : Template :=
  ⟨"SimCrashed", .low, 328, [], some .notTrusted, some .unencoded, some .notDeprecated,
    [⟨"Data", .single, 0, [⟨"RegionX", .u32, 4⟩, ⟨"RegionY", .u32, 4⟩]⟩,
     ⟨"Users", .variable, 0, [⟨"AgentID", .uuid, 16⟩]⟩]⟩

theorem p370 : ChunkOk c370 r370 := by intro v older; kernel_rfl
theorem k370 : r370.known = some t370 := by kernel_rfl
theorem n370 : t370.name = String.ofList ['S', 'i', 'm', 'C', 'r', 'a', 's', 'h', 'e', 'd'] := by kernel_rfl

/-- The names of the blocks and variables of `SimCrashed`. -/
def b370 : List (List Char × List (List Char)) :=
  [(['D', 'a', 't', 'a'], [['R', 'e', 'g', 'i', 'o', 'n', 'X'], ['R', 'e', 'g', 'i', 'o', 'n', 'Y']]),
   (['U', 's', 'e', 'r', 's'], [['A', 'g', 'e', 'n', 't', 'I', 'D']])]

theorem w370 : Checked t370 := ⟨b370, by kernel_rfl, by kernel_rfl, by kernel_rfl⟩

/-- Lines of `message_template.msg` up to the end of `NameValuePair`. -/
def c371 : List (List Char) :=
  [chars! "",
   chars! "// ***************************************************************************",
   chars! "// Name Value Pair messages",
   chars! "// ***************************************************************************",
   chars! "",
   chars! "// NameValuePair - if the specific task exists on simulator, add or replace this name value pair",
   chars! "{",
   chars! "\tNameValuePair Low 329 Trusted Unencoded",
   chars! "\t{",
   chars! "\t\tTaskData\t\t\tSingle",
   chars! "\t\t{\tID\t\t\t\tLLUUID\t}",
   chars! "\t}",
   chars! "\t{",
   chars! "\t\tNameValueData\t\tVariable",
   chars! "\t\t{\tNVPair\t\t\tVariable\t2\t}",
   chars! "\t}",
   chars! "}"]

/-- `NameValuePair` as the parser creates it. -/
def r371 : RawTemplate :=
  ⟨"NameValuePair", .low, 329, [255, 255, 73], some .trusted, some .unencoded, some .notDeprecated,
    [⟨"NameValueData", .variable, 0, [⟨"NVPair", some .variable, some 2⟩]⟩,
     ⟨"TaskData", .single, 0, [⟨"ID", some .uuid, some 16⟩]⟩]⟩

/-- `NameValuePair` in file order. -/
def t371 : Template :=
  ⟨"NameValuePair", .low, 329, [], some .trusted, some .unencoded, some .notDeprecated,
    [⟨"TaskData", .single, 0, [⟨"ID", .uuid, 16⟩]⟩,
     ⟨"NameValueData", .variable, 0, [⟨"NVPair", .variable, 2⟩]⟩]⟩

theorem p371 : ChunkOk c371 r371 := by intro v older; kernel_rfl
theorem k371 : r371.known = some t371 := by kernel_rfl
theorem n371 : t371.name = String.ofList ['N', 'a', 'm', 'e', 'V', 'a', 'l', 'u', 'e', 'P', 'a', 'i', 'r'] := by kernel_rfl

/-- The names of the blocks and variables of `NameValuePair`. -/
def b371 : List (List Char × List (List Char)) :=
  [(['T', 'a', 's', 'k', 'D', 'a', 't', 'a'], [['I', 'D']]),
   (['N', 'a', 'm', 'e', 'V', 'a', 'l', 'u', 'e', 'D', 'a', 't', 'a'], [['N', 'V', 'P', 'a', 'i', 'r']])]

theorem w371 : Checked t371 := ⟨b371, by kernel_rfl, by kernel_rfl, by kernel_rfl⟩

/-- Lines of `message_template.msg` up to the end of `RemoveNameValuePair`. -/
def c372 : List (List Char) :=
  [chars! "",
   chars! "// NameValuePair - if the specific task exists on simulator or dataserver, remove the name value pair (value is ignored)",
   chars! "{",
   chars! "\tRemoveNameValuePair Low 330 Trusted Unencoded",
   chars! "\t{",
   chars! "\t\tTaskData\t\t\tSingle",
   chars! "\t\t{\tID\t\t\t\tLLUUID\t}",
   chars! "\t}",
   chars! "\t{",
   chars! "\t\tNameValueData\t\tVariable",
   chars! "\t\t{\tNVPair\t\t\tVariable\t2\t}",
   chars! "\t}",
   chars! "}"]

/-- `RemoveNameValuePair` as the parser creates it. -/
def r372 : RawTemplate :=
  ⟨"RemoveNameValuePair", .low, 330, [255, 255, 74], some .trusted, some .unencoded, some .notDeprecated,
    [⟨"NameValueData", .variable, 0, [⟨"NVPair", some .variable, some 2⟩]⟩,
     ⟨"TaskData", .single, 0, [⟨"ID", some .uuid, some 16⟩]⟩]⟩

/-- `RemoveNameValuePair` in file order. -/
def t372 : Template :=
  ⟨"RemoveNameValuePair", .low, 330, [], some .trusted, some .unencoded, some .notDeprecated,
    [⟨"TaskData", .single, 0, [⟨"ID", .uuid, 16⟩]⟩,
     ⟨"NameValueData", .variable, 0, [⟨"NVPair", .variable, 2⟩]⟩]⟩

theorem p372 : ChunkOk c372 r372 := by intro v older; kernel_rfl
theorem k372 : r372.known = some t372 := by kernel_rfl
theorem n372 : t372.name = String.ofList ['R', 'e', 'm', 'o', 'v', 'e', 'N', 'a', 'm', 'e', 'V', 'a', 'l', 'u', 'e', 'P', 'a', 'i', 'r'] := by kernel_rfl

/-- The names of the blocks and variables of `RemoveNameValuePair`. -/
def b372 : List (List Char × List (List Char)) :=
  [(['T', 'a', 's', 'k', 'D', 'a', 't', 'a'], [['I', 'D']]),
   (['N', 'a', 'm', 'e', 'V', 'a', 'l', 'u', 'e', 'D', 'a', 't', 'a'], [['N', 'V', 'P', 'a', 'i', 'r']])]

theorem w372 : Checked t372 := ⟨b372, by kernel_rfl, by kernel_rfl, by kernel_rfl⟩

/-- Lines of `message_template.msg` up to the end of `UpdateAttachment`. -/
def c373 : List (List Char) :=
  [chars! "",
   chars! "",
   chars! "// ***************************************************************************",
   chars! "// Add/Remove Attachment messages",
   chars! "// ***************************************************************************",
   chars! "",
   chars! "//",
   chars! "// Simulator informs Dataserver of new attachment or attachment asset update ",
   chars! "// DO NOT ALLOW THIS FROM THE VIEWER",
   chars! "//",
   chars! "{",
   chars! "\tUpdateAttachment Low 331 Trusted Zerocoded",
   chars! "\t{",
   chars! "\t\tAgentData\t\t\tSingle",
   chars! "\t\t{\tAgentID\t\t\tLLUUID\t}",
   chars! "\t\t{\tSessionID\t\tLLUUID\t}",
   chars! "\t}",
   chars! "\t{",
   chars! "\t\tAttachmentBlock\t\tSingle",
   chars! "\t\t{\tAttachmentPoint\tU8\t}",
   chars! "\t}",
   chars! "\t{",
   chars! "\t\tOperationData\t\tSingle",
   chars! "\t\t{\tAddItem\t\t\tBOOL\t}",
   chars! "\t\t{\tUseExistingAsset BOOL\t}",
   chars! "\t}",
   chars! "\t{",
   chars! "\t\tInventoryData\t\tSingle\t\t\t// Standard inventory item block",
   chars! "\t\t{\tItemID\t\t\tLLUUID\t}",
   chars! "\t\t{\tFolderID\t\tLLUUID\t}",
   chars! "",
   chars! "\t\t{\tCreatorID\t\tLLUUID\t}\t// permissions",
   chars! "\t\t{\tOwnerID\t\t\tLLUUID\t}\t// permissions",
   chars! "\t\t{\tGroupID\t\t\tLLUUID\t}\t// permissions",
   chars! "\t\t{\tBaseMask\t\tU32\t}\t// permissions",
   chars! "\t\t{\tOwnerMask\t\tU32\t}\t// permissions",
   chars! "\t\t{\tGroupMask\t\tU32\t}\t// permissions",
   chars! "\t\t{\tEveryoneMask\tU32\t}\t// permissions",
   chars! "\t\t{\tNextOwnerMask\tU32\t}\t// permissions",
   chars! "\t\t{\tGroupOwned\t\tBOOL\t}\t// permissions",
   chars! "",
   chars! "\t\t{\tAssetID\t\t\tLLUUID\t}",
   chars! "\t\t{\tType\t\t\tS8\t}",
   chars! "\t\t{\tInvType\t\t\tS8\t}",
   chars! "\t\t{\tFlags\t\t\tU32\t}",
   chars! "\t\t{\tSaleType\t\tU8\t}",
   chars! "\t\t{\tSalePrice\t\tS32\t}",
   chars! "\t\t{\tName\t\t\tVariable\t1\t}",
   chars! "\t\t{\tDescription\t\tVariable\t1\t}",
   chars! "\t\t{\tCreationDate\tS32\t}",
   chars! "\t\t{\tCRC\t\t\t\tU32\t}",
   chars! "\t}",
   chars! "}"]

/-- `UpdateAttachment` as the parser creates it. -/
def r373 : RawTemplate :=
  ⟨"UpdateAttachment", .low, 331, [255, 255, 75], some .trusted, some .zerocoded, some .notDeprecated,
    [⟨"InventoryData", .single, 0, [⟨"CRC", some .u32, some 4⟩, ⟨"CreationDate", some .s32, some 4⟩, ⟨"Description", some .variable, some 1⟩, ⟨"Name", some .variable, some 1⟩, ⟨"SalePrice", some .s32, some 4⟩, ⟨"SaleType", some .u8, some 1⟩, ⟨"Flags", some .u32, some 4⟩, ⟨"InvType", some .s8, some 1⟩, ⟨"Type", some .s8, some 1⟩, ⟨"AssetID", some .uuid, some 16⟩, ⟨"GroupOwned", some .bool, some 1⟩, ⟨"NextOwnerMask", some .u32, some 4⟩, ⟨"EveryoneMask", some .u32, some 4⟩, ⟨"GroupMask", some .u32, some 4⟩, ⟨"OwnerMask", some .u32, some 4⟩, ⟨"BaseMask", some .u32, some 4⟩, ⟨"GroupID", some .uuid, some 16⟩, ⟨"OwnerID", some .uuid, some 16⟩, ⟨"CreatorID", some .uuid, some 16⟩, ⟨"FolderID", some .uuid, some 16⟩, ⟨"ItemID", some .uuid, some 16⟩]⟩,
     ⟨"OperationData", .single, 0, [⟨"UseExistingAsset", some .bool, some 1⟩, ⟨"AddItem", some .bool, some 1⟩]⟩,
     ⟨"AttachmentBlock", .single, 0, [⟨"AttachmentPoint", some .u8, some 1⟩]⟩,
     ⟨"AgentData", .single, 0, [⟨"SessionID", some .uuid, some 16⟩, ⟨"AgentID", some .uuid, some 16⟩]⟩]⟩

/-- `UpdateAttachment` in file order. -/
def t373 : Template :=
  ⟨"UpdateAttachment", .low, 331, [], some .trusted, some .zerocoded, some .notDeprecated,
    [⟨"AgentData", .single, 0, [⟨"AgentID", .uuid, 16⟩, ⟨"SessionID", .uuid, 16⟩]⟩,
     ⟨"AttachmentBlock", .single, 0, [⟨"AttachmentPoint", .u8, 1⟩]⟩,
     ⟨"OperationData", .single, 0, [⟨"AddItem", .bool, 1⟩, ⟨"UseExistingAsset", .bool, 1⟩]⟩,
     ⟨"InventoryData", .single, 0, [⟨"ItemID", .uuid, 16⟩, ⟨"FolderID", .uuid, 16⟩, ⟨"CreatorID", .uuid, 16⟩, ⟨"OwnerID", .uuid, 16⟩, ⟨"GroupID", .uuid, 16⟩, ⟨"BaseMask", .u32, 4⟩, ⟨"OwnerMask", .u32, 4⟩, ⟨"GroupMask", .u32, 4⟩, ⟨"EveryoneMask", .u32, 4⟩, ⟨"NextOwnerMask", .u32, 4⟩, ⟨"GroupOwned", .bool, 1⟩, ⟨"AssetID", .uuid, 16⟩, ⟨"Type", .s8, 1⟩, ⟨"InvType", .s8, 1⟩, ⟨"Flags", .u32, 4⟩, ⟨"SaleType", .u8, 1⟩, ⟨"SalePrice", .s32, 4⟩, ⟨"Name", .variable, 1⟩, ⟨"Description", .variable, 1⟩, ⟨"CreationDate", .s32, 4⟩, ⟨"CRC", .u32, 4⟩]⟩]⟩

theorem p373 : ChunkOk c373 r373 := by intro v older; kernel_rfl
theorem k373 : r373.known = some t373 := by kernel_rfl
theorem n373 : t373.name = String.ofList ['U', 'p', 'd', 'a', 't', 'e', 'A', 't', 't', 'a', 'c', 'h', 'm', 'e', 'n', 't'] := by kernel_rfl

/-- The names of the blocks and variables of `UpdateAttachment`. -/
def b373 : List (List Char × List (List Char)) :=
  [(['A', 'g', 'e', 'n', 't', 'D', 'a', 't', 'a'], [['A', 'g', 'e', 'n', 't', 'I', 'D'], ['S', 'e', 's', 's', 'i', 'o', 'n', 'I', 'D']]),
   (['A', 't', 't', 'a', 'c', 'h', 'm', 'e', 'n', 't', 'B', 'l', 'o', 'c', 'k'], [['A', 't', 't', 'a', 'c', 'h', 'm', 'e', 'n', 't', 'P', 'o', 'i', 'n', 't']]),
   (['O', 'p', 'e', 'r', 'a', 't', 'i', 'o', 'n', 'D', 'a', 't', 'a'], [['A', 'd', 'd', 'I', 't', 'e', 'm'], ['U', 's', 'e', 'E', 'x', 'i', 's', 't', 'i', 'n', 'g', 'A', 's', 's', 'e', 't']]),
   (['I', 'n', 'v', 'e', 'n', 't', 'o', 'r', 'y', 'D', 'a', 't', 'a'], [['I', 't', 'e', 'm', 'I', 'D'], ['F', 'o', 'l', 'd', 'e', 'r', 'I', 'D'], ['C', 'r', 'e', 'a', 't', 'o', 'r', 'I', 'D'], ['O', 'w', 'n', 'e', 'r', 'I', 'D'], ['G', 'r', 'o', 'u', 'p', 'I', 'D'], ['B', 'a', 's', 'e', 'M', 'a', 's', 'k'], ['O', 'w', 'n', 'e', 'r', 'M', 'a', 's', 'k'], ['G', 'r', 'o', 'u', 'p', 'M', 'a', 's', 'k'], ['E', 'v', 'e', 'r', 'y', 'o', 'n', 'e', 'M', 'a', 's', 'k'], ['N', 'e', 'x', 't', 'O', 'w', 'n', 'e', 'r', 'M', 'a', 's', 'k'], ['G', 'r', 'o', 'u', 'p', 'O', 'w', 'n', 'e', 'd'], ['A', 's', 's', 'e', 't', 'I', 'D'], ['T', 'y', 'p', 'e'], ['I', 'n', 'v', 'T', 'y', 'p', 'e'], ['F', 'l', 'a', 'g', 's'], ['S', 'a', 'l', 'e', 'T', 'y', 'p', 'e'], ['S', 'a', 'l', 'e', 'P', 'r', 'i', 'c', 'e'], ['N', 'a', 'm', 'e'], ['D', 'e', 's', 'c', 'r', 'i', 'p', 't', 'i', 'o', 'n'], ['C', 'r', 'e', 'a', 't', 'i', 'o', 'n', 'D', 'a', 't', 'e'], ['C', 'R', 'C']])]

theorem w373 : Checked t373 := ⟨b373, by kernel_rfl, by kernel_rfl, by kernel_rfl⟩

/-- Lines of `message_template.msg` up to the end of `RemoveAttachment`. -/
def c374 : List (List Char) :=
  [chars! "",
   chars! "// Simulator informs Dataserver that attachment has been taken off",
   chars! "{",
   chars! "\tRemoveAttachment Low 332 NotTrusted Unencoded",
   chars! "\t{",
   chars! "\t\tAgentData\t\t\tSingle",
   chars! "\t\t{\tAgentID\t\t\tLLUUID\t}",
   chars! "\t\t{\tSessionID\t\tLLUUID\t}",
   chars! "\t}",
   chars! "\t{",
   chars! "\t\tAttachmentBlock\t\tSingle",
   chars! "\t\t{\tAttachmentPoint\tU8\t}",
   chars! "\t\t{\tItemID\t\t\tLLUUID\t}",
   chars! "\t}",
   chars! "}"]

/-- `RemoveAttachment` as the parser creates it. -/
def r374 : RawTemplate :=
  ⟨"RemoveAttachment", .low, 332, [255, 255, 76], some .notTrusted, some .unencoded, some .notDeprecated,
    [⟨"AttachmentBlock", .single, 0, [⟨"ItemID", some .uuid, some 16⟩, ⟨"AttachmentPoint", some .u8, some 1⟩]⟩,
     ⟨"AgentData", .single, 0, [⟨"SessionID", some .uuid, some 16⟩, ⟨"AgentID", some .uuid, some 16⟩]⟩]⟩

/-- `RemoveAttachment` in file order. -/
def t374 : Template :=
  ⟨"RemoveAttachment", .low, 332, [], some .notTrusted, some .unencoded, some .notDeprecated,
    [⟨"AgentData", .single, 0, [⟨"AgentID", .uuid, 16⟩, ⟨"SessionID", .uuid, 16⟩]⟩,
     ⟨"AttachmentBlock", .single, 0, [⟨"AttachmentPoint", .u8, 1⟩, ⟨"ItemID", .uuid, 16⟩]⟩]⟩

theorem p374 : ChunkOk c374 r374 := by intro v older; kernel_rfl
theorem k374 : r374.known = some t374 := by kernel_rfl
theorem n374 : t374.name = String.ofList ['R', 'e', 'm', 'o', 'v', 'e', 'A', 't', 't', 'a', 'c', 'h', 'm', 'e', 'n', 't'] := by kernel_rfl

/-- The names of the blocks and variables of `RemoveAttachment`. -/
def b374 : List (List Char × List (List Char)) :=
  [(['A', 'g', 'e', 'n', 't', 'D', 'a', 't', 'a'], [['A', 'g', 'e', 'n', 't', 'I', 'D'], ['S', 'e', 's', 's', 'i', 'o', 'n', 'I', 'D']]),
   (['A', 't', 't', 'a', 'c', 'h', 'm', 'e', 'n', 't', 'B', 'l', 'o', 'c', 'k'], [['A', 't', 't', 'a', 'c', 'h', 'm', 'e', 'n', 't', 'P', 'o', 'i', 'n', 't'], ['I', 't', 'e', 'm', 'I', 'D']])]

theorem w374 : Checked t374 := ⟨b374, by kernel_rfl, by kernel_rfl, by kernel_rfl⟩

/-- Lines of `message_template.msg` up to the end of `SoundTrigger`. -/
def c375 : List (List Char) :=
  [chars! "",
   chars! "",
   chars! "// ***************************************************************************",
   chars! "// GUIDed Sound messages",
   chars! "// ***************************************************************************",
   chars! "",
   chars! "// SoundTrigger - Sent by simulator to viewer to trigger sound outside current region",
   chars! "{",
   chars! "\tSoundTrigger High 29 NotTrusted Unencoded",
   chars! "\t{",
   chars! "\t\tSoundData\t\t\tSingle",
   chars! "\t\t{\tSoundID\t\t\tLLUUID\t\t}",
   chars! "\t\t{\tOwnerID\t\t\tLLUUID\t\t}",
   chars! "\t\t{\tObjectID\t\tLLUUID\t\t}",
   chars! "\t\t{\tParentID\t\tLLUUID\t\t}\t// null if this object is the parent",
   chars! "\t\t{   Handle\t\t\tU64\t\t\t}\t// region handle",
   chars! "\t\t{\tPosition\t\tLLVector3\t}\t// region local",
   chars! "\t\t{\tGain\t\t\tF32\t\t\t}",
   chars! "\t}",
   chars! "}"]

/-- `SoundTrigger` as the parser creates it. -/
def r375 : RawTemplate :=
  ⟨"SoundTrigger", .high, 29, [29], some .notTrusted, some .unencoded, some .notDeprecated,
    [⟨"SoundData", .single, 0, [⟨"Gain", some .f32, some 4⟩, ⟨"Position", some .vector3, some 12⟩, ⟨"Handle", some .u64, some 8⟩, ⟨"ParentID", some .uuid, some 16⟩, ⟨"ObjectID", some .uuid, some 16⟩, ⟨"OwnerID", some .uuid, some 16⟩, ⟨"SoundID", some .uuid, some 16⟩]⟩]⟩

/-- `SoundTrigger` in file order. -/
def t375 : Template :=
  ⟨"SoundTrigger", .high, 29, [], some .notTrusted, some .unencoded, some .notDeprecated,
    [⟨"SoundData", .single, 0, [⟨"SoundID", .uuid, 16⟩, ⟨"OwnerID", .uuid, 16⟩, ⟨"ObjectID", .uuid, 16⟩, ⟨"ParentID", .uuid, 16⟩, ⟨"Handle", .u64, 8⟩, ⟨"Position", .vector3, 12⟩, ⟨"Gain", .f32, 4⟩]⟩]⟩

theorem p375 : ChunkOk c375 r375 := by intro v older; kernel_rfl
theorem k375 : r375.known = some t375 := by kernel_rfl
theorem n375 : t375.name = String.ofList ['S', 'o', 'u', 'n', 'd', 'T', 'r', 'i', 'g', 'g', 'e', 'r'] := by kernel_rfl

/-- The names of the blocks and variables of `SoundTrigger`. -/
def b375 : List (List Char × List (List Char)) :=
  [(['S', 'o', 'u', 'n', 'd', 'D', 'a', 't', 'a'], [['S', 'o', 'u', 'n', 'd', 'I', 'D'], ['O', 'w', 'n', 'e', 'r', 'I', 'D'], ['O', 'b', 'j', 'e', 'c', 't', 'I', 'D'], ['P', 'a', 'r', 'e', 'n', 't', 'I', 'D'], ['H', 'a', 'n', 'd', 'l', 'e'], ['P', 'o', 's', 'i', 't', 'i', 'o', 'n'], ['G', 'a', 'i', 'n']])]

theorem w375 : Checked t375 := ⟨b375, by kernel_rfl, by kernel_rfl, by kernel_rfl⟩

/-- Lines of `message_template.msg` up to the end of `AttachedSound`. -/
def c376 : List (List Char) :=
  [chars! "",
   chars! "// AttachedSound - Sent by simulator to viewer to play sound attached with an object",
   chars! "{",
   chars! "\tAttachedSound Medium 13 Trusted Unencoded",
   chars! "\t{",
   chars! "\t\tDataBlock\t\t\tSingle",
   chars! "\t\t{\tSoundID\t\t\tLLUUID\t}",
   chars! "\t\t{\tObjectID\t\tLLUUID\t}",
   chars! "\t\t{\tOwnerID\t\t\tLLUUID\t}",
   chars! "\t\t{\tGain\t\t\tF32\t}",
   chars! "\t\t{\tFlags\t\t\tU8\t}",
   chars! "\t}",
   chars! "}"]

/-- `AttachedSound` as the parser creates it. -/
def r376 : RawTemplate :=
  ⟨"AttachedSound", .medium, 13, [255, 13], some .trusted, some .unencoded, some .notDeprecated,
    [⟨"DataBlock", .single, 0, [⟨"Flags", some .u8, some 1⟩, ⟨"Gain", some .f32, some 4⟩, ⟨"OwnerID", some .uuid, some 16⟩, ⟨"ObjectID", some .uuid, some 16⟩, ⟨"SoundID", some .uuid, some 16⟩]⟩]⟩

/-- `AttachedSound` in file order. -/
def t376 : Template :=
  ⟨"AttachedSound", .medium, 13, [], some .trusted, some .unencoded, some .notDeprecated,
    [⟨"DataBlock", .single, 0, [⟨"SoundID", .uuid, 16⟩, ⟨"ObjectID", .uuid, 16⟩, ⟨"OwnerID", .uuid, 16⟩, ⟨"Gain", .f32, 4⟩, ⟨"Flags", .u8, 1⟩]⟩]⟩

theorem p376 : ChunkOk c376 r376 := by intro v older; kernel_rfl
theorem k376 : r376.known = some t376 := by kernel_rfl
theorem n376 : t376.name = String.ofList ['A', 't', 't', 'a', 'c', 'h', 'e', 'd', 'S', 'o', 'u', 'n', 'd'] := by kernel_rfl

/-- The names of the blocks and variables of `AttachedSound`. -/
def b376 : List (List Char × List (List Char)) :=
  [(['D', 'a', 't', 'a', 'B', 'l', 'o', 'c', 'k'], [['S', 'o', 'u', 'n', 'd', 'I', 'D'], ['O', 'b', 'j', 'e', 'c', 't', 'I', 'D'], ['O', 'w', 'n', 'e', 'r', 'I', 'D'], ['G', 'a', 'i', 'n'], ['F', 'l', 'a', 'g', 's']])]

theorem w376 : Checked t376 := ⟨b376, by kernel_rfl, by kernel_rfl, by kernel_rfl⟩

/-- Lines of `message_template.msg` up to the end of `AttachedSoundGainChange`. -/
def c377 : List (List Char) :=
  [chars! "",
   chars! "// AttachedSoundGainChange - Sent by simulator to viewer to change an attached sounds' volume",
   chars! "",
   chars! "{",
   chars! "\tAttachedSoundGainChange Medium 14 Trusted Unencoded",
   chars! "\t{",
   chars! "\t\tDataBlock\t\t\tSingle",
   chars! "\t\t{\tObjectID\t\tLLUUID\t}",
   chars! "\t\t{\tGain\t\t\tF32\t}",
   chars! "\t}",
   chars! "}"]

/-- `AttachedSoundGainChange` as the parser creates it. -/
def r377 : RawTemplate :=
  ⟨"AttachedSoundGainChange", .medium, 14, [255, 14], some .trusted, some .unencoded, some .notDeprecated,
    [⟨"DataBlock", .single, 0, [⟨"Gain", some .f32, some 4⟩, ⟨"ObjectID", some .uuid, some 16⟩]⟩]⟩

/-- `AttachedSoundGainChange` in file order. -/
def t377 : Template :=
  ⟨"AttachedSoundGainChange", .medium, 14, [], some .trusted, some .unencoded, some .notDeprecated,
    [⟨"DataBlock", .single, 0, [⟨"ObjectID", .uuid, 16⟩, ⟨"Gain", .f32, 4⟩]⟩]⟩

theorem p377 : ChunkOk c377 r377 := by intro v older; kernel_rfl
theorem k377 : r377.known = some t377 := by kernel_rfl
theorem n377 : t377.name = String.ofList ['A', 't', 't', 'a', 'c', 'h', 'e', 'd', 'S', 'o', 'u', 'n', 'd', 'G', 'a', 'i', 'n', 'C', 'h', 'a', 'n', 'g', 'e'] := by kernel_rfl

/-- The names of the blocks and variables of `AttachedSoundGainChange`. -/
def b377 : List (List Char × List (List Char)) :=
  [(['D', 'a', 't', 'a', 'B', 'l', 'o', 'c', 'k'], [['O', 'b', 'j', 'e', 'c', 't', 'I', 'D'], ['G', 'a', 'i', 'n']])]

theorem w377 : Checked t377 := ⟨b377, by kernel_rfl, by kernel_rfl, by kernel_rfl⟩

/-- Lines of `message_template.msg` up to the end of `PreloadSound`. -/
def c378 : List (List Char) :=
  [chars! "",
   chars! "",
   chars! "// PreloadSound - Sent by simulator to viewer to preload sound for an object",
   chars! "",
   chars! "{",
   chars! "\tPreloadSound Medium 15 Trusted Unencoded",
   chars! "\t{",
   chars! "\t\tDataBlock\t\t\tVariable",
   chars! "\t\t{\tObjectID\t\tLLUUID\t}",
   chars! "\t\t{\tOwnerID\t\t\tLLUUID\t}",
   chars! "\t\t{\tSoundID\t\t\tLLUUID\t}",
   chars! "\t}",
   chars! "}"]

/-- `PreloadSound` as the parser creates it. -/
def r378 : RawTemplate :=
  ⟨"PreloadSound", .medium, 15, [255, 15], some .trusted, some .unencoded, some .notDeprecated,
    [⟨"DataBlock", .variable, 0, [⟨"SoundID", some .uuid, some 16⟩, ⟨"OwnerID", some .uuid, some 16⟩, ⟨"ObjectID", some .uuid, some 16⟩]⟩]⟩

/-- `PreloadSound` in file order. -/
def t378 : Template :=
  ⟨"PreloadSound", .medium, 15, [], some .trusted, some .unencoded, some .notDeprecated,
    [⟨"DataBlock", .variable, 0, [⟨"ObjectID", .uuid, 16⟩, ⟨"OwnerID", .uuid, 16⟩, ⟨"SoundID", .uuid, 16⟩]⟩]⟩

theorem p378 : ChunkOk c378 r378 := by intro v older; kernel_rfl
theorem k378 : r378.known = some t378 := by kernel_rfl
theorem n378 : t378.name = String.ofList ['P', 'r', 'e', 'l', 'o', 'a', 'd', 'S', 'o', 'u', 'n', 'd'] := by kernel_rfl

/-- The names of the blocks and variables of `PreloadSound`. -/
def b378 : List (List Char × List (List Char)) :=
  [(['D', 'a', 't', 'a', 'B', 'l', 'o', 'c', 'k'], [['O', 'b', 'j', 'e', 'c', 't', 'I', 'D'], ['O', 'w', 'n', 'e', 'r', 'I', 'D'], ['S', 'o', 'u', 'n', 'd', 'I', 'D']])]

theorem w378 : Checked t378 := ⟨b378, by kernel_rfl, by kernel_rfl, by kernel_rfl⟩

/-- Lines of `message_template.msg` up to the end of `AssetUploadRequest`. -/
def c379 : List (List Char) :=
  [chars! "",
   chars! "",
   chars! "// *************************************************************************",
   chars! "// Asset storage messages",
   chars! "// *************************************************************************",
   chars! "",
   chars! "// current assumes an existing UUID, need to enhance for new assets",
   chars! "{",
   chars! "\tAssetUploadRequest Low 333 NotTrusted Unencoded",
   chars! "\t{",
   chars! "\t\tAssetBlock\t\tSingle",
   chars! "\t\t{\tTransactionID LLUUID\t}",
   chars! "\t\t{\tType\t\tS8\t}",
   chars! "\t\t{\tTempfile\tBOOL\t}",
   chars! "\t\t{\tStoreLocal\tBOOL\t}",
   chars! "\t\t{\tAssetData\tVariable\t2\t}  // Optional: the actual asset data if the whole thing will fit it this packet",
   chars! "\t}",
   chars! "}"]

/-- `AssetUploadRequest` as the parser creates it. -/
def r379 : RawTemplate :=
  ⟨"AssetUploadRequest", .low, 333, [255, 255, 77], some .notTrusted, some .unencoded, some .notDeprecated,
    [⟨"AssetBlock", .single, 0, [⟨"AssetData", some .variable, some 2⟩, ⟨"StoreLocal", some .bool, some 1⟩, ⟨"Tempfile", some .bool, some 1⟩, ⟨"Type", some .s8, some 1⟩, ⟨"TransactionID", some .uuid, some 16⟩]⟩]⟩

/-- `AssetUploadRequest` in file order. -/
def t379 : Template :=
  ⟨"AssetUploadRequest", .low, 333, [], some .notTrusted, some .unencoded, some .notDeprecated,
    [⟨"AssetBlock", .single, 0, [⟨"TransactionID", .uuid, 16⟩, ⟨"Type", .s8, 1⟩, ⟨"Tempfile", .bool, 1⟩, ⟨"StoreLocal", .bool, 1⟩, ⟨"AssetData", .variable, 2⟩]⟩]⟩

theorem p379 : ChunkOk c379 r379 := by intro v older; kernel_rfl
theorem k379 : r379.known = some t379 := by kernel_rfl
theorem n379 : t379.name = String.ofList ['A', 's', 's', 'e', 't', 'U', 'p', 'l', 'o', 'a', 'd', 'R', 'e', 'q', 'u', 'e', 's', 't'] := by kernel_rfl

/-- The names of the blocks and variables of `AssetUploadRequest`. -/
def b379 : List (List Char × List (List Char)) :=
  [(['A', 's', 's', 'e', 't', 'B', 'l', 'o', 'c', 'k'], [['T', 'r', 'a', 'n', 's', 'a', 'c', 't', 'i', 'o', 'n', 'I', 'D'], ['T', 'y', 'p', 'e'], ['T', 'e', 'm', 'p', 'f', 'i', 'l', 'e'], ['S', 't', 'o', 'r', 'e', 'L', 'o', 'c', 'a', 'l'], ['A', 's', 's', 'e', 't', 'D', 'a', 't', 'a']])]

theorem w379 : Checked t379 := ⟨b379, by kernel_rfl, by kernel_rfl, by kernel_rfl⟩

/-- Lines of `message_template.msg` up to the end of `AssetUploadComplete`. -/
def c380 : List (List Char) :=
  [chars! "",
   chars! "{",
   chars! "\tAssetUploadComplete Low 334 NotTrusted Unencoded",
   chars! "\t{",
   chars! "\t\tAssetBlock\t\tSingle",
   chars! "\t\t{\tUUID\t\tLLUUID\t}",
   chars! "\t\t{\tType\t\tS8\t}",
   chars! "\t\t{\tSuccess\t\tBOOL\t}",
   chars! "\t}",
   chars! "}"]

/-- `AssetUploadComplete` as the parser creates it. -/
def r380 : RawTemplate :=
  ⟨"AssetUploadComplete", .low, 334, [255, 255, 78], some .notTrusted, some .unencoded, some .notDeprecated,
    [⟨"AssetBlock", .single, 0, [⟨"Success", some .bool, some 1⟩, ⟨"Type", some .s8, some 1⟩, ⟨"UUID", some .uuid, some 16⟩]⟩]⟩

/-- `AssetUploadComplete` in file order. -/
def t380 : Template :=
  ⟨"AssetUploadComplete", .low, 334, [], some .notTrusted, some .unencoded, some .notDeprecated,
    [⟨"AssetBlock", .single, 0, [⟨"UUID", .uuid, 16⟩, ⟨"Type", .s8, 1⟩, ⟨"Success", .bool, 1⟩]⟩]⟩

theorem p380 : ChunkOk c380 r380 := by intro v older; kernel_rfl
theorem k380 : r380.known = some t380 := by kernel_rfl
theorem n380 : t380.name = String.ofList ['A', 's', 's', 'e', 't', 'U', 'p', 'l', 'o', 'a', 'd', 'C', 'o', 'm', 'p', 'l', 'e', 't', 'e'] := by kernel_rfl

/-- The names of the blocks and variables of `AssetUploadComplete`. -/
def b380 : List (List Char × List (List Char)) :=
  [(['A', 's', 's', 'e', 't', 'B', 'l', 'o', 'c', 'k'], [['U', 'U', 'I', 'D'], ['T', 'y', 'p', 'e'], ['S', 'u', 'c', 'c', 'e', 's', 's']])]

theorem w380 : Checked t380 := ⟨b380, by kernel_rfl, by kernel_rfl, by kernel_rfl⟩

/-- Lines of `message_template.msg` up to the end of `EmailMessageRequest`. -/
def c381 : List (List Char) :=
  [chars! "",
   chars! "",
   chars! "// Script on simulator asks dataserver if there are any email messages",
   chars! "// waiting.",
   chars! "{",
   chars! "\tEmailMessageRequest Low 335 Trusted Unencoded",
   chars! "\t{",
   chars! "\t\tDataBlock\t\t\tSingle",
   chars! "\t\t{\tObjectID\t\tLLUUID\t}",
   chars! "\t\t{\tFromAddress\t\tVariable\t1\t}",
   chars! "\t\t{\tSubject\t\t\tVariable\t1\t}",
   chars! "\t}",
   chars! "}"]

/-- `EmailMessageRequest` as the parser creates it. -/
def r381 : RawTemplate :=
  ⟨"EmailMessageRequest", .low, 335, [255, 255, 79], some .trusted, some .unencoded, some .notDeprecated,
    [⟨"DataBlock", .single, 0, [⟨"Subject", some .variable, some 1⟩, ⟨"FromAddress", some .variable, some 1⟩, ⟨"ObjectID", some .uuid, some 16⟩]⟩]⟩

/-- `EmailMessageRequest` in file order. -/
def t381 : Template :=
  ⟨"EmailMessageRequest", .low, 335, [], some .trusted, some .unencoded, some .notDeprecated,
    [⟨"DataBlock", .single, 0, [⟨"ObjectID", .uuid, 16⟩, ⟨"FromAddress", .variable, 1⟩, ⟨"Subject", .variable, 1⟩]⟩]⟩

theorem p381 : ChunkOk c381 r381 := by intro v older; kernel_rfl
theorem k381 : r381.known = some t381 := by kernel_rfl
theorem n381 : t381.name = String.ofList ['E', 'm', 'a', 'i', 'l', 'M', 'e', 's', 's', 'a', 'g', 'e', 'R', 'e', 'q', 'u', 'e', 's', 't'] := by kernel_rfl

/-- The names of the blocks and variables of `EmailMessageRequest`. -/
def b381 : List (List Char × List (List Char)) :=
  [(['D', 'a', 't', 'a', 'B', 'l', 'o', 'c', 'k'], [['O', 'b', 'j', 'e', 'c', 't', 'I', 'D'], ['F', 'r', 'o', 'm', 'A', 'd', 'd', 'r', 'e', 's', 's'], ['S', 'u', 'b', 'j', 'e', 'c', 't']])]

theorem w381 : Checked t381 := ⟨b381, by kernel_rfl, by kernel_rfl, by kernel_rfl⟩

/-- Lines of `message_template.msg` up to the end of `EmailMessageReply`. -/
def c382 : List (List Char) :=
  [chars! "",
   chars! "// Dataserver gives simulator the oldest email message in the queue, along with",
   chars! "// how many messages are left in the queue.  And passes back the filter used to request emails.",
   chars! "{",
   chars! "\tEmailMessageReply Low 336 Trusted Unencoded",
   chars! "\t{",
   chars! "\t\tDataBlock\t\t\tSingle",
   chars! "\t\t{\tObjectID\t\tLLUUID\t}",
   chars! "\t\t{\tMore\t\t\tU32\t} //U32",
   chars! "\t\t{\tTime\t\t\tU32\t} //U32",
   chars! "\t\t{\tFromAddress\t\tVariable\t1\t}",
   chars! "\t\t{\tSubject\t\t\tVariable\t1\t}",
   chars! "\t\t{\tData\t\t\tVariable\t2\t}",
   chars! "\t\t{\tMailFilter\t\tVariable\t1\t}",
   chars! "\t}",
   chars! "}"]

/-- `EmailMessageReply` as the parser creates it. -/
def r382 : RawTemplate :=
  ⟨"EmailMessageReply", .low, 336, [255, 255, 80], some .trusted, some .unencoded, some .notDeprecated,
    [⟨"DataBlock", .single, 0, [⟨"MailFilter", some .variable, some 1⟩, ⟨"Data", some .variable, some 2⟩, ⟨"Subject", some .variable, some 1⟩, ⟨"FromAddress", some .variable, some 1⟩, ⟨"Time", some .u32, some 4⟩, ⟨"More", some .u32, some 4⟩, ⟨"ObjectID", some .uuid, some 16⟩]⟩]⟩

/-- `EmailMessageReply` in file order. -/
def t382 : Template :=
  ⟨"EmailMessageReply", .low, 336, [], some .trusted, some .unencoded, some .notDeprecated,
    [⟨"DataBlock", .single, 0, [⟨"ObjectID", .uuid, 16⟩, ⟨"More", .u32, 4⟩, ⟨"Time", .u32, 4⟩, ⟨"FromAddress", .variable, 1⟩, ⟨"Subject", .variable, 1⟩, ⟨"Data", .variable, 2⟩, ⟨"MailFilter", .variable, 1⟩]⟩]⟩

theorem p382 : ChunkOk c382 r382 := by intro v older; kernel_rfl
theorem k382 : r382.known = some t382 := by kernel_rfl
theorem n382 : t382.name = String.ofList ['E', 'm', 'a', 'i', 'l', 'M', 'e', 's', 's', 'a', 'g', 'e', 'R', 'e', 'p', 'l', 'y'] := by kernel_rfl

/-- The names of the blocks and variables of `EmailMessageReply`. -/
def b382 : List (List Char × List (List Char)) :=
  [(['D', 'a', 't', 'a', 'B', 'l', 'o', 'c', 'k'], [['O', 'b', 'j', 'e', 'c', 't', 'I', 'D'], ['M', 'o', 'r', 'e'], ['T', 'i', 'm', 'e'], ['F', 'r', 'o', 'm', 'A', 'd', 'd', 'r', 'e', 's', 's'], ['S', 'u', 'b', 'j', 'e', 'c', 't'], ['D', 'a', 't', 'a'], ['M', 'a', 'i', 'l', 'F', 'i', 'l', 't', 'e', 'r']])]

theorem w382 : Checked t382 := ⟨b382, by kernel_rfl, by kernel_rfl, by kernel_rfl⟩

/-- Lines of `message_template.msg` up to the end of `InternalScriptMail`. -/
def c383 : List (List Char) :=
  [chars! "",
   chars! "// Script on simulator sends mail to another script",
   chars! "{",
   chars! "\tInternalScriptMail Medium 16 Trusted Unencoded",
   chars! "\t{",
   chars! "\t\tDataBlock\t\t\tSingle",
   chars! "\t\t{\tFrom\t\t\tVariable \t1\t}",
   chars! "\t\t{\tTo\t\t\t\tLLUUID\t\t\t}",
   chars! "\t\t{\tSubject\t\t\tVariable \t1\t}",
   chars! "\t\t{\tBody\t\t\tVariable \t2\t}",
   chars! "\t}",
   chars! "}"]

/-- `InternalScriptMail` as the parser creates it. -/
def r383 : RawTemplate :=
  ⟨"InternalScriptMail", .medium, 16, [255, 16], some .trusted, some .unencoded, some .notDeprecated,
    [⟨"DataBlock", .single, 0, [⟨"Body", some .variable, some 2⟩, ⟨"Subject", some .variable, some 1⟩, ⟨"To", some .uuid, some 16⟩, ⟨"From", some .variable, some 1⟩]⟩]⟩

/-- `InternalScriptMail` in file order. -/
def t383 : Template :=
  ⟨"InternalScriptMail", .medium, 16, [], some .trusted, some .unencoded, some .notDeprecated,
    [⟨"DataBlock", .single, 0, [⟨"From", .variable, 1⟩, ⟨"To", .uuid, 16⟩, ⟨"Subject", .variable, 1⟩, ⟨"Body", .variable, 2⟩]⟩]⟩

theorem p383 : ChunkOk c383 r383 := by intro v older; kernel_rfl
theorem k383 : r383.known = some t383 := by kernel_rfl
theorem n383 : t383.name = String.ofList ['I', 'n', 't', 'e', 'r', 'n', 'a', 'l', 'S', 'c', 'r', 'i', 'p', 't', 'M', 'a', 'i', 'l'] := by kernel_rfl

/-- The names of the blocks and variables of `InternalScriptMail`. -/
def b383 : List (List Char × List (List Char)) :=
  [(['D', 'a', 't', 'a', 'B', 'l', 'o', 'c', 'k'], [['F', 'r', 'o', 'm'], ['T', 'o'], ['S', 'u', 'b', 'j', 'e', 'c', 't'], ['B', 'o', 'd', 'y']])]

theorem w383 : Checked t383 := ⟨b383, by kernel_rfl, by kernel_rfl, by kernel_rfl⟩

/-- Lines of `message_template.msg` up to the end of `ScriptDataRequest`. -/
def c384 : List (List Char) :=
  [chars! "",
   chars! "// Script on simulator asks dataserver for information ",
   chars! "{",
   chars! "\tScriptDataRequest Low 337 Trusted Unencoded",
   chars! "\t{",
   chars! "\t\tDataBlock\t\t\tVariable",
   chars! "\t\t{\tHash\t\t\tU64\t\t\t\t}",
   chars! "\t\t{\tRequestType\t\tS8\t\t\t\t}",
   chars! "\t\t{\tRequest\t\t\tVariable\t2\t}",
   chars! "\t}",
   chars! "}"]

/-- `ScriptDataRequest` as the parser creates it. -/
def r384 : RawTemplate :=
  ⟨"ScriptDataRequest", .low, 337, [255, 255, 81], some .trusted, some .unencoded, some .notDeprecated,
    [⟨"DataBlock", .variable, 0, [⟨"Request", some .variable, some 2⟩, ⟨"RequestType", some .s8, some 1⟩, ⟨"Hash", some .u64, some 8⟩]⟩]⟩

/-- `ScriptDataRequest` in file order. -/
def t384 : Template :=
  ⟨"ScriptDataRequest", .low, 337, [], some .trusted, some .unencoded, some .notDeprecated,
    [⟨"DataBlock", .variable, 0, [⟨"Hash", .u64, 8⟩, ⟨"RequestType", .s8, 1⟩, ⟨"Request", .variable, 2⟩]⟩]⟩

theorem p384 : ChunkOk c384 r384 := by intro v older; kernel_rfl
theorem k384 : r384.known = some t384 := by kernel_rfl
theorem n384 : t384.name = String.ofList ['S', 'c', 'r', 'i', 'p', 't', 'D', 'a', 't', 'a', 'R', 'e', 'q', 'u', 'e', 's', 't'] := by kernel_rfl

/-- The names of the blocks and variables of `ScriptDataRequest`. -/
def b384 : List (List Char × List (List Char)) :=
  [(['D', 'a', 't', 'a', 'B', 'l', 'o', 'c', 'k'], [['H', 'a', 's', 'h'], ['R', 'e', 'q', 'u', 'e', 's', 't', 'T', 'y', 'p', 'e'], ['R', 'e', 'q', 'u', 'e', 's', 't']])]

theorem w384 : Checked t384 := ⟨b384, by kernel_rfl, by kernel_rfl, by kernel_rfl⟩

/-- Lines of `message_template.msg` up to the end of `ScriptDataReply`. -/
def c385 : List (List Char) :=
  [chars! "",
   chars! "// Data server responds with data",
   chars! "{",
   chars! "\tScriptDataReply Low 338 Trusted Unencoded",
   chars! "\t{",
   chars! "\t\tDataBlock\t\t\tVariable",
   chars! "\t\t{\tHash\t\t\tU64\t\t\t\t}\t\t",
   chars! "\t\t{\tReply\t\t\tVariable\t2\t}",
   chars! "\t}",
   chars! "}"]

/-- `ScriptDataReply` as the parser creates it. -/
def r385 : RawTemplate :=
  ⟨"ScriptDataReply", .low, 338, [255, 255, 82], some .trusted, some .unencoded, some .notDeprecated,
    [⟨"DataBlock", .variable, 0, [⟨"Reply", some .variable, some 2⟩, ⟨"Hash", some .u64, some 8⟩]⟩]⟩

/-- `ScriptDataReply` in file order. -/
def t385 : Template :=
  ⟨"ScriptDataReply", .low, 338, [], some .trusted, some .unencoded, some .notDeprecated,
    [⟨"DataBlock", .variable, 0, [⟨"Hash", .u64, 8⟩, ⟨"Reply", .variable, 2⟩]⟩]⟩

theorem p385 : ChunkOk c385 r385 := by intro v older; kernel_rfl
theorem k385 : r385.known = some t385 := by kernel_rfl
theorem n385 : t385.name = String.ofList ['S', 'c', 'r', 'i', 'p', 't', 'D', 'a', 't', 'a', 'R', 'e', 'p', 'l', 'y'] := by kernel_rfl

/-- The names of the blocks and variables of `ScriptDataReply`. -/
def b385 : List (List Char × List (List Char)) :=
  [(['D', 'a', 't', 'a', 'B', 'l', 'o', 'c', 'k'], [['H', 'a', 's', 'h'], ['R', 'e', 'p', 'l', 'y']])]

theorem w385 : Checked t385 := ⟨b385, by kernel_rfl, by kernel_rfl, by kernel_rfl⟩

/-- Lines of `message_template.msg` up to the end of `CreateGroupRequest`. -/
def c386 : List (List Char) :=
  [chars! "",
   chars! "",
   chars! "//-----------------------------------------------------------------------------",
   chars! "// Group messages",
   chars! "//-----------------------------------------------------------------------------",
   chars! "",
   chars! "// CreateGroupRequest",
   chars! "// viewer -> simulator",
   chars! "// simulator -> dataserver",
   chars! "// reliable",
   chars! "{",
   chars! "\tCreateGroupRequest Low 339 NotTrusted Zerocoded",
   chars! "\t{",
   chars! "\t\tAgentData\t\tSingle",
   chars! "\t\t{\tAgentID\t\t\tLLUUID\t}",
   chars! "\t\t{\tSessionID\t\tLLUUID\t}",
   chars! "\t}",
   chars! "\t{",
   chars! "\t\tGroupData\t\tSingle",
   chars! "\t\t{\tName\t\t\tVariable\t1\t}\t// string",
   chars! "\t\t{\tCharter\t\t\tVariable\t2\t}\t// string",
   chars! "\t\t{\tShowInList\t\tBOOL\t}",
   chars! "\t\t{\tInsigniaID\t\tLLUUID\t}",
   chars! "\t\t{\tMembershipFee\tS32\t\t\t\t}\t// S32\t\t",
   chars! "\t\t{\tOpenEnrollment\tBOOL\t\t\t}   // BOOL (U8)",
   chars! "\t\t{\tAllowPublish\tBOOL\t\t}\t// whether profile is externally visible or not",
   chars! "\t\t{\tMaturePublish\tBOOL\t\t}\t// profile is \"mature\"",
   chars! "\t}",
   chars! "}"]

/-- `CreateGroupRequest` as the parser creates it. -/
def r386 : RawTemplate :=
  ⟨"CreateGroupRequest", .low, 339, [255, 255, 83], some .notTrusted, some .zerocoded, some .notDeprecated,
    [⟨"GroupData", .single, 0, [⟨"MaturePublish", some .bool, some 1⟩, ⟨"AllowPublish", some .bool, some 1⟩, ⟨"OpenEnrollment", some .bool, some 1⟩, ⟨"MembershipFee", some .s32, some 4⟩, ⟨"InsigniaID", some .uuid, some 16⟩, ⟨"ShowInList", some .bool, some 1⟩, ⟨"Charter", some .variable, some 2⟩, ⟨"Name", some .variable, some 1⟩]⟩,
     ⟨"AgentData", .single, 0, [⟨"SessionID", some .uuid, some 16⟩, ⟨"AgentID", some .uuid, some 16⟩]⟩]⟩

/-- `CreateGroupRequest` in file order. -/
def t386 : Template :=
  ⟨"CreateGroupRequest", .low, 339, [], some .notTrusted, some .zerocoded, some .notDeprecated,
    [⟨"AgentData", .single, 0, [⟨"AgentID", .uuid, 16⟩, ⟨"SessionID", .uuid, 16⟩]⟩,
     ⟨"GroupData", .single, 0, [⟨"Name", .variable, 1⟩, ⟨"Charter", .variable, 2⟩, ⟨"ShowInList", .bool, 1⟩, ⟨"InsigniaID", .uuid, 16⟩, ⟨"MembershipFee", .s32, 4⟩, ⟨"OpenEnrollment", .bool, 1⟩, ⟨"AllowPublish", .bool, 1⟩, ⟨"MaturePublish", .bool, 1⟩]⟩]⟩

theorem p386 : ChunkOk c386 r386 := by intro v older; kernel_rfl
theorem k386 : r386.known = some t386 := by kernel_rfl
theorem n386 : t386.name = String.ofList ['C', 'r', 'e', 'a', 't', 'e', 'G', 'r', 'o', 'u', 'p', 'R', 'e', 'q', 'u', 'e', 's', 't'] := by kernel_rfl

/-- The names of the blocks and variables of `CreateGroupRequest`. -/
def b386 : List (List Char × List (List Char)) :=
  [(['A', 'g', 'e', 'n', 't', 'D', 'a', 't', 'a'], [['A', 'g', 'e', 'n', 't', 'I', 'D'], ['S', 'e', 's', 's', 'i', 'o', 'n', 'I', 'D']]),
   (['G', 'r', 'o', 'u', 'p', 'D', 'a', 't', 'a'], [['N', 'a', 'm', 'e'], ['C', 'h', 'a', 'r', 't', 'e', 'r'], ['S', 'h', 'o', 'w', 'I', 'n', 'L', 'i', 's', 't'], ['I', 'n', 's', 'i', 'g', 'n', 'i', 'a', 'I', 'D'], ['M', 'e', 'm', 'b', 'e', 'r', 's', 'h', 'i', 'p', 'F', 'e', 'e'], ['O', 'p', 'e', 'n', 'E', 'n', 'r', 'o', 'l', 'l', 'm', 'e', 'n', 't'], ['A', 'l', 'l', 'o', 'w', 'P', 'u', 'b', 'l', 'i', 's', 'h'], ['M', 'a', 't', 'u', 'r', 'e', 'P', 'u', 'b', 'l', 'i', 's', 'h']])]

theorem w386 : Checked t386 := ⟨b386, by kernel_rfl, by kernel_rfl, by kernel_rfl⟩

/-- Lines of `message_template.msg` up to the end of `CreateGroupReply`. -/
def c387 : List (List Char) :=
  [chars! "",
   chars! "// CreateGroupReply",
   chars! "// dataserver -> simulator",
   chars! "// simulator -> viewer",
   chars! "// reliable",
   chars! "{",
   chars! "\tCreateGroupReply Low 340 Trusted Unencoded",
   chars! "\t{",
   chars! "\t\tAgentData\t\tSingle",
   chars! "\t\t{\tAgentID\t\t\tLLUUID\t}",
   chars! "\t}",
   chars! "\t{",
   chars! "\t\tReplyData\t\tSingle",
   chars! "\t\t{\tGroupID\t\t\tLLUUID\t}",
   chars! "\t\t{\tSuccess\t\t\tBOOL\t}",
   chars! "\t\t{\tMessage\t\t\tVariable\t1\t}\t// string",
   chars! "\t}",
   chars! "}"]

/-- `CreateGroupReply` as the parser creates it. -/
def r387 : RawTemplate :=
  ⟨"CreateGroupReply", .low, 340, [255, 255, 84], some .trusted, some .unencoded, some .notDeprecated,
    [⟨"ReplyData", .single, 0, [⟨"Message", some .variable, some 1⟩, ⟨"Success", some .bool, some 1⟩, ⟨"GroupID", some .uuid, some 16⟩]⟩,
     ⟨"AgentData", .single, 0, [⟨"AgentID", some .uuid, some 16⟩]⟩]⟩

/-- `CreateGroupReply` in file order. -/
def t387 : Template :=
  ⟨"CreateGroupReply", .low, 340, [], some .trusted, some .unencoded, some .notDeprecated,
    [⟨"AgentData", .single, 0, [⟨"AgentID", .uuid, 16⟩]⟩,
     ⟨"ReplyData", .single, 0, [⟨"GroupID", .uuid, 16⟩, ⟨"Success", .bool, 1⟩, ⟨"Message", .variable, 1⟩]⟩]⟩

theorem p387 : ChunkOk c387 r387 := by intro v older; kernel_rfl
theorem k387 : r387.known = some t387 := by kernel_rfl
theorem n387 : t387.name = String.ofList ['C', 'r', 'e', 'a', 't', 'e', 'G', 'r', 'o', 'u', 'p', 'R', 'e', 'p', 'l', 'y'] := by kernel_rfl

/-- The names of the blocks and variables of `CreateGroupReply`. -/
def b387 : List (List Char × List (List Char)) :=
  [(['A', 'g', 'e', 'n', 't', 'D', 'a', 't', 'a'], [['A', 'g', 'e', 'n', 't', 'I', 'D']]),
   (['R', 'e', 'p', 'l', 'y', 'D', 'a', 't', 'a'], [['G', 'r', 'o', 'u', 'p', 'I', 'D'], ['S', 'u', 'c', 'c', 'e', 's', 's'], ['M', 'e', 's', 's', 'a', 'g', 'e']])]

theorem w387 : Checked t387 := ⟨b387, by kernel_rfl, by kernel_rfl, by kernel_rfl⟩

/-- Lines of `message_template.msg` up to the end of `UpdateGroupInfo`. -/
def c388 : List (List Char) :=
  [chars! "",
   chars! "// UpdateGroupInfo",
   chars! "// viewer -> simulator",
   chars! "// simulator -> dataserver",
   chars! "// reliable",
   chars! "{",
   chars! "\tUpdateGroupInfo Low 341 NotTrusted Zerocoded",
   chars! "\t{",
   chars! "\t\tAgentData\t\tSingle",
   chars! "\t\t{\tAgentID\t\t\tLLUUID\t}",
   chars! "\t\t{\tSessionID\t\tLLUUID\t}",
   chars! "\t}",
   chars! "\t{",
   chars! "\t\tGroupData\t\tSingle",
   chars! "\t\t{\tGroupID\t\t\tLLUUID\t}",
   chars! "\t\t{\tCharter\t\t\tVariable\t2\t}\t// string",
   chars! "\t\t{\tShowInList\t\tBOOL\t\t\t}",
   chars! "\t\t{\tInsigniaID\t\tLLUUID\t}",
   chars! "\t\t{\tMembershipFee\tS32\t\t\t\t}",
   chars! "\t\t{\tOpenEnrollment\tBOOL\t\t\t}",
   chars! "\t\t{\tAllowPublish\tBOOL\t}",
   chars! "\t\t{\tMaturePublish\tBOOL\t}",
   chars! "\t}",
   chars! "}"]

/-- `UpdateGroupInfo` as the parser creates it. -/
def r388 : RawTemplate :=
  ⟨"UpdateGroupInfo", .low, 341, [255, 255, 85], some .notTrusted, some .zerocoded, some .notDeprecated,
    [⟨"GroupData", .single, 0, [⟨"MaturePublish", some .bool, some 1⟩, ⟨"AllowPublish", some .bool, some 1⟩, ⟨"OpenEnrollment", some .bool, some 1⟩, ⟨"MembershipFee", some .s32, some 4⟩, ⟨"InsigniaID", some .uuid, some 16⟩, ⟨"ShowInList", some .bool, some 1⟩, ⟨"Charter", some .variable, some 2⟩, ⟨"GroupID", some .uuid, some 16⟩]⟩,
     ⟨"AgentData", .single, 0, [⟨"SessionID", some .uuid, some 16⟩, ⟨"AgentID", some .uuid, some 16⟩]⟩]⟩

/-- `UpdateGroupInfo` in file order. -/
def t388 : Template :=
  ⟨"UpdateGroupInfo", .low, 341, [], some .notTrusted, some .zerocoded, some .notDeprecated,
    [⟨"AgentData", .single, 0, [⟨"AgentID", .uuid, 16⟩, ⟨"SessionID", .uuid, 16⟩]⟩,
     ⟨"GroupData", .single, 0, [⟨"GroupID", .uuid, 16⟩, ⟨"Charter", .variable, 2⟩, ⟨"ShowInList", .bool, 1⟩, ⟨"InsigniaID", .uuid, 16⟩, ⟨"MembershipFee", .s32, 4⟩, ⟨"OpenEnrollment", .bool, 1⟩, ⟨"AllowPublish", .bool, 1⟩, ⟨"MaturePublish", .bool, 1⟩]⟩]⟩

theorem p388 : ChunkOk c388 r388 := by intro v older; kernel_rfl
theorem k388 : r388.known = some t388 := by kernel_rfl
theorem n388 : t388.name = String.ofList ['U', 'p', 'd', 'a', 't', 'e', 'G', 'r', 'o', 'u', 'p', 'I', 'n', 'f', 'o'] := by kernel_rfl

/-- The names of the blocks and variables of `UpdateGroupInfo`. -/
def b388 : List (List Char × List (List Char)) :=
  [(['A', 'g', 'e', 'n', 't', 'D', 'a', 't', 'a'], [['A', 'g', 'e', 'n', 't', 'I', 'D'], ['S', 'e', 's', 's', 'i', 'o', 'n', 'I', 'D']]),
   (['G', 'r', 'o', 'u', 'p', 'D', 'a', 't', 'a'], [['G', 'r', 'o', 'u', 'p', 'I', 'D'], ['C', 'h', 'a', 'r', 't', 'e', 'r'], ['S', 'h', 'o', 'w', 'I', 'n', 'L', 'i', 's', 't'], ['I', 'n', 's', 'i', 'g', 'n', 'i', 'a', 'I', 'D'], ['M', 'e', 'm', 'b', 'e', 'r', 's', 'h', 'i', 'p', 'F', 'e', 'e'], ['O', 'p', 'e', 'n', 'E', 'n', 'r', 'o', 'l', 'l', 'm', 'e', 'n', 't'], ['A', 'l', 'l', 'o', 'w', 'P', 'u', 'b', 'l', 'i', 's', 'h'], ['M', 'a', 't', 'u', 'r', 'e', 'P', 'u', 'b', 'l', 'i', 's', 'h']])]

theorem w388 : Checked t388 := ⟨b388, by kernel_rfl, by kernel_rfl, by kernel_rfl⟩

/-- Lines of `message_template.msg` up to the end of `GroupRoleChanges`. -/
def c389 : List (List Char) :=
  [chars! "",
   chars! "// GroupRoleChanges",
   chars! "// viewer -> simulator -> dataserver",
   chars! "// reliable",
   chars! "{",
   chars! "\tGroupRoleChanges\tLow\t342 NotTrusted\tUnencoded",
   chars! "\t{",
   chars! "\t\tAgentData\tSingle",
   chars! "\t\t{\tAgentID\tLLUUID\t}",
   chars! "\t\t{\tSessionID\tLLUUID\t}",
   chars! "\t\t{\tGroupID\t\tLLUUID\t}",
   chars! "\t}",
   chars! "\t{",
   chars! "\t\tRoleChange\tVariable",
   chars! "\t\t{\tRoleID\t\tLLUUID\t}",
   chars! "\t\t{\tMemberID\tLLUUID\t}",
   chars! "\t\t{\tChange\t\tU32\t\t}",
   chars! "\t}",
   chars! "}"]

/-- `GroupRoleChanges` as the parser creates it. -/
def r389 : RawTemplate :=
  ⟨"GroupRoleChanges", .low, 342, [255, 255, 86], some .notTrusted, some .unencoded, some .notDeprecated,
    [⟨"RoleChange", .variable, 0, [⟨"Change", some .u32, some 4⟩, ⟨"MemberID", some .uuid, some 16⟩, ⟨"RoleID", some .uuid, some 16⟩]⟩,
     ⟨"AgentData", .single, 0, [⟨"GroupID", some .uuid, some 16⟩, ⟨"SessionID", some .uuid, some 16⟩, ⟨"AgentID", some .uuid, some 16⟩]⟩]⟩

/-- `GroupRoleChanges` in file order. -/
def t389 : Template :=
  ⟨"GroupRoleChanges", .low, 342, [], some .notTrusted, some .unencoded, some .notDeprecated,
    [⟨"AgentData", .single, 0, [⟨"AgentID", .uuid, 16⟩, ⟨"SessionID", .uuid, 16⟩, ⟨"GroupID", .uuid, 16⟩]⟩,
     ⟨"RoleChange", .variable, 0, [⟨"RoleID", .uuid, 16⟩, ⟨"MemberID", .uuid, 16⟩, ⟨"Change", .u32, 4⟩]⟩]⟩

theorem p389 : ChunkOk c389 r389 := by intro v older; kernel_rfl
theorem k389 : r389.known = some t389 := by kernel_rfl
theorem n389 : t389.name = String.ofList ['G', 'r', 'o', 'u', 'p', 'R', 'o', 'l', 'e', 'C', 'h', 'a', 'n', 'g', 'e', 's'] := by kernel_rfl

/-- The names of the blocks and variables of `GroupRoleChanges`. -/
def b389 : List (List Char × List (List Char)) :=
  [(['A', 'g', 'e', 'n', 't', 'D', 'a', 't', 'a'], [['A', 'g', 'e', 'n', 't', 'I', 'D'], ['S', 'e', 's', 's', 'i', 'o', 'n', 'I', 'D'], ['G', 'r', 'o', 'u', 'p', 'I', 'D']]),
   (['R', 'o', 'l', 'e', 'C', 'h', 'a', 'n', 'g', 'e'], [['R', 'o', 'l', 'e', 'I', 'D'], ['M', 'e', 'm', 'b', 'e', 'r', 'I', 'D'], ['C', 'h', 'a', 'n', 'g', 'e']])]

theorem w389 : Checked t389 := ⟨b389, by kernel_rfl, by kernel_rfl, by kernel_rfl⟩

/-- Lines of `message_template.msg` up to the end of `JoinGroupRequest`. -/
def c390 : List (List Char) :=
  [chars! "",
   chars! "// JoinGroupRequest",
   chars! "// viewer -> simulator -> dataserver",
   chars! "// reliable",
   chars! "{",
   chars! "\tJoinGroupRequest Low 343 NotTrusted Zerocoded",
   chars! "\t{",
   chars! "\t\tAgentData\tSingle",
   chars! "\t\t{\tAgentID\t\tLLUUID\t}",
   chars! "\t\t{\tSessionID\t\tLLUUID\t}",
   chars! "\t}",
   chars! "\t{",
   chars! "\t\tGroupData\tSingle",
   chars! "\t\t{\tGroupID\t\tLLUUID\t}",
   chars! "\t}",
   chars! "}"]

/-- `JoinGroupRequest` as the parser creates it. -/
def r390 : RawTemplate :=
  ⟨"JoinGroupRequest", .low, 343, [255, 255, 87], some .notTrusted, some .zerocoded, some .notDeprecated,
    [⟨"GroupData", .single, 0, [⟨"GroupID", some .uuid, some 16⟩]⟩,
     ⟨"AgentData", .single, 0, [⟨"SessionID", some .uuid, some 16⟩, ⟨"AgentID", some .uuid, some 16⟩]⟩]⟩

/-- `JoinGroupRequest` in file order. -/
def t390 : Template :=
  ⟨"JoinGroupRequest", .low, 343, [], some .notTrusted, some .zerocoded, some .notDeprecated,
    [⟨"AgentData", .single, 0, [⟨"AgentID", .uuid, 16⟩, ⟨"SessionID", .uuid, 16⟩]⟩,
     ⟨"GroupData", .single, 0, [⟨"GroupID", .uuid, 16⟩]⟩]⟩

theorem p390 : ChunkOk c390 r390 := by intro v older; kernel_rfl
theorem k390 : r390.known = some t390 := by kernel_rfl
theorem n390 : t390.name = String.ofList ['J', 'o', 'i', 'n', 'G', 'r', 'o', 'u', 'p', 'R', 'e', 'q', 'u', 'e', 's', 't'] := by kernel_rfl

/-- The names of the blocks and variables of `JoinGroupRequest`. -/
def b390 : List (List Char × List (List Char)) :=
  [(['A', 'g', 'e', 'n', 't', 'D', 'a', 't', 'a'], [['A', 'g', 'e', 'n', 't', 'I', 'D'], ['S', 'e', 's', 's', 'i', 'o', 'n', 'I', 'D']]),
   (['G', 'r', 'o', 'u', 'p', 'D', 'a', 't', 'a'], [['G', 'r', 'o', 'u', 'p', 'I', 'D']])]

theorem w390 : Checked t390 := ⟨b390, by kernel_rfl, by kernel_rfl, by kernel_rfl⟩

/-- Lines of `message_template.msg` up to the end of `JoinGroupReply`. -/
def c391 : List (List Char) :=
  [chars! "",
   chars! "// JoinGroupReply",
   chars! "// dataserver -> simulator -> viewer",
   chars! "{",
   chars! "\tJoinGroupReply Low 344 Trusted Unencoded",
   chars! "\t{",
   chars! "\t\tAgentData\tSingle",
   chars! "\t\t{\tAgentID\t\tLLUUID\t}",
   chars! "\t}",
   chars! "\t{",
   chars! "\t\tGroupData\tSingle",
   chars! "\t\t{\tGroupID\t\tLLUUID\t}",
   chars! "\t\t{\tSuccess\t\tBOOL\t}",
   chars! "\t}",
   chars! "}"]

/-- `JoinGroupReply` as the parser creates it. -/
def r391 : RawTemplate :=
  ⟨"JoinGroupReply", .low, 344, [255, 255, 88], some .trusted, some .unencoded, some .notDeprecated,
    [⟨"GroupData", .single, 0, [⟨"Success", some .bool, some 1⟩, ⟨"GroupID", some .uuid, some 16⟩]⟩,
     ⟨"AgentData", .single, 0, [⟨"AgentID", some .uuid, some 16⟩]⟩]⟩

/-- `JoinGroupReply` in file order. -/
def t391 : Template :=
  ⟨"JoinGroupReply", .low, 344, [], some .trusted, some .unencoded, some .notDeprecated,
    [⟨"AgentData", .single, 0, [⟨"AgentID", .uuid, 16⟩]⟩,
     ⟨"GroupData", .single, 0, [⟨"GroupID", .uuid, 16⟩, ⟨"Success", .bool, 1⟩]⟩]⟩

theorem p391 : ChunkOk c391 r391 := by intro v older; kernel_rfl
theorem k391 : r391.known = some t391 := by kernel_rfl
theorem n391 : t391.name = String.ofList ['J', 'o', 'i', 'n', 'G', 'r', 'o', 'u', 'p', 'R', 'e', 'p', 'l', 'y'] := by kernel_rfl

/-- The names of the blocks and variables of `JoinGroupReply`. -/
def b391 : List (List Char × List (List Char)) :=
  [(['A', 'g', 'e', 'n', 't', 'D', 'a', 't', 'a'], [['A', 'g', 'e', 'n', 't', 'I', 'D']]),
   (['G', 'r', 'o', 'u', 'p', 'D', 'a', 't', 'a'], [['G', 'r', 'o', 'u', 'p', 'I', 'D'], ['S', 'u', 'c', 'c', 'e', 's', 's']])]

theorem w391 : Checked t391 := ⟨b391, by kernel_rfl, by kernel_rfl, by kernel_rfl⟩

/-- Lines of `message_template.msg` up to the end of `EjectGroupMemberRequest`. -/
def c392 : List (List Char) :=
  [chars! "",
   chars! "",
   chars! "// EjectGroupMemberRequest",
   chars! "// viewer -> simulator -> dataserver",
   chars! "// reliable",
   chars! "{",
   chars! "\tEjectGroupMemberRequest Low 345 NotTrusted Unencoded",
   chars! "\t{",
   chars! "\t\tAgentData\t\tSingle",
   chars! "\t\t{\tAgentID\t\tLLUUID\t}",
   chars! "\t\t{\tSessionID\tLLUUID\t}",
   chars! "\t}",
   chars! "\t{",
   chars! "\t\tGroupData\t\tSingle",
   chars! "\t\t{\tGroupID\t\tLLUUID\t}",
   chars! "\t}",
   chars! "\t{",
   chars! "\t\tEjectData\t\tVariable",
   chars! "\t\t{\tEjecteeID\tLLUUID\t}",
   chars! "\t}",
   chars! "}"]

/-- `EjectGroupMemberRequest` as the parser creates it. -/
def r392 : RawTemplate :=
  ⟨"EjectGroupMemberRequest", .low, 345, [255, 255, 89], some .notTrusted, some .unencoded, some .notDeprecated,
    [⟨"EjectData", .variable, 0, [⟨"EjecteeID", some .uuid, some 16⟩]⟩,
     ⟨"GroupData", .single, 0, [⟨"GroupID", some .uuid, some 16⟩]⟩,
     ⟨"AgentData", .single, 0, [⟨"SessionID", some .uuid, some 16⟩, ⟨"AgentID", some .uuid, some 16⟩]⟩]⟩

/-- `EjectGroupMemberRequest` in file order. -/
def t392 : Template :=
  ⟨"EjectGroupMemberRequest", .low, 345, [], some .notTrusted, some .unencoded, some .notDeprecated,
    [⟨"AgentData", .single, 0, [⟨"AgentID", .uuid, 16⟩, ⟨"SessionID", .uuid, 16⟩]⟩,
     ⟨"GroupData", .single, 0, [⟨"GroupID", .uuid, 16⟩]⟩,
     ⟨"EjectData", .variable, 0, [⟨"EjecteeID", .uuid, 16⟩]⟩]⟩

theorem p392 : ChunkOk c392 r392 := by intro v older; kernel_rfl
theorem k392 : r392.known = some t392 := by kernel_rfl
theorem n392 : t392.name = String.ofList ['E', 'j', 'e', 'c', 't', 'G', 'r', 'o', 'u', 'p', 'M', 'e', 'm', 'b', 'e', 'r', 'R', 'e', 'q', 'u', 'e', 's', 't'] := by kernel_rfl

/-- The names of the blocks and variables of `EjectGroupMemberRequest`. -/
def b392 : List (List Char × List (List Char)) :=
  [(['A', 'g', 'e', 'n', 't', 'D', 'a', 't', 'a'], [['A', 'g', 'e', 'n', 't', 'I', 'D'], ['S', 'e', 's', 's', 'i', 'o', 'n', 'I', 'D']]),
   (['G', 'r', 'o', 'u', 'p', 'D', 'a', 't', 'a'], [['G', 'r', 'o', 'u', 'p', 'I', 'D']]),
   (['E', 'j', 'e', 'c', 't', 'D', 'a', 't', 'a'], [['E', 'j', 'e', 'c', 't', 'e', 'e', 'I', 'D']])]

theorem w392 : Checked t392 := ⟨b392, by kernel_rfl, by kernel_rfl, by kernel_rfl⟩

/-- Lines of `message_template.msg` up to the end of `EjectGroupMemberReply`. -/
def c393 : List (List Char) :=
  [chars! "",
   chars! "// EjectGroupMemberReply",
   chars! "// dataserver -> simulator -> viewer",
   chars! "// reliable",
   chars! "{",
   chars! "\tEjectGroupMemberReply Low 346 Trusted Unencoded",
   chars! "\t{",
   chars! "\t\tAgentData\t\tSingle",
   chars! "\t\t{\tAgentID\t\tLLUUID\t}",
   chars! "\t}",
   chars! "\t{",
   chars! "\t\tGroupData\t\tSingle",
   chars! "\t\t{\tGroupID\t\tLLUUID\t}",
   chars! "\t}",
   chars! "\t{",
   chars! "\t\tEjectData\t\tSingle",
   chars! "\t\t{\tSuccess\t\tBOOL\t}",
   chars! "\t}",
   chars! "}"]

/-- `EjectGroupMemberReply` as the parser creates it. -/
def r393 : RawTemplate :=
  ⟨"EjectGroupMemberReply", .low, 346, [255, 255, 90], some .trusted, some .unencoded, some .notDeprecated,
    [⟨"EjectData", .single, 0, [⟨"Success", some .bool, some 1⟩]⟩,
     ⟨"GroupData", .single, 0, [⟨"GroupID", some .uuid, some 16⟩]⟩,
     ⟨"AgentData", .single, 0, [⟨"AgentID", some .uuid, some 16⟩]⟩]⟩

/-- `EjectGroupMemberReply` in file order. -/
def t393 : Template :=
  ⟨"EjectGroupMemberReply", .low, 346, [], some .trusted, some .unencoded, some .notDeprecated,
    [⟨"AgentData", .single, 0, [⟨"AgentID", .uuid, 16⟩]⟩,
     ⟨"GroupData", .single, 0, [⟨"GroupID", .uuid, 16⟩]⟩,
     ⟨"EjectData", .single, 0, [⟨"Success", .bool, 1⟩]⟩]⟩

theorem p393 : ChunkOk c393 r393 := by intro v older; kernel_rfl
theorem k393 : r393.known = some t393 := by kernel_rfl
theorem n393 : t393.name = String.ofList ['E', 'j', 'e', 'c', 't', 'G', 'r', 'o', 'u', 'p', 'M', 'e', 'm', 'b', 'e', 'r', 'R', 'e', 'p', 'l', 'y'] := by kernel_rfl

/-- The names of the blocks and variables of `EjectGroupMemberReply`. -/
def b393 : List (List Char × List (List Char)) :=
  [(['A', 'g', 'e', 'n', 't', 'D', 'a', 't', 'a'], [['A', 'g', 'e', 'n', 't', 'I', 'D']]),
   (['G', 'r', 'o', 'u', 'p', 'D', 'a', 't', 'a'], [['G', 'r', 'o', 'u', 'p', 'I', 'D']]),
   (['E', 'j', 'e', 'c', 't', 'D', 'a', 't', 'a'], [['S', 'u', 'c', 'c', 'e', 's', 's']])]

theorem w393 : Checked t393 := ⟨b393, by kernel_rfl, by kernel_rfl, by kernel_rfl⟩

/-- Lines of `message_template.msg` up to the end of `LeaveGroupRequest`. -/
def c394 : List (List Char) :=
  [chars! "",
   chars! "// LeaveGroupRequest",
   chars! "// viewer -> simulator -> dataserver",
   chars! "// reliable",
   chars! "{",
   chars! "\tLeaveGroupRequest Low 347 NotTrusted Unencoded",
   chars! "\t{",
   chars! "\t\tAgentData\t\tSingle",
   chars! "\t\t{\tAgentID\t\tLLUUID\t}",
   chars! "\t\t{\tSessionID\tLLUUID\t}",
   chars! "\t}",
   chars! "\t{",
   chars! "\t\tGroupData\t\tSingle",
   chars! "\t\t{\tGroupID\t\tLLUUID\t}",
   chars! "\t}",
   chars! "}"]

/-- `LeaveGroupRequest` as the parser creates it. -/
def r394 : RawTemplate :=
  ⟨"LeaveGroupRequest", .low, 347, [255, 255, 91], some .notTrusted, some .unencoded, some .notDeprecated,
    [⟨"GroupData", .single, 0, [⟨"GroupID", some .uuid, some 16⟩]⟩,
     ⟨"AgentData", .single, 0, [⟨"SessionID", some .uuid, some 16⟩, ⟨"AgentID", some .uuid, some 16⟩]⟩]⟩

/-- `LeaveGroupRequest` in file order. -/
def t394 : Template :=
  ⟨"LeaveGroupRequest", .low, 347, [], some .notTrusted, some .unencoded, some .notDeprecated,
    [⟨"AgentData", .single, 0, [⟨"AgentID", .uuid, 16⟩, ⟨"SessionID", .uuid, 16⟩]⟩,
     ⟨"GroupData", .single, 0, [⟨"GroupID", .uuid, 16⟩]⟩]⟩

theorem p394 : ChunkOk c394 r394 := by intro v older; kernel_rfl
theorem k394 : r394.known = some t394 := by kernel_rfl
theorem n394 : t394.name = String.ofList ['L', 'e', 'a', 'v', 'e', 'G', 'r', 'o', 'u', 'p', 'R', 'e', 'q', 'u', 'e', 's', 't'] := by kernel_rfl

/-- The names of the blocks and variables of `LeaveGroupRequest`. -/
def b394 : List (List Char × List (List Char)) :=
  [(['A', 'g', 'e', 'n', 't', 'D', 'a', 't', 'a'], [['A', 'g', 'e', 'n', 't', 'I', 'D'], ['S', 'e', 's', 's', 'i', 'o', 'n', 'I', 'D']]),
   (['G', 'r', 'o', 'u', 'p', 'D', 'a', 't', 'a'], [['G', 'r', 'o', 'u', 'p', 'I', 'D']])]

theorem w394 : Checked t394 := ⟨b394, by kernel_rfl, by kernel_rfl, by kernel_rfl⟩

/-- Lines of `message_template.msg` up to the end of `LeaveGroupReply`. -/
def c395 : List (List Char) :=
  [chars! "",
   chars! "// LeaveGroupReply",
   chars! "// dataserver -> simulator -> viewer",
   chars! "{",
   chars! "\tLeaveGroupReply Low 348 Trusted Unencoded",
   chars! "\t{",
   chars! "\t\tAgentData\tSingle",
   chars! "\t\t{\tAgentID\t\tLLUUID\t}",
   chars! "\t}",
   chars! "\t{",
   chars! "\t\tGroupData\tSingle",
   chars! "\t\t{\tGroupID\t\tLLUUID\t}",
   chars! "\t\t{\tSuccess\t\tBOOL\t}",
   chars! "\t}",
   chars! "}"]

/-- `LeaveGroupReply` as the parser creates it. -/
def r395 : RawTemplate :=
  ⟨"LeaveGroupReply", .low, 348, [255, 255, 92], some .trusted, some .unencoded, some .notDeprecated,
    [⟨"GroupData", .single, 0, [⟨"Success", some .bool, some 1⟩, ⟨"GroupID", some .uuid, some 16⟩]⟩,
     ⟨"AgentData", .single, 0, [⟨"AgentID", some .uuid, some 16⟩]⟩]⟩

/-- `LeaveGroupReply` in file order. -/
def t395 : Template :=
  ⟨"LeaveGroupReply", .low, 348, [], some .trusted, some .unencoded, some .notDeprecated,
    [⟨"AgentData", .single, 0, [⟨"AgentID", .uuid, 16⟩]⟩,
     ⟨"GroupData", .single, 0, [⟨"GroupID", .uuid, 16⟩, ⟨"Success", .bool, 1⟩]⟩]⟩

theorem p395 : ChunkOk c395 r395 := by intro v older; kernel_rfl
theorem k395 : r395.known = some t395 := by kernel_rfl
theorem n395 : t395.name = String.ofList ['L', 'e', 'a', 'v', 'e', 'G', 'r', 'o', 'u', 'p', 'R', 'e', 'p', 'l', 'y'] := by kernel_rfl

/-- The names of the blocks and variables of `LeaveGroupReply`. -/
def b395 : List (List Char × List (List Char)) :=
  [(['A', 'g', 'e', 'n', 't', 'D', 'a', 't', 'a'], [['A', 'g', 'e', 'n', 't', 'I', 'D']]),
   (['G', 'r', 'o', 'u', 'p', 'D', 'a', 't', 'a'], [['G', 'r', 'o', 'u', 'p', 'I', 'D'], ['S', 'u', 'c', 'c', 'e', 's', 's']])]

theorem w395 : Checked t395 := ⟨b395, by kernel_rfl, by kernel_rfl, by kernel_rfl⟩

/-- Lines of `message_template.msg` up to the end of `InviteGroupRequest`. -/
def c396 : List (List Char) :=
  [chars! "",
   chars! "// InviteGroupRequest",
   chars! "// viewer -> simulator -> dataserver",
   chars! "// reliable",
   chars! "{",
   chars! "\tInviteGroupRequest Low 349 NotTrusted Unencoded",
   chars! "\t{",
   chars! "\t\tAgentData\tSingle",
   chars! "\t\t{\tAgentID\t\tLLUUID\t}\t// UUID of inviting agent",
   chars! "\t\t{\tSessionID\tLLUUID\t}",
   chars! "\t}",
   chars! "\t{",
   chars! "\t\tGroupData\tSingle",
   chars! "\t\t{\tGroupID\t\tLLUUID\t}",
   chars! "\t}",
   chars! "\t{",
   chars! "\t\tInviteData\tVariable",
   chars! "\t\t{\tInviteeID\tLLUUID\t}",
   chars! "\t\t{\tRoleID\t\tLLUUID\t}",
   chars! "\t}",
   chars! "}"]

/-- `InviteGroupRequest` as the parser creates it. -/
def r396 : RawTemplate :=
  ⟨"InviteGroupRequest", .low, 349, [255, 255, 93], some .notTrusted, some .unencoded, some .notDeprecated,
    [⟨"InviteData", .variable, 0, [⟨"RoleID", some .uuid, some 16⟩, ⟨"InviteeID", some .uuid, some 16⟩]⟩,
     ⟨"GroupData", .single, 0, [⟨"GroupID", some .uuid, some 16⟩]⟩,
     ⟨"AgentData", .single, 0, [⟨"SessionID", some .uuid, some 16⟩, ⟨"AgentID", some .uuid, some 16⟩]⟩]⟩

/-- `InviteGroupRequest` in file order. -/
def t396 : Template :=
  ⟨"InviteGroupRequest", .low, 349, [], some .notTrusted, some .unencoded, some .notDeprecated,
    [⟨"AgentData", .single, 0, [⟨"AgentID", .uuid, 16⟩, ⟨"SessionID", .uuid, 16⟩]⟩,
     ⟨"GroupData", .single, 0, [⟨"GroupID", .uuid, 16⟩]⟩,
     ⟨"InviteData", .variable, 0, [⟨"InviteeID", .uuid, 16⟩, ⟨"RoleID", .uuid, 16⟩]⟩]⟩

theorem p396 : ChunkOk c396 r396 := by intro v older; kernel_rfl
theorem k396 : r396.known = some t396 := by kernel_rfl
theorem n396 : t396.name = String.ofList ['I', 'n', 'v', 'i', 't', 'e', 'G', 'r', 'o', 'u', 'p', 'R', 'e', 'q', 'u', 'e', 's', 't'] := by kernel_rfl

/-- The names of the blocks and variables of `InviteGroupRequest`. -/
def b396 : List (List Char × List (List Char)) :=
  [(['A', 'g', 'e', 'n', 't', 'D', 'a', 't', 'a'], [['A', 'g', 'e', 'n', 't', 'I', 'D'], ['S', 'e', 's', 's', 'i', 'o', 'n', 'I', 'D']]),
   (['G', 'r', 'o', 'u', 'p', 'D', 'a', 't', 'a'], [['G', 'r', 'o', 'u', 'p', 'I', 'D']]),
   (['I', 'n', 'v', 'i', 't', 'e', 'D', 'a', 't', 'a'], [['I', 'n', 'v', 'i', 't', 'e', 'e', 'I', 'D'], ['R', 'o', 'l', 'e', 'I', 'D']])]

theorem w396 : Checked t396 := ⟨b396, by kernel_rfl, by kernel_rfl, by kernel_rfl⟩

/-- Lines of `message_template.msg` up to the end of `InviteGroupResponse`. -/
def c397 : List (List Char) :=
  [chars! "",
   chars! "// InviteGroupResponse",
   chars! "// simulator -> dataserver",
   chars! "// reliable",
   chars! "{",
   chars! "\tInviteGroupResponse\tLow\t350 Trusted\tUnencoded",
   chars! "\t{",
   chars! "\t\tInviteData\tSingle",
   chars! "\t\t{\tAgentID\t\tLLUUID\t}",
   chars! "\t\t{\tInviteeID\tLLUUID\t}",
   chars! "\t\t{\tGroupID\t\t\tLLUUID\t}",
   chars! "\t\t{\tRoleID\t\tLLUUID\t}",
   chars! "\t\t{\tMembershipFee S32\t}",
   chars! "\t}",
   chars! "}"]

/-- `InviteGroupResponse` as the parser creates it. -/
def r397 : RawTemplate :=
  ⟨"InviteGroupResponse", .low, 350, [255, 255, 94], some .trusted, some .unencoded, some .notDeprecated,
    [⟨"InviteData", .single, 0, [⟨"MembershipFee", some .s32, some 4⟩, ⟨"RoleID", some .uuid, some 16⟩, ⟨"GroupID", some .uuid, some 16⟩, ⟨"InviteeID", some .uuid, some 16⟩, ⟨"AgentID", some .uuid, some 16⟩]⟩]⟩

/-- `InviteGroupResponse` in file order. -/
def t397 : Template :=
  ⟨"InviteGroupResponse", .low, 350, [], some .trusted, some .unencoded, some .notDeprecated,
    [⟨"InviteData", .single, 0, [⟨"AgentID", .uuid, 16⟩, ⟨"InviteeID", .uuid, 16⟩, ⟨"GroupID", .uuid, 16⟩, ⟨"RoleID", .uuid, 16⟩, ⟨"MembershipFee", .s32, 4⟩]⟩]⟩

theorem p397 : ChunkOk c397 r397 := by intro v older; kernel_rfl
theorem k397 : r397.known = some t397 := by kernel_rfl
theorem n397 : t397.name = String.ofList ['I', 'n', 'v', 'i', 't', 'e', 'G', 'r', 'o', 'u', 'p', 'R', 'e', 's', 'p', 'o', 'n', 's', 'e'] := by kernel_rfl

/-- The names of the blocks and variables of `InviteGroupResponse`. -/
def b397 : List (List Char × List (List Char)) :=
  [(['I', 'n', 'v', 'i', 't', 'e', 'D', 'a', 't', 'a'], [['A', 'g', 'e', 'n', 't', 'I', 'D'], ['I', 'n', 'v', 'i', 't', 'e', 'e', 'I', 'D'], ['G', 'r', 'o', 'u', 'p', 'I', 'D'], ['R', 'o', 'l', 'e', 'I', 'D'], ['M', 'e', 'm', 'b', 'e', 'r', 's', 'h', 'i', 'p', 'F', 'e', 'e']])]

theorem w397 : Checked t397 := ⟨b397, by kernel_rfl, by kernel_rfl, by kernel_rfl⟩

/-- Lines of `message_template.msg` up to the end of `GroupProfileRequest`. -/
def c398 : List (List Char) :=
  [chars! "",
   chars! "// GroupProfileRequest",
   chars! "// viewer-> simulator -> dataserver",
   chars! "// reliable",
   chars! "{",
   chars! "\tGroupProfileRequest Low 351 NotTrusted Unencoded",
   chars! "\t{",
   chars! "\t\tAgentData\tSingle",
   chars! "\t\t{\tAgentID\t\t\tLLUUID\t\t\t}",
   chars! "\t\t{\tSessionID\tLLUUID\t}",
   chars! "\t}",
   chars! "\t{",
   chars! "\t\tGroupData\tSingle",
   chars! "\t\t{\tGroupID\t\t\tLLUUID\t\t\t}",
   chars! "\t}",
   chars! "}"]

/-- `GroupProfileRequest` as the parser creates it. -/
def r398 : RawTemplate :=
  ⟨"GroupProfileRequest", .low, 351, [255, 255, 95], some .notTrusted, some .unencoded, some .notDeprecated,
    [⟨"GroupData", .single, 0, [⟨"GroupID", some .uuid, some 16⟩]⟩,
     ⟨"AgentData", .single, 0, [⟨"SessionID", some .uuid, some 16⟩, ⟨"AgentID", some .uuid, some 16⟩]⟩]⟩

/-- `GroupProfileRequest` in file order. -/
def t398 : Template :=
  ⟨"GroupProfileRequest", .low, 351, [], some .notTrusted, some .unencoded, some .notDeprecated,
    [⟨"AgentData", .single, 0, [⟨"AgentID", .uuid, 16⟩, ⟨"SessionID", .uuid, 16⟩]⟩,
     ⟨"GroupData", .single, 0, [⟨"GroupID", .uuid, 16⟩]⟩]⟩

theorem p398 : ChunkOk c398 r398 := by intro v older; kernel_rfl
theorem k398 : r398.known = some t398 := by kernel_rfl
theorem n398 : t398.name = String.ofList ['G', 'r', 'o', 'u', 'p', 'P', 'r', 'o', 'f', 'i', 'l', 'e', 'R', 'e', 'q', 'u', 'e', 's', 't'] := by kernel_rfl

/-- The names of the blocks and variables of `GroupProfileRequest`. -/
def b398 : List (List Char × List (List Char)) :=
  [(['A', 'g', 'e', 'n', 't', 'D', 'a', 't', 'a'], [['A', 'g', 'e', 'n', 't', 'I', 'D'], ['S', 'e', 's', 's', 'i', 'o', 'n', 'I', 'D']]),
   (['G', 'r', 'o', 'u', 'p', 'D', 'a', 't', 'a'], [['G', 'r', 'o', 'u', 'p', 'I', 'D']])]

theorem w398 : Checked t398 := ⟨b398, by kernel_rfl, by kernel_rfl, by kernel_rfl⟩

/-- Lines of `message_template.msg` up to the end of `GroupProfileReply`. -/
def c399 : List (List Char) :=
  [chars! "",
   chars! "// GroupProfileReply",
   chars! "// dataserver -> simulator -> viewer",
   chars! "// reliable",
   chars! "{",
   chars! "\tGroupProfileReply Low 352 Trusted Zerocoded",
   chars! "\t{",
   chars! "\t\tAgentData\tSingle",
   chars! "\t\t{\tAgentID\t\t\tLLUUID\t\t\t}",
   chars! "\t}",
   chars! "\t{",
   chars! "\t\tGroupData\t\tSingle",
   chars! "\t\t{\tGroupID\t\t\tLLUUID\t\t\t}",
   chars! "\t\t{\tName\t\t\tVariable\t1\t}\t// string",
   chars! "\t\t{\tCharter\t\t\tVariable\t2\t}\t// string",
   chars! "\t\t{\tShowInList\t\tBOOL\t}",
   chars! "\t\t{\tMemberTitle\t\tVariable\t1\t}\t// string",
   chars! "\t\t{\tPowersMask\t\tU64\t}\t// U32 mask",
   chars! "\t\t{\tInsigniaID\t\tLLUUID\t\t\t}",
   chars! "\t\t{\tFounderID\t\tLLUUID\t\t\t}",
   chars! "\t\t{\tMembershipFee\tS32\t\t\t\t}",
   chars! "\t\t{\tOpenEnrollment\tBOOL\t\t\t}   // BOOL (U8)",
   chars! "\t\t{\tMoney\t\t\tS32\t}",
   chars! "\t\t{\tGroupMembershipCount\tS32\t}",
   chars! "\t\t{\tGroupRolesCount\t\t\tS32\t}",
   chars! "\t\t{\tAllowPublish\tBOOL\t}",
   chars! "\t\t{\tMaturePublish\tBOOL\t}",
   chars! "\t\t{\tOwnerRole\t\tLLUUID\t}",
   chars! "\t}",
   chars! "}"]

/-- `GroupProfileReply` as the parser creates it. -/
def r399 : RawTemplate :=
  ⟨"GroupProfileReply", .low, 352, [255, 255, 96], some .trusted, some .zerocoded, some .notDeprecated,
    [⟨"GroupData", .single, 0, [⟨"OwnerRole", some .uuid, some 16⟩, ⟨"MaturePublish", some .bool, some 1⟩, ⟨"AllowPublish", some .bool, some 1⟩, ⟨"GroupRolesCount", some .s32, some 4⟩, ⟨"GroupMembershipCount", some .s32, some 4⟩, ⟨"Money", some .s32, some 4⟩, ⟨"OpenEnrollment", some .bool, some 1⟩, ⟨"MembershipFee", some .s32, some 4⟩, ⟨"FounderID", some .uuid, some 16⟩, ⟨"InsigniaID", some .uuid, some 16⟩, ⟨"PowersMask", some .u64, some 8⟩, ⟨"MemberTitle", some .variable, some 1⟩, ⟨"ShowInList", some .bool, some 1⟩, ⟨"Charter", some .variable, some 2⟩, ⟨"Name", some .variable, some 1⟩, ⟨"GroupID", some .uuid, some 16⟩]⟩,
     ⟨"AgentData", .single, 0, [⟨"AgentID", some .uuid, some 16⟩]⟩]⟩

/-- `GroupProfileReply` in file order. -/
def t399 : Template :=
  ⟨"GroupProfileReply", .low, 352, [], some .trusted, some .zerocoded, some .notDeprecated,
    [⟨"AgentData", .single, 0, [⟨"AgentID", .uuid, 16⟩]⟩,
     ⟨"GroupData", .single, 0, [⟨"GroupID", .uuid, 16⟩, ⟨"Name", .variable, 1⟩, ⟨"Charter", .variable, 2⟩, ⟨"ShowInList", .bool, 1⟩, ⟨"MemberTitle", .variable, 1⟩, ⟨"PowersMask", .u64, 8⟩, ⟨"InsigniaID", .uuid, 16⟩, ⟨"FounderID", .uuid, 16⟩, ⟨"MembershipFee", .s32, 4⟩, ⟨"OpenEnrollment", .bool, 1⟩, ⟨"Money", .s32, 4⟩, ⟨"GroupMembershipCount", .s32, 4⟩, ⟨"GroupRolesCount", .s32, 4⟩, ⟨"AllowPublish", .bool, 1⟩, ⟨"MaturePublish", .bool, 1⟩, ⟨"OwnerRole", .uuid, 16⟩]⟩]⟩

theorem p399 : ChunkOk c399 r399 := by intro v older; kernel_rfl
theorem k399 : r399.known = some t399 := by kernel_rfl
theorem n399 : t399.name = String.ofList ['G', 'r', 'o', 'u', 'p', 'P', 'r', 'o', 'f', 'i', 'l', 'e', 'R', 'e', 'p', 'l', 'y'] := by kernel_rfl

/-- The names of the blocks and variables of `GroupProfileReply`. -/
def b399 : List (List Char × List (List Char)) :=
  [(['A', 'g', 'e', 'n', 't', 'D', 'a', 't', 'a'], [['A', 'g', 'e', 'n', 't', 'I', 'D']]),
   (['G', 'r', 'o', 'u', 'p', 'D', 'a', 't', 'a'], [['G', 'r', 'o', 'u', 'p', 'I', 'D'], ['N', 'a', 'm', 'e'], ['C', 'h', 'a', 'r', 't', 'e', 'r'], ['S', 'h', 'o', 'w', 'I', 'n', 'L', 'i', 's', 't'], ['M', 'e', 'm', 'b', 'e', 'r', 'T', 'i', 't', 'l', 'e'], ['P', 'o', 'w', 'e', 'r', 's', 'M', 'a', 's', 'k'], ['I', 'n', 's', 'i', 'g', 'n', 'i', 'a', 'I', 'D'], ['F', 'o', 'u', 'n', 'd', 'e', 'r', 'I', 'D'], ['M', 'e', 'm', 'b', 'e', 'r', 's', 'h', 'i', 'p', 'F', 'e', 'e'], ['O', 'p', 'e', 'n', 'E', 'n', 'r', 'o', 'l', 'l', 'm', 'e', 'n', 't'], ['M', 'o', 'n', 'e', 'y'], ['G', 'r', 'o', 'u', 'p', 'M', 'e', 'm', 'b', 'e', 'r', 's', 'h', 'i', 'p', 'C', 'o', 'u', 'n', 't'], ['G', 'r', 'o', 'u', 'p', 'R', 'o', 'l', 'e', 's', 'C', 'o', 'u', 'n', 't'], ['A', 'l', 'l', 'o', 'w', 'P', 'u', 'b', 'l', 'i', 's', 'h'], ['M', 'a', 't', 'u', 'r', 'e', 'P', 'u', 'b', 'l', 'i', 's', 'h'], ['O', 'w', 'n', 'e', 'r', 'R', 'o', 'l', 'e']])]

theorem w399 : Checked t399 := ⟨b399, by kernel_rfl, by kernel_rfl, by kernel_rfl⟩

/-- Lines of `message_template.msg` up to the end of `GroupAccountSummaryRequest`. -/
def c400 : List (List Char) :=
  [chars! "",
   chars! "// CurrentInterval = 0  =>  this period (week, day, etc.)",
   chars! "// CurrentInterval = 1  =>  last period",
   chars! "// viewer -> simulator -> dataserver",
   chars! "// reliable",
   chars! "{",
   chars! "\tGroupAccountSummaryRequest Low 353 NotTrusted Zerocoded",
   chars! "\t{",
   chars! "\t\tAgentData\tSingle",
   chars! "\t\t{\tAgentID\t\t\tLLUUID\t\t\t}",
   chars! "\t\t{\tSessionID\t\tLLUUID\t}",
   chars! "\t\t{\tGroupID\t\t\tLLUUID\t}",
   chars! "\t}",
   chars! "\t{",
   chars! "\t\tMoneyData\t\t\tSingle",
   chars! "\t\t{\tRequestID\t\tLLUUID\t}",
   chars! "\t\t{\tIntervalDays\tS32\t}",
   chars! "\t\t{\tCurrentInterval\tS32\t}",
   chars! "\t}",
   chars! "}"]

/-- `GroupAccountSummaryRequest` as the parser creates it. -/
def r400 : RawTemplate :=
  ⟨"GroupAccountSummaryRequest", .low, 353, [255, 255, 97], some .notTrusted, some .zerocoded, some .notDeprecated,
    [⟨"MoneyData", .single, 0, [⟨"CurrentInterval", some .s32, some 4⟩, ⟨"IntervalDays", some .s32, some 4⟩, ⟨"RequestID", some .uuid, some 16⟩]⟩,
     ⟨"AgentData", .single, 0, [⟨"GroupID", some .uuid, some 16⟩, ⟨"SessionID", some .uuid, some 16⟩, ⟨"AgentID", some .uuid, some 16⟩]⟩]⟩

/-- `GroupAccountSummaryRequest` in file order. -/
def t400 : Template :=
  ⟨"GroupAccountSummaryRequest", .low, 353, [], some .notTrusted, some .zerocoded, some .notDeprecated,
    [⟨"AgentData", .single, 0, [⟨"AgentID", .uuid, 16⟩, ⟨"SessionID", .uuid, 16⟩, ⟨"GroupID", .uuid, 16⟩]⟩,
     ⟨"MoneyData", .single, 0, [⟨"RequestID", .uuid, 16⟩, ⟨"IntervalDays", .s32, 4⟩, ⟨"CurrentInterval", .s32, 4⟩]⟩]⟩

theorem p400 : ChunkOk c400 r400 := by intro v older; kernel_rfl
theorem k400 : r400.known = some t400 := by kernel_rfl
theorem n400 : t400.name = String.ofList ['G', 'r', 'o', 'u', 'p', 'A', 'c', 'c', 'o', 'u', 'n', 't', 'S', 'u', 'm', 'm', 'a', 'r', 'y', 'R', 'e', 'q', 'u', 'e', 's', 't'] := by kernel_rfl

/-- The names of the blocks and variables of `GroupAccountSummaryRequest`. -/
def b400 : List (List Char × List (List Char)) :=
  [(['A', 'g', 'e', 'n', 't', 'D', 'a', 't', 'a'], [['A', 'g', 'e', 'n', 't', 'I', 'D'], ['S', 'e', 's', 's', 'i', 'o', 'n', 'I', 'D'], ['G', 'r', 'o', 'u', 'p', 'I', 'D']]),
   (['M', 'o', 'n', 'e', 'y', 'D', 'a', 't', 'a'], [['R', 'e', 'q', 'u', 'e', 's', 't', 'I', 'D'], ['I', 'n', 't', 'e', 'r', 'v', 'a', 'l', 'D', 'a', 'y', 's'], ['C', 'u', 'r', 'r', 'e', 'n', 't', 'I', 'n', 't', 'e', 'r', 'v', 'a', 'l']])]

theorem w400 : Checked t400 := ⟨b400, by kernel_rfl, by kernel_rfl, by kernel_rfl⟩

/-- Lines of `message_template.msg` up to the end of `GroupAccountSummaryReply`. -/
def c401 : List (List Char) :=
  [chars! "",
   chars! "",
   chars! "// dataserver -> simulator -> viewer",
   chars! "// Reliable",
   chars! "{",
   chars! "\tGroupAccountSummaryReply Low 354 Trusted Zerocoded",
   chars! "\t{",
   chars! "\t\tAgentData\t\tSingle",
   chars! "\t\t{\tAgentID\t\t\tLLUUID\t}",
   chars! "\t\t{\tGroupID\t\t\tLLUUID\t\t}",
   chars! "\t}",
   chars! "\t{",
   chars! "\t\tMoneyData\t\t\tSingle",
   chars! "\t\t{\tRequestID\t\t\tLLUUID\t}",
   chars! "\t\t{\tIntervalDays\t\tS32\t}",
   chars! "\t\t{\tCurrentInterval\t\tS32\t}",
   chars! "\t\t{\tStartDate\t\t\tVariable\t1\t}\t// string",
   chars! "\t\t{\tBalance\t\t\t\tS32\t}",
   chars! "\t\t{\tTotalCredits\t\tS32\t}",
   chars! "\t\t{\tTotalDebits\t\t\tS32\t}",
   chars! "\t\t{\tObjectTaxCurrent\tS32\t}",
   chars! "\t\t{\tLightTaxCurrent\t\tS32\t}",
   chars! "\t\t{\tLandTaxCurrent\t\tS32\t}",
   chars! "\t\t{\tGroupTaxCurrent\t\tS32\t}",
   chars! "\t\t{\tParcelDirFeeCurrent\tS32\t}",
   chars! "\t\t{\tObjectTaxEstimate\tS32\t}",
   chars! "\t\t{\tLightTaxEstimate\tS32\t}",
   chars! "\t\t{\tLandTaxEstimate\t\tS32\t}",
   chars! "\t\t{\tGroupTaxEstimate\tS32\t}",
   chars! "\t\t{\tParcelDirFeeEstimate\tS32\t}",
   chars! "\t\t{\tNonExemptMembers\tS32\t}",
   chars! "\t\t{\tLastTaxDate\t\t\tVariable\t1\t}\t// string",
   chars! "\t\t{\tTaxDate\t\t\t\tVariable\t1\t}\t// string",
   chars! "\t}",
   chars! "}"]

/-- `GroupAccountSummaryReply` as the parser creates it. -/
def r401 : RawTemplate :=
  ⟨"GroupAccountSummaryReply", .low, 354, [255, 255, 98], some .trusted, some .zerocoded, some .notDeprecated,
    [⟨"MoneyData", .single, 0, [⟨"TaxDate", some .variable, some 1⟩, ⟨"LastTaxDate", some .variable, some 1⟩, ⟨"NonExemptMembers", some .s32, some 4⟩, ⟨"ParcelDirFeeEstimate", some .s32, some 4⟩, ⟨"GroupTaxEstimate", some .s32, some 4⟩, ⟨"LandTaxEstimate", some .s32, some 4⟩, ⟨"LightTaxEstimate", some .s32, some 4⟩, ⟨"ObjectTaxEstimate", some .s32, some 4⟩, ⟨"ParcelDirFeeCurrent", some .s32, some 4⟩, ⟨"GroupTaxCurrent", some .s32, some 4⟩, ⟨"LandTaxCurrent", some .s32, some 4⟩, ⟨"LightTaxCurrent", some .s32, some 4⟩, ⟨"ObjectTaxCurrent", some .s32, some 4⟩, ⟨"TotalDebits", some .s32, some 4⟩, ⟨"TotalCredits", some .s32, some 4⟩, ⟨"Balance", some .s32, some 4⟩, ⟨"StartDate", some .variable, some 1⟩, ⟨"CurrentInterval", some .s32, some 4⟩, ⟨"IntervalDays", some .s32, some 4⟩, ⟨"RequestID", some .uuid, some 16⟩]⟩,
     ⟨"AgentData", .single, 0, [⟨"GroupID", some .uuid, some 16⟩, ⟨"AgentID", some .uuid, some 16⟩]⟩]⟩

/-- `GroupAccountSummaryReply` in file order. -/
def t401 : Template :=
  ⟨"GroupAccountSummaryReply", .low, 354, [], some .trusted, some .zerocoded, some .notDeprecated,
    [⟨"AgentData", .single, 0, [⟨"AgentID", .uuid, 16⟩, ⟨"GroupID", .uuid, 16⟩]⟩,
     ⟨"MoneyData", .single, 0, [⟨"RequestID", .uuid, 16⟩, ⟨"IntervalDays", .s32, 4⟩, ⟨"CurrentInterval", .s32, 4⟩, ⟨"StartDate", .variable, 1⟩, ⟨"Balance", .s32, 4⟩, ⟨"TotalCredits", .s32, 4⟩, ⟨"TotalDebits", .s32, 4⟩, ⟨"ObjectTaxCurrent", .s32, 4⟩, ⟨"LightTaxCurrent", .s32, 4⟩, ⟨"LandTaxCurrent", .s32, 4⟩, ⟨"GroupTaxCurrent", .s32, 4⟩, ⟨"ParcelDirFeeCurrent", .s32, 4⟩, ⟨"ObjectTaxEstimate", .s32, 4⟩, ⟨"LightTaxEstimate", .s32, 4⟩, ⟨"LandTaxEstimate", .s32, 4⟩, ⟨"GroupTaxEstimate", .s32, 4⟩, ⟨"ParcelDirFeeEstimate", .s32, 4⟩, ⟨"NonExemptMembers", .s32, 4⟩, ⟨"LastTaxDate", .variable, 1⟩, ⟨"TaxDate", .variable, 1⟩]⟩]⟩

theorem p401 : ChunkOk c401 r401 := by intro v older; kernel_rfl
theorem k401 : r401.known = some t401 := by kernel_rfl
theorem n401 : t401.name = String.ofList ['G', 'r', 'o', 'u', 'p', 'A', 'c', 'c', 'o', 'u', 'n', 't', 'S', 'u', 'm', 'm', 'a', 'r', 'y', 'R', 'e', 'p', 'l', 'y'] := by kernel_rfl

/-- The names of the blocks and variables of `GroupAccountSummaryReply`. -/
def b401 : List (List Char × List (List Char)) :=
  [(['A', 'g', 'e', 'n', 't', 'D', 'a', 't', 'a'], [['A', 'g', 'e', 'n', 't', 'I', 'D'], ['G', 'r', 'o', 'u', 'p', 'I', 'D']]),
   (['M', 'o', 'n', 'e', 'y', 'D', 'a', 't', 'a'], [['R', 'e', 'q', 'u', 'e', 's', 't', 'I', 'D'], ['I', 'n', 't', 'e', 'r', 'v', 'a', 'l', 'D', 'a', 'y', 's'], ['C', 'u', 'r', 'r', 'e', 'n', 't', 'I', 'n', 't', 'e', 'r', 'v', 'a', 'l'], ['S', 't', 'a', 'r', 't', 'D', 'a', 't', 'e'], ['B', 'a', 'l', 'a', 'n', 'c', 'e'], ['T', 'o', 't', 'a', 'l', 'C', 'r', 'e', 'd', 'i', 't', 's'], ['T', 'o', 't', 'a', 'l', 'D', 'e', 'b', 'i', 't', 's'], ['O', 'b', 'j', 'e', 'c', 't', 'T', 'a', 'x', 'C', 'u', 'r', 'r', 'e', 'n', 't'], ['L', 'i', 'g', 'h', 't', 'T', 'a', 'x', 'C', 'u', 'r', 'r', 'e', 'n', 't'], ['L', 'a', 'n', 'd', 'T', 'a', 'x', 'C', 'u', 'r', 'r', 'e', 'n', 't'], ['G', 'r', 'o', 'u', 'p', 'T', 'a', 'x', 'C', 'u', 'r', 'r', 'e', 'n', 't'], ['P', 'a', 'r', 'c', 'e', 'l', 'D', 'i', 'r', 'F', 'e', 'e', 'C', 'u', 'r', 'r', 'e', 'n', 't'], ['O', 'b', 'j', 'e', 'c', 't', 'T', 'a', 'x', 'E', 's', 't', 'i', 'm', 'a', 't', 'e'], ['L', 'i', 'g', 'h', 't', 'T', 'a', 'x', 'E', 's', 't', 'i', 'm', 'a', 't', 'e'], ['L', 'a', 'n', 'd', 'T', 'a', 'x', 'E', 's', 't', 'i', 'm', 'a', 't', 'e'], ['G', 'r', 'o', 'u', 'p', 'T', 'a', 'x', 'E', 's', 't', 'i', 'm', 'a', 't', 'e'], ['P', 'a', 'r', 'c', 'e', 'l', 'D', 'i', 'r', 'F', 'e', 'e', 'E', 's', 't', 'i', 'm', 'a', 't', 'e'], ['N', 'o', 'n', 'E', 'x', 'e', 'm', 'p', 't', 'M', 'e', 'm', 'b', 'e', 'r', 's'], ['L', 'a', 's', 't', 'T', 'a', 'x', 'D', 'a', 't', 'e'], ['T', 'a', 'x', 'D', 'a', 't', 'e']])]

theorem w401 : Checked t401 := ⟨b401, by kernel_rfl, by kernel_rfl, by kernel_rfl⟩

/-- Lines of `message_template.msg` up to the end of `GroupAccountDetailsRequest`. -/
def c402 : List (List Char) :=
  [chars! "",
   chars! "",
   chars! "// Reliable",
   chars! "{",
   chars! "\tGroupAccountDetailsRequest Low 355 NotTrusted Zerocoded",
   chars! "\t{",
   chars! "\t\tAgentData\tSingle",
   chars! "\t\t{\tAgentID\t\t\tLLUUID\t}",
   chars! "\t\t{\tSessionID\t\tLLUUID\t}",
   chars! "\t\t{\tGroupID\t\t\tLLUUID\t}",
   chars! "\t}",
   chars! "\t{",
   chars! "\t\tMoneyData\t\t\tSingle",
   chars! "\t\t{\tRequestID\t\tLLUUID\t}",
   chars! "\t\t{\tIntervalDays\tS32\t}",
   chars! "\t\t{\tCurrentInterval\tS32\t}",
   chars! "\t}",
   chars! "}"]

/-- `GroupAccountDetailsRequest` as the parser creates it. -/
def r402 : RawTemplate :=
  ⟨"GroupAccountDetailsRequest", .low, 355, [255, 255, 99], some .notTrusted, some .zerocoded, some .notDeprecated,
    [⟨"MoneyData", .single, 0, [⟨"CurrentInterval", some .s32, some 4⟩, ⟨"IntervalDays", some .s32, some 4⟩, ⟨"RequestID", some .uuid, some 16⟩]⟩,
     ⟨"AgentData", .single, 0, [⟨"GroupID", some .uuid, some 16⟩, ⟨"SessionID", some .uuid, some 16⟩, ⟨"AgentID", some .uuid, some 16⟩]⟩]⟩

/-- `GroupAccountDetailsRequest` in file order. -/
def t402 : Template :=
  ⟨"GroupAccountDetailsRequest", .low, 355, [], some .notTrusted, some .zerocoded, some .notDeprecated,
    [⟨"AgentData", .single, 0, [⟨"AgentID", .uuid, 16⟩, ⟨"SessionID", .uuid, 16⟩, ⟨"GroupID", .uuid, 16⟩]⟩,
     ⟨"MoneyData", .single, 0, [⟨"RequestID", .uuid, 16⟩, ⟨"IntervalDays", .s32, 4⟩, ⟨"CurrentInterval", .s32, 4⟩]⟩]⟩

theorem p402 : ChunkOk c402 r402 := by intro v older; kernel_rfl
theorem k402 : r402.known = some t402 := by kernel_rfl
theorem n402 : t402.name = String.ofList ['G', 'r', 'o', 'u', 'p', 'A', 'c', 'c', 'o', 'u', 'n', 't', 'D', 'e', 't', 'a', 'i', 'l', 's', 'R', 'e', 'q', 'u', 'e', 's', 't'] := by kernel_rfl

/-- The names of the blocks and variables of `GroupAccountDetailsRequest`. -/
def b402 : List (List Char × List (List Char)) :=
  [(['A', 'g', 'e', 'n', 't', 'D', 'a', 't', 'a'], [['A', 'g', 'e', 'n', 't', 'I', 'D'], ['S', 'e', 's', 's', 'i', 'o', 'n', 'I', 'D'], ['G', 'r', 'o', 'u', 'p', 'I', 'D']]),
   (['M', 'o', 'n', 'e', 'y', 'D', 'a', 't', 'a'], [['R', 'e', 'q', 'u', 'e', 's', 't', 'I', 'D'], ['I', 'n', 't', 'e', 'r', 'v', 'a', 'l', 'D', 'a', 'y', 's'], ['C', 'u', 'r', 'r', 'e', 'n', 't', 'I', 'n', 't', 'e', 'r', 'v', 'a', 'l']])]

theorem w402 : Checked t402 := ⟨b402, by kernel_rfl, by kernel_rfl, by kernel_rfl⟩

/-- Lines of `message_template.msg` up to the end of `GroupAccountDetailsReply`. -/
def c403 : List (List Char) :=
  [chars! "",
   chars! "// Reliable",
   chars! "{",
   chars! "\tGroupAccountDetailsReply Low 356 Trusted Zerocoded",
   chars! "\t{",
   chars! "\t\tAgentData\t\tSingle",
   chars! "\t\t{\tAgentID\t\t\tLLUUID\t}",
   chars! "\t\t{\tGroupID\t\t\tLLUUID\t\t}",
   chars! "\t}",
   chars! "\t{",
   chars! "\t\tMoneyData\t\t\tSingle",
   chars! "\t\t{\tRequestID\t\tLLUUID\t}",
   chars! "\t\t{\tIntervalDays\tS32\t}",
   chars! "\t\t{\tCurrentInterval\tS32\t}",
   chars! "\t\t{\tStartDate\t\tVariable\t1\t}\t// string",
   chars! "\t}",
   chars! "\t{",
   chars! "\t\tHistoryData\t\t\tVariable",
   chars! "\t\t{\tDescription\t\tVariable\t1\t}\t// string",
   chars! "\t\t{\tAmount\t\t\tS32\t}",
   chars! "\t}",
   chars! "}"]

/-- `GroupAccountDetailsReply` as the parser creates it. -/
def r403 : RawTemplate :=
  ⟨"GroupAccountDetailsReply", .low, 356, [255, 255, 100], some .trusted, some .zerocoded, some .notDeprecated,
    [⟨"HistoryData", .variable, 0, [⟨"Amount", some .s32, some 4⟩, ⟨"Description", some .variable, some 1⟩]⟩,
     ⟨"MoneyData", .single, 0, [⟨"StartDate", some .variable, some 1⟩, ⟨"CurrentInterval", some .s32, some 4⟩, ⟨"IntervalDays", some .s32, some 4⟩, ⟨"RequestID", some .uuid, some 16⟩]⟩,
     ⟨"AgentData", .single, 0, [⟨"GroupID", some .uuid, some 16⟩, ⟨"AgentID", some .uuid, some 16⟩]⟩]⟩

/-- `GroupAccountDetailsReply` in file order. -/
def t403 : Template :=
  ⟨"GroupAccountDetailsReply", .low, 356, [], some .trusted, some .zerocoded, some .notDeprecated,
    [⟨"AgentData", .single, 0, [⟨"AgentID", .uuid, 16⟩, ⟨"GroupID", .uuid, 16⟩]⟩,
     ⟨"MoneyData", .single, 0, [⟨"RequestID", .uuid, 16⟩, ⟨"IntervalDays", .s32, 4⟩, ⟨"CurrentInterval", .s32, 4⟩, ⟨"StartDate", .variable, 1⟩]⟩,
     ⟨"HistoryData", .variable, 0, [⟨"Description", .variable, 1⟩, ⟨"Amount", .s32, 4⟩]⟩]⟩

theorem p403 : ChunkOk c403 r403 := by intro v older; kernel_rfl
theorem k403 : r403.known = some t403 := by kernel_rfl
theorem n403 : t403.name = String.ofList ['G', 'r', 'o', 'u', 'p', 'A', 'c', 'c', 'o', 'u', 'n', 't', 'D', 'e', 't', 'a', 'i', 'l', 's', 'R', 'e', 'p', 'l', 'y'] := by kernel_rfl

/-- The names of the blocks and variables of `GroupAccountDetailsReply`. -/
def b403 : List (List Char × List (List Char)) :=
  [(['A', 'g', 'e', 'n', 't', 'D', 'a', 't', 'a'], [['A', 'g', 'e', 'n', 't', 'I', 'D'], ['G', 'r', 'o', 'u', 'p', 'I', 'D']]),
   (['M', 'o', 'n', 'e', 'y', 'D', 'a', 't', 'a'], [['R', 'e', 'q', 'u', 'e', 's', 't', 'I', 'D'], ['I', 'n', 't', 'e', 'r', 'v', 'a', 'l', 'D', 'a', 'y', 's'], ['C', 'u', 'r', 'r', 'e', 'n', 't', 'I', 'n', 't', 'e', 'r', 'v', 'a', 'l'], ['S', 't', 'a', 'r', 't', 'D', 'a', 't', 'e']]),
   (['H', 'i', 's', 't', 'o', 'r', 'y', 'D', 'a', 't', 'a'], [['D', 'e', 's', 'c', 'r', 'i', 'p', 't', 'i', 'o', 'n'], ['A', 'm', 'o', 'u', 'n', 't']])]

theorem w403 : Checked t403 := ⟨b403, by kernel_rfl, by kernel_rfl, by kernel_rfl⟩

/-- Lines of `message_template.msg` up to the end of `GroupAccountTransactionsRequest`. -/
def c404 : List (List Char) :=
  [chars! "",
   chars! "",
   chars! "// Reliable",
   chars! "{",
   chars! "\tGroupAccountTransactionsRequest Low 357 NotTrusted Zerocoded",
   chars! "\t{",
   chars! "\t\tAgentData\t\tSingle",
   chars! "\t\t{\tAgentID\t\t\tLLUUID\t}",
   chars! "\t\t{\tSessionID\t\tLLUUID\t}",
   chars! "\t\t{\tGroupID\t\t\tLLUUID\t\t}",
   chars! "\t}",
   chars! "\t{",
   chars! "\t\tMoneyData\t\t\tSingle",
   chars! "\t\t{\tRequestID\t\tLLUUID\t}",
   chars! "\t\t{\tIntervalDays\tS32\t}",
   chars! "\t\t{\tCurrentInterval\tS32\t}",
   chars! "\t}",
   chars! "}"]

/-- `GroupAccountTransactionsRequest` as the parser creates it. -/
def r404 : RawTemplate :=
  ⟨"GroupAccountTransactionsRequest", .low, 357, [255, 255, 101], some .notTrusted, some .zerocoded, some .notDeprecated,
    [⟨"MoneyData", .single, 0, [⟨"CurrentInterval", some .s32, some 4⟩, ⟨"IntervalDays", some .s32, some 4⟩, ⟨"RequestID", some .uuid, some 16⟩]⟩,
     ⟨"AgentData", .single, 0, [⟨"GroupID", some .uuid, some 16⟩, ⟨"SessionID", some .uuid, some 16⟩, ⟨"AgentID", some .uuid, some 16⟩]⟩]⟩

/-- `GroupAccountTransactionsRequest` in file order. -/
def t404 : Template :=
  ⟨"GroupAccountTransactionsRequest", .low, 357, [], some .notTrusted, some .zerocoded, some .notDeprecated,
    [⟨"AgentData", .single, 0, [⟨"AgentID", .uuid, 16⟩, ⟨"SessionID", .uuid, 16⟩, ⟨"GroupID", .uuid, 16⟩]⟩,
     ⟨"MoneyData", .single, 0, [⟨"RequestID", .uuid, 16⟩, ⟨"IntervalDays", .s32, 4⟩, ⟨"CurrentInterval", .s32, 4⟩]⟩]⟩

theorem p404 : ChunkOk c404 r404 := by intro v older; kernel_rfl
theorem k404 : r404.known = some t404 := by kernel_rfl
theorem n404 : t404.name = String.ofList ['G', 'r', 'o', 'u', 'p', 'A', 'c', 'c', 'o', 'u', 'n', 't', 'T', 'r', 'a', 'n', 's', 'a', 'c', 't', 'i', 'o', 'n', 's', 'R', 'e', 'q', 'u', 'e', 's', 't'] := by kernel_rfl

/-- The names of the blocks and variables of `GroupAccountTransactionsRequest`. -/
def b404 : List (List Char × List (List Char)) :=
  [(['A', 'g', 'e', 'n', 't', 'D', 'a', 't', 'a'], [['A', 'g', 'e', 'n', 't', 'I', 'D'], ['S', 'e', 's', 's', 'i', 'o', 'n', 'I', 'D'], ['G', 'r', 'o', 'u', 'p', 'I', 'D']]),
   (['M', 'o', 'n', 'e', 'y', 'D', 'a', 't', 'a'], [['R', 'e', 'q', 'u', 'e', 's', 't', 'I', 'D'], ['I', 'n', 't', 'e', 'r', 'v', 'a', 'l', 'D', 'a', 'y', 's'], ['C', 'u', 'r', 'r', 'e', 'n', 't', 'I', 'n', 't', 'e', 'r', 'v', 'a', 'l']])]

theorem w404 : Checked t404 := ⟨b404, by kernel_rfl, by kernel_rfl, by kernel_rfl⟩

/-- Lines of `message_template.msg` up to the end of `GroupAccountTransactionsReply`. -/
def c405 : List (List Char) :=
  [chars! "",
   chars! "// Reliable",
   chars! "{",
   chars! "\tGroupAccountTransactionsReply Low 358 Trusted Zerocoded",
   chars! "\t{",
   chars! "\t\tAgentData\t\tSingle",
   chars! "\t\t{\tAgentID\t\t\tLLUUID\t}",
   chars! "\t\t{\tGroupID\t\t\tLLUUID\t\t}",
   chars! "\t}",
   chars! "\t{",
   chars! "\t\tMoneyData\t\t\tSingle",
   chars! "\t\t{\tRequestID\t\tLLUUID\t}",
   chars! "\t\t{\tIntervalDays\tS32\t}",
   chars! "\t\t{\tCurrentInterval\tS32\t}",
   chars! "\t\t{\tStartDate\t\tVariable\t1\t}\t// string",
   chars! "\t}",
   chars! "\t{",
   chars! "\t\tHistoryData\t\t\tVariable",
   chars! "\t\t{\tTime\t\t\tVariable\t1\t}\t// string",
   chars! "\t\t{\tUser\t\t\tVariable\t1\t}\t// string",
   chars! "\t\t{\tType\t\t\tS32\t}",
   chars! "\t\t{\tItem\t\t\tVariable\t1\t}\t// string",
   chars! "\t\t{\tAmount\t\t\tS32\t}",
   chars! "\t}",
   chars! "}"]

/-- `GroupAccountTransactionsReply` as the parser creates it. -/
def r405 : RawTemplate :=
  ⟨"GroupAccountTransactionsReply", .low, 358, [255, 255, 102], some .trusted, some .zerocoded, some .notDeprecated,
    [⟨"HistoryData", .variable, 0, [⟨"Amount", some .s32, some 4⟩, ⟨"Item", some .variable, some 1⟩, ⟨"Type", some .s32, some 4⟩, ⟨"User", some .variable, some 1⟩, ⟨"Time", some .variable, some 1⟩]⟩,
     ⟨"MoneyData", .single, 0, [⟨"StartDate", some .variable, some 1⟩, ⟨"CurrentInterval", some .s32, some 4⟩, ⟨"IntervalDays", some .s32, some 4⟩, ⟨"RequestID", some .uuid, some 16⟩]⟩,
     ⟨"AgentData", .single, 0, [⟨"GroupID", some .uuid, some 16⟩, ⟨"AgentID", some .uuid, some 16⟩]⟩]⟩

/-- `GroupAccountTransactionsReply` in file order. -/
def t405 : Template :=
  ⟨"GroupAccountTransactionsReply", .low, 358, [], some .trusted, some .zerocoded, some .notDeprecated,
    [⟨"AgentData", .single, 0, [⟨"AgentID", .uuid, 16⟩, ⟨"GroupID", .uuid, 16⟩]⟩,
     ⟨"MoneyData", .single, 0, [⟨"RequestID", .uuid, 16⟩, ⟨"IntervalDays", .s32, 4⟩, ⟨"CurrentInterval", .s32, 4⟩, ⟨"StartDate", .variable, 1⟩]⟩,
     ⟨"HistoryData", .variable, 0, [⟨"Time", .variable, 1⟩, ⟨"User", .variable, 1⟩, ⟨"Type", .s32, 4⟩, ⟨"Item", .variable, 1⟩, ⟨"Amount", .s32, 4⟩]⟩]⟩

theorem p405 : ChunkOk c405 r405 := by intro v older; kernel_rfl
theorem k405 : r405.known = some t405 := by kernel_rfl
theorem n405 : t405.name = String.ofList ['G', 'r', 'o', 'u', 'p', 'A', 'c', 'c', 'o', 'u', 'n', 't', 'T', 'r', 'a', 'n', 's', 'a', 'c', 't', 'i', 'o', 'n', 's', 'R', 'e', 'p', 'l', 'y'] := by kernel_rfl

/-- The names of the blocks and variables of `GroupAccountTransactionsReply`. -/
def b405 : List (List Char × List (List Char)) :=
  [(['A', 'g', 'e', 'n', 't', 'D', 'a', 't', 'a'], [['A', 'g', 'e', 'n', 't', 'I', 'D'], ['G', 'r', 'o', 'u', 'p', 'I', 'D']]),
   (['M', 'o', 'n', 'e', 'y', 'D', 'a', 't', 'a'], [['R', 'e', 'q', 'u', 'e', 's', 't', 'I', 'D'], ['I', 'n', 't', 'e', 'r', 'v', 'a', 'l', 'D', 'a', 'y', 's'], ['C', 'u', 'r', 'r', 'e', 'n', 't', 'I', 'n', 't', 'e', 'r', 'v', 'a', 'l'], ['S', 't', 'a', 'r', 't', 'D', 'a', 't', 'e']]),
   (['H', 'i', 's', 't', 'o', 'r', 'y', 'D', 'a', 't', 'a'], [['T', 'i', 'm', 'e'], ['U', 's', 'e', 'r'], ['T', 'y', 'p', 'e'], ['I', 't', 'e', 'm'], ['A', 'm', 'o', 'u', 'n', 't']])]

theorem w405 : Checked t405 := ⟨b405, by kernel_rfl, by kernel_rfl, by kernel_rfl⟩

/-- Lines of `message_template.msg` up to the end of `GroupActiveProposalsRequest`. -/
def c406 : List (List Char) :=
  [chars! "",
   chars! "// GroupActiveProposalsRequest",
   chars! "// viewer -> simulator -> dataserver",
   chars! "//reliable",
   chars! "{",
   chars! "\tGroupActiveProposalsRequest Low 359 NotTrusted Unencoded",
   chars! "\t{",
   chars! "\t\tAgentData\tSingle",
   chars! "\t\t{\tAgentID\t\t\tLLUUID\t\t\t}",
   chars! "\t\t{\tSessionID\t\tLLUUID\t\t\t}",
   chars! "\t}",
   chars! "\t{",
   chars! "\t\tGroupData\tSingle",
   chars! "\t\t{\tGroupID\t\t\tLLUUID\t\t\t}",
   chars! "\t}",
   chars! "\t{",
   chars! "\t\tTransactionData Single",
   chars! "\t\t{\tTransactionID\tLLUUID\t}",
   chars! "\t}",
   chars! "}"]

/-- `GroupActiveProposalsRequest` as the parser creates it. -/
def r406 : RawTemplate :=
  ⟨"GroupActiveProposalsRequest", .low, 359, [255, 255, 103], some .notTrusted, some .unencoded, some .notDeprecated,
    [⟨"TransactionData", .single, 0, [⟨"TransactionID", some .uuid, some 16⟩]⟩,
     ⟨"GroupData", .single, 0, [⟨"GroupID", some .uuid, some 16⟩]⟩,
     ⟨"AgentData", .single, 0, [⟨"SessionID", some .uuid, some 16⟩, ⟨"AgentID", some .uuid, some 16⟩]⟩]⟩

/-- `GroupActiveProposalsRequest` in file order. -/
def t406 : Template :=
  ⟨"GroupActiveProposalsRequest", .low, 359, [], some .notTrusted, some .unencoded, some .notDeprecated,
    [⟨"AgentData", .single, 0, [⟨"AgentID", .uuid, 16⟩, ⟨"SessionID", .uuid, 16⟩]⟩,
     ⟨"GroupData", .single, 0, [⟨"GroupID", .uuid, 16⟩]⟩,
     ⟨"TransactionData", .single, 0, [⟨"TransactionID", .uuid, 16⟩]⟩]⟩

theorem p406 : ChunkOk c406 r406 := by intro v older; kernel_rfl
theorem k406 : r406.known = some t406 := by kernel_rfl
theorem n406 : t406.name = String.ofList ['G', 'r', 'o', 'u', 'p', 'A', 'c', 't', 'i', 'v', 'e', 'P', 'r', 'o', 'p', 'o', 's', 'a', 'l', 's', 'R', 'e', 'q', 'u', 'e', 's', 't'] := by kernel_rfl

/-- The names of the blocks and variables of `GroupActiveProposalsRequest`. -/
def b406 : List (List Char × List (List Char)) :=
  [(['A', 'g', 'e', 'n', 't', 'D', 'a', 't', 'a'], [['A', 'g', 'e', 'n', 't', 'I', 'D'], ['S', 'e', 's', 's', 'i', 'o', 'n', 'I', 'D']]),
   (['G', 'r', 'o', 'u', 'p', 'D', 'a', 't', 'a'], [['G', 'r', 'o', 'u', 'p', 'I', 'D']]),
   (['T', 'r', 'a', 'n', 's', 'a', 'c', 't', 'i', 'o', 'n', 'D', 'a', 't', 'a'], [['T', 'r', 'a', 'n', 's', 'a', 'c', 't', 'i', 'o', 'n', 'I', 'D']])]

theorem w406 : Checked t406 := ⟨b406, by kernel_rfl, by kernel_rfl, by kernel_rfl⟩

/-- Lines of `message_template.msg` up to the end of `GroupActiveProposalItemReply`. -/
def c407 : List (List Char) :=
  [chars! "",
   chars! "// GroupActiveProposalItemReply",
   chars! "// dataserver -> simulator -> viewer",
   chars! "// reliable",
   chars! "{",
   chars! "\tGroupActiveProposalItemReply Low 360 Trusted Zerocoded",
   chars! "\t{",
   chars! "\t\tAgentData\tSingle",
   chars! "\t\t{\tAgentID\t\t\tLLUUID\t\t\t}",
   chars! "\t\t{\tGroupID\t\t\tLLUUID\t\t\t}",
   chars! "\t}",
   chars! "\t{",
   chars! "\t\tTransactionData Single",
   chars! "\t\t{\tTransactionID\tLLUUID\t}",
   chars! "\t\t{\tTotalNumItems\tU32\t\t}",
   chars! "\t}",
   chars! "\t{",
   chars! "\t\tProposalData\tVariable",
   chars! "\t\t{\tVoteID\t\t\tLLUUID\t\t\t}",
   chars! "\t\t{\tVoteInitiator\tLLUUID\t\t\t}",
   chars! "\t\t{\tTerseDateID\t\tVariable\t1\t} // string",
   chars! "\t\t{\tStartDateTime\tVariable\t1\t}\t// string",
   chars! "\t\t{\tEndDateTime\t\tVariable\t1\t}\t// string",
   chars! "\t\t{\tAlreadyVoted\tBOOL\t\t\t}",
   chars! "\t\t{\tVoteCast\t\tVariable\t1\t}\t// string",
   chars! "\t\t{\tMajority\tF32\t\t}",
   chars! "\t\t{\tQuorum\t\tS32\t\t}",
   chars! "\t\t{\tProposalText\tVariable\t1\t}\t// string",
   chars! "\t}",
   chars! "}"]

/-- `GroupActiveProposalItemReply` as the parser creates it. -/
def r407 : RawTemplate :=
  ⟨"GroupActiveProposalItemReply", .low, 360, [255, 255, 104], some .trusted, some .zerocoded, some .notDeprecated,
    [⟨"ProposalData", .variable, 0, [⟨"ProposalText", some .variable, some 1⟩, ⟨"Quorum", some .s32, some 4⟩, ⟨"Majority", some .f32, some 4⟩, ⟨"VoteCast", some .variable, some 1⟩, ⟨"AlreadyVoted", some .bool, some 1⟩, ⟨"EndDateTime", some .variable, some 1⟩, ⟨"StartDateTime", some .variable, some 1⟩, ⟨"TerseDateID", some .variable, some 1⟩, ⟨"VoteInitiator", some .uuid, some 16⟩, ⟨"VoteID", some .uuid, some 16⟩]⟩,
     ⟨"TransactionData", .single, 0, [⟨"TotalNumItems", some .u32, some 4⟩, ⟨"TransactionID", some .uuid, some 16⟩]⟩,
     ⟨"AgentData", .single, 0, [⟨"GroupID", some .uuid, some 16⟩, ⟨"AgentID", some .uuid, some 16⟩]⟩]⟩

/-- `GroupActiveProposalItemReply` in file order. -/
def t407 : Template :=
  ⟨"GroupActiveProposalItemReply", .low, 360, [], some .trusted, some .zerocoded, some .notDeprecated,
    [⟨"AgentData", .single, 0, [⟨"AgentID", .uuid, 16⟩, ⟨"GroupID", .uuid, 16⟩]⟩,
     ⟨"TransactionData", .single, 0, [⟨"TransactionID", .uuid, 16⟩, ⟨"TotalNumItems", .u32, 4⟩]⟩,
     ⟨"ProposalData", .variable, 0, [⟨"VoteID", .uuid, 16⟩, ⟨"VoteInitiator", .uuid, 16⟩, ⟨"TerseDateID", .variable, 1⟩, ⟨"StartDateTime", .variable, 1⟩, ⟨"EndDateTime", .variable, 1⟩, ⟨"AlreadyVoted", .bool, 1⟩, ⟨"VoteCast", .variable, 1⟩, ⟨"Majority", .f32, 4⟩, ⟨"Quorum", .s32, 4⟩, ⟨"ProposalText", .variable, 1⟩]⟩]⟩

theorem p407 : ChunkOk c407 r407 := by intro v older; kernel_rfl
theorem k407 : r407.known = some t407 := by kernel_rfl
theorem n407 : t407.name = String.ofList ['G', 'r', 'o', 'u', 'p', 'A', 'c', 't', 'i', 'v', 'e', 'P', 'r', 'o', 'p', 'o', 's', 'a', 'l', 'I', 't', 'e', 'm', 'R', 'e', 'p', 'l', 'y'] := by kernel_rfl

/-- The names of the blocks and variables of `GroupActiveProposalItemReply`. -/
def b407 : List (List Char × List (List Char)) :=
  [(['A', 'g', 'e', 'n', 't', 'D', 'a', 't', 'a'], [['A', 'g', 'e', 'n', 't', 'I', 'D'], ['G', 'r', 'o', 'u', 'p', 'I', 'D']]),
   (['T', 'r', 'a', 'n', 's', 'a', 'c', 't', 'i', 'o', 'n', 'D', 'a', 't', 'a'], [['T', 'r', 'a', 'n', 's', 'a', 'c', 't', 'i', 'o', 'n', 'I', 'D'], ['T', 'o', 't', 'a', 'l', 'N', 'u', 'm', 'I', 't', 'e', 'm', 's']]),
   (['P', 'r', 'o', 'p', 'o', 's', 'a', 'l', 'D', 'a', 't', 'a'], [['V', 'o', 't', 'e', 'I', 'D'], ['V', 'o', 't', 'e', 'I', 'n', 'i', 't', 'i', 'a', 't', 'o', 'r'], ['T', 'e', 'r', 's', 'e', 'D', 'a', 't', 'e', 'I', 'D'], ['S', 't', 'a', 'r', 't', 'D', 'a', 't', 'e', 'T', 'i', 'm', 'e'], ['E', 'n', 'd', 'D', 'a', 't', 'e', 'T', 'i', 'm', 'e'], ['A', 'l', 'r', 'e', 'a', 'd', 'y', 'V', 'o', 't', 'e', 'd'], ['V', 'o', 't', 'e', 'C', 'a', 's', 't'], ['M', 'a', 'j', 'o', 'r', 'i', 't', 'y'], ['Q', 'u', 'o', 'r', 'u', 'm'], ['P', 'r', 'o', 'p', 'o', 's', 'a', 'l', 'T', 'e', 'x', 't']])]

theorem w407 : Checked t407 := ⟨b407, by kernel_rfl, by kernel_rfl, by kernel_rfl⟩

/-- Lines of `message_template.msg` up to the end of `GroupVoteHistoryRequest`. -/
def c408 : List (List Char) :=
  [chars! "",
   chars! "// GroupVoteHistoryRequest",
   chars! "// viewer -> simulator -> dataserver",
   chars! "//reliable",
   chars! "{",
   chars! "\tGroupVoteHistoryRequest Low 361 NotTrusted Unencoded",
   chars! "\t{",
   chars! "\t\tAgentData\tSingle",
   chars! "\t\t{\tAgentID\t\t\tLLUUID\t\t\t}",
   chars! "\t\t{\tSessionID\t\tLLUUID\t\t\t}",
   chars! "\t}",
   chars! "\t{",
   chars! "\t\tGroupData\tSingle",
   chars! "\t\t{\tGroupID\t\t\tLLUUID\t\t\t}",
   chars! "\t}",
   chars! "\t{",
   chars! "\t\tTransactionData Single",
   chars! "\t\t{\tTransactionID\tLLUUID\t}",
   chars! "\t}",
   chars! "}"]

/-- `GroupVoteHistoryRequest` as the parser creates it. -/
def r408 : RawTemplate :=
  ⟨"GroupVoteHistoryRequest", .low, 361, [255, 255, 105], some .notTrusted, some .unencoded, some .notDeprecated,
    [⟨"TransactionData", .single, 0, [⟨"TransactionID", some .uuid, some 16⟩]⟩,
     ⟨"GroupData", .single, 0, [⟨"GroupID", some .uuid, some 16⟩]⟩,
     ⟨"AgentData", .single, 0, [⟨"SessionID", some .uuid, some 16⟩, ⟨"AgentID", some .uuid, some 16⟩]⟩]⟩

/-- `GroupVoteHistoryRequest` in file order. -/
def t408 : Template :=
  ⟨"GroupVoteHistoryRequest", .low, 361, [], some .notTrusted, some .unencoded, some .notDeprecated,
    [⟨"AgentData", .single, 0, [⟨"AgentID", .uuid, 16⟩, ⟨"SessionID", .uuid, 16⟩]⟩,
     ⟨"GroupData", .single, 0, [⟨"GroupID", .uuid, 16⟩]⟩,
     ⟨"TransactionData", .single, 0, [⟨"TransactionID", .uuid, 16⟩]⟩]⟩

theorem p408 : ChunkOk c408 r408 := by intro v older; kernel_rfl
theorem k408 : r408.known = some t408 := by kernel_rfl
theorem n408 : t408.name = String.ofList ['G', 'r', 'o', 'u', 'p', 'V', 'o', 't', 'e', 'H', 'i', 's', 't', 'o', 'r', 'y', 'R', 'e', 'q', 'u', 'e', 's', 't'] := by kernel_rfl

/-- The names of the blocks and variables of `GroupVoteHistoryRequest`. -/
def b408 : List (List Char × List (List Char)) :=
  [(['A', 'g', 'e', 'n', 't', 'D', 'a', 't', 'a'], [['A', 'g', 'e', 'n', 't', 'I', 'D'], ['S', 'e', 's', 's', 'i', 'o', 'n', 'I', 'D']]),
   (['G', 'r', 'o', 'u', 'p', 'D', 'a', 't', 'a'], [['G', 'r', 'o', 'u', 'p', 'I', 'D']]),
   (['T', 'r', 'a', 'n', 's', 'a', 'c', 't', 'i', 'o', 'n', 'D', 'a', 't', 'a'], [['T', 'r', 'a', 'n', 's', 'a', 'c', 't', 'i', 'o', 'n', 'I', 'D']])]

theorem w408 : Checked t408 := ⟨b408, by kernel_rfl, by kernel_rfl, by kernel_rfl⟩

/-- Lines of `message_template.msg` up to the end of `GroupVoteHistoryItemReply`. -/
def c409 : List (List Char) :=
  [chars! "",
   chars! "// GroupVoteHistoryItemReply",
   chars! "// dataserver -> simulator -> viewer",
   chars! "// reliable",
   chars! "{",
   chars! "\tGroupVoteHistoryItemReply Low 362 Trusted Zerocoded",
   chars! "\t{",
   chars! "\t\tAgentData\tSingle",
   chars! "\t\t{\tAgentID\t\t\tLLUUID\t\t\t}",
   chars! "\t\t{\tGroupID\t\t\tLLUUID\t\t\t}",
   chars! "\t}",
   chars! "\t{",
   chars! "\t\tTransactionData Single",
   chars! "\t\t{\tTransactionID\tLLUUID\t}",
   chars! "\t\t{\tTotalNumItems\tU32\t\t}",
   chars! "\t}",
   chars! "\t{",
   chars! "\t\tHistoryItemData\tSingle",
   chars! "\t\t{\tVoteID\t\t\tLLUUID\t\t\t}",
   chars! "\t\t{\tTerseDateID\t\tVariable\t1\t} // string",
   chars! "\t\t{\tStartDateTime\tVariable\t1\t}\t// string",
   chars! "\t\t{\tEndDateTime\t\tVariable\t1\t}\t// string",
   chars! "\t\t{\tVoteInitiator\tLLUUID\t\t\t}",
   chars! "\t\t{\tVoteType\t\tVariable\t1\t}\t// string",
   chars! "\t\t{\tVoteResult\t\tVariable\t1\t}\t// string",
   chars! "\t\t{\tMajority\tF32\t\t}",
   chars! "\t\t{\tQuorum\t\tS32\t\t}",
   chars! "\t\t{\tProposalText\tVariable\t2\t}\t// string",
   chars! "\t}",
   chars! "\t{",
   chars! "\t\tVoteItem\tVariable",
   chars! "\t\t{\tCandidateID\t\tLLUUID\t\t}",
   chars! "\t\t{\tVoteCast\t\tVariable\t1\t}\t// string",
   chars! "\t\t{\tNumVotes\t\tS32\t\t}",
   chars! "\t}",
   chars! "}"]

/-- `GroupVoteHistoryItemReply` as the parser creates it. -/
def r409 : RawTemplate :=
  ⟨"GroupVoteHistoryItemReply", .low, 362, [255, 255, 106], some .trusted, some .zerocoded, some .notDeprecated,
    [⟨"VoteItem", .variable, 0, [⟨"NumVotes", some .s32, some 4⟩, ⟨"VoteCast", some .variable, some 1⟩, ⟨"CandidateID", some .uuid, some 16⟩]⟩,
     ⟨"HistoryItemData", .single, 0, [⟨"ProposalText", some .variable, some 2⟩, ⟨"Quorum", some .s32, some 4⟩, ⟨"Majority", some .f32, some 4⟩, ⟨"VoteResult", some .variable, some 1⟩, ⟨"VoteType", some .variable, some 1⟩, ⟨"VoteInitiator", some .uuid, some 16⟩, ⟨"EndDateTime", some .variable, some 1⟩, ⟨"StartDateTime", some .variable, some 1⟩, ⟨"TerseDateID", some .variable, some 1⟩, ⟨"VoteID", some .uuid, some 16⟩]⟩,
     ⟨"TransactionData", .single, 0, [⟨"TotalNumItems", some .u32, some 4⟩, ⟨"TransactionID", some .uuid, some 16⟩]⟩,
     ⟨"AgentData", .single, 0, [⟨"GroupID", some .uuid, some 16⟩, ⟨"AgentID", some .uuid, some 16⟩]⟩]⟩

/-- `GroupVoteHistoryItemReply` in file order. -/
def t409 : Template :=
  ⟨"GroupVoteHistoryItemReply", .low, 362, [], some .trusted, some .zerocoded, some .notDeprecated,
    [⟨"AgentData", .single, 0, [⟨"AgentID", .uuid, 16⟩, ⟨"GroupID", .uuid, 16⟩]⟩,
     ⟨"TransactionData", .single, 0, [⟨"TransactionID", .uuid, 16⟩, ⟨"TotalNumItems", .u32, 4⟩]⟩,
     ⟨"HistoryItemData", .single, 0, [⟨"VoteID", .uuid, 16⟩, ⟨"TerseDateID", .variable, 1⟩, ⟨"StartDateTime", .variable, 1⟩, ⟨"EndDateTime", .variable, 1⟩, ⟨"VoteInitiator", .uuid, 16⟩, ⟨"VoteType", .variable, 1⟩, ⟨"VoteResult", .variable, 1⟩, ⟨"Majority", .f32, 4⟩, ⟨"Quorum", .s32, 4⟩, ⟨"ProposalText", .variable, 2⟩]⟩,
     ⟨"VoteItem", .variable, 0, [⟨"CandidateID", .uuid, 16⟩, ⟨"VoteCast", .variable, 1⟩, ⟨"NumVotes", .s32, 4⟩]⟩]⟩

theorem p409 : ChunkOk c409 r409 := by intro v older; kernel_rfl
theorem k409 : r409.known = some t409 := by kernel_rfl
theorem n409 : t409.name = String.ofList ['G', 'r', 'o', 'u', 'p', 'V', 'o', 't', 'e', 'H', 'i', 's', 't', 'o', 'r', 'y', 'I', 't', 'e', 'm', 'R', 'e', 'p', 'l', 'y'] := by kernel_rfl

/-- The names of the blocks and variables of `GroupVoteHistoryItemReply`. -/
def b409 : List (List Char × List (List Char)) :=
  [(['A', 'g', 'e', 'n', 't', 'D', 'a', 't', 'a'], [['A', 'g', 'e', 'n', 't', 'I', 'D'], ['G', 'r', 'o', 'u', 'p', 'I', 'D']]),
   (['T', 'r', 'a', 'n', 's', 'a', 'c', 't', 'i', 'o', 'n', 'D', 'a', 't', 'a'], [['T', 'r', 'a', 'n', 's', 'a', 'c', 't', 'i', 'o', 'n', 'I', 'D'], ['T', 'o', 't', 'a', 'l', 'N', 'u', 'm', 'I', 't', 'e', 'm', 's']]),
   (['H', 'i', 's', 't', 'o', 'r', 'y', 'I', 't', 'e', 'm', 'D', 'a', 't', 'a'], [['V', 'o', 't', 'e', 'I', 'D'], ['T', 'e', 'r', 's', 'e', 'D', 'a', 't', 'e', 'I', 'D'], ['S', 't', 'a', 'r', 't', 'D', 'a', 't', 'e', 'T', 'i', 'm', 'e'], ['E', 'n', 'd', 'D', 'a', 't', 'e', 'T', 'i', 'm', 'e'], ['V', 'o', 't', 'e', 'I', 'n', 'i', 't', 'i', 'a', 't', 'o', 'r'], ['V', 'o', 't', 'e', 'T', 'y', 'p', 'e'], ['V', 'o', 't', 'e', 'R', 'e', 's', 'u', 'l', 't'], ['M', 'a', 'j', 'o', 'r', 'i', 't', 'y'], ['Q', 'u', 'o', 'r', 'u', 'm'], ['P', 'r', 'o', 'p', 'o', 's', 'a', 'l', 'T', 'e', 'x', 't']]),
   (['V', 'o', 't', 'e', 'I', 't', 'e', 'm'], [['C', 'a', 'n', 'd', 'i', 'd', 'a', 't', 'e', 'I', 'D'], ['V', 'o', 't', 'e', 'C', 'a', 's', 't'], ['N', 'u', 'm', 'V', 'o', 't', 'e', 's']])]

theorem w409 : Checked t409 := ⟨b409, by kernel_rfl, by kernel_rfl, by kernel_rfl⟩

/-- Lines of `message_template.msg` up to the end of `StartGroupProposal`. -/
def c410 : List (List Char) :=
  [chars! "",
   chars! "// StartGroupProposal",
   chars! "// viewer -> simulator -> dataserver",
   chars! "// reliable",
   chars! "{",
   chars! "\tStartGroupProposal Low 363 NotTrusted Zerocoded UDPDeprecated",
   chars! "\t{",
   chars! "\t\tAgentData\t\tSingle",
   chars! "\t\t{\tAgentID\t\tLLUUID\t}",
   chars! "\t\t{\tSessionID\tLLUUID\t}",
   chars! "\t}",
   chars! "\t{",
   chars! "\t\tProposalData\t\tSingle",
   chars! "\t\t{\tGroupID\t\t\tLLUUID\t\t\t}",
   chars! "\t\t{\tQuorum\t\t\tS32\t\t\t\t}",
   chars! "\t\t{\tMajority\t\tF32\t\t\t\t}\t// F32",
   chars! "\t\t{\tDuration\t\tS32\t\t\t\t}\t// S32, seconds",
   chars! "\t\t{\tProposalText\tVariable\t1\t}\t// string",
   chars! "\t}",
   chars! "}"]

/-- `StartGroupProposal` as the parser creates it. -/
def r410 : RawTemplate :=
  ⟨"StartGroupProposal", .low, 363, [255, 255, 107], some .notTrusted, some .zerocoded, some .udpDeprecated,
    [⟨"ProposalData", .single, 0, [⟨"ProposalText", some .variable, some 1⟩, ⟨"Duration", some .s32, some 4⟩, ⟨"Majority", some .f32, some 4⟩, ⟨"Quorum", some .s32, some 4⟩, ⟨"GroupID", some .uuid, some 16⟩]⟩,
     ⟨"AgentData", .single, 0, [⟨"SessionID", some .uuid, some 16⟩, ⟨"AgentID", some .uuid, some 16⟩]⟩]⟩

/-- `StartGroupProposal` in file order. -/
def t410 : Template :=
  ⟨"StartGroupProposal", .low, 363, [], some .notTrusted, some .zerocoded, some .udpDeprecated,
    [⟨"AgentData", .single, 0, [⟨"AgentID", .uuid, 16⟩, ⟨"SessionID", .uuid, 16⟩]⟩,
     ⟨"ProposalData", .single, 0, [⟨"GroupID", .uuid, 16⟩, ⟨"Quorum", .s32, 4⟩, ⟨"Majority", .f32, 4⟩, ⟨"Duration", .s32, 4⟩, ⟨"ProposalText", .variable, 1⟩]⟩]⟩

theorem p410 : ChunkOk c410 r410 := by intro v older; kernel_rfl
theorem k410 : r410.known = some t410 := by kernel_rfl
theorem n410 : t410.name = String.ofList ['S', 't', 'a', 'r', 't', 'G', 'r', 'o', 'u', 'p', 'P', 'r', 'o', 'p', 'o', 's', 'a', 'l'] := by kernel_rfl

/-- The names of the blocks and variables of `StartGroupProposal`. -/
def b410 : List (List Char × List (List Char)) :=
  [(['A', 'g', 'e', 'n', 't', 'D', 'a', 't', 'a'], [['A', 'g', 'e', 'n', 't', 'I', 'D'], ['S', 'e', 's', 's', 'i', 'o', 'n', 'I', 'D']]),
   (['P', 'r', 'o', 'p', 'o', 's', 'a', 'l', 'D', 'a', 't', 'a'], [['G', 'r', 'o', 'u', 'p', 'I', 'D'], ['Q', 'u', 'o', 'r', 'u', 'm'], ['M', 'a', 'j', 'o', 'r', 'i', 't', 'y'], ['D', 'u', 'r', 'a', 't', 'i', 'o', 'n'], ['P', 'r', 'o', 'p', 'o', 's', 'a', 'l', 'T', 'e', 'x', 't']])]

theorem w410 : Checked t410 := ⟨b410, by kernel_rfl, by kernel_rfl, by kernel_rfl⟩

/-- Lines of `message_template.msg` up to the end of `GroupProposalBallot`. -/
def c411 : List (List Char) :=
  [chars! "",
   chars! "// GroupProposalBallot",
   chars! "// viewer -> simulator -> dataserver",
   chars! "// reliable",
   chars! "{",
   chars! "\tGroupProposalBallot Low 364 NotTrusted Unencoded UDPDeprecated",
   chars! "\t{",
   chars! "\t\tAgentData\t\tSingle",
   chars! "\t\t{\tAgentID\t\tLLUUID\t\t\t}",
   chars! "\t\t{\tSessionID\tLLUUID\t}",
   chars! "\t}",
   chars! "\t{",
   chars! "\t\tProposalData\t\tSingle",
   chars! "\t\t{\tProposalID\t\tLLUUID\t\t\t}",
   chars! "\t\t{\tGroupID\t\t\tLLUUID\t\t\t}",
   chars! "\t\t{\tVoteCast\t\tVariable\t1\t}\t// string",
   chars! "\t}",
   chars! "}"]

/-- `GroupProposalBallot` as the parser creates it. -/
def r411 : RawTemplate :=
  ⟨"GroupProposalBallot", .low, 364, [255, 255, 108], some .notTrusted, some .unencoded, some .udpDeprecated,
    [⟨"ProposalData", .single, 0, [⟨"VoteCast", some .variable, some 1⟩, ⟨"GroupID", some .uuid, some 16⟩, ⟨"ProposalID", some .uuid, some 16⟩]⟩,
     ⟨"AgentData", .single, 0, [⟨"SessionID", some .uuid, some 16⟩, ⟨"AgentID", some .uuid, some 16⟩]⟩]⟩

/-- `GroupProposalBallot` in file order. -/
def t411 : Template :=
  ⟨"GroupProposalBallot", .low, 364, [], some .notTrusted, some .unencoded, some .udpDeprecated,
    [⟨"AgentData", .single, 0, [⟨"AgentID", .uuid, 16⟩, ⟨"SessionID", .uuid, 16⟩]⟩,
     ⟨"ProposalData", .single, 0, [⟨"ProposalID", .uuid, 16⟩, ⟨"GroupID", .uuid, 16⟩, ⟨"VoteCast", .variable, 1⟩]⟩]⟩

theorem p411 : ChunkOk c411 r411 := by intro v older; kernel_rfl
theorem k411 : r411.known = some t411 := by kernel_rfl
theorem n411 : t411.name = String.ofList ['G', 'r', 'o', 'u', 'p', 'P', 'r', 'o', 'p', 'o', 's', 'a', 'l', 'B', 'a', 'l', 'l', 'o', 't'] := by kernel_rfl

/-- The names of the blocks and variables of `GroupProposalBallot`. -/
def b411 : List (List Char × List (List Char)) :=
  [(['A', 'g', 'e', 'n', 't', 'D', 'a', 't', 'a'], [['A', 'g', 'e', 'n', 't', 'I', 'D'], ['S', 'e', 's', 's', 'i', 'o', 'n', 'I', 'D']]),
   (['P', 'r', 'o', 'p', 'o', 's', 'a', 'l', 'D', 'a', 't', 'a'], [['P', 'r', 'o', 'p', 'o', 's', 'a', 'l', 'I', 'D'], ['G', 'r', 'o', 'u', 'p', 'I', 'D'], ['V', 'o', 't', 'e', 'C', 'a', 's', 't']])]

theorem w411 : Checked t411 := ⟨b411, by kernel_rfl, by kernel_rfl, by kernel_rfl⟩

/-- Lines of `message_template.msg` up to the end of `TallyVotes`. -/
def c412 : List (List Char) :=
  [chars! "",
   chars! "// TallyVotes userserver -> dataserver",
   chars! "// reliable",
   chars! "{",
   chars! "\tTallyVotes\tLow\t365 Trusted Unencoded",
   chars! "}"]

/-- `TallyVotes` as the parser creates it. -/
def r412 : RawTemplate :=
  ⟨"TallyVotes", .low, 365, [255, 255, 109], some .trusted, some .unencoded, some .notDeprecated,
    []⟩

/-- `TallyVotes` in file order. -/
def t412 : Template :=
  ⟨"TallyVotes", .low, 365, [], some .trusted, some .unencoded, some .notDeprecated,
    []⟩

theorem p412 : ChunkOk c412 r412 := by intro v older; kernel_rfl
theorem k412 : r412.known = some t412 := by kernel_rfl
theorem n412 : t412.name = String.ofList ['T', 'a', 'l', 'l', 'y', 'V', 'o', 't', 'e', 's'] := by kernel_rfl

/-- The names of the blocks and variables of `TallyVotes`. -/
def b412 : List (List Char × List (List Char)) :=
  []

theorem w412 : Checked t412 := ⟨b412, by kernel_rfl, by kernel_rfl, by kernel_rfl⟩

/-- Lines of `message_template.msg` up to the end of `GroupMembersRequest`. -/
def c413 : List (List Char) :=
  [chars! "",
   chars! "",
   chars! "",
   chars! "// GroupMembersRequest",
   chars! "// get the group members",
   chars! "// simulator -> dataserver",
   chars! "// reliable",
   chars! "{",
   chars! "\tGroupMembersRequest Low 366 NotTrusted Unencoded",
   chars! "\t{",
   chars! "\t\tAgentData\t\tSingle",
   chars! "\t\t{\tAgentID\t\tLLUUID\t}",
   chars! "\t\t{\tSessionID\tLLUUID\t}",
   chars! "\t}",
   chars! "\t{",
   chars! "\t\tGroupData\t\tSingle",
   chars! "\t\t{\tGroupID\t\tLLUUID\t}",
   chars! "\t\t{   RequestID\tLLUUID\t}",
   chars! "\t}",
   chars! "}"]

/-- `GroupMembersRequest` as the parser creates it. -/
def r413 : RawTemplate :=
  ⟨"GroupMembersRequest", .low, 366, [255, 255, 110], some .notTrusted, some .unencoded, some .notDeprecated,
    [⟨"GroupData", .single, 0, [⟨"RequestID", some .uuid, some 16⟩, ⟨"GroupID", some .uuid, some 16⟩]⟩,
     ⟨"AgentData", .single, 0, [⟨"SessionID", some .uuid, some 16⟩, ⟨"AgentID", some .uuid, some 16⟩]⟩]⟩

/-- `GroupMembersRequest` in file order. -/
def t413 : Template :=
  ⟨"GroupMembersRequest", .low, 366, [], some .notTrusted, some .unencoded, some .notDeprecated,
    [⟨"AgentData", .single, 0, [⟨"AgentID", .uuid, 16⟩, ⟨"SessionID", .uuid, 16⟩]⟩,
     ⟨"GroupData", .single, 0, [⟨"GroupID", .uuid, 16⟩, ⟨"RequestID", .uuid, 16⟩]⟩]⟩

theorem p413 : ChunkOk c413 r413 := by intro v older; kernel_rfl
theorem k413 : r413.known = some t413 := by kernel_rfl
theorem n413 : t413.name = String.ofList ['G', 'r', 'o', 'u', 'p', 'M', 'e', 'm', 'b', 'e', 'r', 's', 'R', 'e', 'q', 'u', 'e', 's', 't'] := by kernel_rfl

/-- The names of the blocks and variables of `GroupMembersRequest`. -/
def b413 : List (List Char × List (List Char)) :=
  [(['A', 'g', 'e', 'n', 't', 'D', 'a', 't', 'a'], [['A', 'g', 'e', 'n', 't', 'I', 'D'], ['S', 'e', 's', 's', 'i', 'o', 'n', 'I', 'D']]),
   (['G', 'r', 'o', 'u', 'p', 'D', 'a', 't', 'a'], [['G', 'r', 'o', 'u', 'p', 'I', 'D'], ['R', 'e', 'q', 'u', 'e', 's', 't', 'I', 'D']])]

theorem w413 : Checked t413 := ⟨b413, by kernel_rfl, by kernel_rfl, by kernel_rfl⟩

/-- Lines of `message_template.msg` up to the end of `GroupMembersReply`. -/
def c414 : List (List Char) :=
  [chars! "",
   chars! "// GroupMembersReply",
   chars! "// list of uuids for the group members",
   chars! "// dataserver -> simulator",
   chars! "// reliable",
   chars! "{",
   chars! "\tGroupMembersReply Low 367 Trusted Zerocoded",
   chars! "\t{",
   chars! "\t\tAgentData\t\tSingle",
   chars! "\t\t{\tAgentID\t\tLLUUID\t}",
   chars! "\t}",
   chars! "\t{",
   chars! "\t\tGroupData\t\tSingle",
   chars! "\t\t{\tGroupID\t\tLLUUID\t}",
   chars! "\t\t{   RequestID\tLLUUID\t}",
   chars! "\t\t{\tMemberCount\tS32\t\t}",
   chars! "\t}",
   chars! "\t{",
   chars! "\t\tMemberData\t\tVariable",
   chars! "\t\t{\tAgentID\t\tLLUUID\t}",
   chars! "\t\t{\tContribution\tS32\t}",
   chars! "\t\t{\tOnlineStatus\tVariable\t1\t}\t// string",
   chars! "\t\t{\tAgentPowers\t\tU64\t}",
   chars! "\t\t{\tTitle\t\t\tVariable\t1\t}\t// string",
   chars! "\t\t{\tIsOwner\t\t\tBOOL\t}",
   chars! "\t}",
   chars! "}"]

/-- `GroupMembersReply` as the parser creates it. -/
def r414 : RawTemplate :=
  ⟨"GroupMembersReply", .low, 367, [255, 255, 111], some .trusted, some .zerocoded, some .notDeprecated,
    [⟨"MemberData", .variable, 0, [⟨"IsOwner", some .bool, some 1⟩, ⟨"Title", some .variable, some 1⟩, ⟨"AgentPowers", some .u64, some 8⟩, ⟨"OnlineStatus", some .variable, some 1⟩, ⟨"Contribution", some .s32, some 4⟩, ⟨"AgentID", some .uuid, some 16⟩]⟩,
     ⟨"GroupData", .single, 0, [⟨"MemberCount", some .s32, some 4⟩, ⟨"RequestID", some .uuid, some 16⟩, ⟨"GroupID", some .uuid, some 16⟩]⟩,
     ⟨"AgentData", .single, 0, [⟨"AgentID", some .uuid, some 16⟩]⟩]⟩

/-- `GroupMembersReply` in file order. -/
def t414 : Template :=
  ⟨"GroupMembersReply", .low, 367, [], some .trusted, some .zerocoded, some .notDeprecated,
    [⟨"AgentData", .single, 0, [⟨"AgentID", .uuid, 16⟩]⟩,
     ⟨"GroupData", .single, 0, [⟨"GroupID", .uuid, 16⟩, ⟨"RequestID", .uuid, 16⟩, ⟨"MemberCount", .s32, 4⟩]⟩,
     ⟨"MemberData", .variable, 0, [⟨"AgentID", .uuid, 16⟩, ⟨"Contribution", .s32, 4⟩, ⟨"OnlineStatus", .variable, 1⟩, ⟨"AgentPowers", .u64, 8⟩, ⟨"Title", .variable, 1⟩, ⟨"IsOwner", .bool, 1⟩]⟩]⟩

theorem p414 : ChunkOk c414 r414 := by intro v older; kernel_rfl
theorem k414 : r414.known = some t414 := by kernel_rfl
theorem n414 : t414.name = String.ofList ['G', 'r', 'o', 'u', 'p', 'M', 'e', 'm', 'b', 'e', 'r', 's', 'R', 'e', 'p', 'l', 'y'] := by kernel_rfl

/-- The names of the blocks and variables of `GroupMembersReply`. -/
def b414 : List (List Char × List (List Char)) :=
  [(['A', 'g', 'e', 'n', 't', 'D', 'a', 't', 'a'], [['A', 'g', 'e', 'n', 't', 'I', 'D']]),
   (['G', 'r', 'o', 'u', 'p', 'D', 'a', 't', 'a'], [['G', 'r', 'o', 'u', 'p', 'I', 'D'], ['R', 'e', 'q', 'u', 'e', 's', 't', 'I', 'D'], ['M', 'e', 'm', 'b', 'e', 'r', 'C', 'o', 'u', 'n', 't']]),
   (['M', 'e', 'm', 'b', 'e', 'r', 'D', 'a', 't', 'a'], [['A', 'g', 'e', 'n', 't', 'I', 'D'], ['C', 'o', 'n', 't', 'r', 'i', 'b', 'u', 't', 'i', 'o', 'n'], ['O', 'n', 'l', 'i', 'n', 'e', 'S', 't', 'a', 't', 'u', 's'], ['A', 'g', 'e', 'n', 't', 'P', 'o', 'w', 'e', 'r', 's'], ['T', 'i', 't', 'l', 'e'], ['I', 's', 'O', 'w', 'n', 'e', 'r']])]

theorem w414 : Checked t414 := ⟨b414, by kernel_rfl, by kernel_rfl, by kernel_rfl⟩

/-- Lines of `message_template.msg` up to the end of `ActivateGroup`. -/
def c415 : List (List Char) :=
  [chars! "",
   chars! "// used to switch an agent's currently active group.",
   chars! "// viewer -> simulator -> dataserver -> AgentDataUpdate...",
   chars! "{",
   chars! "\tActivateGroup\tLow\t368 NotTrusted Zerocoded",
   chars! "\t{",
   chars! "\t\tAgentData\tSingle",
   chars! "\t\t{\tAgentID\t\tLLUUID\t}",
   chars! "\t\t{\tSessionID\tLLUUID\t}",
   chars! "\t\t{\tGroupID\t\tLLUUID\t}",
   chars! "\t}",
   chars! "}"]

/-- `ActivateGroup` as the parser creates it. -/
def r415 : RawTemplate :=
  ⟨"ActivateGroup", .low, 368, [255, 255, 112], some .notTrusted, some .zerocoded, some .notDeprecated,
    [⟨"AgentData", .single, 0, [⟨"GroupID", some .uuid, some 16⟩, ⟨"SessionID", some .uuid, some 16⟩, ⟨"AgentID", some .uuid, some 16⟩]⟩]⟩

/-- `ActivateGroup` in file order. -/
def t415 : Template :=
  ⟨"ActivateGroup", .low, 368, [], some .notTrusted, some .zerocoded, some .notDeprecated,
    [⟨"AgentData", .single, 0, [⟨"AgentID", .uuid, 16⟩, ⟨"SessionID", .uuid, 16⟩, ⟨"GroupID", .uuid, 16⟩]⟩]⟩

theorem p415 : ChunkOk c415 r415 := by intro v older; kernel_rfl
theorem k415 : r415.known = some t415 := by kernel_rfl
theorem n415 : t415.name = String.ofList ['A', 'c', 't', 'i', 'v', 'a', 't', 'e', 'G', 'r', 'o', 'u', 'p'] := by kernel_rfl

/-- The names of the blocks and variables of `ActivateGroup`. -/
def b415 : List (List Char × List (List Char)) :=
  [(['A', 'g', 'e', 'n', 't', 'D', 'a', 't', 'a'], [['A', 'g', 'e', 'n', 't', 'I', 'D'], ['S', 'e', 's', 's', 'i', 'o', 'n', 'I', 'D'], ['G', 'r', 'o', 'u', 'p', 'I', 'D']])]

theorem w415 : Checked t415 := ⟨b415, by kernel_rfl, by kernel_rfl, by kernel_rfl⟩

/-- Lines of `message_template.msg` up to the end of `SetGroupContribution`. -/
def c416 : List (List Char) :=
  [chars! "",
   chars! "// viewer -> simulator -> dataserver",
   chars! "{",
   chars! "\tSetGroupContribution Low 369 NotTrusted Unencoded",
   chars! "\t{",
   chars! "\t\tAgentData\tSingle",
   chars! "\t\t{\tAgentID\t\tLLUUID\t}",
   chars! "\t\t{\tSessionID\tLLUUID\t}",
   chars! "\t}",
   chars! "\t{",
   chars! "\t\tData\tSingle",
   chars! "\t\t{\tGroupID\t\tLLUUID\t}",
   chars! "\t\t{\tContribution\tS32\t}",
   chars! "\t}",
   chars! "}"]

/-- `SetGroupContribution` as the parser creates it. -/
def r416 : RawTemplate :=
  ⟨"SetGroupContribution", .low, 369, [255, 255, 113], some .notTrusted, some .unencoded, some .notDeprecated,
    [⟨"Data", .single, 0, [⟨"Contribution", some .s32, some 4⟩, ⟨"GroupID", some .uuid, some 16⟩]⟩,
     ⟨"AgentData", .single, 0, [⟨"SessionID", some .uuid, some 16⟩, ⟨"AgentID", some .uuid, some 16⟩]⟩]⟩

/-- `SetGroupContribution` in file order. -/
def t416 : Template :=
  ⟨"SetGroupContribution", .low, 369, [], some .notTrusted, some .unencoded, some .notDeprecated,
    [⟨"AgentData", .single, 0, [⟨"AgentID", .uuid, 16⟩, ⟨"SessionID", .uuid, 16⟩]⟩,
     ⟨"Data", .single, 0, [⟨"GroupID", .uuid, 16⟩, ⟨"Contribution", .s32, 4⟩]⟩]⟩

theorem p416 : ChunkOk c416 r416 := by intro v older; kernel_rfl
theorem k416 : r416.known = some t416 := by kernel_rfl
theorem n416 : t416.name = String.ofList ['S', 'e', 't', 'G', 'r', 'o', 'u', 'p', 'C', 'o', 'n', 't', 'r', 'i', 'b', 'u', 't', 'i', 'o', 'n'] := by kernel_rfl

/-- The names of the blocks and variables of `SetGroupContribution`. -/
def b416 : List (List Char × List (List Char)) :=
  [(['A', 'g', 'e', 'n', 't', 'D', 'a', 't', 'a'], [['A', 'g', 'e', 'n', 't', 'I', 'D'], ['S', 'e', 's', 's', 'i', 'o', 'n', 'I', 'D']]),
   (['D', 'a', 't', 'a'], [['G', 'r', 'o', 'u', 'p', 'I', 'D'], ['C', 'o', 'n', 't', 'r', 'i', 'b', 'u', 't', 'i', 'o', 'n']])]

theorem w416 : Checked t416 := ⟨b416, by kernel_rfl, by kernel_rfl, by kernel_rfl⟩

/-- Lines of `message_template.msg` up to the end of `SetGroupAcceptNotices`. -/
def c417 : List (List Char) :=
  [chars! "",
   chars! "// viewer -> simulator -> dataserver",
   chars! "{",
   chars! "\tSetGroupAcceptNotices Low 370 NotTrusted Unencoded",
   chars! "\t{",
   chars! "\t\tAgentData\tSingle",
   chars! "\t\t{\tAgentID\t\tLLUUID\t}",
   chars! "\t\t{\tSessionID\tLLUUID\t}",
   chars! "\t}",
   chars! "\t{",
   chars! "\t\tData\tSingle",
   chars! "\t\t{\tGroupID\t\tLLUUID\t}",
   chars! "\t\t{\tAcceptNotices\tBOOL\t}",
   chars! "\t}",
   chars! "\t{",
   chars! "\t\tNewData\t\t\t\tSingle",
   chars! "\t\t{\tListInProfile\tBOOL\t}",
   chars! "\t}",
   chars! "}"]

/-- `SetGroupAcceptNotices` as the parser creates it. -/
def r417 : RawTemplate :=
  ⟨"SetGroupAcceptNotices", .low, 370, [255, 255, 114], some .notTrusted, some .unencoded, some .notDeprecated,
    [⟨"NewData", .single, 0, [⟨"ListInProfile", some .bool, some 1⟩]⟩,
     ⟨"Data", .single, 0, [⟨"AcceptNotices", some .bool, some 1⟩, ⟨"GroupID", some .uuid, some 16⟩]⟩,
     ⟨"AgentData", .single, 0, [⟨"SessionID", some .uuid, some 16⟩, ⟨"AgentID", some .uuid, some 16⟩]⟩]⟩

/-- `SetGroupAcceptNotices` in file order. -/
def t417 : Template :=
  ⟨"SetGroupAcceptNotices", .low, 370, [], some .notTrusted, some .unencoded, some .notDeprecated,
    [⟨"AgentData", .single, 0, [⟨"AgentID", .uuid, 16⟩, ⟨"SessionID", .uuid, 16⟩]⟩,
     ⟨"Data", .single, 0, [⟨"GroupID", .uuid, 16⟩, ⟨"AcceptNotices", .bool, 1⟩]⟩,
     ⟨"NewData", .single, 0, [⟨"ListInProfile", .bool, 1⟩]⟩]⟩

theorem p417 : ChunkOk c417 r417 := by intro v older; kernel_rfl
theorem k417 : r417.known = some t417 := by kernel_rfl
theorem n417 : t417.name = String.ofList ['S', 'e', 't', 'G', 'r', 'o', 'u', 'p', 'A', 'c', 'c', 'e', 'p', 't', 'N', 'o', 't', 'i', 'c', 'e', 's'] := by kernel_rfl

/-- The names of the blocks and variables of `SetGroupAcceptNotices`. -/
def b417 : List (List Char × List (List Char)) :=
  [(['A', 'g', 'e', 'n', 't', 'D', 'a', 't', 'a'], [['A', 'g', 'e', 'n', 't', 'I', 'D'], ['S', 'e', 's', 's', 'i', 'o', 'n', 'I', 'D']]),
   (['D', 'a', 't', 'a'], [['G', 'r', 'o', 'u', 'p', 'I', 'D'], ['A', 'c', 'c', 'e', 'p', 't', 'N', 'o', 't', 'i', 'c', 'e', 's']]),
   (['N', 'e', 'w', 'D', 'a', 't', 'a'], [['L', 'i', 's', 't', 'I', 'n', 'P', 'r', 'o', 'f', 'i', 'l', 'e']])]

theorem w417 : Checked t417 := ⟨b417, by kernel_rfl, by kernel_rfl, by kernel_rfl⟩

/-- Lines of `message_template.msg` up to the end of `GroupRoleDataRequest`. -/
def c418 : List (List Char) :=
  [chars! "",
   chars! "// GroupRoleDataRequest",
   chars! "// viewer -> simulator -> dataserver",
   chars! "{",
   chars! "\tGroupRoleDataRequest Low\t371 NotTrusted\tUnencoded",
   chars! "\t{",
   chars! "\t\tAgentData\tSingle",
   chars! "\t\t{\tAgentID\t\tLLUUID\t}",
   chars! "\t\t{\tSessionID\tLLUUID\t}",
   chars! "\t}",
   chars! "\t{",
   chars! "\t\tGroupData\tSingle",
   chars! "\t\t{\tGroupID\t\tLLUUID\t}",
   chars! "\t\t{\tRequestID\tLLUUID\t}",
   chars! "\t}",
   chars! "}"]

/-- `GroupRoleDataRequest` as the parser creates it. -/
def r418 : RawTemplate :=
  ⟨"GroupRoleDataRequest", .low, 371, [255, 255, 115], some .notTrusted, some .unencoded, some .notDeprecated,
    [⟨"GroupData", .single, 0, [⟨"RequestID", some .uuid, some 16⟩, ⟨"GroupID", some .uuid, some 16⟩]⟩,
     ⟨"AgentData", .single, 0, [⟨"SessionID", some .uuid, some 16⟩, ⟨"AgentID", some .uuid, some 16⟩]⟩]⟩

/-- `GroupRoleDataRequest` in file order. -/
def t418 : Template :=
  ⟨"GroupRoleDataRequest", .low, 371, [], some .notTrusted, some .unencoded, some .notDeprecated,
    [⟨"AgentData", .single, 0, [⟨"AgentID", .uuid, 16⟩, ⟨"SessionID", .uuid, 16⟩]⟩,
     ⟨"GroupData", .single, 0, [⟨"GroupID", .uuid, 16⟩, ⟨"RequestID", .uuid, 16⟩]⟩]⟩

theorem p418 : ChunkOk c418 r418 := by intro v older; kernel_rfl
theorem k418 : r418.known = some t418 := by kernel_rfl
theorem n418 : t418.name = String.ofList ['G', 'r', 'o', 'u', 'p', 'R', 'o', 'l', 'e', 'D', 'a', 't', 'a', 'R', 'e', 'q', 'u', 'e', 's', 't'] := by kernel_rfl

/-- The names of the blocks and variables of `GroupRoleDataRequest`. -/
def b418 : List (List Char × List (List Char)) :=
  [(['A', 'g', 'e', 'n', 't', 'D', 'a', 't', 'a'], [['A', 'g', 'e', 'n', 't', 'I', 'D'], ['S', 'e', 's', 's', 'i', 'o', 'n', 'I', 'D']]),
   (['G', 'r', 'o', 'u', 'p', 'D', 'a', 't', 'a'], [['G', 'r', 'o', 'u', 'p', 'I', 'D'], ['R', 'e', 'q', 'u', 'e', 's', 't', 'I', 'D']])]

theorem w418 : Checked t418 := ⟨b418, by kernel_rfl, by kernel_rfl, by kernel_rfl⟩

/-- Lines of `message_template.msg` up to the end of `GroupRoleDataReply`. -/
def c419 : List (List Char) :=
  [chars! "",
   chars! "",
   chars! "// GroupRoleDataReply",
   chars! "// All role data for this group",
   chars! "// dataserver -> simulator -> agent",
   chars! "{",
   chars! "\tGroupRoleDataReply Low\t372 Trusted\tUnencoded",
   chars! "\t{",
   chars! "\t\tAgentData\tSingle",
   chars! "\t\t{\tAgentID\t\t\tLLUUID\t\t\t}",
   chars! "\t}",
   chars! "\t{",
   chars! "\t\tGroupData\t\tSingle",
   chars! "\t\t{\tGroupID\t\t\tLLUUID\t}",
   chars! "\t\t{\tRequestID\tLLUUID\t}",
   chars! "\t\t{\tRoleCount\tS32\t\t}",
   chars! "\t}",
   chars! "\t{",
   chars! "\t\tRoleData\tVariable",
   chars! "\t\t{\tRoleID\t\tLLUUID\t}",
   chars! "\t\t{\tName\t\tVariable\t1\t}",
   chars! "\t\t{\tTitle\t\tVariable\t1\t}",
   chars! "\t\t{\tDescription\tVariable\t1\t}",
   chars! "\t\t{\tPowers\t\tU64\t\t}",
   chars! "\t\t{\tMembers\t\tU32\t\t}",
   chars! "\t}",
   chars! "}"]

/-- `GroupRoleDataReply` as the parser creates it. -/
def r419 : RawTemplate :=
  ⟨"GroupRoleDataReply", .low, 372, [255, 255, 116], some .trusted, some .unencoded, some .notDeprecated,
    [⟨"RoleData", .variable, 0, [⟨"Members", some .u32, some 4⟩, ⟨"Powers", some .u64, some 8⟩, ⟨"Description", some .variable, some 1⟩, ⟨"Title", some .variable, some 1⟩, ⟨"Name", some .variable, some 1⟩, ⟨"RoleID", some .uuid, some 16⟩]⟩,
     ⟨"GroupData", .single, 0, [⟨"RoleCount", some .s32, some 4⟩, ⟨"RequestID", some .uuid, some 16⟩, ⟨"GroupID", some .uuid, some 16⟩]⟩,
     ⟨"AgentData", .single, 0, [⟨"AgentID", some .uuid, some 16⟩]⟩]⟩

/-- `GroupRoleDataReply` in file order. -/
def t419 : Template :=
  ⟨"GroupRoleDataReply", .low, 372, [], some .trusted, some .unencoded, some .notDeprecated,
    [⟨"AgentData", .single, 0, [⟨"AgentID", .uuid, 16⟩]⟩,
     ⟨"GroupData", .single, 0, [⟨"GroupID", .uuid, 16⟩, ⟨"RequestID", .uuid, 16⟩, ⟨"RoleCount", .s32, 4⟩]⟩,
     ⟨"RoleData", .variable, 0, [⟨"RoleID", .uuid, 16⟩, ⟨"Name", .variable, 1⟩, ⟨"Title", .variable, 1⟩, ⟨"Description", .variable, 1⟩, ⟨"Powers", .u64, 8⟩, ⟨"Members", .u32, 4⟩]⟩]⟩

theorem p419 : ChunkOk c419 r419 := by intro v older; kernel_rfl
theorem k419 : r419.known = some t419 := by kernel_rfl
theorem n419 : t419.name = String.ofList ['G', 'r', 'o', 'u', 'p', 'R', 'o', 'l', 'e', 'D', 'a', 't', 'a', 'R', 'e', 'p', 'l', 'y'] := by kernel_rfl

/-- The names of the blocks and variables of `GroupRoleDataReply`. -/
def b419 : List (List Char × List (List Char)) :=
  [(['A', 'g', 'e', 'n', 't', 'D', 'a', 't', 'a'], [['A', 'g', 'e', 'n', 't', 'I', 'D']]),
   (['G', 'r', 'o', 'u', 'p', 'D', 'a', 't', 'a'], [['G', 'r', 'o', 'u', 'p', 'I', 'D'], ['R', 'e', 'q', 'u', 'e', 's', 't', 'I', 'D'], ['R', 'o', 'l', 'e', 'C', 'o', 'u', 'n', 't']]),
   (['R', 'o', 'l', 'e', 'D', 'a', 't', 'a'], [['R', 'o', 'l', 'e', 'I', 'D'], ['N', 'a', 'm', 'e'], ['T', 'i', 't', 'l', 'e'], ['D', 'e', 's', 'c', 'r', 'i', 'p', 't', 'i', 'o', 'n'], ['P', 'o', 'w', 'e', 'r', 's'], ['M', 'e', 'm', 'b', 'e', 'r', 's']])]

theorem w419 : Checked t419 := ⟨b419, by kernel_rfl, by kernel_rfl, by kernel_rfl⟩

/-- Part 7 of the file. -/
def lines7 : List (List (List Char)) := [c360, c361, c362, c363, c364, c365, c366, c367, c368, c369, c370, c371, c372, c373, c374, c375, c376, c377, c378, c379, c380, c381, c382, c383, c384, c385, c386, c387, c388, c389, c390, c391, c392, c393, c394, c395, c396, c397, c398, c399, c400, c401, c402, c403, c404, c405, c406, c407, c408, c409, c410, c411, c412, c413, c414, c415, c416, c417, c418, c419]

/-- Part 7 of the templates, as parsed. -/
def raws7 : List RawTemplate := [r360, r361, r362, r363, r364, r365, r366, r367, r368, r369, r370, r371, r372, r373, r374, r375, r376, r377, r378, r379, r380, r381, r382, r383, r384, r385, r386, r387, r388, r389, r390, r391, r392, r393, r394, r395, r396, r397, r398, r399, r400, r401, r402, r403, r404, r405, r406, r407, r408, r409, r410, r411, r412, r413, r414, r415, r416, r417, r418, r419]

/-- Part 7 of the templates. -/
def templates7 : List Template := [t360, t361, t362, t363, t364, t365, t366, t367, t368, t369, t370, t371, t372, t373, t374, t375, t376, t377, t378, t379, t380, t381, t382, t383, t384, t385, t386, t387, t388, t389, t390, t391, t392, t393, t394, t395, t396, t397, t398, t399, t400, t401, t402, t403, t404, t405, t406, t407, t408, t409, t410, t411, t412, t413, t414, t415, t416, t417, t418, t419]

/-- The names in part 7. -/
def names7 : List (List Char) :=
  [['M', 'u', 't', 'e', 'L', 'i', 's', 't', 'U', 'p', 'd', 'a', 't', 'e'],
   ['U', 's', 'e', 'C', 'a', 'c', 'h', 'e', 'd', 'M', 'u', 't', 'e', 'L', 'i', 's', 't'],
   ['G', 'r', 'a', 'n', 't', 'U', 's', 'e', 'r', 'R', 'i', 'g', 'h', 't', 's'],
   ['C', 'h', 'a', 'n', 'g', 'e', 'U', 's', 'e', 'r', 'R', 'i', 'g', 'h', 't', 's'],
   ['O', 'n', 'l', 'i', 'n', 'e', 'N', 'o', 't', 'i', 'f', 'i', 'c', 'a', 't', 'i', 'o', 'n'],
   ['O', 'f', 'f', 'l', 'i', 'n', 'e', 'N', 'o', 't', 'i', 'f', 'i', 'c', 'a', 't', 'i', 'o', 'n'],
   ['S', 'e', 't', 'S', 't', 'a', 'r', 't', 'L', 'o', 'c', 'a', 't', 'i', 'o', 'n', 'R', 'e', 'q', 'u', 'e', 's', 't'],
   ['S', 'e', 't', 'S', 't', 'a', 'r', 't', 'L', 'o', 'c', 'a', 't', 'i', 'o', 'n'],
   ['N', 'e', 't', 'T', 'e', 's', 't'],
   ['S', 'e', 't', 'C', 'P', 'U', 'R', 'a', 't', 'i', 'o'],
   ['S', 'i', 'm', 'C', 'r', 'a', 's', 'h', 'e', 'd'],
   ['N', 'a', 'm', 'e', 'V', 'a', 'l', 'u', 'e', 'P', 'a', 'i', 'r'],
   ['R', 'e', 'm', 'o', 'v', 'e', 'N', 'a', 'm', 'e', 'V', 'a', 'l', 'u', 'e', 'P', 'a', 'i', 'r'],
   ['U', 'p', 'd', 'a', 't', 'e', 'A', 't', 't', 'a', 'c', 'h', 'm', 'e', 'n', 't'],
   ['R', 'e', 'm', 'o', 'v', 'e', 'A', 't', 't', 'a', 'c', 'h', 'm', 'e', 'n', 't'],
   ['S', 'o', 'u', 'n', 'd', 'T', 'r', 'i', 'g', 'g', 'e', 'r'],
   ['A', 't', 't', 'a', 'c', 'h', 'e', 'd', 'S', 'o', 'u', 'n', 'd'],
   ['A', 't', 't', 'a', 'c', 'h', 'e', 'd', 'S', 'o', 'u', 'n', 'd', 'G', 'a', 'i', 'n', 'C', 'h', 'a', 'n', 'g', 'e'],
   ['P', 'r', 'e', 'l', 'o', 'a', 'd', 'S', 'o', 'u', 'n', 'd'],
   ['A', 's', 's', 'e', 't', 'U', 'p', 'l', 'o', 'a', 'd', 'R', 'e', 'q', 'u', 'e', 's', 't'],
   ['A', 's', 's', 'e', 't', 'U', 'p', 'l', 'o', 'a', 'd', 'C', 'o', 'm', 'p', 'l', 'e', 't', 'e'],
   ['E', 'm', 'a', 'i', 'l', 'M', 'e', 's', 's', 'a', 'g', 'e', 'R', 'e', 'q', 'u', 'e', 's', 't'],
   ['E', 'm', 'a', 'i', 'l', 'M', 'e', 's', 's', 'a', 'g', 'e', 'R', 'e', 'p', 'l', 'y'],
   ['I', 'n', 't', 'e', 'r', 'n', 'a', 'l', 'S', 'c', 'r', 'i', 'p', 't', 'M', 'a', 'i', 'l'],
   ['S', 'c', 'r', 'i', 'p', 't', 'D', 'a', 't', 'a', 'R', 'e', 'q', 'u', 'e', 's', 't'],
   ['S', 'c', 'r', 'i', 'p', 't', 'D', 'a', 't', 'a', 'R', 'e', 'p', 'l', 'y'],
   ['C', 'r', 'e', 'a', 't', 'e', 'G', 'r', 'o', 'u', 'p', 'R', 'e', 'q', 'u', 'e', 's', 't'],
   ['C', 'r', 'e', 'a', 't', 'e', 'G', 'r', 'o', 'u', 'p', 'R', 'e', 'p', 'l', 'y'],
   ['U', 'p', 'd', 'a', 't', 'e', 'G', 'r', 'o', 'u', 'p', 'I', 'n', 'f', 'o'],
   ['G', 'r', 'o', 'u', 'p', 'R', 'o', 'l', 'e', 'C', 'h', 'a', 'n', 'g', 'e', 's'],
   ['J', 'o', 'i', 'n', 'G', 'r', 'o', 'u', 'p', 'R', 'e', 'q', 'u', 'e', 's', 't'],
   ['J', 'o', 'i', 'n', 'G', 'r', 'o', 'u', 'p', 'R', 'e', 'p', 'l', 'y'],
   ['E', 'j', 'e', 'c', 't', 'G', 'r', 'o', 'u', 'p', 'M', 'e', 'm', 'b', 'e', 'r', 'R', 'e', 'q', 'u', 'e', 's', 't'],
   ['E', 'j', 'e', 'c', 't', 'G', 'r', 'o', 'u', 'p', 'M', 'e', 'm', 'b', 'e', 'r', 'R', 'e', 'p', 'l', 'y'],
   ['L', 'e', 'a', 'v', 'e', 'G', 'r', 'o', 'u', 'p', 'R', 'e', 'q', 'u', 'e', 's', 't'],
   ['L', 'e', 'a', 'v', 'e', 'G', 'r', 'o', 'u', 'p', 'R', 'e', 'p', 'l', 'y'],
   ['I', 'n', 'v', 'i', 't', 'e', 'G', 'r', 'o', 'u', 'p', 'R', 'e', 'q', 'u', 'e', 's', 't'],
   ['I', 'n', 'v', 'i', 't', 'e', 'G', 'r', 'o', 'u', 'p', 'R', 'e', 's', 'p', 'o', 'n', 's', 'e'],
   ['G', 'r', 'o', 'u', 'p', 'P', 'r', 'o', 'f', 'i', 'l', 'e', 'R', 'e', 'q', 'u', 'e', 's', 't'],
   ['G', 'r', 'o', 'u', 'p', 'P', 'r', 'o', 'f', 'i', 'l', 'e', 'R', 'e', 'p', 'l', 'y'],
   ['G', 'r', 'o', 'u', 'p', 'A', 'c', 'c', 'o', 'u', 'n', 't', 'S', 'u', 'm', 'm', 'a', 'r', 'y', 'R', 'e', 'q', 'u', 'e', 's', 't'],
   ['G', 'r', 'o', 'u', 'p', 'A', 'c', 'c', 'o', 'u', 'n', 't', 'S', 'u', 'm', 'm', 'a', 'r', 'y', 'R', 'e', 'p', 'l', 'y'],
   ['G', 'r', 'o', 'u', 'p', 'A', 'c', 'c', 'o', 'u', 'n', 't', 'D', 'e', 't', 'a', 'i', 'l', 's', 'R', 'e', 'q', 'u', 'e', 's', 't'],
   ['G', 'r', 'o', 'u', 'p', 'A', 'c', 'c', 'o', 'u', 'n', 't', 'D', 'e', 't', 'a', 'i', 'l', 's', 'R', 'e', 'p', 'l', 'y'],
   ['G', 'r', 'o', 'u', 'p', 'A', 'c', 'c', 'o', 'u', 'n', 't', 'T', 'r', 'a', 'n', 's', 'a', 'c', 't', 'i', 'o', 'n', 's', 'R', 'e', 'q', 'u', 'e', 's', 't'],
   ['G', 'r', 'o', 'u', 'p', 'A', 'c', 'c', 'o', 'u', 'n', 't', 'T', 'r', 'a', 'n', 's', 'a', 'c', 't', 'i', 'o', 'n', 's', 'R', 'e', 'p', 'l', 'y'],
   ['G', 'r', 'o', 'u', 'p', 'A', 'c', 't', 'i', 'v', 'e', 'P', 'r', 'o', 'p', 'o', 's', 'a', 'l', 's', 'R', 'e', 'q', 'u', 'e', 's', 't'],
   ['G', 'r', 'o', 'u', 'p', 'A', 'c', 't', 'i', 'v', 'e', 'P', 'r', 'o', 'p', 'o', 's', 'a', 'l', 'I', 't', 'e', 'm', 'R', 'e', 'p', 'l', 'y'],
   ['G', 'r', 'o', 'u', 'p', 'V', 'o', 't', 'e', 'H', 'i', 's', 't', 'o', 'r', 'y', 'R', 'e', 'q', 'u', 'e', 's', 't'],
   ['G', 'r', 'o', 'u', 'p', 'V', 'o', 't', 'e', 'H', 'i', 's', 't', 'o', 'r', 'y', 'I', 't', 'e', 'm', 'R', 'e', 'p', 'l', 'y'],
   ['S', 't', 'a', 'r', 't', 'G', 'r', 'o', 'u', 'p', 'P', 'r', 'o', 'p', 'o', 's', 'a', 'l'],
   ['G', 'r', 'o', 'u', 'p', 'P', 'r', 'o', 'p', 'o', 's', 'a', 'l', 'B', 'a', 'l', 'l', 'o', 't'],
   ['T', 'a', 'l', 'l', 'y', 'V', 'o', 't', 'e', 's'],
   ['G', 'r', 'o', 'u', 'p', 'M', 'e', 'm', 'b', 'e', 'r', 's', 'R', 'e', 'q', 'u', 'e', 's', 't'],
   ['G', 'r', 'o', 'u', 'p', 'M', 'e', 'm', 'b', 'e', 'r', 's', 'R', 'e', 'p', 'l', 'y'],
   ['A', 'c', 't', 'i', 'v', 'a', 't', 'e', 'G', 'r', 'o', 'u', 'p'],
   ['S', 'e', 't', 'G', 'r', 'o', 'u', 'p', 'C', 'o', 'n', 't', 'r', 'i', 'b', 'u', 't', 'i', 'o', 'n'],
   ['S', 'e', 't', 'G', 'r', 'o', 'u', 'p', 'A', 'c', 'c', 'e', 'p', 't', 'N', 'o', 't', 'i', 'c', 'e', 's'],
   ['G', 'r', 'o', 'u', 'p', 'R', 'o', 'l', 'e', 'D', 'a', 't', 'a', 'R', 'e', 'q', 'u', 'e', 's', 't'],
   ['G', 'r', 'o', 'u', 'p', 'R', 'o', 'l', 'e', 'D', 'a', 't', 'a', 'R', 'e', 'p', 'l', 'y']]

theorem parsed7 : List.Forall₂ ChunkOk lines7 raws7 :=
  (.cons p360 (.cons p361 (.cons p362 (.cons p363 (.cons p364 (.cons p365 (.cons p366 (.cons p367 (.cons p368 (.cons p369 (.cons p370 (.cons p371 (.cons p372 (.cons p373 (.cons p374 (.cons p375 (.cons p376 (.cons p377 (.cons p378 (.cons p379 (.cons p380 (.cons p381 (.cons p382 (.cons p383 (.cons p384 (.cons p385 (.cons p386 (.cons p387 (.cons p388 (.cons p389 (.cons p390 (.cons p391 (.cons p392 (.cons p393 (.cons p394 (.cons p395 (.cons p396 (.cons p397 (.cons p398 (.cons p399 (.cons p400 (.cons p401 (.cons p402 (.cons p403 (.cons p404 (.cons p405 (.cons p406 (.cons p407 (.cons p408 (.cons p409 (.cons p410 (.cons p411 (.cons p412 (.cons p413 (.cons p414 (.cons p415 (.cons p416 (.cons p417 (.cons p418 (.cons p419 .nil))))))))))))))))))))))))))))))))))))))))))))))))))))))))))))

theorem known7 : List.Forall₂ (fun r t => RawTemplate.known r = some t) raws7 templates7 :=
  (.cons k360 (.cons k361 (.cons k362 (.cons k363 (.cons k364 (.cons k365 (.cons k366 (.cons k367 (.cons k368 (.cons k369 (.cons k370 (.cons k371 (.cons k372 (.cons k373 (.cons k374 (.cons k375 (.cons k376 (.cons k377 (.cons k378 (.cons k379 (.cons k380 (.cons k381 (.cons k382 (.cons k383 (.cons k384 (.cons k385 (.cons k386 (.cons k387 (.cons k388 (.cons k389 (.cons k390 (.cons k391 (.cons k392 (.cons k393 (.cons k394 (.cons k395 (.cons k396 (.cons k397 (.cons k398 (.cons k399 (.cons k400 (.cons k401 (.cons k402 (.cons k403 (.cons k404 (.cons k405 (.cons k406 (.cons k407 (.cons k408 (.cons k409 (.cons k410 (.cons k411 (.cons k412 (.cons k413 (.cons k414 (.cons k415 (.cons k416 (.cons k417 (.cons k418 (.cons k419 .nil))))))))))))))))))))))))))))))))))))))))))))))))))))))))))))

theorem named7 : List.Forall₂ (fun (t : Template) w => t.name = String.ofList w) templates7 names7 :=
  (.cons n360 (.cons n361 (.cons n362 (.cons n363 (.cons n364 (.cons n365 (.cons n366 (.cons n367 (.cons n368 (.cons n369 (.cons n370 (.cons n371 (.cons n372 (.cons n373 (.cons n374 (.cons n375 (.cons n376 (.cons n377 (.cons n378 (.cons n379 (.cons n380 (.cons n381 (.cons n382 (.cons n383 (.cons n384 (.cons n385 (.cons n386 (.cons n387 (.cons n388 (.cons n389 (.cons n390 (.cons n391 (.cons n392 (.cons n393 (.cons n394 (.cons n395 (.cons n396 (.cons n397 (.cons n398 (.cons n399 (.cons n400 (.cons n401 (.cons n402 (.cons n403 (.cons n404 (.cons n405 (.cons n406 (.cons n407 (.cons n408 (.cons n409 (.cons n410 (.cons n411 (.cons n412 (.cons n413 (.cons n414 (.cons n415 (.cons n416 (.cons n417 (.cons n418 (.cons n419 .nil))))))))))))))))))))))))))))))))))))))))))))))))))))))))))))

theorem checked7 : ∀ t ∈ templates7, Checked t :=
  (List.forall_mem_cons.mpr ⟨w360, (List.forall_mem_cons.mpr ⟨w361, (List.forall_mem_cons.mpr ⟨w362, (List.forall_mem_cons.mpr ⟨w363, (List.forall_mem_cons.mpr ⟨w364, (List.forall_mem_cons.mpr ⟨w365, (List.forall_mem_cons.mpr ⟨w366, (List.forall_mem_cons.mpr ⟨w367, (List.forall_mem_cons.mpr ⟨w368, (List.forall_mem_cons.mpr ⟨w369, (List.forall_mem_cons.mpr ⟨w370, (List.forall_mem_cons.mpr ⟨w371, (List.forall_mem_cons.mpr ⟨w372, (List.forall_mem_cons.mpr ⟨w373, (List.forall_mem_cons.mpr ⟨w374, (List.forall_mem_cons.mpr ⟨w375, (List.forall_mem_cons.mpr ⟨w376, (List.forall_mem_cons.mpr ⟨w377, (List.forall_mem_cons.mpr ⟨w378, (List.forall_mem_cons.mpr ⟨w379, (List.forall_mem_cons.mpr ⟨w380, (List.forall_mem_cons.mpr ⟨w381, (List.forall_mem_cons.mpr ⟨w382, (List.forall_mem_cons.mpr ⟨w383, (List.forall_mem_cons.mpr ⟨w384, (List.forall_mem_cons.mpr ⟨w385, (List.forall_mem_cons.mpr ⟨w386, (List.forall_mem_cons.mpr ⟨w387, (List.forall_mem_cons.mpr ⟨w388, (List.forall_mem_cons.mpr ⟨w389, (List.forall_mem_cons.mpr ⟨w390, (List.forall_mem_cons.mpr ⟨w391, (List.forall_mem_cons.mpr ⟨w392, (List.forall_mem_cons.mpr ⟨w393, (List.forall_mem_cons.mpr ⟨w394, (List.forall_mem_cons.mpr ⟨w395, (List.forall_mem_cons.mpr ⟨w396, (List.forall_mem_cons.mpr ⟨w397, (List.forall_mem_cons.mpr ⟨w398, (List.forall_mem_cons.mpr ⟨w399, (List.forall_mem_cons.mpr ⟨w400, (List.forall_mem_cons.mpr ⟨w401, (List.forall_mem_cons.mpr ⟨w402, (List.forall_mem_cons.mpr ⟨w403, (List.forall_mem_cons.mpr ⟨w404, (List.forall_mem_cons.mpr ⟨w405, (List.forall_mem_cons.mpr ⟨w406, (List.forall_mem_cons.mpr ⟨w407, (List.forall_mem_cons.mpr ⟨w408, (List.forall_mem_cons.mpr ⟨w409, (List.forall_mem_cons.mpr ⟨w410, (List.forall_mem_cons.mpr ⟨w411, (List.forall_mem_cons.mpr ⟨w412, (List.forall_mem_cons.mpr ⟨w413, (List.forall_mem_cons.mpr ⟨w414, (List.forall_mem_cons.mpr ⟨w415, (List.forall_mem_cons.mpr ⟨w416, (List.forall_mem_cons.mpr ⟨w417, (List.forall_mem_cons.mpr ⟨w418, (List.forall_mem_cons.mpr ⟨w419, (List.forall_mem_nil _)⟩)⟩)⟩)⟩)⟩)⟩)⟩)⟩)⟩)⟩)⟩)⟩)⟩)⟩)⟩)⟩)⟩)⟩)⟩)⟩)⟩)⟩)⟩)⟩)⟩)⟩)⟩)⟩)⟩)⟩)⟩)⟩)⟩)⟩)⟩)⟩)⟩)⟩)⟩)⟩)⟩)⟩)⟩)⟩)⟩)⟩)⟩)⟩)⟩)⟩)⟩)⟩)⟩)⟩)⟩)⟩)⟩)⟩)⟩)⟩)

end Pyogp.Embedded
