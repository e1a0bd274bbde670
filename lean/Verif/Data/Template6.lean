import Verif.Data.Chars

/-! Generated by `tools/gen_template.py` from `message/data/message_template.msg`: part 6. -/

namespace Pyogp.Embedded


/-- Lines of `message_template.msg` up to the end of `GrantGodlikePowers`. -/
def c300 : List (List Char) :=
  [chars! "",
   chars! "// At the simulator, turn the godlike bit on.",
   chars! "// At the viewer, show the god menu.",
   chars! "// dataserver -> simulator -> viewer",
   chars! "// reliable",
   chars! "{",
   chars! "\tGrantGodlikePowers\tLow\t258 Trusted Unencoded",
   chars! "\t{",
   chars! "\t\tAgentData\t\tSingle",
   chars! "\t\t{\tAgentID\t\tLLUUID\t}",
   chars! "\t\t{\tSessionID\tLLUUID\t}",
   chars! "\t}",
   chars! "\t{",
   chars! "\t\tGrantData\t\tSingle",
   chars! "\t\t{\tGodLevel\tU8\t\t}",
   chars! "\t\t{\tToken\t\tLLUUID\t} // checked on sim, ignored on viewer",
   chars! "\t}",
   chars! "}"]

/-- `GrantGodlikePowers` as the parser creates it. -/
def r300 : RawTemplate :=
  ⟨"GrantGodlikePowers", .low, 258, [255, 255, 2], some .trusted, some .unencoded, some .notDeprecated,
    [⟨"GrantData", .single, 0, [⟨"Token", some .uuid, some 16⟩, ⟨"GodLevel", some .u8, some 1⟩]⟩,
     ⟨"AgentData", .single, 0, [⟨"SessionID", some .uuid, some 16⟩, ⟨"AgentID", some .uuid, some 16⟩]⟩]⟩

/-- `GrantGodlikePowers` in file order. -/
def t300 : Template :=
  ⟨"GrantGodlikePowers", .low, 258, [], some .trusted, some .unencoded, some .notDeprecated,
    [⟨"AgentData", .single, 0, [⟨"AgentID", .uuid, 16⟩, ⟨"SessionID", .uuid, 16⟩]⟩,
     ⟨"GrantData", .single, 0, [⟨"GodLevel", .u8, 1⟩, ⟨"Token", .uuid, 16⟩]⟩]⟩

theorem p300 : ChunkOk c300 r300 := by intro v older; kernel_rfl
theorem k300 : r300.known = some t300 := by kernel_rfl
theorem n300 : t300.name = String.ofList ['G', 'r', 'a', 'n', 't', 'G', 'o', 'd', 'l', 'i', 'k', 'e', 'P', 'o', 'w', 'e', 'r', 's'] := by kernel_rfl

/-- The names of the blocks and variables of `GrantGodlikePowers`. -/
def b300 : List (List Char × List (List Char)) :=
  [(['A', 'g', 'e', 'n', 't', 'D', 'a', 't', 'a'], [['A', 'g', 'e', 'n', 't', 'I', 'D'], ['S', 'e', 's', 's', 'i', 'o', 'n', 'I', 'D']]),
   (['G', 'r', 'a', 'n', 't', 'D', 'a', 't', 'a'], [['G', 'o', 'd', 'L', 'e', 'v', 'e', 'l'], ['T', 'o', 'k', 'e', 'n']])]

theorem w300 : Checked t300 := ⟨b300, by kernel_rfl, by kernel_rfl, by kernel_rfl⟩

/-- Lines of `message_template.msg` up to the end of `GodlikeMessage`. -/
def c301 : List (List Char) :=
  [chars! "",
   chars! "// GodlikeMessage - generalized construct for Gods to send messages",
   chars! "// around the system. Each Request has it's own internal protocol.",
   chars! "{",
   chars! "    GodlikeMessage Low 259 NotTrusted Zerocoded",
   chars! "\t{",
   chars! "\t\tAgentData \t\tSingle",
   chars! "\t\t{   AgentID     LLUUID  }",
   chars! "\t\t{\tSessionID\tLLUUID\t\t}",
   chars! "\t\t{\tTransactionID\tLLUUID\t}",
   chars! "\t}",
   chars! "\t{",
   chars! "\t\tMethodData \tSingle",
   chars! "\t\t{\tMethod\t\tVariable 1 }",
   chars! "\t\t{\tInvoice\t\tLLUUID\t}",
   chars! "\t}",
   chars! "\t{",
   chars! "\t\tParamList\t\tVariable",
   chars! "\t\t{\tParameter\tVariable 1 }",
   chars! "\t}",
   chars! "}"]

/-- `GodlikeMessage` as the parser creates it. -/
def r301 : RawTemplate :=
  ⟨"GodlikeMessage", .low, 259, [255, 255, 3], some .notTrusted, some .zerocoded, some .notDeprecated,
    [⟨"ParamList", .variable, 0, [⟨"Parameter", some .variable, some 1⟩]⟩,
     ⟨"MethodData", .single, 0, [⟨"Invoice", some .uuid, some 16⟩, ⟨"Method", some .variable, some 1⟩]⟩,
     ⟨"AgentData", .single, 0, [⟨"TransactionID", some .uuid, some 16⟩, ⟨"SessionID", some .uuid, some 16⟩, ⟨"AgentID", some .uuid, some 16⟩]⟩]⟩

/-- `GodlikeMessage` in file order. -/
def t301 : Template :=
  ⟨"GodlikeMessage", .low, 259, [], some .notTrusted, some .zerocoded, some .notDeprecated,
    [⟨"AgentData", .single, 0, [⟨"AgentID", .uuid, 16⟩, ⟨"SessionID", .uuid, 16⟩, ⟨"TransactionID", .uuid, 16⟩]⟩,
     ⟨"MethodData", .single, 0, [⟨"Method", .variable, 1⟩, ⟨"Invoice", .uuid, 16⟩]⟩,
     ⟨"ParamList", .variable, 0, [⟨"Parameter", .variable, 1⟩]⟩]⟩

theorem p301 : ChunkOk c301 r301 := by intro v older; kernel_rfl
theorem k301 : r301.known = some t301 := by kernel_rfl
theorem n301 : t301.name = String.ofList ['G', 'o', 'd', 'l', 'i', 'k', 'e', 'M', 'e', 's', 's', 'a', 'g', 'e'] := by kernel_rfl

/-- The names of the blocks and variables of `GodlikeMessage`. -/
def b301 : List (List Char × List (List Char)) :=
  [(['A', 'g', 'e', 'n', 't', 'D', 'a', 't', 'a'], [['A', 'g', 'e', 'n', 't', 'I', 'D'], ['S', 'e', 's', 's', 'i', 'o', 'n', 'I', 'D'], ['T', 'r', 'a', 'n', 's', 'a', 'c', 't', 'i', 'o', 'n', 'I', 'D']]),
   (['M', 'e', 't', 'h', 'o', 'd', 'D', 'a', 't', 'a'], [['M', 'e', 't', 'h', 'o', 'd'], ['I', 'n', 'v', 'o', 'i', 'c', 'e']]),
   (['P', 'a', 'r', 'a', 'm', 'L', 'i', 's', 't'], [['P', 'a', 'r', 'a', 'm', 'e', 't', 'e', 'r']])]

theorem w301 : Checked t301 := ⟨b301, by kernel_rfl, by kernel_rfl, by kernel_rfl⟩

/-- Lines of `message_template.msg` up to the end of `EstateOwnerMessage`. -/
def c302 : List (List Char) :=
  [chars! "",
   chars! "// EstateOwnerMessage",
   chars! "// format must be identical to above",
   chars! "{",
   chars! "    EstateOwnerMessage\tLow 260 NotTrusted Zerocoded",
   chars! "\t{",
   chars! "\t\tAgentData \t\tSingle",
   chars! "\t\t{   AgentID     LLUUID  \t}",
   chars! "\t\t{\tSessionID\tLLUUID\t\t}",
   chars! "\t\t{\tTransactionID\tLLUUID\t}",
   chars! "\t}",
   chars! "\t{",
   chars! "\t\tMethodData \tSingle",
   chars! "\t\t{\tMethod\t\tVariable 1 }",
   chars! "\t\t{\tInvoice\t\tLLUUID\t}",
   chars! "\t}",
   chars! "\t{",
   chars! "\t\tParamList\t\tVariable",
   chars! "\t\t{\tParameter\tVariable 1 }",
   chars! "\t}",
   chars! "}"]

/-- `EstateOwnerMessage` as the parser creates it. -/
def r302 : RawTemplate :=
  ⟨"EstateOwnerMessage", .low, 260, [255, 255, 4], some .notTrusted, some .zerocoded, some .notDeprecated,
    [⟨"ParamList", .variable, 0, [⟨"Parameter", some .variable, some 1⟩]⟩,
     ⟨"MethodData", .single, 0, [⟨"Invoice", some .uuid, some 16⟩, ⟨"Method", some .variable, some 1⟩]⟩,
     ⟨"AgentData", .single, 0, [⟨"TransactionID", some .uuid, some 16⟩, ⟨"SessionID", some .uuid, some 16⟩, ⟨"AgentID", some .uuid, some 16⟩]⟩]⟩

/-- `EstateOwnerMessage` in file order. -/
def t302 : Template :=
  ⟨"EstateOwnerMessage", .low, 260, [], some .notTrusted, some .zerocoded, some .notDeprecated,
    [⟨"AgentData", .single, 0, [⟨"AgentID", .uuid, 16⟩, ⟨"SessionID", .uuid, 16⟩, ⟨"TransactionID", .uuid, 16⟩]⟩,
     ⟨"MethodData", .single, 0, [⟨"Method", .variable, 1⟩, ⟨"Invoice", .uuid, 16⟩]⟩,
     ⟨"ParamList", .variable, 0, [⟨"Parameter", .variable, 1⟩]⟩]⟩

theorem p302 : ChunkOk c302 r302 := by intro v older; kernel_rfl
theorem k302 : r302.known = some t302 := by kernel_rfl
theorem n302 : t302.name = String.ofList ['E', 's', 't', 'a', 't', 'e', 'O', 'w', 'n', 'e', 'r', 'M', 'e', 's', 's', 'a', 'g', 'e'] := by kernel_rfl

/-- The names of the blocks and variables of `EstateOwnerMessage`. -/
def b302 : List (List Char × List (List Char)) :=
  [(['A', 'g', 'e', 'n', 't', 'D', 'a', 't', 'a'], [['A', 'g', 'e', 'n', 't', 'I', 'D'], ['S', 'e', 's', 's', 'i', 'o', 'n', 'I', 'D'], ['T', 'r', 'a', 'n', 's', 'a', 'c', 't', 'i', 'o', 'n', 'I', 'D']]),
   (['M', 'e', 't', 'h', 'o', 'd', 'D', 'a', 't', 'a'], [['M', 'e', 't', 'h', 'o', 'd'], ['I', 'n', 'v', 'o', 'i', 'c', 'e']]),
   (['P', 'a', 'r', 'a', 'm', 'L', 'i', 's', 't'], [['P', 'a', 'r', 'a', 'm', 'e', 't', 'e', 'r']])]

theorem w302 : Checked t302 := ⟨b302, by kernel_rfl, by kernel_rfl, by kernel_rfl⟩

/-- Lines of `message_template.msg` up to the end of `GenericMessage`. -/
def c303 : List (List Char) :=
  [chars! "",
   chars! "// GenericMessage",
   chars! "// format must be identical to above",
   chars! "// As above, but don't have to be god or estate owner to send.",
   chars! "{",
   chars! "    GenericMessage\tLow 261 NotTrusted Zerocoded",
   chars! "\t{",
   chars! "\t\tAgentData \t\tSingle",
   chars! "\t\t{   AgentID     LLUUID  \t}",
   chars! "\t\t{\tSessionID\tLLUUID\t\t}",
   chars! "\t\t{\tTransactionID\tLLUUID\t}",
   chars! "\t}",
   chars! "\t{",
   chars! "\t\tMethodData \tSingle",
   chars! "\t\t{\tMethod\t\tVariable 1 }",
   chars! "\t\t{\tInvoice\t\tLLUUID\t}",
   chars! "\t}",
   chars! "\t{",
   chars! "\t\tParamList\t\tVariable",
   chars! "\t\t{\tParameter\tVariable 1 }",
   chars! "\t}",
   chars! "}"]

/-- `GenericMessage` as the parser creates it. -/
def r303 : RawTemplate :=
  ⟨"GenericMessage", .low, 261, [255, 255, 5], some .notTrusted, some .zerocoded, some .notDeprecated,
    [⟨"ParamList", .variable, 0, [⟨"Parameter", some .variable, some 1⟩]⟩,
     ⟨"MethodData", .single, 0, [⟨"Invoice", some .uuid, some 16⟩, ⟨"Method", some .variable, some 1⟩]⟩,
     ⟨"AgentData", .single, 0, [⟨"TransactionID", some .uuid, some 16⟩, ⟨"SessionID", some .uuid, some 16⟩, ⟨"AgentID", some .uuid, some 16⟩]⟩]⟩

/-- `GenericMessage` in file order. -/
def t303 : Template :=
  ⟨"GenericMessage", .low, 261, [], some .notTrusted, some .zerocoded, some .notDeprecated,
    [⟨"AgentData", .single, 0, [⟨"AgentID", .uuid, 16⟩, ⟨"SessionID", .uuid, 16⟩, ⟨"TransactionID", .uuid, 16⟩]⟩,
     ⟨"MethodData", .single, 0, [⟨"Method", .variable, 1⟩, ⟨"Invoice", .uuid, 16⟩]⟩,
     ⟨"ParamList", .variable, 0, [⟨"Parameter", .variable, 1⟩]⟩]⟩

theorem p303 : ChunkOk c303 r303 := by intro v older; kernel_rfl
theorem k303 : r303.known = some t303 := by kernel_rfl
theorem n303 : t303.name = String.ofList ['G', 'e', 'n', 'e', 'r', 'i', 'c', 'M', 'e', 's', 's', 'a', 'g', 'e'] := by kernel_rfl

/-- The names of the blocks and variables of `GenericMessage`. -/
def b303 : List (List Char × List (List Char)) :=
  [(['A', 'g', 'e', 'n', 't', 'D', 'a', 't', 'a'], [['A', 'g', 'e', 'n', 't', 'I', 'D'], ['S', 'e', 's', 's', 'i', 'o', 'n', 'I', 'D'], ['T', 'r', 'a', 'n', 's', 'a', 'c', 't', 'i', 'o', 'n', 'I', 'D']]),
   (['M', 'e', 't', 'h', 'o', 'd', 'D', 'a', 't', 'a'], [['M', 'e', 't', 'h', 'o', 'd'], ['I', 'n', 'v', 'o', 'i', 'c', 'e']]),
   (['P', 'a', 'r', 'a', 'm', 'L', 'i', 's', 't'], [['P', 'a', 'r', 'a', 'm', 'e', 't', 'e', 'r']])]

theorem w303 : Checked t303 := ⟨b303, by kernel_rfl, by kernel_rfl, by kernel_rfl⟩

/-- Lines of `message_template.msg` up to the end of `MuteListRequest`. -/
def c304 : List (List Char) :=
  [chars! "",
   chars! "// ***************************************************************************",
   chars! "// Requests for possessions, acquisition, money, etc",
   chars! "// ***************************************************************************",
   chars! "",
   chars! "// request for mute list",
   chars! "{",
   chars! "\tMuteListRequest Low 262 NotTrusted Unencoded",
   chars! "\t{",
   chars! "\t\tAgentData \t\tSingle",
   chars! "\t\t{   AgentID     LLUUID  \t}",
   chars! "\t\t{\tSessionID\tLLUUID\t\t}",
   chars! "\t}",
   chars! "\t{",
   chars! "\t\tMuteData\tSingle",
   chars! "\t\t{\tMuteCRC\t\tU32\t\t}",
   chars! "\t}",
   chars! "}"]

/-- `MuteListRequest` as the parser creates it. -/
def r304 : RawTemplate :=
  ⟨"MuteListRequest", .low, 262, [255, 255, 6], some .notTrusted, some .unencoded, some .notDeprecated,
    [⟨"MuteData", .single, 0, [⟨"MuteCRC", some .u32, some 4⟩]⟩,
     ⟨"AgentData", .single, 0, [⟨"SessionID", some .uuid, some 16⟩, ⟨"AgentID", some .uuid, some 16⟩]⟩]⟩

/-- `MuteListRequest` in file order. -/
def t304 : Template :=
  ⟨"MuteListRequest", .low, 262, [], some .notTrusted, some .unencoded, some .notDeprecated,
    [⟨"AgentData", .single, 0, [⟨"AgentID", .uuid, 16⟩, ⟨"SessionID", .uuid, 16⟩]⟩,
     ⟨"MuteData", .single, 0, [⟨"MuteCRC", .u32, 4⟩]⟩]⟩

theorem p304 : ChunkOk c304 r304 := by intro v older; kernel_rfl
theorem k304 : r304.known = some t304 := by kernel_rfl
theorem n304 : t304.name = String.ofList ['M', 'u', 't', 'e', 'L', 'i', 's', 't', 'R', 'e', 'q', 'u', 'e', 's', 't'] := by kernel_rfl

/-- The names of the blocks and variables of `MuteListRequest`. -/
def b304 : List (List Char × List (List Char)) :=
  [(['A', 'g', 'e', 'n', 't', 'D', 'a', 't', 'a'], [['A', 'g', 'e', 'n', 't', 'I', 'D'], ['S', 'e', 's', 's', 'i', 'o', 'n', 'I', 'D']]),
   (['M', 'u', 't', 'e', 'D', 'a', 't', 'a'], [['M', 'u', 't', 'e', 'C', 'R', 'C']])]

theorem w304 : Checked t304 := ⟨b304, by kernel_rfl, by kernel_rfl, by kernel_rfl⟩

/-- Lines of `message_template.msg` up to the end of `UpdateMuteListEntry`. -/
def c305 : List (List Char) :=
  [chars! "",
   chars! "// update/add someone in the mute list",
   chars! "{",
   chars! "\tUpdateMuteListEntry Low 263 NotTrusted Unencoded",
   chars! "\t{",
   chars! "\t\tAgentData \t\tSingle",
   chars! "\t\t{   AgentID     LLUUID  \t}",
   chars! "\t\t{\tSessionID\tLLUUID\t\t}",
   chars! "\t}",
   chars! "\t{",
   chars! "\t\tMuteData\tSingle",
   chars! "\t\t{\tMuteID\t\tLLUUID\t\t}",
   chars! "\t\t{\tMuteName\tVariable 1\t}",
   chars! "\t\t{\tMuteType\tS32\t\t\t}",
   chars! "\t\t{\tMuteFlags\tU32\t\t\t}",
   chars! "\t}",
   chars! "}"]

/-- `UpdateMuteListEntry` as the parser creates it. -/
def r305 : RawTemplate :=
  ⟨"UpdateMuteListEntry", .low, 263, [255, 255, 7], some .notTrusted, some .unencoded, some .notDeprecated,
    [⟨"MuteData", .single, 0, [⟨"MuteFlags", some .u32, some 4⟩, ⟨"MuteType", some .s32, some 4⟩, ⟨"MuteName", some .variable, some 1⟩, ⟨"MuteID", some .uuid, some 16⟩]⟩,
     ⟨"AgentData", .single, 0, [⟨"SessionID", some .uuid, some 16⟩, ⟨"AgentID", some .uuid, some 16⟩]⟩]⟩

/-- `UpdateMuteListEntry` in file order. -/
def t305 : Template :=
  ⟨"UpdateMuteListEntry", .low, 263, [], some .notTrusted, some .unencoded, some .notDeprecated,
    [⟨"AgentData", .single, 0, [⟨"AgentID", .uuid, 16⟩, ⟨"SessionID", .uuid, 16⟩]⟩,
     ⟨"MuteData", .single, 0, [⟨"MuteID", .uuid, 16⟩, ⟨"MuteName", .variable, 1⟩, ⟨"MuteType", .s32, 4⟩, ⟨"MuteFlags", .u32, 4⟩]⟩]⟩

theorem p305 : ChunkOk c305 r305 := by intro v older; kernel_rfl
theorem k305 : r305.known = some t305 := by kernel_rfl
theorem n305 : t305.name = String.ofList ['U', 'p', 'd', 'a', 't', 'e', 'M', 'u', 't', 'e', 'L', 'i', 's', 't', 'E', 'n', 't', 'r', 'y'] := by kernel_rfl

/-- The names of the blocks and variables of `UpdateMuteListEntry`. -/
def b305 : List (List Char × List (List Char)) :=
  [(['A', 'g', 'e', 'n', 't', 'D', 'a', 't', 'a'], [['A', 'g', 'e', 'n', 't', 'I', 'D'], ['S', 'e', 's', 's', 'i', 'o', 'n', 'I', 'D']]),
   (['M', 'u', 't', 'e', 'D', 'a', 't', 'a'], [['M', 'u', 't', 'e', 'I', 'D'], ['M', 'u', 't', 'e', 'N', 'a', 'm', 'e'], ['M', 'u', 't', 'e', 'T', 'y', 'p', 'e'], ['M', 'u', 't', 'e', 'F', 'l', 'a', 'g', 's']])]

theorem w305 : Checked t305 := ⟨b305, by kernel_rfl, by kernel_rfl, by kernel_rfl⟩

/-- Lines of `message_template.msg` up to the end of `RemoveMuteListEntry`. -/
def c306 : List (List Char) :=
  [chars! "",
   chars! "// Remove a mute list entry.",
   chars! "{",
   chars! "\tRemoveMuteListEntry Low 264 NotTrusted Unencoded",
   chars! "\t{",
   chars! "\t\tAgentData \t\tSingle",
   chars! "\t\t{   AgentID     LLUUID  \t}",
   chars! "\t\t{\tSessionID\tLLUUID\t\t}",
   chars! "\t}",
   chars! "\t{",
   chars! "\t\tMuteData\tSingle",
   chars! "\t\t{\tMuteID\t\tLLUUID\t\t}",
   chars! "\t\t{\tMuteName\tVariable 1\t}",
   chars! "\t}",
   chars! "}"]

/-- `RemoveMuteListEntry` as the parser creates it. -/
def r306 : RawTemplate :=
  ⟨"RemoveMuteListEntry", .low, 264, [255, 255, 8], some .notTrusted, some .unencoded, some .notDeprecated,
    [⟨"MuteData", .single, 0, [⟨"MuteName", some .variable, some 1⟩, ⟨"MuteID", some .uuid, some 16⟩]⟩,
     ⟨"AgentData", .single, 0, [⟨"SessionID", some .uuid, some 16⟩, ⟨"AgentID", some .uuid, some 16⟩]⟩]⟩

/-- `RemoveMuteListEntry` in file order. -/
def t306 : Template :=
  ⟨"RemoveMuteListEntry", .low, 264, [], some .notTrusted, some .unencoded, some .notDeprecated,
    [⟨"AgentData", .single, 0, [⟨"AgentID", .uuid, 16⟩, ⟨"SessionID", .uuid, 16⟩]⟩,
     ⟨"MuteData", .single, 0, [⟨"MuteID", .uuid, 16⟩, ⟨"MuteName", .variable, 1⟩]⟩]⟩

theorem p306 : ChunkOk c306 r306 := by intro v older; kernel_rfl
theorem k306 : r306.known = some t306 := by kernel_rfl
theorem n306 : t306.name = String.ofList ['R', 'e', 'm', 'o', 'v', 'e', 'M', 'u', 't', 'e', 'L', 'i', 's', 't', 'E', 'n', 't', 'r', 'y'] := by kernel_rfl

/-- The names of the blocks and variables of `RemoveMuteListEntry`. -/
def b306 : List (List Char × List (List Char)) :=
  [(['A', 'g', 'e', 'n', 't', 'D', 'a', 't', 'a'], [['A', 'g', 'e', 'n', 't', 'I', 'D'], ['S', 'e', 's', 's', 'i', 'o', 'n', 'I', 'D']]),
   (['M', 'u', 't', 'e', 'D', 'a', 't', 'a'], [['M', 'u', 't', 'e', 'I', 'D'], ['M', 'u', 't', 'e', 'N', 'a', 'm', 'e']])]

theorem w306 : Checked t306 := ⟨b306, by kernel_rfl, by kernel_rfl, by kernel_rfl⟩

/-- Lines of `message_template.msg` up to the end of `CopyInventoryFromNotecard`. -/
def c307 : List (List Char) :=
  [chars! "",
   chars! "",
   chars! "// ",
   chars! "// Inventory update messages ",
   chars! "// UDP DEPRECATED - Now a viewer capability.",
   chars! "",
   chars! "{",
   chars! "\tCopyInventoryFromNotecard Low 265 NotTrusted Zerocoded UDPDeprecated",
   chars! "\t{",
   chars! "\t\tAgentData\t\t\tSingle",
   chars! "\t\t{\tAgentID\t\t\tLLUUID\t}",
   chars! "\t\t{\tSessionID\t\tLLUUID\t}",
   chars! "\t}",
   chars! "\t{",
   chars! "\t\tNotecardData\t\tSingle",
   chars! "\t\t{\tNotecardItemID\tLLUUID\t}",
   chars! "\t\t{\tObjectID\t\tLLUUID\t}",
   chars! "\t}",
   chars! "\t{",
   chars! "\t\tInventoryData\t\tVariable",
   chars! "\t\t{\tItemID\t\t\tLLUUID\t}",
   chars! "\t\t{\tFolderID\t\tLLUUID\t}",
   chars! "\t}",
   chars! "}"]

/-- `CopyInventoryFromNotecard` as the parser creates it. -/
def r307 : RawTemplate :=
  ⟨"CopyInventoryFromNotecard", .low, 265, [255, 255, 9], some .notTrusted, some .zerocoded, some .udpDeprecated,
    [⟨"InventoryData", .variable, 0, [⟨"FolderID", some .uuid, some 16⟩, ⟨"ItemID", some .uuid, some 16⟩]⟩,
     ⟨"NotecardData", .single, 0, [⟨"ObjectID", some .uuid, some 16⟩, ⟨"NotecardItemID", some .uuid, some 16⟩]⟩,
     ⟨"AgentData", .single, 0, [⟨"SessionID", some .uuid, some 16⟩, ⟨"AgentID", some .uuid, some 16⟩]⟩]⟩

/-- `CopyInventoryFromNotecard` in file order. -/
def t307 : Template :=
  ⟨"CopyInventoryFromNotecard", .low, 265, [], some .notTrusted, some .zerocoded, some .udpDeprecated,
    [⟨"AgentData", .single, 0, [⟨"AgentID", .uuid, 16⟩, ⟨"SessionID", .uuid, 16⟩]⟩,
     ⟨"NotecardData", .single, 0, [⟨"NotecardItemID", .uuid, 16⟩, ⟨"ObjectID", .uuid, 16⟩]⟩,
     ⟨"InventoryData", .variable, 0, [⟨"ItemID", .uuid, 16⟩, ⟨"FolderID", .uuid, 16⟩]⟩]⟩

theorem p307 : ChunkOk c307 r307 := by intro v older; kernel_rfl
theorem k307 : r307.known = some t307 := by kernel_rfl
theorem n307 : t307.name = String.ofList ['C', 'o', 'p', 'y', 'I', 'n', 'v', 'e', 'n', 't', 'o', 'r', 'y', 'F', 'r', 'o', 'm', 'N', 'o', 't', 'e', 'c', 'a', 'r', 'd'] := by kernel_rfl

/-- The names of the blocks and variables of `CopyInventoryFromNotecard`. -/
def b307 : List (List Char × List (List Char)) :=
  [(['A', 'g', 'e', 'n', 't', 'D', 'a', 't', 'a'], [['A', 'g', 'e', 'n', 't', 'I', 'D'], ['S', 'e', 's', 's', 'i', 'o', 'n', 'I', 'D']]),
   (['N', 'o', 't', 'e', 'c', 'a', 'r', 'd', 'D', 'a', 't', 'a'], [['N', 'o', 't', 'e', 'c', 'a', 'r', 'd', 'I', 't', 'e', 'm', 'I', 'D'], ['O', 'b', 'j', 'e', 'c', 't', 'I', 'D']]),
   (['I', 'n', 'v', 'e', 'n', 't', 'o', 'r', 'y', 'D', 'a', 't', 'a'], [['I', 't', 'e', 'm', 'I', 'D'], ['F', 'o', 'l', 'd', 'e', 'r', 'I', 'D']])]

theorem w307 : Checked t307 := ⟨b307, by kernel_rfl, by kernel_rfl, by kernel_rfl⟩

/-- Lines of `message_template.msg` up to the end of `UpdateInventoryItem`. -/
def c308 : List (List Char) :=
  [chars! "",
   chars! "//",
   chars! "// This is used bi-directionally between sim, dataserver, and viewer.",
   chars! "// THIS MESSAGE CAN NOT CREATE NEW INVENTORY ITEMS.",
   chars! "//",
   chars! "{",
   chars! "\tUpdateInventoryItem Low 266 NotTrusted Zerocoded",
   chars! "\t{",
   chars! "\t\tAgentData\t\t\tSingle",
   chars! "\t\t{\tAgentID\t\t\tLLUUID\t}",
   chars! "\t\t{\tSessionID\t\tLLUUID\t}",
   chars! "\t\t{\tTransactionID\tLLUUID\t}",
   chars! "\t}",
   chars! "\t{",
   chars! "\t\tInventoryData\t\tVariable",
   chars! "\t\t{\tItemID\t\t\tLLUUID\t}",
   chars! "\t\t{\tFolderID\t\tLLUUID\t}",
   chars! "\t\t{\tCallbackID\t\tU32\t\t} // Async Response",
   chars! "\t\t",
   chars! "\t\t{\tCreatorID\t\tLLUUID\t}\t// permissions",
   chars! "\t\t{\tOwnerID\t\t\tLLUUID\t}\t// permissions",
   chars! "\t\t{\tGroupID\t\t\tLLUUID\t}\t// permissions",
   chars! "\t\t{\tBaseMask\t\tU32\t}\t// permissions",
   chars! "\t\t{\tOwnerMask\t\tU32\t}\t// permissions",
   chars! "\t\t{\tGroupMask\t\tU32\t}\t// permissions",
   chars! "\t\t{\tEveryoneMask\tU32\t}\t// permissions",
   chars! "\t\t{\tNextOwnerMask\tU32\t}\t// permissions",
   chars! "\t\t{\tGroupOwned\t\tBOOL\t}\t// permissions",
   chars! "",
   chars! "\t\t{\tTransactionID\tLLUUID\t} // TransactionID: new assets only",
   chars! "\t\t{\tType\t\t\tS8\t}",
   chars! "\t\t{\tInvType\t\t\tS8\t}",
   chars! "\t\t{\tFlags\t\t\tU32\t}",
   chars! "\t\t{\tSaleType\t\tU8\t}",
   chars! "\t\t{\tSalePrice\t\tS32\t}",
   chars! "\t\t{\tName\t\t\tVariable\t1\t}",
   chars! "\t\t{\tDescription\t\tVariable\t1\t}",
   chars! "\t\t{\tCreationDate\tS32\t}",
   chars! "\t\t{\tCRC\t\t\t\tU32\t}",
   chars! "\t}",
   chars! "}"]

/-- `UpdateInventoryItem` as the parser creates it. -/
def r308 : RawTemplate :=
  ⟨"UpdateInventoryItem", .low, 266, [255, 255, 10], some .notTrusted, some .zerocoded, some .notDeprecated,
    [⟨"InventoryData", .variable, 0, [⟨"CRC", some .u32, some 4⟩, ⟨"CreationDate", some .s32, some 4⟩, ⟨"Description", some .variable, some 1⟩, ⟨"Name", some .variable, some 1⟩, ⟨"SalePrice", some .s32, some 4⟩, ⟨"SaleType", some .u8, some 1⟩, ⟨"Flags", some .u32, some 4⟩, ⟨"InvType", some .s8, some 1⟩, ⟨"Type", some .s8, some 1⟩, ⟨"TransactionID", some .uuid, some 16⟩, ⟨"GroupOwned", some .bool, some 1⟩, ⟨"NextOwnerMask", some .u32, some 4⟩, ⟨"EveryoneMask", some .u32, some 4⟩, ⟨"GroupMask", some .u32, some 4⟩, ⟨"OwnerMask", some .u32, some 4⟩, ⟨"BaseMask", some .u32, some 4⟩, ⟨"GroupID", some .uuid, some 16⟩, ⟨"OwnerID", some .uuid, some 16⟩, ⟨"CreatorID", some .uuid, some 16⟩, ⟨"CallbackID", some .u32, some 4⟩, ⟨"FolderID", some .uuid, some 16⟩, ⟨"ItemID", some .uuid, some 16⟩]⟩,
     ⟨"AgentData", .single, 0, [⟨"TransactionID", some .uuid, some 16⟩, ⟨"SessionID", some .uuid, some 16⟩, ⟨"AgentID", some .uuid, some 16⟩]⟩]⟩

/-- `UpdateInventoryItem` in file order. -/
def t308 : Template :=
  ⟨"UpdateInventoryItem", .low, 266, [], some .notTrusted, some .zerocoded, some .notDeprecated,
    [⟨"AgentData", .single, 0, [⟨"AgentID", .uuid, 16⟩, ⟨"SessionID", .uuid, 16⟩, ⟨"TransactionID", .uuid, 16⟩]⟩,
     ⟨"InventoryData", .variable, 0, [⟨"ItemID", .uuid, 16⟩, ⟨"FolderID", .uuid, 16⟩, ⟨"CallbackID", .u32, 4⟩, ⟨"CreatorID", .uuid, 16⟩, ⟨"OwnerID", .uuid, 16⟩, ⟨"GroupID", .uuid, 16⟩, ⟨"BaseMask", .u32, 4⟩, ⟨"OwnerMask", .u32, 4⟩, ⟨"GroupMask", .u32, 4⟩, ⟨"EveryoneMask", .u32, 4⟩, ⟨"NextOwnerMask", .u32, 4⟩, ⟨"GroupOwned", .bool, 1⟩, ⟨"TransactionID", .uuid, 16⟩, ⟨"Type", .s8, 1⟩, ⟨"InvType", .s8, 1⟩, ⟨"Flags", .u32, 4⟩, ⟨"SaleType", .u8, 1⟩, ⟨"SalePrice", .s32, 4⟩, ⟨"Name", .variable, 1⟩, ⟨"Description", .variable, 1⟩, ⟨"CreationDate", .s32, 4⟩, ⟨"CRC", .u32, 4⟩]⟩]⟩

theorem p308 : ChunkOk c308 r308 := by intro v older; kernel_rfl
theorem k308 : r308.known = some t308 := by kernel_rfl
theorem n308 : t308.name = String.ofList ['U', 'p', 'd', 'a', 't', 'e', 'I', 'n', 'v', 'e', 'n', 't', 'o', 'r', 'y', 'I', 't', 'e', 'm'] := by kernel_rfl

/-- The names of the blocks and variables of `UpdateInventoryItem`. -/
def b308 : List (List Char × List (List Char)) :=
  [(['A', 'g', 'e', 'n', 't', 'D', 'a', 't', 'a'], [['A', 'g', 'e', 'n', 't', 'I', 'D'], ['S', 'e', 's', 's', 'i', 'o', 'n', 'I', 'D'], ['T', 'r', 'a', 'n', 's', 'a', 'c', 't', 'i', 'o', 'n', 'I', 'D']]),
   (['I', 'n', 'v', 'e', 'n', 't', 'o', 'r', 'y', 'D', 'a', 't', 'a'], [['I', 't', 'e', 'm', 'I', 'D'], ['F', 'o', 'l', 'd', 'e', 'r', 'I', 'D'], ['C', 'a', 'l', 'l', 'b', 'a', 'c', 'k', 'I', 'D'], ['C', 'r', 'e', 'a', 't', 'o', 'r', 'I', 'D'], ['O', 'w', 'n', 'e', 'r', 'I', 'D'], ['G', 'r', 'o', 'u', 'p', 'I', 'D'], ['B', 'a', 's', 'e', 'M', 'a', 's', 'k'], ['O', 'w', 'n', 'e', 'r', 'M', 'a', 's', 'k'], ['G', 'r', 'o', 'u', 'p', 'M', 'a', 's', 'k'], ['E', 'v', 'e', 'r', 'y', 'o', 'n', 'e', 'M', 'a', 's', 'k'], ['N', 'e', 'x', 't', 'O', 'w', 'n', 'e', 'r', 'M', 'a', 's', 'k'], ['G', 'r', 'o', 'u', 'p', 'O', 'w', 'n', 'e', 'd'], ['T', 'r', 'a', 'n', 's', 'a', 'c', 't', 'i', 'o', 'n', 'I', 'D'], ['T', 'y', 'p', 'e'], ['I', 'n', 'v', 'T', 'y', 'p', 'e'], ['F', 'l', 'a', 'g', 's'], ['S', 'a', 'l', 'e', 'T', 'y', 'p', 'e'], ['S', 'a', 'l', 'e', 'P', 'r', 'i', 'c', 'e'], ['N', 'a', 'm', 'e'], ['D', 'e', 's', 'c', 'r', 'i', 'p', 't', 'i', 'o', 'n'], ['C', 'r', 'e', 'a', 't', 'i', 'o', 'n', 'D', 'a', 't', 'e'], ['C', 'R', 'C']])]

theorem w308 : Checked t308 := ⟨b308, by kernel_rfl, by kernel_rfl, by kernel_rfl⟩

/-- Lines of `message_template.msg` up to the end of `UpdateCreateInventoryItem`. -/
def c309 : List (List Char) :=
  [chars! "",
   chars! "//",
   chars! "// For sim to request update/create.",
   chars! "// DO NOT ALLOW THIS FROM THE VIEWER.",
   chars! "//",
   chars! "{",
   chars! "\tUpdateCreateInventoryItem Low 267 Trusted Zerocoded",
   chars! "\t{",
   chars! "\t\tAgentData\t\t\tSingle",
   chars! "\t\t{\tAgentID\t\t\tLLUUID\t}",
   chars! "\t\t{\tSimApproved\t\tBOOL\t}",
   chars! "\t\t{\tTransactionID\tLLUUID\t}",
   chars! "\t}",
   chars! "\t{",
   chars! "\t\tInventoryData\t\tVariable",
   chars! "\t\t{\tItemID\t\t\tLLUUID\t}",
   chars! "\t\t{\tFolderID\t\tLLUUID\t}",
   chars! "\t\t{\tCallbackID\t\tU32\t\t} // Async Response",
   chars! "",
   chars! "\t\t{\tCreatorID\t\tLLUUID\t}\t// permissions",
   chars! "\t\t{\tOwnerID\t\t\tLLUUID\t}\t// permissions",
   chars! "\t\t{\tGroupID\t\t\tLLUUID\t}\t// permissions",
   chars! "\t\t{\tBaseMask\t\tU32\t}\t// permissions",
   chars! "\t\t{\tOwnerMask\t\tU32\t}\t// permissions",
   chars! "\t\t{\tGroupMask\t\tU32\t}\t// permissions",
   chars! "\t\t{\tEveryoneMask\tU32\t}\t// permissions",
   chars! "\t\t{\tNextOwnerMask\tU32\t}\t// permissions",
   chars! "\t\t{\tGroupOwned\t\tBOOL\t}\t// permissions",
   chars! "",
   chars! "\t\t{\tAssetID\t\t\tLLUUID\t}",
   chars! "\t\t{\tType\t\t\tS8\t}",
   chars! "\t\t{\tInvType\t\t\tS8\t}",
   chars! "\t\t{\tFlags\t\t\tU32\t}",
   chars! "\t\t{\tSaleType\t\tU8\t}",
   chars! "\t\t{\tSalePrice\t\tS32\t}",
   chars! "\t\t{\tName\t\t\tVariable\t1\t}",
   chars! "\t\t{\tDescription\t\tVariable\t1\t}",
   chars! "\t\t{\tCreationDate\tS32\t}",
   chars! "\t\t{\tCRC\t\t\t\tU32\t}",
   chars! "\t}",
   chars! "}"]

/-- `UpdateCreateInventoryItem` as the parser creates it. -/
def r309 : RawTemplate :=
  ⟨"UpdateCreateInventoryItem", .low, 267, [255, 255, 11], some .trusted, some .zerocoded, some .notDeprecated,
    [⟨"InventoryData", .variable, 0, [⟨"CRC", some .u32, some 4⟩, ⟨"CreationDate", some .s32, some 4⟩, ⟨"Description", some .variable, some 1⟩, ⟨"Name", some .variable, some 1⟩, ⟨"SalePrice", some .s32, some 4⟩, ⟨"SaleType", some .u8, some 1⟩, ⟨"Flags", some .u32, some 4⟩, ⟨"InvType", some .s8, some 1⟩, ⟨"Type", some .s8, some 1⟩, ⟨"AssetID", some .uuid, some 16⟩, ⟨"GroupOwned", some .bool, some 1⟩, ⟨"NextOwnerMask", some .u32, some 4⟩, ⟨"EveryoneMask", some .u32, some 4⟩, ⟨"GroupMask", some .u32, some 4⟩, ⟨"OwnerMask", some .u32, some 4⟩, ⟨"BaseMask", some .u32, some 4⟩, ⟨"GroupID", some .uuid, some 16⟩, ⟨"OwnerID", some .uuid, some 16⟩, ⟨"CreatorID", some .uuid, some 16⟩, ⟨"CallbackID", some .u32, some 4⟩, ⟨"FolderID", some .uuid, some 16⟩, ⟨"ItemID", some .uuid, some 16⟩]⟩,
     ⟨"AgentData", .single, 0, [⟨"TransactionID", some .uuid, some 16⟩, ⟨"SimApproved", some .bool, some 1⟩, ⟨"AgentID", some .uuid, some 16⟩]⟩]⟩

/-- `UpdateCreateInventoryItem` in file order. -/
def t309 : Template :=
  ⟨"UpdateCreateInventoryItem", .low, 267, [], some .trusted, some .zerocoded, some .notDeprecated,
    [⟨"AgentData", .single, 0, [⟨"AgentID", .uuid, 16⟩, ⟨"SimApproved", .bool, 1⟩, ⟨"TransactionID", .uuid, 16⟩]⟩,
     ⟨"InventoryData", .variable, 0, [⟨"ItemID", .uuid, 16⟩, ⟨"FolderID", .uuid, 16⟩, ⟨"CallbackID", .u32, 4⟩, ⟨"CreatorID", .uuid, 16⟩, ⟨"OwnerID", .uuid, 16⟩, ⟨"GroupID", .uuid, 16⟩, ⟨"BaseMask", .u32, 4⟩, ⟨"OwnerMask", .u32, 4⟩, ⟨"GroupMask", .u32, 4⟩, ⟨"EveryoneMask", .u32, 4⟩, ⟨"NextOwnerMask", .u32, 4⟩, ⟨"GroupOwned", .bool, 1⟩, ⟨"AssetID", .uuid, 16⟩, ⟨"Type", .s8, 1⟩, ⟨"InvType", .s8, 1⟩, ⟨"Flags", .u32, 4⟩, ⟨"SaleType", .u8, 1⟩, ⟨"SalePrice", .s32, 4⟩, ⟨"Name", .variable, 1⟩, ⟨"Description", .variable, 1⟩, ⟨"CreationDate", .s32, 4⟩, ⟨"CRC", .u32, 4⟩]⟩]⟩

theorem p309 : ChunkOk c309 r309 := by intro v older; kernel_rfl
theorem k309 : r309.known = some t309 := by kernel_rfl
theorem n309 : t309.name = String.ofList ['U', 'p', 'd', 'a', 't', 'e', 'C', 'r', 'e', 'a', 't', 'e', 'I', 'n', 'v', 'e', 'n', 't', 'o', 'r', 'y', 'I', 't', 'e', 'm'] := by kernel_rfl

/-- The names of the blocks and variables of `UpdateCreateInventoryItem`. -/
def b309 : List (List Char × List (List Char)) :=
  [(['A', 'g', 'e', 'n', 't', 'D', 'a', 't', 'a'], [['A', 'g', 'e', 'n', 't', 'I', 'D'], ['S', 'i', 'm', 'A', 'p', 'p', 'r', 'o', 'v', 'e', 'd'], ['T', 'r', 'a', 'n', 's', 'a', 'c', 't', 'i', 'o', 'n', 'I', 'D']]),
   (['I', 'n', 'v', 'e', 'n', 't', 'o', 'r', 'y', 'D', 'a', 't', 'a'], [['I', 't', 'e', 'm', 'I', 'D'], ['F', 'o', 'l', 'd', 'e', 'r', 'I', 'D'], ['C', 'a', 'l', 'l', 'b', 'a', 'c', 'k', 'I', 'D'], ['C', 'r', 'e', 'a', 't', 'o', 'r', 'I', 'D'], ['O', 'w', 'n', 'e', 'r', 'I', 'D'], ['G', 'r', 'o', 'u', 'p', 'I', 'D'], ['B', 'a', 's', 'e', 'M', 'a', 's', 'k'], ['O', 'w', 'n', 'e', 'r', 'M', 'a', 's', 'k'], ['G', 'r', 'o', 'u', 'p', 'M', 'a', 's', 'k'], ['E', 'v', 'e', 'r', 'y', 'o', 'n', 'e', 'M', 'a', 's', 'k'], ['N', 'e', 'x', 't', 'O', 'w', 'n', 'e', 'r', 'M', 'a', 's', 'k'], ['G', 'r', 'o', 'u', 'p', 'O', 'w', 'n', 'e', 'd'], ['A', 's', 's', 'e', 't', 'I', 'D'], ['T', 'y', 'p', 'e'], ['I', 'n', 'v', 'T', 'y', 'p', 'e'], ['F', 'l', 'a', 'g', 's'], ['S', 'a', 'l', 'e', 'T', 'y', 'p', 'e'], ['S', 'a', 'l', 'e', 'P', 'r', 'i', 'c', 'e'], ['N', 'a', 'm', 'e'], ['D', 'e', 's', 'c', 'r', 'i', 'p', 't', 'i', 'o', 'n'], ['C', 'r', 'e', 'a', 't', 'i', 'o', 'n', 'D', 'a', 't', 'e'], ['C', 'R', 'C']])]

theorem w309 : Checked t309 := ⟨b309, by kernel_rfl, by kernel_rfl, by kernel_rfl⟩

/-- Lines of `message_template.msg` up to the end of `MoveInventoryItem`. -/
def c310 : List (List Char) :=
  [chars! "",
   chars! "{",
   chars! "\tMoveInventoryItem\tLow\t268 NotTrusted\tZerocoded",
   chars! "\t{",
   chars! "\t\tAgentData\t\tSingle",
   chars! "\t\t{\tAgentID\t\tLLUUID\t}",
   chars! "\t\t{\tSessionID\tLLUUID\t}",
   chars! "\t\t{\tStamp\t\tBOOL\t} // should the server re-timestamp?",
   chars! "\t}",
   chars! "\t{",
   chars! "\t\tInventoryData\tVariable",
   chars! "\t\t{\tItemID\t\tLLUUID\t}",
   chars! "\t\t{\tFolderID\tLLUUID\t}",
   chars! "\t\t{\tNewName\t\t\tVariable\t1\t}",
   chars! "\t}",
   chars! "}"]

/-- `MoveInventoryItem` as the parser creates it. -/
def r310 : RawTemplate :=
  ⟨"MoveInventoryItem", .low, 268, [255, 255, 12], some .notTrusted, some .zerocoded, some .notDeprecated,
    [⟨"InventoryData", .variable, 0, [⟨"NewName", some .variable, some 1⟩, ⟨"FolderID", some .uuid, some 16⟩, ⟨"ItemID", some .uuid, some 16⟩]⟩,
     ⟨"AgentData", .single, 0, [⟨"Stamp", some .bool, some 1⟩, ⟨"SessionID", some .uuid, some 16⟩, ⟨"AgentID", some .uuid, some 16⟩]⟩]⟩

/-- `MoveInventoryItem` in file order. -/
def t310 : Template :=
  ⟨"MoveInventoryItem", .low, 268, [], some .notTrusted, some .zerocoded, some .notDeprecated,
    [⟨"AgentData", .single, 0, [⟨"AgentID", .uuid, 16⟩, ⟨"SessionID", .uuid, 16⟩, ⟨"Stamp", .bool, 1⟩]⟩,
     ⟨"InventoryData", .variable, 0, [⟨"ItemID", .uuid, 16⟩, ⟨"FolderID", .uuid, 16⟩, ⟨"NewName", .variable, 1⟩]⟩]⟩

theorem p310 : ChunkOk c310 r310 := by intro v older; kernel_rfl
theorem k310 : r310.known = some t310 := by kernel_rfl
theorem n310 : t310.name = String.ofList ['M', 'o', 'v', 'e', 'I', 'n', 'v', 'e', 'n', 't', 'o', 'r', 'y', 'I', 't', 'e', 'm'] := by kernel_rfl

/-- The names of the blocks and variables of `MoveInventoryItem`. -/
def b310 : List (List Char × List (List Char)) :=
  [(['A', 'g', 'e', 'n', 't', 'D', 'a', 't', 'a'], [['A', 'g', 'e', 'n', 't', 'I', 'D'], ['S', 'e', 's', 's', 'i', 'o', 'n', 'I', 'D'], ['S', 't', 'a', 'm', 'p']]),
   (['I', 'n', 'v', 'e', 'n', 't', 'o', 'r', 'y', 'D', 'a', 't', 'a'], [['I', 't', 'e', 'm', 'I', 'D'], ['F', 'o', 'l', 'd', 'e', 'r', 'I', 'D'], ['N', 'e', 'w', 'N', 'a', 'm', 'e']])]

theorem w310 : Checked t310 := ⟨b310, by kernel_rfl, by kernel_rfl, by kernel_rfl⟩

/-- Lines of `message_template.msg` up to the end of `CopyInventoryItem`. -/
def c311 : List (List Char) :=
  [chars! "",
   chars! "// copy inventory item by item id to specified destination folder, ",
   chars! "// send out bulk inventory update when done.",
   chars! "//",
   chars! "// Inventory items are only unique for {agent, inv_id} pairs;",
   chars! "// the OldItemID needs to be paired with the OldAgentID to",
   chars! "// produce a unique inventory item.",
   chars! "{",
   chars! "\tCopyInventoryItem\tLow\t269 NotTrusted\tZerocoded",
   chars! "\t{",
   chars! "\t\tAgentData\t\tSingle",
   chars! "\t\t{\tAgentID\t\tLLUUID\t}",
   chars! "\t\t{\tSessionID\tLLUUID\t}",
   chars! "\t}",
   chars! "\t{",
   chars! "\t\tInventoryData\t\tVariable",
   chars! "\t\t{\tCallbackID\tU32\t\t\t} // Async response",
   chars! "\t\t{\tOldAgentID\t\tLLUUID\t}",
   chars! "\t\t{\tOldItemID\t\tLLUUID\t}",
   chars! "\t\t{\tNewFolderID\t\tLLUUID\t}",
   chars! "\t\t{\tNewName\t\t\tVariable\t1\t}",
   chars! "\t}",
   chars! "}"]

/-- `CopyInventoryItem` as the parser creates it. -/
def r311 : RawTemplate :=
  ⟨"CopyInventoryItem", .low, 269, [255, 255, 13], some .notTrusted, some .zerocoded, some .notDeprecated,
    [⟨"InventoryData", .variable, 0, [⟨"NewName", some .variable, some 1⟩, ⟨"NewFolderID", some .uuid, some 16⟩, ⟨"OldItemID", some .uuid, some 16⟩, ⟨"OldAgentID", some .uuid, some 16⟩, ⟨"CallbackID", some .u32, some 4⟩]⟩,
     ⟨"AgentData", .single, 0, [⟨"SessionID", some .uuid, some 16⟩, ⟨"AgentID", some .uuid, some 16⟩]⟩]⟩

/-- `CopyInventoryItem` in file order. -/
def t311 : Template :=
  ⟨"CopyInventoryItem", .low, 269, [], some .notTrusted, some .zerocoded, some .notDeprecated,
    [⟨"AgentData", .single, 0, [⟨"AgentID", .uuid, 16⟩, ⟨"SessionID", .uuid, 16⟩]⟩,
     ⟨"InventoryData", .variable, 0, [⟨"CallbackID", .u32, 4⟩, ⟨"OldAgentID", .uuid, 16⟩, ⟨"OldItemID", .uuid, 16⟩, ⟨"NewFolderID", .uuid, 16⟩, ⟨"NewName", .variable, 1⟩]⟩]⟩

theorem p311 : ChunkOk c311 r311 := by intro v older; kernel_rfl
theorem k311 : r311.known = some t311 := by kernel_rfl
theorem n311 : t311.name = String.ofList ['C', 'o', 'p', 'y', 'I', 'n', 'v', 'e', 'n', 't', 'o', 'r', 'y', 'I', 't', 'e', 'm'] := by kernel_rfl

/-- The names of the blocks and variables of `CopyInventoryItem`. -/
def b311 : List (List Char × List (List Char)) :=
  [(['A', 'g', 'e', 'n', 't', 'D', 'a', 't', 'a'], [['A', 'g', 'e', 'n', 't', 'I', 'D'], ['S', 'e', 's', 's', 'i', 'o', 'n', 'I', 'D']]),
   (['I', 'n', 'v', 'e', 'n', 't', 'o', 'r', 'y', 'D', 'a', 't', 'a'], [['C', 'a', 'l', 'l', 'b', 'a', 'c', 'k', 'I', 'D'], ['O', 'l', 'd', 'A', 'g', 'e', 'n', 't', 'I', 'D'], ['O', 'l', 'd', 'I', 't', 'e', 'm', 'I', 'D'], ['N', 'e', 'w', 'F', 'o', 'l', 'd', 'e', 'r', 'I', 'D'], ['N', 'e', 'w', 'N', 'a', 'm', 'e']])]

theorem w311 : Checked t311 := ⟨b311, by kernel_rfl, by kernel_rfl, by kernel_rfl⟩

/-- Lines of `message_template.msg` up to the end of `RemoveInventoryItem`. -/
def c312 : List (List Char) :=
  [chars! "",
   chars! "{",
   chars! "\tRemoveInventoryItem Low 270 NotTrusted Unencoded",
   chars! "\t{",
   chars! "\t\tAgentData\t\tSingle",
   chars! "\t\t{\tAgentID\t\tLLUUID\t}",
   chars! "\t\t{\tSessionID\tLLUUID\t}",
   chars! "\t}",
   chars! "\t{",
   chars! "\t\tInventoryData\tVariable",
   chars! "\t\t{\tItemID\t\tLLUUID\t}",
   chars! "\t}",
   chars! "}"]

/-- `RemoveInventoryItem` as the parser creates it. -/
def r312 : RawTemplate :=
  ⟨"RemoveInventoryItem", .low, 270, [255, 255, 14], some .notTrusted, some .unencoded, some .notDeprecated,
    [⟨"InventoryData", .variable, 0, [⟨"ItemID", some .uuid, some 16⟩]⟩,
     ⟨"AgentData", .single, 0, [⟨"SessionID", some .uuid, some 16⟩, ⟨"AgentID", some .uuid, some 16⟩]⟩]⟩

/-- `RemoveInventoryItem` in file order. -/
def t312 : Template :=
  ⟨"RemoveInventoryItem", .low, 270, [], some .notTrusted, some .unencoded, some .notDeprecated,
    [⟨"AgentData", .single, 0, [⟨"AgentID", .uuid, 16⟩, ⟨"SessionID", .uuid, 16⟩]⟩,
     ⟨"InventoryData", .variable, 0, [⟨"ItemID", .uuid, 16⟩]⟩]⟩

theorem p312 : ChunkOk c312 r312 := by intro v older; kernel_rfl
theorem k312 : r312.known = some t312 := by kernel_rfl
theorem n312 : t312.name = String.ofList ['R', 'e', 'm', 'o', 'v', 'e', 'I', 'n', 'v', 'e', 'n', 't', 'o', 'r', 'y', 'I', 't', 'e', 'm'] := by kernel_rfl

/-- The names of the blocks and variables of `RemoveInventoryItem`. -/
def b312 : List (List Char × List (List Char)) :=
  [(['A', 'g', 'e', 'n', 't', 'D', 'a', 't', 'a'], [['A', 'g', 'e', 'n', 't', 'I', 'D'], ['S', 'e', 's', 's', 'i', 'o', 'n', 'I', 'D']]),
   (['I', 'n', 'v', 'e', 'n', 't', 'o', 'r', 'y', 'D', 'a', 't', 'a'], [['I', 't', 'e', 'm', 'I', 'D']])]

theorem w312 : Checked t312 := ⟨b312, by kernel_rfl, by kernel_rfl, by kernel_rfl⟩

/-- Lines of `message_template.msg` up to the end of `ChangeInventoryItemFlags`. -/
def c313 : List (List Char) :=
  [chars! "",
   chars! "{",
   chars! "\tChangeInventoryItemFlags Low 271 NotTrusted Unencoded",
   chars! "\t{",
   chars! "\t\tAgentData\t\tSingle",
   chars! "\t\t{\tAgentID\t\tLLUUID\t}",
   chars! "\t\t{\tSessionID\tLLUUID\t}",
   chars! "\t}",
   chars! "\t{",
   chars! "\t\tInventoryData\tVariable",
   chars! "\t\t{\tItemID\t\tLLUUID\t}",
   chars! "\t\t{\tFlags\t\tU32\t}",
   chars! "\t}",
   chars! "}"]

/-- `ChangeInventoryItemFlags` as the parser creates it. -/
def r313 : RawTemplate :=
  ⟨"ChangeInventoryItemFlags", .low, 271, [255, 255, 15], some .notTrusted, some .unencoded, some .notDeprecated,
    [⟨"InventoryData", .variable, 0, [⟨"Flags", some .u32, some 4⟩, ⟨"ItemID", some .uuid, some 16⟩]⟩,
     ⟨"AgentData", .single, 0, [⟨"SessionID", some .uuid, some 16⟩, ⟨"AgentID", some .uuid, some 16⟩]⟩]⟩

/-- `ChangeInventoryItemFlags` in file order. -/
def t313 : Template :=
  ⟨"ChangeInventoryItemFlags", .low, 271, [], some .notTrusted, some .unencoded, some .notDeprecated,
    [⟨"AgentData", .single, 0, [⟨"AgentID", .uuid, 16⟩, ⟨"SessionID", .uuid, 16⟩]⟩,
     ⟨"InventoryData", .variable, 0, [⟨"ItemID", .uuid, 16⟩, ⟨"Flags", .u32, 4⟩]⟩]⟩

theorem p313 : ChunkOk c313 r313 := by intro v older; kernel_rfl
theorem k313 : r313.known = some t313 := by kernel_rfl
theorem n313 : t313.name = String.ofList ['C', 'h', 'a', 'n', 'g', 'e', 'I', 'n', 'v', 'e', 'n', 't', 'o', 'r', 'y', 'I', 't', 'e', 'm', 'F', 'l', 'a', 'g', 's'] := by kernel_rfl

/-- The names of the blocks and variables of `ChangeInventoryItemFlags`. -/
def b313 : List (List Char × List (List Char)) :=
  [(['A', 'g', 'e', 'n', 't', 'D', 'a', 't', 'a'], [['A', 'g', 'e', 'n', 't', 'I', 'D'], ['S', 'e', 's', 's', 'i', 'o', 'n', 'I', 'D']]),
   (['I', 'n', 'v', 'e', 'n', 't', 'o', 'r', 'y', 'D', 'a', 't', 'a'], [['I', 't', 'e', 'm', 'I', 'D'], ['F', 'l', 'a', 'g', 's']])]

theorem w313 : Checked t313 := ⟨b313, by kernel_rfl, by kernel_rfl, by kernel_rfl⟩

/-- Lines of `message_template.msg` up to the end of `SaveAssetIntoInventory`. -/
def c314 : List (List Char) :=
  [chars! "",
   chars! "//",
   chars! "// Sim outgoing only (to dataserver, to viewer)",
   chars! "// NOT viewer to sim, sim should not have handler, ever",
   chars! "// This message is currently only uses objects, so the viewer ignores",
   chars! "// the asset id.",
   chars! "{",
   chars! "\tSaveAssetIntoInventory Low 272 Trusted Unencoded",
   chars! "\t{",
   chars! "\t\tAgentData\t\tSingle",
   chars! "\t\t{\tAgentID\t\t\tLLUUID\t}",
   chars! "\t}",
   chars! "\t{",
   chars! "\t\tInventoryData\t\tSingle",
   chars! "\t\t{\tItemID\t\t\tLLUUID\t}",
   chars! "\t\t{\tNewAssetID\t\tLLUUID\t}",
   chars! "\t}",
   chars! "}"]

/-- `SaveAssetIntoInventory` as the parser creates it. -/
def r314 : RawTemplate :=
  ⟨"SaveAssetIntoInventory", .low, 272, [255, 255, 16], some .trusted, some .unencoded, some .notDeprecated,
    [⟨"InventoryData", .single, 0, [⟨"NewAssetID", some .uuid, some 16⟩, ⟨"ItemID", some .uuid, some 16⟩]⟩,
     ⟨"AgentData", .single, 0, [⟨"AgentID", some .uuid, some 16⟩]⟩]⟩

/-- `SaveAssetIntoInventory` in file order. -/
def t314 : Template :=
  ⟨"SaveAssetIntoInventory", .low, 272, [], some .trusted, some .unencoded, some .notDeprecated,
    [⟨"AgentData", .single, 0, [⟨"AgentID", .uuid, 16⟩]⟩,
     ⟨"InventoryData", .single, 0, [⟨"ItemID", .uuid, 16⟩, ⟨"NewAssetID", .uuid, 16⟩]⟩]⟩

theorem p314 : ChunkOk c314 r314 := by intro v older; kernel_rfl
theorem k314 : r314.known = some t314 := by kernel_rfl
theorem n314 : t314.name = String.ofList ['S', 'a', 'v', 'e', 'A', 's', 's', 'e', 't', 'I', 'n', 't', 'o', 'I', 'n', 'v', 'e', 'n', 't', 'o', 'r', 'y'] := by kernel_rfl

/-- The names of the blocks and variables of `SaveAssetIntoInventory`. -/
def b314 : List (List Char × List (List Char)) :=
  [(['A', 'g', 'e', 'n', 't', 'D', 'a', 't', 'a'], [['A', 'g', 'e', 'n', 't', 'I', 'D']]),
   (['I', 'n', 'v', 'e', 'n', 't', 'o', 'r', 'y', 'D', 'a', 't', 'a'], [['I', 't', 'e', 'm', 'I', 'D'], ['N', 'e', 'w', 'A', 's', 's', 'e', 't', 'I', 'D']])]

theorem w314 : Checked t314 := ⟨b314, by kernel_rfl, by kernel_rfl, by kernel_rfl⟩

/-- Lines of `message_template.msg` up to the end of `CreateInventoryFolder`. -/
def c315 : List (List Char) :=
  [chars! "",
   chars! "{",
   chars! "\tCreateInventoryFolder\tLow 273 NotTrusted Unencoded",
   chars! "\t{",
   chars! "\t\tAgentData\t\t\tSingle",
   chars! "\t\t{\tAgentID\t\t\tLLUUID\t}",
   chars! "\t\t{\tSessionID\t\tLLUUID\t}",
   chars! "\t}",
   chars! "\t{",
   chars! "\t\tFolderData\t\t\tSingle",
   chars! "\t\t{\tFolderID\t\tLLUUID\t}",
   chars! "\t\t{\tParentID\t\tLLUUID\t}",
   chars! "\t\t{\tType\t\t\tS8\t}",
   chars! "\t\t{\tName\t\t\tVariable\t1\t}",
   chars! "\t}",
   chars! "}"]

/-- `CreateInventoryFolder` as the parser creates it. -/
def r315 : RawTemplate :=
  ⟨"CreateInventoryFolder", .low, 273, [255, 255, 17], some .notTrusted, some .unencoded, some .notDeprecated,
    [⟨"FolderData", .single, 0, [⟨"Name", some .variable, some 1⟩, ⟨"Type", some .s8, some 1⟩, ⟨"ParentID", some .uuid, some 16⟩, ⟨"FolderID", some .uuid, some 16⟩]⟩,
     ⟨"AgentData", .single, 0, [⟨"SessionID", some .uuid, some 16⟩, ⟨"AgentID", some .uuid, some 16⟩]⟩]⟩

/-- `CreateInventoryFolder` in file order. -/
def t315 : Template :=
  ⟨"CreateInventoryFolder", .low, 273, [], some .notTrusted, some .unencoded, some .notDeprecated,
    [⟨"AgentData", .single, 0, [⟨"AgentID", .uuid, 16⟩, ⟨"SessionID", .uuid, 16⟩]⟩,
     ⟨"FolderData", .single, 0, [⟨"FolderID", .uuid, 16⟩, ⟨"ParentID", .uuid, 16⟩, ⟨"Type", .s8, 1⟩, ⟨"Name", .variable, 1⟩]⟩]⟩

theorem p315 : ChunkOk c315 r315 := by intro v older; kernel_rfl
theorem k315 : r315.known = some t315 := by kernel_rfl
theorem n315 : t315.name = String.ofList ['C', 'r', 'e', 'a', 't', 'e', 'I', 'n', 'v', 'e', 'n', 't', 'o', 'r', 'y', 'F', 'o', 'l', 'd', 'e', 'r'] := by kernel_rfl

/-- The names of the blocks and variables of `CreateInventoryFolder`. -/
def b315 : List (List Char × List (List Char)) :=
  [(['A', 'g', 'e', 'n', 't', 'D', 'a', 't', 'a'], [['A', 'g', 'e', 'n', 't', 'I', 'D'], ['S', 'e', 's', 's', 'i', 'o', 'n', 'I', 'D']]),
   (['F', 'o', 'l', 'd', 'e', 'r', 'D', 'a', 't', 'a'], [['F', 'o', 'l', 'd', 'e', 'r', 'I', 'D'], ['P', 'a', 'r', 'e', 'n', 't', 'I', 'D'], ['T', 'y', 'p', 'e'], ['N', 'a', 'm', 'e']])]

theorem w315 : Checked t315 := ⟨b315, by kernel_rfl, by kernel_rfl, by kernel_rfl⟩

/-- Lines of `message_template.msg` up to the end of `UpdateInventoryFolder`. -/
def c316 : List (List Char) :=
  [chars! "",
   chars! "{",
   chars! "\tUpdateInventoryFolder Low 274 NotTrusted Unencoded",
   chars! "\t{",
   chars! "\t\tAgentData\t\t\tSingle",
   chars! "\t\t{\tAgentID\t\t\tLLUUID\t}",
   chars! "\t\t{\tSessionID\t\tLLUUID\t}",
   chars! "\t}",
   chars! "\t{",
   chars! "\t\tFolderData\t\t\tVariable",
   chars! "\t\t{\tFolderID\t\tLLUUID\t}",
   chars! "\t\t{\tParentID\t\tLLUUID\t}",
   chars! "\t\t{\tType\t\t\tS8\t}",
   chars! "\t\t{\tName\t\t\tVariable\t1\t}",
   chars! "\t}",
   chars! "}"]

/-- `UpdateInventoryFolder` as the parser creates it. -/
def r316 : RawTemplate :=
  ⟨"UpdateInventoryFolder", .low, 274, [255, 255, 18], some .notTrusted, some .unencoded, some .notDeprecated,
    [⟨"FolderData", .variable, 0, [⟨"Name", some .variable, some 1⟩, ⟨"Type", some .s8, some 1⟩, ⟨"ParentID", some .uuid, some 16⟩, ⟨"FolderID", some .uuid, some 16⟩]⟩,
     ⟨"AgentData", .single, 0, [⟨"SessionID", some .uuid, some 16⟩, ⟨"AgentID", some .uuid, some 16⟩]⟩]⟩

/-- `UpdateInventoryFolder` in file order. -/
def t316 : Template :=
  ⟨"UpdateInventoryFolder", .low, 274, [], some .notTrusted, some .unencoded, some .notDeprecated,
    [⟨"AgentData", .single, 0, [⟨"AgentID", .uuid, 16⟩, ⟨"SessionID", .uuid, 16⟩]⟩,
     ⟨"FolderData", .variable, 0, [⟨"FolderID", .uuid, 16⟩, ⟨"ParentID", .uuid, 16⟩, ⟨"Type", .s8, 1⟩, ⟨"Name", .variable, 1⟩]⟩]⟩

theorem p316 : ChunkOk c316 r316 := by intro v older; kernel_rfl
theorem k316 : r316.known = some t316 := by kernel_rfl
theorem n316 : t316.name = String.ofList ['U', 'p', 'd', 'a', 't', 'e', 'I', 'n', 'v', 'e', 'n', 't', 'o', 'r', 'y', 'F', 'o', 'l', 'd', 'e', 'r'] := by kernel_rfl

/-- The names of the blocks and variables of `UpdateInventoryFolder`. -/
def b316 : List (List Char × List (List Char)) :=
  [(['A', 'g', 'e', 'n', 't', 'D', 'a', 't', 'a'], [['A', 'g', 'e', 'n', 't', 'I', 'D'], ['S', 'e', 's', 's', 'i', 'o', 'n', 'I', 'D']]),
   (['F', 'o', 'l', 'd', 'e', 'r', 'D', 'a', 't', 'a'], [['F', 'o', 'l', 'd', 'e', 'r', 'I', 'D'], ['P', 'a', 'r', 'e', 'n', 't', 'I', 'D'], ['T', 'y', 'p', 'e'], ['N', 'a', 'm', 'e']])]

theorem w316 : Checked t316 := ⟨b316, by kernel_rfl, by kernel_rfl, by kernel_rfl⟩

/-- Lines of `message_template.msg` up to the end of `MoveInventoryFolder`. -/
def c317 : List (List Char) :=
  [chars! "",
   chars! "{",
   chars! "\tMoveInventoryFolder\tLow\t275 NotTrusted\tZerocoded",
   chars! "\t{",
   chars! "\t\tAgentData\t\tSingle",
   chars! "\t\t{\tAgentID\t\tLLUUID\t}",
   chars! "\t\t{\tSessionID\tLLUUID\t}",
   chars! "\t\t{\tStamp\t\tBOOL\t} // should the server re-timestamp children",
   chars! "\t}",
   chars! "\t{",
   chars! "\t\tInventoryData\tVariable",
   chars! "\t\t{\tFolderID\tLLUUID\t}",
   chars! "\t\t{\tParentID\tLLUUID\t}",
   chars! "\t}",
   chars! "}"]

/-- `MoveInventoryFolder` as the parser creates it. -/
def r317 : RawTemplate :=
  ⟨"MoveInventoryFolder", .low, 275, [255, 255, 19], some .notTrusted, some .zerocoded, some .notDeprecated,
    [⟨"InventoryData", .variable, 0, [⟨"ParentID", some .uuid, some 16⟩, ⟨"FolderID", some .uuid, some 16⟩]⟩,
     ⟨"AgentData", .single, 0, [⟨"Stamp", some .bool, some 1⟩, ⟨"SessionID", some .uuid, some 16⟩, ⟨"AgentID", some .uuid, some 16⟩]⟩]⟩

/-- `MoveInventoryFolder` in file order. -/
def t317 : Template :=
  ⟨"MoveInventoryFolder", .low, 275, [], some .notTrusted, some .zerocoded, some .notDeprecated,
    [⟨"AgentData", .single, 0, [⟨"AgentID", .uuid, 16⟩, ⟨"SessionID", .uuid, 16⟩, ⟨"Stamp", .bool, 1⟩]⟩,
     ⟨"InventoryData", .variable, 0, [⟨"FolderID", .uuid, 16⟩, ⟨"ParentID", .uuid, 16⟩]⟩]⟩

theorem p317 : ChunkOk c317 r317 := by intro v older; kernel_rfl
theorem k317 : r317.known = some t317 := by kernel_rfl
theorem n317 : t317.name = String.ofList ['M', 'o', 'v', 'e', 'I', 'n', 'v', 'e', 'n', 't', 'o', 'r', 'y', 'F', 'o', 'l', 'd', 'e', 'r'] := by kernel_rfl

/-- The names of the blocks and variables of `MoveInventoryFolder`. -/
def b317 : List (List Char × List (List Char)) :=
  [(['A', 'g', 'e', 'n', 't', 'D', 'a', 't', 'a'], [['A', 'g', 'e', 'n', 't', 'I', 'D'], ['S', 'e', 's', 's', 'i', 'o', 'n', 'I', 'D'], ['S', 't', 'a', 'm', 'p']]),
   (['I', 'n', 'v', 'e', 'n', 't', 'o', 'r', 'y', 'D', 'a', 't', 'a'], [['F', 'o', 'l', 'd', 'e', 'r', 'I', 'D'], ['P', 'a', 'r', 'e', 'n', 't', 'I', 'D']])]

theorem w317 : Checked t317 := ⟨b317, by kernel_rfl, by kernel_rfl, by kernel_rfl⟩

/-- Lines of `message_template.msg` up to the end of `RemoveInventoryFolder`. -/
def c318 : List (List Char) :=
  [chars! "",
   chars! "{",
   chars! "\tRemoveInventoryFolder Low 276 NotTrusted Unencoded",
   chars! "\t{",
   chars! "\t\tAgentData\t\t\tSingle",
   chars! "\t\t{\tAgentID\t\t\tLLUUID\t}",
   chars! "\t\t{\tSessionID\t\tLLUUID\t}",
   chars! "\t}",
   chars! "\t{",
   chars! "\t\tFolderData\t\t\tVariable",
   chars! "\t\t{\tFolderID\t\tLLUUID\t}",
   chars! "\t}",
   chars! "}"]

/-- `RemoveInventoryFolder` as the parser creates it. -/
def r318 : RawTemplate :=
  ⟨"RemoveInventoryFolder", .low, 276, [255, 255, 20], some .notTrusted, some .unencoded, some .notDeprecated,
    [⟨"FolderData", .variable, 0, [⟨"FolderID", some .uuid, some 16⟩]⟩,
     ⟨"AgentData", .single, 0, [⟨"SessionID", some .uuid, some 16⟩, ⟨"AgentID", some .uuid, some 16⟩]⟩]⟩

/-- `RemoveInventoryFolder` in file order. -/
def t318 : Template :=
  ⟨"RemoveInventoryFolder", .low, 276, [], some .notTrusted, some .unencoded, some .notDeprecated,
    [⟨"AgentData", .single, 0, [⟨"AgentID", .uuid, 16⟩, ⟨"SessionID", .uuid, 16⟩]⟩,
     ⟨"FolderData", .variable, 0, [⟨"FolderID", .uuid, 16⟩]⟩]⟩

theorem p318 : ChunkOk c318 r318 := by intro v older; kernel_rfl
theorem k318 : r318.known = some t318 := by kernel_rfl
theorem n318 : t318.name = String.ofList ['R', 'e', 'm', 'o', 'v', 'e', 'I', 'n', 'v', 'e', 'n', 't', 'o', 'r', 'y', 'F', 'o', 'l', 'd', 'e', 'r'] := by kernel_rfl

/-- The names of the blocks and variables of `RemoveInventoryFolder`. -/
def b318 : List (List Char × List (List Char)) :=
  [(['A', 'g', 'e', 'n', 't', 'D', 'a', 't', 'a'], [['A', 'g', 'e', 'n', 't', 'I', 'D'], ['S', 'e', 's', 's', 'i', 'o', 'n', 'I', 'D']]),
   (['F', 'o', 'l', 'd', 'e', 'r', 'D', 'a', 't', 'a'], [['F', 'o', 'l', 'd', 'e', 'r', 'I', 'D']])]

theorem w318 : Checked t318 := ⟨b318, by kernel_rfl, by kernel_rfl, by kernel_rfl⟩

/-- Lines of `message_template.msg` up to the end of `FetchInventoryDescendents`. -/
def c319 : List (List Char) :=
  [chars! "",
   chars! "// Get inventory segment.",
   chars! "{",
   chars! "\tFetchInventoryDescendents Low 277 NotTrusted Zerocoded",
   chars! "\t{",
   chars! "\t\tAgentData\t\tSingle",
   chars! "\t\t{\tAgentID\t\tLLUUID\t}",
   chars! "\t\t{\tSessionID\tLLUUID\t}",
   chars! "\t}",
   chars! "\t{",
   chars! "\t\tInventoryData\tSingle",
   chars! "\t\t{\tFolderID\tLLUUID\t}",
   chars! "\t\t{\tOwnerID\t\tLLUUID\t}",
   chars! "\t\t{\tSortOrder\tS32\t\t} // 0 = name, 1 = time",
   chars! "\t\t{\tFetchFolders\tBOOL\t} // false will omit folders in query",
   chars! "\t\t{\tFetchItems\t\tBOOL\t} // false will omit items in query",
   chars! "\t}",
   chars! "}"]

/-- `FetchInventoryDescendents` as the parser creates it. -/
def r319 : RawTemplate :=
  ⟨"FetchInventoryDescendents", .low, 277, [255, 255, 21], some .notTrusted, some .zerocoded, some .notDeprecated,
    [⟨"InventoryData", .single, 0, [⟨"FetchItems", some .bool, some 1⟩, ⟨"FetchFolders", some .bool, some 1⟩, ⟨"SortOrder", some .s32, some 4⟩, ⟨"OwnerID", some .uuid, some 16⟩, ⟨"FolderID", some .uuid, some 16⟩]⟩,
     ⟨"AgentData", .single, 0, [⟨"SessionID", some .uuid, some 16⟩, ⟨"AgentID", some .uuid, some 16⟩]⟩]⟩

/-- `FetchInventoryDescendents` in file order. -/
def t319 : Template :=
  ⟨"FetchInventoryDescendents", .low, 277, [], some .notTrusted, some .zerocoded, some .notDeprecated,
    [⟨"AgentData", .single, 0, [⟨"AgentID", .uuid, 16⟩, ⟨"SessionID", .uuid, 16⟩]⟩,
     ⟨"InventoryData", .single, 0, [⟨"FolderID", .uuid, 16⟩, ⟨"OwnerID", .uuid, 16⟩, ⟨"SortOrder", .s32, 4⟩, ⟨"FetchFolders", .bool, 1⟩, ⟨"FetchItems", .bool, 1⟩]⟩]⟩

theorem p319 : ChunkOk c319 r319 := by intro v older; kernel_rfl
theorem k319 : r319.known = some t319 := by kernel_rfl
theorem n319 : t319.name = String.ofList ['F', 'e', 't', 'c', 'h', 'I', 'n', 'v', 'e', 'n', 't', 'o', 'r', 'y', 'D', 'e', 's', 'c', 'e', 'n', 'd', 'e', 'n', 't', 's'] := by kernel_rfl

/-- The names of the blocks and variables of `FetchInventoryDescendents`. -/
def b319 : List (List Char × List (List Char)) :=
  [(['A', 'g', 'e', 'n', 't', 'D', 'a', 't', 'a'], [['A', 'g', 'e', 'n', 't', 'I', 'D'], ['S', 'e', 's', 's', 'i', 'o', 'n', 'I', 'D']]),
   (['I', 'n', 'v', 'e', 'n', 't', 'o', 'r', 'y', 'D', 'a', 't', 'a'], [['F', 'o', 'l', 'd', 'e', 'r', 'I', 'D'], ['O', 'w', 'n', 'e', 'r', 'I', 'D'], ['S', 'o', 'r', 't', 'O', 'r', 'd', 'e', 'r'], ['F', 'e', 't', 'c', 'h', 'F', 'o', 'l', 'd', 'e', 'r', 's'], ['F', 'e', 't', 'c', 'h', 'I', 't', 'e', 'm', 's']])]

theorem w319 : Checked t319 := ⟨b319, by kernel_rfl, by kernel_rfl, by kernel_rfl⟩

/-- Lines of `message_template.msg` up to the end of `InventoryDescendents`. -/
def c320 : List (List Char) :=
  [chars! "",
   chars! "// return inventory segment. ",
   chars! "// *NOTE: This could be compressed more since we already know the",
   chars! "// parent_id for folders and the folder_id for items, but this is",
   chars! "// reasonable until we heve server side inventory.",
   chars! "{",
   chars! "\tInventoryDescendents Low 278 Trusted Zerocoded",
   chars! "\t{",
   chars! "\t\tAgentData\t\tSingle",
   chars! "\t\t{\tAgentID\t\t\tLLUUID\t}",
   chars! "\t\t{\tFolderID\t\tLLUUID\t}",
   chars! "\t\t{\tOwnerID\t\t\tLLUUID\t} // owner of the folders creatd.",
   chars! "\t\t{\tVersion\t\t\tS32\t\t} // version of the folder for caching",
   chars! "\t\t{\tDescendents\t\tS32\t\t} // count to help with caching",
   chars! "\t}",
   chars! "\t{",
   chars! "\t\tFolderData\t\tVariable",
   chars! "\t\t{\tFolderID\t\tLLUUID\t}",
   chars! "\t\t{\tParentID\t\tLLUUID\t}",
   chars! "\t\t{\tType\t\t\tS8\t}",
   chars! "\t\t{\tName\t\t\tVariable\t1\t}",
   chars! "\t}",
   chars! "\t{",
   chars! "\t\tItemData\t\tVariable",
   chars! "\t\t{\tItemID\t\t\tLLUUID\t}",
   chars! "\t\t{\tFolderID\t\tLLUUID\t}",
   chars! "\t\t{\tCreatorID\t\tLLUUID\t}\t// permissions",
   chars! "\t\t{\tOwnerID\t\t\tLLUUID\t}\t// permissions",
   chars! "\t\t{\tGroupID\t\t\tLLUUID\t}\t// permissions",
   chars! "\t\t{\tBaseMask\t\tU32\t}\t// permissions",
   chars! "\t\t{\tOwnerMask\t\tU32\t}\t// permissions",
   chars! "\t\t{\tGroupMask\t\tU32\t}\t// permissions",
   chars! "\t\t{\tEveryoneMask\tU32\t}\t// permissions",
   chars! "\t\t{\tNextOwnerMask\tU32\t}\t// permissions",
   chars! "\t\t{\tGroupOwned\t\tBOOL\t}\t// permissions",
   chars! "\t\t{\tAssetID\t\t\tLLUUID\t}",
   chars! "\t\t{\tType\t\t\tS8\t}",
   chars! "\t\t{\tInvType\t\t\tS8\t}",
   chars! "\t\t{\tFlags\t\t\tU32\t}",
   chars! "\t\t{\tSaleType\t\tU8\t}",
   chars! "\t\t{\tSalePrice\t\tS32\t}",
   chars! "\t\t{\tName\t\t\tVariable\t1\t}",
   chars! "\t\t{\tDescription\t\tVariable\t1\t}",
   chars! "\t\t{\tCreationDate\tS32\t}",
   chars! "\t\t{\tCRC\t\t\t\tU32\t}",
   chars! "\t}",
   chars! "}"]

/-- `InventoryDescendents` as the parser creates it. -/
def r320 : RawTemplate :=
  ⟨"InventoryDescendents", .low, 278, [255, 255, 22], some .trusted, some .zerocoded, some .notDeprecated,
    [⟨"ItemData", .variable, 0, [⟨"CRC", some .u32, some 4⟩, ⟨"CreationDate", some .s32, some 4⟩, ⟨"Description", some .variable, some 1⟩, ⟨"Name", some .variable, some 1⟩, ⟨"SalePrice", some .s32, some 4⟩, ⟨"SaleType", some .u8, some 1⟩, ⟨"Flags", some .u32, some 4⟩, ⟨"InvType", some .s8, some 1⟩, ⟨"Type", some .s8, some 1⟩, ⟨"AssetID", some .uuid, some 16⟩, ⟨"GroupOwned", some .bool, some 1⟩, ⟨"NextOwnerMask", some .u32, some 4⟩, ⟨"EveryoneMask", some .u32, some 4⟩, ⟨"GroupMask", some .u32, some 4⟩, ⟨"OwnerMask", some .u32, some 4⟩, ⟨"BaseMask", some .u32, some 4⟩, ⟨"GroupID", some .uuid, some 16⟩, ⟨"OwnerID", some .uuid, some 16⟩, ⟨"CreatorID", some .uuid, some 16⟩, ⟨"FolderID", some .uuid, some 16⟩, ⟨"ItemID", some .uuid, some 16⟩]⟩,
     ⟨"FolderData", .variable, 0, [⟨"Name", some .variable, some 1⟩, ⟨"Type", some .s8, some 1⟩, ⟨"ParentID", some .uuid, some 16⟩, ⟨"FolderID", some .uuid, some 16⟩]⟩,
     ⟨"AgentData", .single, 0, [⟨"Descendents", some .s32, some 4⟩, ⟨"Version", some .s32, some 4⟩, ⟨"OwnerID", some .uuid, some 16⟩, ⟨"FolderID", some .uuid, some 16⟩, ⟨"AgentID", some .uuid, some 16⟩]⟩]⟩

/-- `InventoryDescendents` in file order. -/
def t320 : Template :=
  ⟨"InventoryDescendents", .low, 278, [], some .trusted, some .zerocoded, some .notDeprecated,
    [⟨"AgentData", .single, 0, [⟨"AgentID", .uuid, 16⟩, ⟨"FolderID", .uuid, 16⟩, ⟨"OwnerID", .uuid, 16⟩, ⟨"Version", .s32, 4⟩, ⟨"Descendents", .s32, 4⟩]⟩,
     ⟨"FolderData", .variable, 0, [⟨"FolderID", .uuid, 16⟩, ⟨"ParentID", .uuid, 16⟩, ⟨"Type", .s8, 1⟩, ⟨"Name", .variable, 1⟩]⟩,
     ⟨"ItemData", .variable, 0, [⟨"ItemID", .uuid, 16⟩, ⟨"FolderID", .uuid, 16⟩, ⟨"CreatorID", .uuid, 16⟩, ⟨"OwnerID", .uuid, 16⟩, ⟨"GroupID", .uuid, 16⟩, ⟨"BaseMask", .u32, 4⟩, ⟨"OwnerMask", .u32, 4⟩, ⟨"GroupMask", .u32, 4⟩, ⟨"EveryoneMask", .u32, 4⟩, ⟨"NextOwnerMask", .u32, 4⟩, ⟨"GroupOwned", .bool, 1⟩, ⟨"AssetID", .uuid, 16⟩, ⟨"Type", .s8, 1⟩, ⟨"InvType", .s8, 1⟩, ⟨"Flags", .u32, 4⟩, ⟨"SaleType", .u8, 1⟩, ⟨"SalePrice", .s32, 4⟩, ⟨"Name", .variable, 1⟩, ⟨"Description", .variable, 1⟩, ⟨"CreationDate", .s32, 4⟩, ⟨"CRC", .u32, 4⟩]⟩]⟩

theorem p320 : ChunkOk c320 r320 := by intro v older; kernel_rfl
theorem k320 : r320.known = some t320 := by kernel_rfl
theorem n320 : t320.name = String.ofList ['I', 'n', 'v', 'e', 'n', 't', 'o', 'r', 'y', 'D', 'e', 's', 'c', 'e', 'n', 'd', 'e', 'n', 't', 's'] := by kernel_rfl

/-- The names of the blocks and variables of `InventoryDescendents`. -/
def b320 : List (List Char × List (List Char)) :=
  [(['A', 'g', 'e', 'n', 't', 'D', 'a', 't', 'a'], [['A', 'g', 'e', 'n', 't', 'I', 'D'], ['F', 'o', 'l', 'd', 'e', 'r', 'I', 'D'], ['O', 'w', 'n', 'e', 'r', 'I', 'D'], ['V', 'e', 'r', 's', 'i', 'o', 'n'], ['D', 'e', 's', 'c', 'e', 'n', 'd', 'e', 'n', 't', 's']]),
   (['F', 'o', 'l', 'd', 'e', 'r', 'D', 'a', 't', 'a'], [['F', 'o', 'l', 'd', 'e', 'r', 'I', 'D'], ['P', 'a', 'r', 'e', 'n', 't', 'I', 'D'], ['T', 'y', 'p', 'e'], ['N', 'a', 'm', 'e']]),
   (['I', 't', 'e', 'm', 'D', 'a', 't', 'a'], [['I', 't', 'e', 'm', 'I', 'D'], ['F', 'o', 'l', 'd', 'e', 'r', 'I', 'D'], ['C', 'r', 'e', 'a', 't', 'o', 'r', 'I', 'D'], ['O', 'w', 'n', 'e', 'r', 'I', 'D'], ['G', 'r', 'o', 'u', 'p', 'I', 'D'], ['B', 'a', 's', 'e', 'M', 'a', 's', 'k'], ['O', 'w', 'n', 'e', 'r', 'M', 'a', 's', 'k'], ['G', 'r', 'o', 'u', 'p', 'M', 'a', 's', 'k'], ['E', 'v', 'e', 'r', 'y', 'o', 'n', 'e', 'M', 'a', 's', 'k'], ['N', 'e', 'x', 't', 'O', 'w', 'n', 'e', 'r', 'M', 'a', 's', 'k'], ['G', 'r', 'o', 'u', 'p', 'O', 'w', 'n', 'e', 'd'], ['A', 's', 's', 'e', 't', 'I', 'D'], ['T', 'y', 'p', 'e'], ['I', 'n', 'v', 'T', 'y', 'p', 'e'], ['F', 'l', 'a', 'g', 's'], ['S', 'a', 'l', 'e', 'T', 'y', 'p', 'e'], ['S', 'a', 'l', 'e', 'P', 'r', 'i', 'c', 'e'], ['N', 'a', 'm', 'e'], ['D', 'e', 's', 'c', 'r', 'i', 'p', 't', 'i', 'o', 'n'], ['C', 'r', 'e', 'a', 't', 'i', 'o', 'n', 'D', 'a', 't', 'e'], ['C', 'R', 'C']])]

theorem w320 : Checked t320 := ⟨b320, by kernel_rfl, by kernel_rfl, by kernel_rfl⟩

/-- Lines of `message_template.msg` up to the end of `FetchInventory`. -/
def c321 : List (List Char) :=
  [chars! "",
   chars! "// Get inventory item(s) - response comes through FetchInventoryReply",
   chars! "{",
   chars! "\tFetchInventory\tLow\t279 NotTrusted\tZerocoded",
   chars! "\t{",
   chars! "\t\tAgentData\t\tSingle",
   chars! "\t\t{\tAgentID\t\tLLUUID\t}",
   chars! "\t\t{\tSessionID\tLLUUID\t}",
   chars! "\t}",
   chars! "\t{",
   chars! "\t\tInventoryData\tVariable",
   chars! "\t\t{\tOwnerID\t\tLLUUID\t}",
   chars! "\t\t{\tItemID\t\tLLUUID\t}",
   chars! "\t}",
   chars! "}"]

/-- `FetchInventory` as the parser creates it. -/
def r321 : RawTemplate :=
  ⟨"FetchInventory", .low, 279, [255, 255, 23], some .notTrusted, some .zerocoded, some .notDeprecated,
    [⟨"InventoryData", .variable, 0, [⟨"ItemID", some .uuid, some 16⟩, ⟨"OwnerID", some .uuid, some 16⟩]⟩,
     ⟨"AgentData", .single, 0, [⟨"SessionID", some .uuid, some 16⟩, ⟨"AgentID", some .uuid, some 16⟩]⟩]⟩

/-- `FetchInventory` in file order. -/
def t321 : Template :=
  ⟨"FetchInventory", .low, 279, [], some .notTrusted, some .zerocoded, some .notDeprecated,
    [⟨"AgentData", .single, 0, [⟨"AgentID", .uuid, 16⟩, ⟨"SessionID", .uuid, 16⟩]⟩,
     ⟨"InventoryData", .variable, 0, [⟨"OwnerID", .uuid, 16⟩, ⟨"ItemID", .uuid, 16⟩]⟩]⟩

theorem p321 : ChunkOk c321 r321 := by intro v older; kernel_rfl
theorem k321 : r321.known = some t321 := by kernel_rfl
theorem n321 : t321.name = String.ofList ['F', 'e', 't', 'c', 'h', 'I', 'n', 'v', 'e', 'n', 't', 'o', 'r', 'y'] := by kernel_rfl

/-- The names of the blocks and variables of `FetchInventory`. -/
def b321 : List (List Char × List (List Char)) :=
  [(['A', 'g', 'e', 'n', 't', 'D', 'a', 't', 'a'], [['A', 'g', 'e', 'n', 't', 'I', 'D'], ['S', 'e', 's', 's', 'i', 'o', 'n', 'I', 'D']]),
   (['I', 'n', 'v', 'e', 'n', 't', 'o', 'r', 'y', 'D', 'a', 't', 'a'], [['O', 'w', 'n', 'e', 'r', 'I', 'D'], ['I', 't', 'e', 'm', 'I', 'D']])]

theorem w321 : Checked t321 := ⟨b321, by kernel_rfl, by kernel_rfl, by kernel_rfl⟩

/-- Lines of `message_template.msg` up to the end of `FetchInventoryReply`. -/
def c322 : List (List Char) :=
  [chars! "",
   chars! "// response to fetch inventory",
   chars! "{",
   chars! "\tFetchInventoryReply\tLow\t280 Trusted\tZerocoded",
   chars! "\t{",
   chars! "\t\tAgentData\t\tSingle",
   chars! "\t\t{\tAgentID\t\tLLUUID\t}",
   chars! "\t}",
   chars! "\t{",
   chars! "\t\tInventoryData\t\tVariable",
   chars! "\t\t{\tItemID\t\t\tLLUUID\t}",
   chars! "\t\t{\tFolderID\t\tLLUUID\t}",
   chars! "",
   chars! "\t\t{\tCreatorID\t\tLLUUID\t}\t// permissions",
   chars! "\t\t{\tOwnerID\t\t\tLLUUID\t}\t// permissions",
   chars! "\t\t{\tGroupID\t\t\tLLUUID\t}\t// permissions",
   chars! "\t\t{\tBaseMask\t\tU32\t}\t// permissions",
   chars! "\t\t{\tOwnerMask\t\tU32\t}\t// permissions",
   chars! "\t\t{\tGroupMask\t\tU32\t}\t// permissions",
   chars! "\t\t{\tEveryoneMask\tU32\t}\t// permissions",
   chars! "\t\t{\tNextOwnerMask\tU32\t}\t// permissions",
   chars! "\t\t{\tGroupOwned\t\tBOOL\t}\t// permissions",
   chars! "",
   chars! "\t\t{\tAssetID\t\t\tLLUUID\t}",
   chars! "\t\t{\tType\t\t\tS8\t}",
   chars! "\t\t{\tInvType\t\t\tS8\t}",
   chars! "\t\t{\tFlags\t\t\tU32\t}",
   chars! "\t\t{\tSaleType\t\tU8\t}",
   chars! "\t\t{\tSalePrice\t\tS32\t}",
   chars! "\t\t{\tName\t\t\tVariable\t1\t}",
   chars! "\t\t{\tDescription\t\tVariable\t1\t}",
   chars! "\t\t{\tCreationDate\tS32\t}",
   chars! "\t\t{\tCRC\t\t\t\tU32\t}",
   chars! "\t}",
   chars! "}"]

/-- `FetchInventoryReply` as the parser creates it. -/
def r322 : RawTemplate :=
  ⟨"FetchInventoryReply", .low, 280, [255, 255, 24], some .trusted, some .zerocoded, some .notDeprecated,
    [⟨"InventoryData", .variable, 0, [⟨"CRC", some .u32, some 4⟩, ⟨"CreationDate", some .s32, some 4⟩, ⟨"Description", some .variable, some 1⟩, ⟨"Name", some .variable, some 1⟩, ⟨"SalePrice", some .s32, some 4⟩, ⟨"SaleType", some .u8, some 1⟩, ⟨"Flags", some .u32, some 4⟩, ⟨"InvType", some .s8, some 1⟩, ⟨"Type", some .s8, some 1⟩, ⟨"AssetID", some .uuid, some 16⟩, ⟨"GroupOwned", some .bool, some 1⟩, ⟨"NextOwnerMask", some .u32, some 4⟩, ⟨"EveryoneMask", some .u32, some 4⟩, ⟨"GroupMask", some .u32, some 4⟩, ⟨"OwnerMask", some .u32, some 4⟩, ⟨"BaseMask", some .u32, some 4⟩, ⟨"GroupID", some .uuid, some 16⟩, ⟨"OwnerID", some .uuid, some 16⟩, ⟨"CreatorID", some .uuid, some 16⟩, ⟨"FolderID", some .uuid, some 16⟩, ⟨"ItemID", some .uuid, some 16⟩]⟩,
     ⟨"AgentData", .single, 0, [⟨"AgentID", some .uuid, some 16⟩]⟩]⟩

/-- `FetchInventoryReply` in file order. -/
def t322 : Template :=
  ⟨"FetchInventoryReply", .low, 280, [], some .trusted, some .zerocoded, some .notDeprecated,
    [⟨"AgentData", .single, 0, [⟨"AgentID", .uuid, 16⟩]⟩,
     ⟨"InventoryData", .variable, 0, [⟨"ItemID", .uuid, 16⟩, ⟨"FolderID", .uuid, 16⟩, ⟨"CreatorID", .uuid, 16⟩, ⟨"OwnerID", .uuid, 16⟩, ⟨"GroupID", .uuid, 16⟩, ⟨"BaseMask", .u32, 4⟩, ⟨"OwnerMask", .u32, 4⟩, ⟨"GroupMask", .u32, 4⟩, ⟨"EveryoneMask", .u32, 4⟩, ⟨"NextOwnerMask", .u32, 4⟩, ⟨"GroupOwned", .bool, 1⟩, ⟨"AssetID", .uuid, 16⟩, ⟨"Type", .s8, 1⟩, ⟨"InvType", .s8, 1⟩, ⟨"Flags", .u32, 4⟩, ⟨"SaleType", .u8, 1⟩, ⟨"SalePrice", .s32, 4⟩, ⟨"Name", .variable, 1⟩, ⟨"Description", .variable, 1⟩, ⟨"CreationDate", .s32, 4⟩, ⟨"CRC", .u32, 4⟩]⟩]⟩

theorem p322 : ChunkOk c322 r322 := by intro v older; kernel_rfl
theorem k322 : r322.known = some t322 := by kernel_rfl
theorem n322 : t322.name = String.ofList ['F', 'e', 't', 'c', 'h', 'I', 'n', 'v', 'e', 'n', 't', 'o', 'r', 'y', 'R', 'e', 'p', 'l', 'y'] := by kernel_rfl

/-- The names of the blocks and variables of `FetchInventoryReply`. -/
def b322 : List (List Char × List (List Char)) :=
  [(['A', 'g', 'e', 'n', 't', 'D', 'a', 't', 'a'], [['A', 'g', 'e', 'n', 't', 'I', 'D']]),
   (['I', 'n', 'v', 'e', 'n', 't', 'o', 'r', 'y', 'D', 'a', 't', 'a'], [['I', 't', 'e', 'm', 'I', 'D'], ['F', 'o', 'l', 'd', 'e', 'r', 'I', 'D'], ['C', 'r', 'e', 'a', 't', 'o', 'r', 'I', 'D'], ['O', 'w', 'n', 'e', 'r', 'I', 'D'], ['G', 'r', 'o', 'u', 'p', 'I', 'D'], ['B', 'a', 's', 'e', 'M', 'a', 's', 'k'], ['O', 'w', 'n', 'e', 'r', 'M', 'a', 's', 'k'], ['G', 'r', 'o', 'u', 'p', 'M', 'a', 's', 'k'], ['E', 'v', 'e', 'r', 'y', 'o', 'n', 'e', 'M', 'a', 's', 'k'], ['N', 'e', 'x', 't', 'O', 'w', 'n', 'e', 'r', 'M', 'a', 's', 'k'], ['G', 'r', 'o', 'u', 'p', 'O', 'w', 'n', 'e', 'd'], ['A', 's', 's', 'e', 't', 'I', 'D'], ['T', 'y', 'p', 'e'], ['I', 'n', 'v', 'T', 'y', 'p', 'e'], ['F', 'l', 'a', 'g', 's'], ['S', 'a', 'l', 'e', 'T', 'y', 'p', 'e'], ['S', 'a', 'l', 'e', 'P', 'r', 'i', 'c', 'e'], ['N', 'a', 'm', 'e'], ['D', 'e', 's', 'c', 'r', 'i', 'p', 't', 'i', 'o', 'n'], ['C', 'r', 'e', 'a', 't', 'i', 'o', 'n', 'D', 'a', 't', 'e'], ['C', 'R', 'C']])]

theorem w322 : Checked t322 := ⟨b322, by kernel_rfl, by kernel_rfl, by kernel_rfl⟩

/-- Lines of `message_template.msg` up to the end of `BulkUpdateInventory`. -/
def c323 : List (List Char) :=
  [chars! "",
   chars! "// Can only fit around 7 items per packet - that's the way it goes. At",
   chars! "// least many bulk updates can be packed.",
   chars! "// Only from dataserver->sim->viewer",
   chars! "{",
   chars! "\tBulkUpdateInventory Low 281 Trusted Zerocoded",
   chars! "\t{",
   chars! "\t\tAgentData\t\tSingle",
   chars! "\t\t{\tAgentID\t\t\tLLUUID\t}",
   chars! "\t\t{\tTransactionID\tLLUUID\t}",
   chars! "\t}",
   chars! "\t{",
   chars! "\t\tFolderData\t\tVariable",
   chars! "\t\t{\tFolderID\t\tLLUUID\t}",
   chars! "\t\t{\tParentID\t\tLLUUID\t}",
   chars! "\t\t{\tType\t\t\tS8\t}",
   chars! "\t\t{\tName\t\t\tVariable\t1\t}",
   chars! "\t}",
   chars! "\t{",
   chars! "\t\tItemData\t\tVariable",
   chars! "\t\t{\tItemID\t\t\tLLUUID\t}",
   chars! "\t\t{\tCallbackID\t\tU32\t\t}\t// Async Response",
   chars! "\t\t{\tFolderID\t\tLLUUID\t}",
   chars! "\t\t{\tCreatorID\t\tLLUUID\t}\t// permissions",
   chars! "\t\t{\tOwnerID\t\t\tLLUUID\t}\t// permissions",
   chars! "\t\t{\tGroupID\t\t\tLLUUID\t}\t// permissions",
   chars! "\t\t{\tBaseMask\t\tU32\t}\t// permissions",
   chars! "\t\t{\tOwnerMask\t\tU32\t}\t// permissions",
   chars! "\t\t{\tGroupMask\t\tU32\t}\t// permissions",
   chars! "\t\t{\tEveryoneMask\tU32\t}\t// permissions",
   chars! "\t\t{\tNextOwnerMask\tU32\t}\t// permissions",
   chars! "\t\t{\tGroupOwned\t\tBOOL\t}\t// permissions",
   chars! "\t\t{\tAssetID\t\t\tLLUUID\t}",
   chars! "\t\t{\tType\t\t\tS8\t}",
   chars! "\t\t{\tInvType\t\t\tS8\t}",
   chars! "\t\t{\tFlags\t\t\tU32\t}",
   chars! "\t\t{\tSaleType\t\tU8\t}",
   chars! "\t\t{\tSalePrice\t\tS32\t}",
   chars! "\t\t{\tName\t\t\tVariable\t1\t}",
   chars! "\t\t{\tDescription\t\tVariable\t1\t}",
   chars! "\t\t{\tCreationDate\tS32\t}",
   chars! "\t\t{\tCRC\t\t\t\tU32\t}",
   chars! "\t}",
   chars! "}"]

/-- `BulkUpdateInventory` as the parser creates it. -/
def r323 : RawTemplate :=
  ⟨"BulkUpdateInventory", .low, 281, [255, 255, 25], some .trusted, some .zerocoded, some .notDeprecated,
    [⟨"ItemData", .variable, 0, [⟨"CRC", some .u32, some 4⟩, ⟨"CreationDate", some .s32, some 4⟩, ⟨"Description", some .variable, some 1⟩, ⟨"Name", some .variable, some 1⟩, ⟨"SalePrice", some .s32, some 4⟩, ⟨"SaleType", some .u8, some 1⟩, ⟨"Flags", some .u32, some 4⟩, ⟨"InvType", some .s8, some 1⟩, ⟨"Type", some .s8, some 1⟩, ⟨"AssetID", some .uuid, some 16⟩, ⟨"GroupOwned", some .bool, some 1⟩, ⟨"NextOwnerMask", some .u32, some 4⟩, ⟨"EveryoneMask", some .u32, some 4⟩, ⟨"GroupMask", some .u32, some 4⟩, ⟨"OwnerMask", some .u32, some 4⟩, ⟨"BaseMask", some .u32, some 4⟩, ⟨"GroupID", some .uuid, some 16⟩, ⟨"OwnerID", some .uuid, some 16⟩, ⟨"CreatorID", some .uuid, some 16⟩, ⟨"FolderID", some .uuid, some 16⟩, ⟨"CallbackID", some .u32, some 4⟩, ⟨"ItemID", some .uuid, some 16⟩]⟩,
     ⟨"FolderData", .variable, 0, [⟨"Name", some .variable, some 1⟩, ⟨"Type", some .s8, some 1⟩, ⟨"ParentID", some .uuid, some 16⟩, ⟨"FolderID", some .uuid, some 16⟩]⟩,
     ⟨"AgentData", .single, 0, [⟨"TransactionID", some .uuid, some 16⟩, ⟨"AgentID", some .uuid, some 16⟩]⟩]⟩

/-- `BulkUpdateInventory` in file order. -/
def t323 : Template :=
  ⟨"BulkUpdateInventory", .low, 281, [], some .trusted, some .zerocoded, some .notDeprecated,
    [⟨"AgentData", .single, 0, [⟨"AgentID", .uuid, 16⟩, ⟨"TransactionID", .uuid, 16⟩]⟩,
     ⟨"FolderData", .variable, 0, [⟨"FolderID", .uuid, 16⟩, ⟨"ParentID", .uuid, 16⟩, ⟨"Type", .s8, 1⟩, ⟨"Name", .variable, 1⟩]⟩,
     ⟨"ItemData", .variable, 0, [⟨"ItemID", .uuid, 16⟩, ⟨"CallbackID", .u32, 4⟩, ⟨"FolderID", .uuid, 16⟩, ⟨"CreatorID", .uuid, 16⟩, ⟨"OwnerID", .uuid, 16⟩, ⟨"GroupID", .uuid, 16⟩, ⟨"BaseMask", .u32, 4⟩, ⟨"OwnerMask", .u32, 4⟩, ⟨"GroupMask", .u32, 4⟩, ⟨"EveryoneMask", .u32, 4⟩, ⟨"NextOwnerMask", .u32, 4⟩, ⟨"GroupOwned", .bool, 1⟩, ⟨"AssetID", .uuid, 16⟩, ⟨"Type", .s8, 1⟩, ⟨"InvType", .s8, 1⟩, ⟨"Flags", .u32, 4⟩, ⟨"SaleType", .u8, 1⟩, ⟨"SalePrice", .s32, 4⟩, ⟨"Name", .variable, 1⟩, ⟨"Description", .variable, 1⟩, ⟨"CreationDate", .s32, 4⟩, ⟨"CRC", .u32, 4⟩]⟩]⟩

theorem p323 : ChunkOk c323 r323 := by intro v older; kernel_rfl
theorem k323 : r323.known = some t323 := by kernel_rfl
theorem n323 : t323.name = String.ofList ['B', 'u', 'l', 'k', 'U', 'p', 'd', 'a', 't', 'e', 'I', 'n', 'v', 'e', 'n', 't', 'o', 'r', 'y'] := by kernel_rfl

/-- The names of the blocks and variables of `BulkUpdateInventory`. -/
def b323 : List (List Char × List (List Char)) :=
  [(['A', 'g', 'e', 'n', 't', 'D', 'a', 't', 'a'], [['A', 'g', 'e', 'n', 't', 'I', 'D'], ['T', 'r', 'a', 'n', 's', 'a', 'c', 't', 'i', 'o', 'n', 'I', 'D']]),
   (['F', 'o', 'l', 'd', 'e', 'r', 'D', 'a', 't', 'a'], [['F', 'o', 'l', 'd', 'e', 'r', 'I', 'D'], ['P', 'a', 'r', 'e', 'n', 't', 'I', 'D'], ['T', 'y', 'p', 'e'], ['N', 'a', 'm', 'e']]),
   (['I', 't', 'e', 'm', 'D', 'a', 't', 'a'], [['I', 't', 'e', 'm', 'I', 'D'], ['C', 'a', 'l', 'l', 'b', 'a', 'c', 'k', 'I', 'D'], ['F', 'o', 'l', 'd', 'e', 'r', 'I', 'D'], ['C', 'r', 'e', 'a', 't', 'o', 'r', 'I', 'D'], ['O', 'w', 'n', 'e', 'r', 'I', 'D'], ['G', 'r', 'o', 'u', 'p', 'I', 'D'], ['B', 'a', 's', 'e', 'M', 'a', 's', 'k'], ['O', 'w', 'n', 'e', 'r', 'M', 'a', 's', 'k'], ['G', 'r', 'o', 'u', 'p', 'M', 'a', 's', 'k'], ['E', 'v', 'e', 'r', 'y', 'o', 'n', 'e', 'M', 'a', 's', 'k'], ['N', 'e', 'x', 't', 'O', 'w', 'n', 'e', 'r', 'M', 'a', 's', 'k'], ['G', 'r', 'o', 'u', 'p', 'O', 'w', 'n', 'e', 'd'], ['A', 's', 's', 'e', 't', 'I', 'D'], ['T', 'y', 'p', 'e'], ['I', 'n', 'v', 'T', 'y', 'p', 'e'], ['F', 'l', 'a', 'g', 's'], ['S', 'a', 'l', 'e', 'T', 'y', 'p', 'e'], ['S', 'a', 'l', 'e', 'P', 'r', 'i', 'c', 'e'], ['N', 'a', 'm', 'e'], ['D', 'e', 's', 'c', 'r', 'i', 'p', 't', 'i', 'o', 'n'], ['C', 'r', 'e', 'a', 't', 'i', 'o', 'n', 'D', 'a', 't', 'e'], ['C', 'R', 'C']])]

theorem w323 : Checked t323 := ⟨b323, by kernel_rfl, by kernel_rfl, by kernel_rfl⟩

/-- Lines of `message_template.msg` up to the end of `RequestInventoryAsset`. -/
def c324 : List (List Char) :=
  [chars! "",
   chars! "",
   chars! "",
   chars! "// request permissions for agent id to get the asset for owner_id's",
   chars! "// item_id.",
   chars! "{",
   chars! "\tRequestInventoryAsset\tLow\t282 Trusted Unencoded",
   chars! "\t{",
   chars! "\t\tQueryData\tSingle",
   chars! "\t\t{ QueryID\t\tLLUUID\t}",
   chars! "\t\t{ AgentID\t\tLLUUID\t}",
   chars! "\t\t{ OwnerID\t\tLLUUID\t}",
   chars! "\t\t{ ItemID\t\tLLUUID\t}",
   chars! "\t}",
   chars! "}"]

/-- `RequestInventoryAsset` as the parser creates it. -/
def r324 : RawTemplate :=
  ⟨"RequestInventoryAsset", .low, 282, [255, 255, 26], some .trusted, some .unencoded, some .notDeprecated,
    [⟨"QueryData", .single, 0, [⟨"ItemID", some .uuid, some 16⟩, ⟨"OwnerID", some .uuid, some 16⟩, ⟨"AgentID", some .uuid, some 16⟩, ⟨"QueryID", some .uuid, some 16⟩]⟩]⟩

/-- `RequestInventoryAsset` in file order. -/
def t324 : Template :=
  ⟨"RequestInventoryAsset", .low, 282, [], some .trusted, some .unencoded, some .notDeprecated,
    [⟨"QueryData", .single, 0, [⟨"QueryID", .uuid, 16⟩, ⟨"AgentID", .uuid, 16⟩, ⟨"OwnerID", .uuid, 16⟩, ⟨"ItemID", .uuid, 16⟩]⟩]⟩

theorem p324 : ChunkOk c324 r324 := by intro v older; kernel_rfl
theorem k324 : r324.known = some t324 := by kernel_rfl
theorem n324 : t324.name = String.ofList ['R', 'e', 'q', 'u', 'e', 's', 't', 'I', 'n', 'v', 'e', 'n', 't', 'o', 'r', 'y', 'A', 's', 's', 'e', 't'] := by kernel_rfl

/-- The names of the blocks and variables of `RequestInventoryAsset`. -/
def b324 : List (List Char × List (List Char)) :=
  [(['Q', 'u', 'e', 'r', 'y', 'D', 'a', 't', 'a'], [['Q', 'u', 'e', 'r', 'y', 'I', 'D'], ['A', 'g', 'e', 'n', 't', 'I', 'D'], ['O', 'w', 'n', 'e', 'r', 'I', 'D'], ['I', 't', 'e', 'm', 'I', 'D']])]

theorem w324 : Checked t324 := ⟨b324, by kernel_rfl, by kernel_rfl, by kernel_rfl⟩

/-- Lines of `message_template.msg` up to the end of `InventoryAssetResponse`. -/
def c325 : List (List Char) :=
  [chars! "",
   chars! "// response to RequestInventoryAsset",
   chars! "// lluuid will be null if agentid in the request above cannot read asset",
   chars! "{",
   chars! "\tInventoryAssetResponse\tLow\t283 Trusted Unencoded",
   chars! "\t{",
   chars! "\t\tQueryData\tSingle",
   chars! "\t\t{ QueryID\t\tLLUUID\t}",
   chars! "\t\t{ AssetID\t\tLLUUID\t}",
   chars! "\t\t{ IsReadable\tBOOL\t}",
   chars! "\t}",
   chars! "}"]

/-- `InventoryAssetResponse` as the parser creates it. -/
def r325 : RawTemplate :=
  ⟨"InventoryAssetResponse", .low, 283, [255, 255, 27], some .trusted, some .unencoded, some .notDeprecated,
    [⟨"QueryData", .single, 0, [⟨"IsReadable", some .bool, some 1⟩, ⟨"AssetID", some .uuid, some 16⟩, ⟨"QueryID", some .uuid, some 16⟩]⟩]⟩

/-- `InventoryAssetResponse` in file order. -/
def t325 : Template :=
  ⟨"InventoryAssetResponse", .low, 283, [], some .trusted, some .unencoded, some .notDeprecated,
    [⟨"QueryData", .single, 0, [⟨"QueryID", .uuid, 16⟩, ⟨"AssetID", .uuid, 16⟩, ⟨"IsReadable", .bool, 1⟩]⟩]⟩

theorem p325 : ChunkOk c325 r325 := by intro v older; kernel_rfl
theorem k325 : r325.known = some t325 := by kernel_rfl
theorem n325 : t325.name = String.ofList ['I', 'n', 'v', 'e', 'n', 't', 'o', 'r', 'y', 'A', 's', 's', 'e', 't', 'R', 'e', 's', 'p', 'o', 'n', 's', 'e'] := by kernel_rfl

/-- The names of the blocks and variables of `InventoryAssetResponse`. -/
def b325 : List (List Char × List (List Char)) :=
  [(['Q', 'u', 'e', 'r', 'y', 'D', 'a', 't', 'a'], [['Q', 'u', 'e', 'r', 'y', 'I', 'D'], ['A', 's', 's', 'e', 't', 'I', 'D'], ['I', 's', 'R', 'e', 'a', 'd', 'a', 'b', 'l', 'e']])]

theorem w325 : Checked t325 := ⟨b325, by kernel_rfl, by kernel_rfl, by kernel_rfl⟩

/-- Lines of `message_template.msg` up to the end of `RemoveInventoryObjects`. -/
def c326 : List (List Char) :=
  [chars! "",
   chars! "// This is the new improved way to remove inventory items.  It is",
   chars! "// currently only supported in viewer->userserver->dataserver",
   chars! "// messages typically initiated by an empty trash method.",
   chars! "{",
   chars! "\tRemoveInventoryObjects\tLow\t284 NotTrusted Unencoded",
   chars! "\t{",
   chars! "\t\tAgentData\t\t\tSingle",
   chars! "\t\t{\tAgentID\t\t\tLLUUID\t}",
   chars! "\t\t{\tSessionID\t\tLLUUID\t}",
   chars! "\t}",
   chars! "\t{",
   chars! "\t\tFolderData\t\t\tVariable",
   chars! "\t\t{\tFolderID\t\tLLUUID\t}",
   chars! "\t}",
   chars! "\t{",
   chars! "\t\tItemData\t\t\tVariable",
   chars! "\t\t{\tItemID\t\t\tLLUUID\t}",
   chars! "\t}",
   chars! "}"]

/-- `RemoveInventoryObjects` as the parser creates it. -/
def r326 : RawTemplate :=
  ⟨"RemoveInventoryObjects", .low, 284, [255, 255, 28], some .notTrusted, some .unencoded, some .notDeprecated,
    [⟨"ItemData", .variable, 0, [⟨"ItemID", some .uuid, some 16⟩]⟩,
     ⟨"FolderData", .variable, 0, [⟨"FolderID", some .uuid, some 16⟩]⟩,
     ⟨"AgentData", .single, 0, [⟨"SessionID", some .uuid, some 16⟩, ⟨"AgentID", some .uuid, some 16⟩]⟩]⟩

/-- `RemoveInventoryObjects` in file order. -/
def t326 : Template :=
  ⟨"RemoveInventoryObjects", .low, 284, [], some .notTrusted, some .unencoded, some .notDeprecated,
    [⟨"AgentData", .single, 0, [⟨"AgentID", .uuid, 16⟩, ⟨"SessionID", .uuid, 16⟩]⟩,
     ⟨"FolderData", .variable, 0, [⟨"FolderID", .uuid, 16⟩]⟩,
     ⟨"ItemData", .variable, 0, [⟨"ItemID", .uuid, 16⟩]⟩]⟩

theorem p326 : ChunkOk c326 r326 := by intro v older; kernel_rfl
theorem k326 : r326.known = some t326 := by kernel_rfl
theorem n326 : t326.name = String.ofList ['R', 'e', 'm', 'o', 'v', 'e', 'I', 'n', 'v', 'e', 'n', 't', 'o', 'r', 'y', 'O', 'b', 'j', 'e', 'c', 't', 's'] := by kernel_rfl

/-- The names of the blocks and variables of `RemoveInventoryObjects`. -/
def b326 : List (List Char × List (List Char)) :=
  [(['A', 'g', 'e', 'n', 't', 'D', 'a', 't', 'a'], [['A', 'g', 'e', 'n', 't', 'I', 'D'], ['S', 'e', 's', 's', 'i', 'o', 'n', 'I', 'D']]),
   (['F', 'o', 'l', 'd', 'e', 'r', 'D', 'a', 't', 'a'], [['F', 'o', 'l', 'd', 'e', 'r', 'I', 'D']]),
   (['I', 't', 'e', 'm', 'D', 'a', 't', 'a'], [['I', 't', 'e', 'm', 'I', 'D']])]

theorem w326 : Checked t326 := ⟨b326, by kernel_rfl, by kernel_rfl, by kernel_rfl⟩

/-- Lines of `message_template.msg` up to the end of `PurgeInventoryDescendents`. -/
def c327 : List (List Char) :=
  [chars! "",
   chars! "// This is how you remove inventory when you're not even sure what it",
   chars! "// is - only it's parenting.",
   chars! "{",
   chars! "\tPurgeInventoryDescendents Low 285 NotTrusted Zerocoded",
   chars! "\t{",
   chars! "\t\tAgentData\t\tSingle",
   chars! "\t\t{\tAgentID\t\tLLUUID\t}",
   chars! "\t\t{\tSessionID\tLLUUID\t}",
   chars! "\t}",
   chars! "\t{",
   chars! "\t\tInventoryData\tSingle",
   chars! "\t\t{\tFolderID\tLLUUID\t}",
   chars! "\t}",
   chars! "}"]

/-- `PurgeInventoryDescendents` as the parser creates it. -/
def r327 : RawTemplate :=
  ⟨"PurgeInventoryDescendents", .low, 285, [255, 255, 29], some .notTrusted, some .zerocoded, some .notDeprecated,
    [⟨"InventoryData", .single, 0, [⟨"FolderID", some .uuid, some 16⟩]⟩,
     ⟨"AgentData", .single, 0, [⟨"SessionID", some .uuid, some 16⟩, ⟨"AgentID", some .uuid, some 16⟩]⟩]⟩

/-- `PurgeInventoryDescendents` in file order. -/
def t327 : Template :=
  ⟨"PurgeInventoryDescendents", .low, 285, [], some .notTrusted, some .zerocoded, some .notDeprecated,
    [⟨"AgentData", .single, 0, [⟨"AgentID", .uuid, 16⟩, ⟨"SessionID", .uuid, 16⟩]⟩,
     ⟨"InventoryData", .single, 0, [⟨"FolderID", .uuid, 16⟩]⟩]⟩

theorem p327 : ChunkOk c327 r327 := by intro v older; kernel_rfl
theorem k327 : r327.known = some t327 := by kernel_rfl
theorem n327 : t327.name = String.ofList ['P', 'u', 'r', 'g', 'e', 'I', 'n', 'v', 'e', 'n', 't', 'o', 'r', 'y', 'D', 'e', 's', 'c', 'e', 'n', 'd', 'e', 'n', 't', 's'] := by kernel_rfl

/-- The names of the blocks and variables of `PurgeInventoryDescendents`. -/
def b327 : List (List Char × List (List Char)) :=
  [(['A', 'g', 'e', 'n', 't', 'D', 'a', 't', 'a'], [['A', 'g', 'e', 'n', 't', 'I', 'D'], ['S', 'e', 's', 's', 'i', 'o', 'n', 'I', 'D']]),
   (['I', 'n', 'v', 'e', 'n', 't', 'o', 'r', 'y', 'D', 'a', 't', 'a'], [['F', 'o', 'l', 'd', 'e', 'r', 'I', 'D']])]

theorem w327 : Checked t327 := ⟨b327, by kernel_rfl, by kernel_rfl, by kernel_rfl⟩

/-- Lines of `message_template.msg` up to the end of `UpdateTaskInventory`. -/
def c328 : List (List Char) :=
  [chars! "",
   chars! "// These messages are viewer->simulator requests to update a task's",
   chars! "// inventory.",
   chars! "// if Key == 0, itemid is the key. if Key == 1, assetid is the key.",
   chars! "{",
   chars! "\tUpdateTaskInventory Low 286 NotTrusted Zerocoded",
   chars! "\t{",
   chars! "\t\tAgentData\tSingle",
   chars! "\t\t{\tAgentID\t\tLLUUID\t}",
   chars! "\t\t{\tSessionID\tLLUUID  }",
   chars! "\t}",
   chars! "\t{",
   chars! "\t\tUpdateData\t\t\tSingle",
   chars! "\t\t{\tLocalID\t\t\tU32\t}",
   chars! "\t\t{\tKey\t\t\t\tU8\t}",
   chars! "\t}",
   chars! "\t{",
   chars! "\t\tInventoryData\t\tSingle",
   chars! "\t\t{\tItemID\t\t\tLLUUID\t}",
   chars! "\t\t{\tFolderID\t\tLLUUID\t}",
   chars! "\t\t{\tCreatorID\t\tLLUUID\t}\t// permissions",
   chars! "\t\t{\tOwnerID\t\t\tLLUUID\t}\t// permissions",
   chars! "\t\t{\tGroupID\t\t\tLLUUID\t}\t// permissions",
   chars! "\t\t{\tBaseMask\t\tU32\t}\t// permissions",
   chars! "\t\t{\tOwnerMask\t\tU32\t}\t// permissions",
   chars! "\t\t{\tGroupMask\t\tU32\t}\t// permissions",
   chars! "\t\t{\tEveryoneMask\tU32\t}\t// permissions",
   chars! "\t\t{\tNextOwnerMask\tU32\t}\t// permissions",
   chars! "\t\t{\tGroupOwned\t\tBOOL\t}\t// permissions",
   chars! "\t\t{\tTransactionID\tLLUUID\t}",
   chars! "\t\t{\tType\t\t\tS8\t}",
   chars! "\t\t{\tInvType\t\t\tS8\t}",
   chars! "\t\t{\tFlags\t\t\tU32\t}",
   chars! "\t\t{\tSaleType\t\tU8\t}",
   chars! "\t\t{\tSalePrice\t\tS32\t}",
   chars! "\t\t{\tName\t\t\tVariable\t1\t}",
   chars! "\t\t{\tDescription\t\tVariable\t1\t}",
   chars! "\t\t{\tCreationDate\tS32\t}",
   chars! "\t\t{\tCRC\t\t\t\tU32\t}",
   chars! "\t}",
   chars! "}"]

/-- `UpdateTaskInventory` as the parser creates it. -/
def r328 : RawTemplate :=
  ⟨"UpdateTaskInventory", .low, 286, [255, 255, 30], some .notTrusted, some .zerocoded, some .notDeprecated,
    [⟨"InventoryData", .single, 0, [⟨"CRC", some .u32, some 4⟩, ⟨"CreationDate", some .s32, some 4⟩, ⟨"Description", some .variable, some 1⟩, ⟨"Name", some .variable, some 1⟩, ⟨"SalePrice", some .s32, some 4⟩, ⟨"SaleType", some .u8, some 1⟩, ⟨"Flags", some .u32, some 4⟩, ⟨"InvType", some .s8, some 1⟩, ⟨"Type", some .s8, some 1⟩, ⟨"TransactionID", some .uuid, some 16⟩, ⟨"GroupOwned", some .bool, some 1⟩, ⟨"NextOwnerMask", some .u32, some 4⟩, ⟨"EveryoneMask", some .u32, some 4⟩, ⟨"GroupMask", some .u32, some 4⟩, ⟨"OwnerMask", some .u32, some 4⟩, ⟨"BaseMask", some .u32, some 4⟩, ⟨"GroupID", some .uuid, some 16⟩, ⟨"OwnerID", some .uuid, some 16⟩, ⟨"CreatorID", some .uuid, some 16⟩, ⟨"FolderID", some .uuid, some 16⟩, ⟨"ItemID", some .uuid, some 16⟩]⟩,
     ⟨"UpdateData", .single, 0, [⟨"Key", some .u8, some 1⟩, ⟨"LocalID", some .u32, some 4⟩]⟩,
     ⟨"AgentData", .single, 0, [⟨"SessionID", some .uuid, some 16⟩, ⟨"AgentID", some .uuid, some 16⟩]⟩]⟩

/-- `UpdateTaskInventory` in file order. -/
def t328 : Template :=
  ⟨"UpdateTaskInventory", .low, 286, [], some .notTrusted, some .zerocoded, some .notDeprecated,
    [⟨"AgentData", .single, 0, [⟨"AgentID", .uuid, 16⟩, ⟨"SessionID", .uuid, 16⟩]⟩,
     ⟨"UpdateData", .single, 0, [⟨"LocalID", .u32, 4⟩, ⟨"Key", .u8, 1⟩]⟩,
     ⟨"InventoryData", .single, 0, [⟨"ItemID", .uuid, 16⟩, ⟨"FolderID", .uuid, 16⟩, ⟨"CreatorID", .uuid, 16⟩, ⟨"OwnerID", .uuid, 16⟩, ⟨"GroupID", .uuid, 16⟩, ⟨"BaseMask", .u32, 4⟩, ⟨"OwnerMask", .u32, 4⟩, ⟨"GroupMask", .u32, 4⟩, ⟨"EveryoneMask", .u32, 4⟩, ⟨"NextOwnerMask", .u32, 4⟩, ⟨"GroupOwned", .bool, 1⟩, ⟨"TransactionID", .uuid, 16⟩, ⟨"Type", .s8, 1⟩, ⟨"InvType", .s8, 1⟩, ⟨"Flags", .u32, 4⟩, ⟨"SaleType", .u8, 1⟩, ⟨"SalePrice", .s32, 4⟩, ⟨"Name", .variable, 1⟩, ⟨"Description", .variable, 1⟩, ⟨"CreationDate", .s32, 4⟩, ⟨"CRC", .u32, 4⟩]⟩]⟩

theorem p328 : ChunkOk c328 r328 := by intro v older; kernel_rfl
theorem k328 : r328.known = some t328 := by kernel_rfl
theorem n328 : t328.name = String.ofList ['U', 'p', 'd', 'a', 't', 'e', 'T', 'a', 's', 'k', 'I', 'n', 'v', 'e', 'n', 't', 'o', 'r', 'y'] := by kernel_rfl

/-- The names of the blocks and variables of `UpdateTaskInventory`. -/
def b328 : List (List Char × List (List Char)) :=
  [(['A', 'g', 'e', 'n', 't', 'D', 'a', 't', 'a'], [['A', 'g', 'e', 'n', 't', 'I', 'D'], ['S', 'e', 's', 's', 'i', 'o', 'n', 'I', 'D']]),
   (['U', 'p', 'd', 'a', 't', 'e', 'D', 'a', 't', 'a'], [['L', 'o', 'c', 'a', 'l', 'I', 'D'], ['K', 'e', 'y']]),
   (['I', 'n', 'v', 'e', 'n', 't', 'o', 'r', 'y', 'D', 'a', 't', 'a'], [['I', 't', 'e', 'm', 'I', 'D'], ['F', 'o', 'l', 'd', 'e', 'r', 'I', 'D'], ['C', 'r', 'e', 'a', 't', 'o', 'r', 'I', 'D'], ['O', 'w', 'n', 'e', 'r', 'I', 'D'], ['G', 'r', 'o', 'u', 'p', 'I', 'D'], ['B', 'a', 's', 'e', 'M', 'a', 's', 'k'], ['O', 'w', 'n', 'e', 'r', 'M', 'a', 's', 'k'], ['G', 'r', 'o', 'u', 'p', 'M', 'a', 's', 'k'], ['E', 'v', 'e', 'r', 'y', 'o', 'n', 'e', 'M', 'a', 's', 'k'], ['N', 'e', 'x', 't', 'O', 'w', 'n', 'e', 'r', 'M', 'a', 's', 'k'], ['G', 'r', 'o', 'u', 'p', 'O', 'w', 'n', 'e', 'd'], ['T', 'r', 'a', 'n', 's', 'a', 'c', 't', 'i', 'o', 'n', 'I', 'D'], ['T', 'y', 'p', 'e'], ['I', 'n', 'v', 'T', 'y', 'p', 'e'], ['F', 'l', 'a', 'g', 's'], ['S', 'a', 'l', 'e', 'T', 'y', 'p', 'e'], ['S', 'a', 'l', 'e', 'P', 'r', 'i', 'c', 'e'], ['N', 'a', 'm', 'e'], ['D', 'e', 's', 'c', 'r', 'i', 'p', 't', 'i', 'o', 'n'], ['C', 'r', 'e', 'a', 't', 'i', 'o', 'n', 'D', 'a', 't', 'e'], ['C', 'R', 'C']])]

theorem w328 : Checked t328 := ⟨b328, by kernel_rfl, by kernel_rfl, by kernel_rfl⟩

/-- Lines of `message_template.msg` up to the end of `RemoveTaskInventory`. -/
def c329 : List (List Char) :=
  [chars! "",
   chars! "{",
   chars! "\tRemoveTaskInventory Low 287 NotTrusted Zerocoded",
   chars! "\t{",
   chars! "\t\tAgentData\tSingle",
   chars! "\t\t{\tAgentID\t\tLLUUID\t}",
   chars! "\t\t{\tSessionID\tLLUUID  }",
   chars! "\t}",
   chars! "\t{",
   chars! "\t\tInventoryData\t\tSingle",
   chars! "\t\t{\tLocalID\t\t\tU32\t}",
   chars! "\t\t{\tItemID\t\t\tLLUUID\t}",
   chars! "\t}",
   chars! "}"]

/-- `RemoveTaskInventory` as the parser creates it. -/
def r329 : RawTemplate :=
  ⟨"RemoveTaskInventory", .low, 287, [255, 255, 31], some .notTrusted, some .zerocoded, some .notDeprecated,
    [⟨"InventoryData", .single, 0, [⟨"ItemID", some .uuid, some 16⟩, ⟨"LocalID", some .u32, some 4⟩]⟩,
     ⟨"AgentData", .single, 0, [⟨"SessionID", some .uuid, some 16⟩, ⟨"AgentID", some .uuid, some 16⟩]⟩]⟩

/-- `RemoveTaskInventory` in file order. -/
def t329 : Template :=
  ⟨"RemoveTaskInventory", .low, 287, [], some .notTrusted, some .zerocoded, some .notDeprecated,
    [⟨"AgentData", .single, 0, [⟨"AgentID", .uuid, 16⟩, ⟨"SessionID", .uuid, 16⟩]⟩,
     ⟨"InventoryData", .single, 0, [⟨"LocalID", .u32, 4⟩, ⟨"ItemID", .uuid, 16⟩]⟩]⟩

theorem p329 : ChunkOk c329 r329 := by intro v older; kernel_rfl
theorem k329 : r329.known = some t329 := by kernel_rfl
theorem n329 : t329.name = String.ofList ['R', 'e', 'm', 'o', 'v', 'e', 'T', 'a', 's', 'k', 'I', 'n', 'v', 'e', 'n', 't', 'o', 'r', 'y'] := by kernel_rfl

/-- The names of the blocks and variables of `RemoveTaskInventory`. -/
def b329 : List (List Char × List (List Char)) :=
  [(['A', 'g', 'e', 'n', 't', 'D', 'a', 't', 'a'], [['A', 'g', 'e', 'n', 't', 'I', 'D'], ['S', 'e', 's', 's', 'i', 'o', 'n', 'I', 'D']]),
   (['I', 'n', 'v', 'e', 'n', 't', 'o', 'r', 'y', 'D', 'a', 't', 'a'], [['L', 'o', 'c', 'a', 'l', 'I', 'D'], ['I', 't', 'e', 'm', 'I', 'D']])]

theorem w329 : Checked t329 := ⟨b329, by kernel_rfl, by kernel_rfl, by kernel_rfl⟩

/-- Lines of `message_template.msg` up to the end of `MoveTaskInventory`. -/
def c330 : List (List Char) :=
  [chars! "",
   chars! "{",
   chars! "\tMoveTaskInventory\tLow\t288 NotTrusted Unencoded",
   chars! "\t{",
   chars! "\t\tAgentData\tSingle",
   chars! "\t\t{\tAgentID\t\tLLUUID\t}",
   chars! "\t\t{\tSessionID\tLLUUID  }",
   chars! "\t\t{\tFolderID\tLLUUID\t}",
   chars! "\t}",
   chars! "\t{",
   chars! "\t\tInventoryData\tSingle",
   chars! "\t\t{\tLocalID\t\tU32\t\t}",
   chars! "\t\t{\tItemID\t\tLLUUID\t}",
   chars! "\t}",
   chars! "}"]

/-- `MoveTaskInventory` as the parser creates it. -/
def r330 : RawTemplate :=
  ⟨"MoveTaskInventory", .low, 288, [255, 255, 32], some .notTrusted, some .unencoded, some .notDeprecated,
    [⟨"InventoryData", .single, 0, [⟨"ItemID", some .uuid, some 16⟩, ⟨"LocalID", some .u32, some 4⟩]⟩,
     ⟨"AgentData", .single, 0, [⟨"FolderID", some .uuid, some 16⟩, ⟨"SessionID", some .uuid, some 16⟩, ⟨"AgentID", some .uuid, some 16⟩]⟩]⟩

/-- `MoveTaskInventory` in file order. -/
def t330 : Template :=
  ⟨"MoveTaskInventory", .low, 288, [], some .notTrusted, some .unencoded, some .notDeprecated,
    [⟨"AgentData", .single, 0, [⟨"AgentID", .uuid, 16⟩, ⟨"SessionID", .uuid, 16⟩, ⟨"FolderID", .uuid, 16⟩]⟩,
     ⟨"InventoryData", .single, 0, [⟨"LocalID", .u32, 4⟩, ⟨"ItemID", .uuid, 16⟩]⟩]⟩

theorem p330 : ChunkOk c330 r330 := by intro v older; kernel_rfl
theorem k330 : r330.known = some t330 := by kernel_rfl
theorem n330 : t330.name = String.ofList ['M', 'o', 'v', 'e', 'T', 'a', 's', 'k', 'I', 'n', 'v', 'e', 'n', 't', 'o', 'r', 'y'] := by kernel_rfl

/-- The names of the blocks and variables of `MoveTaskInventory`. -/
def b330 : List (List Char × List (List Char)) :=
  [(['A', 'g', 'e', 'n', 't', 'D', 'a', 't', 'a'], [['A', 'g', 'e', 'n', 't', 'I', 'D'], ['S', 'e', 's', 's', 'i', 'o', 'n', 'I', 'D'], ['F', 'o', 'l', 'd', 'e', 'r', 'I', 'D']]),
   (['I', 'n', 'v', 'e', 'n', 't', 'o', 'r', 'y', 'D', 'a', 't', 'a'], [['L', 'o', 'c', 'a', 'l', 'I', 'D'], ['I', 't', 'e', 'm', 'I', 'D']])]

theorem w330 : Checked t330 := ⟨b330, by kernel_rfl, by kernel_rfl, by kernel_rfl⟩

/-- Lines of `message_template.msg` up to the end of `RequestTaskInventory`. -/
def c331 : List (List Char) :=
  [chars! "",
   chars! "{",
   chars! "\tRequestTaskInventory Low 289 NotTrusted Unencoded",
   chars! "\t{",
   chars! "\t\tAgentData\tSingle",
   chars! "\t\t{\tAgentID\t\tLLUUID\t}",
   chars! "\t\t{\tSessionID\tLLUUID  }",
   chars! "\t}",
   chars! "\t{",
   chars! "\t\tInventoryData\t\tSingle",
   chars! "\t\t{\tLocalID\t\tU32\t}",
   chars! "\t}",
   chars! "}"]

/-- `RequestTaskInventory` as the parser creates it. -/
def r331 : RawTemplate :=
  ⟨"RequestTaskInventory", .low, 289, [255, 255, 33], some .notTrusted, some .unencoded, some .notDeprecated,
    [⟨"InventoryData", .single, 0, [⟨"LocalID", some .u32, some 4⟩]⟩,
     ⟨"AgentData", .single, 0, [⟨"SessionID", some .uuid, some 16⟩, ⟨"AgentID", some .uuid, some 16⟩]⟩]⟩

/-- `RequestTaskInventory` in file order. -/
def t331 : Template :=
  ⟨"RequestTaskInventory", .low, 289, [], some .notTrusted, some .unencoded, some .notDeprecated,
    [⟨"AgentData", .single, 0, [⟨"AgentID", .uuid, 16⟩, ⟨"SessionID", .uuid, 16⟩]⟩,
     ⟨"InventoryData", .single, 0, [⟨"LocalID", .u32, 4⟩]⟩]⟩

theorem p331 : ChunkOk c331 r331 := by intro v older; kernel_rfl
theorem k331 : r331.known = some t331 := by kernel_rfl
theorem n331 : t331.name = String.ofList ['R', 'e', 'q', 'u', 'e', 's', 't', 'T', 'a', 's', 'k', 'I', 'n', 'v', 'e', 'n', 't', 'o', 'r', 'y'] := by kernel_rfl

/-- The names of the blocks and variables of `RequestTaskInventory`. -/
def b331 : List (List Char × List (List Char)) :=
  [(['A', 'g', 'e', 'n', 't', 'D', 'a', 't', 'a'], [['A', 'g', 'e', 'n', 't', 'I', 'D'], ['S', 'e', 's', 's', 'i', 'o', 'n', 'I', 'D']]),
   (['I', 'n', 'v', 'e', 'n', 't', 'o', 'r', 'y', 'D', 'a', 't', 'a'], [['L', 'o', 'c', 'a', 'l', 'I', 'D']])]

theorem w331 : Checked t331 := ⟨b331, by kernel_rfl, by kernel_rfl, by kernel_rfl⟩

/-- Lines of `message_template.msg` up to the end of `ReplyTaskInventory`. -/
def c332 : List (List Char) :=
  [chars! "",
   chars! "{",
   chars! "\tReplyTaskInventory Low 290 Trusted Zerocoded",
   chars! "\t{",
   chars! "\t\tInventoryData\t\tSingle",
   chars! "\t\t{\tTaskID\t\t\tLLUUID\t}",
   chars! "\t\t{\tSerial\t\t\tS16\t}\t// S16",
   chars! "\t\t{\tFilename\t\tVariable\t1\t}",
   chars! "\t}",
   chars! "}"]

/-- `ReplyTaskInventory` as the parser creates it. -/
def r332 : RawTemplate :=
  ⟨"ReplyTaskInventory", .low, 290, [255, 255, 34], some .trusted, some .zerocoded, some .notDeprecated,
    [⟨"InventoryData", .single, 0, [⟨"Filename", some .variable, some 1⟩, ⟨"Serial", some .s16, some 2⟩, ⟨"TaskID", some .uuid, some 16⟩]⟩]⟩

/-- `ReplyTaskInventory` in file order. -/
def t332 : Template :=
  ⟨"ReplyTaskInventory", .low, 290, [], some .trusted, some .zerocoded, some .notDeprecated,
    [⟨"InventoryData", .single, 0, [⟨"TaskID", .uuid, 16⟩, ⟨"Serial", .s16, 2⟩, ⟨"Filename", .variable, 1⟩]⟩]⟩

theorem p332 : ChunkOk c332 r332 := by intro v older; kernel_rfl
theorem k332 : r332.known = some t332 := by kernel_rfl
theorem n332 : t332.name = String.ofList ['R', 'e', 'p', 'l', 'y', 'T', 'a', 's', 'k', 'I', 'n', 'v', 'e', 'n', 't', 'o', 'r', 'y'] := by kernel_rfl

/-- The names of the blocks and variables of `ReplyTaskInventory`. -/
def b332 : List (List Char × List (List Char)) :=
  [(['I', 'n', 'v', 'e', 'n', 't', 'o', 'r', 'y', 'D', 'a', 't', 'a'], [['T', 'a', 's', 'k', 'I', 'D'], ['S', 'e', 'r', 'i', 'a', 'l'], ['F', 'i', 'l', 'e', 'n', 'a', 'm', 'e']])]

theorem w332 : Checked t332 := ⟨b332, by kernel_rfl, by kernel_rfl, by kernel_rfl⟩

/-- Lines of `message_template.msg` up to the end of `DeRezObject`. -/
def c333 : List (List Char) :=
  [chars! "",
   chars! "// These messages are viewer->simulator requests regarding objects",
   chars! "// which are currently being simulated. The viewer will get an ",
   chars! "// UpdateInventoryItem response if a DeRez succeeds, and the object",
   chars! "// will appear if a RezObject succeeds.",
   chars! "// The Destination field tells where the derez should wind up, and the",
   chars! "// meaning of DestinationID depends on it. For example, if the ",
   chars! "// destination is a category, then the destination is the category id. If",
   chars! "// the destination is a task inventory, then the destination id is the",
   chars! "// task id.",
   chars! "// The transaction id is generated by the viewer on derez, and then",
   chars! "// the packets are counted and numbered. The rest of the information is",
   chars! "// just duplicated (it's not that much, and derezzes that span multiple",
   chars! "// packets will be rare.)",
   chars! "{",
   chars! "\tDeRezObject Low 291 NotTrusted Zerocoded",
   chars! "\t{",
   chars! "\t\tAgentData\t\tSingle",
   chars! "\t\t{  AgentID\t\t\tLLUUID  }",
   chars! "\t\t{  SessionID\t\tLLUUID  }",
   chars! "\t}",
   chars! "\t{",
   chars! "\t\tAgentBlock\t\tSingle",
   chars! "\t\t{  GroupID\t\t\tLLUUID  }",
   chars! "\t\t{  Destination\t\tU8\t}",
   chars! "\t\t{  DestinationID\tLLUUID\t}\t// see above",
   chars! "\t\t{  TransactionID\tLLUUID\t}",
   chars! "\t\t{  PacketCount\t\tU8\t}",
   chars! "\t\t{  PacketNumber\t\tU8\t}",
   chars! "\t}",
   chars! "\t{",
   chars! "\t\tObjectData\t\tVariable",
   chars! "\t\t{  ObjectLocalID\tU32\t}   // object id in world ",
   chars! "\t}",
   chars! "}"]

/-- `DeRezObject` as the parser creates it. -/
def r333 : RawTemplate :=
  ⟨"DeRezObject", .low, 291, [255, 255, 35], some .notTrusted, some .zerocoded, some .notDeprecated,
    [⟨"ObjectData", .variable, 0, [⟨"ObjectLocalID", some .u32, some 4⟩]⟩,
     ⟨"AgentBlock", .single, 0, [⟨"PacketNumber", some .u8, some 1⟩, ⟨"PacketCount", some .u8, some 1⟩, ⟨"TransactionID", some .uuid, some 16⟩, ⟨"DestinationID", some .uuid, some 16⟩, ⟨"Destination", some .u8, some 1⟩, ⟨"GroupID", some .uuid, some 16⟩]⟩,
     ⟨"AgentData", .single, 0, [⟨"SessionID", some .uuid, some 16⟩, ⟨"AgentID", some .uuid, some 16⟩]⟩]⟩

/-- `DeRezObject` in file order. -/
def t333 : Template :=
  ⟨"DeRezObject", .low, 291, [], some .notTrusted, some .zerocoded, some .notDeprecated,
    [⟨"AgentData", .single, 0, [⟨"AgentID", .uuid, 16⟩, ⟨"SessionID", .uuid, 16⟩]⟩,
     ⟨"AgentBlock", .single, 0, [⟨"GroupID", .uuid, 16⟩, ⟨"Destination", .u8, 1⟩, ⟨"DestinationID", .uuid, 16⟩, ⟨"TransactionID", .uuid, 16⟩, ⟨"PacketCount", .u8, 1⟩, ⟨"PacketNumber", .u8, 1⟩]⟩,
     ⟨"ObjectData", .variable, 0, [⟨"ObjectLocalID", .u32, 4⟩]⟩]⟩

theorem p333 : ChunkOk c333 r333 := by intro v older; kernel_rfl
theorem k333 : r333.known = some t333 := by kernel_rfl
theorem n333 : t333.name = String.ofList ['D', 'e', 'R', 'e', 'z', 'O', 'b', 'j', 'e', 'c', 't'] := by kernel_rfl

/-- The names of the blocks and variables of `DeRezObject`. -/
def b333 : List (List Char × List (List Char)) :=
  [(['A', 'g', 'e', 'n', 't', 'D', 'a', 't', 'a'], [['A', 'g', 'e', 'n', 't', 'I', 'D'], ['S', 'e', 's', 's', 'i', 'o', 'n', 'I', 'D']]),
   (['A', 'g', 'e', 'n', 't', 'B', 'l', 'o', 'c', 'k'], [['G', 'r', 'o', 'u', 'p', 'I', 'D'], ['D', 'e', 's', 't', 'i', 'n', 'a', 't', 'i', 'o', 'n'], ['D', 'e', 's', 't', 'i', 'n', 'a', 't', 'i', 'o', 'n', 'I', 'D'], ['T', 'r', 'a', 'n', 's', 'a', 'c', 't', 'i', 'o', 'n', 'I', 'D'], ['P', 'a', 'c', 'k', 'e', 't', 'C', 'o', 'u', 'n', 't'], ['P', 'a', 'c', 'k', 'e', 't', 'N', 'u', 'm', 'b', 'e', 'r']]),
   (['O', 'b', 'j', 'e', 'c', 't', 'D', 'a', 't', 'a'], [['O', 'b', 'j', 'e', 'c', 't', 'L', 'o', 'c', 'a', 'l', 'I', 'D']])]

theorem w333 : Checked t333 := ⟨b333, by kernel_rfl, by kernel_rfl, by kernel_rfl⟩

/-- Lines of `message_template.msg` up to the end of `DeRezAck`. -/
def c334 : List (List Char) :=
  [chars! "",
   chars! "// This message is sent when a derez succeeds, but there's no way to",
   chars! "// know, since no inventory is created on the viewer. For example, when",
   chars! "// saving into task inventory.",
   chars! "{",
   chars! "\tDeRezAck Low 292 Trusted Unencoded",
   chars! "\t{",
   chars! "\t\tTransactionData\t\t\tSingle",
   chars! "\t\t{\tTransactionID\tLLUUID\t}",
   chars! "\t\t{\tSuccess\t\t\tBOOL\t}",
   chars! "\t}",
   chars! "}"]

/-- `DeRezAck` as the parser creates it. -/
def r334 : RawTemplate :=
  ⟨"DeRezAck", .low, 292, [255, 255, 36], some .trusted, some .unencoded, some .notDeprecated,
    [⟨"TransactionData", .single, 0, [⟨"Success", some .bool, some 1⟩, ⟨"TransactionID", some .uuid, some 16⟩]⟩]⟩

/-- `DeRezAck` in file order. -/
def t334 : Template :=
  ⟨"DeRezAck", .low, 292, [], some .trusted, some .unencoded, some .notDeprecated,
    [⟨"TransactionData", .single, 0, [⟨"TransactionID", .uuid, 16⟩, ⟨"Success", .bool, 1⟩]⟩]⟩

theorem p334 : ChunkOk c334 r334 := by intro v older; kernel_rfl
theorem k334 : r334.known = some t334 := by kernel_rfl
theorem n334 : t334.name = String.ofList ['D', 'e', 'R', 'e', 'z', 'A', 'c', 'k'] := by kernel_rfl

/-- The names of the blocks and variables of `DeRezAck`. -/
def b334 : List (List Char × List (List Char)) :=
  [(['T', 'r', 'a', 'n', 's', 'a', 'c', 't', 'i', 'o', 'n', 'D', 'a', 't', 'a'], [['T', 'r', 'a', 'n', 's', 'a', 'c', 't', 'i', 'o', 'n', 'I', 'D'], ['S', 'u', 'c', 'c', 'e', 's', 's']])]

theorem w334 : Checked t334 := ⟨b334, by kernel_rfl, by kernel_rfl, by kernel_rfl⟩

/-- Lines of `message_template.msg` up to the end of `RezObject`. -/
def c335 : List (List Char) :=
  [chars! "",
   chars! "// This message is sent from viewer -> simulator when the viewer wants",
   chars! "// to rez an object out of inventory.",
   chars! "{",
   chars! "\tRezObject Low 293 NotTrusted Zerocoded",
   chars! "\t{",
   chars! "\t\tAgentData\t\tSingle",
   chars! "\t\t{\tAgentID\t\tLLUUID  }",
   chars! "\t\t{\tSessionID\tLLUUID  }",
   chars! "\t\t{\tGroupID\t\tLLUUID\t}",
   chars! "\t}",
   chars! "\t{",
   chars! "\t\tRezData\t\t\tSingle",
   chars! "\t\t{\tFromTaskID\t\t\t\tLLUUID\t}",
   chars! "\t\t{\tBypassRaycast\t\t\tU8\t}",
   chars! "\t\t{\tRayStart\t\t\t\tLLVector3\t}",
   chars! "\t\t{\tRayEnd\t\t\t\t\tLLVector3\t}",
   chars! "\t\t{\tRayTargetID\t\t\t\tLLUUID\t}",
   chars! "\t\t{\tRayEndIsIntersection\tBOOL }",
   chars! "\t\t{   RezSelected\t\t\t\tBOOL }",
   chars! "\t\t{\tRemoveItem\t\t\t\tBOOL }",
   chars! "\t\t{\tItemFlags\t\t\t\tU32 }",
   chars! "\t\t{\tGroupMask\t\t\t\tU32 }",
   chars! "\t\t{\tEveryoneMask\t\t\tU32 }",
   chars! "\t\t{\tNextOwnerMask\t\t\tU32\t}",
   chars! "\t}",
   chars! "\t{",
   chars! "\t\tInventoryData\t\t\tSingle",
   chars! "\t\t{\tItemID\t\t\t\tLLUUID\t}",
   chars! "\t\t{\tFolderID\t\t\tLLUUID\t}",
   chars! "\t\t{\tCreatorID\t\t\tLLUUID\t}\t// permissions",
   chars! "\t\t{\tOwnerID\t\t\t\tLLUUID\t}\t// permissions",
   chars! "\t\t{\tGroupID\t\t\t\tLLUUID\t}\t// permissions",
   chars! "\t\t{\tBaseMask\t\t\tU32\t}\t// permissions",
   chars! "\t\t{\tOwnerMask\t\t\tU32\t}\t// permissions",
   chars! "\t\t{\tGroupMask\t\t\tU32\t}\t// permissions",
   chars! "\t\t{\tEveryoneMask\t\tU32\t}\t// permissions",
   chars! "\t\t{\tNextOwnerMask\t\tU32\t}\t// permissions",
   chars! "\t\t{\tGroupOwned\t\t\tBOOL\t}\t// permissions",
   chars! "\t\t{\tTransactionID\t\tLLUUID\t}",
   chars! "\t\t{\tType\t\t\t\tS8\t}",
   chars! "\t\t{\tInvType\t\t\t\tS8\t}",
   chars! "\t\t{\tFlags\t\t\t\tU32\t}",
   chars! "\t\t{\tSaleType\t\t\tU8\t}",
   chars! "\t\t{\tSalePrice\t\t\tS32\t}",
   chars! "\t\t{\tName\t\t\t\tVariable\t1\t}",
   chars! "\t\t{\tDescription\t\t\tVariable\t1\t}",
   chars! "\t\t{\tCreationDate\t\tS32\t}",
   chars! "\t\t{\tCRC\t\t\t\tU32\t}",
   chars! "\t}",
   chars! "}"]

/-- `RezObject` as the parser creates it. -/
def r335 : RawTemplate :=
  ⟨"RezObject", .low, 293, [255, 255, 37], some .notTrusted, some .zerocoded, some .notDeprecated,
    [⟨"InventoryData", .single, 0, [⟨"CRC", some .u32, some 4⟩, ⟨"CreationDate", some .s32, some 4⟩, ⟨"Description", some .variable, some 1⟩, ⟨"Name", some .variable, some 1⟩, ⟨"SalePrice", some .s32, some 4⟩, ⟨"SaleType", some .u8, some 1⟩, ⟨"Flags", some .u32, some 4⟩, ⟨"InvType", some .s8, some 1⟩, ⟨"Type", some .s8, some 1⟩, ⟨"TransactionID", some .uuid, some 16⟩, ⟨"GroupOwned", some .bool, some 1⟩, ⟨"NextOwnerMask", some .u32, some 4⟩, ⟨"EveryoneMask", some .u32, some 4⟩, ⟨"GroupMask", some .u32, some 4⟩, ⟨"OwnerMask", some .u32, some 4⟩, ⟨"BaseMask", some .u32, some 4⟩, ⟨"GroupID", some .uuid, some 16⟩, ⟨"OwnerID", some .uuid, some 16⟩, ⟨"CreatorID", some .uuid, some 16⟩, ⟨"FolderID", some .uuid, some 16⟩, ⟨"ItemID", some .uuid, some 16⟩]⟩,
     ⟨"RezData", .single, 0, [⟨"NextOwnerMask", some .u32, some 4⟩, ⟨"EveryoneMask", some .u32, some 4⟩, ⟨"GroupMask", some .u32, some 4⟩, ⟨"ItemFlags", some .u32, some 4⟩, ⟨"RemoveItem", some .bool, some 1⟩, ⟨"RezSelected", some .bool, some 1⟩, ⟨"RayEndIsIntersection", some .bool, some 1⟩, ⟨"RayTargetID", some .uuid, some 16⟩, ⟨"RayEnd", some .vector3, some 12⟩, ⟨"RayStart", some .vector3, some 12⟩, ⟨"BypassRaycast", some .u8, some 1⟩, ⟨"FromTaskID", some .uuid, some 16⟩]⟩,
     ⟨"AgentData", .single, 0, [⟨"GroupID", some .uuid, some 16⟩, ⟨"SessionID", some .uuid, some 16⟩, ⟨"AgentID", some .uuid, some 16⟩]⟩]⟩

/-- `RezObject` in file order. -/
def t335 : Template :=
  ⟨"RezObject", .low, 293, [], some .notTrusted, some .zerocoded, some .notDeprecated,
    [⟨"AgentData", .single, 0, [⟨"AgentID", .uuid, 16⟩, ⟨"SessionID", .uuid, 16⟩, ⟨"GroupID", .uuid, 16⟩]⟩,
     ⟨"RezData", .single, 0, [⟨"FromTaskID", .uuid, 16⟩, ⟨"BypassRaycast", .u8, 1⟩, ⟨"RayStart", .vector3, 12⟩, ⟨"RayEnd", .vector3, 12⟩, ⟨"RayTargetID", .uuid, 16⟩, ⟨"RayEndIsIntersection", .bool, 1⟩, ⟨"RezSelected", .bool, 1⟩, ⟨"RemoveItem", .bool, 1⟩, ⟨"ItemFlags", .u32, 4⟩, ⟨"GroupMask", .u32, 4⟩, ⟨"EveryoneMask", .u32, 4⟩, ⟨"NextOwnerMask", .u32, 4⟩]⟩,
     ⟨"InventoryData", .single, 0, [⟨"ItemID", .uuid, 16⟩, ⟨"FolderID", .uuid, 16⟩, ⟨"CreatorID", .uuid, 16⟩, ⟨"OwnerID", .uuid, 16⟩, ⟨"GroupID", .uuid, 16⟩, ⟨"BaseMask", .u32, 4⟩, ⟨"OwnerMask", .u32, 4⟩, ⟨"GroupMask", .u32, 4⟩, ⟨"EveryoneMask", .u32, 4⟩, ⟨"NextOwnerMask", .u32, 4⟩, ⟨"GroupOwned", .bool, 1⟩, ⟨"TransactionID", .uuid, 16⟩, ⟨"Type", .s8, 1⟩, ⟨"InvType", .s8, 1⟩, ⟨"Flags", .u32, 4⟩, ⟨"SaleType", .u8, 1⟩, ⟨"SalePrice", .s32, 4⟩, ⟨"Name", .variable, 1⟩, ⟨"Description", .variable, 1⟩, ⟨"CreationDate", .s32, 4⟩, ⟨"CRC", .u32, 4⟩]⟩]⟩

theorem p335 : ChunkOk c335 r335 := by intro v older; kernel_rfl
theorem k335 : r335.known = some t335 := by kernel_rfl
theorem n335 : t335.name = String.ofList ['R', 'e', 'z', 'O', 'b', 'j', 'e', 'c', 't'] := by kernel_rfl

/-- The names of the blocks and variables of `RezObject`. -/
def b335 : List (List Char × List (List Char)) :=
  [(['A', 'g', 'e', 'n', 't', 'D', 'a', 't', 'a'], [['A', 'g', 'e', 'n', 't', 'I', 'D'], ['S', 'e', 's', 's', 'i', 'o', 'n', 'I', 'D'], ['G', 'r', 'o', 'u', 'p', 'I', 'D']]),
   (['R', 'e', 'z', 'D', 'a', 't', 'a'], [['F', 'r', 'o', 'm', 'T', 'a', 's', 'k', 'I', 'D'], ['B', 'y', 'p', 'a', 's', 's', 'R', 'a', 'y', 'c', 'a', 's', 't'], ['R', 'a', 'y', 'S', 't', 'a', 'r', 't'], ['R', 'a', 'y', 'E', 'n', 'd'], ['R', 'a', 'y', 'T', 'a', 'r', 'g', 'e', 't', 'I', 'D'], ['R', 'a', 'y', 'E', 'n', 'd', 'I', 's', 'I', 'n', 't', 'e', 'r', 's', 'e', 'c', 't', 'i', 'o', 'n'], ['R', 'e', 'z', 'S', 'e', 'l', 'e', 'c', 't', 'e', 'd'], ['R', 'e', 'm', 'o', 'v', 'e', 'I', 't', 'e', 'm'], ['I', 't', 'e', 'm', 'F', 'l', 'a', 'g', 's'], ['G', 'r', 'o', 'u', 'p', 'M', 'a', 's', 'k'], ['E', 'v', 'e', 'r', 'y', 'o', 'n', 'e', 'M', 'a', 's', 'k'], ['N', 'e', 'x', 't', 'O', 'w', 'n', 'e', 'r', 'M', 'a', 's', 'k']]),
   (['I', 'n', 'v', 'e', 'n', 't', 'o', 'r', 'y', 'D', 'a', 't', 'a'], [['I', 't', 'e', 'm', 'I', 'D'], ['F', 'o', 'l', 'd', 'e', 'r', 'I', 'D'], ['C', 'r', 'e', 'a', 't', 'o', 'r', 'I', 'D'], ['O', 'w', 'n', 'e', 'r', 'I', 'D'], ['G', 'r', 'o', 'u', 'p', 'I', 'D'], ['B', 'a', 's', 'e', 'M', 'a', 's', 'k'], ['O', 'w', 'n', 'e', 'r', 'M', 'a', 's', 'k'], ['G', 'r', 'o', 'u', 'p', 'M', 'a', 's', 'k'], ['E', 'v', 'e', 'r', 'y', 'o', 'n', 'e', 'M', 'a', 's', 'k'], ['N', 'e', 'x', 't', 'O', 'w', 'n', 'e', 'r', 'M', 'a', 's', 'k'], ['G', 'r', 'o', 'u', 'p', 'O', 'w', 'n', 'e', 'd'], ['T', 'r', 'a', 'n', 's', 'a', 'c', 't', 'i', 'o', 'n', 'I', 'D'], ['T', 'y', 'p', 'e'], ['I', 'n', 'v', 'T', 'y', 'p', 'e'], ['F', 'l', 'a', 'g', 's'], ['S', 'a', 'l', 'e', 'T', 'y', 'p', 'e'], ['S', 'a', 'l', 'e', 'P', 'r', 'i', 'c', 'e'], ['N', 'a', 'm', 'e'], ['D', 'e', 's', 'c', 'r', 'i', 'p', 't', 'i', 'o', 'n'], ['C', 'r', 'e', 'a', 't', 'i', 'o', 'n', 'D', 'a', 't', 'e'], ['C', 'R', 'C']])]

theorem w335 : Checked t335 := ⟨b335, by kernel_rfl, by kernel_rfl, by kernel_rfl⟩

/-- Lines of `message_template.msg` up to the end of `RezObjectFromNotecard`. -/
def c336 : List (List Char) :=
  [chars! "",
   chars! "// This message is sent from viewer -> simulator when the viewer wants",
   chars! "// to rez an object from a notecard.",
   chars! "{",
   chars! "\tRezObjectFromNotecard Low 294 NotTrusted Zerocoded",
   chars! "\t{",
   chars! "\t\tAgentData\t\tSingle",
   chars! "\t\t{\tAgentID\t\tLLUUID  }",
   chars! "\t\t{\tSessionID\tLLUUID  }",
   chars! "\t\t{\tGroupID\t\tLLUUID\t}",
   chars! "\t}",
   chars! "\t{",
   chars! "\t\tRezData\t\t\tSingle",
   chars! "\t\t{\tFromTaskID\t\t\t\tLLUUID\t}",
   chars! "\t\t{\tBypassRaycast\t\t\tU8\t}",
   chars! "\t\t{\tRayStart\t\t\t\tLLVector3\t}",
   chars! "\t\t{\tRayEnd\t\t\t\t\tLLVector3\t}",
   chars! "\t\t{\tRayTargetID\t\t\t\tLLUUID\t}",
   chars! "\t\t{\tRayEndIsIntersection\tBOOL }",
   chars! "\t\t{   RezSelected\t\t\t\tBOOL }",
   chars! "\t\t{\tRemoveItem\t\t\t\tBOOL }",
   chars! "\t\t{\tItemFlags\t\t\t\tU32 }",
   chars! "\t\t{\tGroupMask\t\t\t\tU32 }",
   chars! "\t\t{\tEveryoneMask\t\t\tU32 }",
   chars! "\t\t{\tNextOwnerMask\t\t\tU32\t}",
   chars! "\t}",
   chars! "\t{",
   chars! "\t\tNotecardData\t\tSingle",
   chars! "\t\t{\tNotecardItemID\tLLUUID\t}",
   chars! "\t\t{\tObjectID\t\tLLUUID\t}",
   chars! "\t}",
   chars! "\t{",
   chars! "\t\tInventoryData\t\tVariable",
   chars! "\t\t{\tItemID\t\t\tLLUUID\t}",
   chars! "\t}",
   chars! "}"]

/-- `RezObjectFromNotecard` as the parser creates it. -/
def r336 : RawTemplate :=
  ⟨"RezObjectFromNotecard", .low, 294, [255, 255, 38], some .notTrusted, some .zerocoded, some .notDeprecated,
    [⟨"InventoryData", .variable, 0, [⟨"ItemID", some .uuid, some 16⟩]⟩,
     ⟨"NotecardData", .single, 0, [⟨"ObjectID", some .uuid, some 16⟩, ⟨"NotecardItemID", some .uuid, some 16⟩]⟩,
     ⟨"RezData", .single, 0, [⟨"NextOwnerMask", some .u32, some 4⟩, ⟨"EveryoneMask", some .u32, some 4⟩, ⟨"GroupMask", some .u32, some 4⟩, ⟨"ItemFlags", some .u32, some 4⟩, ⟨"RemoveItem", some .bool, some 1⟩, ⟨"RezSelected", some .bool, some 1⟩, ⟨"RayEndIsIntersection", some .bool, some 1⟩, ⟨"RayTargetID", some .uuid, some 16⟩, ⟨"RayEnd", some .vector3, some 12⟩, ⟨"RayStart", some .vector3, some 12⟩, ⟨"BypassRaycast", some .u8, some 1⟩, ⟨"FromTaskID", some .uuid, some 16⟩]⟩,
     ⟨"AgentData", .single, 0, [⟨"GroupID", some .uuid, some 16⟩, ⟨"SessionID", some .uuid, some 16⟩, ⟨"AgentID", some .uuid, some 16⟩]⟩]⟩

/-- `RezObjectFromNotecard` in file order. -/
def t336 : Template :=
  ⟨"RezObjectFromNotecard", .low, 294, [], some .notTrusted, some .zerocoded, some .notDeprecated,
    [⟨"AgentData", .single, 0, [⟨"AgentID", .uuid, 16⟩, ⟨"SessionID", .uuid, 16⟩, ⟨"GroupID", .uuid, 16⟩]⟩,
     ⟨"RezData", .single, 0, [⟨"FromTaskID", .uuid, 16⟩, ⟨"BypassRaycast", .u8, 1⟩, ⟨"RayStart", .vector3, 12⟩, ⟨"RayEnd", .vector3, 12⟩, ⟨"RayTargetID", .uuid, 16⟩, ⟨"RayEndIsIntersection", .bool, 1⟩, ⟨"RezSelected", .bool, 1⟩, ⟨"RemoveItem", .bool, 1⟩, ⟨"ItemFlags", .u32, 4⟩, ⟨"GroupMask", .u32, 4⟩, ⟨"EveryoneMask", .u32, 4⟩, ⟨"NextOwnerMask", .u32, 4⟩]⟩,
     ⟨"NotecardData", .single, 0, [⟨"NotecardItemID", .uuid, 16⟩, ⟨"ObjectID", .uuid, 16⟩]⟩,
     ⟨"InventoryData", .variable, 0, [⟨"ItemID", .uuid, 16⟩]⟩]⟩

theorem p336 : ChunkOk c336 r336 := by intro v older; kernel_rfl
theorem k336 : r336.known = some t336 := by kernel_rfl
theorem n336 : t336.name = String.ofList ['R', 'e', 'z', 'O', 'b', 'j', 'e', 'c', 't', 'F', 'r', 'o', 'm', 'N', 'o', 't', 'e', 'c', 'a', 'r', 'd'] := by kernel_rfl

/-- The names of the blocks and variables of `RezObjectFromNotecard`. -/
def b336 : List (List Char × List (List Char)) :=
  [(['A', 'g', 'e', 'n', 't', 'D', 'a', 't', 'a'], [['A', 'g', 'e', 'n', 't', 'I', 'D'], ['S', 'e', 's', 's', 'i', 'o', 'n', 'I', 'D'], ['G', 'r', 'o', 'u', 'p', 'I', 'D']]),
   (['R', 'e', 'z', 'D', 'a', 't', 'a'], [['F', 'r', 'o', 'm', 'T', 'a', 's', 'k', 'I', 'D'], ['B', 'y', 'p', 'a', 's', 's', 'R', 'a', 'y', 'c', 'a', 's', 't'], ['R', 'a', 'y', 'S', 't', 'a', 'r', 't'], ['R', 'a', 'y', 'E', 'n', 'd'], ['R', 'a', 'y', 'T', 'a', 'r', 'g', 'e', 't', 'I', 'D'], ['R', 'a', 'y', 'E', 'n', 'd', 'I', 's', 'I', 'n', 't', 'e', 'r', 's', 'e', 'c', 't', 'i', 'o', 'n'], ['R', 'e', 'z', 'S', 'e', 'l', 'e', 'c', 't', 'e', 'd'], ['R', 'e', 'm', 'o', 'v', 'e', 'I', 't', 'e', 'm'], ['I', 't', 'e', 'm', 'F', 'l', 'a', 'g', 's'], ['G', 'r', 'o', 'u', 'p', 'M', 'a', 's', 'k'], ['E', 'v', 'e', 'r', 'y', 'o', 'n', 'e', 'M', 'a', 's', 'k'], ['N', 'e', 'x', 't', 'O', 'w', 'n', 'e', 'r', 'M', 'a', 's', 'k']]),
   (['N', 'o', 't', 'e', 'c', 'a', 'r', 'd', 'D', 'a', 't', 'a'], [['N', 'o', 't', 'e', 'c', 'a', 'r', 'd', 'I', 't', 'e', 'm', 'I', 'D'], ['O', 'b', 'j', 'e', 'c', 't', 'I', 'D']]),
   (['I', 'n', 'v', 'e', 'n', 't', 'o', 'r', 'y', 'D', 'a', 't', 'a'], [['I', 't', 'e', 'm', 'I', 'D']])]

theorem w336 : Checked t336 := ⟨b336, by kernel_rfl, by kernel_rfl, by kernel_rfl⟩

/-- Lines of `message_template.msg` up to the end of `TransferInventory`. -/
def c337 : List (List Char) :=
  [chars! "",
   chars! "",
   chars! "// sim -> dataserver",
   chars! "// sent during agent to agent inventory transfers",
   chars! "{",
   chars! "\tTransferInventory Low 295 Trusted Zerocoded",
   chars! "\t{",
   chars! "\t\tInfoBlock\t\t\tSingle",
   chars! "\t\t{\tSourceID\t\tLLUUID\t}",
   chars! "\t\t{\tDestID\t\t\tLLUUID\t}",
   chars! "\t\t{\tTransactionID\tLLUUID\t}",
   chars! "\t}",
   chars! "\t{",
   chars! "\t\tInventoryBlock\t\tVariable",
   chars! "\t\t{\tInventoryID\t\tLLUUID\t}",
   chars! "\t\t{\tType\t\t\tS8\t}",
   chars! "\t}",
   chars! "}"]

/-- `TransferInventory` as the parser creates it. -/
def r337 : RawTemplate :=
  ⟨"TransferInventory", .low, 295, [255, 255, 39], some .trusted, some .zerocoded, some .notDeprecated,
    [⟨"InventoryBlock", .variable, 0, [⟨"Type", some .s8, some 1⟩, ⟨"InventoryID", some .uuid, some 16⟩]⟩,
     ⟨"InfoBlock", .single, 0, [⟨"TransactionID", some .uuid, some 16⟩, ⟨"DestID", some .uuid, some 16⟩, ⟨"SourceID", some .uuid, some 16⟩]⟩]⟩

/-- `TransferInventory` in file order. -/
def t337 : Template :=
  ⟨"TransferInventory", .low, 295, [], some .trusted, some .zerocoded, some .notDeprecated,
    [⟨"InfoBlock", .single, 0, [⟨"SourceID", .uuid, 16⟩, ⟨"DestID", .uuid, 16⟩, ⟨"TransactionID", .uuid, 16⟩]⟩,
     ⟨"InventoryBlock", .variable, 0, [⟨"InventoryID", .uuid, 16⟩, ⟨"Type", .s8, 1⟩]⟩]⟩

theorem p337 : ChunkOk c337 r337 := by intro v older; kernel_rfl
theorem k337 : r337.known = some t337 := by kernel_rfl
theorem n337 : t337.name = String.ofList ['T', 'r', 'a', 'n', 's', 'f', 'e', 'r', 'I', 'n', 'v', 'e', 'n', 't', 'o', 'r', 'y'] := by kernel_rfl

/-- The names of the blocks and variables of `TransferInventory`. -/
def b337 : List (List Char × List (List Char)) :=
  [(['I', 'n', 'f', 'o', 'B', 'l', 'o', 'c', 'k'], [['S', 'o', 'u', 'r', 'c', 'e', 'I', 'D'], ['D', 'e', 's', 't', 'I', 'D'], ['T', 'r', 'a', 'n', 's', 'a', 'c', 't', 'i', 'o', 'n', 'I', 'D']]),
   (['I', 'n', 'v', 'e', 'n', 't', 'o', 'r', 'y', 'B', 'l', 'o', 'c', 'k'], [['I', 'n', 'v', 'e', 'n', 't', 'o', 'r', 'y', 'I', 'D'], ['T', 'y', 'p', 'e']])]

theorem w337 : Checked t337 := ⟨b337, by kernel_rfl, by kernel_rfl, by kernel_rfl⟩

/-- Lines of `message_template.msg` up to the end of `TransferInventoryAck`. -/
def c338 : List (List Char) :=
  [chars! "",
   chars! "// dataserver -> sim",
   chars! "// InventoryID is the id of the inventory object that the end user",
   chars! "// should discard if they deny the transfer.",
   chars! "{",
   chars! "\tTransferInventoryAck\tLow\t296 Trusted\tZerocoded",
   chars! "\t{",
   chars! "\t\tInfoBlock\t\t\tSingle",
   chars! "\t\t{\tTransactionID\tLLUUID\t}",
   chars! "\t\t{\tInventoryID\t\tLLUUID\t}",
   chars! "\t}",
   chars! "}"]

/-- `TransferInventoryAck` as the parser creates it. -/
def r338 : RawTemplate :=
  ⟨"TransferInventoryAck", .low, 296, [255, 255, 40], some .trusted, some .zerocoded, some .notDeprecated,
    [⟨"InfoBlock", .single, 0, [⟨"InventoryID", some .uuid, some 16⟩, ⟨"TransactionID", some .uuid, some 16⟩]⟩]⟩

/-- `TransferInventoryAck` in file order. -/
def t338 : Template :=
  ⟨"TransferInventoryAck", .low, 296, [], some .trusted, some .zerocoded, some .notDeprecated,
    [⟨"InfoBlock", .single, 0, [⟨"TransactionID", .uuid, 16⟩, ⟨"InventoryID", .uuid, 16⟩]⟩]⟩

theorem p338 : ChunkOk c338 r338 := by intro v older; kernel_rfl
theorem k338 : r338.known = some t338 := by kernel_rfl
theorem n338 : t338.name = String.ofList ['T', 'r', 'a', 'n', 's', 'f', 'e', 'r', 'I', 'n', 'v', 'e', 'n', 't', 'o', 'r', 'y', 'A', 'c', 'k'] := by kernel_rfl

/-- The names of the blocks and variables of `TransferInventoryAck`. -/
def b338 : List (List Char × List (List Char)) :=
  [(['I', 'n', 'f', 'o', 'B', 'l', 'o', 'c', 'k'], [['T', 'r', 'a', 'n', 's', 'a', 'c', 't', 'i', 'o', 'n', 'I', 'D'], ['I', 'n', 'v', 'e', 'n', 't', 'o', 'r', 'y', 'I', 'D']])]

theorem w338 : Checked t338 := ⟨b338, by kernel_rfl, by kernel_rfl, by kernel_rfl⟩

/-- Lines of `message_template.msg` up to the end of `AcceptFriendship`. -/
def c339 : List (List Char) :=
  [chars! "",
   chars! "",
   chars! "{",
   chars! "\tAcceptFriendship Low 297 NotTrusted Unencoded",
   chars! "\t{",
   chars! "\t\tAgentData\t\tSingle",
   chars! "\t\t{\tAgentID\t\tLLUUID  }",
   chars! "\t\t{\tSessionID\tLLUUID  }",
   chars! "\t}",
   chars! "\t{",
   chars! "\t\tTransactionBlock\tSingle",
   chars! "\t\t{\tTransactionID\tLLUUID\t}",
   chars! "\t}",
   chars! "\t{",
   chars! "\t\tFolderData\t\t\tVariable",
   chars! "\t\t{\tFolderID\t\tLLUUID\t} // place to put calling card.",
   chars! "\t}",
   chars! "}"]

/-- `AcceptFriendship` as the parser creates it. -/
def r339 : RawTemplate :=
  ⟨"AcceptFriendship", .low, 297, [255, 255, 41], some .notTrusted, some .unencoded, some .notDeprecated,
    [⟨"FolderData", .variable, 0, [⟨"FolderID", some .uuid, some 16⟩]⟩,
     ⟨"TransactionBlock", .single, 0, [⟨"TransactionID", some .uuid, some 16⟩]⟩,
     ⟨"AgentData", .single, 0, [⟨"SessionID", some .uuid, some 16⟩, ⟨"AgentID", some .uuid, some 16⟩]⟩]⟩

/-- `AcceptFriendship` in file order. -/
def t339 : Template :=
  ⟨"AcceptFriendship", .low, 297, [], some .notTrusted, some .unencoded, some .notDeprecated,
    [⟨"AgentData", .single, 0, [⟨"AgentID", .uuid, 16⟩, ⟨"SessionID", .uuid, 16⟩]⟩,
     ⟨"TransactionBlock", .single, 0, [⟨"TransactionID", .uuid, 16⟩]⟩,
     ⟨"FolderData", .variable, 0, [⟨"FolderID", .uuid, 16⟩]⟩]⟩

theorem p339 : ChunkOk c339 r339 := by intro v older; kernel_rfl
theorem k339 : r339.known = some t339 := by kernel_rfl
theorem n339 : t339.name = String.ofList ['A', 'c', 'c', 'e', 'p', 't', 'F', 'r', 'i', 'e', 'n', 'd', 's', 'h', 'i', 'p'] := by kernel_rfl

/-- The names of the blocks and variables of `AcceptFriendship`. -/
def b339 : List (List Char × List (List Char)) :=
  [(['A', 'g', 'e', 'n', 't', 'D', 'a', 't', 'a'], [['A', 'g', 'e', 'n', 't', 'I', 'D'], ['S', 'e', 's', 's', 'i', 'o', 'n', 'I', 'D']]),
   (['T', 'r', 'a', 'n', 's', 'a', 'c', 't', 'i', 'o', 'n', 'B', 'l', 'o', 'c', 'k'], [['T', 'r', 'a', 'n', 's', 'a', 'c', 't', 'i', 'o', 'n', 'I', 'D']]),
   (['F', 'o', 'l', 'd', 'e', 'r', 'D', 'a', 't', 'a'], [['F', 'o', 'l', 'd', 'e', 'r', 'I', 'D']])]

theorem w339 : Checked t339 := ⟨b339, by kernel_rfl, by kernel_rfl, by kernel_rfl⟩

/-- Lines of `message_template.msg` up to the end of `DeclineFriendship`. -/
def c340 : List (List Char) :=
  [chars! "",
   chars! "{",
   chars! "\tDeclineFriendship Low 298 NotTrusted Unencoded",
   chars! "\t{",
   chars! "\t\tAgentData\t\tSingle",
   chars! "\t\t{\tAgentID\t\tLLUUID  }",
   chars! "\t\t{\tSessionID\tLLUUID  }",
   chars! "\t}",
   chars! "\t{",
   chars! "\t\tTransactionBlock\tSingle",
   chars! "\t\t{\tTransactionID\tLLUUID\t}",
   chars! "\t}",
   chars! "}"]

/-- `DeclineFriendship` as the parser creates it. -/
def r340 : RawTemplate :=
  ⟨"DeclineFriendship", .low, 298, [255, 255, 42], some .notTrusted, some .unencoded, some .notDeprecated,
    [⟨"TransactionBlock", .single, 0, [⟨"TransactionID", some .uuid, some 16⟩]⟩,
     ⟨"AgentData", .single, 0, [⟨"SessionID", some .uuid, some 16⟩, ⟨"AgentID", some .uuid, some 16⟩]⟩]⟩

/-- `DeclineFriendship` in file order. -/
def t340 : Template :=
  ⟨"DeclineFriendship", .low, 298, [], some .notTrusted, some .unencoded, some .notDeprecated,
    [⟨"AgentData", .single, 0, [⟨"AgentID", .uuid, 16⟩, ⟨"SessionID", .uuid, 16⟩]⟩,
     ⟨"TransactionBlock", .single, 0, [⟨"TransactionID", .uuid, 16⟩]⟩]⟩

theorem p340 : ChunkOk c340 r340 := by intro v older; kernel_rfl
theorem k340 : r340.known = some t340 := by kernel_rfl
theorem n340 : t340.name = String.ofList ['D', 'e', 'c', 'l', 'i', 'n', 'e', 'F', 'r', 'i', 'e', 'n', 'd', 's', 'h', 'i', 'p'] := by kernel_rfl

/-- The names of the blocks and variables of `DeclineFriendship`. -/
def b340 : List (List Char × List (List Char)) :=
  [(['A', 'g', 'e', 'n', 't', 'D', 'a', 't', 'a'], [['A', 'g', 'e', 'n', 't', 'I', 'D'], ['S', 'e', 's', 's', 'i', 'o', 'n', 'I', 'D']]),
   (['T', 'r', 'a', 'n', 's', 'a', 'c', 't', 'i', 'o', 'n', 'B', 'l', 'o', 'c', 'k'], [['T', 'r', 'a', 'n', 's', 'a', 'c', 't', 'i', 'o', 'n', 'I', 'D']])]

theorem w340 : Checked t340 := ⟨b340, by kernel_rfl, by kernel_rfl, by kernel_rfl⟩

/-- Lines of `message_template.msg` up to the end of `FormFriendship`. -/
def c341 : List (List Char) :=
  [chars! "",
   chars! "{",
   chars! "\tFormFriendship\tLow\t299 Trusted\tUnencoded",
   chars! "\t{",
   chars! "\t\tAgentBlock\t\tSingle",
   chars! "\t\t{ SourceID\t\tLLUUID\t}",
   chars! "\t\t{ DestID\t\tLLUUID\t}",
   chars! "\t}",
   chars! "}"]

/-- `FormFriendship` as the parser creates it. -/
def r341 : RawTemplate :=
  ⟨"FormFriendship", .low, 299, [255, 255, 43], some .trusted, some .unencoded, some .notDeprecated,
    [⟨"AgentBlock", .single, 0, [⟨"DestID", some .uuid, some 16⟩, ⟨"SourceID", some .uuid, some 16⟩]⟩]⟩

/-- `FormFriendship` in file order. -/
def t341 : Template :=
  ⟨"FormFriendship", .low, 299, [], some .trusted, some .unencoded, some .notDeprecated,
    [⟨"AgentBlock", .single, 0, [⟨"SourceID", .uuid, 16⟩, ⟨"DestID", .uuid, 16⟩]⟩]⟩

theorem p341 : ChunkOk c341 r341 := by intro v older; kernel_rfl
theorem k341 : r341.known = some t341 := by kernel_rfl
theorem n341 : t341.name = String.ofList ['F', 'o', 'r', 'm', 'F', 'r', 'i', 'e', 'n', 'd', 's', 'h', 'i', 'p'] := by kernel_rfl

/-- The names of the blocks and variables of `FormFriendship`. -/
def b341 : List (List Char × List (List Char)) :=
  [(['A', 'g', 'e', 'n', 't', 'B', 'l', 'o', 'c', 'k'], [['S', 'o', 'u', 'r', 'c', 'e', 'I', 'D'], ['D', 'e', 's', 't', 'I', 'D']])]

theorem w341 : Checked t341 := ⟨b341, by kernel_rfl, by kernel_rfl, by kernel_rfl⟩

/-- Lines of `message_template.msg` up to the end of `TerminateFriendship`. -/
def c342 : List (List Char) :=
  [chars! "",
   chars! "// Cancels user relationship",
   chars! "// Updates inventory for both users.",
   chars! "// Stops agent tracking in userserver.",
   chars! "// viewer -> userserver -> dataserver",
   chars! "// reliable",
   chars! "{",
   chars! "\tTerminateFriendship Low 300 NotTrusted Unencoded",
   chars! "\t{",
   chars! "\t\tAgentData\t\tSingle",
   chars! "\t\t{ AgentID\t\tLLUUID\t}",
   chars! "\t\t{ SessionID\t\tLLUUID\t}",
   chars! "\t}",
   chars! "\t{",
   chars! "\t\tExBlock\t\t\tSingle",
   chars! "\t\t{ OtherID\t\tLLUUID\t}",
   chars! "\t}",
   chars! "}"]

/-- `TerminateFriendship` as the parser creates it. -/
def r342 : RawTemplate :=
  ⟨"TerminateFriendship", .low, 300, [255, 255, 44], some .notTrusted, some .unencoded, some .notDeprecated,
    [⟨"ExBlock", .single, 0, [⟨"OtherID", some .uuid, some 16⟩]⟩,
     ⟨"AgentData", .single, 0, [⟨"SessionID", some .uuid, some 16⟩, ⟨"AgentID", some .uuid, some 16⟩]⟩]⟩

/-- `TerminateFriendship` in file order. -/
def t342 : Template :=
  ⟨"TerminateFriendship", .low, 300, [], some .notTrusted, some .unencoded, some .notDeprecated,
    [⟨"AgentData", .single, 0, [⟨"AgentID", .uuid, 16⟩, ⟨"SessionID", .uuid, 16⟩]⟩,
     ⟨"ExBlock", .single, 0, [⟨"OtherID", .uuid, 16⟩]⟩]⟩

theorem p342 : ChunkOk c342 r342 := by intro v older; kernel_rfl
theorem k342 : r342.known = some t342 := by kernel_rfl
theorem n342 : t342.name = String.ofList ['T', 'e', 'r', 'm', 'i', 'n', 'a', 't', 'e', 'F', 'r', 'i', 'e', 'n', 'd', 's', 'h', 'i', 'p'] := by kernel_rfl

/-- The names of the blocks and variables of `TerminateFriendship`. -/
def b342 : List (List Char × List (List Char)) :=
  [(['A', 'g', 'e', 'n', 't', 'D', 'a', 't', 'a'], [['A', 'g', 'e', 'n', 't', 'I', 'D'], ['S', 'e', 's', 's', 'i', 'o', 'n', 'I', 'D']]),
   (['E', 'x', 'B', 'l', 'o', 'c', 'k'], [['O', 't', 'h', 'e', 'r', 'I', 'D']])]

theorem w342 : Checked t342 := ⟨b342, by kernel_rfl, by kernel_rfl, by kernel_rfl⟩

/-- Lines of `message_template.msg` up to the end of `OfferCallingCard`. -/
def c343 : List (List Char) :=
  [chars! "",
   chars! "// used to give someone a calling card.",
   chars! "{",
   chars! "\tOfferCallingCard Low 301 NotTrusted Unencoded",
   chars! "\t{",
   chars! "\t\tAgentData\t\tSingle",
   chars! "\t\t{\tAgentID\t\tLLUUID  }",
   chars! "\t\t{\tSessionID\tLLUUID  }",
   chars! "\t}",
   chars! "\t{",
   chars! "\t\tAgentBlock\t\t\tSingle",
   chars! "\t\t{\tDestID\t\t\tLLUUID\t}",
   chars! "\t\t{\tTransactionID\tLLUUID\t}",
   chars! "\t}",
   chars! "}"]

/-- `OfferCallingCard` as the parser creates it. -/
def r343 : RawTemplate :=
  ⟨"OfferCallingCard", .low, 301, [255, 255, 45], some .notTrusted, some .unencoded, some .notDeprecated,
    [⟨"AgentBlock", .single, 0, [⟨"TransactionID", some .uuid, some 16⟩, ⟨"DestID", some .uuid, some 16⟩]⟩,
     ⟨"AgentData", .single, 0, [⟨"SessionID", some .uuid, some 16⟩, ⟨"AgentID", some .uuid, some 16⟩]⟩]⟩

/-- `OfferCallingCard` in file order. -/
def t343 : Template :=
  ⟨"OfferCallingCard", .low, 301, [], some .notTrusted, some .unencoded, some .notDeprecated,
    [⟨"AgentData", .single, 0, [⟨"AgentID", .uuid, 16⟩, ⟨"SessionID", .uuid, 16⟩]⟩,
     ⟨"AgentBlock", .single, 0, [⟨"DestID", .uuid, 16⟩, ⟨"TransactionID", .uuid, 16⟩]⟩]⟩

theorem p343 : ChunkOk c343 r343 := by intro v older; kernel_rfl
theorem k343 : r343.known = some t343 := by kernel_rfl
theorem n343 : t343.name = String.ofList ['O', 'f', 'f', 'e', 'r', 'C', 'a', 'l', 'l', 'i', 'n', 'g', 'C', 'a', 'r', 'd'] := by kernel_rfl

/-- The names of the blocks and variables of `OfferCallingCard`. -/
def b343 : List (List Char × List (List Char)) :=
  [(['A', 'g', 'e', 'n', 't', 'D', 'a', 't', 'a'], [['A', 'g', 'e', 'n', 't', 'I', 'D'], ['S', 'e', 's', 's', 'i', 'o', 'n', 'I', 'D']]),
   (['A', 'g', 'e', 'n', 't', 'B', 'l', 'o', 'c', 'k'], [['D', 'e', 's', 't', 'I', 'D'], ['T', 'r', 'a', 'n', 's', 'a', 'c', 't', 'i', 'o', 'n', 'I', 'D']])]

theorem w343 : Checked t343 := ⟨b343, by kernel_rfl, by kernel_rfl, by kernel_rfl⟩

/-- Lines of `message_template.msg` up to the end of `AcceptCallingCard`. -/
def c344 : List (List Char) :=
  [chars! "",
   chars! "{",
   chars! "\tAcceptCallingCard Low 302 NotTrusted Unencoded",
   chars! "\t{",
   chars! "\t\tAgentData\t\tSingle",
   chars! "\t\t{\tAgentID\t\tLLUUID  }",
   chars! "\t\t{\tSessionID\tLLUUID  }",
   chars! "\t}",
   chars! "\t{",
   chars! "\t\tTransactionBlock\tSingle",
   chars! "\t\t{\tTransactionID\tLLUUID\t}",
   chars! "\t}",
   chars! "\t{",
   chars! "\t\tFolderData\t\t\tVariable",
   chars! "\t\t{\tFolderID\t\tLLUUID\t} // place to put calling card.",
   chars! "\t}",
   chars! "}"]

/-- `AcceptCallingCard` as the parser creates it. -/
def r344 : RawTemplate :=
  ⟨"AcceptCallingCard", .low, 302, [255, 255, 46], some .notTrusted, some .unencoded, some .notDeprecated,
    [⟨"FolderData", .variable, 0, [⟨"FolderID", some .uuid, some 16⟩]⟩,
     ⟨"TransactionBlock", .single, 0, [⟨"TransactionID", some .uuid, some 16⟩]⟩,
     ⟨"AgentData", .single, 0, [⟨"SessionID", some .uuid, some 16⟩, ⟨"AgentID", some .uuid, some 16⟩]⟩]⟩

/-- `AcceptCallingCard` in file order. -/
def t344 : Template :=
  ⟨"AcceptCallingCard", .low, 302, [], some .notTrusted, some .unencoded, some .notDeprecated,
    [⟨"AgentData", .single, 0, [⟨"AgentID", .uuid, 16⟩, ⟨"SessionID", .uuid, 16⟩]⟩,
     ⟨"TransactionBlock", .single, 0, [⟨"TransactionID", .uuid, 16⟩]⟩,
     ⟨"FolderData", .variable, 0, [⟨"FolderID", .uuid, 16⟩]⟩]⟩

theorem p344 : ChunkOk c344 r344 := by intro v older; kernel_rfl
theorem k344 : r344.known = some t344 := by kernel_rfl
theorem n344 : t344.name = String.ofList ['A', 'c', 'c', 'e', 'p', 't', 'C', 'a', 'l', 'l', 'i', 'n', 'g', 'C', 'a', 'r', 'd'] := by kernel_rfl

/-- The names of the blocks and variables of `AcceptCallingCard`. -/
def b344 : List (List Char × List (List Char)) :=
  [(['A', 'g', 'e', 'n', 't', 'D', 'a', 't', 'a'], [['A', 'g', 'e', 'n', 't', 'I', 'D'], ['S', 'e', 's', 's', 'i', 'o', 'n', 'I', 'D']]),
   (['T', 'r', 'a', 'n', 's', 'a', 'c', 't', 'i', 'o', 'n', 'B', 'l', 'o', 'c', 'k'], [['T', 'r', 'a', 'n', 's', 'a', 'c', 't', 'i', 'o', 'n', 'I', 'D']]),
   (['F', 'o', 'l', 'd', 'e', 'r', 'D', 'a', 't', 'a'], [['F', 'o', 'l', 'd', 'e', 'r', 'I', 'D']])]

theorem w344 : Checked t344 := ⟨b344, by kernel_rfl, by kernel_rfl, by kernel_rfl⟩

/-- Lines of `message_template.msg` up to the end of `DeclineCallingCard`. -/
def c345 : List (List Char) :=
  [chars! "",
   chars! "{",
   chars! "\tDeclineCallingCard Low 303 NotTrusted Unencoded",
   chars! "\t{",
   chars! "\t\tAgentData\t\tSingle",
   chars! "\t\t{\tAgentID\t\tLLUUID  }",
   chars! "\t\t{\tSessionID\tLLUUID  }",
   chars! "\t}",
   chars! "\t{",
   chars! "\t\tTransactionBlock\tSingle",
   chars! "\t\t{\tTransactionID\tLLUUID\t}",
   chars! "\t}",
   chars! "}"]

/-- `DeclineCallingCard` as the parser creates it. -/
def r345 : RawTemplate :=
  ⟨"DeclineCallingCard", .low, 303, [255, 255, 47], some .notTrusted, some .unencoded, some .notDeprecated,
    [⟨"TransactionBlock", .single, 0, [⟨"TransactionID", some .uuid, some 16⟩]⟩,
     ⟨"AgentData", .single, 0, [⟨"SessionID", some .uuid, some 16⟩, ⟨"AgentID", some .uuid, some 16⟩]⟩]⟩

/-- `DeclineCallingCard` in file order. -/
def t345 : Template :=
  ⟨"DeclineCallingCard", .low, 303, [], some .notTrusted, some .unencoded, some .notDeprecated,
    [⟨"AgentData", .single, 0, [⟨"AgentID", .uuid, 16⟩, ⟨"SessionID", .uuid, 16⟩]⟩,
     ⟨"TransactionBlock", .single, 0, [⟨"TransactionID", .uuid, 16⟩]⟩]⟩

theorem p345 : ChunkOk c345 r345 := by intro v older; kernel_rfl
theorem k345 : r345.known = some t345 := by kernel_rfl
theorem n345 : t345.name = String.ofList ['D', 'e', 'c', 'l', 'i', 'n', 'e', 'C', 'a', 'l', 'l', 'i', 'n', 'g', 'C', 'a', 'r', 'd'] := by kernel_rfl

/-- The names of the blocks and variables of `DeclineCallingCard`. -/
def b345 : List (List Char × List (List Char)) :=
  [(['A', 'g', 'e', 'n', 't', 'D', 'a', 't', 'a'], [['A', 'g', 'e', 'n', 't', 'I', 'D'], ['S', 'e', 's', 's', 'i', 'o', 'n', 'I', 'D']]),
   (['T', 'r', 'a', 'n', 's', 'a', 'c', 't', 'i', 'o', 'n', 'B', 'l', 'o', 'c', 'k'], [['T', 'r', 'a', 'n', 's', 'a', 'c', 't', 'i', 'o', 'n', 'I', 'D']])]

theorem w345 : Checked t345 := ⟨b345, by kernel_rfl, by kernel_rfl, by kernel_rfl⟩

/-- Lines of `message_template.msg` up to the end of `RezScript`. -/
def c346 : List (List Char) :=
  [chars! "",
   chars! "",
   chars! "// Rez a script onto an object",
   chars! "{",
   chars! "\tRezScript Low 304 NotTrusted Zerocoded",
   chars! "\t{",
   chars! "\t\tAgentData\t\tSingle",
   chars! "\t\t{ AgentID\t\tLLUUID\t}",
   chars! "\t\t{ SessionID\t\tLLUUID\t}",
   chars! "\t\t{  GroupID\t\t\tLLUUID\t}",
   chars! "\t}",
   chars! "\t{",
   chars! "\t\tUpdateBlock\t\t\tSingle",
   chars! "\t\t{  ObjectLocalID\tU32\t}   // object id in world ",
   chars! "\t\t{  Enabled\t\t\tBOOL\t}\t// is script rezzed in enabled?",
   chars! "\t}",
   chars! "\t{",
   chars! "\t\tInventoryBlock\t\tSingle",
   chars! "\t\t{\tItemID\t\t\tLLUUID\t}",
   chars! "\t\t{\tFolderID\t\tLLUUID\t}",
   chars! "\t\t{\tCreatorID\t\tLLUUID\t}\t// permissions",
   chars! "\t\t{\tOwnerID\t\t\tLLUUID\t}\t// permissions",
   chars! "\t\t{\tGroupID\t\t\tLLUUID\t}\t// permissions",
   chars! "\t\t{\tBaseMask\t\tU32\t}\t// permissions",
   chars! "\t\t{\tOwnerMask\t\tU32\t}\t// permissions",
   chars! "\t\t{\tGroupMask\t\tU32\t}\t// permissions",
   chars! "\t\t{\tEveryoneMask\tU32\t}\t// permissions",
   chars! "\t\t{\tNextOwnerMask\tU32\t}\t// permissions",
   chars! "\t\t{\tGroupOwned\t\tBOOL\t}\t// permissions",
   chars! "\t\t{\tTransactionID\tLLUUID\t}",
   chars! "\t\t{\tType\t\t\tS8\t}",
   chars! "\t\t{\tInvType\t\t\tS8\t}",
   chars! "\t\t{\tFlags\t\t\tU32\t}",
   chars! "\t\t{\tSaleType\t\tU8\t}",
   chars! "\t\t{\tSalePrice\t\tS32\t}",
   chars! "\t\t{\tName\t\t\tVariable\t1\t}",
   chars! "\t\t{\tDescription\t\tVariable\t1\t}",
   chars! "\t\t{\tCreationDate\tS32\t}",
   chars! "\t\t{\tCRC\t\t\t\tU32\t}",
   chars! "\t}",
   chars! "}"]

/-- `RezScript` as the parser creates it. -/
def r346 : RawTemplate :=
  ⟨"RezScript", .low, 304, [255, 255, 48], some .notTrusted, some .zerocoded, some .notDeprecated,
    [⟨"InventoryBlock", .single, 0, [⟨"CRC", some .u32, some 4⟩, ⟨"CreationDate", some .s32, some 4⟩, ⟨"Description", some .variable, some 1⟩, ⟨"Name", some .variable, some 1⟩, ⟨"SalePrice", some .s32, some 4⟩, ⟨"SaleType", some .u8, some 1⟩, ⟨"Flags", some .u32, some 4⟩, ⟨"InvType", some .s8, some 1⟩, ⟨"Type", some .s8, some 1⟩, ⟨"TransactionID", some .uuid, some 16⟩, ⟨"GroupOwned", some .bool, some 1⟩, ⟨"NextOwnerMask", some .u32, some 4⟩, ⟨"EveryoneMask", some .u32, some 4⟩, ⟨"GroupMask", some .u32, some 4⟩, ⟨"OwnerMask", some .u32, some 4⟩, ⟨"BaseMask", some .u32, some 4⟩, ⟨"GroupID", some .uuid, some 16⟩, ⟨"OwnerID", some .uuid, some 16⟩, ⟨"CreatorID", some .uuid, some 16⟩, ⟨"FolderID", some .uuid, some 16⟩, ⟨"ItemID", some .uuid, some 16⟩]⟩,
     ⟨"UpdateBlock", .single, 0, [⟨"Enabled", some .bool, some 1⟩, ⟨"ObjectLocalID", some .u32, some 4⟩]⟩,
     ⟨"AgentData", .single, 0, [⟨"GroupID", some .uuid, some 16⟩, ⟨"SessionID", some .uuid, some 16⟩, ⟨"AgentID", some .uuid, some 16⟩]⟩]⟩

/-- `RezScript` in file order. -/
def t346 : Template :=
  ⟨"RezScript", .low, 304, [], some .notTrusted, some .zerocoded, some .notDeprecated,
    [⟨"AgentData", .single, 0, [⟨"AgentID", .uuid, 16⟩, ⟨"SessionID", .uuid, 16⟩, ⟨"GroupID", .uuid, 16⟩]⟩,
     ⟨"UpdateBlock", .single, 0, [⟨"ObjectLocalID", .u32, 4⟩, ⟨"Enabled", .bool, 1⟩]⟩,
     ⟨"InventoryBlock", .single, 0, [⟨"ItemID", .uuid, 16⟩, ⟨"FolderID", .uuid, 16⟩, ⟨"CreatorID", .uuid, 16⟩, ⟨"OwnerID", .uuid, 16⟩, ⟨"GroupID", .uuid, 16⟩, ⟨"BaseMask", .u32, 4⟩, ⟨"OwnerMask", .u32, 4⟩, ⟨"GroupMask", .u32, 4⟩, ⟨"EveryoneMask", .u32, 4⟩, ⟨"NextOwnerMask", .u32, 4⟩, ⟨"GroupOwned", .bool, 1⟩, ⟨"TransactionID", .uuid, 16⟩, ⟨"Type", .s8, 1⟩, ⟨"InvType", .s8, 1⟩, ⟨"Flags", .u32, 4⟩, ⟨"SaleType", .u8, 1⟩, ⟨"SalePrice", .s32, 4⟩, ⟨"Name", .variable, 1⟩, ⟨"Description", .variable, 1⟩, ⟨"CreationDate", .s32, 4⟩, ⟨"CRC", .u32, 4⟩]⟩]⟩

theorem p346 : ChunkOk c346 r346 := by intro v older; kernel_rfl
theorem k346 : r346.known = some t346 := by kernel_rfl
theorem n346 : t346.name = String.ofList ['R', 'e', 'z', 'S', 'c', 'r', 'i', 'p', 't'] := by kernel_rfl

/-- The names of the blocks and variables of `RezScript`. -/
def b346 : List (List Char × List (List Char)) :=
  [(['A', 'g', 'e', 'n', 't', 'D', 'a', 't', 'a'], [['A', 'g', 'e', 'n', 't', 'I', 'D'], ['S', 'e', 's', 's', 'i', 'o', 'n', 'I', 'D'], ['G', 'r', 'o', 'u', 'p', 'I', 'D']]),
   (['U', 'p', 'd', 'a', 't', 'e', 'B', 'l', 'o', 'c', 'k'], [['O', 'b', 'j', 'e', 'c', 't', 'L', 'o', 'c', 'a', 'l', 'I', 'D'], ['E', 'n', 'a', 'b', 'l', 'e', 'd']]),
   (['I', 'n', 'v', 'e', 'n', 't', 'o', 'r', 'y', 'B', 'l', 'o', 'c', 'k'], [['I', 't', 'e', 'm', 'I', 'D'], ['F', 'o', 'l', 'd', 'e', 'r', 'I', 'D'], ['C', 'r', 'e', 'a', 't', 'o', 'r', 'I', 'D'], ['O', 'w', 'n', 'e', 'r', 'I', 'D'], ['G', 'r', 'o', 'u', 'p', 'I', 'D'], ['B', 'a', 's', 'e', 'M', 'a', 's', 'k'], ['O', 'w', 'n', 'e', 'r', 'M', 'a', 's', 'k'], ['G', 'r', 'o', 'u', 'p', 'M', 'a', 's', 'k'], ['E', 'v', 'e', 'r', 'y', 'o', 'n', 'e', 'M', 'a', 's', 'k'], ['N', 'e', 'x', 't', 'O', 'w', 'n', 'e', 'r', 'M', 'a', 's', 'k'], ['G', 'r', 'o', 'u', 'p', 'O', 'w', 'n', 'e', 'd'], ['T', 'r', 'a', 'n', 's', 'a', 'c', 't', 'i', 'o', 'n', 'I', 'D'], ['T', 'y', 'p', 'e'], ['I', 'n', 'v', 'T', 'y', 'p', 'e'], ['F', 'l', 'a', 'g', 's'], ['S', 'a', 'l', 'e', 'T', 'y', 'p', 'e'], ['S', 'a', 'l', 'e', 'P', 'r', 'i', 'c', 'e'], ['N', 'a', 'm', 'e'], ['D', 'e', 's', 'c', 'r', 'i', 'p', 't', 'i', 'o', 'n'], ['C', 'r', 'e', 'a', 't', 'i', 'o', 'n', 'D', 'a', 't', 'e'], ['C', 'R', 'C']])]

theorem w346 : Checked t346 := ⟨b346, by kernel_rfl, by kernel_rfl, by kernel_rfl⟩

/-- Lines of `message_template.msg` up to the end of `CreateInventoryItem`. -/
def c347 : List (List Char) :=
  [chars! "",
   chars! "// Create inventory",
   chars! "{",
   chars! "\tCreateInventoryItem Low 305 NotTrusted Zerocoded",
   chars! "\t{",
   chars! "\t\tAgentData\t\tSingle",
   chars! "\t\t{\tAgentID\t\tLLUUID\t\t}",
   chars! "\t\t{\tSessionID\tLLUUID\t\t}",
   chars! "\t}",
   chars! "\t{\t",
   chars! "\t\tInventoryBlock\t\tSingle",
   chars! "\t\t{\tCallbackID\tU32\t\t\t} // Async Response",
   chars! "\t\t{\tFolderID\t\tLLUUID\t}",
   chars! "\t\t{\tTransactionID\t\t\tLLUUID\t} // Going to become TransactionID",
   chars! "\t\t{\tNextOwnerMask\tU32\t}",
   chars! "\t\t{\tType\t\t\tS8\t}",
   chars! "\t\t{\tInvType\t\t\tS8\t}",
   chars! "\t\t{\tWearableType\tU8\t}",
   chars! "\t\t{\tName\t\t\tVariable\t1\t}",
   chars! "\t\t{\tDescription\t\tVariable\t1\t}",
   chars! "\t}",
   chars! "}"]

/-- `CreateInventoryItem` as the parser creates it. -/
def r347 : RawTemplate :=
  ⟨"CreateInventoryItem", .low, 305, [255, 255, 49], some .notTrusted, some .zerocoded, some .notDeprecated,
    [⟨"InventoryBlock", .single, 0, [⟨"Description", some .variable, some 1⟩, ⟨"Name", some .variable, some 1⟩, ⟨"WearableType", some .u8, some 1⟩, ⟨"InvType", some .s8, some 1⟩, ⟨"Type", some .s8, some 1⟩, ⟨"NextOwnerMask", some .u32, some 4⟩, ⟨"TransactionID", some .uuid, some 16⟩, ⟨"FolderID", some .uuid, some 16⟩, ⟨"CallbackID", some .u32, some 4⟩]⟩,
     ⟨"AgentData", .single, 0, [⟨"SessionID", some .uuid, some 16⟩, ⟨"AgentID", some .uuid, some 16⟩]⟩]⟩

/-- `CreateInventoryItem` in file order. -/
def t347 : Template :=
  ⟨"CreateInventoryItem", .low, 305, [], some .notTrusted, some .zerocoded, some .notDeprecated,
    [⟨"AgentData", .single, 0, [⟨"AgentID", .uuid, 16⟩, ⟨"SessionID", .uuid, 16⟩]⟩,
     ⟨"InventoryBlock", .single, 0, [⟨"CallbackID", .u32, 4⟩, ⟨"FolderID", .uuid, 16⟩, ⟨"TransactionID", .uuid, 16⟩, ⟨"NextOwnerMask", .u32, 4⟩, ⟨"Type", .s8, 1⟩, ⟨"InvType", .s8, 1⟩, ⟨"WearableType", .u8, 1⟩, ⟨"Name", .variable, 1⟩, ⟨"Description", .variable, 1⟩]⟩]⟩

theorem p347 : ChunkOk c347 r347 := by intro v older; kernel_rfl
theorem k347 : r347.known = some t347 := by kernel_rfl
theorem n347 : t347.name = String.ofList ['C', 'r', 'e', 'a', 't', 'e', 'I', 'n', 'v', 'e', 'n', 't', 'o', 'r', 'y', 'I', 't', 'e', 'm'] := by kernel_rfl

/-- The names of the blocks and variables of `CreateInventoryItem`. -/
def b347 : List (List Char × List (List Char)) :=
  [(['A', 'g', 'e', 'n', 't', 'D', 'a', 't', 'a'], [['A', 'g', 'e', 'n', 't', 'I', 'D'], ['S', 'e', 's', 's', 'i', 'o', 'n', 'I', 'D']]),
   (['I', 'n', 'v', 'e', 'n', 't', 'o', 'r', 'y', 'B', 'l', 'o', 'c', 'k'], [['C', 'a', 'l', 'l', 'b', 'a', 'c', 'k', 'I', 'D'], ['F', 'o', 'l', 'd', 'e', 'r', 'I', 'D'], ['T', 'r', 'a', 'n', 's', 'a', 'c', 't', 'i', 'o', 'n', 'I', 'D'], ['N', 'e', 'x', 't', 'O', 'w', 'n', 'e', 'r', 'M', 'a', 's', 'k'], ['T', 'y', 'p', 'e'], ['I', 'n', 'v', 'T', 'y', 'p', 'e'], ['W', 'e', 'a', 'r', 'a', 'b', 'l', 'e', 'T', 'y', 'p', 'e'], ['N', 'a', 'm', 'e'], ['D', 'e', 's', 'c', 'r', 'i', 'p', 't', 'i', 'o', 'n']])]

theorem w347 : Checked t347 := ⟨b347, by kernel_rfl, by kernel_rfl, by kernel_rfl⟩

/-- Lines of `message_template.msg` up to the end of `CreateLandmarkForEvent`. -/
def c348 : List (List Char) :=
  [chars! "",
   chars! "// give agent a landmark for an event.",
   chars! "{",
   chars! "\tCreateLandmarkForEvent\tLow\t306 NotTrusted\tZerocoded",
   chars! "\t{",
   chars! "\t\tAgentData\t\tSingle",
   chars! "\t\t{\tAgentID\t\tLLUUID\t\t}",
   chars! "\t\t{\tSessionID\tLLUUID\t\t}",
   chars! "\t}",
   chars! "\t{",
   chars! "\t\tEventData\t\tSingle",
   chars! "\t\t{\tEventID\t\tU32\t\t}",
   chars! "\t}",
   chars! "\t{\t",
   chars! "\t\tInventoryBlock\t\tSingle",
   chars! "\t\t{\tFolderID\t\tLLUUID\t}",
   chars! "\t\t{\tName\t\t\tVariable\t1\t}",
   chars! "\t}",
   chars! "}"]

/-- `CreateLandmarkForEvent` as the parser creates it. -/
def r348 : RawTemplate :=
  ⟨"CreateLandmarkForEvent", .low, 306, [255, 255, 50], some .notTrusted, some .zerocoded, some .notDeprecated,
    [⟨"InventoryBlock", .single, 0, [⟨"Name", some .variable, some 1⟩, ⟨"FolderID", some .uuid, some 16⟩]⟩,
     ⟨"EventData", .single, 0, [⟨"EventID", some .u32, some 4⟩]⟩,
     ⟨"AgentData", .single, 0, [⟨"SessionID", some .uuid, some 16⟩, ⟨"AgentID", some .uuid, some 16⟩]⟩]⟩

/-- `CreateLandmarkForEvent` in file order. -/
def t348 : Template :=
  ⟨"CreateLandmarkForEvent", .low, 306, [], some .notTrusted, some .zerocoded, some .notDeprecated,
    [⟨"AgentData", .single, 0, [⟨"AgentID", .uuid, 16⟩, ⟨"SessionID", .uuid, 16⟩]⟩,
     ⟨"EventData", .single, 0, [⟨"EventID", .u32, 4⟩]⟩,
     ⟨"InventoryBlock", .single, 0, [⟨"FolderID", .uuid, 16⟩, ⟨"Name", .variable, 1⟩]⟩]⟩

theorem p348 : ChunkOk c348 r348 := by intro v older; kernel_rfl
theorem k348 : r348.known = some t348 := by kernel_rfl
theorem n348 : t348.name = String.ofList ['C', 'r', 'e', 'a', 't', 'e', 'L', 'a', 'n', 'd', 'm', 'a', 'r', 'k', 'F', 'o', 'r', 'E', 'v', 'e', 'n', 't'] := by kernel_rfl

/-- The names of the blocks and variables of `CreateLandmarkForEvent`. -/
def b348 : List (List Char × List (List Char)) :=
  [(['A', 'g', 'e', 'n', 't', 'D', 'a', 't', 'a'], [['A', 'g', 'e', 'n', 't', 'I', 'D'], ['S', 'e', 's', 's', 'i', 'o', 'n', 'I', 'D']]),
   (['E', 'v', 'e', 'n', 't', 'D', 'a', 't', 'a'], [['E', 'v', 'e', 'n', 't', 'I', 'D']]),
   (['I', 'n', 'v', 'e', 'n', 't', 'o', 'r', 'y', 'B', 'l', 'o', 'c', 'k'], [['F', 'o', 'l', 'd', 'e', 'r', 'I', 'D'], ['N', 'a', 'm', 'e']])]

theorem w348 : Checked t348 := ⟨b348, by kernel_rfl, by kernel_rfl, by kernel_rfl⟩

/-- Lines of `message_template.msg` up to the end of `EventLocationRequest`. -/
def c349 : List (List Char) :=
  [chars! "",
   chars! "{",
   chars! "\tEventLocationRequest\tLow\t307 Trusted\tZerocoded",
   chars! "\t{",
   chars! "\t\tQueryData\t\tSingle",
   chars! "\t\t{\tQueryID\t\tLLUUID\t\t\t}",
   chars! "\t}",
   chars! "\t{",
   chars! "\t\tEventData\t\tSingle",
   chars! "\t\t{\tEventID\t\tU32\t\t}",
   chars! "\t}",
   chars! "}"]

/-- `EventLocationRequest` as the parser creates it. -/
def r349 : RawTemplate :=
  ⟨"EventLocationRequest", .low, 307, [255, 255, 51], some .trusted, some .zerocoded, some .notDeprecated,
    [⟨"EventData", .single, 0, [⟨"EventID", some .u32, some 4⟩]⟩,
     ⟨"QueryData", .single, 0, [⟨"QueryID", some .uuid, some 16⟩]⟩]⟩

/-- `EventLocationRequest` in file order. -/
def t349 : Template :=
  ⟨"EventLocationRequest", .low, 307, [], some .trusted, some .zerocoded, some .notDeprecated,
    [⟨"QueryData", .single, 0, [⟨"QueryID", .uuid, 16⟩]⟩,
     ⟨"EventData", .single, 0, [⟨"EventID", .u32, 4⟩]⟩]⟩

theorem p349 : ChunkOk c349 r349 := by intro v older; kernel_rfl
theorem k349 : r349.known = some t349 := by kernel_rfl
theorem n349 : t349.name = String.ofList ['E', 'v', 'e', 'n', 't', 'L', 'o', 'c', 'a', 't', 'i', 'o', 'n', 'R', 'e', 'q', 'u', 'e', 's', 't'] := by kernel_rfl

/-- The names of the blocks and variables of `EventLocationRequest`. -/
def b349 : List (List Char × List (List Char)) :=
  [(['Q', 'u', 'e', 'r', 'y', 'D', 'a', 't', 'a'], [['Q', 'u', 'e', 'r', 'y', 'I', 'D']]),
   (['E', 'v', 'e', 'n', 't', 'D', 'a', 't', 'a'], [['E', 'v', 'e', 'n', 't', 'I', 'D']])]

theorem w349 : Checked t349 := ⟨b349, by kernel_rfl, by kernel_rfl, by kernel_rfl⟩

/-- Lines of `message_template.msg` up to the end of `EventLocationReply`. -/
def c350 : List (List Char) :=
  [chars! "",
   chars! "{",
   chars! "\tEventLocationReply\tLow\t308 Trusted\tZerocoded",
   chars! "\t{",
   chars! "\t\tQueryData\t\tSingle",
   chars! "\t\t{\tQueryID\t\tLLUUID\t}",
   chars! "\t}",
   chars! "\t{",
   chars! "\t\tEventData\t\tSingle",
   chars! "\t\t{\tSuccess\t\tBOOL\t}",
   chars! "\t\t{\tRegionID\tLLUUID\t}",
   chars! "\t\t{\tRegionPos\tLLVector3\t}",
   chars! "\t}",
   chars! "}"]

/-- `EventLocationReply` as the parser creates it. -/
def r350 : RawTemplate :=
  ⟨"EventLocationReply", .low, 308, [255, 255, 52], some .trusted, some .zerocoded, some .notDeprecated,
    [⟨"EventData", .single, 0, [⟨"RegionPos", some .vector3, some 12⟩, ⟨"RegionID", some .uuid, some 16⟩, ⟨"Success", some .bool, some 1⟩]⟩,
     ⟨"QueryData", .single, 0, [⟨"QueryID", some .uuid, some 16⟩]⟩]⟩

/-- `EventLocationReply` in file order. -/
def t350 : Template :=
  ⟨"EventLocationReply", .low, 308, [], some .trusted, some .zerocoded, some .notDeprecated,
    [⟨"QueryData", .single, 0, [⟨"QueryID", .uuid, 16⟩]⟩,
     ⟨"EventData", .single, 0, [⟨"Success", .bool, 1⟩, ⟨"RegionID", .uuid, 16⟩, ⟨"RegionPos", .vector3, 12⟩]⟩]⟩

theorem p350 : ChunkOk c350 r350 := by intro v older; kernel_rfl
theorem k350 : r350.known = some t350 := by kernel_rfl
theorem n350 : t350.name = String.ofList ['E', 'v', 'e', 'n', 't', 'L', 'o', 'c', 'a', 't', 'i', 'o', 'n', 'R', 'e', 'p', 'l', 'y'] := by kernel_rfl

/-- The names of the blocks and variables of `EventLocationReply`. -/
def b350 : List (List Char × List (List Char)) :=
  [(['Q', 'u', 'e', 'r', 'y', 'D', 'a', 't', 'a'], [['Q', 'u', 'e', 'r', 'y', 'I', 'D']]),
   (['E', 'v', 'e', 'n', 't', 'D', 'a', 't', 'a'], [['S', 'u', 'c', 'c', 'e', 's', 's'], ['R', 'e', 'g', 'i', 'o', 'n', 'I', 'D'], ['R', 'e', 'g', 'i', 'o', 'n', 'P', 'o', 's']])]

theorem w350 : Checked t350 := ⟨b350, by kernel_rfl, by kernel_rfl, by kernel_rfl⟩

/-- Lines of `message_template.msg` up to the end of `RegionHandleRequest`. -/
def c351 : List (List Char) :=
  [chars! "",
   chars! "// get information about landmarks. Used by viewers for determining",
   chars! "// the location of a landmark, and by simulators for teleport",
   chars! "{",
   chars! "\tRegionHandleRequest Low 309 NotTrusted Unencoded",
   chars! "\t{",
   chars! "\t\tRequestBlock\t\tSingle",
   chars! "\t\t{\tRegionID\t\tLLUUID\t}",
   chars! "\t}",
   chars! "}"]

/-- `RegionHandleRequest` as the parser creates it. -/
def r351 : RawTemplate :=
  ⟨"RegionHandleRequest", .low, 309, [255, 255, 53], some .notTrusted, some .unencoded, some .notDeprecated,
    [⟨"RequestBlock", .single, 0, [⟨"RegionID", some .uuid, some 16⟩]⟩]⟩

/-- `RegionHandleRequest` in file order. -/
def t351 : Template :=
  ⟨"RegionHandleRequest", .low, 309, [], some .notTrusted, some .unencoded, some .notDeprecated,
    [⟨"RequestBlock", .single, 0, [⟨"RegionID", .uuid, 16⟩]⟩]⟩

theorem p351 : ChunkOk c351 r351 := by intro v older; kernel_rfl
theorem k351 : r351.known = some t351 := by kernel_rfl
theorem n351 : t351.name = String.ofList ['R', 'e', 'g', 'i', 'o', 'n', 'H', 'a', 'n', 'd', 'l', 'e', 'R', 'e', 'q', 'u', 'e', 's', 't'] := by kernel_rfl

/-- The names of the blocks and variables of `RegionHandleRequest`. -/
def b351 : List (List Char × List (List Char)) :=
  [(['R', 'e', 'q', 'u', 'e', 's', 't', 'B', 'l', 'o', 'c', 'k'], [['R', 'e', 'g', 'i', 'o', 'n', 'I', 'D']])]

theorem w351 : Checked t351 := ⟨b351, by kernel_rfl, by kernel_rfl, by kernel_rfl⟩

/-- Lines of `message_template.msg` up to the end of `RegionIDAndHandleReply`. -/
def c352 : List (List Char) :=
  [chars! "",
   chars! "{",
   chars! "\tRegionIDAndHandleReply Low 310 Trusted Unencoded",
   chars! "\t{",
   chars! "\t\tReplyBlock\t\t\tSingle",
   chars! "\t\t{\tRegionID\t\tLLUUID\t}",
   chars! "\t\t{\tRegionHandle\tU64\t\t}",
   chars! "\t}",
   chars! "}"]

/-- `RegionIDAndHandleReply` as the parser creates it. -/
def r352 : RawTemplate :=
  ⟨"RegionIDAndHandleReply", .low, 310, [255, 255, 54], some .trusted, some .unencoded, some .notDeprecated,
    [⟨"ReplyBlock", .single, 0, [⟨"RegionHandle", some .u64, some 8⟩, ⟨"RegionID", some .uuid, some 16⟩]⟩]⟩

/-- `RegionIDAndHandleReply` in file order. -/
def t352 : Template :=
  ⟨"RegionIDAndHandleReply", .low, 310, [], some .trusted, some .unencoded, some .notDeprecated,
    [⟨"ReplyBlock", .single, 0, [⟨"RegionID", .uuid, 16⟩, ⟨"RegionHandle", .u64, 8⟩]⟩]⟩

theorem p352 : ChunkOk c352 r352 := by intro v older; kernel_rfl
theorem k352 : r352.known = some t352 := by kernel_rfl
theorem n352 : t352.name = String.ofList ['R', 'e', 'g', 'i', 'o', 'n', 'I', 'D', 'A', 'n', 'd', 'H', 'a', 'n', 'd', 'l', 'e', 'R', 'e', 'p', 'l', 'y'] := by kernel_rfl

/-- The names of the blocks and variables of `RegionIDAndHandleReply`. -/
def b352 : List (List Char × List (List Char)) :=
  [(['R', 'e', 'p', 'l', 'y', 'B', 'l', 'o', 'c', 'k'], [['R', 'e', 'g', 'i', 'o', 'n', 'I', 'D'], ['R', 'e', 'g', 'i', 'o', 'n', 'H', 'a', 'n', 'd', 'l', 'e']])]

theorem w352 : Checked t352 := ⟨b352, by kernel_rfl, by kernel_rfl, by kernel_rfl⟩

/-- Lines of `message_template.msg` up to the end of `MoneyTransferRequest`. -/
def c353 : List (List Char) :=
  [chars! "",
   chars! "// Move money from one agent to another. Validation will happen at the",
   chars! "// simulator, the dataserver will actually do the work. Dataserver",
   chars! "// generates a MoneyBalance message in reply.  The simulator",
   chars! "// will generate a MoneyTransferBackend in response to this.",
   chars! "// viewer -> simulator -> dataserver ",
   chars! "{",
   chars! "\tMoneyTransferRequest Low 311 NotTrusted Zerocoded",
   chars! "\t{",
   chars! "\t\tAgentData\t\tSingle",
   chars! "\t\t{\tAgentID\t\tLLUUID\t}",
   chars! "\t\t{\tSessionID\tLLUUID\t}",
   chars! "\t}",
   chars! "\t{",
   chars! "\t\tMoneyData\t\t\tSingle",
   chars! "\t\t{\tSourceID\t\tLLUUID  }",
   chars! "\t\t{\tDestID\t\t\tLLUUID\t}\t// destination of the transfer",
   chars! "\t\t{\tFlags\t\t\tU8\t\t}",
   chars! "\t\t{\tAmount\t\t\tS32\t\t}",
   chars! "\t\t{\tAggregatePermNextOwner\tU8\t}",
   chars! "\t\t{\tAggregatePermInventory\tU8\t}",
   chars! "\t\t{\tTransactionType\tS32\t\t}\t// see lltransactiontypes.h",
   chars! "\t\t{\tDescription\t\tVariable 1\t}\t// string, name of item for purchases",
   chars! "\t}",
   chars! "}"]

/-- `MoneyTransferRequest` as the parser creates it. -/
def r353 : RawTemplate :=
  ⟨"MoneyTransferRequest", .low, 311, [255, 255, 55], some .notTrusted, some .zerocoded, some .notDeprecated,
    [⟨"MoneyData", .single, 0, [⟨"Description", some .variable, some 1⟩, ⟨"TransactionType", some .s32, some 4⟩, ⟨"AggregatePermInventory", some .u8, some 1⟩, ⟨"AggregatePermNextOwner", some .u8, some 1⟩, ⟨"Amount", some .s32, some 4⟩, ⟨"Flags", some .u8, some 1⟩, ⟨"DestID", some .uuid, some 16⟩, ⟨"SourceID", some .uuid, some 16⟩]⟩,
     ⟨"AgentData", .single, 0, [⟨"SessionID", some .uuid, some 16⟩, ⟨"AgentID", some .uuid, some 16⟩]⟩]⟩

/-- `MoneyTransferRequest` in file order. -/
def t353 : Template :=
  ⟨"MoneyTransferRequest", .low, 311, [], some .notTrusted, some .zerocoded, some .notDeprecated,
    [⟨"AgentData", .single, 0, [⟨"AgentID", .uuid, 16⟩, ⟨"SessionID", .uuid, 16⟩]⟩,
     ⟨"MoneyData", .single, 0, [⟨"SourceID", .uuid, 16⟩, ⟨"DestID", .uuid, 16⟩, ⟨"Flags", .u8, 1⟩, ⟨"Amount", .s32, 4⟩, ⟨"AggregatePermNextOwner", .u8, 1⟩, ⟨"AggregatePermInventory", .u8, 1⟩, ⟨"TransactionType", .s32, 4⟩, ⟨"Description", .variable, 1⟩]⟩]⟩

theorem p353 : ChunkOk c353 r353 := by intro v older; kernel_rfl
theorem k353 : r353.known = some t353 := by kernel_rfl
theorem n353 : t353.name = String.ofList ['M', 'o', 'n', 'e', 'y', 'T', 'r', 'a', 'n', 's', 'f', 'e', 'r', 'R', 'e', 'q', 'u', 'e', 's', 't'] := by kernel_rfl

/-- The names of the blocks and variables of `MoneyTransferRequest`. -/
def b353 : List (List Char × List (List Char)) :=
  [(['A', 'g', 'e', 'n', 't', 'D', 'a', 't', 'a'], [['A', 'g', 'e', 'n', 't', 'I', 'D'], ['S', 'e', 's', 's', 'i', 'o', 'n', 'I', 'D']]),
   (['M', 'o', 'n', 'e', 'y', 'D', 'a', 't', 'a'], [['S', 'o', 'u', 'r', 'c', 'e', 'I', 'D'], ['D', 'e', 's', 't', 'I', 'D'], ['F', 'l', 'a', 'g', 's'], ['A', 'm', 'o', 'u', 'n', 't'], ['A', 'g', 'g', 'r', 'e', 'g', 'a', 't', 'e', 'P', 'e', 'r', 'm', 'N', 'e', 'x', 't', 'O', 'w', 'n', 'e', 'r'], ['A', 'g', 'g', 'r', 'e', 'g', 'a', 't', 'e', 'P', 'e', 'r', 'm', 'I', 'n', 'v', 'e', 'n', 't', 'o', 'r', 'y'], ['T', 'r', 'a', 'n', 's', 'a', 'c', 't', 'i', 'o', 'n', 'T', 'y', 'p', 'e'], ['D', 'e', 's', 'c', 'r', 'i', 'p', 't', 'i', 'o', 'n']])]

theorem w353 : Checked t353 := ⟨b353, by kernel_rfl, by kernel_rfl, by kernel_rfl⟩

/-- Lines of `message_template.msg` up to the end of `MoneyTransferBackend`. -/
def c354 : List (List Char) :=
  [chars! "",
   chars! "// And, the money transfer",
   chars! "{",
   chars! "\tMoneyTransferBackend Low 312 Trusted Zerocoded",
   chars! "\t{",
   chars! "\t\tMoneyData\t\t\tSingle",
   chars! "\t\t{\tTransactionID\tLLUUID\t}",
   chars! "\t\t{ \tTransactionTime\tU32\t} // utc seconds since epoch",
   chars! "\t\t{\tSourceID\t\tLLUUID  }",
   chars! "\t\t{\tDestID\t\t\tLLUUID\t}\t// destination of the transfer",
   chars! "\t\t{\tFlags\t\t\tU8\t\t}",
   chars! "\t\t{\tAmount\t\t\tS32\t\t}",
   chars! "\t\t{\tAggregatePermNextOwner\tU8\t}",
   chars! "\t\t{\tAggregatePermInventory\tU8\t}",
   chars! "\t\t{\tTransactionType\tS32\t\t}\t// see lltransactiontypes.h",
   chars! "\t\t{\tRegionID\t\tLLUUID\t\t}\t// region sending the request, for logging",
   chars! "\t\t{\tGridX\t\t\tU32\t\t\t}\t// *HACK: database doesn't have region_id in schema",
   chars! "\t\t{\tGridY\t\t\tU32\t\t\t}\t// *HACK: database doesn't have region_id in schema",
   chars! "\t\t{\tDescription\t\tVariable 1\t}\t// string, name of item for purchases",
   chars! "\t}",
   chars! "}"]

/-- `MoneyTransferBackend` as the parser creates it. -/
def r354 : RawTemplate :=
  ⟨"MoneyTransferBackend", .low, 312, [255, 255, 56], some .trusted, some .zerocoded, some .notDeprecated,
    [⟨"MoneyData", .single, 0, [⟨"Description", some .variable, some 1⟩, ⟨"GridY", some .u32, some 4⟩, ⟨"GridX", some .u32, some 4⟩, ⟨"RegionID", some .uuid, some 16⟩, ⟨"TransactionType", some .s32, some 4⟩, ⟨"AggregatePermInventory", some .u8, some 1⟩, ⟨"AggregatePermNextOwner", some .u8, some 1⟩, ⟨"Amount", some .s32, some 4⟩, ⟨"Flags", some .u8, some 1⟩, ⟨"DestID", some .uuid, some 16⟩, ⟨"SourceID", some .uuid, some 16⟩, ⟨"TransactionTime", some .u32, some 4⟩, ⟨"TransactionID", some .uuid, some 16⟩]⟩]⟩

/-- `MoneyTransferBackend` in file order. -/
def t354 : Template :=
  ⟨"MoneyTransferBackend", .low, 312, [], some .trusted, some .zerocoded, some .notDeprecated,
    [⟨"MoneyData", .single, 0, [⟨"TransactionID", .uuid, 16⟩, ⟨"TransactionTime", .u32, 4⟩, ⟨"SourceID", .uuid, 16⟩, ⟨"DestID", .uuid, 16⟩, ⟨"Flags", .u8, 1⟩, ⟨"Amount", .s32, 4⟩, ⟨"AggregatePermNextOwner", .u8, 1⟩, ⟨"AggregatePermInventory", .u8, 1⟩, ⟨"TransactionType", .s32, 4⟩, ⟨"RegionID", .uuid, 16⟩, ⟨"GridX", .u32, 4⟩, ⟨"GridY", .u32, 4⟩, ⟨"Description", .variable, 1⟩]⟩]⟩

theorem p354 : ChunkOk c354 r354 := by intro v older; kernel_rfl
theorem k354 : r354.known = some t354 := by kernel_rfl
theorem n354 : t354.name = String.ofList ['M', 'o', 'n', 'e', 'y', 'T', 'r', 'a', 'n', 's', 'f', 'e', 'r', 'B', 'a', 'c', 'k', 'e', 'n', 'd'] := by kernel_rfl

/-- The names of the blocks and variables of `MoneyTransferBackend`. -/
def b354 : List (List Char × List (List Char)) :=
  [(['M', 'o', 'n', 'e', 'y', 'D', 'a', 't', 'a'], [['T', 'r', 'a', 'n', 's', 'a', 'c', 't', 'i', 'o', 'n', 'I', 'D'], ['T', 'r', 'a', 'n', 's', 'a', 'c', 't', 'i', 'o', 'n', 'T', 'i', 'm', 'e'], ['S', 'o', 'u', 'r', 'c', 'e', 'I', 'D'], ['D', 'e', 's', 't', 'I', 'D'], ['F', 'l', 'a', 'g', 's'], ['A', 'm', 'o', 'u', 'n', 't'], ['A', 'g', 'g', 'r', 'e', 'g', 'a', 't', 'e', 'P', 'e', 'r', 'm', 'N', 'e', 'x', 't', 'O', 'w', 'n', 'e', 'r'], ['A', 'g', 'g', 'r', 'e', 'g', 'a', 't', 'e', 'P', 'e', 'r', 'm', 'I', 'n', 'v', 'e', 'n', 't', 'o', 'r', 'y'], ['T', 'r', 'a', 'n', 's', 'a', 'c', 't', 'i', 'o', 'n', 'T', 'y', 'p', 'e'], ['R', 'e', 'g', 'i', 'o', 'n', 'I', 'D'], ['G', 'r', 'i', 'd', 'X'], ['G', 'r', 'i', 'd', 'Y'], ['D', 'e', 's', 'c', 'r', 'i', 'p', 't', 'i', 'o', 'n']])]

theorem w354 : Checked t354 := ⟨b354, by kernel_rfl, by kernel_rfl, by kernel_rfl⟩

/-- Lines of `message_template.msg` up to the end of `MoneyBalanceRequest`. -/
def c355 : List (List Char) :=
  [chars! "",
   chars! "",
   chars! "// viewer -> userserver -> dataserver",
   chars! "// Reliable",
   chars! "{",
   chars! "\tMoneyBalanceRequest Low 313 NotTrusted Zerocoded",
   chars! "\t{",
   chars! "\t\tAgentData\tSingle",
   chars! "\t\t{\tAgentID\t\t\tLLUUID\t}",
   chars! "\t\t{\tSessionID\t\tLLUUID\t}",
   chars! "\t}",
   chars! "\t{",
   chars! "\t\tMoneyData\t\t\tSingle",
   chars! "\t\t{\tTransactionID\tLLUUID\t}",
   chars! "\t}",
   chars! "}"]

/-- `MoneyBalanceRequest` as the parser creates it. -/
def r355 : RawTemplate :=
  ⟨"MoneyBalanceRequest", .low, 313, [255, 255, 57], some .notTrusted, some .zerocoded, some .notDeprecated,
    [⟨"MoneyData", .single, 0, [⟨"TransactionID", some .uuid, some 16⟩]⟩,
     ⟨"AgentData", .single, 0, [⟨"SessionID", some .uuid, some 16⟩, ⟨"AgentID", some .uuid, some 16⟩]⟩]⟩

/-- `MoneyBalanceRequest` in file order. -/
def t355 : Template :=
  ⟨"MoneyBalanceRequest", .low, 313, [], some .notTrusted, some .zerocoded, some .notDeprecated,
    [⟨"AgentData", .single, 0, [⟨"AgentID", .uuid, 16⟩, ⟨"SessionID", .uuid, 16⟩]⟩,
     ⟨"MoneyData", .single, 0, [⟨"TransactionID", .uuid, 16⟩]⟩]⟩

theorem p355 : ChunkOk c355 r355 := by intro v older; kernel_rfl
theorem k355 : r355.known = some t355 := by kernel_rfl
theorem n355 : t355.name = String.ofList ['M', 'o', 'n', 'e', 'y', 'B', 'a', 'l', 'a', 'n', 'c', 'e', 'R', 'e', 'q', 'u', 'e', 's', 't'] := by kernel_rfl

/-- The names of the blocks and variables of `MoneyBalanceRequest`. -/
def b355 : List (List Char × List (List Char)) :=
  [(['A', 'g', 'e', 'n', 't', 'D', 'a', 't', 'a'], [['A', 'g', 'e', 'n', 't', 'I', 'D'], ['S', 'e', 's', 's', 'i', 'o', 'n', 'I', 'D']]),
   (['M', 'o', 'n', 'e', 'y', 'D', 'a', 't', 'a'], [['T', 'r', 'a', 'n', 's', 'a', 'c', 't', 'i', 'o', 'n', 'I', 'D']])]

theorem w355 : Checked t355 := ⟨b355, by kernel_rfl, by kernel_rfl, by kernel_rfl⟩

/-- Lines of `message_template.msg` up to the end of `MoneyBalanceReply`. -/
def c356 : List (List Char) :=
  [chars! "",
   chars! "",
   chars! "// dataserver -> simulator -> viewer",
   chars! "{",
   chars! "\tMoneyBalanceReply Low 314 Trusted Zerocoded",
   chars! "\t{",
   chars! "\t\tMoneyData\t\t\tSingle",
   chars! "\t\t{\tAgentID\t\t\t\tLLUUID  }",
   chars! "\t\t{\tTransactionID\t\tLLUUID\t}",
   chars! "\t\t{\tTransactionSuccess\tBOOL\t}\t// BOOL",
   chars! "\t\t{\tMoneyBalance\t\tS32\t}",
   chars! "\t\t{\tSquareMetersCredit\tS32\t}",
   chars! "\t\t{\tSquareMetersCommitted\tS32\t}",
   chars! "\t\t{\tDescription\t\t\tVariable 1\t}\t// string",
   chars! "\t}",
   chars! "}"]

/-- `MoneyBalanceReply` as the parser creates it. -/
def r356 : RawTemplate :=
  ⟨"MoneyBalanceReply", .low, 314, [255, 255, 58], some .trusted, some .zerocoded, some .notDeprecated,
    [⟨"MoneyData", .single, 0, [⟨"Description", some .variable, some 1⟩, ⟨"SquareMetersCommitted", some .s32, some 4⟩, ⟨"SquareMetersCredit", some .s32, some 4⟩, ⟨"MoneyBalance", some .s32, some 4⟩, ⟨"TransactionSuccess", some .bool, some 1⟩, ⟨"TransactionID", some .uuid, some 16⟩, ⟨"AgentID", some .uuid, some 16⟩]⟩]⟩

/-- `MoneyBalanceReply` in file order. -/
def t356 : Template :=
  ⟨"MoneyBalanceReply", .low, 314, [], some .trusted, some .zerocoded, some .notDeprecated,
    [⟨"MoneyData", .single, 0, [⟨"AgentID", .uuid, 16⟩, ⟨"TransactionID", .uuid, 16⟩, ⟨"TransactionSuccess", .bool, 1⟩, ⟨"MoneyBalance", .s32, 4⟩, ⟨"SquareMetersCredit", .s32, 4⟩, ⟨"SquareMetersCommitted", .s32, 4⟩, ⟨"Description", .variable, 1⟩]⟩]⟩

theorem p356 : ChunkOk c356 r356 := by intro v older; kernel_rfl
theorem k356 : r356.known = some t356 := by kernel_rfl
theorem n356 : t356.name = String.ofList ['M', 'o', 'n', 'e', 'y', 'B', 'a', 'l', 'a', 'n', 'c', 'e', 'R', 'e', 'p', 'l', 'y'] := by kernel_rfl

/-- The names of the blocks and variables of `MoneyBalanceReply`. -/
def b356 : List (List Char × List (List Char)) :=
  [(['M', 'o', 'n', 'e', 'y', 'D', 'a', 't', 'a'], [['A', 'g', 'e', 'n', 't', 'I', 'D'], ['T', 'r', 'a', 'n', 's', 'a', 'c', 't', 'i', 'o', 'n', 'I', 'D'], ['T', 'r', 'a', 'n', 's', 'a', 'c', 't', 'i', 'o', 'n', 'S', 'u', 'c', 'c', 'e', 's', 's'], ['M', 'o', 'n', 'e', 'y', 'B', 'a', 'l', 'a', 'n', 'c', 'e'], ['S', 'q', 'u', 'a', 'r', 'e', 'M', 'e', 't', 'e', 'r', 's', 'C', 'r', 'e', 'd', 'i', 't'], ['S', 'q', 'u', 'a', 'r', 'e', 'M', 'e', 't', 'e', 'r', 's', 'C', 'o', 'm', 'm', 'i', 't', 't', 'e', 'd'], ['D', 'e', 's', 'c', 'r', 'i', 'p', 't', 'i', 'o', 'n']])]

theorem w356 : Checked t356 := ⟨b356, by kernel_rfl, by kernel_rfl, by kernel_rfl⟩

/-- Lines of `message_template.msg` up to the end of `RoutedMoneyBalanceReply`. -/
def c357 : List (List Char) :=
  [chars! "",
   chars! "",
   chars! "// RoutedMoneyBalanceReply",
   chars! "// This message is used when a dataserver needs to send updated",
   chars! "// money balance information to a simulator other than the one it",
   chars! "// is connected to.  It uses the standard TransferBlock format.",
   chars! "// dataserver -> simulator -> spaceserver -> simulator -> viewer",
   chars! "// reliable",
   chars! "{",
   chars! "\tRoutedMoneyBalanceReply Low 315 Trusted Zerocoded",
   chars! "\t{",
   chars! "\t\tTargetBlock\t\t\tSingle",
   chars! "\t\t{\tTargetIP\t\tIPADDR\t}\t// U32 encoded IP",
   chars! "\t\t{\tTargetPort\t\tIPPORT\t}",
   chars! "\t}",
   chars! "\t{",
   chars! "\t\tMoneyData\t\t\tSingle",
   chars! "\t\t{\tAgentID\t\t\t\tLLUUID  }",
   chars! "\t\t{\tTransactionID\t\tLLUUID\t}",
   chars! "\t\t{\tTransactionSuccess\tBOOL\t}\t// BOOL",
   chars! "\t\t{\tMoneyBalance\t\tS32\t}",
   chars! "\t\t{\tSquareMetersCredit\tS32\t}",
   chars! "\t\t{\tSquareMetersCommitted\tS32\t}",
   chars! "\t\t{\tDescription\t\t\tVariable 1\t}\t// string",
   chars! "\t}",
   chars! "}"]

/-- `RoutedMoneyBalanceReply` as the parser creates it. -/
def r357 : RawTemplate :=
  ⟨"RoutedMoneyBalanceReply", .low, 315, [255, 255, 59], some .trusted, some .zerocoded, some .notDeprecated,
    [⟨"MoneyData", .single, 0, [⟨"Description", some .variable, some 1⟩, ⟨"SquareMetersCommitted", some .s32, some 4⟩, ⟨"SquareMetersCredit", some .s32, some 4⟩, ⟨"MoneyBalance", some .s32, some 4⟩, ⟨"TransactionSuccess", some .bool, some 1⟩, ⟨"TransactionID", some .uuid, some 16⟩, ⟨"AgentID", some .uuid, some 16⟩]⟩,
     ⟨"TargetBlock", .single, 0, [⟨"TargetPort", some .ipport, some 2⟩, ⟨"TargetIP", some .ipaddr, some 4⟩]⟩]⟩

/-- `RoutedMoneyBalanceReply` in file order. -/
def t357 : Template :=
  ⟨"RoutedMoneyBalanceReply", .low, 315, [], some .trusted, some .zerocoded, some .notDeprecated,
    [⟨"TargetBlock", .single, 0, [⟨"TargetIP", .ipaddr, 4⟩, ⟨"TargetPort", .ipport, 2⟩]⟩,
     ⟨"MoneyData", .single, 0, [⟨"AgentID", .uuid, 16⟩, ⟨"TransactionID", .uuid, 16⟩, ⟨"TransactionSuccess", .bool, 1⟩, ⟨"MoneyBalance", .s32, 4⟩, ⟨"SquareMetersCredit", .s32, 4⟩, ⟨"SquareMetersCommitted", .s32, 4⟩, ⟨"Description", .variable, 1⟩]⟩]⟩

theorem p357 : ChunkOk c357 r357 := by intro v older; kernel_rfl
theorem k357 : r357.known = some t357 := by kernel_rfl
theorem n357 : t357.name = String.ofList ['R', 'o', 'u', 't', 'e', 'd', 'M', 'o', 'n', 'e', 'y', 'B', 'a', 'l', 'a', 'n', 'c', 'e', 'R', 'e', 'p', 'l', 'y'] := by kernel_rfl

/-- The names of the blocks and variables of `RoutedMoneyBalanceReply`. -/
def b357 : List (List Char × List (List Char)) :=
  [(['T', 'a', 'r', 'g', 'e', 't', 'B', 'l', 'o', 'c', 'k'], [['T', 'a', 'r', 'g', 'e', 't', 'I', 'P'], ['T', 'a', 'r', 'g', 'e', 't', 'P', 'o', 'r', 't']]),
   (['M', 'o', 'n', 'e', 'y', 'D', 'a', 't', 'a'], [['A', 'g', 'e', 'n', 't', 'I', 'D'], ['T', 'r', 'a', 'n', 's', 'a', 'c', 't', 'i', 'o', 'n', 'I', 'D'], ['T', 'r', 'a', 'n', 's', 'a', 'c', 't', 'i', 'o', 'n', 'S', 'u', 'c', 'c', 'e', 's', 's'], ['M', 'o', 'n', 'e', 'y', 'B', 'a', 'l', 'a', 'n', 'c', 'e'], ['S', 'q', 'u', 'a', 'r', 'e', 'M', 'e', 't', 'e', 'r', 's', 'C', 'r', 'e', 'd', 'i', 't'], ['S', 'q', 'u', 'a', 'r', 'e', 'M', 'e', 't', 'e', 'r', 's', 'C', 'o', 'm', 'm', 'i', 't', 't', 'e', 'd'], ['D', 'e', 's', 'c', 'r', 'i', 'p', 't', 'i', 'o', 'n']])]

theorem w357 : Checked t357 := ⟨b357, by kernel_rfl, by kernel_rfl, by kernel_rfl⟩

/-- Lines of `message_template.msg` up to the end of `ActivateGestures`. -/
def c358 : List (List Char) :=
  [chars! "",
   chars! "",
   chars! "",
   chars! "//---------------------------------------------------------------------------",
   chars! "// Gesture saves/loads",
   chars! "//---------------------------------------------------------------------------",
   chars! "",
   chars! "",
   chars! "// Tell the database that some gestures are now active",
   chars! "// viewer -> sim -> data",
   chars! "{",
   chars! "\tActivateGestures\tLow\t316 \tNotTrusted\tUnencoded",
   chars! "\t{",
   chars! "\t\tAgentData\t\tSingle",
   chars! "\t\t{\tAgentID\t\t\tLLUUID\t}",
   chars! "\t\t{\tSessionID\t\tLLUUID\t}",
   chars! "\t\t{\tFlags\t\t\tU32\t\t}",
   chars! "\t}",
   chars! "\t{",
   chars! "\t\tData\t\t\tVariable",
   chars! "\t\t{\tItemID\t\t\tLLUUID\t}",
   chars! "\t\t{\tAssetID\t\t\tLLUUID\t}",
   chars! "\t\t{\tGestureFlags\tU32\t\t}",
   chars! "\t}",
   chars! "}"]

/-- `ActivateGestures` as the parser creates it. -/
def r358 : RawTemplate :=
  ⟨"ActivateGestures", .low, 316, [255, 255, 60], some .notTrusted, some .unencoded, some .notDeprecated,
    [⟨"Data", .variable, 0, [⟨"GestureFlags", some .u32, some 4⟩, ⟨"AssetID", some .uuid, some 16⟩, ⟨"ItemID", some .uuid, some 16⟩]⟩,
     ⟨"AgentData", .single, 0, [⟨"Flags", some .u32, some 4⟩, ⟨"SessionID", some .uuid, some 16⟩, ⟨"AgentID", some .uuid, some 16⟩]⟩]⟩

/-- `ActivateGestures` in file order. -/
def t358 : Template :=
  ⟨"ActivateGestures", .low, 316, [], some .notTrusted, some .unencoded, some .notDeprecated,
    [⟨"AgentData", .single, 0, [⟨"AgentID", .uuid, 16⟩, ⟨"SessionID", .uuid, 16⟩, ⟨"Flags", .u32, 4⟩]⟩,
     ⟨"Data", .variable, 0, [⟨"ItemID", .uuid, 16⟩, ⟨"AssetID", .uuid, 16⟩, ⟨"GestureFlags", .u32, 4⟩]⟩]⟩

theorem p358 : ChunkOk c358 r358 := by intro v older; kernel_rfl
theorem k358 : r358.known = some t358 := by kernel_rfl
theorem n358 : t358.name = String.ofList ['A', 'c', 't', 'i', 'v', 'a', 't', 'e', 'G', 'e', 's', 't', 'u', 'r', 'e', 's'] := by kernel_rfl

/-- The names of the blocks and variables of `ActivateGestures`. -/
def b358 : List (List Char × List (List Char)) :=
  [(['A', 'g', 'e', 'n', 't', 'D', 'a', 't', 'a'], [['A', 'g', 'e', 'n', 't', 'I', 'D'], ['S', 'e', 's', 's', 'i', 'o', 'n', 'I', 'D'], ['F', 'l', 'a', 'g', 's']]),
   (['D', 'a', 't', 'a'], [['I', 't', 'e', 'm', 'I', 'D'], ['A', 's', 's', 'e', 't', 'I', 'D'], ['G', 'e', 's', 't', 'u', 'r', 'e', 'F', 'l', 'a', 'g', 's']])]

theorem w358 : Checked t358 := ⟨b358, by kernel_rfl, by kernel_rfl, by kernel_rfl⟩

/-- Lines of `message_template.msg` up to the end of `DeactivateGestures`. -/
def c359 : List (List Char) :=
  [chars! "",
   chars! "// Tell the database some gestures are no longer active",
   chars! "// viewer -> sim -> data",
   chars! "{",
   chars! "\tDeactivateGestures\tLow\t317 \tNotTrusted\tUnencoded",
   chars! "\t{",
   chars! "\t\tAgentData\t\tSingle",
   chars! "\t\t{\tAgentID\t\t\tLLUUID\t}",
   chars! "\t\t{\tSessionID\t\tLLUUID\t}",
   chars! "\t\t{\tFlags\t\t\tU32\t\t}",
   chars! "\t}",
   chars! "\t{",
   chars! "\t\tData\t\t\tVariable",
   chars! "\t\t{\tItemID\t\t\tLLUUID\t}",
   chars! "\t\t{\tGestureFlags\tU32\t\t}",
   chars! "\t}",
   chars! "}"]

/-- `DeactivateGestures` as the parser creates it. -/
def r359 : RawTemplate :=
  ⟨"DeactivateGestures", .low, 317, [255, 255, 61], some .notTrusted, some .unencoded, some .notDeprecated,
    [⟨"Data", .variable, 0, [⟨"GestureFlags", some .u32, some 4⟩, ⟨"ItemID", some .uuid, some 16⟩]⟩,
     ⟨"AgentData", .single, 0, [⟨"Flags", some .u32, some 4⟩, ⟨"SessionID", some .uuid, some 16⟩, ⟨"AgentID", some .uuid, some 16⟩]⟩]⟩

/-- `DeactivateGestures` in file order. -/
def t359 : Template :=
  ⟨"DeactivateGestures", .low, 317, [], some .notTrusted, some .unencoded, some .notDeprecated,
    [⟨"AgentData", .single, 0, [⟨"AgentID", .uuid, 16⟩, ⟨"SessionID", .uuid, 16⟩, ⟨"Flags", .u32, 4⟩]⟩,
     ⟨"Data", .variable, 0, [⟨"ItemID", .uuid, 16⟩, ⟨"GestureFlags", .u32, 4⟩]⟩]⟩

theorem p359 : ChunkOk c359 r359 := by intro v older; kernel_rfl
theorem k359 : r359.known = some t359 := by kernel_rfl
theorem n359 : t359.name = String.ofList ['D', 'e', 'a', 'c', 't', 'i', 'v', 'a', 't', 'e', 'G', 'e', 's', 't', 'u', 'r', 'e', 's'] := by kernel_rfl

/-- The names of the blocks and variables of `DeactivateGestures`. -/
def b359 : List (List Char × List (List Char)) :=
  [(['A', 'g', 'e', 'n', 't', 'D', 'a', 't', 'a'], [['A', 'g', 'e', 'n', 't', 'I', 'D'], ['S', 'e', 's', 's', 'i', 'o', 'n', 'I', 'D'], ['F', 'l', 'a', 'g', 's']]),
   (['D', 'a', 't', 'a'], [['I', 't', 'e', 'm', 'I', 'D'], ['G', 'e', 's', 't', 'u', 'r', 'e', 'F', 'l', 'a', 'g', 's']])]

theorem w359 : Checked t359 := ⟨b359, by kernel_rfl, by kernel_rfl, by kernel_rfl⟩

/-- Part 6 of the file. -/
def lines6 : List (List (List Char)) := [c300, c301, c302, c303, c304, c305, c306, c307, c308, c309, c310, c311, c312, c313, c314, c315, c316, c317, c318, c319, c320, c321, c322, c323, c324, c325, c326, c327, c328, c329, c330, c331, c332, c333, c334, c335, c336, c337, c338, c339, c340, c341, c342, c343, c344, c345, c346, c347, c348, c349, c350, c351, c352, c353, c354, c355, c356, c357, c358, c359]

/-- Part 6 of the templates, as parsed. -/
def raws6 : List RawTemplate := [r300, r301, r302, r303, r304, r305, r306, r307, r308, r309, r310, r311, r312, r313, r314, r315, r316, r317, r318, r319, r320, r321, r322, r323, r324, r325, r326, r327, r328, r329, r330, r331, r332, r333, r334, r335, r336, r337, r338, r339, r340, r341, r342, r343, r344, r345, r346, r347, r348, r349, r350, r351, r352, r353, r354, r355, r356, r357, r358, r359]

/-- Part 6 of the templates. -/
def templates6 : List Template := [t300, t301, t302, t303, t304, t305, t306, t307, t308, t309, t310, t311, t312, t313, t314, t315, t316, t317, t318, t319, t320, t321, t322, t323, t324, t325, t326, t327, t328, t329, t330, t331, t332, t333, t334, t335, t336, t337, t338, t339, t340, t341, t342, t343, t344, t345, t346, t347, t348, t349, t350, t351, t352, t353, t354, t355, t356, t357, t358, t359]

/-- The names in part 6. -/
def names6 : List (List Char) :=
  [['G', 'r', 'a', 'n', 't', 'G', 'o', 'd', 'l', 'i', 'k', 'e', 'P', 'o', 'w', 'e', 'r', 's'],
   ['G', 'o', 'd', 'l', 'i', 'k', 'e', 'M', 'e', 's', 's', 'a', 'g', 'e'],
   ['E', 's', 't', 'a', 't', 'e', 'O', 'w', 'n', 'e', 'r', 'M', 'e', 's', 's', 'a', 'g', 'e'],
   ['G', 'e', 'n', 'e', 'r', 'i', 'c', 'M', 'e', 's', 's', 'a', 'g', 'e'],
   ['M', 'u', 't', 'e', 'L', 'i', 's', 't', 'R', 'e', 'q', 'u', 'e', 's', 't'],
   ['U', 'p', 'd', 'a', 't', 'e', 'M', 'u', 't', 'e', 'L', 'i', 's', 't', 'E', 'n', 't', 'r', 'y'],
   ['R', 'e', 'm', 'o', 'v', 'e', 'M', 'u', 't', 'e', 'L', 'i', 's', 't', 'E', 'n', 't', 'r', 'y'],
   ['C', 'o', 'p', 'y', 'I', 'n', 'v', 'e', 'n', 't', 'o', 'r', 'y', 'F', 'r', 'o', 'm', 'N', 'o', 't', 'e', 'c', 'a', 'r', 'd'],
   ['U', 'p', 'd', 'a', 't', 'e', 'I', 'n', 'v', 'e', 'n', 't', 'o', 'r', 'y', 'I', 't', 'e', 'm'],
   ['U', 'p', 'd', 'a', 't', 'e', 'C', 'r', 'e', 'a', 't', 'e', 'I', 'n', 'v', 'e', 'n', 't', 'o', 'r', 'y', 'I', 't', 'e', 'm'],
   ['M', 'o', 'v', 'e', 'I', 'n', 'v', 'e', 'n', 't', 'o', 'r', 'y', 'I', 't', 'e', 'm'],
   ['C', 'o', 'p', 'y', 'I', 'n', 'v', 'e', 'n', 't', 'o', 'r', 'y', 'I', 't', 'e', 'm'],
   ['R', 'e', 'm', 'o', 'v', 'e', 'I', 'n', 'v', 'e', 'n', 't', 'o', 'r', 'y', 'I', 't', 'e', 'm'],
   ['C', 'h', 'a', 'n', 'g', 'e', 'I', 'n', 'v', 'e', 'n', 't', 'o', 'r', 'y', 'I', 't', 'e', 'm', 'F', 'l', 'a', 'g', 's'],
   ['S', 'a', 'v', 'e', 'A', 's', 's', 'e', 't', 'I', 'n', 't', 'o', 'I', 'n', 'v', 'e', 'n', 't', 'o', 'r', 'y'],
   ['C', 'r', 'e', 'a', 't', 'e', 'I', 'n', 'v', 'e', 'n', 't', 'o', 'r', 'y', 'F', 'o', 'l', 'd', 'e', 'r'],
   ['U', 'p', 'd', 'a', 't', 'e', 'I', 'n', 'v', 'e', 'n', 't', 'o', 'r', 'y', 'F', 'o', 'l', 'd', 'e', 'r'],
   ['M', 'o', 'v', 'e', 'I', 'n', 'v', 'e', 'n', 't', 'o', 'r', 'y', 'F', 'o', 'l', 'd', 'e', 'r'],
   ['R', 'e', 'm', 'o', 'v', 'e', 'I', 'n', 'v', 'e', 'n', 't', 'o', 'r', 'y', 'F', 'o', 'l', 'd', 'e', 'r'],
   ['F', 'e', 't', 'c', 'h', 'I', 'n', 'v', 'e', 'n', 't', 'o', 'r', 'y', 'D', 'e', 's', 'c', 'e', 'n', 'd', 'e', 'n', 't', 's'],
   ['I', 'n', 'v', 'e', 'n', 't', 'o', 'r', 'y', 'D', 'e', 's', 'c', 'e', 'n', 'd', 'e', 'n', 't', 's'],
   ['F', 'e', 't', 'c', 'h', 'I', 'n', 'v', 'e', 'n', 't', 'o', 'r', 'y'],
   ['F', 'e', 't', 'c', 'h', 'I', 'n', 'v', 'e', 'n', 't', 'o', 'r', 'y', 'R', 'e', 'p', 'l', 'y'],
   ['B', 'u', 'l', 'k', 'U', 'p', 'd', 'a', 't', 'e', 'I', 'n', 'v', 'e', 'n', 't', 'o', 'r', 'y'],
   ['R', 'e', 'q', 'u', 'e', 's', 't', 'I', 'n', 'v', 'e', 'n', 't', 'o', 'r', 'y', 'A', 's', 's', 'e', 't'],
   ['I', 'n', 'v', 'e', 'n', 't', 'o', 'r', 'y', 'A', 's', 's', 'e', 't', 'R', 'e', 's', 'p', 'o', 'n', 's', 'e'],
   ['R', 'e', 'm', 'o', 'v', 'e', 'I', 'n', 'v', 'e', 'n', 't', 'o', 'r', 'y', 'O', 'b', 'j', 'e', 'c', 't', 's'],
   ['P', 'u', 'r', 'g', 'e', 'I', 'n', 'v', 'e', 'n', 't', 'o', 'r', 'y', 'D', 'e', 's', 'c', 'e', 'n', 'd', 'e', 'n', 't', 's'],
   ['U', 'p', 'd', 'a', 't', 'e', 'T', 'a', 's', 'k', 'I', 'n', 'v', 'e', 'n', 't', 'o', 'r', 'y'],
   ['R', 'e', 'm', 'o', 'v', 'e', 'T', 'a', 's', 'k', 'I', 'n', 'v', 'e', 'n', 't', 'o', 'r', 'y'],
   ['M', 'o', 'v', 'e', 'T', 'a', 's', 'k', 'I', 'n', 'v', 'e', 'n', 't', 'o', 'r', 'y'],
   ['R', 'e', 'q', 'u', 'e', 's', 't', 'T', 'a', 's', 'k', 'I', 'n', 'v', 'e', 'n', 't', 'o', 'r', 'y'],
   ['R', 'e', 'p', 'l', 'y', 'T', 'a', 's', 'k', 'I', 'n', 'v', 'e', 'n', 't', 'o', 'r', 'y'],
   ['D', 'e', 'R', 'e', 'z', 'O', 'b', 'j', 'e', 'c', 't'],
   ['D', 'e', 'R', 'e', 'z', 'A', 'c', 'k'],
   ['R', 'e', 'z', 'O', 'b', 'j', 'e', 'c', 't'],
   ['R', 'e', 'z', 'O', 'b', 'j', 'e', 'c', 't', 'F', 'r', 'o', 'm', 'N', 'o', 't', 'e', 'c', 'a', 'r', 'd'],
   ['T', 'r', 'a', 'n', 's', 'f', 'e', 'r', 'I', 'n', 'v', 'e', 'n', 't', 'o', 'r', 'y'],
   ['T', 'r', 'a', 'n', 's', 'f', 'e', 'r', 'I', 'n', 'v', 'e', 'n', 't', 'o', 'r', 'y', 'A', 'c', 'k'],
   ['A', 'c', 'c', 'e', 'p', 't', 'F', 'r', 'i', 'e', 'n', 'd', 's', 'h', 'i', 'p'],
   ['D', 'e', 'c', 'l', 'i', 'n', 'e', 'F', 'r', 'i', 'e', 'n', 'd', 's', 'h', 'i', 'p'],
   ['F', 'o', 'r', 'm', 'F', 'r', 'i', 'e', 'n', 'd', 's', 'h', 'i', 'p'],
   ['T', 'e', 'r', 'm', 'i', 'n', 'a', 't', 'e', 'F', 'r', 'i', 'e', 'n', 'd', 's', 'h', 'i', 'p'],
   ['O', 'f', 'f', 'e', 'r', 'C', 'a', 'l', 'l', 'i', 'n', 'g', 'C', 'a', 'r', 'd'],
   ['A', 'c', 'c', 'e', 'p', 't', 'C', 'a', 'l', 'l', 'i', 'n', 'g', 'C', 'a', 'r', 'd'],
   ['D', 'e', 'c', 'l', 'i', 'n', 'e', 'C', 'a', 'l', 'l', 'i', 'n', 'g', 'C', 'a', 'r', 'd'],
   ['R', 'e', 'z', 'S', 'c', 'r', 'i', 'p', 't'],
   ['C', 'r', 'e', 'a', 't', 'e', 'I', 'n', 'v', 'e', 'n', 't', 'o', 'r', 'y', 'I', 't', 'e', 'm'],
   ['C', 'r', 'e', 'a', 't', 'e', 'L', 'a', 'n', 'd', 'm', 'a', 'r', 'k', 'F', 'o', 'r', 'E', 'v', 'e', 'n', 't'],
   ['E', 'v', 'e', 'n', 't', 'L', 'o', 'c', 'a', 't', 'i', 'o', 'n', 'R', 'e', 'q', 'u', 'e', 's', 't'],
   ['E', 'v', 'e', 'n', 't', 'L', 'o', 'c', 'a', 't', 'i', 'o', 'n', 'R', 'e', 'p', 'l', 'y'],
   ['R', 'e', 'g', 'i', 'o', 'n', 'H', 'a', 'n', 'd', 'l', 'e', 'R', 'e', 'q', 'u', 'e', 's', 't'],
   ['R', 'e', 'g', 'i', 'o', 'n', 'I', 'D', 'A', 'n', 'd', 'H', 'a', 'n', 'd', 'l', 'e', 'R', 'e', 'p', 'l', 'y'],
   ['M', 'o', 'n', 'e', 'y', 'T', 'r', 'a', 'n', 's', 'f', 'e', 'r', 'R', 'e', 'q', 'u', 'e', 's', 't'],
   ['M', 'o', 'n', 'e', 'y', 'T', 'r', 'a', 'n', 's', 'f', 'e', 'r', 'B', 'a', 'c', 'k', 'e', 'n', 'd'],
   ['M', 'o', 'n', 'e', 'y', 'B', 'a', 'l', 'a', 'n', 'c', 'e', 'R', 'e', 'q', 'u', 'e', 's', 't'],
   ['M', 'o', 'n', 'e', 'y', 'B', 'a', 'l', 'a', 'n', 'c', 'e', 'R', 'e', 'p', 'l', 'y'],
   ['R', 'o', 'u', 't', 'e', 'd', 'M', 'o', 'n', 'e', 'y', 'B', 'a', 'l', 'a', 'n', 'c', 'e', 'R', 'e', 'p', 'l', 'y'],
   ['A', 'c', 't', 'i', 'v', 'a', 't', 'e', 'G', 'e', 's', 't', 'u', 'r', 'e', 's'],
   ['D', 'e', 'a', 'c', 't', 'i', 'v', 'a', 't', 'e', 'G', 'e', 's', 't', 'u', 'r', 'e', 's']]

theorem parsed6 : List.Forall₂ ChunkOk lines6 raws6 :=
  (.cons p300 (.cons p301 (.cons p302 (.cons p303 (.cons p304 (.cons p305 (.cons p306 (.cons p307 (.cons p308 (.cons p309 (.cons p310 (.cons p311 (.cons p312 (.cons p313 (.cons p314 (.cons p315 (.cons p316 (.cons p317 (.cons p318 (.cons p319 (.cons p320 (.cons p321 (.cons p322 (.cons p323 (.cons p324 (.cons p325 (.cons p326 (.cons p327 (.cons p328 (.cons p329 (.cons p330 (.cons p331 (.cons p332 (.cons p333 (.cons p334 (.cons p335 (.cons p336 (.cons p337 (.cons p338 (.cons p339 (.cons p340 (.cons p341 (.cons p342 (.cons p343 (.cons p344 (.cons p345 (.cons p346 (.cons p347 (.cons p348 (.cons p349 (.cons p350 (.cons p351 (.cons p352 (.cons p353 (.cons p354 (.cons p355 (.cons p356 (.cons p357 (.cons p358 (.cons p359 .nil))))))))))))))))))))))))))))))))))))))))))))))))))))))))))))

theorem known6 : List.Forall₂ (fun r t => RawTemplate.known r = some t) raws6 templates6 :=
  (.cons k300 (.cons k301 (.cons k302 (.cons k303 (.cons k304 (.cons k305 (.cons k306 (.cons k307 (.cons k308 (.cons k309 (.cons k310 (.cons k311 (.cons k312 (.cons k313 (.cons k314 (.cons k315 (.cons k316 (.cons k317 (.cons k318 (.cons k319 (.cons k320 (.cons k321 (.cons k322 (.cons k323 (.cons k324 (.cons k325 (.cons k326 (.cons k327 (.cons k328 (.cons k329 (.cons k330 (.cons k331 (.cons k332 (.cons k333 (.cons k334 (.cons k335 (.cons k336 (.cons k337 (.cons k338 (.cons k339 (.cons k340 (.cons k341 (.cons k342 (.cons k343 (.cons k344 (.cons k345 (.cons k346 (.cons k347 (.cons k348 (.cons k349 (.cons k350 (.cons k351 (.cons k352 (.cons k353 (.cons k354 (.cons k355 (.cons k356 (.cons k357 (.cons k358 (.cons k359 .nil))))))))))))))))))))))))))))))))))))))))))))))))))))))))))))

theorem named6 : List.Forall₂ (fun (t : Template) w => t.name = String.ofList w) templates6 names6 :=
  (.cons n300 (.cons n301 (.cons n302 (.cons n303 (.cons n304 (.cons n305 (.cons n306 (.cons n307 (.cons n308 (.cons n309 (.cons n310 (.cons n311 (.cons n312 (.cons n313 (.cons n314 (.cons n315 (.cons n316 (.cons n317 (.cons n318 (.cons n319 (.cons n320 (.cons n321 (.cons n322 (.cons n323 (.cons n324 (.cons n325 (.cons n326 (.cons n327 (.cons n328 (.cons n329 (.cons n330 (.cons n331 (.cons n332 (.cons n333 (.cons n334 (.cons n335 (.cons n336 (.cons n337 (.cons n338 (.cons n339 (.cons n340 (.cons n341 (.cons n342 (.cons n343 (.cons n344 (.cons n345 (.cons n346 (.cons n347 (.cons n348 (.cons n349 (.cons n350 (.cons n351 (.cons n352 (.cons n353 (.cons n354 (.cons n355 (.cons n356 (.cons n357 (.cons n358 (.cons n359 .nil))))))))))))))))))))))))))))))))))))))))))))))))))))))))))))

theorem checked6 : ∀ t ∈ templates6, Checked t :=
  (List.forall_mem_cons.mpr ⟨w300, (List.forall_mem_cons.mpr ⟨w301, (List.forall_mem_cons.mpr ⟨w302, (List.forall_mem_cons.mpr ⟨w303, (List.forall_mem_cons.mpr ⟨w304, (List.forall_mem_cons.mpr ⟨w305, (List.forall_mem_cons.mpr ⟨w306, (List.forall_mem_cons.mpr ⟨w307, (List.forall_mem_cons.mpr ⟨w308, (List.forall_mem_cons.mpr ⟨w309, (List.forall_mem_cons.mpr ⟨w310, (List.forall_mem_cons.mpr ⟨w311, (List.forall_mem_cons.mpr ⟨w312, (List.forall_mem_cons.mpr ⟨w313, (List.forall_mem_cons.mpr ⟨w314, (List.forall_mem_cons.mpr ⟨w315, (List.forall_mem_cons.mpr ⟨w316, (List.forall_mem_cons.mpr ⟨w317, (List.forall_mem_cons.mpr ⟨w318, (List.forall_mem_cons.mpr ⟨w319, (List.forall_mem_cons.mpr ⟨w320, (List.forall_mem_cons.mpr ⟨w321, (List.forall_mem_cons.mpr ⟨w322, (List.forall_mem_cons.mpr ⟨w323, (List.forall_mem_cons.mpr ⟨w324, (List.forall_mem_cons.mpr ⟨w325, (List.forall_mem_cons.mpr ⟨w326, (List.forall_mem_cons.mpr ⟨w327, (List.forall_mem_cons.mpr ⟨w328, (List.forall_mem_cons.mpr ⟨w329, (List.forall_mem_cons.mpr ⟨w330, (List.forall_mem_cons.mpr ⟨w331, (List.forall_mem_cons.mpr ⟨w332, (List.forall_mem_cons.mpr ⟨w333, (List.forall_mem_cons.mpr ⟨w334, (List.forall_mem_cons.mpr ⟨w335, (List.forall_mem_cons.mpr ⟨w336, (List.forall_mem_cons.mpr ⟨w337, (List.forall_mem_cons.mpr ⟨w338, (List.forall_mem_cons.mpr ⟨w339, (List.forall_mem_cons.mpr ⟨w340, (List.forall_mem_cons.mpr ⟨w341, (List.forall_mem_cons.mpr ⟨w342, (List.forall_mem_cons.mpr ⟨w343, (List.forall_mem_cons.mpr ⟨w344, (List.forall_mem_cons.mpr ⟨w345, (List.forall_mem_cons.mpr ⟨w346, (List.forall_mem_cons.mpr ⟨w347, (List.forall_mem_cons.mpr ⟨w348, (List.forall_mem_cons.mpr ⟨w349, (List.forall_mem_cons.mpr ⟨w350, (List.forall_mem_cons.mpr ⟨w351, (List.forall_mem_cons.mpr ⟨w352, (List.forall_mem_cons.mpr ⟨w353, (List.forall_mem_cons.mpr ⟨w354, (List.forall_mem_cons.mpr ⟨w355, (List.forall_mem_cons.mpr ⟨w356, (List.forall_mem_cons.mpr ⟨w357, (List.forall_mem_cons.mpr ⟨w358, (List.forall_mem_cons.mpr ⟨w359, (List.forall_mem_nil _)⟩)⟩)⟩)⟩)⟩)⟩)⟩)⟩)⟩)⟩)⟩)⟩)⟩)⟩)⟩)⟩)⟩)⟩)⟩)⟩)⟩)⟩)⟩)⟩)⟩)⟩)⟩)⟩)⟩)⟩)⟩)⟩)⟩)⟩)⟩)⟩)⟩)⟩)⟩)⟩)⟩)⟩)⟩)⟩)⟩)⟩)⟩)⟩)⟩)⟩)⟩)⟩)⟩)⟩)⟩)⟩)⟩)⟩)⟩)⟩)

end Pyogp.Embedded
