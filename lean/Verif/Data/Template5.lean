import Verif.Data.Chars

/-! Generated by `tools/gen_template.py` from `message/data/message_template.msg`: part 5. -/

namespace Pyogp.Embedded


/-- Lines of `message_template.msg` up to the end of `EstateCovenantReply`. -/
def c240 : List (List Char) :=
  [chars! "",
   chars! "// EstateCovenantReply",
   chars! "// sim -> viewer",
   chars! "// reliable",
   chars! "{",
   chars! "    EstateCovenantReply Low 204 Trusted Unencoded",
   chars! "\t{",
   chars! "\t\tData        Single",
   chars! "\t\t{\tCovenantID\t\t    LLUUID\t\t    }",
   chars! "\t\t{\tCovenantTimestamp\tU32 \t\t    }",
   chars! "\t\t{\tEstateName\t\t    Variable    1\t}   // string",
   chars! "        {   EstateOwnerID       LLUUID          }",
   chars! "    }",
   chars! "}"]

/-- `EstateCovenantReply` as the parser creates it. -/
def r240 : RawTemplate :=
  ⟨"EstateCovenantReply", .low, 204, [255, 255, 204], some .trusted, some .unencoded, some .notDeprecated,
    [⟨"Data", .single, 0, [⟨"EstateOwnerID", some .uuid, some 16⟩, ⟨"EstateName", some .variable, some 1⟩, ⟨"CovenantTimestamp", some .u32, some 4⟩, ⟨"CovenantID", some .uuid, some 16⟩]⟩]⟩

/-- `EstateCovenantReply` in file order. -/
def t240 : Template :=
  ⟨"EstateCovenantReply", .low, 204, [], some .trusted, some .unencoded, some .notDeprecated,
    [⟨"Data", .single, 0, [⟨"CovenantID", .uuid, 16⟩, ⟨"CovenantTimestamp", .u32, 4⟩, ⟨"EstateName", .variable, 1⟩, ⟨"EstateOwnerID", .uuid, 16⟩]⟩]⟩

theorem p240 : ChunkOk c240 r240 := by intro v older; kernel_rfl
theorem k240 : r240.known = some t240 := by kernel_rfl
theorem n240 : t240.name = String.ofList ['E', 's', 't', 'a', 't', 'e', 'C', 'o', 'v', 'e', 'n', 'a', 'n', 't', 'R', 'e', 'p', 'l', 'y'] := by kernel_rfl

/-- The names of the blocks and variables of `EstateCovenantReply`. -/
def b240 : List (List Char × List (List Char)) :=
  [(['D', 'a', 't', 'a'], [['C', 'o', 'v', 'e', 'n', 'a', 'n', 't', 'I', 'D'], ['C', 'o', 'v', 'e', 'n', 'a', 'n', 't', 'T', 'i', 'm', 'e', 's', 't', 'a', 'm', 'p'], ['E', 's', 't', 'a', 't', 'e', 'N', 'a', 'm', 'e'], ['E', 's', 't', 'a', 't', 'e', 'O', 'w', 'n', 'e', 'r', 'I', 'D']])]

theorem w240 : Checked t240 := ⟨b240, by kernel_rfl, by kernel_rfl, by kernel_rfl⟩

/-- Lines of `message_template.msg` up to the end of `ForceObjectSelect`. -/
def c241 : List (List Char) :=
  [chars! "",
   chars! "",
   chars! "// ForceObjectSelect",
   chars! "// sim -> viewer",
   chars! "// reliable",
   chars! "{",
   chars! "\tForceObjectSelect Low 205 Trusted Unencoded",
   chars! "\t{",
   chars! "\t\tHeader\t\t\t\tSingle",
   chars! "\t\t{\tResetList\t\tBOOL\t\t\t}",
   chars! "\t}",
   chars! "\t{",
   chars! "\t\tData\t\t\t\tVariable",
   chars! "\t\t{\tLocalID\t\t\tU32\t\t\t\t}",
   chars! "\t}",
   chars! "}"]

/-- `ForceObjectSelect` as the parser creates it. -/
def r241 : RawTemplate :=
  ⟨"ForceObjectSelect", .low, 205, [255, 255, 205], some .trusted, some .unencoded, some .notDeprecated,
    [⟨"Data", .variable, 0, [⟨"LocalID", some .u32, some 4⟩]⟩,
     ⟨"Header", .single, 0, [⟨"ResetList", some .bool, some 1⟩]⟩]⟩

/-- `ForceObjectSelect` in file order. -/
def t241 : Template :=
  ⟨"ForceObjectSelect", .low, 205, [], some .trusted, some .unencoded, some .notDeprecated,
    [⟨"Header", .single, 0, [⟨"ResetList", .bool, 1⟩]⟩,
     ⟨"Data", .variable, 0, [⟨"LocalID", .u32, 4⟩]⟩]⟩

theorem p241 : ChunkOk c241 r241 := by intro v older; kernel_rfl
theorem k241 : r241.known = some t241 := by kernel_rfl
theorem n241 : t241.name = String.ofList ['F', 'o', 'r', 'c', 'e', 'O', 'b', 'j', 'e', 'c', 't', 'S', 'e', 'l', 'e', 'c', 't'] := by kernel_rfl

/-- The names of the blocks and variables of `ForceObjectSelect`. -/
def b241 : List (List Char × List (List Char)) :=
  [(['H', 'e', 'a', 'd', 'e', 'r'], [['R', 'e', 's', 'e', 't', 'L', 'i', 's', 't']]),
   (['D', 'a', 't', 'a'], [['L', 'o', 'c', 'a', 'l', 'I', 'D']])]

theorem w241 : Checked t241 := ⟨b241, by kernel_rfl, by kernel_rfl, by kernel_rfl⟩

/-- Lines of `message_template.msg` up to the end of `ParcelBuyPass`. -/
def c242 : List (List Char) :=
  [chars! "",
   chars! "",
   chars! "// ParcelBuyPass - purchase a temporary access pass",
   chars! "// viewer -> sim",
   chars! "// reliable",
   chars! "{",
   chars! "\tParcelBuyPass\tLow\t206 \tNotTrusted Unencoded",
   chars! "\t{",
   chars! "\t\tAgentData\t\t\tSingle",
   chars! "\t\t{\tAgentID\t\t\tLLUUID\t}",
   chars! "\t\t{\tSessionID\t\tLLUUID\t}",
   chars! "\t}",
   chars! "\t{",
   chars! "\t\tParcelData\t\t\tSingle",
   chars! "\t\t{\tLocalID\t\t\tS32\t\t\t\t}",
   chars! "\t}",
   chars! "}"]

/-- `ParcelBuyPass` as the parser creates it. -/
def r242 : RawTemplate :=
  ⟨"ParcelBuyPass", .low, 206, [255, 255, 206], some .notTrusted, some .unencoded, some .notDeprecated,
    [⟨"ParcelData", .single, 0, [⟨"LocalID", some .s32, some 4⟩]⟩,
     ⟨"AgentData", .single, 0, [⟨"SessionID", some .uuid, some 16⟩, ⟨"AgentID", some .uuid, some 16⟩]⟩]⟩

/-- `ParcelBuyPass` in file order. -/
def t242 : Template :=
  ⟨"ParcelBuyPass", .low, 206, [], some .notTrusted, some .unencoded, some .notDeprecated,
    [⟨"AgentData", .single, 0, [⟨"AgentID", .uuid, 16⟩, ⟨"SessionID", .uuid, 16⟩]⟩,
     ⟨"ParcelData", .single, 0, [⟨"LocalID", .s32, 4⟩]⟩]⟩

theorem p242 : ChunkOk c242 r242 := by intro v older; kernel_rfl
theorem k242 : r242.known = some t242 := by kernel_rfl
theorem n242 : t242.name = String.ofList ['P', 'a', 'r', 'c', 'e', 'l', 'B', 'u', 'y', 'P', 'a', 's', 's'] := by kernel_rfl

/-- The names of the blocks and variables of `ParcelBuyPass`. -/
def b242 : List (List Char × List (List Char)) :=
  [(['A', 'g', 'e', 'n', 't', 'D', 'a', 't', 'a'], [['A', 'g', 'e', 'n', 't', 'I', 'D'], ['S', 'e', 's', 's', 'i', 'o', 'n', 'I', 'D']]),
   (['P', 'a', 'r', 'c', 'e', 'l', 'D', 'a', 't', 'a'], [['L', 'o', 'c', 'a', 'l', 'I', 'D']])]

theorem w242 : Checked t242 := ⟨b242, by kernel_rfl, by kernel_rfl, by kernel_rfl⟩

/-- Lines of `message_template.msg` up to the end of `ParcelDeedToGroup`. -/
def c243 : List (List Char) :=
  [chars! "",
   chars! "// ParcelDeedToGroup - deed a patch of land to a group",
   chars! "// viewer -> sim",
   chars! "// reliable",
   chars! "{",
   chars! "\tParcelDeedToGroup Low 207 NotTrusted Unencoded",
   chars! "\t{",
   chars! "\t\tAgentData\t\t\tSingle",
   chars! "\t\t{\tAgentID\t\t\tLLUUID\t}",
   chars! "\t\t{\tSessionID\t\tLLUUID\t}",
   chars! "\t}",
   chars! "\t{",
   chars! "\t\tData\t\t\t\tSingle",
   chars! "\t\t{\tGroupID\t\t\tLLUUID\t}",
   chars! "\t\t{\tLocalID\t\t\tS32\t\t}\t// parcel id",
   chars! "\t}",
   chars! "}"]

/-- `ParcelDeedToGroup` as the parser creates it. -/
def r243 : RawTemplate :=
  ⟨"ParcelDeedToGroup", .low, 207, [255, 255, 207], some .notTrusted, some .unencoded, some .notDeprecated,
    [⟨"Data", .single, 0, [⟨"LocalID", some .s32, some 4⟩, ⟨"GroupID", some .uuid, some 16⟩]⟩,
     ⟨"AgentData", .single, 0, [⟨"SessionID", some .uuid, some 16⟩, ⟨"AgentID", some .uuid, some 16⟩]⟩]⟩

/-- `ParcelDeedToGroup` in file order. -/
def t243 : Template :=
  ⟨"ParcelDeedToGroup", .low, 207, [], some .notTrusted, some .unencoded, some .notDeprecated,
    [⟨"AgentData", .single, 0, [⟨"AgentID", .uuid, 16⟩, ⟨"SessionID", .uuid, 16⟩]⟩,
     ⟨"Data", .single, 0, [⟨"GroupID", .uuid, 16⟩, ⟨"LocalID", .s32, 4⟩]⟩]⟩

theorem p243 : ChunkOk c243 r243 := by intro v older; kernel_rfl
theorem k243 : r243.known = some t243 := by kernel_rfl
theorem n243 : t243.name = String.ofList ['P', 'a', 'r', 'c', 'e', 'l', 'D', 'e', 'e', 'd', 'T', 'o', 'G', 'r', 'o', 'u', 'p'] := by kernel_rfl

/-- The names of the blocks and variables of `ParcelDeedToGroup`. -/
def b243 : List (List Char × List (List Char)) :=
  [(['A', 'g', 'e', 'n', 't', 'D', 'a', 't', 'a'], [['A', 'g', 'e', 'n', 't', 'I', 'D'], ['S', 'e', 's', 's', 'i', 'o', 'n', 'I', 'D']]),
   (['D', 'a', 't', 'a'], [['G', 'r', 'o', 'u', 'p', 'I', 'D'], ['L', 'o', 'c', 'a', 'l', 'I', 'D']])]

theorem w243 : Checked t243 := ⟨b243, by kernel_rfl, by kernel_rfl, by kernel_rfl⟩

/-- Lines of `message_template.msg` up to the end of `ParcelReclaim`. -/
def c244 : List (List Char) :=
  [chars! "",
   chars! "// reserved for when island owners force re-claim parcel",
   chars! "{",
   chars! "\tParcelReclaim Low 208 NotTrusted Unencoded",
   chars! "\t{",
   chars! "\t\tAgentData\t\t\tSingle",
   chars! "\t\t{\tAgentID\t\t\tLLUUID\t}",
   chars! "\t\t{\tSessionID\t\tLLUUID\t}",
   chars! "\t}",
   chars! "\t{",
   chars! "\t\tData\t\t\t\tSingle",
   chars! "\t\t{\tLocalID\t\t\tS32\t\t}\t// parcel id",
   chars! "\t}",
   chars! "}"]

/-- `ParcelReclaim` as the parser creates it. -/
def r244 : RawTemplate :=
  ⟨"ParcelReclaim", .low, 208, [255, 255, 208], some .notTrusted, some .unencoded, some .notDeprecated,
    [⟨"Data", .single, 0, [⟨"LocalID", some .s32, some 4⟩]⟩,
     ⟨"AgentData", .single, 0, [⟨"SessionID", some .uuid, some 16⟩, ⟨"AgentID", some .uuid, some 16⟩]⟩]⟩

/-- `ParcelReclaim` in file order. -/
def t244 : Template :=
  ⟨"ParcelReclaim", .low, 208, [], some .notTrusted, some .unencoded, some .notDeprecated,
    [⟨"AgentData", .single, 0, [⟨"AgentID", .uuid, 16⟩, ⟨"SessionID", .uuid, 16⟩]⟩,
     ⟨"Data", .single, 0, [⟨"LocalID", .s32, 4⟩]⟩]⟩

theorem p244 : ChunkOk c244 r244 := by intro v older; kernel_rfl
theorem k244 : r244.known = some t244 := by kernel_rfl
theorem n244 : t244.name = String.ofList ['P', 'a', 'r', 'c', 'e', 'l', 'R', 'e', 'c', 'l', 'a', 'i', 'm'] := by kernel_rfl

/-- The names of the blocks and variables of `ParcelReclaim`. -/
def b244 : List (List Char × List (List Char)) :=
  [(['A', 'g', 'e', 'n', 't', 'D', 'a', 't', 'a'], [['A', 'g', 'e', 'n', 't', 'I', 'D'], ['S', 'e', 's', 's', 'i', 'o', 'n', 'I', 'D']]),
   (['D', 'a', 't', 'a'], [['L', 'o', 'c', 'a', 'l', 'I', 'D']])]

theorem w244 : Checked t244 := ⟨b244, by kernel_rfl, by kernel_rfl, by kernel_rfl⟩

/-- Lines of `message_template.msg` up to the end of `ParcelClaim`. -/
def c245 : List (List Char) :=
  [chars! "",
   chars! "// ParcelClaim - change the owner of a patch of land",
   chars! "// viewer -> sim",
   chars! "// reliable",
   chars! "{",
   chars! "\tParcelClaim Low 209 NotTrusted Zerocoded",
   chars! "\t{",
   chars! "\t\tAgentData\t\t\tSingle",
   chars! "\t\t{\tAgentID\t\t\tLLUUID\t}",
   chars! "\t\t{\tSessionID\t\tLLUUID\t}",
   chars! "\t}",
   chars! "\t{",
   chars! "\t\tData\t\t\t\tSingle",
   chars! "\t\t{\tGroupID\t\t\tLLUUID\t}",
   chars! "\t\t{\tIsGroupOwned\tBOOL \t}",
   chars! "\t\t{\tFinal\t\t\tBOOL\t} // true if buyer is in tier",
   chars! "\t}",
   chars! "\t{",
   chars! "\t\tParcelData\t\t\tVariable",
   chars! "\t\t{\tWest\t\t\tF32\t\t}",
   chars! "\t\t{\tSouth\t\t\tF32\t\t}",
   chars! "\t\t{\tEast\t\t\tF32\t\t}",
   chars! "\t\t{\tNorth\t\t\tF32\t\t}",
   chars! "\t}",
   chars! "}"]

/-- `ParcelClaim` as the parser creates it. -/
def r245 : RawTemplate :=
  ⟨"ParcelClaim", .low, 209, [255, 255, 209], some .notTrusted, some .zerocoded, some .notDeprecated,
    [⟨"ParcelData", .variable, 0, [⟨"North", some .f32, some 4⟩, ⟨"East", some .f32, some 4⟩, ⟨"South", some .f32, some 4⟩, ⟨"West", some .f32, some 4⟩]⟩,
     ⟨"Data", .single, 0, [⟨"Final", some .bool, some 1⟩, ⟨"IsGroupOwned", some .bool, some 1⟩, ⟨"GroupID", some .uuid, some 16⟩]⟩,
     ⟨"AgentData", .single, 0, [⟨"SessionID", some .uuid, some 16⟩, ⟨"AgentID", some .uuid, some 16⟩]⟩]⟩

/-- `ParcelClaim` in file order. -/
def t245 : Template :=
  ⟨"ParcelClaim", .low, 209, [], some .notTrusted, some .zerocoded, some .notDeprecated,
    [⟨"AgentData", .single, 0, [⟨"AgentID", .uuid, 16⟩, ⟨"SessionID", .uuid, 16⟩]⟩,
     ⟨"Data", .single, 0, [⟨"GroupID", .uuid, 16⟩, ⟨"IsGroupOwned", .bool, 1⟩, ⟨"Final", .bool, 1⟩]⟩,
     ⟨"ParcelData", .variable, 0, [⟨"West", .f32, 4⟩, ⟨"South", .f32, 4⟩, ⟨"East", .f32, 4⟩, ⟨"North", .f32, 4⟩]⟩]⟩

theorem p245 : ChunkOk c245 r245 := by intro v older; kernel_rfl
theorem k245 : r245.known = some t245 := by kernel_rfl
theorem n245 : t245.name = String.ofList ['P', 'a', 'r', 'c', 'e', 'l', 'C', 'l', 'a', 'i', 'm'] := by kernel_rfl

/-- The names of the blocks and variables of `ParcelClaim`. -/
def b245 : List (List Char × List (List Char)) :=
  [(['A', 'g', 'e', 'n', 't', 'D', 'a', 't', 'a'], [['A', 'g', 'e', 'n', 't', 'I', 'D'], ['S', 'e', 's', 's', 'i', 'o', 'n', 'I', 'D']]),
   (['D', 'a', 't', 'a'], [['G', 'r', 'o', 'u', 'p', 'I', 'D'], ['I', 's', 'G', 'r', 'o', 'u', 'p', 'O', 'w', 'n', 'e', 'd'], ['F', 'i', 'n', 'a', 'l']]),
   (['P', 'a', 'r', 'c', 'e', 'l', 'D', 'a', 't', 'a'], [['W', 'e', 's', 't'], ['S', 'o', 'u', 't', 'h'], ['E', 'a', 's', 't'], ['N', 'o', 'r', 't', 'h']])]

theorem w245 : Checked t245 := ⟨b245, by kernel_rfl, by kernel_rfl, by kernel_rfl⟩

/-- Lines of `message_template.msg` up to the end of `ParcelJoin`. -/
def c246 : List (List Char) :=
  [chars! "",
   chars! "// ParcelJoin - Take all parcels which are owned by agent and inside",
   chars! "// rectangle, and make them 1 parcel if they all are leased.",
   chars! "// viewer -> sim",
   chars! "// reliable",
   chars! "{",
   chars! "\tParcelJoin Low 210 NotTrusted Unencoded",
   chars! "\t{",
   chars! "\t\tAgentData\t\t\tSingle",
   chars! "\t\t{\tAgentID\t\t\tLLUUID\t}",
   chars! "\t\t{\tSessionID\t\tLLUUID\t}",
   chars! "\t}",
   chars! "\t{",
   chars! "\t\tParcelData\t\t\tSingle",
   chars! "\t\t{\tWest\t\tF32\t\t}",
   chars! "\t\t{\tSouth\t\tF32\t\t}",
   chars! "\t\t{\tEast\t\tF32\t\t}",
   chars! "\t\t{\tNorth\t\tF32\t\t}",
   chars! "\t}",
   chars! "}"]

/-- `ParcelJoin` as the parser creates it. -/
def r246 : RawTemplate :=
  ⟨"ParcelJoin", .low, 210, [255, 255, 210], some .notTrusted, some .unencoded, some .notDeprecated,
    [⟨"ParcelData", .single, 0, [⟨"North", some .f32, some 4⟩, ⟨"East", some .f32, some 4⟩, ⟨"South", some .f32, some 4⟩, ⟨"West", some .f32, some 4⟩]⟩,
     ⟨"AgentData", .single, 0, [⟨"SessionID", some .uuid, some 16⟩, ⟨"AgentID", some .uuid, some 16⟩]⟩]⟩

/-- `ParcelJoin` in file order. -/
def t246 : Template :=
  ⟨"ParcelJoin", .low, 210, [], some .notTrusted, some .unencoded, some .notDeprecated,
    [⟨"AgentData", .single, 0, [⟨"AgentID", .uuid, 16⟩, ⟨"SessionID", .uuid, 16⟩]⟩,
     ⟨"ParcelData", .single, 0, [⟨"West", .f32, 4⟩, ⟨"South", .f32, 4⟩, ⟨"East", .f32, 4⟩, ⟨"North", .f32, 4⟩]⟩]⟩

theorem p246 : ChunkOk c246 r246 := by intro v older; kernel_rfl
theorem k246 : r246.known = some t246 := by kernel_rfl
theorem n246 : t246.name = String.ofList ['P', 'a', 'r', 'c', 'e', 'l', 'J', 'o', 'i', 'n'] := by kernel_rfl

/-- The names of the blocks and variables of `ParcelJoin`. -/
def b246 : List (List Char × List (List Char)) :=
  [(['A', 'g', 'e', 'n', 't', 'D', 'a', 't', 'a'], [['A', 'g', 'e', 'n', 't', 'I', 'D'], ['S', 'e', 's', 's', 'i', 'o', 'n', 'I', 'D']]),
   (['P', 'a', 'r', 'c', 'e', 'l', 'D', 'a', 't', 'a'], [['W', 'e', 's', 't'], ['S', 'o', 'u', 't', 'h'], ['E', 'a', 's', 't'], ['N', 'o', 'r', 't', 'h']])]

theorem w246 : Checked t246 := ⟨b246, by kernel_rfl, by kernel_rfl, by kernel_rfl⟩

/-- Lines of `message_template.msg` up to the end of `ParcelDivide`. -/
def c247 : List (List Char) :=
  [chars! "",
   chars! "// ParcelDivide",
   chars! "// If the selection is a subsection of exactly one parcel,",
   chars! "// chop out that section and make a new parcel of it.",
   chars! "// viewer -> sim",
   chars! "// reliable",
   chars! "{",
   chars! "\tParcelDivide Low 211 NotTrusted Unencoded",
   chars! "\t{",
   chars! "\t\tAgentData\t\t\tSingle",
   chars! "\t\t{\tAgentID\t\t\tLLUUID\t}",
   chars! "\t\t{\tSessionID\t\tLLUUID\t}",
   chars! "\t}",
   chars! "\t{",
   chars! "\t\tParcelData\t\t\tSingle",
   chars! "\t\t{\tWest\t\tF32\t\t}",
   chars! "\t\t{\tSouth\t\tF32\t\t}",
   chars! "\t\t{\tEast\t\tF32\t\t}",
   chars! "\t\t{\tNorth\t\tF32\t\t}",
   chars! "\t}",
   chars! "}"]

/-- `ParcelDivide` as the parser creates it. -/
def r247 : RawTemplate :=
  ⟨"ParcelDivide", .low, 211, [255, 255, 211], some .notTrusted, some .unencoded, some .notDeprecated,
    [⟨"ParcelData", .single, 0, [⟨"North", some .f32, some 4⟩, ⟨"East", some .f32, some 4⟩, ⟨"South", some .f32, some 4⟩, ⟨"West", some .f32, some 4⟩]⟩,
     ⟨"AgentData", .single, 0, [⟨"SessionID", some .uuid, some 16⟩, ⟨"AgentID", some .uuid, some 16⟩]⟩]⟩

/-- `ParcelDivide` in file order. -/
def t247 : Template :=
  ⟨"ParcelDivide", .low, 211, [], some .notTrusted, some .unencoded, some .notDeprecated,
    [⟨"AgentData", .single, 0, [⟨"AgentID", .uuid, 16⟩, ⟨"SessionID", .uuid, 16⟩]⟩,
     ⟨"ParcelData", .single, 0, [⟨"West", .f32, 4⟩, ⟨"South", .f32, 4⟩, ⟨"East", .f32, 4⟩, ⟨"North", .f32, 4⟩]⟩]⟩

theorem p247 : ChunkOk c247 r247 := by intro v older; kernel_rfl
theorem k247 : r247.known = some t247 := by kernel_rfl
theorem n247 : t247.name = String.ofList ['P', 'a', 'r', 'c', 'e', 'l', 'D', 'i', 'v', 'i', 'd', 'e'] := by kernel_rfl

/-- The names of the blocks and variables of `ParcelDivide`. -/
def b247 : List (List Char × List (List Char)) :=
  [(['A', 'g', 'e', 'n', 't', 'D', 'a', 't', 'a'], [['A', 'g', 'e', 'n', 't', 'I', 'D'], ['S', 'e', 's', 's', 'i', 'o', 'n', 'I', 'D']]),
   (['P', 'a', 'r', 'c', 'e', 'l', 'D', 'a', 't', 'a'], [['W', 'e', 's', 't'], ['S', 'o', 'u', 't', 'h'], ['E', 'a', 's', 't'], ['N', 'o', 'r', 't', 'h']])]

theorem w247 : Checked t247 := ⟨b247, by kernel_rfl, by kernel_rfl, by kernel_rfl⟩

/-- Lines of `message_template.msg` up to the end of `ParcelRelease`. -/
def c248 : List (List Char) :=
  [chars! "",
   chars! "// ParcelRelease",
   chars! "// Release a parcel to public",
   chars! "// viewer -> sim",
   chars! "// reliable",
   chars! "{",
   chars! "\tParcelRelease Low 212 NotTrusted Unencoded",
   chars! "\t{",
   chars! "\t\tAgentData\t\tSingle",
   chars! "\t\t{\tAgentID\t\t\tLLUUID\t}",
   chars! "\t\t{\tSessionID\t\tLLUUID\t}",
   chars! "\t}",
   chars! "\t{",
   chars! "\t\tData\t\t\tSingle",
   chars! "\t\t{\tLocalID\t\t\tS32\t\t}\t// parcel ID",
   chars! "\t}",
   chars! "}"]

/-- `ParcelRelease` as the parser creates it. -/
def r248 : RawTemplate :=
  ⟨"ParcelRelease", .low, 212, [255, 255, 212], some .notTrusted, some .unencoded, some .notDeprecated,
    [⟨"Data", .single, 0, [⟨"LocalID", some .s32, some 4⟩]⟩,
     ⟨"AgentData", .single, 0, [⟨"SessionID", some .uuid, some 16⟩, ⟨"AgentID", some .uuid, some 16⟩]⟩]⟩

/-- `ParcelRelease` in file order. -/
def t248 : Template :=
  ⟨"ParcelRelease", .low, 212, [], some .notTrusted, some .unencoded, some .notDeprecated,
    [⟨"AgentData", .single, 0, [⟨"AgentID", .uuid, 16⟩, ⟨"SessionID", .uuid, 16⟩]⟩,
     ⟨"Data", .single, 0, [⟨"LocalID", .s32, 4⟩]⟩]⟩

theorem p248 : ChunkOk c248 r248 := by intro v older; kernel_rfl
theorem k248 : r248.known = some t248 := by kernel_rfl
theorem n248 : t248.name = String.ofList ['P', 'a', 'r', 'c', 'e', 'l', 'R', 'e', 'l', 'e', 'a', 's', 'e'] := by kernel_rfl

/-- The names of the blocks and variables of `ParcelRelease`. -/
def b248 : List (List Char × List (List Char)) :=
  [(['A', 'g', 'e', 'n', 't', 'D', 'a', 't', 'a'], [['A', 'g', 'e', 'n', 't', 'I', 'D'], ['S', 'e', 's', 's', 'i', 'o', 'n', 'I', 'D']]),
   (['D', 'a', 't', 'a'], [['L', 'o', 'c', 'a', 'l', 'I', 'D']])]

theorem w248 : Checked t248 := ⟨b248, by kernel_rfl, by kernel_rfl, by kernel_rfl⟩

/-- Lines of `message_template.msg` up to the end of `ParcelBuy`. -/
def c249 : List (List Char) :=
  [chars! "",
   chars! "// ParcelBuy - change the owner of a patch of land.",
   chars! "// viewer -> sim",
   chars! "// reliable",
   chars! "{",
   chars! "\tParcelBuy Low 213 NotTrusted Zerocoded",
   chars! "\t{",
   chars! "\t\tAgentData\t\tSingle",
   chars! "\t\t{\tAgentID\t\t\tLLUUID\t}",
   chars! "\t\t{\tSessionID\t\tLLUUID\t}",
   chars! "\t}",
   chars! "\t{",
   chars! "\t\tData\t\t\tSingle",
   chars! "\t\t{\tGroupID\t\t\tLLUUID\t}",
   chars! "\t\t{\tIsGroupOwned\tBOOL \t}",
   chars! "\t\t{\tRemoveContribution BOOL\t}",
   chars! "\t\t{\tLocalID\t\t\tS32\t\t}",
   chars! "\t\t{\tFinal\t\t\tBOOL\t} // true if buyer is in tier",
   chars! "\t}",
   chars! "\t{",
   chars! "\t\tParcelData\t\tSingle",
   chars! "\t\t{\tPrice\t\t\tS32\t\t}",
   chars! "\t\t{\tArea\t\t\tS32\t\t}",
   chars! "\t}",
   chars! "}"]

/-- `ParcelBuy` as the parser creates it. -/
def r249 : RawTemplate :=
  ⟨"ParcelBuy", .low, 213, [255, 255, 213], some .notTrusted, some .zerocoded, some .notDeprecated,
    [⟨"ParcelData", .single, 0, [⟨"Area", some .s32, some 4⟩, ⟨"Price", some .s32, some 4⟩]⟩,
     ⟨"Data", .single, 0, [⟨"Final", some .bool, some 1⟩, ⟨"LocalID", some .s32, some 4⟩, ⟨"RemoveContribution", some .bool, some 1⟩, ⟨"IsGroupOwned", some .bool, some 1⟩, ⟨"GroupID", some .uuid, some 16⟩]⟩,
     ⟨"AgentData", .single, 0, [⟨"SessionID", some .uuid, some 16⟩, ⟨"AgentID", some .uuid, some 16⟩]⟩]⟩

/-- `ParcelBuy` in file order. -/
def t249 : Template :=
  ⟨"ParcelBuy", .low, 213, [], some .notTrusted, some .zerocoded, some .notDeprecated,
    [⟨"AgentData", .single, 0, [⟨"AgentID", .uuid, 16⟩, ⟨"SessionID", .uuid, 16⟩]⟩,
     ⟨"Data", .single, 0, [⟨"GroupID", .uuid, 16⟩, ⟨"IsGroupOwned", .bool, 1⟩, ⟨"RemoveContribution", .bool, 1⟩, ⟨"LocalID", .s32, 4⟩, ⟨"Final", .bool, 1⟩]⟩,
     ⟨"ParcelData", .single, 0, [⟨"Price", .s32, 4⟩, ⟨"Area", .s32, 4⟩]⟩]⟩

theorem p249 : ChunkOk c249 r249 := by intro v older; kernel_rfl
theorem k249 : r249.known = some t249 := by kernel_rfl
theorem n249 : t249.name = String.ofList ['P', 'a', 'r', 'c', 'e', 'l', 'B', 'u', 'y'] := by kernel_rfl

/-- The names of the blocks and variables of `ParcelBuy`. -/
def b249 : List (List Char × List (List Char)) :=
  [(['A', 'g', 'e', 'n', 't', 'D', 'a', 't', 'a'], [['A', 'g', 'e', 'n', 't', 'I', 'D'], ['S', 'e', 's', 's', 'i', 'o', 'n', 'I', 'D']]),
   (['D', 'a', 't', 'a'], [['G', 'r', 'o', 'u', 'p', 'I', 'D'], ['I', 's', 'G', 'r', 'o', 'u', 'p', 'O', 'w', 'n', 'e', 'd'], ['R', 'e', 'm', 'o', 'v', 'e', 'C', 'o', 'n', 't', 'r', 'i', 'b', 'u', 't', 'i', 'o', 'n'], ['L', 'o', 'c', 'a', 'l', 'I', 'D'], ['F', 'i', 'n', 'a', 'l']]),
   (['P', 'a', 'r', 'c', 'e', 'l', 'D', 'a', 't', 'a'], [['P', 'r', 'i', 'c', 'e'], ['A', 'r', 'e', 'a']])]

theorem w249 : Checked t249 := ⟨b249, by kernel_rfl, by kernel_rfl, by kernel_rfl⟩

/-- Lines of `message_template.msg` up to the end of `ParcelGodForceOwner`. -/
def c250 : List (List Char) :=
  [chars! "",
   chars! "",
   chars! "// ParcelGodForceOwner Unencoded",
   chars! "{",
   chars! "\tParcelGodForceOwner\tLow\t214 NotTrusted Zerocoded",
   chars! "\t{",
   chars! "\t\tAgentData\t\tSingle",
   chars! "\t\t{\tAgentID\t\t\tLLUUID\t}",
   chars! "\t\t{\tSessionID\t\tLLUUID\t}",
   chars! "\t}",
   chars! "\t{",
   chars! "\t\tData\t\t\tSingle",
   chars! "\t\t{\tOwnerID\t\t\tLLUUID\t}",
   chars! "\t\t{\tLocalID\t\t\tS32\t\t}\t// parcel ID",
   chars! "\t}",
   chars! "}"]

/-- `ParcelGodForceOwner` as the parser creates it. -/
def r250 : RawTemplate :=
  ⟨"ParcelGodForceOwner", .low, 214, [255, 255, 214], some .notTrusted, some .zerocoded, some .notDeprecated,
    [⟨"Data", .single, 0, [⟨"LocalID", some .s32, some 4⟩, ⟨"OwnerID", some .uuid, some 16⟩]⟩,
     ⟨"AgentData", .single, 0, [⟨"SessionID", some .uuid, some 16⟩, ⟨"AgentID", some .uuid, some 16⟩]⟩]⟩

/-- `ParcelGodForceOwner` in file order. -/
def t250 : Template :=
  ⟨"ParcelGodForceOwner", .low, 214, [], some .notTrusted, some .zerocoded, some .notDeprecated,
    [⟨"AgentData", .single, 0, [⟨"AgentID", .uuid, 16⟩, ⟨"SessionID", .uuid, 16⟩]⟩,
     ⟨"Data", .single, 0, [⟨"OwnerID", .uuid, 16⟩, ⟨"LocalID", .s32, 4⟩]⟩]⟩

theorem p250 : ChunkOk c250 r250 := by intro v older; kernel_rfl
theorem k250 : r250.known = some t250 := by kernel_rfl
theorem n250 : t250.name = String.ofList ['P', 'a', 'r', 'c', 'e', 'l', 'G', 'o', 'd', 'F', 'o', 'r', 'c', 'e', 'O', 'w', 'n', 'e', 'r'] := by kernel_rfl

/-- The names of the blocks and variables of `ParcelGodForceOwner`. -/
def b250 : List (List Char × List (List Char)) :=
  [(['A', 'g', 'e', 'n', 't', 'D', 'a', 't', 'a'], [['A', 'g', 'e', 'n', 't', 'I', 'D'], ['S', 'e', 's', 's', 'i', 'o', 'n', 'I', 'D']]),
   (['D', 'a', 't', 'a'], [['O', 'w', 'n', 'e', 'r', 'I', 'D'], ['L', 'o', 'c', 'a', 'l', 'I', 'D']])]

theorem w250 : Checked t250 := ⟨b250, by kernel_rfl, by kernel_rfl, by kernel_rfl⟩

/-- Lines of `message_template.msg` up to the end of `ParcelAccessListRequest`. -/
def c251 : List (List Char) :=
  [chars! "",
   chars! "",
   chars! "// viewer -> sim",
   chars! "// ParcelAccessListRequest",
   chars! "{",
   chars! "\tParcelAccessListRequest Low 215 NotTrusted Zerocoded",
   chars! "\t{",
   chars! "\t\tAgentData\t\tSingle",
   chars! "\t\t{\tAgentID\t\t\tLLUUID\t}",
   chars! "\t\t{\tSessionID\t\tLLUUID\t}",
   chars! "\t}",
   chars! "\t{",
   chars! "\t\tData\tSingle",
   chars! "\t\t{\tSequenceID\t\tS32\t\t}",
   chars! "\t\t{\tFlags\t\t\tU32\t\t}",
   chars! "\t\t{\tLocalID\t\t\tS32\t\t}",
   chars! "\t}",
   chars! "}"]

/-- `ParcelAccessListRequest` as the parser creates it. -/
def r251 : RawTemplate :=
  ⟨"ParcelAccessListRequest", .low, 215, [255, 255, 215], some .notTrusted, some .zerocoded, some .notDeprecated,
    [⟨"Data", .single, 0, [⟨"LocalID", some .s32, some 4⟩, ⟨"Flags", some .u32, some 4⟩, ⟨"SequenceID", some .s32, some 4⟩]⟩,
     ⟨"AgentData", .single, 0, [⟨"SessionID", some .uuid, some 16⟩, ⟨"AgentID", some .uuid, some 16⟩]⟩]⟩

/-- `ParcelAccessListRequest` in file order. -/
def t251 : Template :=
  ⟨"ParcelAccessListRequest", .low, 215, [], some .notTrusted, some .zerocoded, some .notDeprecated,
    [⟨"AgentData", .single, 0, [⟨"AgentID", .uuid, 16⟩, ⟨"SessionID", .uuid, 16⟩]⟩,
     ⟨"Data", .single, 0, [⟨"SequenceID", .s32, 4⟩, ⟨"Flags", .u32, 4⟩, ⟨"LocalID", .s32, 4⟩]⟩]⟩

theorem p251 : ChunkOk c251 r251 := by intro v older; kernel_rfl
theorem k251 : r251.known = some t251 := by kernel_rfl
theorem n251 : t251.name = String.ofList ['P', 'a', 'r', 'c', 'e', 'l', 'A', 'c', 'c', 'e', 's', 's', 'L', 'i', 's', 't', 'R', 'e', 'q', 'u', 'e', 's', 't'] := by kernel_rfl

/-- The names of the blocks and variables of `ParcelAccessListRequest`. -/
def b251 : List (List Char × List (List Char)) :=
  [(['A', 'g', 'e', 'n', 't', 'D', 'a', 't', 'a'], [['A', 'g', 'e', 'n', 't', 'I', 'D'], ['S', 'e', 's', 's', 'i', 'o', 'n', 'I', 'D']]),
   (['D', 'a', 't', 'a'], [['S', 'e', 'q', 'u', 'e', 'n', 'c', 'e', 'I', 'D'], ['F', 'l', 'a', 'g', 's'], ['L', 'o', 'c', 'a', 'l', 'I', 'D']])]

theorem w251 : Checked t251 := ⟨b251, by kernel_rfl, by kernel_rfl, by kernel_rfl⟩

/-- Lines of `message_template.msg` up to the end of `ParcelAccessListReply`. -/
def c252 : List (List Char) :=
  [chars! "",
   chars! "",
   chars! "// sim -> viewer",
   chars! "// ParcelAccessListReply",
   chars! "{",
   chars! "\tParcelAccessListReply Low 216 Trusted Zerocoded",
   chars! "\t{",
   chars! "\t\tData\tSingle",
   chars! "\t\t{\tAgentID\t\t\tLLUUID\t}",
   chars! "\t\t{\tSequenceID\t\tS32\t\t}",
   chars! "\t\t{\tFlags\t\t\tU32\t\t}",
   chars! "\t\t{\tLocalID\t\t\tS32\t\t}",
   chars! "\t}",
   chars! "\t{",
   chars! "\t\tList\tVariable",
   chars! "\t\t{\tID\t\t\tLLUUID\t\t}",
   chars! "\t\t{\tTime\t\tS32\t\t\t} // time_t",
   chars! "\t\t{\tFlags\t\tU32\t\t\t}",
   chars! "\t}",
   chars! "}"]

/-- `ParcelAccessListReply` as the parser creates it. -/
def r252 : RawTemplate :=
  ⟨"ParcelAccessListReply", .low, 216, [255, 255, 216], some .trusted, some .zerocoded, some .notDeprecated,
    [⟨"List", .variable, 0, [⟨"Flags", some .u32, some 4⟩, ⟨"Time", some .s32, some 4⟩, ⟨"ID", some .uuid, some 16⟩]⟩,
     ⟨"Data", .single, 0, [⟨"LocalID", some .s32, some 4⟩, ⟨"Flags", some .u32, some 4⟩, ⟨"SequenceID", some .s32, some 4⟩, ⟨"AgentID", some .uuid, some 16⟩]⟩]⟩

/-- `ParcelAccessListReply` in file order. -/
def t252 : Template :=
  ⟨"ParcelAccessListReply", .low, 216, [], some .trusted, some .zerocoded, some .notDeprecated,
    [⟨"Data", .single, 0, [⟨"AgentID", .uuid, 16⟩, ⟨"SequenceID", .s32, 4⟩, ⟨"Flags", .u32, 4⟩, ⟨"LocalID", .s32, 4⟩]⟩,
     ⟨"List", .variable, 0, [⟨"ID", .uuid, 16⟩, ⟨"Time", .s32, 4⟩, ⟨"Flags", .u32, 4⟩]⟩]⟩

theorem p252 : ChunkOk c252 r252 := by intro v older; kernel_rfl
theorem k252 : r252.known = some t252 := by kernel_rfl
theorem n252 : t252.name = String.ofList ['P', 'a', 'r', 'c', 'e', 'l', 'A', 'c', 'c', 'e', 's', 's', 'L', 'i', 's', 't', 'R', 'e', 'p', 'l', 'y'] := by kernel_rfl

/-- The names of the blocks and variables of `ParcelAccessListReply`. -/
def b252 : List (List Char × List (List Char)) :=
  [(['D', 'a', 't', 'a'], [['A', 'g', 'e', 'n', 't', 'I', 'D'], ['S', 'e', 'q', 'u', 'e', 'n', 'c', 'e', 'I', 'D'], ['F', 'l', 'a', 'g', 's'], ['L', 'o', 'c', 'a', 'l', 'I', 'D']]),
   (['L', 'i', 's', 't'], [['I', 'D'], ['T', 'i', 'm', 'e'], ['F', 'l', 'a', 'g', 's']])]

theorem w252 : Checked t252 := ⟨b252, by kernel_rfl, by kernel_rfl, by kernel_rfl⟩

/-- Lines of `message_template.msg` up to the end of `ParcelAccessListUpdate`. -/
def c253 : List (List Char) :=
  [chars! "",
   chars! "// viewer -> sim",
   chars! "// ParcelAccessListUpdate",
   chars! "{",
   chars! "\tParcelAccessListUpdate Low 217 NotTrusted Zerocoded",
   chars! "\t{",
   chars! "\t\tAgentData\t\tSingle",
   chars! "\t\t{\tAgentID\t\t\tLLUUID\t}",
   chars! "\t\t{\tSessionID\t\tLLUUID\t}",
   chars! "\t}",
   chars! "\t{",
   chars! "\t\tData\tSingle",
   chars! "\t\t{\tFlags\t\t\tU32\t\t}",
   chars! "\t\t{\tLocalID\t\t\tS32\t\t}",
   chars! "\t\t{\tTransactionID\tLLUUID\t}",
   chars! "\t\t{\tSequenceID\t\tS32\t\t}",
   chars! "\t\t{\tSections\t\tS32\t\t}",
   chars! "\t}",
   chars! "\t{",
   chars! "\t\tList\tVariable",
   chars! "\t\t{\tID\t\t\tLLUUID\t\t}",
   chars! "\t\t{\tTime\t\tS32\t\t\t} // time_t",
   chars! "\t\t{\tFlags\t\tU32\t\t\t}",
   chars! "\t}",
   chars! "}"]

/-- `ParcelAccessListUpdate` as the parser creates it. -/
def r253 : RawTemplate :=
  ⟨"ParcelAccessListUpdate", .low, 217, [255, 255, 217], some .notTrusted, some .zerocoded, some .notDeprecated,
    [⟨"List", .variable, 0, [⟨"Flags", some .u32, some 4⟩, ⟨"Time", some .s32, some 4⟩, ⟨"ID", some .uuid, some 16⟩]⟩,
     ⟨"Data", .single, 0, [⟨"Sections", some .s32, some 4⟩, ⟨"SequenceID", some .s32, some 4⟩, ⟨"TransactionID", some .uuid, some 16⟩, ⟨"LocalID", some .s32, some 4⟩, ⟨"Flags", some .u32, some 4⟩]⟩,
     ⟨"AgentData", .single, 0, [⟨"SessionID", some .uuid, some 16⟩, ⟨"AgentID", some .uuid, some 16⟩]⟩]⟩

/-- `ParcelAccessListUpdate` in file order. -/
def t253 : Template :=
  ⟨"ParcelAccessListUpdate", .low, 217, [], some .notTrusted, some .zerocoded, some .notDeprecated,
    [⟨"AgentData", .single, 0, [⟨"AgentID", .uuid, 16⟩, ⟨"SessionID", .uuid, 16⟩]⟩,
     ⟨"Data", .single, 0, [⟨"Flags", .u32, 4⟩, ⟨"LocalID", .s32, 4⟩, ⟨"TransactionID", .uuid, 16⟩, ⟨"SequenceID", .s32, 4⟩, ⟨"Sections", .s32, 4⟩]⟩,
     ⟨"List", .variable, 0, [⟨"ID", .uuid, 16⟩, ⟨"Time", .s32, 4⟩, ⟨"Flags", .u32, 4⟩]⟩]⟩

theorem p253 : ChunkOk c253 r253 := by intro v older; kernel_rfl
theorem k253 : r253.known = some t253 := by kernel_rfl
theorem n253 : t253.name = String.ofList ['P', 'a', 'r', 'c', 'e', 'l', 'A', 'c', 'c', 'e', 's', 's', 'L', 'i', 's', 't', 'U', 'p', 'd', 'a', 't', 'e'] := by kernel_rfl

/-- The names of the blocks and variables of `ParcelAccessListUpdate`. -/
def b253 : List (List Char × List (List Char)) :=
  [(['A', 'g', 'e', 'n', 't', 'D', 'a', 't', 'a'], [['A', 'g', 'e', 'n', 't', 'I', 'D'], ['S', 'e', 's', 's', 'i', 'o', 'n', 'I', 'D']]),
   (['D', 'a', 't', 'a'], [['F', 'l', 'a', 'g', 's'], ['L', 'o', 'c', 'a', 'l', 'I', 'D'], ['T', 'r', 'a', 'n', 's', 'a', 'c', 't', 'i', 'o', 'n', 'I', 'D'], ['S', 'e', 'q', 'u', 'e', 'n', 'c', 'e', 'I', 'D'], ['S', 'e', 'c', 't', 'i', 'o', 'n', 's']]),
   (['L', 'i', 's', 't'], [['I', 'D'], ['T', 'i', 'm', 'e'], ['F', 'l', 'a', 'g', 's']])]

theorem w253 : Checked t253 := ⟨b253, by kernel_rfl, by kernel_rfl, by kernel_rfl⟩

/-- Lines of `message_template.msg` up to the end of `ParcelDwellRequest`. -/
def c254 : List (List Char) :=
  [chars! "",
   chars! "",
   chars! "// viewer -> sim -> dataserver",
   chars! "// reliable",
   chars! "{",
   chars! "\tParcelDwellRequest Low 218 NotTrusted Unencoded",
   chars! "\t{",
   chars! "\t\tAgentData\tSingle",
   chars! "\t\t{\tAgentID\t\tLLUUID\t\t}",
   chars! "\t\t{\tSessionID\tLLUUID\t\t}",
   chars! "\t}",
   chars! "\t{",
   chars! "\t\tData\t\tSingle",
   chars! "\t\t{\tLocalID\t\tS32\t\t\t}",
   chars! "\t\t{\tParcelID\tLLUUID\t\t}\t// filled in on sim",
   chars! "\t}",
   chars! "}"]

/-- `ParcelDwellRequest` as the parser creates it. -/
def r254 : RawTemplate :=
  ⟨"ParcelDwellRequest", .low, 218, [255, 255, 218], some .notTrusted, some .unencoded, some .notDeprecated,
    [⟨"Data", .single, 0, [⟨"ParcelID", some .uuid, some 16⟩, ⟨"LocalID", some .s32, some 4⟩]⟩,
     ⟨"AgentData", .single, 0, [⟨"SessionID", some .uuid, some 16⟩, ⟨"AgentID", some .uuid, some 16⟩]⟩]⟩

/-- `ParcelDwellRequest` in file order. -/
def t254 : Template :=
  ⟨"ParcelDwellRequest", .low, 218, [], some .notTrusted, some .unencoded, some .notDeprecated,
    [⟨"AgentData", .single, 0, [⟨"AgentID", .uuid, 16⟩, ⟨"SessionID", .uuid, 16⟩]⟩,
     ⟨"Data", .single, 0, [⟨"LocalID", .s32, 4⟩, ⟨"ParcelID", .uuid, 16⟩]⟩]⟩

theorem p254 : ChunkOk c254 r254 := by intro v older; kernel_rfl
theorem k254 : r254.known = some t254 := by kernel_rfl
theorem n254 : t254.name = String.ofList ['P', 'a', 'r', 'c', 'e', 'l', 'D', 'w', 'e', 'l', 'l', 'R', 'e', 'q', 'u', 'e', 's', 't'] := by kernel_rfl

/-- The names of the blocks and variables of `ParcelDwellRequest`. -/
def b254 : List (List Char × List (List Char)) :=
  [(['A', 'g', 'e', 'n', 't', 'D', 'a', 't', 'a'], [['A', 'g', 'e', 'n', 't', 'I', 'D'], ['S', 'e', 's', 's', 'i', 'o', 'n', 'I', 'D']]),
   (['D', 'a', 't', 'a'], [['L', 'o', 'c', 'a', 'l', 'I', 'D'], ['P', 'a', 'r', 'c', 'e', 'l', 'I', 'D']])]

theorem w254 : Checked t254 := ⟨b254, by kernel_rfl, by kernel_rfl, by kernel_rfl⟩

/-- Lines of `message_template.msg` up to the end of `ParcelDwellReply`. -/
def c255 : List (List Char) :=
  [chars! "",
   chars! "",
   chars! "// dataserver -> sim -> viewer",
   chars! "// reliable",
   chars! "{",
   chars! "\tParcelDwellReply Low 219 Trusted Unencoded",
   chars! "\t{",
   chars! "\t\tAgentData\tSingle",
   chars! "\t\t{\tAgentID\t\tLLUUID\t\t}",
   chars! "\t}",
   chars! "\t{",
   chars! "\t\tData\t\tSingle",
   chars! "\t\t{\tLocalID\t\tS32\t\t\t}",
   chars! "\t\t{\tParcelID\tLLUUID\t\t}",
   chars! "\t\t{\tDwell\t\tF32\t\t\t}",
   chars! "\t}",
   chars! "}"]

/-- `ParcelDwellReply` as the parser creates it. -/
def r255 : RawTemplate :=
  ⟨"ParcelDwellReply", .low, 219, [255, 255, 219], some .trusted, some .unencoded, some .notDeprecated,
    [⟨"Data", .single, 0, [⟨"Dwell", some .f32, some 4⟩, ⟨"ParcelID", some .uuid, some 16⟩, ⟨"LocalID", some .s32, some 4⟩]⟩,
     ⟨"AgentData", .single, 0, [⟨"AgentID", some .uuid, some 16⟩]⟩]⟩

/-- `ParcelDwellReply` in file order. -/
def t255 : Template :=
  ⟨"ParcelDwellReply", .low, 219, [], some .trusted, some .unencoded, some .notDeprecated,
    [⟨"AgentData", .single, 0, [⟨"AgentID", .uuid, 16⟩]⟩,
     ⟨"Data", .single, 0, [⟨"LocalID", .s32, 4⟩, ⟨"ParcelID", .uuid, 16⟩, ⟨"Dwell", .f32, 4⟩]⟩]⟩

theorem p255 : ChunkOk c255 r255 := by intro v older; kernel_rfl
theorem k255 : r255.known = some t255 := by kernel_rfl
theorem n255 : t255.name = String.ofList ['P', 'a', 'r', 'c', 'e', 'l', 'D', 'w', 'e', 'l', 'l', 'R', 'e', 'p', 'l', 'y'] := by kernel_rfl

/-- The names of the blocks and variables of `ParcelDwellReply`. -/
def b255 : List (List Char × List (List Char)) :=
  [(['A', 'g', 'e', 'n', 't', 'D', 'a', 't', 'a'], [['A', 'g', 'e', 'n', 't', 'I', 'D']]),
   (['D', 'a', 't', 'a'], [['L', 'o', 'c', 'a', 'l', 'I', 'D'], ['P', 'a', 'r', 'c', 'e', 'l', 'I', 'D'], ['D', 'w', 'e', 'l', 'l']])]

theorem w255 : Checked t255 := ⟨b255, by kernel_rfl, by kernel_rfl, by kernel_rfl⟩

/-- Lines of `message_template.msg` up to the end of `RequestParcelTransfer`. -/
def c256 : List (List Char) :=
  [chars! "",
   chars! "// sim -> dataserver",
   chars! "// This message is used to check if a user can buy a parcel. If",
   chars! "// successful, the transaction is approved through a money balance reply",
   chars! "// with the same transaction id. ",
   chars! "{",
   chars! "\tRequestParcelTransfer\tLow\t220 Trusted Zerocoded",
   chars! "\t{",
   chars! "\t\tData\tSingle",
   chars! "\t\t{\tTransactionID\tLLUUID\t}",
   chars! "\t\t{ \tTransactionTime\tU32\t} // utc seconds since epoch",
   chars! "\t\t{\tSourceID\t\tLLUUID  }",
   chars! "\t\t{\tDestID\t\t\tLLUUID\t}",
   chars! "\t\t{\tOwnerID\t\t\tLLUUID\t}",
   chars! "\t\t{\tFlags\t\t\tU8\t\t}\t// see lltransactiontypes.h",
   chars! "\t\t{\tTransactionType\tS32\t\t}\t// see lltransactiontypes.h",
   chars! "\t\t{\tAmount\t\t\tS32\t\t}",
   chars! "\t\t{\tBillableArea\tS32\t\t}",
   chars! "\t\t{\tActualArea\t\tS32\t\t}",
   chars! "\t\t{\tFinal\t\t\tBOOL\t}  // true if buyer should be in tier",
   chars! "\t}",
   chars! "    {",
   chars! "       RegionData Single  // included so region name shows up in transaction logs",
   chars! "       {   RegionID   LLUUID }",
   chars! "       {   GridX      U32    }",
   chars! "       {   GridY      U32    }",
   chars! "    }",
   chars! "}"]

/-- `RequestParcelTransfer` as the parser creates it. -/
def r256 : RawTemplate :=
  ⟨"RequestParcelTransfer", .low, 220, [255, 255, 220], some .trusted, some .zerocoded, some .notDeprecated,
    [⟨"RegionData", .single, 0, [⟨"GridY", some .u32, some 4⟩, ⟨"GridX", some .u32, some 4⟩, ⟨"RegionID", some .uuid, some 16⟩]⟩,
     ⟨"Data", .single, 0, [⟨"Final", some .bool, some 1⟩, ⟨"ActualArea", some .s32, some 4⟩, ⟨"BillableArea", some .s32, some 4⟩, ⟨"Amount", some .s32, some 4⟩, ⟨"TransactionType", some .s32, some 4⟩, ⟨"Flags", some .u8, some 1⟩, ⟨"OwnerID", some .uuid, some 16⟩, ⟨"DestID", some .uuid, some 16⟩, ⟨"SourceID", some .uuid, some 16⟩, ⟨"TransactionTime", some .u32, some 4⟩, ⟨"TransactionID", some .uuid, some 16⟩]⟩]⟩

/-- `RequestParcelTransfer` in file order. -/
def t256 : Template :=
  ⟨"RequestParcelTransfer", .low, 220, [], some .trusted, some .zerocoded, some .notDeprecated,
    [⟨"Data", .single, 0, [⟨"TransactionID", .uuid, 16⟩, ⟨"TransactionTime", .u32, 4⟩, ⟨"SourceID", .uuid, 16⟩, ⟨"DestID", .uuid, 16⟩, ⟨"OwnerID", .uuid, 16⟩, ⟨"Flags", .u8, 1⟩, ⟨"TransactionType", .s32, 4⟩, ⟨"Amount", .s32, 4⟩, ⟨"BillableArea", .s32, 4⟩, ⟨"ActualArea", .s32, 4⟩, ⟨"Final", .bool, 1⟩]⟩,
     ⟨"RegionData", .single, 0, [⟨"RegionID", .uuid, 16⟩, ⟨"GridX", .u32, 4⟩, ⟨"GridY", .u32, 4⟩]⟩]⟩

theorem p256 : ChunkOk c256 r256 := by intro v older; kernel_rfl
theorem k256 : r256.known = some t256 := by kernel_rfl
theorem n256 : t256.name = String.ofList ['R', 'e', 'q', 'u', 'e', 's', 't', 'P', 'a', 'r', 'c', 'e', 'l', 'T', 'r', 'a', 'n', 's', 'f', 'e', 'r'] := by kernel_rfl

/-- The names of the blocks and variables of `RequestParcelTransfer`. -/
def b256 : List (List Char × List (List Char)) :=
  [(['D', 'a', 't', 'a'], [['T', 'r', 'a', 'n', 's', 'a', 'c', 't', 'i', 'o', 'n', 'I', 'D'], ['T', 'r', 'a', 'n', 's', 'a', 'c', 't', 'i', 'o', 'n', 'T', 'i', 'm', 'e'], ['S', 'o', 'u', 'r', 'c', 'e', 'I', 'D'], ['D', 'e', 's', 't', 'I', 'D'], ['O', 'w', 'n', 'e', 'r', 'I', 'D'], ['F', 'l', 'a', 'g', 's'], ['T', 'r', 'a', 'n', 's', 'a', 'c', 't', 'i', 'o', 'n', 'T', 'y', 'p', 'e'], ['A', 'm', 'o', 'u', 'n', 't'], ['B', 'i', 'l', 'l', 'a', 'b', 'l', 'e', 'A', 'r', 'e', 'a'], ['A', 'c', 't', 'u', 'a', 'l', 'A', 'r', 'e', 'a'], ['F', 'i', 'n', 'a', 'l']]),
   (['R', 'e', 'g', 'i', 'o', 'n', 'D', 'a', 't', 'a'], [['R', 'e', 'g', 'i', 'o', 'n', 'I', 'D'], ['G', 'r', 'i', 'd', 'X'], ['G', 'r', 'i', 'd', 'Y']])]

theorem w256 : Checked t256 := ⟨b256, by kernel_rfl, by kernel_rfl, by kernel_rfl⟩

/-- Lines of `message_template.msg` up to the end of `UpdateParcel`. -/
def c257 : List (List Char) :=
  [chars! "",
   chars! "// sim ->dataserver",
   chars! "// This message is used to send up complete parcel properties for",
   chars! "// persistance in the database.",
   chars! "// If you add something here, you should probably also change the",
   chars! "// simulator's database update query on startup.",
   chars! "{",
   chars! "\tUpdateParcel Low 221 Trusted Zerocoded",
   chars! "\t{",
   chars! "\t\tParcelData \t\tSingle",
   chars! "\t\t{\tParcelID\t\tLLUUID\t\t}",
   chars! "\t\t{\tRegionHandle\tU64\t\t\t}",
   chars! "\t\t{\tOwnerID\t\t\tLLUUID\t\t}",
   chars! "\t\t{\tGroupOwned\t\tBOOL\t\t}",
   chars! "\t\t{\tStatus\t\t\tU8\t\t\t}",
   chars! "\t\t{\tName\t\t\tVariable 1\t}",
   chars! "\t\t{\tDescription\t\tVariable 1\t}",
   chars! "\t\t{\tMusicURL\t\tVariable 1\t}",
   chars! "\t\t{\tRegionX\t\t\tF32\t\t\t}",
   chars! "\t\t{\tRegionY\t\t\tF32\t\t\t}",
   chars! "\t\t{\tActualArea\t\tS32\t\t\t}",
   chars! "\t\t{\tBillableArea\tS32\t\t\t}",
   chars! "\t\t{\tShowDir\t\t\tBOOL\t\t}",
   chars! "\t\t{\tIsForSale\t\tBOOL\t\t}",
   chars! "\t\t{\tCategory\t\tU8\t\t\t}",
   chars! "\t\t{\tSnapshotID\t\tLLUUID\t\t}",
   chars! "\t\t{\tUserLocation\tLLVector3\t}",
   chars! "\t\t{\tSalePrice\t\tS32\t\t\t}",
   chars! "\t\t{\tAuthorizedBuyerID\tLLUUID\t\t}",
   chars! "\t\t{\tAllowPublish\tBOOL\t\t}",
   chars! "\t\t{\tMaturePublish\tBOOL\t\t}",
   chars! "\t}",
   chars! "}"]

/-- `UpdateParcel` as the parser creates it. -/
def r257 : RawTemplate :=
  ⟨"UpdateParcel", .low, 221, [255, 255, 221], some .trusted, some .zerocoded, some .notDeprecated,
    [⟨"ParcelData", .single, 0, [⟨"MaturePublish", some .bool, some 1⟩, ⟨"AllowPublish", some .bool, some 1⟩, ⟨"AuthorizedBuyerID", some .uuid, some 16⟩, ⟨"SalePrice", some .s32, some 4⟩, ⟨"UserLocation", some .vector3, some 12⟩, ⟨"SnapshotID", some .uuid, some 16⟩, ⟨"Category", some .u8, some 1⟩, ⟨"IsForSale", some .bool, some 1⟩, ⟨"ShowDir", some .bool, some 1⟩, ⟨"BillableArea", some .s32, some 4⟩, ⟨"ActualArea", some .s32, some 4⟩, ⟨"RegionY", some .f32, some 4⟩, ⟨"RegionX", some .f32, some 4⟩, ⟨"MusicURL", some .variable, some 1⟩, ⟨"Description", some .variable, some 1⟩, ⟨"Name", some .variable, some 1⟩, ⟨"Status", some .u8, some 1⟩, ⟨"GroupOwned", some .bool, some 1⟩, ⟨"OwnerID", some .uuid, some 16⟩, ⟨"RegionHandle", some .u64, some 8⟩, ⟨"ParcelID", some .uuid, some 16⟩]⟩]⟩

/-- `UpdateParcel` in file order. -/
def t257 : Template :=
  ⟨"UpdateParcel", .low, 221, [], some .trusted, some .zerocoded, some .notDeprecated,
    [⟨"ParcelData", .single, 0, [⟨"ParcelID", .uuid, 16⟩, ⟨"RegionHandle", .u64, 8⟩, ⟨"OwnerID", .uuid, 16⟩, ⟨"GroupOwned", .bool, 1⟩, ⟨"Status", .u8, 1⟩, ⟨"Name", .variable, 1⟩, ⟨"Description", .variable, 1⟩, ⟨"MusicURL", .variable, 1⟩, ⟨"RegionX", .f32, 4⟩, ⟨"RegionY", .f32, 4⟩, ⟨"ActualArea", .s32, 4⟩, ⟨"BillableArea", .s32, 4⟩, ⟨"ShowDir", .bool, 1⟩, ⟨"IsForSale", .bool, 1⟩, ⟨"Category", .u8, 1⟩, ⟨"SnapshotID", .uuid, 16⟩, ⟨"UserLocation", .vector3, 12⟩, ⟨"SalePrice", .s32, 4⟩, ⟨"AuthorizedBuyerID", .uuid, 16⟩, ⟨"AllowPublish", .bool, 1⟩, ⟨"MaturePublish", .bool, 1⟩]⟩]⟩

theorem p257 : ChunkOk c257 r257 := by intro v older; kernel_rfl
theorem k257 : r257.known = some t257 := by kernel_rfl
theorem n257 : t257.name = String.ofList ['U', 'p', 'd', 'a', 't', 'e', 'P', 'a', 'r', 'c', 'e', 'l'] := by kernel_rfl

/-- The names of the blocks and variables of `UpdateParcel`. -/
def b257 : List (List Char × List (List Char)) :=
  [(['P', 'a', 'r', 'c', 'e', 'l', 'D', 'a', 't', 'a'], [['P', 'a', 'r', 'c', 'e', 'l', 'I', 'D'], ['R', 'e', 'g', 'i', 'o', 'n', 'H', 'a', 'n', 'd', 'l', 'e'], ['O', 'w', 'n', 'e', 'r', 'I', 'D'], ['G', 'r', 'o', 'u', 'p', 'O', 'w', 'n', 'e', 'd'], ['S', 't', 'a', 't', 'u', 's'], ['N', 'a', 'm', 'e'], ['D', 'e', 's', 'c', 'r', 'i', 'p', 't', 'i', 'o', 'n'], ['M', 'u', 's', 'i', 'c', 'U', 'R', 'L'], ['R', 'e', 'g', 'i', 'o', 'n', 'X'], ['R', 'e', 'g', 'i', 'o', 'n', 'Y'], ['A', 'c', 't', 'u', 'a', 'l', 'A', 'r', 'e', 'a'], ['B', 'i', 'l', 'l', 'a', 'b', 'l', 'e', 'A', 'r', 'e', 'a'], ['S', 'h', 'o', 'w', 'D', 'i', 'r'], ['I', 's', 'F', 'o', 'r', 'S', 'a', 'l', 'e'], ['C', 'a', 't', 'e', 'g', 'o', 'r', 'y'], ['S', 'n', 'a', 'p', 's', 'h', 'o', 't', 'I', 'D'], ['U', 's', 'e', 'r', 'L', 'o', 'c', 'a', 't', 'i', 'o', 'n'], ['S', 'a', 'l', 'e', 'P', 'r', 'i', 'c', 'e'], ['A', 'u', 't', 'h', 'o', 'r', 'i', 'z', 'e', 'd', 'B', 'u', 'y', 'e', 'r', 'I', 'D'], ['A', 'l', 'l', 'o', 'w', 'P', 'u', 'b', 'l', 'i', 's', 'h'], ['M', 'a', 't', 'u', 'r', 'e', 'P', 'u', 'b', 'l', 'i', 's', 'h']])]

theorem w257 : Checked t257 := ⟨b257, by kernel_rfl, by kernel_rfl, by kernel_rfl⟩

/-- Lines of `message_template.msg` up to the end of `RemoveParcel`. -/
def c258 : List (List Char) :=
  [chars! "",
   chars! "// sim -> dataserver or space ->sim",
   chars! "// This message is used to tell the dataserver that a parcel has been",
   chars! "// removed.",
   chars! "{",
   chars! "\tRemoveParcel Low 222 Trusted Unencoded",
   chars! "\t{",
   chars! "\t\tParcelData \t\tVariable",
   chars! "\t\t{\tParcelID\tLLUUID\t}",
   chars! "\t}",
   chars! "}"]

/-- `RemoveParcel` as the parser creates it. -/
def r258 : RawTemplate :=
  ⟨"RemoveParcel", .low, 222, [255, 255, 222], some .trusted, some .unencoded, some .notDeprecated,
    [⟨"ParcelData", .variable, 0, [⟨"ParcelID", some .uuid, some 16⟩]⟩]⟩

/-- `RemoveParcel` in file order. -/
def t258 : Template :=
  ⟨"RemoveParcel", .low, 222, [], some .trusted, some .unencoded, some .notDeprecated,
    [⟨"ParcelData", .variable, 0, [⟨"ParcelID", .uuid, 16⟩]⟩]⟩

theorem p258 : ChunkOk c258 r258 := by intro v older; kernel_rfl
theorem k258 : r258.known = some t258 := by kernel_rfl
theorem n258 : t258.name = String.ofList ['R', 'e', 'm', 'o', 'v', 'e', 'P', 'a', 'r', 'c', 'e', 'l'] := by kernel_rfl

/-- The names of the blocks and variables of `RemoveParcel`. -/
def b258 : List (List Char × List (List Char)) :=
  [(['P', 'a', 'r', 'c', 'e', 'l', 'D', 'a', 't', 'a'], [['P', 'a', 'r', 'c', 'e', 'l', 'I', 'D']])]

theorem w258 : Checked t258 := ⟨b258, by kernel_rfl, by kernel_rfl, by kernel_rfl⟩

/-- Lines of `message_template.msg` up to the end of `MergeParcel`. -/
def c259 : List (List Char) :=
  [chars! "",
   chars! "// sim -> dataserver",
   chars! "// Merges some of the database information for parcels (dwell).",
   chars! "{",
   chars! "\tMergeParcel Low 223 Trusted Unencoded",
   chars! "\t{",
   chars! "\t\tMasterParcelData\tSingle",
   chars! "\t\t{\tMasterID\tLLUUID\t}",
   chars! "\t}",
   chars! "\t{",
   chars! "\t\tSlaveParcelData \tVariable",
   chars! "\t\t{\tSlaveID\t\tLLUUID\t}",
   chars! "\t}",
   chars! "}"]

/-- `MergeParcel` as the parser creates it. -/
def r259 : RawTemplate :=
  ⟨"MergeParcel", .low, 223, [255, 255, 223], some .trusted, some .unencoded, some .notDeprecated,
    [⟨"SlaveParcelData", .variable, 0, [⟨"SlaveID", some .uuid, some 16⟩]⟩,
     ⟨"MasterParcelData", .single, 0, [⟨"MasterID", some .uuid, some 16⟩]⟩]⟩

/-- `MergeParcel` in file order. -/
def t259 : Template :=
  ⟨"MergeParcel", .low, 223, [], some .trusted, some .unencoded, some .notDeprecated,
    [⟨"MasterParcelData", .single, 0, [⟨"MasterID", .uuid, 16⟩]⟩,
     ⟨"SlaveParcelData", .variable, 0, [⟨"SlaveID", .uuid, 16⟩]⟩]⟩

theorem p259 : ChunkOk c259 r259 := by intro v older; kernel_rfl
theorem k259 : r259.known = some t259 := by kernel_rfl
theorem n259 : t259.name = String.ofList ['M', 'e', 'r', 'g', 'e', 'P', 'a', 'r', 'c', 'e', 'l'] := by kernel_rfl

/-- The names of the blocks and variables of `MergeParcel`. -/
def b259 : List (List Char × List (List Char)) :=
  [(['M', 'a', 's', 't', 'e', 'r', 'P', 'a', 'r', 'c', 'e', 'l', 'D', 'a', 't', 'a'], [['M', 'a', 's', 't', 'e', 'r', 'I', 'D']]),
   (['S', 'l', 'a', 'v', 'e', 'P', 'a', 'r', 'c', 'e', 'l', 'D', 'a', 't', 'a'], [['S', 'l', 'a', 'v', 'e', 'I', 'D']])]

theorem w259 : Checked t259 := ⟨b259, by kernel_rfl, by kernel_rfl, by kernel_rfl⟩

/-- Lines of `message_template.msg` up to the end of `LogParcelChanges`. -/
def c260 : List (List Char) :=
  [chars! "",
   chars! "// sim -> dataserver",
   chars! "{",
   chars! "\tLogParcelChanges\tLow\t224 Trusted\tZerocoded",
   chars! "\t{",
   chars! "\t\tAgentData\t\tSingle",
   chars! "\t\t{\tAgentID\t\tLLUUID\t}",
   chars! "\t}",
   chars! "\t{",
   chars! "\t\tRegionData\t\tSingle",
   chars! "\t\t{\tRegionHandle\tU64\t\t}",
   chars! "\t}",
   chars! "\t{",
   chars! "\t\tParcelData\t\tVariable",
   chars! "\t\t{\tParcelID\t\tLLUUID\t}",
   chars! "\t\t{\tOwnerID\t\t\tLLUUID\t}",
   chars! "\t\t{\tIsOwnerGroup\tBOOL\t}",
   chars! "\t\t{\tActualArea\t\tS32\t\t}",
   chars! "\t\t{\tAction\t\t\tS8\t\t}",
   chars! "\t\t{\tTransactionID\tLLUUID\t}",
   chars! "\t}",
   chars! "}"]

/-- `LogParcelChanges` as the parser creates it. -/
def r260 : RawTemplate :=
  ⟨"LogParcelChanges", .low, 224, [255, 255, 224], some .trusted, some .zerocoded, some .notDeprecated,
    [⟨"ParcelData", .variable, 0, [⟨"TransactionID", some .uuid, some 16⟩, ⟨"Action", some .s8, some 1⟩, ⟨"ActualArea", some .s32, some 4⟩, ⟨"IsOwnerGroup", some .bool, some 1⟩, ⟨"OwnerID", some .uuid, some 16⟩, ⟨"ParcelID", some .uuid, some 16⟩]⟩,
     ⟨"RegionData", .single, 0, [⟨"RegionHandle", some .u64, some 8⟩]⟩,
     ⟨"AgentData", .single, 0, [⟨"AgentID", some .uuid, some 16⟩]⟩]⟩

/-- `LogParcelChanges` in file order. -/
def t260 : Template :=
  ⟨"LogParcelChanges", .low, 224, [], some .trusted, some .zerocoded, some .notDeprecated,
    [⟨"AgentData", .single, 0, [⟨"AgentID", .uuid, 16⟩]⟩,
     ⟨"RegionData", .single, 0, [⟨"RegionHandle", .u64, 8⟩]⟩,
     ⟨"ParcelData", .variable, 0, [⟨"ParcelID", .uuid, 16⟩, ⟨"OwnerID", .uuid, 16⟩, ⟨"IsOwnerGroup", .bool, 1⟩, ⟨"ActualArea", .s32, 4⟩, ⟨"Action", .s8, 1⟩, ⟨"TransactionID", .uuid, 16⟩]⟩]⟩

theorem p260 : ChunkOk c260 r260 := by intro v older; kernel_rfl
theorem k260 : r260.known = some t260 := by kernel_rfl
theorem n260 : t260.name = String.ofList ['L', 'o', 'g', 'P', 'a', 'r', 'c', 'e', 'l', 'C', 'h', 'a', 'n', 'g', 'e', 's'] := by kernel_rfl

/-- The names of the blocks and variables of `LogParcelChanges`. -/
def b260 : List (List Char × List (List Char)) :=
  [(['A', 'g', 'e', 'n', 't', 'D', 'a', 't', 'a'], [['A', 'g', 'e', 'n', 't', 'I', 'D']]),
   (['R', 'e', 'g', 'i', 'o', 'n', 'D', 'a', 't', 'a'], [['R', 'e', 'g', 'i', 'o', 'n', 'H', 'a', 'n', 'd', 'l', 'e']]),
   (['P', 'a', 'r', 'c', 'e', 'l', 'D', 'a', 't', 'a'], [['P', 'a', 'r', 'c', 'e', 'l', 'I', 'D'], ['O', 'w', 'n', 'e', 'r', 'I', 'D'], ['I', 's', 'O', 'w', 'n', 'e', 'r', 'G', 'r', 'o', 'u', 'p'], ['A', 'c', 't', 'u', 'a', 'l', 'A', 'r', 'e', 'a'], ['A', 'c', 't', 'i', 'o', 'n'], ['T', 'r', 'a', 'n', 's', 'a', 'c', 't', 'i', 'o', 'n', 'I', 'D']])]

theorem w260 : Checked t260 := ⟨b260, by kernel_rfl, by kernel_rfl, by kernel_rfl⟩

/-- Lines of `message_template.msg` up to the end of `CheckParcelSales`. -/
def c261 : List (List Char) :=
  [chars! "",
   chars! "// sim -> dataserver",
   chars! "{",
   chars! "\tCheckParcelSales\tLow\t225 Trusted Unencoded",
   chars! "\t{",
   chars! "\t\tRegionData \t\tVariable",
   chars! "\t\t{\tRegionHandle\tU64\t}",
   chars! "\t}",
   chars! "}"]

/-- `CheckParcelSales` as the parser creates it. -/
def r261 : RawTemplate :=
  ⟨"CheckParcelSales", .low, 225, [255, 255, 225], some .trusted, some .unencoded, some .notDeprecated,
    [⟨"RegionData", .variable, 0, [⟨"RegionHandle", some .u64, some 8⟩]⟩]⟩

/-- `CheckParcelSales` in file order. -/
def t261 : Template :=
  ⟨"CheckParcelSales", .low, 225, [], some .trusted, some .unencoded, some .notDeprecated,
    [⟨"RegionData", .variable, 0, [⟨"RegionHandle", .u64, 8⟩]⟩]⟩

theorem p261 : ChunkOk c261 r261 := by intro v older; kernel_rfl
theorem k261 : r261.known = some t261 := by kernel_rfl
theorem n261 : t261.name = String.ofList ['C', 'h', 'e', 'c', 'k', 'P', 'a', 'r', 'c', 'e', 'l', 'S', 'a', 'l', 'e', 's'] := by kernel_rfl

/-- The names of the blocks and variables of `CheckParcelSales`. -/
def b261 : List (List Char × List (List Char)) :=
  [(['R', 'e', 'g', 'i', 'o', 'n', 'D', 'a', 't', 'a'], [['R', 'e', 'g', 'i', 'o', 'n', 'H', 'a', 'n', 'd', 'l', 'e']])]

theorem w261 : Checked t261 := ⟨b261, by kernel_rfl, by kernel_rfl, by kernel_rfl⟩

/-- Lines of `message_template.msg` up to the end of `ParcelSales`. -/
def c262 : List (List Char) :=
  [chars! "",
   chars! "// dataserver -> simulator",
   chars! "// tell a particular simulator to finish parcel sale.",
   chars! "{",
   chars! "\tParcelSales\tLow\t226 Trusted Unencoded",
   chars! "\t{",
   chars! "\t\tParcelData \t\tVariable",
   chars! "\t\t{\tParcelID\t\tLLUUID\t}",
   chars! "\t\t{\tBuyerID\t\t\tLLUUID\t}",
   chars! "\t}",
   chars! "}"]

/-- `ParcelSales` as the parser creates it. -/
def r262 : RawTemplate :=
  ⟨"ParcelSales", .low, 226, [255, 255, 226], some .trusted, some .unencoded, some .notDeprecated,
    [⟨"ParcelData", .variable, 0, [⟨"BuyerID", some .uuid, some 16⟩, ⟨"ParcelID", some .uuid, some 16⟩]⟩]⟩

/-- `ParcelSales` in file order. -/
def t262 : Template :=
  ⟨"ParcelSales", .low, 226, [], some .trusted, some .unencoded, some .notDeprecated,
    [⟨"ParcelData", .variable, 0, [⟨"ParcelID", .uuid, 16⟩, ⟨"BuyerID", .uuid, 16⟩]⟩]⟩

theorem p262 : ChunkOk c262 r262 := by intro v older; kernel_rfl
theorem k262 : r262.known = some t262 := by kernel_rfl
theorem n262 : t262.name = String.ofList ['P', 'a', 'r', 'c', 'e', 'l', 'S', 'a', 'l', 'e', 's'] := by kernel_rfl

/-- The names of the blocks and variables of `ParcelSales`. -/
def b262 : List (List Char × List (List Char)) :=
  [(['P', 'a', 'r', 'c', 'e', 'l', 'D', 'a', 't', 'a'], [['P', 'a', 'r', 'c', 'e', 'l', 'I', 'D'], ['B', 'u', 'y', 'e', 'r', 'I', 'D']])]

theorem w262 : Checked t262 := ⟨b262, by kernel_rfl, by kernel_rfl, by kernel_rfl⟩

/-- Lines of `message_template.msg` up to the end of `ParcelGodMarkAsContent`. -/
def c263 : List (List Char) :=
  [chars! "",
   chars! "// viewer -> sim",
   chars! "// mark parcel and double secret agent content on parcel as owned by",
   chars! "// governor/maint and adjusts permissions approriately. Godlike request.",
   chars! "{",
   chars! "\tParcelGodMarkAsContent Low 227 NotTrusted Unencoded",
   chars! "\t{",
   chars! "\t\tAgentData\tSingle",
   chars! "\t\t{\tAgentID\t\tLLUUID\t}",
   chars! "\t\t{\tSessionID\tLLUUID\t}",
   chars! "\t}",
   chars! "\t{",
   chars! "\t\tParcelData\tSingle",
   chars! "\t\t{\tLocalID\t\tS32\t\t}",
   chars! "\t}",
   chars! "}"]

/-- `ParcelGodMarkAsContent` as the parser creates it. -/
def r263 : RawTemplate :=
  ⟨"ParcelGodMarkAsContent", .low, 227, [255, 255, 227], some .notTrusted, some .unencoded, some .notDeprecated,
    [⟨"ParcelData", .single, 0, [⟨"LocalID", some .s32, some 4⟩]⟩,
     ⟨"AgentData", .single, 0, [⟨"SessionID", some .uuid, some 16⟩, ⟨"AgentID", some .uuid, some 16⟩]⟩]⟩

/-- `ParcelGodMarkAsContent` in file order. -/
def t263 : Template :=
  ⟨"ParcelGodMarkAsContent", .low, 227, [], some .notTrusted, some .unencoded, some .notDeprecated,
    [⟨"AgentData", .single, 0, [⟨"AgentID", .uuid, 16⟩, ⟨"SessionID", .uuid, 16⟩]⟩,
     ⟨"ParcelData", .single, 0, [⟨"LocalID", .s32, 4⟩]⟩]⟩

theorem p263 : ChunkOk c263 r263 := by intro v older; kernel_rfl
theorem k263 : r263.known = some t263 := by kernel_rfl
theorem n263 : t263.name = String.ofList ['P', 'a', 'r', 'c', 'e', 'l', 'G', 'o', 'd', 'M', 'a', 'r', 'k', 'A', 's', 'C', 'o', 'n', 't', 'e', 'n', 't'] := by kernel_rfl

/-- The names of the blocks and variables of `ParcelGodMarkAsContent`. -/
def b263 : List (List Char × List (List Char)) :=
  [(['A', 'g', 'e', 'n', 't', 'D', 'a', 't', 'a'], [['A', 'g', 'e', 'n', 't', 'I', 'D'], ['S', 'e', 's', 's', 'i', 'o', 'n', 'I', 'D']]),
   (['P', 'a', 'r', 'c', 'e', 'l', 'D', 'a', 't', 'a'], [['L', 'o', 'c', 'a', 'l', 'I', 'D']])]

theorem w263 : Checked t263 := ⟨b263, by kernel_rfl, by kernel_rfl, by kernel_rfl⟩

/-- Lines of `message_template.msg` up to the end of `ViewerStartAuction`. -/
def c264 : List (List Char) :=
  [chars! "",
   chars! "",
   chars! "// viewer -> sim",
   chars! "// start an auction. viewer fills in the appropriate date, simulator",
   chars! "// validates and fills in the rest of the information to start an auction",
   chars! "// on a parcel. Processing currently requires that AgentID is a god.",
   chars! "{",
   chars! "\tViewerStartAuction\tLow 228 NotTrusted Unencoded",
   chars! "\t{",
   chars! "\t\tAgentData\tSingle",
   chars! "\t\t{\tAgentID\t\tLLUUID\t}",
   chars! "\t\t{\tSessionID\tLLUUID\t}",
   chars! "\t}",
   chars! "\t{",
   chars! "\t\tParcelData\tSingle",
   chars! "\t\t{\tLocalID\t\tS32\t\t}",
   chars! "\t\t{\tSnapshotID\tLLUUID\t}",
   chars! "\t}",
   chars! "}"]

/-- `ViewerStartAuction` as the parser creates it. -/
def r264 : RawTemplate :=
  ⟨"ViewerStartAuction", .low, 228, [255, 255, 228], some .notTrusted, some .unencoded, some .notDeprecated,
    [⟨"ParcelData", .single, 0, [⟨"SnapshotID", some .uuid, some 16⟩, ⟨"LocalID", some .s32, some 4⟩]⟩,
     ⟨"AgentData", .single, 0, [⟨"SessionID", some .uuid, some 16⟩, ⟨"AgentID", some .uuid, some 16⟩]⟩]⟩

/-- `ViewerStartAuction` in file order. -/
def t264 : Template :=
  ⟨"ViewerStartAuction", .low, 228, [], some .notTrusted, some .unencoded, some .notDeprecated,
    [⟨"AgentData", .single, 0, [⟨"AgentID", .uuid, 16⟩, ⟨"SessionID", .uuid, 16⟩]⟩,
     ⟨"ParcelData", .single, 0, [⟨"LocalID", .s32, 4⟩, ⟨"SnapshotID", .uuid, 16⟩]⟩]⟩

theorem p264 : ChunkOk c264 r264 := by intro v older; kernel_rfl
theorem k264 : r264.known = some t264 := by kernel_rfl
theorem n264 : t264.name = String.ofList ['V', 'i', 'e', 'w', 'e', 'r', 'S', 't', 'a', 'r', 't', 'A', 'u', 'c', 't', 'i', 'o', 'n'] := by kernel_rfl

/-- The names of the blocks and variables of `ViewerStartAuction`. -/
def b264 : List (List Char × List (List Char)) :=
  [(['A', 'g', 'e', 'n', 't', 'D', 'a', 't', 'a'], [['A', 'g', 'e', 'n', 't', 'I', 'D'], ['S', 'e', 's', 's', 'i', 'o', 'n', 'I', 'D']]),
   (['P', 'a', 'r', 'c', 'e', 'l', 'D', 'a', 't', 'a'], [['L', 'o', 'c', 'a', 'l', 'I', 'D'], ['S', 'n', 'a', 'p', 's', 'h', 'o', 't', 'I', 'D']])]

theorem w264 : Checked t264 := ⟨b264, by kernel_rfl, by kernel_rfl, by kernel_rfl⟩

/-- Lines of `message_template.msg` up to the end of `StartAuction`. -/
def c265 : List (List Char) :=
  [chars! "",
   chars! "// sim -> dataserver",
   chars! "// Once all of the data has been gathered, ",
   chars! "{",
   chars! "\tStartAuction\tLow 229 Trusted Unencoded",
   chars! "\t{",
   chars! "\t\tAgentData\tSingle",
   chars! "\t\t{\tAgentID\t\tLLUUID\t}",
   chars! "\t}",
   chars! "\t{",
   chars! "\t\tParcelData\tSingle",
   chars! "\t\t{\tParcelID\tLLUUID\t}",
   chars! "\t\t{\tSnapshotID\tLLUUID\t}",
   chars! "\t\t{\tName\t\tVariable\t1\t}\t// string",
   chars! "\t}",
   chars! "}"]

/-- `StartAuction` as the parser creates it. -/
def r265 : RawTemplate :=
  ⟨"StartAuction", .low, 229, [255, 255, 229], some .trusted, some .unencoded, some .notDeprecated,
    [⟨"ParcelData", .single, 0, [⟨"Name", some .variable, some 1⟩, ⟨"SnapshotID", some .uuid, some 16⟩, ⟨"ParcelID", some .uuid, some 16⟩]⟩,
     ⟨"AgentData", .single, 0, [⟨"AgentID", some .uuid, some 16⟩]⟩]⟩

/-- `StartAuction` in file order. -/
def t265 : Template :=
  ⟨"StartAuction", .low, 229, [], some .trusted, some .unencoded, some .notDeprecated,
    [⟨"AgentData", .single, 0, [⟨"AgentID", .uuid, 16⟩]⟩,
     ⟨"ParcelData", .single, 0, [⟨"ParcelID", .uuid, 16⟩, ⟨"SnapshotID", .uuid, 16⟩, ⟨"Name", .variable, 1⟩]⟩]⟩

theorem p265 : ChunkOk c265 r265 := by intro v older; kernel_rfl
theorem k265 : r265.known = some t265 := by kernel_rfl
theorem n265 : t265.name = String.ofList ['S', 't', 'a', 'r', 't', 'A', 'u', 'c', 't', 'i', 'o', 'n'] := by kernel_rfl

/-- The names of the blocks and variables of `StartAuction`. -/
def b265 : List (List Char × List (List Char)) :=
  [(['A', 'g', 'e', 'n', 't', 'D', 'a', 't', 'a'], [['A', 'g', 'e', 'n', 't', 'I', 'D']]),
   (['P', 'a', 'r', 'c', 'e', 'l', 'D', 'a', 't', 'a'], [['P', 'a', 'r', 'c', 'e', 'l', 'I', 'D'], ['S', 'n', 'a', 'p', 's', 'h', 'o', 't', 'I', 'D'], ['N', 'a', 'm', 'e']])]

theorem w265 : Checked t265 := ⟨b265, by kernel_rfl, by kernel_rfl, by kernel_rfl⟩

/-- Lines of `message_template.msg` up to the end of `ConfirmAuctionStart`. -/
def c266 : List (List Char) :=
  [chars! "",
   chars! "// dataserver -> sim",
   chars! "{",
   chars! "\tConfirmAuctionStart\tLow\t230 Trusted\tUnencoded",
   chars! "\t{",
   chars! "\t\tAuctionData\tSingle",
   chars! "\t\t{\tParcelID\tLLUUID\t}",
   chars! "\t\t{\tAuctionID\tU32\t\t}",
   chars! "\t}",
   chars! "}"]

/-- `ConfirmAuctionStart` as the parser creates it. -/
def r266 : RawTemplate :=
  ⟨"ConfirmAuctionStart", .low, 230, [255, 255, 230], some .trusted, some .unencoded, some .notDeprecated,
    [⟨"AuctionData", .single, 0, [⟨"AuctionID", some .u32, some 4⟩, ⟨"ParcelID", some .uuid, some 16⟩]⟩]⟩

/-- `ConfirmAuctionStart` in file order. -/
def t266 : Template :=
  ⟨"ConfirmAuctionStart", .low, 230, [], some .trusted, some .unencoded, some .notDeprecated,
    [⟨"AuctionData", .single, 0, [⟨"ParcelID", .uuid, 16⟩, ⟨"AuctionID", .u32, 4⟩]⟩]⟩

theorem p266 : ChunkOk c266 r266 := by intro v older; kernel_rfl
theorem k266 : r266.known = some t266 := by kernel_rfl
theorem n266 : t266.name = String.ofList ['C', 'o', 'n', 'f', 'i', 'r', 'm', 'A', 'u', 'c', 't', 'i', 'o', 'n', 'S', 't', 'a', 'r', 't'] := by kernel_rfl

/-- The names of the blocks and variables of `ConfirmAuctionStart`. -/
def b266 : List (List Char × List (List Char)) :=
  [(['A', 'u', 'c', 't', 'i', 'o', 'n', 'D', 'a', 't', 'a'], [['P', 'a', 'r', 'c', 'e', 'l', 'I', 'D'], ['A', 'u', 'c', 't', 'i', 'o', 'n', 'I', 'D']])]

theorem w266 : Checked t266 := ⟨b266, by kernel_rfl, by kernel_rfl, by kernel_rfl⟩

/-- Lines of `message_template.msg` up to the end of `CompleteAuction`. -/
def c267 : List (List Char) :=
  [chars! "",
   chars! "// sim -> dataserver",
   chars! "// Tell the dataserver that an auction has completed.",
   chars! "{",
   chars! "\tCompleteAuction\tLow\t231 Trusted\tUnencoded",
   chars! "\t{",
   chars! "\t\tParcelData\tVariable",
   chars! "\t\t{\tParcelID\tLLUUID\t}",
   chars! "\t}",
   chars! "}"]

/-- `CompleteAuction` as the parser creates it. -/
def r267 : RawTemplate :=
  ⟨"CompleteAuction", .low, 231, [255, 255, 231], some .trusted, some .unencoded, some .notDeprecated,
    [⟨"ParcelData", .variable, 0, [⟨"ParcelID", some .uuid, some 16⟩]⟩]⟩

/-- `CompleteAuction` in file order. -/
def t267 : Template :=
  ⟨"CompleteAuction", .low, 231, [], some .trusted, some .unencoded, some .notDeprecated,
    [⟨"ParcelData", .variable, 0, [⟨"ParcelID", .uuid, 16⟩]⟩]⟩

theorem p267 : ChunkOk c267 r267 := by intro v older; kernel_rfl
theorem k267 : r267.known = some t267 := by kernel_rfl
theorem n267 : t267.name = String.ofList ['C', 'o', 'm', 'p', 'l', 'e', 't', 'e', 'A', 'u', 'c', 't', 'i', 'o', 'n'] := by kernel_rfl

/-- The names of the blocks and variables of `CompleteAuction`. -/
def b267 : List (List Char × List (List Char)) :=
  [(['P', 'a', 'r', 'c', 'e', 'l', 'D', 'a', 't', 'a'], [['P', 'a', 'r', 'c', 'e', 'l', 'I', 'D']])]

theorem w267 : Checked t267 := ⟨b267, by kernel_rfl, by kernel_rfl, by kernel_rfl⟩

/-- Lines of `message_template.msg` up to the end of `CancelAuction`. -/
def c268 : List (List Char) :=
  [chars! "",
   chars! "// Tell the dataserver that an auction has been canceled.",
   chars! "{",
   chars! "\tCancelAuction\tLow\t232 Trusted\tUnencoded",
   chars! "\t{",
   chars! "\t\tParcelData\tVariable",
   chars! "\t\t{\tParcelID\tLLUUID\t}",
   chars! "\t}",
   chars! "}"]

/-- `CancelAuction` as the parser creates it. -/
def r268 : RawTemplate :=
  ⟨"CancelAuction", .low, 232, [255, 255, 232], some .trusted, some .unencoded, some .notDeprecated,
    [⟨"ParcelData", .variable, 0, [⟨"ParcelID", some .uuid, some 16⟩]⟩]⟩

/-- `CancelAuction` in file order. -/
def t268 : Template :=
  ⟨"CancelAuction", .low, 232, [], some .trusted, some .unencoded, some .notDeprecated,
    [⟨"ParcelData", .variable, 0, [⟨"ParcelID", .uuid, 16⟩]⟩]⟩

theorem p268 : ChunkOk c268 r268 := by intro v older; kernel_rfl
theorem k268 : r268.known = some t268 := by kernel_rfl
theorem n268 : t268.name = String.ofList ['C', 'a', 'n', 'c', 'e', 'l', 'A', 'u', 'c', 't', 'i', 'o', 'n'] := by kernel_rfl

/-- The names of the blocks and variables of `CancelAuction`. -/
def b268 : List (List Char × List (List Char)) :=
  [(['P', 'a', 'r', 'c', 'e', 'l', 'D', 'a', 't', 'a'], [['P', 'a', 'r', 'c', 'e', 'l', 'I', 'D']])]

theorem w268 : Checked t268 := ⟨b268, by kernel_rfl, by kernel_rfl, by kernel_rfl⟩

/-- Lines of `message_template.msg` up to the end of `CheckParcelAuctions`. -/
def c269 : List (List Char) :=
  [chars! "",
   chars! "// sim -> dataserver",
   chars! "{",
   chars! "\tCheckParcelAuctions\tLow\t233 Trusted Unencoded",
   chars! "\t{",
   chars! "\t\tRegionData \t\tVariable",
   chars! "\t\t{\tRegionHandle\tU64\t}",
   chars! "\t}",
   chars! "}"]

/-- `CheckParcelAuctions` as the parser creates it. -/
def r269 : RawTemplate :=
  ⟨"CheckParcelAuctions", .low, 233, [255, 255, 233], some .trusted, some .unencoded, some .notDeprecated,
    [⟨"RegionData", .variable, 0, [⟨"RegionHandle", some .u64, some 8⟩]⟩]⟩

/-- `CheckParcelAuctions` in file order. -/
def t269 : Template :=
  ⟨"CheckParcelAuctions", .low, 233, [], some .trusted, some .unencoded, some .notDeprecated,
    [⟨"RegionData", .variable, 0, [⟨"RegionHandle", .u64, 8⟩]⟩]⟩

theorem p269 : ChunkOk c269 r269 := by intro v older; kernel_rfl
theorem k269 : r269.known = some t269 := by kernel_rfl
theorem n269 : t269.name = String.ofList ['C', 'h', 'e', 'c', 'k', 'P', 'a', 'r', 'c', 'e', 'l', 'A', 'u', 'c', 't', 'i', 'o', 'n', 's'] := by kernel_rfl

/-- The names of the blocks and variables of `CheckParcelAuctions`. -/
def b269 : List (List Char × List (List Char)) :=
  [(['R', 'e', 'g', 'i', 'o', 'n', 'D', 'a', 't', 'a'], [['R', 'e', 'g', 'i', 'o', 'n', 'H', 'a', 'n', 'd', 'l', 'e']])]

theorem w269 : Checked t269 := ⟨b269, by kernel_rfl, by kernel_rfl, by kernel_rfl⟩

/-- Lines of `message_template.msg` up to the end of `ParcelAuctions`. -/
def c270 : List (List Char) :=
  [chars! "",
   chars! "// dataserver -> sim",
   chars! "// tell a particular simulator to finish parcel sale.",
   chars! "{",
   chars! "\tParcelAuctions\tLow\t234 Trusted Unencoded",
   chars! "\t{",
   chars! "\t\tParcelData \t\tVariable",
   chars! "\t\t{\tParcelID\t\tLLUUID\t}",
   chars! "\t\t{\tWinnerID\t\tLLUUID\t}",
   chars! "\t}",
   chars! "}"]

/-- `ParcelAuctions` as the parser creates it. -/
def r270 : RawTemplate :=
  ⟨"ParcelAuctions", .low, 234, [255, 255, 234], some .trusted, some .unencoded, some .notDeprecated,
    [⟨"ParcelData", .variable, 0, [⟨"WinnerID", some .uuid, some 16⟩, ⟨"ParcelID", some .uuid, some 16⟩]⟩]⟩

/-- `ParcelAuctions` in file order. -/
def t270 : Template :=
  ⟨"ParcelAuctions", .low, 234, [], some .trusted, some .unencoded, some .notDeprecated,
    [⟨"ParcelData", .variable, 0, [⟨"ParcelID", .uuid, 16⟩, ⟨"WinnerID", .uuid, 16⟩]⟩]⟩

theorem p270 : ChunkOk c270 r270 := by intro v older; kernel_rfl
theorem k270 : r270.known = some t270 := by kernel_rfl
theorem n270 : t270.name = String.ofList ['P', 'a', 'r', 'c', 'e', 'l', 'A', 'u', 'c', 't', 'i', 'o', 'n', 's'] := by kernel_rfl

/-- The names of the blocks and variables of `ParcelAuctions`. -/
def b270 : List (List Char × List (List Char)) :=
  [(['P', 'a', 'r', 'c', 'e', 'l', 'D', 'a', 't', 'a'], [['P', 'a', 'r', 'c', 'e', 'l', 'I', 'D'], ['W', 'i', 'n', 'n', 'e', 'r', 'I', 'D']])]

theorem w270 : Checked t270 := ⟨b270, by kernel_rfl, by kernel_rfl, by kernel_rfl⟩

/-- Lines of `message_template.msg` up to the end of `UUIDNameRequest`. -/
def c271 : List (List Char) :=
  [chars! "",
   chars! "// ***************************************************************************",
   chars! "// UUID to name lookup",
   chars! "// ***************************************************************************",
   chars! "",
   chars! "// UUIDNameRequest",
   chars! "// Translate a UUID into first and last names",
   chars! "{",
   chars! "\tUUIDNameRequest Low 235 NotTrusted Unencoded",
   chars! "\t{",
   chars! "\t\tUUIDNameBlock\tVariable",
   chars! "\t\t{\tID\t\t\tLLUUID\t}",
   chars! "\t}",
   chars! "}"]

/-- `UUIDNameRequest` as the parser creates it. -/
def r271 : RawTemplate :=
  ⟨"UUIDNameRequest", .low, 235, [255, 255, 235], some .notTrusted, some .unencoded, some .notDeprecated,
    [⟨"UUIDNameBlock", .variable, 0, [⟨"ID", some .uuid, some 16⟩]⟩]⟩

/-- `UUIDNameRequest` in file order. -/
def t271 : Template :=
  ⟨"UUIDNameRequest", .low, 235, [], some .notTrusted, some .unencoded, some .notDeprecated,
    [⟨"UUIDNameBlock", .variable, 0, [⟨"ID", .uuid, 16⟩]⟩]⟩

theorem p271 : ChunkOk c271 r271 := by intro v older; kernel_rfl
theorem k271 : r271.known = some t271 := by kernel_rfl
theorem n271 : t271.name = String.ofList ['U', 'U', 'I', 'D', 'N', 'a', 'm', 'e', 'R', 'e', 'q', 'u', 'e', 's', 't'] := by kernel_rfl

/-- The names of the blocks and variables of `UUIDNameRequest`. -/
def b271 : List (List Char × List (List Char)) :=
  [(['U', 'U', 'I', 'D', 'N', 'a', 'm', 'e', 'B', 'l', 'o', 'c', 'k'], [['I', 'D']])]

theorem w271 : Checked t271 := ⟨b271, by kernel_rfl, by kernel_rfl, by kernel_rfl⟩

/-- Lines of `message_template.msg` up to the end of `UUIDNameReply`. -/
def c272 : List (List Char) :=
  [chars! "",
   chars! "// UUIDNameReply",
   chars! "// Translate a UUID into first and last names",
   chars! "{",
   chars! "\tUUIDNameReply Low 236 Trusted Unencoded",
   chars! "\t{",
   chars! "\t\tUUIDNameBlock\tVariable",
   chars! "\t\t{\tID\t\t\tLLUUID\t}",
   chars! "\t\t{\tFirstName\tVariable\t1\t}",
   chars! "\t\t{\tLastName\tVariable\t1\t}",
   chars! "\t}",
   chars! "}"]

/-- `UUIDNameReply` as the parser creates it. -/
def r272 : RawTemplate :=
  ⟨"UUIDNameReply", .low, 236, [255, 255, 236], some .trusted, some .unencoded, some .notDeprecated,
    [⟨"UUIDNameBlock", .variable, 0, [⟨"LastName", some .variable, some 1⟩, ⟨"FirstName", some .variable, some 1⟩, ⟨"ID", some .uuid, some 16⟩]⟩]⟩

/-- `UUIDNameReply` in file order. -/
def t272 : Template :=
  ⟨"UUIDNameReply", .low, 236, [], some .trusted, some .unencoded, some .notDeprecated,
    [⟨"UUIDNameBlock", .variable, 0, [⟨"ID", .uuid, 16⟩, ⟨"FirstName", .variable, 1⟩, ⟨"LastName", .variable, 1⟩]⟩]⟩

theorem p272 : ChunkOk c272 r272 := by intro v older; kernel_rfl
theorem k272 : r272.known = some t272 := by kernel_rfl
theorem n272 : t272.name = String.ofList ['U', 'U', 'I', 'D', 'N', 'a', 'm', 'e', 'R', 'e', 'p', 'l', 'y'] := by kernel_rfl

/-- The names of the blocks and variables of `UUIDNameReply`. -/
def b272 : List (List Char × List (List Char)) :=
  [(['U', 'U', 'I', 'D', 'N', 'a', 'm', 'e', 'B', 'l', 'o', 'c', 'k'], [['I', 'D'], ['F', 'i', 'r', 's', 't', 'N', 'a', 'm', 'e'], ['L', 'a', 's', 't', 'N', 'a', 'm', 'e']])]

theorem w272 : Checked t272 := ⟨b272, by kernel_rfl, by kernel_rfl, by kernel_rfl⟩

/-- Lines of `message_template.msg` up to the end of `UUIDGroupNameRequest`. -/
def c273 : List (List Char) :=
  [chars! "",
   chars! "// UUIDGroupNameRequest",
   chars! "// Translate a UUID into a group name",
   chars! "{",
   chars! "\tUUIDGroupNameRequest Low 237 NotTrusted Unencoded",
   chars! "\t{",
   chars! "\t\tUUIDNameBlock\tVariable",
   chars! "\t\t{\tID\t\t\tLLUUID\t}",
   chars! "\t}",
   chars! "}"]

/-- `UUIDGroupNameRequest` as the parser creates it. -/
def r273 : RawTemplate :=
  ⟨"UUIDGroupNameRequest", .low, 237, [255, 255, 237], some .notTrusted, some .unencoded, some .notDeprecated,
    [⟨"UUIDNameBlock", .variable, 0, [⟨"ID", some .uuid, some 16⟩]⟩]⟩

/-- `UUIDGroupNameRequest` in file order. -/
def t273 : Template :=
  ⟨"UUIDGroupNameRequest", .low, 237, [], some .notTrusted, some .unencoded, some .notDeprecated,
    [⟨"UUIDNameBlock", .variable, 0, [⟨"ID", .uuid, 16⟩]⟩]⟩

theorem p273 : ChunkOk c273 r273 := by intro v older; kernel_rfl
theorem k273 : r273.known = some t273 := by kernel_rfl
theorem n273 : t273.name = String.ofList ['U', 'U', 'I', 'D', 'G', 'r', 'o', 'u', 'p', 'N', 'a', 'm', 'e', 'R', 'e', 'q', 'u', 'e', 's', 't'] := by kernel_rfl

/-- The names of the blocks and variables of `UUIDGroupNameRequest`. -/
def b273 : List (List Char × List (List Char)) :=
  [(['U', 'U', 'I', 'D', 'N', 'a', 'm', 'e', 'B', 'l', 'o', 'c', 'k'], [['I', 'D']])]

theorem w273 : Checked t273 := ⟨b273, by kernel_rfl, by kernel_rfl, by kernel_rfl⟩

/-- Lines of `message_template.msg` up to the end of `UUIDGroupNameReply`. -/
def c274 : List (List Char) :=
  [chars! "",
   chars! "// UUIDGroupNameReply",
   chars! "// Translate a UUID into a group name",
   chars! "{",
   chars! "\tUUIDGroupNameReply Low 238 Trusted Unencoded",
   chars! "\t{ ",
   chars! "\t\tUUIDNameBlock\tVariable",
   chars! "\t\t{\tID\t\t\tLLUUID\t}",
   chars! "\t\t{\tGroupName\tVariable\t1\t}",
   chars! "\t}",
   chars! "}"]

/-- `UUIDGroupNameReply` as the parser creates it. -/
def r274 : RawTemplate :=
  ⟨"UUIDGroupNameReply", .low, 238, [255, 255, 238], some .trusted, some .unencoded, some .notDeprecated,
    [⟨"UUIDNameBlock", .variable, 0, [⟨"GroupName", some .variable, some 1⟩, ⟨"ID", some .uuid, some 16⟩]⟩]⟩

/-- `UUIDGroupNameReply` in file order. -/
def t274 : Template :=
  ⟨"UUIDGroupNameReply", .low, 238, [], some .trusted, some .unencoded, some .notDeprecated,
    [⟨"UUIDNameBlock", .variable, 0, [⟨"ID", .uuid, 16⟩, ⟨"GroupName", .variable, 1⟩]⟩]⟩

theorem p274 : ChunkOk c274 r274 := by intro v older; kernel_rfl
theorem k274 : r274.known = some t274 := by kernel_rfl
theorem n274 : t274.name = String.ofList ['U', 'U', 'I', 'D', 'G', 'r', 'o', 'u', 'p', 'N', 'a', 'm', 'e', 'R', 'e', 'p', 'l', 'y'] := by kernel_rfl

/-- The names of the blocks and variables of `UUIDGroupNameReply`. -/
def b274 : List (List Char × List (List Char)) :=
  [(['U', 'U', 'I', 'D', 'N', 'a', 'm', 'e', 'B', 'l', 'o', 'c', 'k'], [['I', 'D'], ['G', 'r', 'o', 'u', 'p', 'N', 'a', 'm', 'e']])]

theorem w274 : Checked t274 := ⟨b274, by kernel_rfl, by kernel_rfl, by kernel_rfl⟩

/-- Lines of `message_template.msg` up to the end of `ChatPass`. -/
def c275 : List (List Char) :=
  [chars! "",
   chars! "// end uuid to name lookup",
   chars! "",
   chars! "// ***************************************************************************",
   chars! "// Simulator to Simulator Messages",
   chars! "// ***************************************************************************",
   chars! "",
   chars! "// ChatPass",
   chars! "// Chat message transmission to neighbors",
   chars! "// Chat is region local to receiving simulator.",
   chars! "// Type is one of CHAT_TYPE_NORMAL, _WHISPER, _SHOUT",
   chars! "{",
   chars! "\tChatPass Low 239 Trusted Zerocoded",
   chars! "\t{",
   chars! "\t\tChatData\t\t\tSingle",
   chars! "\t\t{\tChannel\t\t\tS32\t}",
   chars! "\t\t{\tPosition\t\tLLVector3\t}",
   chars! "\t\t{\tID\t\t\t\tLLUUID\t}",
   chars! "\t\t{\tOwnerID\t\t\tLLUUID\t}",
   chars! "\t\t{\tName\t\t\tVariable\t1\t}",
   chars! "\t\t{\tSourceType\t\tU8\t}",
   chars! "\t\t{\tType\t\t\tU8\t}",
   chars! "\t\t{\tRadius\t\t\tF32 }",
   chars! "\t\t{\tSimAccess\t\tU8\t}",
   chars! "\t\t{\tMessage\t\t\tVariable\t2\t}",
   chars! "\t}",
   chars! "}"]

/-- `ChatPass` as the parser creates it. -/
def r275 : RawTemplate :=
  ⟨"ChatPass", .low, 239, [255, 255, 239], some .trusted, some .zerocoded, some .notDeprecated,
    [⟨"ChatData", .single, 0, [⟨"Message", some .variable, some 2⟩, ⟨"SimAccess", some .u8, some 1⟩, ⟨"Radius", some .f32, some 4⟩, ⟨"Type", some .u8, some 1⟩, ⟨"SourceType", some .u8, some 1⟩, ⟨"Name", some .variable, some 1⟩, ⟨"OwnerID", some .uuid, some 16⟩, ⟨"ID", some .uuid, some 16⟩, ⟨"Position", some .vector3, some 12⟩, ⟨"Channel", some .s32, some 4⟩]⟩]⟩

/-- `ChatPass` in file order. -/
def t275 : Template :=
  ⟨"ChatPass", .low, 239, [], some .trusted, some .zerocoded, some .notDeprecated,
    [⟨"ChatData", .single, 0, [⟨"Channel", .s32, 4⟩, ⟨"Position", .vector3, 12⟩, ⟨"ID", .uuid, 16⟩, ⟨"OwnerID", .uuid, 16⟩, ⟨"Name", .variable, 1⟩, ⟨"SourceType", .u8, 1⟩, ⟨"Type", .u8, 1⟩, ⟨"Radius", .f32, 4⟩, ⟨"SimAccess", .u8, 1⟩, ⟨"Message", .variable, 2⟩]⟩]⟩

theorem p275 : ChunkOk c275 r275 := by intro v older; kernel_rfl
theorem k275 : r275.known = some t275 := by kernel_rfl
theorem n275 : t275.name = String.ofList ['C', 'h', 'a', 't', 'P', 'a', 's', 's'] := by kernel_rfl

/-- The names of the blocks and variables of `ChatPass`. -/
def b275 : List (List Char × List (List Char)) :=
  [(['C', 'h', 'a', 't', 'D', 'a', 't', 'a'], [['C', 'h', 'a', 'n', 'n', 'e', 'l'], ['P', 'o', 's', 'i', 't', 'i', 'o', 'n'], ['I', 'D'], ['O', 'w', 'n', 'e', 'r', 'I', 'D'], ['N', 'a', 'm', 'e'], ['S', 'o', 'u', 'r', 'c', 'e', 'T', 'y', 'p', 'e'], ['T', 'y', 'p', 'e'], ['R', 'a', 'd', 'i', 'u', 's'], ['S', 'i', 'm', 'A', 'c', 'c', 'e', 's', 's'], ['M', 'e', 's', 's', 'a', 'g', 'e']])]

theorem w275 : Checked t275 := ⟨b275, by kernel_rfl, by kernel_rfl, by kernel_rfl⟩

/-- Lines of `message_template.msg` up to the end of `EdgeDataPacket`. -/
def c276 : List (List Char) :=
  [chars! "",
   chars! "// Edge data - compressed edge data",
   chars! "",
   chars! "{",
   chars! "\tEdgeDataPacket High 24 Trusted Zerocoded",
   chars! "\t{",
   chars! "\t\tEdgeData\t\t\tSingle",
   chars! "\t\t{\tLayerType\t\tU8\t}",
   chars! "\t\t{\tDirection\t\tU8\t}",
   chars! "\t\t{\tLayerData\t\tVariable\t2\t}",
   chars! "\t}",
   chars! "}"]

/-- `EdgeDataPacket` as the parser creates it. -/
def r276 : RawTemplate :=
  ⟨"EdgeDataPacket", .high, 24, [24], some .trusted, some .zerocoded, some .notDeprecated,
    [⟨"EdgeData", .single, 0, [⟨"LayerData", some .variable, some 2⟩, ⟨"Direction", some .u8, some 1⟩, ⟨"LayerType", some .u8, some 1⟩]⟩]⟩

/-- `EdgeDataPacket` in file order. -/
def t276 : Template :=
  ⟨"EdgeDataPacket", .high, 24, [], some .trusted, some .zerocoded, some .notDeprecated,
    [⟨"EdgeData", .single, 0, [⟨"LayerType", .u8, 1⟩, ⟨"Direction", .u8, 1⟩, ⟨"LayerData", .variable, 2⟩]⟩]⟩

theorem p276 : ChunkOk c276 r276 := by intro v older; kernel_rfl
theorem k276 : r276.known = some t276 := by kernel_rfl
theorem n276 : t276.name = String.ofList ['E', 'd', 'g', 'e', 'D', 'a', 't', 'a', 'P', 'a', 'c', 'k', 'e', 't'] := by kernel_rfl

/-- The names of the blocks and variables of `EdgeDataPacket`. -/
def b276 : List (List Char × List (List Char)) :=
  [(['E', 'd', 'g', 'e', 'D', 'a', 't', 'a'], [['L', 'a', 'y', 'e', 'r', 'T', 'y', 'p', 'e'], ['D', 'i', 'r', 'e', 'c', 't', 'i', 'o', 'n'], ['L', 'a', 'y', 'e', 'r', 'D', 'a', 't', 'a']])]

theorem w276 : Checked t276 := ⟨b276, by kernel_rfl, by kernel_rfl, by kernel_rfl⟩

/-- Lines of `message_template.msg` up to the end of `SimStatus`. -/
def c277 : List (List Char) :=
  [chars! "",
   chars! "// Sim status, condition of this sim",
   chars! "// sent reliably, when dirty",
   chars! "{",
   chars! "\tSimStatus Medium 12 Trusted Unencoded",
   chars! "\t{",
   chars! "\t\tSimStatus\t\t\t\tSingle",
   chars! "\t\t{\tCanAcceptAgents\t\tBOOL\t}",
   chars! "\t\t{\tCanAcceptTasks\t\tBOOL\t}",
   chars! "\t}",
   chars! "}"]

/-- `SimStatus` as the parser creates it. -/
def r277 : RawTemplate :=
  ⟨"SimStatus", .medium, 12, [255, 12], some .trusted, some .unencoded, some .notDeprecated,
    [⟨"SimStatus", .single, 0, [⟨"CanAcceptTasks", some .bool, some 1⟩, ⟨"CanAcceptAgents", some .bool, some 1⟩]⟩]⟩

/-- `SimStatus` in file order. -/
def t277 : Template :=
  ⟨"SimStatus", .medium, 12, [], some .trusted, some .unencoded, some .notDeprecated,
    [⟨"SimStatus", .single, 0, [⟨"CanAcceptAgents", .bool, 1⟩, ⟨"CanAcceptTasks", .bool, 1⟩]⟩]⟩

theorem p277 : ChunkOk c277 r277 := by intro v older; kernel_rfl
theorem k277 : r277.known = some t277 := by kernel_rfl
theorem n277 : t277.name = String.ofList ['S', 'i', 'm', 'S', 't', 'a', 't', 'u', 's'] := by kernel_rfl

/-- The names of the blocks and variables of `SimStatus`. -/
def b277 : List (List Char × List (List Char)) :=
  [(['S', 'i', 'm', 'S', 't', 'a', 't', 'u', 's'], [['C', 'a', 'n', 'A', 'c', 'c', 'e', 'p', 't', 'A', 'g', 'e', 'n', 't', 's'], ['C', 'a', 'n', 'A', 'c', 'c', 'e', 'p', 't', 'T', 'a', 's', 'k', 's']])]

theorem w277 : Checked t277 := ⟨b277, by kernel_rfl, by kernel_rfl, by kernel_rfl⟩

/-- Lines of `message_template.msg` up to the end of `ChildAgentUpdate`. -/
def c278 : List (List Char) :=
  [chars! "",
   chars! "// Child Agent Update - agents send child agents to neighboring simulators.",
   chars! "// This will create a child camera if there isn't one at the target already",
   chars! "// Can't send viewer IP and port between simulators -- the port may get remapped",
   chars! "// if the viewer is behind a Network Address Translation (NAT) box.",
   chars! "//",
   chars! "// Note: some of the fields of this message really only need to be sent when an ",
   chars! "// agent crosses a region boundary and changes from a child to a main agent",
   chars! "// (such as Head/BodyRotation, ControlFlags, Animations etc)",
   chars! "// simulator -> simulator",
   chars! "// reliable",
   chars! "{",
   chars! "\tChildAgentUpdate High 25 Trusted Zerocoded",
   chars! "\t{",
   chars! "\t\tAgentData\t\t\t\tSingle",
   chars! "\t\t",
   chars! "\t\t{\tRegionHandle\t\tU64\t}",
   chars! "\t\t{\tViewerCircuitCode\tU32\t}",
   chars! "\t\t{\tAgentID\t\t\t\t\t\t\tLLUUID\t}",
   chars! "\t\t{\tSessionID\t\t\t\t\t\tLLUUID\t}",
   chars! "\t\t",
   chars! "\t\t{\tAgentPos\t\t\tLLVector3\t}",
   chars! "\t\t{\tAgentVel\t\t\tLLVector3\t}",
   chars! "\t\t{\tCenter\t\t\t\tLLVector3\t}",
   chars! "\t\t{ \tSize \t\t\t\tLLVector3 \t}",
   chars! "\t\t{\tAtAxis\t\t\t\tLLVector3\t}",
   chars! "\t\t{\tLeftAxis\t\t\tLLVector3\t}",
   chars! "\t\t{\tUpAxis\t\t\t\tLLVector3\t}",
   chars! "\t\t{\tChangedGrid\t\t\tBOOL\t}\t// BOOL",
   chars! "\t\t ",
   chars! "\t\t{\tFar\t\t\t\t\tF32\t}",
   chars! "\t\t{\tAspect\t\t\t\tF32\t}",
   chars! "\t\t{\tThrottles\t\t\tVariable 1\t}",
   chars! " \t\t{\tLocomotionState\t\tU32\t}",
   chars! "\t\t{\tHeadRotation\t\tLLQuaternion\t}",
   chars! "\t\t{\tBodyRotation\t\tLLQuaternion\t}",
   chars! "\t\t{\tControlFlags\t\tU32\t}",
   chars! "\t\t{\tEnergyLevel\t\t\tF32\t}",
   chars! "\t\t{\tGodLevel\t\t\tU8\t}\t// Changed from BOOL to U8, and renamed GodLevel (from Godlike)",
   chars! "\t\t{   AlwaysRun\t\t\tBOOL\t}",
   chars! "\t\t{\tPreyAgent\t\t\t\t\t\tLLUUID\t}",
   chars! "\t\t{\tAgentAccess\t\tU8\t}",
   chars! "\t\t{\tAgentTextures\t\tVariable\t2\t}",
   chars! "\t\t{\tActiveGroupID\t        LLUUID\t}\t",
   chars! "\t}",
   chars! "\t{",
   chars! "\t\tGroupData\t\t\tVariable",
   chars! "\t\t{\tGroupID\t\t\t\tLLUUID\t}",
   chars! "\t\t{\tGroupPowers\t\t\tU64\t\t}",
   chars! "\t\t{\tAcceptNotices\t\tBOOL\t}",
   chars! "\t}",
   chars! "\t{\t",
   chars! "\t\tAnimationData\t\t\tVariable",
   chars! "\t\t{\tAnimation\t\t\tLLUUID\t}",
   chars! "\t\t{\tObjectID\t\t\tLLUUID\t}",
   chars! "\t}",
   chars! "\t{",
   chars! "\t\tGranterBlock\t\t\tVariable",
   chars! "\t\t{\tGranterID\t\t\t\t\t\tLLUUID\t}",
   chars! "\t}",
   chars! "\t{",
   chars! "\t\tNVPairData\t\t\t\tVariable",
   chars! "\t\t{\tNVPairs\t\t\t\tVariable\t2\t}",
   chars! "\t}",
   chars! "\t{",
   chars! "\t\tVisualParam\t\t\t\tVariable",
   chars! "\t\t{\tParamValue\t\t\tU8\t}",
   chars! "\t}",
   chars! "\t{",
   chars! "\t\tAgentAccess\t\t\t\tVariable",
   chars! "\t\t{\tAgentLegacyAccess\t\tU8\t}",
   chars! "\t\t{\tAgentMaxAccess\t\t\tU8\t}",
   chars! "\t}",
   chars! "\t{",
   chars! "\t\tAgentInfo\t\t\t\tVariable",
   chars! "\t\t{\tFlags\t\t\t\t\tU32\t}",
   chars! "\t}",
   chars! "}"]

/-- `ChildAgentUpdate` as the parser creates it. -/
def r278 : RawTemplate :=
  ⟨"ChildAgentUpdate", .high, 25, [25], some .trusted, some .zerocoded, some .notDeprecated,
    [⟨"AgentInfo", .variable, 0, [⟨"Flags", some .u32, some 4⟩]⟩,
     ⟨"AgentAccess", .variable, 0, [⟨"AgentMaxAccess", some .u8, some 1⟩, ⟨"AgentLegacyAccess", some .u8, some 1⟩]⟩,
     ⟨"VisualParam", .variable, 0, [⟨"ParamValue", some .u8, some 1⟩]⟩,
     ⟨"NVPairData", .variable, 0, [⟨"NVPairs", some .variable, some 2⟩]⟩,
     ⟨"GranterBlock", .variable, 0, [⟨"GranterID", some .uuid, some 16⟩]⟩,
     ⟨"AnimationData", .variable, 0, [⟨"ObjectID", some .uuid, some 16⟩, ⟨"Animation", some .uuid, some 16⟩]⟩,
     ⟨"GroupData", .variable, 0, [⟨"AcceptNotices", some .bool, some 1⟩, ⟨"GroupPowers", some .u64, some 8⟩, ⟨"GroupID", some .uuid, some 16⟩]⟩,
     ⟨"AgentData", .single, 0, [⟨"ActiveGroupID", some .uuid, some 16⟩, ⟨"AgentTextures", some .variable, some 2⟩, ⟨"AgentAccess", some .u8, some 1⟩, ⟨"PreyAgent", some .uuid, some 16⟩, ⟨"AlwaysRun", some .bool, some 1⟩, ⟨"GodLevel", some .u8, some 1⟩, ⟨"EnergyLevel", some .f32, some 4⟩, ⟨"ControlFlags", some .u32, some 4⟩, ⟨"BodyRotation", some .quaternion, some 12⟩, ⟨"HeadRotation", some .quaternion, some 12⟩, ⟨"LocomotionState", some .u32, some 4⟩, ⟨"Throttles", some .variable, some 1⟩, ⟨"Aspect", some .f32, some 4⟩, ⟨"Far", some .f32, some 4⟩, ⟨"ChangedGrid", some .bool, some 1⟩, ⟨"UpAxis", some .vector3, some 12⟩, ⟨"LeftAxis", some .vector3, some 12⟩, ⟨"AtAxis", some .vector3, some 12⟩, ⟨"Size", some .vector3, some 12⟩, ⟨"Center", some .vector3, some 12⟩, ⟨"AgentVel", some .vector3, some 12⟩, ⟨"AgentPos", some .vector3, some 12⟩, ⟨"SessionID", some .uuid, some 16⟩, ⟨"AgentID", some .uuid, some 16⟩, ⟨"ViewerCircuitCode", some .u32, some 4⟩, ⟨"RegionHandle", some .u64, some 8⟩]⟩]⟩

/-- `ChildAgentUpdate` in file order. -/
def t278 : Template :=
  ⟨"ChildAgentUpdate", .high, 25, [], some .trusted, some .zerocoded, some .notDeprecated,
    [⟨"AgentData", .single, 0, [⟨"RegionHandle", .u64, 8⟩, ⟨"ViewerCircuitCode", .u32, 4⟩, ⟨"AgentID", .uuid, 16⟩, ⟨"SessionID", .uuid, 16⟩, ⟨"AgentPos", .vector3, 12⟩, ⟨"AgentVel", .vector3, 12⟩, ⟨"Center", .vector3, 12⟩, ⟨"Size", .vector3, 12⟩, ⟨"AtAxis", .vector3, 12⟩, ⟨"LeftAxis", .vector3, 12⟩, ⟨"UpAxis", .vector3, 12⟩, ⟨"ChangedGrid", .bool, 1⟩, ⟨"Far", .f32, 4⟩, ⟨"Aspect", .f32, 4⟩, ⟨"Throttles", .variable, 1⟩, ⟨"LocomotionState", .u32, 4⟩, ⟨"HeadRotation", .quaternion, 12⟩, ⟨"BodyRotation", .quaternion, 12⟩, ⟨"ControlFlags", .u32, 4⟩, ⟨"EnergyLevel", .f32, 4⟩, ⟨"GodLevel", .u8, 1⟩, ⟨"AlwaysRun", .bool, 1⟩, ⟨"PreyAgent", .uuid, 16⟩, ⟨"AgentAccess", .u8, 1⟩, ⟨"AgentTextures", .variable, 2⟩, ⟨"ActiveGroupID", .uuid, 16⟩]⟩,
     ⟨"GroupData", .variable, 0, [⟨"GroupID", .uuid, 16⟩, ⟨"GroupPowers", .u64, 8⟩, ⟨"AcceptNotices", .bool, 1⟩]⟩,
     ⟨"AnimationData", .variable, 0, [⟨"Animation", .uuid, 16⟩, ⟨"ObjectID", .uuid, 16⟩]⟩,
     ⟨"GranterBlock", .variable, 0, [⟨"GranterID", .uuid, 16⟩]⟩,
     ⟨"NVPairData", .variable, 0, [⟨"NVPairs", .variable, 2⟩]⟩,
     ⟨"VisualParam", .variable, 0, [⟨"ParamValue", .u8, 1⟩]⟩,
     ⟨"AgentAccess", .variable, 0, [⟨"AgentLegacyAccess", .u8, 1⟩, ⟨"AgentMaxAccess", .u8, 1⟩]⟩,
     ⟨"AgentInfo", .variable, 0, [⟨"Flags", .u32, 4⟩]⟩]⟩

theorem p278 : ChunkOk c278 r278 := by intro v older; kernel_rfl
theorem k278 : r278.known = some t278 := by kernel_rfl
theorem n278 : t278.name = String.ofList ['C', 'h', 'i', 'l', 'd', 'A', 'g', 'e', 'n', 't', 'U', 'p', 'd', 'a', 't', 'e'] := by kernel_rfl

/-- The names of the blocks and variables of `ChildAgentUpdate`. -/
def b278 : List (List Char × List (List Char)) :=
  [(['A', 'g', 'e', 'n', 't', 'D', 'a', 't', 'a'], [['R', 'e', 'g', 'i', 'o', 'n', 'H', 'a', 'n', 'd', 'l', 'e'], ['V', 'i', 'e', 'w', 'e', 'r', 'C', 'i', 'r', 'c', 'u', 'i', 't', 'C', 'o', 'd', 'e'], ['A', 'g', 'e', 'n', 't', 'I', 'D'], ['S', 'e', 's', 's', 'i', 'o', 'n', 'I', 'D'], ['A', 'g', 'e', 'n', 't', 'P', 'o', 's'], ['A', 'g', 'e', 'n', 't', 'V', 'e', 'l'], ['C', 'e', 'n', 't', 'e', 'r'], ['S', 'i', 'z', 'e'], ['A', 't', 'A', 'x', 'i', 's'], ['L', 'e', 'f', 't', 'A', 'x', 'i', 's'], ['U', 'p', 'A', 'x', 'i', 's'], ['C', 'h', 'a', 'n', 'g', 'e', 'd', 'G', 'r', 'i', 'd'], ['F', 'a', 'r'], ['A', 's', 'p', 'e', 'c', 't'], ['T', 'h', 'r', 'o', 't', 't', 'l', 'e', 's'], ['L', 'o', 'c', 'o', 'm', 'o', 't', 'i', 'o', 'n', 'S', 't', 'a', 't', 'e'], ['H', 'e', 'a', 'd', 'R', 'o', 't', 'a', 't', 'i', 'o', 'n'], ['B', 'o', 'd', 'y', 'R', 'o', 't', 'a', 't', 'i', 'o', 'n'], ['C', 'o', 'n', 't', 'r', 'o', 'l', 'F', 'l', 'a', 'g', 's'], ['E', 'n', 'e', 'r', 'g', 'y', 'L', 'e', 'v', 'e', 'l'], ['G', 'o', 'd', 'L', 'e', 'v', 'e', 'l'], ['A', 'l', 'w', 'a', 'y', 's', 'R', 'u', 'n'], ['P', 'r', 'e', 'y', 'A', 'g', 'e', 'n', 't'], ['A', 'g', 'e', 'n', 't', 'A', 'c', 'c', 'e', 's', 's'], ['A', 'g', 'e', 'n', 't', 'T', 'e', 'x', 't', 'u', 'r', 'e', 's'], ['A', 'c', 't', 'i', 'v', 'e', 'G', 'r', 'o', 'u', 'p', 'I', 'D']]),
   (['G', 'r', 'o', 'u', 'p', 'D', 'a', 't', 'a'], [['G', 'r', 'o', 'u', 'p', 'I', 'D'], ['G', 'r', 'o', 'u', 'p', 'P', 'o', 'w', 'e', 'r', 's'], ['A', 'c', 'c', 'e', 'p', 't', 'N', 'o', 't', 'i', 'c', 'e', 's']]),
   (['A', 'n', 'i', 'm', 'a', 't', 'i', 'o', 'n', 'D', 'a', 't', 'a'], [['A', 'n', 'i', 'm', 'a', 't', 'i', 'o', 'n'], ['O', 'b', 'j', 'e', 'c', 't', 'I', 'D']]),
   (['G', 'r', 'a', 'n', 't', 'e', 'r', 'B', 'l', 'o', 'c', 'k'], [['G', 'r', 'a', 'n', 't', 'e', 'r', 'I', 'D']]),
   (['N', 'V', 'P', 'a', 'i', 'r', 'D', 'a', 't', 'a'], [['N', 'V', 'P', 'a', 'i', 'r', 's']]),
   (['V', 'i', 's', 'u', 'a', 'l', 'P', 'a', 'r', 'a', 'm'], [['P', 'a', 'r', 'a', 'm', 'V', 'a', 'l', 'u', 'e']]),
   (['A', 'g', 'e', 'n', 't', 'A', 'c', 'c', 'e', 's', 's'], [['A', 'g', 'e', 'n', 't', 'L', 'e', 'g', 'a', 'c', 'y', 'A', 'c', 'c', 'e', 's', 's'], ['A', 'g', 'e', 'n', 't', 'M', 'a', 'x', 'A', 'c', 'c', 'e', 's', 's']]),
   (['A', 'g', 'e', 'n', 't', 'I', 'n', 'f', 'o'], [['F', 'l', 'a', 'g', 's']])]

theorem w278 : Checked t278 := ⟨b278, by kernel_rfl, by kernel_rfl, by kernel_rfl⟩

/-- Lines of `message_template.msg` up to the end of `ChildAgentAlive`. -/
def c279 : List (List Char) :=
  [chars! "",
   chars! "// ChildAgentAlive",
   chars! "// sent to child agents just to keep them alive",
   chars! "{",
   chars! "\tChildAgentAlive High 26 Trusted Unencoded",
   chars! "\t{",
   chars! "\t\tAgentData\t\t\t\tSingle",
   chars! "\t\t{\tRegionHandle\t\tU64\t}",
   chars! "\t\t{\tViewerCircuitCode\tU32\t}",
   chars! "\t\t{\tAgentID\t\t\t\tLLUUID\t}",
   chars! "\t\t{\tSessionID\t\t\tLLUUID\t}",
   chars! "\t}",
   chars! "}"]

/-- `ChildAgentAlive` as the parser creates it. -/
def r279 : RawTemplate :=
  ⟨"ChildAgentAlive", .high, 26, [26], some .trusted, some .unencoded, some .notDeprecated,
    [⟨"AgentData", .single, 0, [⟨"SessionID", some .uuid, some 16⟩, ⟨"AgentID", some .uuid, some 16⟩, ⟨"ViewerCircuitCode", some .u32, some 4⟩, ⟨"RegionHandle", some .u64, some 8⟩]⟩]⟩

/-- `ChildAgentAlive` in file order. -/
def t279 : Template :=
  ⟨"ChildAgentAlive", .high, 26, [], some .trusted, some .unencoded, some .notDeprecated,
    [⟨"AgentData", .single, 0, [⟨"RegionHandle", .u64, 8⟩, ⟨"ViewerCircuitCode", .u32, 4⟩, ⟨"AgentID", .uuid, 16⟩, ⟨"SessionID", .uuid, 16⟩]⟩]⟩

theorem p279 : ChunkOk c279 r279 := by intro v older; kernel_rfl
theorem k279 : r279.known = some t279 := by kernel_rfl
theorem n279 : t279.name = String.ofList ['C', 'h', 'i', 'l', 'd', 'A', 'g', 'e', 'n', 't', 'A', 'l', 'i', 'v', 'e'] := by kernel_rfl

/-- The names of the blocks and variables of `ChildAgentAlive`. -/
def b279 : List (List Char × List (List Char)) :=
  [(['A', 'g', 'e', 'n', 't', 'D', 'a', 't', 'a'], [['R', 'e', 'g', 'i', 'o', 'n', 'H', 'a', 'n', 'd', 'l', 'e'], ['V', 'i', 'e', 'w', 'e', 'r', 'C', 'i', 'r', 'c', 'u', 'i', 't', 'C', 'o', 'd', 'e'], ['A', 'g', 'e', 'n', 't', 'I', 'D'], ['S', 'e', 's', 's', 'i', 'o', 'n', 'I', 'D']])]

theorem w279 : Checked t279 := ⟨b279, by kernel_rfl, by kernel_rfl, by kernel_rfl⟩

/-- Lines of `message_template.msg` up to the end of `ChildAgentPositionUpdate`. -/
def c280 : List (List Char) :=
  [chars! "",
   chars! "// ChildAgentPositionUpdate",
   chars! "// sent to child agents just to keep them alive",
   chars! "{",
   chars! "\tChildAgentPositionUpdate High 27 Trusted Unencoded",
   chars! "\t{",
   chars! "\t\tAgentData\t\t\t\tSingle",
   chars! "",
   chars! "\t\t{\tRegionHandle\t\tU64\t}",
   chars! "\t\t{\tViewerCircuitCode\tU32\t}",
   chars! "\t\t{\tAgentID\t\t\t\tLLUUID\t}",
   chars! "\t\t{\tSessionID\t\t\tLLUUID\t}",
   chars! "",
   chars! "\t\t{\tAgentPos\t\t\tLLVector3\t}",
   chars! "\t\t{\tAgentVel\t\t\tLLVector3\t}",
   chars! "\t\t{\tCenter\t\t\t\tLLVector3\t}",
   chars! "\t\t{ \tSize \t\t\t\tLLVector3 \t}",
   chars! "\t\t{\tAtAxis\t\t\t\tLLVector3\t}",
   chars! "\t\t{\tLeftAxis\t\t\tLLVector3\t}",
   chars! "\t\t{\tUpAxis\t\t\t\tLLVector3\t}",
   chars! "\t\t{\tChangedGrid\t\t\tBOOL\t}",
   chars! "\t}",
   chars! "}"]

/-- `ChildAgentPositionUpdate` as the parser creates it. -/
def r280 : RawTemplate :=
  ⟨"ChildAgentPositionUpdate", .high, 27, [27], some .trusted, some .unencoded, some .notDeprecated,
    [⟨"AgentData", .single, 0, [⟨"ChangedGrid", some .bool, some 1⟩, ⟨"UpAxis", some .vector3, some 12⟩, ⟨"LeftAxis", some .vector3, some 12⟩, ⟨"AtAxis", some .vector3, some 12⟩, ⟨"Size", some .vector3, some 12⟩, ⟨"Center", some .vector3, some 12⟩, ⟨"AgentVel", some .vector3, some 12⟩, ⟨"AgentPos", some .vector3, some 12⟩, ⟨"SessionID", some .uuid, some 16⟩, ⟨"AgentID", some .uuid, some 16⟩, ⟨"ViewerCircuitCode", some .u32, some 4⟩, ⟨"RegionHandle", some .u64, some 8⟩]⟩]⟩

/-- `ChildAgentPositionUpdate` in file order. -/
def t280 : Template :=
  ⟨"ChildAgentPositionUpdate", .high, 27, [], some .trusted, some .unencoded, some .notDeprecated,
    [⟨"AgentData", .single, 0, [⟨"RegionHandle", .u64, 8⟩, ⟨"ViewerCircuitCode", .u32, 4⟩, ⟨"AgentID", .uuid, 16⟩, ⟨"SessionID", .uuid, 16⟩, ⟨"AgentPos", .vector3, 12⟩, ⟨"AgentVel", .vector3, 12⟩, ⟨"Center", .vector3, 12⟩, ⟨"Size", .vector3, 12⟩, ⟨"AtAxis", .vector3, 12⟩, ⟨"LeftAxis", .vector3, 12⟩, ⟨"UpAxis", .vector3, 12⟩, ⟨"ChangedGrid", .bool, 1⟩]⟩]⟩

theorem p280 : ChunkOk c280 r280 := by intro v older; kernel_rfl
theorem k280 : r280.known = some t280 := by kernel_rfl
theorem n280 : t280.name = String.ofList ['C', 'h', 'i', 'l', 'd', 'A', 'g', 'e', 'n', 't', 'P', 'o', 's', 'i', 't', 'i', 'o', 'n', 'U', 'p', 'd', 'a', 't', 'e'] := by kernel_rfl

/-- The names of the blocks and variables of `ChildAgentPositionUpdate`. -/
def b280 : List (List Char × List (List Char)) :=
  [(['A', 'g', 'e', 'n', 't', 'D', 'a', 't', 'a'], [['R', 'e', 'g', 'i', 'o', 'n', 'H', 'a', 'n', 'd', 'l', 'e'], ['V', 'i', 'e', 'w', 'e', 'r', 'C', 'i', 'r', 'c', 'u', 'i', 't', 'C', 'o', 'd', 'e'], ['A', 'g', 'e', 'n', 't', 'I', 'D'], ['S', 'e', 's', 's', 'i', 'o', 'n', 'I', 'D'], ['A', 'g', 'e', 'n', 't', 'P', 'o', 's'], ['A', 'g', 'e', 'n', 't', 'V', 'e', 'l'], ['C', 'e', 'n', 't', 'e', 'r'], ['S', 'i', 'z', 'e'], ['A', 't', 'A', 'x', 'i', 's'], ['L', 'e', 'f', 't', 'A', 'x', 'i', 's'], ['U', 'p', 'A', 'x', 'i', 's'], ['C', 'h', 'a', 'n', 'g', 'e', 'd', 'G', 'r', 'i', 'd']])]

theorem w280 : Checked t280 := ⟨b280, by kernel_rfl, by kernel_rfl, by kernel_rfl⟩

/-- Lines of `message_template.msg` up to the end of `ChildAgentDying`. -/
def c281 : List (List Char) :=
  [chars! "",
   chars! "",
   chars! "// Obituary for child agents - make sure the parent know the child is dead",
   chars! "// This way, children can be reliably restarted",
   chars! "{",
   chars! "\tChildAgentDying Low 240 Trusted Zerocoded",
   chars! "\t{",
   chars! "\t\tAgentData\t\t\t\tSingle",
   chars! "\t\t{\tAgentID\t\t\t\tLLUUID\t}",
   chars! "\t\t{\tSessionID\t\t\tLLUUID\t}",
   chars! "\t}",
   chars! "}"]

/-- `ChildAgentDying` as the parser creates it. -/
def r281 : RawTemplate :=
  ⟨"ChildAgentDying", .low, 240, [255, 255, 240], some .trusted, some .zerocoded, some .notDeprecated,
    [⟨"AgentData", .single, 0, [⟨"SessionID", some .uuid, some 16⟩, ⟨"AgentID", some .uuid, some 16⟩]⟩]⟩

/-- `ChildAgentDying` in file order. -/
def t281 : Template :=
  ⟨"ChildAgentDying", .low, 240, [], some .trusted, some .zerocoded, some .notDeprecated,
    [⟨"AgentData", .single, 0, [⟨"AgentID", .uuid, 16⟩, ⟨"SessionID", .uuid, 16⟩]⟩]⟩

theorem p281 : ChunkOk c281 r281 := by intro v older; kernel_rfl
theorem k281 : r281.known = some t281 := by kernel_rfl
theorem n281 : t281.name = String.ofList ['C', 'h', 'i', 'l', 'd', 'A', 'g', 'e', 'n', 't', 'D', 'y', 'i', 'n', 'g'] := by kernel_rfl

/-- The names of the blocks and variables of `ChildAgentDying`. -/
def b281 : List (List Char × List (List Char)) :=
  [(['A', 'g', 'e', 'n', 't', 'D', 'a', 't', 'a'], [['A', 'g', 'e', 'n', 't', 'I', 'D'], ['S', 'e', 's', 's', 'i', 'o', 'n', 'I', 'D']])]

theorem w281 : Checked t281 := ⟨b281, by kernel_rfl, by kernel_rfl, by kernel_rfl⟩

/-- Lines of `message_template.msg` up to the end of `ChildAgentUnknown`. -/
def c282 : List (List Char) :=
  [chars! "",
   chars! "",
   chars! "// This is sent if a full child agent hasn't been accepted yet",
   chars! "{",
   chars! "\tChildAgentUnknown Low 241 Trusted Unencoded",
   chars! "\t{",
   chars! "\t\tAgentData\t\t\t\tSingle",
   chars! "\t\t{\tAgentID\t\t\t\tLLUUID\t}",
   chars! "\t\t{\tSessionID\t\t\tLLUUID\t}",
   chars! "\t}",
   chars! "}"]

/-- `ChildAgentUnknown` as the parser creates it. -/
def r282 : RawTemplate :=
  ⟨"ChildAgentUnknown", .low, 241, [255, 255, 241], some .trusted, some .unencoded, some .notDeprecated,
    [⟨"AgentData", .single, 0, [⟨"SessionID", some .uuid, some 16⟩, ⟨"AgentID", some .uuid, some 16⟩]⟩]⟩

/-- `ChildAgentUnknown` in file order. -/
def t282 : Template :=
  ⟨"ChildAgentUnknown", .low, 241, [], some .trusted, some .unencoded, some .notDeprecated,
    [⟨"AgentData", .single, 0, [⟨"AgentID", .uuid, 16⟩, ⟨"SessionID", .uuid, 16⟩]⟩]⟩

theorem p282 : ChunkOk c282 r282 := by intro v older; kernel_rfl
theorem k282 : r282.known = some t282 := by kernel_rfl
theorem n282 : t282.name = String.ofList ['C', 'h', 'i', 'l', 'd', 'A', 'g', 'e', 'n', 't', 'U', 'n', 'k', 'n', 'o', 'w', 'n'] := by kernel_rfl

/-- The names of the blocks and variables of `ChildAgentUnknown`. -/
def b282 : List (List Char × List (List Char)) :=
  [(['A', 'g', 'e', 'n', 't', 'D', 'a', 't', 'a'], [['A', 'g', 'e', 'n', 't', 'I', 'D'], ['S', 'e', 's', 's', 'i', 'o', 'n', 'I', 'D']])]

theorem w282 : Checked t282 := ⟨b282, by kernel_rfl, by kernel_rfl, by kernel_rfl⟩

/-- Lines of `message_template.msg` up to the end of `AtomicPassObject`. -/
def c283 : List (List Char) :=
  [chars! "",
   chars! "",
   chars! "// This message is sent how objects get passed between regions.",
   chars! "{",
   chars! "    AtomicPassObject High 28 Trusted Unencoded",
   chars! "    {",
   chars! "\t\tTaskData\t\tSingle",
   chars! "\t\t{\tTaskID\t\t\t\tLLUUID\t}",
   chars! "\t\t{\tAttachmentNeedsSave\tBOOL\t}\t// true iff is attachment and needs asset saved",
   chars! "\t}",
   chars! "}"]

/-- `AtomicPassObject` as the parser creates it. -/
def r283 : RawTemplate :=
  ⟨"AtomicPassObject", .high, 28, [28], some .trusted, some .unencoded, some .notDeprecated,
    [⟨"TaskData", .single, 0, [⟨"AttachmentNeedsSave", some .bool, some 1⟩, ⟨"TaskID", some .uuid, some 16⟩]⟩]⟩

/-- `AtomicPassObject` in file order. -/
def t283 : Template :=
  ⟨"AtomicPassObject", .high, 28, [], some .trusted, some .unencoded, some .notDeprecated,
    [⟨"TaskData", .single, 0, [⟨"TaskID", .uuid, 16⟩, ⟨"AttachmentNeedsSave", .bool, 1⟩]⟩]⟩

theorem p283 : ChunkOk c283 r283 := by intro v older; kernel_rfl
theorem k283 : r283.known = some t283 := by kernel_rfl
theorem n283 : t283.name = String.ofList ['A', 't', 'o', 'm', 'i', 'c', 'P', 'a', 's', 's', 'O', 'b', 'j', 'e', 'c', 't'] := by kernel_rfl

/-- The names of the blocks and variables of `AtomicPassObject`. -/
def b283 : List (List Char × List (List Char)) :=
  [(['T', 'a', 's', 'k', 'D', 'a', 't', 'a'], [['T', 'a', 's', 'k', 'I', 'D'], ['A', 't', 't', 'a', 'c', 'h', 'm', 'e', 'n', 't', 'N', 'e', 'e', 'd', 's', 'S', 'a', 'v', 'e']])]

theorem w283 : Checked t283 := ⟨b283, by kernel_rfl, by kernel_rfl, by kernel_rfl⟩

/-- Lines of `message_template.msg` up to the end of `KillChildAgents`. -/
def c284 : List (List Char) :=
  [chars! "",
   chars! "",
   chars! "// KillChildAgents - A new agent has connected to the simulator . . . make sure that any old child cameras are blitzed",
   chars! "{",
   chars! "\tKillChildAgents Low 242 Trusted Unencoded",
   chars! "\t{",
   chars! "\t\tIDBlock\t\t\t\tSingle",
   chars! "\t\t{\tAgentID\t\t\t\tLLUUID\t}",
   chars! "\t}",
   chars! "}"]

/-- `KillChildAgents` as the parser creates it. -/
def r284 : RawTemplate :=
  ⟨"KillChildAgents", .low, 242, [255, 255, 242], some .trusted, some .unencoded, some .notDeprecated,
    [⟨"IDBlock", .single, 0, [⟨"AgentID", some .uuid, some 16⟩]⟩]⟩

/-- `KillChildAgents` in file order. -/
def t284 : Template :=
  ⟨"KillChildAgents", .low, 242, [], some .trusted, some .unencoded, some .notDeprecated,
    [⟨"IDBlock", .single, 0, [⟨"AgentID", .uuid, 16⟩]⟩]⟩

theorem p284 : ChunkOk c284 r284 := by intro v older; kernel_rfl
theorem k284 : r284.known = some t284 := by kernel_rfl
theorem n284 : t284.name = String.ofList ['K', 'i', 'l', 'l', 'C', 'h', 'i', 'l', 'd', 'A', 'g', 'e', 'n', 't', 's'] := by kernel_rfl

/-- The names of the blocks and variables of `KillChildAgents`. -/
def b284 : List (List Char × List (List Char)) :=
  [(['I', 'D', 'B', 'l', 'o', 'c', 'k'], [['A', 'g', 'e', 'n', 't', 'I', 'D']])]

theorem w284 : Checked t284 := ⟨b284, by kernel_rfl, by kernel_rfl, by kernel_rfl⟩

/-- Lines of `message_template.msg` up to the end of `GetScriptRunning`. -/
def c285 : List (List Char) :=
  [chars! "",
   chars! "",
   chars! "// GetScriptRunning - asks if a script is running or not. the simulator",
   chars! "// responds with ScriptRunningReply",
   chars! "{",
   chars! "\tGetScriptRunning\tLow\t243 \t\tNotTrusted Unencoded",
   chars! "\t{",
   chars! "\t\tScript\t\t\tSingle",
   chars! "\t\t{\tObjectID\tLLUUID\t}",
   chars! "\t\t{\tItemID\tLLUUID\t}",
   chars! "\t}",
   chars! "}"]

/-- `GetScriptRunning` as the parser creates it. -/
def r285 : RawTemplate :=
  ⟨"GetScriptRunning", .low, 243, [255, 255, 243], some .notTrusted, some .unencoded, some .notDeprecated,
    [⟨"Script", .single, 0, [⟨"ItemID", some .uuid, some 16⟩, ⟨"ObjectID", some .uuid, some 16⟩]⟩]⟩

/-- `GetScriptRunning` in file order. -/
def t285 : Template :=
  ⟨"GetScriptRunning", .low, 243, [], some .notTrusted, some .unencoded, some .notDeprecated,
    [⟨"Script", .single, 0, [⟨"ObjectID", .uuid, 16⟩, ⟨"ItemID", .uuid, 16⟩]⟩]⟩

theorem p285 : ChunkOk c285 r285 := by intro v older; kernel_rfl
theorem k285 : r285.known = some t285 := by kernel_rfl
theorem n285 : t285.name = String.ofList ['G', 'e', 't', 'S', 'c', 'r', 'i', 'p', 't', 'R', 'u', 'n', 'n', 'i', 'n', 'g'] := by kernel_rfl

/-- The names of the blocks and variables of `GetScriptRunning`. -/
def b285 : List (List Char × List (List Char)) :=
  [(['S', 'c', 'r', 'i', 'p', 't'], [['O', 'b', 'j', 'e', 'c', 't', 'I', 'D'], ['I', 't', 'e', 'm', 'I', 'D']])]

theorem w285 : Checked t285 := ⟨b285, by kernel_rfl, by kernel_rfl, by kernel_rfl⟩

/-- Lines of `message_template.msg` up to the end of `ScriptRunningReply`. -/
def c286 : List (List Char) :=
  [chars! "",
   chars! "// ScriptRunningReply - response from simulator to message above",
   chars! "{",
   chars! "\tScriptRunningReply\t\tLow\t244 \t\tNotTrusted Unencoded UDPDeprecated",
   chars! "\t{",
   chars! "\t\tScript\t\t\t\tSingle",
   chars! "\t\t{\tObjectID\t\tLLUUID\t}",
   chars! "\t\t{\tItemID\t\t\tLLUUID\t}",
   chars! "\t\t{\tRunning\t\t\tBOOL\t}",
   chars! "//\t\t{\tMono\t\t\tBOOL\t} Added to LLSD message",
   chars! "\t}",
   chars! "}"]

/-- `ScriptRunningReply` as the parser creates it. -/
def r286 : RawTemplate :=
  ⟨"ScriptRunningReply", .low, 244, [255, 255, 244], some .notTrusted, some .unencoded, some .udpDeprecated,
    [⟨"Script", .single, 0, [⟨"Running", some .bool, some 1⟩, ⟨"ItemID", some .uuid, some 16⟩, ⟨"ObjectID", some .uuid, some 16⟩]⟩]⟩

/-- `ScriptRunningReply` in file order. -/
def t286 : Template :=
  ⟨"ScriptRunningReply", .low, 244, [], some .notTrusted, some .unencoded, some .udpDeprecated,
    [⟨"Script", .single, 0, [⟨"ObjectID", .uuid, 16⟩, ⟨"ItemID", .uuid, 16⟩, ⟨"Running", .bool, 1⟩]⟩]⟩

theorem p286 : ChunkOk c286 r286 := by intro v older; kernel_rfl
theorem k286 : r286.known = some t286 := by kernel_rfl
theorem n286 : t286.name = String.ofList ['S', 'c', 'r', 'i', 'p', 't', 'R', 'u', 'n', 'n', 'i', 'n', 'g', 'R', 'e', 'p', 'l', 'y'] := by kernel_rfl

/-- The names of the blocks and variables of `ScriptRunningReply`. -/
def b286 : List (List Char × List (List Char)) :=
  [(['S', 'c', 'r', 'i', 'p', 't'], [['O', 'b', 'j', 'e', 'c', 't', 'I', 'D'], ['I', 't', 'e', 'm', 'I', 'D'], ['R', 'u', 'n', 'n', 'i', 'n', 'g']])]

theorem w286 : Checked t286 := ⟨b286, by kernel_rfl, by kernel_rfl, by kernel_rfl⟩

/-- Lines of `message_template.msg` up to the end of `SetScriptRunning`. -/
def c287 : List (List Char) :=
  [chars! "",
   chars! "",
   chars! "// SetScriptRunning - makes a script active or inactive (Enable may be",
   chars! "// true or false)",
   chars! "{",
   chars! "\tSetScriptRunning\tLow\t245  \tNotTrusted Unencoded",
   chars! "\t{",
   chars! "\t\tAgentData\t\tSingle",
   chars! "\t\t{\tAgentID\t\t\tLLUUID\t}",
   chars! "\t\t{\tSessionID\t\tLLUUID\t}",
   chars! "\t}",
   chars! "\t{",
   chars! "\t\tScript\t\t\tSingle",
   chars! "\t\t{\tObjectID\tLLUUID\t}",
   chars! "\t\t{\tItemID\t\tLLUUID\t}",
   chars! "\t\t{\tRunning\t\tBOOL\t}",
   chars! "\t}",
   chars! "}"]

/-- `SetScriptRunning` as the parser creates it. -/
def r287 : RawTemplate :=
  ⟨"SetScriptRunning", .low, 245, [255, 255, 245], some .notTrusted, some .unencoded, some .notDeprecated,
    [⟨"Script", .single, 0, [⟨"Running", some .bool, some 1⟩, ⟨"ItemID", some .uuid, some 16⟩, ⟨"ObjectID", some .uuid, some 16⟩]⟩,
     ⟨"AgentData", .single, 0, [⟨"SessionID", some .uuid, some 16⟩, ⟨"AgentID", some .uuid, some 16⟩]⟩]⟩

/-- `SetScriptRunning` in file order. -/
def t287 : Template :=
  ⟨"SetScriptRunning", .low, 245, [], some .notTrusted, some .unencoded, some .notDeprecated,
    [⟨"AgentData", .single, 0, [⟨"AgentID", .uuid, 16⟩, ⟨"SessionID", .uuid, 16⟩]⟩,
     ⟨"Script", .single, 0, [⟨"ObjectID", .uuid, 16⟩, ⟨"ItemID", .uuid, 16⟩, ⟨"Running", .bool, 1⟩]⟩]⟩

theorem p287 : ChunkOk c287 r287 := by intro v older; kernel_rfl
theorem k287 : r287.known = some t287 := by kernel_rfl
theorem n287 : t287.name = String.ofList ['S', 'e', 't', 'S', 'c', 'r', 'i', 'p', 't', 'R', 'u', 'n', 'n', 'i', 'n', 'g'] := by kernel_rfl

/-- The names of the blocks and variables of `SetScriptRunning`. -/
def b287 : List (List Char × List (List Char)) :=
  [(['A', 'g', 'e', 'n', 't', 'D', 'a', 't', 'a'], [['A', 'g', 'e', 'n', 't', 'I', 'D'], ['S', 'e', 's', 's', 'i', 'o', 'n', 'I', 'D']]),
   (['S', 'c', 'r', 'i', 'p', 't'], [['O', 'b', 'j', 'e', 'c', 't', 'I', 'D'], ['I', 't', 'e', 'm', 'I', 'D'], ['R', 'u', 'n', 'n', 'i', 'n', 'g']])]

theorem w287 : Checked t287 := ⟨b287, by kernel_rfl, by kernel_rfl, by kernel_rfl⟩

/-- Lines of `message_template.msg` up to the end of `ScriptReset`. -/
def c288 : List (List Char) :=
  [chars! "",
   chars! "// ScriptReset - causes a script to reset",
   chars! "{",
   chars! "\tScriptReset Low 246 NotTrusted Unencoded",
   chars! "\t{",
   chars! "\t\tAgentData\t\tSingle",
   chars! "\t\t{\tAgentID\t\t\tLLUUID\t}",
   chars! "\t\t{\tSessionID\t\tLLUUID\t}",
   chars! "\t}",
   chars! "\t{",
   chars! "\t\tScript\t\t\t\tSingle",
   chars! "\t\t{\tObjectID\t\tLLUUID\t}",
   chars! "\t\t{\tItemID\t\t\tLLUUID\t}",
   chars! "\t}",
   chars! "}"]

/-- `ScriptReset` as the parser creates it. -/
def r288 : RawTemplate :=
  ⟨"ScriptReset", .low, 246, [255, 255, 246], some .notTrusted, some .unencoded, some .notDeprecated,
    [⟨"Script", .single, 0, [⟨"ItemID", some .uuid, some 16⟩, ⟨"ObjectID", some .uuid, some 16⟩]⟩,
     ⟨"AgentData", .single, 0, [⟨"SessionID", some .uuid, some 16⟩, ⟨"AgentID", some .uuid, some 16⟩]⟩]⟩

/-- `ScriptReset` in file order. -/
def t288 : Template :=
  ⟨"ScriptReset", .low, 246, [], some .notTrusted, some .unencoded, some .notDeprecated,
    [⟨"AgentData", .single, 0, [⟨"AgentID", .uuid, 16⟩, ⟨"SessionID", .uuid, 16⟩]⟩,
     ⟨"Script", .single, 0, [⟨"ObjectID", .uuid, 16⟩, ⟨"ItemID", .uuid, 16⟩]⟩]⟩

theorem p288 : ChunkOk c288 r288 := by intro v older; kernel_rfl
theorem k288 : r288.known = some t288 := by kernel_rfl
theorem n288 : t288.name = String.ofList ['S', 'c', 'r', 'i', 'p', 't', 'R', 'e', 's', 'e', 't'] := by kernel_rfl

/-- The names of the blocks and variables of `ScriptReset`. -/
def b288 : List (List Char × List (List Char)) :=
  [(['A', 'g', 'e', 'n', 't', 'D', 'a', 't', 'a'], [['A', 'g', 'e', 'n', 't', 'I', 'D'], ['S', 'e', 's', 's', 'i', 'o', 'n', 'I', 'D']]),
   (['S', 'c', 'r', 'i', 'p', 't'], [['O', 'b', 'j', 'e', 'c', 't', 'I', 'D'], ['I', 't', 'e', 'm', 'I', 'D']])]

theorem w288 : Checked t288 := ⟨b288, by kernel_rfl, by kernel_rfl, by kernel_rfl⟩

/-- Lines of `message_template.msg` up to the end of `ScriptSensorRequest`. -/
def c289 : List (List Char) :=
  [chars! "",
   chars! "// ScriptSensorRequest - causes the receiving sim to run a script sensor and return the results",
   chars! "{",
   chars! "\tScriptSensorRequest Low 247 Trusted Zerocoded",
   chars! "\t{",
   chars! "\t\tRequester\t\t\tSingle",
   chars! "\t\t{\tSourceID\t\tLLUUID\t}",
   chars! "\t\t{\tRequestID\t\tLLUUID\t}",
   chars! "\t\t{\tSearchID\t\tLLUUID\t}",
   chars! "\t\t{\tSearchPos\t\tLLVector3\t}",
   chars! "\t\t{\tSearchDir\t\tLLQuaternion\t}",
   chars! "\t\t{\tSearchName\t\tVariable\t1\t}",
   chars! "\t\t{\tType\t\t\tS32\t}",
   chars! "\t\t{\tRange\t\t\tF32\t}",
   chars! "\t\t{\tArc\t\t\t\tF32\t}",
   chars! "\t\t{\tRegionHandle\tU64\t}",
   chars! "\t\t{\tSearchRegions\tU8\t}",
   chars! "\t}",
   chars! "}"]

/-- `ScriptSensorRequest` as the parser creates it. -/
def r289 : RawTemplate :=
  ⟨"ScriptSensorRequest", .low, 247, [255, 255, 247], some .trusted, some .zerocoded, some .notDeprecated,
    [⟨"Requester", .single, 0, [⟨"SearchRegions", some .u8, some 1⟩, ⟨"RegionHandle", some .u64, some 8⟩, ⟨"Arc", some .f32, some 4⟩, ⟨"Range", some .f32, some 4⟩, ⟨"Type", some .s32, some 4⟩, ⟨"SearchName", some .variable, some 1⟩, ⟨"SearchDir", some .quaternion, some 12⟩, ⟨"SearchPos", some .vector3, some 12⟩, ⟨"SearchID", some .uuid, some 16⟩, ⟨"RequestID", some .uuid, some 16⟩, ⟨"SourceID", some .uuid, some 16⟩]⟩]⟩

/-- `ScriptSensorRequest` in file order. -/
def t289 : Template :=
  ⟨"ScriptSensorRequest", .low, 247, [], some .trusted, some .zerocoded, some .notDeprecated,
    [⟨"Requester", .single, 0, [⟨"SourceID", .uuid, 16⟩, ⟨"RequestID", .uuid, 16⟩, ⟨"SearchID", .uuid, 16⟩, ⟨"SearchPos", .vector3, 12⟩, ⟨"SearchDir", .quaternion, 12⟩, ⟨"SearchName", .variable, 1⟩, ⟨"Type", .s32, 4⟩, ⟨"Range", .f32, 4⟩, ⟨"Arc", .f32, 4⟩, ⟨"RegionHandle", .u64, 8⟩, ⟨"SearchRegions", .u8, 1⟩]⟩]⟩

theorem p289 : ChunkOk c289 r289 := by intro v older; kernel_rfl
theorem k289 : r289.known = some t289 := by kernel_rfl
theorem n289 : t289.name = String.ofList ['S', 'c', 'r', 'i', 'p', 't', 'S', 'e', 'n', 's', 'o', 'r', 'R', 'e', 'q', 'u', 'e', 's', 't'] := by kernel_rfl

/-- The names of the blocks and variables of `ScriptSensorRequest`. -/
def b289 : List (List Char × List (List Char)) :=
  [(['R', 'e', 'q', 'u', 'e', 's', 't', 'e', 'r'], [['S', 'o', 'u', 'r', 'c', 'e', 'I', 'D'], ['R', 'e', 'q', 'u', 'e', 's', 't', 'I', 'D'], ['S', 'e', 'a', 'r', 'c', 'h', 'I', 'D'], ['S', 'e', 'a', 'r', 'c', 'h', 'P', 'o', 's'], ['S', 'e', 'a', 'r', 'c', 'h', 'D', 'i', 'r'], ['S', 'e', 'a', 'r', 'c', 'h', 'N', 'a', 'm', 'e'], ['T', 'y', 'p', 'e'], ['R', 'a', 'n', 'g', 'e'], ['A', 'r', 'c'], ['R', 'e', 'g', 'i', 'o', 'n', 'H', 'a', 'n', 'd', 'l', 'e'], ['S', 'e', 'a', 'r', 'c', 'h', 'R', 'e', 'g', 'i', 'o', 'n', 's']])]

theorem w289 : Checked t289 := ⟨b289, by kernel_rfl, by kernel_rfl, by kernel_rfl⟩

/-- Lines of `message_template.msg` up to the end of `ScriptSensorReply`. -/
def c290 : List (List Char) :=
  [chars! "",
   chars! "// ScriptSensorReply - returns the request script search information back to the requester",
   chars! "{",
   chars! "\tScriptSensorReply Low 248 Trusted Zerocoded",
   chars! "\t{",
   chars! "\t\tRequester\t\t\tSingle",
   chars! "\t\t{\tSourceID\t\tLLUUID\t}",
   chars! "\t}",
   chars! "\t{",
   chars! "\t\tSensedData\t\t\tVariable",
   chars! "\t\t{\tObjectID\t\tLLUUID\t}",
   chars! "\t\t{\tOwnerID\t\t\tLLUUID\t}",
   chars! "\t\t{\tGroupID\t\t\tLLUUID\t}",
   chars! "\t\t{\tPosition\t\tLLVector3\t}",
   chars! "\t\t{\tVelocity\t\tLLVector3\t}",
   chars! "\t\t{\tRotation\t\tLLQuaternion\t}",
   chars! "\t\t{\tName\t\t\tVariable\t1\t}",
   chars! "\t\t{\tType\t\t\tS32\t}",
   chars! "\t\t{\tRange\t\t\tF32\t}",
   chars! "\t}",
   chars! "}"]

/-- `ScriptSensorReply` as the parser creates it. -/
def r290 : RawTemplate :=
  ⟨"ScriptSensorReply", .low, 248, [255, 255, 248], some .trusted, some .zerocoded, some .notDeprecated,
    [⟨"SensedData", .variable, 0, [⟨"Range", some .f32, some 4⟩, ⟨"Type", some .s32, some 4⟩, ⟨"Name", some .variable, some 1⟩, ⟨"Rotation", some .quaternion, some 12⟩, ⟨"Velocity", some .vector3, some 12⟩, ⟨"Position", some .vector3, some 12⟩, ⟨"GroupID", some .uuid, some 16⟩, ⟨"OwnerID", some .uuid, some 16⟩, ⟨"ObjectID", some .uuid, some 16⟩]⟩,
     ⟨"Requester", .single, 0, [⟨"SourceID", some .uuid, some 16⟩]⟩]⟩

/-- `ScriptSensorReply` in file order. -/
def t290 : Template :=
  ⟨"ScriptSensorReply", .low, 248, [], some .trusted, some .zerocoded, some .notDeprecated,
    [⟨"Requester", .single, 0, [⟨"SourceID", .uuid, 16⟩]⟩,
     ⟨"SensedData", .variable, 0, [⟨"ObjectID", .uuid, 16⟩, ⟨"OwnerID", .uuid, 16⟩, ⟨"GroupID", .uuid, 16⟩, ⟨"Position", .vector3, 12⟩, ⟨"Velocity", .vector3, 12⟩, ⟨"Rotation", .quaternion, 12⟩, ⟨"Name", .variable, 1⟩, ⟨"Type", .s32, 4⟩, ⟨"Range", .f32, 4⟩]⟩]⟩

theorem p290 : ChunkOk c290 r290 := by intro v older; kernel_rfl
theorem k290 : r290.known = some t290 := by kernel_rfl
theorem n290 : t290.name = String.ofList ['S', 'c', 'r', 'i', 'p', 't', 'S', 'e', 'n', 's', 'o', 'r', 'R', 'e', 'p', 'l', 'y'] := by kernel_rfl

/-- The names of the blocks and variables of `ScriptSensorReply`. -/
def b290 : List (List Char × List (List Char)) :=
  [(['R', 'e', 'q', 'u', 'e', 's', 't', 'e', 'r'], [['S', 'o', 'u', 'r', 'c', 'e', 'I', 'D']]),
   (['S', 'e', 'n', 's', 'e', 'd', 'D', 'a', 't', 'a'], [['O', 'b', 'j', 'e', 'c', 't', 'I', 'D'], ['O', 'w', 'n', 'e', 'r', 'I', 'D'], ['G', 'r', 'o', 'u', 'p', 'I', 'D'], ['P', 'o', 's', 'i', 't', 'i', 'o', 'n'], ['V', 'e', 'l', 'o', 'c', 'i', 't', 'y'], ['R', 'o', 't', 'a', 't', 'i', 'o', 'n'], ['N', 'a', 'm', 'e'], ['T', 'y', 'p', 'e'], ['R', 'a', 'n', 'g', 'e']])]

theorem w290 : Checked t290 := ⟨b290, by kernel_rfl, by kernel_rfl, by kernel_rfl⟩

/-- Lines of `message_template.msg` up to the end of `CompleteAgentMovement`. -/
def c291 : List (List Char) :=
  [chars! "",
   chars! "//-----------------------------------------------------------------------------",
   chars! "// Login and Agent Motion",
   chars! "//-----------------------------------------------------------------------------",
   chars! "",
   chars! "// viewer -> sim",
   chars! "// agent is coming into the region. The region should be expecting the",
   chars! "// agent.",
   chars! "{",
   chars! "\tCompleteAgentMovement Low 249 NotTrusted Unencoded",
   chars! "\t{",
   chars! "\t\tAgentData\t\tSingle",
   chars! "\t\t{\tAgentID\t\t\tLLUUID\t}",
   chars! "\t\t{\tSessionID\t\tLLUUID\t}",
   chars! "\t\t{\tCircuitCode\t\tU32\t}",
   chars! "\t}",
   chars! "}"]

/-- `CompleteAgentMovement` as the parser creates it. -/
def r291 : RawTemplate :=
  ⟨"CompleteAgentMovement", .low, 249, [255, 255, 249], some .notTrusted, some .unencoded, some .notDeprecated,
    [⟨"AgentData", .single, 0, [⟨"CircuitCode", some .u32, some 4⟩, ⟨"SessionID", some .uuid, some 16⟩, ⟨"AgentID", some .uuid, some 16⟩]⟩]⟩

/-- `CompleteAgentMovement` in file order. -/
def t291 : Template :=
  ⟨"CompleteAgentMovement", .low, 249, [], some .notTrusted, some .unencoded, some .notDeprecated,
    [⟨"AgentData", .single, 0, [⟨"AgentID", .uuid, 16⟩, ⟨"SessionID", .uuid, 16⟩, ⟨"CircuitCode", .u32, 4⟩]⟩]⟩

theorem p291 : ChunkOk c291 r291 := by intro v older; kernel_rfl
theorem k291 : r291.known = some t291 := by kernel_rfl
theorem n291 : t291.name = String.ofList ['C', 'o', 'm', 'p', 'l', 'e', 't', 'e', 'A', 'g', 'e', 'n', 't', 'M', 'o', 'v', 'e', 'm', 'e', 'n', 't'] := by kernel_rfl

/-- The names of the blocks and variables of `CompleteAgentMovement`. -/
def b291 : List (List Char × List (List Char)) :=
  [(['A', 'g', 'e', 'n', 't', 'D', 'a', 't', 'a'], [['A', 'g', 'e', 'n', 't', 'I', 'D'], ['S', 'e', 's', 's', 'i', 'o', 'n', 'I', 'D'], ['C', 'i', 'r', 'c', 'u', 'i', 't', 'C', 'o', 'd', 'e']])]

theorem w291 : Checked t291 := ⟨b291, by kernel_rfl, by kernel_rfl, by kernel_rfl⟩

/-- Lines of `message_template.msg` up to the end of `AgentMovementComplete`. -/
def c292 : List (List Char) :=
  [chars! "",
   chars! "// sim -> viewer",
   chars! "{",
   chars! "\tAgentMovementComplete Low 250 NotTrusted Unencoded",
   chars! "\t{",
   chars! "\t\tAgentData\t\tSingle",
   chars! "\t\t{\tAgentID\t\t\tLLUUID\t}",
   chars! "\t\t{\tSessionID\t\tLLUUID\t}",
   chars! "\t}",
   chars! "\t{",
   chars! "\t\tData\t\t\tSingle",
   chars! "\t\t{\tPosition\t\tLLVector3 }",
   chars! "\t\t{\tLookAt\t\t\tLLVector3 }",
   chars! "\t\t{\tRegionHandle\tU64\t\t}",
   chars! "\t\t{\tTimestamp\t\tU32\t}",
   chars! "\t}",
   chars! "\t{",
   chars! "\t\tSimData\t\t\tSingle",
   chars! "\t\t{\tChannelVersion\tVariable 2      }",
   chars! "\t}",
   chars! "}"]

/-- `AgentMovementComplete` as the parser creates it. -/
def r292 : RawTemplate :=
  ⟨"AgentMovementComplete", .low, 250, [255, 255, 250], some .notTrusted, some .unencoded, some .notDeprecated,
    [⟨"SimData", .single, 0, [⟨"ChannelVersion", some .variable, some 2⟩]⟩,
     ⟨"Data", .single, 0, [⟨"Timestamp", some .u32, some 4⟩, ⟨"RegionHandle", some .u64, some 8⟩, ⟨"LookAt", some .vector3, some 12⟩, ⟨"Position", some .vector3, some 12⟩]⟩,
     ⟨"AgentData", .single, 0, [⟨"SessionID", some .uuid, some 16⟩, ⟨"AgentID", some .uuid, some 16⟩]⟩]⟩

/-- `AgentMovementComplete` in file order. -/
def t292 : Template :=
  ⟨"AgentMovementComplete", .low, 250, [], some .notTrusted, some .unencoded, some .notDeprecated,
    [⟨"AgentData", .single, 0, [⟨"AgentID", .uuid, 16⟩, ⟨"SessionID", .uuid, 16⟩]⟩,
     ⟨"Data", .single, 0, [⟨"Position", .vector3, 12⟩, ⟨"LookAt", .vector3, 12⟩, ⟨"RegionHandle", .u64, 8⟩, ⟨"Timestamp", .u32, 4⟩]⟩,
     ⟨"SimData", .single, 0, [⟨"ChannelVersion", .variable, 2⟩]⟩]⟩

theorem p292 : ChunkOk c292 r292 := by intro v older; kernel_rfl
theorem k292 : r292.known = some t292 := by kernel_rfl
theorem n292 : t292.name = String.ofList ['A', 'g', 'e', 'n', 't', 'M', 'o', 'v', 'e', 'm', 'e', 'n', 't', 'C', 'o', 'm', 'p', 'l', 'e', 't', 'e'] := by kernel_rfl

/-- The names of the blocks and variables of `AgentMovementComplete`. -/
def b292 : List (List Char × List (List Char)) :=
  [(['A', 'g', 'e', 'n', 't', 'D', 'a', 't', 'a'], [['A', 'g', 'e', 'n', 't', 'I', 'D'], ['S', 'e', 's', 's', 'i', 'o', 'n', 'I', 'D']]),
   (['D', 'a', 't', 'a'], [['P', 'o', 's', 'i', 't', 'i', 'o', 'n'], ['L', 'o', 'o', 'k', 'A', 't'], ['R', 'e', 'g', 'i', 'o', 'n', 'H', 'a', 'n', 'd', 'l', 'e'], ['T', 'i', 'm', 'e', 's', 't', 'a', 'm', 'p']]),
   (['S', 'i', 'm', 'D', 'a', 't', 'a'], [['C', 'h', 'a', 'n', 'n', 'e', 'l', 'V', 'e', 'r', 's', 'i', 'o', 'n']])]

theorem w292 : Checked t292 := ⟨b292, by kernel_rfl, by kernel_rfl, by kernel_rfl⟩

/-- Lines of `message_template.msg` up to the end of `DataServerLogout`. -/
def c293 : List (List Char) :=
  [chars! "",
   chars! "",
   chars! "//-----------------------------------------------------------------------------",
   chars! "// Logout",
   chars! "//-----------------------------------------------------------------------------",
   chars! "",
   chars! "// userserver -> dataserver",
   chars! "{",
   chars! "\tDataServerLogout Low 251 Trusted Unencoded",
   chars! "\t{",
   chars! "\t\tUserData\t\t\tSingle",
   chars! "\t\t{\tAgentID\t\t\tLLUUID\t}",
   chars! "\t\t{\tViewerIP\t\tIPADDR\t}",
   chars! "\t\t{\tDisconnect\t\tBOOL\t}",
   chars! "\t\t{\tSessionID\t\tLLUUID\t}",
   chars! "\t}",
   chars! "}"]

/-- `DataServerLogout` as the parser creates it. -/
def r293 : RawTemplate :=
  ⟨"DataServerLogout", .low, 251, [255, 255, 251], some .trusted, some .unencoded, some .notDeprecated,
    [⟨"UserData", .single, 0, [⟨"SessionID", some .uuid, some 16⟩, ⟨"Disconnect", some .bool, some 1⟩, ⟨"ViewerIP", some .ipaddr, some 4⟩, ⟨"AgentID", some .uuid, some 16⟩]⟩]⟩

/-- `DataServerLogout` in file order. -/
def t293 : Template :=
  ⟨"DataServerLogout", .low, 251, [], some .trusted, some .unencoded, some .notDeprecated,
    [⟨"UserData", .single, 0, [⟨"AgentID", .uuid, 16⟩, ⟨"ViewerIP", .ipaddr, 4⟩, ⟨"Disconnect", .bool, 1⟩, ⟨"SessionID", .uuid, 16⟩]⟩]⟩

theorem p293 : ChunkOk c293 r293 := by intro v older; kernel_rfl
theorem k293 : r293.known = some t293 := by kernel_rfl
theorem n293 : t293.name = String.ofList ['D', 'a', 't', 'a', 'S', 'e', 'r', 'v', 'e', 'r', 'L', 'o', 'g', 'o', 'u', 't'] := by kernel_rfl

/-- The names of the blocks and variables of `DataServerLogout`. -/
def b293 : List (List Char × List (List Char)) :=
  [(['U', 's', 'e', 'r', 'D', 'a', 't', 'a'], [['A', 'g', 'e', 'n', 't', 'I', 'D'], ['V', 'i', 'e', 'w', 'e', 'r', 'I', 'P'], ['D', 'i', 's', 'c', 'o', 'n', 'n', 'e', 'c', 't'], ['S', 'e', 's', 's', 'i', 'o', 'n', 'I', 'D']])]

theorem w293 : Checked t293 := ⟨b293, by kernel_rfl, by kernel_rfl, by kernel_rfl⟩

/-- Lines of `message_template.msg` up to the end of `LogoutRequest`. -/
def c294 : List (List Char) :=
  [chars! "",
   chars! "// LogoutRequest",
   chars! "// viewer -> sim",
   chars! "// reliable",
   chars! "{",
   chars! "\tLogoutRequest Low 252 NotTrusted Unencoded",
   chars! "\t{",
   chars! "\t\tAgentData\t\tSingle",
   chars! "\t\t{\tAgentID\t\tLLUUID\t}",
   chars! "\t\t{\tSessionID\tLLUUID\t}",
   chars! "\t}",
   chars! "}"]

/-- `LogoutRequest` as the parser creates it. -/
def r294 : RawTemplate :=
  ⟨"LogoutRequest", .low, 252, [255, 255, 252], some .notTrusted, some .unencoded, some .notDeprecated,
    [⟨"AgentData", .single, 0, [⟨"SessionID", some .uuid, some 16⟩, ⟨"AgentID", some .uuid, some 16⟩]⟩]⟩

/-- `LogoutRequest` in file order. -/
def t294 : Template :=
  ⟨"LogoutRequest", .low, 252, [], some .notTrusted, some .unencoded, some .notDeprecated,
    [⟨"AgentData", .single, 0, [⟨"AgentID", .uuid, 16⟩, ⟨"SessionID", .uuid, 16⟩]⟩]⟩

theorem p294 : ChunkOk c294 r294 := by intro v older; kernel_rfl
theorem k294 : r294.known = some t294 := by kernel_rfl
theorem n294 : t294.name = String.ofList ['L', 'o', 'g', 'o', 'u', 't', 'R', 'e', 'q', 'u', 'e', 's', 't'] := by kernel_rfl

/-- The names of the blocks and variables of `LogoutRequest`. -/
def b294 : List (List Char × List (List Char)) :=
  [(['A', 'g', 'e', 'n', 't', 'D', 'a', 't', 'a'], [['A', 'g', 'e', 'n', 't', 'I', 'D'], ['S', 'e', 's', 's', 'i', 'o', 'n', 'I', 'D']])]

theorem w294 : Checked t294 := ⟨b294, by kernel_rfl, by kernel_rfl, by kernel_rfl⟩

/-- Lines of `message_template.msg` up to the end of `LogoutReply`. -/
def c295 : List (List Char) :=
  [chars! "",
   chars! "",
   chars! "// LogoutReply",
   chars! "// it's ok for the viewer to quit.",
   chars! "// sim -> viewer",
   chars! "// reliable",
   chars! "// Includes inventory items to update with new asset ids",
   chars! "{",
   chars! "\tLogoutReply Low 253 Trusted Zerocoded",
   chars! "\t{",
   chars! "\t\tAgentData\t\tSingle",
   chars! "\t\t{\tAgentID\t\tLLUUID\t}",
   chars! "\t\t{\tSessionID\tLLUUID\t}",
   chars! "\t}",
   chars! "\t{",
   chars! "\t\tInventoryData\t\tVariable",
   chars! "\t\t{\tItemID\t\t\tLLUUID\t}  // null if list is actually empty (but has one entry 'cause it can't have none)",
   chars! "\t}",
   chars! "}"]

/-- `LogoutReply` as the parser creates it. -/
def r295 : RawTemplate :=
  ⟨"LogoutReply", .low, 253, [255, 255, 253], some .trusted, some .zerocoded, some .notDeprecated,
    [⟨"InventoryData", .variable, 0, [⟨"ItemID", some .uuid, some 16⟩]⟩,
     ⟨"AgentData", .single, 0, [⟨"SessionID", some .uuid, some 16⟩, ⟨"AgentID", some .uuid, some 16⟩]⟩]⟩

/-- `LogoutReply` in file order. -/
def t295 : Template :=
  ⟨"LogoutReply", .low, 253, [], some .trusted, some .zerocoded, some .notDeprecated,
    [⟨"AgentData", .single, 0, [⟨"AgentID", .uuid, 16⟩, ⟨"SessionID", .uuid, 16⟩]⟩,
     ⟨"InventoryData", .variable, 0, [⟨"ItemID", .uuid, 16⟩]⟩]⟩

theorem p295 : ChunkOk c295 r295 := by intro v older; kernel_rfl
theorem k295 : r295.known = some t295 := by kernel_rfl
theorem n295 : t295.name = String.ofList ['L', 'o', 'g', 'o', 'u', 't', 'R', 'e', 'p', 'l', 'y'] := by kernel_rfl

/-- The names of the blocks and variables of `LogoutReply`. -/
def b295 : List (List Char × List (List Char)) :=
  [(['A', 'g', 'e', 'n', 't', 'D', 'a', 't', 'a'], [['A', 'g', 'e', 'n', 't', 'I', 'D'], ['S', 'e', 's', 's', 'i', 'o', 'n', 'I', 'D']]),
   (['I', 'n', 'v', 'e', 'n', 't', 'o', 'r', 'y', 'D', 'a', 't', 'a'], [['I', 't', 'e', 'm', 'I', 'D']])]

theorem w295 : Checked t295 := ⟨b295, by kernel_rfl, by kernel_rfl, by kernel_rfl⟩

/-- Lines of `message_template.msg` up to the end of `ImprovedInstantMessage`. -/
def c296 : List (List Char) :=
  [chars! "",
   chars! "",
   chars! "//-----------------------------------------------------------------------------",
   chars! "// Instant Message",
   chars! "//-----------------------------------------------------------------------------",
   chars! "",
   chars! "// ImprovedInstantMessage",
   chars! "// This message can potentially route all over the place",
   chars! "// ParentEstateID: parent estate id of the source estate",
   chars! "// RegionID: region id of the source of the IM.",
   chars! "// Position: position of the sender in region local coordinates",
   chars! "// Dialog\tsee llinstantmessage.h for values",
   chars! "// ID\t\tMay be used by dialog. Interpretation depends on context.",
   chars! "// BinaryBucket May be used by some dialog types",
   chars! "// reliable",
   chars! "{",
   chars! "\tImprovedInstantMessage Low 254 NotTrusted Zerocoded",
   chars! "\t{",
   chars! "\t\tAgentData \t\tSingle",
   chars! "\t\t{   AgentID     LLUUID  }",
   chars! "\t\t{\tSessionID\tLLUUID\t}",
   chars! "\t}",
   chars! "\t{",
   chars! "\t\tMessageBlock\t\tSingle",
   chars! "\t\t{\tFromGroup\t\tBOOL\t}",
   chars! "\t\t{\tToAgentID\t\tLLUUID\t}",
   chars! "\t\t{\tParentEstateID\tU32\t}",
   chars! "\t\t{   RegionID\t\tLLUUID\t}",
   chars! "\t\t{\tPosition\t\tLLVector3\t}",
   chars! "\t\t{\tOffline\t\t\tU8\t}",
   chars! "\t\t{\tDialog\t\t\tU8\t}\t// U8 - IM type",
   chars! "\t\t{\tID\t\t\t\tLLUUID\t}",
   chars! "\t\t{\tTimestamp\t\tU32\t}",
   chars! "\t\t{\tFromAgentName\tVariable\t1\t}",
   chars! "\t\t{\tMessage\t\t\tVariable\t2\t}",
   chars! "\t\t{\tBinaryBucket\tVariable\t2\t}",
   chars! "\t}",
   chars! "}"]

/-- `ImprovedInstantMessage` as the parser creates it. -/
def r296 : RawTemplate :=
  ⟨"ImprovedInstantMessage", .low, 254, [255, 255, 254], some .notTrusted, some .zerocoded, some .notDeprecated,
    [⟨"MessageBlock", .single, 0, [⟨"BinaryBucket", some .variable, some 2⟩, ⟨"Message", some .variable, some 2⟩, ⟨"FromAgentName", some .variable, some 1⟩, ⟨"Timestamp", some .u32, some 4⟩, ⟨"ID", some .uuid, some 16⟩, ⟨"Dialog", some .u8, some 1⟩, ⟨"Offline", some .u8, some 1⟩, ⟨"Position", some .vector3, some 12⟩, ⟨"RegionID", some .uuid, some 16⟩, ⟨"ParentEstateID", some .u32, some 4⟩, ⟨"ToAgentID", some .uuid, some 16⟩, ⟨"FromGroup", some .bool, some 1⟩]⟩,
     ⟨"AgentData", .single, 0, [⟨"SessionID", some .uuid, some 16⟩, ⟨"AgentID", some .uuid, some 16⟩]⟩]⟩

/-- `ImprovedInstantMessage` in file order. -/
def t296 : Template :=
  ⟨"ImprovedInstantMessage", .low, 254, [], some .notTrusted, some .zerocoded, some .notDeprecated,
    [⟨"AgentData", .single, 0, [⟨"AgentID", .uuid, 16⟩, ⟨"SessionID", .uuid, 16⟩]⟩,
     ⟨"MessageBlock", .single, 0, [⟨"FromGroup", .bool, 1⟩, ⟨"ToAgentID", .uuid, 16⟩, ⟨"ParentEstateID", .u32, 4⟩, ⟨"RegionID", .uuid, 16⟩, ⟨"Position", .vector3, 12⟩, ⟨"Offline", .u8, 1⟩, ⟨"Dialog", .u8, 1⟩, ⟨"ID", .uuid, 16⟩, ⟨"Timestamp", .u32, 4⟩, ⟨"FromAgentName", .variable, 1⟩, ⟨"Message", .variable, 2⟩, ⟨"BinaryBucket", .variable, 2⟩]⟩]⟩

theorem p296 : ChunkOk c296 r296 := by intro v older; kernel_rfl
theorem k296 : r296.known = some t296 := by kernel_rfl
theorem n296 : t296.name = String.ofList ['I', 'm', 'p', 'r', 'o', 'v', 'e', 'd', 'I', 'n', 's', 't', 'a', 'n', 't', 'M', 'e', 's', 's', 'a', 'g', 'e'] := by kernel_rfl

/-- The names of the blocks and variables of `ImprovedInstantMessage`. -/
def b296 : List (List Char × List (List Char)) :=
  [(['A', 'g', 'e', 'n', 't', 'D', 'a', 't', 'a'], [['A', 'g', 'e', 'n', 't', 'I', 'D'], ['S', 'e', 's', 's', 'i', 'o', 'n', 'I', 'D']]),
   (['M', 'e', 's', 's', 'a', 'g', 'e', 'B', 'l', 'o', 'c', 'k'], [['F', 'r', 'o', 'm', 'G', 'r', 'o', 'u', 'p'], ['T', 'o', 'A', 'g', 'e', 'n', 't', 'I', 'D'], ['P', 'a', 'r', 'e', 'n', 't', 'E', 's', 't', 'a', 't', 'e', 'I', 'D'], ['R', 'e', 'g', 'i', 'o', 'n', 'I', 'D'], ['P', 'o', 's', 'i', 't', 'i', 'o', 'n'], ['O', 'f', 'f', 'l', 'i', 'n', 'e'], ['D', 'i', 'a', 'l', 'o', 'g'], ['I', 'D'], ['T', 'i', 'm', 'e', 's', 't', 'a', 'm', 'p'], ['F', 'r', 'o', 'm', 'A', 'g', 'e', 'n', 't', 'N', 'a', 'm', 'e'], ['M', 'e', 's', 's', 'a', 'g', 'e'], ['B', 'i', 'n', 'a', 'r', 'y', 'B', 'u', 'c', 'k', 'e', 't']])]

theorem w296 : Checked t296 := ⟨b296, by kernel_rfl, by kernel_rfl, by kernel_rfl⟩

/-- Lines of `message_template.msg` up to the end of `RetrieveInstantMessages`. -/
def c297 : List (List Char) :=
  [chars! "",
   chars! "// RetrieveInstantMessages - used to get instant messages that",
   chars! "// were persisted out to the database while the user was offline",
   chars! "{",
   chars! "\tRetrieveInstantMessages Low 255 NotTrusted Unencoded",
   chars! "\t{",
   chars! "\t\tAgentData \t\tSingle",
   chars! "\t\t{   AgentID     LLUUID  }",
   chars! "\t\t{\tSessionID\tLLUUID\t}",
   chars! "\t}",
   chars! "}"]

/-- `RetrieveInstantMessages` as the parser creates it. -/
def r297 : RawTemplate :=
  ⟨"RetrieveInstantMessages", .low, 255, [255, 255, 255], some .notTrusted, some .unencoded, some .notDeprecated,
    [⟨"AgentData", .single, 0, [⟨"SessionID", some .uuid, some 16⟩, ⟨"AgentID", some .uuid, some 16⟩]⟩]⟩

/-- `RetrieveInstantMessages` in file order. -/
def t297 : Template :=
  ⟨"RetrieveInstantMessages", .low, 255, [], some .notTrusted, some .unencoded, some .notDeprecated,
    [⟨"AgentData", .single, 0, [⟨"AgentID", .uuid, 16⟩, ⟨"SessionID", .uuid, 16⟩]⟩]⟩

theorem p297 : ChunkOk c297 r297 := by intro v older; kernel_rfl
theorem k297 : r297.known = some t297 := by kernel_rfl
theorem n297 : t297.name = String.ofList ['R', 'e', 't', 'r', 'i', 'e', 'v', 'e', 'I', 'n', 's', 't', 'a', 'n', 't', 'M', 'e', 's', 's', 'a', 'g', 'e', 's'] := by kernel_rfl

/-- The names of the blocks and variables of `RetrieveInstantMessages`. -/
def b297 : List (List Char × List (List Char)) :=
  [(['A', 'g', 'e', 'n', 't', 'D', 'a', 't', 'a'], [['A', 'g', 'e', 'n', 't', 'I', 'D'], ['S', 'e', 's', 's', 'i', 'o', 'n', 'I', 'D']])]

theorem w297 : Checked t297 := ⟨b297, by kernel_rfl, by kernel_rfl, by kernel_rfl⟩

/-- Lines of `message_template.msg` up to the end of `FindAgent`. -/
def c298 : List (List Char) :=
  [chars! "",
   chars! "// FindAgent - used to find an agent's global position. I used a",
   chars! "// variable sized LocationBlock so that the message can be recycled with",
   chars! "// minimum new messages and handlers.",
   chars! "{",
   chars! "\tFindAgent Low 256 NotTrusted Unencoded",
   chars! "\t{",
   chars! "\t\tAgentBlock\t\tSingle",
   chars! "\t\t{\tHunter\t\tLLUUID\t}",
   chars! "\t\t{\tPrey\t\tLLUUID\t}",
   chars! "\t\t{\tSpaceIP\t\tIPADDR\t}",
   chars! "\t}",
   chars! "\t{",
   chars! "\t\tLocationBlock\tVariable",
   chars! "\t\t{\tGlobalX\t\tF64\t}",
   chars! "\t\t{\tGlobalY\t\tF64\t}",
   chars! "\t}",
   chars! "}"]

/-- `FindAgent` as the parser creates it. -/
def r298 : RawTemplate :=
  ⟨"FindAgent", .low, 256, [255, 255, 0], some .notTrusted, some .unencoded, some .notDeprecated,
    [⟨"LocationBlock", .variable, 0, [⟨"GlobalY", some .f64, some 8⟩, ⟨"GlobalX", some .f64, some 8⟩]⟩,
     ⟨"AgentBlock", .single, 0, [⟨"SpaceIP", some .ipaddr, some 4⟩, ⟨"Prey", some .uuid, some 16⟩, ⟨"Hunter", some .uuid, some 16⟩]⟩]⟩

/-- `FindAgent` in file order. -/
def t298 : Template :=
  ⟨"FindAgent", .low, 256, [], some .notTrusted, some .unencoded, some .notDeprecated,
    [⟨"AgentBlock", .single, 0, [⟨"Hunter", .uuid, 16⟩, ⟨"Prey", .uuid, 16⟩, ⟨"SpaceIP", .ipaddr, 4⟩]⟩,
     ⟨"LocationBlock", .variable, 0, [⟨"GlobalX", .f64, 8⟩, ⟨"GlobalY", .f64, 8⟩]⟩]⟩

theorem p298 : ChunkOk c298 r298 := by intro v older; kernel_rfl
theorem k298 : r298.known = some t298 := by kernel_rfl
theorem n298 : t298.name = String.ofList ['F', 'i', 'n', 'd', 'A', 'g', 'e', 'n', 't'] := by kernel_rfl

/-- The names of the blocks and variables of `FindAgent`. -/
def b298 : List (List Char × List (List Char)) :=
  [(['A', 'g', 'e', 'n', 't', 'B', 'l', 'o', 'c', 'k'], [['H', 'u', 'n', 't', 'e', 'r'], ['P', 'r', 'e', 'y'], ['S', 'p', 'a', 'c', 'e', 'I', 'P']]),
   (['L', 'o', 'c', 'a', 't', 'i', 'o', 'n', 'B', 'l', 'o', 'c', 'k'], [['G', 'l', 'o', 'b', 'a', 'l', 'X'], ['G', 'l', 'o', 'b', 'a', 'l', 'Y']])]

theorem w298 : Checked t298 := ⟨b298, by kernel_rfl, by kernel_rfl, by kernel_rfl⟩

/-- Lines of `message_template.msg` up to the end of `RequestGodlikePowers`. -/
def c299 : List (List Char) :=
  [chars! "",
   chars! "// Set godlike to 1 if you want to become godlike.",
   chars! "// Set godlike to 0 if you want to relinquish god powers.",
   chars! "// viewer -> simulator -> dataserver",
   chars! "// reliable",
   chars! "{",
   chars! "\tRequestGodlikePowers Low 257 NotTrusted Unencoded",
   chars! "\t{",
   chars! "\t\tAgentData \t\tSingle",
   chars! "\t\t{   AgentID     LLUUID  }",
   chars! "\t\t{\tSessionID\tLLUUID\t}",
   chars! "\t}",
   chars! "\t{",
   chars! "\t\tRequestBlock\tSingle",
   chars! "\t\t{\tGodlike\t\tBOOL\t}",
   chars! "\t\t{\tToken\t\tLLUUID\t} // viewer packs a null, sim packs token",
   chars! "\t}",
   chars! "}"]

/-- `RequestGodlikePowers` as the parser creates it. -/
def r299 : RawTemplate :=
  ⟨"RequestGodlikePowers", .low, 257, [255, 255, 1], some .notTrusted, some .unencoded, some .notDeprecated,
    [⟨"RequestBlock", .single, 0, [⟨"Token", some .uuid, some 16⟩, ⟨"Godlike", some .bool, some 1⟩]⟩,
     ⟨"AgentData", .single, 0, [⟨"SessionID", some .uuid, some 16⟩, ⟨"AgentID", some .uuid, some 16⟩]⟩]⟩

/-- `RequestGodlikePowers` in file order. -/
def t299 : Template :=
  ⟨"RequestGodlikePowers", .low, 257, [], some .notTrusted, some .unencoded, some .notDeprecated,
    [⟨"AgentData", .single, 0, [⟨"AgentID", .uuid, 16⟩, ⟨"SessionID", .uuid, 16⟩]⟩,
     ⟨"RequestBlock", .single, 0, [⟨"Godlike", .bool, 1⟩, ⟨"Token", .uuid, 16⟩]⟩]⟩

theorem p299 : ChunkOk c299 r299 := by intro v older; kernel_rfl
theorem k299 : r299.known = some t299 := by kernel_rfl
theorem n299 : t299.name = String.ofList ['R', 'e', 'q', 'u', 'e', 's', 't', 'G', 'o', 'd', 'l', 'i', 'k', 'e', 'P', 'o', 'w', 'e', 'r', 's'] := by kernel_rfl

/-- The names of the blocks and variables of `RequestGodlikePowers`. -/
def b299 : List (List Char × List (List Char)) :=
  [(['A', 'g', 'e', 'n', 't', 'D', 'a', 't', 'a'], [['A', 'g', 'e', 'n', 't', 'I', 'D'], ['S', 'e', 's', 's', 'i', 'o', 'n', 'I', 'D']]),
   (['R', 'e', 'q', 'u', 'e', 's', 't', 'B', 'l', 'o', 'c', 'k'], [['G', 'o', 'd', 'l', 'i', 'k', 'e'], ['T', 'o', 'k', 'e', 'n']])]

theorem w299 : Checked t299 := ⟨b299, by kernel_rfl, by kernel_rfl, by kernel_rfl⟩

/-- Part 5 of the file. -/
def lines5 : List (List (List Char)) := [c240, c241, c242, c243, c244, c245, c246, c247, c248, c249, c250, c251, c252, c253, c254, c255, c256, c257, c258, c259, c260, c261, c262, c263, c264, c265, c266, c267, c268, c269, c270, c271, c272, c273, c274, c275, c276, c277, c278, c279, c280, c281, c282, c283, c284, c285, c286, c287, c288, c289, c290, c291, c292, c293, c294, c295, c296, c297, c298, c299]

/-- Part 5 of the templates, as parsed. -/
def raws5 : List RawTemplate := [r240, r241, r242, r243, r244, r245, r246, r247, r248, r249, r250, r251, r252, r253, r254, r255, r256, r257, r258, r259, r260, r261, r262, r263, r264, r265, r266, r267, r268, r269, r270, r271, r272, r273, r274, r275, r276, r277, r278, r279, r280, r281, r282, r283, r284, r285, r286, r287, r288, r289, r290, r291, r292, r293, r294, r295, r296, r297, r298, r299]

/-- Part 5 of the templates. -/
def templates5 : List Template := [t240, t241, t242, t243, t244, t245, t246, t247, t248, t249, t250, t251, t252, t253, t254, t255, t256, t257, t258, t259, t260, t261, t262, t263, t264, t265, t266, t267, t268, t269, t270, t271, t272, t273, t274, t275, t276, t277, t278, t279, t280, t281, t282, t283, t284, t285, t286, t287, t288, t289, t290, t291, t292, t293, t294, t295, t296, t297, t298, t299]

/-- The names in part 5. -/
def names5 : List (List Char) :=
  [['E', 's', 't', 'a', 't', 'e', 'C', 'o', 'v', 'e', 'n', 'a', 'n', 't', 'R', 'e', 'p', 'l', 'y'],
   ['F', 'o', 'r', 'c', 'e', 'O', 'b', 'j', 'e', 'c', 't', 'S', 'e', 'l', 'e', 'c', 't'],
   ['P', 'a', 'r', 'c', 'e', 'l', 'B', 'u', 'y', 'P', 'a', 's', 's'],
   ['P', 'a', 'r', 'c', 'e', 'l', 'D', 'e', 'e', 'd', 'T', 'o', 'G', 'r', 'o', 'u', 'p'],
   ['P', 'a', 'r', 'c', 'e', 'l', 'R', 'e', 'c', 'l', 'a', 'i', 'm'],
   ['P', 'a', 'r', 'c', 'e', 'l', 'C', 'l', 'a', 'i', 'm'],
   ['P', 'a', 'r', 'c', 'e', 'l', 'J', 'o', 'i', 'n'],
   ['P', 'a', 'r', 'c', 'e', 'l', 'D', 'i', 'v', 'i', 'd', 'e'],
   ['P', 'a', 'r', 'c', 'e', 'l', 'R', 'e', 'l', 'e', 'a', 's', 'e'],
   ['P', 'a', 'r', 'c', 'e', 'l', 'B', 'u', 'y'],
   ['P', 'a', 'r', 'c', 'e', 'l', 'G', 'o', 'd', 'F', 'o', 'r', 'c', 'e', 'O', 'w', 'n', 'e', 'r'],
   ['P', 'a', 'r', 'c', 'e', 'l', 'A', 'c', 'c', 'e', 's', 's', 'L', 'i', 's', 't', 'R', 'e', 'q', 'u', 'e', 's', 't'],
   ['P', 'a', 'r', 'c', 'e', 'l', 'A', 'c', 'c', 'e', 's', 's', 'L', 'i', 's', 't', 'R', 'e', 'p', 'l', 'y'],
   ['P', 'a', 'r', 'c', 'e', 'l', 'A', 'c', 'c', 'e', 's', 's', 'L', 'i', 's', 't', 'U', 'p', 'd', 'a', 't', 'e'],
   ['P', 'a', 'r', 'c', 'e', 'l', 'D', 'w', 'e', 'l', 'l', 'R', 'e', 'q', 'u', 'e', 's', 't'],
   ['P', 'a', 'r', 'c', 'e', 'l', 'D', 'w', 'e', 'l', 'l', 'R', 'e', 'p', 'l', 'y'],
   ['R', 'e', 'q', 'u', 'e', 's', 't', 'P', 'a', 'r', 'c', 'e', 'l', 'T', 'r', 'a', 'n', 's', 'f', 'e', 'r'],
   ['U', 'p', 'd', 'a', 't', 'e', 'P', 'a', 'r', 'c', 'e', 'l'],
   ['R', 'e', 'm', 'o', 'v', 'e', 'P', 'a', 'r', 'c', 'e', 'l'],
   ['M', 'e', 'r', 'g', 'e', 'P', 'a', 'r', 'c', 'e', 'l'],
   ['L', 'o', 'g', 'P', 'a', 'r', 'c', 'e', 'l', 'C', 'h', 'a', 'n', 'g', 'e', 's'],
   ['C', 'h', 'e', 'c', 'k', 'P', 'a', 'r', 'c', 'e', 'l', 'S', 'a', 'l', 'e', 's'],
   ['P', 'a', 'r', 'c', 'e', 'l', 'S', 'a', 'l', 'e', 's'],
   ['P', 'a', 'r', 'c', 'e', 'l', 'G', 'o', 'd', 'M', 'a', 'r', 'k', 'A', 's', 'C', 'o', 'n', 't', 'e', 'n', 't'],
   ['V', 'i', 'e', 'w', 'e', 'r', 'S', 't', 'a', 'r', 't', 'A', 'u', 'c', 't', 'i', 'o', 'n'],
   ['S', 't', 'a', 'r', 't', 'A', 'u', 'c', 't', 'i', 'o', 'n'],
   ['C', 'o', 'n', 'f', 'i', 'r', 'm', 'A', 'u', 'c', 't', 'i', 'o', 'n', 'S', 't', 'a', 'r', 't'],
   ['C', 'o', 'm', 'p', 'l', 'e', 't', 'e', 'A', 'u', 'c', 't', 'i', 'o', 'n'],
   ['C', 'a', 'n', 'c', 'e', 'l', 'A', 'u', 'c', 't', 'i', 'o', 'n'],
   ['C', 'h', 'e', 'c', 'k', 'P', 'a', 'r', 'c', 'e', 'l', 'A', 'u', 'c', 't', 'i', 'o', 'n', 's'],
   ['P', 'a', 'r', 'c', 'e', 'l', 'A', 'u', 'c', 't', 'i', 'o', 'n', 's'],
   ['U', 'U', 'I', 'D', 'N', 'a', 'm', 'e', 'R', 'e', 'q', 'u', 'e', 's', 't'],
   ['U', 'U', 'I', 'D', 'N', 'a', 'm', 'e', 'R', 'e', 'p', 'l', 'y'],
   ['U', 'U', 'I', 'D', 'G', 'r', 'o', 'u', 'p', 'N', 'a', 'm', 'e', 'R', 'e', 'q', 'u', 'e', 's', 't'],
   ['U', 'U', 'I', 'D', 'G', 'r', 'o', 'u', 'p', 'N', 'a', 'm', 'e', 'R', 'e', 'p', 'l', 'y'],
   ['C', 'h', 'a', 't', 'P', 'a', 's', 's'],
   ['E', 'd', 'g', 'e', 'D', 'a', 't', 'a', 'P', 'a', 'c', 'k', 'e', 't'],
   ['S', 'i', 'm', 'S', 't', 'a', 't', 'u', 's'],
   ['C', 'h', 'i', 'l', 'd', 'A', 'g', 'e', 'n', 't', 'U', 'p', 'd', 'a', 't', 'e'],
   ['C', 'h', 'i', 'l', 'd', 'A', 'g', 'e', 'n', 't', 'A', 'l', 'i', 'v', 'e'],
   ['C', 'h', 'i', 'l', 'd', 'A', 'g', 'e', 'n', 't', 'P', 'o', 's', 'i', 't', 'i', 'o', 'n', 'U', 'p', 'd', 'a', 't', 'e'],
   ['C', 'h', 'i', 'l', 'd', 'A', 'g', 'e', 'n', 't', 'D', 'y', 'i', 'n', 'g'],
   ['C', 'h', 'i', 'l', 'd', 'A', 'g', 'e', 'n', 't', 'U', 'n', 'k', 'n', 'o', 'w', 'n'],
   ['A', 't', 'o', 'm', 'i', 'c', 'P', 'a', 's', 's', 'O', 'b', 'j', 'e', 'c', 't'],
   ['K', 'i', 'l', 'l', 'C', 'h', 'i', 'l', 'd', 'A', 'g', 'e', 'n', 't', 's'],
   ['G', 'e', 't', 'S', 'c', 'r', 'i', 'p', 't', 'R', 'u', 'n', 'n', 'i', 'n', 'g'],
   ['S', 'c', 'r', 'i', 'p', 't', 'R', 'u', 'n', 'n', 'i', 'n', 'g', 'R', 'e', 'p', 'l', 'y'],
   ['S', 'e', 't', 'S', 'c', 'r', 'i', 'p', 't', 'R', 'u', 'n', 'n', 'i', 'n', 'g'],
   ['S', 'c', 'r', 'i', 'p', 't', 'R', 'e', 's', 'e', 't'],
   ['S', 'c', 'r', 'i', 'p', 't', 'S', 'e', 'n', 's', 'o', 'r', 'R', 'e', 'q', 'u', 'e', 's', 't'],
   ['S', 'c', 'r', 'i', 'p', 't', 'S', 'e', 'n', 's', 'o', 'r', 'R', 'e', 'p', 'l', 'y'],
   ['C', 'o', 'm', 'p', 'l', 'e', 't', 'e', 'A', 'g', 'e', 'n', 't', 'M', 'o', 'v', 'e', 'm', 'e', 'n', 't'],
   ['A', 'g', 'e', 'n', 't', 'M', 'o', 'v', 'e', 'm', 'e', 'n', 't', 'C', 'o', 'm', 'p', 'l', 'e', 't', 'e'],
   ['D', 'a', 't', 'a', 'S', 'e', 'r', 'v', 'e', 'r', 'L', 'o', 'g', 'o', 'u', 't'],
   ['L', 'o', 'g', 'o', 'u', 't', 'R', 'e', 'q', 'u', 'e', 's', 't'],
   ['L', 'o', 'g', 'o', 'u', 't', 'R', 'e', 'p', 'l', 'y'],
   ['I', 'm', 'p', 'r', 'o', 'v', 'e', 'd', 'I', 'n', 's', 't', 'a', 'n', 't', 'M', 'e', 's', 's', 'a', 'g', 'e'],
   ['R', 'e', 't', 'r', 'i', 'e', 'v', 'e', 'I', 'n', 's', 't', 'a', 'n', 't', 'M', 'e', 's', 's', 'a', 'g', 'e', 's'],
   ['F', 'i', 'n', 'd', 'A', 'g', 'e', 'n', 't'],
   ['R', 'e', 'q', 'u', 'e', 's', 't', 'G', 'o', 'd', 'l', 'i', 'k', 'e', 'P', 'o', 'w', 'e', 'r', 's']]

theorem parsed5 : List.Forall₂ ChunkOk lines5 raws5 :=
  (.cons p240 (.cons p241 (.cons p242 (.cons p243 (.cons p244 (.cons p245 (.cons p246 (.cons p247 (.cons p248 (.cons p249 (.cons p250 (.cons p251 (.cons p252 (.cons p253 (.cons p254 (.cons p255 (.cons p256 (.cons p257 (.cons p258 (.cons p259 (.cons p260 (.cons p261 (.cons p262 (.cons p263 (.cons p264 (.cons p265 (.cons p266 (.cons p267 (.cons p268 (.cons p269 (.cons p270 (.cons p271 (.cons p272 (.cons p273 (.cons p274 (.cons p275 (.cons p276 (.cons p277 (.cons p278 (.cons p279 (.cons p280 (.cons p281 (.cons p282 (.cons p283 (.cons p284 (.cons p285 (.cons p286 (.cons p287 (.cons p288 (.cons p289 (.cons p290 (.cons p291 (.cons p292 (.cons p293 (.cons p294 (.cons p295 (.cons p296 (.cons p297 (.cons p298 (.cons p299 .nil))))))))))))))))))))))))))))))))))))))))))))))))))))))))))))

theorem known5 : List.Forall₂ (fun r t => RawTemplate.known r = some t) raws5 templates5 :=
  (.cons k240 (.cons k241 (.cons k242 (.cons k243 (.cons k244 (.cons k245 (.cons k246 (.cons k247 (.cons k248 (.cons k249 (.cons k250 (.cons k251 (.cons k252 (.cons k253 (.cons k254 (.cons k255 (.cons k256 (.cons k257 (.cons k258 (.cons k259 (.cons k260 (.cons k261 (.cons k262 (.cons k263 (.cons k264 (.cons k265 (.cons k266 (.cons k267 (.cons k268 (.cons k269 (.cons k270 (.cons k271 (.cons k272 (.cons k273 (.cons k274 (.cons k275 (.cons k276 (.cons k277 (.cons k278 (.cons k279 (.cons k280 (.cons k281 (.cons k282 (.cons k283 (.cons k284 (.cons k285 (.cons k286 (.cons k287 (.cons k288 (.cons k289 (.cons k290 (.cons k291 (.cons k292 (.cons k293 (.cons k294 (.cons k295 (.cons k296 (.cons k297 (.cons k298 (.cons k299 .nil))))))))))))))))))))))))))))))))))))))))))))))))))))))))))))

theorem named5 : List.Forall₂ (fun (t : Template) w => t.name = String.ofList w) templates5 names5 :=
  (.cons n240 (.cons n241 (.cons n242 (.cons n243 (.cons n244 (.cons n245 (.cons n246 (.cons n247 (.cons n248 (.cons n249 (.cons n250 (.cons n251 (.cons n252 (.cons n253 (.cons n254 (.cons n255 (.cons n256 (.cons n257 (.cons n258 (.cons n259 (.cons n260 (.cons n261 (.cons n262 (.cons n263 (.cons n264 (.cons n265 (.cons n266 (.cons n267 (.cons n268 (.cons n269 (.cons n270 (.cons n271 (.cons n272 (.cons n273 (.cons n274 (.cons n275 (.cons n276 (.cons n277 (.cons n278 (.cons n279 (.cons n280 (.cons n281 (.cons n282 (.cons n283 (.cons n284 (.cons n285 (.cons n286 (.cons n287 (.cons n288 (.cons n289 (.cons n290 (.cons n291 (.cons n292 (.cons n293 (.cons n294 (.cons n295 (.cons n296 (.cons n297 (.cons n298 (.cons n299 .nil))))))))))))))))))))))))))))))))))))))))))))))))))))))))))))

theorem checked5 : ∀ t ∈ templates5, Checked t :=
  (List.forall_mem_cons.mpr ⟨w240, (List.forall_mem_cons.mpr ⟨w241, (List.forall_mem_cons.mpr ⟨w242, (List.forall_mem_cons.mpr ⟨w243, (List.forall_mem_cons.mpr ⟨w244, (List.forall_mem_cons.mpr ⟨w245, (List.forall_mem_cons.mpr ⟨w246, (List.forall_mem_cons.mpr ⟨w247, (List.forall_mem_cons.mpr ⟨w248, (List.forall_mem_cons.mpr ⟨w249, (List.forall_mem_cons.mpr ⟨w250, (List.forall_mem_cons.mpr ⟨w251, (List.forall_mem_cons.mpr ⟨w252, (List.forall_mem_cons.mpr ⟨w253, (List.forall_mem_cons.mpr ⟨w254, (List.forall_mem_cons.mpr ⟨w255, (List.forall_mem_cons.mpr ⟨w256, (List.forall_mem_cons.mpr ⟨w257, (List.forall_mem_cons.mpr ⟨w258, (List.forall_mem_cons.mpr ⟨w259, (List.forall_mem_cons.mpr ⟨w260, (List.forall_mem_cons.mpr ⟨w261, (List.forall_mem_cons.mpr ⟨w262, (List.forall_mem_cons.mpr ⟨w263, (List.forall_mem_cons.mpr ⟨w264, (List.forall_mem_cons.mpr ⟨w265, (List.forall_mem_cons.mpr ⟨w266, (List.forall_mem_cons.mpr ⟨w267, (List.forall_mem_cons.mpr ⟨w268, (List.forall_mem_cons.mpr ⟨w269, (List.forall_mem_cons.mpr ⟨w270, (List.forall_mem_cons.mpr ⟨w271, (List.forall_mem_cons.mpr ⟨w272, (List.forall_mem_cons.mpr ⟨w273, (List.forall_mem_cons.mpr ⟨w274, (List.forall_mem_cons.mpr ⟨w275, (List.forall_mem_cons.mpr ⟨w276, (List.forall_mem_cons.mpr ⟨w277, (List.forall_mem_cons.mpr ⟨w278, (List.forall_mem_cons.mpr ⟨w279, (List.forall_mem_cons.mpr ⟨w280, (List.forall_mem_cons.mpr ⟨w281, (List.forall_mem_cons.mpr ⟨w282, (List.forall_mem_cons.mpr ⟨w283, (List.forall_mem_cons.mpr ⟨w284, (List.forall_mem_cons.mpr ⟨w285, (List.forall_mem_cons.mpr ⟨w286, (List.forall_mem_cons.mpr ⟨w287, (List.forall_mem_cons.mpr ⟨w288, (List.forall_mem_cons.mpr ⟨w289, (List.forall_mem_cons.mpr ⟨w290, (List.forall_mem_cons.mpr ⟨w291, (List.forall_mem_cons.mpr ⟨w292, (List.forall_mem_cons.mpr ⟨w293, (List.forall_mem_cons.mpr ⟨w294, (List.forall_mem_cons.mpr ⟨w295, (List.forall_mem_cons.mpr ⟨w296, (List.forall_mem_cons.mpr ⟨w297, (List.forall_mem_cons.mpr ⟨w298, (List.forall_mem_cons.mpr ⟨w299, (List.forall_mem_nil _)⟩)⟩)⟩)⟩)⟩)⟩)⟩)⟩)⟩)⟩)⟩)⟩)⟩)⟩)⟩)⟩)⟩)⟩)⟩)⟩)⟩)⟩)⟩)⟩)⟩)⟩)⟩)⟩)⟩)⟩)⟩)⟩)⟩)⟩)⟩)⟩)⟩)⟩)⟩)⟩)⟩)⟩)⟩)⟩)⟩)⟩)⟩)⟩)⟩)⟩)⟩)⟩)⟩)⟩)⟩)⟩)⟩)⟩)⟩)⟩)

/-- Python 2.7 cannot parse this message: its number does not fit a byte. -/
theorem refused (v : List Char) (older : List RawTemplate) : parseLines .v27 ⟨some v, 0, older⟩ c298 = .error .structError := by kernel_rfl

end Pyogp.Embedded
