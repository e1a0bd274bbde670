import Verif.Data.Chars

/-! Generated by `tools/gen_template.py` from `message/data/message_template.msg`: part 2. -/

namespace Pyogp.Embedded


/-- Lines of `message_template.msg` up to the end of `ParcelInfoReply`. -/
def c60 : List (List Char) :=
  [chars! "",
   chars! "// ParcelInfoReply",
   chars! "// dataserver -> simulator -> viewer",
   chars! "// reliable",
   chars! "{",
   chars! "\tParcelInfoReply Low 55 Trusted Zerocoded",
   chars! "\t{",
   chars! "\t\tAgentData\t\tSingle",
   chars! "\t\t{\tAgentID\t\t\tLLUUID\t\t}",
   chars! "\t}",
   chars! "\t{",
   chars! "\t\tData\t\t\tSingle",
   chars! "\t\t{\tParcelID\t\tLLUUID\t\t\t}",
   chars! "\t\t{\tOwnerID\t\t\tLLUUID\t\t\t}",
   chars! "\t\t{\tName\t\t\tVariable\t1\t}",
   chars! "\t\t{\tDesc\t\t\tVariable\t1\t}",
   chars! "\t\t{\tActualArea\t\tS32\t\t\t\t}",
   chars! "\t\t{\tBillableArea\tS32\t\t\t\t}",
   chars! "\t\t{\tFlags\t\t\tU8\t\t\t\t}",
   chars! "\t\t{\tGlobalX\t\t\tF32\t\t\t\t}\t// meters",
   chars! "\t\t{\tGlobalY\t\t\tF32\t\t\t\t}\t// meters",
   chars! "\t\t{\tGlobalZ\t\t\tF32\t\t\t\t}\t// meters",
   chars! "\t\t{\tSimName\t\t\tVariable\t1\t}",
   chars! "\t\t{\tSnapshotID\t\tLLUUID\t\t\t}",
   chars! "\t\t{\tDwell\t\t\tF32\t\t\t\t}",
   chars! "\t\t{\tSalePrice\t\tS32\t\t\t\t}",
   chars! "\t\t{\tAuctionID\t\tS32\t\t\t\t}",
   chars! "\t}",
   chars! "}"]

/-- `ParcelInfoReply` as the parser creates it. -/
def r60 : RawTemplate :=
  ⟨"ParcelInfoReply", .low, 55, [255, 255, 55], some .trusted, some .zerocoded, some .notDeprecated,
    [⟨"Data", .single, 0, [⟨"AuctionID", some .s32, some 4⟩, ⟨"SalePrice", some .s32, some 4⟩, ⟨"Dwell", some .f32, some 4⟩, ⟨"SnapshotID", some .uuid, some 16⟩, ⟨"SimName", some .variable, some 1⟩, ⟨"GlobalZ", some .f32, some 4⟩, ⟨"GlobalY", some .f32, some 4⟩, ⟨"GlobalX", some .f32, some 4⟩, ⟨"Flags", some .u8, some 1⟩, ⟨"BillableArea", some .s32, some 4⟩, ⟨"ActualArea", some .s32, some 4⟩, ⟨"Desc", some .variable, some 1⟩, ⟨"Name", some .variable, some 1⟩, ⟨"OwnerID", some .uuid, some 16⟩, ⟨"ParcelID", some .uuid, some 16⟩]⟩,
     ⟨"AgentData", .single, 0, [⟨"AgentID", some .uuid, some 16⟩]⟩]⟩

/-- `ParcelInfoReply` in file order. -/
def t60 : Template :=
  ⟨"ParcelInfoReply", .low, 55, [], some .trusted, some .zerocoded, some .notDeprecated,
    [⟨"AgentData", .single, 0, [⟨"AgentID", .uuid, 16⟩]⟩,
     ⟨"Data", .single, 0, [⟨"ParcelID", .uuid, 16⟩, ⟨"OwnerID", .uuid, 16⟩, ⟨"Name", .variable, 1⟩, ⟨"Desc", .variable, 1⟩, ⟨"ActualArea", .s32, 4⟩, ⟨"BillableArea", .s32, 4⟩, ⟨"Flags", .u8, 1⟩, ⟨"GlobalX", .f32, 4⟩, ⟨"GlobalY", .f32, 4⟩, ⟨"GlobalZ", .f32, 4⟩, ⟨"SimName", .variable, 1⟩, ⟨"SnapshotID", .uuid, 16⟩, ⟨"Dwell", .f32, 4⟩, ⟨"SalePrice", .s32, 4⟩, ⟨"AuctionID", .s32, 4⟩]⟩]⟩

theorem p60 : ChunkOk c60 r60 := by intro v older; kernel_rfl
theorem k60 : r60.known = some t60 := by kernel_rfl
theorem n60 : t60.name = String.ofList ['P', 'a', 'r', 'c', 'e', 'l', 'I', 'n', 'f', 'o', 'R', 'e', 'p', 'l', 'y'] := by kernel_rfl

/-- The names of the blocks and variables of `ParcelInfoReply`. -/
def b60 : List (List Char × List (List Char)) :=
  [(['A', 'g', 'e', 'n', 't', 'D', 'a', 't', 'a'], [['A', 'g', 'e', 'n', 't', 'I', 'D']]),
   (['D', 'a', 't', 'a'], [['P', 'a', 'r', 'c', 'e', 'l', 'I', 'D'], ['O', 'w', 'n', 'e', 'r', 'I', 'D'], ['N', 'a', 'm', 'e'], ['D', 'e', 's', 'c'], ['A', 'c', 't', 'u', 'a', 'l', 'A', 'r', 'e', 'a'], ['B', 'i', 'l', 'l', 'a', 'b', 'l', 'e', 'A', 'r', 'e', 'a'], ['F', 'l', 'a', 'g', 's'], ['G', 'l', 'o', 'b', 'a', 'l', 'X'], ['G', 'l', 'o', 'b', 'a', 'l', 'Y'], ['G', 'l', 'o', 'b', 'a', 'l', 'Z'], ['S', 'i', 'm', 'N', 'a', 'm', 'e'], ['S', 'n', 'a', 'p', 's', 'h', 'o', 't', 'I', 'D'], ['D', 'w', 'e', 'l', 'l'], ['S', 'a', 'l', 'e', 'P', 'r', 'i', 'c', 'e'], ['A', 'u', 'c', 't', 'i', 'o', 'n', 'I', 'D']])]

theorem w60 : Checked t60 := ⟨b60, by kernel_rfl, by kernel_rfl, by kernel_rfl⟩

/-- Lines of `message_template.msg` up to the end of `ParcelObjectOwnersRequest`. -/
def c61 : List (List Char) :=
  [chars! "",
   chars! "",
   chars! "// ParcelObjectOwnersRequest",
   chars! "// viewer -> simulator",
   chars! "// reliable",
   chars! "{",
   chars! "\tParcelObjectOwnersRequest Low 56 NotTrusted Unencoded",
   chars! "\t{",
   chars! "\t\tAgentData\t\tSingle",
   chars! "\t\t{\tAgentID\t\t\tLLUUID\t\t}",
   chars! "\t\t{\tSessionID\t\tLLUUID\t}",
   chars! "\t}",
   chars! "\t{",
   chars! "\t\tParcelData\t\tSingle",
   chars! "\t\t{\tLocalID\t\t\tS32\t\t}",
   chars! "\t}",
   chars! "}"]

/-- `ParcelObjectOwnersRequest` as the parser creates it. -/
def r61 : RawTemplate :=
  ⟨"ParcelObjectOwnersRequest", .low, 56, [255, 255, 56], some .notTrusted, some .unencoded, some .notDeprecated,
    [⟨"ParcelData", .single, 0, [⟨"LocalID", some .s32, some 4⟩]⟩,
     ⟨"AgentData", .single, 0, [⟨"SessionID", some .uuid, some 16⟩, ⟨"AgentID", some .uuid, some 16⟩]⟩]⟩

/-- `ParcelObjectOwnersRequest` in file order. -/
def t61 : Template :=
  ⟨"ParcelObjectOwnersRequest", .low, 56, [], some .notTrusted, some .unencoded, some .notDeprecated,
    [⟨"AgentData", .single, 0, [⟨"AgentID", .uuid, 16⟩, ⟨"SessionID", .uuid, 16⟩]⟩,
     ⟨"ParcelData", .single, 0, [⟨"LocalID", .s32, 4⟩]⟩]⟩

theorem p61 : ChunkOk c61 r61 := by intro v older; kernel_rfl
theorem k61 : r61.known = some t61 := by kernel_rfl
theorem n61 : t61.name = String.ofList ['P', 'a', 'r', 'c', 'e', 'l', 'O', 'b', 'j', 'e', 'c', 't', 'O', 'w', 'n', 'e', 'r', 's', 'R', 'e', 'q', 'u', 'e', 's', 't'] := by kernel_rfl

/-- The names of the blocks and variables of `ParcelObjectOwnersRequest`. -/
def b61 : List (List Char × List (List Char)) :=
  [(['A', 'g', 'e', 'n', 't', 'D', 'a', 't', 'a'], [['A', 'g', 'e', 'n', 't', 'I', 'D'], ['S', 'e', 's', 's', 'i', 'o', 'n', 'I', 'D']]),
   (['P', 'a', 'r', 'c', 'e', 'l', 'D', 'a', 't', 'a'], [['L', 'o', 'c', 'a', 'l', 'I', 'D']])]

theorem w61 : Checked t61 := ⟨b61, by kernel_rfl, by kernel_rfl, by kernel_rfl⟩

/-- Lines of `message_template.msg` up to the end of `ParcelObjectOwnersReply`. -/
def c62 : List (List Char) :=
  [chars! "",
   chars! "",
   chars! "// ParcelObjectOwnersReply",
   chars! "// simulator -> viewer",
   chars! "// reliable",
   chars! "{",
   chars! "\tParcelObjectOwnersReply Low 57 Trusted Zerocoded UDPDeprecated",
   chars! "\t{",
   chars! "\t\tData\t\t\tVariable",
   chars! "\t\t{\tOwnerID\t\t\tLLUUID\t\t\t}",
   chars! "\t\t{\tIsGroupOwned\tBOOL\t\t\t}",
   chars! "\t\t{\tCount\t\t\tS32\t\t\t\t}",
   chars! "\t\t{\tOnlineStatus\tBOOL\t\t\t}",
   chars! "\t}",
   chars! "}"]

/-- `ParcelObjectOwnersReply` as the parser creates it. -/
def r62 : RawTemplate :=
  ⟨"ParcelObjectOwnersReply", .low, 57, [255, 255, 57], some .trusted, some .zerocoded, some .udpDeprecated,
    [⟨"Data", .variable, 0, [⟨"OnlineStatus", some .bool, some 1⟩, ⟨"Count", some .s32, some 4⟩, ⟨"IsGroupOwned", some .bool, some 1⟩, ⟨"OwnerID", some .uuid, some 16⟩]⟩]⟩

/-- `ParcelObjectOwnersReply` in file order. -/
def t62 : Template :=
  ⟨"ParcelObjectOwnersReply", .low, 57, [], some .trusted, some .zerocoded, some .udpDeprecated,
    [⟨"Data", .variable, 0, [⟨"OwnerID", .uuid, 16⟩, ⟨"IsGroupOwned", .bool, 1⟩, ⟨"Count", .s32, 4⟩, ⟨"OnlineStatus", .bool, 1⟩]⟩]⟩

theorem p62 : ChunkOk c62 r62 := by intro v older; kernel_rfl
theorem k62 : r62.known = some t62 := by kernel_rfl
theorem n62 : t62.name = String.ofList ['P', 'a', 'r', 'c', 'e', 'l', 'O', 'b', 'j', 'e', 'c', 't', 'O', 'w', 'n', 'e', 'r', 's', 'R', 'e', 'p', 'l', 'y'] := by kernel_rfl

/-- The names of the blocks and variables of `ParcelObjectOwnersReply`. -/
def b62 : List (List Char × List (List Char)) :=
  [(['D', 'a', 't', 'a'], [['O', 'w', 'n', 'e', 'r', 'I', 'D'], ['I', 's', 'G', 'r', 'o', 'u', 'p', 'O', 'w', 'n', 'e', 'd'], ['C', 'o', 'u', 'n', 't'], ['O', 'n', 'l', 'i', 'n', 'e', 'S', 't', 'a', 't', 'u', 's']])]

theorem w62 : Checked t62 := ⟨b62, by kernel_rfl, by kernel_rfl, by kernel_rfl⟩

/-- Lines of `message_template.msg` up to the end of `GroupNoticesListRequest`. -/
def c63 : List (List Char) :=
  [chars! "",
   chars! "// GroupNoticeListRequest",
   chars! "// viewer -> simulator -> dataserver",
   chars! "// reliable",
   chars! "{",
   chars! "\tGroupNoticesListRequest\tLow\t58 NotTrusted\tUnencoded",
   chars! "\t{",
   chars! "\t\tAgentData        Single",
   chars! "\t\t{\tAgentID\t\t\tLLUUID\t\t}",
   chars! "\t\t{\tSessionID\t\tLLUUID\t\t}",
   chars! "\t}",
   chars! "\t{",
   chars! "\t\tData        Single",
   chars! "\t\t{\tGroupID\t\t\tLLUUID\t\t}",
   chars! "\t}",
   chars! "}"]

/-- `GroupNoticesListRequest` as the parser creates it. -/
def r63 : RawTemplate :=
  ⟨"GroupNoticesListRequest", .low, 58, [255, 255, 58], some .notTrusted, some .unencoded, some .notDeprecated,
    [⟨"Data", .single, 0, [⟨"GroupID", some .uuid, some 16⟩]⟩,
     ⟨"AgentData", .single, 0, [⟨"SessionID", some .uuid, some 16⟩, ⟨"AgentID", some .uuid, some 16⟩]⟩]⟩

/-- `GroupNoticesListRequest` in file order. -/
def t63 : Template :=
  ⟨"GroupNoticesListRequest", .low, 58, [], some .notTrusted, some .unencoded, some .notDeprecated,
    [⟨"AgentData", .single, 0, [⟨"AgentID", .uuid, 16⟩, ⟨"SessionID", .uuid, 16⟩]⟩,
     ⟨"Data", .single, 0, [⟨"GroupID", .uuid, 16⟩]⟩]⟩

theorem p63 : ChunkOk c63 r63 := by intro v older; kernel_rfl
theorem k63 : r63.known = some t63 := by kernel_rfl
theorem n63 : t63.name = String.ofList ['G', 'r', 'o', 'u', 'p', 'N', 'o', 't', 'i', 'c', 'e', 's', 'L', 'i', 's', 't', 'R', 'e', 'q', 'u', 'e', 's', 't'] := by kernel_rfl

/-- The names of the blocks and variables of `GroupNoticesListRequest`. -/
def b63 : List (List Char × List (List Char)) :=
  [(['A', 'g', 'e', 'n', 't', 'D', 'a', 't', 'a'], [['A', 'g', 'e', 'n', 't', 'I', 'D'], ['S', 'e', 's', 's', 'i', 'o', 'n', 'I', 'D']]),
   (['D', 'a', 't', 'a'], [['G', 'r', 'o', 'u', 'p', 'I', 'D']])]

theorem w63 : Checked t63 := ⟨b63, by kernel_rfl, by kernel_rfl, by kernel_rfl⟩

/-- Lines of `message_template.msg` up to the end of `GroupNoticesListReply`. -/
def c64 : List (List Char) :=
  [chars! "",
   chars! "// GroupNoticesListReply",
   chars! "// dataserver -> simulator -> viewer",
   chars! "// reliable",
   chars! "{",
   chars! "\tGroupNoticesListReply\tLow\t59 Trusted\tUnencoded",
   chars! "\t{",
   chars! "\t\tAgentData\tSingle",
   chars! "\t\t{\tAgentID\t\t\tLLUUID\t\t}",
   chars! "\t\t{\tGroupID\t\t\tLLUUID\t\t}",
   chars! "\t}",
   chars! "\t{",
   chars! "\t\tData\t\tVariable",
   chars! "\t\t{\tNoticeID\t\tLLUUID\t\t}",
   chars! "\t\t{\tTimestamp\t\tU32\t\t\t}",
   chars! "\t\t{\tFromName\t\tVariable 2\t}",
   chars! "\t\t{\tSubject\t\t\tVariable 2\t}",
   chars! "\t\t{\tHasAttachment\tBOOL\t\t}",
   chars! "\t\t{\tAssetType\t\tU8\t\t\t}",
   chars! "\t}",
   chars! "}"]

/-- `GroupNoticesListReply` as the parser creates it. -/
def r64 : RawTemplate :=
  ⟨"GroupNoticesListReply", .low, 59, [255, 255, 59], some .trusted, some .unencoded, some .notDeprecated,
    [⟨"Data", .variable, 0, [⟨"AssetType", some .u8, some 1⟩, ⟨"HasAttachment", some .bool, some 1⟩, ⟨"Subject", some .variable, some 2⟩, ⟨"FromName", some .variable, some 2⟩, ⟨"Timestamp", some .u32, some 4⟩, ⟨"NoticeID", some .uuid, some 16⟩]⟩,
     ⟨"AgentData", .single, 0, [⟨"GroupID", some .uuid, some 16⟩, ⟨"AgentID", some .uuid, some 16⟩]⟩]⟩

/-- `GroupNoticesListReply` in file order. -/
def t64 : Template :=
  ⟨"GroupNoticesListReply", .low, 59, [], some .trusted, some .unencoded, some .notDeprecated,
    [⟨"AgentData", .single, 0, [⟨"AgentID", .uuid, 16⟩, ⟨"GroupID", .uuid, 16⟩]⟩,
     ⟨"Data", .variable, 0, [⟨"NoticeID", .uuid, 16⟩, ⟨"Timestamp", .u32, 4⟩, ⟨"FromName", .variable, 2⟩, ⟨"Subject", .variable, 2⟩, ⟨"HasAttachment", .bool, 1⟩, ⟨"AssetType", .u8, 1⟩]⟩]⟩

theorem p64 : ChunkOk c64 r64 := by intro v older; kernel_rfl
theorem k64 : r64.known = some t64 := by kernel_rfl
theorem n64 : t64.name = String.ofList ['G', 'r', 'o', 'u', 'p', 'N', 'o', 't', 'i', 'c', 'e', 's', 'L', 'i', 's', 't', 'R', 'e', 'p', 'l', 'y'] := by kernel_rfl

/-- The names of the blocks and variables of `GroupNoticesListReply`. -/
def b64 : List (List Char × List (List Char)) :=
  [(['A', 'g', 'e', 'n', 't', 'D', 'a', 't', 'a'], [['A', 'g', 'e', 'n', 't', 'I', 'D'], ['G', 'r', 'o', 'u', 'p', 'I', 'D']]),
   (['D', 'a', 't', 'a'], [['N', 'o', 't', 'i', 'c', 'e', 'I', 'D'], ['T', 'i', 'm', 'e', 's', 't', 'a', 'm', 'p'], ['F', 'r', 'o', 'm', 'N', 'a', 'm', 'e'], ['S', 'u', 'b', 'j', 'e', 'c', 't'], ['H', 'a', 's', 'A', 't', 't', 'a', 'c', 'h', 'm', 'e', 'n', 't'], ['A', 's', 's', 'e', 't', 'T', 'y', 'p', 'e']])]

theorem w64 : Checked t64 := ⟨b64, by kernel_rfl, by kernel_rfl, by kernel_rfl⟩

/-- Lines of `message_template.msg` up to the end of `GroupNoticeRequest`. -/
def c65 : List (List Char) :=
  [chars! "",
   chars! "// GroupNoticeRequest",
   chars! "// viewer -> simulator",
   chars! "// simulator -> dataserver",
   chars! "// reliable",
   chars! "{",
   chars! "\tGroupNoticeRequest Low 60 NotTrusted Unencoded",
   chars! "\t{",
   chars! "\t\tAgentData        Single",
   chars! "\t\t{\tAgentID\t\t\tLLUUID\t\t}",
   chars! "\t\t{\tSessionID\t\tLLUUID\t\t}",
   chars! "\t}",
   chars! "\t{",
   chars! "\t\tData        Single",
   chars! "\t\t{\tGroupNoticeID\tLLUUID\t\t}",
   chars! "\t}",
   chars! "}"]

/-- `GroupNoticeRequest` as the parser creates it. -/
def r65 : RawTemplate :=
  ⟨"GroupNoticeRequest", .low, 60, [255, 255, 60], some .notTrusted, some .unencoded, some .notDeprecated,
    [⟨"Data", .single, 0, [⟨"GroupNoticeID", some .uuid, some 16⟩]⟩,
     ⟨"AgentData", .single, 0, [⟨"SessionID", some .uuid, some 16⟩, ⟨"AgentID", some .uuid, some 16⟩]⟩]⟩

/-- `GroupNoticeRequest` in file order. -/
def t65 : Template :=
  ⟨"GroupNoticeRequest", .low, 60, [], some .notTrusted, some .unencoded, some .notDeprecated,
    [⟨"AgentData", .single, 0, [⟨"AgentID", .uuid, 16⟩, ⟨"SessionID", .uuid, 16⟩]⟩,
     ⟨"Data", .single, 0, [⟨"GroupNoticeID", .uuid, 16⟩]⟩]⟩

theorem p65 : ChunkOk c65 r65 := by intro v older; kernel_rfl
theorem k65 : r65.known = some t65 := by kernel_rfl
theorem n65 : t65.name = String.ofList ['G', 'r', 'o', 'u', 'p', 'N', 'o', 't', 'i', 'c', 'e', 'R', 'e', 'q', 'u', 'e', 's', 't'] := by kernel_rfl

/-- The names of the blocks and variables of `GroupNoticeRequest`. -/
def b65 : List (List Char × List (List Char)) :=
  [(['A', 'g', 'e', 'n', 't', 'D', 'a', 't', 'a'], [['A', 'g', 'e', 'n', 't', 'I', 'D'], ['S', 'e', 's', 's', 'i', 'o', 'n', 'I', 'D']]),
   (['D', 'a', 't', 'a'], [['G', 'r', 'o', 'u', 'p', 'N', 'o', 't', 'i', 'c', 'e', 'I', 'D']])]

theorem w65 : Checked t65 := ⟨b65, by kernel_rfl, by kernel_rfl, by kernel_rfl⟩

/-- Lines of `message_template.msg` up to the end of `GroupNoticeAdd`. -/
def c66 : List (List Char) :=
  [chars! "",
   chars! "// GroupNoticeAdd",
   chars! "// Add a group notice. ",
   chars! "// simulator -> dataserver",
   chars! "// reliable",
   chars! "{",
   chars! "\tGroupNoticeAdd Low 61 Trusted Unencoded",
   chars! "\t{",
   chars! "\t\tAgentData\tSingle",
   chars! "\t\t{\tAgentID\t\t\tLLUUID\t\t}",
   chars! "\t}",
   chars! "\t{",
   chars! "\t\tMessageBlock\t\tSingle",
   chars! "\t\t{\tToGroupID\t\tLLUUID\t}",
   chars! "\t\t{\tID\t\t\t\tLLUUID\t}",
   chars! "\t\t{\tDialog\t\t\tU8\t}",
   chars! "\t\t{\tFromAgentName\tVariable\t1\t}",
   chars! "\t\t{\tMessage\t\t\tVariable\t2\t}",
   chars! "\t\t{\tBinaryBucket\tVariable\t2\t}",
   chars! "\t}",
   chars! "}"]

/-- `GroupNoticeAdd` as the parser creates it. -/
def r66 : RawTemplate :=
  ⟨"GroupNoticeAdd", .low, 61, [255, 255, 61], some .trusted, some .unencoded, some .notDeprecated,
    [⟨"MessageBlock", .single, 0, [⟨"BinaryBucket", some .variable, some 2⟩, ⟨"Message", some .variable, some 2⟩, ⟨"FromAgentName", some .variable, some 1⟩, ⟨"Dialog", some .u8, some 1⟩, ⟨"ID", some .uuid, some 16⟩, ⟨"ToGroupID", some .uuid, some 16⟩]⟩,
     ⟨"AgentData", .single, 0, [⟨"AgentID", some .uuid, some 16⟩]⟩]⟩

/-- `GroupNoticeAdd` in file order. -/
def t66 : Template :=
  ⟨"GroupNoticeAdd", .low, 61, [], some .trusted, some .unencoded, some .notDeprecated,
    [⟨"AgentData", .single, 0, [⟨"AgentID", .uuid, 16⟩]⟩,
     ⟨"MessageBlock", .single, 0, [⟨"ToGroupID", .uuid, 16⟩, ⟨"ID", .uuid, 16⟩, ⟨"Dialog", .u8, 1⟩, ⟨"FromAgentName", .variable, 1⟩, ⟨"Message", .variable, 2⟩, ⟨"BinaryBucket", .variable, 2⟩]⟩]⟩

theorem p66 : ChunkOk c66 r66 := by intro v older; kernel_rfl
theorem k66 : r66.known = some t66 := by kernel_rfl
theorem n66 : t66.name = String.ofList ['G', 'r', 'o', 'u', 'p', 'N', 'o', 't', 'i', 'c', 'e', 'A', 'd', 'd'] := by kernel_rfl

/-- The names of the blocks and variables of `GroupNoticeAdd`. -/
def b66 : List (List Char × List (List Char)) :=
  [(['A', 'g', 'e', 'n', 't', 'D', 'a', 't', 'a'], [['A', 'g', 'e', 'n', 't', 'I', 'D']]),
   (['M', 'e', 's', 's', 'a', 'g', 'e', 'B', 'l', 'o', 'c', 'k'], [['T', 'o', 'G', 'r', 'o', 'u', 'p', 'I', 'D'], ['I', 'D'], ['D', 'i', 'a', 'l', 'o', 'g'], ['F', 'r', 'o', 'm', 'A', 'g', 'e', 'n', 't', 'N', 'a', 'm', 'e'], ['M', 'e', 's', 's', 'a', 'g', 'e'], ['B', 'i', 'n', 'a', 'r', 'y', 'B', 'u', 'c', 'k', 'e', 't']])]

theorem w66 : Checked t66 := ⟨b66, by kernel_rfl, by kernel_rfl, by kernel_rfl⟩

/-- Lines of `message_template.msg` up to the end of `TeleportRequest`. -/
def c67 : List (List Char) :=
  [chars! "",
   chars! "",
   chars! "// ****************************************************************************",
   chars! "// Teleport messages",
   chars! "//",
   chars! "// The teleport messages are numerous, so I have attempted to give them a ",
   chars! "// consistent naming convention. Since there is a bit of glob pattern",
   chars! "// aliasing, the rules are applied in order.",
   chars! "//",
   chars! "// Teleport* - viewer->sim or sim->viewer message which announces a ",
   chars! "//             teleportation request, progrees, start, or end.",
   chars! "// Data* - sim->data or data->sim trusted message.",
   chars! "// Space* - sim->space or space->sim trusted messaging",
   chars! "// *Lure - A lure message to pass around information.",
   chars! "//",
   chars! "// All actual viewer teleports will begin with a Teleport* message and",
   chars! "// end in a TeleportStart, TeleportLocal or TeleportFailed message. The TeleportFailed",
   chars! "// message may be returned by any process and must be routed through the",
   chars! "// teleporting agent's simulator and back to the viewer.",
   chars! "// ****************************************************************************",
   chars! "",
   chars! "// TeleportRequest",
   chars! "// viewer -> sim specifying exact teleport destination",
   chars! "{",
   chars! "\tTeleportRequest\tLow\t62 NotTrusted Unencoded",
   chars! "\t{",
   chars! "\t\tAgentData\tSingle",
   chars! "\t\t{\tAgentID\t\tLLUUID\t\t}",
   chars! "\t\t{\tSessionID\tLLUUID\t\t}",
   chars! "\t}",
   chars! "\t{",
   chars! "\t\tInfo\t\tSingle",
   chars! "\t\t{\tRegionID\tLLUUID\t\t}",
   chars! "\t\t{\tPosition\tLLVector3\t}",
   chars! "\t\t{\tLookAt\t\tLLVector3\t}",
   chars! "\t}",
   chars! "}"]

/-- `TeleportRequest` as the parser creates it. -/
def r67 : RawTemplate :=
  ⟨"TeleportRequest", .low, 62, [255, 255, 62], some .notTrusted, some .unencoded, some .notDeprecated,
    [⟨"Info", .single, 0, [⟨"LookAt", some .vector3, some 12⟩, ⟨"Position", some .vector3, some 12⟩, ⟨"RegionID", some .uuid, some 16⟩]⟩,
     ⟨"AgentData", .single, 0, [⟨"SessionID", some .uuid, some 16⟩, ⟨"AgentID", some .uuid, some 16⟩]⟩]⟩

/-- `TeleportRequest` in file order. -/
def t67 : Template :=
  ⟨"TeleportRequest", .low, 62, [], some .notTrusted, some .unencoded, some .notDeprecated,
    [⟨"AgentData", .single, 0, [⟨"AgentID", .uuid, 16⟩, ⟨"SessionID", .uuid, 16⟩]⟩,
     ⟨"Info", .single, 0, [⟨"RegionID", .uuid, 16⟩, ⟨"Position", .vector3, 12⟩, ⟨"LookAt", .vector3, 12⟩]⟩]⟩

theorem p67 : ChunkOk c67 r67 := by intro v older; kernel_rfl
theorem k67 : r67.known = some t67 := by kernel_rfl
theorem n67 : t67.name = String.ofList ['T', 'e', 'l', 'e', 'p', 'o', 'r', 't', 'R', 'e', 'q', 'u', 'e', 's', 't'] := by kernel_rfl

/-- The names of the blocks and variables of `TeleportRequest`. -/
def b67 : List (List Char × List (List Char)) :=
  [(['A', 'g', 'e', 'n', 't', 'D', 'a', 't', 'a'], [['A', 'g', 'e', 'n', 't', 'I', 'D'], ['S', 'e', 's', 's', 'i', 'o', 'n', 'I', 'D']]),
   (['I', 'n', 'f', 'o'], [['R', 'e', 'g', 'i', 'o', 'n', 'I', 'D'], ['P', 'o', 's', 'i', 't', 'i', 'o', 'n'], ['L', 'o', 'o', 'k', 'A', 't']])]

theorem w67 : Checked t67 := ⟨b67, by kernel_rfl, by kernel_rfl, by kernel_rfl⟩

/-- Lines of `message_template.msg` up to the end of `TeleportLocationRequest`. -/
def c68 : List (List Char) :=
  [chars! "",
   chars! "// TeleportLocationRequest",
   chars! "// viewer -> sim specifying exact teleport destination",
   chars! "{",
   chars! "\tTeleportLocationRequest\tLow\t63 NotTrusted Unencoded",
   chars! "\t{",
   chars! "\t\tAgentData\tSingle",
   chars! "\t\t{\tAgentID\t\tLLUUID\t\t}",
   chars! "\t\t{\tSessionID\tLLUUID\t\t}",
   chars! "\t}",
   chars! "\t{",
   chars! "\t\tInfo\tSingle",
   chars! "\t\t{\tRegionHandle\tU64\t\t\t}",
   chars! "\t\t{\tPosition\t\tLLVector3\t}",
   chars! "\t\t{\tLookAt\t\t\tLLVector3\t}",
   chars! "\t}",
   chars! "}"]

/-- `TeleportLocationRequest` as the parser creates it. -/
def r68 : RawTemplate :=
  ⟨"TeleportLocationRequest", .low, 63, [255, 255, 63], some .notTrusted, some .unencoded, some .notDeprecated,
    [⟨"Info", .single, 0, [⟨"LookAt", some .vector3, some 12⟩, ⟨"Position", some .vector3, some 12⟩, ⟨"RegionHandle", some .u64, some 8⟩]⟩,
     ⟨"AgentData", .single, 0, [⟨"SessionID", some .uuid, some 16⟩, ⟨"AgentID", some .uuid, some 16⟩]⟩]⟩

/-- `TeleportLocationRequest` in file order. -/
def t68 : Template :=
  ⟨"TeleportLocationRequest", .low, 63, [], some .notTrusted, some .unencoded, some .notDeprecated,
    [⟨"AgentData", .single, 0, [⟨"AgentID", .uuid, 16⟩, ⟨"SessionID", .uuid, 16⟩]⟩,
     ⟨"Info", .single, 0, [⟨"RegionHandle", .u64, 8⟩, ⟨"Position", .vector3, 12⟩, ⟨"LookAt", .vector3, 12⟩]⟩]⟩

theorem p68 : ChunkOk c68 r68 := by intro v older; kernel_rfl
theorem k68 : r68.known = some t68 := by kernel_rfl
theorem n68 : t68.name = String.ofList ['T', 'e', 'l', 'e', 'p', 'o', 'r', 't', 'L', 'o', 'c', 'a', 't', 'i', 'o', 'n', 'R', 'e', 'q', 'u', 'e', 's', 't'] := by kernel_rfl

/-- The names of the blocks and variables of `TeleportLocationRequest`. -/
def b68 : List (List Char × List (List Char)) :=
  [(['A', 'g', 'e', 'n', 't', 'D', 'a', 't', 'a'], [['A', 'g', 'e', 'n', 't', 'I', 'D'], ['S', 'e', 's', 's', 'i', 'o', 'n', 'I', 'D']]),
   (['I', 'n', 'f', 'o'], [['R', 'e', 'g', 'i', 'o', 'n', 'H', 'a', 'n', 'd', 'l', 'e'], ['P', 'o', 's', 'i', 't', 'i', 'o', 'n'], ['L', 'o', 'o', 'k', 'A', 't']])]

theorem w68 : Checked t68 := ⟨b68, by kernel_rfl, by kernel_rfl, by kernel_rfl⟩

/-- Lines of `message_template.msg` up to the end of `TeleportLocal`. -/
def c69 : List (List Char) :=
  [chars! "",
   chars! "// TeleportLocal",
   chars! "// sim -> viewer reply telling the viewer that we've successfully TP'd",
   chars! "// to somewhere else within the sim",
   chars! "{",
   chars! "\tTeleportLocal Low 64 Trusted Unencoded",
   chars! "\t{",
   chars! "\t\tInfo\t\tSingle",
   chars! "\t\t{\tAgentID\t\t\tLLUUID\t\t\t}",
   chars! "\t\t{\tLocationID\t\tU32\t\t\t\t}",
   chars! "\t\t{\tPosition\t\tLLVector3\t\t}\t// region",
   chars! "\t\t{\tLookAt\t\t\tLLVector3\t\t}",
   chars! "\t\t{\tTeleportFlags \tU32\t\t\t\t}",
   chars! "\t}",
   chars! "}"]

/-- `TeleportLocal` as the parser creates it. -/
def r69 : RawTemplate :=
  ⟨"TeleportLocal", .low, 64, [255, 255, 64], some .trusted, some .unencoded, some .notDeprecated,
    [⟨"Info", .single, 0, [⟨"TeleportFlags", some .u32, some 4⟩, ⟨"LookAt", some .vector3, some 12⟩, ⟨"Position", some .vector3, some 12⟩, ⟨"LocationID", some .u32, some 4⟩, ⟨"AgentID", some .uuid, some 16⟩]⟩]⟩

/-- `TeleportLocal` in file order. -/
def t69 : Template :=
  ⟨"TeleportLocal", .low, 64, [], some .trusted, some .unencoded, some .notDeprecated,
    [⟨"Info", .single, 0, [⟨"AgentID", .uuid, 16⟩, ⟨"LocationID", .u32, 4⟩, ⟨"Position", .vector3, 12⟩, ⟨"LookAt", .vector3, 12⟩, ⟨"TeleportFlags", .u32, 4⟩]⟩]⟩

theorem p69 : ChunkOk c69 r69 := by intro v older; kernel_rfl
theorem k69 : r69.known = some t69 := by kernel_rfl
theorem n69 : t69.name = String.ofList ['T', 'e', 'l', 'e', 'p', 'o', 'r', 't', 'L', 'o', 'c', 'a', 'l'] := by kernel_rfl

/-- The names of the blocks and variables of `TeleportLocal`. -/
def b69 : List (List Char × List (List Char)) :=
  [(['I', 'n', 'f', 'o'], [['A', 'g', 'e', 'n', 't', 'I', 'D'], ['L', 'o', 'c', 'a', 't', 'i', 'o', 'n', 'I', 'D'], ['P', 'o', 's', 'i', 't', 'i', 'o', 'n'], ['L', 'o', 'o', 'k', 'A', 't'], ['T', 'e', 'l', 'e', 'p', 'o', 'r', 't', 'F', 'l', 'a', 'g', 's']])]

theorem w69 : Checked t69 := ⟨b69, by kernel_rfl, by kernel_rfl, by kernel_rfl⟩

/-- Lines of `message_template.msg` up to the end of `TeleportLandmarkRequest`. -/
def c70 : List (List Char) :=
  [chars! "",
   chars! "// TeleportLandmarkRequest viewer->sim",
   chars! "// teleport to landmark asset ID destination. use LLUUD::null for home.",
   chars! "{",
   chars! "\tTeleportLandmarkRequest Low 65 NotTrusted Zerocoded",
   chars! "\t{",
   chars! "\t\tInfo\t\tSingle",
   chars! "\t\t{\tAgentID\t\t\tLLUUID\t}",
   chars! "\t\t{\tSessionID\t\tLLUUID\t}",
   chars! "\t\t{\tLandmarkID\t\tLLUUID\t}",
   chars! "\t}",
   chars! "}"]

/-- `TeleportLandmarkRequest` as the parser creates it. -/
def r70 : RawTemplate :=
  ⟨"TeleportLandmarkRequest", .low, 65, [255, 255, 65], some .notTrusted, some .zerocoded, some .notDeprecated,
    [⟨"Info", .single, 0, [⟨"LandmarkID", some .uuid, some 16⟩, ⟨"SessionID", some .uuid, some 16⟩, ⟨"AgentID", some .uuid, some 16⟩]⟩]⟩

/-- `TeleportLandmarkRequest` in file order. -/
def t70 : Template :=
  ⟨"TeleportLandmarkRequest", .low, 65, [], some .notTrusted, some .zerocoded, some .notDeprecated,
    [⟨"Info", .single, 0, [⟨"AgentID", .uuid, 16⟩, ⟨"SessionID", .uuid, 16⟩, ⟨"LandmarkID", .uuid, 16⟩]⟩]⟩

theorem p70 : ChunkOk c70 r70 := by intro v older; kernel_rfl
theorem k70 : r70.known = some t70 := by kernel_rfl
theorem n70 : t70.name = String.ofList ['T', 'e', 'l', 'e', 'p', 'o', 'r', 't', 'L', 'a', 'n', 'd', 'm', 'a', 'r', 'k', 'R', 'e', 'q', 'u', 'e', 's', 't'] := by kernel_rfl

/-- The names of the blocks and variables of `TeleportLandmarkRequest`. -/
def b70 : List (List Char × List (List Char)) :=
  [(['I', 'n', 'f', 'o'], [['A', 'g', 'e', 'n', 't', 'I', 'D'], ['S', 'e', 's', 's', 'i', 'o', 'n', 'I', 'D'], ['L', 'a', 'n', 'd', 'm', 'a', 'r', 'k', 'I', 'D']])]

theorem w70 : Checked t70 := ⟨b70, by kernel_rfl, by kernel_rfl, by kernel_rfl⟩

/-- Lines of `message_template.msg` up to the end of `TeleportProgress`. -/
def c71 : List (List Char) :=
  [chars! "",
   chars! "// TeleportProgress sim->viewer",
   chars! "// Tell the agent how the teleport is going.",
   chars! "{",
   chars! "\tTeleportProgress Low 66 Trusted Unencoded",
   chars! "\t{",
   chars! "\t\tAgentData\t\tSingle",
   chars! "\t\t{\tAgentID\t\tLLUUID\t}",
   chars! "\t}",
   chars! "\t{",
   chars! "\t\tInfo\t\t\tSingle",
   chars! "\t\t{\tTeleportFlags\tU32\t\t\t}",
   chars! "\t\t{\tMessage\t\tVariable\t1\t}  // string",
   chars! "\t}",
   chars! "}"]

/-- `TeleportProgress` as the parser creates it. -/
def r71 : RawTemplate :=
  ⟨"TeleportProgress", .low, 66, [255, 255, 66], some .trusted, some .unencoded, some .notDeprecated,
    [⟨"Info", .single, 0, [⟨"Message", some .variable, some 1⟩, ⟨"TeleportFlags", some .u32, some 4⟩]⟩,
     ⟨"AgentData", .single, 0, [⟨"AgentID", some .uuid, some 16⟩]⟩]⟩

/-- `TeleportProgress` in file order. -/
def t71 : Template :=
  ⟨"TeleportProgress", .low, 66, [], some .trusted, some .unencoded, some .notDeprecated,
    [⟨"AgentData", .single, 0, [⟨"AgentID", .uuid, 16⟩]⟩,
     ⟨"Info", .single, 0, [⟨"TeleportFlags", .u32, 4⟩, ⟨"Message", .variable, 1⟩]⟩]⟩

theorem p71 : ChunkOk c71 r71 := by intro v older; kernel_rfl
theorem k71 : r71.known = some t71 := by kernel_rfl
theorem n71 : t71.name = String.ofList ['T', 'e', 'l', 'e', 'p', 'o', 'r', 't', 'P', 'r', 'o', 'g', 'r', 'e', 's', 's'] := by kernel_rfl

/-- The names of the blocks and variables of `TeleportProgress`. -/
def b71 : List (List Char × List (List Char)) :=
  [(['A', 'g', 'e', 'n', 't', 'D', 'a', 't', 'a'], [['A', 'g', 'e', 'n', 't', 'I', 'D']]),
   (['I', 'n', 'f', 'o'], [['T', 'e', 'l', 'e', 'p', 'o', 'r', 't', 'F', 'l', 'a', 'g', 's'], ['M', 'e', 's', 's', 'a', 'g', 'e']])]

theorem w71 : Checked t71 := ⟨b71, by kernel_rfl, by kernel_rfl, by kernel_rfl⟩

/-- Lines of `message_template.msg` up to the end of `DataHomeLocationRequest`. -/
def c72 : List (List Char) :=
  [chars! "",
   chars! "// DataHomeLocationRequest sim->data",
   chars! "// Request ",
   chars! "{",
   chars! "\tDataHomeLocationRequest Low 67 Trusted Zerocoded",
   chars! "\t{",
   chars! "\t\tInfo\t\tSingle",
   chars! "\t\t{\tAgentID\t\t\tLLUUID\t}",
   chars! "\t\t{\tKickedFromEstateID\tU32\t}",
   chars! "\t}",
   chars! "}"]

/-- `DataHomeLocationRequest` as the parser creates it. -/
def r72 : RawTemplate :=
  ⟨"DataHomeLocationRequest", .low, 67, [255, 255, 67], some .trusted, some .zerocoded, some .notDeprecated,
    [⟨"Info", .single, 0, [⟨"KickedFromEstateID", some .u32, some 4⟩, ⟨"AgentID", some .uuid, some 16⟩]⟩]⟩

/-- `DataHomeLocationRequest` in file order. -/
def t72 : Template :=
  ⟨"DataHomeLocationRequest", .low, 67, [], some .trusted, some .zerocoded, some .notDeprecated,
    [⟨"Info", .single, 0, [⟨"AgentID", .uuid, 16⟩, ⟨"KickedFromEstateID", .u32, 4⟩]⟩]⟩

theorem p72 : ChunkOk c72 r72 := by intro v older; kernel_rfl
theorem k72 : r72.known = some t72 := by kernel_rfl
theorem n72 : t72.name = String.ofList ['D', 'a', 't', 'a', 'H', 'o', 'm', 'e', 'L', 'o', 'c', 'a', 't', 'i', 'o', 'n', 'R', 'e', 'q', 'u', 'e', 's', 't'] := by kernel_rfl

/-- The names of the blocks and variables of `DataHomeLocationRequest`. -/
def b72 : List (List Char × List (List Char)) :=
  [(['I', 'n', 'f', 'o'], [['A', 'g', 'e', 'n', 't', 'I', 'D'], ['K', 'i', 'c', 'k', 'e', 'd', 'F', 'r', 'o', 'm', 'E', 's', 't', 'a', 't', 'e', 'I', 'D']])]

theorem w72 : Checked t72 := ⟨b72, by kernel_rfl, by kernel_rfl, by kernel_rfl⟩

/-- Lines of `message_template.msg` up to the end of `DataHomeLocationReply`. -/
def c73 : List (List Char) :=
  [chars! "",
   chars! "// DataHomeLocationReply data->sim",
   chars! "// response is the location of agent home.",
   chars! "{",
   chars! "\tDataHomeLocationReply Low 68 Trusted Unencoded",
   chars! "\t{",
   chars! "\t\tInfo\t\tSingle",
   chars! "\t\t{\tAgentID\t\t\tLLUUID\t\t}",
   chars! "\t\t{\tRegionHandle\tU64\t\t\t}",
   chars! "\t\t{\tPosition\t\tLLVector3\t}\t// region coords",
   chars! "\t\t{\tLookAt\t\t\tLLVector3\t}",
   chars! "\t}",
   chars! "}"]

/-- `DataHomeLocationReply` as the parser creates it. -/
def r73 : RawTemplate :=
  ⟨"DataHomeLocationReply", .low, 68, [255, 255, 68], some .trusted, some .unencoded, some .notDeprecated,
    [⟨"Info", .single, 0, [⟨"LookAt", some .vector3, some 12⟩, ⟨"Position", some .vector3, some 12⟩, ⟨"RegionHandle", some .u64, some 8⟩, ⟨"AgentID", some .uuid, some 16⟩]⟩]⟩

/-- `DataHomeLocationReply` in file order. -/
def t73 : Template :=
  ⟨"DataHomeLocationReply", .low, 68, [], some .trusted, some .unencoded, some .notDeprecated,
    [⟨"Info", .single, 0, [⟨"AgentID", .uuid, 16⟩, ⟨"RegionHandle", .u64, 8⟩, ⟨"Position", .vector3, 12⟩, ⟨"LookAt", .vector3, 12⟩]⟩]⟩

theorem p73 : ChunkOk c73 r73 := by intro v older; kernel_rfl
theorem k73 : r73.known = some t73 := by kernel_rfl
theorem n73 : t73.name = String.ofList ['D', 'a', 't', 'a', 'H', 'o', 'm', 'e', 'L', 'o', 'c', 'a', 't', 'i', 'o', 'n', 'R', 'e', 'p', 'l', 'y'] := by kernel_rfl

/-- The names of the blocks and variables of `DataHomeLocationReply`. -/
def b73 : List (List Char × List (List Char)) :=
  [(['I', 'n', 'f', 'o'], [['A', 'g', 'e', 'n', 't', 'I', 'D'], ['R', 'e', 'g', 'i', 'o', 'n', 'H', 'a', 'n', 'd', 'l', 'e'], ['P', 'o', 's', 'i', 't', 'i', 'o', 'n'], ['L', 'o', 'o', 'k', 'A', 't']])]

theorem w73 : Checked t73 := ⟨b73, by kernel_rfl, by kernel_rfl, by kernel_rfl⟩

/-- Lines of `message_template.msg` up to the end of `TeleportFinish`. -/
def c74 : List (List Char) :=
  [chars! "",
   chars! "",
   chars! "// TeleportFinish sim->viewer",
   chars! "// called when all of the information has been collected and readied for ",
   chars! "// the agent.",
   chars! "{",
   chars! "\tTeleportFinish Low 69 Trusted Unencoded UDPBlackListed",
   chars! "\t{",
   chars! "\t\tInfo\t\tSingle",
   chars! "\t\t{\tAgentID\t\t\tLLUUID\t\t\t}",
   chars! "\t\t{\tLocationID\t\tU32\t\t\t\t}",
   chars! "\t\t{\tSimIP\t\t\tIPADDR\t\t\t}",
   chars! "\t\t{\tSimPort\t\t\tIPPORT\t\t\t}",
   chars! "\t\t{\tRegionHandle\tU64\t\t\t\t}",
   chars! "\t\t{\tSeedCapability\tVariable\t2\t}\t// URL",
   chars! "\t\t{\tSimAccess\t\tU8\t\t\t\t}",
   chars! "\t\t{\tTeleportFlags \tU32\t\t\t\t}",
   chars! "\t}",
   chars! "}"]

/-- `TeleportFinish` as the parser creates it. -/
def r74 : RawTemplate :=
  ⟨"TeleportFinish", .low, 69, [255, 255, 69], some .trusted, some .unencoded, some .udpBlackListed,
    [⟨"Info", .single, 0, [⟨"TeleportFlags", some .u32, some 4⟩, ⟨"SimAccess", some .u8, some 1⟩, ⟨"SeedCapability", some .variable, some 2⟩, ⟨"RegionHandle", some .u64, some 8⟩, ⟨"SimPort", some .ipport, some 2⟩, ⟨"SimIP", some .ipaddr, some 4⟩, ⟨"LocationID", some .u32, some 4⟩, ⟨"AgentID", some .uuid, some 16⟩]⟩]⟩

/-- `TeleportFinish` in file order. -/
def t74 : Template :=
  ⟨"TeleportFinish", .low, 69, [], some .trusted, some .unencoded, some .udpBlackListed,
    [⟨"Info", .single, 0, [⟨"AgentID", .uuid, 16⟩, ⟨"LocationID", .u32, 4⟩, ⟨"SimIP", .ipaddr, 4⟩, ⟨"SimPort", .ipport, 2⟩, ⟨"RegionHandle", .u64, 8⟩, ⟨"SeedCapability", .variable, 2⟩, ⟨"SimAccess", .u8, 1⟩, ⟨"TeleportFlags", .u32, 4⟩]⟩]⟩

theorem p74 : ChunkOk c74 r74 := by intro v older; kernel_rfl
theorem k74 : r74.known = some t74 := by kernel_rfl
theorem n74 : t74.name = String.ofList ['T', 'e', 'l', 'e', 'p', 'o', 'r', 't', 'F', 'i', 'n', 'i', 's', 'h'] := by kernel_rfl

/-- The names of the blocks and variables of `TeleportFinish`. -/
def b74 : List (List Char × List (List Char)) :=
  [(['I', 'n', 'f', 'o'], [['A', 'g', 'e', 'n', 't', 'I', 'D'], ['L', 'o', 'c', 'a', 't', 'i', 'o', 'n', 'I', 'D'], ['S', 'i', 'm', 'I', 'P'], ['S', 'i', 'm', 'P', 'o', 'r', 't'], ['R', 'e', 'g', 'i', 'o', 'n', 'H', 'a', 'n', 'd', 'l', 'e'], ['S', 'e', 'e', 'd', 'C', 'a', 'p', 'a', 'b', 'i', 'l', 'i', 't', 'y'], ['S', 'i', 'm', 'A', 'c', 'c', 'e', 's', 's'], ['T', 'e', 'l', 'e', 'p', 'o', 'r', 't', 'F', 'l', 'a', 'g', 's']])]

theorem w74 : Checked t74 := ⟨b74, by kernel_rfl, by kernel_rfl, by kernel_rfl⟩

/-- Lines of `message_template.msg` up to the end of `StartLure`. -/
def c75 : List (List Char) :=
  [chars! "",
   chars! "// StartLure viewer->sim",
   chars! "// Sent from viewer to the local simulator to lure target id to near ",
   chars! "// agent id. This will generate an instant message that will be routed ",
   chars! "// through the space server and out to the userserver. When that IM ",
   chars! "// goes through the userserver and the TargetID is online, the ",
   chars! "// userserver will send an InitializeLure to the spaceserver. When that",
   chars! "// packet is acked, the original instant message is finally forwarded to ",
   chars! "// TargetID.",
   chars! "{",
   chars! "\tStartLure\tLow\t70 NotTrusted Unencoded",
   chars! "\t{",
   chars! "\t\tAgentData\tSingle",
   chars! "\t\t{\tAgentID\t\t\tLLUUID\t\t\t}",
   chars! "\t\t{\tSessionID\t\tLLUUID\t\t\t}",
   chars! "\t}",
   chars! "\t{",
   chars! "\t\tInfo\tSingle",
   chars! "\t\t{\tLureType \t\tU8\t \t\t\t}",
   chars! "\t\t{\tMessage\t\t\tVariable\t1\t}",
   chars! "\t}",
   chars! "\t{",
   chars! "\t\tTargetData Variable",
   chars! "\t\t{\tTargetID\t\tLLUUID\t\t\t}",
   chars! "\t}",
   chars! "}"]

/-- `StartLure` as the parser creates it. -/
def r75 : RawTemplate :=
  ⟨"StartLure", .low, 70, [255, 255, 70], some .notTrusted, some .unencoded, some .notDeprecated,
    [⟨"TargetData", .variable, 0, [⟨"TargetID", some .uuid, some 16⟩]⟩,
     ⟨"Info", .single, 0, [⟨"Message", some .variable, some 1⟩, ⟨"LureType", some .u8, some 1⟩]⟩,
     ⟨"AgentData", .single, 0, [⟨"SessionID", some .uuid, some 16⟩, ⟨"AgentID", some .uuid, some 16⟩]⟩]⟩

/-- `StartLure` in file order. -/
def t75 : Template :=
  ⟨"StartLure", .low, 70, [], some .notTrusted, some .unencoded, some .notDeprecated,
    [⟨"AgentData", .single, 0, [⟨"AgentID", .uuid, 16⟩, ⟨"SessionID", .uuid, 16⟩]⟩,
     ⟨"Info", .single, 0, [⟨"LureType", .u8, 1⟩, ⟨"Message", .variable, 1⟩]⟩,
     ⟨"TargetData", .variable, 0, [⟨"TargetID", .uuid, 16⟩]⟩]⟩

theorem p75 : ChunkOk c75 r75 := by intro v older; kernel_rfl
theorem k75 : r75.known = some t75 := by kernel_rfl
theorem n75 : t75.name = String.ofList ['S', 't', 'a', 'r', 't', 'L', 'u', 'r', 'e'] := by kernel_rfl

/-- The names of the blocks and variables of `StartLure`. -/
def b75 : List (List Char × List (List Char)) :=
  [(['A', 'g', 'e', 'n', 't', 'D', 'a', 't', 'a'], [['A', 'g', 'e', 'n', 't', 'I', 'D'], ['S', 'e', 's', 's', 'i', 'o', 'n', 'I', 'D']]),
   (['I', 'n', 'f', 'o'], [['L', 'u', 'r', 'e', 'T', 'y', 'p', 'e'], ['M', 'e', 's', 's', 'a', 'g', 'e']]),
   (['T', 'a', 'r', 'g', 'e', 't', 'D', 'a', 't', 'a'], [['T', 'a', 'r', 'g', 'e', 't', 'I', 'D']])]

theorem w75 : Checked t75 := ⟨b75, by kernel_rfl, by kernel_rfl, by kernel_rfl⟩

/-- Lines of `message_template.msg` up to the end of `TeleportLureRequest`. -/
def c76 : List (List Char) :=
  [chars! "",
   chars! "// TeleportLureRequest viewer->sim",
   chars! "// Message from target of lure to begin the teleport process on the ",
   chars! "// local simulator.",
   chars! "{",
   chars! "\tTeleportLureRequest\tLow\t71 NotTrusted Unencoded",
   chars! "\t{",
   chars! "\t\tInfo\tSingle",
   chars! "\t\t{\tAgentID\t\tLLUUID\t}",
   chars! "\t\t{\tSessionID\tLLUUID\t}",
   chars! "\t\t{\tLureID\t\tLLUUID\t}",
   chars! "\t\t{\tTeleportFlags \tU32\t\t\t\t}",
   chars! "\t}",
   chars! "}"]

/-- `TeleportLureRequest` as the parser creates it. -/
def r76 : RawTemplate :=
  ⟨"TeleportLureRequest", .low, 71, [255, 255, 71], some .notTrusted, some .unencoded, some .notDeprecated,
    [⟨"Info", .single, 0, [⟨"TeleportFlags", some .u32, some 4⟩, ⟨"LureID", some .uuid, some 16⟩, ⟨"SessionID", some .uuid, some 16⟩, ⟨"AgentID", some .uuid, some 16⟩]⟩]⟩

/-- `TeleportLureRequest` in file order. -/
def t76 : Template :=
  ⟨"TeleportLureRequest", .low, 71, [], some .notTrusted, some .unencoded, some .notDeprecated,
    [⟨"Info", .single, 0, [⟨"AgentID", .uuid, 16⟩, ⟨"SessionID", .uuid, 16⟩, ⟨"LureID", .uuid, 16⟩, ⟨"TeleportFlags", .u32, 4⟩]⟩]⟩

theorem p76 : ChunkOk c76 r76 := by intro v older; kernel_rfl
theorem k76 : r76.known = some t76 := by kernel_rfl
theorem n76 : t76.name = String.ofList ['T', 'e', 'l', 'e', 'p', 'o', 'r', 't', 'L', 'u', 'r', 'e', 'R', 'e', 'q', 'u', 'e', 's', 't'] := by kernel_rfl

/-- The names of the blocks and variables of `TeleportLureRequest`. -/
def b76 : List (List Char × List (List Char)) :=
  [(['I', 'n', 'f', 'o'], [['A', 'g', 'e', 'n', 't', 'I', 'D'], ['S', 'e', 's', 's', 'i', 'o', 'n', 'I', 'D'], ['L', 'u', 'r', 'e', 'I', 'D'], ['T', 'e', 'l', 'e', 'p', 'o', 'r', 't', 'F', 'l', 'a', 'g', 's']])]

theorem w76 : Checked t76 := ⟨b76, by kernel_rfl, by kernel_rfl, by kernel_rfl⟩

/-- Lines of `message_template.msg` up to the end of `TeleportCancel`. -/
def c77 : List (List Char) :=
  [chars! "",
   chars! "// TeleportCancel viewer->sim",
   chars! "// reliable",
   chars! "{",
   chars! "\tTeleportCancel\tLow\t72 NotTrusted Unencoded",
   chars! "\t{",
   chars! "\t\tInfo\tSingle",
   chars! "\t\t{\tAgentID\t\tLLUUID\t}",
   chars! "\t\t{\tSessionID\tLLUUID\t}",
   chars! "\t}",
   chars! "}"]

/-- `TeleportCancel` as the parser creates it. -/
def r77 : RawTemplate :=
  ⟨"TeleportCancel", .low, 72, [255, 255, 72], some .notTrusted, some .unencoded, some .notDeprecated,
    [⟨"Info", .single, 0, [⟨"SessionID", some .uuid, some 16⟩, ⟨"AgentID", some .uuid, some 16⟩]⟩]⟩

/-- `TeleportCancel` in file order. -/
def t77 : Template :=
  ⟨"TeleportCancel", .low, 72, [], some .notTrusted, some .unencoded, some .notDeprecated,
    [⟨"Info", .single, 0, [⟨"AgentID", .uuid, 16⟩, ⟨"SessionID", .uuid, 16⟩]⟩]⟩

theorem p77 : ChunkOk c77 r77 := by intro v older; kernel_rfl
theorem k77 : r77.known = some t77 := by kernel_rfl
theorem n77 : t77.name = String.ofList ['T', 'e', 'l', 'e', 'p', 'o', 'r', 't', 'C', 'a', 'n', 'c', 'e', 'l'] := by kernel_rfl

/-- The names of the blocks and variables of `TeleportCancel`. -/
def b77 : List (List Char × List (List Char)) :=
  [(['I', 'n', 'f', 'o'], [['A', 'g', 'e', 'n', 't', 'I', 'D'], ['S', 'e', 's', 's', 'i', 'o', 'n', 'I', 'D']])]

theorem w77 : Checked t77 := ⟨b77, by kernel_rfl, by kernel_rfl, by kernel_rfl⟩

/-- Lines of `message_template.msg` up to the end of `TeleportStart`. -/
def c78 : List (List Char) :=
  [chars! "",
   chars! "",
   chars! "// TeleportStart sim->viewer",
   chars! "// announce a successful teleport request to the viewer.",
   chars! "{",
   chars! "\tTeleportStart Low 73 Trusted Unencoded",
   chars! "\t{",
   chars! "\t\tInfo\tSingle",
   chars! "\t\t{\tTeleportFlags\tU32\t\t}",
   chars! "\t}",
   chars! "}"]

/-- `TeleportStart` as the parser creates it. -/
def r78 : RawTemplate :=
  ⟨"TeleportStart", .low, 73, [255, 255, 73], some .trusted, some .unencoded, some .notDeprecated,
    [⟨"Info", .single, 0, [⟨"TeleportFlags", some .u32, some 4⟩]⟩]⟩

/-- `TeleportStart` in file order. -/
def t78 : Template :=
  ⟨"TeleportStart", .low, 73, [], some .trusted, some .unencoded, some .notDeprecated,
    [⟨"Info", .single, 0, [⟨"TeleportFlags", .u32, 4⟩]⟩]⟩

theorem p78 : ChunkOk c78 r78 := by intro v older; kernel_rfl
theorem k78 : r78.known = some t78 := by kernel_rfl
theorem n78 : t78.name = String.ofList ['T', 'e', 'l', 'e', 'p', 'o', 'r', 't', 'S', 't', 'a', 'r', 't'] := by kernel_rfl

/-- The names of the blocks and variables of `TeleportStart`. -/
def b78 : List (List Char × List (List Char)) :=
  [(['I', 'n', 'f', 'o'], [['T', 'e', 'l', 'e', 'p', 'o', 'r', 't', 'F', 'l', 'a', 'g', 's']])]

theorem w78 : Checked t78 := ⟨b78, by kernel_rfl, by kernel_rfl, by kernel_rfl⟩

/-- Lines of `message_template.msg` up to the end of `TeleportFailed`. -/
def c79 : List (List Char) :=
  [chars! "",
   chars! "// TeleportFailed somewhere->sim->viewer",
   chars! "// announce failure of teleport request",
   chars! "{",
   chars! "\tTeleportFailed Low 74 Trusted Unencoded",
   chars! "\t{",
   chars! "\t\tInfo\t\tSingle",
   chars! "\t\t{\tAgentID\t\tLLUUID\t\t\t}",
   chars! "\t\t{\tReason\t\tVariable\t1\t}  // string",
   chars! "\t}",
   chars! "\t{",
   chars! "\t\tAlertInfo\t\t\tVariable",
   chars! "\t\t{\tMessage\t\t\tVariable\t1\t}\t// string id",
   chars! "\t\t{\tExtraParams\t\tVariable\t1\t}\t// llsd extra parameters",
   chars! "\t}",
   chars! "}"]

/-- `TeleportFailed` as the parser creates it. -/
def r79 : RawTemplate :=
  ⟨"TeleportFailed", .low, 74, [255, 255, 74], some .trusted, some .unencoded, some .notDeprecated,
    [⟨"AlertInfo", .variable, 0, [⟨"ExtraParams", some .variable, some 1⟩, ⟨"Message", some .variable, some 1⟩]⟩,
     ⟨"Info", .single, 0, [⟨"Reason", some .variable, some 1⟩, ⟨"AgentID", some .uuid, some 16⟩]⟩]⟩

/-- `TeleportFailed` in file order. -/
def t79 : Template :=
  ⟨"TeleportFailed", .low, 74, [], some .trusted, some .unencoded, some .notDeprecated,
    [⟨"Info", .single, 0, [⟨"AgentID", .uuid, 16⟩, ⟨"Reason", .variable, 1⟩]⟩,
     ⟨"AlertInfo", .variable, 0, [⟨"Message", .variable, 1⟩, ⟨"ExtraParams", .variable, 1⟩]⟩]⟩

theorem p79 : ChunkOk c79 r79 := by intro v older; kernel_rfl
theorem k79 : r79.known = some t79 := by kernel_rfl
theorem n79 : t79.name = String.ofList ['T', 'e', 'l', 'e', 'p', 'o', 'r', 't', 'F', 'a', 'i', 'l', 'e', 'd'] := by kernel_rfl

/-- The names of the blocks and variables of `TeleportFailed`. -/
def b79 : List (List Char × List (List Char)) :=
  [(['I', 'n', 'f', 'o'], [['A', 'g', 'e', 'n', 't', 'I', 'D'], ['R', 'e', 'a', 's', 'o', 'n']]),
   (['A', 'l', 'e', 'r', 't', 'I', 'n', 'f', 'o'], [['M', 'e', 's', 's', 'a', 'g', 'e'], ['E', 'x', 't', 'r', 'a', 'P', 'a', 'r', 'a', 'm', 's']])]

theorem w79 : Checked t79 := ⟨b79, by kernel_rfl, by kernel_rfl, by kernel_rfl⟩

/-- Lines of `message_template.msg` up to the end of `Undo`. -/
def c80 : List (List Char) :=
  [chars! "",
   chars! "",
   chars! "// ***************************************************************************",
   chars! "// Viewer to Simulator Messages",
   chars! "// ***************************************************************************",
   chars! "",
   chars! "// Undo",
   chars! "{",
   chars! "\tUndo Low 75 NotTrusted Unencoded",
   chars! "\t{",
   chars! "\t\tAgentData\t\tSingle",
   chars! "\t\t{\tAgentID\t\tLLUUID\t}",
   chars! "\t\t{\tSessionID\tLLUUID\t}",
   chars! "\t\t{\tGroupID\t\tLLUUID\t}",
   chars! "\t}",
   chars! "\t{",
   chars! "\t\tObjectData\t\tVariable",
   chars! "\t\t{\tObjectID\tLLUUID\t}",
   chars! "\t}",
   chars! "}"]

/-- `Undo` as the parser creates it. -/
def r80 : RawTemplate :=
  ⟨"Undo", .low, 75, [255, 255, 75], some .notTrusted, some .unencoded, some .notDeprecated,
    [⟨"ObjectData", .variable, 0, [⟨"ObjectID", some .uuid, some 16⟩]⟩,
     ⟨"AgentData", .single, 0, [⟨"GroupID", some .uuid, some 16⟩, ⟨"SessionID", some .uuid, some 16⟩, ⟨"AgentID", some .uuid, some 16⟩]⟩]⟩

/-- `Undo` in file order. -/
def t80 : Template :=
  ⟨"Undo", .low, 75, [], some .notTrusted, some .unencoded, some .notDeprecated,
    [⟨"AgentData", .single, 0, [⟨"AgentID", .uuid, 16⟩, ⟨"SessionID", .uuid, 16⟩, ⟨"GroupID", .uuid, 16⟩]⟩,
     ⟨"ObjectData", .variable, 0, [⟨"ObjectID", .uuid, 16⟩]⟩]⟩

theorem p80 : ChunkOk c80 r80 := by intro v older; kernel_rfl
theorem k80 : r80.known = some t80 := by kernel_rfl
theorem n80 : t80.name = String.ofList ['U', 'n', 'd', 'o'] := by kernel_rfl

/-- The names of the blocks and variables of `Undo`. -/
def b80 : List (List Char × List (List Char)) :=
  [(['A', 'g', 'e', 'n', 't', 'D', 'a', 't', 'a'], [['A', 'g', 'e', 'n', 't', 'I', 'D'], ['S', 'e', 's', 's', 'i', 'o', 'n', 'I', 'D'], ['G', 'r', 'o', 'u', 'p', 'I', 'D']]),
   (['O', 'b', 'j', 'e', 'c', 't', 'D', 'a', 't', 'a'], [['O', 'b', 'j', 'e', 'c', 't', 'I', 'D']])]

theorem w80 : Checked t80 := ⟨b80, by kernel_rfl, by kernel_rfl, by kernel_rfl⟩

/-- Lines of `message_template.msg` up to the end of `Redo`. -/
def c81 : List (List Char) :=
  [chars! "",
   chars! "",
   chars! "// Redo",
   chars! "{",
   chars! "\tRedo Low 76 NotTrusted Unencoded",
   chars! "\t{",
   chars! "\t\tAgentData\t\tSingle",
   chars! "\t\t{\tAgentID\t\tLLUUID\t}",
   chars! "\t\t{\tSessionID\tLLUUID\t}",
   chars! "\t\t{\tGroupID\t\tLLUUID\t}",
   chars! "\t}",
   chars! "\t{",
   chars! "\t\tObjectData\t\tVariable",
   chars! "\t\t{\tObjectID\tLLUUID\t}",
   chars! "\t}",
   chars! "}"]

/-- `Redo` as the parser creates it. -/
def r81 : RawTemplate :=
  ⟨"Redo", .low, 76, [255, 255, 76], some .notTrusted, some .unencoded, some .notDeprecated,
    [⟨"ObjectData", .variable, 0, [⟨"ObjectID", some .uuid, some 16⟩]⟩,
     ⟨"AgentData", .single, 0, [⟨"GroupID", some .uuid, some 16⟩, ⟨"SessionID", some .uuid, some 16⟩, ⟨"AgentID", some .uuid, some 16⟩]⟩]⟩

/-- `Redo` in file order. -/
def t81 : Template :=
  ⟨"Redo", .low, 76, [], some .notTrusted, some .unencoded, some .notDeprecated,
    [⟨"AgentData", .single, 0, [⟨"AgentID", .uuid, 16⟩, ⟨"SessionID", .uuid, 16⟩, ⟨"GroupID", .uuid, 16⟩]⟩,
     ⟨"ObjectData", .variable, 0, [⟨"ObjectID", .uuid, 16⟩]⟩]⟩

theorem p81 : ChunkOk c81 r81 := by intro v older; kernel_rfl
theorem k81 : r81.known = some t81 := by kernel_rfl
theorem n81 : t81.name = String.ofList ['R', 'e', 'd', 'o'] := by kernel_rfl

/-- The names of the blocks and variables of `Redo`. -/
def b81 : List (List Char × List (List Char)) :=
  [(['A', 'g', 'e', 'n', 't', 'D', 'a', 't', 'a'], [['A', 'g', 'e', 'n', 't', 'I', 'D'], ['S', 'e', 's', 's', 'i', 'o', 'n', 'I', 'D'], ['G', 'r', 'o', 'u', 'p', 'I', 'D']]),
   (['O', 'b', 'j', 'e', 'c', 't', 'D', 'a', 't', 'a'], [['O', 'b', 'j', 'e', 'c', 't', 'I', 'D']])]

theorem w81 : Checked t81 := ⟨b81, by kernel_rfl, by kernel_rfl, by kernel_rfl⟩

/-- Lines of `message_template.msg` up to the end of `UndoLand`. -/
def c82 : List (List Char) :=
  [chars! "",
   chars! "// UndoLand",
   chars! "{",
   chars! "\tUndoLand Low 77 NotTrusted Unencoded",
   chars! "\t{",
   chars! "\t\tAgentData\t\tSingle",
   chars! "\t\t{\tAgentID\t\tLLUUID\t}",
   chars! "\t\t{\tSessionID\tLLUUID\t}",
   chars! "\t}",
   chars! "}"]

/-- `UndoLand` as the parser creates it. -/
def r82 : RawTemplate :=
  ⟨"UndoLand", .low, 77, [255, 255, 77], some .notTrusted, some .unencoded, some .notDeprecated,
    [⟨"AgentData", .single, 0, [⟨"SessionID", some .uuid, some 16⟩, ⟨"AgentID", some .uuid, some 16⟩]⟩]⟩

/-- `UndoLand` in file order. -/
def t82 : Template :=
  ⟨"UndoLand", .low, 77, [], some .notTrusted, some .unencoded, some .notDeprecated,
    [⟨"AgentData", .single, 0, [⟨"AgentID", .uuid, 16⟩, ⟨"SessionID", .uuid, 16⟩]⟩]⟩

theorem p82 : ChunkOk c82 r82 := by intro v older; kernel_rfl
theorem k82 : r82.known = some t82 := by kernel_rfl
theorem n82 : t82.name = String.ofList ['U', 'n', 'd', 'o', 'L', 'a', 'n', 'd'] := by kernel_rfl

/-- The names of the blocks and variables of `UndoLand`. -/
def b82 : List (List Char × List (List Char)) :=
  [(['A', 'g', 'e', 'n', 't', 'D', 'a', 't', 'a'], [['A', 'g', 'e', 'n', 't', 'I', 'D'], ['S', 'e', 's', 's', 'i', 'o', 'n', 'I', 'D']])]

theorem w82 : Checked t82 := ⟨b82, by kernel_rfl, by kernel_rfl, by kernel_rfl⟩

/-- Lines of `message_template.msg` up to the end of `AgentPause`. -/
def c83 : List (List Char) :=
  [chars! "",
   chars! "",
   chars! "// AgentPause - viewer occasionally will block, inform simulator of this fact",
   chars! "{",
   chars! "\tAgentPause Low 78 NotTrusted Unencoded",
   chars! "\t{",
   chars! "\t\tAgentData\t\t\tSingle",
   chars! "\t\t{\tAgentID\t\tLLUUID\t}",
   chars! "\t\t{\tSessionID\tLLUUID\t}",
   chars! "\t\t{\tSerialNum\tU32\t\t}\t// U32, used by both pause and resume. Non-increasing numbers are ignored.",
   chars! "\t}",
   chars! "}"]

/-- `AgentPause` as the parser creates it. -/
def r83 : RawTemplate :=
  ⟨"AgentPause", .low, 78, [255, 255, 78], some .notTrusted, some .unencoded, some .notDeprecated,
    [⟨"AgentData", .single, 0, [⟨"SerialNum", some .u32, some 4⟩, ⟨"SessionID", some .uuid, some 16⟩, ⟨"AgentID", some .uuid, some 16⟩]⟩]⟩

/-- `AgentPause` in file order. -/
def t83 : Template :=
  ⟨"AgentPause", .low, 78, [], some .notTrusted, some .unencoded, some .notDeprecated,
    [⟨"AgentData", .single, 0, [⟨"AgentID", .uuid, 16⟩, ⟨"SessionID", .uuid, 16⟩, ⟨"SerialNum", .u32, 4⟩]⟩]⟩

theorem p83 : ChunkOk c83 r83 := by intro v older; kernel_rfl
theorem k83 : r83.known = some t83 := by kernel_rfl
theorem n83 : t83.name = String.ofList ['A', 'g', 'e', 'n', 't', 'P', 'a', 'u', 's', 'e'] := by kernel_rfl

/-- The names of the blocks and variables of `AgentPause`. -/
def b83 : List (List Char × List (List Char)) :=
  [(['A', 'g', 'e', 'n', 't', 'D', 'a', 't', 'a'], [['A', 'g', 'e', 'n', 't', 'I', 'D'], ['S', 'e', 's', 's', 'i', 'o', 'n', 'I', 'D'], ['S', 'e', 'r', 'i', 'a', 'l', 'N', 'u', 'm']])]

theorem w83 : Checked t83 := ⟨b83, by kernel_rfl, by kernel_rfl, by kernel_rfl⟩

/-- Lines of `message_template.msg` up to the end of `AgentResume`. -/
def c84 : List (List Char) :=
  [chars! "",
   chars! "// AgentResume - unblock the agent",
   chars! "{",
   chars! "\tAgentResume Low 79 NotTrusted Unencoded",
   chars! "\t{",
   chars! "\t\tAgentData\t\t\tSingle",
   chars! "\t\t{\tAgentID\t\tLLUUID\t}",
   chars! "\t\t{\tSessionID\tLLUUID\t}",
   chars! "\t\t{\tSerialNum\tU32\t\t}\t// U32, used by both pause and resume. Non-increasing numbers are ignored.",
   chars! "\t}",
   chars! "}"]

/-- `AgentResume` as the parser creates it. -/
def r84 : RawTemplate :=
  ⟨"AgentResume", .low, 79, [255, 255, 79], some .notTrusted, some .unencoded, some .notDeprecated,
    [⟨"AgentData", .single, 0, [⟨"SerialNum", some .u32, some 4⟩, ⟨"SessionID", some .uuid, some 16⟩, ⟨"AgentID", some .uuid, some 16⟩]⟩]⟩

/-- `AgentResume` in file order. -/
def t84 : Template :=
  ⟨"AgentResume", .low, 79, [], some .notTrusted, some .unencoded, some .notDeprecated,
    [⟨"AgentData", .single, 0, [⟨"AgentID", .uuid, 16⟩, ⟨"SessionID", .uuid, 16⟩, ⟨"SerialNum", .u32, 4⟩]⟩]⟩

theorem p84 : ChunkOk c84 r84 := by intro v older; kernel_rfl
theorem k84 : r84.known = some t84 := by kernel_rfl
theorem n84 : t84.name = String.ofList ['A', 'g', 'e', 'n', 't', 'R', 'e', 's', 'u', 'm', 'e'] := by kernel_rfl

/-- The names of the blocks and variables of `AgentResume`. -/
def b84 : List (List Char × List (List Char)) :=
  [(['A', 'g', 'e', 'n', 't', 'D', 'a', 't', 'a'], [['A', 'g', 'e', 'n', 't', 'I', 'D'], ['S', 'e', 's', 's', 'i', 'o', 'n', 'I', 'D'], ['S', 'e', 'r', 'i', 'a', 'l', 'N', 'u', 'm']])]

theorem w84 : Checked t84 := ⟨b84, by kernel_rfl, by kernel_rfl, by kernel_rfl⟩

/-- Lines of `message_template.msg` up to the end of `AgentUpdate`. -/
def c85 : List (List Char) :=
  [chars! "",
   chars! "",
   chars! "// AgentUpdate - Camera info sent from viewer to simulator",
   chars! "// or, more simply, two axes and compute cross product",
   chars! "// State data is temporary, indicates current behavior state:",
   chars! "//\t0 = walking",
   chars! "//  1 = mouselook",
   chars! "//  2 = typing ",
   chars! "//  ",
   chars! "// Center is region local (JNC 8.16.2001)",
   chars! "// Camera center is region local (JNC 8.29.2001)",
   chars! "{",
   chars! "\tAgentUpdate High 4 NotTrusted Zerocoded",
   chars! "\t{",
   chars! "\t\tAgentData\t\t\tSingle",
   chars! "\t\t{\tAgentID\t\t\tLLUUID\t}",
   chars! "\t\t{\tSessionID\t\tLLUUID\t}",
   chars! "\t\t{\tBodyRotation\tLLQuaternion\t}",
   chars! "\t\t{\tHeadRotation\tLLQuaternion\t}",
   chars! "\t\t{\tState\t\t\tU8\t}",
   chars! "\t\t{\tCameraCenter\tLLVector3\t}",
   chars! "\t\t{\tCameraAtAxis\tLLVector3\t}",
   chars! "\t\t{\tCameraLeftAxis\tLLVector3\t}",
   chars! "\t\t{\tCameraUpAxis\tLLVector3\t}",
   chars! "\t\t{\tFar\t\t\t\tF32\t}",
   chars! "\t\t{\tControlFlags\tU32\t}",
   chars! "\t\t{\tFlags\t\t\tU8\t}",
   chars! "\t}",
   chars! "}"]

/-- `AgentUpdate` as the parser creates it. -/
def r85 : RawTemplate :=
  ⟨"AgentUpdate", .high, 4, [4], some .notTrusted, some .zerocoded, some .notDeprecated,
    [⟨"AgentData", .single, 0, [⟨"Flags", some .u8, some 1⟩, ⟨"ControlFlags", some .u32, some 4⟩, ⟨"Far", some .f32, some 4⟩, ⟨"CameraUpAxis", some .vector3, some 12⟩, ⟨"CameraLeftAxis", some .vector3, some 12⟩, ⟨"CameraAtAxis", some .vector3, some 12⟩, ⟨"CameraCenter", some .vector3, some 12⟩, ⟨"State", some .u8, some 1⟩, ⟨"HeadRotation", some .quaternion, some 12⟩, ⟨"BodyRotation", some .quaternion, some 12⟩, ⟨"SessionID", some .uuid, some 16⟩, ⟨"AgentID", some .uuid, some 16⟩]⟩]⟩

/-- `AgentUpdate` in file order. -/
def t85 : Template :=
  ⟨"AgentUpdate", .high, 4, [], some .notTrusted, some .zerocoded, some .notDeprecated,
    [⟨"AgentData", .single, 0, [⟨"AgentID", .uuid, 16⟩, ⟨"SessionID", .uuid, 16⟩, ⟨"BodyRotation", .quaternion, 12⟩, ⟨"HeadRotation", .quaternion, 12⟩, ⟨"State", .u8, 1⟩, ⟨"CameraCenter", .vector3, 12⟩, ⟨"CameraAtAxis", .vector3, 12⟩, ⟨"CameraLeftAxis", .vector3, 12⟩, ⟨"CameraUpAxis", .vector3, 12⟩, ⟨"Far", .f32, 4⟩, ⟨"ControlFlags", .u32, 4⟩, ⟨"Flags", .u8, 1⟩]⟩]⟩

theorem p85 : ChunkOk c85 r85 := by intro v older; kernel_rfl
theorem k85 : r85.known = some t85 := by kernel_rfl
theorem n85 : t85.name = String.ofList ['A', 'g', 'e', 'n', 't', 'U', 'p', 'd', 'a', 't', 'e'] := by kernel_rfl

/-- The names of the blocks and variables of `AgentUpdate`. -/
def b85 : List (List Char × List (List Char)) :=
  [(['A', 'g', 'e', 'n', 't', 'D', 'a', 't', 'a'], [['A', 'g', 'e', 'n', 't', 'I', 'D'], ['S', 'e', 's', 's', 'i', 'o', 'n', 'I', 'D'], ['B', 'o', 'd', 'y', 'R', 'o', 't', 'a', 't', 'i', 'o', 'n'], ['H', 'e', 'a', 'd', 'R', 'o', 't', 'a', 't', 'i', 'o', 'n'], ['S', 't', 'a', 't', 'e'], ['C', 'a', 'm', 'e', 'r', 'a', 'C', 'e', 'n', 't', 'e', 'r'], ['C', 'a', 'm', 'e', 'r', 'a', 'A', 't', 'A', 'x', 'i', 's'], ['C', 'a', 'm', 'e', 'r', 'a', 'L', 'e', 'f', 't', 'A', 'x', 'i', 's'], ['C', 'a', 'm', 'e', 'r', 'a', 'U', 'p', 'A', 'x', 'i', 's'], ['F', 'a', 'r'], ['C', 'o', 'n', 't', 'r', 'o', 'l', 'F', 'l', 'a', 'g', 's'], ['F', 'l', 'a', 'g', 's']])]

theorem w85 : Checked t85 := ⟨b85, by kernel_rfl, by kernel_rfl, by kernel_rfl⟩

/-- Lines of `message_template.msg` up to the end of `ChatFromViewer`. -/
def c86 : List (List Char) :=
  [chars! "",
   chars! "// ChatFromViewer",
   chars! "// Specifies the text to be said and the \"type\", ",
   chars! "// normal speech, shout, whisper.",
   chars! "// with the specified radius",
   chars! "{",
   chars! "\tChatFromViewer Low 80 NotTrusted Zerocoded",
   chars! "\t{",
   chars! "\t\tAgentData\t\t\tSingle",
   chars! "\t\t{\tAgentID\t\t\tLLUUID\t\t}",
   chars! "\t\t{\tSessionID\t\tLLUUID\t\t}",
   chars! "\t}",
   chars! "\t{",
   chars! "\t\tChatData\t\t\tSingle",
   chars! "\t\t{\tMessage\t\t\tVariable 2\t}",
   chars! "\t\t{\tType\t\t\tU8\t\t\t}",
   chars! "\t\t{\tChannel\t\t\tS32\t\t\t}",
   chars! "\t}",
   chars! "}"]

/-- `ChatFromViewer` as the parser creates it. -/
def r86 : RawTemplate :=
  ⟨"ChatFromViewer", .low, 80, [255, 255, 80], some .notTrusted, some .zerocoded, some .notDeprecated,
    [⟨"ChatData", .single, 0, [⟨"Channel", some .s32, some 4⟩, ⟨"Type", some .u8, some 1⟩, ⟨"Message", some .variable, some 2⟩]⟩,
     ⟨"AgentData", .single, 0, [⟨"SessionID", some .uuid, some 16⟩, ⟨"AgentID", some .uuid, some 16⟩]⟩]⟩

/-- `ChatFromViewer` in file order. -/
def t86 : Template :=
  ⟨"ChatFromViewer", .low, 80, [], some .notTrusted, some .zerocoded, some .notDeprecated,
    [⟨"AgentData", .single, 0, [⟨"AgentID", .uuid, 16⟩, ⟨"SessionID", .uuid, 16⟩]⟩,
     ⟨"ChatData", .single, 0, [⟨"Message", .variable, 2⟩, ⟨"Type", .u8, 1⟩, ⟨"Channel", .s32, 4⟩]⟩]⟩

theorem p86 : ChunkOk c86 r86 := by intro v older; kernel_rfl
theorem k86 : r86.known = some t86 := by kernel_rfl
theorem n86 : t86.name = String.ofList ['C', 'h', 'a', 't', 'F', 'r', 'o', 'm', 'V', 'i', 'e', 'w', 'e', 'r'] := by kernel_rfl

/-- The names of the blocks and variables of `ChatFromViewer`. -/
def b86 : List (List Char × List (List Char)) :=
  [(['A', 'g', 'e', 'n', 't', 'D', 'a', 't', 'a'], [['A', 'g', 'e', 'n', 't', 'I', 'D'], ['S', 'e', 's', 's', 'i', 'o', 'n', 'I', 'D']]),
   (['C', 'h', 'a', 't', 'D', 'a', 't', 'a'], [['M', 'e', 's', 's', 'a', 'g', 'e'], ['T', 'y', 'p', 'e'], ['C', 'h', 'a', 'n', 'n', 'e', 'l']])]

theorem w86 : Checked t86 := ⟨b86, by kernel_rfl, by kernel_rfl, by kernel_rfl⟩

/-- Lines of `message_template.msg` up to the end of `AgentThrottle`. -/
def c87 : List (List Char) :=
  [chars! "",
   chars! "",
   chars! "// AgentThrottle",
   chars! "{",
   chars! "\tAgentThrottle Low 81 NotTrusted Zerocoded",
   chars! "\t{",
   chars! "\t\tAgentData\t\t\tSingle",
   chars! "\t\t{\tAgentID\t\t\tLLUUID\t\t}",
   chars! "\t\t{\tSessionID\t\tLLUUID\t\t}",
   chars! "\t\t{\tCircuitCode\t\tU32\t\t}",
   chars! "\t}",
   chars! "\t{",
   chars! "\t\tThrottle\t\t\tSingle",
   chars! "\t\t{\tGenCounter\t\tU32\t\t}",
   chars! "\t\t{\tThrottles\t\tVariable 1\t}",
   chars! "\t}",
   chars! "}"]

/-- `AgentThrottle` as the parser creates it. -/
def r87 : RawTemplate :=
  ⟨"AgentThrottle", .low, 81, [255, 255, 81], some .notTrusted, some .zerocoded, some .notDeprecated,
    [⟨"Throttle", .single, 0, [⟨"Throttles", some .variable, some 1⟩, ⟨"GenCounter", some .u32, some 4⟩]⟩,
     ⟨"AgentData", .single, 0, [⟨"CircuitCode", some .u32, some 4⟩, ⟨"SessionID", some .uuid, some 16⟩, ⟨"AgentID", some .uuid, some 16⟩]⟩]⟩

/-- `AgentThrottle` in file order. -/
def t87 : Template :=
  ⟨"AgentThrottle", .low, 81, [], some .notTrusted, some .zerocoded, some .notDeprecated,
    [⟨"AgentData", .single, 0, [⟨"AgentID", .uuid, 16⟩, ⟨"SessionID", .uuid, 16⟩, ⟨"CircuitCode", .u32, 4⟩]⟩,
     ⟨"Throttle", .single, 0, [⟨"GenCounter", .u32, 4⟩, ⟨"Throttles", .variable, 1⟩]⟩]⟩

theorem p87 : ChunkOk c87 r87 := by intro v older; kernel_rfl
theorem k87 : r87.known = some t87 := by kernel_rfl
theorem n87 : t87.name = String.ofList ['A', 'g', 'e', 'n', 't', 'T', 'h', 'r', 'o', 't', 't', 'l', 'e'] := by kernel_rfl

/-- The names of the blocks and variables of `AgentThrottle`. -/
def b87 : List (List Char × List (List Char)) :=
  [(['A', 'g', 'e', 'n', 't', 'D', 'a', 't', 'a'], [['A', 'g', 'e', 'n', 't', 'I', 'D'], ['S', 'e', 's', 's', 'i', 'o', 'n', 'I', 'D'], ['C', 'i', 'r', 'c', 'u', 'i', 't', 'C', 'o', 'd', 'e']]),
   (['T', 'h', 'r', 'o', 't', 't', 'l', 'e'], [['G', 'e', 'n', 'C', 'o', 'u', 'n', 't', 'e', 'r'], ['T', 'h', 'r', 'o', 't', 't', 'l', 'e', 's']])]

theorem w87 : Checked t87 := ⟨b87, by kernel_rfl, by kernel_rfl, by kernel_rfl⟩

/-- Lines of `message_template.msg` up to the end of `AgentFOV`. -/
def c88 : List (List Char) :=
  [chars! "",
   chars! "",
   chars! "// AgentFOV - Update to agent's field of view, angle is vertical, single F32 float in radians",
   chars! "{",
   chars! "\tAgentFOV Low 82 NotTrusted Unencoded",
   chars! "\t{",
   chars! "\t\tAgentData\t\t\tSingle",
   chars! "\t\t{\tAgentID\t\t\tLLUUID\t\t}",
   chars! "\t\t{\tSessionID\t\tLLUUID\t\t}",
   chars! "\t\t{\tCircuitCode\t\tU32\t\t}",
   chars! "\t}",
   chars! "\t{",
   chars! "\t\tFOVBlock\t\t\tSingle",
   chars! "\t\t{\tGenCounter\t\tU32\t\t}",
   chars! "\t\t{\tVerticalAngle\tF32\t}",
   chars! "\t}",
   chars! "}"]

/-- `AgentFOV` as the parser creates it. -/
def r88 : RawTemplate :=
  ⟨"AgentFOV", .low, 82, [255, 255, 82], some .notTrusted, some .unencoded, some .notDeprecated,
    [⟨"FOVBlock", .single, 0, [⟨"VerticalAngle", some .f32, some 4⟩, ⟨"GenCounter", some .u32, some 4⟩]⟩,
     ⟨"AgentData", .single, 0, [⟨"CircuitCode", some .u32, some 4⟩, ⟨"SessionID", some .uuid, some 16⟩, ⟨"AgentID", some .uuid, some 16⟩]⟩]⟩

/-- `AgentFOV` in file order. -/
def t88 : Template :=
  ⟨"AgentFOV", .low, 82, [], some .notTrusted, some .unencoded, some .notDeprecated,
    [⟨"AgentData", .single, 0, [⟨"AgentID", .uuid, 16⟩, ⟨"SessionID", .uuid, 16⟩, ⟨"CircuitCode", .u32, 4⟩]⟩,
     ⟨"FOVBlock", .single, 0, [⟨"GenCounter", .u32, 4⟩, ⟨"VerticalAngle", .f32, 4⟩]⟩]⟩

theorem p88 : ChunkOk c88 r88 := by intro v older; kernel_rfl
theorem k88 : r88.known = some t88 := by kernel_rfl
theorem n88 : t88.name = String.ofList ['A', 'g', 'e', 'n', 't', 'F', 'O', 'V'] := by kernel_rfl

/-- The names of the blocks and variables of `AgentFOV`. -/
def b88 : List (List Char × List (List Char)) :=
  [(['A', 'g', 'e', 'n', 't', 'D', 'a', 't', 'a'], [['A', 'g', 'e', 'n', 't', 'I', 'D'], ['S', 'e', 's', 's', 'i', 'o', 'n', 'I', 'D'], ['C', 'i', 'r', 'c', 'u', 'i', 't', 'C', 'o', 'd', 'e']]),
   (['F', 'O', 'V', 'B', 'l', 'o', 'c', 'k'], [['G', 'e', 'n', 'C', 'o', 'u', 'n', 't', 'e', 'r'], ['V', 'e', 'r', 't', 'i', 'c', 'a', 'l', 'A', 'n', 'g', 'l', 'e']])]

theorem w88 : Checked t88 := ⟨b88, by kernel_rfl, by kernel_rfl, by kernel_rfl⟩

/-- Lines of `message_template.msg` up to the end of `AgentHeightWidth`. -/
def c89 : List (List Char) :=
  [chars! "",
   chars! "",
   chars! "// AgentHeightWidth - Update to height and aspect, sent as height/width to save space",
   chars! "// Usually sent when window resized or created",
   chars! "{",
   chars! "\tAgentHeightWidth Low 83 NotTrusted Unencoded",
   chars! "\t{",
   chars! "\t\tAgentData\t\t\tSingle",
   chars! "\t\t{\tAgentID\t\t\tLLUUID\t\t}",
   chars! "\t\t{\tSessionID\t\tLLUUID\t\t}",
   chars! "\t\t{\tCircuitCode\t\tU32\t\t}",
   chars! "\t}",
   chars! "\t{",
   chars! "\t\tHeightWidthBlock\tSingle",
   chars! "\t\t{\tGenCounter\t\tU32\t\t}",
   chars! "\t\t{\tHeight\t\t\tU16\t}",
   chars! "\t\t{\tWidth\t\t\tU16\t}",
   chars! "\t}",
   chars! "}"]

/-- `AgentHeightWidth` as the parser creates it. -/
def r89 : RawTemplate :=
  ⟨"AgentHeightWidth", .low, 83, [255, 255, 83], some .notTrusted, some .unencoded, some .notDeprecated,
    [⟨"HeightWidthBlock", .single, 0, [⟨"Width", some .u16, some 2⟩, ⟨"Height", some .u16, some 2⟩, ⟨"GenCounter", some .u32, some 4⟩]⟩,
     ⟨"AgentData", .single, 0, [⟨"CircuitCode", some .u32, some 4⟩, ⟨"SessionID", some .uuid, some 16⟩, ⟨"AgentID", some .uuid, some 16⟩]⟩]⟩

/-- `AgentHeightWidth` in file order. -/
def t89 : Template :=
  ⟨"AgentHeightWidth", .low, 83, [], some .notTrusted, some .unencoded, some .notDeprecated,
    [⟨"AgentData", .single, 0, [⟨"AgentID", .uuid, 16⟩, ⟨"SessionID", .uuid, 16⟩, ⟨"CircuitCode", .u32, 4⟩]⟩,
     ⟨"HeightWidthBlock", .single, 0, [⟨"GenCounter", .u32, 4⟩, ⟨"Height", .u16, 2⟩, ⟨"Width", .u16, 2⟩]⟩]⟩

theorem p89 : ChunkOk c89 r89 := by intro v older; kernel_rfl
theorem k89 : r89.known = some t89 := by kernel_rfl
theorem n89 : t89.name = String.ofList ['A', 'g', 'e', 'n', 't', 'H', 'e', 'i', 'g', 'h', 't', 'W', 'i', 'd', 't', 'h'] := by kernel_rfl

/-- The names of the blocks and variables of `AgentHeightWidth`. -/
def b89 : List (List Char × List (List Char)) :=
  [(['A', 'g', 'e', 'n', 't', 'D', 'a', 't', 'a'], [['A', 'g', 'e', 'n', 't', 'I', 'D'], ['S', 'e', 's', 's', 'i', 'o', 'n', 'I', 'D'], ['C', 'i', 'r', 'c', 'u', 'i', 't', 'C', 'o', 'd', 'e']]),
   (['H', 'e', 'i', 'g', 'h', 't', 'W', 'i', 'd', 't', 'h', 'B', 'l', 'o', 'c', 'k'], [['G', 'e', 'n', 'C', 'o', 'u', 'n', 't', 'e', 'r'], ['H', 'e', 'i', 'g', 'h', 't'], ['W', 'i', 'd', 't', 'h']])]

theorem w89 : Checked t89 := ⟨b89, by kernel_rfl, by kernel_rfl, by kernel_rfl⟩

/-- Lines of `message_template.msg` up to the end of `AgentSetAppearance`. -/
def c90 : List (List Char) :=
  [chars! "",
   chars! "",
   chars! "// AgentSetAppearance - Update to agent appearance",
   chars! "{",
   chars! "\tAgentSetAppearance Low 84 NotTrusted Zerocoded",
   chars! "\t{",
   chars! "\t\tAgentData\t\t\tSingle",
   chars! "\t\t{\tAgentID\t\t\tLLUUID\t\t}",
   chars! "\t\t{\tSessionID\t\tLLUUID\t\t}",
   chars! "\t\t{\tSerialNum\t\tU32\t}\t// U32, Increases every time the appearance changes. A value of 0 resets.",
   chars! "\t\t{ \tSize\t\t\tLLVector3\t}",
   chars! "\t}",
   chars! "\t{",
   chars! "\t\tWearableData\t\tVariable",
   chars! "\t\t{\tCacheID\t\t\tLLUUID }",
   chars! "\t\t{\tTextureIndex\tU8 }",
   chars! "\t}",
   chars! "\t{",
   chars! "\t\tObjectData\t\t\tSingle",
   chars! "\t\t{\tTextureEntry\tVariable\t2\t}",
   chars! "\t}",
   chars! "\t{",
   chars! "\t\tVisualParam\t\t\tVariable",
   chars! "\t\t{\tParamValue\t\tU8\t}",
   chars! "\t}",
   chars! "}"]

/-- `AgentSetAppearance` as the parser creates it. -/
def r90 : RawTemplate :=
  ⟨"AgentSetAppearance", .low, 84, [255, 255, 84], some .notTrusted, some .zerocoded, some .notDeprecated,
    [⟨"VisualParam", .variable, 0, [⟨"ParamValue", some .u8, some 1⟩]⟩,
     ⟨"ObjectData", .single, 0, [⟨"TextureEntry", some .variable, some 2⟩]⟩,
     ⟨"WearableData", .variable, 0, [⟨"TextureIndex", some .u8, some 1⟩, ⟨"CacheID", some .uuid, some 16⟩]⟩,
     ⟨"AgentData", .single, 0, [⟨"Size", some .vector3, some 12⟩, ⟨"SerialNum", some .u32, some 4⟩, ⟨"SessionID", some .uuid, some 16⟩, ⟨"AgentID", some .uuid, some 16⟩]⟩]⟩

/-- `AgentSetAppearance` in file order. -/
def t90 : Template :=
  ⟨"AgentSetAppearance", .low, 84, [], some .notTrusted, some .zerocoded, some .notDeprecated,
    [⟨"AgentData", .single, 0, [⟨"AgentID", .uuid, 16⟩, ⟨"SessionID", .uuid, 16⟩, ⟨"SerialNum", .u32, 4⟩, ⟨"Size", .vector3, 12⟩]⟩,
     ⟨"WearableData", .variable, 0, [⟨"CacheID", .uuid, 16⟩, ⟨"TextureIndex", .u8, 1⟩]⟩,
     ⟨"ObjectData", .single, 0, [⟨"TextureEntry", .variable, 2⟩]⟩,
     ⟨"VisualParam", .variable, 0, [⟨"ParamValue", .u8, 1⟩]⟩]⟩

theorem p90 : ChunkOk c90 r90 := by intro v older; kernel_rfl
theorem k90 : r90.known = some t90 := by kernel_rfl
theorem n90 : t90.name = String.ofList ['A', 'g', 'e', 'n', 't', 'S', 'e', 't', 'A', 'p', 'p', 'e', 'a', 'r', 'a', 'n', 'c', 'e'] := by kernel_rfl

/-- The names of the blocks and variables of `AgentSetAppearance`. -/
def b90 : List (List Char × List (List Char)) :=
  [(['A', 'g', 'e', 'n', 't', 'D', 'a', 't', 'a'], [['A', 'g', 'e', 'n', 't', 'I', 'D'], ['S', 'e', 's', 's', 'i', 'o', 'n', 'I', 'D'], ['S', 'e', 'r', 'i', 'a', 'l', 'N', 'u', 'm'], ['S', 'i', 'z', 'e']]),
   (['W', 'e', 'a', 'r', 'a', 'b', 'l', 'e', 'D', 'a', 't', 'a'], [['C', 'a', 'c', 'h', 'e', 'I', 'D'], ['T', 'e', 'x', 't', 'u', 'r', 'e', 'I', 'n', 'd', 'e', 'x']]),
   (['O', 'b', 'j', 'e', 'c', 't', 'D', 'a', 't', 'a'], [['T', 'e', 'x', 't', 'u', 'r', 'e', 'E', 'n', 't', 'r', 'y']]),
   (['V', 'i', 's', 'u', 'a', 'l', 'P', 'a', 'r', 'a', 'm'], [['P', 'a', 'r', 'a', 'm', 'V', 'a', 'l', 'u', 'e']])]

theorem w90 : Checked t90 := ⟨b90, by kernel_rfl, by kernel_rfl, by kernel_rfl⟩

/-- Lines of `message_template.msg` up to the end of `AgentAnimation`. -/
def c91 : List (List Char) :=
  [chars! "",
   chars! "// AgentAnimation - Update animation state",
   chars! "// viewer --> simulator",
   chars! "{",
   chars! "\tAgentAnimation High 5 NotTrusted Unencoded",
   chars! "\t{",
   chars! "\t\tAgentData\t\t\tSingle",
   chars! "\t\t{\tAgentID\t\t\tLLUUID\t\t}",
   chars! "\t\t{\tSessionID\t\tLLUUID\t\t}",
   chars! "\t}",
   chars! "\t{",
   chars! "\t\tAnimationList Variable",
   chars! "\t\t{ AnimID\t\tLLUUID }",
   chars! "\t\t{ StartAnim\t\tBOOL }",
   chars! "\t}",
   chars! "\t{",
   chars! "\t\tPhysicalAvatarEventList Variable",
   chars! "\t\t{ TypeData\t\tVariable\t1 }",
   chars! "\t}",
   chars! "}"]

/-- `AgentAnimation` as the parser creates it. -/
def r91 : RawTemplate :=
  ⟨"AgentAnimation", .high, 5, [5], some .notTrusted, some .unencoded, some .notDeprecated,
    [⟨"PhysicalAvatarEventList", .variable, 0, [⟨"TypeData", some .variable, some 1⟩]⟩,
     ⟨"AnimationList", .variable, 0, [⟨"StartAnim", some .bool, some 1⟩, ⟨"AnimID", some .uuid, some 16⟩]⟩,
     ⟨"AgentData", .single, 0, [⟨"SessionID", some .uuid, some 16⟩, ⟨"AgentID", some .uuid, some 16⟩]⟩]⟩

/-- `AgentAnimation` in file order. -/
def t91 : Template :=
  ⟨"AgentAnimation", .high, 5, [], some .notTrusted, some .unencoded, some .notDeprecated,
    [⟨"AgentData", .single, 0, [⟨"AgentID", .uuid, 16⟩, ⟨"SessionID", .uuid, 16⟩]⟩,
     ⟨"AnimationList", .variable, 0, [⟨"AnimID", .uuid, 16⟩, ⟨"StartAnim", .bool, 1⟩]⟩,
     ⟨"PhysicalAvatarEventList", .variable, 0, [⟨"TypeData", .variable, 1⟩]⟩]⟩

theorem p91 : ChunkOk c91 r91 := by intro v older; kernel_rfl
theorem k91 : r91.known = some t91 := by kernel_rfl
theorem n91 : t91.name = String.ofList ['A', 'g', 'e', 'n', 't', 'A', 'n', 'i', 'm', 'a', 't', 'i', 'o', 'n'] := by kernel_rfl

/-- The names of the blocks and variables of `AgentAnimation`. -/
def b91 : List (List Char × List (List Char)) :=
  [(['A', 'g', 'e', 'n', 't', 'D', 'a', 't', 'a'], [['A', 'g', 'e', 'n', 't', 'I', 'D'], ['S', 'e', 's', 's', 'i', 'o', 'n', 'I', 'D']]),
   (['A', 'n', 'i', 'm', 'a', 't', 'i', 'o', 'n', 'L', 'i', 's', 't'], [['A', 'n', 'i', 'm', 'I', 'D'], ['S', 't', 'a', 'r', 't', 'A', 'n', 'i', 'm']]),
   (['P', 'h', 'y', 's', 'i', 'c', 'a', 'l', 'A', 'v', 'a', 't', 'a', 'r', 'E', 'v', 'e', 'n', 't', 'L', 'i', 's', 't'], [['T', 'y', 'p', 'e', 'D', 'a', 't', 'a']])]

theorem w91 : Checked t91 := ⟨b91, by kernel_rfl, by kernel_rfl, by kernel_rfl⟩

/-- Lines of `message_template.msg` up to the end of `AgentRequestSit`. -/
def c92 : List (List Char) :=
  [chars! "",
   chars! "// AgentRequestSit - Try to sit on an object",
   chars! "{",
   chars! "\tAgentRequestSit\t\tHigh 6  NotTrusted Zerocoded",
   chars! "\t{",
   chars! "\t\tAgentData\t\t\tSingle",
   chars! "\t\t{\tAgentID\t\t\tLLUUID\t\t}",
   chars! "\t\t{\tSessionID\t\tLLUUID\t\t}",
   chars! "\t}",
   chars! "\t{",
   chars! "\t\tTargetObject\tSingle",
   chars! "\t\t{\tTargetID\tLLUUID\t}",
   chars! "\t\t{\tOffset\t\tLLVector3\t}",
   chars! "\t}",
   chars! "}"]

/-- `AgentRequestSit` as the parser creates it. -/
def r92 : RawTemplate :=
  ⟨"AgentRequestSit", .high, 6, [6], some .notTrusted, some .zerocoded, some .notDeprecated,
    [⟨"TargetObject", .single, 0, [⟨"Offset", some .vector3, some 12⟩, ⟨"TargetID", some .uuid, some 16⟩]⟩,
     ⟨"AgentData", .single, 0, [⟨"SessionID", some .uuid, some 16⟩, ⟨"AgentID", some .uuid, some 16⟩]⟩]⟩

/-- `AgentRequestSit` in file order. -/
def t92 : Template :=
  ⟨"AgentRequestSit", .high, 6, [], some .notTrusted, some .zerocoded, some .notDeprecated,
    [⟨"AgentData", .single, 0, [⟨"AgentID", .uuid, 16⟩, ⟨"SessionID", .uuid, 16⟩]⟩,
     ⟨"TargetObject", .single, 0, [⟨"TargetID", .uuid, 16⟩, ⟨"Offset", .vector3, 12⟩]⟩]⟩

theorem p92 : ChunkOk c92 r92 := by intro v older; kernel_rfl
theorem k92 : r92.known = some t92 := by kernel_rfl
theorem n92 : t92.name = String.ofList ['A', 'g', 'e', 'n', 't', 'R', 'e', 'q', 'u', 'e', 's', 't', 'S', 'i', 't'] := by kernel_rfl

/-- The names of the blocks and variables of `AgentRequestSit`. -/
def b92 : List (List Char × List (List Char)) :=
  [(['A', 'g', 'e', 'n', 't', 'D', 'a', 't', 'a'], [['A', 'g', 'e', 'n', 't', 'I', 'D'], ['S', 'e', 's', 's', 'i', 'o', 'n', 'I', 'D']]),
   (['T', 'a', 'r', 'g', 'e', 't', 'O', 'b', 'j', 'e', 'c', 't'], [['T', 'a', 'r', 'g', 'e', 't', 'I', 'D'], ['O', 'f', 'f', 's', 'e', 't']])]

theorem w92 : Checked t92 := ⟨b92, by kernel_rfl, by kernel_rfl, by kernel_rfl⟩

/-- Lines of `message_template.msg` up to the end of `AgentSit`. -/
def c93 : List (List Char) :=
  [chars! "",
   chars! "// AgentSit - Actually sit on object",
   chars! "{",
   chars! "\tAgentSit\t\t\tHigh 7  NotTrusted Unencoded",
   chars! "\t{",
   chars! "\t\tAgentData\t\t\tSingle",
   chars! "\t\t{\tAgentID\t\t\tLLUUID\t\t}",
   chars! "\t\t{\tSessionID\t\tLLUUID\t\t}",
   chars! "\t}",
   chars! "}"]

/-- `AgentSit` as the parser creates it. -/
def r93 : RawTemplate :=
  ⟨"AgentSit", .high, 7, [7], some .notTrusted, some .unencoded, some .notDeprecated,
    [⟨"AgentData", .single, 0, [⟨"SessionID", some .uuid, some 16⟩, ⟨"AgentID", some .uuid, some 16⟩]⟩]⟩

/-- `AgentSit` in file order. -/
def t93 : Template :=
  ⟨"AgentSit", .high, 7, [], some .notTrusted, some .unencoded, some .notDeprecated,
    [⟨"AgentData", .single, 0, [⟨"AgentID", .uuid, 16⟩, ⟨"SessionID", .uuid, 16⟩]⟩]⟩

theorem p93 : ChunkOk c93 r93 := by intro v older; kernel_rfl
theorem k93 : r93.known = some t93 := by kernel_rfl
theorem n93 : t93.name = String.ofList ['A', 'g', 'e', 'n', 't', 'S', 'i', 't'] := by kernel_rfl

/-- The names of the blocks and variables of `AgentSit`. -/
def b93 : List (List Char × List (List Char)) :=
  [(['A', 'g', 'e', 'n', 't', 'D', 'a', 't', 'a'], [['A', 'g', 'e', 'n', 't', 'I', 'D'], ['S', 'e', 's', 's', 'i', 'o', 'n', 'I', 'D']])]

theorem w93 : Checked t93 := ⟨b93, by kernel_rfl, by kernel_rfl, by kernel_rfl⟩

/-- Lines of `message_template.msg` up to the end of `AgentQuitCopy`. -/
def c94 : List (List Char) :=
  [chars! "",
   chars! "",
   chars! "// quit message sent between simulators",
   chars! "{",
   chars! "\tAgentQuitCopy Low 85 NotTrusted Unencoded",
   chars! "\t{",
   chars! "\t\tAgentData\t\t\tSingle",
   chars! "\t\t{\tAgentID\t\t\tLLUUID\t\t}",
   chars! "\t\t{\tSessionID\t\tLLUUID\t\t}",
   chars! "\t}",
   chars! "\t{",
   chars! "\t\tFuseBlock\t\t\tSingle",
   chars! "\t\t{\tViewerCircuitCode\tU32\t}",
   chars! "\t}",
   chars! "}"]

/-- `AgentQuitCopy` as the parser creates it. -/
def r94 : RawTemplate :=
  ⟨"AgentQuitCopy", .low, 85, [255, 255, 85], some .notTrusted, some .unencoded, some .notDeprecated,
    [⟨"FuseBlock", .single, 0, [⟨"ViewerCircuitCode", some .u32, some 4⟩]⟩,
     ⟨"AgentData", .single, 0, [⟨"SessionID", some .uuid, some 16⟩, ⟨"AgentID", some .uuid, some 16⟩]⟩]⟩

/-- `AgentQuitCopy` in file order. -/
def t94 : Template :=
  ⟨"AgentQuitCopy", .low, 85, [], some .notTrusted, some .unencoded, some .notDeprecated,
    [⟨"AgentData", .single, 0, [⟨"AgentID", .uuid, 16⟩, ⟨"SessionID", .uuid, 16⟩]⟩,
     ⟨"FuseBlock", .single, 0, [⟨"ViewerCircuitCode", .u32, 4⟩]⟩]⟩

theorem p94 : ChunkOk c94 r94 := by intro v older; kernel_rfl
theorem k94 : r94.known = some t94 := by kernel_rfl
theorem n94 : t94.name = String.ofList ['A', 'g', 'e', 'n', 't', 'Q', 'u', 'i', 't', 'C', 'o', 'p', 'y'] := by kernel_rfl

/-- The names of the blocks and variables of `AgentQuitCopy`. -/
def b94 : List (List Char × List (List Char)) :=
  [(['A', 'g', 'e', 'n', 't', 'D', 'a', 't', 'a'], [['A', 'g', 'e', 'n', 't', 'I', 'D'], ['S', 'e', 's', 's', 'i', 'o', 'n', 'I', 'D']]),
   (['F', 'u', 's', 'e', 'B', 'l', 'o', 'c', 'k'], [['V', 'i', 'e', 'w', 'e', 'r', 'C', 'i', 'r', 'c', 'u', 'i', 't', 'C', 'o', 'd', 'e']])]

theorem w94 : Checked t94 := ⟨b94, by kernel_rfl, by kernel_rfl, by kernel_rfl⟩

/-- Lines of `message_template.msg` up to the end of `RequestImage`. -/
def c95 : List (List Char) :=
  [chars! "",
   chars! "",
   chars! "// Request Image - Sent by the viewer to request a specified image at a specified resolution",
   chars! "",
   chars! "{",
   chars! "\tRequestImage High 8 NotTrusted Unencoded",
   chars! "\t{",
   chars! "\t\tAgentData\t\t\tSingle",
   chars! "\t\t{\tAgentID\t\t\tLLUUID\t\t}",
   chars! "\t\t{\tSessionID\t\tLLUUID\t\t}",
   chars! "\t}",
   chars! "\t{",
   chars! "\t\tRequestImage\t\t\tVariable",
   chars! "\t\t{\tImage\t\t\t\tLLUUID\t}",
   chars! "\t\t{\tDiscardLevel\t\tS8\t}",
   chars! "\t\t{\tDownloadPriority\tF32\t}",
   chars! "\t\t{\tPacket\t\t\t\tU32\t}",
   chars! "\t\t{\tType\t\t\t\tU8\t}",
   chars! "\t}",
   chars! "}"]

/-- `RequestImage` as the parser creates it. -/
def r95 : RawTemplate :=
  ⟨"RequestImage", .high, 8, [8], some .notTrusted, some .unencoded, some .notDeprecated,
    [⟨"RequestImage", .variable, 0, [⟨"Type", some .u8, some 1⟩, ⟨"Packet", some .u32, some 4⟩, ⟨"DownloadPriority", some .f32, some 4⟩, ⟨"DiscardLevel", some .s8, some 1⟩, ⟨"Image", some .uuid, some 16⟩]⟩,
     ⟨"AgentData", .single, 0, [⟨"SessionID", some .uuid, some 16⟩, ⟨"AgentID", some .uuid, some 16⟩]⟩]⟩

/-- `RequestImage` in file order. -/
def t95 : Template :=
  ⟨"RequestImage", .high, 8, [], some .notTrusted, some .unencoded, some .notDeprecated,
    [⟨"AgentData", .single, 0, [⟨"AgentID", .uuid, 16⟩, ⟨"SessionID", .uuid, 16⟩]⟩,
     ⟨"RequestImage", .variable, 0, [⟨"Image", .uuid, 16⟩, ⟨"DiscardLevel", .s8, 1⟩, ⟨"DownloadPriority", .f32, 4⟩, ⟨"Packet", .u32, 4⟩, ⟨"Type", .u8, 1⟩]⟩]⟩

theorem p95 : ChunkOk c95 r95 := by intro v older; kernel_rfl
theorem k95 : r95.known = some t95 := by kernel_rfl
theorem n95 : t95.name = String.ofList ['R', 'e', 'q', 'u', 'e', 's', 't', 'I', 'm', 'a', 'g', 'e'] := by kernel_rfl

/-- The names of the blocks and variables of `RequestImage`. -/
def b95 : List (List Char × List (List Char)) :=
  [(['A', 'g', 'e', 'n', 't', 'D', 'a', 't', 'a'], [['A', 'g', 'e', 'n', 't', 'I', 'D'], ['S', 'e', 's', 's', 'i', 'o', 'n', 'I', 'D']]),
   (['R', 'e', 'q', 'u', 'e', 's', 't', 'I', 'm', 'a', 'g', 'e'], [['I', 'm', 'a', 'g', 'e'], ['D', 'i', 's', 'c', 'a', 'r', 'd', 'L', 'e', 'v', 'e', 'l'], ['D', 'o', 'w', 'n', 'l', 'o', 'a', 'd', 'P', 'r', 'i', 'o', 'r', 'i', 't', 'y'], ['P', 'a', 'c', 'k', 'e', 't'], ['T', 'y', 'p', 'e']])]

theorem w95 : Checked t95 := ⟨b95, by kernel_rfl, by kernel_rfl, by kernel_rfl⟩

/-- Lines of `message_template.msg` up to the end of `ImageNotInDatabase`. -/
def c96 : List (List Char) :=
  [chars! "",
   chars! "// ImageNotInDatabase",
   chars! "// Simulator informs viewer that a requsted image definitely does not exist in the asset database",
   chars! "{",
   chars! "\tImageNotInDatabase Low 86 Trusted Unencoded",
   chars! "\t{",
   chars! "\t\tImageID\t\t\t\tSingle",
   chars! "\t\t{\tID\t\t\t\tLLUUID\t}",
   chars! "\t}",
   chars! "}"]

/-- `ImageNotInDatabase` as the parser creates it. -/
def r96 : RawTemplate :=
  ⟨"ImageNotInDatabase", .low, 86, [255, 255, 86], some .trusted, some .unencoded, some .notDeprecated,
    [⟨"ImageID", .single, 0, [⟨"ID", some .uuid, some 16⟩]⟩]⟩

/-- `ImageNotInDatabase` in file order. -/
def t96 : Template :=
  ⟨"ImageNotInDatabase", .low, 86, [], some .trusted, some .unencoded, some .notDeprecated,
    [⟨"ImageID", .single, 0, [⟨"ID", .uuid, 16⟩]⟩]⟩

theorem p96 : ChunkOk c96 r96 := by intro v older; kernel_rfl
theorem k96 : r96.known = some t96 := by kernel_rfl
theorem n96 : t96.name = String.ofList ['I', 'm', 'a', 'g', 'e', 'N', 'o', 't', 'I', 'n', 'D', 'a', 't', 'a', 'b', 'a', 's', 'e'] := by kernel_rfl

/-- The names of the blocks and variables of `ImageNotInDatabase`. -/
def b96 : List (List Char × List (List Char)) :=
  [(['I', 'm', 'a', 'g', 'e', 'I', 'D'], [['I', 'D']])]

theorem w96 : Checked t96 := ⟨b96, by kernel_rfl, by kernel_rfl, by kernel_rfl⟩

/-- Lines of `message_template.msg` up to the end of `RebakeAvatarTextures`. -/
def c97 : List (List Char) :=
  [chars! "",
   chars! "// RebakeAvatarTextures",
   chars! "// simulator -> viewer request when a temporary baked avatar texture is not found",
   chars! "{",
   chars! "\tRebakeAvatarTextures Low 87 Trusted Unencoded",
   chars! "\t{",
   chars! "\t\tTextureData\t\t\tSingle",
   chars! "\t\t{\tTextureID\t\tLLUUID\t}",
   chars! "\t}",
   chars! "}"]

/-- `RebakeAvatarTextures` as the parser creates it. -/
def r97 : RawTemplate :=
  ⟨"RebakeAvatarTextures", .low, 87, [255, 255, 87], some .trusted, some .unencoded, some .notDeprecated,
    [⟨"TextureData", .single, 0, [⟨"TextureID", some .uuid, some 16⟩]⟩]⟩

/-- `RebakeAvatarTextures` in file order. -/
def t97 : Template :=
  ⟨"RebakeAvatarTextures", .low, 87, [], some .trusted, some .unencoded, some .notDeprecated,
    [⟨"TextureData", .single, 0, [⟨"TextureID", .uuid, 16⟩]⟩]⟩

theorem p97 : ChunkOk c97 r97 := by intro v older; kernel_rfl
theorem k97 : r97.known = some t97 := by kernel_rfl
theorem n97 : t97.name = String.ofList ['R', 'e', 'b', 'a', 'k', 'e', 'A', 'v', 'a', 't', 'a', 'r', 'T', 'e', 'x', 't', 'u', 'r', 'e', 's'] := by kernel_rfl

/-- The names of the blocks and variables of `RebakeAvatarTextures`. -/
def b97 : List (List Char × List (List Char)) :=
  [(['T', 'e', 'x', 't', 'u', 'r', 'e', 'D', 'a', 't', 'a'], [['T', 'e', 'x', 't', 'u', 'r', 'e', 'I', 'D']])]

theorem w97 : Checked t97 := ⟨b97, by kernel_rfl, by kernel_rfl, by kernel_rfl⟩

/-- Lines of `message_template.msg` up to the end of `SetAlwaysRun`. -/
def c98 : List (List Char) :=
  [chars! "",
   chars! "",
   chars! "// SetAlwaysRun",
   chars! "// Lets the viewer choose between running and walking",
   chars! "{",
   chars! "\tSetAlwaysRun Low 88 NotTrusted Unencoded",
   chars! "\t{",
   chars! "\t\tAgentData\t\t\t\tSingle",
   chars! "\t\t{\tAgentID\t\t\tLLUUID\t}",
   chars! "\t\t{\tSessionID\t\tLLUUID\t}",
   chars! "\t\t{\tAlwaysRun\t\tBOOL\t}",
   chars! "\t}",
   chars! "}"]

/-- `SetAlwaysRun` as the parser creates it. -/
def r98 : RawTemplate :=
  ⟨"SetAlwaysRun", .low, 88, [255, 255, 88], some .notTrusted, some .unencoded, some .notDeprecated,
    [⟨"AgentData", .single, 0, [⟨"AlwaysRun", some .bool, some 1⟩, ⟨"SessionID", some .uuid, some 16⟩, ⟨"AgentID", some .uuid, some 16⟩]⟩]⟩

/-- `SetAlwaysRun` in file order. -/
def t98 : Template :=
  ⟨"SetAlwaysRun", .low, 88, [], some .notTrusted, some .unencoded, some .notDeprecated,
    [⟨"AgentData", .single, 0, [⟨"AgentID", .uuid, 16⟩, ⟨"SessionID", .uuid, 16⟩, ⟨"AlwaysRun", .bool, 1⟩]⟩]⟩

theorem p98 : ChunkOk c98 r98 := by intro v older; kernel_rfl
theorem k98 : r98.known = some t98 := by kernel_rfl
theorem n98 : t98.name = String.ofList ['S', 'e', 't', 'A', 'l', 'w', 'a', 'y', 's', 'R', 'u', 'n'] := by kernel_rfl

/-- The names of the blocks and variables of `SetAlwaysRun`. -/
def b98 : List (List Char × List (List Char)) :=
  [(['A', 'g', 'e', 'n', 't', 'D', 'a', 't', 'a'], [['A', 'g', 'e', 'n', 't', 'I', 'D'], ['S', 'e', 's', 's', 'i', 'o', 'n', 'I', 'D'], ['A', 'l', 'w', 'a', 'y', 's', 'R', 'u', 'n']])]

theorem w98 : Checked t98 := ⟨b98, by kernel_rfl, by kernel_rfl, by kernel_rfl⟩

/-- Lines of `message_template.msg` up to the end of `ObjectAdd`. -/
def c99 : List (List Char) :=
  [chars! "",
   chars! "// ObjectAdd - create new object in the world",
   chars! "// Simulator will assign ID and send message back to signal",
   chars! "// object actually created.",
   chars! "//",
   chars! "// AddFlags (see also ObjectUpdate)",
   chars! "// 0x01 - use physics",
   chars! "// 0x02 - create selected",
   chars! "//",
   chars! "// If only one ImageID is sent for an object type that has more than",
   chars! "// one face, the same image is repeated on each subsequent face.",
   chars! "// ",
   chars! "// Data field is opaque type-specific data for this object",
   chars! "{",
   chars! "\tObjectAdd Medium 1 NotTrusted Zerocoded",
   chars! "\t{",
   chars! "\t\tAgentData\t\tSingle",
   chars! "\t\t{\tAgentID\t\tLLUUID\t}",
   chars! "\t\t{\tSessionID\tLLUUID\t}",
   chars! "\t\t{\tGroupID\t\t\tLLUUID\t}",
   chars! "\t}",
   chars! "\t{",
   chars! "\t\tObjectData\t\t\tSingle",
   chars! "\t\t{\tPCode\t\t\tU8\t}",
   chars! "\t\t{\tMaterial\t\tU8\t}",
   chars! "\t\t{\tAddFlags\t\tU32\t}\t// see object_flags.h",
   chars! "",
   chars! "\t\t{\tPathCurve\t\tU8\t}",
   chars! "\t\t{\tProfileCurve\tU8\t}",
   chars! "\t\t{\tPathBegin\t\tU16\t}\t// 0 to 1, quanta = 0.01",
   chars! "\t\t{\tPathEnd\t\t\tU16\t}\t// 0 to 1, quanta = 0.01",
   chars! "\t\t{\tPathScaleX\t\tU8\t}\t// 0 to 1, quanta = 0.01",
   chars! "\t\t{\tPathScaleY\t\tU8\t}\t// 0 to 1, quanta = 0.01",
   chars! "\t\t{\tPathShearX\t\tU8\t}\t// -.5 to .5, quanta = 0.01",
   chars! "\t\t{\tPathShearY\t\tU8\t}\t// -.5 to .5, quanta = 0.01",
   chars! "\t\t{\tPathTwist\t\tS8\t}\t// -1 to 1, quanta = 0.01",
   chars! "\t\t{\tPathTwistBegin\t\tS8\t}\t// -1 to 1, quanta = 0.01",
   chars! "\t\t{ \tPathRadiusOffset \tS8\t} \t// -1 to 1, quanta = 0.01",
   chars! "\t\t{ \tPathTaperX\t\tS8\t}\t// -1 to 1, quanta = 0.01",
   chars! "\t\t{\tPathTaperY\t\tS8\t}\t// -1 to 1, quanta = 0.01",
   chars! "\t\t{\tPathRevolutions\t\tU8\t}\t// 0 to 3, quanta = 0.015",
   chars! "\t\t{\tPathSkew\t\tS8\t}\t// -1 to 1, quanta = 0.01",
   chars! "\t\t{\tProfileBegin\tU16\t}\t// 0 to 1, quanta = 0.01",
   chars! "\t\t{\tProfileEnd\t\tU16\t}\t// 0 to 1, quanta = 0.01",
   chars! "\t\t{\tProfileHollow\tU16\t}\t// 0 to 1, quanta = 0.01",
   chars! "",
   chars! "\t\t{\tBypassRaycast\tU8\t}",
   chars! "\t\t{\tRayStart\t\tLLVector3\t}",
   chars! "\t\t{\tRayEnd\t\t\tLLVector3\t}",
   chars! "\t\t{\tRayTargetID\t\tLLUUID\t}",
   chars! "\t\t{\tRayEndIsIntersection\tU8\t}",
   chars! "",
   chars! "\t\t{\tScale\t\t\tLLVector3\t}",
   chars! "\t\t{\tRotation\t\tLLQuaternion\t}",
   chars! "",
   chars! "\t\t{\tState\t\t\tU8\t}",
   chars! "\t}",
   chars! "}"]

/-- `ObjectAdd` as the parser creates it. -/
def r99 : RawTemplate :=
  ⟨"ObjectAdd", .medium, 1, [255, 1], some .notTrusted, some .zerocoded, some .notDeprecated,
    [⟨"ObjectData", .single, 0, [⟨"State", some .u8, some 1⟩, ⟨"Rotation", some .quaternion, some 12⟩, ⟨"Scale", some .vector3, some 12⟩, ⟨"RayEndIsIntersection", some .u8, some 1⟩, ⟨"RayTargetID", some .uuid, some 16⟩, ⟨"RayEnd", some .vector3, some 12⟩, ⟨"RayStart", some .vector3, some 12⟩, ⟨"BypassRaycast", some .u8, some 1⟩, ⟨"ProfileHollow", some .u16, some 2⟩, ⟨"ProfileEnd", some .u16, some 2⟩, ⟨"ProfileBegin", some .u16, some 2⟩, ⟨"PathSkew", some .s8, some 1⟩, ⟨"PathRevolutions", some .u8, some 1⟩, ⟨"PathTaperY", some .s8, some 1⟩, ⟨"PathTaperX", some .s8, some 1⟩, ⟨"PathRadiusOffset", some .s8, some 1⟩, ⟨"PathTwistBegin", some .s8, some 1⟩, ⟨"PathTwist", some .s8, some 1⟩, ⟨"PathShearY", some .u8, some 1⟩, ⟨"PathShearX", some .u8, some 1⟩, ⟨"PathScaleY", some .u8, some 1⟩, ⟨"PathScaleX", some .u8, some 1⟩, ⟨"PathEnd", some .u16, some 2⟩, ⟨"PathBegin", some .u16, some 2⟩, ⟨"ProfileCurve", some .u8, some 1⟩, ⟨"PathCurve", some .u8, some 1⟩, ⟨"AddFlags", some .u32, some 4⟩, ⟨"Material", some .u8, some 1⟩, ⟨"PCode", some .u8, some 1⟩]⟩,
     ⟨"AgentData", .single, 0, [⟨"GroupID", some .uuid, some 16⟩, ⟨"SessionID", some .uuid, some 16⟩, ⟨"AgentID", some .uuid, some 16⟩]⟩]⟩

/-- `ObjectAdd` in file order. -/
def t99 : Template :=
  ⟨"ObjectAdd", .medium, 1, [], some .notTrusted, some .zerocoded, some .notDeprecated,
    [⟨"AgentData", .single, 0, [⟨"AgentID", .uuid, 16⟩, ⟨"SessionID", .uuid, 16⟩, ⟨"GroupID", .uuid, 16⟩]⟩,
     ⟨"ObjectData", .single, 0, [⟨"PCode", .u8, 1⟩, ⟨"Material", .u8, 1⟩, ⟨"AddFlags", .u32, 4⟩, ⟨"PathCurve", .u8, 1⟩, ⟨"ProfileCurve", .u8, 1⟩, ⟨"PathBegin", .u16, 2⟩, ⟨"PathEnd", .u16, 2⟩, ⟨"PathScaleX", .u8, 1⟩, ⟨"PathScaleY", .u8, 1⟩, ⟨"PathShearX", .u8, 1⟩, ⟨"PathShearY", .u8, 1⟩, ⟨"PathTwist", .s8, 1⟩, ⟨"PathTwistBegin", .s8, 1⟩, ⟨"PathRadiusOffset", .s8, 1⟩, ⟨"PathTaperX", .s8, 1⟩, ⟨"PathTaperY", .s8, 1⟩, ⟨"PathRevolutions", .u8, 1⟩, ⟨"PathSkew", .s8, 1⟩, ⟨"ProfileBegin", .u16, 2⟩, ⟨"ProfileEnd", .u16, 2⟩, ⟨"ProfileHollow", .u16, 2⟩, ⟨"BypassRaycast", .u8, 1⟩, ⟨"RayStart", .vector3, 12⟩, ⟨"RayEnd", .vector3, 12⟩, ⟨"RayTargetID", .uuid, 16⟩, ⟨"RayEndIsIntersection", .u8, 1⟩, ⟨"Scale", .vector3, 12⟩, ⟨"Rotation", .quaternion, 12⟩, ⟨"State", .u8, 1⟩]⟩]⟩

theorem p99 : ChunkOk c99 r99 := by intro v older; kernel_rfl
theorem k99 : r99.known = some t99 := by kernel_rfl
theorem n99 : t99.name = String.ofList ['O', 'b', 'j', 'e', 'c', 't', 'A', 'd', 'd'] := by kernel_rfl

/-- The names of the blocks and variables of `ObjectAdd`. -/
def b99 : List (List Char × List (List Char)) :=
  [(['A', 'g', 'e', 'n', 't', 'D', 'a', 't', 'a'], [['A', 'g', 'e', 'n', 't', 'I', 'D'], ['S', 'e', 's', 's', 'i', 'o', 'n', 'I', 'D'], ['G', 'r', 'o', 'u', 'p', 'I', 'D']]),
   (['O', 'b', 'j', 'e', 'c', 't', 'D', 'a', 't', 'a'], [['P', 'C', 'o', 'd', 'e'], ['M', 'a', 't', 'e', 'r', 'i', 'a', 'l'], ['A', 'd', 'd', 'F', 'l', 'a', 'g', 's'], ['P', 'a', 't', 'h', 'C', 'u', 'r', 'v', 'e'], ['P', 'r', 'o', 'f', 'i', 'l', 'e', 'C', 'u', 'r', 'v', 'e'], ['P', 'a', 't', 'h', 'B', 'e', 'g', 'i', 'n'], ['P', 'a', 't', 'h', 'E', 'n', 'd'], ['P', 'a', 't', 'h', 'S', 'c', 'a', 'l', 'e', 'X'], ['P', 'a', 't', 'h', 'S', 'c', 'a', 'l', 'e', 'Y'], ['P', 'a', 't', 'h', 'S', 'h', 'e', 'a', 'r', 'X'], ['P', 'a', 't', 'h', 'S', 'h', 'e', 'a', 'r', 'Y'], ['P', 'a', 't', 'h', 'T', 'w', 'i', 's', 't'], ['P', 'a', 't', 'h', 'T', 'w', 'i', 's', 't', 'B', 'e', 'g', 'i', 'n'], ['P', 'a', 't', 'h', 'R', 'a', 'd', 'i', 'u', 's', 'O', 'f', 'f', 's', 'e', 't'], ['P', 'a', 't', 'h', 'T', 'a', 'p', 'e', 'r', 'X'], ['P', 'a', 't', 'h', 'T', 'a', 'p', 'e', 'r', 'Y'], ['P', 'a', 't', 'h', 'R', 'e', 'v', 'o', 'l', 'u', 't', 'i', 'o', 'n', 's'], ['P', 'a', 't', 'h', 'S', 'k', 'e', 'w'], ['P', 'r', 'o', 'f', 'i', 'l', 'e', 'B', 'e', 'g', 'i', 'n'], ['P', 'r', 'o', 'f', 'i', 'l', 'e', 'E', 'n', 'd'], ['P', 'r', 'o', 'f', 'i', 'l', 'e', 'H', 'o', 'l', 'l', 'o', 'w'], ['B', 'y', 'p', 'a', 's', 's', 'R', 'a', 'y', 'c', 'a', 's', 't'], ['R', 'a', 'y', 'S', 't', 'a', 'r', 't'], ['R', 'a', 'y', 'E', 'n', 'd'], ['R', 'a', 'y', 'T', 'a', 'r', 'g', 'e', 't', 'I', 'D'], ['R', 'a', 'y', 'E', 'n', 'd', 'I', 's', 'I', 'n', 't', 'e', 'r', 's', 'e', 'c', 't', 'i', 'o', 'n'], ['S', 'c', 'a', 'l', 'e'], ['R', 'o', 't', 'a', 't', 'i', 'o', 'n'], ['S', 't', 'a', 't', 'e']])]

theorem w99 : Checked t99 := ⟨b99, by kernel_rfl, by kernel_rfl, by kernel_rfl⟩

/-- Lines of `message_template.msg` up to the end of `ObjectDelete`. -/
def c100 : List (List Char) :=
  [chars! "",
   chars! "",
   chars! "// ObjectDelete",
   chars! "// viewer -> simulator",
   chars! "{",
   chars! "\tObjectDelete Low 89 NotTrusted Zerocoded",
   chars! "\t{",
   chars! "\t\tAgentData\t\tSingle",
   chars! "\t\t{\tAgentID\t\tLLUUID\t}",
   chars! "\t\t{\tSessionID\tLLUUID\t}",
   chars! "\t\t{\tForce\t\tBOOL\t}\t// BOOL, god trying to force delete",
   chars! "\t}",
   chars! "\t{",
   chars! "\t\tObjectData\t\tVariable",
   chars! "\t\t{\tObjectLocalID\tU32\t}",
   chars! "\t}",
   chars! "}"]

/-- `ObjectDelete` as the parser creates it. -/
def r100 : RawTemplate :=
  ⟨"ObjectDelete", .low, 89, [255, 255, 89], some .notTrusted, some .zerocoded, some .notDeprecated,
    [⟨"ObjectData", .variable, 0, [⟨"ObjectLocalID", some .u32, some 4⟩]⟩,
     ⟨"AgentData", .single, 0, [⟨"Force", some .bool, some 1⟩, ⟨"SessionID", some .uuid, some 16⟩, ⟨"AgentID", some .uuid, some 16⟩]⟩]⟩

/-- `ObjectDelete` in file order. -/
def t100 : Template :=
  ⟨"ObjectDelete", .low, 89, [], some .notTrusted, some .zerocoded, some .notDeprecated,
    [⟨"AgentData", .single, 0, [⟨"AgentID", .uuid, 16⟩, ⟨"SessionID", .uuid, 16⟩, ⟨"Force", .bool, 1⟩]⟩,
     ⟨"ObjectData", .variable, 0, [⟨"ObjectLocalID", .u32, 4⟩]⟩]⟩

theorem p100 : ChunkOk c100 r100 := by intro v older; kernel_rfl
theorem k100 : r100.known = some t100 := by kernel_rfl
theorem n100 : t100.name = String.ofList ['O', 'b', 'j', 'e', 'c', 't', 'D', 'e', 'l', 'e', 't', 'e'] := by kernel_rfl

/-- The names of the blocks and variables of `ObjectDelete`. -/
def b100 : List (List Char × List (List Char)) :=
  [(['A', 'g', 'e', 'n', 't', 'D', 'a', 't', 'a'], [['A', 'g', 'e', 'n', 't', 'I', 'D'], ['S', 'e', 's', 's', 'i', 'o', 'n', 'I', 'D'], ['F', 'o', 'r', 'c', 'e']]),
   (['O', 'b', 'j', 'e', 'c', 't', 'D', 'a', 't', 'a'], [['O', 'b', 'j', 'e', 'c', 't', 'L', 'o', 'c', 'a', 'l', 'I', 'D']])]

theorem w100 : Checked t100 := ⟨b100, by kernel_rfl, by kernel_rfl, by kernel_rfl⟩

/-- Lines of `message_template.msg` up to the end of `ObjectDuplicate`. -/
def c101 : List (List Char) :=
  [chars! "",
   chars! "",
   chars! "// ObjectDuplicate",
   chars! "// viewer -> simulator",
   chars! "// Makes a copy of a set of objects, offset by a given amount",
   chars! "{",
   chars! "\tObjectDuplicate Low 90 NotTrusted Zerocoded",
   chars! "\t{",
   chars! "\t\tAgentData\t\tSingle",
   chars! "\t\t{\tAgentID\t\tLLUUID\t}",
   chars! "\t\t{\tSessionID\tLLUUID\t}",
   chars! "\t\t{\tGroupID\t\tLLUUID\t}",
   chars! "\t}",
   chars! "\t{",
   chars! "\t\tSharedData\t\t\tSingle",
   chars! "\t\t{\tOffset\t\t\tLLVector3\t}",
   chars! "\t\t{\tDuplicateFlags\tU32\t\t\t}\t// see object_flags.h",
   chars! "\t}",
   chars! "\t{",
   chars! "\t\tObjectData\t\t\tVariable",
   chars! "\t\t{\tObjectLocalID\t\tU32\t\t}",
   chars! "\t}",
   chars! "}"]

/-- `ObjectDuplicate` as the parser creates it. -/
def r101 : RawTemplate :=
  ⟨"ObjectDuplicate", .low, 90, [255, 255, 90], some .notTrusted, some .zerocoded, some .notDeprecated,
    [⟨"ObjectData", .variable, 0, [⟨"ObjectLocalID", some .u32, some 4⟩]⟩,
     ⟨"SharedData", .single, 0, [⟨"DuplicateFlags", some .u32, some 4⟩, ⟨"Offset", some .vector3, some 12⟩]⟩,
     ⟨"AgentData", .single, 0, [⟨"GroupID", some .uuid, some 16⟩, ⟨"SessionID", some .uuid, some 16⟩, ⟨"AgentID", some .uuid, some 16⟩]⟩]⟩

/-- `ObjectDuplicate` in file order. -/
def t101 : Template :=
  ⟨"ObjectDuplicate", .low, 90, [], some .notTrusted, some .zerocoded, some .notDeprecated,
    [⟨"AgentData", .single, 0, [⟨"AgentID", .uuid, 16⟩, ⟨"SessionID", .uuid, 16⟩, ⟨"GroupID", .uuid, 16⟩]⟩,
     ⟨"SharedData", .single, 0, [⟨"Offset", .vector3, 12⟩, ⟨"DuplicateFlags", .u32, 4⟩]⟩,
     ⟨"ObjectData", .variable, 0, [⟨"ObjectLocalID", .u32, 4⟩]⟩]⟩

theorem p101 : ChunkOk c101 r101 := by intro v older; kernel_rfl
theorem k101 : r101.known = some t101 := by kernel_rfl
theorem n101 : t101.name = String.ofList ['O', 'b', 'j', 'e', 'c', 't', 'D', 'u', 'p', 'l', 'i', 'c', 'a', 't', 'e'] := by kernel_rfl

/-- The names of the blocks and variables of `ObjectDuplicate`. -/
def b101 : List (List Char × List (List Char)) :=
  [(['A', 'g', 'e', 'n', 't', 'D', 'a', 't', 'a'], [['A', 'g', 'e', 'n', 't', 'I', 'D'], ['S', 'e', 's', 's', 'i', 'o', 'n', 'I', 'D'], ['G', 'r', 'o', 'u', 'p', 'I', 'D']]),
   (['S', 'h', 'a', 'r', 'e', 'd', 'D', 'a', 't', 'a'], [['O', 'f', 'f', 's', 'e', 't'], ['D', 'u', 'p', 'l', 'i', 'c', 'a', 't', 'e', 'F', 'l', 'a', 'g', 's']]),
   (['O', 'b', 'j', 'e', 'c', 't', 'D', 'a', 't', 'a'], [['O', 'b', 'j', 'e', 'c', 't', 'L', 'o', 'c', 'a', 'l', 'I', 'D']])]

theorem w101 : Checked t101 := ⟨b101, by kernel_rfl, by kernel_rfl, by kernel_rfl⟩

/-- Lines of `message_template.msg` up to the end of `ObjectDuplicateOnRay`. -/
def c102 : List (List Char) :=
  [chars! "",
   chars! "",
   chars! "// ObjectDuplicateOnRay",
   chars! "// viewer -> simulator",
   chars! "// Makes a copy of an object, using the add object raycast",
   chars! "// code to abut it to other objects.",
   chars! "{",
   chars! "\tObjectDuplicateOnRay Low 91 NotTrusted Zerocoded",
   chars! "\t{",
   chars! "\t\tAgentData\t\tSingle",
   chars! "\t\t{\tAgentID\t\t\t\t\tLLUUID\t}",
   chars! "\t\t{\tSessionID\t\t\t\tLLUUID\t}",
   chars! "\t\t{\tGroupID\t\t\t\t\tLLUUID\t}",
   chars! "\t\t{\tRayStart\t\t\t\tLLVector3\t}\t// region local",
   chars! "\t\t{\tRayEnd\t\t\t\t\tLLVector3\t}\t// region local",
   chars! "\t\t{\tBypassRaycast\t\t\tBOOL\t}",
   chars! "\t\t{\tRayEndIsIntersection\tBOOL\t}",
   chars! "\t\t{\tCopyCenters\t\t\t\tBOOL\t}",
   chars! "\t\t{\tCopyRotates\t\t\t\tBOOL\t}",
   chars! "\t\t{\tRayTargetID\t\t\t\tLLUUID\t}",
   chars! "\t\t{\tDuplicateFlags\t\t\tU32\t\t}\t// see object_flags.h",
   chars! "\t}",
   chars! "\t{",
   chars! "\t\tObjectData\t\t\tVariable",
   chars! "\t\t{\tObjectLocalID\t\t\tU32\t\t}",
   chars! "\t}",
   chars! "}"]

/-- `ObjectDuplicateOnRay` as the parser creates it. -/
def r102 : RawTemplate :=
  ⟨"ObjectDuplicateOnRay", .low, 91, [255, 255, 91], some .notTrusted, some .zerocoded, some .notDeprecated,
    [⟨"ObjectData", .variable, 0, [⟨"ObjectLocalID", some .u32, some 4⟩]⟩,
     ⟨"AgentData", .single, 0, [⟨"DuplicateFlags", some .u32, some 4⟩, ⟨"RayTargetID", some .uuid, some 16⟩, ⟨"CopyRotates", some .bool, some 1⟩, ⟨"CopyCenters", some .bool, some 1⟩, ⟨"RayEndIsIntersection", some .bool, some 1⟩, ⟨"BypassRaycast", some .bool, some 1⟩, ⟨"RayEnd", some .vector3, some 12⟩, ⟨"RayStart", some .vector3, some 12⟩, ⟨"GroupID", some .uuid, some 16⟩, ⟨"SessionID", some .uuid, some 16⟩, ⟨"AgentID", some .uuid, some 16⟩]⟩]⟩

/-- `ObjectDuplicateOnRay` in file order. -/
def t102 : Template :=
  ⟨"ObjectDuplicateOnRay", .low, 91, [], some .notTrusted, some .zerocoded, some .notDeprecated,
    [⟨"AgentData", .single, 0, [⟨"AgentID", .uuid, 16⟩, ⟨"SessionID", .uuid, 16⟩, ⟨"GroupID", .uuid, 16⟩, ⟨"RayStart", .vector3, 12⟩, ⟨"RayEnd", .vector3, 12⟩, ⟨"BypassRaycast", .bool, 1⟩, ⟨"RayEndIsIntersection", .bool, 1⟩, ⟨"CopyCenters", .bool, 1⟩, ⟨"CopyRotates", .bool, 1⟩, ⟨"RayTargetID", .uuid, 16⟩, ⟨"DuplicateFlags", .u32, 4⟩]⟩,
     ⟨"ObjectData", .variable, 0, [⟨"ObjectLocalID", .u32, 4⟩]⟩]⟩

theorem p102 : ChunkOk c102 r102 := by intro v older; kernel_rfl
theorem k102 : r102.known = some t102 := by kernel_rfl
theorem n102 : t102.name = String.ofList ['O', 'b', 'j', 'e', 'c', 't', 'D', 'u', 'p', 'l', 'i', 'c', 'a', 't', 'e', 'O', 'n', 'R', 'a', 'y'] := by kernel_rfl

/-- The names of the blocks and variables of `ObjectDuplicateOnRay`. -/
def b102 : List (List Char × List (List Char)) :=
  [(['A', 'g', 'e', 'n', 't', 'D', 'a', 't', 'a'], [['A', 'g', 'e', 'n', 't', 'I', 'D'], ['S', 'e', 's', 's', 'i', 'o', 'n', 'I', 'D'], ['G', 'r', 'o', 'u', 'p', 'I', 'D'], ['R', 'a', 'y', 'S', 't', 'a', 'r', 't'], ['R', 'a', 'y', 'E', 'n', 'd'], ['B', 'y', 'p', 'a', 's', 's', 'R', 'a', 'y', 'c', 'a', 's', 't'], ['R', 'a', 'y', 'E', 'n', 'd', 'I', 's', 'I', 'n', 't', 'e', 'r', 's', 'e', 'c', 't', 'i', 'o', 'n'], ['C', 'o', 'p', 'y', 'C', 'e', 'n', 't', 'e', 'r', 's'], ['C', 'o', 'p', 'y', 'R', 'o', 't', 'a', 't', 'e', 's'], ['R', 'a', 'y', 'T', 'a', 'r', 'g', 'e', 't', 'I', 'D'], ['D', 'u', 'p', 'l', 'i', 'c', 'a', 't', 'e', 'F', 'l', 'a', 'g', 's']]),
   (['O', 'b', 'j', 'e', 'c', 't', 'D', 'a', 't', 'a'], [['O', 'b', 'j', 'e', 'c', 't', 'L', 'o', 'c', 'a', 'l', 'I', 'D']])]

theorem w102 : Checked t102 := ⟨b102, by kernel_rfl, by kernel_rfl, by kernel_rfl⟩

/-- Lines of `message_template.msg` up to the end of `MultipleObjectUpdate`. -/
def c103 : List (List Char) :=
  [chars! "",
   chars! "",
   chars! "// MultipleObjectUpdate",
   chars! "// viewer -> simulator",
   chars! "// updates position, rotation and scale in one message",
   chars! "// positions sent as region-local floats",
   chars! "{",
   chars! "\tMultipleObjectUpdate Medium 2 NotTrusted Zerocoded",
   chars! "\t{",
   chars! "\t\tAgentData\t\tSingle",
   chars! "\t\t{\tAgentID\t\t\tLLUUID\t}",
   chars! "\t\t{\tSessionID\t\tLLUUID\t}",
   chars! "\t}",
   chars! "\t{",
   chars! "\t\tObjectData\t\tVariable ",
   chars! "\t\t{\tObjectLocalID\tU32\t\t}",
   chars! "\t\t{   Type\t\t\tU8\t\t}",
   chars! "\t\t{\tData\t\t\tVariable\t1\t}\t// custom type",
   chars! "\t}",
   chars! "}"]

/-- `MultipleObjectUpdate` as the parser creates it. -/
def r103 : RawTemplate :=
  ⟨"MultipleObjectUpdate", .medium, 2, [255, 2], some .notTrusted, some .zerocoded, some .notDeprecated,
    [⟨"ObjectData", .variable, 0, [⟨"Data", some .variable, some 1⟩, ⟨"Type", some .u8, some 1⟩, ⟨"ObjectLocalID", some .u32, some 4⟩]⟩,
     ⟨"AgentData", .single, 0, [⟨"SessionID", some .uuid, some 16⟩, ⟨"AgentID", some .uuid, some 16⟩]⟩]⟩

/-- `MultipleObjectUpdate` in file order. -/
def t103 : Template :=
  ⟨"MultipleObjectUpdate", .medium, 2, [], some .notTrusted, some .zerocoded, some .notDeprecated,
    [⟨"AgentData", .single, 0, [⟨"AgentID", .uuid, 16⟩, ⟨"SessionID", .uuid, 16⟩]⟩,
     ⟨"ObjectData", .variable, 0, [⟨"ObjectLocalID", .u32, 4⟩, ⟨"Type", .u8, 1⟩, ⟨"Data", .variable, 1⟩]⟩]⟩

theorem p103 : ChunkOk c103 r103 := by intro v older; kernel_rfl
theorem k103 : r103.known = some t103 := by kernel_rfl
theorem n103 : t103.name = String.ofList ['M', 'u', 'l', 't', 'i', 'p', 'l', 'e', 'O', 'b', 'j', 'e', 'c', 't', 'U', 'p', 'd', 'a', 't', 'e'] := by kernel_rfl

/-- The names of the blocks and variables of `MultipleObjectUpdate`. -/
def b103 : List (List Char × List (List Char)) :=
  [(['A', 'g', 'e', 'n', 't', 'D', 'a', 't', 'a'], [['A', 'g', 'e', 'n', 't', 'I', 'D'], ['S', 'e', 's', 's', 'i', 'o', 'n', 'I', 'D']]),
   (['O', 'b', 'j', 'e', 'c', 't', 'D', 'a', 't', 'a'], [['O', 'b', 'j', 'e', 'c', 't', 'L', 'o', 'c', 'a', 'l', 'I', 'D'], ['T', 'y', 'p', 'e'], ['D', 'a', 't', 'a']])]

theorem w103 : Checked t103 := ⟨b103, by kernel_rfl, by kernel_rfl, by kernel_rfl⟩

/-- Lines of `message_template.msg` up to the end of `RequestMultipleObjects`. -/
def c104 : List (List Char) :=
  [chars! "",
   chars! "// RequestMultipleObjects",
   chars! "// viewer -> simulator",
   chars! "// reliable",
   chars! "//",
   chars! "// When the viewer gets a local_id/crc for an object that",
   chars! "// it either doesn't have, or doesn't have the current version",
   chars! "// of, it sends this upstream get get an update.",
   chars! "//",
   chars! "// CacheMissType 0 => full object (viewer doesn't have it)",
   chars! "// CacheMissType 1 => CRC mismatch only",
   chars! "{",
   chars! "\tRequestMultipleObjects Medium 3 NotTrusted Zerocoded",
   chars! "\t{",
   chars! "\t\tAgentData\t\tSingle",
   chars! "\t\t{\tAgentID\t\tLLUUID\t}",
   chars! "\t\t{\tSessionID\t\tLLUUID\t}",
   chars! "\t}",
   chars! "\t{",
   chars! "\t\tObjectData\tVariable ",
   chars! "\t\t{\tCacheMissType\tU8\t}",
   chars! "\t\t{\tID\t\t\t\tU32\t}",
   chars! "\t}",
   chars! "}"]

/-- `RequestMultipleObjects` as the parser creates it. -/
def r104 : RawTemplate :=
  ⟨"RequestMultipleObjects", .medium, 3, [255, 3], some .notTrusted, some .zerocoded, some .notDeprecated,
    [⟨"ObjectData", .variable, 0, [⟨"ID", some .u32, some 4⟩, ⟨"CacheMissType", some .u8, some 1⟩]⟩,
     ⟨"AgentData", .single, 0, [⟨"SessionID", some .uuid, some 16⟩, ⟨"AgentID", some .uuid, some 16⟩]⟩]⟩

/-- `RequestMultipleObjects` in file order. -/
def t104 : Template :=
  ⟨"RequestMultipleObjects", .medium, 3, [], some .notTrusted, some .zerocoded, some .notDeprecated,
    [⟨"AgentData", .single, 0, [⟨"AgentID", .uuid, 16⟩, ⟨"SessionID", .uuid, 16⟩]⟩,
     ⟨"ObjectData", .variable, 0, [⟨"CacheMissType", .u8, 1⟩, ⟨"ID", .u32, 4⟩]⟩]⟩

theorem p104 : ChunkOk c104 r104 := by intro v older; kernel_rfl
theorem k104 : r104.known = some t104 := by kernel_rfl
theorem n104 : t104.name = String.ofList ['R', 'e', 'q', 'u', 'e', 's', 't', 'M', 'u', 'l', 't', 'i', 'p', 'l', 'e', 'O', 'b', 'j', 'e', 'c', 't', 's'] := by kernel_rfl

/-- The names of the blocks and variables of `RequestMultipleObjects`. -/
def b104 : List (List Char × List (List Char)) :=
  [(['A', 'g', 'e', 'n', 't', 'D', 'a', 't', 'a'], [['A', 'g', 'e', 'n', 't', 'I', 'D'], ['S', 'e', 's', 's', 'i', 'o', 'n', 'I', 'D']]),
   (['O', 'b', 'j', 'e', 'c', 't', 'D', 'a', 't', 'a'], [['C', 'a', 'c', 'h', 'e', 'M', 'i', 's', 's', 'T', 'y', 'p', 'e'], ['I', 'D']])]

theorem w104 : Checked t104 := ⟨b104, by kernel_rfl, by kernel_rfl, by kernel_rfl⟩

/-- Lines of `message_template.msg` up to the end of `ObjectPosition`. -/
def c105 : List (List Char) :=
  [chars! "",
   chars! "",
   chars! "// DEPRECATED: ObjectPosition",
   chars! "// == Old Behavior ==",
   chars! "// Set the position on objects",
   chars! "//",
   chars! "// == Reason for deprecation ==",
   chars! "// Unused code path was removed in the move to Havok4",
   chars! "// Object position, scale and rotation messages were already unified",
   chars! "// to MultipleObjectUpdate and this message was unused cruft.",
   chars! "//",
   chars! "// == New Location ==",
   chars! "// MultipleObjectUpdate can be used instead.",
   chars! "{",
   chars! "\tObjectPosition Medium 4 NotTrusted Zerocoded Deprecated",
   chars! "\t{",
   chars! "\t\tAgentData\t\tSingle",
   chars! "\t\t{\tAgentID\t\tLLUUID\t}",
   chars! "\t\t{\tSessionID\tLLUUID\t}",
   chars! "\t}",
   chars! "\t{",
   chars! "\t\tObjectData\t\tVariable",
   chars! "\t\t{\tObjectLocalID\tU32\t\t\t}",
   chars! "\t\t{\tPosition\t\tLLVector3\t}\t// region",
   chars! "\t}",
   chars! "}"]

/-- `ObjectPosition` as the parser creates it. -/
def r105 : RawTemplate :=
  ⟨"ObjectPosition", .medium, 4, [255, 4], some .notTrusted, some .zerocoded, some .deprecated,
    [⟨"ObjectData", .variable, 0, [⟨"Position", some .vector3, some 12⟩, ⟨"ObjectLocalID", some .u32, some 4⟩]⟩,
     ⟨"AgentData", .single, 0, [⟨"SessionID", some .uuid, some 16⟩, ⟨"AgentID", some .uuid, some 16⟩]⟩]⟩

/-- `ObjectPosition` in file order. -/
def t105 : Template :=
  ⟨"ObjectPosition", .medium, 4, [], some .notTrusted, some .zerocoded, some .deprecated,
    [⟨"AgentData", .single, 0, [⟨"AgentID", .uuid, 16⟩, ⟨"SessionID", .uuid, 16⟩]⟩,
     ⟨"ObjectData", .variable, 0, [⟨"ObjectLocalID", .u32, 4⟩, ⟨"Position", .vector3, 12⟩]⟩]⟩

theorem p105 : ChunkOk c105 r105 := by intro v older; kernel_rfl
theorem k105 : r105.known = some t105 := by kernel_rfl
theorem n105 : t105.name = String.ofList ['O', 'b', 'j', 'e', 'c', 't', 'P', 'o', 's', 'i', 't', 'i', 'o', 'n'] := by kernel_rfl

/-- The names of the blocks and variables of `ObjectPosition`. -/
def b105 : List (List Char × List (List Char)) :=
  [(['A', 'g', 'e', 'n', 't', 'D', 'a', 't', 'a'], [['A', 'g', 'e', 'n', 't', 'I', 'D'], ['S', 'e', 's', 's', 'i', 'o', 'n', 'I', 'D']]),
   (['O', 'b', 'j', 'e', 'c', 't', 'D', 'a', 't', 'a'], [['O', 'b', 'j', 'e', 'c', 't', 'L', 'o', 'c', 'a', 'l', 'I', 'D'], ['P', 'o', 's', 'i', 't', 'i', 'o', 'n']])]

theorem w105 : Checked t105 := ⟨b105, by kernel_rfl, by kernel_rfl, by kernel_rfl⟩

/-- Lines of `message_template.msg` up to the end of `ObjectScale`. -/
def c106 : List (List Char) :=
  [chars! "",
   chars! "",
   chars! "// DEPRECATED: ObjectScale",
   chars! "// == Old Behavior ==",
   chars! "// Set the scale on objects",
   chars! "//",
   chars! "// == Reason for deprecation ==",
   chars! "// Unused code path was removed in the move to Havok4",
   chars! "// Object position, scale and rotation messages were already unified",
   chars! "// to MultipleObjectUpdate and this message was unused cruft.",
   chars! "//",
   chars! "// == New Location ==",
   chars! "// MultipleObjectUpdate can be used instead.",
   chars! "{",
   chars! "\tObjectScale Low 92 NotTrusted Zerocoded Deprecated",
   chars! "\t{",
   chars! "\t\tAgentData\t\tSingle",
   chars! "\t\t{\tAgentID\t\tLLUUID\t}",
   chars! "\t\t{\tSessionID\tLLUUID\t}",
   chars! "\t}",
   chars! "\t{",
   chars! "\t\tObjectData\t\tVariable",
   chars! "\t\t{\tObjectLocalID\tU32\t\t\t}",
   chars! "\t\t{\tScale\t\t\tLLVector3\t}",
   chars! "\t}",
   chars! "}"]

/-- `ObjectScale` as the parser creates it. -/
def r106 : RawTemplate :=
  ⟨"ObjectScale", .low, 92, [255, 255, 92], some .notTrusted, some .zerocoded, some .deprecated,
    [⟨"ObjectData", .variable, 0, [⟨"Scale", some .vector3, some 12⟩, ⟨"ObjectLocalID", some .u32, some 4⟩]⟩,
     ⟨"AgentData", .single, 0, [⟨"SessionID", some .uuid, some 16⟩, ⟨"AgentID", some .uuid, some 16⟩]⟩]⟩

/-- `ObjectScale` in file order. -/
def t106 : Template :=
  ⟨"ObjectScale", .low, 92, [], some .notTrusted, some .zerocoded, some .deprecated,
    [⟨"AgentData", .single, 0, [⟨"AgentID", .uuid, 16⟩, ⟨"SessionID", .uuid, 16⟩]⟩,
     ⟨"ObjectData", .variable, 0, [⟨"ObjectLocalID", .u32, 4⟩, ⟨"Scale", .vector3, 12⟩]⟩]⟩

theorem p106 : ChunkOk c106 r106 := by intro v older; kernel_rfl
theorem k106 : r106.known = some t106 := by kernel_rfl
theorem n106 : t106.name = String.ofList ['O', 'b', 'j', 'e', 'c', 't', 'S', 'c', 'a', 'l', 'e'] := by kernel_rfl

/-- The names of the blocks and variables of `ObjectScale`. -/
def b106 : List (List Char × List (List Char)) :=
  [(['A', 'g', 'e', 'n', 't', 'D', 'a', 't', 'a'], [['A', 'g', 'e', 'n', 't', 'I', 'D'], ['S', 'e', 's', 's', 'i', 'o', 'n', 'I', 'D']]),
   (['O', 'b', 'j', 'e', 'c', 't', 'D', 'a', 't', 'a'], [['O', 'b', 'j', 'e', 'c', 't', 'L', 'o', 'c', 'a', 'l', 'I', 'D'], ['S', 'c', 'a', 'l', 'e']])]

theorem w106 : Checked t106 := ⟨b106, by kernel_rfl, by kernel_rfl, by kernel_rfl⟩

/-- Lines of `message_template.msg` up to the end of `ObjectRotation`. -/
def c107 : List (List Char) :=
  [chars! "",
   chars! "",
   chars! "// ObjectRotation",
   chars! "// viewer -> simulator",
   chars! "{",
   chars! "\tObjectRotation Low 93 NotTrusted Zerocoded",
   chars! "\t{",
   chars! "\t\tAgentData\t\tSingle",
   chars! "\t\t{\tAgentID\t\tLLUUID\t}",
   chars! "\t\t{\tSessionID\tLLUUID\t}",
   chars! "\t}",
   chars! "\t{",
   chars! "\t\tObjectData\t\tVariable",
   chars! "\t\t{\tObjectLocalID\tU32\t\t\t\t}",
   chars! "\t\t{\tRotation\t\tLLQuaternion\t}",
   chars! "\t}",
   chars! "}"]

/-- `ObjectRotation` as the parser creates it. -/
def r107 : RawTemplate :=
  ⟨"ObjectRotation", .low, 93, [255, 255, 93], some .notTrusted, some .zerocoded, some .notDeprecated,
    [⟨"ObjectData", .variable, 0, [⟨"Rotation", some .quaternion, some 12⟩, ⟨"ObjectLocalID", some .u32, some 4⟩]⟩,
     ⟨"AgentData", .single, 0, [⟨"SessionID", some .uuid, some 16⟩, ⟨"AgentID", some .uuid, some 16⟩]⟩]⟩

/-- `ObjectRotation` in file order. -/
def t107 : Template :=
  ⟨"ObjectRotation", .low, 93, [], some .notTrusted, some .zerocoded, some .notDeprecated,
    [⟨"AgentData", .single, 0, [⟨"AgentID", .uuid, 16⟩, ⟨"SessionID", .uuid, 16⟩]⟩,
     ⟨"ObjectData", .variable, 0, [⟨"ObjectLocalID", .u32, 4⟩, ⟨"Rotation", .quaternion, 12⟩]⟩]⟩

theorem p107 : ChunkOk c107 r107 := by intro v older; kernel_rfl
theorem k107 : r107.known = some t107 := by kernel_rfl
theorem n107 : t107.name = String.ofList ['O', 'b', 'j', 'e', 'c', 't', 'R', 'o', 't', 'a', 't', 'i', 'o', 'n'] := by kernel_rfl

/-- The names of the blocks and variables of `ObjectRotation`. -/
def b107 : List (List Char × List (List Char)) :=
  [(['A', 'g', 'e', 'n', 't', 'D', 'a', 't', 'a'], [['A', 'g', 'e', 'n', 't', 'I', 'D'], ['S', 'e', 's', 's', 'i', 'o', 'n', 'I', 'D']]),
   (['O', 'b', 'j', 'e', 'c', 't', 'D', 'a', 't', 'a'], [['O', 'b', 'j', 'e', 'c', 't', 'L', 'o', 'c', 'a', 'l', 'I', 'D'], ['R', 'o', 't', 'a', 't', 'i', 'o', 'n']])]

theorem w107 : Checked t107 := ⟨b107, by kernel_rfl, by kernel_rfl, by kernel_rfl⟩

/-- Lines of `message_template.msg` up to the end of `ObjectFlagUpdate`. -/
def c108 : List (List Char) :=
  [chars! "",
   chars! "",
   chars! "// ObjectFlagUpdate",
   chars! "// viewer -> simulator",
   chars! "{",
   chars! "\tObjectFlagUpdate Low 94 NotTrusted Zerocoded",
   chars! "\t{",
   chars! "\t\tAgentData\t\tSingle",
   chars! "\t\t{\tAgentID\t\tLLUUID\t}",
   chars! "\t\t{\tSessionID\tLLUUID\t}",
   chars! "\t\t{\tObjectLocalID\tU32\t\t}",
   chars! "\t\t{\tUsePhysics\t\tBOOL\t}",
   chars! "\t\t{\tIsTemporary\t\tBOOL\t}",
   chars! "\t\t{\tIsPhantom\t\tBOOL\t}",
   chars! "\t\t{\tCastsShadows\tBOOL\t}",
   chars! "\t}",
   chars! "}"]

/-- `ObjectFlagUpdate` as the parser creates it. -/
def r108 : RawTemplate :=
  ⟨"ObjectFlagUpdate", .low, 94, [255, 255, 94], some .notTrusted, some .zerocoded, some .notDeprecated,
    [⟨"AgentData", .single, 0, [⟨"CastsShadows", some .bool, some 1⟩, ⟨"IsPhantom", some .bool, some 1⟩, ⟨"IsTemporary", some .bool, some 1⟩, ⟨"UsePhysics", some .bool, some 1⟩, ⟨"ObjectLocalID", some .u32, some 4⟩, ⟨"SessionID", some .uuid, some 16⟩, ⟨"AgentID", some .uuid, some 16⟩]⟩]⟩

/-- `ObjectFlagUpdate` in file order. -/
def t108 : Template :=
  ⟨"ObjectFlagUpdate", .low, 94, [], some .notTrusted, some .zerocoded, some .notDeprecated,
    [⟨"AgentData", .single, 0, [⟨"AgentID", .uuid, 16⟩, ⟨"SessionID", .uuid, 16⟩, ⟨"ObjectLocalID", .u32, 4⟩, ⟨"UsePhysics", .bool, 1⟩, ⟨"IsTemporary", .bool, 1⟩, ⟨"IsPhantom", .bool, 1⟩, ⟨"CastsShadows", .bool, 1⟩]⟩]⟩

theorem p108 : ChunkOk c108 r108 := by intro v older; kernel_rfl
theorem k108 : r108.known = some t108 := by kernel_rfl
theorem n108 : t108.name = String.ofList ['O', 'b', 'j', 'e', 'c', 't', 'F', 'l', 'a', 'g', 'U', 'p', 'd', 'a', 't', 'e'] := by kernel_rfl

/-- The names of the blocks and variables of `ObjectFlagUpdate`. -/
def b108 : List (List Char × List (List Char)) :=
  [(['A', 'g', 'e', 'n', 't', 'D', 'a', 't', 'a'], [['A', 'g', 'e', 'n', 't', 'I', 'D'], ['S', 'e', 's', 's', 'i', 'o', 'n', 'I', 'D'], ['O', 'b', 'j', 'e', 'c', 't', 'L', 'o', 'c', 'a', 'l', 'I', 'D'], ['U', 's', 'e', 'P', 'h', 'y', 's', 'i', 'c', 's'], ['I', 's', 'T', 'e', 'm', 'p', 'o', 'r', 'a', 'r', 'y'], ['I', 's', 'P', 'h', 'a', 'n', 't', 'o', 'm'], ['C', 'a', 's', 't', 's', 'S', 'h', 'a', 'd', 'o', 'w', 's']])]

theorem w108 : Checked t108 := ⟨b108, by kernel_rfl, by kernel_rfl, by kernel_rfl⟩

/-- Lines of `message_template.msg` up to the end of `ObjectClickAction`. -/
def c109 : List (List Char) :=
  [chars! "",
   chars! "",
   chars! "// ObjectClickAction",
   chars! "// viewer -> simulator",
   chars! "{",
   chars! "\tObjectClickAction Low 95 NotTrusted Zerocoded",
   chars! "\t{",
   chars! "\t\tAgentData\t\tSingle",
   chars! "\t\t{\tAgentID\t\tLLUUID\t}",
   chars! "\t\t{\tSessionID\tLLUUID\t}",
   chars! "\t}",
   chars! "\t{",
   chars! "\t\tObjectData\t\tVariable",
   chars! "\t\t{\tObjectLocalID\tU32\t\t}",
   chars! "\t\t{\tClickAction\t\tU8\t\t}",
   chars! "\t}",
   chars! "}"]

/-- `ObjectClickAction` as the parser creates it. -/
def r109 : RawTemplate :=
  ⟨"ObjectClickAction", .low, 95, [255, 255, 95], some .notTrusted, some .zerocoded, some .notDeprecated,
    [⟨"ObjectData", .variable, 0, [⟨"ClickAction", some .u8, some 1⟩, ⟨"ObjectLocalID", some .u32, some 4⟩]⟩,
     ⟨"AgentData", .single, 0, [⟨"SessionID", some .uuid, some 16⟩, ⟨"AgentID", some .uuid, some 16⟩]⟩]⟩

/-- `ObjectClickAction` in file order. -/
def t109 : Template :=
  ⟨"ObjectClickAction", .low, 95, [], some .notTrusted, some .zerocoded, some .notDeprecated,
    [⟨"AgentData", .single, 0, [⟨"AgentID", .uuid, 16⟩, ⟨"SessionID", .uuid, 16⟩]⟩,
     ⟨"ObjectData", .variable, 0, [⟨"ObjectLocalID", .u32, 4⟩, ⟨"ClickAction", .u8, 1⟩]⟩]⟩

theorem p109 : ChunkOk c109 r109 := by intro v older; kernel_rfl
theorem k109 : r109.known = some t109 := by kernel_rfl
theorem n109 : t109.name = String.ofList ['O', 'b', 'j', 'e', 'c', 't', 'C', 'l', 'i', 'c', 'k', 'A', 'c', 't', 'i', 'o', 'n'] := by kernel_rfl

/-- The names of the blocks and variables of `ObjectClickAction`. -/
def b109 : List (List Char × List (List Char)) :=
  [(['A', 'g', 'e', 'n', 't', 'D', 'a', 't', 'a'], [['A', 'g', 'e', 'n', 't', 'I', 'D'], ['S', 'e', 's', 's', 'i', 'o', 'n', 'I', 'D']]),
   (['O', 'b', 'j', 'e', 'c', 't', 'D', 'a', 't', 'a'], [['O', 'b', 'j', 'e', 'c', 't', 'L', 'o', 'c', 'a', 'l', 'I', 'D'], ['C', 'l', 'i', 'c', 'k', 'A', 'c', 't', 'i', 'o', 'n']])]

theorem w109 : Checked t109 := ⟨b109, by kernel_rfl, by kernel_rfl, by kernel_rfl⟩

/-- Lines of `message_template.msg` up to the end of `ObjectImage`. -/
def c110 : List (List Char) :=
  [chars! "",
   chars! "",
   chars! "// ObjectImage",
   chars! "// viewer -> simulator",
   chars! "{",
   chars! "\tObjectImage Low 96 NotTrusted Zerocoded",
   chars! "\t{",
   chars! "\t\tAgentData\t\tSingle",
   chars! "\t\t{\tAgentID\t\tLLUUID\t}",
   chars! "\t\t{\tSessionID\tLLUUID\t}",
   chars! "\t}",
   chars! "\t{",
   chars! "\t\tObjectData\t\t\tVariable",
   chars! "\t\t{\tObjectLocalID\t\tU32\t\t\t\t}",
   chars! "\t\t{\tMediaURL\t\t\tVariable\t1\t}",
   chars! "\t\t{\tTextureEntry\t\tVariable\t2\t}",
   chars! "\t}",
   chars! "}"]

/-- `ObjectImage` as the parser creates it. -/
def r110 : RawTemplate :=
  ⟨"ObjectImage", .low, 96, [255, 255, 96], some .notTrusted, some .zerocoded, some .notDeprecated,
    [⟨"ObjectData", .variable, 0, [⟨"TextureEntry", some .variable, some 2⟩, ⟨"MediaURL", some .variable, some 1⟩, ⟨"ObjectLocalID", some .u32, some 4⟩]⟩,
     ⟨"AgentData", .single, 0, [⟨"SessionID", some .uuid, some 16⟩, ⟨"AgentID", some .uuid, some 16⟩]⟩]⟩

/-- `ObjectImage` in file order. -/
def t110 : Template :=
  ⟨"ObjectImage", .low, 96, [], some .notTrusted, some .zerocoded, some .notDeprecated,
    [⟨"AgentData", .single, 0, [⟨"AgentID", .uuid, 16⟩, ⟨"SessionID", .uuid, 16⟩]⟩,
     ⟨"ObjectData", .variable, 0, [⟨"ObjectLocalID", .u32, 4⟩, ⟨"MediaURL", .variable, 1⟩, ⟨"TextureEntry", .variable, 2⟩]⟩]⟩

theorem p110 : ChunkOk c110 r110 := by intro v older; kernel_rfl
theorem k110 : r110.known = some t110 := by kernel_rfl
theorem n110 : t110.name = String.ofList ['O', 'b', 'j', 'e', 'c', 't', 'I', 'm', 'a', 'g', 'e'] := by kernel_rfl

/-- The names of the blocks and variables of `ObjectImage`. -/
def b110 : List (List Char × List (List Char)) :=
  [(['A', 'g', 'e', 'n', 't', 'D', 'a', 't', 'a'], [['A', 'g', 'e', 'n', 't', 'I', 'D'], ['S', 'e', 's', 's', 'i', 'o', 'n', 'I', 'D']]),
   (['O', 'b', 'j', 'e', 'c', 't', 'D', 'a', 't', 'a'], [['O', 'b', 'j', 'e', 'c', 't', 'L', 'o', 'c', 'a', 'l', 'I', 'D'], ['M', 'e', 'd', 'i', 'a', 'U', 'R', 'L'], ['T', 'e', 'x', 't', 'u', 'r', 'e', 'E', 'n', 't', 'r', 'y']])]

theorem w110 : Checked t110 := ⟨b110, by kernel_rfl, by kernel_rfl, by kernel_rfl⟩

/-- Lines of `message_template.msg` up to the end of `ObjectMaterial`. -/
def c111 : List (List Char) :=
  [chars! "",
   chars! "",
   chars! "{",
   chars! "\tObjectMaterial Low 97 NotTrusted Zerocoded",
   chars! "\t{",
   chars! "\t\tAgentData\t\tSingle",
   chars! "\t\t{\tAgentID\t\tLLUUID\t}",
   chars! "\t\t{\tSessionID\tLLUUID\t}",
   chars! "\t}",
   chars! "\t{",
   chars! "\t\tObjectData\t\tVariable",
   chars! "\t\t{\tObjectLocalID\tU32\t}",
   chars! "\t\t{\tMaterial\tU8\t}",
   chars! "\t}",
   chars! "}"]

/-- `ObjectMaterial` as the parser creates it. -/
def r111 : RawTemplate :=
  ⟨"ObjectMaterial", .low, 97, [255, 255, 97], some .notTrusted, some .zerocoded, some .notDeprecated,
    [⟨"ObjectData", .variable, 0, [⟨"Material", some .u8, some 1⟩, ⟨"ObjectLocalID", some .u32, some 4⟩]⟩,
     ⟨"AgentData", .single, 0, [⟨"SessionID", some .uuid, some 16⟩, ⟨"AgentID", some .uuid, some 16⟩]⟩]⟩

/-- `ObjectMaterial` in file order. -/
def t111 : Template :=
  ⟨"ObjectMaterial", .low, 97, [], some .notTrusted, some .zerocoded, some .notDeprecated,
    [⟨"AgentData", .single, 0, [⟨"AgentID", .uuid, 16⟩, ⟨"SessionID", .uuid, 16⟩]⟩,
     ⟨"ObjectData", .variable, 0, [⟨"ObjectLocalID", .u32, 4⟩, ⟨"Material", .u8, 1⟩]⟩]⟩

theorem p111 : ChunkOk c111 r111 := by intro v older; kernel_rfl
theorem k111 : r111.known = some t111 := by kernel_rfl
theorem n111 : t111.name = String.ofList ['O', 'b', 'j', 'e', 'c', 't', 'M', 'a', 't', 'e', 'r', 'i', 'a', 'l'] := by kernel_rfl

/-- The names of the blocks and variables of `ObjectMaterial`. -/
def b111 : List (List Char × List (List Char)) :=
  [(['A', 'g', 'e', 'n', 't', 'D', 'a', 't', 'a'], [['A', 'g', 'e', 'n', 't', 'I', 'D'], ['S', 'e', 's', 's', 'i', 'o', 'n', 'I', 'D']]),
   (['O', 'b', 'j', 'e', 'c', 't', 'D', 'a', 't', 'a'], [['O', 'b', 'j', 'e', 'c', 't', 'L', 'o', 'c', 'a', 'l', 'I', 'D'], ['M', 'a', 't', 'e', 'r', 'i', 'a', 'l']])]

theorem w111 : Checked t111 := ⟨b111, by kernel_rfl, by kernel_rfl, by kernel_rfl⟩

/-- Lines of `message_template.msg` up to the end of `ObjectShape`. -/
def c112 : List (List Char) :=
  [chars! "",
   chars! "",
   chars! "{",
   chars! "\tObjectShape Low 98 NotTrusted Zerocoded",
   chars! "\t{",
   chars! "\t\tAgentData\t\tSingle",
   chars! "\t\t{\tAgentID\t\tLLUUID\t}",
   chars! "\t\t{\tSessionID\tLLUUID\t}",
   chars! "\t}",
   chars! "\t{",
   chars! "\t\tObjectData\t\t\tVariable",
   chars! "\t\t{\tObjectLocalID\tU32\t}",
   chars! "\t\t{\tPathCurve\t\tU8\t}",
   chars! "\t\t{\tProfileCurve\tU8\t}",
   chars! "\t\t{\tPathBegin\t\tU16\t}\t// 0 to 1, quanta = 0.01",
   chars! "\t\t{\tPathEnd\t\t\tU16\t}\t// 0 to 1, quanta = 0.01",
   chars! "\t\t{\tPathScaleX\t\tU8\t}\t// 0 to 1, quanta = 0.01",
   chars! "\t\t{\tPathScaleY\t\tU8\t}\t// 0 to 1, quanta = 0.01",
   chars! "\t\t{\tPathShearX\t\tU8\t}\t// -.5 to .5, quanta = 0.01",
   chars! "\t\t{\tPathShearY\t\tU8\t}\t// -.5 to .5, quanta = 0.01",
   chars! "\t\t{\tPathTwist\t\tS8\t}\t// -1 to 1, quanta = 0.01",
   chars! "\t\t{\tPathTwistBegin\t\tS8\t}\t// -1 to 1, quanta = 0.01",
   chars! "\t\t{ \tPathRadiusOffset \tS8\t} \t// -1 to 1, quanta = 0.01",
   chars! "\t\t{ \tPathTaperX\t\tS8\t}\t// -1 to 1, quanta = 0.01",
   chars! "\t\t{\tPathTaperY\t\tS8\t}\t// -1 to 1, quanta = 0.01",
   chars! "\t\t{\tPathRevolutions\t\tU8\t}\t// 0 to 3, quanta = 0.015",
   chars! "\t\t{\tPathSkew\t\tS8\t}\t// -1 to 1, quanta = 0.01",
   chars! "\t\t{\tProfileBegin\tU16\t}\t// 0 to 1, quanta = 0.01",
   chars! "\t\t{\tProfileEnd\t\tU16\t}\t// 0 to 1, quanta = 0.01",
   chars! "\t\t{\tProfileHollow\tU16\t}\t// 0 to 1, quanta = 0.01",
   chars! "\t}",
   chars! "}"]

/-- `ObjectShape` as the parser creates it. -/
def r112 : RawTemplate :=
  ⟨"ObjectShape", .low, 98, [255, 255, 98], some .notTrusted, some .zerocoded, some .notDeprecated,
    [⟨"ObjectData", .variable, 0, [⟨"ProfileHollow", some .u16, some 2⟩, ⟨"ProfileEnd", some .u16, some 2⟩, ⟨"ProfileBegin", some .u16, some 2⟩, ⟨"PathSkew", some .s8, some 1⟩, ⟨"PathRevolutions", some .u8, some 1⟩, ⟨"PathTaperY", some .s8, some 1⟩, ⟨"PathTaperX", some .s8, some 1⟩, ⟨"PathRadiusOffset", some .s8, some 1⟩, ⟨"PathTwistBegin", some .s8, some 1⟩, ⟨"PathTwist", some .s8, some 1⟩, ⟨"PathShearY", some .u8, some 1⟩, ⟨"PathShearX", some .u8, some 1⟩, ⟨"PathScaleY", some .u8, some 1⟩, ⟨"PathScaleX", some .u8, some 1⟩, ⟨"PathEnd", some .u16, some 2⟩, ⟨"PathBegin", some .u16, some 2⟩, ⟨"ProfileCurve", some .u8, some 1⟩, ⟨"PathCurve", some .u8, some 1⟩, ⟨"ObjectLocalID", some .u32, some 4⟩]⟩,
     ⟨"AgentData", .single, 0, [⟨"SessionID", some .uuid, some 16⟩, ⟨"AgentID", some .uuid, some 16⟩]⟩]⟩

/-- `ObjectShape` in file order. -/
def t112 : Template :=
  ⟨"ObjectShape", .low, 98, [], some .notTrusted, some .zerocoded, some .notDeprecated,
    [⟨"AgentData", .single, 0, [⟨"AgentID", .uuid, 16⟩, ⟨"SessionID", .uuid, 16⟩]⟩,
     ⟨"ObjectData", .variable, 0, [⟨"ObjectLocalID", .u32, 4⟩, ⟨"PathCurve", .u8, 1⟩, ⟨"ProfileCurve", .u8, 1⟩, ⟨"PathBegin", .u16, 2⟩, ⟨"PathEnd", .u16, 2⟩, ⟨"PathScaleX", .u8, 1⟩, ⟨"PathScaleY", .u8, 1⟩, ⟨"PathShearX", .u8, 1⟩, ⟨"PathShearY", .u8, 1⟩, ⟨"PathTwist", .s8, 1⟩, ⟨"PathTwistBegin", .s8, 1⟩, ⟨"PathRadiusOffset", .s8, 1⟩, ⟨"PathTaperX", .s8, 1⟩, ⟨"PathTaperY", .s8, 1⟩, ⟨"PathRevolutions", .u8, 1⟩, ⟨"PathSkew", .s8, 1⟩, ⟨"ProfileBegin", .u16, 2⟩, ⟨"ProfileEnd", .u16, 2⟩, ⟨"ProfileHollow", .u16, 2⟩]⟩]⟩

theorem p112 : ChunkOk c112 r112 := by intro v older; kernel_rfl
theorem k112 : r112.known = some t112 := by kernel_rfl
theorem n112 : t112.name = String.ofList ['O', 'b', 'j', 'e', 'c', 't', 'S', 'h', 'a', 'p', 'e'] := by kernel_rfl

/-- The names of the blocks and variables of `ObjectShape`. -/
def b112 : List (List Char × List (List Char)) :=
  [(['A', 'g', 'e', 'n', 't', 'D', 'a', 't', 'a'], [['A', 'g', 'e', 'n', 't', 'I', 'D'], ['S', 'e', 's', 's', 'i', 'o', 'n', 'I', 'D']]),
   (['O', 'b', 'j', 'e', 'c', 't', 'D', 'a', 't', 'a'], [['O', 'b', 'j', 'e', 'c', 't', 'L', 'o', 'c', 'a', 'l', 'I', 'D'], ['P', 'a', 't', 'h', 'C', 'u', 'r', 'v', 'e'], ['P', 'r', 'o', 'f', 'i', 'l', 'e', 'C', 'u', 'r', 'v', 'e'], ['P', 'a', 't', 'h', 'B', 'e', 'g', 'i', 'n'], ['P', 'a', 't', 'h', 'E', 'n', 'd'], ['P', 'a', 't', 'h', 'S', 'c', 'a', 'l', 'e', 'X'], ['P', 'a', 't', 'h', 'S', 'c', 'a', 'l', 'e', 'Y'], ['P', 'a', 't', 'h', 'S', 'h', 'e', 'a', 'r', 'X'], ['P', 'a', 't', 'h', 'S', 'h', 'e', 'a', 'r', 'Y'], ['P', 'a', 't', 'h', 'T', 'w', 'i', 's', 't'], ['P', 'a', 't', 'h', 'T', 'w', 'i', 's', 't', 'B', 'e', 'g', 'i', 'n'], ['P', 'a', 't', 'h', 'R', 'a', 'd', 'i', 'u', 's', 'O', 'f', 'f', 's', 'e', 't'], ['P', 'a', 't', 'h', 'T', 'a', 'p', 'e', 'r', 'X'], ['P', 'a', 't', 'h', 'T', 'a', 'p', 'e', 'r', 'Y'], ['P', 'a', 't', 'h', 'R', 'e', 'v', 'o', 'l', 'u', 't', 'i', 'o', 'n', 's'], ['P', 'a', 't', 'h', 'S', 'k', 'e', 'w'], ['P', 'r', 'o', 'f', 'i', 'l', 'e', 'B', 'e', 'g', 'i', 'n'], ['P', 'r', 'o', 'f', 'i', 'l', 'e', 'E', 'n', 'd'], ['P', 'r', 'o', 'f', 'i', 'l', 'e', 'H', 'o', 'l', 'l', 'o', 'w']])]

theorem w112 : Checked t112 := ⟨b112, by kernel_rfl, by kernel_rfl, by kernel_rfl⟩

/-- Lines of `message_template.msg` up to the end of `ObjectExtraParams`. -/
def c113 : List (List Char) :=
  [chars! "",
   chars! "{",
   chars! "\tObjectExtraParams Low 99 NotTrusted Zerocoded",
   chars! "\t{",
   chars! "\t\tAgentData\t\tSingle",
   chars! "\t\t{\tAgentID\t\tLLUUID\t}",
   chars! "\t\t{\tSessionID\tLLUUID\t}",
   chars! "\t}",
   chars! "\t{",
   chars! "\t\tObjectData\t\t\tVariable",
   chars! "\t\t{\tObjectLocalID\tU32\t\t\t\t}",
   chars! "\t\t{\tParamType\t\tU16\t\t\t\t}",
   chars! "\t\t{\tParamInUse\t\tBOOL\t\t\t}",
   chars! "\t\t{\tParamSize\t\tU32\t\t\t\t}",
   chars! "\t\t{\tParamData\t\tVariable\t1\t}",
   chars! "\t}",
   chars! "}"]

/-- `ObjectExtraParams` as the parser creates it. -/
def r113 : RawTemplate :=
  ⟨"ObjectExtraParams", .low, 99, [255, 255, 99], some .notTrusted, some .zerocoded, some .notDeprecated,
    [⟨"ObjectData", .variable, 0, [⟨"ParamData", some .variable, some 1⟩, ⟨"ParamSize", some .u32, some 4⟩, ⟨"ParamInUse", some .bool, some 1⟩, ⟨"ParamType", some .u16, some 2⟩, ⟨"ObjectLocalID", some .u32, some 4⟩]⟩,
     ⟨"AgentData", .single, 0, [⟨"SessionID", some .uuid, some 16⟩, ⟨"AgentID", some .uuid, some 16⟩]⟩]⟩

/-- `ObjectExtraParams` in file order. -/
def t113 : Template :=
  ⟨"ObjectExtraParams", .low, 99, [], some .notTrusted, some .zerocoded, some .notDeprecated,
    [⟨"AgentData", .single, 0, [⟨"AgentID", .uuid, 16⟩, ⟨"SessionID", .uuid, 16⟩]⟩,
     ⟨"ObjectData", .variable, 0, [⟨"ObjectLocalID", .u32, 4⟩, ⟨"ParamType", .u16, 2⟩, ⟨"ParamInUse", .bool, 1⟩, ⟨"ParamSize", .u32, 4⟩, ⟨"ParamData", .variable, 1⟩]⟩]⟩

theorem p113 : ChunkOk c113 r113 := by intro v older; kernel_rfl
theorem k113 : r113.known = some t113 := by kernel_rfl
theorem n113 : t113.name = String.ofList ['O', 'b', 'j', 'e', 'c', 't', 'E', 'x', 't', 'r', 'a', 'P', 'a', 'r', 'a', 'm', 's'] := by kernel_rfl

/-- The names of the blocks and variables of `ObjectExtraParams`. -/
def b113 : List (List Char × List (List Char)) :=
  [(['A', 'g', 'e', 'n', 't', 'D', 'a', 't', 'a'], [['A', 'g', 'e', 'n', 't', 'I', 'D'], ['S', 'e', 's', 's', 'i', 'o', 'n', 'I', 'D']]),
   (['O', 'b', 'j', 'e', 'c', 't', 'D', 'a', 't', 'a'], [['O', 'b', 'j', 'e', 'c', 't', 'L', 'o', 'c', 'a', 'l', 'I', 'D'], ['P', 'a', 'r', 'a', 'm', 'T', 'y', 'p', 'e'], ['P', 'a', 'r', 'a', 'm', 'I', 'n', 'U', 's', 'e'], ['P', 'a', 'r', 'a', 'm', 'S', 'i', 'z', 'e'], ['P', 'a', 'r', 'a', 'm', 'D', 'a', 't', 'a']])]

theorem w113 : Checked t113 := ⟨b113, by kernel_rfl, by kernel_rfl, by kernel_rfl⟩

/-- Lines of `message_template.msg` up to the end of `ObjectOwner`. -/
def c114 : List (List Char) :=
  [chars! "",
   chars! "",
   chars! "// ObjectOwner",
   chars! "// To make public, set OwnerID to LLUUID::null.",
   chars! "// TODO: Eliminate god-bit. Maybe not. God-bit is ok, because it's",
   chars! "// known on the server.",
   chars! "{",
   chars! "\tObjectOwner Low 100 NotTrusted Zerocoded",
   chars! "\t{",
   chars! "\t\tAgentData\t\tSingle",
   chars! "\t\t{\tAgentID\t\tLLUUID\t}",
   chars! "\t\t{\tSessionID\tLLUUID\t}",
   chars! "\t}",
   chars! "\t{",
   chars! "\t\tHeaderData\t\tSingle",
   chars! "\t\t{\tOverride\tBOOL\t}\t// BOOL, God-bit.",
   chars! "\t\t{\tOwnerID\t\tLLUUID\t}",
   chars! "\t\t{\tGroupID\t\tLLUUID\t}",
   chars! "\t}",
   chars! "\t{",
   chars! "\t\tObjectData\tVariable",
   chars! "\t\t{\tObjectLocalID\tU32\t}",
   chars! "\t}",
   chars! "}"]

/-- `ObjectOwner` as the parser creates it. -/
def r114 : RawTemplate :=
  ⟨"ObjectOwner", .low, 100, [255, 255, 100], some .notTrusted, some .zerocoded, some .notDeprecated,
    [⟨"ObjectData", .variable, 0, [⟨"ObjectLocalID", some .u32, some 4⟩]⟩,
     ⟨"HeaderData", .single, 0, [⟨"GroupID", some .uuid, some 16⟩, ⟨"OwnerID", some .uuid, some 16⟩, ⟨"Override", some .bool, some 1⟩]⟩,
     ⟨"AgentData", .single, 0, [⟨"SessionID", some .uuid, some 16⟩, ⟨"AgentID", some .uuid, some 16⟩]⟩]⟩

/-- `ObjectOwner` in file order. -/
def t114 : Template :=
  ⟨"ObjectOwner", .low, 100, [], some .notTrusted, some .zerocoded, some .notDeprecated,
    [⟨"AgentData", .single, 0, [⟨"AgentID", .uuid, 16⟩, ⟨"SessionID", .uuid, 16⟩]⟩,
     ⟨"HeaderData", .single, 0, [⟨"Override", .bool, 1⟩, ⟨"OwnerID", .uuid, 16⟩, ⟨"GroupID", .uuid, 16⟩]⟩,
     ⟨"ObjectData", .variable, 0, [⟨"ObjectLocalID", .u32, 4⟩]⟩]⟩

theorem p114 : ChunkOk c114 r114 := by intro v older; kernel_rfl
theorem k114 : r114.known = some t114 := by kernel_rfl
theorem n114 : t114.name = String.ofList ['O', 'b', 'j', 'e', 'c', 't', 'O', 'w', 'n', 'e', 'r'] := by kernel_rfl

/-- The names of the blocks and variables of `ObjectOwner`. -/
def b114 : List (List Char × List (List Char)) :=
  [(['A', 'g', 'e', 'n', 't', 'D', 'a', 't', 'a'], [['A', 'g', 'e', 'n', 't', 'I', 'D'], ['S', 'e', 's', 's', 'i', 'o', 'n', 'I', 'D']]),
   (['H', 'e', 'a', 'd', 'e', 'r', 'D', 'a', 't', 'a'], [['O', 'v', 'e', 'r', 'r', 'i', 'd', 'e'], ['O', 'w', 'n', 'e', 'r', 'I', 'D'], ['G', 'r', 'o', 'u', 'p', 'I', 'D']]),
   (['O', 'b', 'j', 'e', 'c', 't', 'D', 'a', 't', 'a'], [['O', 'b', 'j', 'e', 'c', 't', 'L', 'o', 'c', 'a', 'l', 'I', 'D']])]

theorem w114 : Checked t114 := ⟨b114, by kernel_rfl, by kernel_rfl, by kernel_rfl⟩

/-- Lines of `message_template.msg` up to the end of `ObjectGroup`. -/
def c115 : List (List Char) :=
  [chars! "",
   chars! "// ObjectGroup",
   chars! "// To make the object part of no group, set GroupID = LLUUID::null.",
   chars! "// This call only works if objectid.ownerid == agentid.",
   chars! "{",
   chars! "\tObjectGroup\tLow\t101 NotTrusted Zerocoded",
   chars! "\t{",
   chars! "\t\tAgentData\tSingle",
   chars! "\t\t{\tAgentID\t\tLLUUID\t}",
   chars! "\t\t{\tSessionID\tLLUUID\t}",
   chars! "\t\t{\tGroupID\t\tLLUUID\t}",
   chars! "\t}",
   chars! "\t{",
   chars! "\t\tObjectData\tVariable",
   chars! "\t\t{\tObjectLocalID\tU32\t}",
   chars! "\t}",
   chars! "}"]

/-- `ObjectGroup` as the parser creates it. -/
def r115 : RawTemplate :=
  ⟨"ObjectGroup", .low, 101, [255, 255, 101], some .notTrusted, some .zerocoded, some .notDeprecated,
    [⟨"ObjectData", .variable, 0, [⟨"ObjectLocalID", some .u32, some 4⟩]⟩,
     ⟨"AgentData", .single, 0, [⟨"GroupID", some .uuid, some 16⟩, ⟨"SessionID", some .uuid, some 16⟩, ⟨"AgentID", some .uuid, some 16⟩]⟩]⟩

/-- `ObjectGroup` in file order. -/
def t115 : Template :=
  ⟨"ObjectGroup", .low, 101, [], some .notTrusted, some .zerocoded, some .notDeprecated,
    [⟨"AgentData", .single, 0, [⟨"AgentID", .uuid, 16⟩, ⟨"SessionID", .uuid, 16⟩, ⟨"GroupID", .uuid, 16⟩]⟩,
     ⟨"ObjectData", .variable, 0, [⟨"ObjectLocalID", .u32, 4⟩]⟩]⟩

theorem p115 : ChunkOk c115 r115 := by intro v older; kernel_rfl
theorem k115 : r115.known = some t115 := by kernel_rfl
theorem n115 : t115.name = String.ofList ['O', 'b', 'j', 'e', 'c', 't', 'G', 'r', 'o', 'u', 'p'] := by kernel_rfl

/-- The names of the blocks and variables of `ObjectGroup`. -/
def b115 : List (List Char × List (List Char)) :=
  [(['A', 'g', 'e', 'n', 't', 'D', 'a', 't', 'a'], [['A', 'g', 'e', 'n', 't', 'I', 'D'], ['S', 'e', 's', 's', 'i', 'o', 'n', 'I', 'D'], ['G', 'r', 'o', 'u', 'p', 'I', 'D']]),
   (['O', 'b', 'j', 'e', 'c', 't', 'D', 'a', 't', 'a'], [['O', 'b', 'j', 'e', 'c', 't', 'L', 'o', 'c', 'a', 'l', 'I', 'D']])]

theorem w115 : Checked t115 := ⟨b115, by kernel_rfl, by kernel_rfl, by kernel_rfl⟩

/-- Lines of `message_template.msg` up to the end of `ObjectBuy`. -/
def c116 : List (List Char) :=
  [chars! "",
   chars! "// Attempt to buy an object. This will only pack root objects.",
   chars! "{",
   chars! "\tObjectBuy Low 102 NotTrusted Zerocoded",
   chars! "\t{",
   chars! "\t\tAgentData\t\tSingle",
   chars! "\t\t{\tAgentID\t\tLLUUID\t}",
   chars! "\t\t{\tSessionID\tLLUUID\t}",
   chars! "\t\t{\tGroupID\t\tLLUUID\t}",
   chars! "\t\t{\tCategoryID\tLLUUID\t}\t// folder where it goes (if derezed)",
   chars! "\t}",
   chars! "\t{",
   chars! "\t\tObjectData\t\tVariable",
   chars! "\t\t{\tObjectLocalID\tU32\t}",
   chars! "\t\t{\tSaleType\t\tU8\t}   // U8 -> EForSale",
   chars! "\t\t{\tSalePrice\t\tS32\t}",
   chars! "\t}",
   chars! "}"]

/-- `ObjectBuy` as the parser creates it. -/
def r116 : RawTemplate :=
  ⟨"ObjectBuy", .low, 102, [255, 255, 102], some .notTrusted, some .zerocoded, some .notDeprecated,
    [⟨"ObjectData", .variable, 0, [⟨"SalePrice", some .s32, some 4⟩, ⟨"SaleType", some .u8, some 1⟩, ⟨"ObjectLocalID", some .u32, some 4⟩]⟩,
     ⟨"AgentData", .single, 0, [⟨"CategoryID", some .uuid, some 16⟩, ⟨"GroupID", some .uuid, some 16⟩, ⟨"SessionID", some .uuid, some 16⟩, ⟨"AgentID", some .uuid, some 16⟩]⟩]⟩

/-- `ObjectBuy` in file order. -/
def t116 : Template :=
  ⟨"ObjectBuy", .low, 102, [], some .notTrusted, some .zerocoded, some .notDeprecated,
    [⟨"AgentData", .single, 0, [⟨"AgentID", .uuid, 16⟩, ⟨"SessionID", .uuid, 16⟩, ⟨"GroupID", .uuid, 16⟩, ⟨"CategoryID", .uuid, 16⟩]⟩,
     ⟨"ObjectData", .variable, 0, [⟨"ObjectLocalID", .u32, 4⟩, ⟨"SaleType", .u8, 1⟩, ⟨"SalePrice", .s32, 4⟩]⟩]⟩

theorem p116 : ChunkOk c116 r116 := by intro v older; kernel_rfl
theorem k116 : r116.known = some t116 := by kernel_rfl
theorem n116 : t116.name = String.ofList ['O', 'b', 'j', 'e', 'c', 't', 'B', 'u', 'y'] := by kernel_rfl

/-- The names of the blocks and variables of `ObjectBuy`. -/
def b116 : List (List Char × List (List Char)) :=
  [(['A', 'g', 'e', 'n', 't', 'D', 'a', 't', 'a'], [['A', 'g', 'e', 'n', 't', 'I', 'D'], ['S', 'e', 's', 's', 'i', 'o', 'n', 'I', 'D'], ['G', 'r', 'o', 'u', 'p', 'I', 'D'], ['C', 'a', 't', 'e', 'g', 'o', 'r', 'y', 'I', 'D']]),
   (['O', 'b', 'j', 'e', 'c', 't', 'D', 'a', 't', 'a'], [['O', 'b', 'j', 'e', 'c', 't', 'L', 'o', 'c', 'a', 'l', 'I', 'D'], ['S', 'a', 'l', 'e', 'T', 'y', 'p', 'e'], ['S', 'a', 'l', 'e', 'P', 'r', 'i', 'c', 'e']])]

theorem w116 : Checked t116 := ⟨b116, by kernel_rfl, by kernel_rfl, by kernel_rfl⟩

/-- Lines of `message_template.msg` up to the end of `BuyObjectInventory`. -/
def c117 : List (List Char) :=
  [chars! "",
   chars! "// viewer -> simulator",
   chars! "",
   chars! "// buy object inventory. If the transaction succeeds, it will add",
   chars! "// inventory to the agent, and potentially remove the original.",
   chars! "{",
   chars! "\tBuyObjectInventory\tLow\t103 NotTrusted Zerocoded",
   chars! "\t{",
   chars! "\t\tAgentData\t\tSingle",
   chars! "\t\t{\tAgentID\t\tLLUUID\t}",
   chars! "\t\t{\tSessionID\tLLUUID\t}",
   chars! "\t}",
   chars! "\t{",
   chars! "\t\tData\tSingle",
   chars! "\t\t{\tObjectID\tLLUUID\t}",
   chars! "\t\t{\tItemID\t\tLLUUID\t}",
   chars! "\t\t{\tFolderID\tLLUUID\t}",
   chars! "\t}",
   chars! "}"]

/-- `BuyObjectInventory` as the parser creates it. -/
def r117 : RawTemplate :=
  ⟨"BuyObjectInventory", .low, 103, [255, 255, 103], some .notTrusted, some .zerocoded, some .notDeprecated,
    [⟨"Data", .single, 0, [⟨"FolderID", some .uuid, some 16⟩, ⟨"ItemID", some .uuid, some 16⟩, ⟨"ObjectID", some .uuid, some 16⟩]⟩,
     ⟨"AgentData", .single, 0, [⟨"SessionID", some .uuid, some 16⟩, ⟨"AgentID", some .uuid, some 16⟩]⟩]⟩

/-- `BuyObjectInventory` in file order. -/
def t117 : Template :=
  ⟨"BuyObjectInventory", .low, 103, [], some .notTrusted, some .zerocoded, some .notDeprecated,
    [⟨"AgentData", .single, 0, [⟨"AgentID", .uuid, 16⟩, ⟨"SessionID", .uuid, 16⟩]⟩,
     ⟨"Data", .single, 0, [⟨"ObjectID", .uuid, 16⟩, ⟨"ItemID", .uuid, 16⟩, ⟨"FolderID", .uuid, 16⟩]⟩]⟩

theorem p117 : ChunkOk c117 r117 := by intro v older; kernel_rfl
theorem k117 : r117.known = some t117 := by kernel_rfl
theorem n117 : t117.name = String.ofList ['B', 'u', 'y', 'O', 'b', 'j', 'e', 'c', 't', 'I', 'n', 'v', 'e', 'n', 't', 'o', 'r', 'y'] := by kernel_rfl

/-- The names of the blocks and variables of `BuyObjectInventory`. -/
def b117 : List (List Char × List (List Char)) :=
  [(['A', 'g', 'e', 'n', 't', 'D', 'a', 't', 'a'], [['A', 'g', 'e', 'n', 't', 'I', 'D'], ['S', 'e', 's', 's', 'i', 'o', 'n', 'I', 'D']]),
   (['D', 'a', 't', 'a'], [['O', 'b', 'j', 'e', 'c', 't', 'I', 'D'], ['I', 't', 'e', 'm', 'I', 'D'], ['F', 'o', 'l', 'd', 'e', 'r', 'I', 'D']])]

theorem w117 : Checked t117 := ⟨b117, by kernel_rfl, by kernel_rfl, by kernel_rfl⟩

/-- Lines of `message_template.msg` up to the end of `DerezContainer`. -/
def c118 : List (List Char) :=
  [chars! "",
   chars! "// sim -> viewer",
   chars! "// Used to propperly handle buying asset containers",
   chars! "{",
   chars! "\tDerezContainer\t\tLow\t104 \tTrusted Zerocoded",
   chars! "\t{",
   chars! "\t\tData\t\t\tSingle",
   chars! "\t\t{\tObjectID\tLLUUID\t}",
   chars! "\t\t{\tDelete\t\tBOOL\t}  // BOOL",
   chars! "\t}",
   chars! "}"]

/-- `DerezContainer` as the parser creates it. -/
def r118 : RawTemplate :=
  ⟨"DerezContainer", .low, 104, [255, 255, 104], some .trusted, some .zerocoded, some .notDeprecated,
    [⟨"Data", .single, 0, [⟨"Delete", some .bool, some 1⟩, ⟨"ObjectID", some .uuid, some 16⟩]⟩]⟩

/-- `DerezContainer` in file order. -/
def t118 : Template :=
  ⟨"DerezContainer", .low, 104, [], some .trusted, some .zerocoded, some .notDeprecated,
    [⟨"Data", .single, 0, [⟨"ObjectID", .uuid, 16⟩, ⟨"Delete", .bool, 1⟩]⟩]⟩

theorem p118 : ChunkOk c118 r118 := by intro v older; kernel_rfl
theorem k118 : r118.known = some t118 := by kernel_rfl
theorem n118 : t118.name = String.ofList ['D', 'e', 'r', 'e', 'z', 'C', 'o', 'n', 't', 'a', 'i', 'n', 'e', 'r'] := by kernel_rfl

/-- The names of the blocks and variables of `DerezContainer`. -/
def b118 : List (List Char × List (List Char)) :=
  [(['D', 'a', 't', 'a'], [['O', 'b', 'j', 'e', 'c', 't', 'I', 'D'], ['D', 'e', 'l', 'e', 't', 'e']])]

theorem w118 : Checked t118 := ⟨b118, by kernel_rfl, by kernel_rfl, by kernel_rfl⟩

/-- Lines of `message_template.msg` up to the end of `ObjectPermissions`. -/
def c119 : List (List Char) :=
  [chars! "",
   chars! "// ObjectPermissions",
   chars! "// Field - see llpermissionsflags.h",
   chars! "// If Set is true, tries to turn on bits in mask.",
   chars! "// If set is false, tries to turn off bits in mask.",
   chars! "// BUG: This just forces the permissions field.",
   chars! "{",
   chars! "\tObjectPermissions Low 105 NotTrusted Zerocoded",
   chars! "\t{",
   chars! "\t\tAgentData\t\tSingle",
   chars! "\t\t{\tAgentID\t\tLLUUID\t}",
   chars! "\t\t{\tSessionID\tLLUUID\t}",
   chars! "\t}",
   chars! "\t{",
   chars! "\t\tHeaderData\t\tSingle",
   chars! "\t\t{\tOverride\tBOOL\t}\t// BOOL, God-bit.",
   chars! "\t}",
   chars! "\t{",
   chars! "\t\tObjectData\tVariable",
   chars! "\t\t{\tObjectLocalID\tU32\t}",
   chars! "\t\t{\tField\t\tU8\t}",
   chars! "\t\t{\tSet\t\t\tU8\t}",
   chars! "\t\t{\tMask\t\tU32\t}",
   chars! "\t}",
   chars! "}"]

/-- `ObjectPermissions` as the parser creates it. -/
def r119 : RawTemplate :=
  ⟨"ObjectPermissions", .low, 105, [255, 255, 105], some .notTrusted, some .zerocoded, some .notDeprecated,
    [⟨"ObjectData", .variable, 0, [⟨"Mask", some .u32, some 4⟩, ⟨"Set", some .u8, some 1⟩, ⟨"Field", some .u8, some 1⟩, ⟨"ObjectLocalID", some .u32, some 4⟩]⟩,
     ⟨"HeaderData", .single, 0, [⟨"Override", some .bool, some 1⟩]⟩,
     ⟨"AgentData", .single, 0, [⟨"SessionID", some .uuid, some 16⟩, ⟨"AgentID", some .uuid, some 16⟩]⟩]⟩

/-- `ObjectPermissions` in file order. -/
def t119 : Template :=
  ⟨"ObjectPermissions", .low, 105, [], some .notTrusted, some .zerocoded, some .notDeprecated,
    [⟨"AgentData", .single, 0, [⟨"AgentID", .uuid, 16⟩, ⟨"SessionID", .uuid, 16⟩]⟩,
     ⟨"HeaderData", .single, 0, [⟨"Override", .bool, 1⟩]⟩,
     ⟨"ObjectData", .variable, 0, [⟨"ObjectLocalID", .u32, 4⟩, ⟨"Field", .u8, 1⟩, ⟨"Set", .u8, 1⟩, ⟨"Mask", .u32, 4⟩]⟩]⟩

theorem p119 : ChunkOk c119 r119 := by intro v older; kernel_rfl
theorem k119 : r119.known = some t119 := by kernel_rfl
theorem n119 : t119.name = String.ofList ['O', 'b', 'j', 'e', 'c', 't', 'P', 'e', 'r', 'm', 'i', 's', 's', 'i', 'o', 'n', 's'] := by kernel_rfl

/-- The names of the blocks and variables of `ObjectPermissions`. -/
def b119 : List (List Char × List (List Char)) :=
  [(['A', 'g', 'e', 'n', 't', 'D', 'a', 't', 'a'], [['A', 'g', 'e', 'n', 't', 'I', 'D'], ['S', 'e', 's', 's', 'i', 'o', 'n', 'I', 'D']]),
   (['H', 'e', 'a', 'd', 'e', 'r', 'D', 'a', 't', 'a'], [['O', 'v', 'e', 'r', 'r', 'i', 'd', 'e']]),
   (['O', 'b', 'j', 'e', 'c', 't', 'D', 'a', 't', 'a'], [['O', 'b', 'j', 'e', 'c', 't', 'L', 'o', 'c', 'a', 'l', 'I', 'D'], ['F', 'i', 'e', 'l', 'd'], ['S', 'e', 't'], ['M', 'a', 's', 'k']])]

theorem w119 : Checked t119 := ⟨b119, by kernel_rfl, by kernel_rfl, by kernel_rfl⟩

/-- Part 2 of the file. -/
def lines2 : List (List (List Char)) := [c60, c61, c62, c63, c64, c65, c66, c67, c68, c69, c70, c71, c72, c73, c74, c75, c76, c77, c78, c79, c80, c81, c82, c83, c84, c85, c86, c87, c88, c89, c90, c91, c92, c93, c94, c95, c96, c97, c98, c99, c100, c101, c102, c103, c104, c105, c106, c107, c108, c109, c110, c111, c112, c113, c114, c115, c116, c117, c118, c119]

/-- Part 2 of the templates, as parsed. -/
def raws2 : List RawTemplate := [r60, r61, r62, r63, r64, r65, r66, r67, r68, r69, r70, r71, r72, r73, r74, r75, r76, r77, r78, r79, r80, r81, r82, r83, r84, r85, r86, r87, r88, r89, r90, r91, r92, r93, r94, r95, r96, r97, r98, r99, r100, r101, r102, r103, r104, r105, r106, r107, r108, r109, r110, r111, r112, r113, r114, r115, r116, r117, r118, r119]

/-- Part 2 of the templates. -/
def templates2 : List Template := [t60, t61, t62, t63, t64, t65, t66, t67, t68, t69, t70, t71, t72, t73, t74, t75, t76, t77, t78, t79, t80, t81, t82, t83, t84, t85, t86, t87, t88, t89, t90, t91, t92, t93, t94, t95, t96, t97, t98, t99, t100, t101, t102, t103, t104, t105, t106, t107, t108, t109, t110, t111, t112, t113, t114, t115, t116, t117, t118, t119]

/-- The names in part 2. -/
def names2 : List (List Char) :=
  [['P', 'a', 'r', 'c', 'e', 'l', 'I', 'n', 'f', 'o', 'R', 'e', 'p', 'l', 'y'],
   ['P', 'a', 'r', 'c', 'e', 'l', 'O', 'b', 'j', 'e', 'c', 't', 'O', 'w', 'n', 'e', 'r', 's', 'R', 'e', 'q', 'u', 'e', 's', 't'],
   ['P', 'a', 'r', 'c', 'e', 'l', 'O', 'b', 'j', 'e', 'c', 't', 'O', 'w', 'n', 'e', 'r', 's', 'R', 'e', 'p', 'l', 'y'],
   ['G', 'r', 'o', 'u', 'p', 'N', 'o', 't', 'i', 'c', 'e', 's', 'L', 'i', 's', 't', 'R', 'e', 'q', 'u', 'e', 's', 't'],
   ['G', 'r', 'o', 'u', 'p', 'N', 'o', 't', 'i', 'c', 'e', 's', 'L', 'i', 's', 't', 'R', 'e', 'p', 'l', 'y'],
   ['G', 'r', 'o', 'u', 'p', 'N', 'o', 't', 'i', 'c', 'e', 'R', 'e', 'q', 'u', 'e', 's', 't'],
   ['G', 'r', 'o', 'u', 'p', 'N', 'o', 't', 'i', 'c', 'e', 'A', 'd', 'd'],
   ['T', 'e', 'l', 'e', 'p', 'o', 'r', 't', 'R', 'e', 'q', 'u', 'e', 's', 't'],
   ['T', 'e', 'l', 'e', 'p', 'o', 'r', 't', 'L', 'o', 'c', 'a', 't', 'i', 'o', 'n', 'R', 'e', 'q', 'u', 'e', 's', 't'],
   ['T', 'e', 'l', 'e', 'p', 'o', 'r', 't', 'L', 'o', 'c', 'a', 'l'],
   ['T', 'e', 'l', 'e', 'p', 'o', 'r', 't', 'L', 'a', 'n', 'd', 'm', 'a', 'r', 'k', 'R', 'e', 'q', 'u', 'e', 's', 't'],
   ['T', 'e', 'l', 'e', 'p', 'o', 'r', 't', 'P', 'r', 'o', 'g', 'r', 'e', 's', 's'],
   ['D', 'a', 't', 'a', 'H', 'o', 'm', 'e', 'L', 'o', 'c', 'a', 't', 'i', 'o', 'n', 'R', 'e', 'q', 'u', 'e', 's', 't'],
   ['D', 'a', 't', 'a', 'H', 'o', 'm', 'e', 'L', 'o', 'c', 'a', 't', 'i', 'o', 'n', 'R', 'e', 'p', 'l', 'y'],
   ['T', 'e', 'l', 'e', 'p', 'o', 'r', 't', 'F', 'i', 'n', 'i', 's', 'h'],
   ['S', 't', 'a', 'r', 't', 'L', 'u', 'r', 'e'],
   ['T', 'e', 'l', 'e', 'p', 'o', 'r', 't', 'L', 'u', 'r', 'e', 'R', 'e', 'q', 'u', 'e', 's', 't'],
   ['T', 'e', 'l', 'e', 'p', 'o', 'r', 't', 'C', 'a', 'n', 'c', 'e', 'l'],
   ['T', 'e', 'l', 'e', 'p', 'o', 'r', 't', 'S', 't', 'a', 'r', 't'],
   ['T', 'e', 'l', 'e', 'p', 'o', 'r', 't', 'F', 'a', 'i', 'l', 'e', 'd'],
   ['U', 'n', 'd', 'o'],
   ['R', 'e', 'd', 'o'],
   ['U', 'n', 'd', 'o', 'L', 'a', 'n', 'd'],
   ['A', 'g', 'e', 'n', 't', 'P', 'a', 'u', 's', 'e'],
   ['A', 'g', 'e', 'n', 't', 'R', 'e', 's', 'u', 'm', 'e'],
   ['A', 'g', 'e', 'n', 't', 'U', 'p', 'd', 'a', 't', 'e'],
   ['C', 'h', 'a', 't', 'F', 'r', 'o', 'm', 'V', 'i', 'e', 'w', 'e', 'r'],
   ['A', 'g', 'e', 'n', 't', 'T', 'h', 'r', 'o', 't', 't', 'l', 'e'],
   ['A', 'g', 'e', 'n', 't', 'F', 'O', 'V'],
   ['A', 'g', 'e', 'n', 't', 'H', 'e', 'i', 'g', 'h', 't', 'W', 'i', 'd', 't', 'h'],
   ['A', 'g', 'e', 'n', 't', 'S', 'e', 't', 'A', 'p', 'p', 'e', 'a', 'r', 'a', 'n', 'c', 'e'],
   ['A', 'g', 'e', 'n', 't', 'A', 'n', 'i', 'm', 'a', 't', 'i', 'o', 'n'],
   ['A', 'g', 'e', 'n', 't', 'R', 'e', 'q', 'u', 'e', 's', 't', 'S', 'i', 't'],
   ['A', 'g', 'e', 'n', 't', 'S', 'i', 't'],
   ['A', 'g', 'e', 'n', 't', 'Q', 'u', 'i', 't', 'C', 'o', 'p', 'y'],
   ['R', 'e', 'q', 'u', 'e', 's', 't', 'I', 'm', 'a', 'g', 'e'],
   ['I', 'm', 'a', 'g', 'e', 'N', 'o', 't', 'I', 'n', 'D', 'a', 't', 'a', 'b', 'a', 's', 'e'],
   ['R', 'e', 'b', 'a', 'k', 'e', 'A', 'v', 'a', 't', 'a', 'r', 'T', 'e', 'x', 't', 'u', 'r', 'e', 's'],
   ['S', 'e', 't', 'A', 'l', 'w', 'a', 'y', 's', 'R', 'u', 'n'],
   ['O', 'b', 'j', 'e', 'c', 't', 'A', 'd', 'd'],
   ['O', 'b', 'j', 'e', 'c', 't', 'D', 'e', 'l', 'e', 't', 'e'],
   ['O', 'b', 'j', 'e', 'c', 't', 'D', 'u', 'p', 'l', 'i', 'c', 'a', 't', 'e'],
   ['O', 'b', 'j', 'e', 'c', 't', 'D', 'u', 'p', 'l', 'i', 'c', 'a', 't', 'e', 'O', 'n', 'R', 'a', 'y'],
   ['M', 'u', 'l', 't', 'i', 'p', 'l', 'e', 'O', 'b', 'j', 'e', 'c', 't', 'U', 'p', 'd', 'a', 't', 'e'],
   ['R', 'e', 'q', 'u', 'e', 's', 't', 'M', 'u', 'l', 't', 'i', 'p', 'l', 'e', 'O', 'b', 'j', 'e', 'c', 't', 's'],
   ['O', 'b', 'j', 'e', 'c', 't', 'P', 'o', 's', 'i', 't', 'i', 'o', 'n'],
   ['O', 'b', 'j', 'e', 'c', 't', 'S', 'c', 'a', 'l', 'e'],
   ['O', 'b', 'j', 'e', 'c', 't', 'R', 'o', 't', 'a', 't', 'i', 'o', 'n'],
   ['O', 'b', 'j', 'e', 'c', 't', 'F', 'l', 'a', 'g', 'U', 'p', 'd', 'a', 't', 'e'],
   ['O', 'b', 'j', 'e', 'c', 't', 'C', 'l', 'i', 'c', 'k', 'A', 'c', 't', 'i', 'o', 'n'],
   ['O', 'b', 'j', 'e', 'c', 't', 'I', 'm', 'a', 'g', 'e'],
   ['O', 'b', 'j', 'e', 'c', 't', 'M', 'a', 't', 'e', 'r', 'i', 'a', 'l'],
   ['O', 'b', 'j', 'e', 'c', 't', 'S', 'h', 'a', 'p', 'e'],
   ['O', 'b', 'j', 'e', 'c', 't', 'E', 'x', 't', 'r', 'a', 'P', 'a', 'r', 'a', 'm', 's'],
   ['O', 'b', 'j', 'e', 'c', 't', 'O', 'w', 'n', 'e', 'r'],
   ['O', 'b', 'j', 'e', 'c', 't', 'G', 'r', 'o', 'u', 'p'],
   ['O', 'b', 'j', 'e', 'c', 't', 'B', 'u', 'y'],
   ['B', 'u', 'y', 'O', 'b', 'j', 'e', 'c', 't', 'I', 'n', 'v', 'e', 'n', 't', 'o', 'r', 'y'],
   ['D', 'e', 'r', 'e', 'z', 'C', 'o', 'n', 't', 'a', 'i', 'n', 'e', 'r'],
   ['O', 'b', 'j', 'e', 'c', 't', 'P', 'e', 'r', 'm', 'i', 's', 's', 'i', 'o', 'n', 's']]

theorem parsed2 : List.Forall₂ ChunkOk lines2 raws2 :=
  (.cons p60 (.cons p61 (.cons p62 (.cons p63 (.cons p64 (.cons p65 (.cons p66 (.cons p67 (.cons p68 (.cons p69 (.cons p70 (.cons p71 (.cons p72 (.cons p73 (.cons p74 (.cons p75 (.cons p76 (.cons p77 (.cons p78 (.cons p79 (.cons p80 (.cons p81 (.cons p82 (.cons p83 (.cons p84 (.cons p85 (.cons p86 (.cons p87 (.cons p88 (.cons p89 (.cons p90 (.cons p91 (.cons p92 (.cons p93 (.cons p94 (.cons p95 (.cons p96 (.cons p97 (.cons p98 (.cons p99 (.cons p100 (.cons p101 (.cons p102 (.cons p103 (.cons p104 (.cons p105 (.cons p106 (.cons p107 (.cons p108 (.cons p109 (.cons p110 (.cons p111 (.cons p112 (.cons p113 (.cons p114 (.cons p115 (.cons p116 (.cons p117 (.cons p118 (.cons p119 .nil))))))))))))))))))))))))))))))))))))))))))))))))))))))))))))

theorem known2 : List.Forall₂ (fun r t => RawTemplate.known r = some t) raws2 templates2 :=
  (.cons k60 (.cons k61 (.cons k62 (.cons k63 (.cons k64 (.cons k65 (.cons k66 (.cons k67 (.cons k68 (.cons k69 (.cons k70 (.cons k71 (.cons k72 (.cons k73 (.cons k74 (.cons k75 (.cons k76 (.cons k77 (.cons k78 (.cons k79 (.cons k80 (.cons k81 (.cons k82 (.cons k83 (.cons k84 (.cons k85 (.cons k86 (.cons k87 (.cons k88 (.cons k89 (.cons k90 (.cons k91 (.cons k92 (.cons k93 (.cons k94 (.cons k95 (.cons k96 (.cons k97 (.cons k98 (.cons k99 (.cons k100 (.cons k101 (.cons k102 (.cons k103 (.cons k104 (.cons k105 (.cons k106 (.cons k107 (.cons k108 (.cons k109 (.cons k110 (.cons k111 (.cons k112 (.cons k113 (.cons k114 (.cons k115 (.cons k116 (.cons k117 (.cons k118 (.cons k119 .nil))))))))))))))))))))))))))))))))))))))))))))))))))))))))))))

theorem named2 : List.Forall₂ (fun (t : Template) w => t.name = String.ofList w) templates2 names2 :=
  (.cons n60 (.cons n61 (.cons n62 (.cons n63 (.cons n64 (.cons n65 (.cons n66 (.cons n67 (.cons n68 (.cons n69 (.cons n70 (.cons n71 (.cons n72 (.cons n73 (.cons n74 (.cons n75 (.cons n76 (.cons n77 (.cons n78 (.cons n79 (.cons n80 (.cons n81 (.cons n82 (.cons n83 (.cons n84 (.cons n85 (.cons n86 (.cons n87 (.cons n88 (.cons n89 (.cons n90 (.cons n91 (.cons n92 (.cons n93 (.cons n94 (.cons n95 (.cons n96 (.cons n97 (.cons n98 (.cons n99 (.cons n100 (.cons n101 (.cons n102 (.cons n103 (.cons n104 (.cons n105 (.cons n106 (.cons n107 (.cons n108 (.cons n109 (.cons n110 (.cons n111 (.cons n112 (.cons n113 (.cons n114 (.cons n115 (.cons n116 (.cons n117 (.cons n118 (.cons n119 .nil))))))))))))))))))))))))))))))))))))))))))))))))))))))))))))

theorem checked2 : ∀ t ∈ templates2, Checked t :=
  (List.forall_mem_cons.mpr ⟨w60, (List.forall_mem_cons.mpr ⟨w61, (List.forall_mem_cons.mpr ⟨w62, (List.forall_mem_cons.mpr ⟨w63, (List.forall_mem_cons.mpr ⟨w64, (List.forall_mem_cons.mpr ⟨w65, (List.forall_mem_cons.mpr ⟨w66, (List.forall_mem_cons.mpr ⟨w67, (List.forall_mem_cons.mpr ⟨w68, (List.forall_mem_cons.mpr ⟨w69, (List.forall_mem_cons.mpr ⟨w70, (List.forall_mem_cons.mpr ⟨w71, (List.forall_mem_cons.mpr ⟨w72, (List.forall_mem_cons.mpr ⟨w73, (List.forall_mem_cons.mpr ⟨w74, (List.forall_mem_cons.mpr ⟨w75, (List.forall_mem_cons.mpr ⟨w76, (List.forall_mem_cons.mpr ⟨w77, (List.forall_mem_cons.mpr ⟨w78, (List.forall_mem_cons.mpr ⟨w79, (List.forall_mem_cons.mpr ⟨w80, (List.forall_mem_cons.mpr ⟨w81, (List.forall_mem_cons.mpr ⟨w82, (List.forall_mem_cons.mpr ⟨w83, (List.forall_mem_cons.mpr ⟨w84, (List.forall_mem_cons.mpr ⟨w85, (List.forall_mem_cons.mpr ⟨w86, (List.forall_mem_cons.mpr ⟨w87, (List.forall_mem_cons.mpr ⟨w88, (List.forall_mem_cons.mpr ⟨w89, (List.forall_mem_cons.mpr ⟨w90, (List.forall_mem_cons.mpr ⟨w91, (List.forall_mem_cons.mpr ⟨w92, (List.forall_mem_cons.mpr ⟨w93, (List.forall_mem_cons.mpr ⟨w94, (List.forall_mem_cons.mpr ⟨w95, (List.forall_mem_cons.mpr ⟨w96, (List.forall_mem_cons.mpr ⟨w97, (List.forall_mem_cons.mpr ⟨w98, (List.forall_mem_cons.mpr ⟨w99, (List.forall_mem_cons.mpr ⟨w100, (List.forall_mem_cons.mpr ⟨w101, (List.forall_mem_cons.mpr ⟨w102, (List.forall_mem_cons.mpr ⟨w103, (List.forall_mem_cons.mpr ⟨w104, (List.forall_mem_cons.mpr ⟨w105, (List.forall_mem_cons.mpr ⟨w106, (List.forall_mem_cons.mpr ⟨w107, (List.forall_mem_cons.mpr ⟨w108, (List.forall_mem_cons.mpr ⟨w109, (List.forall_mem_cons.mpr ⟨w110, (List.forall_mem_cons.mpr ⟨w111, (List.forall_mem_cons.mpr ⟨w112, (List.forall_mem_cons.mpr ⟨w113, (List.forall_mem_cons.mpr ⟨w114, (List.forall_mem_cons.mpr ⟨w115, (List.forall_mem_cons.mpr ⟨w116, (List.forall_mem_cons.mpr ⟨w117, (List.forall_mem_cons.mpr ⟨w118, (List.forall_mem_cons.mpr ⟨w119, (List.forall_mem_nil _)⟩)⟩)⟩)⟩)⟩)⟩)⟩)⟩)⟩)⟩)⟩)⟩)⟩)⟩)⟩)⟩)⟩)⟩)⟩)⟩)⟩)⟩)⟩)⟩)⟩)⟩)⟩)⟩)⟩)⟩)⟩)⟩)⟩)⟩)⟩)⟩)⟩)⟩)⟩)⟩)⟩)⟩)⟩)⟩)⟩)⟩)⟩)⟩)⟩)⟩)⟩)⟩)⟩)⟩)⟩)⟩)⟩)⟩)⟩)⟩)

end Pyogp.Embedded
