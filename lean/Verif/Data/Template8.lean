import Verif.Data.Chars

/-! Generated by `tools/gen_template.py` from `message/data/message_template.msg`: part 8. -/

namespace Pyogp.Embedded


/-- Lines of `message_template.msg` up to the end of `GroupRoleMembersRequest`. -/
def c420 : List (List Char) :=
  [chars! "",
   chars! "// GroupRoleMembersRequest",
   chars! "// viewer -> simulator -> dataserver",
   chars! "{",
   chars! "\tGroupRoleMembersRequest Low\t373 NotTrusted\tUnencoded",
   chars! "\t{",
   chars! "\t\tAgentData\tSingle",
   chars! "\t\t{\tAgentID\t\t\tLLUUID\t\t\t}",
   chars! "\t\t{\tSessionID\tLLUUID\t}",
   chars! "\t}",
   chars! "\t{",
   chars! "\t\tGroupData\t\tSingle",
   chars! "\t\t{\tGroupID\t\tLLUUID\t}",
   chars! "\t\t{\tRequestID\tLLUUID\t}",
   chars! "\t}",
   chars! "}"]

/-- `GroupRoleMembersRequest` as the parser creates it. -/
def r420 : RawTemplate :=
  ⟨"GroupRoleMembersRequest", .low, 373, [255, 255, 117], some .notTrusted, some .unencoded, some .notDeprecated,
    [⟨"GroupData", .single, 0, [⟨"RequestID", some .uuid, some 16⟩, ⟨"GroupID", some .uuid, some 16⟩]⟩,
     ⟨"AgentData", .single, 0, [⟨"SessionID", some .uuid, some 16⟩, ⟨"AgentID", some .uuid, some 16⟩]⟩]⟩

/-- `GroupRoleMembersRequest` in file order. -/
def t420 : Template :=
  ⟨"GroupRoleMembersRequest", .low, 373, [], some .notTrusted, some .unencoded, some .notDeprecated,
    [⟨"AgentData", .single, 0, [⟨"AgentID", .uuid, 16⟩, ⟨"SessionID", .uuid, 16⟩]⟩,
     ⟨"GroupData", .single, 0, [⟨"GroupID", .uuid, 16⟩, ⟨"RequestID", .uuid, 16⟩]⟩]⟩

theorem p420 : ChunkOk c420 r420 := by intro v older; kernel_rfl
theorem k420 : r420.known = some t420 := by kernel_rfl
theorem n420 : t420.name = String.ofList ['G', 'r', 'o', 'u', 'p', 'R', 'o', 'l', 'e', 'M', 'e', 'm', 'b', 'e', 'r', 's', 'R', 'e', 'q', 'u', 'e', 's', 't'] := by kernel_rfl

/-- The names of the blocks and variables of `GroupRoleMembersRequest`. -/
def b420 : List (List Char × List (List Char)) :=
  [(['A', 'g', 'e', 'n', 't', 'D', 'a', 't', 'a'], [['A', 'g', 'e', 'n', 't', 'I', 'D'], ['S', 'e', 's', 's', 'i', 'o', 'n', 'I', 'D']]),
   (['G', 'r', 'o', 'u', 'p', 'D', 'a', 't', 'a'], [['G', 'r', 'o', 'u', 'p', 'I', 'D'], ['R', 'e', 'q', 'u', 'e', 's', 't', 'I', 'D']])]

theorem w420 : Checked t420 := ⟨b420, by kernel_rfl, by kernel_rfl, by kernel_rfl⟩

/-- Lines of `message_template.msg` up to the end of `GroupRoleMembersReply`. -/
def c421 : List (List Char) :=
  [chars! "",
   chars! "// GroupRoleMembersReply",
   chars! "// All role::member pairs for this group.",
   chars! "// dataserver -> simulator -> agent",
   chars! "{",
   chars! "\tGroupRoleMembersReply Low\t374 Trusted\tUnencoded",
   chars! "\t{",
   chars! "\t\tAgentData\tSingle",
   chars! "\t\t{\tAgentID\t\tLLUUID\t}",
   chars! "\t\t{\tGroupID\t\tLLUUID\t}",
   chars! "\t\t{\tRequestID\tLLUUID\t}",
   chars! "\t\t{\tTotalPairs\tU32\t\t}",
   chars! "\t}",
   chars! "\t{",
   chars! "\t\tMemberData\t\tVariable",
   chars! "\t\t{\tRoleID\t\tLLUUID\t}",
   chars! "\t\t{\tMemberID\tLLUUID\t}",
   chars! "\t}",
   chars! "}"]

/-- `GroupRoleMembersReply` as the parser creates it. -/
def r421 : RawTemplate :=
  ⟨"GroupRoleMembersReply", .low, 374, [255, 255, 118], some .trusted, some .unencoded, some .notDeprecated,
    [⟨"MemberData", .variable, 0, [⟨"MemberID", some .uuid, some 16⟩, ⟨"RoleID", some .uuid, some 16⟩]⟩,
     ⟨"AgentData", .single, 0, [⟨"TotalPairs", some .u32, some 4⟩, ⟨"RequestID", some .uuid, some 16⟩, ⟨"GroupID", some .uuid, some 16⟩, ⟨"AgentID", some .uuid, some 16⟩]⟩]⟩

/-- `GroupRoleMembersReply` in file order. -/
def t421 : Template :=
  ⟨"GroupRoleMembersReply", .low, 374, [], some .trusted, some .unencoded, some .notDeprecated,
    [⟨"AgentData", .single, 0, [⟨"AgentID", .uuid, 16⟩, ⟨"GroupID", .uuid, 16⟩, ⟨"RequestID", .uuid, 16⟩, ⟨"TotalPairs", .u32, 4⟩]⟩,
     ⟨"MemberData", .variable, 0, [⟨"RoleID", .uuid, 16⟩, ⟨"MemberID", .uuid, 16⟩]⟩]⟩

theorem p421 : ChunkOk c421 r421 := by intro v older; kernel_rfl
theorem k421 : r421.known = some t421 := by kernel_rfl
theorem n421 : t421.name = String.ofList ['G', 'r', 'o', 'u', 'p', 'R', 'o', 'l', 'e', 'M', 'e', 'm', 'b', 'e', 'r', 's', 'R', 'e', 'p', 'l', 'y'] := by kernel_rfl

/-- The names of the blocks and variables of `GroupRoleMembersReply`. -/
def b421 : List (List Char × List (List Char)) :=
  [(['A', 'g', 'e', 'n', 't', 'D', 'a', 't', 'a'], [['A', 'g', 'e', 'n', 't', 'I', 'D'], ['G', 'r', 'o', 'u', 'p', 'I', 'D'], ['R', 'e', 'q', 'u', 'e', 's', 't', 'I', 'D'], ['T', 'o', 't', 'a', 'l', 'P', 'a', 'i', 'r', 's']]),
   (['M', 'e', 'm', 'b', 'e', 'r', 'D', 'a', 't', 'a'], [['R', 'o', 'l', 'e', 'I', 'D'], ['M', 'e', 'm', 'b', 'e', 'r', 'I', 'D']])]

theorem w421 : Checked t421 := ⟨b421, by kernel_rfl, by kernel_rfl, by kernel_rfl⟩

/-- Lines of `message_template.msg` up to the end of `GroupTitlesRequest`. -/
def c422 : List (List Char) :=
  [chars! "",
   chars! "// GroupTitlesRequest",
   chars! "// viewer -> simulator -> dataserver",
   chars! "{",
   chars! "\tGroupTitlesRequest Low\t375 NotTrusted\tUnencoded",
   chars! "\t{",
   chars! "\t\tAgentData\tSingle",
   chars! "\t\t{\tAgentID\t\tLLUUID\t}",
   chars! "\t\t{\tSessionID\tLLUUID\t}",
   chars! "\t\t{\tGroupID\t\tLLUUID\t}",
   chars! "\t\t{\tRequestID\tLLUUID\t}",
   chars! "\t}",
   chars! "}"]

/-- `GroupTitlesRequest` as the parser creates it. -/
def r422 : RawTemplate :=
  ⟨"GroupTitlesRequest", .low, 375, [255, 255, 119], some .notTrusted, some .unencoded, some .notDeprecated,
    [⟨"AgentData", .single, 0, [⟨"RequestID", some .uuid, some 16⟩, ⟨"GroupID", some .uuid, some 16⟩, ⟨"SessionID", some .uuid, some 16⟩, ⟨"AgentID", some .uuid, some 16⟩]⟩]⟩

/-- `GroupTitlesRequest` in file order. -/
def t422 : Template :=
  ⟨"GroupTitlesRequest", .low, 375, [], some .notTrusted, some .unencoded, some .notDeprecated,
    [⟨"AgentData", .single, 0, [⟨"AgentID", .uuid, 16⟩, ⟨"SessionID", .uuid, 16⟩, ⟨"GroupID", .uuid, 16⟩, ⟨"RequestID", .uuid, 16⟩]⟩]⟩

theorem p422 : ChunkOk c422 r422 := by intro v older; kernel_rfl
theorem k422 : r422.known = some t422 := by kernel_rfl
theorem n422 : t422.name = String.ofList ['G', 'r', 'o', 'u', 'p', 'T', 'i', 't', 'l', 'e', 's', 'R', 'e', 'q', 'u', 'e', 's', 't'] := by kernel_rfl

/-- The names of the blocks and variables of `GroupTitlesRequest`. -/
def b422 : List (List Char × List (List Char)) :=
  [(['A', 'g', 'e', 'n', 't', 'D', 'a', 't', 'a'], [['A', 'g', 'e', 'n', 't', 'I', 'D'], ['S', 'e', 's', 's', 'i', 'o', 'n', 'I', 'D'], ['G', 'r', 'o', 'u', 'p', 'I', 'D'], ['R', 'e', 'q', 'u', 'e', 's', 't', 'I', 'D']])]

theorem w422 : Checked t422 := ⟨b422, by kernel_rfl, by kernel_rfl, by kernel_rfl⟩

/-- Lines of `message_template.msg` up to the end of `GroupTitlesReply`. -/
def c423 : List (List Char) :=
  [chars! "",
   chars! "",
   chars! "// GroupTitlesReply",
   chars! "// dataserver -> simulator -> viewer",
   chars! "{",
   chars! "\tGroupTitlesReply Low 376 Trusted\tZerocoded",
   chars! "\t{",
   chars! "\t\tAgentData\tSingle",
   chars! "\t\t{\tAgentID\t\tLLUUID\t}",
   chars! "\t\t{\tGroupID\t\tLLUUID\t}",
   chars! "\t\t{\tRequestID\tLLUUID\t}",
   chars! "\t}",
   chars! "\t{",
   chars! "\t\tGroupData\tVariable",
   chars! "\t\t{\tTitle\t\tVariable\t1\t} // string",
   chars! "\t\t{\tRoleID\t\tLLUUID\t\t\t}",
   chars! "\t\t{\tSelected\tBOOL\t\t\t}",
   chars! "\t}",
   chars! "}"]

/-- `GroupTitlesReply` as the parser creates it. -/
def r423 : RawTemplate :=
  ⟨"GroupTitlesReply", .low, 376, [255, 255, 120], some .trusted, some .zerocoded, some .notDeprecated,
    [⟨"GroupData", .variable, 0, [⟨"Selected", some .bool, some 1⟩, ⟨"RoleID", some .uuid, some 16⟩, ⟨"Title", some .variable, some 1⟩]⟩,
     ⟨"AgentData", .single, 0, [⟨"RequestID", some .uuid, some 16⟩, ⟨"GroupID", some .uuid, some 16⟩, ⟨"AgentID", some .uuid, some 16⟩]⟩]⟩

/-- `GroupTitlesReply` in file order. -/
def t423 : Template :=
  ⟨"GroupTitlesReply", .low, 376, [], some .trusted, some .zerocoded, some .notDeprecated,
    [⟨"AgentData", .single, 0, [⟨"AgentID", .uuid, 16⟩, ⟨"GroupID", .uuid, 16⟩, ⟨"RequestID", .uuid, 16⟩]⟩,
     ⟨"GroupData", .variable, 0, [⟨"Title", .variable, 1⟩, ⟨"RoleID", .uuid, 16⟩, ⟨"Selected", .bool, 1⟩]⟩]⟩

theorem p423 : ChunkOk c423 r423 := by intro v older; kernel_rfl
theorem k423 : r423.known = some t423 := by kernel_rfl
theorem n423 : t423.name = String.ofList ['G', 'r', 'o', 'u', 'p', 'T', 'i', 't', 'l', 'e', 's', 'R', 'e', 'p', 'l', 'y'] := by kernel_rfl

/-- The names of the blocks and variables of `GroupTitlesReply`. -/
def b423 : List (List Char × List (List Char)) :=
  [(['A', 'g', 'e', 'n', 't', 'D', 'a', 't', 'a'], [['A', 'g', 'e', 'n', 't', 'I', 'D'], ['G', 'r', 'o', 'u', 'p', 'I', 'D'], ['R', 'e', 'q', 'u', 'e', 's', 't', 'I', 'D']]),
   (['G', 'r', 'o', 'u', 'p', 'D', 'a', 't', 'a'], [['T', 'i', 't', 'l', 'e'], ['R', 'o', 'l', 'e', 'I', 'D'], ['S', 'e', 'l', 'e', 'c', 't', 'e', 'd']])]

theorem w423 : Checked t423 := ⟨b423, by kernel_rfl, by kernel_rfl, by kernel_rfl⟩

/-- Lines of `message_template.msg` up to the end of `GroupTitleUpdate`. -/
def c424 : List (List Char) :=
  [chars! "",
   chars! "// GroupTitleUpdate",
   chars! "// viewer -> simulator -> dataserver",
   chars! "{",
   chars! "\tGroupTitleUpdate\tLow\t377 NotTrusted\tUnencoded",
   chars! "\t{",
   chars! "\t\tAgentData\tSingle",
   chars! "\t\t{\tAgentID\t\tLLUUID\t}",
   chars! "\t\t{\tSessionID\tLLUUID\t}",
   chars! "\t\t{\tGroupID\t\tLLUUID\t}",
   chars! "\t\t{\tTitleRoleID\tLLUUID\t}",
   chars! "\t}",
   chars! "}"]

/-- `GroupTitleUpdate` as the parser creates it. -/
def r424 : RawTemplate :=
  ⟨"GroupTitleUpdate", .low, 377, [255, 255, 121], some .notTrusted, some .unencoded, some .notDeprecated,
    [⟨"AgentData", .single, 0, [⟨"TitleRoleID", some .uuid, some 16⟩, ⟨"GroupID", some .uuid, some 16⟩, ⟨"SessionID", some .uuid, some 16⟩, ⟨"AgentID", some .uuid, some 16⟩]⟩]⟩

/-- `GroupTitleUpdate` in file order. -/
def t424 : Template :=
  ⟨"GroupTitleUpdate", .low, 377, [], some .notTrusted, some .unencoded, some .notDeprecated,
    [⟨"AgentData", .single, 0, [⟨"AgentID", .uuid, 16⟩, ⟨"SessionID", .uuid, 16⟩, ⟨"GroupID", .uuid, 16⟩, ⟨"TitleRoleID", .uuid, 16⟩]⟩]⟩

theorem p424 : ChunkOk c424 r424 := by intro v older; kernel_rfl
theorem k424 : r424.known = some t424 := by kernel_rfl
theorem n424 : t424.name = String.ofList ['G', 'r', 'o', 'u', 'p', 'T', 'i', 't', 'l', 'e', 'U', 'p', 'd', 'a', 't', 'e'] := by kernel_rfl

/-- The names of the blocks and variables of `GroupTitleUpdate`. -/
def b424 : List (List Char × List (List Char)) :=
  [(['A', 'g', 'e', 'n', 't', 'D', 'a', 't', 'a'], [['A', 'g', 'e', 'n', 't', 'I', 'D'], ['S', 'e', 's', 's', 'i', 'o', 'n', 'I', 'D'], ['G', 'r', 'o', 'u', 'p', 'I', 'D'], ['T', 'i', 't', 'l', 'e', 'R', 'o', 'l', 'e', 'I', 'D']])]

theorem w424 : Checked t424 := ⟨b424, by kernel_rfl, by kernel_rfl, by kernel_rfl⟩

/-- Lines of `message_template.msg` up to the end of `GroupRoleUpdate`. -/
def c425 : List (List Char) :=
  [chars! "",
   chars! "// GroupRoleUpdate",
   chars! "// viewer -> simulator -> dataserver",
   chars! "{",
   chars! "\tGroupRoleUpdate\t\tLow\t378 NotTrusted\tUnencoded",
   chars! "\t{",
   chars! "\t\tAgentData\tSingle",
   chars! "\t\t{\tAgentID\t\tLLUUID\t}",
   chars! "\t\t{\tSessionID\tLLUUID\t}",
   chars! "\t\t{\tGroupID\t\tLLUUID\t}",
   chars! "\t}",
   chars! "\t{",
   chars! "\t\tRoleData\tVariable",
   chars! "\t\t{\tRoleID\t\tLLUUID\t}",
   chars! "\t\t{\tName\t\tVariable\t1\t}",
   chars! "\t\t{\tDescription\tVariable\t1\t}",
   chars! "\t\t{\tTitle\t\tVariable\t1\t}",
   chars! "\t\t{\tPowers\t\tU64\t\t}",
   chars! "\t\t{\tUpdateType\tU8\t\t}",
   chars! "\t}",
   chars! "}"]

/-- `GroupRoleUpdate` as the parser creates it. -/
def r425 : RawTemplate :=
  ⟨"GroupRoleUpdate", .low, 378, [255, 255, 122], some .notTrusted, some .unencoded, some .notDeprecated,
    [⟨"RoleData", .variable, 0, [⟨"UpdateType", some .u8, some 1⟩, ⟨"Powers", some .u64, some 8⟩, ⟨"Title", some .variable, some 1⟩, ⟨"Description", some .variable, some 1⟩, ⟨"Name", some .variable, some 1⟩, ⟨"RoleID", some .uuid, some 16⟩]⟩,
     ⟨"AgentData", .single, 0, [⟨"GroupID", some .uuid, some 16⟩, ⟨"SessionID", some .uuid, some 16⟩, ⟨"AgentID", some .uuid, some 16⟩]⟩]⟩

/-- `GroupRoleUpdate` in file order. -/
def t425 : Template :=
  ⟨"GroupRoleUpdate", .low, 378, [], some .notTrusted, some .unencoded, some .notDeprecated,
    [⟨"AgentData", .single, 0, [⟨"AgentID", .uuid, 16⟩, ⟨"SessionID", .uuid, 16⟩, ⟨"GroupID", .uuid, 16⟩]⟩,
     ⟨"RoleData", .variable, 0, [⟨"RoleID", .uuid, 16⟩, ⟨"Name", .variable, 1⟩, ⟨"Description", .variable, 1⟩, ⟨"Title", .variable, 1⟩, ⟨"Powers", .u64, 8⟩, ⟨"UpdateType", .u8, 1⟩]⟩]⟩

theorem p425 : ChunkOk c425 r425 := by intro v older; kernel_rfl
theorem k425 : r425.known = some t425 := by kernel_rfl
theorem n425 : t425.name = String.ofList ['G', 'r', 'o', 'u', 'p', 'R', 'o', 'l', 'e', 'U', 'p', 'd', 'a', 't', 'e'] := by kernel_rfl

/-- The names of the blocks and variables of `GroupRoleUpdate`. -/
def b425 : List (List Char × List (List Char)) :=
  [(['A', 'g', 'e', 'n', 't', 'D', 'a', 't', 'a'], [['A', 'g', 'e', 'n', 't', 'I', 'D'], ['S', 'e', 's', 's', 'i', 'o', 'n', 'I', 'D'], ['G', 'r', 'o', 'u', 'p', 'I', 'D']]),
   (['R', 'o', 'l', 'e', 'D', 'a', 't', 'a'], [['R', 'o', 'l', 'e', 'I', 'D'], ['N', 'a', 'm', 'e'], ['D', 'e', 's', 'c', 'r', 'i', 'p', 't', 'i', 'o', 'n'], ['T', 'i', 't', 'l', 'e'], ['P', 'o', 'w', 'e', 'r', 's'], ['U', 'p', 'd', 'a', 't', 'e', 'T', 'y', 'p', 'e']])]

theorem w425 : Checked t425 := ⟨b425, by kernel_rfl, by kernel_rfl, by kernel_rfl⟩

/-- Lines of `message_template.msg` up to the end of `LiveHelpGroupRequest`. -/
def c426 : List (List Char) :=
  [chars! "\t\t\t",
   chars! "",
   chars! "",
   chars! "// Request the members of the live help group needed for requesting agent.",
   chars! "// userserver -> dataserver",
   chars! "{",
   chars! "\tLiveHelpGroupRequest Low 379 Trusted Unencoded",
   chars! "\t{",
   chars! "\t\tRequestData \tSingle",
   chars! "\t\t{\tRequestID\tLLUUID\t}",
   chars! "\t\t{\tAgentID\t\tLLUUID\t}",
   chars! "\t}",
   chars! "}"]

/-- `LiveHelpGroupRequest` as the parser creates it. -/
def r426 : RawTemplate :=
  ⟨"LiveHelpGroupRequest", .low, 379, [255, 255, 123], some .trusted, some .unencoded, some .notDeprecated,
    [⟨"RequestData", .single, 0, [⟨"AgentID", some .uuid, some 16⟩, ⟨"RequestID", some .uuid, some 16⟩]⟩]⟩

/-- `LiveHelpGroupRequest` in file order. -/
def t426 : Template :=
  ⟨"LiveHelpGroupRequest", .low, 379, [], some .trusted, some .unencoded, some .notDeprecated,
    [⟨"RequestData", .single, 0, [⟨"RequestID", .uuid, 16⟩, ⟨"AgentID", .uuid, 16⟩]⟩]⟩

theorem p426 : ChunkOk c426 r426 := by intro v older; kernel_rfl
theorem k426 : r426.known = some t426 := by kernel_rfl
theorem n426 : t426.name = String.ofList ['L', 'i', 'v', 'e', 'H', 'e', 'l', 'p', 'G', 'r', 'o', 'u', 'p', 'R', 'e', 'q', 'u', 'e', 's', 't'] := by kernel_rfl

/-- The names of the blocks and variables of `LiveHelpGroupRequest`. -/
def b426 : List (List Char × List (List Char)) :=
  [(['R', 'e', 'q', 'u', 'e', 's', 't', 'D', 'a', 't', 'a'], [['R', 'e', 'q', 'u', 'e', 's', 't', 'I', 'D'], ['A', 'g', 'e', 'n', 't', 'I', 'D']])]

theorem w426 : Checked t426 := ⟨b426, by kernel_rfl, by kernel_rfl, by kernel_rfl⟩

/-- Lines of `message_template.msg` up to the end of `LiveHelpGroupReply`. -/
def c427 : List (List Char) :=
  [chars! "",
   chars! "// Send down the group",
   chars! "// dataserver -> userserver",
   chars! "{",
   chars! "\tLiveHelpGroupReply Low 380 Trusted Unencoded",
   chars! "\t{",
   chars! "\t\tReplyData\t \tSingle",
   chars! "\t\t{\tRequestID\tLLUUID\t}",
   chars! "\t\t{\tGroupID\t\tLLUUID\t}",
   chars! "\t\t{\tSelection\tVariable \t1\t} // selection criteria all or active",
   chars! "\t}",
   chars! "}"]

/-- `LiveHelpGroupReply` as the parser creates it. -/
def r427 : RawTemplate :=
  ⟨"LiveHelpGroupReply", .low, 380, [255, 255, 124], some .trusted, some .unencoded, some .notDeprecated,
    [⟨"ReplyData", .single, 0, [⟨"Selection", some .variable, some 1⟩, ⟨"GroupID", some .uuid, some 16⟩, ⟨"RequestID", some .uuid, some 16⟩]⟩]⟩

/-- `LiveHelpGroupReply` in file order. -/
def t427 : Template :=
  ⟨"LiveHelpGroupReply", .low, 380, [], some .trusted, some .unencoded, some .notDeprecated,
    [⟨"ReplyData", .single, 0, [⟨"RequestID", .uuid, 16⟩, ⟨"GroupID", .uuid, 16⟩, ⟨"Selection", .variable, 1⟩]⟩]⟩

theorem p427 : ChunkOk c427 r427 := by intro v older; kernel_rfl
theorem k427 : r427.known = some t427 := by kernel_rfl
theorem n427 : t427.name = String.ofList ['L', 'i', 'v', 'e', 'H', 'e', 'l', 'p', 'G', 'r', 'o', 'u', 'p', 'R', 'e', 'p', 'l', 'y'] := by kernel_rfl

/-- The names of the blocks and variables of `LiveHelpGroupReply`. -/
def b427 : List (List Char × List (List Char)) :=
  [(['R', 'e', 'p', 'l', 'y', 'D', 'a', 't', 'a'], [['R', 'e', 'q', 'u', 'e', 's', 't', 'I', 'D'], ['G', 'r', 'o', 'u', 'p', 'I', 'D'], ['S', 'e', 'l', 'e', 'c', 't', 'i', 'o', 'n']])]

theorem w427 : Checked t427 := ⟨b427, by kernel_rfl, by kernel_rfl, by kernel_rfl⟩

/-- Lines of `message_template.msg` up to the end of `AgentWearablesRequest`. -/
def c428 : List (List Char) :=
  [chars! "",
   chars! "//-----------------------------------------------------------------------------",
   chars! "// Wearable messages",
   chars! "//-----------------------------------------------------------------------------",
   chars! "",
   chars! "// AgentWearablesRequest",
   chars! "// (a.k.a. \"Tell me what the avatar is wearing.\")",
   chars! "// viewer -> simulator -> dataserver",
   chars! "// reliable",
   chars! "{",
   chars! "\tAgentWearablesRequest Low 381 NotTrusted Unencoded",
   chars! "\t{",
   chars! "\t\tAgentData\tSingle",
   chars! "\t\t{\tAgentID\t\tLLUUID\t}",
   chars! "\t\t{\tSessionID\tLLUUID\t}",
   chars! "\t}",
   chars! "}"]

/-- `AgentWearablesRequest` as the parser creates it. -/
def r428 : RawTemplate :=
  ⟨"AgentWearablesRequest", .low, 381, [255, 255, 125], some .notTrusted, some .unencoded, some .notDeprecated,
    [⟨"AgentData", .single, 0, [⟨"SessionID", some .uuid, some 16⟩, ⟨"AgentID", some .uuid, some 16⟩]⟩]⟩

/-- `AgentWearablesRequest` in file order. -/
def t428 : Template :=
  ⟨"AgentWearablesRequest", .low, 381, [], some .notTrusted, some .unencoded, some .notDeprecated,
    [⟨"AgentData", .single, 0, [⟨"AgentID", .uuid, 16⟩, ⟨"SessionID", .uuid, 16⟩]⟩]⟩

theorem p428 : ChunkOk c428 r428 := by intro v older; kernel_rfl
theorem k428 : r428.known = some t428 := by kernel_rfl
theorem n428 : t428.name = String.ofList ['A', 'g', 'e', 'n', 't', 'W', 'e', 'a', 'r', 'a', 'b', 'l', 'e', 's', 'R', 'e', 'q', 'u', 'e', 's', 't'] := by kernel_rfl

/-- The names of the blocks and variables of `AgentWearablesRequest`. -/
def b428 : List (List Char × List (List Char)) :=
  [(['A', 'g', 'e', 'n', 't', 'D', 'a', 't', 'a'], [['A', 'g', 'e', 'n', 't', 'I', 'D'], ['S', 'e', 's', 's', 'i', 'o', 'n', 'I', 'D']])]

theorem w428 : Checked t428 := ⟨b428, by kernel_rfl, by kernel_rfl, by kernel_rfl⟩

/-- Lines of `message_template.msg` up to the end of `AgentWearablesUpdate`. -/
def c429 : List (List Char) :=
  [chars! "",
   chars! "// AgentWearablesUpdate",
   chars! "// (a.k.a. \"Here's what your avatar should be wearing now.\")",
   chars! "// dataserver -> userserver -> viewer",
   chars! "// reliable",
   chars! "// NEVER from viewer to sim",
   chars! "{",
   chars! "\tAgentWearablesUpdate Low 382 Trusted Zerocoded",
   chars! "\t{",
   chars! "\t\tAgentData\tSingle",
   chars! "\t\t{\tAgentID\t\tLLUUID\t}",
   chars! "\t\t{\tSessionID\tLLUUID\t}",
   chars! "\t\t{\tSerialNum\tU32\t}\t// U32, Increases every time the wearables change for a given agent.  Used to avoid processing out of order packets.",
   chars! "\t}",
   chars! "\t{",
   chars! "\t\tWearableData\tVariable",
   chars! "\t\t{\tItemID\t\tLLUUID\t}",
   chars! "\t\t{\tAssetID\t\tLLUUID\t}",
   chars! "\t\t{\tWearableType U8\t}\t// U8, LLWearable::EWearType",
   chars! "\t}",
   chars! "}"]

/-- `AgentWearablesUpdate` as the parser creates it. -/
def r429 : RawTemplate :=
  ⟨"AgentWearablesUpdate", .low, 382, [255, 255, 126], some .trusted, some .zerocoded, some .notDeprecated,
    [⟨"WearableData", .variable, 0, [⟨"WearableType", some .u8, some 1⟩, ⟨"AssetID", some .uuid, some 16⟩, ⟨"ItemID", some .uuid, some 16⟩]⟩,
     ⟨"AgentData", .single, 0, [⟨"SerialNum", some .u32, some 4⟩, ⟨"SessionID", some .uuid, some 16⟩, ⟨"AgentID", some .uuid, some 16⟩]⟩]⟩

/-- `AgentWearablesUpdate` in file order. -/
def t429 : Template :=
  ⟨"AgentWearablesUpdate", .low, 382, [], some .trusted, some .zerocoded, some .notDeprecated,
    [⟨"AgentData", .single, 0, [⟨"AgentID", .uuid, 16⟩, ⟨"SessionID", .uuid, 16⟩, ⟨"SerialNum", .u32, 4⟩]⟩,
     ⟨"WearableData", .variable, 0, [⟨"ItemID", .uuid, 16⟩, ⟨"AssetID", .uuid, 16⟩, ⟨"WearableType", .u8, 1⟩]⟩]⟩

theorem p429 : ChunkOk c429 r429 := by intro v older; kernel_rfl
theorem k429 : r429.known = some t429 := by kernel_rfl
theorem n429 : t429.name = String.ofList ['A', 'g', 'e', 'n', 't', 'W', 'e', 'a', 'r', 'a', 'b', 'l', 'e', 's', 'U', 'p', 'd', 'a', 't', 'e'] := by kernel_rfl

/-- The names of the blocks and variables of `AgentWearablesUpdate`. -/
def b429 : List (List Char × List (List Char)) :=
  [(['A', 'g', 'e', 'n', 't', 'D', 'a', 't', 'a'], [['A', 'g', 'e', 'n', 't', 'I', 'D'], ['S', 'e', 's', 's', 'i', 'o', 'n', 'I', 'D'], ['S', 'e', 'r', 'i', 'a', 'l', 'N', 'u', 'm']]),
   (['W', 'e', 'a', 'r', 'a', 'b', 'l', 'e', 'D', 'a', 't', 'a'], [['I', 't', 'e', 'm', 'I', 'D'], ['A', 's', 's', 'e', 't', 'I', 'D'], ['W', 'e', 'a', 'r', 'a', 'b', 'l', 'e', 'T', 'y', 'p', 'e']])]

theorem w429 : Checked t429 := ⟨b429, by kernel_rfl, by kernel_rfl, by kernel_rfl⟩

/-- Lines of `message_template.msg` up to the end of `AgentIsNowWearing`. -/
def c430 : List (List Char) :=
  [chars! "",
   chars! "//",
   chars! "// AgentIsNowWearing",
   chars! "// (a.k.a. \"Here's what I'm wearing now.\")",
   chars! "// viewer->sim->dataserver",
   chars! "// reliable",
   chars! "{",
   chars! "\tAgentIsNowWearing\tLow\t383 NotTrusted\tZerocoded",
   chars! "\t{",
   chars! "\t\tAgentData Single",
   chars! "\t\t{\tAgentID\t\tLLUUID\t}",
   chars! "\t\t{\tSessionID\tLLUUID\t}",
   chars! "\t}",
   chars! "\t{",
   chars! "\t\tWearableData\tVariable",
   chars! "\t\t{\tItemID\t\tLLUUID\t}",
   chars! "\t\t{\tWearableType\tU8\t}",
   chars! "\t}",
   chars! "}"]

/-- `AgentIsNowWearing` as the parser creates it. -/
def r430 : RawTemplate :=
  ⟨"AgentIsNowWearing", .low, 383, [255, 255, 127], some .notTrusted, some .zerocoded, some .notDeprecated,
    [⟨"WearableData", .variable, 0, [⟨"WearableType", some .u8, some 1⟩, ⟨"ItemID", some .uuid, some 16⟩]⟩,
     ⟨"AgentData", .single, 0, [⟨"SessionID", some .uuid, some 16⟩, ⟨"AgentID", some .uuid, some 16⟩]⟩]⟩

/-- `AgentIsNowWearing` in file order. -/
def t430 : Template :=
  ⟨"AgentIsNowWearing", .low, 383, [], some .notTrusted, some .zerocoded, some .notDeprecated,
    [⟨"AgentData", .single, 0, [⟨"AgentID", .uuid, 16⟩, ⟨"SessionID", .uuid, 16⟩]⟩,
     ⟨"WearableData", .variable, 0, [⟨"ItemID", .uuid, 16⟩, ⟨"WearableType", .u8, 1⟩]⟩]⟩

theorem p430 : ChunkOk c430 r430 := by intro v older; kernel_rfl
theorem k430 : r430.known = some t430 := by kernel_rfl
theorem n430 : t430.name = String.ofList ['A', 'g', 'e', 'n', 't', 'I', 's', 'N', 'o', 'w', 'W', 'e', 'a', 'r', 'i', 'n', 'g'] := by kernel_rfl

/-- The names of the blocks and variables of `AgentIsNowWearing`. -/
def b430 : List (List Char × List (List Char)) :=
  [(['A', 'g', 'e', 'n', 't', 'D', 'a', 't', 'a'], [['A', 'g', 'e', 'n', 't', 'I', 'D'], ['S', 'e', 's', 's', 'i', 'o', 'n', 'I', 'D']]),
   (['W', 'e', 'a', 'r', 'a', 'b', 'l', 'e', 'D', 'a', 't', 'a'], [['I', 't', 'e', 'm', 'I', 'D'], ['W', 'e', 'a', 'r', 'a', 'b', 'l', 'e', 'T', 'y', 'p', 'e']])]

theorem w430 : Checked t430 := ⟨b430, by kernel_rfl, by kernel_rfl, by kernel_rfl⟩

/-- Lines of `message_template.msg` up to the end of `AgentCachedTexture`. -/
def c431 : List (List Char) :=
  [chars! "\t\t",
   chars! "",
   chars! "// AgentCachedTexture",
   chars! "// viewer queries for cached textures on dataserver (via simulator)",
   chars! "// viewer -> simulator -> dataserver",
   chars! "// reliable",
   chars! "{",
   chars! "\tAgentCachedTexture Low 384 NotTrusted Unencoded",
   chars! "\t{",
   chars! "\t\tAgentData\t\tSingle",
   chars! "\t\t{\tAgentID\t\tLLUUID\t\t}",
   chars! "\t\t{\tSessionID\tLLUUID\t\t}",
   chars! "\t\t{\tSerialNum\tS32\t\t\t}",
   chars! "\t}",
   chars! "\t{",
   chars! "\t\tWearableData\tVariable",
   chars! "\t\t{\tID\t\t\t\tLLUUID\t}",
   chars! "\t\t{\tTextureIndex\tU8 }",
   chars! "\t}",
   chars! "}"]

/-- `AgentCachedTexture` as the parser creates it. -/
def r431 : RawTemplate :=
  ⟨"AgentCachedTexture", .low, 384, [255, 255, 128], some .notTrusted, some .unencoded, some .notDeprecated,
    [⟨"WearableData", .variable, 0, [⟨"TextureIndex", some .u8, some 1⟩, ⟨"ID", some .uuid, some 16⟩]⟩,
     ⟨"AgentData", .single, 0, [⟨"SerialNum", some .s32, some 4⟩, ⟨"SessionID", some .uuid, some 16⟩, ⟨"AgentID", some .uuid, some 16⟩]⟩]⟩

/-- `AgentCachedTexture` in file order. -/
def t431 : Template :=
  ⟨"AgentCachedTexture", .low, 384, [], some .notTrusted, some .unencoded, some .notDeprecated,
    [⟨"AgentData", .single, 0, [⟨"AgentID", .uuid, 16⟩, ⟨"SessionID", .uuid, 16⟩, ⟨"SerialNum", .s32, 4⟩]⟩,
     ⟨"WearableData", .variable, 0, [⟨"ID", .uuid, 16⟩, ⟨"TextureIndex", .u8, 1⟩]⟩]⟩

theorem p431 : ChunkOk c431 r431 := by intro v older; kernel_rfl
theorem k431 : r431.known = some t431 := by kernel_rfl
theorem n431 : t431.name = String.ofList ['A', 'g', 'e', 'n', 't', 'C', 'a', 'c', 'h', 'e', 'd', 'T', 'e', 'x', 't', 'u', 'r', 'e'] := by kernel_rfl

/-- The names of the blocks and variables of `AgentCachedTexture`. -/
def b431 : List (List Char × List (List Char)) :=
  [(['A', 'g', 'e', 'n', 't', 'D', 'a', 't', 'a'], [['A', 'g', 'e', 'n', 't', 'I', 'D'], ['S', 'e', 's', 's', 'i', 'o', 'n', 'I', 'D'], ['S', 'e', 'r', 'i', 'a', 'l', 'N', 'u', 'm']]),
   (['W', 'e', 'a', 'r', 'a', 'b', 'l', 'e', 'D', 'a', 't', 'a'], [['I', 'D'], ['T', 'e', 'x', 't', 'u', 'r', 'e', 'I', 'n', 'd', 'e', 'x']])]

theorem w431 : Checked t431 := ⟨b431, by kernel_rfl, by kernel_rfl, by kernel_rfl⟩

/-- Lines of `message_template.msg` up to the end of `AgentCachedTextureResponse`. -/
def c432 : List (List Char) :=
  [chars! "",
   chars! "// AgentCachedTextureResponse",
   chars! "// response to viewer queries for cached textures on dataserver (via simulator)",
   chars! "// dataserver -> simulator -> viewer",
   chars! "// reliable",
   chars! "{",
   chars! "\tAgentCachedTextureResponse Low 385 Trusted Unencoded",
   chars! "\t{",
   chars! "\t\tAgentData\t\tSingle",
   chars! "\t\t{\tAgentID\t\tLLUUID\t\t}",
   chars! "\t\t{\tSessionID\tLLUUID\t\t}",
   chars! "\t\t{\tSerialNum\tS32\t\t\t}",
   chars! "\t}",
   chars! "\t{",
   chars! "\t\tWearableData\tVariable",
   chars! "\t\t{\tTextureID\t\tLLUUID\t}",
   chars! "\t\t{\tTextureIndex\tU8 }",
   chars! "\t\t{\tHostName\t\tVariable\t1 }",
   chars! "\t}",
   chars! "}"]

/-- `AgentCachedTextureResponse` as the parser creates it. -/
def r432 : RawTemplate :=
  ⟨"AgentCachedTextureResponse", .low, 385, [255, 255, 129], some .trusted, some .unencoded, some .notDeprecated,
    [⟨"WearableData", .variable, 0, [⟨"HostName", some .variable, some 1⟩, ⟨"TextureIndex", some .u8, some 1⟩, ⟨"TextureID", some .uuid, some 16⟩]⟩,
     ⟨"AgentData", .single, 0, [⟨"SerialNum", some .s32, some 4⟩, ⟨"SessionID", some .uuid, some 16⟩, ⟨"AgentID", some .uuid, some 16⟩]⟩]⟩

/-- `AgentCachedTextureResponse` in file order. -/
def t432 : Template :=
  ⟨"AgentCachedTextureResponse", .low, 385, [], some .trusted, some .unencoded, some .notDeprecated,
    [⟨"AgentData", .single, 0, [⟨"AgentID", .uuid, 16⟩, ⟨"SessionID", .uuid, 16⟩, ⟨"SerialNum", .s32, 4⟩]⟩,
     ⟨"WearableData", .variable, 0, [⟨"TextureID", .uuid, 16⟩, ⟨"TextureIndex", .u8, 1⟩, ⟨"HostName", .variable, 1⟩]⟩]⟩

theorem p432 : ChunkOk c432 r432 := by intro v older; kernel_rfl
theorem k432 : r432.known = some t432 := by kernel_rfl
theorem n432 : t432.name = String.ofList ['A', 'g', 'e', 'n', 't', 'C', 'a', 'c', 'h', 'e', 'd', 'T', 'e', 'x', 't', 'u', 'r', 'e', 'R', 'e', 's', 'p', 'o', 'n', 's', 'e'] := by kernel_rfl

/-- The names of the blocks and variables of `AgentCachedTextureResponse`. -/
def b432 : List (List Char × List (List Char)) :=
  [(['A', 'g', 'e', 'n', 't', 'D', 'a', 't', 'a'], [['A', 'g', 'e', 'n', 't', 'I', 'D'], ['S', 'e', 's', 's', 'i', 'o', 'n', 'I', 'D'], ['S', 'e', 'r', 'i', 'a', 'l', 'N', 'u', 'm']]),
   (['W', 'e', 'a', 'r', 'a', 'b', 'l', 'e', 'D', 'a', 't', 'a'], [['T', 'e', 'x', 't', 'u', 'r', 'e', 'I', 'D'], ['T', 'e', 'x', 't', 'u', 'r', 'e', 'I', 'n', 'd', 'e', 'x'], ['H', 'o', 's', 't', 'N', 'a', 'm', 'e']])]

theorem w432 : Checked t432 := ⟨b432, by kernel_rfl, by kernel_rfl, by kernel_rfl⟩

/-- Lines of `message_template.msg` up to the end of `AgentDataUpdateRequest`. -/
def c433 : List (List Char) :=
  [chars! "",
   chars! "// Request an AgentDataUpdate without changing any agent data.",
   chars! "{",
   chars! "\tAgentDataUpdateRequest Low 386 NotTrusted Unencoded",
   chars! "\t{",
   chars! "\t\tAgentData\tSingle",
   chars! "\t\t{\tAgentID\t\tLLUUID\t}",
   chars! "\t\t{\tSessionID\tLLUUID\t}",
   chars! "\t}",
   chars! "}"]

/-- `AgentDataUpdateRequest` as the parser creates it. -/
def r433 : RawTemplate :=
  ⟨"AgentDataUpdateRequest", .low, 386, [255, 255, 130], some .notTrusted, some .unencoded, some .notDeprecated,
    [⟨"AgentData", .single, 0, [⟨"SessionID", some .uuid, some 16⟩, ⟨"AgentID", some .uuid, some 16⟩]⟩]⟩

/-- `AgentDataUpdateRequest` in file order. -/
def t433 : Template :=
  ⟨"AgentDataUpdateRequest", .low, 386, [], some .notTrusted, some .unencoded, some .notDeprecated,
    [⟨"AgentData", .single, 0, [⟨"AgentID", .uuid, 16⟩, ⟨"SessionID", .uuid, 16⟩]⟩]⟩

theorem p433 : ChunkOk c433 r433 := by intro v older; kernel_rfl
theorem k433 : r433.known = some t433 := by kernel_rfl
theorem n433 : t433.name = String.ofList ['A', 'g', 'e', 'n', 't', 'D', 'a', 't', 'a', 'U', 'p', 'd', 'a', 't', 'e', 'R', 'e', 'q', 'u', 'e', 's', 't'] := by kernel_rfl

/-- The names of the blocks and variables of `AgentDataUpdateRequest`. -/
def b433 : List (List Char × List (List Char)) :=
  [(['A', 'g', 'e', 'n', 't', 'D', 'a', 't', 'a'], [['A', 'g', 'e', 'n', 't', 'I', 'D'], ['S', 'e', 's', 's', 'i', 'o', 'n', 'I', 'D']])]

theorem w433 : Checked t433 := ⟨b433, by kernel_rfl, by kernel_rfl, by kernel_rfl⟩

/-- Lines of `message_template.msg` up to the end of `AgentDataUpdate`. -/
def c434 : List (List Char) :=
  [chars! "",
   chars! "// AgentDataUpdate",
   chars! "// Updates a viewer or simulator's impression of agent-specific information.",
   chars! "// Used, for example, when an agent's group changes.",
   chars! "// dataserver -> simulator -> viewer",
   chars! "// reliable",
   chars! "{",
   chars! "\tAgentDataUpdate Low 387 Trusted Zerocoded",
   chars! "\t{",
   chars! "\t\tAgentData\t\t\tSingle",
   chars! "\t\t{\tAgentID\t\t\t\tLLUUID\t}",
   chars! "\t\t{\tFirstName\t        Variable\t1\t}   // string",
   chars! "\t\t{\tLastName\t        Variable\t1\t}   // string",
   chars! "\t\t{\tGroupTitle\t\t\tVariable\t1\t}\t// string",
   chars! "\t\t{\tActiveGroupID\t\tLLUUID\t}\t// active group",
   chars! "\t\t{\tGroupPowers\t\t\tU64\t}",
   chars! "\t\t{\tGroupName\t\t\tVariable\t1\t}\t// string",
   chars! "\t}",
   chars! "}"]

/-- `AgentDataUpdate` as the parser creates it. -/
def r434 : RawTemplate :=
  ⟨"AgentDataUpdate", .low, 387, [255, 255, 131], some .trusted, some .zerocoded, some .notDeprecated,
    [⟨"AgentData", .single, 0, [⟨"GroupName", some .variable, some 1⟩, ⟨"GroupPowers", some .u64, some 8⟩, ⟨"ActiveGroupID", some .uuid, some 16⟩, ⟨"GroupTitle", some .variable, some 1⟩, ⟨"LastName", some .variable, some 1⟩, ⟨"FirstName", some .variable, some 1⟩, ⟨"AgentID", some .uuid, some 16⟩]⟩]⟩

/-- `AgentDataUpdate` in file order. -/
def t434 : Template :=
  ⟨"AgentDataUpdate", .low, 387, [], some .trusted, some .zerocoded, some .notDeprecated,
    [⟨"AgentData", .single, 0, [⟨"AgentID", .uuid, 16⟩, ⟨"FirstName", .variable, 1⟩, ⟨"LastName", .variable, 1⟩, ⟨"GroupTitle", .variable, 1⟩, ⟨"ActiveGroupID", .uuid, 16⟩, ⟨"GroupPowers", .u64, 8⟩, ⟨"GroupName", .variable, 1⟩]⟩]⟩

theorem p434 : ChunkOk c434 r434 := by intro v older; kernel_rfl
theorem k434 : r434.known = some t434 := by kernel_rfl
theorem n434 : t434.name = String.ofList ['A', 'g', 'e', 'n', 't', 'D', 'a', 't', 'a', 'U', 'p', 'd', 'a', 't', 'e'] := by kernel_rfl

/-- The names of the blocks and variables of `AgentDataUpdate`. -/
def b434 : List (List Char × List (List Char)) :=
  [(['A', 'g', 'e', 'n', 't', 'D', 'a', 't', 'a'], [['A', 'g', 'e', 'n', 't', 'I', 'D'], ['F', 'i', 'r', 's', 't', 'N', 'a', 'm', 'e'], ['L', 'a', 's', 't', 'N', 'a', 'm', 'e'], ['G', 'r', 'o', 'u', 'p', 'T', 'i', 't', 'l', 'e'], ['A', 'c', 't', 'i', 'v', 'e', 'G', 'r', 'o', 'u', 'p', 'I', 'D'], ['G', 'r', 'o', 'u', 'p', 'P', 'o', 'w', 'e', 'r', 's'], ['G', 'r', 'o', 'u', 'p', 'N', 'a', 'm', 'e']])]

theorem w434 : Checked t434 := ⟨b434, by kernel_rfl, by kernel_rfl, by kernel_rfl⟩

/-- Lines of `message_template.msg` up to the end of `GroupDataUpdate`. -/
def c435 : List (List Char) :=
  [chars! "",
   chars! "",
   chars! "// GroupDataUpdate",
   chars! "// This is a bunch of group data that needs to be appropriatly routed based on presence info.",
   chars! "// dataserver -> simulator",
   chars! "{",
   chars! "\tGroupDataUpdate\tLow\t388 Trusted\tZerocoded",
   chars! "\t{",
   chars! "\t\tAgentGroupData\t\tVariable",
   chars! "\t\t{\tAgentID\t\t\tLLUUID\t}",
   chars! "\t\t{\tGroupID\t\t\tLLUUID\t}",
   chars! "\t\t{\tAgentPowers\t\tU64\t\t}",
   chars! "\t\t{\tGroupTitle\t\tVariable\t1\t}",
   chars! "\t}",
   chars! "}"]

/-- `GroupDataUpdate` as the parser creates it. -/
def r435 : RawTemplate :=
  ⟨"GroupDataUpdate", .low, 388, [255, 255, 132], some .trusted, some .zerocoded, some .notDeprecated,
    [⟨"AgentGroupData", .variable, 0, [⟨"GroupTitle", some .variable, some 1⟩, ⟨"AgentPowers", some .u64, some 8⟩, ⟨"GroupID", some .uuid, some 16⟩, ⟨"AgentID", some .uuid, some 16⟩]⟩]⟩

/-- `GroupDataUpdate` in file order. -/
def t435 : Template :=
  ⟨"GroupDataUpdate", .low, 388, [], some .trusted, some .zerocoded, some .notDeprecated,
    [⟨"AgentGroupData", .variable, 0, [⟨"AgentID", .uuid, 16⟩, ⟨"GroupID", .uuid, 16⟩, ⟨"AgentPowers", .u64, 8⟩, ⟨"GroupTitle", .variable, 1⟩]⟩]⟩

theorem p435 : ChunkOk c435 r435 := by intro v older; kernel_rfl
theorem k435 : r435.known = some t435 := by kernel_rfl
theorem n435 : t435.name = String.ofList ['G', 'r', 'o', 'u', 'p', 'D', 'a', 't', 'a', 'U', 'p', 'd', 'a', 't', 'e'] := by kernel_rfl

/-- The names of the blocks and variables of `GroupDataUpdate`. -/
def b435 : List (List Char × List (List Char)) :=
  [(['A', 'g', 'e', 'n', 't', 'G', 'r', 'o', 'u', 'p', 'D', 'a', 't', 'a'], [['A', 'g', 'e', 'n', 't', 'I', 'D'], ['G', 'r', 'o', 'u', 'p', 'I', 'D'], ['A', 'g', 'e', 'n', 't', 'P', 'o', 'w', 'e', 'r', 's'], ['G', 'r', 'o', 'u', 'p', 'T', 'i', 't', 'l', 'e']])]

theorem w435 : Checked t435 := ⟨b435, by kernel_rfl, by kernel_rfl, by kernel_rfl⟩

/-- Lines of `message_template.msg` up to the end of `AgentGroupDataUpdate`. -/
def c436 : List (List Char) :=
  [chars! "",
   chars! "// AgentGroupDataUpdate",
   chars! "// Updates a viewer or simulator's impression of the groups an agent is in. ",
   chars! "// dataserver -> simulator -> viewer",
   chars! "// reliable",
   chars! "{",
   chars! "\tAgentGroupDataUpdate Low 389 Trusted Zerocoded UDPDeprecated",
   chars! "\t{",
   chars! "\t\tAgentData\t\t\tSingle",
   chars! "\t\t{\tAgentID\t\t\t\tLLUUID\t}",
   chars! "\t}",
   chars! "\t{",
   chars! "\t\tGroupData\t\t\tVariable",
   chars! "\t\t{\tGroupID\t\t\t\tLLUUID\t}",
   chars! "\t\t{\tGroupPowers\t\t\tU64\t\t}\t",
   chars! "\t\t{\tAcceptNotices\t\tBOOL\t}",
   chars! "\t\t{\tGroupInsigniaID\t\tLLUUID\t}",
   chars! "\t\t{\tContribution\t\tS32\t\t}",
   chars! "\t\t{\tGroupName\t\t\tVariable\t1\t}\t// string",
   chars! "\t}",
   chars! "}"]

/-- `AgentGroupDataUpdate` as the parser creates it. -/
def r436 : RawTemplate :=
  ⟨"AgentGroupDataUpdate", .low, 389, [255, 255, 133], some .trusted, some .zerocoded, some .udpDeprecated,
    [⟨"GroupData", .variable, 0, [⟨"GroupName", some .variable, some 1⟩, ⟨"Contribution", some .s32, some 4⟩, ⟨"GroupInsigniaID", some .uuid, some 16⟩, ⟨"AcceptNotices", some .bool, some 1⟩, ⟨"GroupPowers", some .u64, some 8⟩, ⟨"GroupID", some .uuid, some 16⟩]⟩,
     ⟨"AgentData", .single, 0, [⟨"AgentID", some .uuid, some 16⟩]⟩]⟩

/-- `AgentGroupDataUpdate` in file order. -/
def t436 : Template :=
  ⟨"AgentGroupDataUpdate", .low, 389, [], some .trusted, some .zerocoded, some .udpDeprecated,
    [⟨"AgentData", .single, 0, [⟨"AgentID", .uuid, 16⟩]⟩,
     ⟨"GroupData", .variable, 0, [⟨"GroupID", .uuid, 16⟩, ⟨"GroupPowers", .u64, 8⟩, ⟨"AcceptNotices", .bool, 1⟩, ⟨"GroupInsigniaID", .uuid, 16⟩, ⟨"Contribution", .s32, 4⟩, ⟨"GroupName", .variable, 1⟩]⟩]⟩

theorem p436 : ChunkOk c436 r436 := by intro v older; kernel_rfl
theorem k436 : r436.known = some t436 := by kernel_rfl
theorem n436 : t436.name = String.ofList ['A', 'g', 'e', 'n', 't', 'G', 'r', 'o', 'u', 'p', 'D', 'a', 't', 'a', 'U', 'p', 'd', 'a', 't', 'e'] := by kernel_rfl

/-- The names of the blocks and variables of `AgentGroupDataUpdate`. -/
def b436 : List (List Char × List (List Char)) :=
  [(['A', 'g', 'e', 'n', 't', 'D', 'a', 't', 'a'], [['A', 'g', 'e', 'n', 't', 'I', 'D']]),
   (['G', 'r', 'o', 'u', 'p', 'D', 'a', 't', 'a'], [['G', 'r', 'o', 'u', 'p', 'I', 'D'], ['G', 'r', 'o', 'u', 'p', 'P', 'o', 'w', 'e', 'r', 's'], ['A', 'c', 'c', 'e', 'p', 't', 'N', 'o', 't', 'i', 'c', 'e', 's'], ['G', 'r', 'o', 'u', 'p', 'I', 'n', 's', 'i', 'g', 'n', 'i', 'a', 'I', 'D'], ['C', 'o', 'n', 't', 'r', 'i', 'b', 'u', 't', 'i', 'o', 'n'], ['G', 'r', 'o', 'u', 'p', 'N', 'a', 'm', 'e']])]

theorem w436 : Checked t436 := ⟨b436, by kernel_rfl, by kernel_rfl, by kernel_rfl⟩

/-- Lines of `message_template.msg` up to the end of `AgentDropGroup`. -/
def c437 : List (List Char) :=
  [chars! "",
   chars! "// AgentDropGroup",
   chars! "// Updates the viewer / simulator that an agent is no longer part of a group",
   chars! "// dataserver -> simulator -> viewer",
   chars! "// dataserver -> userserver",
   chars! "// reliable",
   chars! "{",
   chars! "\tAgentDropGroup Low 390 Trusted Zerocoded UDPDeprecated",
   chars! "\t{",
   chars! "\t\tAgentData\t\t\tSingle",
   chars! "\t\t{\tAgentID\t\t\t\tLLUUID\t}",
   chars! "\t\t{\tGroupID\t\t\t\tLLUUID\t}",
   chars! "\t}",
   chars! "}"]

/-- `AgentDropGroup` as the parser creates it. -/
def r437 : RawTemplate :=
  ⟨"AgentDropGroup", .low, 390, [255, 255, 134], some .trusted, some .zerocoded, some .udpDeprecated,
    [⟨"AgentData", .single, 0, [⟨"GroupID", some .uuid, some 16⟩, ⟨"AgentID", some .uuid, some 16⟩]⟩]⟩

/-- `AgentDropGroup` in file order. -/
def t437 : Template :=
  ⟨"AgentDropGroup", .low, 390, [], some .trusted, some .zerocoded, some .udpDeprecated,
    [⟨"AgentData", .single, 0, [⟨"AgentID", .uuid, 16⟩, ⟨"GroupID", .uuid, 16⟩]⟩]⟩

theorem p437 : ChunkOk c437 r437 := by intro v older; kernel_rfl
theorem k437 : r437.known = some t437 := by kernel_rfl
theorem n437 : t437.name = String.ofList ['A', 'g', 'e', 'n', 't', 'D', 'r', 'o', 'p', 'G', 'r', 'o', 'u', 'p'] := by kernel_rfl

/-- The names of the blocks and variables of `AgentDropGroup`. -/
def b437 : List (List Char × List (List Char)) :=
  [(['A', 'g', 'e', 'n', 't', 'D', 'a', 't', 'a'], [['A', 'g', 'e', 'n', 't', 'I', 'D'], ['G', 'r', 'o', 'u', 'p', 'I', 'D']])]

theorem w437 : Checked t437 := ⟨b437, by kernel_rfl, by kernel_rfl, by kernel_rfl⟩

/-- Lines of `message_template.msg` up to the end of `LogTextMessage`. -/
def c438 : List (List Char) :=
  [chars! "",
   chars! "// LogTextMessage",
   chars! "// Asks the dataserver to log the contents of this message in the",
   chars! "// chat and IM log table.",
   chars! "// Sent from userserver (IM logging) and simulator (chat logging).",
   chars! "{",
   chars! "\tLogTextMessage Low 391 Trusted Zerocoded",
   chars! "\t{",
   chars! "\t\tDataBlock\tVariable",
   chars! "\t\t{ FromAgentId\tLLUUID }",
   chars! "\t\t{ ToAgentId\tLLUUID }",
   chars! "\t\t{ GlobalX\tF64 }",
   chars! "\t\t{ GlobalY\tF64 }",
   chars! "\t\t{ Time\t\tU32\t} // utc seconds since epoch",
   chars! "\t\t{ Message\tVariable\t2 } // string",
   chars! "\t}",
   chars! "}"]

/-- `LogTextMessage` as the parser creates it. -/
def r438 : RawTemplate :=
  ⟨"LogTextMessage", .low, 391, [255, 255, 135], some .trusted, some .zerocoded, some .notDeprecated,
    [⟨"DataBlock", .variable, 0, [⟨"Message", some .variable, some 2⟩, ⟨"Time", some .u32, some 4⟩, ⟨"GlobalY", some .f64, some 8⟩, ⟨"GlobalX", some .f64, some 8⟩, ⟨"ToAgentId", some .uuid, some 16⟩, ⟨"FromAgentId", some .uuid, some 16⟩]⟩]⟩

/-- `LogTextMessage` in file order. -/
def t438 : Template :=
  ⟨"LogTextMessage", .low, 391, [], some .trusted, some .zerocoded, some .notDeprecated,
    [⟨"DataBlock", .variable, 0, [⟨"FromAgentId", .uuid, 16⟩, ⟨"ToAgentId", .uuid, 16⟩, ⟨"GlobalX", .f64, 8⟩, ⟨"GlobalY", .f64, 8⟩, ⟨"Time", .u32, 4⟩, ⟨"Message", .variable, 2⟩]⟩]⟩

theorem p438 : ChunkOk c438 r438 := by intro v older; kernel_rfl
theorem k438 : r438.known = some t438 := by kernel_rfl
theorem n438 : t438.name = String.ofList ['L', 'o', 'g', 'T', 'e', 'x', 't', 'M', 'e', 's', 's', 'a', 'g', 'e'] := by kernel_rfl

/-- The names of the blocks and variables of `LogTextMessage`. -/
def b438 : List (List Char × List (List Char)) :=
  [(['D', 'a', 't', 'a', 'B', 'l', 'o', 'c', 'k'], [['F', 'r', 'o', 'm', 'A', 'g', 'e', 'n', 't', 'I', 'd'], ['T', 'o', 'A', 'g', 'e', 'n', 't', 'I', 'd'], ['G', 'l', 'o', 'b', 'a', 'l', 'X'], ['G', 'l', 'o', 'b', 'a', 'l', 'Y'], ['T', 'i', 'm', 'e'], ['M', 'e', 's', 's', 'a', 'g', 'e']])]

theorem w438 : Checked t438 := ⟨b438, by kernel_rfl, by kernel_rfl, by kernel_rfl⟩

/-- Lines of `message_template.msg` up to the end of `ViewerEffect`. -/
def c439 : List (List Char) :=
  [chars! "",
   chars! "// ViewerEffect",
   chars! "// Viewer side effect that's sent from one viewer, and broadcast to other agents nearby",
   chars! "// viewer-->sim (single effect created by viewer)",
   chars! "// sim-->viewer (multiple effects that can be seen by viewer)",
   chars! "// the AgentData block used for authentication for viewer-->sim messages",
   chars! "{",
   chars! "\tViewerEffect Medium 17 NotTrusted Zerocoded",
   chars! "\t{",
   chars! "\t\tAgentData\t\tSingle",
   chars! "\t\t{\tAgentID\t\tLLUUID\t}",
   chars! "\t\t{\tSessionID\tLLUUID\t}",
   chars! "\t}",
   chars! "\t{",
   chars! "\t\tEffect Variable",
   chars! "\t\t{\tID\t\t\tLLUUID\t} // unique UUID of the effect",
   chars! "\t\t{\tAgentID\t\tLLUUID\t} // yes, pack AgentID again (note this block is variable)",
   chars! "\t\t{\tType\t\tU8\t} // Type of the effect",
   chars! "\t\t{\tDuration\tF32\t} // F32 time (seconds)",
   chars! "\t\t{\tColor\t\tFixed\t\t4\t} // Color4U",
   chars! "\t\t{\tTypeData\tVariable\t1\t} // Type specific data",
   chars! "\t}",
   chars! "}"]

/-- `ViewerEffect` as the parser creates it. -/
def r439 : RawTemplate :=
  ⟨"ViewerEffect", .medium, 17, [255, 17], some .notTrusted, some .zerocoded, some .notDeprecated,
    [⟨"Effect", .variable, 0, [⟨"TypeData", some .variable, some 1⟩, ⟨"Color", some .fixed, some 4⟩, ⟨"Duration", some .f32, some 4⟩, ⟨"Type", some .u8, some 1⟩, ⟨"AgentID", some .uuid, some 16⟩, ⟨"ID", some .uuid, some 16⟩]⟩,
     ⟨"AgentData", .single, 0, [⟨"SessionID", some .uuid, some 16⟩, ⟨"AgentID", some .uuid, some 16⟩]⟩]⟩

/-- `ViewerEffect` in file order. -/
def t439 : Template :=
  ⟨"ViewerEffect", .medium, 17, [], some .notTrusted, some .zerocoded, some .notDeprecated,
    [⟨"AgentData", .single, 0, [⟨"AgentID", .uuid, 16⟩, ⟨"SessionID", .uuid, 16⟩]⟩,
     ⟨"Effect", .variable, 0, [⟨"ID", .uuid, 16⟩, ⟨"AgentID", .uuid, 16⟩, ⟨"Type", .u8, 1⟩, ⟨"Duration", .f32, 4⟩, ⟨"Color", .fixed, 4⟩, ⟨"TypeData", .variable, 1⟩]⟩]⟩

theorem p439 : ChunkOk c439 r439 := by intro v older; kernel_rfl
theorem k439 : r439.known = some t439 := by kernel_rfl
theorem n439 : t439.name = String.ofList ['V', 'i', 'e', 'w', 'e', 'r', 'E', 'f', 'f', 'e', 'c', 't'] := by kernel_rfl

/-- The names of the blocks and variables of `ViewerEffect`. -/
def b439 : List (List Char × List (List Char)) :=
  [(['A', 'g', 'e', 'n', 't', 'D', 'a', 't', 'a'], [['A', 'g', 'e', 'n', 't', 'I', 'D'], ['S', 'e', 's', 's', 'i', 'o', 'n', 'I', 'D']]),
   (['E', 'f', 'f', 'e', 'c', 't'], [['I', 'D'], ['A', 'g', 'e', 'n', 't', 'I', 'D'], ['T', 'y', 'p', 'e'], ['D', 'u', 'r', 'a', 't', 'i', 'o', 'n'], ['C', 'o', 'l', 'o', 'r'], ['T', 'y', 'p', 'e', 'D', 'a', 't', 'a']])]

theorem w439 : Checked t439 := ⟨b439, by kernel_rfl, by kernel_rfl, by kernel_rfl⟩

/-- Lines of `message_template.msg` up to the end of `CreateTrustedCircuit`. -/
def c440 : List (List Char) :=
  [chars! "",
   chars! "",
   chars! "// CreateTrustedCircuit",
   chars! "// Sent to establish a trust relationship between two components.",
   chars! "// Only sent in response to a DenyTrustedCircuit message.",
   chars! "{",
   chars! "\tCreateTrustedCircuit Low 392 NotTrusted Unencoded",
   chars! "\t{",
   chars! "\t\tDataBlock Single",
   chars! "\t\t{ EndPointID\tLLUUID }",
   chars! "\t\t{ Digest        Fixed 32 } // 32 hex digits == 1 MD5 Digest",
   chars! "\t}",
   chars! "}"]

/-- `CreateTrustedCircuit` as the parser creates it. -/
def r440 : RawTemplate :=
  ⟨"CreateTrustedCircuit", .low, 392, [255, 255, 136], some .notTrusted, some .unencoded, some .notDeprecated,
    [⟨"DataBlock", .single, 0, [⟨"Digest", some .fixed, some 32⟩, ⟨"EndPointID", some .uuid, some 16⟩]⟩]⟩

/-- `CreateTrustedCircuit` in file order. -/
def t440 : Template :=
  ⟨"CreateTrustedCircuit", .low, 392, [], some .notTrusted, some .unencoded, some .notDeprecated,
    [⟨"DataBlock", .single, 0, [⟨"EndPointID", .uuid, 16⟩, ⟨"Digest", .fixed, 32⟩]⟩]⟩

theorem p440 : ChunkOk c440 r440 := by intro v older; kernel_rfl
theorem k440 : r440.known = some t440 := by kernel_rfl
theorem n440 : t440.name = String.ofList ['C', 'r', 'e', 'a', 't', 'e', 'T', 'r', 'u', 's', 't', 'e', 'd', 'C', 'i', 'r', 'c', 'u', 'i', 't'] := by kernel_rfl

/-- The names of the blocks and variables of `CreateTrustedCircuit`. -/
def b440 : List (List Char × List (List Char)) :=
  [(['D', 'a', 't', 'a', 'B', 'l', 'o', 'c', 'k'], [['E', 'n', 'd', 'P', 'o', 'i', 'n', 't', 'I', 'D'], ['D', 'i', 'g', 'e', 's', 't']])]

theorem w440 : Checked t440 := ⟨b440, by kernel_rfl, by kernel_rfl, by kernel_rfl⟩

/-- Lines of `message_template.msg` up to the end of `DenyTrustedCircuit`. -/
def c441 : List (List Char) :=
  [chars! "",
   chars! "// DenyTrustedCircuit",
   chars! "// Sent :",
   chars! "// - in response to failed CreateTrustedCircuit",
   chars! "// - to force the remote end-point to try to establish a trusted circuit",
   chars! "// - the reception of a trusted message on a non-trusted circuit",
   chars! "// This allows us to re-auth a circuit if it gets closed due to timeouts or network failures.",
   chars! "{",
   chars! "\tDenyTrustedCircuit Low 393 NotTrusted Unencoded",
   chars! "\t{",
   chars! "\t\tDataBlock Single",
   chars! "\t\t{ EndPointID\tLLUUID }",
   chars! "\t}",
   chars! "}"]

/-- `DenyTrustedCircuit` as the parser creates it. -/
def r441 : RawTemplate :=
  ⟨"DenyTrustedCircuit", .low, 393, [255, 255, 137], some .notTrusted, some .unencoded, some .notDeprecated,
    [⟨"DataBlock", .single, 0, [⟨"EndPointID", some .uuid, some 16⟩]⟩]⟩

/-- `DenyTrustedCircuit` in file order. -/
def t441 : Template :=
  ⟨"DenyTrustedCircuit", .low, 393, [], some .notTrusted, some .unencoded, some .notDeprecated,
    [⟨"DataBlock", .single, 0, [⟨"EndPointID", .uuid, 16⟩]⟩]⟩

theorem p441 : ChunkOk c441 r441 := by intro v older; kernel_rfl
theorem k441 : r441.known = some t441 := by kernel_rfl
theorem n441 : t441.name = String.ofList ['D', 'e', 'n', 'y', 'T', 'r', 'u', 's', 't', 'e', 'd', 'C', 'i', 'r', 'c', 'u', 'i', 't'] := by kernel_rfl

/-- The names of the blocks and variables of `DenyTrustedCircuit`. -/
def b441 : List (List Char × List (List Char)) :=
  [(['D', 'a', 't', 'a', 'B', 'l', 'o', 'c', 'k'], [['E', 'n', 'd', 'P', 'o', 'i', 'n', 't', 'I', 'D']])]

theorem w441 : Checked t441 := ⟨b441, by kernel_rfl, by kernel_rfl, by kernel_rfl⟩

/-- Lines of `message_template.msg` up to the end of `RequestTrustedCircuit`. -/
def c442 : List (List Char) :=
  [chars! "",
   chars! "// RequestTrustedCircuit",
   chars! "// If the destination does not trust the sender, a Deny is sent back.",
   chars! "{",
   chars! "\tRequestTrustedCircuit Low 394 Trusted Unencoded",
   chars! "}"]

/-- `RequestTrustedCircuit` as the parser creates it. -/
def r442 : RawTemplate :=
  ⟨"RequestTrustedCircuit", .low, 394, [255, 255, 138], some .trusted, some .unencoded, some .notDeprecated,
    []⟩

/-- `RequestTrustedCircuit` in file order. -/
def t442 : Template :=
  ⟨"RequestTrustedCircuit", .low, 394, [], some .trusted, some .unencoded, some .notDeprecated,
    []⟩

theorem p442 : ChunkOk c442 r442 := by intro v older; kernel_rfl
theorem k442 : r442.known = some t442 := by kernel_rfl
theorem n442 : t442.name = String.ofList ['R', 'e', 'q', 'u', 'e', 's', 't', 'T', 'r', 'u', 's', 't', 'e', 'd', 'C', 'i', 'r', 'c', 'u', 'i', 't'] := by kernel_rfl

/-- The names of the blocks and variables of `RequestTrustedCircuit`. -/
def b442 : List (List Char × List (List Char)) :=
  []

theorem w442 : Checked t442 := ⟨b442, by kernel_rfl, by kernel_rfl, by kernel_rfl⟩

/-- Lines of `message_template.msg` up to the end of `RezSingleAttachmentFromInv`. -/
def c443 : List (List Char) :=
  [chars! "",
   chars! "",
   chars! "{",
   chars! "\tRezSingleAttachmentFromInv Low 395 NotTrusted Zerocoded",
   chars! "\t{",
   chars! "\t\tAgentData\t\t\tSingle",
   chars! "\t\t{\tAgentID\t\t\tLLUUID\t}",
   chars! "\t\t{\tSessionID\t\tLLUUID\t}",
   chars! "\t}",
   chars! "\t{",
   chars! "\t\tObjectData\t\t\tSingle",
   chars! "\t\t{\tItemID\t\t\tLLUUID\t}",
   chars! "\t\t{\tOwnerID\t\t\tLLUUID\t}",
   chars! "\t\t{\tAttachmentPt\tU8\t\t}\t// 0 for default",
   chars! "\t\t{\tItemFlags\t\tU32\t\t}",
   chars! "\t\t{\tGroupMask\t\tU32\t\t}",
   chars! "\t\t{\tEveryoneMask\tU32\t\t}",
   chars! "\t\t{\tNextOwnerMask\tU32\t\t}",
   chars! "\t\t{\tName\t\t\tVariable\t1\t}",
   chars! "\t\t{\tDescription\t\tVariable\t1\t}",
   chars! "\t}",
   chars! "}"]

/-- `RezSingleAttachmentFromInv` as the parser creates it. -/
def r443 : RawTemplate :=
  ⟨"RezSingleAttachmentFromInv", .low, 395, [255, 255, 139], some .notTrusted, some .zerocoded, some .notDeprecated,
    [⟨"ObjectData", .single, 0, [⟨"Description", some .variable, some 1⟩, ⟨"Name", some .variable, some 1⟩, ⟨"NextOwnerMask", some .u32, some 4⟩, ⟨"EveryoneMask", some .u32, some 4⟩, ⟨"GroupMask", some .u32, some 4⟩, ⟨"ItemFlags", some .u32, some 4⟩, ⟨"AttachmentPt", some .u8, some 1⟩, ⟨"OwnerID", some .uuid, some 16⟩, ⟨"ItemID", some .uuid, some 16⟩]⟩,
     ⟨"AgentData", .single, 0, [⟨"SessionID", some .uuid, some 16⟩, ⟨"AgentID", some .uuid, some 16⟩]⟩]⟩

/-- `RezSingleAttachmentFromInv` in file order. -/
def t443 : Template :=
  ⟨"RezSingleAttachmentFromInv", .low, 395, [], some .notTrusted, some .zerocoded, some .notDeprecated,
    [⟨"AgentData", .single, 0, [⟨"AgentID", .uuid, 16⟩, ⟨"SessionID", .uuid, 16⟩]⟩,
     ⟨"ObjectData", .single, 0, [⟨"ItemID", .uuid, 16⟩, ⟨"OwnerID", .uuid, 16⟩, ⟨"AttachmentPt", .u8, 1⟩, ⟨"ItemFlags", .u32, 4⟩, ⟨"GroupMask", .u32, 4⟩, ⟨"EveryoneMask", .u32, 4⟩, ⟨"NextOwnerMask", .u32, 4⟩, ⟨"Name", .variable, 1⟩, ⟨"Description", .variable, 1⟩]⟩]⟩

theorem p443 : ChunkOk c443 r443 := by intro v older; kernel_rfl
theorem k443 : r443.known = some t443 := by kernel_rfl
theorem n443 : t443.name = String.ofList ['R', 'e', 'z', 'S', 'i', 'n', 'g', 'l', 'e', 'A', 't', 't', 'a', 'c', 'h', 'm', 'e', 'n', 't', 'F', 'r', 'o', 'm', 'I', 'n', 'v'] := by kernel_rfl

/-- The names of the blocks and variables of `RezSingleAttachmentFromInv`. -/
def b443 : List (List Char × List (List Char)) :=
  [(['A', 'g', 'e', 'n', 't', 'D', 'a', 't', 'a'], [['A', 'g', 'e', 'n', 't', 'I', 'D'], ['S', 'e', 's', 's', 'i', 'o', 'n', 'I', 'D']]),
   (['O', 'b', 'j', 'e', 'c', 't', 'D', 'a', 't', 'a'], [['I', 't', 'e', 'm', 'I', 'D'], ['O', 'w', 'n', 'e', 'r', 'I', 'D'], ['A', 't', 't', 'a', 'c', 'h', 'm', 'e', 'n', 't', 'P', 't'], ['I', 't', 'e', 'm', 'F', 'l', 'a', 'g', 's'], ['G', 'r', 'o', 'u', 'p', 'M', 'a', 's', 'k'], ['E', 'v', 'e', 'r', 'y', 'o', 'n', 'e', 'M', 'a', 's', 'k'], ['N', 'e', 'x', 't', 'O', 'w', 'n', 'e', 'r', 'M', 'a', 's', 'k'], ['N', 'a', 'm', 'e'], ['D', 'e', 's', 'c', 'r', 'i', 'p', 't', 'i', 'o', 'n']])]

theorem w443 : Checked t443 := ⟨b443, by kernel_rfl, by kernel_rfl, by kernel_rfl⟩

/-- Lines of `message_template.msg` up to the end of `RezMultipleAttachmentsFromInv`. -/
def c444 : List (List Char) :=
  [chars! "",
   chars! "{",
   chars! "\tRezMultipleAttachmentsFromInv Low 396 NotTrusted Zerocoded",
   chars! "\t{",
   chars! "\t\tAgentData\t\t\tSingle",
   chars! "\t\t{\tAgentID\t\t\tLLUUID\t}",
   chars! "\t\t{\tSessionID\t\tLLUUID\t}",
   chars! "\t}\t",
   chars! "\t{",
   chars! "\t\tHeaderData\t\t\tSingle",
   chars! "\t\t{\tCompoundMsgID\t\t\tLLUUID  }\t// All messages a single \"compound msg\" must have the same id",
   chars! "\t\t{\tTotalObjects\t\t\tU8\t}",
   chars! "\t\t{\tFirstDetachAll\t\t\tBOOL\t}",
   chars! "\t}",
   chars! "\t{",
   chars! "\t\tObjectData\t\t\tVariable\t\t// 1 to 4 of these per packet",
   chars! "\t\t{\tItemID\t\t\t\t\tLLUUID\t}",
   chars! "\t\t{\tOwnerID\t\t\t\t\tLLUUID\t}",
   chars! "\t\t{\tAttachmentPt\t\t\tU8\t}\t// 0 for default",
   chars! "\t\t{\tItemFlags\t\t\t\tU32 }",
   chars! "\t\t{\tGroupMask\t\t\t\tU32 }",
   chars! "\t\t{\tEveryoneMask\t\t\tU32 }",
   chars! "\t\t{\tNextOwnerMask\t\t\tU32\t}",
   chars! "\t\t{\tName\t\t\t\t\tVariable\t1\t}",
   chars! "\t\t{\tDescription\t\t\t\tVariable\t1\t}",
   chars! "\t}",
   chars! "}"]

/-- `RezMultipleAttachmentsFromInv` as the parser creates it. -/
def r444 : RawTemplate :=
  ⟨"RezMultipleAttachmentsFromInv", .low, 396, [255, 255, 140], some .notTrusted, some .zerocoded, some .notDeprecated,
    [⟨"ObjectData", .variable, 0, [⟨"Description", some .variable, some 1⟩, ⟨"Name", some .variable, some 1⟩, ⟨"NextOwnerMask", some .u32, some 4⟩, ⟨"EveryoneMask", some .u32, some 4⟩, ⟨"GroupMask", some .u32, some 4⟩, ⟨"ItemFlags", some .u32, some 4⟩, ⟨"AttachmentPt", some .u8, some 1⟩, ⟨"OwnerID", some .uuid, some 16⟩, ⟨"ItemID", some .uuid, some 16⟩]⟩,
     ⟨"HeaderData", .single, 0, [⟨"FirstDetachAll", some .bool, some 1⟩, ⟨"TotalObjects", some .u8, some 1⟩, ⟨"CompoundMsgID", some .uuid, some 16⟩]⟩,
     ⟨"AgentData", .single, 0, [⟨"SessionID", some .uuid, some 16⟩, ⟨"AgentID", some .uuid, some 16⟩]⟩]⟩

/-- `RezMultipleAttachmentsFromInv` in file order. -/
def t444 : Template :=
  ⟨"RezMultipleAttachmentsFromInv", .low, 396, [], some .notTrusted, some .zerocoded, some .notDeprecated,
    [⟨"AgentData", .single, 0, [⟨"AgentID", .uuid, 16⟩, ⟨"SessionID", .uuid, 16⟩]⟩,
     ⟨"HeaderData", .single, 0, [⟨"CompoundMsgID", .uuid, 16⟩, ⟨"TotalObjects", .u8, 1⟩, ⟨"FirstDetachAll", .bool, 1⟩]⟩,
     ⟨"ObjectData", .variable, 0, [⟨"ItemID", .uuid, 16⟩, ⟨"OwnerID", .uuid, 16⟩, ⟨"AttachmentPt", .u8, 1⟩, ⟨"ItemFlags", .u32, 4⟩, ⟨"GroupMask", .u32, 4⟩, ⟨"EveryoneMask", .u32, 4⟩, ⟨"NextOwnerMask", .u32, 4⟩, ⟨"Name", .variable, 1⟩, ⟨"Description", .variable, 1⟩]⟩]⟩

theorem p444 : ChunkOk c444 r444 := by intro v older; kernel_rfl
theorem k444 : r444.known = some t444 := by kernel_rfl
theorem n444 : t444.name = String.ofList ['R', 'e', 'z', 'M', 'u', 'l', 't', 'i', 'p', 'l', 'e', 'A', 't', 't', 'a', 'c', 'h', 'm', 'e', 'n', 't', 's', 'F', 'r', 'o', 'm', 'I', 'n', 'v'] := by kernel_rfl

/-- The names of the blocks and variables of `RezMultipleAttachmentsFromInv`. -/
def b444 : List (List Char × List (List Char)) :=
  [(['A', 'g', 'e', 'n', 't', 'D', 'a', 't', 'a'], [['A', 'g', 'e', 'n', 't', 'I', 'D'], ['S', 'e', 's', 's', 'i', 'o', 'n', 'I', 'D']]),
   (['H', 'e', 'a', 'd', 'e', 'r', 'D', 'a', 't', 'a'], [['C', 'o', 'm', 'p', 'o', 'u', 'n', 'd', 'M', 's', 'g', 'I', 'D'], ['T', 'o', 't', 'a', 'l', 'O', 'b', 'j', 'e', 'c', 't', 's'], ['F', 'i', 'r', 's', 't', 'D', 'e', 't', 'a', 'c', 'h', 'A', 'l', 'l']]),
   (['O', 'b', 'j', 'e', 'c', 't', 'D', 'a', 't', 'a'], [['I', 't', 'e', 'm', 'I', 'D'], ['O', 'w', 'n', 'e', 'r', 'I', 'D'], ['A', 't', 't', 'a', 'c', 'h', 'm', 'e', 'n', 't', 'P', 't'], ['I', 't', 'e', 'm', 'F', 'l', 'a', 'g', 's'], ['G', 'r', 'o', 'u', 'p', 'M', 'a', 's', 'k'], ['E', 'v', 'e', 'r', 'y', 'o', 'n', 'e', 'M', 'a', 's', 'k'], ['N', 'e', 'x', 't', 'O', 'w', 'n', 'e', 'r', 'M', 'a', 's', 'k'], ['N', 'a', 'm', 'e'], ['D', 'e', 's', 'c', 'r', 'i', 'p', 't', 'i', 'o', 'n']])]

theorem w444 : Checked t444 := ⟨b444, by kernel_rfl, by kernel_rfl, by kernel_rfl⟩

/-- Lines of `message_template.msg` up to the end of `DetachAttachmentIntoInv`. -/
def c445 : List (List Char) :=
  [chars! "",
   chars! "",
   chars! "{",
   chars! "\tDetachAttachmentIntoInv Low 397 NotTrusted Unencoded",
   chars! "\t{",
   chars! "\t\tObjectData\t\t\tSingle",
   chars! "\t\t{\tAgentID\t\t\t\t\tLLUUID  }",
   chars! "\t\t{\tItemID\t\t\t\t\tLLUUID\t}",
   chars! "\t}",
   chars! "}"]

/-- `DetachAttachmentIntoInv` as the parser creates it. -/
def r445 : RawTemplate :=
  ⟨"DetachAttachmentIntoInv", .low, 397, [255, 255, 141], some .notTrusted, some .unencoded, some .notDeprecated,
    [⟨"ObjectData", .single, 0, [⟨"ItemID", some .uuid, some 16⟩, ⟨"AgentID", some .uuid, some 16⟩]⟩]⟩

/-- `DetachAttachmentIntoInv` in file order. -/
def t445 : Template :=
  ⟨"DetachAttachmentIntoInv", .low, 397, [], some .notTrusted, some .unencoded, some .notDeprecated,
    [⟨"ObjectData", .single, 0, [⟨"AgentID", .uuid, 16⟩, ⟨"ItemID", .uuid, 16⟩]⟩]⟩

theorem p445 : ChunkOk c445 r445 := by intro v older; kernel_rfl
theorem k445 : r445.known = some t445 := by kernel_rfl
theorem n445 : t445.name = String.ofList ['D', 'e', 't', 'a', 'c', 'h', 'A', 't', 't', 'a', 'c', 'h', 'm', 'e', 'n', 't', 'I', 'n', 't', 'o', 'I', 'n', 'v'] := by kernel_rfl

/-- The names of the blocks and variables of `DetachAttachmentIntoInv`. -/
def b445 : List (List Char × List (List Char)) :=
  [(['O', 'b', 'j', 'e', 'c', 't', 'D', 'a', 't', 'a'], [['A', 'g', 'e', 'n', 't', 'I', 'D'], ['I', 't', 'e', 'm', 'I', 'D']])]

theorem w445 : Checked t445 := ⟨b445, by kernel_rfl, by kernel_rfl, by kernel_rfl⟩

/-- Lines of `message_template.msg` up to the end of `CreateNewOutfitAttachments`. -/
def c446 : List (List Char) :=
  [chars! "",
   chars! "",
   chars! "// Viewer -> Sim",
   chars! "// Used in \"Make New Outfit\"",
   chars! "{",
   chars! "\tCreateNewOutfitAttachments  Low 398 NotTrusted Unencoded",
   chars! "\t{",
   chars! "\t\tAgentData\t\tSingle",
   chars! "\t\t{\tAgentID\t\tLLUUID\t}",
   chars! "\t\t{\tSessionID\tLLUUID\t}",
   chars! "\t}",
   chars! "\t{",
   chars! "\t\tHeaderData\t\t\tSingle",
   chars! "\t\t{\tNewFolderID\t\t\tLLUUID\t}",
   chars! "\t}",
   chars! "\t{",
   chars! "\t\tObjectData\t\t\tVariable",
   chars! "\t\t{\tOldItemID\t\t\tLLUUID\t}",
   chars! "\t\t{\tOldFolderID\t\t\tLLUUID\t}",
   chars! "\t}",
   chars! "}"]

/-- `CreateNewOutfitAttachments` as the parser creates it. -/
def r446 : RawTemplate :=
  ⟨"CreateNewOutfitAttachments", .low, 398, [255, 255, 142], some .notTrusted, some .unencoded, some .notDeprecated,
    [⟨"ObjectData", .variable, 0, [⟨"OldFolderID", some .uuid, some 16⟩, ⟨"OldItemID", some .uuid, some 16⟩]⟩,
     ⟨"HeaderData", .single, 0, [⟨"NewFolderID", some .uuid, some 16⟩]⟩,
     ⟨"AgentData", .single, 0, [⟨"SessionID", some .uuid, some 16⟩, ⟨"AgentID", some .uuid, some 16⟩]⟩]⟩

/-- `CreateNewOutfitAttachments` in file order. -/
def t446 : Template :=
  ⟨"CreateNewOutfitAttachments", .low, 398, [], some .notTrusted, some .unencoded, some .notDeprecated,
    [⟨"AgentData", .single, 0, [⟨"AgentID", .uuid, 16⟩, ⟨"SessionID", .uuid, 16⟩]⟩,
     ⟨"HeaderData", .single, 0, [⟨"NewFolderID", .uuid, 16⟩]⟩,
     ⟨"ObjectData", .variable, 0, [⟨"OldItemID", .uuid, 16⟩, ⟨"OldFolderID", .uuid, 16⟩]⟩]⟩

theorem p446 : ChunkOk c446 r446 := by intro v older; kernel_rfl
theorem k446 : r446.known = some t446 := by kernel_rfl
theorem n446 : t446.name = String.ofList ['C', 'r', 'e', 'a', 't', 'e', 'N', 'e', 'w', 'O', 'u', 't', 'f', 'i', 't', 'A', 't', 't', 'a', 'c', 'h', 'm', 'e', 'n', 't', 's'] := by kernel_rfl

/-- The names of the blocks and variables of `CreateNewOutfitAttachments`. -/
def b446 : List (List Char × List (List Char)) :=
  [(['A', 'g', 'e', 'n', 't', 'D', 'a', 't', 'a'], [['A', 'g', 'e', 'n', 't', 'I', 'D'], ['S', 'e', 's', 's', 'i', 'o', 'n', 'I', 'D']]),
   (['H', 'e', 'a', 'd', 'e', 'r', 'D', 'a', 't', 'a'], [['N', 'e', 'w', 'F', 'o', 'l', 'd', 'e', 'r', 'I', 'D']]),
   (['O', 'b', 'j', 'e', 'c', 't', 'D', 'a', 't', 'a'], [['O', 'l', 'd', 'I', 't', 'e', 'm', 'I', 'D'], ['O', 'l', 'd', 'F', 'o', 'l', 'd', 'e', 'r', 'I', 'D']])]

theorem w446 : Checked t446 := ⟨b446, by kernel_rfl, by kernel_rfl, by kernel_rfl⟩

/-- Lines of `message_template.msg` up to the end of `UserInfoRequest`. -/
def c447 : List (List Char) :=
  [chars! "",
   chars! "//-----------------------------------------------------------------------------",
   chars! "// Personal information messages",
   chars! "//-----------------------------------------------------------------------------",
   chars! "",
   chars! "{",
   chars! "\tUserInfoRequest\tLow\t399 NotTrusted Unencoded",
   chars! "\t{",
   chars! "\t\tAgentData\tSingle",
   chars! "\t\t{\tAgentID\t\tLLUUID\t}",
   chars! "\t\t{\tSessionID\tLLUUID\t}",
   chars! "\t}",
   chars! "}"]

/-- `UserInfoRequest` as the parser creates it. -/
def r447 : RawTemplate :=
  ⟨"UserInfoRequest", .low, 399, [255, 255, 143], some .notTrusted, some .unencoded, some .notDeprecated,
    [⟨"AgentData", .single, 0, [⟨"SessionID", some .uuid, some 16⟩, ⟨"AgentID", some .uuid, some 16⟩]⟩]⟩

/-- `UserInfoRequest` in file order. -/
def t447 : Template :=
  ⟨"UserInfoRequest", .low, 399, [], some .notTrusted, some .unencoded, some .notDeprecated,
    [⟨"AgentData", .single, 0, [⟨"AgentID", .uuid, 16⟩, ⟨"SessionID", .uuid, 16⟩]⟩]⟩

theorem p447 : ChunkOk c447 r447 := by intro v older; kernel_rfl
theorem k447 : r447.known = some t447 := by kernel_rfl
theorem n447 : t447.name = String.ofList ['U', 's', 'e', 'r', 'I', 'n', 'f', 'o', 'R', 'e', 'q', 'u', 'e', 's', 't'] := by kernel_rfl

/-- The names of the blocks and variables of `UserInfoRequest`. -/
def b447 : List (List Char × List (List Char)) :=
  [(['A', 'g', 'e', 'n', 't', 'D', 'a', 't', 'a'], [['A', 'g', 'e', 'n', 't', 'I', 'D'], ['S', 'e', 's', 's', 'i', 'o', 'n', 'I', 'D']])]

theorem w447 : Checked t447 := ⟨b447, by kernel_rfl, by kernel_rfl, by kernel_rfl⟩

/-- Lines of `message_template.msg` up to the end of `UserInfoReply`. -/
def c448 : List (List Char) :=
  [chars! "",
   chars! "{",
   chars! "\tUserInfoReply\tLow\t400 NotTrusted Unencoded",
   chars! "\t{",
   chars! "\t\tAgentData\tSingle",
   chars! "\t\t{\tAgentID\tLLUUID\t}",
   chars! "\t}",
   chars! "\t{",
   chars! "\t\tUserData\tSingle",
   chars! "\t\t{\tIMViaEMail\tBOOL\t}",
   chars! "\t\t{\tDirectoryVisibility\tVariable 1\t}",
   chars! "\t\t{\tEMail\t\tVariable\t2\t}",
   chars! "\t}",
   chars! "}"]

/-- `UserInfoReply` as the parser creates it. -/
def r448 : RawTemplate :=
  ⟨"UserInfoReply", .low, 400, [255, 255, 144], some .notTrusted, some .unencoded, some .notDeprecated,
    [⟨"UserData", .single, 0, [⟨"EMail", some .variable, some 2⟩, ⟨"DirectoryVisibility", some .variable, some 1⟩, ⟨"IMViaEMail", some .bool, some 1⟩]⟩,
     ⟨"AgentData", .single, 0, [⟨"AgentID", some .uuid, some 16⟩]⟩]⟩

/-- `UserInfoReply` in file order. -/
def t448 : Template :=
  ⟨"UserInfoReply", .low, 400, [], some .notTrusted, some .unencoded, some .notDeprecated,
    [⟨"AgentData", .single, 0, [⟨"AgentID", .uuid, 16⟩]⟩,
     ⟨"UserData", .single, 0, [⟨"IMViaEMail", .bool, 1⟩, ⟨"DirectoryVisibility", .variable, 1⟩, ⟨"EMail", .variable, 2⟩]⟩]⟩

theorem p448 : ChunkOk c448 r448 := by intro v older; kernel_rfl
theorem k448 : r448.known = some t448 := by kernel_rfl
theorem n448 : t448.name = String.ofList ['U', 's', 'e', 'r', 'I', 'n', 'f', 'o', 'R', 'e', 'p', 'l', 'y'] := by kernel_rfl

/-- The names of the blocks and variables of `UserInfoReply`. -/
def b448 : List (List Char × List (List Char)) :=
  [(['A', 'g', 'e', 'n', 't', 'D', 'a', 't', 'a'], [['A', 'g', 'e', 'n', 't', 'I', 'D']]),
   (['U', 's', 'e', 'r', 'D', 'a', 't', 'a'], [['I', 'M', 'V', 'i', 'a', 'E', 'M', 'a', 'i', 'l'], ['D', 'i', 'r', 'e', 'c', 't', 'o', 'r', 'y', 'V', 'i', 's', 'i', 'b', 'i', 'l', 'i', 't', 'y'], ['E', 'M', 'a', 'i', 'l']])]

theorem w448 : Checked t448 := ⟨b448, by kernel_rfl, by kernel_rfl, by kernel_rfl⟩

/-- Lines of `message_template.msg` up to the end of `UpdateUserInfo`. -/
def c449 : List (List Char) :=
  [chars! "",
   chars! "{",
   chars! "\tUpdateUserInfo\tLow\t401 NotTrusted Unencoded",
   chars! "\t{",
   chars! "\t\tAgentData\tSingle",
   chars! "\t\t{\tAgentID\t\tLLUUID\t}",
   chars! "\t\t{\tSessionID\tLLUUID\t}",
   chars! "\t}",
   chars! "\t{",
   chars! "\t\tUserData\tSingle",
   chars! "\t\t{\tIMViaEMail\tBOOL\t}",
   chars! "\t\t{\tDirectoryVisibility\tVariable 1\t}",
   chars! "\t}",
   chars! "}"]

/-- `UpdateUserInfo` as the parser creates it. -/
def r449 : RawTemplate :=
  ⟨"UpdateUserInfo", .low, 401, [255, 255, 145], some .notTrusted, some .unencoded, some .notDeprecated,
    [⟨"UserData", .single, 0, [⟨"DirectoryVisibility", some .variable, some 1⟩, ⟨"IMViaEMail", some .bool, some 1⟩]⟩,
     ⟨"AgentData", .single, 0, [⟨"SessionID", some .uuid, some 16⟩, ⟨"AgentID", some .uuid, some 16⟩]⟩]⟩

/-- `UpdateUserInfo` in file order. -/
def t449 : Template :=
  ⟨"UpdateUserInfo", .low, 401, [], some .notTrusted, some .unencoded, some .notDeprecated,
    [⟨"AgentData", .single, 0, [⟨"AgentID", .uuid, 16⟩, ⟨"SessionID", .uuid, 16⟩]⟩,
     ⟨"UserData", .single, 0, [⟨"IMViaEMail", .bool, 1⟩, ⟨"DirectoryVisibility", .variable, 1⟩]⟩]⟩

theorem p449 : ChunkOk c449 r449 := by intro v older; kernel_rfl
theorem k449 : r449.known = some t449 := by kernel_rfl
theorem n449 : t449.name = String.ofList ['U', 'p', 'd', 'a', 't', 'e', 'U', 's', 'e', 'r', 'I', 'n', 'f', 'o'] := by kernel_rfl

/-- The names of the blocks and variables of `UpdateUserInfo`. -/
def b449 : List (List Char × List (List Char)) :=
  [(['A', 'g', 'e', 'n', 't', 'D', 'a', 't', 'a'], [['A', 'g', 'e', 'n', 't', 'I', 'D'], ['S', 'e', 's', 's', 'i', 'o', 'n', 'I', 'D']]),
   (['U', 's', 'e', 'r', 'D', 'a', 't', 'a'], [['I', 'M', 'V', 'i', 'a', 'E', 'M', 'a', 'i', 'l'], ['D', 'i', 'r', 'e', 'c', 't', 'o', 'r', 'y', 'V', 'i', 's', 'i', 'b', 'i', 'l', 'i', 't', 'y']])]

theorem w449 : Checked t449 := ⟨b449, by kernel_rfl, by kernel_rfl, by kernel_rfl⟩

/-- Lines of `message_template.msg` up to the end of `ParcelRename`. -/
def c450 : List (List Char) :=
  [chars! "",
   chars! "",
   chars! "//-----------------------------------------------------------------------------",
   chars! "// System operations and maintenance",
   chars! "//-----------------------------------------------------------------------------",
   chars! "",
   chars! "",
   chars! "// spaceserver -> sim",
   chars! "// tell a particular simulator to rename a parcel",
   chars! "{",
   chars! "\tParcelRename\tLow\t402 Trusted Unencoded",
   chars! "\t{",
   chars! "\t\tParcelData \t\tVariable",
   chars! "\t\t{\tParcelID\t\tLLUUID\t}",
   chars! "\t\t{\tNewName\t\t\tVariable\t1\t}\t// string",
   chars! "\t}",
   chars! "}"]

/-- `ParcelRename` as the parser creates it. -/
def r450 : RawTemplate :=
  ⟨"ParcelRename", .low, 402, [255, 255, 146], some .trusted, some .unencoded, some .notDeprecated,
    [⟨"ParcelData", .variable, 0, [⟨"NewName", some .variable, some 1⟩, ⟨"ParcelID", some .uuid, some 16⟩]⟩]⟩

/-- `ParcelRename` in file order. -/
def t450 : Template :=
  ⟨"ParcelRename", .low, 402, [], some .trusted, some .unencoded, some .notDeprecated,
    [⟨"ParcelData", .variable, 0, [⟨"ParcelID", .uuid, 16⟩, ⟨"NewName", .variable, 1⟩]⟩]⟩

theorem p450 : ChunkOk c450 r450 := by intro v older; kernel_rfl
theorem k450 : r450.known = some t450 := by kernel_rfl
theorem n450 : t450.name = String.ofList ['P', 'a', 'r', 'c', 'e', 'l', 'R', 'e', 'n', 'a', 'm', 'e'] := by kernel_rfl

/-- The names of the blocks and variables of `ParcelRename`. -/
def b450 : List (List Char × List (List Char)) :=
  [(['P', 'a', 'r', 'c', 'e', 'l', 'D', 'a', 't', 'a'], [['P', 'a', 'r', 'c', 'e', 'l', 'I', 'D'], ['N', 'e', 'w', 'N', 'a', 'm', 'e']])]

theorem w450 : Checked t450 := ⟨b450, by kernel_rfl, by kernel_rfl, by kernel_rfl⟩

/-- Lines of `message_template.msg` up to the end of `InitiateDownload`. -/
def c451 : List (List Char) :=
  [chars! "",
   chars! "",
   chars! "// sim -> viewer",
   chars! "// initiate upload. primarily used for uploading raw files.",
   chars! "{",
   chars! "\tInitiateDownload\tLow\t403 \tNotTrusted Unencoded",
   chars! "\t{",
   chars! "\t\tAgentData\tSingle",
   chars! "\t\t{\tAgentID\t\tLLUUID\t}",
   chars! "\t}",
   chars! "\t{",
   chars! "\t\tFileData\tSingle",
   chars! "\t\t{\tSimFilename\t\tVariable\t1\t}\t// string",
   chars! "\t\t{\tViewerFilename\tVariable\t1\t}\t// string",
   chars! "\t}",
   chars! "}"]

/-- `InitiateDownload` as the parser creates it. -/
def r451 : RawTemplate :=
  ⟨"InitiateDownload", .low, 403, [255, 255, 147], some .notTrusted, some .unencoded, some .notDeprecated,
    [⟨"FileData", .single, 0, [⟨"ViewerFilename", some .variable, some 1⟩, ⟨"SimFilename", some .variable, some 1⟩]⟩,
     ⟨"AgentData", .single, 0, [⟨"AgentID", some .uuid, some 16⟩]⟩]⟩

/-- `InitiateDownload` in file order. -/
def t451 : Template :=
  ⟨"InitiateDownload", .low, 403, [], some .notTrusted, some .unencoded, some .notDeprecated,
    [⟨"AgentData", .single, 0, [⟨"AgentID", .uuid, 16⟩]⟩,
     ⟨"FileData", .single, 0, [⟨"SimFilename", .variable, 1⟩, ⟨"ViewerFilename", .variable, 1⟩]⟩]⟩

theorem p451 : ChunkOk c451 r451 := by intro v older; kernel_rfl
theorem k451 : r451.known = some t451 := by kernel_rfl
theorem n451 : t451.name = String.ofList ['I', 'n', 'i', 't', 'i', 'a', 't', 'e', 'D', 'o', 'w', 'n', 'l', 'o', 'a', 'd'] := by kernel_rfl

/-- The names of the blocks and variables of `InitiateDownload`. -/
def b451 : List (List Char × List (List Char)) :=
  [(['A', 'g', 'e', 'n', 't', 'D', 'a', 't', 'a'], [['A', 'g', 'e', 'n', 't', 'I', 'D']]),
   (['F', 'i', 'l', 'e', 'D', 'a', 't', 'a'], [['S', 'i', 'm', 'F', 'i', 'l', 'e', 'n', 'a', 'm', 'e'], ['V', 'i', 'e', 'w', 'e', 'r', 'F', 'i', 'l', 'e', 'n', 'a', 'm', 'e']])]

theorem w451 : Checked t451 := ⟨b451, by kernel_rfl, by kernel_rfl, by kernel_rfl⟩

/-- Lines of `message_template.msg` up to the end of `SystemMessage`. -/
def c452 : List (List Char) :=
  [chars! "",
   chars! "// Generalized system message. Each Requst has its own protocol for",
   chars! "// the StringData block format and contents.",
   chars! "{",
   chars! "    SystemMessage Low 404 Trusted Zerocoded",
   chars! "\t{",
   chars! "\t\tMethodData\t \tSingle",
   chars! "\t\t{\tMethod\t\tVariable 1\t}",
   chars! "\t\t{\tInvoice\t\tLLUUID\t\t}",
   chars! "\t\t{\tDigest\t\tFixed 32\t} // 32 hex digits == 1 MD5 Digest",
   chars! "\t}",
   chars! "\t{",
   chars! "\t\tParamList\t\tVariable",
   chars! "\t\t{\tParameter\tVariable 1 }",
   chars! "\t}",
   chars! "}"]

/-- `SystemMessage` as the parser creates it. -/
def r452 : RawTemplate :=
  ⟨"SystemMessage", .low, 404, [255, 255, 148], some .trusted, some .zerocoded, some .notDeprecated,
    [⟨"ParamList", .variable, 0, [⟨"Parameter", some .variable, some 1⟩]⟩,
     ⟨"MethodData", .single, 0, [⟨"Digest", some .fixed, some 32⟩, ⟨"Invoice", some .uuid, some 16⟩, ⟨"Method", some .variable, some 1⟩]⟩]⟩

/-- `SystemMessage` in file order. -/
def t452 : Template :=
  ⟨"SystemMessage", .low, 404, [], some .trusted, some .zerocoded, some .notDeprecated,
    [⟨"MethodData", .single, 0, [⟨"Method", .variable, 1⟩, ⟨"Invoice", .uuid, 16⟩, ⟨"Digest", .fixed, 32⟩]⟩,
     ⟨"ParamList", .variable, 0, [⟨"Parameter", .variable, 1⟩]⟩]⟩

theorem p452 : ChunkOk c452 r452 := by intro v older; kernel_rfl
theorem k452 : r452.known = some t452 := by kernel_rfl
theorem n452 : t452.name = String.ofList ['S', 'y', 's', 't', 'e', 'm', 'M', 'e', 's', 's', 'a', 'g', 'e'] := by kernel_rfl

/-- The names of the blocks and variables of `SystemMessage`. -/
def b452 : List (List Char × List (List Char)) :=
  [(['M', 'e', 't', 'h', 'o', 'd', 'D', 'a', 't', 'a'], [['M', 'e', 't', 'h', 'o', 'd'], ['I', 'n', 'v', 'o', 'i', 'c', 'e'], ['D', 'i', 'g', 'e', 's', 't']]),
   (['P', 'a', 'r', 'a', 'm', 'L', 'i', 's', 't'], [['P', 'a', 'r', 'a', 'm', 'e', 't', 'e', 'r']])]

theorem w452 : Checked t452 := ⟨b452, by kernel_rfl, by kernel_rfl, by kernel_rfl⟩

/-- Lines of `message_template.msg` up to the end of `MapLayerRequest`. -/
def c453 : List (List Char) :=
  [chars! "",
   chars! "",
   chars! "//-----------------------------------------------------------------------------",
   chars! "// map messages",
   chars! "//-----------------------------------------------------------------------------",
   chars! "",
   chars! "// viewer -> sim",
   chars! "// reliable",
   chars! "// This message is sent up from the viewer to (eventually) get a list",
   chars! "// of all map layers and NULL-layer sims.",
   chars! "// Returns: MapLayerReply and MapBlockReply",
   chars! "{",
   chars! "\tMapLayerRequest\tLow\t405 \tNotTrusted Unencoded",
   chars! "\t{",
   chars! "\t\tAgentData\t\tSingle",
   chars! "\t\t{\tAgentID\t\tLLUUID\t}",
   chars! "\t\t{\tSessionID\tLLUUID\t}",
   chars! "\t\t{\tFlags\t\tU32\t\t}",
   chars! "\t\t{\tEstateID\tU32\t\t}\t// filled in on sim",
   chars! "\t\t{\tGodlike\t\tBOOL\t}\t// filled in on sim",
   chars! "\t}",
   chars! "}"]

/-- `MapLayerRequest` as the parser creates it. -/
def r453 : RawTemplate :=
  ⟨"MapLayerRequest", .low, 405, [255, 255, 149], some .notTrusted, some .unencoded, some .notDeprecated,
    [⟨"AgentData", .single, 0, [⟨"Godlike", some .bool, some 1⟩, ⟨"EstateID", some .u32, some 4⟩, ⟨"Flags", some .u32, some 4⟩, ⟨"SessionID", some .uuid, some 16⟩, ⟨"AgentID", some .uuid, some 16⟩]⟩]⟩

/-- `MapLayerRequest` in file order. -/
def t453 : Template :=
  ⟨"MapLayerRequest", .low, 405, [], some .notTrusted, some .unencoded, some .notDeprecated,
    [⟨"AgentData", .single, 0, [⟨"AgentID", .uuid, 16⟩, ⟨"SessionID", .uuid, 16⟩, ⟨"Flags", .u32, 4⟩, ⟨"EstateID", .u32, 4⟩, ⟨"Godlike", .bool, 1⟩]⟩]⟩

theorem p453 : ChunkOk c453 r453 := by intro v older; kernel_rfl
theorem k453 : r453.known = some t453 := by kernel_rfl
theorem n453 : t453.name = String.ofList ['M', 'a', 'p', 'L', 'a', 'y', 'e', 'r', 'R', 'e', 'q', 'u', 'e', 's', 't'] := by kernel_rfl

/-- The names of the blocks and variables of `MapLayerRequest`. -/
def b453 : List (List Char × List (List Char)) :=
  [(['A', 'g', 'e', 'n', 't', 'D', 'a', 't', 'a'], [['A', 'g', 'e', 'n', 't', 'I', 'D'], ['S', 'e', 's', 's', 'i', 'o', 'n', 'I', 'D'], ['F', 'l', 'a', 'g', 's'], ['E', 's', 't', 'a', 't', 'e', 'I', 'D'], ['G', 'o', 'd', 'l', 'i', 'k', 'e']])]

theorem w453 : Checked t453 := ⟨b453, by kernel_rfl, by kernel_rfl, by kernel_rfl⟩

/-- Lines of `message_template.msg` up to the end of `MapLayerReply`. -/
def c454 : List (List Char) :=
  [chars! "",
   chars! "// sim -> viewer",
   chars! "{",
   chars! "\tMapLayerReply Low\t406 Trusted Unencoded",
   chars! "\t{",
   chars! "\t\tAgentData\t\tSingle",
   chars! "\t\t{\tAgentID\t\tLLUUID\t}",
   chars! "\t\t{\tFlags\t\tU32\t\t}",
   chars! "\t}",
   chars! "\t{",
   chars! "\t\tLayerData\t\tVariable",
   chars! "\t\t{\tLeft\t\tU32\t\t}",
   chars! "\t\t{\tRight\t\tU32\t\t}",
   chars! "\t\t{\tTop\t\t\tU32\t\t}",
   chars! "\t\t{\tBottom\t\tU32\t\t}",
   chars! "\t\t{\tImageID\t\tLLUUID\t}",
   chars! "\t}",
   chars! "}"]

/-- `MapLayerReply` as the parser creates it. -/
def r454 : RawTemplate :=
  ⟨"MapLayerReply", .low, 406, [255, 255, 150], some .trusted, some .unencoded, some .notDeprecated,
    [⟨"LayerData", .variable, 0, [⟨"ImageID", some .uuid, some 16⟩, ⟨"Bottom", some .u32, some 4⟩, ⟨"Top", some .u32, some 4⟩, ⟨"Right", some .u32, some 4⟩, ⟨"Left", some .u32, some 4⟩]⟩,
     ⟨"AgentData", .single, 0, [⟨"Flags", some .u32, some 4⟩, ⟨"AgentID", some .uuid, some 16⟩]⟩]⟩

/-- `MapLayerReply` in file order. -/
def t454 : Template :=
  ⟨"MapLayerReply", .low, 406, [], some .trusted, some .unencoded, some .notDeprecated,
    [⟨"AgentData", .single, 0, [⟨"AgentID", .uuid, 16⟩, ⟨"Flags", .u32, 4⟩]⟩,
     ⟨"LayerData", .variable, 0, [⟨"Left", .u32, 4⟩, ⟨"Right", .u32, 4⟩, ⟨"Top", .u32, 4⟩, ⟨"Bottom", .u32, 4⟩, ⟨"ImageID", .uuid, 16⟩]⟩]⟩

theorem p454 : ChunkOk c454 r454 := by intro v older; kernel_rfl
theorem k454 : r454.known = some t454 := by kernel_rfl
theorem n454 : t454.name = String.ofList ['M', 'a', 'p', 'L', 'a', 'y', 'e', 'r', 'R', 'e', 'p', 'l', 'y'] := by kernel_rfl

/-- The names of the blocks and variables of `MapLayerReply`. -/
def b454 : List (List Char × List (List Char)) :=
  [(['A', 'g', 'e', 'n', 't', 'D', 'a', 't', 'a'], [['A', 'g', 'e', 'n', 't', 'I', 'D'], ['F', 'l', 'a', 'g', 's']]),
   (['L', 'a', 'y', 'e', 'r', 'D', 'a', 't', 'a'], [['L', 'e', 'f', 't'], ['R', 'i', 'g', 'h', 't'], ['T', 'o', 'p'], ['B', 'o', 't', 't', 'o', 'm'], ['I', 'm', 'a', 'g', 'e', 'I', 'D']])]

theorem w454 : Checked t454 := ⟨b454, by kernel_rfl, by kernel_rfl, by kernel_rfl⟩

/-- Lines of `message_template.msg` up to the end of `MapBlockRequest`. -/
def c455 : List (List Char) :=
  [chars! "",
   chars! "// viewer -> sim",
   chars! "// This message is sent up from the viewer to get a list",
   chars! "// of the sims in a specified region.",
   chars! "// Returns: MapBlockReply",
   chars! "{",
   chars! "\tMapBlockRequest Low\t407 NotTrusted Unencoded",
   chars! "\t{",
   chars! "\t\tAgentData\t\tSingle",
   chars! "\t\t{\tAgentID\t\tLLUUID\t}",
   chars! "\t\t{\tSessionID\tLLUUID\t}",
   chars! "\t\t{\tFlags\t\tU32\t\t}",
   chars! "\t\t{\tEstateID\tU32\t\t}\t// filled in on sim",
   chars! "\t\t{\tGodlike\t\tBOOL\t}\t// filled in on sim",
   chars! "\t}",
   chars! "\t{",
   chars! "\t\tPositionData\tSingle",
   chars! "\t\t{\tMinX\t\tU16\t\t}\t// in region-widths",
   chars! "\t\t{\tMaxX\t\tU16\t\t}\t// in region-widths",
   chars! "\t\t{\tMinY\t\tU16\t\t}\t// in region-widths",
   chars! "\t\t{\tMaxY\t\tU16\t\t}\t// in region-widths",
   chars! "\t}",
   chars! "}"]

/-- `MapBlockRequest` as the parser creates it. -/
def r455 : RawTemplate :=
  ⟨"MapBlockRequest", .low, 407, [255, 255, 151], some .notTrusted, some .unencoded, some .notDeprecated,
    [⟨"PositionData", .single, 0, [⟨"MaxY", some .u16, some 2⟩, ⟨"MinY", some .u16, some 2⟩, ⟨"MaxX", some .u16, some 2⟩, ⟨"MinX", some .u16, some 2⟩]⟩,
     ⟨"AgentData", .single, 0, [⟨"Godlike", some .bool, some 1⟩, ⟨"EstateID", some .u32, some 4⟩, ⟨"Flags", some .u32, some 4⟩, ⟨"SessionID", some .uuid, some 16⟩, ⟨"AgentID", some .uuid, some 16⟩]⟩]⟩

/-- `MapBlockRequest` in file order. -/
def t455 : Template :=
  ⟨"MapBlockRequest", .low, 407, [], some .notTrusted, some .unencoded, some .notDeprecated,
    [⟨"AgentData", .single, 0, [⟨"AgentID", .uuid, 16⟩, ⟨"SessionID", .uuid, 16⟩, ⟨"Flags", .u32, 4⟩, ⟨"EstateID", .u32, 4⟩, ⟨"Godlike", .bool, 1⟩]⟩,
     ⟨"PositionData", .single, 0, [⟨"MinX", .u16, 2⟩, ⟨"MaxX", .u16, 2⟩, ⟨"MinY", .u16, 2⟩, ⟨"MaxY", .u16, 2⟩]⟩]⟩

theorem p455 : ChunkOk c455 r455 := by intro v older; kernel_rfl
theorem k455 : r455.known = some t455 := by kernel_rfl
theorem n455 : t455.name = String.ofList ['M', 'a', 'p', 'B', 'l', 'o', 'c', 'k', 'R', 'e', 'q', 'u', 'e', 's', 't'] := by kernel_rfl

/-- The names of the blocks and variables of `MapBlockRequest`. -/
def b455 : List (List Char × List (List Char)) :=
  [(['A', 'g', 'e', 'n', 't', 'D', 'a', 't', 'a'], [['A', 'g', 'e', 'n', 't', 'I', 'D'], ['S', 'e', 's', 's', 'i', 'o', 'n', 'I', 'D'], ['F', 'l', 'a', 'g', 's'], ['E', 's', 't', 'a', 't', 'e', 'I', 'D'], ['G', 'o', 'd', 'l', 'i', 'k', 'e']]),
   (['P', 'o', 's', 'i', 't', 'i', 'o', 'n', 'D', 'a', 't', 'a'], [['M', 'i', 'n', 'X'], ['M', 'a', 'x', 'X'], ['M', 'i', 'n', 'Y'], ['M', 'a', 'x', 'Y']])]

theorem w455 : Checked t455 := ⟨b455, by kernel_rfl, by kernel_rfl, by kernel_rfl⟩

/-- Lines of `message_template.msg` up to the end of `MapNameRequest`. -/
def c456 : List (List Char) :=
  [chars! "",
   chars! "// viewer -> sim",
   chars! "// This message is sent up from the viewer to get a list",
   chars! "// of the sims with a given name.",
   chars! "// Returns: MapBlockReply",
   chars! "{",
   chars! "\tMapNameRequest Low\t408 NotTrusted Unencoded",
   chars! "\t{",
   chars! "\t\tAgentData\t\tSingle",
   chars! "\t\t{\tAgentID\t\tLLUUID\t}",
   chars! "\t\t{\tSessionID\tLLUUID\t}",
   chars! "\t\t{\tFlags\t\tU32\t\t}",
   chars! "\t\t{\tEstateID\tU32\t\t}\t// filled in on sim",
   chars! "\t\t{\tGodlike\t\tBOOL\t}\t// filled in on sim",
   chars! "\t}",
   chars! "\t{",
   chars! "\t\tNameData\t\tSingle",
   chars! "\t\t{\tName\t\tVariable\t1\t}\t// string",
   chars! "\t}",
   chars! "}"]

/-- `MapNameRequest` as the parser creates it. -/
def r456 : RawTemplate :=
  ⟨"MapNameRequest", .low, 408, [255, 255, 152], some .notTrusted, some .unencoded, some .notDeprecated,
    [⟨"NameData", .single, 0, [⟨"Name", some .variable, some 1⟩]⟩,
     ⟨"AgentData", .single, 0, [⟨"Godlike", some .bool, some 1⟩, ⟨"EstateID", some .u32, some 4⟩, ⟨"Flags", some .u32, some 4⟩, ⟨"SessionID", some .uuid, some 16⟩, ⟨"AgentID", some .uuid, some 16⟩]⟩]⟩

/-- `MapNameRequest` in file order. -/
def t456 : Template :=
  ⟨"MapNameRequest", .low, 408, [], some .notTrusted, some .unencoded, some .notDeprecated,
    [⟨"AgentData", .single, 0, [⟨"AgentID", .uuid, 16⟩, ⟨"SessionID", .uuid, 16⟩, ⟨"Flags", .u32, 4⟩, ⟨"EstateID", .u32, 4⟩, ⟨"Godlike", .bool, 1⟩]⟩,
     ⟨"NameData", .single, 0, [⟨"Name", .variable, 1⟩]⟩]⟩

theorem p456 : ChunkOk c456 r456 := by intro v older; kernel_rfl
theorem k456 : r456.known = some t456 := by kernel_rfl
theorem n456 : t456.name = String.ofList ['M', 'a', 'p', 'N', 'a', 'm', 'e', 'R', 'e', 'q', 'u', 'e', 's', 't'] := by kernel_rfl

/-- The names of the blocks and variables of `MapNameRequest`. -/
def b456 : List (List Char × List (List Char)) :=
  [(['A', 'g', 'e', 'n', 't', 'D', 'a', 't', 'a'], [['A', 'g', 'e', 'n', 't', 'I', 'D'], ['S', 'e', 's', 's', 'i', 'o', 'n', 'I', 'D'], ['F', 'l', 'a', 'g', 's'], ['E', 's', 't', 'a', 't', 'e', 'I', 'D'], ['G', 'o', 'd', 'l', 'i', 'k', 'e']]),
   (['N', 'a', 'm', 'e', 'D', 'a', 't', 'a'], [['N', 'a', 'm', 'e']])]

theorem w456 : Checked t456 := ⟨b456, by kernel_rfl, by kernel_rfl, by kernel_rfl⟩

/-- Lines of `message_template.msg` up to the end of `MapBlockReply`. -/
def c457 : List (List Char) :=
  [chars! "",
   chars! "// sim -> viewer",
   chars! "{",
   chars! "\tMapBlockReply Low\t409 Trusted Unencoded",
   chars! "\t{",
   chars! "\t\tAgentData\t\tSingle",
   chars! "\t\t{\tAgentID\t\tLLUUID\t}",
   chars! "\t\t{\tFlags\t\tU32\t\t}",
   chars! "\t}",
   chars! "\t{\t",
   chars! "\t\tData\t\t\tVariable",
   chars! "\t\t{\tX\t\t\tU16\t\t\t\t}\t// in region-widths",
   chars! "\t\t{\tY\t\t\tU16\t\t\t\t}\t// in region-widths",
   chars! "\t\t{\tName\t\tVariable\t1\t}\t// string",
   chars! "\t\t{\tAccess\t\tU8\t\t\t\t}\t// PG, mature, etc.",
   chars! "\t\t{\tRegionFlags\tU32\t\t\t\t}",
   chars! "\t\t{\tWaterHeight\tU8\t\t\t\t}\t// meters",
   chars! "\t\t{\tAgents\t\tU8\t\t\t\t}",
   chars! "\t\t{\tMapImageID\tLLUUID\t\t\t}",
   chars! "\t}",
   chars! "}"]

/-- `MapBlockReply` as the parser creates it. -/
def r457 : RawTemplate :=
  ⟨"MapBlockReply", .low, 409, [255, 255, 153], some .trusted, some .unencoded, some .notDeprecated,
    [⟨"Data", .variable, 0, [⟨"MapImageID", some .uuid, some 16⟩, ⟨"Agents", some .u8, some 1⟩, ⟨"WaterHeight", some .u8, some 1⟩, ⟨"RegionFlags", some .u32, some 4⟩, ⟨"Access", some .u8, some 1⟩, ⟨"Name", some .variable, some 1⟩, ⟨"Y", some .u16, some 2⟩, ⟨"X", some .u16, some 2⟩]⟩,
     ⟨"AgentData", .single, 0, [⟨"Flags", some .u32, some 4⟩, ⟨"AgentID", some .uuid, some 16⟩]⟩]⟩

/-- `MapBlockReply` in file order. -/
def t457 : Template :=
  ⟨"MapBlockReply", .low, 409, [], some .trusted, some .unencoded, some .notDeprecated,
    [⟨"AgentData", .single, 0, [⟨"AgentID", .uuid, 16⟩, ⟨"Flags", .u32, 4⟩]⟩,
     ⟨"Data", .variable, 0, [⟨"X", .u16, 2⟩, ⟨"Y", .u16, 2⟩, ⟨"Name", .variable, 1⟩, ⟨"Access", .u8, 1⟩, ⟨"RegionFlags", .u32, 4⟩, ⟨"WaterHeight", .u8, 1⟩, ⟨"Agents", .u8, 1⟩, ⟨"MapImageID", .uuid, 16⟩]⟩]⟩

theorem p457 : ChunkOk c457 r457 := by intro v older; kernel_rfl
theorem k457 : r457.known = some t457 := by kernel_rfl
theorem n457 : t457.name = String.ofList ['M', 'a', 'p', 'B', 'l', 'o', 'c', 'k', 'R', 'e', 'p', 'l', 'y'] := by kernel_rfl

/-- The names of the blocks and variables of `MapBlockReply`. -/
def b457 : List (List Char × List (List Char)) :=
  [(['A', 'g', 'e', 'n', 't', 'D', 'a', 't', 'a'], [['A', 'g', 'e', 'n', 't', 'I', 'D'], ['F', 'l', 'a', 'g', 's']]),
   (['D', 'a', 't', 'a'], [['X'], ['Y'], ['N', 'a', 'm', 'e'], ['A', 'c', 'c', 'e', 's', 's'], ['R', 'e', 'g', 'i', 'o', 'n', 'F', 'l', 'a', 'g', 's'], ['W', 'a', 't', 'e', 'r', 'H', 'e', 'i', 'g', 'h', 't'], ['A', 'g', 'e', 'n', 't', 's'], ['M', 'a', 'p', 'I', 'm', 'a', 'g', 'e', 'I', 'D']])]

theorem w457 : Checked t457 := ⟨b457, by kernel_rfl, by kernel_rfl, by kernel_rfl⟩

/-- Lines of `message_template.msg` up to the end of `MapItemRequest`. -/
def c458 : List (List Char) :=
  [chars! "",
   chars! "// viewer -> sim",
   chars! "// This message is sent up from the viewer to get a list",
   chars! "// of the items of a particular type on the map.",
   chars! "// Used for Telehubs, Agents, Events, Popular Places, etc.",
   chars! "// Returns: MapBlockReply",
   chars! "{",
   chars! "\tMapItemRequest Low\t410 NotTrusted Unencoded",
   chars! "\t{",
   chars! "\t\tAgentData\t\tSingle",
   chars! "\t\t{\tAgentID\t\tLLUUID\t}",
   chars! "\t\t{\tSessionID\tLLUUID\t}",
   chars! "\t\t{\tFlags\t\tU32\t\t}",
   chars! "\t\t{\tEstateID\tU32\t\t}\t// filled in on sim",
   chars! "\t\t{\tGodlike\t\tBOOL\t}\t// filled in on sim",
   chars! "\t}",
   chars! "\t{",
   chars! "\t\tRequestData\t\tSingle",
   chars! "\t\t{\tItemType\t\tU32\t\t}",
   chars! "\t\t{\tRegionHandle\tU64\t\t} // filled in on sim",
   chars! "\t}",
   chars! "}"]

/-- `MapItemRequest` as the parser creates it. -/
def r458 : RawTemplate :=
  ⟨"MapItemRequest", .low, 410, [255, 255, 154], some .notTrusted, some .unencoded, some .notDeprecated,
    [⟨"RequestData", .single, 0, [⟨"RegionHandle", some .u64, some 8⟩, ⟨"ItemType", some .u32, some 4⟩]⟩,
     ⟨"AgentData", .single, 0, [⟨"Godlike", some .bool, some 1⟩, ⟨"EstateID", some .u32, some 4⟩, ⟨"Flags", some .u32, some 4⟩, ⟨"SessionID", some .uuid, some 16⟩, ⟨"AgentID", some .uuid, some 16⟩]⟩]⟩

/-- `MapItemRequest` in file order. -/
def t458 : Template :=
  ⟨"MapItemRequest", .low, 410, [], some .notTrusted, some .unencoded, some .notDeprecated,
    [⟨"AgentData", .single, 0, [⟨"AgentID", .uuid, 16⟩, ⟨"SessionID", .uuid, 16⟩, ⟨"Flags", .u32, 4⟩, ⟨"EstateID", .u32, 4⟩, ⟨"Godlike", .bool, 1⟩]⟩,
     ⟨"RequestData", .single, 0, [⟨"ItemType", .u32, 4⟩, ⟨"RegionHandle", .u64, 8⟩]⟩]⟩

theorem p458 : ChunkOk c458 r458 := by intro v older; kernel_rfl
theorem k458 : r458.known = some t458 := by kernel_rfl
theorem n458 : t458.name = String.ofList ['M', 'a', 'p', 'I', 't', 'e', 'm', 'R', 'e', 'q', 'u', 'e', 's', 't'] := by kernel_rfl

/-- The names of the blocks and variables of `MapItemRequest`. -/
def b458 : List (List Char × List (List Char)) :=
  [(['A', 'g', 'e', 'n', 't', 'D', 'a', 't', 'a'], [['A', 'g', 'e', 'n', 't', 'I', 'D'], ['S', 'e', 's', 's', 'i', 'o', 'n', 'I', 'D'], ['F', 'l', 'a', 'g', 's'], ['E', 's', 't', 'a', 't', 'e', 'I', 'D'], ['G', 'o', 'd', 'l', 'i', 'k', 'e']]),
   (['R', 'e', 'q', 'u', 'e', 's', 't', 'D', 'a', 't', 'a'], [['I', 't', 'e', 'm', 'T', 'y', 'p', 'e'], ['R', 'e', 'g', 'i', 'o', 'n', 'H', 'a', 'n', 'd', 'l', 'e']])]

theorem w458 : Checked t458 := ⟨b458, by kernel_rfl, by kernel_rfl, by kernel_rfl⟩

/-- Lines of `message_template.msg` up to the end of `MapItemReply`. -/
def c459 : List (List Char) :=
  [chars! "",
   chars! "// sim -> viewer",
   chars! "{",
   chars! "\tMapItemReply Low\t411 Trusted Unencoded",
   chars! "\t{",
   chars! "\t\tAgentData\t\tSingle",
   chars! "\t\t{\tAgentID\t\tLLUUID\t}",
   chars! "\t\t{\tFlags\t\tU32\t\t}",
   chars! "\t}",
   chars! "\t{",
   chars! "\t\tRequestData\t\tSingle",
   chars! "\t\t{\tItemType\tU32\t\t}",
   chars! "\t}",
   chars! "\t{\t",
   chars! "\t\tData\t\t\tVariable",
   chars! "\t\t{\tX\t\t\tU32\t\t\t\t}\t// global position",
   chars! "\t\t{\tY\t\t\tU32\t\t\t\t}\t// global position",
   chars! "\t\t{\tID\t\t\tLLUUID\t\t\t}\t// identifier id",
   chars! "\t\t{\tExtra\t\tS32\t\t\t\t}\t// extra information",
   chars! "\t\t{\tExtra2\t\tS32\t\t\t\t}\t// extra information",
   chars! "\t\t{\tName\t\tVariable\t1\t}\t// identifier string",
   chars! "\t}",
   chars! "}"]

/-- `MapItemReply` as the parser creates it. -/
def r459 : RawTemplate :=
  ⟨"MapItemReply", .low, 411, [255, 255, 155], some .trusted, some .unencoded, some .notDeprecated,
    [⟨"Data", .variable, 0, [⟨"Name", some .variable, some 1⟩, ⟨"Extra2", some .s32, some 4⟩, ⟨"Extra", some .s32, some 4⟩, ⟨"ID", some .uuid, some 16⟩, ⟨"Y", some .u32, some 4⟩, ⟨"X", some .u32, some 4⟩]⟩,
     ⟨"RequestData", .single, 0, [⟨"ItemType", some .u32, some 4⟩]⟩,
     ⟨"AgentData", .single, 0, [⟨"Flags", some .u32, some 4⟩, ⟨"AgentID", some .uuid, some 16⟩]⟩]⟩

/-- `MapItemReply` in file order. -/
def t459 : Template :=
  ⟨"MapItemReply", .low, 411, [], some .trusted, some .unencoded, some .notDeprecated,
    [⟨"AgentData", .single, 0, [⟨"AgentID", .uuid, 16⟩, ⟨"Flags", .u32, 4⟩]⟩,
     ⟨"RequestData", .single, 0, [⟨"ItemType", .u32, 4⟩]⟩,
     ⟨"Data", .variable, 0, [⟨"X", .u32, 4⟩, ⟨"Y", .u32, 4⟩, ⟨"ID", .uuid, 16⟩, ⟨"Extra", .s32, 4⟩, ⟨"Extra2", .s32, 4⟩, ⟨"Name", .variable, 1⟩]⟩]⟩

theorem p459 : ChunkOk c459 r459 := by intro v older; kernel_rfl
theorem k459 : r459.known = some t459 := by kernel_rfl
theorem n459 : t459.name = String.ofList ['M', 'a', 'p', 'I', 't', 'e', 'm', 'R', 'e', 'p', 'l', 'y'] := by kernel_rfl

/-- The names of the blocks and variables of `MapItemReply`. -/
def b459 : List (List Char × List (List Char)) :=
  [(['A', 'g', 'e', 'n', 't', 'D', 'a', 't', 'a'], [['A', 'g', 'e', 'n', 't', 'I', 'D'], ['F', 'l', 'a', 'g', 's']]),
   (['R', 'e', 'q', 'u', 'e', 's', 't', 'D', 'a', 't', 'a'], [['I', 't', 'e', 'm', 'T', 'y', 'p', 'e']]),
   (['D', 'a', 't', 'a'], [['X'], ['Y'], ['I', 'D'], ['E', 'x', 't', 'r', 'a'], ['E', 'x', 't', 'r', 'a', '2'], ['N', 'a', 'm', 'e']])]

theorem w459 : Checked t459 := ⟨b459, by kernel_rfl, by kernel_rfl, by kernel_rfl⟩

/-- Lines of `message_template.msg` up to the end of `SendPostcard`. -/
def c460 : List (List Char) :=
  [chars! "",
   chars! "//-----------------------------------------------------------------------------",
   chars! "// Postcard messages",
   chars! "//-----------------------------------------------------------------------------",
   chars! "// reliable",
   chars! "{",
   chars! "\tSendPostcard   \tLow\t412 \tNotTrusted Unencoded",
   chars! "\t{",
   chars! "\t\tAgentData\tSingle",
   chars! "\t\t{   AgentID\t\tLLUUID\t\t}",
   chars! "\t\t{\tSessionID\tLLUUID\t\t}",
   chars! "\t\t{\tAssetID\t\tLLUUID\t\t}",
   chars! "\t\t{\tPosGlobal\tLLVector3d\t}\t// Where snapshot was taken",
   chars! "\t\t{\tTo\t\t\tVariable 1\t}   // dest email address(es)",
   chars! "\t\t{\tFrom\t\tVariable 1\t}   // src email address(es)",
   chars! "\t\t{\tName\t\tVariable 1\t}   // src name",
   chars! "\t\t{\tSubject\t\tVariable 1\t}   // mail subject",
   chars! "\t\t{\tMsg\t\t\tVariable 2\t}   // message text",
   chars! "\t\t{\tAllowPublish\tBOOL\t\t}\t// Allow publishing on the web.",
   chars! "\t\t{\tMaturePublish\tBOOL\t\t}\t// profile is \"mature\"",
   chars! "\t}",
   chars! "}"]

/-- `SendPostcard` as the parser creates it. -/
def r460 : RawTemplate :=
  ⟨"SendPostcard", .low, 412, [255, 255, 156], some .notTrusted, some .unencoded, some .notDeprecated,
    [⟨"AgentData", .single, 0, [⟨"MaturePublish", some .bool, some 1⟩, ⟨"AllowPublish", some .bool, some 1⟩, ⟨"Msg", some .variable, some 2⟩, ⟨"Subject", some .variable, some 1⟩, ⟨"Name", some .variable, some 1⟩, ⟨"From", some .variable, some 1⟩, ⟨"To", some .variable, some 1⟩, ⟨"PosGlobal", some .vector3d, some 24⟩, ⟨"AssetID", some .uuid, some 16⟩, ⟨"SessionID", some .uuid, some 16⟩, ⟨"AgentID", some .uuid, some 16⟩]⟩]⟩

/-- `SendPostcard` in file order. -/
def t460 : Template :=
  ⟨"SendPostcard", .low, 412, [], some .notTrusted, some .unencoded, some .notDeprecated,
    [⟨"AgentData", .single, 0, [⟨"AgentID", .uuid, 16⟩, ⟨"SessionID", .uuid, 16⟩, ⟨"AssetID", .uuid, 16⟩, ⟨"PosGlobal", .vector3d, 24⟩, ⟨"To", .variable, 1⟩, ⟨"From", .variable, 1⟩, ⟨"Name", .variable, 1⟩, ⟨"Subject", .variable, 1⟩, ⟨"Msg", .variable, 2⟩, ⟨"AllowPublish", .bool, 1⟩, ⟨"MaturePublish", .bool, 1⟩]⟩]⟩

theorem p460 : ChunkOk c460 r460 := by intro v older; kernel_rfl
theorem k460 : r460.known = some t460 := by kernel_rfl
theorem n460 : t460.name = String.ofList ['S', 'e', 'n', 'd', 'P', 'o', 's', 't', 'c', 'a', 'r', 'd'] := by kernel_rfl

/-- The names of the blocks and variables of `SendPostcard`. -/
def b460 : List (List Char × List (List Char)) :=
  [(['A', 'g', 'e', 'n', 't', 'D', 'a', 't', 'a'], [['A', 'g', 'e', 'n', 't', 'I', 'D'], ['S', 'e', 's', 's', 'i', 'o', 'n', 'I', 'D'], ['A', 's', 's', 'e', 't', 'I', 'D'], ['P', 'o', 's', 'G', 'l', 'o', 'b', 'a', 'l'], ['T', 'o'], ['F', 'r', 'o', 'm'], ['N', 'a', 'm', 'e'], ['S', 'u', 'b', 'j', 'e', 'c', 't'], ['M', 's', 'g'], ['A', 'l', 'l', 'o', 'w', 'P', 'u', 'b', 'l', 'i', 's', 'h'], ['M', 'a', 't', 'u', 'r', 'e', 'P', 'u', 'b', 'l', 'i', 's', 'h']])]

theorem w460 : Checked t460 := ⟨b460, by kernel_rfl, by kernel_rfl, by kernel_rfl⟩

/-- Lines of `message_template.msg` up to the end of `RpcChannelRequest`. -/
def c461 : List (List Char) :=
  [chars! "",
   chars! "// RPC messages",
   chars! "// Script on simulator requests rpc channel from rpcserver",
   chars! "// simulator -> dataserver -> MySQL",
   chars! "{",
   chars! "    RpcChannelRequest Low 413 Trusted Unencoded",
   chars! "    {",
   chars! "\t\tDataBlock\t\tSingle",
   chars! "\t\t{\tGridX\t\tU32 }",
   chars! "\t\t{\tGridY\t\tU32 }",
   chars! "        {   TaskID      LLUUID }",
   chars! "        {   ItemID\t\tLLUUID }",
   chars! "    }",
   chars! "}"]

/-- `RpcChannelRequest` as the parser creates it. -/
def r461 : RawTemplate :=
  ⟨"RpcChannelRequest", .low, 413, [255, 255, 157], some .trusted, some .unencoded, some .notDeprecated,
    [⟨"DataBlock", .single, 0, [⟨"ItemID", some .uuid, some 16⟩, ⟨"TaskID", some .uuid, some 16⟩, ⟨"GridY", some .u32, some 4⟩, ⟨"GridX", some .u32, some 4⟩]⟩]⟩

/-- `RpcChannelRequest` in file order. -/
def t461 : Template :=
  ⟨"RpcChannelRequest", .low, 413, [], some .trusted, some .unencoded, some .notDeprecated,
    [⟨"DataBlock", .single, 0, [⟨"GridX", .u32, 4⟩, ⟨"GridY", .u32, 4⟩, ⟨"TaskID", .uuid, 16⟩, ⟨"ItemID", .uuid, 16⟩]⟩]⟩

theorem p461 : ChunkOk c461 r461 := by intro v older; kernel_rfl
theorem k461 : r461.known = some t461 := by kernel_rfl
theorem n461 : t461.name = String.ofList ['R', 'p', 'c', 'C', 'h', 'a', 'n', 'n', 'e', 'l', 'R', 'e', 'q', 'u', 'e', 's', 't'] := by kernel_rfl

/-- The names of the blocks and variables of `RpcChannelRequest`. -/
def b461 : List (List Char × List (List Char)) :=
  [(['D', 'a', 't', 'a', 'B', 'l', 'o', 'c', 'k'], [['G', 'r', 'i', 'd', 'X'], ['G', 'r', 'i', 'd', 'Y'], ['T', 'a', 's', 'k', 'I', 'D'], ['I', 't', 'e', 'm', 'I', 'D']])]

theorem w461 : Checked t461 := ⟨b461, by kernel_rfl, by kernel_rfl, by kernel_rfl⟩

/-- Lines of `message_template.msg` up to the end of `RpcChannelReply`. -/
def c462 : List (List Char) :=
  [chars! "",
   chars! "// RpcServer allocated a session for the script",
   chars! "// ChannelID will be the NULL UUID if unable to register",
   chars! "// dataserver -> simulator",
   chars! "{",
   chars! "    RpcChannelReply Low 414 Trusted Unencoded",
   chars! "    {",
   chars! "        DataBlock   Single",
   chars! "        {   TaskID      LLUUID }",
   chars! "        {   ItemID\t\tLLUUID }",
   chars! "        {   ChannelID   LLUUID }",
   chars! "    }",
   chars! "}"]

/-- `RpcChannelReply` as the parser creates it. -/
def r462 : RawTemplate :=
  ⟨"RpcChannelReply", .low, 414, [255, 255, 158], some .trusted, some .unencoded, some .notDeprecated,
    [⟨"DataBlock", .single, 0, [⟨"ChannelID", some .uuid, some 16⟩, ⟨"ItemID", some .uuid, some 16⟩, ⟨"TaskID", some .uuid, some 16⟩]⟩]⟩

/-- `RpcChannelReply` in file order. -/
def t462 : Template :=
  ⟨"RpcChannelReply", .low, 414, [], some .trusted, some .unencoded, some .notDeprecated,
    [⟨"DataBlock", .single, 0, [⟨"TaskID", .uuid, 16⟩, ⟨"ItemID", .uuid, 16⟩, ⟨"ChannelID", .uuid, 16⟩]⟩]⟩

theorem p462 : ChunkOk c462 r462 := by intro v older; kernel_rfl
theorem k462 : r462.known = some t462 := by kernel_rfl
theorem n462 : t462.name = String.ofList ['R', 'p', 'c', 'C', 'h', 'a', 'n', 'n', 'e', 'l', 'R', 'e', 'p', 'l', 'y'] := by kernel_rfl

/-- The names of the blocks and variables of `RpcChannelReply`. -/
def b462 : List (List Char × List (List Char)) :=
  [(['D', 'a', 't', 'a', 'B', 'l', 'o', 'c', 'k'], [['T', 'a', 's', 'k', 'I', 'D'], ['I', 't', 'e', 'm', 'I', 'D'], ['C', 'h', 'a', 'n', 'n', 'e', 'l', 'I', 'D']])]

theorem w462 : Checked t462 := ⟨b462, by kernel_rfl, by kernel_rfl, by kernel_rfl⟩

/-- Lines of `message_template.msg` up to the end of `RpcScriptRequestInbound`. -/
def c463 : List (List Char) :=
  [chars! "",
   chars! "// Inbound RPC requests follow this path:",
   chars! "// RpcScriptRequestInbound: rpcserver -> spaceserver",
   chars! "// RpcScriptRequestInboundForward: spaceserver -> simulator",
   chars! "// reply: simulator -> rpcserver",
   chars! "{",
   chars! "\tRpcScriptRequestInbound Low 415 NotTrusted Unencoded",
   chars! "\t{",
   chars! "\t\tTargetBlock Single",
   chars! "\t\t{\tGridX\t\tU32 }",
   chars! "\t\t{\tGridY\t\tU32\t}",
   chars! "\t}",
   chars! "\t{",
   chars! "\t\tDataBlock Single",
   chars! "\t\t{\tTaskID\t\tLLUUID }",
   chars! "\t\t{\tItemID\t\tLLUUID }",
   chars! "\t\t{\tChannelID\tLLUUID }",
   chars! "\t\t{\tIntValue\tU32 }",
   chars! "\t\t{\tStringValue Variable 2 } // string",
   chars! "\t}",
   chars! "}"]

/-- `RpcScriptRequestInbound` as the parser creates it. -/
def r463 : RawTemplate :=
  ⟨"RpcScriptRequestInbound", .low, 415, [255, 255, 159], some .notTrusted, some .unencoded, some .notDeprecated,
    [⟨"DataBlock", .single, 0, [⟨"StringValue", some .variable, some 2⟩, ⟨"IntValue", some .u32, some 4⟩, ⟨"ChannelID", some .uuid, some 16⟩, ⟨"ItemID", some .uuid, some 16⟩, ⟨"TaskID", some .uuid, some 16⟩]⟩,
     ⟨"TargetBlock", .single, 0, [⟨"GridY", some .u32, some 4⟩, ⟨"GridX", some .u32, some 4⟩]⟩]⟩

/-- `RpcScriptRequestInbound` in file order. -/
def t463 : Template :=
  ⟨"RpcScriptRequestInbound", .low, 415, [], some .notTrusted, some .unencoded, some .notDeprecated,
    [⟨"TargetBlock", .single, 0, [⟨"GridX", .u32, 4⟩, ⟨"GridY", .u32, 4⟩]⟩,
     ⟨"DataBlock", .single, 0, [⟨"TaskID", .uuid, 16⟩, ⟨"ItemID", .uuid, 16⟩, ⟨"ChannelID", .uuid, 16⟩, ⟨"IntValue", .u32, 4⟩, ⟨"StringValue", .variable, 2⟩]⟩]⟩

theorem p463 : ChunkOk c463 r463 := by intro v older; kernel_rfl
theorem k463 : r463.known = some t463 := by kernel_rfl
theorem n463 : t463.name = String.ofList ['R', 'p', 'c', 'S', 'c', 'r', 'i', 'p', 't', 'R', 'e', 'q', 'u', 'e', 's', 't', 'I', 'n', 'b', 'o', 'u', 'n', 'd'] := by kernel_rfl

/-- The names of the blocks and variables of `RpcScriptRequestInbound`. -/
def b463 : List (List Char × List (List Char)) :=
  [(['T', 'a', 'r', 'g', 'e', 't', 'B', 'l', 'o', 'c', 'k'], [['G', 'r', 'i', 'd', 'X'], ['G', 'r', 'i', 'd', 'Y']]),
   (['D', 'a', 't', 'a', 'B', 'l', 'o', 'c', 'k'], [['T', 'a', 's', 'k', 'I', 'D'], ['I', 't', 'e', 'm', 'I', 'D'], ['C', 'h', 'a', 'n', 'n', 'e', 'l', 'I', 'D'], ['I', 'n', 't', 'V', 'a', 'l', 'u', 'e'], ['S', 't', 'r', 'i', 'n', 'g', 'V', 'a', 'l', 'u', 'e']])]

theorem w463 : Checked t463 := ⟨b463, by kernel_rfl, by kernel_rfl, by kernel_rfl⟩

/-- Lines of `message_template.msg` up to the end of `RpcScriptRequestInboundForward`. -/
def c464 : List (List Char) :=
  [chars! "",
   chars! "// spaceserver -> simulator",
   chars! "{",
   chars! "\tRpcScriptRequestInboundForward Low 416 Trusted Unencoded UDPDeprecated",
   chars! "\t{",
   chars! "\t\tDataBlock Single",
   chars! "\t\t{\tRPCServerIP\tIPADDR }",
   chars! "\t\t{\tRPCServerPort\tIPPORT }",
   chars! "\t\t{\tTaskID\t\tLLUUID }",
   chars! "\t\t{\tItemID\t\tLLUUID }",
   chars! "\t\t{\tChannelID\tLLUUID }",
   chars! "\t\t{\tIntValue\tU32 }",
   chars! "\t\t{\tStringValue Variable 2 } // string",
   chars! "\t}\t",
   chars! "}"]

/-- `RpcScriptRequestInboundForward` as the parser creates it. -/
def r464 : RawTemplate :=
  ⟨"RpcScriptRequestInboundForward", .low, 416, [255, 255, 160], some .trusted, some .unencoded, some .udpDeprecated,
    [⟨"DataBlock", .single, 0, [⟨"StringValue", some .variable, some 2⟩, ⟨"IntValue", some .u32, some 4⟩, ⟨"ChannelID", some .uuid, some 16⟩, ⟨"ItemID", some .uuid, some 16⟩, ⟨"TaskID", some .uuid, some 16⟩, ⟨"RPCServerPort", some .ipport, some 2⟩, ⟨"RPCServerIP", some .ipaddr, some 4⟩]⟩]⟩

/-- `RpcScriptRequestInboundForward` in file order. -/
def t464 : Template :=
  ⟨"RpcScriptRequestInboundForward", .low, 416, [], some .trusted, some .unencoded, some .udpDeprecated,
    [⟨"DataBlock", .single, 0, [⟨"RPCServerIP", .ipaddr, 4⟩, ⟨"RPCServerPort", .ipport, 2⟩, ⟨"TaskID", .uuid, 16⟩, ⟨"ItemID", .uuid, 16⟩, ⟨"ChannelID", .uuid, 16⟩, ⟨"IntValue", .u32, 4⟩, ⟨"StringValue", .variable, 2⟩]⟩]⟩

theorem p464 : ChunkOk c464 r464 := by intro v older; kernel_rfl
theorem k464 : r464.known = some t464 := by kernel_rfl
theorem n464 : t464.name = String.ofList ['R', 'p', 'c', 'S', 'c', 'r', 'i', 'p', 't', 'R', 'e', 'q', 'u', 'e', 's', 't', 'I', 'n', 'b', 'o', 'u', 'n', 'd', 'F', 'o', 'r', 'w', 'a', 'r', 'd'] := by kernel_rfl

/-- The names of the blocks and variables of `RpcScriptRequestInboundForward`. -/
def b464 : List (List Char × List (List Char)) :=
  [(['D', 'a', 't', 'a', 'B', 'l', 'o', 'c', 'k'], [['R', 'P', 'C', 'S', 'e', 'r', 'v', 'e', 'r', 'I', 'P'], ['R', 'P', 'C', 'S', 'e', 'r', 'v', 'e', 'r', 'P', 'o', 'r', 't'], ['T', 'a', 's', 'k', 'I', 'D'], ['I', 't', 'e', 'm', 'I', 'D'], ['C', 'h', 'a', 'n', 'n', 'e', 'l', 'I', 'D'], ['I', 'n', 't', 'V', 'a', 'l', 'u', 'e'], ['S', 't', 'r', 'i', 'n', 'g', 'V', 'a', 'l', 'u', 'e']])]

theorem w464 : Checked t464 := ⟨b464, by kernel_rfl, by kernel_rfl, by kernel_rfl⟩

/-- Lines of `message_template.msg` up to the end of `RpcScriptReplyInbound`. -/
def c465 : List (List Char) :=
  [chars! "",
   chars! "// simulator -> rpcserver",
   chars! "// Not trusted because trust establishment doesn't work here.",
   chars! "{",
   chars! "\tRpcScriptReplyInbound Low 417 NotTrusted Unencoded",
   chars! "\t{",
   chars! "\t\tDataBlock Single",
   chars! "\t\t{\tTaskID\t\tLLUUID }",
   chars! "\t\t{\tItemID\t\tLLUUID }",
   chars! "\t\t{\tChannelID\tLLUUID }",
   chars! "\t\t{\tIntValue\tU32 }",
   chars! "\t\t{\tStringValue Variable 2 } // string",
   chars! "\t}",
   chars! "}"]

/-- `RpcScriptReplyInbound` as the parser creates it. -/
def r465 : RawTemplate :=
  ⟨"RpcScriptReplyInbound", .low, 417, [255, 255, 161], some .notTrusted, some .unencoded, some .notDeprecated,
    [⟨"DataBlock", .single, 0, [⟨"StringValue", some .variable, some 2⟩, ⟨"IntValue", some .u32, some 4⟩, ⟨"ChannelID", some .uuid, some 16⟩, ⟨"ItemID", some .uuid, some 16⟩, ⟨"TaskID", some .uuid, some 16⟩]⟩]⟩

/-- `RpcScriptReplyInbound` in file order. -/
def t465 : Template :=
  ⟨"RpcScriptReplyInbound", .low, 417, [], some .notTrusted, some .unencoded, some .notDeprecated,
    [⟨"DataBlock", .single, 0, [⟨"TaskID", .uuid, 16⟩, ⟨"ItemID", .uuid, 16⟩, ⟨"ChannelID", .uuid, 16⟩, ⟨"IntValue", .u32, 4⟩, ⟨"StringValue", .variable, 2⟩]⟩]⟩

theorem p465 : ChunkOk c465 r465 := by intro v older; kernel_rfl
theorem k465 : r465.known = some t465 := by kernel_rfl
theorem n465 : t465.name = String.ofList ['R', 'p', 'c', 'S', 'c', 'r', 'i', 'p', 't', 'R', 'e', 'p', 'l', 'y', 'I', 'n', 'b', 'o', 'u', 'n', 'd'] := by kernel_rfl

/-- The names of the blocks and variables of `RpcScriptReplyInbound`. -/
def b465 : List (List Char × List (List Char)) :=
  [(['D', 'a', 't', 'a', 'B', 'l', 'o', 'c', 'k'], [['T', 'a', 's', 'k', 'I', 'D'], ['I', 't', 'e', 'm', 'I', 'D'], ['C', 'h', 'a', 'n', 'n', 'e', 'l', 'I', 'D'], ['I', 'n', 't', 'V', 'a', 'l', 'u', 'e'], ['S', 't', 'r', 'i', 'n', 'g', 'V', 'a', 'l', 'u', 'e']])]

theorem w465 : Checked t465 := ⟨b465, by kernel_rfl, by kernel_rfl, by kernel_rfl⟩

/-- Lines of `message_template.msg` up to the end of `ScriptMailRegistration`. -/
def c466 : List (List Char) :=
  [chars! "",
   chars! "",
   chars! "// ScriptMailRegistration",
   chars! "// Simulator -> dataserver",
   chars! "{",
   chars! "\tScriptMailRegistration Low 418 Trusted Unencoded",
   chars! "\t{",
   chars! "\t\tDataBlock Single",
   chars! "\t\t{\tTargetIP\t\tVariable 1\t}\t// String IP",
   chars! "\t\t{\tTargetPort\t\tIPPORT\t}",
   chars! "\t\t{\tTaskID\t\t\tLLUUID\t}",
   chars! "\t\t{\tFlags\t\t\tU32\t}",
   chars! "\t}",
   chars! "}"]

/-- `ScriptMailRegistration` as the parser creates it. -/
def r466 : RawTemplate :=
  ⟨"ScriptMailRegistration", .low, 418, [255, 255, 162], some .trusted, some .unencoded, some .notDeprecated,
    [⟨"DataBlock", .single, 0, [⟨"Flags", some .u32, some 4⟩, ⟨"TaskID", some .uuid, some 16⟩, ⟨"TargetPort", some .ipport, some 2⟩, ⟨"TargetIP", some .variable, some 1⟩]⟩]⟩

/-- `ScriptMailRegistration` in file order. -/
def t466 : Template :=
  ⟨"ScriptMailRegistration", .low, 418, [], some .trusted, some .unencoded, some .notDeprecated,
    [⟨"DataBlock", .single, 0, [⟨"TargetIP", .variable, 1⟩, ⟨"TargetPort", .ipport, 2⟩, ⟨"TaskID", .uuid, 16⟩, ⟨"Flags", .u32, 4⟩]⟩]⟩

theorem p466 : ChunkOk c466 r466 := by intro v older; kernel_rfl
theorem k466 : r466.known = some t466 := by kernel_rfl
theorem n466 : t466.name = String.ofList ['S', 'c', 'r', 'i', 'p', 't', 'M', 'a', 'i', 'l', 'R', 'e', 'g', 'i', 's', 't', 'r', 'a', 't', 'i', 'o', 'n'] := by kernel_rfl

/-- The names of the blocks and variables of `ScriptMailRegistration`. -/
def b466 : List (List Char × List (List Char)) :=
  [(['D', 'a', 't', 'a', 'B', 'l', 'o', 'c', 'k'], [['T', 'a', 'r', 'g', 'e', 't', 'I', 'P'], ['T', 'a', 'r', 'g', 'e', 't', 'P', 'o', 'r', 't'], ['T', 'a', 's', 'k', 'I', 'D'], ['F', 'l', 'a', 'g', 's']])]

theorem w466 : Checked t466 := ⟨b466, by kernel_rfl, by kernel_rfl, by kernel_rfl⟩

/-- Lines of `message_template.msg` up to the end of `ParcelMediaCommandMessage`. -/
def c467 : List (List Char) :=
  [chars! "",
   chars! "// ParcelMediaCommandMessage",
   chars! "// Sends a parcel media command",
   chars! "{",
   chars! "\tParcelMediaCommandMessage Low 419 Trusted Unencoded",
   chars! "\t{",
   chars! "\t\tCommandBlock Single",
   chars! "\t\t{\tFlags\t\tU32\t}",
   chars! "\t\t{\tCommand\t\tU32\t}",
   chars! "\t\t{\tTime\t\tF32\t}",
   chars! "\t}",
   chars! "}"]

/-- `ParcelMediaCommandMessage` as the parser creates it. -/
def r467 : RawTemplate :=
  ⟨"ParcelMediaCommandMessage", .low, 419, [255, 255, 163], some .trusted, some .unencoded, some .notDeprecated,
    [⟨"CommandBlock", .single, 0, [⟨"Time", some .f32, some 4⟩, ⟨"Command", some .u32, some 4⟩, ⟨"Flags", some .u32, some 4⟩]⟩]⟩

/-- `ParcelMediaCommandMessage` in file order. -/
def t467 : Template :=
  ⟨"ParcelMediaCommandMessage", .low, 419, [], some .trusted, some .unencoded, some .notDeprecated,
    [⟨"CommandBlock", .single, 0, [⟨"Flags", .u32, 4⟩, ⟨"Command", .u32, 4⟩, ⟨"Time", .f32, 4⟩]⟩]⟩

theorem p467 : ChunkOk c467 r467 := by intro v older; kernel_rfl
theorem k467 : r467.known = some t467 := by kernel_rfl
theorem n467 : t467.name = String.ofList ['P', 'a', 'r', 'c', 'e', 'l', 'M', 'e', 'd', 'i', 'a', 'C', 'o', 'm', 'm', 'a', 'n', 'd', 'M', 'e', 's', 's', 'a', 'g', 'e'] := by kernel_rfl

/-- The names of the blocks and variables of `ParcelMediaCommandMessage`. -/
def b467 : List (List Char × List (List Char)) :=
  [(['C', 'o', 'm', 'm', 'a', 'n', 'd', 'B', 'l', 'o', 'c', 'k'], [['F', 'l', 'a', 'g', 's'], ['C', 'o', 'm', 'm', 'a', 'n', 'd'], ['T', 'i', 'm', 'e']])]

theorem w467 : Checked t467 := ⟨b467, by kernel_rfl, by kernel_rfl, by kernel_rfl⟩

/-- Lines of `message_template.msg` up to the end of `ParcelMediaUpdate`. -/
def c468 : List (List Char) :=
  [chars! "",
   chars! "// ParcelMediaUpdate",
   chars! "// Sends a parcel media update to a single user",
   chars! "// For global updates use the parcel manager.",
   chars! "{",
   chars! "\tParcelMediaUpdate Low 420 Trusted Unencoded",
   chars! "\t{",
   chars! "\t\tDataBlock Single",
   chars! "\t\t{\tMediaURL\t\tVariable\t1\t}\t// string",
   chars! "\t\t{\tMediaID\t\t\tLLUUID\t\t\t}",
   chars! "\t\t{\tMediaAutoScale\tU8\t\t\t\t}",
   chars! "\t}",
   chars! "\t{",
   chars! "\t\tDataBlockExtended Single",
   chars! "\t\t{   MediaType       Variable    1   }",
   chars! "\t\t{   MediaDesc       Variable    1   }",
   chars! "\t\t{   MediaWidth      S32             }",
   chars! "\t\t{   MediaHeight     S32             }",
   chars! "\t\t{   MediaLoop       U8              }",
   chars! "\t}",
   chars! "}"]

/-- `ParcelMediaUpdate` as the parser creates it. -/
def r468 : RawTemplate :=
  ⟨"ParcelMediaUpdate", .low, 420, [255, 255, 164], some .trusted, some .unencoded, some .notDeprecated,
    [⟨"DataBlockExtended", .single, 0, [⟨"MediaLoop", some .u8, some 1⟩, ⟨"MediaHeight", some .s32, some 4⟩, ⟨"MediaWidth", some .s32, some 4⟩, ⟨"MediaDesc", some .variable, some 1⟩, ⟨"MediaType", some .variable, some 1⟩]⟩,
     ⟨"DataBlock", .single, 0, [⟨"MediaAutoScale", some .u8, some 1⟩, ⟨"MediaID", some .uuid, some 16⟩, ⟨"MediaURL", some .variable, some 1⟩]⟩]⟩

/-- `ParcelMediaUpdate` in file order. -/
def t468 : Template :=
  ⟨"ParcelMediaUpdate", .low, 420, [], some .trusted, some .unencoded, some .notDeprecated,
    [⟨"DataBlock", .single, 0, [⟨"MediaURL", .variable, 1⟩, ⟨"MediaID", .uuid, 16⟩, ⟨"MediaAutoScale", .u8, 1⟩]⟩,
     ⟨"DataBlockExtended", .single, 0, [⟨"MediaType", .variable, 1⟩, ⟨"MediaDesc", .variable, 1⟩, ⟨"MediaWidth", .s32, 4⟩, ⟨"MediaHeight", .s32, 4⟩, ⟨"MediaLoop", .u8, 1⟩]⟩]⟩

theorem p468 : ChunkOk c468 r468 := by intro v older; kernel_rfl
theorem k468 : r468.known = some t468 := by kernel_rfl
theorem n468 : t468.name = String.ofList ['P', 'a', 'r', 'c', 'e', 'l', 'M', 'e', 'd', 'i', 'a', 'U', 'p', 'd', 'a', 't', 'e'] := by kernel_rfl

/-- The names of the blocks and variables of `ParcelMediaUpdate`. -/
def b468 : List (List Char × List (List Char)) :=
  [(['D', 'a', 't', 'a', 'B', 'l', 'o', 'c', 'k'], [['M', 'e', 'd', 'i', 'a', 'U', 'R', 'L'], ['M', 'e', 'd', 'i', 'a', 'I', 'D'], ['M', 'e', 'd', 'i', 'a', 'A', 'u', 't', 'o', 'S', 'c', 'a', 'l', 'e']]),
   (['D', 'a', 't', 'a', 'B', 'l', 'o', 'c', 'k', 'E', 'x', 't', 'e', 'n', 'd', 'e', 'd'], [['M', 'e', 'd', 'i', 'a', 'T', 'y', 'p', 'e'], ['M', 'e', 'd', 'i', 'a', 'D', 'e', 's', 'c'], ['M', 'e', 'd', 'i', 'a', 'W', 'i', 'd', 't', 'h'], ['M', 'e', 'd', 'i', 'a', 'H', 'e', 'i', 'g', 'h', 't'], ['M', 'e', 'd', 'i', 'a', 'L', 'o', 'o', 'p']])]

theorem w468 : Checked t468 := ⟨b468, by kernel_rfl, by kernel_rfl, by kernel_rfl⟩

/-- Lines of `message_template.msg` up to the end of `LandStatRequest`. -/
def c469 : List (List Char) :=
  [chars! "",
   chars! "// LandStatRequest",
   chars! "// Sent by the viewer to request collider/script information for a parcel",
   chars! "{",
   chars! "\tLandStatRequest Low 421 NotTrusted Unencoded",
   chars! "\t{",
   chars! "\t\tAgentData\t\tSingle",
   chars! "\t\t{\tAgentID\t\tLLUUID\t\t}",
   chars! "\t\t{\tSessionID\tLLUUID\t\t}",
   chars! "\t}",
   chars! "\t{",
   chars! "\t\tRequestData Single",
   chars! "\t\t{\tReportType\t\tU32\t\t\t\t}",
   chars! "\t\t{\tRequestFlags\tU32\t\t\t\t}",
   chars! "\t\t{\tFilter\t\t\tVariable\t1\t}",
   chars! "\t\t{\tParcelLocalID\tS32\t}",
   chars! "\t}",
   chars! "}"]

/-- `LandStatRequest` as the parser creates it. -/
def r469 : RawTemplate :=
  ⟨"LandStatRequest", .low, 421, [255, 255, 165], some .notTrusted, some .unencoded, some .notDeprecated,
    [⟨"RequestData", .single, 0, [⟨"ParcelLocalID", some .s32, some 4⟩, ⟨"Filter", some .variable, some 1⟩, ⟨"RequestFlags", some .u32, some 4⟩, ⟨"ReportType", some .u32, some 4⟩]⟩,
     ⟨"AgentData", .single, 0, [⟨"SessionID", some .uuid, some 16⟩, ⟨"AgentID", some .uuid, some 16⟩]⟩]⟩

/-- `LandStatRequest` in file order. -/
def t469 : Template :=
  ⟨"LandStatRequest", .low, 421, [], some .notTrusted, some .unencoded, some .notDeprecated,
    [⟨"AgentData", .single, 0, [⟨"AgentID", .uuid, 16⟩, ⟨"SessionID", .uuid, 16⟩]⟩,
     ⟨"RequestData", .single, 0, [⟨"ReportType", .u32, 4⟩, ⟨"RequestFlags", .u32, 4⟩, ⟨"Filter", .variable, 1⟩, ⟨"ParcelLocalID", .s32, 4⟩]⟩]⟩

theorem p469 : ChunkOk c469 r469 := by intro v older; kernel_rfl
theorem k469 : r469.known = some t469 := by kernel_rfl
theorem n469 : t469.name = String.ofList ['L', 'a', 'n', 'd', 'S', 't', 'a', 't', 'R', 'e', 'q', 'u', 'e', 's', 't'] := by kernel_rfl

/-- The names of the blocks and variables of `LandStatRequest`. -/
def b469 : List (List Char × List (List Char)) :=
  [(['A', 'g', 'e', 'n', 't', 'D', 'a', 't', 'a'], [['A', 'g', 'e', 'n', 't', 'I', 'D'], ['S', 'e', 's', 's', 'i', 'o', 'n', 'I', 'D']]),
   (['R', 'e', 'q', 'u', 'e', 's', 't', 'D', 'a', 't', 'a'], [['R', 'e', 'p', 'o', 'r', 't', 'T', 'y', 'p', 'e'], ['R', 'e', 'q', 'u', 'e', 's', 't', 'F', 'l', 'a', 'g', 's'], ['F', 'i', 'l', 't', 'e', 'r'], ['P', 'a', 'r', 'c', 'e', 'l', 'L', 'o', 'c', 'a', 'l', 'I', 'D']])]

theorem w469 : Checked t469 := ⟨b469, by kernel_rfl, by kernel_rfl, by kernel_rfl⟩

/-- Lines of `message_template.msg` up to the end of `LandStatReply`. -/
def c470 : List (List Char) :=
  [chars! "",
   chars! "// LandStatReply",
   chars! "// Sent by the simulator in response to LandStatRequest",
   chars! "{",
   chars! "\tLandStatReply Low 422 Trusted Unencoded UDPDeprecated",
   chars! "\t{",
   chars! "\t\tRequestData\tSingle",
   chars! "\t\t{\tReportType\t\t\tU32\t\t\t\t}",
   chars! "\t\t{\tRequestFlags\t\tU32\t\t\t\t}",
   chars! "\t\t{\tTotalObjectCount\tU32\t\t\t\t}",
   chars! "\t}",
   chars! "\t{\t",
   chars! "\t\tReportData\tVariable",
   chars! "\t\t{\tTaskLocalID\t\t\tU32\t\t\t\t}",
   chars! "\t\t{\tTaskID\t\t\t\tLLUUID\t\t\t}",
   chars! "\t\t{\tLocationX\t\t\tF32\t\t\t\t}",
   chars! "\t\t{\tLocationY\t\t\tF32\t\t\t\t}",
   chars! "\t\t{\tLocationZ\t\t\tF32\t\t\t\t}",
   chars! "\t\t{\tScore\t\t\t\tF32\t\t\t\t}",
   chars! "\t\t{\tTaskName\t\t\tVariable\t1\t}",
   chars! "\t\t{\tOwnerName\t\t\tVariable\t1\t}",
   chars! "\t}",
   chars! "}"]

/-- `LandStatReply` as the parser creates it. -/
def r470 : RawTemplate :=
  ⟨"LandStatReply", .low, 422, [255, 255, 166], some .trusted, some .unencoded, some .udpDeprecated,
    [⟨"ReportData", .variable, 0, [⟨"OwnerName", some .variable, some 1⟩, ⟨"TaskName", some .variable, some 1⟩, ⟨"Score", some .f32, some 4⟩, ⟨"LocationZ", some .f32, some 4⟩, ⟨"LocationY", some .f32, some 4⟩, ⟨"LocationX", some .f32, some 4⟩, ⟨"TaskID", some .uuid, some 16⟩, ⟨"TaskLocalID", some .u32, some 4⟩]⟩,
     ⟨"RequestData", .single, 0, [⟨"TotalObjectCount", some .u32, some 4⟩, ⟨"RequestFlags", some .u32, some 4⟩, ⟨"ReportType", some .u32, some 4⟩]⟩]⟩

/-- `LandStatReply` in file order. -/
def t470 : Template :=
  ⟨"LandStatReply", .low, 422, [], some .trusted, some .unencoded, some .udpDeprecated,
    [⟨"RequestData", .single, 0, [⟨"ReportType", .u32, 4⟩, ⟨"RequestFlags", .u32, 4⟩, ⟨"TotalObjectCount", .u32, 4⟩]⟩,
     ⟨"ReportData", .variable, 0, [⟨"TaskLocalID", .u32, 4⟩, ⟨"TaskID", .uuid, 16⟩, ⟨"LocationX", .f32, 4⟩, ⟨"LocationY", .f32, 4⟩, ⟨"LocationZ", .f32, 4⟩, ⟨"Score", .f32, 4⟩, ⟨"TaskName", .variable, 1⟩, ⟨"OwnerName", .variable, 1⟩]⟩]⟩

theorem p470 : ChunkOk c470 r470 := by intro v older; kernel_rfl
theorem k470 : r470.known = some t470 := by kernel_rfl
theorem n470 : t470.name = String.ofList ['L', 'a', 'n', 'd', 'S', 't', 'a', 't', 'R', 'e', 'p', 'l', 'y'] := by kernel_rfl

/-- The names of the blocks and variables of `LandStatReply`. -/
def b470 : List (List Char × List (List Char)) :=
  [(['R', 'e', 'q', 'u', 'e', 's', 't', 'D', 'a', 't', 'a'], [['R', 'e', 'p', 'o', 'r', 't', 'T', 'y', 'p', 'e'], ['R', 'e', 'q', 'u', 'e', 's', 't', 'F', 'l', 'a', 'g', 's'], ['T', 'o', 't', 'a', 'l', 'O', 'b', 'j', 'e', 'c', 't', 'C', 'o', 'u', 'n', 't']]),
   (['R', 'e', 'p', 'o', 'r', 't', 'D', 'a', 't', 'a'], [['T', 'a', 's', 'k', 'L', 'o', 'c', 'a', 'l', 'I', 'D'], ['T', 'a', 's', 'k', 'I', 'D'], ['L', 'o', 'c', 'a', 't', 'i', 'o', 'n', 'X'], ['L', 'o', 'c', 'a', 't', 'i', 'o', 'n', 'Y'], ['L', 'o', 'c', 'a', 't', 'i', 'o', 'n', 'Z'], ['S', 'c', 'o', 'r', 'e'], ['T', 'a', 's', 'k', 'N', 'a', 'm', 'e'], ['O', 'w', 'n', 'e', 'r', 'N', 'a', 'm', 'e']])]

theorem w470 : Checked t470 := ⟨b470, by kernel_rfl, by kernel_rfl, by kernel_rfl⟩

/-- Lines of `message_template.msg` up to the end of `Error`. -/
def c471 : List (List Char) :=
  [chars! "",
   chars! "// Generic Error -- this is used for sending an error message",
   chars! "// to a UDP recipient. The lowest common denominator is to at least",
   chars! "// log the message. More sophisticated receivers can do something",
   chars! "// smarter, for example, a money transaction failure can put up a ",
   chars! "// more user visible UI widget.",
   chars! "{",
   chars! "\tError Low 423 NotTrusted Zerocoded",
   chars! "\t{",
   chars! "\t\tAgentData Single",
   chars! "\t\t{\tAgentID\t\tLLUUID\t}\t\t\t\t// will forward to agentid if coming from trusted circuit",
   chars! "\t}",
   chars! "\t{",
   chars! "\t\tData Single",
   chars! "\t\t{\t Code\t\tS32\t\t}\t\t\t\t// matches http status codes",
   chars! "\t\t{\t Token\t\tVariable\t1\t}\t\t// some specific short string based message",
   chars! "\t\t{\t ID\t\t\tLLUUID\t}\t\t\t\t// the transactionid/uniqueid/sessionid whatever.",
   chars! "\t\t{\t System\t\tVariable\t1\t} \t\t// The hierarchical path to the system, eg, \"message/handler\"",
   chars! "\t\t{\t Message\tVariable\t2\t}\t\t// Human readable message",
   chars! "\t\t{\t Data\t\tVariable\t2\t}\t\t// Binary serialized LLSD for extra info.",
   chars! "\t}",
   chars! "}"]

/-- `Error` as the parser creates it. -/
def r471 : RawTemplate :=
  ⟨"Error", .low, 423, [255, 255, 167], some .notTrusted, some .zerocoded, some .notDeprecated,
    [⟨"Data", .single, 0, [⟨"Data", some .variable, some 2⟩, ⟨"Message", some .variable, some 2⟩, ⟨"System", some .variable, some 1⟩, ⟨"ID", some .uuid, some 16⟩, ⟨"Token", some .variable, some 1⟩, ⟨"Code", some .s32, some 4⟩]⟩,
     ⟨"AgentData", .single, 0, [⟨"AgentID", some .uuid, some 16⟩]⟩]⟩

/-- `Error` in file order. -/
def t471 : Template :=
  ⟨"Error", .low, 423, [], some .notTrusted, some .zerocoded, some .notDeprecated,
    [⟨"AgentData", .single, 0, [⟨"AgentID", .uuid, 16⟩]⟩,
     ⟨"Data", .single, 0, [⟨"Code", .s32, 4⟩, ⟨"Token", .variable, 1⟩, ⟨"ID", .uuid, 16⟩, ⟨"System", .variable, 1⟩, ⟨"Message", .variable, 2⟩, ⟨"Data", .variable, 2⟩]⟩]⟩

theorem p471 : ChunkOk c471 r471 := by intro v older; kernel_rfl
theorem k471 : r471.known = some t471 := by kernel_rfl
theorem n471 : t471.name = String.ofList ['E', 'r', 'r', 'o', 'r'] := by kernel_rfl

/-- The names of the blocks and variables of `Error`. -/
def b471 : List (List Char × List (List Char)) :=
  [(['A', 'g', 'e', 'n', 't', 'D', 'a', 't', 'a'], [['A', 'g', 'e', 'n', 't', 'I', 'D']]),
   (['D', 'a', 't', 'a'], [['C', 'o', 'd', 'e'], ['T', 'o', 'k', 'e', 'n'], ['I', 'D'], ['S', 'y', 's', 't', 'e', 'm'], ['M', 'e', 's', 's', 'a', 'g', 'e'], ['D', 'a', 't', 'a']])]

theorem w471 : Checked t471 := ⟨b471, by kernel_rfl, by kernel_rfl, by kernel_rfl⟩

/-- Lines of `message_template.msg` up to the end of `ObjectIncludeInSearch`. -/
def c472 : List (List Char) :=
  [chars! "",
   chars! "// ObjectIncludeInSearch",
   chars! "// viewer -> simulator",
   chars! "{",
   chars! "\tObjectIncludeInSearch Low 424 NotTrusted Unencoded",
   chars! "\t{",
   chars! "\t\tAgentData\t\tSingle",
   chars! "\t\t{\tAgentID\t\tLLUUID\t}",
   chars! "\t\t{\tSessionID\tLLUUID\t}",
   chars! "\t}",
   chars! "\t{",
   chars! "\t\tObjectData\t\tVariable",
   chars! "\t\t{\tObjectLocalID\tU32\t\t}",
   chars! "\t\t{\tIncludeInSearch\tBOOL\t}",
   chars! "\t}",
   chars! "}"]

/-- `ObjectIncludeInSearch` as the parser creates it. -/
def r472 : RawTemplate :=
  ⟨"ObjectIncludeInSearch", .low, 424, [255, 255, 168], some .notTrusted, some .unencoded, some .notDeprecated,
    [⟨"ObjectData", .variable, 0, [⟨"IncludeInSearch", some .bool, some 1⟩, ⟨"ObjectLocalID", some .u32, some 4⟩]⟩,
     ⟨"AgentData", .single, 0, [⟨"SessionID", some .uuid, some 16⟩, ⟨"AgentID", some .uuid, some 16⟩]⟩]⟩

/-- `ObjectIncludeInSearch` in file order. -/
def t472 : Template :=
  ⟨"ObjectIncludeInSearch", .low, 424, [], some .notTrusted, some .unencoded, some .notDeprecated,
    [⟨"AgentData", .single, 0, [⟨"AgentID", .uuid, 16⟩, ⟨"SessionID", .uuid, 16⟩]⟩,
     ⟨"ObjectData", .variable, 0, [⟨"ObjectLocalID", .u32, 4⟩, ⟨"IncludeInSearch", .bool, 1⟩]⟩]⟩

theorem p472 : ChunkOk c472 r472 := by intro v older; kernel_rfl
theorem k472 : r472.known = some t472 := by kernel_rfl
theorem n472 : t472.name = String.ofList ['O', 'b', 'j', 'e', 'c', 't', 'I', 'n', 'c', 'l', 'u', 'd', 'e', 'I', 'n', 'S', 'e', 'a', 'r', 'c', 'h'] := by kernel_rfl

/-- The names of the blocks and variables of `ObjectIncludeInSearch`. -/
def b472 : List (List Char × List (List Char)) :=
  [(['A', 'g', 'e', 'n', 't', 'D', 'a', 't', 'a'], [['A', 'g', 'e', 'n', 't', 'I', 'D'], ['S', 'e', 's', 's', 'i', 'o', 'n', 'I', 'D']]),
   (['O', 'b', 'j', 'e', 'c', 't', 'D', 'a', 't', 'a'], [['O', 'b', 'j', 'e', 'c', 't', 'L', 'o', 'c', 'a', 'l', 'I', 'D'], ['I', 'n', 'c', 'l', 'u', 'd', 'e', 'I', 'n', 'S', 'e', 'a', 'r', 'c', 'h']])]

theorem w472 : Checked t472 := ⟨b472, by kernel_rfl, by kernel_rfl, by kernel_rfl⟩

/-- Lines of `message_template.msg` up to the end of `RezRestoreToWorld`. -/
def c473 : List (List Char) :=
  [chars! "",
   chars! "",
   chars! "// This message is sent from viewer -> simulator when the viewer wants",
   chars! "// to rez an object out of inventory back to its position before it",
   chars! "// last moved into the inventory",
   chars! "{",
   chars! "\tRezRestoreToWorld Low 425 NotTrusted Unencoded UDPDeprecated",
   chars! "\t{",
   chars! "\t\tAgentData\t\tSingle",
   chars! "\t\t{\tAgentID\t\tLLUUID  }",
   chars! "\t\t{\tSessionID\tLLUUID\t}",
   chars! "\t}",
   chars! "\t{",
   chars! "\t\tInventoryData\t\t\tSingle",
   chars! "\t\t{\tItemID\t\t\t\tLLUUID\t}",
   chars! "\t\t{\tFolderID\t\t\tLLUUID\t}",
   chars! "\t\t{\tCreatorID\t\t\tLLUUID\t}\t// permissions",
   chars! "\t\t{\tOwnerID\t\t\t\tLLUUID\t}\t// permissions",
   chars! "\t\t{\tGroupID\t\t\t\tLLUUID\t}\t// permissions",
   chars! "\t\t{\tBaseMask\t\t\tU32\t}\t// permissions",
   chars! "\t\t{\tOwnerMask\t\t\tU32\t}\t// permissions",
   chars! "\t\t{\tGroupMask\t\t\tU32\t}\t// permissions",
   chars! "\t\t{\tEveryoneMask\t\tU32\t}\t// permissions",
   chars! "\t\t{\tNextOwnerMask\t\tU32\t}\t// permissions",
   chars! "\t\t{\tGroupOwned\t\t\tBOOL\t}\t// permissions",
   chars! "\t\t{\tTransactionID\t\tLLUUID\t}",
   chars! "\t\t{\tType\t\t\t\tS8\t}",
   chars! "\t\t{\tInvType\t\t\t\tS8\t}",
   chars! "\t\t{\tFlags\t\t\t\tU32\t}",
   chars! "\t\t{\tSaleType\t\t\tU8\t}",
   chars! "\t\t{\tSalePrice\t\t\tS32\t}",
   chars! "\t\t{\tName\t\t\t\tVariable\t1\t}",
   chars! "\t\t{\tDescription\t\t\tVariable\t1\t}",
   chars! "\t\t{\tCreationDate\t\tS32\t}",
   chars! "\t\t{\tCRC\t\t\t\tU32\t}",
   chars! "\t}",
   chars! "}"]

/-- `RezRestoreToWorld` as the parser creates it. -/
def r473 : RawTemplate :=
  ⟨"RezRestoreToWorld", .low, 425, [255, 255, 169], some .notTrusted, some .unencoded, some .udpDeprecated,
    [⟨"InventoryData", .single, 0, [⟨"CRC", some .u32, some 4⟩, ⟨"CreationDate", some .s32, some 4⟩, ⟨"Description", some .variable, some 1⟩, ⟨"Name", some .variable, some 1⟩, ⟨"SalePrice", some .s32, some 4⟩, ⟨"SaleType", some .u8, some 1⟩, ⟨"Flags", some .u32, some 4⟩, ⟨"InvType", some .s8, some 1⟩, ⟨"Type", some .s8, some 1⟩, ⟨"TransactionID", some .uuid, some 16⟩, ⟨"GroupOwned", some .bool, some 1⟩, ⟨"NextOwnerMask", some .u32, some 4⟩, ⟨"EveryoneMask", some .u32, some 4⟩, ⟨"GroupMask", some .u32, some 4⟩, ⟨"OwnerMask", some .u32, some 4⟩, ⟨"BaseMask", some .u32, some 4⟩, ⟨"GroupID", some .uuid, some 16⟩, ⟨"OwnerID", some .uuid, some 16⟩, ⟨"CreatorID", some .uuid, some 16⟩, ⟨"FolderID", some .uuid, some 16⟩, ⟨"ItemID", some .uuid, some 16⟩]⟩,
     ⟨"AgentData", .single, 0, [⟨"SessionID", some .uuid, some 16⟩, ⟨"AgentID", some .uuid, some 16⟩]⟩]⟩

/-- `RezRestoreToWorld` in file order. -/
def t473 : Template :=
  ⟨"RezRestoreToWorld", .low, 425, [], some .notTrusted, some .unencoded, some .udpDeprecated,
    [⟨"AgentData", .single, 0, [⟨"AgentID", .uuid, 16⟩, ⟨"SessionID", .uuid, 16⟩]⟩,
     ⟨"InventoryData", .single, 0, [⟨"ItemID", .uuid, 16⟩, ⟨"FolderID", .uuid, 16⟩, ⟨"CreatorID", .uuid, 16⟩, ⟨"OwnerID", .uuid, 16⟩, ⟨"GroupID", .uuid, 16⟩, ⟨"BaseMask", .u32, 4⟩, ⟨"OwnerMask", .u32, 4⟩, ⟨"GroupMask", .u32, 4⟩, ⟨"EveryoneMask", .u32, 4⟩, ⟨"NextOwnerMask", .u32, 4⟩, ⟨"GroupOwned", .bool, 1⟩, ⟨"TransactionID", .uuid, 16⟩, ⟨"Type", .s8, 1⟩, ⟨"InvType", .s8, 1⟩, ⟨"Flags", .u32, 4⟩, ⟨"SaleType", .u8, 1⟩, ⟨"SalePrice", .s32, 4⟩, ⟨"Name", .variable, 1⟩, ⟨"Description", .variable, 1⟩, ⟨"CreationDate", .s32, 4⟩, ⟨"CRC", .u32, 4⟩]⟩]⟩

theorem p473 : ChunkOk c473 r473 := by intro v older; kernel_rfl
theorem k473 : r473.known = some t473 := by kernel_rfl
theorem n473 : t473.name = String.ofList ['R', 'e', 'z', 'R', 'e', 's', 't', 'o', 'r', 'e', 'T', 'o', 'W', 'o', 'r', 'l', 'd'] := by kernel_rfl

/-- The names of the blocks and variables of `RezRestoreToWorld`. -/
def b473 : List (List Char × List (List Char)) :=
  [(['A', 'g', 'e', 'n', 't', 'D', 'a', 't', 'a'], [['A', 'g', 'e', 'n', 't', 'I', 'D'], ['S', 'e', 's', 's', 'i', 'o', 'n', 'I', 'D']]),
   (['I', 'n', 'v', 'e', 'n', 't', 'o', 'r', 'y', 'D', 'a', 't', 'a'], [['I', 't', 'e', 'm', 'I', 'D'], ['F', 'o', 'l', 'd', 'e', 'r', 'I', 'D'], ['C', 'r', 'e', 'a', 't', 'o', 'r', 'I', 'D'], ['O', 'w', 'n', 'e', 'r', 'I', 'D'], ['G', 'r', 'o', 'u', 'p', 'I', 'D'], ['B', 'a', 's', 'e', 'M', 'a', 's', 'k'], ['O', 'w', 'n', 'e', 'r', 'M', 'a', 's', 'k'], ['G', 'r', 'o', 'u', 'p', 'M', 'a', 's', 'k'], ['E', 'v', 'e', 'r', 'y', 'o', 'n', 'e', 'M', 'a', 's', 'k'], ['N', 'e', 'x', 't', 'O', 'w', 'n', 'e', 'r', 'M', 'a', 's', 'k'], ['G', 'r', 'o', 'u', 'p', 'O', 'w', 'n', 'e', 'd'], ['T', 'r', 'a', 'n', 's', 'a', 'c', 't', 'i', 'o', 'n', 'I', 'D'], ['T', 'y', 'p', 'e'], ['I', 'n', 'v', 'T', 'y', 'p', 'e'], ['F', 'l', 'a', 'g', 's'], ['S', 'a', 'l', 'e', 'T', 'y', 'p', 'e'], ['S', 'a', 'l', 'e', 'P', 'r', 'i', 'c', 'e'], ['N', 'a', 'm', 'e'], ['D', 'e', 's', 'c', 'r', 'i', 'p', 't', 'i', 'o', 'n'], ['C', 'r', 'e', 'a', 't', 'i', 'o', 'n', 'D', 'a', 't', 'e'], ['C', 'R', 'C']])]

theorem w473 : Checked t473 := ⟨b473, by kernel_rfl, by kernel_rfl, by kernel_rfl⟩

/-- Lines of `message_template.msg` up to the end of `LinkInventoryItem`. -/
def c474 : List (List Char) :=
  [chars! "",
   chars! "// Link inventory",
   chars! "{",
   chars! "\tLinkInventoryItem\tLow\t426 NotTrusted\tZerocoded",
   chars! "\t{",
   chars! "\t\tAgentData\t\tSingle",
   chars! "\t\t{\tAgentID\t\tLLUUID\t}",
   chars! "\t\t{\tSessionID\tLLUUID\t}",
   chars! "\t}",
   chars! "\t{",
   chars! "\t\tInventoryBlock\t\tSingle",
   chars! "\t\t{\tCallbackID\tU32\t\t\t} // Async Response",
   chars! "\t\t{\tFolderID\t\tLLUUID\t}",
   chars! "\t\t{\tTransactionID\t\t\tLLUUID\t} // Going to become TransactionID",
   chars! "\t\t{\tOldItemID\t\tLLUUID\t}",
   chars! "\t\t{\tType\t\t\tS8\t}",
   chars! "\t\t{\tInvType\t\t\tS8\t}",
   chars! "\t\t{\tName\t\t\tVariable\t1\t}",
   chars! "\t\t{\tDescription\t\tVariable\t1\t}",
   chars! "",
   chars! "\t}",
   chars! "}"]

/-- `LinkInventoryItem` as the parser creates it. -/
def r474 : RawTemplate :=
  ⟨"LinkInventoryItem", .low, 426, [255, 255, 170], some .notTrusted, some .zerocoded, some .notDeprecated,
    [⟨"InventoryBlock", .single, 0, [⟨"Description", some .variable, some 1⟩, ⟨"Name", some .variable, some 1⟩, ⟨"InvType", some .s8, some 1⟩, ⟨"Type", some .s8, some 1⟩, ⟨"OldItemID", some .uuid, some 16⟩, ⟨"TransactionID", some .uuid, some 16⟩, ⟨"FolderID", some .uuid, some 16⟩, ⟨"CallbackID", some .u32, some 4⟩]⟩,
     ⟨"AgentData", .single, 0, [⟨"SessionID", some .uuid, some 16⟩, ⟨"AgentID", some .uuid, some 16⟩]⟩]⟩

/-- `LinkInventoryItem` in file order. -/
def t474 : Template :=
  ⟨"LinkInventoryItem", .low, 426, [], some .notTrusted, some .zerocoded, some .notDeprecated,
    [⟨"AgentData", .single, 0, [⟨"AgentID", .uuid, 16⟩, ⟨"SessionID", .uuid, 16⟩]⟩,
     ⟨"InventoryBlock", .single, 0, [⟨"CallbackID", .u32, 4⟩, ⟨"FolderID", .uuid, 16⟩, ⟨"TransactionID", .uuid, 16⟩, ⟨"OldItemID", .uuid, 16⟩, ⟨"Type", .s8, 1⟩, ⟨"InvType", .s8, 1⟩, ⟨"Name", .variable, 1⟩, ⟨"Description", .variable, 1⟩]⟩]⟩

theorem p474 : ChunkOk c474 r474 := by intro v older; kernel_rfl
theorem k474 : r474.known = some t474 := by kernel_rfl
theorem n474 : t474.name = String.ofList ['L', 'i', 'n', 'k', 'I', 'n', 'v', 'e', 'n', 't', 'o', 'r', 'y', 'I', 't', 'e', 'm'] := by kernel_rfl

/-- The names of the blocks and variables of `LinkInventoryItem`. -/
def b474 : List (List Char × List (List Char)) :=
  [(['A', 'g', 'e', 'n', 't', 'D', 'a', 't', 'a'], [['A', 'g', 'e', 'n', 't', 'I', 'D'], ['S', 'e', 's', 's', 'i', 'o', 'n', 'I', 'D']]),
   (['I', 'n', 'v', 'e', 'n', 't', 'o', 'r', 'y', 'B', 'l', 'o', 'c', 'k'], [['C', 'a', 'l', 'l', 'b', 'a', 'c', 'k', 'I', 'D'], ['F', 'o', 'l', 'd', 'e', 'r', 'I', 'D'], ['T', 'r', 'a', 'n', 's', 'a', 'c', 't', 'i', 'o', 'n', 'I', 'D'], ['O', 'l', 'd', 'I', 't', 'e', 'm', 'I', 'D'], ['T', 'y', 'p', 'e'], ['I', 'n', 'v', 'T', 'y', 'p', 'e'], ['N', 'a', 'm', 'e'], ['D', 'e', 's', 'c', 'r', 'i', 'p', 't', 'i', 'o', 'n']])]

theorem w474 : Checked t474 := ⟨b474, by kernel_rfl, by kernel_rfl, by kernel_rfl⟩

/-- Part 8 of the file. -/
def lines8 : List (List (List Char)) := [c420, c421, c422, c423, c424, c425, c426, c427, c428, c429, c430, c431, c432, c433, c434, c435, c436, c437, c438, c439, c440, c441, c442, c443, c444, c445, c446, c447, c448, c449, c450, c451, c452, c453, c454, c455, c456, c457, c458, c459, c460, c461, c462, c463, c464, c465, c466, c467, c468, c469, c470, c471, c472, c473, c474]

/-- Part 8 of the templates, as parsed. -/
def raws8 : List RawTemplate := [r420, r421, r422, r423, r424, r425, r426, r427, r428, r429, r430, r431, r432, r433, r434, r435, r436, r437, r438, r439, r440, r441, r442, r443, r444, r445, r446, r447, r448, r449, r450, r451, r452, r453, r454, r455, r456, r457, r458, r459, r460, r461, r462, r463, r464, r465, r466, r467, r468, r469, r470, r471, r472, r473, r474]

/-- Part 8 of the templates. -/
def templates8 : List Template := [t420, t421, t422, t423, t424, t425, t426, t427, t428, t429, t430, t431, t432, t433, t434, t435, t436, t437, t438, t439, t440, t441, t442, t443, t444, t445, t446, t447, t448, t449, t450, t451, t452, t453, t454, t455, t456, t457, t458, t459, t460, t461, t462, t463, t464, t465, t466, t467, t468, t469, t470, t471, t472, t473, t474]

/-- The names in part 8. -/
def names8 : List (List Char) :=
  [['G', 'r', 'o', 'u', 'p', 'R', 'o', 'l', 'e', 'M', 'e', 'm', 'b', 'e', 'r', 's', 'R', 'e', 'q', 'u', 'e', 's', 't'],
   ['G', 'r', 'o', 'u', 'p', 'R', 'o', 'l', 'e', 'M', 'e', 'm', 'b', 'e', 'r', 's', 'R', 'e', 'p', 'l', 'y'],
   ['G', 'r', 'o', 'u', 'p', 'T', 'i', 't', 'l', 'e', 's', 'R', 'e', 'q', 'u', 'e', 's', 't'],
   ['G', 'r', 'o', 'u', 'p', 'T', 'i', 't', 'l', 'e', 's', 'R', 'e', 'p', 'l', 'y'],
   ['G', 'r', 'o', 'u', 'p', 'T', 'i', 't', 'l', 'e', 'U', 'p', 'd', 'a', 't', 'e'],
   ['G', 'r', 'o', 'u', 'p', 'R', 'o', 'l', 'e', 'U', 'p', 'd', 'a', 't', 'e'],
   ['L', 'i', 'v', 'e', 'H', 'e', 'l', 'p', 'G', 'r', 'o', 'u', 'p', 'R', 'e', 'q', 'u', 'e', 's', 't'],
   ['L', 'i', 'v', 'e', 'H', 'e', 'l', 'p', 'G', 'r', 'o', 'u', 'p', 'R', 'e', 'p', 'l', 'y'],
   ['A', 'g', 'e', 'n', 't', 'W', 'e', 'a', 'r', 'a', 'b', 'l', 'e', 's', 'R', 'e', 'q', 'u', 'e', 's', 't'],
   ['A', 'g', 'e', 'n', 't', 'W', 'e', 'a', 'r', 'a', 'b', 'l', 'e', 's', 'U', 'p', 'd', 'a', 't', 'e'],
   ['A', 'g', 'e', 'n', 't', 'I', 's', 'N', 'o', 'w', 'W', 'e', 'a', 'r', 'i', 'n', 'g'],
   ['A', 'g', 'e', 'n', 't', 'C', 'a', 'c', 'h', 'e', 'd', 'T', 'e', 'x', 't', 'u', 'r', 'e'],
   ['A', 'g', 'e', 'n', 't', 'C', 'a', 'c', 'h', 'e', 'd', 'T', 'e', 'x', 't', 'u', 'r', 'e', 'R', 'e', 's', 'p', 'o', 'n', 's', 'e'],
   ['A', 'g', 'e', 'n', 't', 'D', 'a', 't', 'a', 'U', 'p', 'd', 'a', 't', 'e', 'R', 'e', 'q', 'u', 'e', 's', 't'],
   ['A', 'g', 'e', 'n', 't', 'D', 'a', 't', 'a', 'U', 'p', 'd', 'a', 't', 'e'],
   ['G', 'r', 'o', 'u', 'p', 'D', 'a', 't', 'a', 'U', 'p', 'd', 'a', 't', 'e'],
   ['A', 'g', 'e', 'n', 't', 'G', 'r', 'o', 'u', 'p', 'D', 'a', 't', 'a', 'U', 'p', 'd', 'a', 't', 'e'],
   ['A', 'g', 'e', 'n', 't', 'D', 'r', 'o', 'p', 'G', 'r', 'o', 'u', 'p'],
   ['L', 'o', 'g', 'T', 'e', 'x', 't', 'M', 'e', 's', 's', 'a', 'g', 'e'],
   ['V', 'i', 'e', 'w', 'e', 'r', 'E', 'f', 'f', 'e', 'c', 't'],
   ['C', 'r', 'e', 'a', 't', 'e', 'T', 'r', 'u', 's', 't', 'e', 'd', 'C', 'i', 'r', 'c', 'u', 'i', 't'],
   ['D', 'e', 'n', 'y', 'T', 'r', 'u', 's', 't', 'e', 'd', 'C', 'i', 'r', 'c', 'u', 'i', 't'],
   ['R', 'e', 'q', 'u', 'e', 's', 't', 'T', 'r', 'u', 's', 't', 'e', 'd', 'C', 'i', 'r', 'c', 'u', 'i', 't'],
   ['R', 'e', 'z', 'S', 'i', 'n', 'g', 'l', 'e', 'A', 't', 't', 'a', 'c', 'h', 'm', 'e', 'n', 't', 'F', 'r', 'o', 'm', 'I', 'n', 'v'],
   ['R', 'e', 'z', 'M', 'u', 'l', 't', 'i', 'p', 'l', 'e', 'A', 't', 't', 'a', 'c', 'h', 'm', 'e', 'n', 't', 's', 'F', 'r', 'o', 'm', 'I', 'n', 'v'],
   ['D', 'e', 't', 'a', 'c', 'h', 'A', 't', 't', 'a', 'c', 'h', 'm', 'e', 'n', 't', 'I', 'n', 't', 'o', 'I', 'n', 'v'],
   ['C', 'r', 'e', 'a', 't', 'e', 'N', 'e', 'w', 'O', 'u', 't', 'f', 'i', 't', 'A', 't', 't', 'a', 'c', 'h', 'm', 'e', 'n', 't', 's'],
   ['U', 's', 'e', 'r', 'I', 'n', 'f', 'o', 'R', 'e', 'q', 'u', 'e', 's', 't'],
   ['U', 's', 'e', 'r', 'I', 'n', 'f', 'o', 'R', 'e', 'p', 'l', 'y'],
   ['U', 'p', 'd', 'a', 't', 'e', 'U', 's', 'e', 'r', 'I', 'n', 'f', 'o'],
   ['P', 'a', 'r', 'c', 'e', 'l', 'R', 'e', 'n', 'a', 'm', 'e'],
   ['I', 'n', 'i', 't', 'i', 'a', 't', 'e', 'D', 'o', 'w', 'n', 'l', 'o', 'a', 'd'],
   ['S', 'y', 's', 't', 'e', 'm', 'M', 'e', 's', 's', 'a', 'g', 'e'],
   ['M', 'a', 'p', 'L', 'a', 'y', 'e', 'r', 'R', 'e', 'q', 'u', 'e', 's', 't'],
   ['M', 'a', 'p', 'L', 'a', 'y', 'e', 'r', 'R', 'e', 'p', 'l', 'y'],
   ['M', 'a', 'p', 'B', 'l', 'o', 'c', 'k', 'R', 'e', 'q', 'u', 'e', 's', 't'],
   ['M', 'a', 'p', 'N', 'a', 'm', 'e', 'R', 'e', 'q', 'u', 'e', 's', 't'],
   ['M', 'a', 'p', 'B', 'l', 'o', 'c', 'k', 'R', 'e', 'p', 'l', 'y'],
   ['M', 'a', 'p', 'I', 't', 'e', 'm', 'R', 'e', 'q', 'u', 'e', 's', 't'],
   ['M', 'a', 'p', 'I', 't', 'e', 'm', 'R', 'e', 'p', 'l', 'y'],
   ['S', 'e', 'n', 'd', 'P', 'o', 's', 't', 'c', 'a', 'r', 'd'],
   ['R', 'p', 'c', 'C', 'h', 'a', 'n', 'n', 'e', 'l', 'R', 'e', 'q', 'u', 'e', 's', 't'],
   ['R', 'p', 'c', 'C', 'h', 'a', 'n', 'n', 'e', 'l', 'R', 'e', 'p', 'l', 'y'],
   ['R', 'p', 'c', 'S', 'c', 'r', 'i', 'p', 't', 'R', 'e', 'q', 'u', 'e', 's', 't', 'I', 'n', 'b', 'o', 'u', 'n', 'd'],
   ['R', 'p', 'c', 'S', 'c', 'r', 'i', 'p', 't', 'R', 'e', 'q', 'u', 'e', 's', 't', 'I', 'n', 'b', 'o', 'u', 'n', 'd', 'F', 'o', 'r', 'w', 'a', 'r', 'd'],
   ['R', 'p', 'c', 'S', 'c', 'r', 'i', 'p', 't', 'R', 'e', 'p', 'l', 'y', 'I', 'n', 'b', 'o', 'u', 'n', 'd'],
   ['S', 'c', 'r', 'i', 'p', 't', 'M', 'a', 'i', 'l', 'R', 'e', 'g', 'i', 's', 't', 'r', 'a', 't', 'i', 'o', 'n'],
   ['P', 'a', 'r', 'c', 'e', 'l', 'M', 'e', 'd', 'i', 'a', 'C', 'o', 'm', 'm', 'a', 'n', 'd', 'M', 'e', 's', 's', 'a', 'g', 'e'],
   ['P', 'a', 'r', 'c', 'e', 'l', 'M', 'e', 'd', 'i', 'a', 'U', 'p', 'd', 'a', 't', 'e'],
   ['L', 'a', 'n', 'd', 'S', 't', 'a', 't', 'R', 'e', 'q', 'u', 'e', 's', 't'],
   ['L', 'a', 'n', 'd', 'S', 't', 'a', 't', 'R', 'e', 'p', 'l', 'y'],
   ['E', 'r', 'r', 'o', 'r'],
   ['O', 'b', 'j', 'e', 'c', 't', 'I', 'n', 'c', 'l', 'u', 'd', 'e', 'I', 'n', 'S', 'e', 'a', 'r', 'c', 'h'],
   ['R', 'e', 'z', 'R', 'e', 's', 't', 'o', 'r', 'e', 'T', 'o', 'W', 'o', 'r', 'l', 'd'],
   ['L', 'i', 'n', 'k', 'I', 'n', 'v', 'e', 'n', 't', 'o', 'r', 'y', 'I', 't', 'e', 'm']]

theorem parsed8 : List.Forall₂ ChunkOk lines8 raws8 :=
  (.cons p420 (.cons p421 (.cons p422 (.cons p423 (.cons p424 (.cons p425 (.cons p426 (.cons p427 (.cons p428 (.cons p429 (.cons p430 (.cons p431 (.cons p432 (.cons p433 (.cons p434 (.cons p435 (.cons p436 (.cons p437 (.cons p438 (.cons p439 (.cons p440 (.cons p441 (.cons p442 (.cons p443 (.cons p444 (.cons p445 (.cons p446 (.cons p447 (.cons p448 (.cons p449 (.cons p450 (.cons p451 (.cons p452 (.cons p453 (.cons p454 (.cons p455 (.cons p456 (.cons p457 (.cons p458 (.cons p459 (.cons p460 (.cons p461 (.cons p462 (.cons p463 (.cons p464 (.cons p465 (.cons p466 (.cons p467 (.cons p468 (.cons p469 (.cons p470 (.cons p471 (.cons p472 (.cons p473 (.cons p474 .nil)))))))))))))))))))))))))))))))))))))))))))))))))))))))

theorem known8 : List.Forall₂ (fun r t => RawTemplate.known r = some t) raws8 templates8 :=
  (.cons k420 (.cons k421 (.cons k422 (.cons k423 (.cons k424 (.cons k425 (.cons k426 (.cons k427 (.cons k428 (.cons k429 (.cons k430 (.cons k431 (.cons k432 (.cons k433 (.cons k434 (.cons k435 (.cons k436 (.cons k437 (.cons k438 (.cons k439 (.cons k440 (.cons k441 (.cons k442 (.cons k443 (.cons k444 (.cons k445 (.cons k446 (.cons k447 (.cons k448 (.cons k449 (.cons k450 (.cons k451 (.cons k452 (.cons k453 (.cons k454 (.cons k455 (.cons k456 (.cons k457 (.cons k458 (.cons k459 (.cons k460 (.cons k461 (.cons k462 (.cons k463 (.cons k464 (.cons k465 (.cons k466 (.cons k467 (.cons k468 (.cons k469 (.cons k470 (.cons k471 (.cons k472 (.cons k473 (.cons k474 .nil)))))))))))))))))))))))))))))))))))))))))))))))))))))))

theorem named8 : List.Forall₂ (fun (t : Template) w => t.name = String.ofList w) templates8 names8 :=
  (.cons n420 (.cons n421 (.cons n422 (.cons n423 (.cons n424 (.cons n425 (.cons n426 (.cons n427 (.cons n428 (.cons n429 (.cons n430 (.cons n431 (.cons n432 (.cons n433 (.cons n434 (.cons n435 (.cons n436 (.cons n437 (.cons n438 (.cons n439 (.cons n440 (.cons n441 (.cons n442 (.cons n443 (.cons n444 (.cons n445 (.cons n446 (.cons n447 (.cons n448 (.cons n449 (.cons n450 (.cons n451 (.cons n452 (.cons n453 (.cons n454 (.cons n455 (.cons n456 (.cons n457 (.cons n458 (.cons n459 (.cons n460 (.cons n461 (.cons n462 (.cons n463 (.cons n464 (.cons n465 (.cons n466 (.cons n467 (.cons n468 (.cons n469 (.cons n470 (.cons n471 (.cons n472 (.cons n473 (.cons n474 .nil)))))))))))))))))))))))))))))))))))))))))))))))))))))))

theorem checked8 : ∀ t ∈ templates8, Checked t :=
  (List.forall_mem_cons.mpr ⟨w420, (List.forall_mem_cons.mpr ⟨w421, (List.forall_mem_cons.mpr ⟨w422, (List.forall_mem_cons.mpr ⟨w423, (List.forall_mem_cons.mpr ⟨w424, (List.forall_mem_cons.mpr ⟨w425, (List.forall_mem_cons.mpr ⟨w426, (List.forall_mem_cons.mpr ⟨w427, (List.forall_mem_cons.mpr ⟨w428, (List.forall_mem_cons.mpr ⟨w429, (List.forall_mem_cons.mpr ⟨w430, (List.forall_mem_cons.mpr ⟨w431, (List.forall_mem_cons.mpr ⟨w432, (List.forall_mem_cons.mpr ⟨w433, (List.forall_mem_cons.mpr ⟨w434, (List.forall_mem_cons.mpr ⟨w435, (List.forall_mem_cons.mpr ⟨w436, (List.forall_mem_cons.mpr ⟨w437, (List.forall_mem_cons.mpr ⟨w438, (List.forall_mem_cons.mpr ⟨w439, (List.forall_mem_cons.mpr ⟨w440, (List.forall_mem_cons.mpr ⟨w441, (List.forall_mem_cons.mpr ⟨w442, (List.forall_mem_cons.mpr ⟨w443, (List.forall_mem_cons.mpr ⟨w444, (List.forall_mem_cons.mpr ⟨w445, (List.forall_mem_cons.mpr ⟨w446, (List.forall_mem_cons.mpr ⟨w447, (List.forall_mem_cons.mpr ⟨w448, (List.forall_mem_cons.mpr ⟨w449, (List.forall_mem_cons.mpr ⟨w450, (List.forall_mem_cons.mpr ⟨w451, (List.forall_mem_cons.mpr ⟨w452, (List.forall_mem_cons.mpr ⟨w453, (List.forall_mem_cons.mpr ⟨w454, (List.forall_mem_cons.mpr ⟨w455, (List.forall_mem_cons.mpr ⟨w456, (List.forall_mem_cons.mpr ⟨w457, (List.forall_mem_cons.mpr ⟨w458, (List.forall_mem_cons.mpr ⟨w459, (List.forall_mem_cons.mpr ⟨w460, (List.forall_mem_cons.mpr ⟨w461, (List.forall_mem_cons.mpr ⟨w462, (List.forall_mem_cons.mpr ⟨w463, (List.forall_mem_cons.mpr ⟨w464, (List.forall_mem_cons.mpr ⟨w465, (List.forall_mem_cons.mpr ⟨w466, (List.forall_mem_cons.mpr ⟨w467, (List.forall_mem_cons.mpr ⟨w468, (List.forall_mem_cons.mpr ⟨w469, (List.forall_mem_cons.mpr ⟨w470, (List.forall_mem_cons.mpr ⟨w471, (List.forall_mem_cons.mpr ⟨w472, (List.forall_mem_cons.mpr ⟨w473, (List.forall_mem_cons.mpr ⟨w474, (List.forall_mem_nil _)⟩)⟩)⟩)⟩)⟩)⟩)⟩)⟩)⟩)⟩)⟩)⟩)⟩)⟩)⟩)⟩)⟩)⟩)⟩)⟩)⟩)⟩)⟩)⟩)⟩)⟩)⟩)⟩)⟩)⟩)⟩)⟩)⟩)⟩)⟩)⟩)⟩)⟩)⟩)⟩)⟩)⟩)⟩)⟩)⟩)⟩)⟩)⟩)⟩)⟩)⟩)⟩)⟩)⟩)⟩)

end Pyogp.Embedded
