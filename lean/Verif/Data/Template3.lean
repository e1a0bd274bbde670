import Verif.Data.Chars

/-! Generated by `tools/gen_template.py` from `message/data/message_template.msg`: part 3. -/

namespace Pyogp.Embedded


/-- Lines of `message_template.msg` up to the end of `ObjectSaleInfo`. -/
def c120 : List (List Char) :=
  [chars! "",
   chars! "// set object sale information",
   chars! "{",
   chars! "\tObjectSaleInfo Low 106 NotTrusted Zerocoded",
   chars! "\t{",
   chars! "\t\tAgentData\t\t\tSingle",
   chars! "\t\t{\tAgentID\t\t\tLLUUID\t}",
   chars! "\t\t{\tSessionID\t\tLLUUID\t}",
   chars! "\t}",
   chars! "\t{",
   chars! "\t\tObjectData\t\t\tVariable",
   chars! "\t\t{\tLocalID\t\t\tU32\t}",
   chars! "\t\t{\tSaleType\t\tU8\t}   // U8 -> EForSale",
   chars! "\t\t{\tSalePrice\t\tS32\t}",
   chars! "\t}",
   chars! "}"]

/-- `ObjectSaleInfo` as the parser creates it. -/
def r120 : RawTemplate :=
  ⟨"ObjectSaleInfo", .low, 106, [255, 255, 106], some .notTrusted, some .zerocoded, some .notDeprecated,
    [⟨"ObjectData", .variable, 0, [⟨"SalePrice", some .s32, some 4⟩, ⟨"SaleType", some .u8, some 1⟩, ⟨"LocalID", some .u32, some 4⟩]⟩,
     ⟨"AgentData", .single, 0, [⟨"SessionID", some .uuid, some 16⟩, ⟨"AgentID", some .uuid, some 16⟩]⟩]⟩

/-- `ObjectSaleInfo` in file order. -/
def t120 : Template :=
  ⟨"ObjectSaleInfo", .low, 106, [], some .notTrusted, some .zerocoded, some .notDeprecated,
    [⟨"AgentData", .single, 0, [⟨"AgentID", .uuid, 16⟩, ⟨"SessionID", .uuid, 16⟩]⟩,
     ⟨"ObjectData", .variable, 0, [⟨"LocalID", .u32, 4⟩, ⟨"SaleType", .u8, 1⟩, ⟨"SalePrice", .s32, 4⟩]⟩]⟩

theorem p120 : ChunkOk c120 r120 := by intro v older; kernel_rfl
theorem k120 : r120.known = some t120 := by kernel_rfl
theorem n120 : t120.name = String.ofList ['O', 'b', 'j', 'e', 'c', 't', 'S', 'a', 'l', 'e', 'I', 'n', 'f', 'o'] := by kernel_rfl

/-- The names of the blocks and variables of `ObjectSaleInfo`. -/
def b120 : List (List Char × List (List Char)) :=
  [(['A', 'g', 'e', 'n', 't', 'D', 'a', 't', 'a'], [['A', 'g', 'e', 'n', 't', 'I', 'D'], ['S', 'e', 's', 's', 'i', 'o', 'n', 'I', 'D']]),
   (['O', 'b', 'j', 'e', 'c', 't', 'D', 'a', 't', 'a'], [['L', 'o', 'c', 'a', 'l', 'I', 'D'], ['S', 'a', 'l', 'e', 'T', 'y', 'p', 'e'], ['S', 'a', 'l', 'e', 'P', 'r', 'i', 'c', 'e']])]

theorem w120 : Checked t120 := ⟨b120, by kernel_rfl, by kernel_rfl, by kernel_rfl⟩

/-- Lines of `message_template.msg` up to the end of `ObjectName`. -/
def c121 : List (List Char) :=
  [chars! "",
   chars! "",
   chars! "// set object names",
   chars! "{",
   chars! "\tObjectName Low 107 NotTrusted Zerocoded",
   chars! "\t{",
   chars! "\t\tAgentData\t\tSingle",
   chars! "\t\t{\tAgentID\t\tLLUUID\t}",
   chars! "\t\t{\tSessionID\tLLUUID\t}",
   chars! "\t}",
   chars! "\t{",
   chars! "\t\tObjectData\t\tVariable",
   chars! "\t\t{\tLocalID\t\tU32\t}",
   chars! "\t\t{\tName\t\tVariable\t1\t}",
   chars! "\t}",
   chars! "}"]

/-- `ObjectName` as the parser creates it. -/
def r121 : RawTemplate :=
  ⟨"ObjectName", .low, 107, [255, 255, 107], some .notTrusted, some .zerocoded, some .notDeprecated,
    [⟨"ObjectData", .variable, 0, [⟨"Name", some .variable, some 1⟩, ⟨"LocalID", some .u32, some 4⟩]⟩,
     ⟨"AgentData", .single, 0, [⟨"SessionID", some .uuid, some 16⟩, ⟨"AgentID", some .uuid, some 16⟩]⟩]⟩

/-- `ObjectName` in file order. -/
def t121 : Template :=
  ⟨"ObjectName", .low, 107, [], some .notTrusted, some .zerocoded, some .notDeprecated,
    [⟨"AgentData", .single, 0, [⟨"AgentID", .uuid, 16⟩, ⟨"SessionID", .uuid, 16⟩]⟩,
     ⟨"ObjectData", .variable, 0, [⟨"LocalID", .u32, 4⟩, ⟨"Name", .variable, 1⟩]⟩]⟩

theorem p121 : ChunkOk c121 r121 := by intro v older; kernel_rfl
theorem k121 : r121.known = some t121 := by kernel_rfl
theorem n121 : t121.name = String.ofList ['O', 'b', 'j', 'e', 'c', 't', 'N', 'a', 'm', 'e'] := by kernel_rfl

/-- The names of the blocks and variables of `ObjectName`. -/
def b121 : List (List Char × List (List Char)) :=
  [(['A', 'g', 'e', 'n', 't', 'D', 'a', 't', 'a'], [['A', 'g', 'e', 'n', 't', 'I', 'D'], ['S', 'e', 's', 's', 'i', 'o', 'n', 'I', 'D']]),
   (['O', 'b', 'j', 'e', 'c', 't', 'D', 'a', 't', 'a'], [['L', 'o', 'c', 'a', 'l', 'I', 'D'], ['N', 'a', 'm', 'e']])]

theorem w121 : Checked t121 := ⟨b121, by kernel_rfl, by kernel_rfl, by kernel_rfl⟩

/-- Lines of `message_template.msg` up to the end of `ObjectDescription`. -/
def c122 : List (List Char) :=
  [chars! "",
   chars! "// set object descriptions",
   chars! "{",
   chars! "\tObjectDescription Low 108 NotTrusted Zerocoded",
   chars! "\t{",
   chars! "\t\tAgentData\t\tSingle",
   chars! "\t\t{\tAgentID\t\tLLUUID\t}",
   chars! "\t\t{\tSessionID\tLLUUID\t}",
   chars! "\t}",
   chars! "\t{",
   chars! "\t\tObjectData\t\tVariable",
   chars! "\t\t{\tLocalID\t\tU32\t}",
   chars! "\t\t{\tDescription\tVariable\t1\t}",
   chars! "\t}",
   chars! "}"]

/-- `ObjectDescription` as the parser creates it. -/
def r122 : RawTemplate :=
  ⟨"ObjectDescription", .low, 108, [255, 255, 108], some .notTrusted, some .zerocoded, some .notDeprecated,
    [⟨"ObjectData", .variable, 0, [⟨"Description", some .variable, some 1⟩, ⟨"LocalID", some .u32, some 4⟩]⟩,
     ⟨"AgentData", .single, 0, [⟨"SessionID", some .uuid, some 16⟩, ⟨"AgentID", some .uuid, some 16⟩]⟩]⟩

/-- `ObjectDescription` in file order. -/
def t122 : Template :=
  ⟨"ObjectDescription", .low, 108, [], some .notTrusted, some .zerocoded, some .notDeprecated,
    [⟨"AgentData", .single, 0, [⟨"AgentID", .uuid, 16⟩, ⟨"SessionID", .uuid, 16⟩]⟩,
     ⟨"ObjectData", .variable, 0, [⟨"LocalID", .u32, 4⟩, ⟨"Description", .variable, 1⟩]⟩]⟩

theorem p122 : ChunkOk c122 r122 := by intro v older; kernel_rfl
theorem k122 : r122.known = some t122 := by kernel_rfl
theorem n122 : t122.name = String.ofList ['O', 'b', 'j', 'e', 'c', 't', 'D', 'e', 's', 'c', 'r', 'i', 'p', 't', 'i', 'o', 'n'] := by kernel_rfl

/-- The names of the blocks and variables of `ObjectDescription`. -/
def b122 : List (List Char × List (List Char)) :=
  [(['A', 'g', 'e', 'n', 't', 'D', 'a', 't', 'a'], [['A', 'g', 'e', 'n', 't', 'I', 'D'], ['S', 'e', 's', 's', 'i', 'o', 'n', 'I', 'D']]),
   (['O', 'b', 'j', 'e', 'c', 't', 'D', 'a', 't', 'a'], [['L', 'o', 'c', 'a', 'l', 'I', 'D'], ['D', 'e', 's', 'c', 'r', 'i', 'p', 't', 'i', 'o', 'n']])]

theorem w122 : Checked t122 := ⟨b122, by kernel_rfl, by kernel_rfl, by kernel_rfl⟩

/-- Lines of `message_template.msg` up to the end of `ObjectCategory`. -/
def c123 : List (List Char) :=
  [chars! "",
   chars! "// set object category",
   chars! "{",
   chars! "\tObjectCategory Low 109 NotTrusted Zerocoded",
   chars! "\t{",
   chars! "\t\tAgentData\t\tSingle",
   chars! "\t\t{\tAgentID\t\tLLUUID\t}",
   chars! "\t\t{\tSessionID\tLLUUID\t}",
   chars! "\t}",
   chars! "\t{",
   chars! "\t\tObjectData\t\tVariable",
   chars! "\t\t{\tLocalID\t\tU32\t}",
   chars! "\t\t{\tCategory\tU32\t}",
   chars! "\t}",
   chars! "}"]

/-- `ObjectCategory` as the parser creates it. -/
def r123 : RawTemplate :=
  ⟨"ObjectCategory", .low, 109, [255, 255, 109], some .notTrusted, some .zerocoded, some .notDeprecated,
    [⟨"ObjectData", .variable, 0, [⟨"Category", some .u32, some 4⟩, ⟨"LocalID", some .u32, some 4⟩]⟩,
     ⟨"AgentData", .single, 0, [⟨"SessionID", some .uuid, some 16⟩, ⟨"AgentID", some .uuid, some 16⟩]⟩]⟩

/-- `ObjectCategory` in file order. -/
def t123 : Template :=
  ⟨"ObjectCategory", .low, 109, [], some .notTrusted, some .zerocoded, some .notDeprecated,
    [⟨"AgentData", .single, 0, [⟨"AgentID", .uuid, 16⟩, ⟨"SessionID", .uuid, 16⟩]⟩,
     ⟨"ObjectData", .variable, 0, [⟨"LocalID", .u32, 4⟩, ⟨"Category", .u32, 4⟩]⟩]⟩

theorem p123 : ChunkOk c123 r123 := by intro v older; kernel_rfl
theorem k123 : r123.known = some t123 := by kernel_rfl
theorem n123 : t123.name = String.ofList ['O', 'b', 'j', 'e', 'c', 't', 'C', 'a', 't', 'e', 'g', 'o', 'r', 'y'] := by kernel_rfl

/-- The names of the blocks and variables of `ObjectCategory`. -/
def b123 : List (List Char × List (List Char)) :=
  [(['A', 'g', 'e', 'n', 't', 'D', 'a', 't', 'a'], [['A', 'g', 'e', 'n', 't', 'I', 'D'], ['S', 'e', 's', 's', 'i', 'o', 'n', 'I', 'D']]),
   (['O', 'b', 'j', 'e', 'c', 't', 'D', 'a', 't', 'a'], [['L', 'o', 'c', 'a', 'l', 'I', 'D'], ['C', 'a', 't', 'e', 'g', 'o', 'r', 'y']])]

theorem w123 : Checked t123 := ⟨b123, by kernel_rfl, by kernel_rfl, by kernel_rfl⟩

/-- Lines of `message_template.msg` up to the end of `ObjectSelect`. -/
def c124 : List (List Char) :=
  [chars! "",
   chars! "// ObjectSelect",
   chars! "// Variable object data because rectangular selection can",
   chars! "// generate a large list very quickly.",
   chars! "{",
   chars! "\tObjectSelect Low 110 NotTrusted Zerocoded",
   chars! "\t{",
   chars! "\t\tAgentData\t\tSingle",
   chars! "\t\t{\tAgentID\t\tLLUUID\t}",
   chars! "\t\t{\tSessionID\tLLUUID\t}",
   chars! "\t}",
   chars! "\t{",
   chars! "\t\tObjectData\t\tVariable",
   chars! "\t\t{\tObjectLocalID\tU32\t}",
   chars! "\t}",
   chars! "",
   chars! "}"]

/-- `ObjectSelect` as the parser creates it. -/
def r124 : RawTemplate :=
  ⟨"ObjectSelect", .low, 110, [255, 255, 110], some .notTrusted, some .zerocoded, some .notDeprecated,
    [⟨"ObjectData", .variable, 0, [⟨"ObjectLocalID", some .u32, some 4⟩]⟩,
     ⟨"AgentData", .single, 0, [⟨"SessionID", some .uuid, some 16⟩, ⟨"AgentID", some .uuid, some 16⟩]⟩]⟩

/-- `ObjectSelect` in file order. -/
def t124 : Template :=
  ⟨"ObjectSelect", .low, 110, [], some .notTrusted, some .zerocoded, some .notDeprecated,
    [⟨"AgentData", .single, 0, [⟨"AgentID", .uuid, 16⟩, ⟨"SessionID", .uuid, 16⟩]⟩,
     ⟨"ObjectData", .variable, 0, [⟨"ObjectLocalID", .u32, 4⟩]⟩]⟩

theorem p124 : ChunkOk c124 r124 := by intro v older; kernel_rfl
theorem k124 : r124.known = some t124 := by kernel_rfl
theorem n124 : t124.name = String.ofList ['O', 'b', 'j', 'e', 'c', 't', 'S', 'e', 'l', 'e', 'c', 't'] := by kernel_rfl

/-- The names of the blocks and variables of `ObjectSelect`. -/
def b124 : List (List Char × List (List Char)) :=
  [(['A', 'g', 'e', 'n', 't', 'D', 'a', 't', 'a'], [['A', 'g', 'e', 'n', 't', 'I', 'D'], ['S', 'e', 's', 's', 'i', 'o', 'n', 'I', 'D']]),
   (['O', 'b', 'j', 'e', 'c', 't', 'D', 'a', 't', 'a'], [['O', 'b', 'j', 'e', 'c', 't', 'L', 'o', 'c', 'a', 'l', 'I', 'D']])]

theorem w124 : Checked t124 := ⟨b124, by kernel_rfl, by kernel_rfl, by kernel_rfl⟩

/-- Lines of `message_template.msg` up to the end of `ObjectDeselect`. -/
def c125 : List (List Char) :=
  [chars! "",
   chars! "",
   chars! "// ObjectDeselect",
   chars! "{",
   chars! "\tObjectDeselect Low 111 NotTrusted Zerocoded",
   chars! "\t{",
   chars! "\t\tAgentData\t\tSingle",
   chars! "\t\t{\tAgentID\t\tLLUUID\t}",
   chars! "\t\t{\tSessionID\tLLUUID\t}",
   chars! "\t}",
   chars! "\t{",
   chars! "\t\tObjectData\t\tVariable",
   chars! "\t\t{\tObjectLocalID\tU32\t}",
   chars! "\t}",
   chars! "",
   chars! "}"]

/-- `ObjectDeselect` as the parser creates it. -/
def r125 : RawTemplate :=
  ⟨"ObjectDeselect", .low, 111, [255, 255, 111], some .notTrusted, some .zerocoded, some .notDeprecated,
    [⟨"ObjectData", .variable, 0, [⟨"ObjectLocalID", some .u32, some 4⟩]⟩,
     ⟨"AgentData", .single, 0, [⟨"SessionID", some .uuid, some 16⟩, ⟨"AgentID", some .uuid, some 16⟩]⟩]⟩

/-- `ObjectDeselect` in file order. -/
def t125 : Template :=
  ⟨"ObjectDeselect", .low, 111, [], some .notTrusted, some .zerocoded, some .notDeprecated,
    [⟨"AgentData", .single, 0, [⟨"AgentID", .uuid, 16⟩, ⟨"SessionID", .uuid, 16⟩]⟩,
     ⟨"ObjectData", .variable, 0, [⟨"ObjectLocalID", .u32, 4⟩]⟩]⟩

theorem p125 : ChunkOk c125 r125 := by intro v older; kernel_rfl
theorem k125 : r125.known = some t125 := by kernel_rfl
theorem n125 : t125.name = String.ofList ['O', 'b', 'j', 'e', 'c', 't', 'D', 'e', 's', 'e', 'l', 'e', 'c', 't'] := by kernel_rfl

/-- The names of the blocks and variables of `ObjectDeselect`. -/
def b125 : List (List Char × List (List Char)) :=
  [(['A', 'g', 'e', 'n', 't', 'D', 'a', 't', 'a'], [['A', 'g', 'e', 'n', 't', 'I', 'D'], ['S', 'e', 's', 's', 'i', 'o', 'n', 'I', 'D']]),
   (['O', 'b', 'j', 'e', 'c', 't', 'D', 'a', 't', 'a'], [['O', 'b', 'j', 'e', 'c', 't', 'L', 'o', 'c', 'a', 'l', 'I', 'D']])]

theorem w125 : Checked t125 := ⟨b125, by kernel_rfl, by kernel_rfl, by kernel_rfl⟩

/-- Lines of `message_template.msg` up to the end of `ObjectAttach`. -/
def c126 : List (List Char) :=
  [chars! "",
   chars! "// ObjectAttach",
   chars! "{",
   chars! "\tObjectAttach Low 112 NotTrusted Zerocoded",
   chars! "\t{",
   chars! "\t\tAgentData\t\tSingle",
   chars! "\t\t{\tAgentID\t\tLLUUID\t}",
   chars! "\t\t{\tSessionID\tLLUUID\t}",
   chars! "\t\t{\tAttachmentPoint\tU8\t}",
   chars! "\t}",
   chars! "\t{",
   chars! "\t\tObjectData\t\tVariable",
   chars! "\t\t{\tObjectLocalID\tU32\t\t\t\t}",
   chars! "\t\t{\tRotation\t\tLLQuaternion\t}",
   chars! "\t}",
   chars! "}"]

/-- `ObjectAttach` as the parser creates it. -/
def r126 : RawTemplate :=
  ⟨"ObjectAttach", .low, 112, [255, 255, 112], some .notTrusted, some .zerocoded, some .notDeprecated,
    [⟨"ObjectData", .variable, 0, [⟨"Rotation", some .quaternion, some 12⟩, ⟨"ObjectLocalID", some .u32, some 4⟩]⟩,
     ⟨"AgentData", .single, 0, [⟨"AttachmentPoint", some .u8, some 1⟩, ⟨"SessionID", some .uuid, some 16⟩, ⟨"AgentID", some .uuid, some 16⟩]⟩]⟩

/-- `ObjectAttach` in file order. -/
def t126 : Template :=
  ⟨"ObjectAttach", .low, 112, [], some .notTrusted, some .zerocoded, some .notDeprecated,
    [⟨"AgentData", .single, 0, [⟨"AgentID", .uuid, 16⟩, ⟨"SessionID", .uuid, 16⟩, ⟨"AttachmentPoint", .u8, 1⟩]⟩,
     ⟨"ObjectData", .variable, 0, [⟨"ObjectLocalID", .u32, 4⟩, ⟨"Rotation", .quaternion, 12⟩]⟩]⟩

theorem p126 : ChunkOk c126 r126 := by intro v older; kernel_rfl
theorem k126 : r126.known = some t126 := by kernel_rfl
theorem n126 : t126.name = String.ofList ['O', 'b', 'j', 'e', 'c', 't', 'A', 't', 't', 'a', 'c', 'h'] := by kernel_rfl

/-- The names of the blocks and variables of `ObjectAttach`. -/
def b126 : List (List Char × List (List Char)) :=
  [(['A', 'g', 'e', 'n', 't', 'D', 'a', 't', 'a'], [['A', 'g', 'e', 'n', 't', 'I', 'D'], ['S', 'e', 's', 's', 'i', 'o', 'n', 'I', 'D'], ['A', 't', 't', 'a', 'c', 'h', 'm', 'e', 'n', 't', 'P', 'o', 'i', 'n', 't']]),
   (['O', 'b', 'j', 'e', 'c', 't', 'D', 'a', 't', 'a'], [['O', 'b', 'j', 'e', 'c', 't', 'L', 'o', 'c', 'a', 'l', 'I', 'D'], ['R', 'o', 't', 'a', 't', 'i', 'o', 'n']])]

theorem w126 : Checked t126 := ⟨b126, by kernel_rfl, by kernel_rfl, by kernel_rfl⟩

/-- Lines of `message_template.msg` up to the end of `ObjectDetach`. -/
def c127 : List (List Char) :=
  [chars! "",
   chars! "// ObjectDetach -- derezzes an attachment, marking its item in your inventory as not \"(worn)\"",
   chars! "{",
   chars! "\tObjectDetach Low 113 NotTrusted Unencoded",
   chars! "\t{",
   chars! "\t\tAgentData\t\tSingle",
   chars! "\t\t{\tAgentID\t\tLLUUID\t}",
   chars! "\t\t{\tSessionID\tLLUUID\t}",
   chars! "\t}",
   chars! "\t{",
   chars! "\t\tObjectData\t\tVariable",
   chars! "\t\t{\tObjectLocalID\tU32\t}",
   chars! "\t}",
   chars! "}"]

/-- `ObjectDetach` as the parser creates it. -/
def r127 : RawTemplate :=
  ⟨"ObjectDetach", .low, 113, [255, 255, 113], some .notTrusted, some .unencoded, some .notDeprecated,
    [⟨"ObjectData", .variable, 0, [⟨"ObjectLocalID", some .u32, some 4⟩]⟩,
     ⟨"AgentData", .single, 0, [⟨"SessionID", some .uuid, some 16⟩, ⟨"AgentID", some .uuid, some 16⟩]⟩]⟩

/-- `ObjectDetach` in file order. -/
def t127 : Template :=
  ⟨"ObjectDetach", .low, 113, [], some .notTrusted, some .unencoded, some .notDeprecated,
    [⟨"AgentData", .single, 0, [⟨"AgentID", .uuid, 16⟩, ⟨"SessionID", .uuid, 16⟩]⟩,
     ⟨"ObjectData", .variable, 0, [⟨"ObjectLocalID", .u32, 4⟩]⟩]⟩

theorem p127 : ChunkOk c127 r127 := by intro v older; kernel_rfl
theorem k127 : r127.known = some t127 := by kernel_rfl
theorem n127 : t127.name = String.ofList ['O', 'b', 'j', 'e', 'c', 't', 'D', 'e', 't', 'a', 'c', 'h'] := by kernel_rfl

/-- The names of the blocks and variables of `ObjectDetach`. -/
def b127 : List (List Char × List (List Char)) :=
  [(['A', 'g', 'e', 'n', 't', 'D', 'a', 't', 'a'], [['A', 'g', 'e', 'n', 't', 'I', 'D'], ['S', 'e', 's', 's', 'i', 'o', 'n', 'I', 'D']]),
   (['O', 'b', 'j', 'e', 'c', 't', 'D', 'a', 't', 'a'], [['O', 'b', 'j', 'e', 'c', 't', 'L', 'o', 'c', 'a', 'l', 'I', 'D']])]

theorem w127 : Checked t127 := ⟨b127, by kernel_rfl, by kernel_rfl, by kernel_rfl⟩

/-- Lines of `message_template.msg` up to the end of `ObjectDrop`. -/
def c128 : List (List Char) :=
  [chars! "",
   chars! "",
   chars! "// ObjectDrop -- drops an attachment from your avatar onto the ground",
   chars! "{",
   chars! "\tObjectDrop Low 114 NotTrusted Unencoded",
   chars! "\t{",
   chars! "\t\tAgentData\t\tSingle",
   chars! "\t\t{\tAgentID\t\tLLUUID\t}",
   chars! "\t\t{\tSessionID\tLLUUID\t}",
   chars! "\t}",
   chars! "\t{",
   chars! "\t\tObjectData\t\tVariable",
   chars! "\t\t{\tObjectLocalID\tU32\t}",
   chars! "\t}",
   chars! "}"]

/-- `ObjectDrop` as the parser creates it. -/
def r128 : RawTemplate :=
  ⟨"ObjectDrop", .low, 114, [255, 255, 114], some .notTrusted, some .unencoded, some .notDeprecated,
    [⟨"ObjectData", .variable, 0, [⟨"ObjectLocalID", some .u32, some 4⟩]⟩,
     ⟨"AgentData", .single, 0, [⟨"SessionID", some .uuid, some 16⟩, ⟨"AgentID", some .uuid, some 16⟩]⟩]⟩

/-- `ObjectDrop` in file order. -/
def t128 : Template :=
  ⟨"ObjectDrop", .low, 114, [], some .notTrusted, some .unencoded, some .notDeprecated,
    [⟨"AgentData", .single, 0, [⟨"AgentID", .uuid, 16⟩, ⟨"SessionID", .uuid, 16⟩]⟩,
     ⟨"ObjectData", .variable, 0, [⟨"ObjectLocalID", .u32, 4⟩]⟩]⟩

theorem p128 : ChunkOk c128 r128 := by intro v older; kernel_rfl
theorem k128 : r128.known = some t128 := by kernel_rfl
theorem n128 : t128.name = String.ofList ['O', 'b', 'j', 'e', 'c', 't', 'D', 'r', 'o', 'p'] := by kernel_rfl

/-- The names of the blocks and variables of `ObjectDrop`. -/
def b128 : List (List Char × List (List Char)) :=
  [(['A', 'g', 'e', 'n', 't', 'D', 'a', 't', 'a'], [['A', 'g', 'e', 'n', 't', 'I', 'D'], ['S', 'e', 's', 's', 'i', 'o', 'n', 'I', 'D']]),
   (['O', 'b', 'j', 'e', 'c', 't', 'D', 'a', 't', 'a'], [['O', 'b', 'j', 'e', 'c', 't', 'L', 'o', 'c', 'a', 'l', 'I', 'D']])]

theorem w128 : Checked t128 := ⟨b128, by kernel_rfl, by kernel_rfl, by kernel_rfl⟩

/-- Lines of `message_template.msg` up to the end of `ObjectLink`. -/
def c129 : List (List Char) :=
  [chars! "",
   chars! "",
   chars! "// ObjectLink",
   chars! "{",
   chars! "\tObjectLink Low 115 NotTrusted Unencoded",
   chars! "\t{",
   chars! "\t\tAgentData\t\tSingle",
   chars! "\t\t{\tAgentID\t\tLLUUID\t}",
   chars! "\t\t{\tSessionID\tLLUUID\t}",
   chars! "\t}",
   chars! "\t{",
   chars! "\t\tObjectData\t\tVariable",
   chars! "\t\t{\tObjectLocalID\tU32\t}",
   chars! "\t}",
   chars! "}"]

/-- `ObjectLink` as the parser creates it. -/
def r129 : RawTemplate :=
  ⟨"ObjectLink", .low, 115, [255, 255, 115], some .notTrusted, some .unencoded, some .notDeprecated,
    [⟨"ObjectData", .variable, 0, [⟨"ObjectLocalID", some .u32, some 4⟩]⟩,
     ⟨"AgentData", .single, 0, [⟨"SessionID", some .uuid, some 16⟩, ⟨"AgentID", some .uuid, some 16⟩]⟩]⟩

/-- `ObjectLink` in file order. -/
def t129 : Template :=
  ⟨"ObjectLink", .low, 115, [], some .notTrusted, some .unencoded, some .notDeprecated,
    [⟨"AgentData", .single, 0, [⟨"AgentID", .uuid, 16⟩, ⟨"SessionID", .uuid, 16⟩]⟩,
     ⟨"ObjectData", .variable, 0, [⟨"ObjectLocalID", .u32, 4⟩]⟩]⟩

theorem p129 : ChunkOk c129 r129 := by intro v older; kernel_rfl
theorem k129 : r129.known = some t129 := by kernel_rfl
theorem n129 : t129.name = String.ofList ['O', 'b', 'j', 'e', 'c', 't', 'L', 'i', 'n', 'k'] := by kernel_rfl

/-- The names of the blocks and variables of `ObjectLink`. -/
def b129 : List (List Char × List (List Char)) :=
  [(['A', 'g', 'e', 'n', 't', 'D', 'a', 't', 'a'], [['A', 'g', 'e', 'n', 't', 'I', 'D'], ['S', 'e', 's', 's', 'i', 'o', 'n', 'I', 'D']]),
   (['O', 'b', 'j', 'e', 'c', 't', 'D', 'a', 't', 'a'], [['O', 'b', 'j', 'e', 'c', 't', 'L', 'o', 'c', 'a', 'l', 'I', 'D']])]

theorem w129 : Checked t129 := ⟨b129, by kernel_rfl, by kernel_rfl, by kernel_rfl⟩

/-- Lines of `message_template.msg` up to the end of `ObjectDelink`. -/
def c130 : List (List Char) :=
  [chars! "",
   chars! "// ObjectDelink",
   chars! "{",
   chars! "\tObjectDelink Low 116 NotTrusted Unencoded",
   chars! "\t{",
   chars! "\t\tAgentData\t\tSingle",
   chars! "\t\t{\tAgentID\t\tLLUUID\t}",
   chars! "\t\t{\tSessionID\tLLUUID\t}",
   chars! "\t}",
   chars! "\t{",
   chars! "\t\tObjectData\t\tVariable",
   chars! "\t\t{\tObjectLocalID\tU32\t}",
   chars! "\t}",
   chars! "}"]

/-- `ObjectDelink` as the parser creates it. -/
def r130 : RawTemplate :=
  ⟨"ObjectDelink", .low, 116, [255, 255, 116], some .notTrusted, some .unencoded, some .notDeprecated,
    [⟨"ObjectData", .variable, 0, [⟨"ObjectLocalID", some .u32, some 4⟩]⟩,
     ⟨"AgentData", .single, 0, [⟨"SessionID", some .uuid, some 16⟩, ⟨"AgentID", some .uuid, some 16⟩]⟩]⟩

/-- `ObjectDelink` in file order. -/
def t130 : Template :=
  ⟨"ObjectDelink", .low, 116, [], some .notTrusted, some .unencoded, some .notDeprecated,
    [⟨"AgentData", .single, 0, [⟨"AgentID", .uuid, 16⟩, ⟨"SessionID", .uuid, 16⟩]⟩,
     ⟨"ObjectData", .variable, 0, [⟨"ObjectLocalID", .u32, 4⟩]⟩]⟩

theorem p130 : ChunkOk c130 r130 := by intro v older; kernel_rfl
theorem k130 : r130.known = some t130 := by kernel_rfl
theorem n130 : t130.name = String.ofList ['O', 'b', 'j', 'e', 'c', 't', 'D', 'e', 'l', 'i', 'n', 'k'] := by kernel_rfl

/-- The names of the blocks and variables of `ObjectDelink`. -/
def b130 : List (List Char × List (List Char)) :=
  [(['A', 'g', 'e', 'n', 't', 'D', 'a', 't', 'a'], [['A', 'g', 'e', 'n', 't', 'I', 'D'], ['S', 'e', 's', 's', 'i', 'o', 'n', 'I', 'D']]),
   (['O', 'b', 'j', 'e', 'c', 't', 'D', 'a', 't', 'a'], [['O', 'b', 'j', 'e', 'c', 't', 'L', 'o', 'c', 'a', 'l', 'I', 'D']])]

theorem w130 : Checked t130 := ⟨b130, by kernel_rfl, by kernel_rfl, by kernel_rfl⟩

/-- Lines of `message_template.msg` up to the end of `ObjectGrab`. -/
def c131 : List (List Char) :=
  [chars! "",
   chars! "",
   chars! "// ObjectGrab",
   chars! "{",
   chars! "\tObjectGrab Low 117 NotTrusted Zerocoded",
   chars! "\t{",
   chars! "\t\tAgentData\t\tSingle",
   chars! "\t\t{\tAgentID\t\tLLUUID\t}",
   chars! "\t\t{\tSessionID\tLLUUID\t}",
   chars! "\t}",
   chars! "\t{",
   chars! "\t\tObjectData\t\t\tSingle",
   chars! "\t\t{\tLocalID\t\t\t\tU32  }",
   chars! "\t\t{\tGrabOffset\t\t\tLLVector3 }",
   chars! "\t}",
   chars! "\t{",
   chars! "\t\tSurfaceInfo     Variable",
   chars! "\t\t{   UVCoord     LLVector3 }",
   chars! "\t\t{   STCoord     LLVector3 }",
   chars! "       \t{   FaceIndex   S32 }",
   chars! "       \t{   Position    LLVector3 }",
   chars! "       \t{   Normal      LLVector3 }",
   chars! "       \t{   Binormal    LLVector3 }",
   chars! "\t}",
   chars! "}"]

/-- `ObjectGrab` as the parser creates it. -/
def r131 : RawTemplate :=
  ⟨"ObjectGrab", .low, 117, [255, 255, 117], some .notTrusted, some .zerocoded, some .notDeprecated,
    [⟨"SurfaceInfo", .variable, 0, [⟨"Binormal", some .vector3, some 12⟩, ⟨"Normal", some .vector3, some 12⟩, ⟨"Position", some .vector3, some 12⟩, ⟨"FaceIndex", some .s32, some 4⟩, ⟨"STCoord", some .vector3, some 12⟩, ⟨"UVCoord", some .vector3, some 12⟩]⟩,
     ⟨"ObjectData", .single, 0, [⟨"GrabOffset", some .vector3, some 12⟩, ⟨"LocalID", some .u32, some 4⟩]⟩,
     ⟨"AgentData", .single, 0, [⟨"SessionID", some .uuid, some 16⟩, ⟨"AgentID", some .uuid, some 16⟩]⟩]⟩

/-- `ObjectGrab` in file order. -/
def t131 : Template :=
  ⟨"ObjectGrab", .low, 117, [], some .notTrusted, some .zerocoded, some .notDeprecated,
    [⟨"AgentData", .single, 0, [⟨"AgentID", .uuid, 16⟩, ⟨"SessionID", .uuid, 16⟩]⟩,
     ⟨"ObjectData", .single, 0, [⟨"LocalID", .u32, 4⟩, ⟨"GrabOffset", .vector3, 12⟩]⟩,
     ⟨"SurfaceInfo", .variable, 0, [⟨"UVCoord", .vector3, 12⟩, ⟨"STCoord", .vector3, 12⟩, ⟨"FaceIndex", .s32, 4⟩, ⟨"Position", .vector3, 12⟩, ⟨"Normal", .vector3, 12⟩, ⟨"Binormal", .vector3, 12⟩]⟩]⟩

theorem p131 : ChunkOk c131 r131 := by intro v older; kernel_rfl
theorem k131 : r131.known = some t131 := by kernel_rfl
theorem n131 : t131.name = String.ofList ['O', 'b', 'j', 'e', 'c', 't', 'G', 'r', 'a', 'b'] := by kernel_rfl

/-- The names of the blocks and variables of `ObjectGrab`. -/
def b131 : List (List Char × List (List Char)) :=
  [(['A', 'g', 'e', 'n', 't', 'D', 'a', 't', 'a'], [['A', 'g', 'e', 'n', 't', 'I', 'D'], ['S', 'e', 's', 's', 'i', 'o', 'n', 'I', 'D']]),
   (['O', 'b', 'j', 'e', 'c', 't', 'D', 'a', 't', 'a'], [['L', 'o', 'c', 'a', 'l', 'I', 'D'], ['G', 'r', 'a', 'b', 'O', 'f', 'f', 's', 'e', 't']]),
   (['S', 'u', 'r', 'f', 'a', 'c', 'e', 'I', 'n', 'f', 'o'], [['U', 'V', 'C', 'o', 'o', 'r', 'd'], ['S', 'T', 'C', 'o', 'o', 'r', 'd'], ['F', 'a', 'c', 'e', 'I', 'n', 'd', 'e', 'x'], ['P', 'o', 's', 'i', 't', 'i', 'o', 'n'], ['N', 'o', 'r', 'm', 'a', 'l'], ['B', 'i', 'n', 'o', 'r', 'm', 'a', 'l']])]

theorem w131 : Checked t131 := ⟨b131, by kernel_rfl, by kernel_rfl, by kernel_rfl⟩

/-- Lines of `message_template.msg` up to the end of `ObjectGrabUpdate`. -/
def c132 : List (List Char) :=
  [chars! "",
   chars! "",
   chars! "// ObjectGrabUpdate",
   chars! "// TODO: Quantize this data, reduce message size.",
   chars! "// TimeSinceLast could go to 1 byte, since capped",
   chars! "// at 100 on sim.",
   chars! "{",
   chars! "\tObjectGrabUpdate Low 118 NotTrusted Zerocoded",
   chars! "\t{",
   chars! "\t\tAgentData\tSingle",
   chars! "\t\t{\tAgentID\t\tLLUUID\t}",
   chars! "\t\t{\tSessionID\tLLUUID\t}",
   chars! "\t}",
   chars! "\t{",
   chars! "\t\tObjectData\tSingle",
   chars! "\t\t{\tObjectID\t\t\tLLUUID\t}",
   chars! "\t\t{\tGrabOffsetInitial\tLLVector3\t}\t// LLVector3",
   chars! "\t\t{\tGrabPosition\t\tLLVector3\t}\t// LLVector3, region local",
   chars! "\t\t{\tTimeSinceLast\t\tU32\t}",
   chars! "\t}",
   chars! "\t{",
   chars! "\t\tSurfaceInfo     Variable",
   chars! "\t\t{   UVCoord     LLVector3 }",
   chars! "\t\t{   STCoord     LLVector3 }",
   chars! "       \t{   FaceIndex   S32 }",
   chars! "       \t{   Position    LLVector3 }",
   chars! "       \t{   Normal      LLVector3 }",
   chars! "       \t{   Binormal    LLVector3 }",
   chars! "\t}",
   chars! "",
   chars! "}"]

/-- `ObjectGrabUpdate` as the parser creates it. -/
def r132 : RawTemplate :=
  ⟨"ObjectGrabUpdate", .low, 118, [255, 255, 118], some .notTrusted, some .zerocoded, some .notDeprecated,
    [⟨"SurfaceInfo", .variable, 0, [⟨"Binormal", some .vector3, some 12⟩, ⟨"Normal", some .vector3, some 12⟩, ⟨"Position", some .vector3, some 12⟩, ⟨"FaceIndex", some .s32, some 4⟩, ⟨"STCoord", some .vector3, some 12⟩, ⟨"UVCoord", some .vector3, some 12⟩]⟩,
     ⟨"ObjectData", .single, 0, [⟨"TimeSinceLast", some .u32, some 4⟩, ⟨"GrabPosition", some .vector3, some 12⟩, ⟨"GrabOffsetInitial", some .vector3, some 12⟩, ⟨"ObjectID", some .uuid, some 16⟩]⟩,
     ⟨"AgentData", .single, 0, [⟨"SessionID", some .uuid, some 16⟩, ⟨"AgentID", some .uuid, some 16⟩]⟩]⟩

/-- `ObjectGrabUpdate` in file order. -/
def t132 : Template :=
  ⟨"ObjectGrabUpdate", .low, 118, [], some .notTrusted, some .zerocoded, some .notDeprecated,
    [⟨"AgentData", .single, 0, [⟨"AgentID", .uuid, 16⟩, ⟨"SessionID", .uuid, 16⟩]⟩,
     ⟨"ObjectData", .single, 0, [⟨"ObjectID", .uuid, 16⟩, ⟨"GrabOffsetInitial", .vector3, 12⟩, ⟨"GrabPosition", .vector3, 12⟩, ⟨"TimeSinceLast", .u32, 4⟩]⟩,
     ⟨"SurfaceInfo", .variable, 0, [⟨"UVCoord", .vector3, 12⟩, ⟨"STCoord", .vector3, 12⟩, ⟨"FaceIndex", .s32, 4⟩, ⟨"Position", .vector3, 12⟩, ⟨"Normal", .vector3, 12⟩, ⟨"Binormal", .vector3, 12⟩]⟩]⟩

theorem p132 : ChunkOk c132 r132 := by intro v older; kernel_rfl
theorem k132 : r132.known = some t132 := by kernel_rfl
theorem n132 : t132.name = String.ofList ['O', 'b', 'j', 'e', 'c', 't', 'G', 'r', 'a', 'b', 'U', 'p', 'd', 'a', 't', 'e'] := by kernel_rfl

/-- The names of the blocks and variables of `ObjectGrabUpdate`. -/
def b132 : List (List Char × List (List Char)) :=
  [(['A', 'g', 'e', 'n', 't', 'D', 'a', 't', 'a'], [['A', 'g', 'e', 'n', 't', 'I', 'D'], ['S', 'e', 's', 's', 'i', 'o', 'n', 'I', 'D']]),
   (['O', 'b', 'j', 'e', 'c', 't', 'D', 'a', 't', 'a'], [['O', 'b', 'j', 'e', 'c', 't', 'I', 'D'], ['G', 'r', 'a', 'b', 'O', 'f', 'f', 's', 'e', 't', 'I', 'n', 'i', 't', 'i', 'a', 'l'], ['G', 'r', 'a', 'b', 'P', 'o', 's', 'i', 't', 'i', 'o', 'n'], ['T', 'i', 'm', 'e', 'S', 'i', 'n', 'c', 'e', 'L', 'a', 's', 't']]),
   (['S', 'u', 'r', 'f', 'a', 'c', 'e', 'I', 'n', 'f', 'o'], [['U', 'V', 'C', 'o', 'o', 'r', 'd'], ['S', 'T', 'C', 'o', 'o', 'r', 'd'], ['F', 'a', 'c', 'e', 'I', 'n', 'd', 'e', 'x'], ['P', 'o', 's', 'i', 't', 'i', 'o', 'n'], ['N', 'o', 'r', 'm', 'a', 'l'], ['B', 'i', 'n', 'o', 'r', 'm', 'a', 'l']])]

theorem w132 : Checked t132 := ⟨b132, by kernel_rfl, by kernel_rfl, by kernel_rfl⟩

/-- Lines of `message_template.msg` up to the end of `ObjectDeGrab`. -/
def c133 : List (List Char) :=
  [chars! "",
   chars! "",
   chars! "// ObjectDeGrab\t\t\t\t",
   chars! "{",
   chars! "\tObjectDeGrab Low 119 NotTrusted Unencoded",
   chars! "\t{",
   chars! "\t\tAgentData\t\tSingle",
   chars! "\t\t{\tAgentID\t\tLLUUID\t}",
   chars! "\t\t{\tSessionID\tLLUUID\t}",
   chars! "\t}",
   chars! "\t{",
   chars! "\t\tObjectData\t\t\tSingle",
   chars! "\t\t{\tLocalID\t\t\t\tU32  }",
   chars! "\t}",
   chars! "\t{",
   chars! "\t\tSurfaceInfo     Variable",
   chars! "\t\t{   UVCoord     LLVector3 }",
   chars! "\t\t{   STCoord     LLVector3 }",
   chars! "       \t{   FaceIndex   S32 }",
   chars! "       \t{   Position    LLVector3 }",
   chars! "       \t{   Normal      LLVector3 }",
   chars! "       \t{   Binormal    LLVector3 }",
   chars! "\t}",
   chars! "}"]

/-- `ObjectDeGrab` as the parser creates it. -/
def r133 : RawTemplate :=
  ⟨"ObjectDeGrab", .low, 119, [255, 255, 119], some .notTrusted, some .unencoded, some .notDeprecated,
    [⟨"SurfaceInfo", .variable, 0, [⟨"Binormal", some .vector3, some 12⟩, ⟨"Normal", some .vector3, some 12⟩, ⟨"Position", some .vector3, some 12⟩, ⟨"FaceIndex", some .s32, some 4⟩, ⟨"STCoord", some .vector3, some 12⟩, ⟨"UVCoord", some .vector3, some 12⟩]⟩,
     ⟨"ObjectData", .single, 0, [⟨"LocalID", some .u32, some 4⟩]⟩,
     ⟨"AgentData", .single, 0, [⟨"SessionID", some .uuid, some 16⟩, ⟨"AgentID", some .uuid, some 16⟩]⟩]⟩

/-- `ObjectDeGrab` in file order. -/
def t133 : Template :=
  ⟨"ObjectDeGrab", .low, 119, [], some .notTrusted, some .unencoded, some .notDeprecated,
    [⟨"AgentData", .single, 0, [⟨"AgentID", .uuid, 16⟩, ⟨"SessionID", .uuid, 16⟩]⟩,
     ⟨"ObjectData", .single, 0, [⟨"LocalID", .u32, 4⟩]⟩,
     ⟨"SurfaceInfo", .variable, 0, [⟨"UVCoord", .vector3, 12⟩, ⟨"STCoord", .vector3, 12⟩, ⟨"FaceIndex", .s32, 4⟩, ⟨"Position", .vector3, 12⟩, ⟨"Normal", .vector3, 12⟩, ⟨"Binormal", .vector3, 12⟩]⟩]⟩

theorem p133 : ChunkOk c133 r133 := by intro v older; kernel_rfl
theorem k133 : r133.known = some t133 := by kernel_rfl
theorem n133 : t133.name = String.ofList ['O', 'b', 'j', 'e', 'c', 't', 'D', 'e', 'G', 'r', 'a', 'b'] := by kernel_rfl

/-- The names of the blocks and variables of `ObjectDeGrab`. -/
def b133 : List (List Char × List (List Char)) :=
  [(['A', 'g', 'e', 'n', 't', 'D', 'a', 't', 'a'], [['A', 'g', 'e', 'n', 't', 'I', 'D'], ['S', 'e', 's', 's', 'i', 'o', 'n', 'I', 'D']]),
   (['O', 'b', 'j', 'e', 'c', 't', 'D', 'a', 't', 'a'], [['L', 'o', 'c', 'a', 'l', 'I', 'D']]),
   (['S', 'u', 'r', 'f', 'a', 'c', 'e', 'I', 'n', 'f', 'o'], [['U', 'V', 'C', 'o', 'o', 'r', 'd'], ['S', 'T', 'C', 'o', 'o', 'r', 'd'], ['F', 'a', 'c', 'e', 'I', 'n', 'd', 'e', 'x'], ['P', 'o', 's', 'i', 't', 'i', 'o', 'n'], ['N', 'o', 'r', 'm', 'a', 'l'], ['B', 'i', 'n', 'o', 'r', 'm', 'a', 'l']])]

theorem w133 : Checked t133 := ⟨b133, by kernel_rfl, by kernel_rfl, by kernel_rfl⟩

/-- Lines of `message_template.msg` up to the end of `ObjectSpinStart`. -/
def c134 : List (List Char) :=
  [chars! "",
   chars! "",
   chars! "// ObjectSpinStart",
   chars! "{",
   chars! "\tObjectSpinStart Low 120 NotTrusted Zerocoded",
   chars! "\t{",
   chars! "\t\tAgentData\t\t\tSingle",
   chars! "\t\t{\tAgentID\t\t\tLLUUID\t}",
   chars! "\t\t{\tSessionID\t\tLLUUID\t}",
   chars! "\t}",
   chars! "\t{",
   chars! "\t\tObjectData\t\t\tSingle",
   chars! "\t\t{\tObjectID\t\tLLUUID\t}",
   chars! "\t}",
   chars! "}"]

/-- `ObjectSpinStart` as the parser creates it. -/
def r134 : RawTemplate :=
  ⟨"ObjectSpinStart", .low, 120, [255, 255, 120], some .notTrusted, some .zerocoded, some .notDeprecated,
    [⟨"ObjectData", .single, 0, [⟨"ObjectID", some .uuid, some 16⟩]⟩,
     ⟨"AgentData", .single, 0, [⟨"SessionID", some .uuid, some 16⟩, ⟨"AgentID", some .uuid, some 16⟩]⟩]⟩

/-- `ObjectSpinStart` in file order. -/
def t134 : Template :=
  ⟨"ObjectSpinStart", .low, 120, [], some .notTrusted, some .zerocoded, some .notDeprecated,
    [⟨"AgentData", .single, 0, [⟨"AgentID", .uuid, 16⟩, ⟨"SessionID", .uuid, 16⟩]⟩,
     ⟨"ObjectData", .single, 0, [⟨"ObjectID", .uuid, 16⟩]⟩]⟩

theorem p134 : ChunkOk c134 r134 := by intro v older; kernel_rfl
theorem k134 : r134.known = some t134 := by kernel_rfl
theorem n134 : t134.name = String.ofList ['O', 'b', 'j', 'e', 'c', 't', 'S', 'p', 'i', 'n', 'S', 't', 'a', 'r', 't'] := by kernel_rfl

/-- The names of the blocks and variables of `ObjectSpinStart`. -/
def b134 : List (List Char × List (List Char)) :=
  [(['A', 'g', 'e', 'n', 't', 'D', 'a', 't', 'a'], [['A', 'g', 'e', 'n', 't', 'I', 'D'], ['S', 'e', 's', 's', 'i', 'o', 'n', 'I', 'D']]),
   (['O', 'b', 'j', 'e', 'c', 't', 'D', 'a', 't', 'a'], [['O', 'b', 'j', 'e', 'c', 't', 'I', 'D']])]

theorem w134 : Checked t134 := ⟨b134, by kernel_rfl, by kernel_rfl, by kernel_rfl⟩

/-- Lines of `message_template.msg` up to the end of `ObjectSpinUpdate`. -/
def c135 : List (List Char) :=
  [chars! "",
   chars! "",
   chars! "// ObjectSpinUpdate",
   chars! "{",
   chars! "\tObjectSpinUpdate Low 121 NotTrusted Zerocoded",
   chars! "\t{",
   chars! "\t\tAgentData\t\t\tSingle",
   chars! "\t\t{\tAgentID\t\t\tLLUUID\t}",
   chars! "\t\t{\tSessionID\t\tLLUUID\t}",
   chars! "\t}",
   chars! "\t{",
   chars! "\t\tObjectData\t\t\tSingle",
   chars! "\t\t{\tObjectID\t\tLLUUID\t}",
   chars! "\t\t{\tRotation\t\tLLQuaternion }",
   chars! "\t}",
   chars! "}"]

/-- `ObjectSpinUpdate` as the parser creates it. -/
def r135 : RawTemplate :=
  ⟨"ObjectSpinUpdate", .low, 121, [255, 255, 121], some .notTrusted, some .zerocoded, some .notDeprecated,
    [⟨"ObjectData", .single, 0, [⟨"Rotation", some .quaternion, some 12⟩, ⟨"ObjectID", some .uuid, some 16⟩]⟩,
     ⟨"AgentData", .single, 0, [⟨"SessionID", some .uuid, some 16⟩, ⟨"AgentID", some .uuid, some 16⟩]⟩]⟩

/-- `ObjectSpinUpdate` in file order. -/
def t135 : Template :=
  ⟨"ObjectSpinUpdate", .low, 121, [], some .notTrusted, some .zerocoded, some .notDeprecated,
    [⟨"AgentData", .single, 0, [⟨"AgentID", .uuid, 16⟩, ⟨"SessionID", .uuid, 16⟩]⟩,
     ⟨"ObjectData", .single, 0, [⟨"ObjectID", .uuid, 16⟩, ⟨"Rotation", .quaternion, 12⟩]⟩]⟩

theorem p135 : ChunkOk c135 r135 := by intro v older; kernel_rfl
theorem k135 : r135.known = some t135 := by kernel_rfl
theorem n135 : t135.name = String.ofList ['O', 'b', 'j', 'e', 'c', 't', 'S', 'p', 'i', 'n', 'U', 'p', 'd', 'a', 't', 'e'] := by kernel_rfl

/-- The names of the blocks and variables of `ObjectSpinUpdate`. -/
def b135 : List (List Char × List (List Char)) :=
  [(['A', 'g', 'e', 'n', 't', 'D', 'a', 't', 'a'], [['A', 'g', 'e', 'n', 't', 'I', 'D'], ['S', 'e', 's', 's', 'i', 'o', 'n', 'I', 'D']]),
   (['O', 'b', 'j', 'e', 'c', 't', 'D', 'a', 't', 'a'], [['O', 'b', 'j', 'e', 'c', 't', 'I', 'D'], ['R', 'o', 't', 'a', 't', 'i', 'o', 'n']])]

theorem w135 : Checked t135 := ⟨b135, by kernel_rfl, by kernel_rfl, by kernel_rfl⟩

/-- Lines of `message_template.msg` up to the end of `ObjectSpinStop`. -/
def c136 : List (List Char) :=
  [chars! "",
   chars! "",
   chars! "// ObjectSpinStop",
   chars! "{",
   chars! "\tObjectSpinStop Low 122 NotTrusted Zerocoded",
   chars! "\t{",
   chars! "\t\tAgentData\t\t\tSingle",
   chars! "\t\t{\tAgentID\t\t\tLLUUID\t}",
   chars! "\t\t{\tSessionID\t\tLLUUID\t}",
   chars! "\t}",
   chars! "\t{",
   chars! "\t\tObjectData\t\t\tSingle",
   chars! "\t\t{\tObjectID\t\tLLUUID\t}",
   chars! "\t}",
   chars! "}"]

/-- `ObjectSpinStop` as the parser creates it. -/
def r136 : RawTemplate :=
  ⟨"ObjectSpinStop", .low, 122, [255, 255, 122], some .notTrusted, some .zerocoded, some .notDeprecated,
    [⟨"ObjectData", .single, 0, [⟨"ObjectID", some .uuid, some 16⟩]⟩,
     ⟨"AgentData", .single, 0, [⟨"SessionID", some .uuid, some 16⟩, ⟨"AgentID", some .uuid, some 16⟩]⟩]⟩

/-- `ObjectSpinStop` in file order. -/
def t136 : Template :=
  ⟨"ObjectSpinStop", .low, 122, [], some .notTrusted, some .zerocoded, some .notDeprecated,
    [⟨"AgentData", .single, 0, [⟨"AgentID", .uuid, 16⟩, ⟨"SessionID", .uuid, 16⟩]⟩,
     ⟨"ObjectData", .single, 0, [⟨"ObjectID", .uuid, 16⟩]⟩]⟩

theorem p136 : ChunkOk c136 r136 := by intro v older; kernel_rfl
theorem k136 : r136.known = some t136 := by kernel_rfl
theorem n136 : t136.name = String.ofList ['O', 'b', 'j', 'e', 'c', 't', 'S', 'p', 'i', 'n', 'S', 't', 'o', 'p'] := by kernel_rfl

/-- The names of the blocks and variables of `ObjectSpinStop`. -/
def b136 : List (List Char × List (List Char)) :=
  [(['A', 'g', 'e', 'n', 't', 'D', 'a', 't', 'a'], [['A', 'g', 'e', 'n', 't', 'I', 'D'], ['S', 'e', 's', 's', 'i', 'o', 'n', 'I', 'D']]),
   (['O', 'b', 'j', 'e', 'c', 't', 'D', 'a', 't', 'a'], [['O', 'b', 'j', 'e', 'c', 't', 'I', 'D']])]

theorem w136 : Checked t136 := ⟨b136, by kernel_rfl, by kernel_rfl, by kernel_rfl⟩

/-- Lines of `message_template.msg` up to the end of `ObjectExportSelected`. -/
def c137 : List (List Char) :=
  [chars! "",
   chars! "// Export selected objects",
   chars! "// viewer->sim",
   chars! "{",
   chars! "\tObjectExportSelected Low 123 NotTrusted Zerocoded",
   chars! "\t{",
   chars! "\t\tAgentData\t\t\tSingle",
   chars! "\t\t{\tAgentID\t\t\tLLUUID\t}",
   chars! "\t\t{\tRequestID\t\tLLUUID  }",
   chars! "\t\t{\tVolumeDetail\tS16\t\t}",
   chars! "\t}",
   chars! "\t{",
   chars! "\t\tObjectData\t\t\tVariable",
   chars! "\t\t{\tObjectID\t\tLLUUID\t}",
   chars! "\t}",
   chars! "}"]

/-- `ObjectExportSelected` as the parser creates it. -/
def r137 : RawTemplate :=
  ⟨"ObjectExportSelected", .low, 123, [255, 255, 123], some .notTrusted, some .zerocoded, some .notDeprecated,
    [⟨"ObjectData", .variable, 0, [⟨"ObjectID", some .uuid, some 16⟩]⟩,
     ⟨"AgentData", .single, 0, [⟨"VolumeDetail", some .s16, some 2⟩, ⟨"RequestID", some .uuid, some 16⟩, ⟨"AgentID", some .uuid, some 16⟩]⟩]⟩

/-- `ObjectExportSelected` in file order. -/
def t137 : Template :=
  ⟨"ObjectExportSelected", .low, 123, [], some .notTrusted, some .zerocoded, some .notDeprecated,
    [⟨"AgentData", .single, 0, [⟨"AgentID", .uuid, 16⟩, ⟨"RequestID", .uuid, 16⟩, ⟨"VolumeDetail", .s16, 2⟩]⟩,
     ⟨"ObjectData", .variable, 0, [⟨"ObjectID", .uuid, 16⟩]⟩]⟩

theorem p137 : ChunkOk c137 r137 := by intro v older; kernel_rfl
theorem k137 : r137.known = some t137 := by kernel_rfl
theorem n137 : t137.name = String.ofList ['O', 'b', 'j', 'e', 'c', 't', 'E', 'x', 'p', 'o', 'r', 't', 'S', 'e', 'l', 'e', 'c', 't', 'e', 'd'] := by kernel_rfl

/-- The names of the blocks and variables of `ObjectExportSelected`. -/
def b137 : List (List Char × List (List Char)) :=
  [(['A', 'g', 'e', 'n', 't', 'D', 'a', 't', 'a'], [['A', 'g', 'e', 'n', 't', 'I', 'D'], ['R', 'e', 'q', 'u', 'e', 's', 't', 'I', 'D'], ['V', 'o', 'l', 'u', 'm', 'e', 'D', 'e', 't', 'a', 'i', 'l']]),
   (['O', 'b', 'j', 'e', 'c', 't', 'D', 'a', 't', 'a'], [['O', 'b', 'j', 'e', 'c', 't', 'I', 'D']])]

theorem w137 : Checked t137 := ⟨b137, by kernel_rfl, by kernel_rfl, by kernel_rfl⟩

/-- Lines of `message_template.msg` up to the end of `ModifyLand`. -/
def c138 : List (List Char) :=
  [chars! "",
   chars! "",
   chars! "// ModifyLand - sent to modify a piece of land on a simulator.",
   chars! "// viewer -> sim",
   chars! "{",
   chars! "\tModifyLand Low 124 NotTrusted Zerocoded",
   chars! "\t{",
   chars! "\t\tAgentData\t\t\tSingle",
   chars! "\t\t{\tAgentID\t\t\tLLUUID\t}",
   chars! "\t\t{\tSessionID\t\tLLUUID\t}",
   chars! "\t}",
   chars! "\t{",
   chars! "\t\tModifyBlock\t\t\tSingle",
   chars! "\t\t{\tAction\t\t\tU8\t}",
   chars! "\t\t{\tBrushSize\t\tU8\t}",
   chars! "\t\t{\tSeconds\t\t\tF32\t}",
   chars! "\t\t{\tHeight\t\t\tF32\t}",
   chars! "\t}",
   chars! "\t{",
   chars! "\t\tParcelData\t\t\tVariable",
   chars! "\t\t{\tLocalID\t\t\tS32\t\t}",
   chars! "\t\t{\tWest\t\t\tF32\t\t}",
   chars! "\t\t{\tSouth\t\t\tF32\t\t}",
   chars! "\t\t{\tEast\t\t\tF32\t\t}",
   chars! "\t\t{\tNorth\t\t\tF32\t\t}",
   chars! "\t}",
   chars! "\t{",
   chars! "\t\tModifyBlockExtended Variable",
   chars! "\t\t{   BrushSize       F32 }",
   chars! "\t}",
   chars! "}"]

/-- `ModifyLand` as the parser creates it. -/
def r138 : RawTemplate :=
  ⟨"ModifyLand", .low, 124, [255, 255, 124], some .notTrusted, some .zerocoded, some .notDeprecated,
    [⟨"ModifyBlockExtended", .variable, 0, [⟨"BrushSize", some .f32, some 4⟩]⟩,
     ⟨"ParcelData", .variable, 0, [⟨"North", some .f32, some 4⟩, ⟨"East", some .f32, some 4⟩, ⟨"South", some .f32, some 4⟩, ⟨"West", some .f32, some 4⟩, ⟨"LocalID", some .s32, some 4⟩]⟩,
     ⟨"ModifyBlock", .single, 0, [⟨"Height", some .f32, some 4⟩, ⟨"Seconds", some .f32, some 4⟩, ⟨"BrushSize", some .u8, some 1⟩, ⟨"Action", some .u8, some 1⟩]⟩,
     ⟨"AgentData", .single, 0, [⟨"SessionID", some .uuid, some 16⟩, ⟨"AgentID", some .uuid, some 16⟩]⟩]⟩

/-- `ModifyLand` in file order. -/
def t138 : Template :=
  ⟨"ModifyLand", .low, 124, [], some .notTrusted, some .zerocoded, some .notDeprecated,
    [⟨"AgentData", .single, 0, [⟨"AgentID", .uuid, 16⟩, ⟨"SessionID", .uuid, 16⟩]⟩,
     ⟨"ModifyBlock", .single, 0, [⟨"Action", .u8, 1⟩, ⟨"BrushSize", .u8, 1⟩, ⟨"Seconds", .f32, 4⟩, ⟨"Height", .f32, 4⟩]⟩,
     ⟨"ParcelData", .variable, 0, [⟨"LocalID", .s32, 4⟩, ⟨"West", .f32, 4⟩, ⟨"South", .f32, 4⟩, ⟨"East", .f32, 4⟩, ⟨"North", .f32, 4⟩]⟩,
     ⟨"ModifyBlockExtended", .variable, 0, [⟨"BrushSize", .f32, 4⟩]⟩]⟩

theorem p138 : ChunkOk c138 r138 := by intro v older; kernel_rfl
theorem k138 : r138.known = some t138 := by kernel_rfl
theorem n138 : t138.name = String.ofList ['M', 'o', 'd', 'i', 'f', 'y', 'L', 'a', 'n', 'd'] := by kernel_rfl

/-- The names of the blocks and variables of `ModifyLand`. -/
def b138 : List (List Char × List (List Char)) :=
  [(['A', 'g', 'e', 'n', 't', 'D', 'a', 't', 'a'], [['A', 'g', 'e', 'n', 't', 'I', 'D'], ['S', 'e', 's', 's', 'i', 'o', 'n', 'I', 'D']]),
   (['M', 'o', 'd', 'i', 'f', 'y', 'B', 'l', 'o', 'c', 'k'], [['A', 'c', 't', 'i', 'o', 'n'], ['B', 'r', 'u', 's', 'h', 'S', 'i', 'z', 'e'], ['S', 'e', 'c', 'o', 'n', 'd', 's'], ['H', 'e', 'i', 'g', 'h', 't']]),
   (['P', 'a', 'r', 'c', 'e', 'l', 'D', 'a', 't', 'a'], [['L', 'o', 'c', 'a', 'l', 'I', 'D'], ['W', 'e', 's', 't'], ['S', 'o', 'u', 't', 'h'], ['E', 'a', 's', 't'], ['N', 'o', 'r', 't', 'h']]),
   (['M', 'o', 'd', 'i', 'f', 'y', 'B', 'l', 'o', 'c', 'k', 'E', 'x', 't', 'e', 'n', 'd', 'e', 'd'], [['B', 'r', 'u', 's', 'h', 'S', 'i', 'z', 'e']])]

theorem w138 : Checked t138 := ⟨b138, by kernel_rfl, by kernel_rfl, by kernel_rfl⟩

/-- Lines of `message_template.msg` up to the end of `VelocityInterpolateOn`. -/
def c139 : List (List Char) :=
  [chars! "",
   chars! "",
   chars! "// VelocityInterpolateOn",
   chars! "// viewer->sim",
   chars! "// requires administrative access",
   chars! "{",
   chars! "\tVelocityInterpolateOn Low 125 NotTrusted Unencoded",
   chars! "\t{",
   chars! "\t\tAgentData\t\tSingle",
   chars! "\t\t{\tAgentID\t\tLLUUID\t}",
   chars! "\t\t{\tSessionID\t\tLLUUID\t}",
   chars! "\t}",
   chars! "}"]

/-- `VelocityInterpolateOn` as the parser creates it. -/
def r139 : RawTemplate :=
  ⟨"VelocityInterpolateOn", .low, 125, [255, 255, 125], some .notTrusted, some .unencoded, some .notDeprecated,
    [⟨"AgentData", .single, 0, [⟨"SessionID", some .uuid, some 16⟩, ⟨"AgentID", some .uuid, some 16⟩]⟩]⟩

/-- `VelocityInterpolateOn` in file order. -/
def t139 : Template :=
  ⟨"VelocityInterpolateOn", .low, 125, [], some .notTrusted, some .unencoded, some .notDeprecated,
    [⟨"AgentData", .single, 0, [⟨"AgentID", .uuid, 16⟩, ⟨"SessionID", .uuid, 16⟩]⟩]⟩

theorem p139 : ChunkOk c139 r139 := by intro v older; kernel_rfl
theorem k139 : r139.known = some t139 := by kernel_rfl
theorem n139 : t139.name = String.ofList ['V', 'e', 'l', 'o', 'c', 'i', 't', 'y', 'I', 'n', 't', 'e', 'r', 'p', 'o', 'l', 'a', 't', 'e', 'O', 'n'] := by kernel_rfl

/-- The names of the blocks and variables of `VelocityInterpolateOn`. -/
def b139 : List (List Char × List (List Char)) :=
  [(['A', 'g', 'e', 'n', 't', 'D', 'a', 't', 'a'], [['A', 'g', 'e', 'n', 't', 'I', 'D'], ['S', 'e', 's', 's', 'i', 'o', 'n', 'I', 'D']])]

theorem w139 : Checked t139 := ⟨b139, by kernel_rfl, by kernel_rfl, by kernel_rfl⟩

/-- Lines of `message_template.msg` up to the end of `VelocityInterpolateOff`. -/
def c140 : List (List Char) :=
  [chars! "",
   chars! "",
   chars! "// VelocityInterpolateOff",
   chars! "// viewer->sim",
   chars! "// requires administrative access",
   chars! "{",
   chars! "\tVelocityInterpolateOff Low 126 NotTrusted Unencoded",
   chars! "\t{",
   chars! "\t\tAgentData\t\tSingle",
   chars! "\t\t{\tAgentID\t\tLLUUID\t}",
   chars! "\t\t{\tSessionID\t\tLLUUID\t}",
   chars! "\t}",
   chars! "}"]

/-- `VelocityInterpolateOff` as the parser creates it. -/
def r140 : RawTemplate :=
  ⟨"VelocityInterpolateOff", .low, 126, [255, 255, 126], some .notTrusted, some .unencoded, some .notDeprecated,
    [⟨"AgentData", .single, 0, [⟨"SessionID", some .uuid, some 16⟩, ⟨"AgentID", some .uuid, some 16⟩]⟩]⟩

/-- `VelocityInterpolateOff` in file order. -/
def t140 : Template :=
  ⟨"VelocityInterpolateOff", .low, 126, [], some .notTrusted, some .unencoded, some .notDeprecated,
    [⟨"AgentData", .single, 0, [⟨"AgentID", .uuid, 16⟩, ⟨"SessionID", .uuid, 16⟩]⟩]⟩

theorem p140 : ChunkOk c140 r140 := by intro v older; kernel_rfl
theorem k140 : r140.known = some t140 := by kernel_rfl
theorem n140 : t140.name = String.ofList ['V', 'e', 'l', 'o', 'c', 'i', 't', 'y', 'I', 'n', 't', 'e', 'r', 'p', 'o', 'l', 'a', 't', 'e', 'O', 'f', 'f'] := by kernel_rfl

/-- The names of the blocks and variables of `VelocityInterpolateOff`. -/
def b140 : List (List Char × List (List Char)) :=
  [(['A', 'g', 'e', 'n', 't', 'D', 'a', 't', 'a'], [['A', 'g', 'e', 'n', 't', 'I', 'D'], ['S', 'e', 's', 's', 'i', 'o', 'n', 'I', 'D']])]

theorem w140 : Checked t140 := ⟨b140, by kernel_rfl, by kernel_rfl, by kernel_rfl⟩

/-- Lines of `message_template.msg` up to the end of `StateSave`. -/
def c141 : List (List Char) :=
  [chars! "",
   chars! "// Save State",
   chars! "// viewer->sim",
   chars! "// requires administrative access",
   chars! "{",
   chars! "\tStateSave Low 127 NotTrusted Unencoded",
   chars! "\t{",
   chars! "\t\tAgentData\t\tSingle",
   chars! "\t\t{\tAgentID\t\tLLUUID\t}",
   chars! "\t\t{\tSessionID\t\tLLUUID\t}",
   chars! "\t}",
   chars! "\t{",
   chars! "\t\tDataBlock\t\tSingle",
   chars! "\t\t{\tFilename\tVariable\t1\t}",
   chars! "\t}",
   chars! "}"]

/-- `StateSave` as the parser creates it. -/
def r141 : RawTemplate :=
  ⟨"StateSave", .low, 127, [255, 255, 127], some .notTrusted, some .unencoded, some .notDeprecated,
    [⟨"DataBlock", .single, 0, [⟨"Filename", some .variable, some 1⟩]⟩,
     ⟨"AgentData", .single, 0, [⟨"SessionID", some .uuid, some 16⟩, ⟨"AgentID", some .uuid, some 16⟩]⟩]⟩

/-- `StateSave` in file order. -/
def t141 : Template :=
  ⟨"StateSave", .low, 127, [], some .notTrusted, some .unencoded, some .notDeprecated,
    [⟨"AgentData", .single, 0, [⟨"AgentID", .uuid, 16⟩, ⟨"SessionID", .uuid, 16⟩]⟩,
     ⟨"DataBlock", .single, 0, [⟨"Filename", .variable, 1⟩]⟩]⟩

theorem p141 : ChunkOk c141 r141 := by intro v older; kernel_rfl
theorem k141 : r141.known = some t141 := by kernel_rfl
theorem n141 : t141.name = String.ofList ['S', 't', 'a', 't', 'e', 'S', 'a', 'v', 'e'] := by kernel_rfl

/-- The names of the blocks and variables of `StateSave`. -/
def b141 : List (List Char × List (List Char)) :=
  [(['A', 'g', 'e', 'n', 't', 'D', 'a', 't', 'a'], [['A', 'g', 'e', 'n', 't', 'I', 'D'], ['S', 'e', 's', 's', 'i', 'o', 'n', 'I', 'D']]),
   (['D', 'a', 't', 'a', 'B', 'l', 'o', 'c', 'k'], [['F', 'i', 'l', 'e', 'n', 'a', 'm', 'e']])]

theorem w141 : Checked t141 := ⟨b141, by kernel_rfl, by kernel_rfl, by kernel_rfl⟩

/-- Lines of `message_template.msg` up to the end of `ReportAutosaveCrash`. -/
def c142 : List (List Char) :=
  [chars! "",
   chars! "// ReportAutosaveCrash",
   chars! "// sim->launcher",
   chars! "{",
   chars! "\tReportAutosaveCrash Low 128 NotTrusted Unencoded",
   chars! "\t{",
   chars! "\t\tAutosaveData\tSingle",
   chars! "\t\t{\tPID\t\tS32\t}",
   chars! "\t\t{\tStatus\tS32 }",
   chars! "\t}",
   chars! "}"]

/-- `ReportAutosaveCrash` as the parser creates it. -/
def r142 : RawTemplate :=
  ⟨"ReportAutosaveCrash", .low, 128, [255, 255, 128], some .notTrusted, some .unencoded, some .notDeprecated,
    [⟨"AutosaveData", .single, 0, [⟨"Status", some .s32, some 4⟩, ⟨"PID", some .s32, some 4⟩]⟩]⟩

/-- `ReportAutosaveCrash` in file order. -/
def t142 : Template :=
  ⟨"ReportAutosaveCrash", .low, 128, [], some .notTrusted, some .unencoded, some .notDeprecated,
    [⟨"AutosaveData", .single, 0, [⟨"PID", .s32, 4⟩, ⟨"Status", .s32, 4⟩]⟩]⟩

theorem p142 : ChunkOk c142 r142 := by intro v older; kernel_rfl
theorem k142 : r142.known = some t142 := by kernel_rfl
theorem n142 : t142.name = String.ofList ['R', 'e', 'p', 'o', 'r', 't', 'A', 'u', 't', 'o', 's', 'a', 'v', 'e', 'C', 'r', 'a', 's', 'h'] := by kernel_rfl

/-- The names of the blocks and variables of `ReportAutosaveCrash`. -/
def b142 : List (List Char × List (List Char)) :=
  [(['A', 'u', 't', 'o', 's', 'a', 'v', 'e', 'D', 'a', 't', 'a'], [['P', 'I', 'D'], ['S', 't', 'a', 't', 'u', 's']])]

theorem w142 : Checked t142 := ⟨b142, by kernel_rfl, by kernel_rfl, by kernel_rfl⟩

/-- Lines of `message_template.msg` up to the end of `SimWideDeletes`. -/
def c143 : List (List Char) :=
  [chars! "",
   chars! "// SimWideDeletes",
   chars! "{",
   chars! "\tSimWideDeletes Low 129 NotTrusted Unencoded",
   chars! "\t{",
   chars! "\t\tAgentData\t\t\tSingle",
   chars! "\t\t{\tAgentID\t\t\tLLUUID\t}",
   chars! "\t\t{\tSessionID\t\tLLUUID\t}",
   chars! "\t}",
   chars! "\t{",
   chars! "\t\tDataBlock\t\t\tSingle",
   chars! "\t\t{\tTargetID\t\tLLUUID\t}",
   chars! "\t\t{\tFlags\t\t\tU32\t}",
   chars! "\t}",
   chars! "}"]

/-- `SimWideDeletes` as the parser creates it. -/
def r143 : RawTemplate :=
  ⟨"SimWideDeletes", .low, 129, [255, 255, 129], some .notTrusted, some .unencoded, some .notDeprecated,
    [⟨"DataBlock", .single, 0, [⟨"Flags", some .u32, some 4⟩, ⟨"TargetID", some .uuid, some 16⟩]⟩,
     ⟨"AgentData", .single, 0, [⟨"SessionID", some .uuid, some 16⟩, ⟨"AgentID", some .uuid, some 16⟩]⟩]⟩

/-- `SimWideDeletes` in file order. -/
def t143 : Template :=
  ⟨"SimWideDeletes", .low, 129, [], some .notTrusted, some .unencoded, some .notDeprecated,
    [⟨"AgentData", .single, 0, [⟨"AgentID", .uuid, 16⟩, ⟨"SessionID", .uuid, 16⟩]⟩,
     ⟨"DataBlock", .single, 0, [⟨"TargetID", .uuid, 16⟩, ⟨"Flags", .u32, 4⟩]⟩]⟩

theorem p143 : ChunkOk c143 r143 := by intro v older; kernel_rfl
theorem k143 : r143.known = some t143 := by kernel_rfl
theorem n143 : t143.name = String.ofList ['S', 'i', 'm', 'W', 'i', 'd', 'e', 'D', 'e', 'l', 'e', 't', 'e', 's'] := by kernel_rfl

/-- The names of the blocks and variables of `SimWideDeletes`. -/
def b143 : List (List Char × List (List Char)) :=
  [(['A', 'g', 'e', 'n', 't', 'D', 'a', 't', 'a'], [['A', 'g', 'e', 'n', 't', 'I', 'D'], ['S', 'e', 's', 's', 'i', 'o', 'n', 'I', 'D']]),
   (['D', 'a', 't', 'a', 'B', 'l', 'o', 'c', 'k'], [['T', 'a', 'r', 'g', 'e', 't', 'I', 'D'], ['F', 'l', 'a', 'g', 's']])]

theorem w143 : Checked t143 := ⟨b143, by kernel_rfl, by kernel_rfl, by kernel_rfl⟩

/-- Lines of `message_template.msg` up to the end of `RequestObjectPropertiesFamily`. -/
def c144 : List (List Char) :=
  [chars! "",
   chars! "// RequestObjectPropertiesFamily",
   chars! "// Ask for extended information, such as creator, permissions, resources, etc.",
   chars! "// Medium frequency because it is driven by mouse hovering over objects, which",
   chars! "// occurs at high rates.",
   chars! "{",
   chars! "\tRequestObjectPropertiesFamily Medium 5 NotTrusted Zerocoded",
   chars! "\t{",
   chars! "\t\tAgentData\t\tSingle",
   chars! "\t\t{\tAgentID\t\tLLUUID\t}",
   chars! "\t\t{\tSessionID\tLLUUID\t}",
   chars! "\t}",
   chars! "\t{",
   chars! "\t\tObjectData\t\tSingle",
   chars! "\t\t{\tRequestFlags\t\tU32\t}",
   chars! "\t\t{\tObjectID\t\t\tLLUUID\t}",
   chars! "\t}",
   chars! "}"]

/-- `RequestObjectPropertiesFamily` as the parser creates it. -/
def r144 : RawTemplate :=
  ⟨"RequestObjectPropertiesFamily", .medium, 5, [255, 5], some .notTrusted, some .zerocoded, some .notDeprecated,
    [⟨"ObjectData", .single, 0, [⟨"ObjectID", some .uuid, some 16⟩, ⟨"RequestFlags", some .u32, some 4⟩]⟩,
     ⟨"AgentData", .single, 0, [⟨"SessionID", some .uuid, some 16⟩, ⟨"AgentID", some .uuid, some 16⟩]⟩]⟩

/-- `RequestObjectPropertiesFamily` in file order. -/
def t144 : Template :=
  ⟨"RequestObjectPropertiesFamily", .medium, 5, [], some .notTrusted, some .zerocoded, some .notDeprecated,
    [⟨"AgentData", .single, 0, [⟨"AgentID", .uuid, 16⟩, ⟨"SessionID", .uuid, 16⟩]⟩,
     ⟨"ObjectData", .single, 0, [⟨"RequestFlags", .u32, 4⟩, ⟨"ObjectID", .uuid, 16⟩]⟩]⟩

theorem p144 : ChunkOk c144 r144 := by intro v older; kernel_rfl
theorem k144 : r144.known = some t144 := by kernel_rfl
theorem n144 : t144.name = String.ofList ['R', 'e', 'q', 'u', 'e', 's', 't', 'O', 'b', 'j', 'e', 'c', 't', 'P', 'r', 'o', 'p', 'e', 'r', 't', 'i', 'e', 's', 'F', 'a', 'm', 'i', 'l', 'y'] := by kernel_rfl

/-- The names of the blocks and variables of `RequestObjectPropertiesFamily`. -/
def b144 : List (List Char × List (List Char)) :=
  [(['A', 'g', 'e', 'n', 't', 'D', 'a', 't', 'a'], [['A', 'g', 'e', 'n', 't', 'I', 'D'], ['S', 'e', 's', 's', 'i', 'o', 'n', 'I', 'D']]),
   (['O', 'b', 'j', 'e', 'c', 't', 'D', 'a', 't', 'a'], [['R', 'e', 'q', 'u', 'e', 's', 't', 'F', 'l', 'a', 'g', 's'], ['O', 'b', 'j', 'e', 'c', 't', 'I', 'D']])]

theorem w144 : Checked t144 := ⟨b144, by kernel_rfl, by kernel_rfl, by kernel_rfl⟩

/-- Lines of `message_template.msg` up to the end of `TrackAgent`. -/
def c145 : List (List Char) :=
  [chars! "",
   chars! "",
   chars! "// Track agent - this information is used when sending out the",
   chars! "// coarse location update so that we know who you are tracking. ",
   chars! "// To stop tracking - send a null uuid as the prey.",
   chars! "{",
   chars! "\tTrackAgent\t\tLow\t130 \tNotTrusted Unencoded",
   chars! "\t{",
   chars! "\t\tAgentData\t\tSingle",
   chars! "\t\t{\tAgentID\t\tLLUUID\t}",
   chars! "\t\t{\tSessionID\tLLUUID\t}",
   chars! "\t}",
   chars! "\t{",
   chars! "\t\tTargetData\t\tSingle",
   chars! "\t\t{\tPreyID\t\tLLUUID\t}",
   chars! "\t}",
   chars! "}"]

/-- `TrackAgent` as the parser creates it. -/
def r145 : RawTemplate :=
  ⟨"TrackAgent", .low, 130, [255, 255, 130], some .notTrusted, some .unencoded, some .notDeprecated,
    [⟨"TargetData", .single, 0, [⟨"PreyID", some .uuid, some 16⟩]⟩,
     ⟨"AgentData", .single, 0, [⟨"SessionID", some .uuid, some 16⟩, ⟨"AgentID", some .uuid, some 16⟩]⟩]⟩

/-- `TrackAgent` in file order. -/
def t145 : Template :=
  ⟨"TrackAgent", .low, 130, [], some .notTrusted, some .unencoded, some .notDeprecated,
    [⟨"AgentData", .single, 0, [⟨"AgentID", .uuid, 16⟩, ⟨"SessionID", .uuid, 16⟩]⟩,
     ⟨"TargetData", .single, 0, [⟨"PreyID", .uuid, 16⟩]⟩]⟩

theorem p145 : ChunkOk c145 r145 := by intro v older; kernel_rfl
theorem k145 : r145.known = some t145 := by kernel_rfl
theorem n145 : t145.name = String.ofList ['T', 'r', 'a', 'c', 'k', 'A', 'g', 'e', 'n', 't'] := by kernel_rfl

/-- The names of the blocks and variables of `TrackAgent`. -/
def b145 : List (List Char × List (List Char)) :=
  [(['A', 'g', 'e', 'n', 't', 'D', 'a', 't', 'a'], [['A', 'g', 'e', 'n', 't', 'I', 'D'], ['S', 'e', 's', 's', 'i', 'o', 'n', 'I', 'D']]),
   (['T', 'a', 'r', 'g', 'e', 't', 'D', 'a', 't', 'a'], [['P', 'r', 'e', 'y', 'I', 'D']])]

theorem w145 : Checked t145 := ⟨b145, by kernel_rfl, by kernel_rfl, by kernel_rfl⟩

/-- Lines of `message_template.msg` up to the end of `ViewerStats`. -/
def c146 : List (List Char) :=
  [chars! "",
   chars! "// end viewer to simulator section",
   chars! "",
   chars! "{",
   chars! "       ViewerStats Low 131 NotTrusted Zerocoded UDPDeprecated",
   chars! "       {",
   chars! "               AgentData                       Single",
   chars! "               {       AgentID                 LLUUID      }",
   chars! "               {       SessionID               LLUUID      }",
   chars! "               {       IP                      IPADDR       }",
   chars! "               {       StartTime               U32       }",
   chars! "               {       RunTime                 F32       }  // F32",
   chars! "               {       SimFPS                  F32       }  // F32",
   chars! "               {       FPS                     F32       }  // F32",
   chars! "               {       AgentsInView\t\t\t   U8 } //",
   chars! "               {       Ping                    F32       }  // F32",
   chars! "               {       MetersTraveled  F64       }",
   chars! "               {       RegionsVisited  S32       }",
   chars! "               {       SysRAM                  U32       }",
   chars! "               {       SysOS                   Variable        1       }  // String",
   chars! "               {       SysCPU                  Variable        1       }  // String",
   chars! "               {       SysGPU                  Variable        1       }  // String",
   chars! "       }",
   chars! "",
   chars! "       {",
   chars! "               DownloadTotals          Single",
   chars! "               {       World                   U32       }",
   chars! "               {       Objects                 U32       }",
   chars! "               {       Textures                U32       }",
   chars! "       }",
   chars! "",
   chars! "       {",
   chars! "               NetStats                        Multiple        2",
   chars! "               {       Bytes                   U32       }",
   chars! "               {       Packets                 U32       }",
   chars! "               {       Compressed              U32       }",
   chars! "               {       Savings                 U32       }",
   chars! "       }",
   chars! "",
   chars! "       {       ",
   chars! "               FailStats                       Single",
   chars! "               {       SendPacket              U32       }",
   chars! "               {       Dropped                 U32       }",
   chars! "               {       Resent                  U32       }",
   chars! "               {       FailedResends   U32       }",
   chars! "               {       OffCircuit              U32       }",
   chars! "               {       Invalid                 U32       }",
   chars! "       }",
   chars! "",
   chars! "       {",
   chars! "               MiscStats                       Variable",
   chars! "               {       Type                    U32       }",
   chars! "               {       Value                   F64       }",
   chars! "       }",
   chars! "}"]

/-- `ViewerStats` as the parser creates it. -/
def r146 : RawTemplate :=
  ⟨"ViewerStats", .low, 131, [255, 255, 131], some .notTrusted, some .zerocoded, some .udpDeprecated,
    [⟨"MiscStats", .variable, 0, [⟨"Value", some .f64, some 8⟩, ⟨"Type", some .u32, some 4⟩]⟩,
     ⟨"FailStats", .single, 0, [⟨"Invalid", some .u32, some 4⟩, ⟨"OffCircuit", some .u32, some 4⟩, ⟨"FailedResends", some .u32, some 4⟩, ⟨"Resent", some .u32, some 4⟩, ⟨"Dropped", some .u32, some 4⟩, ⟨"SendPacket", some .u32, some 4⟩]⟩,
     ⟨"NetStats", .multiple, 2, [⟨"Savings", some .u32, some 4⟩, ⟨"Compressed", some .u32, some 4⟩, ⟨"Packets", some .u32, some 4⟩, ⟨"Bytes", some .u32, some 4⟩]⟩,
     ⟨"DownloadTotals", .single, 0, [⟨"Textures", some .u32, some 4⟩, ⟨"Objects", some .u32, some 4⟩, ⟨"World", some .u32, some 4⟩]⟩,
     ⟨"AgentData", .single, 0, [⟨"SysGPU", some .variable, some 1⟩, ⟨"SysCPU", some .variable, some 1⟩, ⟨"SysOS", some .variable, some 1⟩, ⟨"SysRAM", some .u32, some 4⟩, ⟨"RegionsVisited", some .s32, some 4⟩, ⟨"MetersTraveled", some .f64, some 8⟩, ⟨"Ping", some .f32, some 4⟩, ⟨"AgentsInView", some .u8, some 1⟩, ⟨"FPS", some .f32, some 4⟩, ⟨"SimFPS", some .f32, some 4⟩, ⟨"RunTime", some .f32, some 4⟩, ⟨"StartTime", some .u32, some 4⟩, ⟨"IP", some .ipaddr, some 4⟩, ⟨"SessionID", some .uuid, some 16⟩, ⟨"AgentID", some .uuid, some 16⟩]⟩]⟩

/-- `ViewerStats` in file order. -/
def t146 : Template :=
  ⟨"ViewerStats", .low, 131, [], some .notTrusted, some .zerocoded, some .udpDeprecated,
    [⟨"AgentData", .single, 0, [⟨"AgentID", .uuid, 16⟩, ⟨"SessionID", .uuid, 16⟩, ⟨"IP", .ipaddr, 4⟩, ⟨"StartTime", .u32, 4⟩, ⟨"RunTime", .f32, 4⟩, ⟨"SimFPS", .f32, 4⟩, ⟨"FPS", .f32, 4⟩, ⟨"AgentsInView", .u8, 1⟩, ⟨"Ping", .f32, 4⟩, ⟨"MetersTraveled", .f64, 8⟩, ⟨"RegionsVisited", .s32, 4⟩, ⟨"SysRAM", .u32, 4⟩, ⟨"SysOS", .variable, 1⟩, ⟨"SysCPU", .variable, 1⟩, ⟨"SysGPU", .variable, 1⟩]⟩,
     ⟨"DownloadTotals", .single, 0, [⟨"World", .u32, 4⟩, ⟨"Objects", .u32, 4⟩, ⟨"Textures", .u32, 4⟩]⟩,
     ⟨"NetStats", .multiple, 2, [⟨"Bytes", .u32, 4⟩, ⟨"Packets", .u32, 4⟩, ⟨"Compressed", .u32, 4⟩, ⟨"Savings", .u32, 4⟩]⟩,
     ⟨"FailStats", .single, 0, [⟨"SendPacket", .u32, 4⟩, ⟨"Dropped", .u32, 4⟩, ⟨"Resent", .u32, 4⟩, ⟨"FailedResends", .u32, 4⟩, ⟨"OffCircuit", .u32, 4⟩, ⟨"Invalid", .u32, 4⟩]⟩,
     ⟨"MiscStats", .variable, 0, [⟨"Type", .u32, 4⟩, ⟨"Value", .f64, 8⟩]⟩]⟩

theorem p146 : ChunkOk c146 r146 := by intro v older; kernel_rfl
theorem k146 : r146.known = some t146 := by kernel_rfl
theorem n146 : t146.name = String.ofList ['V', 'i', 'e', 'w', 'e', 'r', 'S', 't', 'a', 't', 's'] := by kernel_rfl

/-- The names of the blocks and variables of `ViewerStats`. -/
def b146 : List (List Char × List (List Char)) :=
  [(['A', 'g', 'e', 'n', 't', 'D', 'a', 't', 'a'], [['A', 'g', 'e', 'n', 't', 'I', 'D'], ['S', 'e', 's', 's', 'i', 'o', 'n', 'I', 'D'], ['I', 'P'], ['S', 't', 'a', 'r', 't', 'T', 'i', 'm', 'e'], ['R', 'u', 'n', 'T', 'i', 'm', 'e'], ['S', 'i', 'm', 'F', 'P', 'S'], ['F', 'P', 'S'], ['A', 'g', 'e', 'n', 't', 's', 'I', 'n', 'V', 'i', 'e', 'w'], ['P', 'i', 'n', 'g'], ['M', 'e', 't', 'e', 'r', 's', 'T', 'r', 'a', 'v', 'e', 'l', 'e', 'd'], ['R', 'e', 'g', 'i', 'o', 'n', 's', 'V', 'i', 's', 'i', 't', 'e', 'd'], ['S', 'y', 's', 'R', 'A', 'M'], ['S', 'y', 's', 'O', 'S'], ['S', 'y', 's', 'C', 'P', 'U'], ['S', 'y', 's', 'G', 'P', 'U']]),
   (['D', 'o', 'w', 'n', 'l', 'o', 'a', 'd', 'T', 'o', 't', 'a', 'l', 's'], [['W', 'o', 'r', 'l', 'd'], ['O', 'b', 'j', 'e', 'c', 't', 's'], ['T', 'e', 'x', 't', 'u', 'r', 'e', 's']]),
   (['N', 'e', 't', 'S', 't', 'a', 't', 's'], [['B', 'y', 't', 'e', 's'], ['P', 'a', 'c', 'k', 'e', 't', 's'], ['C', 'o', 'm', 'p', 'r', 'e', 's', 's', 'e', 'd'], ['S', 'a', 'v', 'i', 'n', 'g', 's']]),
   (['F', 'a', 'i', 'l', 'S', 't', 'a', 't', 's'], [['S', 'e', 'n', 'd', 'P', 'a', 'c', 'k', 'e', 't'], ['D', 'r', 'o', 'p', 'p', 'e', 'd'], ['R', 'e', 's', 'e', 'n', 't'], ['F', 'a', 'i', 'l', 'e', 'd', 'R', 'e', 's', 'e', 'n', 'd', 's'], ['O', 'f', 'f', 'C', 'i', 'r', 'c', 'u', 'i', 't'], ['I', 'n', 'v', 'a', 'l', 'i', 'd']]),
   (['M', 'i', 's', 'c', 'S', 't', 'a', 't', 's'], [['T', 'y', 'p', 'e'], ['V', 'a', 'l', 'u', 'e']])]

theorem w146 : Checked t146 := ⟨b146, by kernel_rfl, by kernel_rfl, by kernel_rfl⟩

/-- Lines of `message_template.msg` up to the end of `ScriptAnswerYes`. -/
def c147 : List (List Char) :=
  [chars! "\t\t",
   chars! "// ScriptAnswerYes",
   chars! "// reliable",
   chars! "{",
   chars! "\tScriptAnswerYes Low 132 NotTrusted Unencoded",
   chars! "\t{",
   chars! "\t\tAgentData\t\tSingle",
   chars! "\t\t{\tAgentID\t\tLLUUID\t}",
   chars! "\t\t{\tSessionID\tLLUUID\t}",
   chars! "\t}\t\t\t   ",
   chars! "\t{",
   chars! "\t\tData\tSingle",
   chars! "\t\t{\tTaskID\t\t\tLLUUID\t}",
   chars! "\t\t{\tItemID\t\t\tLLUUID\t}",
   chars! "\t\t{\tQuestions\t\tS32\t}",
   chars! "\t}",
   chars! "}"]

/-- `ScriptAnswerYes` as the parser creates it. -/
def r147 : RawTemplate :=
  ⟨"ScriptAnswerYes", .low, 132, [255, 255, 132], some .notTrusted, some .unencoded, some .notDeprecated,
    [⟨"Data", .single, 0, [⟨"Questions", some .s32, some 4⟩, ⟨"ItemID", some .uuid, some 16⟩, ⟨"TaskID", some .uuid, some 16⟩]⟩,
     ⟨"AgentData", .single, 0, [⟨"SessionID", some .uuid, some 16⟩, ⟨"AgentID", some .uuid, some 16⟩]⟩]⟩

/-- `ScriptAnswerYes` in file order. -/
def t147 : Template :=
  ⟨"ScriptAnswerYes", .low, 132, [], some .notTrusted, some .unencoded, some .notDeprecated,
    [⟨"AgentData", .single, 0, [⟨"AgentID", .uuid, 16⟩, ⟨"SessionID", .uuid, 16⟩]⟩,
     ⟨"Data", .single, 0, [⟨"TaskID", .uuid, 16⟩, ⟨"ItemID", .uuid, 16⟩, ⟨"Questions", .s32, 4⟩]⟩]⟩

theorem p147 : ChunkOk c147 r147 := by intro v older; kernel_rfl
theorem k147 : r147.known = some t147 := by kernel_rfl
theorem n147 : t147.name = String.ofList ['S', 'c', 'r', 'i', 'p', 't', 'A', 'n', 's', 'w', 'e', 'r', 'Y', 'e', 's'] := by kernel_rfl

/-- The names of the blocks and variables of `ScriptAnswerYes`. -/
def b147 : List (List Char × List (List Char)) :=
  [(['A', 'g', 'e', 'n', 't', 'D', 'a', 't', 'a'], [['A', 'g', 'e', 'n', 't', 'I', 'D'], ['S', 'e', 's', 's', 'i', 'o', 'n', 'I', 'D']]),
   (['D', 'a', 't', 'a'], [['T', 'a', 's', 'k', 'I', 'D'], ['I', 't', 'e', 'm', 'I', 'D'], ['Q', 'u', 'e', 's', 't', 'i', 'o', 'n', 's']])]

theorem w147 : Checked t147 := ⟨b147, by kernel_rfl, by kernel_rfl, by kernel_rfl⟩

/-- Lines of `message_template.msg` up to the end of `UserReport`. -/
def c148 : List (List Char) :=
  [chars! "",
   chars! "",
   chars! "// complaint/bug-report",
   chars! "// reliable",
   chars! "{",
   chars! "\tUserReport\tLow\t133 \tNotTrusted Zerocoded",
   chars! "\t{",
   chars! "\t\tAgentData\t\tSingle",
   chars! "\t\t{\tAgentID\t\tLLUUID\t}",
   chars! "\t\t{\tSessionID\tLLUUID\t}",
   chars! "\t}",
   chars! "\t{",
   chars! "\t\tReportData\tSingle",
   chars! "\t\t{   ReportType\t\tU8   }   // BUG=1, COMPLAINT=2",
   chars! "\t\t{   Category\t\tU8   }   // see sequence.user_report_category",
   chars! "\t\t{\tPosition\t\tLLVector3\t} // screenshot position, region-local",
   chars! "\t\t{   CheckFlags\t\tU8\t} // checkboxflags",
   chars! "\t\t{   ScreenshotID\tLLUUID  }",
   chars! "\t\t{   ObjectID\t\tLLUUID  }",
   chars! "\t\t{   AbuserID\t\tLLUUID  }",
   chars! "\t\t{\tAbuseRegionName\tVariable\t1\t}",
   chars! "\t\t{\tAbuseRegionID\tLLUUID\t}",
   chars! "\t\t{   Summary\t\t\tVariable\t1   }",
   chars! "\t\t{   Details \t\tVariable\t2   }",
   chars! "\t\t{\tVersionString\tVariable\t1\t}",
   chars! "\t}",
   chars! "}"]

/-- `UserReport` as the parser creates it. -/
def r148 : RawTemplate :=
  ⟨"UserReport", .low, 133, [255, 255, 133], some .notTrusted, some .zerocoded, some .notDeprecated,
    [⟨"ReportData", .single, 0, [⟨"VersionString", some .variable, some 1⟩, ⟨"Details", some .variable, some 2⟩, ⟨"Summary", some .variable, some 1⟩, ⟨"AbuseRegionID", some .uuid, some 16⟩, ⟨"AbuseRegionName", some .variable, some 1⟩, ⟨"AbuserID", some .uuid, some 16⟩, ⟨"ObjectID", some .uuid, some 16⟩, ⟨"ScreenshotID", some .uuid, some 16⟩, ⟨"CheckFlags", some .u8, some 1⟩, ⟨"Position", some .vector3, some 12⟩, ⟨"Category", some .u8, some 1⟩, ⟨"ReportType", some .u8, some 1⟩]⟩,
     ⟨"AgentData", .single, 0, [⟨"SessionID", some .uuid, some 16⟩, ⟨"AgentID", some .uuid, some 16⟩]⟩]⟩

/-- `UserReport` in file order. -/
def t148 : Template :=
  ⟨"UserReport", .low, 133, [], some .notTrusted, some .zerocoded, some .notDeprecated,
    [⟨"AgentData", .single, 0, [⟨"AgentID", .uuid, 16⟩, ⟨"SessionID", .uuid, 16⟩]⟩,
     ⟨"ReportData", .single, 0, [⟨"ReportType", .u8, 1⟩, ⟨"Category", .u8, 1⟩, ⟨"Position", .vector3, 12⟩, ⟨"CheckFlags", .u8, 1⟩, ⟨"ScreenshotID", .uuid, 16⟩, ⟨"ObjectID", .uuid, 16⟩, ⟨"AbuserID", .uuid, 16⟩, ⟨"AbuseRegionName", .variable, 1⟩, ⟨"AbuseRegionID", .uuid, 16⟩, ⟨"Summary", .variable, 1⟩, ⟨"Details", .variable, 2⟩, ⟨"VersionString", .variable, 1⟩]⟩]⟩

theorem p148 : ChunkOk c148 r148 := by intro v older; kernel_rfl
theorem k148 : r148.known = some t148 := by kernel_rfl
theorem n148 : t148.name = String.ofList ['U', 's', 'e', 'r', 'R', 'e', 'p', 'o', 'r', 't'] := by kernel_rfl

/-- The names of the blocks and variables of `UserReport`. -/
def b148 : List (List Char × List (List Char)) :=
  [(['A', 'g', 'e', 'n', 't', 'D', 'a', 't', 'a'], [['A', 'g', 'e', 'n', 't', 'I', 'D'], ['S', 'e', 's', 's', 'i', 'o', 'n', 'I', 'D']]),
   (['R', 'e', 'p', 'o', 'r', 't', 'D', 'a', 't', 'a'], [['R', 'e', 'p', 'o', 'r', 't', 'T', 'y', 'p', 'e'], ['C', 'a', 't', 'e', 'g', 'o', 'r', 'y'], ['P', 'o', 's', 'i', 't', 'i', 'o', 'n'], ['C', 'h', 'e', 'c', 'k', 'F', 'l', 'a', 'g', 's'], ['S', 'c', 'r', 'e', 'e', 'n', 's', 'h', 'o', 't', 'I', 'D'], ['O', 'b', 'j', 'e', 'c', 't', 'I', 'D'], ['A', 'b', 'u', 's', 'e', 'r', 'I', 'D'], ['A', 'b', 'u', 's', 'e', 'R', 'e', 'g', 'i', 'o', 'n', 'N', 'a', 'm', 'e'], ['A', 'b', 'u', 's', 'e', 'R', 'e', 'g', 'i', 'o', 'n', 'I', 'D'], ['S', 'u', 'm', 'm', 'a', 'r', 'y'], ['D', 'e', 't', 'a', 'i', 'l', 's'], ['V', 'e', 'r', 's', 'i', 'o', 'n', 'S', 't', 'r', 'i', 'n', 'g']])]

theorem w148 : Checked t148 := ⟨b148, by kernel_rfl, by kernel_rfl, by kernel_rfl⟩

/-- Lines of `message_template.msg` up to the end of `AlertMessage`. -/
def c149 : List (List Char) :=
  [chars! "",
   chars! "",
   chars! "// ***************************************************************************",
   chars! "// Simulator to Viewer Messages",
   chars! "// ***************************************************************************",
   chars! "",
   chars! "// AlertMessage",
   chars! "// Specifies the text to be posted in an alert dialog",
   chars! "{",
   chars! "\tAlertMessage Low 134 Trusted Unencoded",
   chars! "\t{",
   chars! "\t\tAlertData\t\t\tSingle",
   chars! "\t\t{\tMessage\t\t\tVariable\t1\t}",
   chars! "\t}",
   chars! "\t{",
   chars! "\t\tAlertInfo\t\t\tVariable",
   chars! "\t\t{\tMessage\t\t\tVariable\t1\t}",
   chars! "\t\t{\tExtraParams\t\tVariable\t1\t}",
   chars! "\t}",
   chars! "}"]

/-- `AlertMessage` as the parser creates it. -/
def r149 : RawTemplate :=
  ⟨"AlertMessage", .low, 134, [255, 255, 134], some .trusted, some .unencoded, some .notDeprecated,
    [⟨"AlertInfo", .variable, 0, [⟨"ExtraParams", some .variable, some 1⟩, ⟨"Message", some .variable, some 1⟩]⟩,
     ⟨"AlertData", .single, 0, [⟨"Message", some .variable, some 1⟩]⟩]⟩

/-- `AlertMessage` in file order. -/
def t149 : Template :=
  ⟨"AlertMessage", .low, 134, [], some .trusted, some .unencoded, some .notDeprecated,
    [⟨"AlertData", .single, 0, [⟨"Message", .variable, 1⟩]⟩,
     ⟨"AlertInfo", .variable, 0, [⟨"Message", .variable, 1⟩, ⟨"ExtraParams", .variable, 1⟩]⟩]⟩

theorem p149 : ChunkOk c149 r149 := by intro v older; kernel_rfl
theorem k149 : r149.known = some t149 := by kernel_rfl
theorem n149 : t149.name = String.ofList ['A', 'l', 'e', 'r', 't', 'M', 'e', 's', 's', 'a', 'g', 'e'] := by kernel_rfl

/-- The names of the blocks and variables of `AlertMessage`. -/
def b149 : List (List Char × List (List Char)) :=
  [(['A', 'l', 'e', 'r', 't', 'D', 'a', 't', 'a'], [['M', 'e', 's', 's', 'a', 'g', 'e']]),
   (['A', 'l', 'e', 'r', 't', 'I', 'n', 'f', 'o'], [['M', 'e', 's', 's', 'a', 'g', 'e'], ['E', 'x', 't', 'r', 'a', 'P', 'a', 'r', 'a', 'm', 's']])]

theorem w149 : Checked t149 := ⟨b149, by kernel_rfl, by kernel_rfl, by kernel_rfl⟩

/-- Lines of `message_template.msg` up to the end of `AgentAlertMessage`. -/
def c150 : List (List Char) :=
  [chars! "",
   chars! "// Send an AlertMessage to the named agent.",
   chars! "// usually dataserver->simulator",
   chars! "{",
   chars! "\tAgentAlertMessage\tLow\t135 Trusted\tUnencoded",
   chars! "\t{",
   chars! "\t\tAgentData\tSingle",
   chars! "\t\t{\tAgentID\t\tLLUUID\t}",
   chars! "\t}",
   chars! "\t{",
   chars! "\t\tAlertData\t\t\tSingle",
   chars! "\t\t{\tModal\t\t\tBOOL\t\t\t}",
   chars! "\t\t{\tMessage\t\t\tVariable\t1\t}",
   chars! "\t}",
   chars! "}"]

/-- `AgentAlertMessage` as the parser creates it. -/
def r150 : RawTemplate :=
  ⟨"AgentAlertMessage", .low, 135, [255, 255, 135], some .trusted, some .unencoded, some .notDeprecated,
    [⟨"AlertData", .single, 0, [⟨"Message", some .variable, some 1⟩, ⟨"Modal", some .bool, some 1⟩]⟩,
     ⟨"AgentData", .single, 0, [⟨"AgentID", some .uuid, some 16⟩]⟩]⟩

/-- `AgentAlertMessage` in file order. -/
def t150 : Template :=
  ⟨"AgentAlertMessage", .low, 135, [], some .trusted, some .unencoded, some .notDeprecated,
    [⟨"AgentData", .single, 0, [⟨"AgentID", .uuid, 16⟩]⟩,
     ⟨"AlertData", .single, 0, [⟨"Modal", .bool, 1⟩, ⟨"Message", .variable, 1⟩]⟩]⟩

theorem p150 : ChunkOk c150 r150 := by intro v older; kernel_rfl
theorem k150 : r150.known = some t150 := by kernel_rfl
theorem n150 : t150.name = String.ofList ['A', 'g', 'e', 'n', 't', 'A', 'l', 'e', 'r', 't', 'M', 'e', 's', 's', 'a', 'g', 'e'] := by kernel_rfl

/-- The names of the blocks and variables of `AgentAlertMessage`. -/
def b150 : List (List Char × List (List Char)) :=
  [(['A', 'g', 'e', 'n', 't', 'D', 'a', 't', 'a'], [['A', 'g', 'e', 'n', 't', 'I', 'D']]),
   (['A', 'l', 'e', 'r', 't', 'D', 'a', 't', 'a'], [['M', 'o', 'd', 'a', 'l'], ['M', 'e', 's', 's', 'a', 'g', 'e']])]

theorem w150 : Checked t150 := ⟨b150, by kernel_rfl, by kernel_rfl, by kernel_rfl⟩

/-- Lines of `message_template.msg` up to the end of `MeanCollisionAlert`. -/
def c151 : List (List Char) :=
  [chars! "",
   chars! "",
   chars! "// MeanCollisionAlert",
   chars! "// Specifies the text to be posted in an alert dialog",
   chars! "{",
   chars! "\tMeanCollisionAlert Low 136 Trusted Zerocoded",
   chars! "\t{",
   chars! "\t\tMeanCollision\t\tVariable",
   chars! "\t\t{\tVictim\t\t\tLLUUID\t}",
   chars! "\t\t{\tPerp\t\t\tLLUUID\t}",
   chars! "\t\t{\tTime\t\t\tU32\t\t}",
   chars! "\t\t{\tMag\t\t\t\tF32\t\t}",
   chars! "\t\t{\tType\t\t\tU8\t\t}",
   chars! "\t}",
   chars! "}"]

/-- `MeanCollisionAlert` as the parser creates it. -/
def r151 : RawTemplate :=
  ⟨"MeanCollisionAlert", .low, 136, [255, 255, 136], some .trusted, some .zerocoded, some .notDeprecated,
    [⟨"MeanCollision", .variable, 0, [⟨"Type", some .u8, some 1⟩, ⟨"Mag", some .f32, some 4⟩, ⟨"Time", some .u32, some 4⟩, ⟨"Perp", some .uuid, some 16⟩, ⟨"Victim", some .uuid, some 16⟩]⟩]⟩

/-- `MeanCollisionAlert` in file order. -/
def t151 : Template :=
  ⟨"MeanCollisionAlert", .low, 136, [], some .trusted, some .zerocoded, some .notDeprecated,
    [⟨"MeanCollision", .variable, 0, [⟨"Victim", .uuid, 16⟩, ⟨"Perp", .uuid, 16⟩, ⟨"Time", .u32, 4⟩, ⟨"Mag", .f32, 4⟩, ⟨"Type", .u8, 1⟩]⟩]⟩

theorem p151 : ChunkOk c151 r151 := by intro v older; kernel_rfl
theorem k151 : r151.known = some t151 := by kernel_rfl
theorem n151 : t151.name = String.ofList ['M', 'e', 'a', 'n', 'C', 'o', 'l', 'l', 'i', 's', 'i', 'o', 'n', 'A', 'l', 'e', 'r', 't'] := by kernel_rfl

/-- The names of the blocks and variables of `MeanCollisionAlert`. -/
def b151 : List (List Char × List (List Char)) :=
  [(['M', 'e', 'a', 'n', 'C', 'o', 'l', 'l', 'i', 's', 'i', 'o', 'n'], [['V', 'i', 'c', 't', 'i', 'm'], ['P', 'e', 'r', 'p'], ['T', 'i', 'm', 'e'], ['M', 'a', 'g'], ['T', 'y', 'p', 'e']])]

theorem w151 : Checked t151 := ⟨b151, by kernel_rfl, by kernel_rfl, by kernel_rfl⟩

/-- Lines of `message_template.msg` up to the end of `ViewerFrozenMessage`. -/
def c152 : List (List Char) :=
  [chars! "",
   chars! "// ViewerFrozenMessage",
   chars! "// Specifies the text to be posted in an alert dialog",
   chars! "{",
   chars! "\tViewerFrozenMessage Low 137 Trusted Unencoded",
   chars! "\t{",
   chars! "\t\tFrozenData\t\t\tSingle",
   chars! "\t\t{\tData\t\t\tBOOL\t}",
   chars! "\t}",
   chars! "}"]

/-- `ViewerFrozenMessage` as the parser creates it. -/
def r152 : RawTemplate :=
  ⟨"ViewerFrozenMessage", .low, 137, [255, 255, 137], some .trusted, some .unencoded, some .notDeprecated,
    [⟨"FrozenData", .single, 0, [⟨"Data", some .bool, some 1⟩]⟩]⟩

/-- `ViewerFrozenMessage` in file order. -/
def t152 : Template :=
  ⟨"ViewerFrozenMessage", .low, 137, [], some .trusted, some .unencoded, some .notDeprecated,
    [⟨"FrozenData", .single, 0, [⟨"Data", .bool, 1⟩]⟩]⟩

theorem p152 : ChunkOk c152 r152 := by intro v older; kernel_rfl
theorem k152 : r152.known = some t152 := by kernel_rfl
theorem n152 : t152.name = String.ofList ['V', 'i', 'e', 'w', 'e', 'r', 'F', 'r', 'o', 'z', 'e', 'n', 'M', 'e', 's', 's', 'a', 'g', 'e'] := by kernel_rfl

/-- The names of the blocks and variables of `ViewerFrozenMessage`. -/
def b152 : List (List Char × List (List Char)) :=
  [(['F', 'r', 'o', 'z', 'e', 'n', 'D', 'a', 't', 'a'], [['D', 'a', 't', 'a']])]

theorem w152 : Checked t152 := ⟨b152, by kernel_rfl, by kernel_rfl, by kernel_rfl⟩

/-- Lines of `message_template.msg` up to the end of `HealthMessage`. -/
def c153 : List (List Char) :=
  [chars! "",
   chars! "// Health Message",
   chars! "// Tells viewer what agent health is",
   chars! "{",
   chars! "\tHealthMessage Low 138 Trusted Zerocoded",
   chars! "\t{",
   chars! "\t\tHealthData\t\t\tSingle",
   chars! "\t\t{\tHealth\t\t\tF32\t}",
   chars! "\t}",
   chars! "}"]

/-- `HealthMessage` as the parser creates it. -/
def r153 : RawTemplate :=
  ⟨"HealthMessage", .low, 138, [255, 255, 138], some .trusted, some .zerocoded, some .notDeprecated,
    [⟨"HealthData", .single, 0, [⟨"Health", some .f32, some 4⟩]⟩]⟩

/-- `HealthMessage` in file order. -/
def t153 : Template :=
  ⟨"HealthMessage", .low, 138, [], some .trusted, some .zerocoded, some .notDeprecated,
    [⟨"HealthData", .single, 0, [⟨"Health", .f32, 4⟩]⟩]⟩

theorem p153 : ChunkOk c153 r153 := by intro v older; kernel_rfl
theorem k153 : r153.known = some t153 := by kernel_rfl
theorem n153 : t153.name = String.ofList ['H', 'e', 'a', 'l', 't', 'h', 'M', 'e', 's', 's', 'a', 'g', 'e'] := by kernel_rfl

/-- The names of the blocks and variables of `HealthMessage`. -/
def b153 : List (List Char × List (List Char)) :=
  [(['H', 'e', 'a', 'l', 't', 'h', 'D', 'a', 't', 'a'], [['H', 'e', 'a', 'l', 't', 'h']])]

theorem w153 : Checked t153 := ⟨b153, by kernel_rfl, by kernel_rfl, by kernel_rfl⟩

/-- Lines of `message_template.msg` up to the end of `ChatFromSimulator`. -/
def c154 : List (List Char) :=
  [chars! "",
   chars! "// ChatFromSimulator",
   chars! "// Chat text to appear on a user's screen",
   chars! "// Position is region local.",
   chars! "// Viewer can optionally use position to animate",
   chars! "// If audible is CHAT_NOT_AUDIBLE, message will not be valid",
   chars! "{",
   chars! "\tChatFromSimulator Low 139 Trusted Unencoded",
   chars! "\t{",
   chars! "\t\tChatData\t\t\tSingle",
   chars! "\t\t{\tFromName\t\tVariable 1\t}",
   chars! "\t\t{\tSourceID\t\tLLUUID\t\t}\t// agent id or object id",
   chars! "\t\t{\tOwnerID\t\t\tLLUUID\t\t}\t// object's owner",
   chars! "\t\t{\tSourceType\t\tU8\t\t\t}",
   chars! "\t\t{\tChatType\t\tU8\t\t\t}",
   chars! "\t\t{\tAudible\t\t\tU8\t\t\t}",
   chars! "\t\t{\tPosition\t\tLLVector3\t}",
   chars! "\t\t{\tMessage\t\t\tVariable 2\t}\t// UTF-8 text",
   chars! "\t}",
   chars! "}"]

/-- `ChatFromSimulator` as the parser creates it. -/
def r154 : RawTemplate :=
  ⟨"ChatFromSimulator", .low, 139, [255, 255, 139], some .trusted, some .unencoded, some .notDeprecated,
    [⟨"ChatData", .single, 0, [⟨"Message", some .variable, some 2⟩, ⟨"Position", some .vector3, some 12⟩, ⟨"Audible", some .u8, some 1⟩, ⟨"ChatType", some .u8, some 1⟩, ⟨"SourceType", some .u8, some 1⟩, ⟨"OwnerID", some .uuid, some 16⟩, ⟨"SourceID", some .uuid, some 16⟩, ⟨"FromName", some .variable, some 1⟩]⟩]⟩

/-- `ChatFromSimulator` in file order. -/
def t154 : Template :=
  ⟨"ChatFromSimulator", .low, 139, [], some .trusted, some .unencoded, some .notDeprecated,
    [⟨"ChatData", .single, 0, [⟨"FromName", .variable, 1⟩, ⟨"SourceID", .uuid, 16⟩, ⟨"OwnerID", .uuid, 16⟩, ⟨"SourceType", .u8, 1⟩, ⟨"ChatType", .u8, 1⟩, ⟨"Audible", .u8, 1⟩, ⟨"Position", .vector3, 12⟩, ⟨"Message", .variable, 2⟩]⟩]⟩

theorem p154 : ChunkOk c154 r154 := by intro v older; kernel_rfl
theorem k154 : r154.known = some t154 := by kernel_rfl
theorem n154 : t154.name = String.ofList ['C', 'h', 'a', 't', 'F', 'r', 'o', 'm', 'S', 'i', 'm', 'u', 'l', 'a', 't', 'o', 'r'] := by kernel_rfl

/-- The names of the blocks and variables of `ChatFromSimulator`. -/
def b154 : List (List Char × List (List Char)) :=
  [(['C', 'h', 'a', 't', 'D', 'a', 't', 'a'], [['F', 'r', 'o', 'm', 'N', 'a', 'm', 'e'], ['S', 'o', 'u', 'r', 'c', 'e', 'I', 'D'], ['O', 'w', 'n', 'e', 'r', 'I', 'D'], ['S', 'o', 'u', 'r', 'c', 'e', 'T', 'y', 'p', 'e'], ['C', 'h', 'a', 't', 'T', 'y', 'p', 'e'], ['A', 'u', 'd', 'i', 'b', 'l', 'e'], ['P', 'o', 's', 'i', 't', 'i', 'o', 'n'], ['M', 'e', 's', 's', 'a', 'g', 'e']])]

theorem w154 : Checked t154 := ⟨b154, by kernel_rfl, by kernel_rfl, by kernel_rfl⟩

/-- Lines of `message_template.msg` up to the end of `SimStats`. -/
def c155 : List (List Char) :=
  [chars! "",
   chars! "",
   chars! "// Simulator statistics packet (goes out to viewer and dataserver/spaceserver)",
   chars! "{",
   chars! "\tSimStats Low 140 Trusted Unencoded",
   chars! "\t{",
   chars! "\t\tRegion Single",
   chars! "\t\t{\tRegionX\t\t\t\tU32\t\t\t\t}",
   chars! "\t\t{\tRegionY\t\t\t\tU32\t\t\t\t}",
   chars! "\t\t{\tRegionFlags\t\t\tU32\t\t\t\t}",
   chars! "\t\t{\tObjectCapacity\t\tU32\t\t\t\t}",
   chars! "\t}",
   chars! "\t{",
   chars! "\t\tStat\tVariable",
   chars! "\t\t{\tStatID\t\tU32\t}",
   chars! "\t\t{\tStatValue\tF32\t}",
   chars! "\t}",
   chars! "\t{",
   chars! "\t\tPidStat Single",
   chars! "\t\t{\tPID\t\t\t\t\tS32\t\t\t\t}",
   chars! "\t}",
   chars! "}"]

/-- `SimStats` as the parser creates it. -/
def r155 : RawTemplate :=
  ⟨"SimStats", .low, 140, [255, 255, 140], some .trusted, some .unencoded, some .notDeprecated,
    [⟨"PidStat", .single, 0, [⟨"PID", some .s32, some 4⟩]⟩,
     ⟨"Stat", .variable, 0, [⟨"StatValue", some .f32, some 4⟩, ⟨"StatID", some .u32, some 4⟩]⟩,
     ⟨"Region", .single, 0, [⟨"ObjectCapacity", some .u32, some 4⟩, ⟨"RegionFlags", some .u32, some 4⟩, ⟨"RegionY", some .u32, some 4⟩, ⟨"RegionX", some .u32, some 4⟩]⟩]⟩

/-- `SimStats` in file order. -/
def t155 : Template :=
  ⟨"SimStats", .low, 140, [], some .trusted, some .unencoded, some .notDeprecated,
    [⟨"Region", .single, 0, [⟨"RegionX", .u32, 4⟩, ⟨"RegionY", .u32, 4⟩, ⟨"RegionFlags", .u32, 4⟩, ⟨"ObjectCapacity", .u32, 4⟩]⟩,
     ⟨"Stat", .variable, 0, [⟨"StatID", .u32, 4⟩, ⟨"StatValue", .f32, 4⟩]⟩,
     ⟨"PidStat", .single, 0, [⟨"PID", .s32, 4⟩]⟩]⟩

theorem p155 : ChunkOk c155 r155 := by intro v older; kernel_rfl
theorem k155 : r155.known = some t155 := by kernel_rfl
theorem n155 : t155.name = String.ofList ['S', 'i', 'm', 'S', 't', 'a', 't', 's'] := by kernel_rfl

/-- The names of the blocks and variables of `SimStats`. -/
def b155 : List (List Char × List (List Char)) :=
  [(['R', 'e', 'g', 'i', 'o', 'n'], [['R', 'e', 'g', 'i', 'o', 'n', 'X'], ['R', 'e', 'g', 'i', 'o', 'n', 'Y'], ['R', 'e', 'g', 'i', 'o', 'n', 'F', 'l', 'a', 'g', 's'], ['O', 'b', 'j', 'e', 'c', 't', 'C', 'a', 'p', 'a', 'c', 'i', 't', 'y']]),
   (['S', 't', 'a', 't'], [['S', 't', 'a', 't', 'I', 'D'], ['S', 't', 'a', 't', 'V', 'a', 'l', 'u', 'e']]),
   (['P', 'i', 'd', 'S', 't', 'a', 't'], [['P', 'I', 'D']])]

theorem w155 : Checked t155 := ⟨b155, by kernel_rfl, by kernel_rfl, by kernel_rfl⟩

/-- Lines of `message_template.msg` up to the end of `RequestRegionInfo`. -/
def c156 : List (List Char) :=
  [chars! "",
   chars! "// viewer -> sim",
   chars! "// reliable",
   chars! "{",
   chars! "\tRequestRegionInfo Low 141 NotTrusted Unencoded",
   chars! "\t{",
   chars! "\t\tAgentData\tSingle",
   chars! "\t\t{\tAgentID\t\t\tLLUUID\t\t\t}",
   chars! "\t\t{\tSessionID\t\tLLUUID\t\t\t}",
   chars! "\t}",
   chars! "}"]

/-- `RequestRegionInfo` as the parser creates it. -/
def r156 : RawTemplate :=
  ⟨"RequestRegionInfo", .low, 141, [255, 255, 141], some .notTrusted, some .unencoded, some .notDeprecated,
    [⟨"AgentData", .single, 0, [⟨"SessionID", some .uuid, some 16⟩, ⟨"AgentID", some .uuid, some 16⟩]⟩]⟩

/-- `RequestRegionInfo` in file order. -/
def t156 : Template :=
  ⟨"RequestRegionInfo", .low, 141, [], some .notTrusted, some .unencoded, some .notDeprecated,
    [⟨"AgentData", .single, 0, [⟨"AgentID", .uuid, 16⟩, ⟨"SessionID", .uuid, 16⟩]⟩]⟩

theorem p156 : ChunkOk c156 r156 := by intro v older; kernel_rfl
theorem k156 : r156.known = some t156 := by kernel_rfl
theorem n156 : t156.name = String.ofList ['R', 'e', 'q', 'u', 'e', 's', 't', 'R', 'e', 'g', 'i', 'o', 'n', 'I', 'n', 'f', 'o'] := by kernel_rfl

/-- The names of the blocks and variables of `RequestRegionInfo`. -/
def b156 : List (List Char × List (List Char)) :=
  [(['A', 'g', 'e', 'n', 't', 'D', 'a', 't', 'a'], [['A', 'g', 'e', 'n', 't', 'I', 'D'], ['S', 'e', 's', 's', 'i', 'o', 'n', 'I', 'D']])]

theorem w156 : Checked t156 := ⟨b156, by kernel_rfl, by kernel_rfl, by kernel_rfl⟩

/-- Lines of `message_template.msg` up to the end of `RegionInfo`. -/
def c157 : List (List Char) :=
  [chars! "",
   chars! "// RegionInfo",
   chars! "// Used to populate UI for both region/estate floater",
   chars! "// and god tools floater",
   chars! "// sim -> viewer",
   chars! "// reliable",
   chars! "{",
   chars! "\tRegionInfo Low 142 NotTrusted Zerocoded",
   chars! "\t{",
   chars! "\t\tAgentData\tSingle",
   chars! "\t\t{\tAgentID\t\t\tLLUUID\t\t\t}",
   chars! "\t\t{\tSessionID\t\tLLUUID\t\t\t}",
   chars! "\t}",
   chars! "\t{",
   chars! "\t\tRegionInfo\tSingle",
   chars! "\t\t{\tSimName\t\t\tVariable\t1\t}\t// string",
   chars! "\t\t{\tEstateID\t\tU32\t\t\t\t}",
   chars! "\t\t{\tParentEstateID\tU32\t\t\t\t}",
   chars! "\t\t{\tRegionFlags\t\tU32\t\t\t\t}",
   chars! "\t\t{\tSimAccess\t\tU8\t\t\t\t}",
   chars! "\t\t{\tMaxAgents\t\tU8\t\t\t\t}",
   chars! "\t\t{\tBillableFactor\t\tF32\t\t\t}",
   chars! "\t\t{\tObjectBonusFactor \tF32\t\t\t}",
   chars! "\t\t{\tWaterHeight\t\t\tF32\t\t\t}",
   chars! "\t\t{   TerrainRaiseLimit\tF32 \t\t}",
   chars! "\t\t{\tTerrainLowerLimit\tF32 \t\t}",
   chars! "\t\t{\tPricePerMeter \t\tS32\t\t\t}",
   chars! "\t\t{\tRedirectGridX \t\tS32\t\t\t}",
   chars! "\t\t{\tRedirectGridY \t\tS32\t\t\t}",
   chars! "\t\t{\tUseEstateSun\t\tBOOL\t\t}",
   chars! "\t\t{\tSunHour\t\t\t\tF32\t\t\t}\t// last value set by estate or region controls JC",
   chars! "\t}",
   chars! "\t{",
   chars! "\t\tRegionInfo2\t\tSingle",
   chars! "\t\t{\tProductSKU\t\t\tVariable 1\t}\t// string",
   chars! "\t\t{\tProductName\t\t\tVariable 1\t}\t// string",
   chars! "\t\t{\tMaxAgents32\t\t\tU32\t\t\t}\t// Identical to RegionInfo.MaxAgents but allows greater range",
   chars! "\t\t{\tHardMaxAgents\t\tU32\t\t\t}",
   chars! "\t\t{\tHardMaxObjects\t\tU32\t\t\t}",
   chars! "\t}",
   chars! "}"]

/-- `RegionInfo` as the parser creates it. -/
def r157 : RawTemplate :=
  ⟨"RegionInfo", .low, 142, [255, 255, 142], some .notTrusted, some .zerocoded, some .notDeprecated,
    [⟨"RegionInfo2", .single, 0, [⟨"HardMaxObjects", some .u32, some 4⟩, ⟨"HardMaxAgents", some .u32, some 4⟩, ⟨"MaxAgents32", some .u32, some 4⟩, ⟨"ProductName", some .variable, some 1⟩, ⟨"ProductSKU", some .variable, some 1⟩]⟩,
     ⟨"RegionInfo", .single, 0, [⟨"SunHour", some .f32, some 4⟩, ⟨"UseEstateSun", some .bool, some 1⟩, ⟨"RedirectGridY", some .s32, some 4⟩, ⟨"RedirectGridX", some .s32, some 4⟩, ⟨"PricePerMeter", some .s32, some 4⟩, ⟨"TerrainLowerLimit", some .f32, some 4⟩, ⟨"TerrainRaiseLimit", some .f32, some 4⟩, ⟨"WaterHeight", some .f32, some 4⟩, ⟨"ObjectBonusFactor", some .f32, some 4⟩, ⟨"BillableFactor", some .f32, some 4⟩, ⟨"MaxAgents", some .u8, some 1⟩, ⟨"SimAccess", some .u8, some 1⟩, ⟨"RegionFlags", some .u32, some 4⟩, ⟨"ParentEstateID", some .u32, some 4⟩, ⟨"EstateID", some .u32, some 4⟩, ⟨"SimName", some .variable, some 1⟩]⟩,
     ⟨"AgentData", .single, 0, [⟨"SessionID", some .uuid, some 16⟩, ⟨"AgentID", some .uuid, some 16⟩]⟩]⟩

/-- `RegionInfo` in file order. -/
def t157 : Template :=
  ⟨"RegionInfo", .low, 142, [], some .notTrusted, some .zerocoded, some .notDeprecated,
    [⟨"AgentData", .single, 0, [⟨"AgentID", .uuid, 16⟩, ⟨"SessionID", .uuid, 16⟩]⟩,
     ⟨"RegionInfo", .single, 0, [⟨"SimName", .variable, 1⟩, ⟨"EstateID", .u32, 4⟩, ⟨"ParentEstateID", .u32, 4⟩, ⟨"RegionFlags", .u32, 4⟩, ⟨"SimAccess", .u8, 1⟩, ⟨"MaxAgents", .u8, 1⟩, ⟨"BillableFactor", .f32, 4⟩, ⟨"ObjectBonusFactor", .f32, 4⟩, ⟨"WaterHeight", .f32, 4⟩, ⟨"TerrainRaiseLimit", .f32, 4⟩, ⟨"TerrainLowerLimit", .f32, 4⟩, ⟨"PricePerMeter", .s32, 4⟩, ⟨"RedirectGridX", .s32, 4⟩, ⟨"RedirectGridY", .s32, 4⟩, ⟨"UseEstateSun", .bool, 1⟩, ⟨"SunHour", .f32, 4⟩]⟩,
     ⟨"RegionInfo2", .single, 0, [⟨"ProductSKU", .variable, 1⟩, ⟨"ProductName", .variable, 1⟩, ⟨"MaxAgents32", .u32, 4⟩, ⟨"HardMaxAgents", .u32, 4⟩, ⟨"HardMaxObjects", .u32, 4⟩]⟩]⟩

theorem p157 : ChunkOk c157 r157 := by intro v older; kernel_rfl
theorem k157 : r157.known = some t157 := by kernel_rfl
theorem n157 : t157.name = String.ofList ['R', 'e', 'g', 'i', 'o', 'n', 'I', 'n', 'f', 'o'] := by kernel_rfl

/-- The names of the blocks and variables of `RegionInfo`. -/
def b157 : List (List Char × List (List Char)) :=
  [(['A', 'g', 'e', 'n', 't', 'D', 'a', 't', 'a'], [['A', 'g', 'e', 'n', 't', 'I', 'D'], ['S', 'e', 's', 's', 'i', 'o', 'n', 'I', 'D']]),
   (['R', 'e', 'g', 'i', 'o', 'n', 'I', 'n', 'f', 'o'], [['S', 'i', 'm', 'N', 'a', 'm', 'e'], ['E', 's', 't', 'a', 't', 'e', 'I', 'D'], ['P', 'a', 'r', 'e', 'n', 't', 'E', 's', 't', 'a', 't', 'e', 'I', 'D'], ['R', 'e', 'g', 'i', 'o', 'n', 'F', 'l', 'a', 'g', 's'], ['S', 'i', 'm', 'A', 'c', 'c', 'e', 's', 's'], ['M', 'a', 'x', 'A', 'g', 'e', 'n', 't', 's'], ['B', 'i', 'l', 'l', 'a', 'b', 'l', 'e', 'F', 'a', 'c', 't', 'o', 'r'], ['O', 'b', 'j', 'e', 'c', 't', 'B', 'o', 'n', 'u', 's', 'F', 'a', 'c', 't', 'o', 'r'], ['W', 'a', 't', 'e', 'r', 'H', 'e', 'i', 'g', 'h', 't'], ['T', 'e', 'r', 'r', 'a', 'i', 'n', 'R', 'a', 'i', 's', 'e', 'L', 'i', 'm', 'i', 't'], ['T', 'e', 'r', 'r', 'a', 'i', 'n', 'L', 'o', 'w', 'e', 'r', 'L', 'i', 'm', 'i', 't'], ['P', 'r', 'i', 'c', 'e', 'P', 'e', 'r', 'M', 'e', 't', 'e', 'r'], ['R', 'e', 'd', 'i', 'r', 'e', 'c', 't', 'G', 'r', 'i', 'd', 'X'], ['R', 'e', 'd', 'i', 'r', 'e', 'c', 't', 'G', 'r', 'i', 'd', 'Y'], ['U', 's', 'e', 'E', 's', 't', 'a', 't', 'e', 'S', 'u', 'n'], ['S', 'u', 'n', 'H', 'o', 'u', 'r']]),
   (['R', 'e', 'g', 'i', 'o', 'n', 'I', 'n', 'f', 'o', '2'], [['P', 'r', 'o', 'd', 'u', 'c', 't', 'S', 'K', 'U'], ['P', 'r', 'o', 'd', 'u', 'c', 't', 'N', 'a', 'm', 'e'], ['M', 'a', 'x', 'A', 'g', 'e', 'n', 't', 's', '3', '2'], ['H', 'a', 'r', 'd', 'M', 'a', 'x', 'A', 'g', 'e', 'n', 't', 's'], ['H', 'a', 'r', 'd', 'M', 'a', 'x', 'O', 'b', 'j', 'e', 'c', 't', 's']])]

theorem w157 : Checked t157 := ⟨b157, by kernel_rfl, by kernel_rfl, by kernel_rfl⟩

/-- Lines of `message_template.msg` up to the end of `GodUpdateRegionInfo`. -/
def c158 : List (List Char) :=
  [chars! "",
   chars! "// GodUpdateRegionInfo",
   chars! "// Sent from viewer to sim after a god has changed some",
   chars! "// of the parameters in the god tools floater",
   chars! "// viewer -> sim",
   chars! "// reliable",
   chars! "{",
   chars! "\tGodUpdateRegionInfo Low 143 NotTrusted Zerocoded",
   chars! "\t{",
   chars! "\t\tAgentData\tSingle",
   chars! "\t\t{\tAgentID\t\t\tLLUUID\t\t\t}",
   chars! "\t\t{\tSessionID\t\tLLUUID\t\t\t}",
   chars! "\t}",
   chars! "\t{",
   chars! "\t\tRegionInfo\tSingle",
   chars! "\t\t{\tSimName\t\t\tVariable\t1\t}\t// string",
   chars! "\t\t{\tEstateID\t\tU32\t\t\t\t}",
   chars! "\t\t{\tParentEstateID\tU32\t\t\t\t}",
   chars! "\t\t{\tRegionFlags\t\tU32\t\t\t\t}",
   chars! "\t\t{\tBillableFactor\t\tF32\t\t\t}",
   chars! "\t\t{\tPricePerMeter \t\tS32\t\t\t}",
   chars! "\t\t{\tRedirectGridX \t\tS32\t\t\t}",
   chars! "\t\t{\tRedirectGridY \t\tS32\t\t\t}",
   chars! "\t}",
   chars! "}"]

/-- `GodUpdateRegionInfo` as the parser creates it. -/
def r158 : RawTemplate :=
  ⟨"GodUpdateRegionInfo", .low, 143, [255, 255, 143], some .notTrusted, some .zerocoded, some .notDeprecated,
    [⟨"RegionInfo", .single, 0, [⟨"RedirectGridY", some .s32, some 4⟩, ⟨"RedirectGridX", some .s32, some 4⟩, ⟨"PricePerMeter", some .s32, some 4⟩, ⟨"BillableFactor", some .f32, some 4⟩, ⟨"RegionFlags", some .u32, some 4⟩, ⟨"ParentEstateID", some .u32, some 4⟩, ⟨"EstateID", some .u32, some 4⟩, ⟨"SimName", some .variable, some 1⟩]⟩,
     ⟨"AgentData", .single, 0, [⟨"SessionID", some .uuid, some 16⟩, ⟨"AgentID", some .uuid, some 16⟩]⟩]⟩

/-- `GodUpdateRegionInfo` in file order. -/
def t158 : Template :=
  ⟨"GodUpdateRegionInfo", .low, 143, [], some .notTrusted, some .zerocoded, some .notDeprecated,
    [⟨"AgentData", .single, 0, [⟨"AgentID", .uuid, 16⟩, ⟨"SessionID", .uuid, 16⟩]⟩,
     ⟨"RegionInfo", .single, 0, [⟨"SimName", .variable, 1⟩, ⟨"EstateID", .u32, 4⟩, ⟨"ParentEstateID", .u32, 4⟩, ⟨"RegionFlags", .u32, 4⟩, ⟨"BillableFactor", .f32, 4⟩, ⟨"PricePerMeter", .s32, 4⟩, ⟨"RedirectGridX", .s32, 4⟩, ⟨"RedirectGridY", .s32, 4⟩]⟩]⟩

theorem p158 : ChunkOk c158 r158 := by intro v older; kernel_rfl
theorem k158 : r158.known = some t158 := by kernel_rfl
theorem n158 : t158.name = String.ofList ['G', 'o', 'd', 'U', 'p', 'd', 'a', 't', 'e', 'R', 'e', 'g', 'i', 'o', 'n', 'I', 'n', 'f', 'o'] := by kernel_rfl

/-- The names of the blocks and variables of `GodUpdateRegionInfo`. -/
def b158 : List (List Char × List (List Char)) :=
  [(['A', 'g', 'e', 'n', 't', 'D', 'a', 't', 'a'], [['A', 'g', 'e', 'n', 't', 'I', 'D'], ['S', 'e', 's', 's', 'i', 'o', 'n', 'I', 'D']]),
   (['R', 'e', 'g', 'i', 'o', 'n', 'I', 'n', 'f', 'o'], [['S', 'i', 'm', 'N', 'a', 'm', 'e'], ['E', 's', 't', 'a', 't', 'e', 'I', 'D'], ['P', 'a', 'r', 'e', 'n', 't', 'E', 's', 't', 'a', 't', 'e', 'I', 'D'], ['R', 'e', 'g', 'i', 'o', 'n', 'F', 'l', 'a', 'g', 's'], ['B', 'i', 'l', 'l', 'a', 'b', 'l', 'e', 'F', 'a', 'c', 't', 'o', 'r'], ['P', 'r', 'i', 'c', 'e', 'P', 'e', 'r', 'M', 'e', 't', 'e', 'r'], ['R', 'e', 'd', 'i', 'r', 'e', 'c', 't', 'G', 'r', 'i', 'd', 'X'], ['R', 'e', 'd', 'i', 'r', 'e', 'c', 't', 'G', 'r', 'i', 'd', 'Y']])]

theorem w158 : Checked t158 := ⟨b158, by kernel_rfl, by kernel_rfl, by kernel_rfl⟩

/-- Lines of `message_template.msg` up to the end of `NearestLandingRegionRequest`. -/
def c159 : List (List Char) :=
  [chars! "",
   chars! "//NearestLandingRegionRequest",
   chars! "//sim->dataserver",
   chars! "//Sent from the region to the data server",
   chars! "//to request the most up to date region for the requesting",
   chars! "//region to redirect teleports to",
   chars! "{",
   chars! "\tNearestLandingRegionRequest Low 144 Trusted Unencoded",
   chars! "\t{",
   chars! "\t\tRequestingRegionData Single",
   chars! "\t\t{\tRegionHandle \t\tU64\t\t\t}",
   chars! "\t}",
   chars! "}"]

/-- `NearestLandingRegionRequest` as the parser creates it. -/
def r159 : RawTemplate :=
  ⟨"NearestLandingRegionRequest", .low, 144, [255, 255, 144], some .trusted, some .unencoded, some .notDeprecated,
    [⟨"RequestingRegionData", .single, 0, [⟨"RegionHandle", some .u64, some 8⟩]⟩]⟩

/-- `NearestLandingRegionRequest` in file order. -/
def t159 : Template :=
  ⟨"NearestLandingRegionRequest", .low, 144, [], some .trusted, some .unencoded, some .notDeprecated,
    [⟨"RequestingRegionData", .single, 0, [⟨"RegionHandle", .u64, 8⟩]⟩]⟩

theorem p159 : ChunkOk c159 r159 := by intro v older; kernel_rfl
theorem k159 : r159.known = some t159 := by kernel_rfl
theorem n159 : t159.name = String.ofList ['N', 'e', 'a', 'r', 'e', 's', 't', 'L', 'a', 'n', 'd', 'i', 'n', 'g', 'R', 'e', 'g', 'i', 'o', 'n', 'R', 'e', 'q', 'u', 'e', 's', 't'] := by kernel_rfl

/-- The names of the blocks and variables of `NearestLandingRegionRequest`. -/
def b159 : List (List Char × List (List Char)) :=
  [(['R', 'e', 'q', 'u', 'e', 's', 't', 'i', 'n', 'g', 'R', 'e', 'g', 'i', 'o', 'n', 'D', 'a', 't', 'a'], [['R', 'e', 'g', 'i', 'o', 'n', 'H', 'a', 'n', 'd', 'l', 'e']])]

theorem w159 : Checked t159 := ⟨b159, by kernel_rfl, by kernel_rfl, by kernel_rfl⟩

/-- Lines of `message_template.msg` up to the end of `NearestLandingRegionReply`. -/
def c160 : List (List Char) :=
  [chars! "",
   chars! "//NearestLandingPointReply",
   chars! "//dataserver->sim",
   chars! "//Sent from the data server to a region in reply",
   chars! "//to the redirectregion request stating which region",
   chars! "//the requesting region should redirect teleports to if necessary",
   chars! "{",
   chars! "\tNearestLandingRegionReply Low 145 Trusted Unencoded",
   chars! "\t{",
   chars! "\t\tLandingRegionData Single",
   chars! "\t\t{\tRegionHandle\t\tU64\t\t\t}",
   chars! "\t}",
   chars! "}"]

/-- `NearestLandingRegionReply` as the parser creates it. -/
def r160 : RawTemplate :=
  ⟨"NearestLandingRegionReply", .low, 145, [255, 255, 145], some .trusted, some .unencoded, some .notDeprecated,
    [⟨"LandingRegionData", .single, 0, [⟨"RegionHandle", some .u64, some 8⟩]⟩]⟩

/-- `NearestLandingRegionReply` in file order. -/
def t160 : Template :=
  ⟨"NearestLandingRegionReply", .low, 145, [], some .trusted, some .unencoded, some .notDeprecated,
    [⟨"LandingRegionData", .single, 0, [⟨"RegionHandle", .u64, 8⟩]⟩]⟩

theorem p160 : ChunkOk c160 r160 := by intro v older; kernel_rfl
theorem k160 : r160.known = some t160 := by kernel_rfl
theorem n160 : t160.name = String.ofList ['N', 'e', 'a', 'r', 'e', 's', 't', 'L', 'a', 'n', 'd', 'i', 'n', 'g', 'R', 'e', 'g', 'i', 'o', 'n', 'R', 'e', 'p', 'l', 'y'] := by kernel_rfl

/-- The names of the blocks and variables of `NearestLandingRegionReply`. -/
def b160 : List (List Char × List (List Char)) :=
  [(['L', 'a', 'n', 'd', 'i', 'n', 'g', 'R', 'e', 'g', 'i', 'o', 'n', 'D', 'a', 't', 'a'], [['R', 'e', 'g', 'i', 'o', 'n', 'H', 'a', 'n', 'd', 'l', 'e']])]

theorem w160 : Checked t160 := ⟨b160, by kernel_rfl, by kernel_rfl, by kernel_rfl⟩

/-- Lines of `message_template.msg` up to the end of `NearestLandingRegionUpdated`. -/
def c161 : List (List Char) :=
  [chars! "",
   chars! "//NearestLandingPointUpdated",
   chars! "//sim->dataserver",
   chars! "//Sent from a region to the data server",
   chars! "//to have the dataserver note/clear in the db",
   chars! "//that the region has updated it's nearest landing point",
   chars! "{",
   chars! "\tNearestLandingRegionUpdated Low 146 Trusted Unencoded",
   chars! "\t{",
   chars! "\t\tRegionData Single",
   chars! "\t\t{\tRegionHandle\t\tU64\t\t\t}",
   chars! "\t}",
   chars! "}"]

/-- `NearestLandingRegionUpdated` as the parser creates it. -/
def r161 : RawTemplate :=
  ⟨"NearestLandingRegionUpdated", .low, 146, [255, 255, 146], some .trusted, some .unencoded, some .notDeprecated,
    [⟨"RegionData", .single, 0, [⟨"RegionHandle", some .u64, some 8⟩]⟩]⟩

/-- `NearestLandingRegionUpdated` in file order. -/
def t161 : Template :=
  ⟨"NearestLandingRegionUpdated", .low, 146, [], some .trusted, some .unencoded, some .notDeprecated,
    [⟨"RegionData", .single, 0, [⟨"RegionHandle", .u64, 8⟩]⟩]⟩

theorem p161 : ChunkOk c161 r161 := by intro v older; kernel_rfl
theorem k161 : r161.known = some t161 := by kernel_rfl
theorem n161 : t161.name = String.ofList ['N', 'e', 'a', 'r', 'e', 's', 't', 'L', 'a', 'n', 'd', 'i', 'n', 'g', 'R', 'e', 'g', 'i', 'o', 'n', 'U', 'p', 'd', 'a', 't', 'e', 'd'] := by kernel_rfl

/-- The names of the blocks and variables of `NearestLandingRegionUpdated`. -/
def b161 : List (List Char × List (List Char)) :=
  [(['R', 'e', 'g', 'i', 'o', 'n', 'D', 'a', 't', 'a'], [['R', 'e', 'g', 'i', 'o', 'n', 'H', 'a', 'n', 'd', 'l', 'e']])]

theorem w161 : Checked t161 := ⟨b161, by kernel_rfl, by kernel_rfl, by kernel_rfl⟩

/-- Lines of `message_template.msg` up to the end of `TeleportLandingStatusChanged`. -/
def c162 : List (List Char) :=
  [chars! "",
   chars! "",
   chars! "//TeleportLandingStatusChanged",
   chars! "//sim->dataserver",
   chars! "//Sent from the region to the data server",
   chars! "//to note that the region's teleportation landing status has changed",
   chars! "{",
   chars! "\tTeleportLandingStatusChanged Low 147 Trusted Unencoded",
   chars! "\t{",
   chars! "\t\tRegionData Single",
   chars! "\t\t{\tRegionHandle\t\tU64\t\t\t}",
   chars! "\t}",
   chars! "}"]

/-- `TeleportLandingStatusChanged` as the parser creates it. -/
def r162 : RawTemplate :=
  ⟨"TeleportLandingStatusChanged", .low, 147, [255, 255, 147], some .trusted, some .unencoded, some .notDeprecated,
    [⟨"RegionData", .single, 0, [⟨"RegionHandle", some .u64, some 8⟩]⟩]⟩

/-- `TeleportLandingStatusChanged` in file order. -/
def t162 : Template :=
  ⟨"TeleportLandingStatusChanged", .low, 147, [], some .trusted, some .unencoded, some .notDeprecated,
    [⟨"RegionData", .single, 0, [⟨"RegionHandle", .u64, 8⟩]⟩]⟩

theorem p162 : ChunkOk c162 r162 := by intro v older; kernel_rfl
theorem k162 : r162.known = some t162 := by kernel_rfl
theorem n162 : t162.name = String.ofList ['T', 'e', 'l', 'e', 'p', 'o', 'r', 't', 'L', 'a', 'n', 'd', 'i', 'n', 'g', 'S', 't', 'a', 't', 'u', 's', 'C', 'h', 'a', 'n', 'g', 'e', 'd'] := by kernel_rfl

/-- The names of the blocks and variables of `TeleportLandingStatusChanged`. -/
def b162 : List (List Char × List (List Char)) :=
  [(['R', 'e', 'g', 'i', 'o', 'n', 'D', 'a', 't', 'a'], [['R', 'e', 'g', 'i', 'o', 'n', 'H', 'a', 'n', 'd', 'l', 'e']])]

theorem w162 : Checked t162 := ⟨b162, by kernel_rfl, by kernel_rfl, by kernel_rfl⟩

/-- Lines of `message_template.msg` up to the end of `RegionHandshake`. -/
def c163 : List (List Char) :=
  [chars! "",
   chars! "// RegionHandshake",
   chars! "// Sent by region to viewer after it has received UseCircuitCode",
   chars! "// from that viewer.",
   chars! "// sim -> viewer",
   chars! "// reliable",
   chars! "{",
   chars! "\tRegionHandshake\t\t\tLow\t148 \tTrusted Zerocoded",
   chars! "\t{",
   chars! "\t\tRegionInfo\tSingle",
   chars! "\t\t{\tRegionFlags\t\tU32\t}",
   chars! "\t\t{\tSimAccess\t\tU8\t}",
   chars! "\t\t{\tSimName\t\t\tVariable\t1\t} // string",
   chars! "\t\t{\tSimOwner\t\tLLUUID\t}",
   chars! "\t\t{\tIsEstateManager\tBOOL\t}\t// this agent, for this sim",
   chars! "\t\t{\tWaterHeight\t\tF32\t}",
   chars! "\t\t{\tBillableFactor\tF32\t}",
   chars! "\t\t{\tCacheID\t\t\tLLUUID }",
   chars! "\t\t{\tTerrainBase0\t\tLLUUID\t\t}",
   chars! "\t\t{\tTerrainBase1\t\tLLUUID\t\t}",
   chars! "\t\t{\tTerrainBase2\t\tLLUUID\t\t}",
   chars! "\t\t{\tTerrainBase3\t\tLLUUID\t\t}",
   chars! "\t\t{\tTerrainDetail0\t\tLLUUID\t\t}",
   chars! "\t\t{\tTerrainDetail1\t\tLLUUID\t\t}",
   chars! "\t\t{\tTerrainDetail2\t\tLLUUID\t\t}",
   chars! "\t\t{\tTerrainDetail3\t\tLLUUID\t\t}",
   chars! "\t\t{\tTerrainStartHeight00\tF32\t\t}",
   chars! "\t\t{\tTerrainStartHeight01\tF32\t\t}",
   chars! "\t\t{\tTerrainStartHeight10\tF32\t\t}",
   chars! "\t\t{\tTerrainStartHeight11\tF32\t\t}",
   chars! "\t\t{\tTerrainHeightRange00\tF32\t\t}",
   chars! "\t\t{\tTerrainHeightRange01\tF32\t\t}",
   chars! "\t\t{\tTerrainHeightRange10\tF32\t\t}",
   chars! "\t\t{\tTerrainHeightRange11\tF32\t\t}",
   chars! "\t}",
   chars! "\t{",
   chars! "\t\tRegionInfo2\tSingle",
   chars! "\t\t{\tRegionID\t\tLLUUID\t}",
   chars! "\t}",
   chars! "\t{",
   chars! "\t\tRegionInfo3\tSingle",
   chars! "\t\t{\tCPUClassID\t\t\t\tS32\t\t}",
   chars! "\t\t{\tCPURatio\t\t\t\tS32\t\t}",
   chars! "\t\t{\tColoName\t\t\t\tVariable\t1\t}\t// string",
   chars! "\t\t{\tProductSKU\t\t\t\tVariable\t1\t}\t// string",
   chars! "\t\t{\tProductName\t\t\t\tVariable\t1\t}\t// string",
   chars! "\t}",
   chars! "}"]

/-- `RegionHandshake` as the parser creates it. -/
def r163 : RawTemplate :=
  ⟨"RegionHandshake", .low, 148, [255, 255, 148], some .trusted, some .zerocoded, some .notDeprecated,
    [⟨"RegionInfo3", .single, 0, [⟨"ProductName", some .variable, some 1⟩, ⟨"ProductSKU", some .variable, some 1⟩, ⟨"ColoName", some .variable, some 1⟩, ⟨"CPURatio", some .s32, some 4⟩, ⟨"CPUClassID", some .s32, some 4⟩]⟩,
     ⟨"RegionInfo2", .single, 0, [⟨"RegionID", some .uuid, some 16⟩]⟩,
     ⟨"RegionInfo", .single, 0, [⟨"TerrainHeightRange11", some .f32, some 4⟩, ⟨"TerrainHeightRange10", some .f32, some 4⟩, ⟨"TerrainHeightRange01", some .f32, some 4⟩, ⟨"TerrainHeightRange00", some .f32, some 4⟩, ⟨"TerrainStartHeight11", some .f32, some 4⟩, ⟨"TerrainStartHeight10", some .f32, some 4⟩, ⟨"TerrainStartHeight01", some .f32, some 4⟩, ⟨"TerrainStartHeight00", some .f32, some 4⟩, ⟨"TerrainDetail3", some .uuid, some 16⟩, ⟨"TerrainDetail2", some .uuid, some 16⟩, ⟨"TerrainDetail1", some .uuid, some 16⟩, ⟨"TerrainDetail0", some .uuid, some 16⟩, ⟨"TerrainBase3", some .uuid, some 16⟩, ⟨"TerrainBase2", some .uuid, some 16⟩, ⟨"TerrainBase1", some .uuid, some 16⟩, ⟨"TerrainBase0", some .uuid, some 16⟩, ⟨"CacheID", some .uuid, some 16⟩, ⟨"BillableFactor", some .f32, some 4⟩, ⟨"WaterHeight", some .f32, some 4⟩, ⟨"IsEstateManager", some .bool, some 1⟩, ⟨"SimOwner", some .uuid, some 16⟩, ⟨"SimName", some .variable, some 1⟩, ⟨"SimAccess", some .u8, some 1⟩, ⟨"RegionFlags", some .u32, some 4⟩]⟩]⟩

/-- `RegionHandshake` in file order. -/
def t163 : Template :=
  ⟨"RegionHandshake", .low, 148, [], some .trusted, some .zerocoded, some .notDeprecated,
    [⟨"RegionInfo", .single, 0, [⟨"RegionFlags", .u32, 4⟩, ⟨"SimAccess", .u8, 1⟩, ⟨"SimName", .variable, 1⟩, ⟨"SimOwner", .uuid, 16⟩, ⟨"IsEstateManager", .bool, 1⟩, ⟨"WaterHeight", .f32, 4⟩, ⟨"BillableFactor", .f32, 4⟩, ⟨"CacheID", .uuid, 16⟩, ⟨"TerrainBase0", .uuid, 16⟩, ⟨"TerrainBase1", .uuid, 16⟩, ⟨"TerrainBase2", .uuid, 16⟩, ⟨"TerrainBase3", .uuid, 16⟩, ⟨"TerrainDetail0", .uuid, 16⟩, ⟨"TerrainDetail1", .uuid, 16⟩, ⟨"TerrainDetail2", .uuid, 16⟩, ⟨"TerrainDetail3", .uuid, 16⟩, ⟨"TerrainStartHeight00", .f32, 4⟩, ⟨"TerrainStartHeight01", .f32, 4⟩, ⟨"TerrainStartHeight10", .f32, 4⟩, ⟨"TerrainStartHeight11", .f32, 4⟩, ⟨"TerrainHeightRange00", .f32, 4⟩, ⟨"TerrainHeightRange01", .f32, 4⟩, ⟨"TerrainHeightRange10", .f32, 4⟩, ⟨"TerrainHeightRange11", .f32, 4⟩]⟩,
     ⟨"RegionInfo2", .single, 0, [⟨"RegionID", .uuid, 16⟩]⟩,
     ⟨"RegionInfo3", .single, 0, [⟨"CPUClassID", .s32, 4⟩, ⟨"CPURatio", .s32, 4⟩, ⟨"ColoName", .variable, 1⟩, ⟨"ProductSKU", .variable, 1⟩, ⟨"ProductName", .variable, 1⟩]⟩]⟩

theorem p163 : ChunkOk c163 r163 := by intro v older; kernel_rfl
theorem k163 : r163.known = some t163 := by kernel_rfl
theorem n163 : t163.name = String.ofList ['R', 'e', 'g', 'i', 'o', 'n', 'H', 'a', 'n', 'd', 's', 'h', 'a', 'k', 'e'] := by kernel_rfl

/-- The names of the blocks and variables of `RegionHandshake`. -/
def b163 : List (List Char × List (List Char)) :=
  [(['R', 'e', 'g', 'i', 'o', 'n', 'I', 'n', 'f', 'o'], [['R', 'e', 'g', 'i', 'o', 'n', 'F', 'l', 'a', 'g', 's'], ['S', 'i', 'm', 'A', 'c', 'c', 'e', 's', 's'], ['S', 'i', 'm', 'N', 'a', 'm', 'e'], ['S', 'i', 'm', 'O', 'w', 'n', 'e', 'r'], ['I', 's', 'E', 's', 't', 'a', 't', 'e', 'M', 'a', 'n', 'a', 'g', 'e', 'r'], ['W', 'a', 't', 'e', 'r', 'H', 'e', 'i', 'g', 'h', 't'], ['B', 'i', 'l', 'l', 'a', 'b', 'l', 'e', 'F', 'a', 'c', 't', 'o', 'r'], ['C', 'a', 'c', 'h', 'e', 'I', 'D'], ['T', 'e', 'r', 'r', 'a', 'i', 'n', 'B', 'a', 's', 'e', '0'], ['T', 'e', 'r', 'r', 'a', 'i', 'n', 'B', 'a', 's', 'e', '1'], ['T', 'e', 'r', 'r', 'a', 'i', 'n', 'B', 'a', 's', 'e', '2'], ['T', 'e', 'r', 'r', 'a', 'i', 'n', 'B', 'a', 's', 'e', '3'], ['T', 'e', 'r', 'r', 'a', 'i', 'n', 'D', 'e', 't', 'a', 'i', 'l', '0'], ['T', 'e', 'r', 'r', 'a', 'i', 'n', 'D', 'e', 't', 'a', 'i', 'l', '1'], ['T', 'e', 'r', 'r', 'a', 'i', 'n', 'D', 'e', 't', 'a', 'i', 'l', '2'], ['T', 'e', 'r', 'r', 'a', 'i', 'n', 'D', 'e', 't', 'a', 'i', 'l', '3'], ['T', 'e', 'r', 'r', 'a', 'i', 'n', 'S', 't', 'a', 'r', 't', 'H', 'e', 'i', 'g', 'h', 't', '0', '0'], ['T', 'e', 'r', 'r', 'a', 'i', 'n', 'S', 't', 'a', 'r', 't', 'H', 'e', 'i', 'g', 'h', 't', '0', '1'], ['T', 'e', 'r', 'r', 'a', 'i', 'n', 'S', 't', 'a', 'r', 't', 'H', 'e', 'i', 'g', 'h', 't', '1', '0'], ['T', 'e', 'r', 'r', 'a', 'i', 'n', 'S', 't', 'a', 'r', 't', 'H', 'e', 'i', 'g', 'h', 't', '1', '1'], ['T', 'e', 'r', 'r', 'a', 'i', 'n', 'H', 'e', 'i', 'g', 'h', 't', 'R', 'a', 'n', 'g', 'e', '0', '0'], ['T', 'e', 'r', 'r', 'a', 'i', 'n', 'H', 'e', 'i', 'g', 'h', 't', 'R', 'a', 'n', 'g', 'e', '0', '1'], ['T', 'e', 'r', 'r', 'a', 'i', 'n', 'H', 'e', 'i', 'g', 'h', 't', 'R', 'a', 'n', 'g', 'e', '1', '0'], ['T', 'e', 'r', 'r', 'a', 'i', 'n', 'H', 'e', 'i', 'g', 'h', 't', 'R', 'a', 'n', 'g', 'e', '1', '1']]),
   (['R', 'e', 'g', 'i', 'o', 'n', 'I', 'n', 'f', 'o', '2'], [['R', 'e', 'g', 'i', 'o', 'n', 'I', 'D']]),
   (['R', 'e', 'g', 'i', 'o', 'n', 'I', 'n', 'f', 'o', '3'], [['C', 'P', 'U', 'C', 'l', 'a', 's', 's', 'I', 'D'], ['C', 'P', 'U', 'R', 'a', 't', 'i', 'o'], ['C', 'o', 'l', 'o', 'N', 'a', 'm', 'e'], ['P', 'r', 'o', 'd', 'u', 'c', 't', 'S', 'K', 'U'], ['P', 'r', 'o', 'd', 'u', 'c', 't', 'N', 'a', 'm', 'e']])]

theorem w163 : Checked t163 := ⟨b163, by kernel_rfl, by kernel_rfl, by kernel_rfl⟩

/-- Lines of `message_template.msg` up to the end of `RegionHandshakeReply`. -/
def c164 : List (List Char) :=
  [chars! "",
   chars! "// RegionHandshakeReply",
   chars! "// viewer -> sim",
   chars! "// reliable",
   chars! "// Sent after viewer has initialized the (pre-existing)",
   chars! "// LLViewerRegion with the name, access level, etc. and",
   chars! "// has loaded the cache for the region.",
   chars! "// After the simulator receives this, it will start sending",
   chars! "// data about objects.",
   chars! "{",
   chars! "\tRegionHandshakeReply\t\t\tLow\t149 \tNotTrusted Zerocoded",
   chars! "\t{",
   chars! "\t\tAgentData\tSingle",
   chars! "\t\t{\tAgentID\t\t\tLLUUID\t\t\t}",
   chars! "\t\t{\tSessionID\t\tLLUUID\t\t\t}",
   chars! "\t}",
   chars! "\t{",
   chars! "\t\tRegionInfo\tSingle",
   chars! "\t\t{\tFlags\t\t\tU32\t\t}",
   chars! "\t}",
   chars! "}"]

/-- `RegionHandshakeReply` as the parser creates it. -/
def r164 : RawTemplate :=
  ⟨"RegionHandshakeReply", .low, 149, [255, 255, 149], some .notTrusted, some .zerocoded, some .notDeprecated,
    [⟨"RegionInfo", .single, 0, [⟨"Flags", some .u32, some 4⟩]⟩,
     ⟨"AgentData", .single, 0, [⟨"SessionID", some .uuid, some 16⟩, ⟨"AgentID", some .uuid, some 16⟩]⟩]⟩

/-- `RegionHandshakeReply` in file order. -/
def t164 : Template :=
  ⟨"RegionHandshakeReply", .low, 149, [], some .notTrusted, some .zerocoded, some .notDeprecated,
    [⟨"AgentData", .single, 0, [⟨"AgentID", .uuid, 16⟩, ⟨"SessionID", .uuid, 16⟩]⟩,
     ⟨"RegionInfo", .single, 0, [⟨"Flags", .u32, 4⟩]⟩]⟩

theorem p164 : ChunkOk c164 r164 := by intro v older; kernel_rfl
theorem k164 : r164.known = some t164 := by kernel_rfl
theorem n164 : t164.name = String.ofList ['R', 'e', 'g', 'i', 'o', 'n', 'H', 'a', 'n', 'd', 's', 'h', 'a', 'k', 'e', 'R', 'e', 'p', 'l', 'y'] := by kernel_rfl

/-- The names of the blocks and variables of `RegionHandshakeReply`. -/
def b164 : List (List Char × List (List Char)) :=
  [(['A', 'g', 'e', 'n', 't', 'D', 'a', 't', 'a'], [['A', 'g', 'e', 'n', 't', 'I', 'D'], ['S', 'e', 's', 's', 'i', 'o', 'n', 'I', 'D']]),
   (['R', 'e', 'g', 'i', 'o', 'n', 'I', 'n', 'f', 'o'], [['F', 'l', 'a', 'g', 's']])]

theorem w164 : Checked t164 := ⟨b164, by kernel_rfl, by kernel_rfl, by kernel_rfl⟩

/-- Lines of `message_template.msg` up to the end of `CoarseLocationUpdate`. -/
def c165 : List (List Char) :=
  [chars! "",
   chars! "// The CoarseLocationUpdate message is sent to notify the viewer of ",
   chars! "// the location of mappable objects in the region. 1 meter resolution is",
   chars! "// sufficient for this. The index block is used to show where you are, ",
   chars! "// and where someone you are tracking is located. They are -1 if not",
   chars! "// applicable.",
   chars! "{",
   chars! "\tCoarseLocationUpdate Medium 6 Trusted Unencoded",
   chars! "\t{",
   chars! "\t\tLocation\tVariable",
   chars! "\t\t{\tX\t\tU8\t}",
   chars! "\t\t{\tY\t\tU8\t}",
   chars! "\t\t{\tZ\t\tU8\t}\t// Z in meters / 4",
   chars! "\t}",
   chars! "\t{",
   chars! "\t\tIndex \t\tSingle",
   chars! "\t\t{\tYou\t\tS16\t}",
   chars! "\t\t{\tPrey\tS16\t}",
   chars! "\t}",
   chars! "    {",
   chars! "         AgentData       Variable",
   chars! "         {       AgentID                 LLUUID                  }",
   chars! "    }",
   chars! "}"]

/-- `CoarseLocationUpdate` as the parser creates it. -/
def r165 : RawTemplate :=
  ⟨"CoarseLocationUpdate", .medium, 6, [255, 6], some .trusted, some .unencoded, some .notDeprecated,
    [⟨"AgentData", .variable, 0, [⟨"AgentID", some .uuid, some 16⟩]⟩,
     ⟨"Index", .single, 0, [⟨"Prey", some .s16, some 2⟩, ⟨"You", some .s16, some 2⟩]⟩,
     ⟨"Location", .variable, 0, [⟨"Z", some .u8, some 1⟩, ⟨"Y", some .u8, some 1⟩, ⟨"X", some .u8, some 1⟩]⟩]⟩

/-- `CoarseLocationUpdate` in file order. -/
def t165 : Template :=
  ⟨"CoarseLocationUpdate", .medium, 6, [], some .trusted, some .unencoded, some .notDeprecated,
    [⟨"Location", .variable, 0, [⟨"X", .u8, 1⟩, ⟨"Y", .u8, 1⟩, ⟨"Z", .u8, 1⟩]⟩,
     ⟨"Index", .single, 0, [⟨"You", .s16, 2⟩, ⟨"Prey", .s16, 2⟩]⟩,
     ⟨"AgentData", .variable, 0, [⟨"AgentID", .uuid, 16⟩]⟩]⟩

theorem p165 : ChunkOk c165 r165 := by intro v older; kernel_rfl
theorem k165 : r165.known = some t165 := by kernel_rfl
theorem n165 : t165.name = String.ofList ['C', 'o', 'a', 'r', 's', 'e', 'L', 'o', 'c', 'a', 't', 'i', 'o', 'n', 'U', 'p', 'd', 'a', 't', 'e'] := by kernel_rfl

/-- The names of the blocks and variables of `CoarseLocationUpdate`. -/
def b165 : List (List Char × List (List Char)) :=
  [(['L', 'o', 'c', 'a', 't', 'i', 'o', 'n'], [['X'], ['Y'], ['Z']]),
   (['I', 'n', 'd', 'e', 'x'], [['Y', 'o', 'u'], ['P', 'r', 'e', 'y']]),
   (['A', 'g', 'e', 'n', 't', 'D', 'a', 't', 'a'], [['A', 'g', 'e', 'n', 't', 'I', 'D']])]

theorem w165 : Checked t165 := ⟨b165, by kernel_rfl, by kernel_rfl, by kernel_rfl⟩

/-- Lines of `message_template.msg` up to the end of `ImageData`. -/
def c166 : List (List Char) :=
  [chars! "",
   chars! "// ImageData - sent to viewer to transmit information about an image ",
   chars! "{",
   chars! "\tImageData High 9 Trusted Unencoded",
   chars! "\t{",
   chars! "\t\tImageID\t\t\t\tSingle",
   chars! "\t\t{\tID\t\t\t\tLLUUID\t}",
   chars! "\t\t{\tCodec\t\t\tU8\t}",
   chars! "\t\t{\tSize\t\t\tU32\t}",
   chars! "\t\t{\tPackets\t\t\tU16\t}",
   chars! "\t}",
   chars! "\t{",
   chars! "\t\tImageData\t\t\tSingle",
   chars! "\t\t{\tData\t\t\tVariable\t2\t}",
   chars! "\t}",
   chars! "}"]

/-- `ImageData` as the parser creates it. -/
def r166 : RawTemplate :=
  ⟨"ImageData", .high, 9, [9], some .trusted, some .unencoded, some .notDeprecated,
    [⟨"ImageData", .single, 0, [⟨"Data", some .variable, some 2⟩]⟩,
     ⟨"ImageID", .single, 0, [⟨"Packets", some .u16, some 2⟩, ⟨"Size", some .u32, some 4⟩, ⟨"Codec", some .u8, some 1⟩, ⟨"ID", some .uuid, some 16⟩]⟩]⟩

/-- `ImageData` in file order. -/
def t166 : Template :=
  ⟨"ImageData", .high, 9, [], some .trusted, some .unencoded, some .notDeprecated,
    [⟨"ImageID", .single, 0, [⟨"ID", .uuid, 16⟩, ⟨"Codec", .u8, 1⟩, ⟨"Size", .u32, 4⟩, ⟨"Packets", .u16, 2⟩]⟩,
     ⟨"ImageData", .single, 0, [⟨"Data", .variable, 2⟩]⟩]⟩

theorem p166 : ChunkOk c166 r166 := by intro v older; kernel_rfl
theorem k166 : r166.known = some t166 := by kernel_rfl
theorem n166 : t166.name = String.ofList ['I', 'm', 'a', 'g', 'e', 'D', 'a', 't', 'a'] := by kernel_rfl

/-- The names of the blocks and variables of `ImageData`. -/
def b166 : List (List Char × List (List Char)) :=
  [(['I', 'm', 'a', 'g', 'e', 'I', 'D'], [['I', 'D'], ['C', 'o', 'd', 'e', 'c'], ['S', 'i', 'z', 'e'], ['P', 'a', 'c', 'k', 'e', 't', 's']]),
   (['I', 'm', 'a', 'g', 'e', 'D', 'a', 't', 'a'], [['D', 'a', 't', 'a']])]

theorem w166 : Checked t166 := ⟨b166, by kernel_rfl, by kernel_rfl, by kernel_rfl⟩

/-- Lines of `message_template.msg` up to the end of `ImagePacket`. -/
def c167 : List (List Char) :=
  [chars! "",
   chars! "// ImagePacket - follow on image data for images having > 1 packet of data ",
   chars! "{",
   chars! "\tImagePacket High 10 Trusted Unencoded",
   chars! "\t{",
   chars! "\t\tImageID\t\t\t\tSingle",
   chars! "\t\t{\tID\t\t\t\tLLUUID\t}",
   chars! "\t\t{\tPacket\t\t\tU16\t}",
   chars! "\t}",
   chars! "\t{",
   chars! "\t\tImageData\t\t\tSingle",
   chars! "\t\t{\tData\t\t\tVariable\t2\t}",
   chars! "\t}",
   chars! "}"]

/-- `ImagePacket` as the parser creates it. -/
def r167 : RawTemplate :=
  ⟨"ImagePacket", .high, 10, [10], some .trusted, some .unencoded, some .notDeprecated,
    [⟨"ImageData", .single, 0, [⟨"Data", some .variable, some 2⟩]⟩,
     ⟨"ImageID", .single, 0, [⟨"Packet", some .u16, some 2⟩, ⟨"ID", some .uuid, some 16⟩]⟩]⟩

/-- `ImagePacket` in file order. -/
def t167 : Template :=
  ⟨"ImagePacket", .high, 10, [], some .trusted, some .unencoded, some .notDeprecated,
    [⟨"ImageID", .single, 0, [⟨"ID", .uuid, 16⟩, ⟨"Packet", .u16, 2⟩]⟩,
     ⟨"ImageData", .single, 0, [⟨"Data", .variable, 2⟩]⟩]⟩

theorem p167 : ChunkOk c167 r167 := by intro v older; kernel_rfl
theorem k167 : r167.known = some t167 := by kernel_rfl
theorem n167 : t167.name = String.ofList ['I', 'm', 'a', 'g', 'e', 'P', 'a', 'c', 'k', 'e', 't'] := by kernel_rfl

/-- The names of the blocks and variables of `ImagePacket`. -/
def b167 : List (List Char × List (List Char)) :=
  [(['I', 'm', 'a', 'g', 'e', 'I', 'D'], [['I', 'D'], ['P', 'a', 'c', 'k', 'e', 't']]),
   (['I', 'm', 'a', 'g', 'e', 'D', 'a', 't', 'a'], [['D', 'a', 't', 'a']])]

theorem w167 : Checked t167 := ⟨b167, by kernel_rfl, by kernel_rfl, by kernel_rfl⟩

/-- Lines of `message_template.msg` up to the end of `LayerData`. -/
def c168 : List (List Char) :=
  [chars! "",
   chars! "// LayerData - Sent to viewer - encodes layer data",
   chars! "",
   chars! "{",
   chars! "\tLayerData High 11 Trusted Unencoded",
   chars! "\t{",
   chars! "\t\tLayerID\t\t\t\tSingle",
   chars! "\t\t{\tType\t\t\tU8\t}",
   chars! "",
   chars! "\t}",
   chars! "\t{",
   chars! "\t\tLayerData\t\t\tSingle",
   chars! "\t\t{\tData\t\t\tVariable\t2\t}",
   chars! "\t}",
   chars! "}"]

/-- `LayerData` as the parser creates it. -/
def r168 : RawTemplate :=
  ⟨"LayerData", .high, 11, [11], some .trusted, some .unencoded, some .notDeprecated,
    [⟨"LayerData", .single, 0, [⟨"Data", some .variable, some 2⟩]⟩,
     ⟨"LayerID", .single, 0, [⟨"Type", some .u8, some 1⟩]⟩]⟩

/-- `LayerData` in file order. -/
def t168 : Template :=
  ⟨"LayerData", .high, 11, [], some .trusted, some .unencoded, some .notDeprecated,
    [⟨"LayerID", .single, 0, [⟨"Type", .u8, 1⟩]⟩,
     ⟨"LayerData", .single, 0, [⟨"Data", .variable, 2⟩]⟩]⟩

theorem p168 : ChunkOk c168 r168 := by intro v older; kernel_rfl
theorem k168 : r168.known = some t168 := by kernel_rfl
theorem n168 : t168.name = String.ofList ['L', 'a', 'y', 'e', 'r', 'D', 'a', 't', 'a'] := by kernel_rfl

/-- The names of the blocks and variables of `LayerData`. -/
def b168 : List (List Char × List (List Char)) :=
  [(['L', 'a', 'y', 'e', 'r', 'I', 'D'], [['T', 'y', 'p', 'e']]),
   (['L', 'a', 'y', 'e', 'r', 'D', 'a', 't', 'a'], [['D', 'a', 't', 'a']])]

theorem w168 : Checked t168 := ⟨b168, by kernel_rfl, by kernel_rfl, by kernel_rfl⟩

/-- Lines of `message_template.msg` up to the end of `ObjectUpdate`. -/
def c169 : List (List Char) :=
  [chars! "",
   chars! "// ObjectUpdate - Sent by objects from the simulator to the viewer",
   chars! "//",
   chars! "// If only one ImageID is sent for an object type that has more than",
   chars! "// one face, the same image is repeated on each subsequent face.",
   chars! "// ",
   chars! "// NameValue is a list of name-value strings, separated by \\n characters,",
   chars! "// terminated by \\0",
   chars! "//",
   chars! "// Data is type-specific opaque data for this object",
   chars! "{",
   chars! "\tObjectUpdate High 12 Trusted Zerocoded",
   chars! "\t{",
   chars! "\t\tRegionData\t\t\tSingle",
   chars! "\t\t{\tRegionHandle\tU64\t}",
   chars! "\t\t{   TimeDilation\tU16   }",
   chars! "\t}",
   chars! "\t{",
   chars! "\t\tObjectData\t\t\tVariable",
   chars! "\t\t{\tID\t\t\t\tU32\t}",
   chars! "\t\t{\tState\t\t\tU8\t}",
   chars! "",
   chars! "\t\t{\tFullID\t\t\tLLUUID\t}",
   chars! "\t\t{\tCRC\t\t\t\tU32\t}\t// TEMPORARY HACK FOR JAMES",
   chars! "\t\t{\tPCode\t\t\tU8\t}",
   chars! "\t\t{\tMaterial\t\tU8\t}",
   chars! "\t\t{\tClickAction\t\tU8\t}",
   chars! "\t\t{\tScale\t\t\tLLVector3\t}",
   chars! "\t\t{\tObjectData\t\tVariable\t1\t}",
   chars! "",
   chars! "\t\t{\tParentID\t\tU32\t}",
   chars! "\t\t{\tUpdateFlags\t\tU32\t}\t// U32, see object_flags.h",
   chars! "",
   chars! "\t\t{\tPathCurve\t\tU8\t}",
   chars! "\t\t{\tProfileCurve\tU8\t}",
   chars! "\t\t{\tPathBegin\t\tU16\t}\t// 0 to 1, quanta = 0.01",
   chars! "\t\t{\tPathEnd\t\t\tU16\t}\t// 0 to 1, quanta = 0.01",
   chars! "\t\t{\tPathScaleX\t\tU8\t}\t// 0 to 1, quanta = 0.01",
   chars! "\t\t{\tPathScaleY\t\tU8\t}\t// 0 to 1, quanta = 0.01",
   chars! "\t\t{\tPathShearX\t\tU8\t}\t// -.5 to .5, quanta = 0.01",
   chars! "\t\t{\tPathShearY\t\tU8\t}\t// -.5 to .5, quanta = 0.01",
   chars! "\t\t{\tPathTwist\t\tS8\t}\t// -1 to 1, quanta = 0.01",
   chars! "\t\t{\tPathTwistBegin\t\tS8\t}\t// -1 to 1, quanta = 0.01",
   chars! "\t\t{ \tPathRadiusOffset \tS8\t} \t// -1 to 1, quanta = 0.01",
   chars! "\t\t{ \tPathTaperX\t\tS8\t}\t// -1 to 1, quanta = 0.01",
   chars! "\t\t{\tPathTaperY\t\tS8\t}\t// -1 to 1, quanta = 0.01",
   chars! "\t\t{\tPathRevolutions\t\tU8\t}\t// 0 to 3, quanta = 0.015",
   chars! "\t\t{\tPathSkew\t\tS8\t}\t// -1 to 1, quanta = 0.01",
   chars! "\t\t{\tProfileBegin\tU16\t}\t// 0 to 1, quanta = 0.01",
   chars! "\t\t{\tProfileEnd\t\tU16\t}\t// 0 to 1, quanta = 0.01",
   chars! "\t\t{\tProfileHollow\tU16\t}\t// 0 to 1, quanta = 0.01",
   chars! "",
   chars! "\t\t{\tTextureEntry\tVariable\t2\t}",
   chars! "\t\t{\tTextureAnim\t\tVariable\t1\t}",
   chars! "",
   chars! "\t\t{\tNameValue\t\tVariable\t2\t}",
   chars! "\t\t{\tData\t\t\tVariable\t2\t}",
   chars! "\t\t{\tText\t\t\tVariable\t1\t}\t// llSetText() hovering text",
   chars! "\t\t{\tTextColor\t\tFixed\t\t4\t}\t// actually, a LLColor4U",
   chars! "\t\t{\tMediaURL\t\tVariable\t1\t}\t// URL for web page, movie, etc.",
   chars! "",
   chars! "\t\t// Info for particle systems",
   chars! "\t\t{\tPSBlock\t\t\tVariable\t1\t}",
   chars! "\t\t",
   chars! "\t\t// Extra parameters",
   chars! "\t\t{\tExtraParams\t\tVariable\t1\t}",
   chars! "\t\t",
   chars! "\t\t// info for looped attached sounds",
   chars! "        // because these are almost always all zero",
   chars! "\t\t// the hit after zero-coding is only 2 bytes",
   chars! "\t\t// not the 42 you see here",
   chars! "\t\t{\tSound           LLUUID  }",
   chars! "\t\t{\tOwnerID\t\t\tLLUUID\t}\t// HACK object's owner id, only set if non-null sound, for muting",
   chars! "\t\t{\tGain            F32\t\t}",
   chars! "\t\t{\tFlags           U8\t\t}",
   chars! "\t\t{\tRadius          F32\t\t}  // cutoff radius",
   chars! "",
   chars! "\t\t// joint info -- is sent in the update of each joint-child-root",
   chars! "\t\t{\tJointType \t\t\tU8\t\t}",
   chars! "\t\t{\tJointPivot\t\t\tLLVector3\t}",
   chars! "\t\t{\tJointAxisOrAnchor \tLLVector3\t}",
   chars! "\t}",
   chars! "}"]

/-- `ObjectUpdate` as the parser creates it. -/
def r169 : RawTemplate :=
  ⟨"ObjectUpdate", .high, 12, [12], some .trusted, some .zerocoded, some .notDeprecated,
    [⟨"ObjectData", .variable, 0, [⟨"JointAxisOrAnchor", some .vector3, some 12⟩, ⟨"JointPivot", some .vector3, some 12⟩, ⟨"JointType", some .u8, some 1⟩, ⟨"Radius", some .f32, some 4⟩, ⟨"Flags", some .u8, some 1⟩, ⟨"Gain", some .f32, some 4⟩, ⟨"OwnerID", some .uuid, some 16⟩, ⟨"Sound", some .uuid, some 16⟩, ⟨"ExtraParams", some .variable, some 1⟩, ⟨"PSBlock", some .variable, some 1⟩, ⟨"MediaURL", some .variable, some 1⟩, ⟨"TextColor", some .fixed, some 4⟩, ⟨"Text", some .variable, some 1⟩, ⟨"Data", some .variable, some 2⟩, ⟨"NameValue", some .variable, some 2⟩, ⟨"TextureAnim", some .variable, some 1⟩, ⟨"TextureEntry", some .variable, some 2⟩, ⟨"ProfileHollow", some .u16, some 2⟩, ⟨"ProfileEnd", some .u16, some 2⟩, ⟨"ProfileBegin", some .u16, some 2⟩, ⟨"PathSkew", some .s8, some 1⟩, ⟨"PathRevolutions", some .u8, some 1⟩, ⟨"PathTaperY", some .s8, some 1⟩, ⟨"PathTaperX", some .s8, some 1⟩, ⟨"PathRadiusOffset", some .s8, some 1⟩, ⟨"PathTwistBegin", some .s8, some 1⟩, ⟨"PathTwist", some .s8, some 1⟩, ⟨"PathShearY", some .u8, some 1⟩, ⟨"PathShearX", some .u8, some 1⟩, ⟨"PathScaleY", some .u8, some 1⟩, ⟨"PathScaleX", some .u8, some 1⟩, ⟨"PathEnd", some .u16, some 2⟩, ⟨"PathBegin", some .u16, some 2⟩, ⟨"ProfileCurve", some .u8, some 1⟩, ⟨"PathCurve", some .u8, some 1⟩, ⟨"UpdateFlags", some .u32, some 4⟩, ⟨"ParentID", some .u32, some 4⟩, ⟨"ObjectData", some .variable, some 1⟩, ⟨"Scale", some .vector3, some 12⟩, ⟨"ClickAction", some .u8, some 1⟩, ⟨"Material", some .u8, some 1⟩, ⟨"PCode", some .u8, some 1⟩, ⟨"CRC", some .u32, some 4⟩, ⟨"FullID", some .uuid, some 16⟩, ⟨"State", some .u8, some 1⟩, ⟨"ID", some .u32, some 4⟩]⟩,
     ⟨"RegionData", .single, 0, [⟨"TimeDilation", some .u16, some 2⟩, ⟨"RegionHandle", some .u64, some 8⟩]⟩]⟩

/-- `ObjectUpdate` in file order. -/
def t169 : Template :=
  ⟨"ObjectUpdate", .high, 12, [], some .trusted, some .zerocoded, some .notDeprecated,
    [⟨"RegionData", .single, 0, [⟨"RegionHandle", .u64, 8⟩, ⟨"TimeDilation", .u16, 2⟩]⟩,
     ⟨"ObjectData", .variable, 0, [⟨"ID", .u32, 4⟩, ⟨"State", .u8, 1⟩, ⟨"FullID", .uuid, 16⟩, ⟨"CRC", .u32, 4⟩, ⟨"PCode", .u8, 1⟩, ⟨"Material", .u8, 1⟩, ⟨"ClickAction", .u8, 1⟩, ⟨"Scale", .vector3, 12⟩, ⟨"ObjectData", .variable, 1⟩, ⟨"ParentID", .u32, 4⟩, ⟨"UpdateFlags", .u32, 4⟩, ⟨"PathCurve", .u8, 1⟩, ⟨"ProfileCurve", .u8, 1⟩, ⟨"PathBegin", .u16, 2⟩, ⟨"PathEnd", .u16, 2⟩, ⟨"PathScaleX", .u8, 1⟩, ⟨"PathScaleY", .u8, 1⟩, ⟨"PathShearX", .u8, 1⟩, ⟨"PathShearY", .u8, 1⟩, ⟨"PathTwist", .s8, 1⟩, ⟨"PathTwistBegin", .s8, 1⟩, ⟨"PathRadiusOffset", .s8, 1⟩, ⟨"PathTaperX", .s8, 1⟩, ⟨"PathTaperY", .s8, 1⟩, ⟨"PathRevolutions", .u8, 1⟩, ⟨"PathSkew", .s8, 1⟩, ⟨"ProfileBegin", .u16, 2⟩, ⟨"ProfileEnd", .u16, 2⟩, ⟨"ProfileHollow", .u16, 2⟩, ⟨"TextureEntry", .variable, 2⟩, ⟨"TextureAnim", .variable, 1⟩, ⟨"NameValue", .variable, 2⟩, ⟨"Data", .variable, 2⟩, ⟨"Text", .variable, 1⟩, ⟨"TextColor", .fixed, 4⟩, ⟨"MediaURL", .variable, 1⟩, ⟨"PSBlock", .variable, 1⟩, ⟨"ExtraParams", .variable, 1⟩, ⟨"Sound", .uuid, 16⟩, ⟨"OwnerID", .uuid, 16⟩, ⟨"Gain", .f32, 4⟩, ⟨"Flags", .u8, 1⟩, ⟨"Radius", .f32, 4⟩, ⟨"JointType", .u8, 1⟩, ⟨"JointPivot", .vector3, 12⟩, ⟨"JointAxisOrAnchor", .vector3, 12⟩]⟩]⟩

theorem p169 : ChunkOk c169 r169 := by intro v older; kernel_rfl
theorem k169 : r169.known = some t169 := by kernel_rfl
theorem n169 : t169.name = String.ofList ['O', 'b', 'j', 'e', 'c', 't', 'U', 'p', 'd', 'a', 't', 'e'] := by kernel_rfl

/-- The names of the blocks and variables of `ObjectUpdate`. -/
def b169 : List (List Char × List (List Char)) :=
  [(['R', 'e', 'g', 'i', 'o', 'n', 'D', 'a', 't', 'a'], [['R', 'e', 'g', 'i', 'o', 'n', 'H', 'a', 'n', 'd', 'l', 'e'], ['T', 'i', 'm', 'e', 'D', 'i', 'l', 'a', 't', 'i', 'o', 'n']]),
   (['O', 'b', 'j', 'e', 'c', 't', 'D', 'a', 't', 'a'], [['I', 'D'], ['S', 't', 'a', 't', 'e'], ['F', 'u', 'l', 'l', 'I', 'D'], ['C', 'R', 'C'], ['P', 'C', 'o', 'd', 'e'], ['M', 'a', 't', 'e', 'r', 'i', 'a', 'l'], ['C', 'l', 'i', 'c', 'k', 'A', 'c', 't', 'i', 'o', 'n'], ['S', 'c', 'a', 'l', 'e'], ['O', 'b', 'j', 'e', 'c', 't', 'D', 'a', 't', 'a'], ['P', 'a', 'r', 'e', 'n', 't', 'I', 'D'], ['U', 'p', 'd', 'a', 't', 'e', 'F', 'l', 'a', 'g', 's'], ['P', 'a', 't', 'h', 'C', 'u', 'r', 'v', 'e'], ['P', 'r', 'o', 'f', 'i', 'l', 'e', 'C', 'u', 'r', 'v', 'e'], ['P', 'a', 't', 'h', 'B', 'e', 'g', 'i', 'n'], ['P', 'a', 't', 'h', 'E', 'n', 'd'], ['P', 'a', 't', 'h', 'S', 'c', 'a', 'l', 'e', 'X'], ['P', 'a', 't', 'h', 'S', 'c', 'a', 'l', 'e', 'Y'], ['P', 'a', 't', 'h', 'S', 'h', 'e', 'a', 'r', 'X'], ['P', 'a', 't', 'h', 'S', 'h', 'e', 'a', 'r', 'Y'], ['P', 'a', 't', 'h', 'T', 'w', 'i', 's', 't'], ['P', 'a', 't', 'h', 'T', 'w', 'i', 's', 't', 'B', 'e', 'g', 'i', 'n'], ['P', 'a', 't', 'h', 'R', 'a', 'd', 'i', 'u', 's', 'O', 'f', 'f', 's', 'e', 't'], ['P', 'a', 't', 'h', 'T', 'a', 'p', 'e', 'r', 'X'], ['P', 'a', 't', 'h', 'T', 'a', 'p', 'e', 'r', 'Y'], ['P', 'a', 't', 'h', 'R', 'e', 'v', 'o', 'l', 'u', 't', 'i', 'o', 'n', 's'], ['P', 'a', 't', 'h', 'S', 'k', 'e', 'w'], ['P', 'r', 'o', 'f', 'i', 'l', 'e', 'B', 'e', 'g', 'i', 'n'], ['P', 'r', 'o', 'f', 'i', 'l', 'e', 'E', 'n', 'd'], ['P', 'r', 'o', 'f', 'i', 'l', 'e', 'H', 'o', 'l', 'l', 'o', 'w'], ['T', 'e', 'x', 't', 'u', 'r', 'e', 'E', 'n', 't', 'r', 'y'], ['T', 'e', 'x', 't', 'u', 'r', 'e', 'A', 'n', 'i', 'm'], ['N', 'a', 'm', 'e', 'V', 'a', 'l', 'u', 'e'], ['D', 'a', 't', 'a'], ['T', 'e', 'x', 't'], ['T', 'e', 'x', 't', 'C', 'o', 'l', 'o', 'r'], ['M', 'e', 'd', 'i', 'a', 'U', 'R', 'L'], ['P', 'S', 'B', 'l', 'o', 'c', 'k'], ['E', 'x', 't', 'r', 'a', 'P', 'a', 'r', 'a', 'm', 's'], ['S', 'o', 'u', 'n', 'd'], ['O', 'w', 'n', 'e', 'r', 'I', 'D'], ['G', 'a', 'i', 'n'], ['F', 'l', 'a', 'g', 's'], ['R', 'a', 'd', 'i', 'u', 's'], ['J', 'o', 'i', 'n', 't', 'T', 'y', 'p', 'e'], ['J', 'o', 'i', 'n', 't', 'P', 'i', 'v', 'o', 't'], ['J', 'o', 'i', 'n', 't', 'A', 'x', 'i', 's', 'O', 'r', 'A', 'n', 'c', 'h', 'o', 'r']])]

theorem w169 : Checked t169 := ⟨b169, by kernel_rfl, by kernel_rfl, by kernel_rfl⟩

/-- Lines of `message_template.msg` up to the end of `ObjectUpdateCompressed`. -/
def c170 : List (List Char) :=
  [chars! "",
   chars! "",
   chars! "// ObjectUpdateCompressed",
   chars! "{",
   chars! "\tObjectUpdateCompressed High 13 Trusted Unencoded",
   chars! "\t{",
   chars! "\t\tRegionData\t\t\tSingle",
   chars! "\t\t{\tRegionHandle\tU64\t\t}",
   chars! "\t\t{   TimeDilation\tU16\t\t}",
   chars! "\t}",
   chars! "\t{",
   chars! "\t\tObjectData\t\t\tVariable",
   chars! "\t\t{   UpdateFlags\t\t\tU32\t}",
   chars! "\t\t{\tData\t\t\tVariable   2\t}",
   chars! "\t}",
   chars! "}"]

/-- `ObjectUpdateCompressed` as the parser creates it. -/
def r170 : RawTemplate :=
  ⟨"ObjectUpdateCompressed", .high, 13, [13], some .trusted, some .unencoded, some .notDeprecated,
    [⟨"ObjectData", .variable, 0, [⟨"Data", some .variable, some 2⟩, ⟨"UpdateFlags", some .u32, some 4⟩]⟩,
     ⟨"RegionData", .single, 0, [⟨"TimeDilation", some .u16, some 2⟩, ⟨"RegionHandle", some .u64, some 8⟩]⟩]⟩

/-- `ObjectUpdateCompressed` in file order. -/
def t170 : Template :=
  ⟨"ObjectUpdateCompressed", .high, 13, [], some .trusted, some .unencoded, some .notDeprecated,
    [⟨"RegionData", .single, 0, [⟨"RegionHandle", .u64, 8⟩, ⟨"TimeDilation", .u16, 2⟩]⟩,
     ⟨"ObjectData", .variable, 0, [⟨"UpdateFlags", .u32, 4⟩, ⟨"Data", .variable, 2⟩]⟩]⟩

theorem p170 : ChunkOk c170 r170 := by intro v older; kernel_rfl
theorem k170 : r170.known = some t170 := by kernel_rfl
theorem n170 : t170.name = String.ofList ['O', 'b', 'j', 'e', 'c', 't', 'U', 'p', 'd', 'a', 't', 'e', 'C', 'o', 'm', 'p', 'r', 'e', 's', 's', 'e', 'd'] := by kernel_rfl

/-- The names of the blocks and variables of `ObjectUpdateCompressed`. -/
def b170 : List (List Char × List (List Char)) :=
  [(['R', 'e', 'g', 'i', 'o', 'n', 'D', 'a', 't', 'a'], [['R', 'e', 'g', 'i', 'o', 'n', 'H', 'a', 'n', 'd', 'l', 'e'], ['T', 'i', 'm', 'e', 'D', 'i', 'l', 'a', 't', 'i', 'o', 'n']]),
   (['O', 'b', 'j', 'e', 'c', 't', 'D', 'a', 't', 'a'], [['U', 'p', 'd', 'a', 't', 'e', 'F', 'l', 'a', 'g', 's'], ['D', 'a', 't', 'a']])]

theorem w170 : Checked t170 := ⟨b170, by kernel_rfl, by kernel_rfl, by kernel_rfl⟩

/-- Lines of `message_template.msg` up to the end of `ObjectUpdateCached`. -/
def c171 : List (List Char) :=
  [chars! "",
   chars! "// ObjectUpdateCached",
   chars! "// reliable",
   chars! "{",
   chars! "\tObjectUpdateCached High 14 Trusted Unencoded",
   chars! "\t{",
   chars! "\t\tRegionData\t\t\tSingle",
   chars! "\t\t{\tRegionHandle\tU64\t\t}",
   chars! "\t\t{   TimeDilation\tU16\t\t}",
   chars! "\t}",
   chars! "\t{",
   chars! "\t\tObjectData\t\t\tVariable",
   chars! "\t\t{   ID\t\t\t\tU32\t\t}",
   chars! "\t\t{\tCRC\t\t\t\tU32\t\t}",
   chars! "\t\t{   UpdateFlags\t\tU32\t}",
   chars! "\t}",
   chars! "}"]

/-- `ObjectUpdateCached` as the parser creates it. -/
def r171 : RawTemplate :=
  ⟨"ObjectUpdateCached", .high, 14, [14], some .trusted, some .unencoded, some .notDeprecated,
    [⟨"ObjectData", .variable, 0, [⟨"UpdateFlags", some .u32, some 4⟩, ⟨"CRC", some .u32, some 4⟩, ⟨"ID", some .u32, some 4⟩]⟩,
     ⟨"RegionData", .single, 0, [⟨"TimeDilation", some .u16, some 2⟩, ⟨"RegionHandle", some .u64, some 8⟩]⟩]⟩

/-- `ObjectUpdateCached` in file order. -/
def t171 : Template :=
  ⟨"ObjectUpdateCached", .high, 14, [], some .trusted, some .unencoded, some .notDeprecated,
    [⟨"RegionData", .single, 0, [⟨"RegionHandle", .u64, 8⟩, ⟨"TimeDilation", .u16, 2⟩]⟩,
     ⟨"ObjectData", .variable, 0, [⟨"ID", .u32, 4⟩, ⟨"CRC", .u32, 4⟩, ⟨"UpdateFlags", .u32, 4⟩]⟩]⟩

theorem p171 : ChunkOk c171 r171 := by intro v older; kernel_rfl
theorem k171 : r171.known = some t171 := by kernel_rfl
theorem n171 : t171.name = String.ofList ['O', 'b', 'j', 'e', 'c', 't', 'U', 'p', 'd', 'a', 't', 'e', 'C', 'a', 'c', 'h', 'e', 'd'] := by kernel_rfl

/-- The names of the blocks and variables of `ObjectUpdateCached`. -/
def b171 : List (List Char × List (List Char)) :=
  [(['R', 'e', 'g', 'i', 'o', 'n', 'D', 'a', 't', 'a'], [['R', 'e', 'g', 'i', 'o', 'n', 'H', 'a', 'n', 'd', 'l', 'e'], ['T', 'i', 'm', 'e', 'D', 'i', 'l', 'a', 't', 'i', 'o', 'n']]),
   (['O', 'b', 'j', 'e', 'c', 't', 'D', 'a', 't', 'a'], [['I', 'D'], ['C', 'R', 'C'], ['U', 'p', 'd', 'a', 't', 'e', 'F', 'l', 'a', 'g', 's']])]

theorem w171 : Checked t171 := ⟨b171, by kernel_rfl, by kernel_rfl, by kernel_rfl⟩

/-- Lines of `message_template.msg` up to the end of `ImprovedTerseObjectUpdate`. -/
def c172 : List (List Char) :=
  [chars! "",
   chars! "// packed terse object update format",
   chars! "{",
   chars! "\tImprovedTerseObjectUpdate High 15 Trusted Unencoded",
   chars! "\t{",
   chars! "\t\tRegionData\t\t\tSingle",
   chars! "\t\t{\tRegionHandle\tU64\t}",
   chars! "\t\t{   TimeDilation\tU16   }",
   chars! "\t}",
   chars! "\t{",
   chars! "\t\tObjectData\t\t\tVariable",
   chars! "\t\t{\tData\t\t\tVariable\t1\t}",
   chars! "\t\t{\tTextureEntry\tVariable\t2\t}",
   chars! "\t}",
   chars! "}"]

/-- `ImprovedTerseObjectUpdate` as the parser creates it. -/
def r172 : RawTemplate :=
  ⟨"ImprovedTerseObjectUpdate", .high, 15, [15], some .trusted, some .unencoded, some .notDeprecated,
    [⟨"ObjectData", .variable, 0, [⟨"TextureEntry", some .variable, some 2⟩, ⟨"Data", some .variable, some 1⟩]⟩,
     ⟨"RegionData", .single, 0, [⟨"TimeDilation", some .u16, some 2⟩, ⟨"RegionHandle", some .u64, some 8⟩]⟩]⟩

/-- `ImprovedTerseObjectUpdate` in file order. -/
def t172 : Template :=
  ⟨"ImprovedTerseObjectUpdate", .high, 15, [], some .trusted, some .unencoded, some .notDeprecated,
    [⟨"RegionData", .single, 0, [⟨"RegionHandle", .u64, 8⟩, ⟨"TimeDilation", .u16, 2⟩]⟩,
     ⟨"ObjectData", .variable, 0, [⟨"Data", .variable, 1⟩, ⟨"TextureEntry", .variable, 2⟩]⟩]⟩

theorem p172 : ChunkOk c172 r172 := by intro v older; kernel_rfl
theorem k172 : r172.known = some t172 := by kernel_rfl
theorem n172 : t172.name = String.ofList ['I', 'm', 'p', 'r', 'o', 'v', 'e', 'd', 'T', 'e', 'r', 's', 'e', 'O', 'b', 'j', 'e', 'c', 't', 'U', 'p', 'd', 'a', 't', 'e'] := by kernel_rfl

/-- The names of the blocks and variables of `ImprovedTerseObjectUpdate`. -/
def b172 : List (List Char × List (List Char)) :=
  [(['R', 'e', 'g', 'i', 'o', 'n', 'D', 'a', 't', 'a'], [['R', 'e', 'g', 'i', 'o', 'n', 'H', 'a', 'n', 'd', 'l', 'e'], ['T', 'i', 'm', 'e', 'D', 'i', 'l', 'a', 't', 'i', 'o', 'n']]),
   (['O', 'b', 'j', 'e', 'c', 't', 'D', 'a', 't', 'a'], [['D', 'a', 't', 'a'], ['T', 'e', 'x', 't', 'u', 'r', 'e', 'E', 'n', 't', 'r', 'y']])]

theorem w172 : Checked t172 := ⟨b172, by kernel_rfl, by kernel_rfl, by kernel_rfl⟩

/-- Lines of `message_template.msg` up to the end of `KillObject`. -/
def c173 : List (List Char) :=
  [chars! "",
   chars! "// KillObject - Sent by objects to the viewer to tell them to kill themselves",
   chars! "",
   chars! "{",
   chars! "\tKillObject High 16 Trusted Unencoded",
   chars! "\t{",
   chars! "\t\tObjectData\t\t\tVariable",
   chars! "\t\t{\tID\t\t\t\tU32\t}",
   chars! "\t}",
   chars! "}"]

/-- `KillObject` as the parser creates it. -/
def r173 : RawTemplate :=
  ⟨"KillObject", .high, 16, [16], some .trusted, some .unencoded, some .notDeprecated,
    [⟨"ObjectData", .variable, 0, [⟨"ID", some .u32, some 4⟩]⟩]⟩

/-- `KillObject` in file order. -/
def t173 : Template :=
  ⟨"KillObject", .high, 16, [], some .trusted, some .unencoded, some .notDeprecated,
    [⟨"ObjectData", .variable, 0, [⟨"ID", .u32, 4⟩]⟩]⟩

theorem p173 : ChunkOk c173 r173 := by intro v older; kernel_rfl
theorem k173 : r173.known = some t173 := by kernel_rfl
theorem n173 : t173.name = String.ofList ['K', 'i', 'l', 'l', 'O', 'b', 'j', 'e', 'c', 't'] := by kernel_rfl

/-- The names of the blocks and variables of `KillObject`. -/
def b173 : List (List Char × List (List Char)) :=
  [(['O', 'b', 'j', 'e', 'c', 't', 'D', 'a', 't', 'a'], [['I', 'D']])]

theorem w173 : Checked t173 := ⟨b173, by kernel_rfl, by kernel_rfl, by kernel_rfl⟩

/-- Lines of `message_template.msg` up to the end of `CrossedRegion`. -/
def c174 : List (List Char) :=
  [chars! "",
   chars! "",
   chars! "// CrossedRegion - new way to tell a viewer it has gone across a region ",
   chars! "// boundary",
   chars! "{",
   chars! "\tCrossedRegion Medium 7 Trusted Unencoded UDPBlackListed",
   chars! "\t{",
   chars! "\t\tAgentData\t\tSingle",
   chars! "\t\t{\tAgentID\t\t\tLLUUID\t}",
   chars! "\t\t{\tSessionID\t\tLLUUID\t}",
   chars! "\t}",
   chars! "\t{",
   chars! "\t\tRegionData\t\tSingle",
   chars! "\t\t{\tSimIP\t\t\tIPADDR\t}",
   chars! "\t\t{\tSimPort\t\t\tIPPORT\t}",
   chars! "\t\t{\tRegionHandle\tU64\t}",
   chars! "\t\t{\tSeedCapability\tVariable\t2\t}\t// URL",
   chars! "\t}",
   chars! "\t{",
   chars! "\t\tInfo\t\t\tSingle",
   chars! "\t\t{\tPosition\t\tLLVector3\t}",
   chars! "\t\t{\tLookAt\t\t\tLLVector3\t}",
   chars! "\t}",
   chars! "}"]

/-- `CrossedRegion` as the parser creates it. -/
def r174 : RawTemplate :=
  ⟨"CrossedRegion", .medium, 7, [255, 7], some .trusted, some .unencoded, some .udpBlackListed,
    [⟨"Info", .single, 0, [⟨"LookAt", some .vector3, some 12⟩, ⟨"Position", some .vector3, some 12⟩]⟩,
     ⟨"RegionData", .single, 0, [⟨"SeedCapability", some .variable, some 2⟩, ⟨"RegionHandle", some .u64, some 8⟩, ⟨"SimPort", some .ipport, some 2⟩, ⟨"SimIP", some .ipaddr, some 4⟩]⟩,
     ⟨"AgentData", .single, 0, [⟨"SessionID", some .uuid, some 16⟩, ⟨"AgentID", some .uuid, some 16⟩]⟩]⟩

/-- `CrossedRegion` in file order. -/
def t174 : Template :=
  ⟨"CrossedRegion", .medium, 7, [], some .trusted, some .unencoded, some .udpBlackListed,
    [⟨"AgentData", .single, 0, [⟨"AgentID", .uuid, 16⟩, ⟨"SessionID", .uuid, 16⟩]⟩,
     ⟨"RegionData", .single, 0, [⟨"SimIP", .ipaddr, 4⟩, ⟨"SimPort", .ipport, 2⟩, ⟨"RegionHandle", .u64, 8⟩, ⟨"SeedCapability", .variable, 2⟩]⟩,
     ⟨"Info", .single, 0, [⟨"Position", .vector3, 12⟩, ⟨"LookAt", .vector3, 12⟩]⟩]⟩

theorem p174 : ChunkOk c174 r174 := by intro v older; kernel_rfl
theorem k174 : r174.known = some t174 := by kernel_rfl
theorem n174 : t174.name = String.ofList ['C', 'r', 'o', 's', 's', 'e', 'd', 'R', 'e', 'g', 'i', 'o', 'n'] := by kernel_rfl

/-- The names of the blocks and variables of `CrossedRegion`. -/
def b174 : List (List Char × List (List Char)) :=
  [(['A', 'g', 'e', 'n', 't', 'D', 'a', 't', 'a'], [['A', 'g', 'e', 'n', 't', 'I', 'D'], ['S', 'e', 's', 's', 'i', 'o', 'n', 'I', 'D']]),
   (['R', 'e', 'g', 'i', 'o', 'n', 'D', 'a', 't', 'a'], [['S', 'i', 'm', 'I', 'P'], ['S', 'i', 'm', 'P', 'o', 'r', 't'], ['R', 'e', 'g', 'i', 'o', 'n', 'H', 'a', 'n', 'd', 'l', 'e'], ['S', 'e', 'e', 'd', 'C', 'a', 'p', 'a', 'b', 'i', 'l', 'i', 't', 'y']]),
   (['I', 'n', 'f', 'o'], [['P', 'o', 's', 'i', 't', 'i', 'o', 'n'], ['L', 'o', 'o', 'k', 'A', 't']])]

theorem w174 : Checked t174 := ⟨b174, by kernel_rfl, by kernel_rfl, by kernel_rfl⟩

/-- Lines of `message_template.msg` up to the end of `SimulatorViewerTimeMessage`. -/
def c175 : List (List Char) :=
  [chars! "",
   chars! "// SimulatorViewerTimeMessage - Allows viewer to resynch to world time",
   chars! "",
   chars! "{",
   chars! "\tSimulatorViewerTimeMessage Low 150 Trusted Unencoded",
   chars! "\t{",
   chars! "\t\tTimeInfo\t\tSingle",
   chars! "\t\t{\tUsecSinceStart\tU64\t}",
   chars! "\t\t{\tSecPerDay\t\tU32\t}",
   chars! "\t\t{\tSecPerYear\t\tU32\t}",
   chars! "\t\t{\tSunDirection\tLLVector3\t}",
   chars! "\t\t{\tSunPhase\t\tF32\t}",
   chars! "\t\t{\tSunAngVelocity\tLLVector3\t}",
   chars! "\t}",
   chars! "}"]

/-- `SimulatorViewerTimeMessage` as the parser creates it. -/
def r175 : RawTemplate :=
  ⟨"SimulatorViewerTimeMessage", .low, 150, [255, 255, 150], some .trusted, some .unencoded, some .notDeprecated,
    [⟨"TimeInfo", .single, 0, [⟨"SunAngVelocity", some .vector3, some 12⟩, ⟨"SunPhase", some .f32, some 4⟩, ⟨"SunDirection", some .vector3, some 12⟩, ⟨"SecPerYear", some .u32, some 4⟩, ⟨"SecPerDay", some .u32, some 4⟩, ⟨"UsecSinceStart", some .u64, some 8⟩]⟩]⟩

/-- `SimulatorViewerTimeMessage` in file order. -/
def t175 : Template :=
  ⟨"SimulatorViewerTimeMessage", .low, 150, [], some .trusted, some .unencoded, some .notDeprecated,
    [⟨"TimeInfo", .single, 0, [⟨"UsecSinceStart", .u64, 8⟩, ⟨"SecPerDay", .u32, 4⟩, ⟨"SecPerYear", .u32, 4⟩, ⟨"SunDirection", .vector3, 12⟩, ⟨"SunPhase", .f32, 4⟩, ⟨"SunAngVelocity", .vector3, 12⟩]⟩]⟩

theorem p175 : ChunkOk c175 r175 := by intro v older; kernel_rfl
theorem k175 : r175.known = some t175 := by kernel_rfl
theorem n175 : t175.name = String.ofList ['S', 'i', 'm', 'u', 'l', 'a', 't', 'o', 'r', 'V', 'i', 'e', 'w', 'e', 'r', 'T', 'i', 'm', 'e', 'M', 'e', 's', 's', 'a', 'g', 'e'] := by kernel_rfl

/-- The names of the blocks and variables of `SimulatorViewerTimeMessage`. -/
def b175 : List (List Char × List (List Char)) :=
  [(['T', 'i', 'm', 'e', 'I', 'n', 'f', 'o'], [['U', 's', 'e', 'c', 'S', 'i', 'n', 'c', 'e', 'S', 't', 'a', 'r', 't'], ['S', 'e', 'c', 'P', 'e', 'r', 'D', 'a', 'y'], ['S', 'e', 'c', 'P', 'e', 'r', 'Y', 'e', 'a', 'r'], ['S', 'u', 'n', 'D', 'i', 'r', 'e', 'c', 't', 'i', 'o', 'n'], ['S', 'u', 'n', 'P', 'h', 'a', 's', 'e'], ['S', 'u', 'n', 'A', 'n', 'g', 'V', 'e', 'l', 'o', 'c', 'i', 't', 'y']])]

theorem w175 : Checked t175 := ⟨b175, by kernel_rfl, by kernel_rfl, by kernel_rfl⟩

/-- Lines of `message_template.msg` up to the end of `EnableSimulator`. -/
def c176 : List (List Char) :=
  [chars! "",
   chars! "// EnableSimulator - Preps a viewer to receive data from a simulator",
   chars! "",
   chars! "{",
   chars! "\tEnableSimulator Low 151 Trusted Unencoded UDPBlackListed",
   chars! "\t{",
   chars! "\t\tSimulatorInfo\tSingle",
   chars! "\t\t{\tHandle\t\tU64\t}",
   chars! "\t\t{\tIP\t\t\tIPADDR\t}",
   chars! "\t\t{\tPort\t\tIPPORT\t}",
   chars! "\t}",
   chars! "}"]

/-- `EnableSimulator` as the parser creates it. -/
def r176 : RawTemplate :=
  ⟨"EnableSimulator", .low, 151, [255, 255, 151], some .trusted, some .unencoded, some .udpBlackListed,
    [⟨"SimulatorInfo", .single, 0, [⟨"Port", some .ipport, some 2⟩, ⟨"IP", some .ipaddr, some 4⟩, ⟨"Handle", some .u64, some 8⟩]⟩]⟩

/-- `EnableSimulator` in file order. -/
def t176 : Template :=
  ⟨"EnableSimulator", .low, 151, [], some .trusted, some .unencoded, some .udpBlackListed,
    [⟨"SimulatorInfo", .single, 0, [⟨"Handle", .u64, 8⟩, ⟨"IP", .ipaddr, 4⟩, ⟨"Port", .ipport, 2⟩]⟩]⟩

theorem p176 : ChunkOk c176 r176 := by intro v older; kernel_rfl
theorem k176 : r176.known = some t176 := by kernel_rfl
theorem n176 : t176.name = String.ofList ['E', 'n', 'a', 'b', 'l', 'e', 'S', 'i', 'm', 'u', 'l', 'a', 't', 'o', 'r'] := by kernel_rfl

/-- The names of the blocks and variables of `EnableSimulator`. -/
def b176 : List (List Char × List (List Char)) :=
  [(['S', 'i', 'm', 'u', 'l', 'a', 't', 'o', 'r', 'I', 'n', 'f', 'o'], [['H', 'a', 'n', 'd', 'l', 'e'], ['I', 'P'], ['P', 'o', 'r', 't']])]

theorem w176 : Checked t176 := ⟨b176, by kernel_rfl, by kernel_rfl, by kernel_rfl⟩

/-- Lines of `message_template.msg` up to the end of `DisableSimulator`. -/
def c177 : List (List Char) :=
  [chars! "",
   chars! "// DisableThisSimulator - Tells a viewer not to expect data from this simulator anymore",
   chars! "",
   chars! "{",
   chars! "\tDisableSimulator Low 152 Trusted Unencoded",
   chars! "}"]

/-- `DisableSimulator` as the parser creates it. -/
def r177 : RawTemplate :=
  ⟨"DisableSimulator", .low, 152, [255, 255, 152], some .trusted, some .unencoded, some .notDeprecated,
    []⟩

/-- `DisableSimulator` in file order. -/
def t177 : Template :=
  ⟨"DisableSimulator", .low, 152, [], some .trusted, some .unencoded, some .notDeprecated,
    []⟩

theorem p177 : ChunkOk c177 r177 := by intro v older; kernel_rfl
theorem k177 : r177.known = some t177 := by kernel_rfl
theorem n177 : t177.name = String.ofList ['D', 'i', 's', 'a', 'b', 'l', 'e', 'S', 'i', 'm', 'u', 'l', 'a', 't', 'o', 'r'] := by kernel_rfl

/-- The names of the blocks and variables of `DisableSimulator`. -/
def b177 : List (List Char × List (List Char)) :=
  []

theorem w177 : Checked t177 := ⟨b177, by kernel_rfl, by kernel_rfl, by kernel_rfl⟩

/-- Lines of `message_template.msg` up to the end of `ConfirmEnableSimulator`. -/
def c178 : List (List Char) :=
  [chars! "",
   chars! "// ConfirmEnableSimulator - A confirmation message sent from simulator to neighbors that the simulator",
   chars! "// has successfully been enabled by the viewer",
   chars! "",
   chars! "{",
   chars! "\tConfirmEnableSimulator Medium 8 Trusted Unencoded",
   chars! "\t{",
   chars! "\t\tAgentData\t\t\t\tSingle",
   chars! "\t\t{\tAgentID\t\t\t\tLLUUID\t}",
   chars! "\t\t{\tSessionID\t\t\tLLUUID\t}",
   chars! "\t}",
   chars! "}"]

/-- `ConfirmEnableSimulator` as the parser creates it. -/
def r178 : RawTemplate :=
  ⟨"ConfirmEnableSimulator", .medium, 8, [255, 8], some .trusted, some .unencoded, some .notDeprecated,
    [⟨"AgentData", .single, 0, [⟨"SessionID", some .uuid, some 16⟩, ⟨"AgentID", some .uuid, some 16⟩]⟩]⟩

/-- `ConfirmEnableSimulator` in file order. -/
def t178 : Template :=
  ⟨"ConfirmEnableSimulator", .medium, 8, [], some .trusted, some .unencoded, some .notDeprecated,
    [⟨"AgentData", .single, 0, [⟨"AgentID", .uuid, 16⟩, ⟨"SessionID", .uuid, 16⟩]⟩]⟩

theorem p178 : ChunkOk c178 r178 := by intro v older; kernel_rfl
theorem k178 : r178.known = some t178 := by kernel_rfl
theorem n178 : t178.name = String.ofList ['C', 'o', 'n', 'f', 'i', 'r', 'm', 'E', 'n', 'a', 'b', 'l', 'e', 'S', 'i', 'm', 'u', 'l', 'a', 't', 'o', 'r'] := by kernel_rfl

/-- The names of the blocks and variables of `ConfirmEnableSimulator`. -/
def b178 : List (List Char × List (List Char)) :=
  [(['A', 'g', 'e', 'n', 't', 'D', 'a', 't', 'a'], [['A', 'g', 'e', 'n', 't', 'I', 'D'], ['S', 'e', 's', 's', 'i', 'o', 'n', 'I', 'D']])]

theorem w178 : Checked t178 := ⟨b178, by kernel_rfl, by kernel_rfl, by kernel_rfl⟩

/-- Lines of `message_template.msg` up to the end of `TransferRequest`. -/
def c179 : List (List Char) :=
  [chars! "",
   chars! "//-----------------------------------------------------------------------------",
   chars! "// New Transfer system",
   chars! "//-----------------------------------------------------------------------------",
   chars! "",
   chars! "// Request a new transfer (target->source)",
   chars! "{",
   chars! "\tTransferRequest Low 153 NotTrusted Zerocoded",
   chars! "\t{",
   chars! "\t\tTransferInfo\t\tSingle",
   chars! "\t\t{\tTransferID\t\tLLUUID\t}",
   chars! "\t\t{\tChannelType\t\tS32\t}",
   chars! "\t\t{\tSourceType\t\tS32\t}",
   chars! "\t\t{\tPriority\t\tF32\t}",
   chars! "\t\t{\tParams\t\t\tVariable\t2\t}",
   chars! "\t}",
   chars! "}"]

/-- `TransferRequest` as the parser creates it. -/
def r179 : RawTemplate :=
  ⟨"TransferRequest", .low, 153, [255, 255, 153], some .notTrusted, some .zerocoded, some .notDeprecated,
    [⟨"TransferInfo", .single, 0, [⟨"Params", some .variable, some 2⟩, ⟨"Priority", some .f32, some 4⟩, ⟨"SourceType", some .s32, some 4⟩, ⟨"ChannelType", some .s32, some 4⟩, ⟨"TransferID", some .uuid, some 16⟩]⟩]⟩

/-- `TransferRequest` in file order. -/
def t179 : Template :=
  ⟨"TransferRequest", .low, 153, [], some .notTrusted, some .zerocoded, some .notDeprecated,
    [⟨"TransferInfo", .single, 0, [⟨"TransferID", .uuid, 16⟩, ⟨"ChannelType", .s32, 4⟩, ⟨"SourceType", .s32, 4⟩, ⟨"Priority", .f32, 4⟩, ⟨"Params", .variable, 2⟩]⟩]⟩

theorem p179 : ChunkOk c179 r179 := by intro v older; kernel_rfl
theorem k179 : r179.known = some t179 := by kernel_rfl
theorem n179 : t179.name = String.ofList ['T', 'r', 'a', 'n', 's', 'f', 'e', 'r', 'R', 'e', 'q', 'u', 'e', 's', 't'] := by kernel_rfl

/-- The names of the blocks and variables of `TransferRequest`. -/
def b179 : List (List Char × List (List Char)) :=
  [(['T', 'r', 'a', 'n', 's', 'f', 'e', 'r', 'I', 'n', 'f', 'o'], [['T', 'r', 'a', 'n', 's', 'f', 'e', 'r', 'I', 'D'], ['C', 'h', 'a', 'n', 'n', 'e', 'l', 'T', 'y', 'p', 'e'], ['S', 'o', 'u', 'r', 'c', 'e', 'T', 'y', 'p', 'e'], ['P', 'r', 'i', 'o', 'r', 'i', 't', 'y'], ['P', 'a', 'r', 'a', 'm', 's']])]

theorem w179 : Checked t179 := ⟨b179, by kernel_rfl, by kernel_rfl, by kernel_rfl⟩

/-- Part 3 of the file. -/
def lines3 : List (List (List Char)) := [c120, c121, c122, c123, c124, c125, c126, c127, c128, c129, c130, c131, c132, c133, c134, c135, c136, c137, c138, c139, c140, c141, c142, c143, c144, c145, c146, c147, c148, c149, c150, c151, c152, c153, c154, c155, c156, c157, c158, c159, c160, c161, c162, c163, c164, c165, c166, c167, c168, c169, c170, c171, c172, c173, c174, c175, c176, c177, c178, c179]

/-- Part 3 of the templates, as parsed. -/
def raws3 : List RawTemplate := [r120, r121, r122, r123, r124, r125, r126, r127, r128, r129, r130, r131, r132, r133, r134, r135, r136, r137, r138, r139, r140, r141, r142, r143, r144, r145, r146, r147, r148, r149, r150, r151, r152, r153, r154, r155, r156, r157, r158, r159, r160, r161, r162, r163, r164, r165, r166, r167, r168, r169, r170, r171, r172, r173, r174, r175, r176, r177, r178, r179]

/-- Part 3 of the templates. -/
def templates3 : List Template := [t120, t121, t122, t123, t124, t125, t126, t127, t128, t129, t130, t131, t132, t133, t134, t135, t136, t137, t138, t139, t140, t141, t142, t143, t144, t145, t146, t147, t148, t149, t150, t151, t152, t153, t154, t155, t156, t157, t158, t159, t160, t161, t162, t163, t164, t165, t166, t167, t168, t169, t170, t171, t172, t173, t174, t175, t176, t177, t178, t179]

/-- The names in part 3. -/
def names3 : List (List Char) :=
  [['O', 'b', 'j', 'e', 'c', 't', 'S', 'a', 'l', 'e', 'I', 'n', 'f', 'o'],
   ['O', 'b', 'j', 'e', 'c', 't', 'N', 'a', 'm', 'e'],
   ['O', 'b', 'j', 'e', 'c', 't', 'D', 'e', 's', 'c', 'r', 'i', 'p', 't', 'i', 'o', 'n'],
   ['O', 'b', 'j', 'e', 'c', 't', 'C', 'a', 't', 'e', 'g', 'o', 'r', 'y'],
   ['O', 'b', 'j', 'e', 'c', 't', 'S', 'e', 'l', 'e', 'c', 't'],
   ['O', 'b', 'j', 'e', 'c', 't', 'D', 'e', 's', 'e', 'l', 'e', 'c', 't'],
   ['O', 'b', 'j', 'e', 'c', 't', 'A', 't', 't', 'a', 'c', 'h'],
   ['O', 'b', 'j', 'e', 'c', 't', 'D', 'e', 't', 'a', 'c', 'h'],
   ['O', 'b', 'j', 'e', 'c', 't', 'D', 'r', 'o', 'p'],
   ['O', 'b', 'j', 'e', 'c', 't', 'L', 'i', 'n', 'k'],
   ['O', 'b', 'j', 'e', 'c', 't', 'D', 'e', 'l', 'i', 'n', 'k'],
   ['O', 'b', 'j', 'e', 'c', 't', 'G', 'r', 'a', 'b'],
   ['O', 'b', 'j', 'e', 'c', 't', 'G', 'r', 'a', 'b', 'U', 'p', 'd', 'a', 't', 'e'],
   ['O', 'b', 'j', 'e', 'c', 't', 'D', 'e', 'G', 'r', 'a', 'b'],
   ['O', 'b', 'j', 'e', 'c', 't', 'S', 'p', 'i', 'n', 'S', 't', 'a', 'r', 't'],
   ['O', 'b', 'j', 'e', 'c', 't', 'S', 'p', 'i', 'n', 'U', 'p', 'd', 'a', 't', 'e'],
   ['O', 'b', 'j', 'e', 'c', 't', 'S', 'p', 'i', 'n', 'S', 't', 'o', 'p'],
   ['O', 'b', 'j', 'e', 'c', 't', 'E', 'x', 'p', 'o', 'r', 't', 'S', 'e', 'l', 'e', 'c', 't', 'e', 'd'],
   ['M', 'o', 'd', 'i', 'f', 'y', 'L', 'a', 'n', 'd'],
   ['V', 'e', 'l', 'o', 'c', 'i', 't', 'y', 'I', 'n', 't', 'e', 'r', 'p', 'o', 'l', 'a', 't', 'e', 'O', 'n'],
   ['V', 'e', 'l', 'o', 'c', 'i', 't', 'y', 'I', 'n', 't', 'e', 'r', 'p', 'o', 'l', 'a', 't', 'e', 'O', 'f', 'f'],
   ['S', 't', 'a', 't', 'e', 'S', 'a', 'v', 'e'],
   ['R', 'e', 'p', 'o', 'r', 't', 'A', 'u', 't', 'o', 's', 'a', 'v', 'e', 'C', 'r', 'a', 's', 'h'],
   ['S', 'i', 'm', 'W', 'i', 'd', 'e', 'D', 'e', 'l', 'e', 't', 'e', 's'],
   ['R', 'e', 'q', 'u', 'e', 's', 't', 'O', 'b', 'j', 'e', 'c', 't', 'P', 'r', 'o', 'p', 'e', 'r', 't', 'i', 'e', 's', 'F', 'a', 'm', 'i', 'l', 'y'],
   ['T', 'r', 'a', 'c', 'k', 'A', 'g', 'e', 'n', 't'],
   ['V', 'i', 'e', 'w', 'e', 'r', 'S', 't', 'a', 't', 's'],
   ['S', 'c', 'r', 'i', 'p', 't', 'A', 'n', 's', 'w', 'e', 'r', 'Y', 'e', 's'],
   ['U', 's', 'e', 'r', 'R', 'e', 'p', 'o', 'r', 't'],
   ['A', 'l', 'e', 'r', 't', 'M', 'e', 's', 's', 'a', 'g', 'e'],
   ['A', 'g', 'e', 'n', 't', 'A', 'l', 'e', 'r', 't', 'M', 'e', 's', 's', 'a', 'g', 'e'],
   ['M', 'e', 'a', 'n', 'C', 'o', 'l', 'l', 'i', 's', 'i', 'o', 'n', 'A', 'l', 'e', 'r', 't'],
   ['V', 'i', 'e', 'w', 'e', 'r', 'F', 'r', 'o', 'z', 'e', 'n', 'M', 'e', 's', 's', 'a', 'g', 'e'],
   ['H', 'e', 'a', 'l', 't', 'h', 'M', 'e', 's', 's', 'a', 'g', 'e'],
   ['C', 'h', 'a', 't', 'F', 'r', 'o', 'm', 'S', 'i', 'm', 'u', 'l', 'a', 't', 'o', 'r'],
   ['S', 'i', 'm', 'S', 't', 'a', 't', 's'],
   ['R', 'e', 'q', 'u', 'e', 's', 't', 'R', 'e', 'g', 'i', 'o', 'n', 'I', 'n', 'f', 'o'],
   ['R', 'e', 'g', 'i', 'o', 'n', 'I', 'n', 'f', 'o'],
   ['G', 'o', 'd', 'U', 'p', 'd', 'a', 't', 'e', 'R', 'e', 'g', 'i', 'o', 'n', 'I', 'n', 'f', 'o'],
   ['N', 'e', 'a', 'r', 'e', 's', 't', 'L', 'a', 'n', 'd', 'i', 'n', 'g', 'R', 'e', 'g', 'i', 'o', 'n', 'R', 'e', 'q', 'u', 'e', 's', 't'],
   ['N', 'e', 'a', 'r', 'e', 's', 't', 'L', 'a', 'n', 'd', 'i', 'n', 'g', 'R', 'e', 'g', 'i', 'o', 'n', 'R', 'e', 'p', 'l', 'y'],
   ['N', 'e', 'a', 'r', 'e', 's', 't', 'L', 'a', 'n', 'd', 'i', 'n', 'g', 'R', 'e', 'g', 'i', 'o', 'n', 'U', 'p', 'd', 'a', 't', 'e', 'd'],
   ['T', 'e', 'l', 'e', 'p', 'o', 'r', 't', 'L', 'a', 'n', 'd', 'i', 'n', 'g', 'S', 't', 'a', 't', 'u', 's', 'C', 'h', 'a', 'n', 'g', 'e', 'd'],
   ['R', 'e', 'g', 'i', 'o', 'n', 'H', 'a', 'n', 'd', 's', 'h', 'a', 'k', 'e'],
   ['R', 'e', 'g', 'i', 'o', 'n', 'H', 'a', 'n', 'd', 's', 'h', 'a', 'k', 'e', 'R', 'e', 'p', 'l', 'y'],
   ['C', 'o', 'a', 'r', 's', 'e', 'L', 'o', 'c', 'a', 't', 'i', 'o', 'n', 'U', 'p', 'd', 'a', 't', 'e'],
   ['I', 'm', 'a', 'g', 'e', 'D', 'a', 't', 'a'],
   ['I', 'm', 'a', 'g', 'e', 'P', 'a', 'c', 'k', 'e', 't'],
   ['L', 'a', 'y', 'e', 'r', 'D', 'a', 't', 'a'],
   ['O', 'b', 'j', 'e', 'c', 't', 'U', 'p', 'd', 'a', 't', 'e'],
   ['O', 'b', 'j', 'e', 'c', 't', 'U', 'p', 'd', 'a', 't', 'e', 'C', 'o', 'm', 'p', 'r', 'e', 's', 's', 'e', 'd'],
   ['O', 'b', 'j', 'e', 'c', 't', 'U', 'p', 'd', 'a', 't', 'e', 'C', 'a', 'c', 'h', 'e', 'd'],
   ['I', 'm', 'p', 'r', 'o', 'v', 'e', 'd', 'T', 'e', 'r', 's', 'e', 'O', 'b', 'j', 'e', 'c', 't', 'U', 'p', 'd', 'a', 't', 'e'],
   ['K', 'i', 'l', 'l', 'O', 'b', 'j', 'e', 'c', 't'],
   ['C', 'r', 'o', 's', 's', 'e', 'd', 'R', 'e', 'g', 'i', 'o', 'n'],
   ['S', 'i', 'm', 'u', 'l', 'a', 't', 'o', 'r', 'V', 'i', 'e', 'w', 'e', 'r', 'T', 'i', 'm', 'e', 'M', 'e', 's', 's', 'a', 'g', 'e'],
   ['E', 'n', 'a', 'b', 'l', 'e', 'S', 'i', 'm', 'u', 'l', 'a', 't', 'o', 'r'],
   ['D', 'i', 's', 'a', 'b', 'l', 'e', 'S', 'i', 'm', 'u', 'l', 'a', 't', 'o', 'r'],
   ['C', 'o', 'n', 'f', 'i', 'r', 'm', 'E', 'n', 'a', 'b', 'l', 'e', 'S', 'i', 'm', 'u', 'l', 'a', 't', 'o', 'r'],
   ['T', 'r', 'a', 'n', 's', 'f', 'e', 'r', 'R', 'e', 'q', 'u', 'e', 's', 't']]

theorem parsed3 : List.Forall₂ ChunkOk lines3 raws3 :=
  (.cons p120 (.cons p121 (.cons p122 (.cons p123 (.cons p124 (.cons p125 (.cons p126 (.cons p127 (.cons p128 (.cons p129 (.cons p130 (.cons p131 (.cons p132 (.cons p133 (.cons p134 (.cons p135 (.cons p136 (.cons p137 (.cons p138 (.cons p139 (.cons p140 (.cons p141 (.cons p142 (.cons p143 (.cons p144 (.cons p145 (.cons p146 (.cons p147 (.cons p148 (.cons p149 (.cons p150 (.cons p151 (.cons p152 (.cons p153 (.cons p154 (.cons p155 (.cons p156 (.cons p157 (.cons p158 (.cons p159 (.cons p160 (.cons p161 (.cons p162 (.cons p163 (.cons p164 (.cons p165 (.cons p166 (.cons p167 (.cons p168 (.cons p169 (.cons p170 (.cons p171 (.cons p172 (.cons p173 (.cons p174 (.cons p175 (.cons p176 (.cons p177 (.cons p178 (.cons p179 .nil))))))))))))))))))))))))))))))))))))))))))))))))))))))))))))

theorem known3 : List.Forall₂ (fun r t => RawTemplate.known r = some t) raws3 templates3 :=
  (.cons k120 (.cons k121 (.cons k122 (.cons k123 (.cons k124 (.cons k125 (.cons k126 (.cons k127 (.cons k128 (.cons k129 (.cons k130 (.cons k131 (.cons k132 (.cons k133 (.cons k134 (.cons k135 (.cons k136 (.cons k137 (.cons k138 (.cons k139 (.cons k140 (.cons k141 (.cons k142 (.cons k143 (.cons k144 (.cons k145 (.cons k146 (.cons k147 (.cons k148 (.cons k149 (.cons k150 (.cons k151 (.cons k152 (.cons k153 (.cons k154 (.cons k155 (.cons k156 (.cons k157 (.cons k158 (.cons k159 (.cons k160 (.cons k161 (.cons k162 (.cons k163 (.cons k164 (.cons k165 (.cons k166 (.cons k167 (.cons k168 (.cons k169 (.cons k170 (.cons k171 (.cons k172 (.cons k173 (.cons k174 (.cons k175 (.cons k176 (.cons k177 (.cons k178 (.cons k179 .nil))))))))))))))))))))))))))))))))))))))))))))))))))))))))))))

theorem named3 : List.Forall₂ (fun (t : Template) w => t.name = String.ofList w) templates3 names3 :=
  (.cons n120 (.cons n121 (.cons n122 (.cons n123 (.cons n124 (.cons n125 (.cons n126 (.cons n127 (.cons n128 (.cons n129 (.cons n130 (.cons n131 (.cons n132 (.cons n133 (.cons n134 (.cons n135 (.cons n136 (.cons n137 (.cons n138 (.cons n139 (.cons n140 (.cons n141 (.cons n142 (.cons n143 (.cons n144 (.cons n145 (.cons n146 (.cons n147 (.cons n148 (.cons n149 (.cons n150 (.cons n151 (.cons n152 (.cons n153 (.cons n154 (.cons n155 (.cons n156 (.cons n157 (.cons n158 (.cons n159 (.cons n160 (.cons n161 (.cons n162 (.cons n163 (.cons n164 (.cons n165 (.cons n166 (.cons n167 (.cons n168 (.cons n169 (.cons n170 (.cons n171 (.cons n172 (.cons n173 (.cons n174 (.cons n175 (.cons n176 (.cons n177 (.cons n178 (.cons n179 .nil))))))))))))))))))))))))))))))))))))))))))))))))))))))))))))

theorem checked3 : ∀ t ∈ templates3, Checked t :=
  (List.forall_mem_cons.mpr ⟨w120, (List.forall_mem_cons.mpr ⟨w121, (List.forall_mem_cons.mpr ⟨w122, (List.forall_mem_cons.mpr ⟨w123, (List.forall_mem_cons.mpr ⟨w124, (List.forall_mem_cons.mpr ⟨w125, (List.forall_mem_cons.mpr ⟨w126, (List.forall_mem_cons.mpr ⟨w127, (List.forall_mem_cons.mpr ⟨w128, (List.forall_mem_cons.mpr ⟨w129, (List.forall_mem_cons.mpr ⟨w130, (List.forall_mem_cons.mpr ⟨w131, (List.forall_mem_cons.mpr ⟨w132, (List.forall_mem_cons.mpr ⟨w133, (List.forall_mem_cons.mpr ⟨w134, (List.forall_mem_cons.mpr ⟨w135, (List.forall_mem_cons.mpr ⟨w136, (List.forall_mem_cons.mpr ⟨w137, (List.forall_mem_cons.mpr ⟨w138, (List.forall_mem_cons.mpr ⟨w139, (List.forall_mem_cons.mpr ⟨w140, (List.forall_mem_cons.mpr ⟨w141, (List.forall_mem_cons.mpr ⟨w142, (List.forall_mem_cons.mpr ⟨w143, (List.forall_mem_cons.mpr ⟨w144, (List.forall_mem_cons.mpr ⟨w145, (List.forall_mem_cons.mpr ⟨w146, (List.forall_mem_cons.mpr ⟨w147, (List.forall_mem_cons.mpr ⟨w148, (List.forall_mem_cons.mpr ⟨w149, (List.forall_mem_cons.mpr ⟨w150, (List.forall_mem_cons.mpr ⟨w151, (List.forall_mem_cons.mpr ⟨w152, (List.forall_mem_cons.mpr ⟨w153, (List.forall_mem_cons.mpr ⟨w154, (List.forall_mem_cons.mpr ⟨w155, (List.forall_mem_cons.mpr ⟨w156, (List.forall_mem_cons.mpr ⟨w157, (List.forall_mem_cons.mpr ⟨w158, (List.forall_mem_cons.mpr ⟨w159, (List.forall_mem_cons.mpr ⟨w160, (List.forall_mem_cons.mpr ⟨w161, (List.forall_mem_cons.mpr ⟨w162, (List.forall_mem_cons.mpr ⟨w163, (List.forall_mem_cons.mpr ⟨w164, (List.forall_mem_cons.mpr ⟨w165, (List.forall_mem_cons.mpr ⟨w166, (List.forall_mem_cons.mpr ⟨w167, (List.forall_mem_cons.mpr ⟨w168, (List.forall_mem_cons.mpr ⟨w169, (List.forall_mem_cons.mpr ⟨w170, (List.forall_mem_cons.mpr ⟨w171, (List.forall_mem_cons.mpr ⟨w172, (List.forall_mem_cons.mpr ⟨w173, (List.forall_mem_cons.mpr ⟨w174, (List.forall_mem_cons.mpr ⟨w175, (List.forall_mem_cons.mpr ⟨w176, (List.forall_mem_cons.mpr ⟨w177, (List.forall_mem_cons.mpr ⟨w178, (List.forall_mem_cons.mpr ⟨w179, (List.forall_mem_nil _)⟩)⟩)⟩)⟩)⟩)⟩)⟩)⟩)⟩)⟩)⟩)⟩)⟩)⟩)⟩)⟩)⟩)⟩)⟩)⟩)⟩)⟩)⟩)⟩)⟩)⟩)⟩)⟩)⟩)⟩)⟩)⟩)⟩)⟩)⟩)⟩)⟩)⟩)⟩)⟩)⟩)⟩)⟩)⟩)⟩)⟩)⟩)⟩)⟩)⟩)⟩)⟩)⟩)⟩)⟩)⟩)⟩)⟩)⟩)⟩)

end Pyogp.Embedded
